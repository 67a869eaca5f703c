import Verif.SCipher.Lemmas

/-! # RCS and RWS: one parallel block after the other -/

namespace Cex.SCipher
open Cex Cex.Par Cex.IntTools Cex.Modes Cex.SCipher.Spec

variable {C : Core} {Valid : C.κ → Prop} {cnt : C.κ → Nat → C.κ} {fits : C.κ → Nat → Prop}

/-- The parallel block size is a non-zero multiple of `degree * B`; the gate in `Initialize` checks it (C19). -/
def Prof.Cuts (p : Prof) (B : Nat) : Prop := p.isParallel = true → p.degree ≠ 0 ∧ p.blockSize ≠ 0 ∧ B * p.degree ∣ p.blockSize

theorem Prof.Cuts.split {p : Prof} {B : Nat} (h : p.Cuts B) (hp : p.isParallel = true) :
    ∃ m, p.degree ≠ 0 ∧ p.blockSize ≠ 0 ∧ p.blockSize / p.degree = m * B ∧ p.blockSize = p.degree * (m * B) ∧
      p.blockSize = p.degree * m * B := by
  obtain ⟨h1, h2, m, h3⟩ := h hp
  have e : p.blockSize = m * B * p.degree := by rw [h3, Nat.mul_comm B, Nat.mul_comm _ m, Nat.mul_assoc, Nat.mul_comm B]
  refine ⟨m, h1, h2, ?_, ?_, ?_⟩
  · rw [e, Nat.mul_div_cancel _ (by omega)]
  · rw [e, Nat.mul_comm]
  · rw [e, Nat.mul_comm (m * B), Nat.mul_assoc]

/-- Enough turns for every task of every parallel block. -/
def BlocksFair (p : Prof) (B W len : Nat) (scheds : Nat → List Nat) : Prop :=
  p.isParallel = true → ∀ i, i < len / p.blockSize → Covers p.degree (turns B W (p.blockSize / p.degree)) (scheds i)

/-- All offset computations of a message of `len` bytes are right. -/
def BlocksFits (C : Core) (fits : C.κ → Nat → Prop) (cnt : C.κ → Nat → C.κ) (p : Prof) (nonce : C.κ) (len : Nat) : Prop :=
  p.isParallel = true → ∀ t i, t < len / p.blockSize → i < p.degree →
    fits (cnt nonce (t * (p.blockSize / C.B))) (p.blockSize / p.degree / C.B * i)

theorem wsub_le {a b : Nat} (h : b ≤ a) : wsub a b = a - b := by rw [wsub, if_pos h]

theorem parallelBlock_ok (L : Laws C Valid cnt fits) (W : Nat) (p : Prof) (m : Nat) (hd : p.degree ≠ 0)
    (hs : p.blockSize / p.degree = m * C.B) (hb : p.blockSize = p.degree * (m * C.B)) {nonce : C.κ} (hv : Valid nonce)
    (inp msg : List Byte) (io oo : Nat) (hin : Holds inp io msg) (hm : msg.length = p.blockSize) (pre junk post : List Byte)
    (hp : pre.length = oo) (hj : junk.length = msg.length) (hf : ∀ i, i < p.degree → fits nonce (m * i)) (sched : List Nat)
    (hsc : Covers p.degree (turns C.B W (m * C.B)) sched) :
    parallelBlock C W p sched nonce inp io (pre ++ junk ++ post) oo p.blockSize =
      .ok (cnt nonce (blocksFor C.B msg.length),
        pre ++ xorBytes (keystream (fun j => C.block (cnt nonce j)) C.B msg.length) msg ++ post) := by
  obtain ⟨ts, t1, t2⟩ := tasks_ok L W p.degree m hd hv inp msg io hin (by omega) pre junk post oo hp hj hf sched hsc
  have hol : ¬ m * C.B * p.degree < (if wsub (pre ++ junk ++ post).length oo < p.blockSize then wsub (pre ++ junk ++ post).length oo
      else p.blockSize) := by
    have e : m * C.B * p.degree = p.blockSize := by rw [hb, Nat.mul_comm]
    rw [e]
    split <;> omega
  rw [parallelBlock]
  simp only [if_neg hd, hs, t1, ok_bind, t2, remainder, if_neg hol, pure_eq_ok]

theorem processBlocks_ok (L : Laws C Valid cnt fits) (W : Nat) (p : Prof) (hc : p.Cuts C.B) {nonce : C.κ} (hv : Valid nonce)
    (inp msg : List Byte) (io oo : Nat) (hin : Holds inp io msg) (pre junk post : List Byte) (hp : pre.length = oo)
    (hj : junk.length = msg.length) (hf : BlocksFits C fits cnt p nonce msg.length) (scheds : Nat → List Nat)
    (hsc : BlocksFair p C.B W msg.length scheds) :
    processBlocks C W p scheds nonce inp io (pre ++ junk ++ post) oo msg.length =
      .ok (cnt nonce (blocksFor C.B msg.length),
        pre ++ xorBytes (keystream (fun j => C.block (cnt nonce j)) C.B msg.length) msg ++ post) := by
  rw [processBlocks]
  split
  · rename_i hpar
    obtain ⟨m, hd, hb0, hs, hb, hb'⟩ := hc.split hpar.1
    have hf := hf hpar.1
    have hsc := hsc hpar.1
    have hB := L.pos
    rw [hs] at hsc
    rw [hs, Nat.mul_div_cancel _ hB] at hf
    have hbB : p.blockSize / C.B = p.degree * m := by rw [hb', Nat.mul_div_cancel _ hB]
    rw [hbB] at hf
    rw [if_neg hb0]
    generalize hcnt : msg.length / p.blockSize = n at *
    have hle : n * p.blockSize ≤ msg.length := by rw [← hcnt]; exact Nat.div_mul_le_self _ _
    generalize hM : p.degree * m = M at *
    have hloop : ∃ s, loopN n 0 (fun i (s : C.κ × List Byte) =>
        parallelBlock C W p (scheds i) s.1 inp (io + i * p.blockSize) s.2 (oo + i * p.blockSize) p.blockSize)
          (nonce, pre ++ junk ++ post) = .ok s ∧
        s = (cnt nonce (n * M), pre ++ xorBytes (ksb C cnt nonce (n * M)) (msg.take (n * p.blockSize)) ++
          (junk.drop (n * p.blockSize) ++ post)) := by
      have := loopN_inv (f := fun i (s : C.κ × List Byte) =>
        parallelBlock C W p (scheds i) s.1 inp (io + i * p.blockSize) s.2 (oo + i * p.blockSize) p.blockSize)
        (fun t s => s = (cnt nonce (t * M), pre ++ xorBytes (ksb C cnt nonce (t * M)) (msg.take (t * p.blockSize)) ++
          (junk.drop (t * p.blockSize) ++ post))) n 0 (nonce, pre ++ junk ++ post) (by
        rintro t s _ ht rfl
        have ht : t < n := by omega
        have h3 := mul_le_of_lt ht hle
        rw [Nat.succ_mul] at h3
        have hml : ((msg.drop (t * p.blockSize)).take p.blockSize).length = p.blockSize := by
          rw [List.length_take, List.length_drop]; omega
        have hjl : ((junk.drop (t * p.blockSize)).take p.blockSize).length = p.blockSize := by
          rw [List.length_take, List.length_drop]; omega
        have hksl := ksb_length L hv (t * M)
        have htM : t * M * C.B = t * p.blockSize := by rw [hb', Nat.mul_assoc]
        have hxl : (xorBytes (ksb C cnt nonce (t * M)) (msg.take (t * p.blockSize))).length = t * p.blockSize := by
          rw [xorBytes_length, hksl, List.length_take, htM]; omega
        have hin1 : Holds inp (io + t * p.blockSize) ((msg.drop (t * p.blockSize)).take p.blockSize) :=
          holds_take (holds_drop hin (by omega)) _
        have hvt := L.valid hv (t * M)
        have hpb := parallelBlock_ok L W p m hd hs hb hvt inp
          ((msg.drop (t * p.blockSize)).take p.blockSize) (io + t * p.blockSize) (oo + t * p.blockSize) hin1 hml
          (pre ++ xorBytes (ksb C cnt nonce (t * M)) (msg.take (t * p.blockSize)))
          ((junk.drop (t * p.blockSize)).take p.blockSize) ((junk.drop (t * p.blockSize)).drop p.blockSize ++ post)
          (by rw [List.length_append, hp, hxl]) (by rw [hjl, hml]) (fun i hi => hf t i ht hi) (scheds t) (hsc t ht)
        rw [hml, hb', keystream_blocks L hvt, blocksFor_mul hB, ← hb', L.add hv] at hpb
        refine ⟨(cnt nonce ((t + 1) * M), pre ++ xorBytes (ksb C cnt nonce ((t + 1) * M)) (msg.take ((t + 1) * p.blockSize)) ++
          (junk.drop ((t + 1) * p.blockSize) ++ post)), ?_, rfl⟩
        have e1 : pre ++ xorBytes (ksb C cnt nonce (t * M)) (msg.take (t * p.blockSize)) ++
            (junk.drop (t * p.blockSize) ++ post) =
            pre ++ xorBytes (ksb C cnt nonce (t * M)) (msg.take (t * p.blockSize)) ++
              (junk.drop (t * p.blockSize)).take p.blockSize ++ ((junk.drop (t * p.blockSize)).drop p.blockSize ++ post) := by
          simp only [List.append_assoc, List.append_cancel_left_eq]
          rw [← List.append_assoc, List.take_append_drop]
        simp only []
        rw [e1, hpb, Nat.succ_mul, Nat.succ_mul, ksb_add L hv, List.take_add, xorBytes_append, List.drop_drop]
        · simp only [List.append_assoc]
        · rw [hksl, List.length_take, htM]; omega)
        (by simp [ksb, xorBytes, L.zero hv])
      simpa using this
    obtain ⟨s, hl1, rfl⟩ := hloop
    simp only [hl1, ok_bind]
    have hM16 : n * M * C.B = n * p.blockSize := by rw [hb', Nat.mul_assoc]
    have hks := ks_append L hv msg (n * M) (by omega)
    rw [hM16] at hks
    have hkb := keystream_blocks L hv (n * M)
    rw [hM16] at hkb
    rw [hks, hkb]
    have hlen : msg.length = n * M * C.B + (msg.length - n * p.blockSize) := by omega
    have hbf : blocksFor C.B msg.length = n * M + blocksFor C.B (msg.length - n * p.blockSize) := by
      have := blocksFor_add hB (n * M) (msg.length - n * p.blockSize)
      rw [← hlen] at this; exact this
    rw [Nat.mul_comm p.blockSize n]
    by_cases h0 : msg.length - n * p.blockSize ≠ 0
    · rw [if_pos h0]
      have hxl : (xorBytes (ksb C cnt nonce (n * M)) (msg.take (n * p.blockSize))).length = n * p.blockSize := by
        rw [xorBytes_length, ksb_length L hv, List.length_take, hM16]; omega
      have hsq := sequential_ok L W (L.valid hv (n * M)) inp (msg.drop (n * p.blockSize)) (io + n * p.blockSize) (oo + n * p.blockSize)
        (holds_drop hin hle) (pre ++ xorBytes (ksb C cnt nonce (n * M)) (msg.take (n * p.blockSize))) (junk.drop (n * p.blockSize)) post
        (by rw [List.length_append, hp, hxl]) (by rw [List.length_drop, List.length_drop, hj])
      rw [List.length_drop, L.add hv, ← hbf] at hsq
      simp only [List.append_assoc] at hsq ⊢
      exact hsq
    · rw [if_neg h0]
      have h0 : msg.length - n * p.blockSize = 0 := by omega
      have e1 : msg.drop (n * p.blockSize) = [] := List.drop_of_length_le (by omega)
      have e2 : junk.drop (n * p.blockSize) = [] := List.drop_of_length_le (by omega)
      have e3 : blocksFor C.B 0 = 0 := by
        have := blocksFor_mul hB 0; rwa [Nat.zero_mul] at this
      rw [hbf, h0, e1, e2, e3]
      simp [xorBytes, pure_eq_ok]
  · exact sequential_ok L W hv inp msg io oo hin pre junk post hp hj

/-! ## The two counters -/

theorem pairVal_lt {w : Nat} (c : BitVec w × BitVec w) : pairVal c < 2 ^ w * 2 ^ w := by
  have h1 := c.1.isLt
  have h2 := c.2.isLt
  have : 2 ^ w * (c.2.toNat + 1) ≤ 2 ^ w * 2 ^ w := Nat.mul_le_mul_left _ h2
  rw [Nat.mul_succ] at this
  rw [pairVal]; omega

theorem pairVal_div {w : Nat} (c : BitVec w × BitVec w) : pairVal c / 2 ^ w = c.2.toNat ∧ pairVal c % 2 ^ w = c.1.toNat := by
  have h1 := c.1.isLt
  constructor
  · rw [pairVal, Nat.add_mul_div_left _ _ (Nat.two_pow_pos w), Nat.div_eq_of_lt h1, Nat.zero_add]
  · rw [pairVal, Nat.add_mul_mod_self_left, Nat.mod_eq_of_lt h1]

theorem pairOf_val {w : Nat} (c : BitVec w × BitVec w) : pairOf w (pairVal c) = c := by
  obtain ⟨h1, h2⟩ := pairVal_div c
  rw [pairOf, h1]
  refine Prod.ext (BitVec.eq_of_toNat_eq ?_) (BitVec.eq_of_toNat_eq ?_)
  · simp only [BitVec.toNat_ofNat]; exact h2
  · simp only [BitVec.toNat_ofNat]; exact Nat.mod_eq_of_lt c.2.isLt

theorem pairVal_of (w n : Nat) : pairVal (pairOf w n) = n % (2 ^ w * 2 ^ w) := by
  rw [pairVal, pairOf]
  simp only [BitVec.toNat_ofNat]
  rw [Nat.mod_mul]

theorem pairOf_mod (w n : Nat) : pairOf w (n % (2 ^ w * 2 ^ w)) = pairOf w n := by
  rw [← pairVal_of, pairOf_val]

theorem pairCnt_zero {w : Nat} (c : BitVec w × BitVec w) : pairCnt c 0 = c := pairOf_val c

theorem pairCnt_add {w : Nat} (c : BitVec w × BitVec w) (i j : Nat) : pairCnt (pairCnt c i) j = pairCnt c (i + j) := by
  rw [pairCnt, pairCnt, pairCnt, pairVal_of, ← pairOf_mod, Nat.mod_add_mod, pairOf_mod, Nat.add_assoc]

/-- Adding `n < 2^w` to the low word with a carry into the high word. -/
theorem pair_carry {w : Nat} (c : BitVec w × BitVec w) (n : Nat) (hn : n < 2 ^ w) :
    pairCnt c n = (c.1 + BitVec.ofNat w n, if 2 ^ w ≤ c.1.toNat + n then c.2 + 1 else c.2) := by
  have h1 := c.1.isLt
  have e : pairVal c + n = (c.1.toNat + n) + 2 ^ w * c.2.toNat := by rw [pairVal]; omega
  refine Prod.ext (BitVec.eq_of_toNat_eq ?_) (BitVec.eq_of_toNat_eq ?_)
  · simp only [pairCnt, pairOf, BitVec.toNat_ofNat, BitVec.toNat_add, e, Nat.add_mul_mod_self_left]
    rw [Nat.mod_eq_of_lt hn]
  · simp only [pairCnt, pairOf, BitVec.toNat_ofNat, e]
    rw [Nat.add_mul_div_left _ _ (Nat.two_pow_pos w)]
    split
    · rename_i hc
      have : (c.1.toNat + n) / 2 ^ w = 1 := Nat.div_eq_of_lt_le (by omega) (by omega)
      rw [this, BitVec.toNat_add, Nat.add_comm]
      cases w with
      | zero => simp [Nat.mod_one]
      | succ w => rw [show (1 : BitVec (w + 1)).toNat = 1 by
          rw [show (1 : BitVec (w + 1)) = 1#(w + 1) from rfl, BitVec.toNat_ofNat]; exact Nat.mod_eq_of_lt (Nat.one_lt_two_pow (by omega))]
    · rename_i hc
      rw [Nat.div_eq_of_lt (by omega), Nat.zero_add, Nat.mod_eq_of_lt c.2.isLt]

theorem incPair_eq {w : Nat} (hw : 0 < w) (c : BitVec w × BitVec w) : incPair c = pairCnt c 1 := by
  have h1 := c.1.isLt
  have h2 : 1 < 2 ^ w := Nat.one_lt_two_pow (by omega)
  rw [pair_carry c 1 h2, incPair]
  have ez : c.1 + 1 = 0 ↔ 2 ^ w ≤ c.1.toNat + 1 := by
    have ht : (c.1 + 1).toNat = (c.1.toNat + 1) % 2 ^ w := by
      rw [BitVec.toNat_add, show (1 : BitVec w) = 1#w from rfl, BitVec.toNat_ofNat, Nat.mod_eq_of_lt h2]
    constructor
    · intro h
      rw [h] at ht
      rcases Nat.lt_or_ge (c.1.toNat + 1) (2 ^ w) with h3 | h3
      · rw [Nat.mod_eq_of_lt h3] at ht; simp at ht
      · exact h3
    · intro h
      have : c.1.toNat + 1 = 2 ^ w := by omega
      apply BitVec.eq_of_toNat_eq
      rw [ht, this, Nat.mod_self]; simp
  by_cases h : c.1 + 1 = 0
  · rw [if_pos h, if_pos (ez.mp h)]; rfl
  · rw [if_neg h, if_neg (fun hh => h (ez.mpr hh))]; rfl

theorem jumpPair_eq {w : Nat} (c : BitVec w × BitVec w) (n : Nat) (hn : n < 2 ^ w) : jumpPair c n = pairCnt c n := by
  have h1 := c.1.isLt
  rw [pair_carry c n hn, jumpPair]
  have ht : (c.1 + BitVec.ofNat w n).toNat = (c.1.toNat + n) % 2 ^ w := by
    rw [BitVec.toNat_add, BitVec.toNat_ofNat, Nat.mod_eq_of_lt hn]
  have ez : c.1 + BitVec.ofNat w n < c.1 ↔ 2 ^ w ≤ c.1.toNat + n := by
    rw [BitVec.lt_def, ht]
    rcases Nat.lt_or_ge (c.1.toNat + n) (2 ^ w) with h3 | h3
    · rw [Nat.mod_eq_of_lt h3]; omega
    · rw [Nat.mod_eq_sub_mod h3, Nat.mod_eq_of_lt (by omega)]; omega
  by_cases h : c.1 + BitVec.ofNat w n < c.1
  · rw [if_pos h, if_pos (ez.mp h)]
  · rw [if_neg h, if_neg (fun hh => h (ez.mpr hh))]

/-- The counters of ChaChaP20, CSX512 and TSX. -/
theorem pairLaws {w B : Nat} (hw : 0 < w) (hB : 0 < B) (block : BitVec w × BitVec w → List Byte)
    (wide : List (BitVec w × BitVec w) → List Byte) (hl : ∀ c, (block c).length = B) (hwd : ∀ cs, wide cs = (cs.map block).flatten) :
    Laws (pairCore w B block wide) (fun _ => True) pairCnt (fun _ n => n < 2 ^ w) where
  pos := hB
  valid := fun _ _ => trivial
  zero := fun _ => pairCnt_zero _
  add := fun _ i j => pairCnt_add _ i j
  inc := fun _ => congrArg Except.ok (incPair_eq hw _)
  jump := fun _ h => congrArg Except.ok (jumpPair_eq _ _ h)
  len := fun _ => hl _
  wide := fun cs _ => hwd cs

/-- The counters of RCS and RWS: the offset computation runs over the whole array and loses some carries,
the increment counts in 16 bytes. -/
def byteFits (B : Nat) (c : List Byte) (n : Nat) : Prop :=
  n < 2 ^ 32 ∧ leVal (c.take 16) + n < 256 ^ 16 ∧ ¬ CarryMeetsFF B (leVal c) n

theorem leVal_split (c : List Byte) : leVal c = leVal (c.take 16) + 256 ^ (c.take 16).length * leVal (c.drop 16) := by
  rw [← leVal_append, List.take_append_drop]

theorem byteCnt_length {B : Nat} (hB : 16 ≤ B) {c : List Byte} (h : c.length = B) (j : Nat) : (byteCnt c j).length = B := by
  rw [byteCnt, List.length_append, leEnc_length, List.length_drop]; omega

theorem byteCnt_zero {B : Nat} (hB : 16 ≤ B) {c : List Byte} (h : c.length = B) : byteCnt c 0 = c := by
  have h16 : (c.take 16).length = 16 := by rw [List.length_take]; omega
  rw [byteCnt, Nat.add_zero]
  have := leEnc_leVal (c.take 16)
  rw [h16] at this
  rw [this, List.take_append_drop]

theorem byteCnt_add (c : List Byte) (i j : Nat) : byteCnt (byteCnt c i) j = byteCnt c (i + j) := by
  have e : (leEnc 16 (leVal (c.take 16) + i)).length = 16 := leEnc_length _ _
  rw [byteCnt, byteCnt, byteCnt]
  have ht : (leEnc 16 (leVal (c.take 16) + i) ++ c.drop 16).take 16 = leEnc 16 (leVal (c.take 16) + i) := by
    rw [List.take_append_of_le_length (by omega), List.take_of_length_le (by omega)]
  have hd : (leEnc 16 (leVal (c.take 16) + i) ++ c.drop 16).drop 16 = c.drop 16 := by
    rw [List.drop_append, e, List.drop_of_length_le (by omega)]; simp
  rw [ht, hd, leVal_leEnc, ← leEnc_mod, Nat.mod_add_mod, leEnc_mod, Nat.add_assoc]

theorem byteCnt_inc {B : Nat} (hB : 16 ≤ B) {c : List Byte} (h : c.length = B) : leIncrementLen c 16 = .ok (byteCnt c 1) := by
  have h16 : (c.take 16).length = 16 := by rw [List.length_take]; omega
  obtain ⟨x, h1, h2, h3⟩ := C02_le_increment (c.take 16) (c.drop 16)
  rw [List.take_append_drop, h16] at h1
  rw [h16] at h2 h3
  rw [h1, byteCnt, eq_leEnc h2 h3]

theorem byteCnt_jump {B : Nat} (hB : 16 ≤ B) {c : List Byte} {n : Nat} (h : c.length = B) (hf : byteFits B c n) :
    leIncrease8 4 c (List.replicate B 0) 0 (BitVec.ofNat 32 n) = .ok (byteCnt c n) := by
  obtain ⟨f1, f2, f3⟩ := hf
  have hn : (BitVec.ofNat 32 n).toNat = n := by rw [BitVec.toNat_ofNat, Nat.mod_eq_of_lt f1]
  obtain ⟨x, h1, h2, h3⟩ := C03_le_increase_partial 4 (Nat.le_refl 32) (BitVec.ofNat 32 n) c [] (List.replicate B 0) [] (by simp [h])
  simp only [List.nil_append, List.append_nil, List.length_nil] at h1
  rw [hn, h] at h3
  rw [h] at h2
  have h3 := h3.mpr f3
  have h16 : (c.take 16).length = 16 := by rw [List.length_take]; omega
  have hxe : x = byteCnt c n := by
    apply leVal_inj (by rw [h2, byteCnt_length hB h])
    have a1 := leVal_split c
    rw [h16] at a1
    have hlt : leVal c + n < 256 ^ B := by
      have a2 := leVal_lt (c.drop 16)
      rw [List.length_drop, h] at a2
      have a3 : 256 ^ 16 * (leVal (c.drop 16) + 1) ≤ 256 ^ 16 * 256 ^ (B - 16) := Nat.mul_le_mul_left _ a2
      rw [← Nat.pow_add, show 16 + (B - 16) = B by omega, Nat.mul_succ] at a3
      omega
    rw [h3, Nat.mod_eq_of_lt hlt, byteCnt, leVal_append, leEnc_length, leVal_leEnc, Nat.mod_eq_of_lt f2]
    omega
  rw [h1, hxe]

theorem byteLaws {B : Nat} (hB : 16 ≤ B) (block : List Byte → List Byte) (wide : List (List Byte) → List Byte)
    (hl : ∀ c, c.length = B → (block c).length = B) (hwd : ∀ cs, (∀ c ∈ cs, c.length = B) → wide cs = (cs.map block).flatten) :
    Laws (byteCore B block wide) (fun c : List Byte => c.length = B) byteCnt (byteFits B) where
  pos := by show 0 < B; omega
  valid := fun h j => byteCnt_length hB h j
  zero := fun h => byteCnt_zero hB h
  add := fun _ i j => byteCnt_add _ i j
  inc := fun h => byteCnt_inc hB h
  jump := fun h hf => byteCnt_jump hB h hf
  len := fun h => hl _ h
  wide := fun cs h => hwd cs h

end Cex.SCipher
