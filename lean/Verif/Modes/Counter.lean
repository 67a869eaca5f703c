import Verif.Modes.Feedback
import Verif.IntTools.Enc

/-! # CTR and ICM engines -/

namespace Cex.Modes
open Cex Cex.Par Cex.IntTools Cex.Modes.Spec

/-- The value of a counter block. -/
def Kind.val : Kind → List Byte → Nat
  | .ctr => beVal
  | .icm => leVal

/-- The `j`-th counter block after `nonce`. -/
def Kind.cnt : Kind → List Byte → Nat → List Byte
  | .ctr => beCounter
  | .icm => leCounter

theorem cnt_length (k : Kind) (n : List Byte) (j : Nat) : (k.cnt n j).length = 16 := by
  cases k <;> simp [Kind.cnt, beCounter, leCounter]

theorem cnt_zero (k : Kind) {n : List Byte} (h : n.length = 16) : k.cnt n 0 = n := by
  cases k
  · simp only [Kind.cnt, beCounter, Nat.add_zero]; rw [← h, beEnc_beVal]
  · simp only [Kind.cnt, leCounter, Nat.add_zero]; rw [← h, leEnc_leVal]

theorem cnt_add (k : Kind) (n : List Byte) (i j : Nat) : k.cnt (k.cnt n i) j = k.cnt n (i + j) := by
  cases k
  · simp only [Kind.cnt, beCounter, beVal_beEnc]
    rw [← beEnc_mod, Nat.mod_add_mod, beEnc_mod, Nat.add_assoc]
  · simp only [Kind.cnt, leCounter, leVal_leEnc]
    rw [← leEnc_mod, Nat.mod_add_mod, leEnc_mod, Nat.add_assoc]

theorem val_cnt (k : Kind) (n : List Byte) (i : Nat) : k.val (k.cnt n i) = (k.val n + i) % 256 ^ 16 := by
  cases k
  · exact beVal_beEnc _ _
  · exact leVal_leEnc _ _

theorem inc_ok (k : Kind) {n : List Byte} (h : n.length = 16) : k.inc n = .ok (k.cnt n 1) := by
  cases k
  · obtain ⟨c, h1, h2, h3⟩ := C02_be_increment n (by intro e; rw [e] at h; cases h)
    simp only [Kind.inc, h1, Kind.cnt, beCounter]
    rw [h] at h2 h3
    rw [eq_beEnc h2 h3]
  · obtain ⟨c, h1, h2, h3⟩ := C02_le_increment n []
    simp only [leIncrementLen, List.append_nil] at h1
    simp only [Kind.inc, leIncrement, h1, Kind.cnt, leCounter]
    rw [h] at h2 h3
    rw [eq_leEnc h2 h3]

/-- The offset computation of a parallel task is right when it fits the cast and no carry is lost. -/
def Kind.fits : Kind → Nat → Prop
  | .ctr, n => n < 2 ^ 32
  | .icm, n => n < 2 ^ 64

theorem jump_ok (k : Kind) {n : List Byte} (h : n.length = 16) (a : Nat) (hf : k.fits a)
    (hc : ¬ CarryMeetsFF 16 (k.val n) a) : k.jump n a = .ok (k.cnt n a) := by
  cases k
  · have hv : (BitVec.ofNat 32 a).toNat = a := by rw [BitVec.toNat_ofNat, Nat.mod_eq_of_lt hf]
    obtain ⟨w, h1, h2, h3⟩ := C03_be_increase_partial 4 (Nat.le_refl 32) (BitVec.ofNat 32 a) n [] (List.replicate 16 0) []
      (by simp [h])
    simp only [List.nil_append, List.append_nil, List.length_nil] at h1
    rw [hv, h] at h3
    rw [h] at h2
    simp only [Kind.jump, h1, Kind.cnt, beCounter]
    rw [eq_beEnc h2 (h3.mpr hc)]
  · have hv : (BitVec.ofNat 64 a).toNat = a := by rw [BitVec.toNat_ofNat, Nat.mod_eq_of_lt hf]
    obtain ⟨w, h1, h2, h3⟩ := C03_le_increase_partial 8 (Nat.le_refl 64) (BitVec.ofNat 64 a) n [] (List.replicate 16 0) []
      (by simp [h])
    simp only [List.nil_append, List.append_nil, List.length_nil] at h1
    rw [hv, h] at h3
    rw [h] at h2
    simp only [Kind.jump, h1, Kind.cnt, leCounter]
    rw [eq_leEnc h2 (h3.mpr hc)]

/-! ## Keystream -/

theorem stagger_ok (k : Kind) (W : Nat) {c : List Byte} (h : c.length = 16) :
    stagger k W c = .ok (k.cnt c W, ((List.range W).map (k.cnt c)).flatten) := by
  obtain ⟨s, h1, h2⟩ := loopN_inv (f := fun j (s : List Byte × List Byte) => do
      let tmpc ← copy s.1 0 s.2 (j * 16) 16
      let ctr ← k.inc s.1
      return (ctr, tmpc))
    (fun j s => s.1 = k.cnt c j ∧ ∃ z : List Byte, z.length = (W - j) * 16 ∧
      s.2 = ((List.range j).map (k.cnt c)).flatten ++ z) W 0 (c, List.replicate (16 * W) 0)
    (by
      rintro j ⟨s1, s2⟩ _ hj ⟨rfl, z, hz, rfl⟩
      have hj' : j < W := by omega
      have hb : Blocks 16 ((List.range j).map (k.cnt c)) := by
        intro x hx; obtain ⟨i, _, rfl⟩ := List.mem_map.mp hx; exact cnt_length k c i
      have hbl : ((List.range j).map (k.cnt c)).flatten.length = j * 16 := by rw [hb.length]; simp
      have hz16 : (z.take 16).length = 16 := by
        rw [List.length_take, hz]
        have : 1 * 16 ≤ (W - j) * 16 := Nat.mul_le_mul_right _ (by omega)
        omega
      have hcl := cnt_length k c j
      have hcp := copy_at (a := ((List.range j).map (k.cnt c)).flatten) (b := z.take 16) (c := z.drop 16)
        (Holds.self (k.cnt c j)) hbl.symm hcl.symm (by omega)
      rw [List.append_assoc, List.take_append_drop] at hcp
      refine ⟨(k.cnt c (j + 1), ((List.range (j + 1)).map (k.cnt c)).flatten ++ z.drop 16), ?_, rfl, z.drop 16, ?_, rfl⟩
      · simp only [hcp, ok_bind, inc_ok k hcl, cnt_add, List.range_succ]
        simp
      · rw [List.length_drop, hz]
        have : W - j = W - (j + 1) + 1 := by omega
        rw [this, Nat.succ_mul]; omega)
    ⟨(cnt_zero k h).symm, List.replicate (16 * W) 0, by simp [Nat.mul_comm], by simp⟩
  rw [stagger, h1]
  obtain ⟨s1, s2⟩ := s
  obtain ⟨rfl, z, hz, rfl⟩ := h2
  have : z = [] := List.length_eq_zero_iff.mp (by rw [hz]; simp)
  subst this
  simp

/-- Keystream of whole blocks. -/
def ksBlocks (E : List Byte → List Byte) (k : Kind) (c : List Byte) (n : Nat) : List Byte :=
  ((List.range n).map (fun j => E (k.cnt c j))).flatten

theorem ksBlocks_length (E : List Byte → List Byte) (hE : ∀ b, b.length = 16 → (E b).length = 16) (k : Kind) (c : List Byte)
    (n : Nat) : (ksBlocks E k c n).length = n * 16 := by
  have hb : Blocks 16 ((List.range n).map (fun j => E (k.cnt c j))) := by
    intro x hx; obtain ⟨i, _, rfl⟩ := List.mem_map.mp hx; exact hE _ (cnt_length k c i)
  rw [ksBlocks, hb.length]; simp

theorem ksBlocks_add (E : List Byte → List Byte) (k : Kind) (c : List Byte) (a b : Nat) :
    ksBlocks E k c (a + b) = ksBlocks E k c a ++ ksBlocks E k (k.cnt c a) b := by
  have e : ∀ j, k.cnt (k.cnt c a) j = k.cnt c (a + j) := cnt_add k c a
  simp only [ksBlocks, e, List.range_add, List.map_append, List.flatten_append, List.map_map]
  rfl

theorem ctrStream_eq (E : List Byte → List Byte) (k : Kind) (c : List Byte) (len : Nat) :
    ctrStream E (k.cnt c) len = (ksBlocks E k c ((len + 15) / 16)).take len := by
  simp [ctrStream, ksBlocks, List.flatMap]

theorem ctrStream_blocks (E : List Byte → List Byte) (hE : ∀ b, b.length = 16 → (E b).length = 16) (k : Kind) (c : List Byte)
    (n : Nat) : ctrStream E (k.cnt c) (n * 16) = ksBlocks E k c n := by
  rw [ctrStream_eq, show (n * 16 + 15) / 16 = n by omega]
  exact List.take_of_length_le (by rw [ksBlocks_length E hE]; exact Nat.le_refl _)

theorem ctrStream_split (E : List Byte → List Byte) (hE : ∀ b, b.length = 16 → (E b).length = 16) (k : Kind) (c : List Byte)
    (n r : Nat) : ctrStream E (k.cnt c) (n * 16 + r) = ksBlocks E k c n ++ ctrStream E (k.cnt (k.cnt c n)) r := by
  have hl := ksBlocks_length E hE k c n
  rw [ctrStream_eq, ctrStream_eq, show (n * 16 + r + 15) / 16 = n + (r + 15) / 16 by omega, ksBlocks_add,
    List.take_append, hl, List.take_of_length_le (by omega)]
  congr 2
  omega

theorem ctrStream_length (E : List Byte → List Byte) (hE : ∀ b, b.length = 16 → (E b).length = 16) (k : Kind) (c : List Byte)
    (len : Nat) : (ctrStream E (k.cnt c) len).length = len := by
  rw [ctrStream_eq, List.length_take, ksBlocks_length E hE]; omega

/-- Generic loop filling the keystream block by block. -/
theorem ks_run (E : List Byte → List Byte) (k : Kind) (M : Nat) (c : List Byte) (h : c.length = 16) :
    ∀ n, runBlocks (fun c (_ : Unit) => (k.cnt c M, ksBlocks E k c M)) c (List.replicate n ()) =
      (k.cnt c (n * M), (List.range n).map (fun j => ksBlocks E k (k.cnt c (j * M)) M)) := by
  intro n
  induction n with
  | zero => simp [runBlocks, cnt_zero k h]
  | succ n ih =>
    rw [List.replicate_succ', runBlocks_append, ih]
    simp only [runBlocks, cnt_add, List.range_succ, List.map_append, List.map_cons, List.map_nil, Nat.succ_mul]

theorem ks_flat (E : List Byte → List Byte) (k : Kind) (M : Nat) (c : List Byte) (h : c.length = 16) (n : Nat) :
    ((List.range n).map (fun j => ksBlocks E k (k.cnt c (j * M)) M)).flatten = ksBlocks E k c (n * M) := by
  induction n with
  | zero => simp [ksBlocks]
  | succ n ih => rw [List.range_succ, List.map_append, List.flatten_append, ih, Nat.succ_mul, ksBlocks_add]; simp

theorem gen_runs (k : Kind) (W : Nat) (E : List Byte → List Byte) (hE : ∀ b, b.length = 16 → (E b).length = 16) (oo len : Nat)
    (c : List Byte) (hc : c.length = 16) (w : List Byte) (hw : w.length = len) :
    Runs oo (genActs k W E oo len) c w (k.cnt c ((len + 15) / 16)) (ctrStream E (k.cnt c) len) := by
  rw [genActs]
  generalize hg : (if W ≠ 0 ∧ 16 * W ≤ len then len / (16 * W) else 0) = g
  have hgW : g * (16 * W) ≤ len := by
    rw [← hg]; split
    · exact Nat.div_mul_le_self _ _
    · simp
  have hgW' : g * W * 16 ≤ len := by rw [Nat.mul_assoc, Nat.mul_comm W]; exact hgW
  have hn : g * W ≤ len / 16 := by rw [Nat.le_div_iff_mul_le (by omega)]; exact hgW'
  -- wide groups
  have hl1 : (w.take (g * (16 * W))).length = g * (16 * W) := by rw [List.length_take, hw]; omega
  have r1 := (blockRuns0 (fun c (_ : Unit) => (k.cnt c W, ksBlocks E k c W)) (fun c => c.length = 16) (16 * W) oo
    (fun j ctr out => do
      let s ← stagger k W ctr
      let out ← cipherWide E W s.2 0 out (oo + j * (16 * W))
      return (s.1, out)) (List.replicate g ()) c (w.take (g * (16 * W))) (by rw [hl1]; simp) hc
    (fun j b l _ hl => by
      refine ⟨cnt_length k l W, by rw [ksBlocks_length E hE, Nat.mul_comm], ?_⟩
      intro a old q ha hold
      have hb : Blocks 16 ((List.range W).map (k.cnt l)) := by
        intro x hx; obtain ⟨i, _, rfl⟩ := List.mem_map.mp hx; exact cnt_length k l i
      have hcw := cipherWide_at hE (W := W) (c := q) (Holds.self _) hb (by simp) ha.symm (by rw [hold, Nat.mul_comm])
      simp only [stagger_ok k W hl, ok_bind, hcw, List.map_map]
      rfl)).1
  rw [List.length_replicate, ks_run E k W c hc] at r1
  simp only [ks_flat E k W c hc] at r1
  have r1' := r1.widen [] (w.drop (g * (16 * W))) oo rfl
  simp only [List.nil_append, List.take_append_drop] at r1'
  -- single blocks
  have hl2 : ((w.drop (g * (16 * W))).take ((len / 16 - g * W) * 16)).length = (len / 16 - g * W) * 16 := by
    have : g * (16 * W) = g * W * 16 := by rw [Nat.mul_assoc, Nat.mul_comm W]
    rw [List.length_take, List.length_drop, hw, Nat.sub_mul, this]; omega
  have hc1 : (k.cnt c (g * W)).length = 16 := cnt_length _ _ _
  have r2 := (blockRuns (fun c (_ : Unit) => (k.cnt c 1, ksBlocks E k c 1)) (fun c => c.length = 16) 16 oo
    (fun j ctr out => do
      let out ← cipherBlock E ctr 0 out (oo + j * 16)
      let ctr ← k.inc ctr
      return (ctr, out)) (List.replicate (len / 16 - g * W) ()) (g * W) (k.cnt c (g * W)) (ksBlocks E k c (g * W))
      ((w.drop (g * (16 * W))).take ((len / 16 - g * W) * 16)) (ksBlocks_length E hE k c _) (by rw [hl2]; simp) hc1
    (fun j b l _ hl => by
      refine ⟨cnt_length k l 1, ksBlocks_length E hE k l 1, ?_⟩
      intro a old q ha hold
      simp only [cipherBlock_at (Holds.self l) hl (hE l hl) ha.symm hold, ok_bind, inc_ok k hl, pure_eq_ok]
      simp [ksBlocks, cnt_zero k hl])).1
  rw [List.length_replicate, ks_run E k 1 _ hc1] at r2
  simp only [ks_flat E k 1 _ hc1] at r2
  rw [← ksBlocks_add, Nat.mul_one, cnt_add, Nat.add_sub_cancel' hn] at r2
  have r2' := r2.widen [] ((w.drop (g * (16 * W))).drop ((len / 16 - g * W) * 16)) oo rfl
  simp only [List.nil_append, List.append_assoc, List.take_append_drop] at r2'
  have hrest : (w.drop (g * (16 * W))).drop ((len / 16 - g * W) * 16) = w.drop (len - len % 16) := by
    rw [List.drop_drop]
    congr 1
    have : g * (16 * W) = g * W * 16 := by rw [Nat.mul_assoc, Nat.mul_comm W]
    rw [Nat.sub_mul, this]; omega
  rw [hrest] at r2'
  refine (r1'.append r2').append ?_
  split
  · rename_i h0
    have e : w.drop (len - len % 16) = [] := List.drop_of_length_le (by omega)
    rw [e, List.append_nil, show (len + 15) / 16 = len / 16 by omega]
    rw [show ctrStream E (k.cnt c) len = ksBlocks E k c (len / 16) by
      rw [← ctrStream_blocks E hE, show len / 16 * 16 = len by omega]]
    exact Runs.nil _ _
  · rename_i h0
    have hcl := cnt_length k c (len / 16)
    have hx := hE _ hcl
    have htl : (w.drop (len - len % 16)).length = len % 16 := by rw [List.length_drop]; omega
    have hst : ctrStream E (k.cnt c) len =
        ksBlocks E k c (len / 16) ++ (E (k.cnt c (len / 16))).take (len % 16) := by
      have := ctrStream_split E hE k c (len / 16) (len % 16)
      rw [show len / 16 * 16 + len % 16 = len by omega] at this
      rw [this, ctrStream_eq, show (len % 16 + 15) / 16 = 1 by omega]
      simp [ksBlocks, cnt_zero k hcl]
    rw [hst]
    have hlt : len % 16 ≤ 16 := by omega
    have htk : ((E (k.cnt c (len / 16))).take (len % 16)).length = len % 16 := by rw [List.length_take, hx]; omega
    refine Runs.cons (l1 := k.cnt c ((len + 15) / 16)) ?_ ?_ (Runs.nil _ _)
    · intro pre post hp
      have hks := ksBlocks_length E hE k c (len / 16)
      have hcp := copy_at (a := pre ++ ksBlocks E k c (len / 16)) (b := w.drop (len - len % 16)) (c := post)
        (src := E (k.cnt c (len / 16))) (so := 0) (s := (E (k.cnt c (len / 16))).take (len % 16))
        (off := oo + (len - len % 16)) (n := len % 16)
        ⟨[], (E (k.cnt c (len / 16))).drop (len % 16), by simp, rfl⟩
        (by rw [List.length_append, hp, hks]; omega) htk.symm (by rw [htl, htk])
      simp only [List.append_assoc] at hcp ⊢
      simp only [cipherBlock_whole (Holds.self _) hcl hx (by simp : (List.replicate 16 (0 : Byte)).length = 16), ok_bind,
        inc_ok k hcl, hcp, cnt_add, pure_eq_ok]
      rw [show len / 16 + 1 = (len + 15) / 16 by omega]
    · rw [List.length_append, List.length_append, htl, htk]

/-- `ProcessSequential` XORs the keystream onto the message and advances the nonce. -/
theorem ctrSequential_ok (k : Kind) (W : Nat) (c : Cipher) (hE : ∀ b, b.length = 16 → (c.enc b).length = 16)
    (nonce inp msg : List Byte) (io oo : Nat) (hn : nonce.length = 16) (hin : Holds inp io msg) (pre junk post : List Byte)
    (hp : pre.length = oo) (hj : junk.length = msg.length) :
    ctrSequential k W c nonce inp io (pre ++ junk ++ post) oo msg.length =
      .ok (k.cnt nonce ((msg.length + 15) / 16),
        pre ++ xorBytes (ctrStream c.enc (k.cnt nonce) msg.length) msg ++ post) := by
  have h := (gen_runs k W c.enc hE oo msg.length nonce hn junk hj).run pre post hp
  generalize hst : ctrStream c.enc (k.cnt nonce) msg.length = st at *
  have hsl : st.length = msg.length := by rw [← hst]; exact ctrStream_length _ hE _ _ _
  generalize haln : msg.length - msg.length % 16 = aln at *
  have hale : aln ≤ msg.length := by omega
  have hm1 : (msg.take aln).length = aln := by rw [List.length_take]; omega
  have hs1 : (st.take aln).length = aln := by rw [List.length_take]; omega
  have hin1 : Holds inp io (msg.take aln) := by
    obtain ⟨a, q, e, ha⟩ := hin
    exact ⟨a, msg.drop aln ++ q, by rw [e]; simp only [List.append_assoc]; rw [← List.append_assoc (msg.take aln), List.take_append_drop], ha⟩
  have hin2 : Holds inp (io + aln) (msg.drop aln) := by
    obtain ⟨a, q, e, ha⟩ := hin
    exact ⟨a ++ msg.take aln, q, by rw [e]; simp only [List.append_assoc]; rw [← List.append_assoc (msg.take aln), List.take_append_drop],
      by rw [List.length_append, ha, hm1]⟩
  have hsp : pre ++ st ++ post = pre ++ st.take aln ++ (st.drop aln ++ post) := by
    simp only [List.append_assoc]; rw [← List.append_assoc (st.take aln), List.take_append_drop]
  have hx1 : (if aln ≠ 0 then xorInto inp io (pre ++ st ++ post) oo aln else pure (pre ++ st ++ post)) =
      .ok (pre ++ xorBytes (st.take aln) (msg.take aln) ++ (st.drop aln ++ post)) := by
    split
    · rw [hsp]; exact xorInto_at hin1 hp.symm hm1.symm (by omega)
    · rename_i h0
      have : aln = 0 := by omega
      subst this
      simp [xorBytes]
  have hfin : xorBytes st msg = xorBytes (st.take aln) (msg.take aln) ++ xorBytes (st.drop aln) (msg.drop aln) := by
    rw [← xorBytes_append (by omega), List.take_append_drop, List.take_append_drop]
  have hxl : (xorBytes (st.take aln) (msg.take aln)).length = aln := by rw [xorBytes_length]; omega
  simp only [pure_eq_ok] at hx1
  simp only [ctrSequential, h, ok_bind, haln, hx1, pure_eq_ok]
  rw [hfin]
  by_cases h0 : aln = msg.length
  · rw [if_neg (fun hh => hh h0)]
    have e1 : st.drop aln = [] := List.drop_of_length_le (by omega)
    have e2 : msg.drop aln = [] := List.drop_of_length_le (by omega)
    simp [e1, e2, xorBytes]
  · rw [if_pos h0]
    have := xorLoop_at inp io oo (msg.drop aln) (st.drop aln) (pre ++ xorBytes (st.take aln) (msg.take aln)) post aln hin2
      (by rw [List.length_drop, List.length_drop, hsl]) (by rw [List.length_append, hp, hxl])
    rw [List.length_drop] at this
    simp only [List.append_assoc] at this ⊢
    rw [this]; rfl

/-! ## Parallel -/

/-- Turns a task of `ProcessParallel` needs. -/
def ctrTurns (W len : Nat) : Nat := (genActs .ctr W id 0 len).length + 2

theorem gen_turns (k : Kind) (W : Nat) (E : List Byte → List Byte) (oo len : Nat) :
    (genActs k W E oo len).length + 2 = ctrTurns W len := by
  simp only [ctrTurns, genActs, List.length_append, forActs_length]
  by_cases h : len % 16 = 0 <;> simp [h]

/-- `ProcessParallel` for an arbitrary result of the per-task counter computation: task `i` uses the
keystream from the counter `J i` on. -/
theorem ctrParallel_gen (k : Kind) (W : Nat) (c : Cipher) (hE : ∀ b, b.length = 16 → (c.enc b).length = 16) (p : Profile)
    (m : Nat) (hd : p.degree ≠ 0) (hs : p.blockSize / p.degree = m * 16) (hb : p.blockSize = p.degree * m * 16)
    (nonce inp msg : List Byte) (io : Nat) (hn : nonce.length = 16) (hin : Holds inp io msg)
    (hm : msg.length = p.blockSize) (pre junk post : List Byte) (oo : Nat) (hp : pre.length = oo)
    (hj : junk.length = msg.length) (J : Nat → List Byte) (hJ : ∀ i, i < p.degree → k.jump nonce (m * i) = .ok (J i))
    (hJl : ∀ i, i < p.degree → (J i).length = 16)
    (sched : List Nat) (hsc : Covers p.degree (ctrTurns W (m * 16)) sched) :
    ctrParallel k W c p sched nonce inp io (pre ++ junk ++ post) oo p.blockSize =
      .ok (k.cnt (J (p.degree - 1)) m,
        pre ++ flatW (fun i => xorBytes (ksBlocks c.enc k (J i) m) ((msg.drop (i * (m * 16))).take (m * 16))) p.degree ++ post) := by
  have hmm : m * 16 / 16 = m := Nat.mul_div_cancel _ (by omega)
  have hbm : p.blockSize = p.degree * (m * 16) := by rw [hb, Nat.mul_assoc]
  have hw : ∀ i, i < p.degree → (winOf junk (m * 16) i).length = m * 16 :=
    fun i hi => winOf_length _ _ p.degree i (by rw [hj, hm, hbm]) hi
  obtain ⟨ts', h1, h2⟩ := interleave p.degree (m * 16) oo (fun i => k.cnt (J i) m)
    (fun i => xorBytes (ksBlocks c.enc k (J i) m) ((msg.drop (i * (m * 16))).take (m * 16))) sched
    (ctrThread k W c nonce inp io oo (m * 16)) (winOf junk (m * 16)) pre post hp hw (by
      intro i hi
      have h3 := mul_le_of_lt hi (Nat.le_of_eq hbm.symm)
      rw [Nat.succ_mul i] at h3
      have hml : ((msg.drop (i * (m * 16))).take (m * 16)).length = m * 16 := by
        rw [List.length_take, List.length_drop, hm]; omega
      have hr := gen_runs k W c.enc hE (oo + i * (m * 16)) (m * 16) (J i) (hJl i hi) _ (hw i hi)
      rw [ctrStream_blocks c.enc hE, show (m * 16 + 15) / 16 = m by omega] at hr
      simp only [ctrThread, hmm]
      refine Runs.cons (l1 := J i) (w1 := winOf junk (m * 16) i) ?_ rfl (hr.append (Runs.cons (l1 := k.cnt (J i) m) ?_ ?_ (Runs.nil _ _)))
      · intro a q _
        rw [hJ i hi]; rfl
      · intro a q ha
        have hin1 : Holds inp (io + i * (m * 16)) ((msg.drop (i * (m * 16))).take (m * 16)) := by
          obtain ⟨x, y, e, hx⟩ := hin
          refine ⟨x ++ msg.take (i * (m * 16)), (msg.drop (i * (m * 16))).drop (m * 16) ++ y, ?_, ?_⟩
          · rw [e]; simp only [List.append_assoc]
            rw [← List.append_assoc ((msg.drop (i * (m * 16))).take (m * 16)), List.take_append_drop,
              ← List.append_assoc (msg.take _), List.take_append_drop]
          · rw [List.length_append, hx, List.length_take, hm]; omega
        rw [xorInto_at hin1 ha.symm hml.symm (by rw [ksBlocks_length c.enc hE, hml])]
        rfl
      · rw [xorBytes_length, hml, ksBlocks_length c.enc hE]; exact Nat.min_self _)
    hsc.1 (fun i hi => by
      simp only [ctrThread, hmm, List.length_append, List.length_cons, List.length_nil]
      have := gen_turns k W c.enc (oo + i * (m * 16)) (m * 16)
      have h5 := hsc.2 i hi
      omega)
  rw [flatW_winOf, show p.degree * (m * 16) = junk.length by rw [hj, hm, hbm], List.take_length] at h1
  have hcp : copy (ts' (p.degree - 1)).loc 0 nonce 0 16 = .ok (k.cnt (J (p.degree - 1)) m) := by
    rw [(h2 (p.degree - 1) (by omega)).2]
    exact copy_whole (Holds.self _) (cnt_length _ _ _).symm (by rw [hn, cnt_length])
  have hol : ¬ m * 16 * p.degree < (if (pre ++ junk ++ post).length - oo < p.blockSize then (pre ++ junk ++ post).length - oo
      else p.blockSize) := by
    rw [Nat.mul_comm (m * 16), ← hbm]
    split <;> omega
  simp only [ctrParallel, if_neg hd, hs, h1, ok_bind, hcp, if_neg hol, pure_eq_ok]

theorem flatW_xor (E : List Byte → List Byte) (hE : ∀ b, b.length = 16 → (E b).length = 16) (k : Kind) (nonce msg : List Byte)
    (m n : Nat) (hm : n * (m * 16) ≤ msg.length) :
    flatW (fun i => xorBytes (ksBlocks E k (k.cnt nonce (m * i)) m) ((msg.drop (i * (m * 16))).take (m * 16))) n =
      xorBytes (ksBlocks E k nonce (n * m)) (msg.take (n * (m * 16))) := by
  induction n with
  | zero => simp [flatW, ksBlocks, xorBytes]
  | succ n ih =>
    rw [Nat.succ_mul n] at hm
    rw [flatW_succ, ih (by omega), Nat.succ_mul, ksBlocks_add, Nat.succ_mul, List.take_add, xorBytes_append, Nat.mul_comm n m]
    rw [ksBlocks_length E hE, List.length_take, Nat.mul_assoc]; omega

/-- Counter positions used by the tasks of a run over `len` bytes: none of the additions loses a carry. -/
def NoLostCarry (k : Kind) (p : Profile) (nonce : List Byte) (len : Nat) : Prop :=
  p.isParallel = true → ∀ t i, t < len / p.blockSize → i < p.degree →
    k.fits (p.blockSize / p.degree / 16 * i) ∧
    ¬ CarryMeetsFF 16 (k.val (k.cnt nonce (t * (p.blockSize / 16)))) (p.blockSize / p.degree / 16 * i)

/-- With at most `0xFF00` counter blocks per parallel block nothing is lost. -/
theorem noLostCarry_small (k : Kind) (p : Profile) (hv : p.Valid) (nonce : List Byte) (len : Nat) (hb : p.blockSize ≤ 16 * 0xFF00) :
    NoLostCarry k p nonce len := by
  intro hp t i _ hi
  obtain ⟨m, hm, hd, hs, hbm⟩ := hv.split hp
  have hlt : p.blockSize / p.degree / 16 * i < 0xFF00 := by
    rw [hs, Nat.mul_div_cancel _ (by omega)]
    have h1 : m * (i + 1) ≤ m * p.degree := Nat.mul_le_mul_left _ hi
    rw [Nat.mul_succ] at h1
    rw [Nat.mul_comm p.degree] at hbm
    omega
  exact ⟨by cases k <;> simp only [Kind.fits] <;> omega, C03_small hlt⟩

/-- The whole `Transform`: under any schedule the output is the message XOR the counter keystream and
the nonce is advanced by the number of blocks used. -/
theorem ctrTransform_ok (k : Kind) (W : Nat) (c : Cipher) (hE : ∀ b, b.length = 16 → (c.enc b).length = 16) (p : Profile)
    (hv : p.Valid) (nonce inp msg : List Byte) (io : Nat) (hn : nonce.length = 16) (hin : Holds inp io msg)
    (pre junk post : List Byte) (oo : Nat) (hp : pre.length = oo) (hj : junk.length = msg.length)
    (hnc : NoLostCarry k p nonce msg.length) (scheds : Nat → List Nat)
    (hsc : p.isParallel = true → ∀ i, i < msg.length / p.blockSize →
      Covers p.degree (ctrTurns W (p.blockSize / p.degree)) (scheds i)) :
    ctrTransform k W c p scheds nonce inp io (pre ++ junk ++ post) oo msg.length =
      .ok (k.cnt nonce ((msg.length + 15) / 16),
        pre ++ xorBytes (ctrStream c.enc (k.cnt nonce) msg.length) msg ++ post) := by
  rw [ctrTransform]
  split
  · rename_i hc
    obtain ⟨m, hm, hd, hs, hb⟩ := hv.split hc.1
    have hmm : m * 16 / 16 = m := Nat.mul_div_cancel _ (by omega)
    have hsc := hsc hc.1
    have hnc := hnc hc.1
    rw [hs] at hsc
    rw [hs, hmm] at hnc
    have hb0 : p.blockSize ≠ 0 := (hv hc.1).2.1
    rw [if_neg hb0]
    generalize hcnt : msg.length / p.blockSize = cnt at *
    have hle : cnt * p.blockSize ≤ msg.length := by rw [← hcnt]; exact Nat.div_mul_le_self _ _
    generalize hM : p.degree * m = M at *
    have hb16 : p.blockSize / 16 = M := by rw [hb, Nat.mul_div_cancel _ (by omega)]
    rw [hb16] at hnc
    -- the loop over parallel blocks
    have hloop : ∃ s, loopN cnt 0 (fun i (s : List Byte × List Byte) =>
        ctrParallel k W c p (scheds i) s.1 inp (io + i * p.blockSize) s.2 (oo + i * p.blockSize) p.blockSize)
          (nonce, pre ++ junk ++ post) = .ok s ∧
        s = (k.cnt nonce (cnt * M), pre ++ xorBytes (ksBlocks c.enc k nonce (cnt * M)) (msg.take (cnt * p.blockSize)) ++
          (junk.drop (cnt * p.blockSize) ++ post)) := by
      have := loopN_inv (f := fun i (s : List Byte × List Byte) =>
        ctrParallel k W c p (scheds i) s.1 inp (io + i * p.blockSize) s.2 (oo + i * p.blockSize) p.blockSize)
        (fun t s => s = (k.cnt nonce (t * M), pre ++ xorBytes (ksBlocks c.enc k nonce (t * M)) (msg.take (t * p.blockSize)) ++
          (junk.drop (t * p.blockSize) ++ post))) cnt 0 (nonce, pre ++ junk ++ post) (by
        rintro t s _ ht rfl
        have ht : t < cnt := by omega
        have h3 := mul_le_of_lt ht hle
        rw [Nat.succ_mul] at h3
        have hml : ((msg.drop (t * p.blockSize)).take p.blockSize).length = p.blockSize := by
          rw [List.length_take, List.length_drop]; omega
        have hjl : ((junk.drop (t * p.blockSize)).take p.blockSize).length = p.blockSize := by
          rw [List.length_take, List.length_drop]; omega
        have hksl := ksBlocks_length c.enc hE k nonce (t * M)
        have htM : t * M * 16 = t * p.blockSize := by rw [hb, Nat.mul_assoc]
        have hxl : (xorBytes (ksBlocks c.enc k nonce (t * M)) (msg.take (t * p.blockSize))).length = t * p.blockSize := by
          rw [xorBytes_length, hksl, List.length_take, htM]; omega
        have hin1 : Holds inp (io + t * p.blockSize) ((msg.drop (t * p.blockSize)).take p.blockSize) := by
          obtain ⟨x, y, e, hx⟩ := hin
          refine ⟨x ++ msg.take (t * p.blockSize), (msg.drop (t * p.blockSize)).drop p.blockSize ++ y, ?_, ?_⟩
          · rw [e]; simp only [List.append_assoc]
            rw [← List.append_assoc ((msg.drop (t * p.blockSize)).take p.blockSize), List.take_append_drop,
              ← List.append_assoc (msg.take _), List.take_append_drop]
          · rw [List.length_append, hx, List.length_take]; omega
        have hcl := cnt_length k nonce (t * M)
        have hpar := ctrParallel_gen k W c hE p m hd hs (by rw [hM]; exact hb) (k.cnt nonce (t * M)) inp
          ((msg.drop (t * p.blockSize)).take p.blockSize) (io + t * p.blockSize) hcl hin1 hml
          (pre ++ xorBytes (ksBlocks c.enc k nonce (t * M)) (msg.take (t * p.blockSize)))
          ((junk.drop (t * p.blockSize)).take p.blockSize) ((junk.drop (t * p.blockSize)).drop p.blockSize ++ post)
          (oo + t * p.blockSize) (by rw [List.length_append, hp, hxl]) (by rw [hjl, hml])
          (fun i => k.cnt (k.cnt nonce (t * M)) (m * i))
          (fun i hi => jump_ok k hcl _ (hnc t i ht hi).1 (hnc t i ht hi).2) (fun i hi => cnt_length _ _ _)
          (scheds t) (hsc t ht)
        have hdm : p.degree * (m * 16) = p.blockSize := by rw [← Nat.mul_assoc, hM, hb]
        rw [flatW_xor c.enc hE k _ _ m p.degree (by rw [hml, hdm]; exact Nat.le_refl _), hdm,
          List.take_of_length_le (Nat.le_of_eq hml), hM] at hpar
        refine ⟨(k.cnt nonce ((t + 1) * M), pre ++ xorBytes (ksBlocks c.enc k nonce ((t + 1) * M)) (msg.take ((t + 1) * p.blockSize)) ++
          (junk.drop ((t + 1) * p.blockSize) ++ post)), ?_, rfl⟩
        have e1 : pre ++ xorBytes (ksBlocks c.enc k nonce (t * M)) (msg.take (t * p.blockSize)) ++
            (junk.drop (t * p.blockSize) ++ post) =
            pre ++ xorBytes (ksBlocks c.enc k nonce (t * M)) (msg.take (t * p.blockSize)) ++
              (junk.drop (t * p.blockSize)).take p.blockSize ++ ((junk.drop (t * p.blockSize)).drop p.blockSize ++ post) := by
          simp only [List.append_assoc, List.append_cancel_left_eq]
          rw [← List.append_assoc, List.take_append_drop]
        simp only []
        rw [e1, hpar]
        have e2 : k.cnt (k.cnt (k.cnt nonce (t * M)) (m * (p.degree - 1))) m = k.cnt nonce ((t + 1) * M) := by
          rw [cnt_add, cnt_add]
          congr 1
          have : m * (p.degree - 1) + m = M := by
            rw [← Nat.mul_succ, show (p.degree - 1).succ = p.degree by omega, Nat.mul_comm]; exact hM
          rw [Nat.succ_mul]; omega
        rw [e2, Nat.succ_mul, Nat.succ_mul, ksBlocks_add, List.take_add, xorBytes_append, List.drop_drop]
        · simp only [List.append_assoc]
        · rw [hksl, List.length_take, htM]; omega)
        (by simp [ksBlocks, xorBytes, cnt_zero k hn])
      simpa using this
    obtain ⟨s, hl1, rfl⟩ := hloop
    simp only [hl1, ok_bind]
    have hM16 : cnt * M * 16 = cnt * p.blockSize := by rw [hb, Nat.mul_assoc]
    have hksl := ksBlocks_length c.enc hE k nonce (cnt * M)
    have hxl : (xorBytes (ksBlocks c.enc k nonce (cnt * M)) (msg.take (cnt * p.blockSize))).length = cnt * p.blockSize := by
      rw [xorBytes_length, hksl, List.length_take, hM16]; omega
    have hsplit := ctrStream_split c.enc hE k nonce (cnt * M) (msg.length - cnt * p.blockSize)
    rw [hM16, Nat.add_sub_cancel' hle] at hsplit
    have hml : (msg.drop (cnt * p.blockSize)).length = msg.length - cnt * p.blockSize := List.length_drop
    have hfin : xorBytes (ctrStream c.enc (k.cnt nonce) msg.length) msg =
        xorBytes (ksBlocks c.enc k nonce (cnt * M)) (msg.take (cnt * p.blockSize)) ++
        xorBytes (ctrStream c.enc (k.cnt (k.cnt nonce (cnt * M))) (msg.length - cnt * p.blockSize)) (msg.drop (cnt * p.blockSize)) := by
      rw [hsplit, ← xorBytes_append, List.take_append_drop]
      rw [hksl, List.length_take, hM16]; omega
    rw [hfin, Nat.mul_comm p.blockSize cnt]
    have hnn : cnt * M + (msg.length - cnt * p.blockSize + 15) / 16 = (msg.length + 15) / 16 := by omega
    split
    · have hin2 : Holds inp (io + cnt * p.blockSize) (msg.drop (cnt * p.blockSize)) := by
        obtain ⟨x, y, e, hx⟩ := hin
        refine ⟨x ++ msg.take (cnt * p.blockSize), y, ?_, ?_⟩
        · rw [e]; simp only [List.append_assoc]
          rw [← List.append_assoc (msg.take _), List.take_append_drop]
        · rw [List.length_append, hx, List.length_take]; omega
      have := ctrSequential_ok k W c hE (k.cnt nonce (cnt * M)) inp (msg.drop (cnt * p.blockSize)) (io + cnt * p.blockSize)
        (oo + cnt * p.blockSize) (cnt_length _ _ _) hin2
        (pre ++ xorBytes (ksBlocks c.enc k nonce (cnt * M)) (msg.take (cnt * p.blockSize)))
        (junk.drop (cnt * p.blockSize)) post (by rw [List.length_append, hp, hxl]) (by rw [List.length_drop, List.length_drop, hj])
      rw [hml, cnt_add, hnn] at this
      simp only [List.append_assoc] at this ⊢
      exact this
    · have h0 : msg.length - cnt * p.blockSize = 0 := by omega
      have e1 : msg.drop (cnt * p.blockSize) = [] := List.drop_of_length_le (by omega)
      have e2 : junk.drop (cnt * p.blockSize) = [] := List.drop_of_length_le (by omega)
      rw [h0] at hnn
      rw [e1, e2, ← hnn]
      simp [xorBytes]
  · exact ctrSequential_ok k W c hE nonce inp msg io oo hn hin pre junk post hp hj

end Cex.Modes
