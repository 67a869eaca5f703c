import Verif.Rijndael.Lemmas

/-! # `StandardExpand` is the key expansion of FIPS 197 -/

namespace Cex.Rijndael
open Cex.Aes (Schedule xorWord rotWord rconWord expand keyWords)

/-! ## Bytes of words -/

theorem wordByte_xor (x y : Word) : wordByte (x ^^^ y) = xorWord (wordByte x) (wordByte y) := by
  funext r
  simp only [wordByte, xorWord, BitVec.ushiftRight_xor_distrib, BitVec.setWidth_xor]

/-- Four bytes as a word. -/
def pack (a b c d : Byte) : Word := (a.setWidth 32 <<< 24) ||| (b.setWidth 32 <<< 16) ||| (c.setWidth 32 <<< 8) ||| d.setWidth 32

theorem wordByte_0 (k : Word) : wordByte k 0 = (k >>> 24).setWidth 8 := rfl
theorem wordByte_1 (k : Word) : wordByte k 1 = (k >>> 16).setWidth 8 := rfl
theorem wordByte_2 (k : Word) : wordByte k 2 = (k >>> 8).setWidth 8 := rfl
theorem wordByte_3 (k : Word) : wordByte k 3 = k.setWidth 8 := by
  rw [wordByte, show 24 - 8 * (3 : Fin 4).val = 0 from rfl, BitVec.ushiftRight_zero]

theorem eight {i : Nat} (h : i < 8) : i = 0 ∨ i = 1 ∨ i = 2 ∨ i = 3 ∨ i = 4 ∨ i = 5 ∨ i = 6 ∨ i = 7 := by omega

theorem wordByte_pack (a b c d : Byte) : wordByte (pack a b c d) 0 = a ∧ wordByte (pack a b c d) 1 = b ∧
    wordByte (pack a b c d) 2 = c ∧ wordByte (pack a b c d) 3 = d := by
  rw [wordByte_0, wordByte_1, wordByte_2, wordByte_3]
  refine ⟨?_, ?_, ?_, ?_⟩ <;>
  · apply BitVec.eq_of_getLsbD_eq
    intro i hi
    simp only [pack, BitVec.getLsbD_setWidth, BitVec.getLsbD_ushiftRight, BitVec.getLsbD_or, BitVec.getLsbD_shiftLeft]
    rcases eight hi with rfl | rfl | rfl | rfl | rfl | rfl | rfl | rfl <;> simp [BitVec.getLsbD_of_ge]

theorem byte_toNat (x : Word) (n : Nat) : ((x >>> n) &&& 0xFF#32).toNat = ((x >>> n).setWidth 8 : Byte).toNat := by
  rw [BitVec.toNat_and, BitVec.toNat_setWidth]
  exact Nat.and_two_pow_sub_one_eq_mod _ 8

theorem top_toNat (x : Word) : (x >>> 24).toNat = ((x >>> 24).setWidth 8 : Byte).toNat := by
  rw [BitVec.toNat_setWidth, BitVec.toNat_ushiftRight, Nat.shiftRight_eq_div_pow]
  have := x.isLt
  omega

theorem subWord_eq (x : Word) : ∃ y, subWord x = .ok y ∧ wordByte y = Aes.subWord (wordByte x) := by
  have e3 : (x &&& 0xFF#32).toNat = (x.setWidth 8 : Byte).toNat := by
    rw [BitVec.toNat_and, BitVec.toNat_setWidth]
    exact Nat.and_two_pow_sub_one_eq_mod _ 8
  refine ⟨pack (Aes.sbox ((x >>> 24).setWidth 8)) (Aes.sbox ((x >>> 16).setWidth 8)) (Aes.sbox ((x >>> 8).setWidth 8)) (Aes.sbox (x.setWidth 8)), ?_, ?_⟩
  · rw [subWord, top_toNat, rd_sbox, ok_bind, byte_toNat, rd_sbox, ok_bind, byte_toNat, rd_sbox, ok_bind, e3, rd_sbox]
    rfl
  · obtain ⟨h0, h1, h2, h3⟩ := wordByte_pack (Aes.sbox ((x >>> 24).setWidth 8)) (Aes.sbox ((x >>> 16).setWidth 8)) (Aes.sbox ((x >>> 8).setWidth 8)) (Aes.sbox (x.setWidth 8))
    funext r
    match r with
    | 0 => exact h0
    | 1 => exact h1
    | 2 => exact h2
    | 3 => exact h3.trans (by rw [Aes.subWord, wordByte_3])

theorem wordByte_rot (p : Word) : wordByte ((p <<< 8) ||| ((p >>> 24) &&& 0xFF#32)) = rotWord (wordByte p) := by
  have key : (((p <<< 8) ||| ((p >>> 24) &&& 0xFF#32)) >>> 24).setWidth 8 = ((p >>> 16).setWidth 8 : Byte) ∧
      (((p <<< 8) ||| ((p >>> 24) &&& 0xFF#32)) >>> 16).setWidth 8 = ((p >>> 8).setWidth 8 : Byte) ∧
      (((p <<< 8) ||| ((p >>> 24) &&& 0xFF#32)) >>> 8).setWidth 8 = (p.setWidth 8 : Byte) ∧
      ((p <<< 8) ||| ((p >>> 24) &&& 0xFF#32)).setWidth 8 = ((p >>> 24).setWidth 8 : Byte) := by
    refine ⟨?_, ?_, ?_, ?_⟩ <;>
    · apply BitVec.eq_of_getLsbD_eq
      intro i hi
      simp only [BitVec.getLsbD_setWidth, BitVec.getLsbD_ushiftRight, BitVec.getLsbD_or, BitVec.getLsbD_shiftLeft, BitVec.getLsbD_and]
      rcases eight hi with rfl | rfl | rfl | rfl | rfl | rfl | rfl | rfl <;> simp [BitVec.getLsbD_of_ge]
  obtain ⟨h0, h1, h2, h3⟩ := key
  funext r
  match r with
  | 0 => exact (wordByte_0 _).trans h0
  | 1 => exact (wordByte_1 _).trans h1
  | 2 => exact (wordByte_2 _).trans (h2.trans (wordByte_3 p).symm)
  | 3 => exact (wordByte_3 _).trans h3

/-! ## One word at a time -/

theorem Sched.rd {rk : List Word} {w : Schedule} {n i : Nat} (h : Sched rk w n) (hi : i < n) : ∃ k, Cex.rd rk i = .ok k ∧ wordByte k = w i := by
  obtain ⟨k, h1, h2⟩ := h i hi
  exact ⟨k, by simp [Cex.rd, h1], funext h2⟩

theorem Sched.wr {rk : List Word} {w : Schedule} {i N : Nat} (hl : rk.length = N) (h : Sched rk w i) (hi : i < N) {v : Word} (hv : wordByte v = w i) :
    ∃ rk', Cex.wr rk i v = .ok rk' ∧ rk'.length = N ∧ Sched rk' w (i + 1) := by
  refine ⟨rk.set i v, wr_ok v (by omega), by rw [List.length_set]; exact hl, ?_⟩
  intro j hj
  by_cases e : i = j
  · subst e
    exact ⟨v, by rw [List.getElem?_set_self (by omega)], fun r => congrFun hv r⟩
  · obtain ⟨k, h1, h2⟩ := h j (by omega)
    exact ⟨k, by rw [List.getElem?_set_ne e]; exact h1, h2⟩

theorem chain_ok {rk : List Word} {w : Schedule} {i j N : Nat} (hl : rk.length = N) (h : Sched rk w i) (hi : i < N) (h0 : 0 < i) (hj : j < i)
    (e : w i = xorWord (w j) (w (i - 1))) : ∃ rk', chainWord i j rk = .ok rk' ∧ rk'.length = N ∧ Sched rk' w (i + 1) := by
  obtain ⟨a, ha, ea⟩ := h.rd hj
  obtain ⟨b, hb, eb⟩ := h.rd (show i - 1 < i by omega)
  obtain ⟨rk', h1, h2, h3⟩ := Sched.wr hl h hi (v := a ^^^ b) (by rw [wordByte_xor, ea, eb, e])
  exact ⟨rk', by rw [chainWord, ha, ok_bind, hb, ok_bind, h1], h2, h3⟩

/-- The three plain words after the first of a block. -/
theorem chain3_ok {rk : List Word} {w : Schedule} {i off N : Nat} (hl : rk.length = N) (h : Sched rk w (i + 1)) (hi : i + 3 < N) (h0 : 0 < off) (ho : off ≤ i)
    (e : ∀ t, 0 < t → t < 4 → w (i + t) = xorWord (w (i - off + t)) (w (i + t - 1))) :
    ∃ rk', (do
      let rk ← chainWord (i + 1) (i - off + 1) rk
      let rk ← chainWord (i + 2) (i - off + 2) rk
      chainWord (i + 3) (i - off + 3) rk) = .ok rk' ∧ rk'.length = N ∧ Sched rk' w (i + 4) := by
  obtain ⟨r1, a1, b1, c1⟩ := chain_ok (j := i - off + 1) hl h (by omega) (by omega) (by omega) (e 1 (by omega) (by omega))
  obtain ⟨r2, a2, b2, c2⟩ := chain_ok (j := i - off + 2) b1 c1 (by omega) (by omega) (by omega) (e 2 (by omega) (by omega))
  obtain ⟨r3, a3, b3, c3⟩ := chain_ok (j := i - off + 3) b2 c2 (by omega) (by omega) (by omega) (e 3 (by omega) (by omega))
  refine ⟨r3, ?_, b3, c3⟩
  rw [a1, ok_bind]
  show (do let rk ← chainWord (i + 1 + 1) (i - off + 2) r1; chainWord (i + 3) (i - off + 3) rk) = _
  rw [a2, ok_bind]
  exact a3

theorem expandRot_ok {rk : List Word} {w : Schedule} {i off r N : Nat} {c : Word} (hl : rk.length = N) (h : Sched rk w i) (hi : i + 3 < N)
    (h0 : 0 < off) (ho : off ≤ i) (hc : Cex.rd rcon r = .ok c) (ec : wordByte c = rconWord r)
    (e0 : w i = xorWord (w (i - off)) (xorWord (Aes.subWord (rotWord (w (i - 1)))) (rconWord r)))
    (e : ∀ t, 0 < t → t < 4 → w (i + t) = xorWord (w (i - off + t)) (w (i + t - 1))) :
    ∃ rk', expandRot i off r rk = .ok rk' ∧ rk'.length = N ∧ Sched rk' w (i + 4) := by
  obtain ⟨a, ha, ea⟩ := h.rd (show i - off < i by omega)
  obtain ⟨p, hp, ep⟩ := h.rd (show i - 1 < i by omega)
  obtain ⟨t, ht, et⟩ := subWord_eq ((p <<< 8) ||| ((p >>> 24) &&& 0xFF#32))
  rw [wordByte_rot, ep] at et
  obtain ⟨r0, h1, h2, h3⟩ := Sched.wr hl h (by omega) (v := a ^^^ t ^^^ c) (by
    rw [wordByte_xor, wordByte_xor, ea, et, ec, e0]
    funext k
    simp only [xorWord]
    ac_rfl)
  obtain ⟨r', g1, g2, g3⟩ := chain3_ok h2 h3 hi h0 ho e
  exact ⟨r', by rw [expandRot, ha, ok_bind, hp, ok_bind, ht, ok_bind, hc, ok_bind, h1, ok_bind]; exact g1, g2, g3⟩

theorem expandSub_ok {rk : List Word} {w : Schedule} {i off N : Nat} (hl : rk.length = N) (h : Sched rk w i) (hi : i + 3 < N)
    (h0 : 0 < off) (ho : off ≤ i) (e0 : w i = xorWord (w (i - off)) (Aes.subWord (w (i - 1))))
    (e : ∀ t, 0 < t → t < 4 → w (i + t) = xorWord (w (i - off + t)) (w (i + t - 1))) :
    ∃ rk', expandSub i off rk = .ok rk' ∧ rk'.length = N ∧ Sched rk' w (i + 4) := by
  obtain ⟨a, ha, ea⟩ := h.rd (show i - off < i by omega)
  obtain ⟨p, hp, ep⟩ := h.rd (show i - 1 < i by omega)
  obtain ⟨t, ht, et⟩ := subWord_eq p
  rw [ep] at et
  obtain ⟨r0, h1, h2, h3⟩ := Sched.wr hl h (by omega) (v := t ^^^ a) (by
    rw [wordByte_xor, ea, et, e0]
    funext k
    simp only [xorWord]
    ac_rfl)
  obtain ⟨r', g1, g2, g3⟩ := chain3_ok h2 h3 hi h0 ho e
  exact ⟨r', by rw [expandSub, hp, ok_bind, ht, ok_bind, ha, ok_bind, h1, ok_bind]; exact g1, g2, g3⟩

/-! ## The recurrence -/

theorem expand_low {nk i : Nat} (key : Schedule) (h : i < nk) : expand nk key i = key i := by
  rw [expand, dif_pos (Or.inl h)]

theorem expand_rot {nk i : Nat} (key : Schedule) (h0 : 0 < nk) (h : nk ≤ i) (hm : i % nk = 0) :
    expand nk key i = xorWord (expand nk key (i - nk)) (xorWord (Aes.subWord (rotWord (expand nk key (i - 1)))) (rconWord (i / nk))) := by
  rw [expand, dif_neg (by omega), if_pos hm]

theorem expand_sub {nk i : Nat} (key : Schedule) (h0 : 6 < nk) (h : nk ≤ i) (hm : i % nk = 4) :
    expand nk key i = xorWord (expand nk key (i - nk)) (Aes.subWord (expand nk key (i - 1))) := by
  rw [expand, dif_neg (by omega), if_neg (by omega), if_pos ⟨h0, hm⟩]

theorem expand_plain {nk i : Nat} (key : Schedule) (h0 : 0 < nk) (h : nk ≤ i) (hm : i % nk ≠ 0) (h4 : ¬ (6 < nk ∧ i % nk = 4)) :
    expand nk key i = xorWord (expand nk key (i - nk)) (expand nk key (i - 1)) := by
  rw [expand, dif_neg (by omega), if_neg hm, if_neg h4]

/-- The three plain words of a block. -/
theorem expand_three {nk i : Nat} (key : Schedule) (h : nk ≤ i) (hn : nk = 4 ∨ nk = 6 ∨ nk = 8) (hm : i % nk = 0 ∨ (nk = 8 ∧ i % nk = 4)) :
    ∀ t, 0 < t → t < 4 → expand nk key (i + t) = xorWord (expand nk key (i - nk + t)) (expand nk key (i + t - 1)) := by
  intro t h1 h2
  rw [expand_plain key (by omega) (by omega) (by rcases hn with rfl | rfl | rfl <;> omega) (by rcases hn with rfl | rfl | rfl <;> omega),
    show i + t - nk = i - nk + t from by omega]

theorem beWord_eq {key : List Byte} {i : Nat} (h : 4 * i + 4 ≤ key.length) :
    ∃ v, beWord key (4 * i) = .ok v ∧ wordByte v = keyWords key i := by
  refine ⟨pack key[4 * i] key[4 * i + 1] key[4 * i + 2] key[4 * i + 3], ?_, ?_⟩
  · rw [beWord, rd_ok (by omega), ok_bind, rd_ok (by omega), ok_bind, rd_ok (by omega), ok_bind, rd_ok (by omega)]
    rfl
  · obtain ⟨h0, h1, h2, h3⟩ := wordByte_pack key[4 * i] key[4 * i + 1] key[4 * i + 2] key[4 * i + 3]
    funext r
    match r with
    | 0 => rw [h0]; simp only [keyWords]; rw [dif_pos (by show 4 * i + 0 < _; omega)]; rfl
    | 1 => rw [h1]; simp only [keyWords]; rw [dif_pos (by show 4 * i + 1 < _; omega)]; rfl
    | 2 => rw [h2]; simp only [keyWords]; rw [dif_pos (by show 4 * i + 2 < _; omega)]; rfl
    | 3 => rw [h3]; simp only [keyWords]; rw [dif_pos (by show 4 * i + 3 < _; omega)]; rfl

theorem loadKey_ok {key : List Byte} {rk : List Word} {nk N : Nat} (hl : rk.length = N) (hk : key.length = 4 * nk) (hn : nk ≤ N) :
    ∃ rk', loadKey nk key rk = .ok rk' ∧ rk'.length = N ∧ Sched rk' (expand nk (keyWords key)) nk := by
  obtain ⟨s, h1, h2⟩ := loopN_inv (f := fun i rk => do
      let w ← beWord key (4 * i)
      Cex.wr rk i w) (fun i rk => rk.length = N ∧ Sched rk (expand nk (keyWords key)) i) nk 0 rk
    (fun j s _ hj hp => by
      obtain ⟨v, hv, ev⟩ := beWord_eq (key := key) (i := j) (by omega)
      obtain ⟨rk', a1, a2, a3⟩ := Sched.wr hp.1 hp.2 (show j < N by omega) (v := v) (by rw [ev, expand_low _ (by omega)])
      exact ⟨rk', by simp only [hv, ok_bind, a1], a2, a3⟩)
    ⟨hl, fun i hi => absurd hi (by omega)⟩
  rw [Nat.zero_add] at h2
  exact ⟨s, h1, h2⟩

/-- The round constants used by AES. -/
theorem rcon_ok (r : Nat) (h : 1 ≤ r ∧ r ≤ 10) : ∃ c, Cex.rd rcon r = .ok c ∧ wordByte c = rconWord r := by
  have key : ∀ r : Fin 11, 1 ≤ r.val → (match rcon[r.val]? with
      | some c => wordByte c 0 = rconWord r.val 0 ∧ wordByte c 1 = 0 ∧ wordByte c 2 = 0 ∧ wordByte c 3 = 0
      | none => False) := by
    intro r
    match r with
    | 0 => intro h; exact absurd h (by decide)
    | 1 => intro _; exact ⟨by decide +kernel, by decide +kernel, by decide +kernel, by decide +kernel⟩
    | 2 => intro _; exact ⟨by decide +kernel, by decide +kernel, by decide +kernel, by decide +kernel⟩
    | 3 => intro _; exact ⟨by decide +kernel, by decide +kernel, by decide +kernel, by decide +kernel⟩
    | 4 => intro _; exact ⟨by decide +kernel, by decide +kernel, by decide +kernel, by decide +kernel⟩
    | 5 => intro _; exact ⟨by decide +kernel, by decide +kernel, by decide +kernel, by decide +kernel⟩
    | 6 => intro _; exact ⟨by decide +kernel, by decide +kernel, by decide +kernel, by decide +kernel⟩
    | 7 => intro _; exact ⟨by decide +kernel, by decide +kernel, by decide +kernel, by decide +kernel⟩
    | 8 => intro _; exact ⟨by decide +kernel, by decide +kernel, by decide +kernel, by decide +kernel⟩
    | 9 => intro _; exact ⟨by decide +kernel, by decide +kernel, by decide +kernel, by decide +kernel⟩
    | 10 => intro _; exact ⟨by decide +kernel, by decide +kernel, by decide +kernel, by decide +kernel⟩
  have := key ⟨r, by omega⟩ h.1
  cases hc : rcon[r]? with
  | none => simp only [hc] at this
  | some c =>
    simp only [hc] at this
    obtain ⟨h0, h1, h2, h3⟩ := this
    refine ⟨c, by simp [Cex.rd, hc], ?_⟩
    funext k
    match k with
    | 0 => exact h0
    | 1 => exact h1
    | 2 => exact h2
    | 3 => exact h3

theorem standardExpand_128 {key : List Byte} (hk : key.length = 16) :
    ∃ rk, standardExpand key = .ok (10, rk) ∧ rk.length = 44 ∧ Sched rk (expand 4 (keyWords key)) 44 := by
  obtain ⟨r0, a0, b0, s0⟩ := loadKey_ok (key := key) (rk := List.replicate 44 0) (nk := 4) (N := 44) (by rw [List.length_replicate]) hk (by omega)
  obtain ⟨c1, hc1, ec1⟩ := rcon_ok 1 (by omega)
  obtain ⟨r1, a1, b1, s1⟩ := expandRot_ok (i := 4) (off := 4) b0 s0 (by omega) (by omega) (by omega) hc1 ec1
    (expand_rot _ (by omega) (by omega) (by omega)) (expand_three _ (by omega) (by omega) (by omega))
  obtain ⟨c2, hc2, ec2⟩ := rcon_ok 2 (by omega)
  obtain ⟨r2, a2, b2, s2⟩ := expandRot_ok (i := 8) (off := 4) b1 s1 (by omega) (by omega) (by omega) hc2 ec2
    (expand_rot _ (by omega) (by omega) (by omega)) (expand_three _ (by omega) (by omega) (by omega))
  obtain ⟨c3, hc3, ec3⟩ := rcon_ok 3 (by omega)
  obtain ⟨r3, a3, b3, s3⟩ := expandRot_ok (i := 12) (off := 4) b2 s2 (by omega) (by omega) (by omega) hc3 ec3
    (expand_rot _ (by omega) (by omega) (by omega)) (expand_three _ (by omega) (by omega) (by omega))
  obtain ⟨c4, hc4, ec4⟩ := rcon_ok 4 (by omega)
  obtain ⟨r4, a4, b4, s4⟩ := expandRot_ok (i := 16) (off := 4) b3 s3 (by omega) (by omega) (by omega) hc4 ec4
    (expand_rot _ (by omega) (by omega) (by omega)) (expand_three _ (by omega) (by omega) (by omega))
  obtain ⟨c5, hc5, ec5⟩ := rcon_ok 5 (by omega)
  obtain ⟨r5, a5, b5, s5⟩ := expandRot_ok (i := 20) (off := 4) b4 s4 (by omega) (by omega) (by omega) hc5 ec5
    (expand_rot _ (by omega) (by omega) (by omega)) (expand_three _ (by omega) (by omega) (by omega))
  obtain ⟨c6, hc6, ec6⟩ := rcon_ok 6 (by omega)
  obtain ⟨r6, a6, b6, s6⟩ := expandRot_ok (i := 24) (off := 4) b5 s5 (by omega) (by omega) (by omega) hc6 ec6
    (expand_rot _ (by omega) (by omega) (by omega)) (expand_three _ (by omega) (by omega) (by omega))
  obtain ⟨c7, hc7, ec7⟩ := rcon_ok 7 (by omega)
  obtain ⟨r7, a7, b7, s7⟩ := expandRot_ok (i := 28) (off := 4) b6 s6 (by omega) (by omega) (by omega) hc7 ec7
    (expand_rot _ (by omega) (by omega) (by omega)) (expand_three _ (by omega) (by omega) (by omega))
  obtain ⟨c8, hc8, ec8⟩ := rcon_ok 8 (by omega)
  obtain ⟨r8, a8, b8, s8⟩ := expandRot_ok (i := 32) (off := 4) b7 s7 (by omega) (by omega) (by omega) hc8 ec8
    (expand_rot _ (by omega) (by omega) (by omega)) (expand_three _ (by omega) (by omega) (by omega))
  obtain ⟨c9, hc9, ec9⟩ := rcon_ok 9 (by omega)
  obtain ⟨r9, a9, b9, s9⟩ := expandRot_ok (i := 36) (off := 4) b8 s8 (by omega) (by omega) (by omega) hc9 ec9
    (expand_rot _ (by omega) (by omega) (by omega)) (expand_three _ (by omega) (by omega) (by omega))
  obtain ⟨c10, hc10, ec10⟩ := rcon_ok 10 (by omega)
  obtain ⟨r10, a10, b10, s10⟩ := expandRot_ok (i := 40) (off := 4) b9 s9 (by omega) (by omega) (by omega) hc10 ec10
    (expand_rot _ (by omega) (by omega) (by omega)) (expand_three _ (by omega) (by omega) (by omega))
  refine ⟨r10, ?_, b10, s10⟩
  simp only [standardExpand, show key.length / 4 = 4 from by omega]
  rw [if_neg (by omega), if_neg (by omega)]
  simp only [show 4 * (4 + 6 + 1) = 44 from rfl]
  rw [a0, ok_bind, a1, ok_bind, a2, ok_bind, a3, ok_bind, a4, ok_bind, a5, ok_bind, a6, ok_bind, a7, ok_bind, a8, ok_bind, a9, ok_bind, a10, ok_bind]
  rfl

theorem standardExpand_192 {key : List Byte} (hk : key.length = 24) :
    ∃ rk, standardExpand key = .ok (12, rk) ∧ rk.length = 52 ∧ Sched rk (expand 6 (keyWords key)) 52 := by
  obtain ⟨r0, a0, b0, s0⟩ := loadKey_ok (key := key) (rk := List.replicate 52 0) (nk := 6) (N := 52) (by rw [List.length_replicate]) hk (by omega)
  obtain ⟨c1, hc1, ec1⟩ := rcon_ok 1 (by omega)
  obtain ⟨r1, a1, b1, s1⟩ := expandRot_ok (i := 6) (off := 6) b0 s0 (by omega) (by omega) (by omega) hc1 ec1
    (expand_rot _ (by omega) (by omega) (by omega)) (expand_three _ (by omega) (by omega) (by omega))
  obtain ⟨r2, a2, b2, s2⟩ := chain_ok (i := 10) (j := 4) b1 s1 (by omega) (by omega) (by omega)
    (expand_plain _ (by omega) (by omega) (by omega) (by omega))
  obtain ⟨r3, a3, b3, s3⟩ := chain_ok (i := 11) (j := 5) b2 s2 (by omega) (by omega) (by omega)
    (expand_plain _ (by omega) (by omega) (by omega) (by omega))
  obtain ⟨c4, hc4, ec4⟩ := rcon_ok 2 (by omega)
  obtain ⟨r4, a4, b4, s4⟩ := expandRot_ok (i := 12) (off := 6) b3 s3 (by omega) (by omega) (by omega) hc4 ec4
    (expand_rot _ (by omega) (by omega) (by omega)) (expand_three _ (by omega) (by omega) (by omega))
  obtain ⟨r5, a5, b5, s5⟩ := chain_ok (i := 16) (j := 10) b4 s4 (by omega) (by omega) (by omega)
    (expand_plain _ (by omega) (by omega) (by omega) (by omega))
  obtain ⟨r6, a6, b6, s6⟩ := chain_ok (i := 17) (j := 11) b5 s5 (by omega) (by omega) (by omega)
    (expand_plain _ (by omega) (by omega) (by omega) (by omega))
  obtain ⟨c7, hc7, ec7⟩ := rcon_ok 3 (by omega)
  obtain ⟨r7, a7, b7, s7⟩ := expandRot_ok (i := 18) (off := 6) b6 s6 (by omega) (by omega) (by omega) hc7 ec7
    (expand_rot _ (by omega) (by omega) (by omega)) (expand_three _ (by omega) (by omega) (by omega))
  obtain ⟨r8, a8, b8, s8⟩ := chain_ok (i := 22) (j := 16) b7 s7 (by omega) (by omega) (by omega)
    (expand_plain _ (by omega) (by omega) (by omega) (by omega))
  obtain ⟨r9, a9, b9, s9⟩ := chain_ok (i := 23) (j := 17) b8 s8 (by omega) (by omega) (by omega)
    (expand_plain _ (by omega) (by omega) (by omega) (by omega))
  obtain ⟨c10, hc10, ec10⟩ := rcon_ok 4 (by omega)
  obtain ⟨r10, a10, b10, s10⟩ := expandRot_ok (i := 24) (off := 6) b9 s9 (by omega) (by omega) (by omega) hc10 ec10
    (expand_rot _ (by omega) (by omega) (by omega)) (expand_three _ (by omega) (by omega) (by omega))
  obtain ⟨r11, a11, b11, s11⟩ := chain_ok (i := 28) (j := 22) b10 s10 (by omega) (by omega) (by omega)
    (expand_plain _ (by omega) (by omega) (by omega) (by omega))
  obtain ⟨r12, a12, b12, s12⟩ := chain_ok (i := 29) (j := 23) b11 s11 (by omega) (by omega) (by omega)
    (expand_plain _ (by omega) (by omega) (by omega) (by omega))
  obtain ⟨c13, hc13, ec13⟩ := rcon_ok 5 (by omega)
  obtain ⟨r13, a13, b13, s13⟩ := expandRot_ok (i := 30) (off := 6) b12 s12 (by omega) (by omega) (by omega) hc13 ec13
    (expand_rot _ (by omega) (by omega) (by omega)) (expand_three _ (by omega) (by omega) (by omega))
  obtain ⟨r14, a14, b14, s14⟩ := chain_ok (i := 34) (j := 28) b13 s13 (by omega) (by omega) (by omega)
    (expand_plain _ (by omega) (by omega) (by omega) (by omega))
  obtain ⟨r15, a15, b15, s15⟩ := chain_ok (i := 35) (j := 29) b14 s14 (by omega) (by omega) (by omega)
    (expand_plain _ (by omega) (by omega) (by omega) (by omega))
  obtain ⟨c16, hc16, ec16⟩ := rcon_ok 6 (by omega)
  obtain ⟨r16, a16, b16, s16⟩ := expandRot_ok (i := 36) (off := 6) b15 s15 (by omega) (by omega) (by omega) hc16 ec16
    (expand_rot _ (by omega) (by omega) (by omega)) (expand_three _ (by omega) (by omega) (by omega))
  obtain ⟨r17, a17, b17, s17⟩ := chain_ok (i := 40) (j := 34) b16 s16 (by omega) (by omega) (by omega)
    (expand_plain _ (by omega) (by omega) (by omega) (by omega))
  obtain ⟨r18, a18, b18, s18⟩ := chain_ok (i := 41) (j := 35) b17 s17 (by omega) (by omega) (by omega)
    (expand_plain _ (by omega) (by omega) (by omega) (by omega))
  obtain ⟨c19, hc19, ec19⟩ := rcon_ok 7 (by omega)
  obtain ⟨r19, a19, b19, s19⟩ := expandRot_ok (i := 42) (off := 6) b18 s18 (by omega) (by omega) (by omega) hc19 ec19
    (expand_rot _ (by omega) (by omega) (by omega)) (expand_three _ (by omega) (by omega) (by omega))
  obtain ⟨r20, a20, b20, s20⟩ := chain_ok (i := 46) (j := 40) b19 s19 (by omega) (by omega) (by omega)
    (expand_plain _ (by omega) (by omega) (by omega) (by omega))
  obtain ⟨r21, a21, b21, s21⟩ := chain_ok (i := 47) (j := 41) b20 s20 (by omega) (by omega) (by omega)
    (expand_plain _ (by omega) (by omega) (by omega) (by omega))
  obtain ⟨c22, hc22, ec22⟩ := rcon_ok 8 (by omega)
  obtain ⟨r22, a22, b22, s22⟩ := expandRot_ok (i := 48) (off := 6) b21 s21 (by omega) (by omega) (by omega) hc22 ec22
    (expand_rot _ (by omega) (by omega) (by omega)) (expand_three _ (by omega) (by omega) (by omega))
  refine ⟨r22, ?_, b22, s22⟩
  simp only [standardExpand, show key.length / 4 = 6 from by omega]
  rw [if_neg (by omega), if_pos trivial]
  simp only [show 4 * (6 + 6 + 1) = 52 from rfl]
  rw [a0, ok_bind, a1, ok_bind, a2, ok_bind, a3, ok_bind, a4, ok_bind, a5, ok_bind, a6, ok_bind, a7, ok_bind, a8, ok_bind, a9, ok_bind, a10, ok_bind, a11, ok_bind, a12, ok_bind, a13, ok_bind, a14, ok_bind, a15, ok_bind, a16, ok_bind, a17, ok_bind, a18, ok_bind, a19, ok_bind, a20, ok_bind, a21, ok_bind, a22, ok_bind]
  rfl

theorem standardExpand_256 {key : List Byte} (hk : key.length = 32) :
    ∃ rk, standardExpand key = .ok (14, rk) ∧ rk.length = 60 ∧ Sched rk (expand 8 (keyWords key)) 60 := by
  obtain ⟨r0, a0, b0, s0⟩ := loadKey_ok (key := key) (rk := List.replicate 60 0) (nk := 8) (N := 60) (by rw [List.length_replicate]) hk (by omega)
  obtain ⟨c1, hc1, ec1⟩ := rcon_ok 1 (by omega)
  obtain ⟨r1, a1, b1, s1⟩ := expandRot_ok (i := 8) (off := 8) b0 s0 (by omega) (by omega) (by omega) hc1 ec1
    (expand_rot _ (by omega) (by omega) (by omega)) (expand_three _ (by omega) (by omega) (by omega))
  obtain ⟨r2, a2, b2, s2⟩ := expandSub_ok (i := 12) (off := 8) b1 s1 (by omega) (by omega) (by omega)
    (expand_sub _ (by omega) (by omega) (by omega)) (expand_three _ (by omega) (by omega) (by omega))
  obtain ⟨c3, hc3, ec3⟩ := rcon_ok 2 (by omega)
  obtain ⟨r3, a3, b3, s3⟩ := expandRot_ok (i := 16) (off := 8) b2 s2 (by omega) (by omega) (by omega) hc3 ec3
    (expand_rot _ (by omega) (by omega) (by omega)) (expand_three _ (by omega) (by omega) (by omega))
  obtain ⟨r4, a4, b4, s4⟩ := expandSub_ok (i := 20) (off := 8) b3 s3 (by omega) (by omega) (by omega)
    (expand_sub _ (by omega) (by omega) (by omega)) (expand_three _ (by omega) (by omega) (by omega))
  obtain ⟨c5, hc5, ec5⟩ := rcon_ok 3 (by omega)
  obtain ⟨r5, a5, b5, s5⟩ := expandRot_ok (i := 24) (off := 8) b4 s4 (by omega) (by omega) (by omega) hc5 ec5
    (expand_rot _ (by omega) (by omega) (by omega)) (expand_three _ (by omega) (by omega) (by omega))
  obtain ⟨r6, a6, b6, s6⟩ := expandSub_ok (i := 28) (off := 8) b5 s5 (by omega) (by omega) (by omega)
    (expand_sub _ (by omega) (by omega) (by omega)) (expand_three _ (by omega) (by omega) (by omega))
  obtain ⟨c7, hc7, ec7⟩ := rcon_ok 4 (by omega)
  obtain ⟨r7, a7, b7, s7⟩ := expandRot_ok (i := 32) (off := 8) b6 s6 (by omega) (by omega) (by omega) hc7 ec7
    (expand_rot _ (by omega) (by omega) (by omega)) (expand_three _ (by omega) (by omega) (by omega))
  obtain ⟨r8, a8, b8, s8⟩ := expandSub_ok (i := 36) (off := 8) b7 s7 (by omega) (by omega) (by omega)
    (expand_sub _ (by omega) (by omega) (by omega)) (expand_three _ (by omega) (by omega) (by omega))
  obtain ⟨c9, hc9, ec9⟩ := rcon_ok 5 (by omega)
  obtain ⟨r9, a9, b9, s9⟩ := expandRot_ok (i := 40) (off := 8) b8 s8 (by omega) (by omega) (by omega) hc9 ec9
    (expand_rot _ (by omega) (by omega) (by omega)) (expand_three _ (by omega) (by omega) (by omega))
  obtain ⟨r10, a10, b10, s10⟩ := expandSub_ok (i := 44) (off := 8) b9 s9 (by omega) (by omega) (by omega)
    (expand_sub _ (by omega) (by omega) (by omega)) (expand_three _ (by omega) (by omega) (by omega))
  obtain ⟨c11, hc11, ec11⟩ := rcon_ok 6 (by omega)
  obtain ⟨r11, a11, b11, s11⟩ := expandRot_ok (i := 48) (off := 8) b10 s10 (by omega) (by omega) (by omega) hc11 ec11
    (expand_rot _ (by omega) (by omega) (by omega)) (expand_three _ (by omega) (by omega) (by omega))
  obtain ⟨r12, a12, b12, s12⟩ := expandSub_ok (i := 52) (off := 8) b11 s11 (by omega) (by omega) (by omega)
    (expand_sub _ (by omega) (by omega) (by omega)) (expand_three _ (by omega) (by omega) (by omega))
  obtain ⟨c13, hc13, ec13⟩ := rcon_ok 7 (by omega)
  obtain ⟨r13, a13, b13, s13⟩ := expandRot_ok (i := 56) (off := 8) b12 s12 (by omega) (by omega) (by omega) hc13 ec13
    (expand_rot _ (by omega) (by omega) (by omega)) (expand_three _ (by omega) (by omega) (by omega))
  refine ⟨r13, ?_, b13, s13⟩
  simp only [standardExpand, show key.length / 4 = 8 from by omega]
  rw [if_pos trivial]
  simp only [show 4 * (8 + 6 + 1) = 60 from rfl]
  rw [a0, ok_bind, a1, ok_bind, a2, ok_bind, a3, ok_bind, a4, ok_bind, a5, ok_bind, a6, ok_bind, a7, ok_bind, a8, ok_bind, a9, ok_bind, a10, ok_bind, a11, ok_bind, a12, ok_bind, a13, ok_bind]
  rfl

/-- The key expansion of FIPS 197, for the three key sizes. -/
theorem standardExpand_eq {key : List Byte} (hk : key.length = 16 ∨ key.length = 24 ∨ key.length = 32) :
    ∃ rk, standardExpand key = .ok (key.length / 4 + 6, rk) ∧ rk.length = 4 * (key.length / 4 + 7) ∧
      Sched rk (expand (key.length / 4) (keyWords key)) (4 * (key.length / 4 + 6 + 1)) := by
  rcases hk with h | h | h
  · obtain ⟨rk, h1, h2, h3⟩ := standardExpand_128 h; rw [h]; exact ⟨rk, h1, h2, h3⟩
  · obtain ⟨rk, h1, h2, h3⟩ := standardExpand_192 h; rw [h]; exact ⟨rk, h1, h2, h3⟩
  · obtain ⟨rk, h1, h2, h3⟩ := standardExpand_256 h; rw [h]; exact ⟨rk, h1, h2, h3⟩

end Cex.Rijndael
