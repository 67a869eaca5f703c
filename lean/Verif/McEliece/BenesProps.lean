import Verif.McEliece.BenesModel
import Mathlib.Logic.Equiv.Basic

/-!
# C105: the Benes network permutes the bits, and its reverse is the inverse permutation
-/

namespace Cex.McEliece.Benes

/-- A position: word and bit. -/
abbrev Pos := Fin 128 × Fin 64

def get (D : W) (p : Pos) : Bool := (D p.1).getLsbD p.2.val

theorem get_ext {D E : W} (h : ∀ p, get D p = get E p) : D = E := by
  funext j
  ext i hi
  have := h (j, ⟨i, hi⟩)
  simpa [get, BitVec.getLsbD_eq_getElem hi] using this

theorem m0_bit : ∀ d : Fin 6, ∀ c : Fin 64, (m0 d).getLsbD c.val = !c.val.testBit d.val := by decide +kernel
theorem m1_bit : ∀ d : Fin 6, ∀ c : Fin 64, (m1 d).getLsbD c.val = c.val.testBit d.val := by decide +kernel

/-- Bit `d` of the word index and of the bit index are exchanged. -/
def sw (d : Fin 6) (p : Pos) : Pos :=
  if p.1.val.testBit d.val = p.2.val.testBit d.val then p else (mate d.val p.1, ⟨(p.2.val ^^^ 2 ^ d.val) % 64, Nat.mod_lt _ (by decide)⟩)

theorem idx_low : ∀ d : Fin 6, ∀ c : Fin 64, c.val.testBit d.val = false →
    (c.val < 2 ^ d.val ∨ (c.val - 2 ^ d.val).testBit d.val = true) ∧ c.val + 2 ^ d.val < 64 ∧ (c.val ^^^ 2 ^ d.val) % 64 = 2 ^ d.val + c.val
      ∧ (2 ^ d.val + c.val).testBit d.val = true := by decide +kernel

theorem idx_high : ∀ d : Fin 6, ∀ c : Fin 64, c.val.testBit d.val = true →
    2 ^ d.val ≤ c.val ∧ (c.val - 2 ^ d.val).testBit d.val = false ∧ (c.val ^^^ 2 ^ d.val) % 64 = c.val - 2 ^ d.val
      ∧ (2 ^ d.val + c.val < 64 → (2 ^ d.val + c.val).testBit d.val = false) := by decide +kernel

theorem stage_get (d : Fin 6) (D : W) (p : Pos) : get (stage d D) p = get D (sw d p) := by
  obtain ⟨j, c⟩ := p
  unfold get stage sw
  simp only []
  have hc := c.isLt
  cases hj : j.val.testBit d.val <;> cases hd : c.val.testBit d.val
  · -- both clear
    obtain ⟨h1, h2, h3, h4⟩ := idx_low d c hd
    simp only [Bool.false_eq_true, if_false, if_true, BitVec.getLsbD_or, BitVec.getLsbD_and, BitVec.getLsbD_shiftLeft, m0_bit, hd, Bool.not_false, Bool.and_true]
    rcases h1 with h1 | h1
    · simp [h1]
    · have := m0_bit d ⟨c.val - 2 ^ d.val, Nat.lt_of_le_of_lt (Nat.sub_le _ _) hc⟩
      simp only [h1, Bool.not_true] at this
      rw [this]; simp
  · obtain ⟨h1, h2, h3, h4⟩ := idx_high d c hd
    have := m0_bit d ⟨c.val - 2 ^ d.val, by omega⟩
    simp only [h2, Bool.not_false] at this
    simp only [Bool.false_eq_true, if_false, BitVec.getLsbD_or, BitVec.getLsbD_and, BitVec.getLsbD_shiftLeft, m0_bit, hd, this, h3, Bool.not_true, Bool.and_false, Bool.false_or, Bool.and_true]
    have h5 : ¬ c.val < 2 ^ d.val := by omega
    simp [hc, h5]
  · obtain ⟨h1, h2, h3, h4⟩ := idx_low d c hd
    have := m1_bit d ⟨2 ^ d.val + c.val, by omega⟩
    simp only [h4] at this
    simp only [Bool.true_eq_false, if_false, if_true, BitVec.getLsbD_or, BitVec.getLsbD_and, BitVec.getLsbD_ushiftRight, m1_bit, hd, this, h3, Bool.and_false, Bool.or_false, Bool.and_true]
  · obtain ⟨h1, h2, h3, h4⟩ := idx_high d c hd
    simp only [if_true, BitVec.getLsbD_or, BitVec.getLsbD_and, BitVec.getLsbD_ushiftRight, m1_bit, hd, Bool.and_true]
    by_cases h5 : 2 ^ d.val + c.val < 64
    · have := m1_bit d ⟨2 ^ d.val + c.val, h5⟩
      simp only [h4 h5] at this
      rw [this]; simp
    · rw [BitVec.getLsbD_of_ge (D (mate d.val j)) _ (by omega)]; simp

/-- Row and column exchanged, in each half. -/
def flip (p : Pos) : Pos := (⟨p.1.val / 64 * 64 + p.2.val, by omega⟩, ⟨p.1.val % 64, by omega⟩)

theorem sw_all : ∀ j : Fin 128, ∀ c : Fin 64, sw 5 (sw 4 (sw 3 (sw 2 (sw 1 (sw 0 (j, c)))))) = flip (j, c) := by decide +kernel

theorem tr_get (D : W) (p : Pos) : get (tr D) p = get D (flip p) := by
  unfold tr
  rw [stage_get, stage_get, stage_get, stage_get, stage_get, stage_get]
  exact congrArg (get D) (sw_all p.1 p.2)

theorem flip_flip (p : Pos) : flip (flip p) = p := by
  obtain ⟨⟨j, hj⟩, ⟨c, hc⟩⟩ := p
  unfold flip
  simp only [Prod.mk.injEq, Fin.mk.injEq]
  omega

/-- C105: `Transpose64x64` transposes: bit `c` of word `r` of the result is bit `r` of word `c`. -/
theorem C105_transpose (b : Fin 64 → BitVec 64) (r c : Fin 64) : (tr64 b r).getLsbD c.val = (b c).getLsbD r.val := by
  have := tr_get (fun j => b ⟨j.val % 64, Nat.mod_lt _ (by decide)⟩) (⟨r.val, by omega⟩, c)
  unfold tr64
  refine this.trans ?_
  unfold get flip
  simp only []
  have h1 : (⟨(r.val / 64 * 64 + c.val) % 64, Nat.mod_lt _ (by decide)⟩ : Fin 64) = c := Fin.ext (by simp only []; omega)
  rw [h1, Nat.mod_eq_of_lt r.isLt]

theorem tr_tr (D : W) : tr (tr D) = D := get_ext fun p => by rw [tr_get, tr_get, flip_flip]

theorem word_left : ∀ j : Fin 128, ((2 * (j.val % 64) + j.val / 64) % 128 % 2 * 64 + (2 * (j.val % 64) + j.val / 64) % 128 / 2) % 128 = j.val := by decide +kernel

theorem word_right : ∀ j : Fin 128, (2 * ((j.val % 2 * 64 + j.val / 2) % 128 % 64) + (j.val % 2 * 64 + j.val / 2) % 128 / 64) % 128 = j.val := by decide +kernel

theorem load_store (D : W) : load (store D) = D := funext fun j => congrArg D (Fin.ext (word_left j))

theorem store_load (D : W) : store (load D) = D := funext fun j => congrArg D (Fin.ext (word_right j))

theorem mate_mate : ∀ l : Fin 7, ∀ j : Fin 128, mate l.val (mate l.val j) = j := by decide +kernel

theorem layer_layer (l : Fin 7) (k : Fin 128 → Fin 64) (hk : ∀ j, k (mate l.val j) = k j) (b : Fin 64 → BitVec 64) (D : W) :
    layer l.val k b (layer l.val k b D) = D := by
  funext j
  unfold layer
  rw [hk, mate_mate]
  ext i hi
  simp only [BitVec.getElem_xor, BitVec.getElem_and]
  cases (D j)[i] <;> cases (D (mate l.val j))[i] <;> cases (b (k j))[i] <;> rfl

theorem pair_ex : ∀ l : Fin 7, ∀ j : Fin 128, pair l.val (mate l.val j).val % 64 = pair l.val j.val % 64 := by decide +kernel

theorem pair_in : ∀ l : Fin 6, ∀ j : Fin 128, (2 * pair l.val ((mate l.val j).val % 64) + (mate l.val j).val / 64) % 64
    = (2 * pair l.val (j.val % 64) + j.val / 64) % 64 := by decide +kernel

theorem ex_ex (l : Nat) (hl : l < 7) (b : Fin 64 → BitVec 64) (D : W) : layerEx l b (layerEx l b D) = D :=
  layer_layer ⟨l, hl⟩ _ (fun j => Fin.ext (pair_ex ⟨l, hl⟩ j)) b D

theorem in_in (l : Nat) (hl : l < 6) (b : Fin 64 → BitVec 64) (D : W) : layerIn l b (layerIn l b D) = D :=
  layer_layer ⟨l, by omega⟩ _ (fun j => Fin.ext (pair_in ⟨l, hl⟩ j)) b D

theorem pair_ex_inj : ∀ l : Fin 7, ∀ i j : Fin 128, pair l.val i.val % 64 = pair l.val j.val % 64 → i = j ∨ i = mate l.val j := by decide +kernel

theorem pair_in_inj : ∀ l : Fin 6, ∀ i j : Fin 128, (2 * pair l.val (i.val % 64) + i.val / 64) % 64 = (2 * pair l.val (j.val % 64) + j.val / 64) % 64 →
    i = j ∨ i = mate l.val j := by decide +kernel

open Classical in
theorem layer_free (l : Nat) (k : Fin 128 → Fin 64) (hk : ∀ i j, k i = k j → i = j ∨ i = mate l j) (s : Fin 128 → Bool) (hs : ∀ j, s (mate l j) = s j) :
    ∃ b, ∀ D j, layer l k b D j = if s j then D (mate l j) else D j := by
  refine ⟨fun n => if ∃ i, k i = n ∧ s i = true then BitVec.allOnes 64 else 0#64, fun D j => ?_⟩
  show D j ^^^ ((D j ^^^ D (mate l j)) &&& (if ∃ i, k i = k j ∧ s i = true then BitVec.allOnes 64 else 0#64)) = _
  by_cases h : s j = true
  · have hp : ∃ i, k i = k j ∧ s i = true := ⟨j, rfl, h⟩
    rw [if_pos hp, if_pos h, BitVec.and_allOnes, ← BitVec.xor_assoc, BitVec.xor_self, BitVec.zero_xor]
  · have hn : ¬ ∃ i, k i = k j ∧ s i = true := by
      rintro ⟨i, h1, h2⟩
      rcases hk i j h1 with e | e
      · exact h (e ▸ h2)
      · rw [e, hs] at h2; exact h h2
    rw [if_neg hn, if_neg h, BitVec.and_zero, BitVec.xor_zero]

/-- C105: the pairs of a layer are exchanged independently: for every choice of pairs (a set of words closed under the exchange `j ↔ j xor 2^l`) there are control words that exchange these pairs and no others. -/
theorem C105_control (l : Nat) (s : Fin 128 → Bool) (hs : ∀ j, s (mate l j) = s j) :
    (l < 7 → ∃ b, ∀ D j, layerEx l b D j = if s j then D (mate l j) else D j)
    ∧ (l < 6 → ∃ b, ∀ D j, layerIn l b D j = if s j then D (mate l j) else D j) :=
  ⟨fun h => layer_free l _ (fun i j e => pair_ex_inj ⟨l, h⟩ i j (congrArg Fin.val e)) s hs,
   fun h => layer_free l _ (fun i j e => pair_in_inj ⟨l, h⟩ i j (congrArg Fin.val e)) s hs⟩

/-- C105: `ApplyBenes` with `Reverse` undoes `ApplyBenes`, and the other way round, for all control bits and all strings. -/
theorem C105_inverse (c : Nat → Fin 64 → BitVec 64) (R : W) :
    applyBenes c true (applyBenes c false R) = R ∧ applyBenes c false (applyBenes c true R) = R := by
  have e0 := ex_ex 0 (by decide); have e1 := ex_ex 1 (by decide); have e2 := ex_ex 2 (by decide); have e3 := ex_ex 3 (by decide)
  have e4 := ex_ex 4 (by decide); have e5 := ex_ex 5 (by decide); have e6 := ex_ex 6 (by decide)
  have i0 := in_in 0 (by decide); have i1 := in_in 1 (by decide); have i2 := in_in 2 (by decide); have i3 := in_in 3 (by decide)
  have i4 := in_in 4 (by decide); have i5 := in_in 5 (by decide)
  constructor
  · simp only [applyBenes, run, if_true, Bool.false_eq_true, if_false, Nat.reduceSub, load_store, tr_tr, e0, e1, e2, e3, e4, e5, e6, i0, i1, i2, i3, i4, i5, store_load]
  · simp only [applyBenes, run, if_true, Bool.false_eq_true, if_false, Nat.reduceSub, load_store, tr_tr, e0, e1, e2, e3, e4, e5, e6, i0, i1, i2, i3, i4, i5, store_load]

/-! ## Permutations -/

/-- The map permutes the bits of the string, by one permutation for all strings. -/
def IsPerm (F : W → W) : Prop := ∃ s : Equiv.Perm Pos, ∀ D p, get (F D) p = get D (s p)

theorem IsPerm.comp {F G : W → W} (hF : IsPerm F) (hG : IsPerm G) : IsPerm (fun D => F (G D)) := by
  obtain ⟨s, hs⟩ := hF
  obtain ⟨t, ht⟩ := hG
  exact ⟨s.trans t, fun D p => by rw [hs, ht]; rfl⟩

theorem tr_perm : IsPerm tr := ⟨Function.Involutive.toPerm flip flip_flip, fun D p => tr_get D p⟩

theorem layer_perm (l : Fin 7) (k : Fin 128 → Fin 64) (hk : ∀ j, k (mate l.val j) = k j) (b : Fin 64 → BitVec 64) : IsPerm (layer l.val k b) := by
  let f : Pos → Pos := fun p => if (b (k p.1)).getLsbD p.2.val then (mate l.val p.1, p.2) else p
  have hf : Function.Involutive f := by
    intro p
    by_cases h : (b (k p.1)).getLsbD p.2.val = true
    · have h1 : f p = (mate l.val p.1, p.2) := if_pos h
      rw [h1]
      show (if (b (k (mate l.val p.1))).getLsbD p.2.val = true then (mate l.val (mate l.val p.1), p.2) else (mate l.val p.1, p.2)) = p
      rw [hk, if_pos h, mate_mate]
    · have h1 : f p = p := if_neg h
      rw [h1, h1]
  refine ⟨hf.toPerm, fun D p => ?_⟩
  show get _ p = get D (f p)
  by_cases h : (b (k p.1)).getLsbD p.2.val = true
  · have h1 : f p = (mate l.val p.1, p.2) := if_pos h
    rw [h1]
    unfold get layer
    simp only [BitVec.getLsbD_xor, BitVec.getLsbD_and, h]
    cases (D p.1).getLsbD p.2.val <;> cases (D (mate l.val p.1)).getLsbD p.2.val <;> rfl
  · have h1 : f p = p := if_neg h
    rw [h1]
    unfold get layer
    simp only [BitVec.getLsbD_xor, BitVec.getLsbD_and, Bool.not_eq_true] at h ⊢
    rw [h]; simp

theorem ex_perm (l : Nat) (hl : l < 7) (b : Fin 64 → BitVec 64) : IsPerm (layerEx l b) :=
  layer_perm ⟨l, hl⟩ _ (fun j => Fin.ext (pair_ex ⟨l, hl⟩ j)) b

theorem in_perm (l : Nat) (hl : l < 6) (b : Fin 64 → BitVec 64) : IsPerm (layerIn l b) :=
  layer_perm ⟨l, by omega⟩ _ (fun j => Fin.ext (pair_in ⟨l, hl⟩ j)) b

/-- The word permutation of `load`. -/
def words : Equiv.Perm (Fin 128) where
  toFun j := ⟨(2 * (j.val % 64) + j.val / 64) % 128, Nat.mod_lt _ (by decide)⟩
  invFun w := ⟨(w.val % 2 * 64 + w.val / 2) % 128, Nat.mod_lt _ (by decide)⟩
  left_inv j := Fin.ext (word_left j)
  right_inv j := Fin.ext (word_right j)

theorem load_perm : IsPerm load := ⟨words.prodCongr (Equiv.refl _), fun _ _ => rfl⟩

theorem store_perm : IsPerm store := ⟨words.symm.prodCongr (Equiv.refl _), fun _ _ => rfl⟩

/-- C105: `ApplyBenes` permutes the 8192 bits; the permutation depends on the control bits only. -/
theorem C105_perm (c : Nat → Fin 64 → BitVec 64) (reverse : Bool) : IsPerm (applyBenes c reverse) := by
  unfold applyBenes
  generalize (if reverse then fun t => c (24 - t) else c) = c
  unfold run
  exact store_perm.comp (tr_perm.comp ((ex_perm 0 (by decide) _).comp ((ex_perm 1 (by decide) _).comp ((ex_perm 2 (by decide) _).comp
    ((ex_perm 3 (by decide) _).comp ((ex_perm 4 (by decide) _).comp ((ex_perm 5 (by decide) _).comp ((ex_perm 6 (by decide) _).comp
    (tr_perm.comp ((in_perm 0 (by decide) _).comp ((in_perm 1 (by decide) _).comp ((in_perm 2 (by decide) _).comp ((in_perm 3 (by decide) _).comp
    ((in_perm 4 (by decide) _).comp ((in_perm 5 (by decide) _).comp ((in_perm 4 (by decide) _).comp ((in_perm 3 (by decide) _).comp
    ((in_perm 2 (by decide) _).comp ((in_perm 1 (by decide) _).comp ((in_perm 0 (by decide) _).comp
    (tr_perm.comp ((ex_perm 6 (by decide) _).comp ((ex_perm 5 (by decide) _).comp ((ex_perm 4 (by decide) _).comp ((ex_perm 3 (by decide) _).comp
    ((ex_perm 2 (by decide) _).comp ((ex_perm 1 (by decide) _).comp ((ex_perm 0 (by decide) _).comp
    (tr_perm.comp load_perm)))))))))))))))))))))))))))))

/-! ## The support -/

theorem rev_lt : ∀ a : Fin 128, ∀ b : Fin 64, (bitReverse (BitVec.ofNat 16 (64 * a.val + b.val))).toNat < 8192 := by decide +kernel

theorem rev_rev : ∀ a : Fin 128, ∀ b : Fin 64, bitReverse (bitReverse (BitVec.ofNat 16 (64 * a.val + b.val))) = BitVec.ofNat 16 (64 * a.val + b.val) := by decide +kernel

/-- C105: `BitReverse` reverses the 13 bits of a field element. -/
theorem C105_bitReverse (a : BitVec 16) (j : Nat) (h : j < 13) : (bitReverse a).getLsbD j = a.getLsbD (12 - j) := by
  unfold bitReverse
  have : j = 0 ∨ j = 1 ∨ j = 2 ∨ j = 3 ∨ j = 4 ∨ j = 5 ∨ j = 6 ∨ j = 7 ∨ j = 8 ∨ j = 9 ∨ j = 10 ∨ j = 11 ∨ j = 12 := by omega
  rcases this with e | e | e | e | e | e | e | e | e | e | e | e | e <;> subst e <;> simp

theorem collect : ∀ a : Fin 128, ∀ b : Fin 64, gather (fun j => (BitVec.ofNat 16 (64 * a.val + b.val)).getLsbD j) = BitVec.ofNat 16 (64 * a.val + b.val) := by
  decide +kernel

theorem collect' (y : BitVec 16) (h : y.toNat < 8192) : gather (fun j => y.getLsbD j) = y := by
  have := collect ⟨y.toNat / 64, by omega⟩ ⟨y.toNat % 64, by omega⟩
  simp only [Nat.div_add_mod, BitVec.ofNat_toNat, BitVec.setWidth_eq] at this
  exact this

theorem orBits_bit (f : Nat → Bool) (n i : Nat) (hn : n ≤ 64) : (orBits f n).getLsbD i = (decide (i < n) && f i) := by
  induction n with
  | zero => simp [orBits]
  | succ n ih =>
    have e : orBits f (n + 1) = orBits f n ||| (if f n then 1#64 <<< n else 0#64) := by
      unfold orBits; rw [List.range_succ, List.foldl_append]; rfl
    rw [e, BitVec.getLsbD_or, ih (by omega)]
    have hs : (if f n then 1#64 <<< n else 0#64).getLsbD i = (decide (i = n) && f n) := by
      cases f n
      · simp
      · simp only [if_true, BitVec.getLsbD_shiftLeft, BitVec.getLsbD_one, Bool.and_true]
        by_cases h : i = n
        · subst h; simp; omega
        · by_cases h2 : i < n
          · simp [h, h2]
          · have : ¬ i - n = 0 := by omega
            simp [h, this]
    rw [hs]
    by_cases h : i = n
    · subst h; simp
    · by_cases h2 : i < n
      · have : i < n + 1 := by omega
        simp [h, h2, this]
      · have : ¬ i < n + 1 := by omega
        simp [h, h2, this]

theorem plane_get (j : Nat) (p : Pos) : get (plane j) p = (bitReverse (BitVec.ofNat 16 (64 * p.1.val + p.2.val))).getLsbD j := by
  obtain ⟨w, b⟩ := p
  have hb := b.isLt
  unfold get plane
  simp only [orBits_bit _ 64 _ (Nat.le_refl _), hb, decide_true, Bool.true_and]

/-- C105: whatever the control bits are, the support is the bit-reversed image of a permutation of the 8192 positions. -/
theorem C105_support (c : Nat → Fin 64 → BitVec 64) : ∃ s : Equiv.Perm Pos, ∀ i (h : i < 8192),
    supportGen c i h = bitReverse (BitVec.ofNat 16 (64 * (s (⟨i / 64, by omega⟩, ⟨i % 64, by omega⟩)).1.val + (s (⟨i / 64, by omega⟩, ⟨i % 64, by omega⟩)).2.val)) := by
  obtain ⟨s, hs⟩ := C105_perm c false
  refine ⟨s, fun i h => ?_⟩
  generalize hp : s (⟨i / 64, by omega⟩, ⟨i % 64, by omega⟩) = p
  have hb : ∀ j, (applyBenes c false (plane j) ⟨i / 64, by omega⟩).getLsbD (i % 64) = (bitReverse (BitVec.ofNat 16 (64 * p.1.val + p.2.val))).getLsbD j := by
    intro j
    have := hs (plane j) (⟨i / 64, by omega⟩, ⟨i % 64, by omega⟩)
    rw [hp, plane_get] at this
    exact this
  unfold supportGen
  simp only [hb]
  exact collect' _ (rev_lt p.1 p.2)

/-- C105: the elements of the support are field elements, and no two of them are equal: for all control bits. -/
theorem C105_distinct (c : Nat → Fin 64 → BitVec 64) (i j : Nat) (hi : i < 8192) (hj : j < 8192) :
    (supportGen c i hi).toNat < 8192 ∧ (supportGen c i hi = supportGen c j hj → i = j) := by
  obtain ⟨s, hs⟩ := C105_support c
  refine ⟨by rw [hs]; exact rev_lt _ _, fun h => ?_⟩
  rw [hs, hs] at h
  have h1 := congrArg bitReverse h
  rw [rev_rev, rev_rev] at h1
  have h2 := congrArg BitVec.toNat h1
  simp only [BitVec.toNat_ofNat] at h2
  generalize hp : s (⟨i / 64, by omega⟩, ⟨i % 64, by omega⟩) = p at h2
  generalize hq : s (⟨j / 64, by omega⟩, ⟨j % 64, by omega⟩) = q at h2
  have e1 : p.1.val = q.1.val := by omega
  have e2 : p.2.val = q.2.val := by omega
  have e : p = q := Prod.ext (Fin.ext e1) (Fin.ext e2)
  rw [← hp, ← hq] at e
  have h3 := s.injective e
  have h4 := congrArg (fun p : Pos => p.1.val) h3
  have h5 := congrArg (fun p : Pos => p.2.val) h3
  simp only [] at h4 h5
  omega

/-- C105: every field element is in the support. -/
theorem C105_all (c : Nat → Fin 64 → BitVec 64) (x : BitVec 16) (hx : x.toNat < 8192) : ∃ i, ∃ h : i < 8192, supportGen c i h = x := by
  obtain ⟨s, hs⟩ := C105_support c
  have hx' : BitVec.ofNat 16 (64 * (x.toNat / 64) + x.toNat % 64) = x := by rw [Nat.div_add_mod]; simp
  have hy : (bitReverse x).toNat < 8192 := by
    have := rev_lt ⟨x.toNat / 64, by omega⟩ ⟨x.toNat % 64, by omega⟩
    rw [hx'] at this; exact this
  generalize hp : s.symm (⟨(bitReverse x).toNat / 64, by omega⟩, ⟨(bitReverse x).toNat % 64, by omega⟩) = p
  have hp2 : s p = (⟨(bitReverse x).toNat / 64, by omega⟩, ⟨(bitReverse x).toNat % 64, by omega⟩) := by rw [← hp]; simp
  refine ⟨64 * p.1.val + p.2.val, by omega, ?_⟩
  rw [hs]
  have e : ((⟨(64 * p.1.val + p.2.val) / 64, by omega⟩, ⟨(64 * p.1.val + p.2.val) % 64, by omega⟩) : Pos) = p :=
    Prod.ext (Fin.ext (by simp only []; omega)) (Fin.ext (by simp only []; omega))
  rw [e, hp2]
  simp only [Nat.div_add_mod, BitVec.ofNat_toNat, BitVec.setWidth_eq]
  have := rev_rev ⟨x.toNat / 64, by omega⟩ ⟨x.toNat % 64, by omega⟩
  rw [hx'] at this; exact this

/-- A control word that is not zero moves a bit: the network is not the identity. -/
theorem C105_moves : layerIn 0 (fun i => if i = 0 then 1#64 else 0#64) (fun j => if j = 0 then 1#64 else 0#64) 1 = 1#64 := by decide +kernel

end Cex.McEliece.Benes
