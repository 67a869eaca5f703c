import Verif.Dilithium.SampleLemmas

/-!
# Small polynomials and masks
-/

namespace Cex.Dilithium
open Cex Cex.IntTools Cex.Lattice Cex.Spec.Lattice Cex.Spec.Dilithium Cex.Keccak

variable {P : List Byte → M (List Byte)} {f : List Byte → List Byte}

theorem etaValue_eq {eta : Nat} (he : eta = 2 ∨ eta = 4) {t : Nat} (ht : t < 16) : etaValue eta t = small eta t := by
  have h2 : ∀ t < 16, etaValue 2 t = small 2 t := by decide +kernel
  have h4 : ∀ t < 16, etaValue 4 t = small 4 t := by decide +kernel
  rcases he with rfl | rfl
  · exact h2 t ht
  · exact h4 t ht

theorem small_range {eta : Nat} (he : eta = 2 ∨ eta = 4) {t : Nat} {v : Int} (h : small eta t = some v) : -eta ≤ v ∧ v ≤ eta := by
  rw [small] at h
  rcases he with rfl | rfl
  · rw [if_pos rfl] at h
    split at h <;> cases h
    have : t % 5 < 5 := Nat.mod_lt _ (by decide)
    omega
  · rw [if_neg (by decide)] at h
    split at h <;> cases h
    omega

theorem halves_append (w v : List Byte) : halves (w ++ v) = halves w ++ halves v := by
  induction w with
  | nil => rfl
  | cons b t ih => rw [List.cons_append, halves, halves, ih]; rfl

theorem smalls_append (eta : Nat) (w v : List Byte) : smalls eta (w ++ v) = smalls eta w ++ smalls eta v := by
  rw [smalls, halves_append, List.filterMap_append]; rfl

theorem smalls_range {eta : Nat} (he : eta = 2 ∨ eta = 4) {w : List Byte} {v : Int} (h : v ∈ smalls eta w) : -eta ≤ v ∧ v ≤ eta := by
  obtain ⟨t, _, ht⟩ := List.mem_filterMap.mp h
  exact small_range he ht

theorem smalls_one (eta : Nat) (b : Byte) : smalls eta [b] = (small eta (b.toNat % 16)).toList ++ (small eta (b.toNat / 16)).toList := by
  rw [smalls, halves, halves]
  cases h1 : small eta (b.toNat % 16) <;> cases h2 : small eta (b.toNat / 16) <;> simp [h1, h2]

/-- The polynomial with the first entries replaced. -/
def over (a V : List Int) : List Int := V ++ a.drop V.length

theorem over_length {a V : List Int} (h : V.length ≤ a.length) : (over a V).length = a.length := by rw [over, List.length_append, List.length_drop]; omega

theorem etaPut_spec {eta : Nat} (he : eta = 2 ∨ eta = 4) {alen t : Nat} (ht : t < 16) {a : List Int} (ha : alen ≤ a.length) (X : List Int) :
    etaPut eta alen t (over a (X.take alen)) (X.take alen).length =
      .ok (over a ((X ++ (small eta t).toList).take alen), ((X ++ (small eta t).toList).take alen).length) := by
  rw [etaPut]
  by_cases h : (X.take alen).length < alen
  · have hX : X.length < alen := by rw [List.length_take] at h; omega
    have hx : X.take alen = X := List.take_of_length_le (by omega)
    rw [if_pos h, etaValue_eq he ht, hx]
    cases hs : small eta t with
    | none =>
      dsimp only
      rw [Option.toList_none, List.append_nil, hx]
      rfl
    | some v =>
      dsimp only
      have hl : X.length < a.length := by omega
      rw [Option.toList_some, List.take_of_length_le (by rw [List.length_append]; exact hX), over, over, List.drop_eq_getElem_cons hl, wr_at _ _ _ _ _ rfl, ok_bind, List.length_append, List.length_singleton]
      simp [pure_eq_ok]
  · have hX : alen ≤ X.length := by rw [List.length_take] at h; omega
    rw [if_neg h, List.take_append_of_le_length hX]
    rfl

theorem rejEta_spec {eta : Nat} (he : eta = 2 ∨ eta = 4) {w c : List Byte} {off alen len : Nat} (hlen : len = w.length) {a : List Int} (ha : alen ≤ a.length) :
    rejEta a off alen (w ++ c) len eta = .ok (over a ((smalls eta w).take alen), ((smalls eta w).take alen).length) := by
  rw [rejEta]
  obtain ⟨s, h1, h2⟩ := loopN_inv (f := fun pos (s : List Int × Nat) =>
    if s.2 < alen then do
      let b ← rd (w ++ c) pos
      let s ← etaPut eta alen (b.toNat &&& 0x0F) s.1 s.2
      etaPut eta alen (b.toNat >>> 4) s.1 s.2
    else return s)
    (fun j s => s = (over a ((smalls eta (w.take j)).take alen), ((smalls eta (w.take j)).take alen).length)) len 0 (a, 0)
    (by
      rintro j s _ hj rfl
      have hj : j < w.length := by omega
      have e : w.take (j + 1) = w.take j ++ [w[j]] := by rw [List.take_append_getElem]
      have hb := w[j].isLt
      refine ⟨_, ?_, rfl⟩
      dsimp only
      rw [e, smalls_append, smalls_one, ← List.append_assoc]
      by_cases h : ((smalls eta (w.take j)).take alen).length < alen
      · have hr : rd (w ++ c) j = .ok w[j] := by rw [rd_ok (by rw [List.length_append]; omega), List.getElem_append_left hj]
        rw [if_pos h, hr, ok_bind, show (0x0F : Nat) = 2 ^ 4 - 1 from rfl, Nat.and_two_pow_sub_one_eq_mod, Nat.shiftRight_eq_div_pow, etaPut_spec he (Nat.mod_lt _ (by decide)) ha, ok_bind]
        exact etaPut_spec he (by omega) ha _
      · rw [if_neg h, List.append_assoc, List.take_append_of_le_length (by rw [List.length_take] at h; omega)]
        rfl)
    (by rw [List.take_zero]; simp [smalls, halves, over])
  rw [h1, h2, Nat.zero_add, hlen, List.take_length]

/-- The small coefficients found in `m` blocks. -/
def foundEta (f : List Byte → List Byte) (eta : Nat) (x : List Byte) (m : Nat) : List Int := smalls eta (Fips202.shake f 168 x (168 * m))

/-- All coefficients lie in `[-η, η]`. -/
def Small (eta : Nat) (a : List Int) : Prop := a.length = 256 ∧ ∀ v ∈ a, -eta ≤ v ∧ v ≤ eta

theorem over_small {eta : Nat} (he : eta = 2 ∨ eta = 4) {a : List Int} (ha : Small eta a) (w : List Byte) {n : Nat} (hn : n ≤ 256) : Small eta (over a ((smalls eta w).take n)) := by
  refine ⟨?_, fun v hv => ?_⟩
  · rw [over_length (by rw [List.length_take, ha.1]; omega), ha.1]
  · rcases List.mem_append.mp hv with h | h
    · exact smalls_range he (List.mem_of_mem_take h)
    · exact ha.2 v (List.mem_of_mem_drop h)

theorem refillEta_spec (p : Perm P f) {eta : Nat} (he : eta = 2 ∨ eta = 4) : ∀ (fuel : Nat) (st cur rest : List Byte) (a : List Int) (ctr : Nat), st.length = 200 → cur.length = 168 → Small eta a →
    (∃ a', refillEta P eta fuel st (cur ++ rest) a ctr = .ok a' ∧ Small eta a' ∧ (0 < ctr → a'[255]? = a[255]?)) ∨ refillEta P eta fuel st (cur ++ rest) a ctr = .error .diverges
  | 0, st, cur, rest, a, ctr, hs, hc, ha => by
    rw [refillEta]
    by_cases h : ctr < 256
    · rw [if_pos h]; exact .inr rfl
    · rw [if_neg h]; exact .inl ⟨a, rfl, ha, fun _ => rfl⟩
  | n + 1, st, cur, rest, a, ctr, hs, hc, ha => by
    rw [refillEta]
    by_cases h : ctr < 256
    · rw [if_pos h]
      have hl := p.len _ hs
      have ht : ((f st).take 168).length = 168 := by rw [List.length_take]; omega
      have hsq := squeeze_one p (r := 168) (by decide) hs [] cur rest (off := 0) rfl hc
      rw [List.nil_append, List.nil_append] at hsq
      rw [hsq, ok_bind]
      dsimp only
      rw [rejEta_spec he ht.symm (Nat.sub_le _ _), ok_bind]
      dsimp only
      rw [ha.1]
      rcases refillEta_spec p he n (f st) ((f st).take 168) rest _ (ctr + ((smalls eta ((f st).take 168)).take (256 - ctr)).length) hl ht (over_small he ha ((f st).take 168) (n := 256 - ctr) (by omega))
        with ⟨a', h1, h2, h3⟩ | h1
      · refine .inl ⟨a', h1, h2, fun h0 => ?_⟩
        rw [h3 (by omega), over]
        have hV : ((smalls eta ((f st).take 168)).take (256 - ctr)).length ≤ 255 := by rw [List.length_take]; omega
        rw [List.getElem?_append_right hV, List.getElem?_drop, Nat.add_sub_cancel' hV]
      · exact .inr h1
    · rw [if_neg h]; exact .inl ⟨a, rfl, ha, fun _ => rfl⟩

theorem polyUniformEta_start (p : Perm P f) {eta : Nat} (he : eta = 2 ∨ eta = 4) (fuel : Nat) {a : List Int} (ha : a.length = 256) (seed : List Byte) (n blocks : Nat) :
    polyUniformEta P fuel a seed n eta blocks =
      refillEta P eta fuel (after f 168 (withNonce seed n) blocks) (Fips202.shake f 168 (withNonce seed n) (168 * blocks)) (over a ((foundEta f eta (withNonce seed n) blocks).take 256))
        ((foundEta f eta (withNonce seed n) blocks).take 256).length := by
  rw [polyUniformEta, seedNonce_spec, ok_bind, absorb_after p (by decide) (by decide), ok_bind]
  have hsq := squeeze_first p (r := 168) (by decide) (by decide) (withNonce seed n) blocks 0 [] (List.replicate (blocks * 168) 0) [] 0 rfl (by rw [List.length_replicate, Nat.mul_comm])
  rw [List.nil_append, List.append_nil, Nat.mul_zero, List.drop_zero, List.nil_append, Nat.zero_add, List.append_nil] at hsq
  have hsl := shake_len p (r := 168) (n := 168 * blocks) (by decide) (by decide) (withNonce seed n)
  have hrej := rejEta_spec he (w := Fips202.shake f 168 (withNonce seed n) (168 * blocks)) (c := []) (off := 0) (alen := a.length) (len := blocks * 168) (by rw [hsl, Nat.mul_comm]) (a := a) (le_refl _)
  rw [List.append_nil] at hrej
  rw [hsq, ok_bind]
  dsimp only
  rw [hrej, ok_bind, ha]
  rfl

/-- `PolyUniformEta` when the first blocks are enough. -/
theorem polyUniformEta_enough (p : Perm P f) {eta : Nat} (he : eta = 2 ∨ eta = 4) (fuel : Nat) {a : List Int} (ha : a.length = 256) (seed : List Byte) (n blocks : Nat)
    (h : 256 ≤ (foundEta f eta (withNonce seed n) blocks).length) :
    polyUniformEta P fuel a seed n eta blocks = .ok ((foundEta f eta (withNonce seed n) blocks).take 256) := by
  have hl : ((foundEta f eta (withNonce seed n) blocks).take 256).length = 256 := by rw [List.length_take]; omega
  have ho : over a ((foundEta f eta (withNonce seed n) blocks).take 256) = (foundEta f eta (withNonce seed n) blocks).take 256 := by
    rw [over, hl, List.drop_eq_nil_of_le (by omega), List.append_nil]
  rw [polyUniformEta_start p he fuel ha, ho, hl]
  cases fuel with
  | zero => rw [refillEta, if_neg (by decide)]; rfl
  | succ n => rw [refillEta, if_neg (by decide)]; rfl

/-- `PolyUniformEta` in general. -/
theorem polyUniformEta_spec (p : Perm P f) {eta : Nat} (he : eta = 2 ∨ eta = 4) (fuel : Nat) {a : List Int} (ha : Small eta a) (seed : List Byte) (n : Nat) {blocks : Nat} (hb : 0 < blocks) :
    (∃ a', polyUniformEta P fuel a seed n eta blocks = .ok a' ∧ Small eta a' ∧
      (0 < (foundEta f eta (withNonce seed n) blocks).length → (foundEta f eta (withNonce seed n) blocks).length < 256 → a'[255]? = a[255]?)) ∨
    polyUniformEta P fuel a seed n eta blocks = .error .diverges := by
  have hsl := shake_len p (r := 168) (n := 168 * blocks) (by decide) (by decide) (withNonce seed n)
  have hs := after_length p (show 0 < 168 by decide) (by decide) (withNonce seed n) blocks
  rw [polyUniformEta_start p he fuel ha.1]
  have e : Fips202.shake f 168 (withNonce seed n) (168 * blocks) = (Fips202.shake f 168 (withNonce seed n) (168 * blocks)).take 168 ++ (Fips202.shake f 168 (withNonce seed n) (168 * blocks)).drop 168 :=
    (List.take_append_drop _ _).symm
  rw [e]
  rcases refillEta_spec p he fuel _ ((Fips202.shake f 168 (withNonce seed n) (168 * blocks)).take 168) ((Fips202.shake f 168 (withNonce seed n) (168 * blocks)).drop 168) (over a ((foundEta f eta (withNonce seed n) blocks).take 256)) ((foundEta f eta (withNonce seed n) blocks).take 256).length hs
    (by rw [List.length_take, hsl]; omega) (over_small he ha _ (le_refl _)) with ⟨a', h1, h2, h3⟩ | h1
  · refine .inl ⟨a', h1, h2, fun h0 h => ?_⟩
    have hV : ((foundEta f eta (withNonce seed n) blocks).take 256).length ≤ 255 := by rw [List.length_take]; omega
    rw [h3 (by rw [List.length_take]; omega), over, List.getElem?_append_right hV, List.getElem?_drop, Nat.add_sub_cancel' hV]
  · exact .inr h1

/-! ## Masks -/

theorem polyUniformGamma1M1_spec (p : Perm P f) {gamma1 : Nat} (hg : gamma1 = 2 ^ 17 ∨ gamma1 = 2 ^ 19) {a : List Int} (ha : a.length = 256) (seed : List Byte) (n : Nat) :
    polyUniformGamma1M1 P a seed n gamma1 = .ok (tab (mask f gamma1 seed n)) := by
  rw [polyUniformGamma1M1, seedNonce_spec, ok_bind, absorb_after p (by decide) (by decide), ok_bind]
  have hsq := squeeze_first p (r := 136) (by decide) (by decide) (withNonce seed n) 5 0 [] (List.replicate 680 0) (List.replicate 4 0) 0 rfl (by rw [List.length_replicate])
  rw [List.nil_append, ← List.replicate_add, Nat.mul_zero, List.drop_zero, List.nil_append, Nat.zero_add] at hsq
  rw [hsq, ok_bind]
  dsimp only
  have hz : 32 * zBits gamma1 ≤ 136 * 5 := by rcases hg with rfl | rfl <;> decide
  have ht := shake_take p (r := 136) (by decide) (by decide) (withNonce seed n) hz
  refine polyZUnpack_tab hg (shake_len p (by decide) (by decide) _) ⟨[], (Fips202.shake f 136 (withNonce seed n) (136 * 5)).drop (32 * zBits gamma1) ++ List.replicate 4 0, ?_, rfl⟩ ha
  rw [List.nil_append, ← List.append_assoc, ← ht, List.take_append_drop]

end Cex.Dilithium
