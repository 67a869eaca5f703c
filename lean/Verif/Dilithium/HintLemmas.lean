import Mathlib.Data.List.Sort
import Verif.Dilithium.CodecLemmas

/-!
# The encoding of the hints
-/

namespace Cex.Dilithium
open Cex Cex.Lattice Cex.Spec.Lattice Cex.Spec.Dilithium

theorem indices_lt {b : Nat → Bool} {j : Nat} (h : j ∈ indices b) : j < 256 := List.mem_range.mp (List.mem_filter.mp h).1

theorem indices_sorted (b : Nat → Bool) : (indices b).Pairwise (· < ·) := List.pairwise_lt_range.filter _

theorem indices_length (b : Nat → Bool) : (indices b).length = weight b 256 := by
  rw [indices, weight]
  generalize 256 = n
  induction n with
  | zero => simp
  | succ n ih =>
    rw [List.range_succ, List.filter_append, List.length_append, ih, Finset.sum_range_succ]
    cases hb : b n <;> simp [hb]

/-- A strictly increasing list of positions is the list of its members. -/
theorem indices_of_sorted {l : List Nat} (h : l.Pairwise (· < ·)) (hl : ∀ j ∈ l, j < 256) : indices (fun j => decide (j ∈ l)) = l := by
  have hn : l.Nodup := h.imp fun h => Nat.ne_of_lt h
  have hi : (indices (fun j => decide (j ∈ l))).Nodup := (indices_sorted _).imp fun h => Nat.ne_of_lt h
  refine List.Perm.eq_of_pairwise (fun a b _ _ h1 h2 => absurd (Nat.lt_trans h1 h2) (Nat.lt_irrefl a)) (indices_sorted _) h ((List.perm_ext_iff_of_nodup hi hn).mpr fun j => ?_)
  rw [indices, List.mem_filter, List.mem_range, decide_eq_true_iff]
  exact ⟨fun h => h.2, fun h => ⟨hl j h, h⟩⟩

theorem indices_congr {b b' : Nat → Bool} (h : ∀ j, j < 256 → b j = b' j) : indices b = indices b' := by
  rw [indices, indices]
  exact List.filter_congr fun j hj => h j (List.mem_range.mp hj)

theorem allIndices_succ (h : Nat → Nat → Bool) (n : Nat) : allIndices h (n + 1) = allIndices h n ++ indices (h n) := by
  rw [allIndices, allIndices, List.range_succ, List.flatMap_append]
  simp

theorem allIndices_congr {h h' : Nat → Nat → Bool} {n : Nat} (e : ∀ i, i < n → indices (h i) = indices (h' i)) : allIndices h n = allIndices h' n := by
  rw [allIndices, allIndices, List.flatMap, List.flatMap]
  congr 1
  exact List.map_congr_left fun i hi => e i (List.mem_range.mp hi)

theorem allIndices_mono (h : Nat → Nat → Bool) {n m : Nat} (hn : n ≤ m) : (allIndices h n).length ≤ (allIndices h m).length := by
  induction m with
  | zero => obtain rfl : n = 0 := by omega
            exact le_refl _
  | succ m ih =>
    by_cases e : n = m + 1
    · rw [e]
    · rw [allIndices_succ, List.length_append]
      have := ih (by omega)
      omega

theorem packHint_length {ω K : Nat} {h : Nat → Nat → Bool} (hw : (allIndices h K).length ≤ ω) : (packHint ω K h).length = ω + K := by
  simp only [packHint, List.length_append, List.length_map, List.length_replicate, List.length_range]
  omega

/-! ## Writing -/

/-- The loop over one polynomial appends its positions. -/
theorem hintLoop_spec {h : List Int} {b : Nat → Bool} (hh : Hints h b) {pos ω : Nat} (hpos : pos + ω ≤ 2420 ∨ 2420 < pos) (pre : List Byte) (hp : pre.length = pos) : ∀ n j (l : List Nat) (rest : List Byte),
    n + j = 256 → l.length + ((List.range' j n).filter b).length ≤ ω → ((List.range' j n).filter b).length ≤ rest.length →
    ∃ rest', hintLoop h pos n j (pre ++ (l.map (BitVec.ofNat 8) ++ rest)) l.length = .ok (pre ++ ((l ++ (List.range' j n).filter b).map (BitVec.ofNat 8) ++ rest'), l.length + ((List.range' j n).filter b).length) ∧
      rest' = rest.drop ((List.range' j n).filter b).length
  | 0, j, l, rest, _, _, _ => ⟨rest, by rw [hintLoop]; simp, by simp⟩
  | n + 1, j, l, rest, hn, hw, hr => by
    have hj : rd h j = .ok (if b j then 1 else 0) := hh.get (by omega)
    rw [List.range'_succ] at hw hr ⊢
    rw [hintLoop, hj, ok_bind]
    by_cases hb : b j = true
    · rw [hb, if_pos rfl, if_pos (by decide)]
      rw [List.filter_cons_of_pos hb, List.length_cons] at hw hr
      rw [if_neg (by omega)]
      obtain ⟨x, rest, rfl⟩ : ∃ x t, rest = x :: t := by
        match rest, hr with
        | x :: t, _ => exact ⟨x, t, rfl⟩
      have e1 : pre ++ (l.map (BitVec.ofNat 8) ++ x :: rest) = (pre ++ l.map (BitVec.ofNat 8)) ++ x :: rest := by rw [List.append_assoc]
      have hl : (pre ++ l.map (BitVec.ofNat 8)).length = pos + l.length := by rw [List.length_append, List.length_map, hp]
      rw [e1, wr_ok _ (by rw [List.length_append, hl, List.length_cons]; omega), ok_bind, List.set_append_right _ _ (by omega), hl, Nat.sub_self, List.set_cons_zero]
      obtain ⟨r', h1, h2⟩ := hintLoop_spec hh hpos pre hp n (j + 1) (l ++ [j]) rest (by omega) (by rw [List.length_append, List.length_singleton]; omega) (by rw [List.length_cons] at hr; omega)
      refine ⟨r', ?_, ?_⟩
      · have e2 : pre ++ l.map (BitVec.ofNat 8) ++ u8 j :: rest = pre ++ ((l ++ [j]).map (BitVec.ofNat 8) ++ rest) := by
          rw [List.map_append, List.map_singleton]
          simp [u8]
        rw [e2]
        rw [List.length_append, List.length_singleton] at h1
        rw [h1, List.filter_cons_of_pos hb, List.length_cons, List.append_assoc, List.singleton_append]
        congr 2
        omega
      · rw [h2, List.filter_cons_of_pos hb, List.length_cons, List.drop_succ_cons]
    · have hb' : b j = false := by simpa using hb
      rw [hb', if_neg (by decide)]
      rw [List.filter_cons_of_neg hb] at hw hr ⊢
      exact hintLoop_spec hh hpos pre hp n (j + 1) l rest (by omega) hw hr

/-! ## Reading -/

/-- The loop over the positions of one polynomial. -/
theorem unhintLoop_spec {sig : List Byte} {pos k : Nat} {idx : List Byte} (hs : Holds sig pos idx) : ∀ n j (h : List Int), k ≤ j → j + n ≤ idx.length → h.length = 256 →
    (∀ i v, h[i]? = some v → v = if decide (i ∈ ((idx.drop k).take (j - k)).map BitVec.toNat) then 1 else 0) →
    ((idx.drop k).take (j - k)).Pairwise (fun a b => a.toNat < b.toNat) →
    ∃ h' bad, unhintLoop sig pos k n j h = .ok (h', bad) ∧ h'.length = 256 ∧
      (bad = false ↔ ((idx.drop k).take (j + n - k)).Pairwise (fun a b => a.toNat < b.toNat)) ∧
      (bad = false → ∀ i v, h'[i]? = some v → v = if decide (i ∈ ((idx.drop k).take (j + n - k)).map BitVec.toNat) then 1 else 0)
  | 0, j, h, _, _, hl, hh, hp => ⟨h, false, rfl, hl, by simpa using hp, fun _ => by simpa using hh⟩
  | n + 1, j, h, hk, hj, hl, hh, hp => by
    have hx : ∀ i, i < idx.length → rd sig (pos + i) = (match idx[i]? with | some x => .ok x | none => .error .ub) := by
      intro i hi
      obtain ⟨pre, post, rfl, rfl⟩ := hs
      have hlt : pre.length + i < (pre ++ idx ++ post).length := by rw [List.length_append, List.length_append]; omega
      rw [rd_ok hlt, List.getElem?_eq_getElem hi]
      simp only [List.append_assoc]
      rw [List.getElem_append_right (by omega)]
      simp only [Nat.add_sub_cancel_left]
      rw [List.getElem_append_left hi]
    have hseg : (idx.drop k).take (j + 1 - k) = (idx.drop k).take (j - k) ++ [idx[j]] := by
      rw [show j + 1 - k = (j - k) + 1 from by omega, List.take_add_one, List.getElem?_drop, show k + (j - k) = j from by omega, List.getElem?_eq_getElem (by omega)]
      rfl
    have hcond : (if j > k then do return decide ((← rd sig (pos + j)).toNat ≤ (← rd sig (pos + j - 1)).toNat) else pure false : M Bool)
        = .ok (!decide (((idx.drop k).take (j + 1 - k)).Pairwise (fun a b => a.toNat < b.toNat))) := by
      by_cases hjk : j > k
      · rw [if_pos hjk, hx j (by omega), show pos + j - 1 = pos + (j - 1) from by omega, hx (j - 1) (by omega), List.getElem?_eq_getElem (show j < idx.length by omega),
          List.getElem?_eq_getElem (show j - 1 < idx.length by omega)]
        simp only [ok_bind, pure_eq_ok]
        congr 1
        have hseg' : (idx.drop k).take (j - k) = (idx.drop k).take (j - 1 - k) ++ [idx[j - 1]] := by
          rw [show j - k = (j - 1 - k) + 1 from by omega, List.take_add_one, List.getElem?_drop, show k + (j - 1 - k) = j - 1 from by omega, List.getElem?_eq_getElem (by omega)]
          rfl
        have hiff : ((idx.drop k).take (j + 1 - k)).Pairwise (fun a b => a.toNat < b.toNat) ↔ (idx[j - 1]).toNat < (idx[j]).toNat := by
          rw [hseg, List.pairwise_append]
          constructor
          · rintro ⟨_, _, h3⟩
            exact h3 _ (by rw [hseg']; simp) _ (by simp)
          · intro hlt
            refine ⟨hp, List.pairwise_singleton _ _, fun a ha b hb => ?_⟩
            rw [List.mem_singleton] at hb
            subst hb
            rw [hseg'] at hp ha
            rcases List.mem_append.mp ha with ha | ha
            · exact Nat.lt_trans ((List.pairwise_append.mp hp).2.2 a ha _ (by simp)) hlt
            · rw [List.mem_singleton] at ha
              subst ha
              exact hlt
        by_cases hlt : (idx[j - 1]).toNat < (idx[j]).toNat
        · rw [decide_eq_true (hiff.mpr hlt), decide_eq_false (by omega)]; rfl
        · rw [decide_eq_false (fun h => hlt (hiff.mp h)), decide_eq_true (by omega)]; rfl
      · obtain rfl : j = k := by omega
        rw [if_neg hjk, hseg, Nat.sub_self, List.take_zero, List.nil_append, decide_eq_true (List.pairwise_singleton _ _)]
        rfl
    rw [unhintLoop, hcond, ok_bind]
    by_cases hpw : ((idx.drop k).take (j + 1 - k)).Pairwise (fun a b => a.toNat < b.toNat)
    · rw [decide_eq_true hpw, if_neg (by decide), hx j (by omega), List.getElem?_eq_getElem (by omega)]
      simp only [ok_bind]
      have hlt := (idx[j]).isLt
      rw [wr_ok _ (by omega), ok_bind]
      obtain ⟨h', bad, e1, e2, e3, e4⟩ := unhintLoop_spec hs n (j + 1) (h.set (idx[j]).toNat 1) (by omega) (by omega) (by rw [List.length_set, hl]) (by
        intro i v hv
        rw [hseg, List.map_append, List.map_singleton]
        by_cases e : i = (idx[j]).toNat
        · subst e
          rw [List.getElem?_set_self (by omega)] at hv
          cases hv
          rw [if_pos (by simp)]
        · rw [List.getElem?_set_ne (Ne.symm e)] at hv
          rw [hh i v hv]
          have : (i ∈ ((idx.drop k).take (j - k)).map BitVec.toNat ++ [(idx[j]).toNat]) ↔ (i ∈ ((idx.drop k).take (j - k)).map BitVec.toNat) := by
            rw [List.mem_append, List.mem_singleton]
            exact ⟨fun h => h.resolve_right e, .inl⟩
          simp only [this]) hpw
      rw [show j + 1 + n = j + (n + 1) from by omega] at e3 e4
      exact ⟨h', bad, e1, e2, e3, e4⟩
    · rw [decide_eq_false hpw, if_pos (by decide)]
      refine ⟨h, true, rfl, hl, ?_, fun h => by simp at h⟩
      constructor
      · intro h; simp at h
      · intro hall
        exact absurd (hall.sublist ((List.take_sublist_take_left (by omega)))) hpw

/-- The loop over the hint polynomials in `PackSig`. -/
theorem hints_pack {K ω pos : Nat} {hs : List (List Int)} {h : Nat → Nat → Bool} (hh : Each (fun i y => Hints y (h i)) K hs) (hw : (allIndices h K).length ≤ ω) (hpos : pos + ω ≤ 2420 ∨ 2420 < pos)
    (pre post : List Byte) (hp : pre.length = pos) :
    ∃ k, loopN K 0 (fun i (s : List Byte × Nat) => do
      let (sig, k) ← hintLoop (← rd hs i) pos 256 0 s.1 s.2
      let sig ← wr sig (pos + ω + i) (u8 k)
      return (sig, k)) (pre ++ (List.replicate (ω + K) 0 ++ post), 0) = .ok (pre ++ (packHint ω K h ++ post), k) := by
  obtain ⟨⟨s, k⟩, h1, h2, h3, h4⟩ := loopN_inv (f := fun i (s : List Byte × Nat) => do
      let (sig, k) ← hintLoop (← rd hs i) pos 256 0 s.1 s.2
      let sig ← wr sig (pos + ω + i) (u8 k)
      return (sig, k))
    (fun i s => i ≤ K ∧ s.2 = (allIndices h i).length ∧ s.1 = pre ++ ((allIndices h i).map (BitVec.ofNat 8) ++ (List.replicate (ω - (allIndices h i).length) 0 ++
      ((List.range i).map (fun i => BitVec.ofNat 8 (allIndices h (i + 1)).length) ++ (List.replicate (K - i) 0 ++ post))))) K 0 (pre ++ (List.replicate (ω + K) 0 ++ post), 0)
    (by
      rintro i ⟨s, k⟩ _ hi ⟨_, hk, hs'⟩
      simp only at hk hs'
      subst hk hs'
      have hi : i < K := by omega
      obtain ⟨y, e1, hy⟩ := hh.get hi
      have hm := allIndices_mono h (show i + 1 ≤ K by omega)
      have hsucc := allIndices_succ h i
      have hsl : (allIndices h (i + 1)).length = (allIndices h i).length + (indices (h i)).length := by rw [hsucc, List.length_append]
      have hf : (List.range' 0 256).filter (h i) = indices (h i) := by rw [indices, List.range_eq_range']
      obtain ⟨r', h1, h2⟩ := hintLoop_spec hy hpos pre hp 256 0 (allIndices h i) (List.replicate (ω - (allIndices h i).length) 0 ++
        ((List.range i).map (fun i => BitVec.ofNat 8 (allIndices h (i + 1)).length) ++ (List.replicate (K - i) 0 ++ post))) rfl (by rw [hf]; omega)
        (by rw [hf, List.length_append, List.length_replicate]; omega)
      rw [hf] at h1 h2
      rw [List.drop_append_of_le_length (by rw [List.length_replicate]; omega), List.drop_replicate] at h2
      subst h2
      refine ⟨(pre ++ ((allIndices h (i + 1)).map (BitVec.ofNat 8) ++ (List.replicate (ω - (allIndices h (i + 1)).length) 0 ++
        ((List.range (i + 1)).map (fun i => BitVec.ofNat 8 (allIndices h (i + 1)).length) ++ (List.replicate (K - (i + 1)) 0 ++ post)))), (allIndices h (i + 1)).length), ?_, by omega, rfl, rfl⟩
      simp only [e1, ok_bind, h1]
      rw [← hsucc, ← hsl, show ω - (allIndices h i).length - (indices (h i)).length = ω - (allIndices h (i + 1)).length from by omega]
      generalize hA : (allIndices h (i + 1)).map (BitVec.ofNat 8) = A
      generalize hZ : List.replicate (ω - (allIndices h (i + 1)).length) (0 : Byte) = Z
      generalize hC : (List.range i).map (fun i => BitVec.ofNat 8 (allIndices h (i + 1)).length) = C
      have hAl : A.length = (allIndices h (i + 1)).length := by rw [← hA, List.length_map]
      have hZl : Z.length = ω - (allIndices h (i + 1)).length := by rw [← hZ, List.length_replicate]
      have hCl : C.length = i := by rw [← hC, List.length_map, List.length_range]
      have e3 : pre ++ (A ++ (Z ++ (C ++ (List.replicate (K - i) 0 ++ post)))) = (pre ++ A ++ Z ++ C) ++ 0 :: (List.replicate (K - (i + 1)) 0 ++ post) := by
        rw [show K - i = (K - (i + 1)) + 1 from by omega, List.replicate_succ]
        simp only [List.append_assoc, List.cons_append]
      have hl : (pre ++ A ++ Z ++ C).length = pos + ω + i := by simp only [List.length_append]; omega
      rw [e3, wr_ok _ (by rw [List.length_append, hl, List.length_cons]; omega), ok_bind, List.set_append_right _ _ (by omega), hl, Nat.sub_self, List.set_cons_zero, pure_eq_ok, List.range_succ,
        List.map_append, hC]
      simp [u8])
    ⟨by omega, rfl, by simp [allIndices, List.replicate_append_replicate, ← List.append_assoc]⟩
  simp only at h3 h4
  refine ⟨k, ?_⟩
  rw [h1, h4, packHint]
  simp

theorem sorted_toNat {l : List Byte} : l.Pairwise (fun a b => a.toNat < b.toNat) ↔ (l.map BitVec.toNat).Pairwise (· < ·) := by rw [List.pairwise_map]

theorem map_ofNat_toNat (l : List Byte) : (l.map BitVec.toNat).map (BitVec.ofNat 8) = l := by
  rw [List.map_map]
  conv_rhs => rw [← List.map_id l]
  exact List.map_congr_left fun b _ => by simp

theorem map_toNat_ofNat {l : List Nat} (h : ∀ j ∈ l, j < 256) : (l.map (BitVec.ofNat 8)).map BitVec.toNat = l := by
  rw [List.map_map]
  conv_rhs => rw [← List.map_id l]
  exact List.map_congr_left fun b hb => by
    rw [Function.comp, BitVec.toNat_ofNat, Nat.mod_eq_of_lt (h b hb)]
    rfl

theorem allIndices_lt {h : Nat → Nat → Bool} {n j : Nat} (hj : j ∈ allIndices h n) : j < 256 := by
  obtain ⟨i, _, hi⟩ := List.mem_flatMap.mp hj
  exact indices_lt hi

/-- The state of reading after `i` polynomials. -/
def Read (ω K i : Nat) (idx cnt : List Byte) (hs : List (List Int)) (k : Nat) (h : Nat → Nat → Bool) : Prop :=
  k ≤ ω ∧ hs.length = K ∧ (∀ j y, j < i → hs[j]? = some y → Hints y (h j)) ∧ (∀ y ∈ hs, y.length = 256) ∧ k = (allIndices h i).length ∧ (idx.take k).map BitVec.toNat = allIndices h i ∧
    ∀ j, j < i → cnt[j]? = some (BitVec.ofNat 8 (allIndices h (j + 1)).length)

/-- Reading the hint polynomials: the result is one that encodes to what was read, and refusal means there is none. -/
theorem unhints_spec {ω K pos : Nat} (hω : ω < 256) {idx cnt sig : List Byte} (hi : idx.length = ω) (hc : cnt.length = K) (hs1 : Holds sig pos idx) (hs2 : Holds sig (pos + ω) cnt) :
    ∀ n i (hs : List (List Int)) (k : Nat) (h : Nat → Nat → Bool), n + i = K → Read ω K i idx cnt hs k h →
    ∃ hs' k' bad, unhints sig pos ω n i hs k = .ok (hs', k', bad) ∧
      (bad = false → ∃ h', Read ω K K idx cnt hs' k' h') ∧
      (bad = true → ¬ ∃ h', (∀ j, j < i → indices (h' j) = indices (h j)) ∧ (allIndices h' K).length ≤ ω ∧ idx = (allIndices h' K).map (BitVec.ofNat 8) ++ List.replicate (ω - (allIndices h' K).length) 0 ∧
        cnt = (List.range K).map fun i => BitVec.ofNat 8 (allIndices h' (i + 1)).length)
  | 0, i, hs, k, h, hn, hr => by
    obtain rfl : i = K := by omega
    exact ⟨hs, k, false, rfl, fun _ => ⟨h, hr⟩, fun h => by simp at h⟩
  | n + 1, i, hs, k, h, hn, hr => by
    obtain ⟨r1, r2, r3, r4, r5, r6, r7⟩ := hr
    have hiK : i < K := by omega
    have hic : i < cnt.length := by omega
    have hrd : rd sig (pos + ω + i) = .ok cnt[i] := by
      obtain ⟨pre, post, e, hl⟩ := hs2
      have hlt : pos + ω + i < sig.length := by rw [e, List.length_append, List.length_append]; omega
      rw [rd_ok hlt]
      congr 1
      have : sig[pos + ω + i]? = some cnt[i] := by
        rw [e, List.append_assoc, List.getElem?_append_right (by omega), hl, Nat.add_sub_cancel_left, List.getElem?_append_left hic, List.getElem?_eq_getElem hic]
      rw [List.getElem?_eq_getElem hlt] at this
      exact Option.some.inj this
    have hlh : i < hs.length := by omega
    have hcl := (cnt[i]).isLt
    rw [unhints, wr_ok _ hlh, ok_bind, hrd]
    simp only [ok_bind]
    -- whoever encodes agrees with the positions read so far
    have hk' : ∀ h' : Nat → Nat → Bool, (∀ j, j < i → indices (h' j) = indices (h j)) → (allIndices h' i).length = k := by
      intro h' e
      rw [allIndices_congr e, r5]
    have hcnt : ∀ h' : Nat → Nat → Bool, (allIndices h' K).length ≤ ω → (cnt = (List.range K).map fun i => BitVec.ofNat 8 (allIndices h' (i + 1)).length) →
        (cnt[i]).toNat = (allIndices h' (i + 1)).length := by
      intro h' hw e
      have hm := allIndices_mono h' (show i + 1 ≤ K by omega)
      have : cnt[i]? = some (BitVec.ofNat 8 (allIndices h' (i + 1)).length) := by rw [e, List.getElem?_map, List.getElem?_range hiK]; rfl
      rw [List.getElem?_eq_getElem hic] at this
      rw [Option.some.inj this, BitVec.toNat_ofNat, Nat.mod_eq_of_lt (by omega)]
    by_cases hcond : (cnt[i]).toNat < k ∨ (cnt[i]).toNat > ω
    · rw [if_pos hcond]
      refine ⟨_, _, true, rfl, fun h => by simp at h, fun _ => ?_⟩
      rintro ⟨h', e1, e2, e3, e4⟩
      have h1 := hcnt h' e2 e4
      have h2 := allIndices_mono h' (show i + 1 ≤ K by omega)
      have h3 := allIndices_mono h' (show i ≤ i + 1 by omega)
      rw [hk' h' e1] at h3
      omega
    · rw [if_neg hcond]
      have hset : rd (hs.set i (List.replicate 256 0)) i = .ok (List.replicate 256 0) := by
        rw [rd_ok (by rw [List.length_set]; omega), List.getElem_set_self]
      rw [hset]
      simp only [ok_bind]
      obtain ⟨y, bad, u1, u2, u3, u4⟩ := unhintLoop_spec (k := k) hs1 ((cnt[i]).toNat - k) k (List.replicate 256 0) (le_refl k) (by omega) (by rw [List.length_replicate]) (by
        intro j v hv
        have := (List.mem_replicate.mp (List.mem_of_getElem? hv)).2
        rw [this]
        simp) (by simp)
      have hck : k + ((cnt[i]).toNat - k) - k = (cnt[i]).toNat - k := by omega
      rw [hck] at u3 u4
      generalize hseg : (idx.drop k).take ((cnt[i]).toNat - k) = seg at u3 u4
      rw [u1]
      simp only [ok_bind]
      rw [wr_ok _ (by rw [List.length_set]; omega), ok_bind, List.set_set]
      have hsegl : seg.length = (cnt[i]).toNat - k := by rw [← hseg, List.length_take, List.length_drop]; omega
      cases bad with
      | true =>
        rw [if_pos rfl]
        refine ⟨_, _, true, rfl, fun h => by simp at h, fun _ => ?_⟩
        rintro ⟨h', e1, e2, e3, e4⟩
        have h1 := hcnt h' e2 e4
        have h2 := allIndices_mono h' (show i + 1 ≤ K by omega)
        refine absurd (u3.mpr ?_) (by simp)
        have hs : seg.map BitVec.toNat = indices (h' i) := by
          have hpre : ∃ t, allIndices h' K = allIndices h' (i + 1) ++ t := by
            have : ∀ m, i + 1 ≤ m → ∃ t, allIndices h' m = allIndices h' (i + 1) ++ t := by
              intro m
              induction m with
              | zero => intro h; omega
              | succ m ih =>
                intro hm
                by_cases em : i + 1 = m + 1
                · exact ⟨[], by rw [em, List.append_nil]⟩
                · obtain ⟨t, ht⟩ := ih (by omega)
                  exact ⟨t ++ indices (h' m), by rw [allIndices_succ, ht, List.append_assoc]⟩
            exact this K (by omega)
          obtain ⟨t, ht⟩ := hpre
          rw [← hseg, e3, ht, allIndices_succ, h1, allIndices_succ]
          have hkk := hk' h' e1
          have hkk' : ((allIndices h' i).map (BitVec.ofNat 8)).length = k := by rw [List.length_map, hkk]
          simp only [List.map_append, List.append_assoc]
          rw [← hkk', List.drop_left, List.length_append, ← List.length_map (as := allIndices h' i) (BitVec.ofNat 8), Nat.add_sub_cancel_left,
            ← List.length_map (as := indices (h' i)) (BitVec.ofNat 8), List.take_left]
          exact map_toNat_ofNat fun j hj => indices_lt hj
        rw [sorted_toNat, hs]
        exact indices_sorted _
      | false =>
        rw [if_neg (by decide)]
        have hpw := u3.mp rfl
        have hidx := indices_of_sorted (sorted_toNat.mp hpw) (by
          intro j hj
          obtain ⟨b, _, rfl⟩ := List.mem_map.mp hj
          exact b.isLt)
        -- the positions read extend the hints by one polynomial
        have hnew : ∀ j, j ≠ i → (fun j => if j = i then (fun q => decide (q ∈ seg.map BitVec.toNat)) else h j) j = h j := fun j hj => if_neg hj
        generalize hg : (fun j => if j = i then (fun q => decide (q ∈ seg.map BitVec.toNat)) else h j) = g at hnew
        have hgi : g i = fun q => decide (q ∈ seg.map BitVec.toNat) := by rw [← hg]; exact if_pos rfl
        have hgI : allIndices g i = allIndices h i := allIndices_congr fun j hj => by rw [hnew j (by omega)]
        have hgs : allIndices g (i + 1) = allIndices h i ++ seg.map BitVec.toNat := by rw [allIndices_succ, hgI, hgi, hidx]
        have hgl : (allIndices g (i + 1)).length = (cnt[i]).toNat := by rw [hgs, List.length_append, ← r5, List.length_map, hsegl]; omega
        have hread : Read ω K (i + 1) idx cnt (hs.set i y) (cnt[i]).toNat g := by
          refine ⟨by omega, by rw [List.length_set, r2], fun j z hj hz => ?_, fun z hz => ?_, hgl.symm, ?_, fun j hj => ?_⟩
          · by_cases e : j = i
            · subst e
              rw [List.getElem?_set_self hlh] at hz
              cases hz
              rw [hgi]
              exact ⟨u2, u4 rfl⟩
            · rw [List.getElem?_set_ne (Ne.symm e)] at hz
              rw [hnew j e]
              exact r3 j z (by omega) hz
          · rcases List.mem_or_eq_of_mem_set hz with h | h
            · exact r4 z h
            · rw [h]; exact u2
          · rw [show (cnt[i]).toNat = k + ((cnt[i]).toNat - k) from by omega, List.take_add, List.map_append, r6, hseg, hgs]
          · by_cases e : j = i
            · subst e
              rw [hgl, List.getElem?_eq_getElem hic]
              simp
            · rw [r7 j (by omega)]
              congr 3
              exact (allIndices_congr fun j' hj' => by rw [hnew j' (by omega)])
        obtain ⟨hs', k', bad, v1, v2, v3⟩ := unhints_spec hω hi hc hs1 hs2 n (i + 1) (hs.set i y) (cnt[i]).toNat g (by omega) hread
        refine ⟨hs', k', bad, v1, v2, fun hb => ?_⟩
        rintro ⟨h', e1, e2, e3, e4⟩
        refine v3 hb ⟨h', fun j hj => ?_, e2, e3, e4⟩
        by_cases e : j = i
        · subst e
          have h1 := hcnt h' e2 e4
          have ht : (idx.take (cnt[j]).toNat).map BitVec.toNat = allIndices h' (j + 1) := by
            have hpre : ∃ t, allIndices h' K = allIndices h' (j + 1) ++ t := by
              have : ∀ m, j + 1 ≤ m → ∃ t, allIndices h' m = allIndices h' (j + 1) ++ t := by
                intro m
                induction m with
                | zero => intro h; omega
                | succ m ih =>
                  intro hm
                  by_cases em : j + 1 = m + 1
                  · exact ⟨[], by rw [em, List.append_nil]⟩
                  · obtain ⟨t, ht⟩ := ih (by omega)
                    exact ⟨t ++ indices (h' m), by rw [allIndices_succ, ht, List.append_assoc]⟩
              exact this K (by omega)
            obtain ⟨t, ht⟩ := hpre
            rw [e3, ht, h1, List.map_append, List.append_assoc, ← List.length_map (as := allIndices h' (j + 1)) (BitVec.ofNat 8), List.take_left]
            exact map_toNat_ofNat fun j hj => allIndices_lt hj
          have ht2 : allIndices h' (j + 1) = allIndices h j ++ seg.map BitVec.toNat := by
            rw [← ht, show (cnt[j]).toNat = k + ((cnt[j]).toNat - k) from by omega, List.take_add, List.map_append, r6, hseg]
          rw [allIndices_succ, allIndices_congr e1] at ht2
          rw [hgi, hidx]
          exact List.append_cancel_left ht2
        · rw [hnew j e]
          exact e1 j (by omega)

theorem padLoop_spec {sig : List Byte} {pos : Nat} {idx : List Byte} (hs : Holds sig pos idx) : ∀ n j, j + n = idx.length → padLoop sig pos n j = .ok (!decide (idx.drop j = List.replicate n 0))
  | 0, j, h => by
    rw [padLoop, List.drop_eq_nil_of_le (by omega)]
    rfl
  | n + 1, j, h => by
    have hj : j < idx.length := by omega
    have hrd : rd sig (pos + j) = .ok idx[j] := by
      obtain ⟨pre, post, e, hl⟩ := hs
      have hlt : pos + j < sig.length := by rw [e, List.length_append, List.length_append]; omega
      rw [rd_ok hlt]
      congr 1
      have : sig[pos + j]? = some idx[j] := by
        rw [e, List.append_assoc, List.getElem?_append_right (by omega), hl, Nat.add_sub_cancel_left, List.getElem?_append_left hj, List.getElem?_eq_getElem hj]
      rw [List.getElem?_eq_getElem hlt] at this
      exact Option.some.inj this
    rw [padLoop, hrd, ok_bind, List.drop_eq_getElem_cons hj, List.replicate_succ]
    by_cases h0 : idx[j] = 0
    · rw [if_neg (by simpa using h0), padLoop_spec hs n (j + 1) (by omega)]
      simp [h0]
    · rw [if_pos h0, decide_eq_false fun e => h0 (List.cons.inj e).1]
      rfl

end Cex.Dilithium
