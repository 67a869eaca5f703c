import Verif.Lattice.Codec

/-!
# Loops over the entries of a vector
-/

namespace Cex.Lattice
open Cex Cex.Spec.Lattice

/-- A vector of `K` entries with a property each. -/
def Each {α : Type} (Q : Nat → α → Prop) (K : Nat) (a : List α) : Prop := a.length = K ∧ ∀ i y, a[i]? = some y → Q i y

theorem Each.get {α : Type} {Q : Nat → α → Prop} {K : Nat} {a : List α} (h : Each Q K a) {i : Nat} (hi : i < K) : ∃ y, rd a i = .ok y ∧ Q i y := by
  have hl : i < a.length := by rw [h.1]; exact hi
  exact ⟨a[i], rd_ok hl, h.2 i _ (List.getElem?_eq_getElem hl)⟩

theorem Each.mono {α : Type} {Q Q' : Nat → α → Prop} {K : Nat} {a : List α} (h : Each Q K a) (hq : ∀ i y, i < K → Q i y → Q' i y) : Each Q' K a :=
  ⟨h.1, fun i y hy => hq i y (by rw [← h.1]; exact (List.getElem?_eq_some_iff.mp hy).1) (h.2 i y hy)⟩

theorem Each.and {α : Type} {Q Q' : Nat → α → Prop} {K : Nat} {a : List α} (h : Each Q K a) (h' : Each Q' K a) : Each (fun i y => Q i y ∧ Q' i y) K a :=
  ⟨h.1, fun i y hy => ⟨h.2 i y hy, h'.2 i y hy⟩⟩

theorem each_replicate {α : Type} {Q : Nat → α → Prop} {K : Nat} {x : α} (h : ∀ i, i < K → Q i x) : Each Q K (List.replicate K x) := by
  refine ⟨List.length_replicate, fun i y hy => ?_⟩
  obtain ⟨hi, rfl⟩ := List.getElem?_eq_some_iff.mp hy
  rw [List.length_replicate] at hi
  rw [List.getElem_replicate]
  exact h i hi

theorem each_range {α : Type} {Q : Nat → α → Prop} {K : Nat} {g : Nat → α} (h : ∀ i, i < K → Q i (g i)) : Each Q K ((List.range K).map g) := by
  refine ⟨by rw [List.length_map, List.length_range], fun i y hy => ?_⟩
  obtain ⟨hi, rfl⟩ := List.getElem?_eq_some_iff.mp hy
  rw [List.length_map, List.length_range] at hi
  rw [List.getElem_map, List.getElem_range]
  exact h i hi

/-- A vector is determined by its entries. -/
theorem each_eq {α : Type} {K : Nat} {a : List α} {g : Nat → α} (h : Each (fun i y => y = g i) K a) : a = (List.range K).map g := by
  apply List.ext_getElem?
  intro i
  by_cases hi : i < K
  · have hl : i < a.length := by rw [h.1]; exact hi
    rw [List.getElem?_eq_getElem hl, h.2 i _ (List.getElem?_eq_getElem hl), List.getElem?_map, List.getElem?_range hi, Option.map_some]
  · rw [List.getElem?_eq_none (by rw [h.1]; omega), List.getElem?_eq_none (by rw [List.length_map, List.length_range]; omega)]

/-- `for (i = 0; i < K; ++i) r[i] = op(i, r[i])`. -/
def vecLoop {α : Type} (K : Nat) (op : Nat → α → M α) (r : List α) : M (List α) := loopN K 0 (fun i r => do wr r i (← op i (← rd r i))) r

theorem set_mixed {α : Type} {P Q : Nat → α → Prop} {K j : Nat} {s : List α} (hl : s.length = K) (hj : j < K) (hq : ∀ i y, i < j → s[i]? = some y → Q i y)
    (hp : ∀ i y, j ≤ i → s[i]? = some y → P i y) {v : α} (hv : Q j v) :
    (s.set j v).length = K ∧ (∀ i y, i < j + 1 → (s.set j v)[i]? = some y → Q i y) ∧ ∀ i y, j + 1 ≤ i → (s.set j v)[i]? = some y → P i y := by
  refine ⟨by rw [List.length_set, hl], fun i y hi hy => ?_, fun i y hi hy => ?_⟩
  · by_cases e : i = j
    · subst e
      rw [List.getElem?_set_self (by omega)] at hy
      cases hy
      exact hv
    · rw [List.getElem?_set_ne (Ne.symm e)] at hy
      exact hq i y (by omega) hy
  · rw [List.getElem?_set_ne (by omega)] at hy
    exact hp i y (by omega) hy

theorem vecLoop_spec {α : Type} {K : Nat} {op : Nat → α → M α} {P Q : Nat → α → Prop} (h : ∀ i x, i < K → P i x → ∃ y, op i x = .ok y ∧ Q i y) {r : List α} (hr : Each P K r) :
    ∃ r', vecLoop K op r = .ok r' ∧ Each Q K r' := by
  obtain ⟨s, h1, h2, h3, _⟩ := loopN_inv (f := fun i r => do wr r i (← op i (← rd r i)))
    (fun j s => s.length = K ∧ (∀ i y, i < j → s[i]? = some y → Q i y) ∧ ∀ i y, j ≤ i → s[i]? = some y → P i y) K 0 r
    (by
      rintro j s _ hlt ⟨hl, hq, hp⟩
      have hj : j < s.length := by omega
      obtain ⟨y, e, qy⟩ := h j _ (by omega) (hp j _ (le_refl j) (List.getElem?_eq_getElem hj))
      refine ⟨s.set j y, ?_, set_mixed hl (by omega) hq hp qy⟩
      rw [rd_ok hj, ok_bind, e, ok_bind, wr_ok _ hj])
    ⟨hr.1, fun i y hi => by omega, fun i y _ hy => hr.2 i y hy⟩
  exact ⟨s, h1, h2, fun i y hy => h3 i y (by have := (List.getElem?_eq_some_iff.mp hy).1; omega) hy⟩

/-- The same with two vectors. -/
def vecLoop2 {α : Type} (K : Nat) (op : Nat → α → α → M (α × α)) (r1 r0 : List α) : M (List α × List α) :=
  loopN K 0 (fun i s => do
    let p ← op i (← rd s.1 i) (← rd s.2 i)
    return (← wr s.1 i p.1, ← wr s.2 i p.2)) (r1, r0)

theorem vecLoop2_spec {α : Type} {K : Nat} {op : Nat → α → α → M (α × α)} {P Q1 Q0 : Nat → α → Prop}
    (h : ∀ i x1 x0, i < K → P i x1 → P i x0 → ∃ y, op i x1 x0 = .ok y ∧ Q1 i y.1 ∧ Q0 i y.2) {r1 r0 : List α} (hr1 : Each P K r1) (hr0 : Each P K r0) :
    ∃ r1' r0', vecLoop2 K op r1 r0 = .ok (r1', r0') ∧ Each Q1 K r1' ∧ Each Q0 K r0' := by
  obtain ⟨⟨s1, s0⟩, h1, ⟨h2, h3, _⟩, h4, h5, _⟩ := loopN_inv (f := fun i (s : List α × List α) => do
      let p ← op i (← rd s.1 i) (← rd s.2 i)
      return (← wr s.1 i p.1, ← wr s.2 i p.2))
    (fun j s => (s.1.length = K ∧ (∀ i y, i < j → s.1[i]? = some y → Q1 i y) ∧ ∀ i y, j ≤ i → s.1[i]? = some y → P i y) ∧
      (s.2.length = K ∧ (∀ i y, i < j → s.2[i]? = some y → Q0 i y) ∧ ∀ i y, j ≤ i → s.2[i]? = some y → P i y)) K 0 (r1, r0)
    (by
      rintro j ⟨s1, s0⟩ _ hlt ⟨⟨hl, hq, hp⟩, hl', hq', hp'⟩
      have hj : j < s1.length := by simp only at hl; omega
      have hj' : j < s0.length := by simp only at hl'; omega
      obtain ⟨y, e, q1, q0⟩ := h j _ _ (by omega) (hp j _ (le_refl j) (List.getElem?_eq_getElem hj)) (hp' j _ (le_refl j) (List.getElem?_eq_getElem hj'))
      refine ⟨(s1.set j y.1, s0.set j y.2), ?_, set_mixed hl (by omega) hq hp q1, set_mixed hl' (by omega) hq' hp' q0⟩
      simp only [rd_ok hj, rd_ok hj', ok_bind, e, wr_ok _ hj, wr_ok _ hj', pure_eq_ok])
    ⟨⟨hr1.1, fun i y hi => by omega, fun i y _ hy => hr1.2 i y hy⟩, hr0.1, fun i y hi => by omega, fun i y _ hy => hr0.2 i y hy⟩
  simp only at h2 h4
  exact ⟨s1, s0, h1, ⟨h2, fun i y hy => h3 i y (by have := (List.getElem?_eq_some_iff.mp hy).1; omega) hy⟩,
    h4, fun i y hy => h5 i y (by have := (List.getElem?_eq_some_iff.mp hy).1; omega) hy⟩

/-- A loop that writes the encodings of the entries one after another. -/
theorem packVec {K L : Nat} {f : Nat → List Byte → M (List Byte)} {e : Nat → List Byte} (base : List Byte) (hl : ∀ i, i < K → (e i).length = L)
    (h : ∀ i, i < K → ∀ pre junk post, pre.length = base.length + L * i → junk.length = L → f i (pre ++ junk ++ post) = .ok (pre ++ e i ++ post)) (junk : List Byte) (hj : junk.length = L * K)
    (post : List Byte) : loopN K 0 f (base ++ (junk ++ post)) = .ok (base ++ ((List.range K).flatMap e ++ post)) := by
  obtain ⟨r', h1, h2⟩ := loopN_inv (f := f) (fun i r => i ≤ K ∧ ∃ rest, r = base ++ ((List.range i).flatMap e ++ (rest ++ post)) ∧ ((List.range i).flatMap e).length = L * i ∧ rest.length = L * (K - i)) K 0
    (base ++ (junk ++ post))
    (by
      rintro i r _ hi ⟨_, rest, rfl, hl', hr⟩
      have hi : i < K := by omega
      have hgr : L * (K - i) = L + L * (K - (i + 1)) := by rw [show K - i = 1 + (K - (i + 1)) from by omega, Nat.mul_add, Nat.mul_one]
      refine ⟨_, ?_, hi, rest.drop L, rfl, ?_, by rw [List.length_drop]; omega⟩
      · have e1 : base ++ ((List.range i).flatMap e ++ (rest ++ post)) = (base ++ (List.range i).flatMap e) ++ rest.take L ++ (rest.drop L ++ post) := by
          conv_lhs => rw [← List.take_append_drop L rest]
          simp only [List.append_assoc]
        rw [e1, h i hi _ _ _ (by rw [List.length_append, hl']) (by rw [List.length_take]; omega), List.range_succ, List.flatMap_append]
        simp [List.append_assoc]
      · rw [List.range_succ, List.flatMap_append, List.length_append, hl', Nat.mul_add, Nat.mul_one]
        simp [hl i hi])
    ⟨by omega, junk, by simp, by simp, by simpa using hj⟩
  obtain ⟨_, rest, rfl, _, hr⟩ := h2
  rw [h1]
  have hr0 : rest = [] := by apply List.eq_nil_of_length_eq_zero; rw [hr]; simp
  rw [hr0, List.nil_append, Nat.zero_add]

theorem flatMap_length {K L : Nat} {e : Nat → List Byte} (hl : ∀ i, i < K → (e i).length = L) : ((List.range K).flatMap e).length = L * K := by
  induction K with
  | zero => simp
  | succ K ih =>
    rw [List.range_succ, List.flatMap_append, List.length_append, ih fun i hi => hl i (by omega)]
    simp [hl K (by omega), Nat.mul_add]

/-- The bytes of entry `i` of a packed vector. -/
def chunk (L : Nat) (w : List Byte) (i : Nat) : List Byte := (w.drop (L * i)).take L

theorem chunk_length {L K i : Nat} {w : List Byte} (hw : L * K ≤ w.length) (hi : i < K) : (chunk L w i).length = L := by
  have : L * (i + 1) ≤ L * K := Nat.mul_le_mul_left _ hi
  rw [Nat.mul_add, Nat.mul_one] at this
  rw [chunk, List.length_take, List.length_drop]
  omega

theorem chunk_holds {L K i : Nat} {w : List Byte} (hw : L * K ≤ w.length) (hi : i < K) {bs : List Byte} {off : Nat} (h : Holds bs off w) : Holds bs (off + L * i) (chunk L w i) := by
  have : L * (i + 1) ≤ L * K := Nat.mul_le_mul_left _ hi
  rw [Nat.mul_add, Nat.mul_one] at this
  obtain ⟨pre, post, rfl, rfl⟩ := h
  refine ⟨pre ++ w.take (L * i), w.drop (L * i + L) ++ post, ?_, by rw [List.length_append, List.length_take]; omega⟩
  have e : w = w.take (L * i) ++ (chunk L w i ++ w.drop (L * i + L)) := by rw [chunk, ← List.drop_drop, List.take_append_drop, List.take_append_drop]
  conv_lhs => rw [e]
  simp only [List.append_assoc]

theorem chunk_flatMap {L K : Nat} {e : Nat → List Byte} (hl : ∀ i, i < K → (e i).length = L) {i : Nat} (hi : i < K) : chunk L ((List.range K).flatMap e) i = e i := by
  induction K with
  | zero => omega
  | succ K ih =>
    have hlen := flatMap_length (K := K) (L := L) (e := e) fun i hi => hl i (by omega)
    rw [List.range_succ, List.flatMap_append]
    by_cases e1 : i = K
    · subst e1
      rw [chunk, ← hlen, List.drop_left]
      simp only [List.flatMap_cons, List.flatMap_nil, List.append_nil]
      rw [List.take_of_length_le (by rw [hl i (by omega)])]
    · have hiK : i < K := by omega
      rw [chunk, List.drop_append_of_le_length (by rw [hlen]; exact Nat.mul_le_mul_left _ (by omega)),
        List.take_append_of_le_length]
      · exact ih (fun i hi => hl i (by omega)) hiK
      · have : L * (i + 1) ≤ L * K := Nat.mul_le_mul_left _ hiK
        rw [List.length_drop, hlen]
        rw [Nat.mul_add, Nat.mul_one] at this
        omega

theorem flatMap_chunk {L K : Nat} {w : List Byte} (hw : w.length = L * K) : (List.range K).flatMap (chunk L w) = w := by
  have : ∀ n, n ≤ K → (List.range n).flatMap (chunk L w) = w.take (L * n) := by
    intro n
    induction n with
    | zero => simp
    | succ n ih =>
      intro hn
      rw [List.range_succ, List.flatMap_append, ih (by omega), Nat.mul_add, Nat.mul_one, List.take_add]
      simp [chunk]
  rw [this K (le_refl K), ← hw, List.take_length]

/-- Number `i` of `d` bits in a byte string. -/
def number (d : Nat) (w : List Byte) (i : Nat) : Nat := leVal w / 2 ^ (d * i) % 2 ^ d

theorem number_lt (d : Nat) (w : List Byte) (i : Nat) : number d w i < 2 ^ d := Nat.mod_lt _ (Nat.two_pow_pos d)

theorem encode_length (d : Nat) (cs : List Nat) : (encode d cs).length = d * cs.length / 8 := by rw [encode, leEnc_length]

end Cex.Lattice
