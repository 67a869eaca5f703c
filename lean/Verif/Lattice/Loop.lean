import Verif.Base
import Verif.Lattice.Ntt

/-!
# The loops of the number theoretic transforms

The loops over blocks and butterflies, shared by the models of Kyber and Dilithium; the arithmetic of a butterfly is a parameter.
-/

namespace Cex.Lattice
open Cex

/-- Body of the innermost loop: `op` on the coefficients `j` and `j + len`
(KyberBase.cpp:74-79, 101-107). -/
def bfly (op : Int → Int → M (Int × Int)) (len j : Nat) (r : List Int) : M (List Int) := do
  let x ← rd r j
  let y ← rd r (j + len)
  let (x', y') ← op x y
  let r ← wr r (j + len) y'
  wr r j x'

/-- `for (j = start; j < start + len; ++j)` (KyberBase.cpp:74, 101). -/
def inner (op : Int → Int → M (Int × Int)) (len start : Nat) (r : List Int) : M (List Int) :=
  loopN len start (bfly op len) r

/-- `for (start = 0; start < 256; start = j + len)`: `128 / len` turns, `j = start + len` after the inner loop.
`zeta k` is the table entry, `next` the change of `k` (KyberBase.cpp:69-80, 96-108). -/
def sweep (zeta : Nat → M Int) (next : Nat → Nat) (op : Int → Int → Int → M (Int × Int)) (len k : Nat) (r : List Int) : M (Nat × List Int) := do
  let (_, k, r) ← loopN (128 / len) 0 (fun _ (s : Nat × Nat × List Int) => do
    let z ← zeta s.2.1
    let r ← inner (op z) len s.1 s.2.2
    return (s.1 + len + len, next s.2.1, r)) (0, k, r)
  return (k, r)

variable {F : Type} [CommRing F]

/-- `r` has 256 entries, each standing for the value of `f` in the sense of `P`. -/
def Rep (P : Int → F → Prop) (r : List Int) (f : Nat → F) : Prop := r.length = 256 ∧ ∀ i v, r[i]? = some v → P v (f i)

theorem Rep.mono {P Q : Int → F → Prop} {r : List Int} {f g : Nat → F} (h : Rep P r f) (hm : ∀ v i, i < 256 → P v (f i) → Q v (g i)) : Rep Q r g := by
  refine ⟨h.1, fun i v hv => ?_⟩
  have : i < 256 := by rw [← h.1]; exact (List.getElem?_eq_some_iff.mp hv).1
  exact hm v i this (h.2 i v hv)

theorem Rep.get {P : Int → F → Prop} {r : List Int} {f : Nat → F} (h : Rep P r f) {i : Nat} (hi : i < 256) : ∃ v, rd r i = .ok v ∧ r[i]? = some v ∧ P v (f i) := by
  have hl : i < r.length := by rw [h.1]; exact hi
  exact ⟨r[i], rd_ok hl, List.getElem?_eq_getElem hl, h.2 _ _ (List.getElem?_eq_getElem hl)⟩

/-- Entries in `T` have their new values, the others their old ones. -/
def Mixed (P Q : Int → F → Prop) (f g : Nat → F) (T : Nat → Prop) (r : List Int) : Prop :=
  r.length = 256 ∧ ∀ i v, r[i]? = some v → (T i → Q v (g i)) ∧ (¬ T i → P v (f i))

theorem inner_spec {P Q : Int → F → Prop} {f g : Nat → F} {op : Int → Int → M (Int × Int)} {len start : Nat} {r : List Int} (hs : start + len + len ≤ 256)
    (hop : ∀ j x y, start ≤ j → j < start + len → P x (f j) → P y (f (j + len)) → ∃ x' y', op x y = .ok (x', y') ∧ Q x' (g j) ∧ Q y' (g (j + len)))
    (h : Mixed P Q f g (· < start) r) :
    ∃ r', inner op len start r = .ok r' ∧ Mixed P Q f g (· < start + len + len) r' := by
  obtain ⟨r', h1, h2⟩ := loopN_inv (f := bfly op len)
    (fun j r => start ≤ j ∧ Mixed P Q f g (fun i => i < j ∨ (start + len ≤ i ∧ i < j + len)) r) len start r
    (by
      intro j r hj hlt ⟨_, hl, hr⟩
      have l1 : j < r.length := by omega
      have l2 : j + len < r.length := by omega
      obtain ⟨x', y', he, hx, hy⟩ := hop j r[j] r[j + len] hj hlt
        ((hr j _ (List.getElem?_eq_getElem l1)).2 (by omega)) ((hr _ _ (List.getElem?_eq_getElem l2)).2 (by omega))
      refine ⟨(r.set (j + len) y').set j x', ?_, by omega, by simp [hl], ?_⟩
      · unfold bfly
        simp only [rd_ok l1, rd_ok l2, ok_bind, he]
        rw [wr_ok _ l2]
        simp only [ok_bind]
        rw [wr_ok _ (by simp; exact l1)]
      · intro i v hv
        by_cases e1 : i = j
        · subst e1
          rw [List.getElem?_set_self (by simp; exact l1)] at hv
          cases hv
          exact ⟨fun _ => hx, fun hn => absurd (Or.inl (by omega)) hn⟩
        · rw [List.getElem?_set_ne (by omega)] at hv
          by_cases e2 : i = j + len
          · subst e2
            rw [List.getElem?_set_self l2] at hv
            cases hv
            exact ⟨fun _ => hy, fun hn => absurd (Or.inr ⟨by omega, by omega⟩) hn⟩
          · rw [List.getElem?_set_ne (by omega)] at hv
            obtain ⟨h1, h2⟩ := hr i v hv
            exact ⟨fun ht => h1 (by omega), fun ht => h2 (by omega)⟩)
    ⟨Nat.le_refl _, h.1, fun i v hv => ⟨fun ht => (h.2 i v hv).1 (by omega), fun ht => (h.2 i v hv).2 (by omega)⟩⟩
  refine ⟨r', h1, h2.2.1, fun i v hv => ?_⟩
  obtain ⟨h3, h4⟩ := h2.2.2 i v hv
  exact ⟨fun ht => h3 (by omega), fun ht => h4 (by omega)⟩

/-- A whole layer: every butterfly of block `b` maps the old values to the new ones. -/
theorem sweep_spec {P Q : Int → F → Prop} {f g : Nat → F} {zeta : Nat → M Int} {next : Nat → Nat} {op : Int → Int → Int → M (Int × Int)} {len k : Nat} {r : List Int}
    (kk : Nat → Nat) (h0 : kk 0 = k) (hk : ∀ b, next (kk b) = kk (b + 1)) (hlen : Len len)
    (hop : ∀ b, b < 128 / len → ∃ z, zeta (kk b) = .ok z ∧ ∀ o x y, o < len → P x (f (b * (2 * len) + o)) → P y (f (b * (2 * len) + o + len)) →
      ∃ x' y', op z x y = .ok (x', y') ∧ Q x' (g (b * (2 * len) + o)) ∧ Q y' (g (b * (2 * len) + o + len)))
    (h : Rep P r f) : ∃ r', sweep zeta next op len k r = .ok (kk (128 / len), r') ∧ Rep Q r' g := by
  have hall : 128 / len * (2 * len) = 256 := by rcases hlen with rfl | rfl | rfl | rfl | rfl | rfl | rfl | rfl <;> rfl
  obtain ⟨s, h1, h2⟩ := loopN_inv
    (f := fun _ (s : Nat × Nat × List Int) => do
      let z ← zeta s.2.1
      let r ← inner (op z) len s.1 s.2.2
      return (s.1 + len + len, next s.2.1, r))
    (fun b s => s.1 = b * (2 * len) ∧ s.2.1 = kk b ∧ Mixed P Q f g (· < b * (2 * len)) s.2.2) (128 / len) 0 (0, k, r)
    (by
      rintro b ⟨st, k', r⟩ _ hb ⟨e1, e2, hm⟩
      simp only at e1 e2 hm
      subst e1 e2
      obtain ⟨z, hz, ho⟩ := hop b (by omega)
      have hle : (b + 1) * (2 * len) ≤ 128 / len * (2 * len) := Nat.mul_le_mul_right _ (by omega)
      have hsu : (b + 1) * (2 * len) = b * (2 * len) + len + len := by rw [Nat.add_mul]; omega
      obtain ⟨r', h1, h2⟩ := inner_spec (op := op z) (P := P) (Q := Q) (f := f) (g := g) (len := len) (start := b * (2 * len)) (by omega)
        (by
          intro j x y hj hlt
          have := ho (j - b * (2 * len)) x y (by omega)
          rw [show b * (2 * len) + (j - b * (2 * len)) = j from by omega] at this
          exact this) hm
      refine ⟨(b * (2 * len) + len + len, next (kk b), r'), ?_, hsu.symm, hk b, ?_⟩
      · simp only [hz, ok_bind, h1, pure_eq_ok]
      · rw [hsu]; exact h2)
    ⟨by simp, h0.symm, h.1, fun i v hv => ⟨fun ht => by simp at ht, fun _ => h.2 i v hv⟩⟩
  obtain ⟨st, k', r'⟩ := s
  obtain ⟨_, e2, hm⟩ := h2
  simp only [Nat.zero_add] at e2 hm
  refine ⟨r', ?_, hm.1, fun i v hv => ?_⟩
  · unfold sweep
    rw [h1, ← e2]
    rfl
  · have : i < 256 := by rw [← hm.1]; exact (List.getElem?_eq_some_iff.mp hv).1
    exact (hm.2 i v hv).1 (by omega)

/-- `for (i = 0; i < 256; ++i) r[i] = f(r[i])`. -/
def mapLoop (op : Int → M Int) (r : List Int) : M (List Int) := loopN 256 0 (fun i r => do wr r i (← op (← rd r i))) r

theorem mapLoop_spec {P Q : Int → F → Prop} {f g : Nat → F} {op : Int → M Int} {r : List Int}
    (hop : ∀ i x, i < 256 → P x (f i) → ∃ x', op x = .ok x' ∧ Q x' (g i)) (h : Rep P r f) : ∃ r', mapLoop op r = .ok r' ∧ Rep Q r' g := by
  obtain ⟨r', h1, h2⟩ := loopN_inv (f := fun i r => do wr r i (← op (← rd r i)))
    (fun j r => Mixed P Q f g (· < j) r) 256 0 r
    (by
      intro j r _ hlt ⟨hl, hr⟩
      have l1 : j < r.length := by omega
      obtain ⟨x', he, hx⟩ := hop j r[j] (by omega) ((hr j _ (List.getElem?_eq_getElem l1)).2 (by omega))
      refine ⟨r.set j x', ?_, by simp [hl], ?_⟩
      · simp only [rd_ok l1, ok_bind, he, wr_ok _ l1]
      · intro i v hv
        by_cases e1 : i = j
        · subst e1
          rw [List.getElem?_set_self l1] at hv
          cases hv
          exact ⟨fun _ => hx, fun hn => absurd (by omega) hn⟩
        · rw [List.getElem?_set_ne (by omega)] at hv
          obtain ⟨h1, h2⟩ := hr i v hv
          exact ⟨fun ht => h1 (by omega), fun ht => h2 (by omega)⟩)
    ⟨h.1, fun i v hv => ⟨fun ht => by omega, fun _ => h.2 i v hv⟩⟩
  refine ⟨r', h1, h2.1, fun i v hv => ?_⟩
  have : i < 256 := by rw [← h2.1]; exact (List.getElem?_eq_some_iff.mp hv).1
  exact (h2.2 i v hv).1 (by omega)

end Cex.Lattice
