import Verif.Dilithium.SchemeSpec
import Verif.Dilithium.BallLemmas

/-!
# The algebra of Dilithium signatures
-/

namespace Cex.Dilithium
open Cex Cex.Lattice Cex.Spec.Dilithium Finset

/-! ## Products with a challenge -/

theorem mul_congr {R : Type} [CommRing R] {a a' b b' : Nat → R} (ha : ∀ k, k < 256 → a k = a' k) (hb : ∀ k, k < 256 → b k = b' k) (k : Nat) : mul a b k = mul a' b' k := by
  unfold mul
  refine sum_congr rfl fun i hi => sum_congr rfl fun j hj => ?_
  rw [ha i (mem_range.mp hi), hb j (mem_range.mp hj)]

theorem red_mul (c x : Nat → Int) (k : Nat) : mul (red c) (red x) k = ((mul c x k : Int) : F) := by
  unfold mul red
  push_cast
  rfl

theorem mul_row {c x : Nat → Int} {B : Int} (hB : 0 ≤ B) (hx : ∀ j, j < 256 → |x j| ≤ B) {k i : Nat} (hk : k < 256) (hi : i < 256) :
    |∑ j ∈ range 256, if i + j = k then c i * x j else if i + j = k + 256 then - (c i * x j) else 0| ≤ |c i| * B := by
  have key : ∀ m, m < 256 → (∀ j, j < 256 → j ≠ m → ¬ (i + j = k) ∧ ¬ (i + j = k + 256)) →
      |∑ j ∈ range 256, if i + j = k then c i * x j else if i + j = k + 256 then - (c i * x j) else 0| ≤ |c i| * B := by
    intro m hm hne
    rw [sum_eq_single m]
    · have h1 : |c i * x m| ≤ |c i| * B := by rw [abs_mul]; exact mul_le_mul_of_nonneg_left (hx m hm) (abs_nonneg _)
      split
      · exact h1
      · split
        · rw [abs_neg]; exact h1
        · rw [abs_zero]; exact mul_nonneg (abs_nonneg _) hB
    · intro j hj hjm
      obtain ⟨h1, h2⟩ := hne j (mem_range.mp hj) hjm
      rw [if_neg h1, if_neg h2]
    · intro h; exact absurd (mem_range.mpr hm) h
  by_cases h : i ≤ k
  · exact key (k - i) (by omega) (fun j hj hne => by omega)
  · exact key (k + 256 - i) (by omega) (fun j hj hne => by omega)

theorem sum_abs_count {c : Nat → Int} (hc : ∀ k, -1 ≤ c k ∧ c k ≤ 1) : ∀ n, ∑ i ∈ range n, |c i| = (count c n : Int)
  | 0 => rfl
  | n + 1 => by
    rw [sum_range_succ, sum_abs_count hc n, count]
    have := hc n
    have h3 : c n = -1 ∨ c n = 0 ∨ c n = 1 := by omega
    rcases h3 with h | h | h <;> simp [h]

/-- `‖c x‖ ≤ τ η`. -/
theorem mul_norm {c x : Nat → Int} {B : Int} (hB : 0 ≤ B) (hc : ∀ k, -1 ≤ c k ∧ c k ≤ 1) (hx : ∀ j, j < 256 → |x j| ≤ B) {k : Nat} (hk : k < 256) : |mul c x k| ≤ count c 256 * B := by
  calc |mul c x k| ≤ ∑ i ∈ range 256, |∑ j ∈ range 256, if i + j = k then c i * x j else if i + j = k + 256 then - (c i * x j) else 0| := abs_sum_le_sum_abs _ _
    _ ≤ ∑ i ∈ range 256, |c i| * B := sum_le_sum fun i hi => mul_row hB hx hk (mem_range.mp hi)
    _ = count c 256 * B := by rw [← sum_mul, sum_abs_count hc]

/-! ## Rounding -/

theorem decompose_at {g w1 u : Int} (hg : Gamma g) (h0 : 0 ≤ w1) (h1 : w1 < 8380416 / (2 * g)) (hu1 : -g < u) (hu2 : u < g) :
    Spec.Dilithium.decompose g ((w1 * (2 * g) + u) % 8380417) = (w1, u) := by
  have hh := highBits_at hg h0 h1 hu1 hu2
  obtain ⟨p1, p2, p3, p4, p5⟩ := decompose_parts hg (Int.emod_nonneg (w1 * (2 * g) + u) (by norm_num : (8380417 : Int) ≠ 0)) (Int.emod_lt_of_pos _ (by norm_num))
  unfold highBits at hh
  rw [hh] at p5
  refine Prod.ext hh ?_
  simp only []
  have : (Spec.Dilithium.decompose g ((w1 * (2 * g) + u) % 8380417)).2 = u := by
    generalize (Spec.Dilithium.decompose g ((w1 * (2 * g) + u) % 8380417)).2 = r at *
    rcases hg with rfl | rfl
    · simp only [show (2 : Int) * 95232 = 190464 from rfl] at *
      omega
    · simp only [show (2 : Int) * 261888 = 523776 from rfl] at *
      omega
  exact this

theorem val_decompose {g : Int} (hg : Gamma g) (w : F) : w = (((Spec.Dilithium.decompose g w.val).1 * (2 * g) + (Spec.Dilithium.decompose g w.val).2 : Int) : F) := by
  obtain ⟨h0, h1⟩ := val_range w
  obtain ⟨_, _, _, _, p5⟩ := decompose_parts hg h0 h1
  have hw : w = ((w.val : Int) : F) := by rw [Int.cast_natCast, ZMod.natCast_zmod_val]
  rcases p5 with e | e
  · conv_lhs => rw [hw, e]
  · conv_lhs => rw [hw, e]
    push_cast
    rw [q_zero', add_zero]

/-- A small change of `w` changes the low bits only. -/
theorem decompose_shift {g : Int} (hg : Gamma g) {w : F} {e : Int} (h : |(Spec.Dilithium.decompose g w.val).2 - e| < g) :
    Spec.Dilithium.decompose g (w - (e : F)).val = ((Spec.Dilithium.decompose g w.val).1, (Spec.Dilithium.decompose g w.val).2 - e) := by
  obtain ⟨h0, h1⟩ := val_range w
  obtain ⟨p1, p2, _⟩ := decompose_parts hg h0 h1
  obtain ⟨u1, u2⟩ := abs_lt.mp h
  have e1 : ((w - (e : F)).val : Int) = ((Spec.Dilithium.decompose g w.val).1 * (2 * g) + ((Spec.Dilithium.decompose g w.val).2 - e)) % 8380417 := by
    apply val_mod
    conv_rhs => rw [val_decompose hg w]
    push_cast
    ring
  rw [e1, decompose_at hg p1 p2 u1 u2]

theorem norm_lt {v : Int} {x : F} {B : Nat} (h : Is 6283009 v x) (hB : B ≤ 1047552) : norm x < B ↔ |v| < B := by
  have := norm_le h (B := B) (by exact_mod_cast hB)
  constructor
  · intro hn
    by_contra hc
    have h2 := this.mp (by omega)
    omega
  · intro hn
    by_contra hc
    have h2 := this.mpr (by exact_mod_cast Nat.le_of_not_lt hc)
    omega

/-- The integer next to 0. -/
theorem centre_spec (x : F) : (centre x : F) = x ∧ |centre x| ≤ 4190208 ∧ |centre x| = norm x := by
  obtain ⟨h0, h1⟩ := val_range x
  have hw : ((x.val : Int) : F) = x := by rw [Int.cast_natCast, ZMod.natCast_zmod_val]
  unfold centre cmod norm
  rw [Int.emod_eq_of_lt h0 h1]
  split
  · refine ⟨by push_cast; rw [q_zero']; push_cast at hw; rw [hw, sub_zero], ?_, ?_⟩
    · rw [abs_le]; omega
    · rw [abs_of_neg (by omega), Nat.min_eq_right (by omega)]; omega
  · refine ⟨hw, ?_, ?_⟩
    · rw [abs_le]; omega
    · rw [abs_of_nonneg (by omega), Nat.min_eq_left (by omega)]

theorem centre_unique {v : Int} {x : F} (h : (v : F) = x) (hv : |v| ≤ 4190208) : v = centre x := by
  obtain ⟨h1, h2, _⟩ := centre_spec x
  have e1 := val_mod h
  have e2 := val_mod h1
  rw [abs_le] at hv h2
  omega

theorem makeHint_congr {g z r z' r' : Int} (h1 : r % 8380417 = r' % 8380417) (h2 : (r + z) % 8380417 = (r' + z') % 8380417) : Spec.Dilithium.makeHint g z r = Spec.Dilithium.makeHint g z' r' := by
  unfold Spec.Dilithium.makeHint
  rw [h1, h2]

/-- The hints of the specification, as the code computes them. -/
theorem hint_code {g : Int} (hg : Gamma g) {r ct : F} (hr : |(Spec.Dilithium.decompose g r.val).2| < g) (ht : (norm ct : Int) < g) :
    Spec.Dilithium.makeHint g (-(ct.val : Int)) ((r + ct).val : Int) =
      decide (makeHint g ((((Spec.Dilithium.decompose g r.val).2 + centre ct : Int) : F).val : Int) (Spec.Dilithium.decompose g r.val).1 ≠ 0) ∧
    Spec.Dilithium.useHint g (Spec.Dilithium.makeHint g (-(ct.val : Int)) ((r + ct).val : Int)) ((r + ct).val : Int) = highBits g r.val := by
  obtain ⟨h0, h1⟩ := val_range r
  obtain ⟨p1, p2, _⟩ := decompose_parts hg h0 h1
  obtain ⟨c1, c2, c3⟩ := centre_spec ct
  have hd := val_decompose hg r
  unfold highBits
  generalize Spec.Dilithium.decompose g r.val = d at *
  obtain ⟨w1, u⟩ := d
  simp only [] at *
  have hct : |centre ct| < g := by rw [c3]; exact ht
  rw [abs_lt] at hr hct
  have hR1 : -(2 * g) < u + centre ct := by omega
  have hR2 : u + centre ct < 2 * g := by omega
  have hv : ((((u + centre ct : Int) : F).val : Int)) = if u + centre ct < 0 then u + centre ct + 8380417 else u + centre ct := by
    rw [val_mod (v := u + centre ct) rfl]
    have hgb : g ≤ 261888 := by rcases hg with rfl | rfl <;> norm_num
    split <;> omega
  have e1 : ((r + ct).val : Int) = (w1 * (2 * g) + (u + centre ct)) % 8380417 := by
    apply val_mod
    conv_rhs => rw [hd, ← c1]
    push_cast
    ring
  have e2 : (r.val : Int) = (w1 * (2 * g) + u) % 8380417 := val_mod hd.symm
  have e3 : (((r + ct).val : Int) + -(ct.val : Int)) % 8380417 = (w1 * (2 * g) + u) % 8380417 := by
    have := val_mod (v := centre ct) (x := ct) c1
    rw [e1, this]
    omega
  have hs := makeHint_spec hg p1 p2 hR1 hR2 hr.1 hr.2 hv
  have hmk : Spec.Dilithium.makeHint g (-(ct.val : Int)) ((r + ct).val : Int) = decide (makeHint g ((((u + centre ct : Int) : F).val : Int)) w1 ≠ 0) := by
    rw [← hs]
    apply makeHint_congr
    · rw [e1, Int.emod_emod_of_dvd _ (dvd_refl _)]
    · rw [e3]
      congr 1
      ring
  refine ⟨hmk, ?_⟩
  rw [hmk]
  obtain ⟨k0, k1⟩ := val_range (r + ct)
  refine hint_recovers hg p1 p2 hR1 hR2 hv k0 k1 ?_
  have hm : 8380416 / (2 * g) * (2 * g) = 8380416 := by rcases hg with rfl | rfl <;> rfl
  have hlt : w1 * (2 * g) + 2 * g ≤ 8380416 := by
    rcases hg with rfl | rfl
    · simp only [show (2 : Int) * 95232 = 190464 from rfl] at *; omega
    · simp only [show (2 : Int) * 261888 = 523776 from rfl] at *; omega
  have hge : 0 ≤ w1 * (2 * g) := mul_nonneg p1 (by rcases hg with rfl | rfl <;> norm_num)
  have hgb : g ≤ 261888 := by rcases hg with rfl | rfl <;> norm_num
  generalize w1 * (2 * g) = W at *
  omega

end Cex.Dilithium
