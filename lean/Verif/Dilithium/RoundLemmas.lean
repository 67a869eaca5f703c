import Verif.Dilithium.NttLemmas

/-!
# Rounding
-/

namespace Cex.Dilithium
open Cex Cex.Lattice Cex.Spec.Dilithium

/-- The two values of `Gamma2`. -/
def Gamma (g : Int) : Prop := g = 95232 ∨ g = 261888

theorem gamma88_eq : gamma88 = 95232 := by decide
theorem gamma32_eq : gamma32 = 261888 := by decide

theorem decompose_spec {g a : Int} (hg : Gamma g) (h0 : 0 ≤ a) (h1 : a < 8380417) : decompose g a = .ok (Spec.Dilithium.decompose g a) := by
  rcases hg with rfl | rfl
  · rw [decompose, i32_ok (abs_le.mpr (by omega)), ok_bind, gamma88_eq, gamma32_eq]
    dsimp only
    rw [if_neg (by decide), if_pos rfl]
    generalize hb : (a + 127) / 128 = b
    have hb0 : 0 ≤ b ∧ b ≤ 65473 := by omega
    rw [i32_ok (abs_le.mpr (by omega)), ok_bind, i32_ok (abs_le.mpr (by omega)), ok_bind]
    generalize hc : (b * 11275 + 8388608) / 16777216 = c
    have hc0 : 0 ≤ c ∧ c ≤ 44 := by omega
    rw [i32_ok (abs_le.mpr (by omega)), ok_bind, pure_eq_ok, ok_bind]
    have hd : ∀ d e : Int, c32 (a - d * 2 * 95232) = e → -95232 ≤ e → e ≤ 8380416 →
        (do let d' ← i32 ((Q - 1) / 2 - c32 (a - d * 2 * 95232))
            let a0 ← i32 (c32 (a - d * 2 * 95232) - if d' < 0 then Q else 0)
            return (d, a0) : M (Int × Int)) = .ok (d, if 4190208 < e then e - 8380417 else e) := by
      intro d e he h2 h3
      rw [he, show (Q - 1) / 2 = 4190208 from by decide, i32_ok (abs_le.mpr (by omega)), ok_bind]
      by_cases h : 4190208 < e
      · rw [if_pos (by omega), if_pos h, Q, i32_ok (abs_le.mpr (by omega)), ok_bind, pure_eq_ok]
      · rw [if_neg (by omega), if_neg h, i32_ok (abs_le.mpr (by omega)), ok_bind, pure_eq_ok, Int.sub_zero]
    unfold Spec.Dilithium.decompose cmod
    rw [show (2 : Int) * 95232 = 190464 from rfl]
    by_cases h44 : 43 - c < 0
    · rw [if_pos h44, hd 0 a (by unfold c32; omega) (by omega) (by omega), if_pos (by omega)]
      have : a % 190464 = a - 8189952 ∧ 8285184 < a ∨ a = 8380416 := by omega
      split <;> split <;> first | (congr 2 <;> omega) | omega
    · rw [if_neg h44, hd c (a - c * 190464) (by unfold c32; omega) (by omega) (by omega), if_neg (by omega)]
      split <;> split <;> first | (congr 2 <;> omega) | omega
  · rw [decompose, i32_ok (abs_le.mpr (by omega)), ok_bind, gamma88_eq, gamma32_eq]
    dsimp only
    rw [if_pos rfl]
    generalize hb : (a + 127) / 128 = b
    have hb0 : 0 ≤ b ∧ b ≤ 65473 := by omega
    rw [i32_ok (abs_le.mpr (by omega)), ok_bind, i32_ok (abs_le.mpr (by omega)), ok_bind, pure_eq_ok, ok_bind]
    generalize hc : (b * 1025 + 2097152) / 4194304 = c
    have hc0 : 0 ≤ c ∧ c ≤ 16 := by omega
    have hd : ∀ d e : Int, c32 (a - d * 2 * 261888) = e → -261888 ≤ e → e ≤ 8380416 →
        (do let d' ← i32 ((Q - 1) / 2 - c32 (a - d * 2 * 261888))
            let a0 ← i32 (c32 (a - d * 2 * 261888) - if d' < 0 then Q else 0)
            return (d, a0) : M (Int × Int)) = .ok (d, if 4190208 < e then e - 8380417 else e) := by
      intro d e he h2 h3
      rw [he, show (Q - 1) / 2 = 4190208 from by decide, i32_ok (abs_le.mpr (by omega)), ok_bind]
      by_cases h : 4190208 < e
      · rw [if_pos (by omega), if_pos h, Q, i32_ok (abs_le.mpr (by omega)), ok_bind, pure_eq_ok]
      · rw [if_neg (by omega), if_neg h, i32_ok (abs_le.mpr (by omega)), ok_bind, pure_eq_ok, Int.sub_zero]
    unfold Spec.Dilithium.decompose cmod
    rw [show (2 : Int) * 261888 = 523776 from rfl]
    by_cases h16 : c = 16
    · rw [h16, show (16 : Int) % 16 = 0 from rfl]
      show _ = _
      rw [hd 0 a (by unfold c32; omega) (by omega) (by omega), if_pos (by omega)]
      split <;> split <;> first | (congr 2 <;> omega) | omega
    · rw [show c % 16 = c from by omega]
      rw [hd c (a - c * 523776) (by unfold c32; omega) (by omega) (by omega), if_neg (by omega)]
      split <;> split <;> first | (congr 2 <;> omega) | omega

/-- What `Decompose` guarantees: `r = r1 * α + r0` modulo `q`. -/
theorem decompose_parts {g a : Int} (hg : Gamma g) (h0 : 0 ≤ a) (h1 : a < 8380417) :
    0 ≤ (Spec.Dilithium.decompose g a).1 ∧ (Spec.Dilithium.decompose g a).1 < 8380416 / (2 * g) ∧ -g ≤ (Spec.Dilithium.decompose g a).2 ∧ (Spec.Dilithium.decompose g a).2 ≤ g ∧
      (a = (Spec.Dilithium.decompose g a).1 * (2 * g) + (Spec.Dilithium.decompose g a).2 ∨
        a = (Spec.Dilithium.decompose g a).1 * (2 * g) + (Spec.Dilithium.decompose g a).2 + 8380417) := by
  unfold Spec.Dilithium.decompose cmod
  rcases hg with rfl | rfl
  · rw [show (2 : Int) * 95232 = 190464 from rfl]
    split <;> split <;> simp only [] <;> omega
  · rw [show (2 : Int) * 261888 = 523776 from rfl]
    split <;> split <;> simp only [] <;> omega

theorem power2Round_spec {a : Int} (h0 : 0 ≤ a) (h1 : a < 8380417) : power2Round a = .ok (Spec.Dilithium.power2Round a) := by
  rw [power2Round, i32_ok (abs_le.mpr (by omega)), ok_bind, i32_ok (abs_le.mpr (by omega)), ok_bind]
  simp only [shl13]
  rw [if_neg (by omega), i32_ok (abs_le.mpr (by omega)), ok_bind, i32_ok (abs_le.mpr (by omega)), ok_bind, pure_eq_ok]
  unfold Spec.Dilithium.power2Round cmod
  split <;> congr 2 <;> omega

theorem power2Round_parts {a : Int} (h0 : 0 ≤ a) (h1 : a < 8380417) :
    0 ≤ (Spec.Dilithium.power2Round a).1 ∧ (Spec.Dilithium.power2Round a).1 < 1024 ∧ -4096 < (Spec.Dilithium.power2Round a).2 ∧ (Spec.Dilithium.power2Round a).2 ≤ 4096 ∧
      a = (Spec.Dilithium.power2Round a).1 * 8192 + (Spec.Dilithium.power2Round a).2 := by
  unfold Spec.Dilithium.power2Round cmod
  split <;> simp only [] <;> omega

theorem useHint_spec {g a h : Int} (hg : Gamma g) (h0 : 0 ≤ a) (h1 : a < 8380417) : useHint g a h = .ok (Spec.Dilithium.useHint g (decide (h ≠ 0)) a) := by
  obtain ⟨p1, p2, _⟩ := decompose_parts hg h0 h1
  rw [useHint, decompose_spec hg h0 h1, ok_bind, Spec.Dilithium.useHint]
  generalize Spec.Dilithium.decompose g a = d at *
  obtain ⟨d1, d0⟩ := d
  simp only [] at *
  by_cases hh : h = 0
  · simp [hh, pure_eq_ok]
  · rw [if_neg hh, decide_eq_true hh, if_pos (rfl : true = true)]
    rcases hg with rfl | rfl
    · rw [gamma88_eq, gamma32_eq, if_neg (by decide), if_pos rfl]
      by_cases hd : d0 > 0
      · rw [if_pos hd, if_pos hd, pure_eq_ok]
        split <;> congr 1 <;> omega
      · rw [if_neg hd, if_neg hd, pure_eq_ok]
        split <;> congr 1 <;> omega
    · rw [gamma32_eq, if_pos rfl]
      by_cases hd : d0 > 0
      · rw [if_pos hd, if_pos hd, pure_eq_ok]
        rfl
      · rw [if_neg hd, if_neg hd, pure_eq_ok]
        rfl

/-- A hint made for `w1 * α + r` recovers `w1` from the sum. -/
theorem hint_recovers {g w1 r w' r' : Int} (hg : Gamma g) (h0 : 0 ≤ w1) (h1 : w1 < 8380416 / (2 * g)) (h2 : -(2 * g) < r) (h3 : r < 2 * g)
    (hr : r' = if r < 0 then r + 8380417 else r) (hw0 : 0 ≤ w') (hw1 : w' < 8380417) (hw : w' = w1 * (2 * g) + r ∨ w' = w1 * (2 * g) + r + 8380417) :
    Spec.Dilithium.useHint g (decide (makeHint g r' w1 ≠ 0)) w' = w1 := by
  obtain ⟨p1, p2, p3, p4, p5⟩ := decompose_parts hg hw0 hw1
  have hm : decide (makeHint g r' w1 ≠ 0) = !decide (r' ≤ g ∨ r' > 8380417 - g ∨ (r' = 8380417 - g ∧ w1 = 0)) := by
    rw [makeHint, Q]
    by_cases h : r' ≤ g ∨ r' > 8380417 - g ∨ (r' = 8380417 - g ∧ w1 = 0)
    · rw [if_pos h, decide_eq_true h]; rfl
    · rw [if_neg h, decide_eq_false h]; rfl
  rw [hm, Spec.Dilithium.useHint]
  have hspec : Spec.Dilithium.decompose g w' = if w' - cmod w' (2 * g) = 8380416 then (0, cmod w' (2 * g) - 1) else ((w' - cmod w' (2 * g)) / (2 * g), cmod w' (2 * g)) := rfl
  unfold cmod at hspec
  by_cases hc : r' ≤ g ∨ r' > 8380417 - g ∨ (r' = 8380417 - g ∧ w1 = 0)
  · rw [decide_eq_true hc]
    simp only [Bool.not_true, Bool.false_eq_true, if_false]
    rw [hspec]
    rcases hg with rfl | rfl
    · simp only [show (2 : Int) * 95232 = 190464 from rfl] at *
      split at hr <;> split <;> split <;> simp only [] <;> omega
    · simp only [show (2 : Int) * 261888 = 523776 from rfl] at *
      split at hr <;> split <;> split <;> simp only [] <;> omega
  · rw [decide_eq_false hc]
    simp only [Bool.not_false, if_true]
    rw [hspec]
    rcases hg with rfl | rfl
    · simp only [show (2 : Int) * 95232 = 190464 from rfl] at *
      split at hr <;> split <;> split <;> simp only [] <;> split <;> omega
    · simp only [show (2 : Int) * 261888 = 523776 from rfl] at *
      split at hr <;> split <;> split <;> simp only [] <;> split <;> omega

theorem mod_q {x y : Int} (h0 : -8380417 ≤ x) (h1 : x < 8380417) (h : y = x % 8380417) : (0 ≤ x ∧ y = x) ∨ (x < 0 ∧ y = x + 8380417) := by omega

theorem highBits_at {g w1 u : Int} (hg : Gamma g) (h0 : 0 ≤ w1) (h1 : w1 < 8380416 / (2 * g)) (hu1 : -g < u) (hu2 : u < g) :
    highBits g ((w1 * (2 * g) + u) % 8380417) = w1 := by
  unfold highBits Spec.Dilithium.decompose cmod
  rcases hg with rfl | rfl
  · simp only [show (2 : Int) * 95232 = 190464 from rfl] at *
    generalize hy : (w1 * 190464 + u) % 8380417 = y
    rcases mod_q (by omega) (by omega) hy.symm with ⟨_, e⟩ | ⟨_, e⟩
    · split <;> split <;> simp only [] <;> omega
    · obtain rfl : w1 = 0 := by omega
      split <;> split <;> simp only [] <;> omega
  · simp only [show (2 : Int) * 261888 = 523776 from rfl] at *
    generalize hy : (w1 * 523776 + u) % 8380417 = y
    rcases mod_q (by omega) (by omega) hy.symm with ⟨_, e⟩ | ⟨_, e⟩
    · split <;> split <;> simp only [] <;> omega
    · obtain rfl : w1 = 0 := by omega
      split <;> split <;> simp only [] <;> omega

/-- The hint says whether the high bits change when `u - r` is added. -/
theorem makeHint_spec {g w1 r u r' : Int} (hg : Gamma g) (h0 : 0 ≤ w1) (h1 : w1 < 8380416 / (2 * g)) (h2 : -(2 * g) < r) (h3 : r < 2 * g) (hu1 : -g < u) (hu2 : u < g)
    (hr : r' = if r < 0 then r + 8380417 else r) : Spec.Dilithium.makeHint g (u - r) (w1 * (2 * g) + r) = decide (makeHint g r' w1 ≠ 0) := by
  have hm : decide (makeHint g r' w1 ≠ 0) = !decide (r' ≤ g ∨ r' > 8380417 - g ∨ (r' = 8380417 - g ∧ w1 = 0)) := by
    rw [makeHint, Q]
    by_cases h : r' ≤ g ∨ r' > 8380417 - g ∨ (r' = 8380417 - g ∧ w1 = 0)
    · rw [if_pos h, decide_eq_true h]; rfl
    · rw [if_neg h, decide_eq_false h]; rfl
  have hb : w1 * (2 * g) + r + (u - r) = w1 * (2 * g) + u := by omega
  have hh : highBits g ((w1 * (2 * g) + r + (u - r)) % 8380417) = w1 := by
    rw [hb]
    exact highBits_at hg h0 h1 hu1 hu2
  have hs : (highBits g ((w1 * (2 * g) + r) % 8380417) = w1) ↔ (r' ≤ g ∨ r' > 8380417 - g ∨ (r' = 8380417 - g ∧ w1 = 0)) := by
    unfold highBits Spec.Dilithium.decompose cmod
    rcases hg with rfl | rfl
    · simp only [show (2 : Int) * 95232 = 190464 from rfl] at *
      generalize hy : (w1 * 190464 + r) % 8380417 = y
      rcases mod_q (by omega) (by omega) hy.symm with ⟨_, e⟩ | ⟨_, e⟩
      · split at hr <;> split <;> split <;> simp only [] <;> omega
      · obtain rfl : w1 = 0 := by omega
        split at hr <;> split <;> split <;> simp only [true_iff, and_true] <;> omega
    · simp only [show (2 : Int) * 261888 = 523776 from rfl] at *
      generalize hy : (w1 * 523776 + r) % 8380417 = y
      rcases mod_q (by omega) (by omega) hy.symm with ⟨_, e⟩ | ⟨_, e⟩
      · split at hr <;> split <;> split <;> simp only [] <;> omega
      · obtain rfl : w1 = 0 := by omega
        split at hr <;> split <;> split <;> simp only [true_iff, and_true] <;> omega
  rw [hm, Spec.Dilithium.makeHint, hh]
  by_cases h : r' ≤ g ∨ r' > 8380417 - g ∨ (r' = 8380417 - g ∧ w1 = 0)
  · rw [decide_eq_true h, decide_eq_false (by rw [not_not]; exact hs.mpr h)]; rfl
  · rw [decide_eq_false h, decide_eq_true (show highBits g ((w1 * (2 * g) + r) % 8380417) ≠ w1 from fun e => h (hs.mp e))]; rfl

/-! ## Norms -/

theorem val_mod {v : Int} {x : F} (h : (v : F) = x) : (x.val : Int) = v % 8380417 := by
  have h3 := ZMod.val_intCast (n := 8380417) v
  rw [h] at h3
  exact h3

theorem norm_le {v : Int} {x : F} {B : Int} (h : Is 6283009 v x) (hB : B ≤ 1047552) : B ≤ |v| ↔ B ≤ norm x := by
  have hx := val_mod h.2
  have h4 := abs_le.mp h.1
  have h5 : |v| = v ∧ 0 ≤ v ∨ |v| = -v ∧ v < 0 := by
    rcases le_or_gt 0 v with hv | hv
    · exact .inl ⟨abs_of_nonneg hv, hv⟩
    · exact .inr ⟨abs_of_neg hv, hv⟩
  rw [norm]
  omega

theorem chkLoop_spec {a : List Int} {f : Nat → F} (h : Rep (Is 6283009) a f) {B : Int} (hB : B ≤ 1047552) : ∀ n i, n + i = 256 →
    ∃ b, chkLoop B n i a = .ok b ∧ (b = true ↔ ∃ j, i ≤ j ∧ j < 256 ∧ B ≤ norm (f j))
  | 0, i, hi => ⟨false, rfl, by constructor; simp; rintro ⟨j, h1, h2, _⟩; omega⟩
  | n + 1, i, hi => by
    obtain ⟨v, e1, _, s⟩ := h.get (i := i) (by omega)
    have h4 := abs_le.mp s.1
    have ht : (if v < 0 then do i32 (v - (← i32 (2 * v))) else pure v : M Int) = .ok |v| := by
      by_cases hv : v < 0
      · rw [if_pos hv, i32_ok (abs_le.mpr (by omega)), ok_bind, i32_ok (abs_le.mpr (by omega)), abs_of_neg hv]
        congr 1; omega
      · rw [if_neg hv, abs_of_nonneg (by omega)]; rfl
    rw [chkLoop, e1, ok_bind, ht, ok_bind]
    by_cases hn : |v| ≥ B
    · rw [if_pos hn]
      exact ⟨true, rfl, by simp only [true_iff]; exact ⟨i, le_refl _, by omega, (norm_le s hB).mp hn⟩⟩
    · rw [if_neg hn]
      obtain ⟨b, h1, h2⟩ := chkLoop_spec h hB n (i + 1) (by omega)
      refine ⟨b, h1, h2.trans ⟨fun ⟨j, h3, h4⟩ => ⟨j, by omega, h4⟩, fun ⟨j, h3, h4, h5⟩ => ⟨j, ?_, h4, h5⟩⟩⟩
      rcases Nat.lt_or_ge i j with hij | hij
      · exact hij
      · obtain rfl : i = j := by omega
        exact absurd ((norm_le s hB).mpr h5) hn

theorem polyChkNorm_spec {a : List Int} {f : Nat → F} (h : Rep (Is 6283009) a f) {B : Int} (hB : B ≤ 1047552) :
    ∃ b, polyChkNorm a B = .ok b ∧ (b = true ↔ ∃ j, j < 256 ∧ B ≤ norm (f j)) := by
  obtain ⟨b, h1, h2⟩ := chkLoop_spec h hB 256 0 rfl
  refine ⟨b, ?_, h2.trans ⟨fun ⟨j, _, h⟩ => ⟨j, h⟩, fun ⟨j, h⟩ => ⟨j, Nat.zero_le _, h⟩⟩⟩
  rw [polyChkNorm, if_neg (by rw [show (Q - 1) / 8 = 1047552 from by decide]; omega), h1]

/-! ## Polynomials -/

/-- Loops that write each entry of two polynomials. -/
theorem pair_spec {e : Nat → M (Int × Int)} {P1 P0 : Int → F → Prop} {g : Nat → F} (he : ∀ i, i < 256 → ∃ v, e i = .ok v ∧ P1 v.1 (g i) ∧ P0 v.2 (g i))
    {r1 r0 : List Int} (h1 : r1.length = 256) (h0 : r0.length = 256) :
    ∃ r1' r0', loopN 256 0 (fun i (s : List Int × List Int) => do
      let d ← e i
      let a0 ← wr s.2 i d.2
      let a1 ← wr s.1 i d.1
      return (a1, a0)) (r1, r0) = .ok (r1', r0') ∧ Rep P1 r1' g ∧ Rep P0 r0' g := by
  obtain ⟨⟨s1, s0⟩, h1, h2, h3⟩ := loopN_inv (f := fun i (s : List Int × List Int) => do
      let d ← e i
      let a0 ← wr s.2 i d.2
      let a1 ← wr s.1 i d.1
      return (a1, a0))
    (fun j s => Mixed (fun _ _ => True) P1 (fun _ => (0 : F)) g (· < j) s.1 ∧ Mixed (fun _ _ => True) P0 (fun _ => (0 : F)) g (· < j) s.2) 256 0 (r1, r0)
    (by
      rintro j ⟨s1, s0⟩ _ hlt ⟨⟨hl1, hr1⟩, ⟨hl0, hr0⟩⟩
      have l1 : j < s1.length := by simp only at hl1; omega
      have l0 : j < s0.length := by simp only at hl0; omega
      obtain ⟨v, hv, q1, q0⟩ := he j (by omega)
      refine ⟨(s1.set j v.1, s0.set j v.2), by simp only [hv, ok_bind, wr_ok _ l1, wr_ok _ l0, pure_eq_ok], ⟨by simpa using hl1, ?_⟩, ⟨by simpa using hl0, ?_⟩⟩
      · intro i u hu
        by_cases e1 : i = j
        · subst e1
          simp only [List.getElem?_set_self l1] at hu
          cases hu
          exact ⟨fun _ => q1, fun hn => absurd (by omega) hn⟩
        · simp only [List.getElem?_set_ne (Ne.symm e1)] at hu
          obtain ⟨h1, h2⟩ := hr1 i u hu
          exact ⟨fun ht => h1 (by omega), fun ht => trivial⟩
      · intro i u hu
        by_cases e1 : i = j
        · subst e1
          simp only [List.getElem?_set_self l0] at hu
          cases hu
          exact ⟨fun _ => q0, fun hn => absurd (by omega) hn⟩
        · simp only [List.getElem?_set_ne (Ne.symm e1)] at hu
          obtain ⟨h1, h2⟩ := hr0 i u hu
          exact ⟨fun ht => h1 (by omega), fun ht => trivial⟩)
    ⟨⟨h1, fun i v hv => ⟨fun ht => by omega, fun _ => trivial⟩⟩, ⟨h0, fun i v hv => ⟨fun ht => by omega, fun _ => trivial⟩⟩⟩
  refine ⟨s1, s0, h1, ⟨h2.1, fun i v hv => ?_⟩, ⟨h3.1, fun i v hv => ?_⟩⟩
  · have : i < 256 := by rw [← h2.1]; exact (List.getElem?_eq_some_iff.mp hv).1
    exact (h2.2 i v hv).1 (by omega)
  · have : i < 256 := by rw [← h3.1]; exact (List.getElem?_eq_some_iff.mp hv).1
    exact (h3.2 i v hv).1 (by omega)

theorem val_range (x : F) : 0 ≤ (x.val : Int) ∧ (x.val : Int) < 8380417 := by
  have := ZMod.val_lt x
  omega

theorem polyDecompose_spec {g : Int} (hg : Gamma g) {a1 a0 a : List Int} {f : Nat → F} (h1 : a1.length = 256) (h0 : a0.length = 256) (ha : Rep Can a f) :
    ∃ r1 r0, polyDecompose a1 a0 a g = .ok (r1, r0) ∧ Rep (fun v x => v = (Spec.Dilithium.decompose g x.val).1) r1 f ∧ Rep (fun v x => v = (Spec.Dilithium.decompose g x.val).2) r0 f := by
  refine pair_spec (e := fun i => do decompose g (← rd a i)) (fun i hi => ?_) h1 h0 |>.imp fun r1 => Exists.imp fun r0 h => ⟨?_, h.2⟩
  · obtain ⟨v, e, _, s⟩ := ha.get hi
    have := val_range (f i)
    refine ⟨_, ?_, rfl, rfl⟩
    rw [e, ok_bind, s, decompose_spec hg this.1 this.2]
  · rw [polyDecompose, ← h.1]
    congr 1
    funext i s
    cases rd a i <;> rfl

theorem polyPower2Round_spec {a1 a0 a : List Int} {f : Nat → F} (h1 : a1.length = 256) (h0 : a0.length = 256) (ha : Rep Can a f) :
    ∃ r1 r0, polyPower2Round a1 a0 a = .ok (r1, r0) ∧ Rep (fun v x => v = (Spec.Dilithium.power2Round x.val).1) r1 f ∧ Rep (fun v x => v = (Spec.Dilithium.power2Round x.val).2) r0 f := by
  refine pair_spec (e := fun i => do power2Round (← rd a i)) (fun i hi => ?_) h1 h0 |>.imp fun r1 => Exists.imp fun r0 h => ⟨?_, h.2⟩
  · obtain ⟨v, e, _, s⟩ := ha.get hi
    have := val_range (f i)
    refine ⟨_, ?_, rfl, rfl⟩
    rw [e, ok_bind, s, power2Round_spec this.1 this.2]
  · rw [polyPower2Round, ← h.1]
    congr 1
    funext i s
    cases rd a i <;> rfl

/-- A polynomial of hints. -/
def Hints (h : List Int) (b : Nat → Bool) : Prop := h.length = 256 ∧ ∀ i v, h[i]? = some v → v = if b i then 1 else 0

theorem Hints.get {h : List Int} {b : Nat → Bool} (hh : Hints h b) {i : Nat} (hi : i < 256) : rd h i = .ok (if b i then 1 else 0) := by
  have hl : i < h.length := by rw [hh.1]; exact hi
  rw [rd_ok hl, hh.2 i _ (List.getElem?_eq_getElem hl)]

theorem polyUseHint_spec {g : Int} (hg : Gamma g) {r a h : List Int} {f : Nat → F} {b : Nat → Bool} (hr : r.length = 256) (ha : Rep Can a f) (hh : Hints h b) :
    ∃ r', polyUseHint r a h g = .ok r' ∧ r'.length = 256 ∧ ∀ i v, r'[i]? = some v → v = Spec.Dilithium.useHint g (b i) (f i).val := by
  have := fill_spec (e := fun i => do useHint g (← rd a i) (← rd h i)) (Q := fun v x => v = x.val) (g := fun i => ((Spec.Dilithium.useHint g (b i) (f i).val : Int) : F)) (r := r)
    (fun i hi => by
      obtain ⟨v, e, _, s⟩ := ha.get hi
      have hv := val_range (f i)
      have hx : Spec.Dilithium.useHint g (b i) (f i).val = (((Spec.Dilithium.useHint g (b i) (f i).val : Int) : F).val : Int) := by
        have p := decompose_parts hg hv.1 hv.2
        rw [val_mod rfl]
        generalize hu : Spec.Dilithium.useHint g (b i) (f i).val = u
        rw [Spec.Dilithium.useHint] at hu
        generalize Spec.Dilithium.decompose g (f i).val = d at *
        rcases hg with rfl | rfl
        · simp only [show (8380416 : Int) / (2 * 95232) = 44 from by decide] at *
          split at hu
          · split at hu <;> omega
          · omega
        · simp only [show (8380416 : Int) / (2 * 261888) = 16 from by decide] at *
          split at hu
          · split at hu <;> omega
          · omega
      refine ⟨_, ?_, hx⟩
      rw [e, ok_bind, hh.get hi, ok_bind, s, useHint_spec hg hv.1 hv.2]
      cases b i <;> rfl) hr
  obtain ⟨r', h1, h2, h3⟩ := this
  refine ⟨r', h1, h2, fun i v hv => ?_⟩
  have hi : i < 256 := by rw [← h2]; exact (List.getElem?_eq_some_iff.mp hv).1
  rw [h3 i v hv, val_mod rfl]
  have hvr := val_range (f i)
  have p := decompose_parts hg hvr.1 hvr.2
  generalize hu : Spec.Dilithium.useHint g (b i) (f i).val = u
  rw [Spec.Dilithium.useHint] at hu
  generalize Spec.Dilithium.decompose g (f i).val = d at *
  rcases hg with rfl | rfl
  · simp only [show (8380416 : Int) / (2 * 95232) = 44 from by decide] at *
    split at hu
    · split at hu <;> omega
    · omega
  · simp only [show (8380416 : Int) / (2 * 261888) = 16 from by decide] at *
    split at hu
    · split at hu <;> omega
    · omega

/-- The number of hints in a polynomial. -/
def weight (b : Nat → Bool) (n : Nat) : Nat := ∑ i ∈ Finset.range n, if b i then 1 else 0

theorem polyMakeHint_spec {g : Int} {h a0 a1 : List Int} {x0 x1 : Nat → Int} (hh : h.length = 256) (h0 : ∀ i, i < 256 → rd a0 i = .ok (x0 i)) (h1 : ∀ i, i < 256 → rd a1 i = .ok (x1 i)) :
    ∃ h', polyMakeHint h a0 a1 g = .ok (h', (weight (fun i => decide (makeHint g (x0 i) (x1 i) ≠ 0)) 256 : Int)) ∧ Hints h' (fun i => decide (makeHint g (x0 i) (x1 i) ≠ 0)) := by
  generalize hb : (fun i => decide (makeHint g (x0 i) (x1 i) ≠ 0)) = b
  have hm : ∀ i, makeHint g (x0 i) (x1 i) = if b i then 1 else 0 := by
    intro i
    rw [← hb]
    simp only [makeHint]
    split <;> simp
  obtain ⟨⟨s, c⟩, e, h2, h3, h4⟩ := loopN_inv (f := fun i (s : List Int × Int) => do
      let b := makeHint g (← rd a0 i) (← rd a1 i)
      let h ← wr s.1 i b
      return (h, s.2 + b))
    (fun j s => s.1.length = 256 ∧ (∀ i v, i < j → s.1[i]? = some v → v = if b i then 1 else 0) ∧ s.2 = (weight b j : Int)) 256 0 (h, 0)
    (by
      rintro j ⟨s, c⟩ _ hlt ⟨hl, hr, hc⟩
      simp only at hl hr hc
      have l1 : j < s.length := by omega
      refine ⟨(s.set j (if b j then 1 else 0), c + if b j then 1 else 0), ?_, by simpa using hl, fun i v hi hv => ?_, ?_⟩
      · simp only [h0 j (by omega), h1 j (by omega), ok_bind, hm, wr_ok _ l1, pure_eq_ok]
      · simp only at hv
        by_cases e1 : i = j
        · subst e1
          rw [List.getElem?_set_self l1] at hv
          exact (Option.some.inj hv).symm
        · rw [List.getElem?_set_ne (Ne.symm e1)] at hv
          exact hr i v (by omega) hv
      · simp only [hc, weight, Finset.sum_range_succ]
        push_cast
        cases b j <;> rfl)
    ⟨hh, fun i v hi => by omega, by simp [weight]⟩
  simp only at h2 h3 h4
  refine ⟨s, by rw [polyMakeHint, e, h4], h2, fun i v hv => h3 i v ?_ hv⟩
  have := (List.getElem?_eq_some_iff.mp hv).1
  omega

end Cex.Dilithium
