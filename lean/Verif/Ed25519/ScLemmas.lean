import Verif.Ed25519.ScModel
import Verif.Ed25519.Scalar

/-!
# The programs keep the value modulo the order
-/

namespace Cex.Ed25519

open Cex.Ec25519 Finset

/-- the order of the base point (RFC 8032) -/
def L : Nat := 2 ^ 252 + 27742317777372353535851937790883648493

/-! ### Values -/

/-- the value of the limbs that are still in use -/
def val (lv : Nat → Bool) (s : List Int) : Int := ∑ i ∈ range 24, if lv i then dg s i * 2 ^ (21 * i) else 0

theorem val_set {lv : Nat → Bool} {s : List Int} (hl : s.length = 24) {i : Nat} (hi : i < 24) (h : lv i = true) (v : Int) :
    val lv (s.set i v) = val lv s + (v - dg s i) * 2 ^ (21 * i) := by
  have e : val lv (s.set i v) - val lv s = (v - dg s i) * 2 ^ (21 * i) := by
    rw [val, val, ← sum_sub_distrib, sum_eq_single i]
    · rw [if_pos h, if_pos h, dg_set (by omega), if_pos rfl]; ring
    · intro j _ hj
      rw [dg_set (by omega), if_neg hj, sub_self]
    · intro hn; exact absurd (mem_range.mpr hi) hn
  linarith

/-- a limb is no longer used -/
theorem val_kill {lv : Nat → Bool} {s : List Int} {j : Nat} (hj : j < 24) (h : lv j = true) :
    val (fun i => lv i && !(i == j)) s = val lv s - dg s j * 2 ^ (21 * j) := by
  have e : val (fun i => lv i && !(i == j)) s - val lv s = - (dg s j * 2 ^ (21 * j)) := by
    rw [val, val, ← sum_sub_distrib, sum_eq_single j]
    · simp [h]
    · intro i _ hi
      simp [hi]
    · intro hn; exact absurd (mem_range.mpr hj) hn
  linarith

/-- a limb is used again, with 0 -/
theorem val_zero {lv : Nat → Bool} {s : List Int} (hl : s.length = 24) {j : Nat} (hj : j < 24) (h : lv j = false) :
    val (fun i => lv i || i == j) (s.set j 0) = val lv s := by
  rw [val, val]
  refine sum_congr rfl fun i _ => ?_
  rw [dg_set (by omega)]
  by_cases c : i = j
  · subst c; simp [h]
  · simp [c]

theorem set_len {s : List Int} (hl : s.length = 24) (i : Nat) (v : Int) : (s.set i v).length = 24 := by rw [List.length_set, hl]

/-! ### Intervals -/

/-- the limbs lie in the intervals -/
def In (iv : Nat → Int × Int) (s : List Int) : Prop := ∀ i < 24, (iv i).1 ≤ dg s i ∧ dg s i ≤ (iv i).2

theorem ck64_in {x : Int} (h : -2 ^ 63 ≤ x) (h' : x < 2 ^ 63) : ck64 x = .ok x := by rw [ck64, if_pos ⟨h, h'⟩]

theorem i64_id {x : Int} (h : -2 ^ 63 ≤ x) (h' : x < 2 ^ 63) : i64 x = x := by rw [i64]; omega

/-- abstract states: an interval for each limb and whether it is used -/
structure Abs where
  iv : List (Int × Int)
  lv : List Bool
  deriving DecidableEq

def Abs.ivl (a : Abs) (i : Nat) : Int × Int := (a.iv[i]?).getD (0, 0)
def Abs.live (a : Abs) (i : Nat) : Bool := (a.lv[i]?).getD false

/-- what an abstract state says of a state -/
structure Abs.Ok (a : Abs) (s : List Int) : Prop where
  len : s.length = 24
  il : a.iv.length = 24
  ll : a.lv.length = 24
  bd : In a.ivl s

def fits (x : Int × Int) : Bool := decide (-2 ^ 63 ≤ x.1) && decide (x.2 < 2 ^ 63)

theorem fits_ok {x : Int × Int} (h : fits x = true) {v : Int} (h1 : x.1 ≤ v) (h2 : v ≤ x.2) : -2 ^ 63 ≤ v ∧ v < 2 ^ 63 := by
  simp only [fits, Bool.and_eq_true, decide_eq_true_eq] at h
  omega

def Abs.put (a : Abs) (i : Nat) (x : Int × Int) : Abs := ⟨a.iv.set i x, a.lv⟩

theorem Abs.put_ivl {a : Abs} (h : a.iv.length = 24) {i : Nat} (hi : i < 24) (x : Int × Int) (j : Nat) : (a.put i x).ivl j = if j = i then x else a.ivl j := by
  rw [Abs.ivl, Abs.put, List.getElem?_set]
  by_cases c : i = j
  · subst c; rw [if_pos rfl, if_pos rfl, if_pos (by omega)]; rfl
  · rw [if_neg c, if_neg (Ne.symm c)]; rfl

theorem Abs.Ok.put {a : Abs} {s : List Int} (h : a.Ok s) {i : Nat} (hi : i < 24) {x : Int × Int} {v : Int} (h1 : x.1 ≤ v) (h2 : v ≤ x.2) : (a.put i x).Ok (s.set i v) := by
  refine ⟨set_len h.len _ _, by simp [Abs.put, h.il], h.ll, fun j hj => ?_⟩
  rw [Abs.put_ivl h.il hi, dg_set (by rw [h.len]; exact hi)]
  by_cases c : j = i
  · rw [if_pos c, if_pos c]; exact ⟨h1, h2⟩
  · rw [if_neg c, if_neg c]; exact h.bd j hj

/-- the interval of a product with a constant -/
def scale (x : Int × Int) (c : Int) : Int × Int := (x.1 * c, x.2 * c)

/-- `s(i) ± s(j) c` -/
def Abs.mac (a : Abs) (i j : Nat) (neg : Bool) (c : Int) : Option Abs :=
  let p := scale (a.ivl j) c
  let x := a.ivl i
  let y := bif neg then (x.1 - p.2, x.2 - p.1) else (x.1 + p.1, x.2 + p.2)
  bif fits p && fits y && a.live i && Nat.blt i 24 && Nat.blt j 24 && !(Nat.beq i j) then some (a.put i y) else none

theorem mac_ok {a a' : Abs} {s : List Int} (h : a.Ok s) {i j : Nat} {neg : Bool} {c : Int} (hc : 0 ≤ c) (e : a.mac i j neg c = some a') :
    ∃ s', mac i j neg c s = .ok s' ∧ a'.Ok s' ∧ a'.lv = a.lv ∧ i < 24 ∧ j < 24 ∧ i ≠ j ∧
      s' = s.set i (dg s i + (if neg then -(dg s j * c) else dg s j * c)) ∧
      val a.live s' = val a.live s + (if neg then -(dg s j * c) else dg s j * c) * 2 ^ (21 * i) := by
  rw [Abs.mac] at e
  generalize hy : (bif neg then _ else _ : Int × Int) = y at e
  cases hb : (fits (scale (a.ivl j) c) && fits y && a.live i && Nat.blt i 24 && Nat.blt j 24 && !(Nat.beq i j)) with
  | false => rw [hb] at e; cases e
  | true =>
    rw [hb] at e
    simp only [Bool.and_eq_true, Bool.not_eq_true'] at hb
    obtain ⟨⟨⟨⟨⟨f1, f2⟩, f3⟩, f4⟩, f5⟩, f6⟩ := hb
    have hi : i < 24 := by simpa [Nat.blt] using f4
    have hj : j < 24 := by simpa [Nat.blt] using f5
    have hij : i ≠ j := fun c => by subst c; simp at f6
    cases e
    obtain ⟨b1, b2⟩ := h.bd i hi
    obtain ⟨b3, b4⟩ := h.bd j hj
    have p1 : (scale (a.ivl j) c).1 ≤ dg s j * c := by exact Int.mul_le_mul_of_nonneg_right b3 hc
    have p2 : dg s j * c ≤ (scale (a.ivl j) c).2 := by exact Int.mul_le_mul_of_nonneg_right b4 hc
    obtain ⟨q1, q2⟩ := fits_ok f1 p1 p2
    have v1 : y.1 ≤ dg s i + (if neg then -(dg s j * c) else dg s j * c) ∧ dg s i + (if neg then -(dg s j * c) else dg s j * c) ≤ y.2 := by
      subst hy
      cases neg
      · rw [if_neg (by decide)]; exact ⟨by dsimp only [cond]; omega, by dsimp only [cond]; omega⟩
      · rw [if_pos rfl]; exact ⟨by dsimp only [cond]; omega, by dsimp only [cond]; omega⟩
    obtain ⟨q3, q4⟩ := fits_ok f2 v1.1 v1.2
    have e1 : (if neg = true then dg s i - dg s j * c else dg s i + dg s j * c) = dg s i + (if neg then -(dg s j * c) else dg s j * c) := by
      cases neg
      · rfl
      · simp only [if_true]; ring
    refine ⟨_, ?_, h.put hi v1.1 v1.2, rfl, hi, hj, hij, rfl, ?_⟩
    · rw [mac, dg_rd (by rw [h.len]; exact hj), ok_bind, ck64_in q1 q2, ok_bind, dg_rd (by rw [h.len]; exact hi), ok_bind, e1, ck64_in q3 q4, ok_bind,
        wr_ok _ (by rw [h.len]; exact hi)]
    · rw [val_set h.len hi f3]; ring

/-- a carry between `c.1` and `c.2` out of limb `i`, which is left in `r` -/
def Abs.carry (a : Abs) (i : Nat) (c r : Int × Int) : Option Abs :=
  let y := ((a.ivl (i + 1)).1 + c.1, (a.ivl (i + 1)).2 + c.2)
  bif fits y && fits r && a.live i && a.live (i + 1) && Nat.blt (i + 1) 24 then some ((a.put (i + 1) y).put i r) else none

theorem carryBy_ok {a a' : Abs} {s : List Int} (h : a.Ok s) {i : Nat} {ci r : Int × Int} (e : a.carry i ci r = some a') {c : Int} (h1 : ci.1 ≤ c) (h2 : c ≤ ci.2)
    {k : Int} (r1 : r.1 ≤ dg s i - c * 2 ^ 21 + k * 2 ^ 64) (r2 : dg s i - c * 2 ^ 21 + k * 2 ^ 64 ≤ r.2) :
    ∃ s', carryBy i c s = .ok s' ∧ a'.Ok s' ∧ a'.lv = a.lv ∧ (∀ j, j ≠ i → j ≠ i + 1 → dg s' j = dg s j) ∧ val a.live s' = val a.live s + k * 2 ^ (64 + 21 * i) := by
  rw [Abs.carry] at e
  generalize hy : (((a.ivl (i + 1)).1 + ci.1, (a.ivl (i + 1)).2 + ci.2) : Int × Int) = y at e
  cases hb : (fits y && fits r && a.live i && a.live (i + 1) && Nat.blt (i + 1) 24) with
  | false => rw [hb] at e; cases e
  | true =>
    rw [hb] at e
    simp only [Bool.and_eq_true] at hb
    obtain ⟨⟨⟨⟨f1, f2⟩, f3⟩, f4⟩, f5⟩ := hb
    have hi : i + 1 < 24 := by simpa [Nat.blt] using f5
    have hsl := h.len
    cases e
    obtain ⟨b1, b2⟩ := h.bd (i + 1) hi
    have v1 : y.1 ≤ dg s (i + 1) + c ∧ dg s (i + 1) + c ≤ y.2 := by
      subst hy
      exact ⟨by dsimp only; omega, by dsimp only; omega⟩
    obtain ⟨q1, q2⟩ := fits_ok f1 v1.1 v1.2
    obtain ⟨q3, q4⟩ := fits_ok f2 r1 r2
    have hl : (s.set (i + 1) (dg s (i + 1) + c)).length = 24 := set_len h.len _ _
    have ew : i64 (dg s i - c * 2 ^ 21) = dg s i - c * 2 ^ 21 + k * 2 ^ 64 := by
      rw [← i64_id q3 q4, i64, i64]
      congr 1
      rw [show dg s i - c * 2 ^ 21 + k * 2 ^ 64 + 2 ^ 63 = (dg s i - c * 2 ^ 21 + 2 ^ 63) + k * 2 ^ 64 by ring, Int.add_mul_emod_self_right]
    have eg : dg (s.set (i + 1) (dg s (i + 1) + c)) i = dg s i := by rw [dg_set (by omega), if_neg (by omega)]
    refine ⟨_, ?_, (h.put hi v1.1 v1.2).put (by omega) r1 r2, rfl, ?_, ?_⟩
    · rw [carryBy, dg_rd (by omega), ok_bind, ck64_in q1 q2, ok_bind, wr_ok _ (by omega), ok_bind, dg_rd (by omega), ok_bind, eg, ew, wr_ok _ (by omega)]
    · intro j h1 h2
      rw [dg_set (by omega), if_neg h1, dg_set (by omega), if_neg h2]
    · rw [val_set hl (by omega) f3, val_set h.len hi f4, eg, show 21 * (i + 1) = 21 + 21 * i by ring, pow_add, pow_add]
      ring

/-- the abstract statement -/
def Op.abs : Op → Abs → Option Abs
  | .fold j, a =>
    bif Nat.ble 12 j && Nat.blt j 24 && a.live j then do
      let a ← a.mac (j - 12) j false 666643
      let a ← a.mac (j - 11) j false 470296
      let a ← a.mac (j - 10) j false 654183
      let a ← a.mac (j - 9) j true 997805
      let a ← a.mac (j - 8) j false 136657
      let a ← a.mac (j - 7) j true 683901
      some ⟨a.iv, a.lv.set j false⟩
    else none
  | .round i, a =>
    let x := a.ivl i
    let y := (x.1 + 2 ^ 20, x.2 + 2 ^ 20)
    bif fits y && Nat.blt i 23 then a.carry i (y.1 / 2 ^ 21, y.2 / 2 ^ 21) (-2 ^ 20, 2 ^ 20 - 1) else none
  | .roundU i, a =>
    let x := a.ivl i
    let y := (x.1 + 2 ^ 20, x.2 + 2 ^ 20)
    bif fits y && Nat.blt i 23 then a.carry i (y.1 / 2 ^ 21, y.2 / 2 ^ 21 + 2 ^ 43) (-2 ^ 20, 2 ^ 20 - 1) else none
  | .carry i, a =>
    let x := a.ivl i
    bif Nat.blt i 23 then a.carry i (x.1 / 2 ^ 21, x.2 / 2 ^ 21) (0, 2 ^ 21 - 1) else none
  | .zero i, a => bif Nat.blt i 24 && !(a.live i) then some ⟨a.iv.set i (0, 0), a.lv.set i true⟩ else none

def absRun : List Op → Abs → Option Abs
  | [], a => some a
  | o :: os, a => do absRun os (← o.abs a)

theorem live_set {a : Abs} (h : a.lv.length = 24) {j : Nat} (hj : j < 24) (b : Bool) (i : Nat) : (⟨a.iv, a.lv.set j b⟩ : Abs).live i = if i = j then b else a.live i := by
  rw [Abs.live, List.getElem?_set]
  by_cases c : j = i
  · subst c; rw [if_pos rfl, if_pos rfl, if_pos (by omega)]; rfl
  · rw [if_neg c, if_neg (Ne.symm c)]; rfl

theorem val_congr {l l' : Nat → Bool} {s : List Int} (h : ∀ i < 24, l i = l' i) : val l s = val l' s :=
  sum_congr rfl fun i hi => by rw [h i (mem_range.mp hi)]

theorem live_eq {a b : Abs} (h : a.lv = b.lv) : a.live = b.live := by funext i; rw [Abs.live, Abs.live, h]

theorem L_val : (L : Int) = 2 ^ 252 + 27742317777372353535851937790883648493 := by decide

theorem bind_some {α β : Type} {x : Option α} {f : α → Option β} {b : β} (h : (x >>= f) = some b) : ∃ a, x = some a ∧ f a = some b := by
  cases x with
  | none => cases h
  | some a => exact ⟨a, rfl, h⟩

/-- a fold takes away a multiple of the order -/
theorem fold_ok {a a' : Abs} {s : List Int} (h : a.Ok s) {j : Nat} (e : (Op.fold j).abs a = some a') :
    ∃ s', (Op.fold j).exec s = .ok s' ∧ a'.Ok s' ∧ val a'.live s' = val a.live s - dg s j * 2 ^ (21 * (j - 12)) * L ∧ 12 ≤ j ∧
      (∀ k, dg s' k = dg s k + (if k = j - 12 then 666643 * dg s j else if k = j - 11 then 470296 * dg s j else if k = j - 10 then 654183 * dg s j
        else if k = j - 9 then -997805 * dg s j else if k = j - 8 then 136657 * dg s j else if k = j - 7 then -683901 * dg s j else 0)) := by
  rw [Op.abs] at e
  cases hb : (Nat.ble 12 j && Nat.blt j 24 && a.live j) with
  | false => rw [hb] at e; cases e
  | true =>
    rw [hb] at e
    simp only [Bool.and_eq_true] at hb
    obtain ⟨⟨g1, g2⟩, g3⟩ := hb
    have hj12 : 12 ≤ j := by simpa using g1
    have hj : j < 24 := by simpa [Nat.blt] using g2
    obtain ⟨a1, e1, e⟩ := bind_some e
    obtain ⟨a2, e2, e⟩ := bind_some e
    obtain ⟨a3, e3, e⟩ := bind_some e
    obtain ⟨a4, e4, e⟩ := bind_some e
    obtain ⟨a5, e5, e⟩ := bind_some e
    obtain ⟨a6, e6, e⟩ := bind_some e
    cases e
    obtain ⟨s1, x1, k1, l1, i1, _, n1, d1, v1⟩ := mac_ok h (by decide) e1
    obtain ⟨s2, x2, k2, l2, i2, _, n2, d2, v2⟩ := mac_ok k1 (by decide) e2
    obtain ⟨s3, x3, k3, l3, i3, _, n3, d3, v3⟩ := mac_ok k2 (by decide) e3
    obtain ⟨s4, x4, k4, l4, i4, _, n4, d4, v4⟩ := mac_ok k3 (by decide) e4
    obtain ⟨s5, x5, k5, l5, i5, _, n5, d5, v5⟩ := mac_ok k4 (by decide) e5
    obtain ⟨s6, x6, k6, l6, i6, _, n6, d6, v6⟩ := mac_ok k5 (by decide) e6
    have c1 : ∀ k, dg s1 k = dg s k + if k = j - 12 then 666643 * dg s j else 0 := fun k => by
      rw [d1, dg_set (by rw [h.len]; exact i1)]
      split
      · rename_i hk; subst hk; simp only [Bool.false_eq_true, if_false]; ring
      · rw [add_zero]
    have j1 : dg s1 j = dg s j := by rw [c1, if_neg (by omega), add_zero]
    have c2 : ∀ k, dg s2 k = dg s1 k + if k = j - 11 then 470296 * dg s j else 0 := fun k => by
      rw [d2, dg_set (by rw [k1.len]; exact i2), j1]
      split
      · rename_i hk; subst hk; simp only [Bool.false_eq_true, if_false]; ring
      · rw [add_zero]
    have j2 : dg s2 j = dg s j := by rw [c2, if_neg (by omega), add_zero, j1]
    have c3 : ∀ k, dg s3 k = dg s2 k + if k = j - 10 then 654183 * dg s j else 0 := fun k => by
      rw [d3, dg_set (by rw [k2.len]; exact i3), j2]
      split
      · rename_i hk; subst hk; simp only [Bool.false_eq_true, if_false]; ring
      · rw [add_zero]
    have j3 : dg s3 j = dg s j := by rw [c3, if_neg (by omega), add_zero, j2]
    have c4 : ∀ k, dg s4 k = dg s3 k + if k = j - 9 then -997805 * dg s j else 0 := fun k => by
      rw [d4, dg_set (by rw [k3.len]; exact i4), j3]
      split
      · rename_i hk; subst hk; simp only [if_true]; ring
      · rw [add_zero]
    have j4 : dg s4 j = dg s j := by rw [c4, if_neg (by omega), add_zero, j3]
    have c5 : ∀ k, dg s5 k = dg s4 k + if k = j - 8 then 136657 * dg s j else 0 := fun k => by
      rw [d5, dg_set (by rw [k4.len]; exact i5), j4]
      split
      · rename_i hk; subst hk; simp only [Bool.false_eq_true, if_false]; ring
      · rw [add_zero]
    have j5 : dg s5 j = dg s j := by rw [c5, if_neg (by omega), add_zero, j4]
    have c6 : ∀ k, dg s6 k = dg s5 k + if k = j - 7 then -683901 * dg s j else 0 := fun k => by
      rw [d6, dg_set (by rw [k5.len]; exact i6), j5]
      split
      · rename_i hk; subst hk; simp only [if_true]; ring
      · rw [add_zero]
    have j6 : dg s6 j = dg s j := by rw [c6, if_neg (by omega), add_zero, j5]
    have q : ∀ {x y : Abs}, x.lv = y.lv → ∀ t, val x.live t = val y.live t := fun hxy t => by rw [live_eq hxy]
    refine ⟨s6, ?_, ⟨k6.len, k6.il, by simp [k6.ll], k6.bd⟩, ?_, hj12, ?_⟩
    · rw [Op.exec, x1, ok_bind, x2, ok_bind, x3, ok_bind, x4, ok_bind, x5, ok_bind, x6]
    · have hk : val (⟨a6.iv, a6.lv.set j false⟩ : Abs).live s6 = val (fun i => a.live i && !(i == j)) s6 := val_congr fun i hi => by
        rw [live_set k6.ll hj, show a6.live = a.live from live_eq (by rw [l6, l5, l4, l3, l2, l1])]
        by_cases c : i = j <;> simp [c]
      rw [hk, val_kill hj g3, j6]
      rw [live_eq l5, live_eq l4, live_eq l3, live_eq l2, live_eq l1] at v6
      rw [live_eq l4, live_eq l3, live_eq l2, live_eq l1] at v5
      rw [live_eq l3, live_eq l2, live_eq l1] at v4
      rw [live_eq l2, live_eq l1] at v3
      rw [live_eq l1] at v2
      rw [v6, v5, v4, v3, v2, v1, j5, j4, j3, j2, j1, L_val]
      obtain ⟨m, rfl⟩ : ∃ m, j = m + 12 := ⟨j - 12, by omega⟩
      simp only [Bool.false_eq_true, if_false, if_true, Nat.add_sub_cancel, show m + 12 - 11 = m + 1 by omega, show m + 12 - 10 = m + 2 by omega, show m + 12 - 9 = m + 3 by omega,
        show m + 12 - 8 = m + 4 by omega, show m + 12 - 7 = m + 5 by omega, Nat.mul_add, pow_add]
      generalize (2 : Int) ^ (21 * m) = w
      norm_num
      ring
    · intro k
      rw [c6, c5, c4, c3, c2, c1]
      have hs : ∀ (p1 p2 p3 p4 p5 p6 : Prop) [Decidable p1] [Decidable p2] [Decidable p3] [Decidable p4] [Decidable p5] [Decidable p6] (b1 b2 b3 b4 b5 b6 : Int),
          (p1 → ¬p2 ∧ ¬p3 ∧ ¬p4 ∧ ¬p5 ∧ ¬p6) → (p2 → ¬p3 ∧ ¬p4 ∧ ¬p5 ∧ ¬p6) → (p3 → ¬p4 ∧ ¬p5 ∧ ¬p6) → (p4 → ¬p5 ∧ ¬p6) → (p5 → ¬p6) →
          (if p1 then b1 else 0) + (if p2 then b2 else 0) + (if p3 then b3 else 0) + (if p4 then b4 else 0) + (if p5 then b5 else 0) + (if p6 then b6 else 0) =
            if p1 then b1 else if p2 then b2 else if p3 then b3 else if p4 then b4 else if p5 then b5 else if p6 then b6 else 0 := by
        intro p1 p2 p3 p4 p5 p6 _ _ _ _ _ _ b1 b2 b3 b4 b5 b6 h1 h2 h3 h4 h5
        by_cases q1 : p1
        · obtain ⟨m2, m3, m4, m5, m6⟩ := h1 q1; simp [q1, m2, m3, m4, m5, m6]
        by_cases q2 : p2
        · obtain ⟨m3, m4, m5, m6⟩ := h2 q2; simp [q1, q2, m3, m4, m5, m6]
        by_cases q3 : p3
        · obtain ⟨m4, m5, m6⟩ := h3 q3; simp [q1, q2, q3, m4, m5, m6]
        by_cases q4 : p4
        · obtain ⟨m5, m6⟩ := h4 q4; simp [q1, q2, q3, q4, m5, m6]
        by_cases q5 : p5
        · simp [q1, q2, q3, q4, q5, h5 q5]
        simp [q1, q2, q3, q4, q5]
      rw [← hs (k = j - 12) (k = j - 11) (k = j - 10) (k = j - 9) (k = j - 8) (k = j - 7) _ _ _ _ _ _ (by omega) (by omega) (by omega) (by omega) (by omega)]
      ring

theorem blt_and {f : Bool} {i : Nat} (h : (f && Nat.blt i 23) = true) : f = true ∧ i < 23 := by
  rw [Bool.and_eq_true] at h
  exact ⟨h.1, by simpa [Nat.blt] using h.2⟩

theorem round_ok {a a' : Abs} {s : List Int} (h : a.Ok s) {i : Nat} (e : (Op.round i).abs a = some a') :
    ∃ s', (Op.round i).exec s = .ok s' ∧ a'.Ok s' ∧ a'.lv = a.lv ∧ (∀ j, j ≠ i → j ≠ i + 1 → dg s' j = dg s j) ∧ val a'.live s' = val a.live s := by
  rw [Op.abs] at e
  cases hb : (fits ((a.ivl i).1 + 2 ^ 20, (a.ivl i).2 + 2 ^ 20) && Nat.blt i 23) with
  | false => rw [hb] at e; cases e
  | true =>
    rw [hb] at e
    obtain ⟨f1, hi⟩ := blt_and hb
    obtain ⟨b1, b2⟩ := h.bd i (by omega)
    obtain ⟨q1, q2⟩ := fits_ok f1 (v := dg s i + 2 ^ 20) (by dsimp only; omega) (by dsimp only; omega)
    obtain ⟨s', x, k, l, d, v⟩ := carryBy_ok h (a' := a') (i := i) e (c := (dg s i + 2 ^ 20) / 2 ^ 21) (k := 0) (by dsimp only; omega) (by dsimp only; omega)
      (by dsimp only; omega) (by dsimp only; omega)
    refine ⟨s', ?_, k, l, d, ?_⟩
    · rw [Op.exec, dg_rd (by rw [h.len]; omega), ok_bind, ck64_in q1 q2, ok_bind, x]
    · rw [live_eq l, v]; ring

theorem carry_ok {a a' : Abs} {s : List Int} (h : a.Ok s) {i : Nat} (e : (Op.carry i).abs a = some a') :
    ∃ s', (Op.carry i).exec s = .ok s' ∧ a'.Ok s' ∧ a'.lv = a.lv ∧ (∀ j, j ≠ i → j ≠ i + 1 → dg s' j = dg s j) ∧ val a'.live s' = val a.live s := by
  rw [Op.abs] at e
  cases hb : Nat.blt i 23 with
  | false => rw [hb] at e; cases e
  | true =>
    rw [hb] at e
    have hi : i < 23 := by simpa [Nat.blt] using hb
    obtain ⟨b1, b2⟩ := h.bd i (by omega)
    obtain ⟨s', x, k, l, d, v⟩ := carryBy_ok h (a' := a') (i := i) e (c := dg s i / 2 ^ 21) (k := 0) (by dsimp only; omega) (by dsimp only; omega)
      (by dsimp only; omega) (by dsimp only; omega)
    refine ⟨s', ?_, k, l, d, ?_⟩
    · rw [Op.exec, dg_rd (by rw [h.len]; omega), ok_bind, x]
    · rw [live_eq l, v]; ring

/-- the unsigned rounding adds `2^43` to the next limb when the sum is negative -/
theorem roundU_ok {a a' : Abs} {s : List Int} (h : a.Ok s) {i : Nat} (e : (Op.roundU i).abs a = some a') :
    ∃ s', (Op.roundU i).exec s = .ok s' ∧ a'.Ok s' ∧ a'.lv = a.lv ∧ val a'.live s' = val a.live s + if dg s i + 2 ^ 20 < 0 then 2 ^ (64 + 21 * i) else 0 := by
  rw [Op.abs] at e
  cases hb : (fits ((a.ivl i).1 + 2 ^ 20, (a.ivl i).2 + 2 ^ 20) && Nat.blt i 23) with
  | false => rw [hb] at e; cases e
  | true =>
    rw [hb] at e
    obtain ⟨f1, hi⟩ := blt_and hb
    obtain ⟨b1, b2⟩ := h.bd i (by omega)
    obtain ⟨q1, q2⟩ := fits_ok f1 (v := dg s i + 2 ^ 20) (by dsimp only; omega) (by dsimp only; omega)
    obtain ⟨k, hk⟩ : ∃ k : Int, k = if dg s i + 2 ^ 20 < 0 then 1 else 0 := ⟨_, rfl⟩
    have hm : (dg s i + 2 ^ 20) % 2 ^ 64 / 2 ^ 21 = (dg s i + 2 ^ 20) / 2 ^ 21 + k * 2 ^ 43 := by
      rw [hk]; split <;> omega
    have hk2 : 0 ≤ k ∧ k ≤ 1 := by rw [hk]; split <;> omega
    obtain ⟨s', x, k', l, d, v⟩ := carryBy_ok h (a' := a') (i := i) e (c := (dg s i + 2 ^ 20) / 2 ^ 21 + k * 2 ^ 43) (k := k) (by dsimp only; omega) (by dsimp only; omega)
      (by dsimp only; omega) (by dsimp only; omega)
    refine ⟨s', ?_, k', l, ?_⟩
    · rw [Op.exec, dg_rd (by rw [h.len]; omega), ok_bind]
      dsimp only
      rw [hm, x]
    · rw [live_eq l, v, hk]; split <;> ring

theorem zero_ok {a a' : Abs} {s : List Int} (h : a.Ok s) {i : Nat} (e : (Op.zero i).abs a = some a') :
    ∃ s', (Op.zero i).exec s = .ok s' ∧ a'.Ok s' ∧ val a'.live s' = val a.live s := by
  rw [Op.abs] at e
  cases hb : (Nat.blt i 24 && !(a.live i)) with
  | false => rw [hb] at e; cases e
  | true =>
    rw [hb] at e
    simp only [Bool.and_eq_true, Bool.not_eq_true'] at hb
    have hi : i < 24 := by simpa [Nat.blt] using hb.1
    cases e
    have hp := h.put hi (x := (0, 0)) (v := 0) (le_refl _) (le_refl _)
    refine ⟨s.set i 0, by rw [Op.exec, wr_ok _ (by rw [h.len]; exact hi)], ⟨hp.len, hp.il, by simp [h.ll], hp.bd⟩, ?_⟩
    rw [← val_zero h.len hi hb.2]
    refine val_congr fun j hj => ?_
    have := live_set (a := ⟨a.iv.set i (0, 0), a.lv⟩) h.ll hi true j
    rw [this]
    by_cases c : j = i
    · simp [c]
    · rw [if_neg c, show (j == i) = false by simpa using c, Bool.or_false]; rfl

def Op.plain : Op → Bool
  | .roundU _ => false
  | _ => true

def Op.isCarry : Op → Bool
  | .carry _ => true
  | _ => false

/-- a program that the checker accepts runs without overflow, ends within the intervals, and changes the value by a multiple of the order -/
theorem run_ok : ∀ {os : List Op} {a a' : Abs} {s : List Int}, os.all Op.plain = true → a.Ok s → absRun os a = some a' →
    ∃ s' m, run os s = .ok s' ∧ a'.Ok s' ∧ val a'.live s' = val a.live s - m * L ∧ (os.all Op.isCarry = true → m = 0)
  | [], a, a', s, _, h, e => by cases e; exact ⟨s, 0, rfl, h, by ring, fun _ => rfl⟩
  | o :: os, a, a', s, hp, h, e => by
    obtain ⟨a1, e1, e2⟩ := bind_some e
    rw [List.all_cons, Bool.and_eq_true] at hp
    have hx : ∃ s1 m, o.exec s = .ok s1 ∧ a1.Ok s1 ∧ val a1.live s1 = val a.live s - m * L ∧ (o.isCarry = true → m = 0) := by
      cases o with
      | fold j =>
        obtain ⟨s1, x, k, v, _⟩ := fold_ok h e1
        exact ⟨s1, _, x, k, v, fun h => by cases h⟩
      | round i =>
        obtain ⟨s1, x, k, _, _, v⟩ := round_ok h e1
        exact ⟨s1, 0, x, k, by rw [v]; ring, fun _ => rfl⟩
      | roundU i => cases hp.1
      | carry i =>
        obtain ⟨s1, x, k, _, _, v⟩ := carry_ok h e1
        exact ⟨s1, 0, x, k, by rw [v]; ring, fun _ => rfl⟩
      | zero i =>
        obtain ⟨s1, x, k, v⟩ := zero_ok h e1
        exact ⟨s1, 0, x, k, by rw [v]; ring, fun _ => rfl⟩
    obtain ⟨s1, m, x, k, v, c⟩ := hx
    obtain ⟨s', m', x', k', v', c'⟩ := run_ok hp.2 k e2
    refine ⟨s', m + m', by rw [run, x, ok_bind, x'], k', by rw [v', v]; ring, fun hc => ?_⟩
    rw [List.all_cons, Bool.and_eq_true] at hc
    rw [c hc.1, c' hc.2, add_zero]


end Cex.Ed25519
