import Verif.Ed25519.ScBytes

/-!
# `Sc25519Reduce` and `Sc25519MulAdd`
-/

namespace Cex.Ed25519

open Cex.Ec25519 Cex.IntTools Finset

/-! ### Digits -/

theorem digits : ∀ (n : Nat) (f : Nat → Nat) (t : Nat), (∀ i < n, f i < 2 ^ 21) →
    (∀ i < n, (∑ j ∈ range n, f j * 2 ^ (21 * j) + t * 2 ^ (21 * n)) / 2 ^ (21 * i) % 2 ^ 21 = f i) ∧
    (∑ j ∈ range n, f j * 2 ^ (21 * j) + t * 2 ^ (21 * n)) / 2 ^ (21 * n) = t
  | 0, f, t, _ => ⟨fun i hi => absurd hi (Nat.not_lt_zero _), by simp⟩
  | n + 1, f, t, h => by
    have ih := digits n (fun j => f (j + 1)) t fun i hi => h (i + 1) (by omega)
    have h0 := h 0 (by omega)
    have e : ∑ j ∈ range (n + 1), f j * 2 ^ (21 * j) + t * 2 ^ (21 * (n + 1)) = f 0 + 2 ^ 21 * (∑ j ∈ range n, f (j + 1) * 2 ^ (21 * j) + t * 2 ^ (21 * n)) := by
      rw [sum_range_succ']
      have : ∀ j, f (j + 1) * 2 ^ (21 * (j + 1)) = 2 ^ 21 * (f (j + 1) * 2 ^ (21 * j)) := fun j => by rw [Nat.mul_succ, Nat.pow_add]; ring
      rw [Nat.mul_succ 21 n, Nat.pow_add]
      simp only [this, ← mul_sum]
      ring
    rw [e]
    generalize ∑ j ∈ range n, f (j + 1) * 2 ^ (21 * j) + t * 2 ^ (21 * n) = w at *
    have hw : (f 0 + 2 ^ 21 * w) / 2 ^ 21 = w := by omega
    have step : ∀ i, (f 0 + 2 ^ 21 * w) / 2 ^ (21 * (i + 1)) = w / 2 ^ (21 * i) := fun i => by
      rw [show 21 * (i + 1) = 21 + 21 * i by omega, Nat.pow_add, ← Nat.div_div_eq_div_mul, hw]
    refine ⟨fun i hi => ?_, ?_⟩
    · cases i with
      | zero => simp; omega
      | succ i => rw [step, ih.1 i (by omega)]
    · rw [step, ih.2]

/-! ### The end of both programs -/

def any64 : Int × Int := (-2 ^ 63, 2 ^ 63 - 1)

/-- before the last fold -/
def aTail : Abs := ⟨List.replicate 12 (0, 2 ^ 21 - 1) ++ (-1, 0) :: List.replicate 11 any64, List.replicate 13 true ++ List.replicate 11 false⟩

/-- after the last carries -/
def aEnd : Abs := ⟨List.replicate 11 (0, 2 ^ 21 - 1) ++ (-1, 2 ^ 21) :: (-1, 0) :: List.replicate 11 any64, List.replicate 12 true ++ List.replicate 12 false⟩

/-- wider intervals -/
def Abs.le (a b : Abs) : Bool :=
  decide (a.lv = b.lv) && decide (b.iv.length = 24) && (List.range 24).all fun i => decide ((b.ivl i).1 ≤ (a.ivl i).1) && decide ((a.ivl i).2 ≤ (b.ivl i).2)

theorem Abs.Ok.weaken {a b : Abs} {s : List Int} (h : a.Ok s) (e : a.le b = true) : b.Ok s ∧ b.live = a.live := by
  simp only [Abs.le, Bool.and_eq_true, decide_eq_true_eq, List.all_eq_true, List.mem_range] at e
  obtain ⟨⟨e1, e2⟩, e3⟩ := e
  refine ⟨⟨h.len, e2, by rw [← e1]; exact h.ll, fun i hi => ?_⟩, live_eq e1.symm⟩
  have := h.bd i hi
  have := e3 i hi
  omega

/-- the program is accepted and ends within the intervals -/
def accepts (os : List Op) (a b : Abs) : Bool :=
  match absRun os a with
  | some c => c.le b
  | none => false

theorem accepts_ok {os : List Op} {a b : Abs} (hp : os.all Op.plain = true) (e : accepts os a b = true) {s : List Int} (h : a.Ok s) :
    ∃ s' m, run os s = .ok s' ∧ b.Ok s' ∧ val b.live s' = val a.live s - m * L ∧ (os.all Op.isCarry = true → m = 0) := by
  rw [accepts] at e
  cases hc : absRun os a with
  | none => rw [hc] at e; cases e
  | some c =>
    rw [hc] at e
    obtain ⟨s', m, e1, e2, e3, e4⟩ := run_ok hp h hc
    obtain ⟨w1, w2⟩ := e2.weaken e
    exact ⟨s', m, e1, w1, by rw [w2, e3], e4⟩

/-- after the last fold -/
def aFold : Abs := ⟨[(-666643, 2097151), (-470296, 2097151), (-654183, 2097151), (0, 3094956), (-136657, 2097151), (0, 2781052)] ++
  List.replicate 6 (0, 2 ^ 21 - 1) ++ (-1, 0) :: List.replicate 11 any64, List.replicate 12 true ++ List.replicate 12 false⟩

theorem fold_chk : (Op.fold 12).abs aTail = some aFold := by decide +kernel

theorem end_chk : accepts lastOps.tail aFold aEnd = true := by decide +kernel

theorem val_first {lv : Nat → Bool} {s : List Int} {n : Nat} (hn : n ≤ 24) (h : ∀ i < 24, lv i = decide (i < n)) : val lv s = ∑ i ∈ range n, dg s i * 2 ^ (21 * i) := by
  rw [val, ← sum_subset (range_subset_range.mpr hn)]
  · exact sum_congr rfl fun i hi => by
      have := mem_range.mp hi
      rw [h i (by omega), decide_eq_true this, if_pos rfl]
  · intro i hi hn
    rw [h i (mem_range.mp hi), decide_eq_false (by simpa using hn)]
    rfl

theorem dg_of_le {s : List Int} {i : Nat} (h : s.length ≤ i) : dg s i = 0 := by rw [dg, List.getElem?_eq_none h]; rfl

/-- the sum of the low limbs -/
theorem low_range {s : List Int} {n : Nat} (h : ∀ i < n, 0 ≤ dg s i ∧ dg s i ≤ 2 ^ 21 - 1) :
    0 ≤ ∑ i ∈ range n, dg s i * 2 ^ (21 * i) ∧ ∑ i ∈ range n, dg s i * 2 ^ (21 * i) < 2 ^ (21 * n) := by
  induction n with
  | zero => simp
  | succ n ih =>
    obtain ⟨h1, h2⟩ := ih fun i hi => h i (by omega)
    obtain ⟨h3, h4⟩ := h n (by omega)
    rw [sum_range_succ, show 21 * (n + 1) = 21 + 21 * n by omega, pow_add]
    have hp : (0 : Int) < 2 ^ (21 * n) := by positivity
    constructor
    · have := mul_nonneg h3 hp.le
      omega
    · have : dg s n * 2 ^ (21 * n) ≤ (2 ^ 21 - 1) * 2 ^ (21 * n) := mul_le_mul_of_nonneg_right h4 hp.le
      have e : ((2 : Int) ^ 21 - 1) * 2 ^ (21 * n) = 2 ^ 21 * 2 ^ (21 * n) - 2 ^ (21 * n) := by ring
      omega

/-- the last fold and the last carries -/
theorem last_ok {s : List Int} (h : aTail.Ok s) : ∃ s' x, run lastOps s = .ok s' ∧ 12 ≤ s'.length ∧ x < L ∧ (∀ i < 12, dg s' i = (limb 12 x i : Nat)) ∧
    ∃ m : Int, (x : Int) = val aTail.live s - m * L := by
  obtain ⟨s1, e1, h1, v1, -, -⟩ := fold_ok h fold_chk
  obtain ⟨s2, m, e2, h2, v2, hm⟩ := accepts_ok (by decide) end_chk h1
  rw [hm (by decide)] at v2
  have b12 := h.bd 12 (by decide)
  have bt : ∀ i < 12, 0 ≤ dg s i ∧ dg s i ≤ 2 ^ 21 - 1 := fun i hi => by
    have := h.bd i (by omega)
    interval_cases i <;> exact this
  have be : ∀ i < 11, 0 ≤ dg s2 i ∧ dg s2 i ≤ 2 ^ 21 - 1 := fun i hi => by
    have := h2.bd i (by omega)
    interval_cases i <;> exact this
  have b12' : -1 ≤ dg s 12 ∧ dg s 12 ≤ 0 := b12
  obtain ⟨l1, l2⟩ := low_range bt
  obtain ⟨l3, l4⟩ := low_range be
  have vt : val aTail.live s = ∑ i ∈ range 12, dg s i * 2 ^ (21 * i) + dg s 12 * 2 ^ 252 := by
    rw [val_first (n := 13) (by decide) (by decide), sum_range_succ]
  have ve : val aEnd.live s2 = ∑ i ∈ range 11, dg s2 i * 2 ^ (21 * i) + dg s2 11 * 2 ^ 231 := by
    rw [val_first (n := 12) (by decide) (by decide), sum_range_succ]
  have hL := L_val
  have e3 : val aEnd.live s2 = val aTail.live s - dg s 12 * L := by rw [v2, v1]; ring
  generalize ∑ i ∈ range 12, dg s i * 2 ^ (21 * i) = r at *
  have hx : 0 ≤ val aEnd.live s2 ∧ val aEnd.live s2 < L := by
    rw [e3, vt, hL]
    norm_num at l2
    have : dg s 12 = -1 ∨ dg s 12 = 0 := by omega
    rcases this with c | c <;> rw [c] <;> constructor <;> norm_num <;> omega
  have ht : 0 ≤ dg s2 11 := by
    by_contra c
    norm_num at l4
    rw [ve] at hx
    norm_num at hx
    omega
  have key := digits 11 (fun i => (dg s2 i).toNat) (dg s2 11).toNat fun i hi => by have := be i hi; omega
  have cast : ((∑ j ∈ range 11, (dg s2 j).toNat * 2 ^ (21 * j) + (dg s2 11).toNat * 2 ^ (21 * 11) : Nat) : Int) = val aEnd.live s2 := by
    rw [ve]
    push_cast
    rw [Int.toNat_of_nonneg ht]
    congr 1
    exact sum_congr rfl fun i hi => by rw [Int.toNat_of_nonneg (be i (mem_range.mp hi)).1]
  generalize ∑ j ∈ range 11, (dg s2 j).toNat * 2 ^ (21 * j) + (dg s2 11).toNat * 2 ^ (21 * 11) = x at *
  refine ⟨s2, x, ?_, by rw [h2.len]; decide, by have := hx.2; rw [← cast] at this; exact_mod_cast this, fun i hi => ?_, dg s 12, by rw [cast, e3]⟩
  · rw [show lastOps = Op.fold 12 :: lastOps.tail from rfl, run, e1, ok_bind, e2]
  · rw [limb]
    by_cases c : i + 1 = 12
    · obtain rfl : i = 11 := by omega
      rw [if_pos rfl, key.2, Int.toNat_of_nonneg ht]
    · rw [if_neg c, key.1 i (by omega), Int.toNat_of_nonneg (be i (by omega)).1]

/-! ### `Sc25519Reduce` -/

/-- the limbs of the argument -/
def aRed : Abs := ⟨List.replicate 23 (0, 2 ^ 21 - 1) ++ [(0, 2 ^ 29 - 1)], List.replicate 24 true⟩

theorem aRed_ok {x : Nat} (hx : x < 2 ^ 512) : aRed.Ok (limbs 24 x) ∧ val aRed.live (limbs 24 x) = x := by
  refine ⟨⟨limbs_length _ _, by decide, by decide, fun i hi => ?_⟩, ?_⟩
  · rw [dg_limbs hi, limb]
    by_cases c : i + 1 = 24
    · obtain rfl : i = 23 := by omega
      rw [if_pos rfl]
      have : x / 2 ^ (21 * 23) < 2 ^ 29 := Nat.div_lt_of_lt_mul (by rw [← Nat.pow_add]; exact hx)
      have e : aRed.ivl 23 = (0, 2 ^ 29 - 1) := by decide
      rw [e]
      generalize x / 2 ^ (21 * 23) = y at *
      constructor
      · exact Int.natCast_nonneg _
      · show (y : Int) ≤ 2 ^ 29 - 1
        omega
    · rw [if_neg c]
      have : x / 2 ^ (21 * i) % 2 ^ 21 < 2 ^ 21 := Nat.mod_lt _ (by decide)
      have e : aRed.ivl i = (0, 2 ^ 21 - 1) := by interval_cases i <;> first | decide | omega
      rw [e]
      generalize x / 2 ^ (21 * i) % 2 ^ 21 = y at *
      constructor
      · exact Int.natCast_nonneg _
      · show (y : Int) ≤ 2 ^ 21 - 1
        omega
  · rw [val_first (n := 24) (by decide) (by decide)]
    have := limb_sum x 23
    rw [← this]
    push_cast
    exact sum_congr rfl fun i hi => by rw [this, dg_limbs (mem_range.mp hi)]

/-- the digits of the argument in base `2^21` -/
def digit21 (x i : Nat) : Int := (x / 2 ^ (21 * i) % 2 ^ 21 : Nat)

/-- the limb `s10` is below `-2^20` when its carry is computed -/
def Wraps (x : Nat) : Prop :=
  digit21 x 10 + 666643 * digit21 x 22 + 470296 * digit21 x 21 + 654183 * digit21 x 20 - 997805 * digit21 x 19 + 136657 * digit21 x 18 + 2 ^ 20 < 0

instance (x : Nat) : Decidable (Wraps x) := inferInstanceAs (Decidable (_ < _))

def runAbs (os : List Op) (a : Abs) : Abs := (absRun os a).getD a

theorem red_chk : absRun redOps aRed = some (runAbs redOps aRed) := by decide +kernel
theorem redU_chk : (Op.roundU 10).abs (runAbs redOps aRed) = some (runAbs [.roundU 10] (runAbs redOps aRed)) := by decide +kernel
theorem red2_chk : accepts (redOps2.tail ++ tailOps) (runAbs [.roundU 10] (runAbs redOps aRed)) aTail = true := by decide +kernel

theorem run_append : ∀ (a b : List Op) (s : List Int), run (a ++ b) s = (run a s >>= run b)
  | [], b, s => rfl
  | o :: a, b, s => by
    show (o.exec s >>= run (a ++ b)) = (o.exec s >>= run a) >>= run b
    cases o.exec s with
    | error e => rfl
    | ok s' => exact run_append a b s'

theorem red_run {x : Nat} (hx : x < 2 ^ 512) : ∃ s m, run redOps (limbs 24 x) = .ok s ∧ (runAbs redOps aRed).Ok s ∧
    val (runAbs redOps aRed).live s = x - m * L ∧ (dg s 10 + 2 ^ 20 < 0 ↔ Wraps x) := by
  obtain ⟨h0, v0⟩ := aRed_ok hx
  have hc := red_chk
  obtain ⟨a1, c1, hc⟩ := bind_some hc
  obtain ⟨a2, c2, hc⟩ := bind_some hc
  obtain ⟨a3, c3, hc⟩ := bind_some hc
  obtain ⟨a4, c4, hc⟩ := bind_some hc
  obtain ⟨a5, c5, hc⟩ := bind_some hc
  obtain ⟨a6, c6, hc⟩ := bind_some hc
  obtain ⟨a7, c7, hc⟩ := bind_some hc
  obtain ⟨a8, c8, hc⟩ := bind_some hc
  obtain ⟨s1, e1, h1, v1, -, d1⟩ := fold_ok h0 c1
  obtain ⟨s2, e2, h2, v2, -, d2⟩ := fold_ok h1 c2
  obtain ⟨s3, e3, h3, v3, -, d3⟩ := fold_ok h2 c3
  obtain ⟨s4, e4, h4, v4, -, d4⟩ := fold_ok h3 c4
  obtain ⟨s5, e5, h5, v5, -, d5⟩ := fold_ok h4 c5
  obtain ⟨s6, e6, h6, v6, -, d6⟩ := fold_ok h5 c6
  obtain ⟨s7, e7, h7, -, d7, v7⟩ := round_ok h6 c7
  obtain ⟨s8, e8, h8, -, d8, v8⟩ := round_ok h7 c8
  have hcc : a8 = runAbs redOps aRed := Option.some.inj hc
  rw [← hcc]
  refine ⟨s8, dg (limbs 24 x) 23 * 2 ^ (21 * 11) + dg s1 22 * 2 ^ (21 * 10) + dg s2 21 * 2 ^ (21 * 9) + dg s3 20 * 2 ^ (21 * 8) + dg s4 19 * 2 ^ (21 * 7) + dg s5 18 * 2 ^ (21 * 6),
    ?_, h8, ?_, ?_⟩
  · simp only [redOps, run, e1, e2, e3, e4, e5, e6, e7, e8, ok_bind]
  · rw [v8, v7, v6, v5, v4, v3, v2, v1, v0]; ring
  · have k1 : ∀ i, 17 < i → dg s1 i = dg (limbs 24 x) i := fun i hi => by
      rw [d1, if_neg (by omega), if_neg (by omega), if_neg (by omega), if_neg (by omega), if_neg (by omega), if_neg (by omega), add_zero]
    have k2 : ∀ i, 17 < i → dg s2 i = dg (limbs 24 x) i := fun i hi => by
      rw [d2, if_neg (by omega), if_neg (by omega), if_neg (by omega), if_neg (by omega), if_neg (by omega), if_neg (by omega), add_zero, k1 i hi]
    have k3 : ∀ i, 17 < i → dg s3 i = dg (limbs 24 x) i := fun i hi => by
      rw [d3, if_neg (by omega), if_neg (by omega), if_neg (by omega), if_neg (by omega), if_neg (by omega), if_neg (by omega), add_zero, k2 i hi]
    have k4 : ∀ i, 17 < i → dg s4 i = dg (limbs 24 x) i := fun i hi => by
      rw [d4, if_neg (by omega), if_neg (by omega), if_neg (by omega), if_neg (by omega), if_neg (by omega), if_neg (by omega), add_zero, k3 i hi]
    have k5 : ∀ i, 17 < i → dg s5 i = dg (limbs 24 x) i := fun i hi => by
      rw [d5, if_neg (by omega), if_neg (by omega), if_neg (by omega), if_neg (by omega), if_neg (by omega), if_neg (by omega), add_zero, k4 i hi]
    have t1 : dg s1 10 = dg (limbs 24 x) 10 := by rw [d1]; simp
    have t2 : dg s2 10 = dg s1 10 + 666643 * dg s1 22 := by rw [d2]; simp
    have t3 : dg s3 10 = dg s2 10 + 470296 * dg s2 21 := by rw [d3]; simp
    have t4 : dg s4 10 = dg s3 10 + 654183 * dg s3 20 := by rw [d4]; simp
    have t5 : dg s5 10 = dg s4 10 + -997805 * dg s4 19 := by rw [d5]; simp
    have t6 : dg s6 10 = dg s5 10 + 136657 * dg s5 18 := by rw [d6]; simp
    have l : ∀ i, i < 23 → dg (limbs 24 x) i = digit21 x i := fun i hi => by rw [dg_limbs (by omega), limb, if_neg (by omega)]; rfl
    rw [d8 10 (by decide) (by decide), d7 10 (by decide) (by decide), t6, t5, t4, t3, t2, t1, k1 22 (by decide), k2 21 (by decide), k3 20 (by decide), k4 19 (by decide),
      k5 18 (by decide), l 10 (by decide), l 22 (by decide), l 21 (by decide), l 20 (by decide), l 19 (by decide), l 18 (by decide), Wraps]
    constructor <;> intro h <;> linarith

theorem L_pos : 0 < L := by decide

/-- a number below the order that differs from `y` by a multiple of it -/
theorem mod_unique {x y : Nat} {m : Int} (hx : x < L) (h : (x : Int) = y - m * L) : x = y % L := by
  have : (x : Int) = (y : Int) % L := by
    rw [show (y : Int) = x + L * m by rw [h]; ring, Int.add_mul_emod_self_left, Int.emod_eq_of_lt (Int.natCast_nonneg _) (by exact_mod_cast hx)]
  exact_mod_cast this

theorem red_all {x : Nat} (hx : x < 2 ^ 512) : ∃ s s' y, run redOps (limbs 24 x) = .ok s ∧ run (redOps2 ++ tailOps ++ lastOps) s = .ok s' ∧ 12 ≤ s'.length ∧
    (∀ i < 12, dg s' i = (limb 12 y i : Nat)) ∧ y = (x + if Wraps x then 2 ^ 274 else 0) % L := by
  obtain ⟨s1, m1, e1, h1, v1, w1⟩ := red_run hx
  have c1 := redU_chk
  have c2 := red2_chk
  generalize runAbs [.roundU 10] (runAbs redOps aRed) = B at c1 c2
  generalize runAbs redOps aRed = A at c1 c2 h1 v1
  obtain ⟨s2, e2, h2, l2, v2⟩ := roundU_ok h1 c1
  obtain ⟨s3, m3, e3, h3, v3, -⟩ := accepts_ok (by decide) c2 h2
  obtain ⟨s4, y, e4, h4, hy, d4, m4, v4⟩ := last_ok h3
  refine ⟨s1, s4, y, e1, ?_, h4, d4, mod_unique (m := m1 + m3 + m4) hy ?_⟩
  · rw [run_append, show redOps2 ++ tailOps = Op.roundU 10 :: (redOps2.tail ++ tailOps) from rfl, run, e2, ok_bind, e3, ok_bind, e4]
  · rw [v4, v3, live_eq l2] at *
    rw [v2, v1]
    by_cases c : Wraps x
    · rw [if_pos (w1.mpr c), if_pos c, Nat.cast_add, show ((2 ^ 274 : Nat) : Int) = 2 ^ (64 + 21 * 10) by norm_num]
      ring
    · rw [if_neg (fun h => c (w1.mp h)), if_neg c, Nat.add_zero]
      ring

theorem scReduce_ok {b : List Byte} (hb : b.length = 64) :
    scReduce b = .ok (leEnc 32 ((leVal b + if Wraps (leVal b) then 2 ^ 274 else 0) % L) ++ b.drop 32) := by
  have hx : leVal b < 2 ^ 512 := by
    have := leVal_lt b
    rw [hb, show (256 : Nat) = 2 ^ 8 from rfl, ← Nat.pow_mul] at this
    exact this
  obtain ⟨s, s', y, e1, e2, hl, d, ey⟩ := red_all hx
  have st := storeLimbs_ok (pre := []) (old := b.take 32) (post := b.drop 32) hl d (by rw [List.length_take]; omega)
  rw [List.nil_append, List.take_append_drop, List.nil_append, List.length_nil] at st
  rw [run_append, run_append] at e2
  rw [scReduce, loadLimbs_ok (N := 64) (Or.inr ⟨rfl, rfl⟩) (by omega), Nat.mod_eq_of_lt hx, ok_bind, e1, ok_bind, ← ey, ← st]
  cases c1 : run redOps2 s with
  | error f => rw [c1] at e2; cases e2
  | ok s2 =>
    rw [c1, ok_bind] at e2
    rw [ok_bind]
    cases c2 : run tailOps s2 with
    | error f => rw [c2] at e2; cases e2
    | ok s3 =>
      rw [c2, ok_bind] at e2
      rw [ok_bind, e2, ok_bind]

end Cex.Ed25519
