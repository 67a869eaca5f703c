import Verif.IntTools.Model
import Verif.IntTools.Spec

/-! Helper lemmas for the IntegerTools properties. -/

namespace Cex

/-! ### Windows of buffers -/

theorem split3 {α : Type} (l : List α) (off n : Nat) (h : off + n ≤ l.length) :
    ∃ a b c, l = a ++ b ++ c ∧ a.length = off ∧ b.length = n := by
  refine ⟨l.take off, (l.drop off).take n, l.drop (off + n), ?_, ?_, ?_⟩
  · rw [List.append_assoc, ← List.drop_drop, List.take_append_drop, List.take_append_drop]
  · simp; omega
  · simp; omega

theorem rd_append_right {α : Type} (a b : List α) (k : Nat) : rd (a ++ b) (a.length + k) = rd b k := by
  simp only [rd]; rw [List.getElem?_append_right (by omega)]; simp

theorem rd_append_left {α : Type} (a b : List α) (k : Nat) (h : k < a.length) : rd (a ++ b) k = rd a k := by
  simp [rd, List.getElem?_append_left h]

theorem wr_append_right {α : Type} (a b b' : List α) (k : Nat) (v : α) (h : wr b k v = .ok b') :
    wr (a ++ b) (a.length + k) v = .ok (a ++ b') := by
  simp only [wr] at *
  split at h
  · cases h; rw [if_pos (by simp; omega)]; simp
  · cases h

/-! ### Numbers from digits -/

theorem beVal_foldl (bs : List Byte) (n : Nat) :
    bs.foldl (fun acc b => acc * 256 + b.toNat) n = n * 256 ^ bs.length + beVal bs := by
  induction bs generalizing n with
  | nil => simp [beVal]
  | cons b bs ih =>
    simp only [List.foldl_cons, beVal, List.length_cons]
    rw [ih, ih (0 * 256 + b.toNat)]
    rw [Nat.add_mul, Nat.mul_assoc, Nat.pow_succ', Nat.add_assoc]
    simp

@[simp] theorem beVal_nil : beVal [] = 0 := rfl

theorem beVal_append (a b : List Byte) : beVal (a ++ b) = beVal a * 256 ^ b.length + beVal b := by
  rw [beVal, List.foldl_append, beVal_foldl]; rfl

theorem beVal_cons (x : Byte) (b : List Byte) : beVal (x :: b) = x.toNat * 256 ^ b.length + beVal b := by
  have := beVal_append [x] b
  simpa [beVal] using this

theorem beVal_concat (a : List Byte) (x : Byte) : beVal (a ++ [x]) = beVal a * 256 + x.toNat := by
  rw [beVal_append]; simp [beVal]

theorem beVal_lt (a : List Byte) : beVal a < 256 ^ a.length := by
  induction a with
  | nil => simp
  | cons x a ih =>
    rw [beVal_cons, List.length_cons, Nat.pow_succ']
    have hx : x.toNat < 256 := x.isLt
    have : (x.toNat + 1) * 256 ^ a.length ≤ 256 * 256 ^ a.length := Nat.mul_le_mul_right _ hx
    rw [Nat.add_mul] at this
    omega

theorem leVal_append (a b : List Byte) : leVal (a ++ b) = leVal a + 256 ^ a.length * leVal b := by
  induction a with
  | nil => simp [leVal]
  | cons x a ih =>
    simp only [List.cons_append, leVal, ih, List.length_cons, Nat.pow_succ']
    rw [Nat.mul_add, Nat.mul_assoc]; omega

theorem leVal_lt (a : List Byte) : leVal a < 256 ^ a.length := by
  induction a with
  | nil => simp [leVal]
  | cons x a ih =>
    simp only [leVal, List.length_cons, Nat.pow_succ']
    have hx : x.toNat < 256 := x.isLt
    have : 256 * (leVal a + 1) ≤ 256 * 256 ^ a.length := Nat.mul_le_mul_left _ ih
    omega

theorem leVal_reverse (a : List Byte) : leVal a.reverse = beVal a := by
  induction a with
  | nil => rfl
  | cons x a ih => rw [List.reverse_cons, leVal_append, ih, beVal_cons]; simp [leVal]; rw [Nat.mul_comm]; omega

theorem beVal_reverse (a : List Byte) : beVal a.reverse = leVal a := by
  rw [← leVal_reverse, List.reverse_reverse]

theorem leVal_inj : ∀ {a b : List Byte}, a.length = b.length → leVal a = leVal b → a = b
  | [], [], _, _ => rfl
  | [], _ :: _, h, _ => by simp at h
  | _ :: _, [], h, _ => by simp at h
  | x :: a, y :: b, h, e => by
    simp only [leVal] at e
    have hx : x.toNat < 256 := x.isLt
    have hy : y.toNat < 256 := y.isLt
    have h1 : x.toNat = y.toNat := by omega
    have h2 : leVal a = leVal b := by omega
    rw [BitVec.eq_of_toNat_eq h1, leVal_inj (by simpa using h) h2]

theorem beVal_inj {a b : List Byte} (h : a.length = b.length) (e : beVal a = beVal b) : a = b := by
  rw [← leVal_reverse, ← leVal_reverse] at e
  exact List.reverse_inj.mp (leVal_inj (by simpa using h) e)

theorem leVal_replicate_zero (n : Nat) : leVal (List.replicate n 0#8) = 0 := by
  induction n with
  | zero => rfl
  | succ n ih => simp [List.replicate_succ, leVal, ih]

/-! ### OR of disjoint parts -/

theorem or_eq_add {hi lo : Nat} (k : Nat) (hl : lo < 2 ^ k) (hh : hi % 2 ^ k = 0) : hi ||| lo = hi + lo := by
  have : hi = (hi / 2 ^ k) <<< k := by
    rw [Nat.shiftLeft_eq]; have := Nat.div_add_mod hi (2 ^ k); rw [hh, Nat.mul_comm] at this; omega
  rw [this, Nat.shiftLeft_add_eq_or_of_lt hl]

theorem shl_byte_toNat {w : Nat} (b : Byte) (k : Nat) (h : k + 8 ≤ w) :
    (b.setWidth w <<< k).toNat = b.toNat * 2 ^ k := by
  have hb := b.isLt
  rw [BitVec.toNat_shiftLeft, BitVec.toNat_setWidth, Nat.shiftLeft_eq]
  have h1 : b.toNat < 2 ^ w := Nat.lt_of_lt_of_le hb (Nat.pow_le_pow_right (by decide) (by omega))
  rw [Nat.mod_eq_of_lt h1, Nat.mod_eq_of_lt]
  calc b.toNat * 2 ^ k < 2 ^ 8 * 2 ^ k := Nat.mul_lt_mul_of_pos_right hb (Nat.two_pow_pos k)
    _ = 2 ^ (8 + k) := by rw [Nat.pow_add]
    _ ≤ 2 ^ w := Nat.pow_le_pow_right (by decide) (by omega)

theorem setWidth_byte_toNat {w : Nat} (b : Byte) (h : 8 ≤ w) : (b.setWidth w).toNat = b.toNat := by
  rw [BitVec.toNat_setWidth]
  exact Nat.mod_eq_of_lt (Nat.lt_of_lt_of_le b.isLt (Nat.pow_le_pow_right (by decide) h))

end Cex

namespace Cex.IntTools
open Cex

theorem byte_of_shift_toNat {w : Nat} (v : BitVec w) (k : Nat) :
    ((v >>> k).setWidth 8).toNat = v.toNat / 2 ^ k % 256 := by
  rw [BitVec.toNat_setWidth, BitVec.toNat_ushiftRight, Nat.shiftRight_eq_div_pow]

theorem byte_of_toNat {w : Nat} (v : BitVec w) : (v.setWidth 8).toNat = v.toNat % 256 := by
  rw [BitVec.toNat_setWidth]

theorem be16_read (b0 b1 : Byte) :
    ((b0.setWidth 16 <<< 8) ||| b1.setWidth 16).toNat = beVal [b0, b1] := by
  have h0 : b0.toNat < 256 := b0.isLt
  have h1 : b1.toNat < 256 := b1.isLt
  rw [BitVec.toNat_or, shl_byte_toNat _ _ (by decide), setWidth_byte_toNat _ (by decide)]
  rw [or_eq_add 8 (by omega) (by omega)]
  simp [beVal]

theorem be32_read (b0 b1 b2 b3 : Byte) :
    ((b0.setWidth 32 <<< 24) ||| (b1.setWidth 32 <<< 16) ||| (b2.setWidth 32 <<< 8) ||| b3.setWidth 32).toNat
      = beVal [b0, b1, b2, b3] := by
  have h0 : b0.toNat < 256 := b0.isLt
  have h1 : b1.toNat < 256 := b1.isLt
  have h2 : b2.toNat < 256 := b2.isLt
  have h3 : b3.toNat < 256 := b3.isLt
  simp only [BitVec.toNat_or]
  rw [shl_byte_toNat b0 24 (by decide), shl_byte_toNat b1 16 (by decide), shl_byte_toNat b2 8 (by decide),
    setWidth_byte_toNat b3 (by decide)]
  rw [or_eq_add (lo := b1.toNat * 2 ^ 16) 24 (by omega) (by omega),
    or_eq_add (lo := b2.toNat * 2 ^ 8) 16 (by omega) (by omega), or_eq_add 8 (by omega) (by omega)]
  simp [beVal]; omega

theorem be64_read (b0 b1 b2 b3 b4 b5 b6 b7 : Byte) :
    ((b0.setWidth 64 <<< 56) ||| (b1.setWidth 64 <<< 48) ||| (b2.setWidth 64 <<< 40) |||
    (b3.setWidth 64 <<< 32) ||| (b4.setWidth 64 <<< 24) ||| (b5.setWidth 64 <<< 16) |||
    (b6.setWidth 64 <<< 8) ||| b7.setWidth 64).toNat
      = beVal [b0, b1, b2, b3, b4, b5, b6, b7] := by
  have h0 : b0.toNat < 256 := b0.isLt
  have h1 : b1.toNat < 256 := b1.isLt
  have h2 : b2.toNat < 256 := b2.isLt
  have h3 : b3.toNat < 256 := b3.isLt
  have h4 : b4.toNat < 256 := b4.isLt
  have h5 : b5.toNat < 256 := b5.isLt
  have h6 : b6.toNat < 256 := b6.isLt
  have h7 : b7.toNat < 256 := b7.isLt
  simp only [BitVec.toNat_or]
  rw [shl_byte_toNat b0 56 (by decide), shl_byte_toNat b1 48 (by decide), shl_byte_toNat b2 40 (by decide),
    shl_byte_toNat b3 32 (by decide), shl_byte_toNat b4 24 (by decide), shl_byte_toNat b5 16 (by decide),
    shl_byte_toNat b6 8 (by decide), setWidth_byte_toNat b7 (by decide)]
  rw [or_eq_add (lo := b1.toNat * 2 ^ 48) 56 (by omega) (by omega),
    or_eq_add (lo := b2.toNat * 2 ^ 40) 48 (by omega) (by omega),
    or_eq_add (lo := b3.toNat * 2 ^ 32) 40 (by omega) (by omega),
    or_eq_add (lo := b4.toNat * 2 ^ 24) 32 (by omega) (by omega),
    or_eq_add (lo := b5.toNat * 2 ^ 16) 24 (by omega) (by omega),
    or_eq_add (lo := b6.toNat * 2 ^ 8) 16 (by omega) (by omega),
    or_eq_add 8 (by omega) (by omega)]
  simp [beVal]; omega

theorem leRep_length (n : Nat) {w : Nat} (v : BitVec w) : (leRep n v).length = n := by simp [leRep]

theorem leVal_leRep (n : Nat) {w : Nat} (v : BitVec w) : leVal (leRep n v) = v.toNat % 256 ^ n := by
  induction n with
  | zero => simp [leRep, leVal, Nat.mod_one]
  | succ n ih =>
    have : leRep (n + 1) v = leRep n v ++ [(v >>> (8 * n)).setWidth 8] := by
      simp [leRep, List.range_succ]
    rw [this, leVal_append, ih, leRep_length]
    simp only [leVal, byte_of_shift_toNat, Nat.mul_zero, Nat.add_zero]
    rw [show (2:Nat) ^ (8 * n) = 256 ^ n by rw [Nat.pow_mul]]
    rw [Nat.pow_succ, Nat.mod_mul]

theorem leUnrep_toNat (w : Nat) (bs : List Byte) (hw : 8 * bs.length ≤ w) :
    (leUnrep w bs).toNat = leVal bs := by
  induction bs with
  | nil => simp [leUnrep, leVal]
  | cons b bs ih =>
    simp only [List.length_cons] at hw
    have ih := ih (by omega)
    have hb : b.toNat < 256 := b.isLt
    have hl := leVal_lt bs
    simp only [leUnrep, List.foldr_cons, leVal] at *
    rw [BitVec.toNat_or, BitVec.toNat_shiftLeft, ih, setWidth_byte_toNat _ (by omega), Nat.shiftLeft_eq]
    have h2 : leVal bs * 2 ^ 8 < 2 ^ w := by
      calc leVal bs * 2 ^ 8 < 256 ^ bs.length * 2 ^ 8 := Nat.mul_lt_mul_of_pos_right hl (by decide)
        _ = 2 ^ (8 * bs.length + 8) := by rw [Nat.pow_add, Nat.pow_mul]
        _ ≤ 2 ^ w := Nat.pow_le_pow_right (by decide) (by omega)
    rw [Nat.mod_eq_of_lt h2, or_eq_add 8 (by omega) (by omega)]
    omega

/-! ### Increment -/

theorem byte_succ_eq_zero (b : Byte) : b + 1 = 0 ↔ b.toNat = 255 := by
  have hb : b.toNat < 256 := b.isLt
  constructor
  · intro h
    have := congrArg BitVec.toNat h
    rw [BitVec.toNat_add] at this
    have e1 : (1 : Byte).toNat = 1 := rfl
    have e0 : (0 : Byte).toNat = 0 := rfl
    omega
  · intro h; apply BitVec.eq_of_toNat_eq; rw [BitVec.toNat_add, h]; rfl


theorem beIncLoop_spec (pre : List Byte) : ∀ (n : Nat) (ctr post : List Byte), ctr.length = n → 0 < n →
    ∃ ctr', beIncLoop pre.length (pre.length + n) (pre ++ ctr ++ post) = .ok (pre ++ ctr' ++ post) ∧
      ctr'.length = n ∧ beVal ctr' = (beVal ctr + 1) % 256 ^ n := by
  intro n
  induction n with
  | zero => intro _ _ _ h; omega
  | succ n ih =>
    intro ctr post hl _
    obtain ⟨init, last, rfl⟩ : ∃ i l, ctr = i ++ [l] := by
      have hne : ctr ≠ [] := by intro h; rw [h] at hl; simp at hl
      exact ⟨ctr.dropLast, ctr.getLast hne, (List.dropLast_concat_getLast hne).symm⟩
    simp only [List.length_append, List.length_cons, List.length_nil, Nat.zero_add, Nat.add_right_cancel_iff] at hl
    have hr : rd (pre ++ (init ++ [last]) ++ post) (pre.length + n) = .ok last := by
      subst hl; simp [rd]
    have hw : ∀ v, wr (pre ++ (init ++ [last]) ++ post) (pre.length + n) v = .ok (pre ++ init ++ (v :: post)) := by
      intro v; subst hl
      have : wr ([last] ++ post) 0 v = .ok ([v] ++ post) := rfl
      have := wr_append_right (pre ++ init) _ _ 0 v this
      simpa using this
    rw [show pre.length + (n + 1) = (pre.length + n) + 1 from rfl]
    simp only [beIncLoop, hr, hw, ok_bind]
    have hlast : last.toNat < 256 := last.isLt
    have hlt := beVal_lt init
    rw [hl] at hlt
    have hpow : 256 ^ (n + 1) = 256 * 256 ^ n := Nat.pow_succ'
    by_cases hz : last + 1 = 0
    · have hv : last.toNat = 255 := (byte_succ_eq_zero last).mp hz
      simp only [hz]
      simp only [ne_eq, not_true_eq_false, if_false]
      by_cases hn : n = 0
      · subst hn
        have : init = [] := by simpa using hl
        subst this
        refine ⟨[0], by simp, rfl, ?_⟩
        simp [beVal, hv]
      · obtain ⟨c', h1, h2, h3⟩ := ih init (0 :: post) hl (by omega)
        refine ⟨c' ++ [0], ?_, by simp [h2], ?_⟩
        · rw [if_pos (by omega)]
          simpa using h1
        · rw [beVal_concat, beVal_concat, h3, hv, hpow]
          rw [show beVal init * 256 + 255 + 1 = 256 * (beVal init + 1) from by omega, Nat.mul_mod_mul_left]
          simp [Nat.mul_comm]
    · simp only [hz, ne_eq, not_false_eq_true, if_true]
      have hv : (last + 1).toNat = last.toNat + 1 := by
        have h255 : last.toNat ≠ 255 := by
          exact fun h => hz ((byte_succ_eq_zero _).mpr h)
        simp [BitVec.toNat_add]; omega
      refine ⟨init ++ [last + 1], by simp, by simp [hl], ?_⟩
      rw [beVal_concat, beVal_concat, hv, Nat.mod_eq_of_lt]
      · omega
      · rw [hpow]
        have := Nat.mul_le_mul_left 256 hlt
        have h255 : last.toNat ≠ 255 := by
          exact fun h => hz ((byte_succ_eq_zero _).mpr h)
        omega

theorem leIncLoop_spec : ∀ (n : Nat) (pre ctr post : List Byte), ctr.length = n →
    ∃ ctr', leIncLoop n pre.length (pre ++ ctr ++ post) = .ok (pre ++ ctr' ++ post) ∧
      ctr'.length = n ∧ leVal ctr' = (leVal ctr + 1) % 256 ^ n := by
  intro n
  induction n with
  | zero => intro pre ctr post h; exact ⟨[], by simp_all [leIncLoop], rfl, by simp [leVal, Nat.mod_one]⟩
  | succ n ih =>
    intro pre ctr post hl
    obtain ⟨x, tl, rfl⟩ : ∃ x tl, ctr = x :: tl := by
      cases ctr with
      | nil => simp at hl
      | cons x t => exact ⟨x, t, rfl⟩
    simp only [List.length_cons, Nat.add_right_cancel_iff] at hl
    have hr : rd (pre ++ (x :: tl) ++ post) pre.length = .ok x := by simp [rd]
    have hw : ∀ v, wr (pre ++ (x :: tl) ++ post) pre.length v = .ok (pre ++ [v] ++ tl ++ post) := by
      intro v
      have : wr ([x] ++ tl ++ post) 0 v = .ok ([v] ++ tl ++ post) := rfl
      simpa using wr_append_right pre _ _ 0 v this
    simp only [leIncLoop, hr, hw, ok_bind]
    have hx : x.toNat < 256 := x.isLt
    have hlt := leVal_lt tl
    rw [hl] at hlt
    have hpow : 256 ^ (n + 1) = 256 * 256 ^ n := Nat.pow_succ'
    by_cases hz : x + 1 = 0
    · have hv : x.toNat = 255 := (byte_succ_eq_zero x).mp hz
      simp only [hz, ne_eq, not_true_eq_false, if_false]
      obtain ⟨c', h1, h2, h3⟩ := ih (pre ++ [0]) tl post hl
      refine ⟨0 :: c', ?_, by simp [h2], ?_⟩
      · simpa using h1
      · simp only [leVal, h3, hv, hpow]
        rw [show 255 + 256 * leVal tl + 1 = 256 * (leVal tl + 1) from by omega, Nat.mul_mod_mul_left]
        simp
    · simp only [hz, ne_eq, not_false_eq_true, if_true]
      have h255 : x.toNat ≠ 255 := by
        exact fun h => hz ((byte_succ_eq_zero _).mpr h)
      have hv : (x + 1).toNat = x.toNat + 1 := by simp [BitVec.toNat_add]; omega
      refine ⟨(x + 1) :: tl, by simp, by simp [hl], ?_⟩
      simp only [leVal, hv]
      rw [Nat.mod_eq_of_lt]
      · omega
      · rw [hpow]
        have := Nat.mul_le_mul_left 256 hlt
        omega

/-! ### Increase -/

/-- List form of the increase loops, least significant byte first; also reports the total weight of
the carries that were dropped, and the final carry. -/
def incList : (ds : List Byte) → (src : Nat → Byte) → (j : Nat) → (carry : Byte) → List Byte × Byte
  | [], _, _, c => ([], c)
  | d :: ds, src, j, c =>
    let (n, c') := incStep d (src j) c
    let (r, cf) := incList ds src (j + 1) c'
    (n :: r, cf)

/-- weight of dropped carries relative to position `j` -/
def lossW : (ds : List Byte) → (src : Nat → Byte) → (j : Nat) → (carry : Byte) → Nat
  | [], _, _, _ => 0
  | d :: ds, src, j, c =>
    (if c = 1 ∧ src j = 255 then 256 else 0) + 256 * lossW ds src (j + 1) (incStep d (src j) c).2

/-- value of the source bytes from position `j`, `n` of them -/
def srcVal (src : Nat → Byte) : (n j : Nat) → Nat
  | 0, _ => 0
  | n + 1, j => (src j).toNat + 256 * srcVal src n (j + 1)

theorem incStep_spec (d s c : Byte) (hc : c = 0 ∨ c = 1) :
    ((incStep d s c).2 = 0 ∨ (incStep d s c).2 = 1) ∧
    (incStep d s c).1.toNat + 256 * (incStep d s c).2.toNat + (if c = 1 ∧ s = 255 then 256 else 0)
      = d.toNat + s.toNat + c.toNat := by
  have hd : d.toNat < 256 := d.isLt
  have hs : s.toNat < 256 := s.isLt
  have h255 : s = 255 ↔ s.toNat = 255 := by
    constructor
    · intro h; rw [h]; rfl
    · intro h; exact BitVec.eq_of_toNat_eq h
  refine ⟨?_, ?_⟩
  · simp only [incStep]; split <;> simp
  · rcases hc with rfl | rfl
    · simp only [incStep, BitVec.lt_def, BitVec.toNat_add]
      simp
      split <;> simp <;> omega
    · simp only [incStep, BitVec.lt_def, BitVec.toNat_add, h255]
      simp
      split <;> split <;> simp <;> omega

theorem incList_length (ds : List Byte) (src : Nat → Byte) (j : Nat) (c : Byte) :
    (incList ds src j c).1.length = ds.length := by
  induction ds generalizing j c with
  | nil => rfl
  | cons d ds ih => simp [incList, ih]

theorem incList_val (ds : List Byte) (src : Nat → Byte) (j : Nat) (c : Byte) (hc : c = 0 ∨ c = 1) :
    leVal (incList ds src j c).1 + 256 ^ ds.length * (incList ds src j c).2.toNat + lossW ds src j c
      = leVal ds + srcVal src ds.length j + c.toNat := by
  induction ds generalizing j c with
  | nil => simp [incList, leVal, lossW, srcVal]
  | cons d ds ih =>
    obtain ⟨h1, h2⟩ := incStep_spec d (src j) c hc
    have := ih (j + 1) _ h1
    simp only [incList, leVal, lossW, srcVal, List.length_cons, Nat.pow_succ', Nat.mul_assoc]
    omega

theorem cinc_toNat (n : Nat) {w : Nat} (v : BitVec w) (hw : w ≤ 8 * n) (k : Nat) :
    (cinc n v k).toNat = v.toNat / 256 ^ k % 256 := by
  have hp : (2 : Nat) ^ (8 * k) = 256 ^ k := by rw [Nat.pow_mul]
  unfold cinc
  split
  · rw [byte_of_shift_toNat, hp]
  · rename_i h
    have h1 : v.toNat < 2 ^ (8 * k) :=
      Nat.lt_of_lt_of_le v.isLt (Nat.pow_le_pow_right (by decide) (by omega))
    rw [hp] at h1
    rw [Nat.div_eq_of_lt h1]; rfl

theorem srcVal_cinc (n : Nat) {w : Nat} (v : BitVec w) (hw : w ≤ 8 * n) (N j : Nat) :
    srcVal (cinc n v) N j = v.toNat / 256 ^ j % 256 ^ N := by
  induction N generalizing j with
  | zero => simp [srcVal, Nat.mod_one]
  | succ N ih =>
    rw [srcVal, ih, cinc_toNat n v hw, Nat.pow_succ' (n := N), Nat.mod_mul, Nat.div_div_eq_div_mul,
      ← Nat.pow_succ]

theorem beIncreaseLoop_eq (src : Nat → Byte) (pre : List Byte) (len : Nat) : ∀ (k : Nat) (c : Byte) (ctr suf : List Byte),
    ctr.length = k → k ≤ len →
    beIncreaseLoop src pre.length len k c (pre ++ ctr ++ suf) =
      .ok (pre ++ (incList ctr.reverse src (len - k) c).1.reverse ++ suf) := by
  intro k
  induction k with
  | zero =>
    intro c ctr suf h _
    have : ctr = [] := by simpa using h
    subst this; simp [beIncreaseLoop, incList]
  | succ k ih =>
    intro c ctr suf hl hk
    obtain ⟨init, last, rfl⟩ : ∃ i l, ctr = i ++ [l] := by
      have hne : ctr ≠ [] := by intro h; rw [h] at hl; simp at hl
      exact ⟨ctr.dropLast, ctr.getLast hne, (List.dropLast_concat_getLast hne).symm⟩
    simp only [List.length_append, List.length_cons, List.length_nil, Nat.zero_add, Nat.add_right_cancel_iff] at hl
    have hr : rd (pre ++ (init ++ [last]) ++ suf) (pre.length + k) = .ok last := by
      subst hl; simp [rd]
    have hw : ∀ v, wr (pre ++ (init ++ [last]) ++ suf) (pre.length + k) v = .ok (pre ++ init ++ (v :: suf)) := by
      intro v; subst hl
      have : wr ([last] ++ suf) 0 v = .ok ([v] ++ suf) := rfl
      have := wr_append_right (pre ++ init) _ _ 0 v this
      simpa using this
    simp only [beIncreaseLoop, hr, hw, ok_bind]
    rw [ih _ init _ hl (by omega)]
    simp only [List.reverse_append, List.reverse_cons, List.reverse_nil, List.nil_append, List.singleton_append, incList]
    rw [show len - (k + 1) = len - 1 - k by omega, show len - 1 - k + 1 = len - k by omega]
    simp

theorem leIncreaseLoop_eq (src : Nat → Byte) (pre : List Byte) : ∀ (ctr : List Byte) (j : Nat) (c : Byte) (mid suf : List Byte),
    mid.length = j →
    leIncreaseLoop src pre.length ctr.length j c (pre ++ mid ++ ctr ++ suf) =
      .ok (pre ++ mid ++ (incList ctr src j c).1 ++ suf) := by
  intro ctr
  induction ctr with
  | nil => intro j c mid suf _; simp [leIncreaseLoop, incList]
  | cons d ds ih =>
    intro j c mid suf hm
    have hr : rd (pre ++ mid ++ (d :: ds) ++ suf) (pre.length + j) = .ok d := by
      subst hm; simp [rd]
    have hw : ∀ v, wr (pre ++ mid ++ (d :: ds) ++ suf) (pre.length + j) v = .ok (pre ++ (mid ++ [v]) ++ ds ++ suf) := by
      intro v; subst hm
      have : wr ([d] ++ ds ++ suf) 0 v = .ok ([v] ++ ds ++ suf) := rfl
      have := wr_append_right (pre ++ mid) _ _ 0 v this
      simpa using this
    simp only [List.length_cons, leIncreaseLoop, hr, hw, ok_bind]
    rw [ih (j + 1) _ (mid ++ [_]) suf (by simp [hm])]
    simp [incList]

theorem lossW_dvd (ds : List Byte) (src : Nat → Byte) (j : Nat) (c : Byte) : lossW ds src j c % 256 = 0 := by
  cases ds with
  | nil => rfl
  | cons d ds => simp only [lossW]; split <;> omega

theorem leVal_take (ds : List Byte) (k : Nat) : leVal (ds.take k) = leVal ds % 256 ^ k := by
  by_cases h : k ≤ ds.length
  · conv => rhs; rw [← List.take_append_drop k ds, leVal_append]
    have hl : (ds.take k).length = k := by simp [h]
    have := leVal_lt (ds.take k)
    rw [hl] at this ⊢
    rw [Nat.add_mul_mod_self_left, Nat.mod_eq_of_lt this]
  · have h' : ds.length ≤ k := by omega
    rw [List.take_of_length_le h', Nat.mod_eq_of_lt]
    exact Nat.lt_of_lt_of_le (leVal_lt ds) (Nat.pow_le_pow_right (by decide) h')

theorem lossW_zero_iff (ds : List Byte) (src : Nat → Byte) (j : Nat) (c : Byte) (hc : c = 0 ∨ c = 1) :
    lossW ds src j c % 256 ^ ds.length = 0 ↔
      ∀ k, k + 1 < ds.length → ¬ (src (j + k) = 255 ∧ 256 ^ k ≤ leVal (ds.take k) + srcVal src k j + c.toNat) := by
  induction ds generalizing j c with
  | nil => simp [lossW]
  | cons d ds ih =>
    obtain ⟨h1, h2⟩ := incStep_spec d (src j) c hc
    have ih := ih (j + 1) _ h1
    rw [List.length_cons, Nat.pow_succ']
    have hform : lossW (d :: ds) src j c =
        256 * ((if c = 1 ∧ src j = 255 then 1 else 0) + lossW ds src (j + 1) (incStep d (src j) c).2) := by
      simp only [lossW]; split <;> omega
    rw [hform, Nat.mul_mod_mul_left]
    by_cases hb : c = 1 ∧ src j = 255
    · simp only [hb, and_self, if_true]
      by_cases hn : ds.length = 0
      · rw [hn]; simp [Nat.mod_one]
      · constructor
        · intro h; exfalso
          have hd := lossW_dvd ds src (j + 1) (incStep d 255 1).2
          have : (1 + lossW ds src (j + 1) (incStep d 255 1).2) % 256 = 0 := by
            obtain ⟨m, hm⟩ : ∃ m, ds.length = m + 1 := ⟨ds.length - 1, by omega⟩
            rw [hm, Nat.pow_succ'] at h
            have h' : (1 + lossW ds src (j + 1) (incStep d 255 1).2) % (256 * 256 ^ m) = 0 := by
              have := Nat.mul_eq_zero.mp h; rcases this with h | h
              · omega
              · exact h
            have h3 := Nat.mod_mul_right_mod (1 + lossW ds src (j + 1) (incStep d 255 1).2) 256 (256 ^ m)
            rw [h'] at h3; omega
          omega
        · intro h; exfalso
          exact h 0 (by omega) ⟨by simpa using hb.2, by simp [leVal, srcVal]⟩
    · simp only [hb, if_false, Nat.zero_add]
      rw [if_neg hb] at h2
      have key : (256 * (lossW ds src (j + 1) (incStep d (src j) c).2 % 256 ^ ds.length) = 0) ↔
          (lossW ds src (j + 1) (incStep d (src j) c).2 % 256 ^ ds.length = 0) := by omega
      rw [key, ih]
      have shift : ∀ k, (256 ^ (k + 1) ≤ leVal ((d :: ds).take (k + 1)) + srcVal src (k + 1) j + c.toNat) ↔
          (256 ^ k ≤ leVal (ds.take k) + srcVal src k (j + 1) + (incStep d (src j) c).2.toNat) := by
        intro k
        have hlt := (incStep d (src j) c).1.isLt
        rw [Nat.pow_succ']
        simp only [List.take_succ_cons, leVal, srcVal]
        omega
      constructor
      · intro h k hk
        cases k with
        | zero =>
          intro ⟨ha, hb'⟩
          apply hb
          refine ⟨?_, by simpa using ha⟩
          rcases hc with rfl | rfl
          · simp [leVal, srcVal] at hb'
          · rfl
        | succ k =>
          rw [shift, show j + (k + 1) = j + 1 + k by omega]
          exact h k (by omega)
      · intro h k hk
        have := h (k + 1) (by omega)
        rw [shift, show j + (k + 1) = j + 1 + k by omega] at this
        exact this

theorem add_mod_eq_self_iff {r l N : Nat} (h : r < N) : (r + l) % N = r ↔ l % N = 0 := by
  rw [Nat.add_mod, Nat.mod_eq_of_lt h]
  have hm := Nat.mod_lt l (show 0 < N by omega)
  generalize l % N = m at *
  by_cases hlt : r + m < N
  · rw [Nat.mod_eq_of_lt hlt]; omega
  · rw [Nat.mod_eq_sub_mod (by omega), Nat.mod_eq_of_lt (by omega)]; omega

/-- value-level statement for the byte-wise addition used by all `*Increase8` functions -/
theorem incList_correct_iff (ds : List Byte) (n : Nat) {w : Nat} (v : BitVec w) (hw : w ≤ 8 * n) :
    leVal (incList ds (cinc n v) 0 0).1 = (leVal ds + v.toNat) % 256 ^ ds.length ↔
      ¬ ∃ k, k + 1 < ds.length ∧ v.toNat / 256 ^ k % 256 = 255 ∧
          256 ^ k ≤ leVal ds % 256 ^ k + v.toNat % 256 ^ k := by
  have hv := incList_val ds (cinc n v) 0 0 (Or.inl rfl)
  have hlen := incList_length ds (cinc n v) 0 0
  have hlt := leVal_lt (incList ds (cinc n v) 0 0).1
  rw [hlen] at hlt
  have h0 : (0 : Byte).toNat = 0 := rfl
  rw [srcVal_cinc n v hw, h0, Nat.pow_zero, Nat.div_one, Nat.add_zero] at hv
  have e : (leVal ds + v.toNat) % 256 ^ ds.length =
      (leVal (incList ds (cinc n v) 0 0).1 + lossW ds (cinc n v) 0 0) % 256 ^ ds.length := by
    rw [← Nat.add_mod_mod (leVal ds), ← hv,
      show ∀ a b c : Nat, a + b + c = (a + c) + b from by intros; omega, Nat.add_mul_mod_self_left]
  rw [e, eq_comm, add_mod_eq_self_iff hlt, lossW_zero_iff ds _ 0 0 (Or.inl rfl)]
  have conv : ∀ k, (cinc n v (0 + k) = 255 ∧
      256 ^ k ≤ leVal (ds.take k) + srcVal (cinc n v) k 0 + (0 : Byte).toNat) ↔
      (v.toNat / 256 ^ k % 256 = 255 ∧ 256 ^ k ≤ leVal ds % 256 ^ k + v.toNat % 256 ^ k) := by
    intro k
    rw [srcVal_cinc n v hw, leVal_take, h0, Nat.pow_zero, Nat.div_one, Nat.add_zero, Nat.zero_add,
      ← cinc_toNat n v hw k]
    have : cinc n v k = 255 ↔ (cinc n v k).toNat = 255 :=
      ⟨fun h => by rw [h]; rfl, fun h => BitVec.eq_of_toNat_eq h⟩
    rw [this]
  constructor
  · rintro h ⟨k, hk, h1⟩; exact h k hk ((conv k).mpr h1)
  · intro h k hk h1; exact h ⟨k, hk, (conv k).mp h1⟩

/-! ### Masks -/

theorem foldDown_getLsbD {w : Nat} (k : Nat) (x : BitVec w) (i : Nat) :
    (foldDown k x).getLsbD i = true ↔ ∃ j, j < 2 ^ k ∧ x.getLsbD (i + j) = true := by
  induction k generalizing i with
  | zero => simp [foldDown]
  | succ k ih =>
    simp only [foldDown, BitVec.getLsbD_or, BitVec.getLsbD_ushiftRight, Bool.or_eq_true, ih]
    rw [Nat.pow_succ]
    constructor
    · rintro (⟨j, h1, h2⟩ | ⟨j, h1, h2⟩)
      · exact ⟨j, by omega, h2⟩
      · exact ⟨2 ^ k + j, by omega, by rwa [show i + (2 ^ k + j) = 2 ^ k + i + j by omega]⟩
    · rintro ⟨j, h1, h2⟩
      by_cases h : j < 2 ^ k
      · exact Or.inl ⟨j, h, h2⟩
      · exact Or.inr ⟨j - 2 ^ k, by omega, by rwa [show 2 ^ k + i + (j - 2 ^ k) = i + j by omega]⟩

theorem expandMask_eq (lg : Nat) {w : Nat} (hw : w = 2 ^ lg) (x : BitVec w) :
    expandMask lg x = if x = 0 then 0 else BitVec.allOnes w := by
  have hpos : 0 < w := by rw [hw]; exact Nat.two_pow_pos lg
  have hbit : (foldDown lg x).getLsbD 0 = true ↔ x ≠ 0 := by
    rw [foldDown_getLsbD]
    constructor
    · rintro ⟨j, _, h2⟩ h; subst h; simp at h2
    · intro h
      apply Classical.byContradiction
      intro hn
      apply h
      apply BitVec.eq_of_getLsbD_eq
      intro i hi
      have : ¬ x.getLsbD i = true := fun hx => hn ⟨i, by omega, by simpa using hx⟩
      simpa using this
  have hand : foldDown lg x &&& 1 = if x = 0 then 0 else 1 := by
    apply BitVec.eq_of_getLsbD_eq
    intro i hi
    by_cases hx : x = 0
    · have : (foldDown lg x).getLsbD 0 = false := by
        cases h : (foldDown lg x).getLsbD 0 with
        | false => rfl
        | true => exact absurd hx (hbit.mp h)
      rw [if_pos hx]
      simp only [BitVec.getLsbD_and]
      by_cases h0 : i = 0
      · subst h0; simp [this]
      · simp [BitVec.getLsbD_one, h0]
    · rw [if_neg hx]
      simp only [BitVec.getLsbD_and]
      by_cases h0 : i = 0
      · subst h0; simp [hbit.mpr hx]
      · simp [BitVec.getLsbD_one, h0]
  unfold expandMask
  simp only [hand]
  split
  · show ~~~(0#w - 1#w) = 0#w
    rw [BitVec.zero_sub, BitVec.neg_one_eq_allOnes]; simp
  · simp

theorem expandMask_ofBool (lg : Nat) {w : Nat} (hw : w = 2 ^ lg) (b : Bool) :
    expandMask lg (ofBool w b) = if b then BitVec.allOnes w else 0 := by
  have hpos : 0 < w := by rw [hw]; exact Nat.two_pow_pos lg
  rw [expandMask_eq lg hw]
  cases b with
  | false => simp [ofBool]
  | true =>
    have : (1 : BitVec w) ≠ 0 := by
      intro h
      have := congrArg (fun z => z.getLsbD 0) h
      simp [hpos] at this
    simp only [ofBool, if_true, this, if_false]

theorem select_allOnes {w : Nat} (a b : BitVec w) : select (BitVec.allOnes w) a b = a := by
  simp [select]

theorem select_zero {w : Nat} (a b : BitVec w) : select 0 a b = b := by
  simp [select]

end Cex.IntTools

namespace Cex

theorem rd_bind_ub {α β : Type} {b : List α} {i : Nat} {f : α → M β} (h : ∀ x, f x = .error .ub) :
    (rd b i >>= f) = .error .ub := by
  unfold rd; split
  · exact h _
  · rfl

/-- `Compare`-style loops: the accumulator is zero iff the windows agree. -/
theorem take_drop_succ_eq_iff {α : Type} {a b : List α} {ao bo i : Nat} (ha : ao + i < a.length) (hb : bo + i < b.length) :
    ((a.drop ao).take (i + 1) = (b.drop bo).take (i + 1)) ↔
      ((a.drop ao).take i = (b.drop bo).take i ∧ a[ao + i] = b[bo + i]) := by
  rw [List.take_succ_eq_append_getElem (by simp; omega), List.take_succ_eq_append_getElem (by simp; omega)]
  have : ((a.drop ao).take i).length = ((b.drop bo).take i).length := by simp; omega
  constructor
  · intro h
    have := List.append_inj h this
    simpa using this
  · rintro ⟨h1, h2⟩
    simp [h1, h2]

theorem or_eq_zero_iff {w : Nat} (x y : BitVec w) : x ||| y = 0 ↔ x = 0 ∧ y = 0 := by
  constructor
  · intro h
    have hx : ∀ i, x.getLsbD i = false ∧ y.getLsbD i = false := by
      intro i
      have := congrArg (fun z => z.getLsbD i) h
      simpa using this
    exact ⟨BitVec.eq_of_getLsbD_eq (fun i _ => by simp [hx i]), BitVec.eq_of_getLsbD_eq (fun i _ => by simp [hx i])⟩
  · rintro ⟨rfl, rfl⟩; simp

theorem xor_eq_zero_iff {w : Nat} (x y : BitVec w) : x ^^^ y = 0 ↔ x = y := by
  constructor
  · intro h
    apply BitVec.eq_of_getLsbD_eq
    intro i _
    have := congrArg (fun z => z.getLsbD i) h
    simpa using this
  · rintro rfl; simp

end Cex

namespace Cex.IntTools

theorem compare_loop {w : Nat} (a b : List (BitVec w)) (ao bo len : Nat) (ha : ao + len ≤ a.length)
    (hb : bo + len ≤ b.length) :
    ∃ d, loopN len 0 (deltaBody a ao b bo) 0 = .ok d ∧
      (d = 0 ↔ (a.drop ao).take len = (b.drop bo).take len) := by
  have := loopN_inv (f := deltaBody a ao b bo)
    (fun i d => d = 0 ↔ (a.drop ao).take i = (b.drop bo).take i) len 0 0
    (by
      intro j d _ hj hp
      refine ⟨_, by simp only [deltaBody, rd_ok (show ao + j < a.length by omega),
        rd_ok (show bo + j < b.length by omega), ok_bind, pure_eq_ok]; rfl, ?_⟩
      rw [or_eq_zero_iff, xor_eq_zero_iff, take_drop_succ_eq_iff (by omega) (by omega), hp])
    (by simp)
  simpa using this

theorem verify_loop (a b : List Byte) (ao bo len : Nat) (ha : ao + len ≤ a.length)
    (hb : bo + len ≤ b.length) :
    ∃ d, loopN len 0 (verifyBody a ao b bo) 0 = .ok d ∧
      (d = 0 ↔ (a.drop ao).take len = (b.drop bo).take len) := by
  have := loopN_inv (f := verifyBody a ao b bo)
    (fun i d => d = 0 ↔ (a.drop ao).take i = (b.drop bo).take i) len 0 0
    (by
      intro j d _ hj hp
      refine ⟨_, by simp only [verifyBody, rd_ok (show ao + j < a.length by omega),
        rd_ok (show bo + j < b.length by omega), ok_bind, pure_eq_ok]; rfl, ?_⟩
      have hz : ∀ z : Byte, z.setWidth 64 = 0 ↔ z = 0 := by
        intro z
        constructor
        · intro h
          have := congrArg BitVec.toNat h
          rw [setWidth_byte_toNat _ (by decide)] at this
          exact BitVec.eq_of_toNat_eq this
        · rintro rfl; rfl
      rw [or_eq_zero_iff, hz, xor_eq_zero_iff, take_drop_succ_eq_iff (by omega) (by omega), hp])
    (by simp)
  simpa using this

/-- A loop whose body can only succeed or be undefined, and which is undefined at some reached index. -/
theorem loopN_ub {σ : Type} {f : Nat → σ → M σ} (k : Nat) (hk : ∀ s, f k s = .error .ub)
    (hf : ∀ i s e, f i s = .error e → e = .ub) :
    ∀ (n i : Nat) (s : σ), i ≤ k → k < i + n → loopN n i f s = .error .ub := by
  intro n
  induction n with
  | zero => intro i s h1 h2; omega
  | succ n ih =>
    intro i s h1 h2
    simp only [loopN]
    cases h : f i s with
    | error e => rw [hf _ _ _ h]; rfl
    | ok s' =>
      by_cases hik : i = k
      · subst hik; rw [hk] at h; cases h
      · exact ih (i + 1) s' (by omega) (by omega)

end Cex.IntTools
