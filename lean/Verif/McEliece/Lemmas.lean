import Verif.McEliece.Model
import Verif.McEliece.Spec

/-!
# The functions of MPKCUtils.cpp are linear over GF(2) in every argument
-/

namespace Cex.McEliece

open Spec

/-- Additivity over GF(2). -/
def Lin {v w : Nat} (f : BitVec v → BitVec w) : Prop := ∀ x y, f (x ^^^ y) = f x ^^^ f y

theorem Lin.zero {v w : Nat} {f : BitVec v → BitVec w} (h : Lin f) : f 0#v = 0#w := by
  have := h 0#v 0#v
  rw [BitVec.xor_self, BitVec.xor_self] at this
  exact this

theorem Lin.comp {u v w : Nat} {f : BitVec v → BitVec w} {g : BitVec u → BitVec v} (hf : Lin f) (hg : Lin g) :
    Lin (fun x => f (g x)) := fun x y => by
  show f (g (x ^^^ y)) = _
  rw [hg, hf]

theorem mask_bit (v k i : Nat) (hi : i < v) : (BitVec.ofNat v (2 ^ k - 1))[i] = decide (i < k) := by
  rw [← BitVec.getLsbD_eq_getElem, BitVec.getLsbD_ofNat, Nat.testBit_two_pow_sub_one]
  simp [hi]

/-- Two additive functions that agree on the powers of x agree. -/
theorem Lin.ext {v w : Nat} {f g : BitVec v → BitVec w} (hf : Lin f) (hg : Lin g)
    (h : ∀ i, i < v → f (BitVec.twoPow v i) = g (BitVec.twoPow v i)) (x : BitVec v) : f x = g x := by
  have key : ∀ k, k ≤ v → f (x &&& BitVec.ofNat v (2 ^ k - 1)) = g (x &&& BitVec.ofNat v (2 ^ k - 1)) := by
    intro k
    induction k with
    | zero => intro _; simp [hf.zero, hg.zero]
    | succ k ih =>
      intro hk
      have e : x &&& BitVec.ofNat v (2 ^ (k + 1) - 1)
          = (x &&& BitVec.ofNat v (2 ^ k - 1)) ^^^ (if x.getLsbD k then BitVec.twoPow v k else 0#v) := by
        ext i hi
        by_cases hb : x.getLsbD k
        · rw [if_pos hb]
          simp only [BitVec.getElem_and, BitVec.getElem_xor, BitVec.getElem_twoPow, mask_bit]
          by_cases hik : i = k
          · subst hik
            have : x[i] = true := by rw [← BitVec.getLsbD_eq_getElem]; exact hb
            simp [this]
          · have h1 : decide (i < k + 1) = decide (i < k) := by
              apply decide_eq_decide.mpr; omega
            rw [h1]
            have h2 : decide (i = k) = false := by simpa using hik
            simp [h2]
        · rw [if_neg hb]
          simp only [BitVec.getElem_and, BitVec.getElem_xor, BitVec.getElem_zero, mask_bit, Bool.xor_false]
          by_cases hik : i = k
          · subst hik
            have : x[i] = false := by rw [← BitVec.getLsbD_eq_getElem]; simpa using hb
            simp [this]
          · have h1 : decide (i < k + 1) = decide (i < k) := by
              apply decide_eq_decide.mpr; omega
            rw [h1]
      rw [e, hf, hg, ih (by omega)]
      split
      · rw [h k (by omega)]
      · rw [hf.zero, hg.zero]
  have := key v (Nat.le_refl _)
  have e : x &&& BitVec.ofNat v (2 ^ v - 1) = x := by
    ext i hi
    simp [mask_bit, hi]
  rwa [e] at this

theorem and_xor_r {w : Nat} (x y m : BitVec w) : (x ^^^ y) &&& m = (x &&& m) ^^^ (y &&& m) := by
  ext i hi
  simp only [BitVec.getElem_and, BitVec.getElem_xor]
  cases x[i] <;> cases y[i] <;> cases m[i] <;> rfl

theorem fold_lin (m : BitVec 64) : Lin (fold m) := fun x y => by
  simp only [fold, and_xor_r, BitVec.ushiftRight_xor_distrib]
  ac_rfl

theorem mask13_lin : Lin mask13 := fun x y => by
  simp only [mask13, and_xor_r, BitVec.setWidth_xor]

/-- `t·x^i` when bit `i` of `b` is set. -/
def sel (b : BitVec 64) (i : Nat) (t : BitVec 64) : BitVec 64 := if b.getLsbD i then t <<< i else 0#64

theorem sel_xor_right (b : BitVec 64) (i : Nat) (s t : BitVec 64) : sel b i (s ^^^ t) = sel b i s ^^^ sel b i t := by
  unfold sel
  split
  · exact BitVec.shiftLeft_xor_distrib _ _ _
  · simp

theorem sel_xor_left (b c : BitVec 64) (i : Nat) (t : BitVec 64) : sel (b ^^^ c) i t = sel b i t ^^^ sel c i t := by
  unfold sel
  rw [BitVec.getLsbD_xor]
  cases b.getLsbD i <;> cases c.getLsbD i <;> simp

theorem mul_bit (t b : BitVec 64) (i : Nat) : t * (b &&& BitVec.twoPow 64 i) = sel b i t := by
  unfold sel
  rw [BitVec.and_twoPow]
  split
  · exact BitVec.mul_twoPow_eq_shiftLeft _ _
  · simp

theorem mul_bits (t b : BitVec 64) (i j : Nat) (ht : t &&& 0x1FFF#64 = t)
    (hb : BitVec.twoPow 64 i &&& BitVec.twoPow 64 j = 0#64)
    (hd : (0x1FFF#64 <<< i) &&& (0x1FFF#64 <<< j) = 0#64) :
    t * (b &&& (BitVec.twoPow 64 i ||| BitVec.twoPow 64 j)) = sel b i t ^^^ sel b j t := by
  have e : b &&& (BitVec.twoPow 64 i ||| BitVec.twoPow 64 j)
      = (b &&& BitVec.twoPow 64 i) + (b &&& BitVec.twoPow 64 j) := by
    rw [BitVec.add_eq_or_of_and_eq_zero]
    · ext k hk
      simp only [BitVec.getElem_and, BitVec.getElem_or]
      cases b[k] <;> simp
    · ext k hk
      have := congrArg (fun z : BitVec 64 => z[k]) hb
      simp only [BitVec.getElem_and, BitVec.getElem_zero] at this ⊢
      cases b[k] <;> simp_all
  have z : sel b i t &&& sel b j t = 0#64 := by
    unfold sel
    split
    · split
      · rw [← ht]
        ext k hk
        have := congrArg (fun z : BitVec 64 => z[k]) hd
        rw [BitVec.shiftLeft_and_distrib, BitVec.shiftLeft_and_distrib]
        simp only [BitVec.getElem_and, BitVec.getElem_zero] at this ⊢
        cases (t <<< i)[k] <;> cases (t <<< j)[k] <;> simp_all
      · simp
    · simp
  rw [e, BitVec.mul_add, mul_bit, mul_bit, BitVec.add_eq_or_of_and_eq_zero _ _ z]
  ext k hk
  have := congrArg (fun q : BitVec 64 => q[k]) z
  simp only [BitVec.getElem_and, BitVec.getElem_zero, BitVec.getElem_or, BitVec.getElem_xor] at this ⊢
  revert this
  cases (sel b i t)[k] <;> cases (sel b j t)[k] <;> simp

/-- An element of the field as a `uint64_t`. -/
def up (a : P) : BitVec 64 := (a.setWidth 16).setWidth 64

theorem up_lin : Lin up := fun x y => by simp [up]

theorem up_mask (a : P) : up a &&& 0x1FFF#64 = up a := by
  unfold up
  ext i hi
  simp only [BitVec.getElem_and, BitVec.getElem_setWidth, BitVec.getLsbD_setWidth]
  by_cases h : i < 13
  · have : (0x1FFF#64)[i] = true := by
      have : ∀ i : Fin 13, (0x1FFF#64).getLsbD i = true := by decide
      rw [← BitVec.getLsbD_eq_getElem]
      exact this ⟨i, h⟩
    simp [this]
  · rw [BitVec.getLsbD_of_ge a i (by omega)]; simp

/-- An element of the field as a `uint16_t`. -/
def el (a : P) : BitVec 16 := a.setWidth 16

theorem el_lin : Lin el := fun x y => by simp [el]

theorem el_inj {a b : P} (h : el a = el b) : a = b := by
  have := congrArg (fun z : BitVec 16 => z.setWidth 13) h
  simpa [el] using this

/-! ## GfMultiply -/

theorem clmul_eq (t0 t1 : BitVec 64) :
    clmul t0 t1 = (List.range 12).foldl (fun tmp i => tmp ^^^ sel t1 (i + 1) t0) (sel t1 0 t0) := by
  unfold clmul
  have h0 : t0 * (t1 &&& 1#64) = sel t1 0 t0 := mul_bit t0 t1 0
  have h : (fun (tmp : BitVec 64) i => tmp ^^^ t0 * (t1 &&& (1#64 <<< (i + 1)))) = fun tmp i => tmp ^^^ sel t1 (i + 1) t0 := by
    funext tmp i
    rw [← mul_bit, BitVec.twoPow_eq]
  rw [h0, h]

theorem clmul_left (b : BitVec 64) : Lin (fun a => clmul a b) := fun x y => by
  simp only [clmul_eq, List.range, List.range.loop, List.foldl, sel_xor_right]
  ac_rfl

theorem clmul_right (a : BitVec 64) : Lin (fun b => clmul a b) := fun x y => by
  simp only [clmul_eq, List.range, List.range.loop, List.foldl, sel_xor_left]
  ac_rfl

theorem mult_left (b : P) : Lin (fun a => gfMultiply (el a) (el b)) := fun x y => by
  have h : up (x ^^^ y) = up x ^^^ up y := up_lin x y
  have := clmul_left (up b) (up x) (up y)
  simp only [gfMultiply]
  show mask13 (fold _ (fold _ (clmul (up (x ^^^ y)) (up b)))) = _
  rw [h, show clmul (up x ^^^ up y) (up b) = _ from this, fold_lin, fold_lin, mask13_lin]
  rfl

theorem mult_right (a : P) : Lin (fun b => gfMultiply (el a) (el b)) := fun x y => by
  have h : up (x ^^^ y) = up x ^^^ up y := up_lin x y
  have := clmul_right (up a) (up x) (up y)
  simp only [gfMultiply]
  show mask13 (fold _ (fold _ (clmul (up a) (up (x ^^^ y))))) = _
  rw [h, show clmul (up a) (up x ^^^ up y) = _ from this, fold_lin, fold_lin, mask13_lin]
  rfl

/-! ## The specification -/

theorem xt_lin : Lin xt := fun x y => by
  unfold xt
  rw [BitVec.getLsbD_xor, BitVec.shiftLeft_xor_distrib]
  cases x.getLsbD 12 <;> cases y.getLsbD 12 <;> simp
  · ac_rfl
  · ac_rfl
  · have : x <<< 1 ^^^ 27#13 ^^^ (y <<< 1 ^^^ 27#13) = x <<< 1 ^^^ y <<< 1 ^^^ (27#13 ^^^ 27#13) := by ac_rfl
    rw [this, BitVec.xor_self, BitVec.xor_zero]

theorem mulN_left (b : P) : ∀ n, Lin (fun a => mulN a b n)
  | 0 => fun _ _ => by simp [mulN]
  | n + 1 => fun x y => by
    have := mulN_left b n x y
    simp only [mulN] at this ⊢
    rw [this, xt_lin]
    split
    · ac_rfl
    · simp

theorem mulN_right (a : P) : ∀ n, Lin (fun b => mulN a b n)
  | 0 => fun _ _ => by simp [mulN]
  | n + 1 => fun x y => by
    have := mulN_right a n x y
    simp only [mulN] at this ⊢
    rw [this, xt_lin, BitVec.getLsbD_xor]
    cases x.getLsbD (12 - n) <;> cases y.getLsbD (12 - n) <;> simp
    · ac_rfl
    · ac_rfl
    · have : a ^^^ xt (mulN a x n) ^^^ (a ^^^ xt (mulN a y n)) = (a ^^^ a) ^^^ (xt (mulN a x n) ^^^ xt (mulN a y n)) := by ac_rfl
      rw [this, BitVec.xor_self, BitVec.zero_xor]

theorem mul_left (b : P) : Lin (fun a => mul a b) := mulN_left b 13

theorem mul_right (a : P) : Lin (fun b => mul a b) := mulN_right a 13

theorem mul_comm (a b : P) : mul a b = mul b a := by
  refine Lin.ext (f := fun a => mul a b) (g := fun a => mul b a) (mul_left b) (mul_right b) (fun i hi => ?_) a
  refine Lin.ext (f := fun b => mul (BitVec.twoPow 13 i) b) (g := fun b => mul b (BitVec.twoPow 13 i)) (mul_right _) (mul_left _) (fun j hj => ?_) b
  have : ∀ i : Fin 13, ∀ j : Fin 13, mul (BitVec.twoPow 13 i) (BitVec.twoPow 13 j) = mul (BitVec.twoPow 13 j) (BitVec.twoPow 13 i) := by
    decide +kernel
  exact this ⟨i, hi⟩ ⟨j, hj⟩

theorem mul_assoc (a b c : P) : mul (mul a b) c = mul a (mul b c) := by
  refine Lin.ext (f := fun a => mul (mul a b) c) (g := fun a => mul a (mul b c)) ((mul_left c).comp (mul_left b)) (mul_left _) (fun i hi => ?_) a
  refine Lin.ext (f := fun b => mul (mul (BitVec.twoPow 13 i) b) c) (g := fun b => mul (BitVec.twoPow 13 i) (mul b c))
    ((mul_left c).comp (mul_right _)) ((mul_right _).comp (mul_left c)) (fun j hj => ?_) b
  refine Lin.ext (f := fun c => mul (mul (BitVec.twoPow 13 i) (BitVec.twoPow 13 j)) c) (g := fun c => mul (BitVec.twoPow 13 i) (mul (BitVec.twoPow 13 j) c))
    (mul_right _) ((mul_right _).comp (mul_right _)) (fun k hk => ?_) c
  have : ∀ i : Fin 13, ∀ j : Fin 13, ∀ k : Fin 13, mul (mul (BitVec.twoPow 13 i) (BitVec.twoPow 13 j)) (BitVec.twoPow 13 k)
      = mul (BitVec.twoPow 13 i) (mul (BitVec.twoPow 13 j) (BitVec.twoPow 13 k)) := by
    decide +kernel
  exact this ⟨i, hi⟩ ⟨j, hj⟩ ⟨k, hk⟩

theorem one_mul (a : P) : mul 1#13 a = a := by
  refine Lin.ext (f := fun a => mul 1#13 a) (g := fun a => a) (mul_right _) (fun _ _ => rfl) (fun i hi => ?_) a
  have : ∀ i : Fin 13, mul 1#13 (BitVec.twoPow 13 i) = BitVec.twoPow 13 i := by decide +kernel
  exact this ⟨i, hi⟩

theorem mult_eq (a b : P) : gfMultiply (el a) (el b) = el (mul a b) := by
  refine Lin.ext (f := fun a => gfMultiply (el a) (el b)) (g := fun a => el (mul a b)) (mult_left b) (el_lin.comp (mul_left b)) (fun i hi => ?_) a
  refine Lin.ext (f := fun b => gfMultiply (el (BitVec.twoPow 13 i)) (el b)) (g := fun b => el (mul (BitVec.twoPow 13 i) b))
    (mult_right _) (el_lin.comp (mul_right _)) (fun j hj => ?_) b
  have : ∀ i : Fin 13, ∀ j : Fin 13, gfMultiply (el (BitVec.twoPow 13 i)) (el (BitVec.twoPow 13 j)) = el (mul (BitVec.twoPow 13 i) (BitVec.twoPow 13 j)) := by
    decide +kernel
  exact this ⟨i, hi⟩ ⟨j, hj⟩

end Cex.McEliece
