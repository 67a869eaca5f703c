import Verif.McEliece.Lemmas
import Mathlib.GroupTheory.OrderOfElement
import Mathlib.Data.Nat.Prime.Basic
import Mathlib.Tactic.NormNum.Prime
import Mathlib.Data.Fintype.Card
import Mathlib.Data.Fintype.EquivFin

/-!
# The squarings of MPKCUtils.cpp and the inverses of the field
-/

namespace Cex.McEliece

open Spec

/-! ## The spread of GfSq2 -/

theorem or_eq_xor (x m : BitVec 64) (k : Nat) (hx : x &&& m = x) (hd : m &&& m <<< k = 0#64) : x ||| x <<< k = x ^^^ x <<< k := by
  rw [← hx, BitVec.shiftLeft_and_distrib]
  ext i hi
  have := congrArg (fun q : BitVec 64 => q[i]) hd
  simp only [BitVec.getElem_and, BitVec.getElem_zero, BitVec.getElem_or, BitVec.getElem_xor] at this ⊢
  revert this
  cases x[i] <;> cases (x <<< k)[i] <;> cases m[i] <;> cases (m <<< k)[i] <;> simp

theorem and_idem (x m : BitVec 64) : x &&& m &&& m = x &&& m := by
  rw [BitVec.and_assoc, BitVec.and_self]

/-- `(x | (x << k)) & m` without the `|`. -/
def spr (k : Nat) (m x : BitVec 64) : BitVec 64 := (x ^^^ x <<< k) &&& m

theorem spr_lin (k : Nat) (m : BitVec 64) : Lin (spr k m) := fun x y => by
  simp only [spr, BitVec.shiftLeft_xor_distrib, and_xor_r]
  ac_rfl

theorem sq2_form (a : P) : gfSq2 (el a) =
    mask13 (fold 0x3FE000#64 (fold 0x7FC00000#64 (fold 0xFF80000000#64 (fold 0x1FF0000000000#64
      (spr 3 0x1111111111111111#64 (spr 6 0x0303030303030303#64 (spr 12 0x000F000F000F000F#64 (spr 24 0x000000FF000000FF#64 (up a)))))))))  := by
  unfold gfSq2
  show mask13 (fold _ (fold _ (fold _ (fold _ ((_ ||| _ <<< 3) &&& _))))) = _
  have h1 : (up a ||| up a <<< 24) &&& 0x000000FF000000FF#64 = spr 24 0x000000FF000000FF#64 (up a) := by
    rw [or_eq_xor (up a) 0x1FFF#64 24 (up_mask a) (by decide)]; rfl
  have h2 : ∀ x, (spr 24 0x000000FF000000FF#64 x ||| spr 24 0x000000FF000000FF#64 x <<< 12) &&& 0x000F000F000F000F#64
      = spr 12 0x000F000F000F000F#64 (spr 24 0x000000FF000000FF#64 x) := by
    intro x
    rw [or_eq_xor (spr 24 0x000000FF000000FF#64 x) 0x000000FF000000FF#64 12 (and_idem _ _) (by decide)]; rfl
  have h3 : ∀ x, (spr 12 0x000F000F000F000F#64 x ||| spr 12 0x000F000F000F000F#64 x <<< 6) &&& 0x0303030303030303#64
      = spr 6 0x0303030303030303#64 (spr 12 0x000F000F000F000F#64 x) := by
    intro x
    rw [or_eq_xor (spr 12 0x000F000F000F000F#64 x) 0x000F000F000F000F#64 6 (and_idem _ _) (by decide)]; rfl
  have h4 : ∀ x, (spr 6 0x0303030303030303#64 x ||| spr 6 0x0303030303030303#64 x <<< 3) &&& 0x1111111111111111#64
      = spr 3 0x1111111111111111#64 (spr 6 0x0303030303030303#64 x) := by
    intro x
    rw [or_eq_xor (spr 6 0x0303030303030303#64 x) 0x0303030303030303#64 3 (and_idem _ _) (by decide)]; rfl
  rw [← h4, ← h3, ← h2, ← h1]
  rfl

theorem sq2_lin : Lin (fun a => gfSq2 (el a)) := fun x y => by
  show gfSq2 (el (x ^^^ y)) = gfSq2 (el x) ^^^ gfSq2 (el y)
  rw [sq2_form, sq2_form, sq2_form, up_lin, spr_lin, spr_lin, spr_lin, spr_lin, fold_lin, fold_lin, fold_lin, fold_lin, mask13_lin]

theorem xor_cancel (p q r s : P) (h : q = r) : p ^^^ q ^^^ (r ^^^ s) = p ^^^ s := by
  subst h
  have : p ^^^ q ^^^ (q ^^^ s) = p ^^^ s ^^^ (q ^^^ q) := by ac_rfl
  rw [this, BitVec.xor_self, BitVec.xor_zero]

theorem sq_lin : Lin (fun a => mul a a) := fun x y => by
  show mul (x ^^^ y) (x ^^^ y) = mul x x ^^^ mul y y
  have h1 : mul (x ^^^ y) (x ^^^ y) = mul x (x ^^^ y) ^^^ mul y (x ^^^ y) := mul_left _ x y
  have h2 : mul x (x ^^^ y) = mul x x ^^^ mul x y := mul_right x x y
  have h3 : mul y (x ^^^ y) = mul y x ^^^ mul y y := mul_right y x y
  rw [h1, h2, h3]
  exact xor_cancel _ _ _ _ (mul_comm x y)

theorem sq2_eq (a : P) : gfSq2 (el a) = el (mul (mul a a) (mul a a)) := by
  refine Lin.ext (f := fun a => gfSq2 (el a)) (g := fun a => el (mul (mul a a) (mul a a))) sq2_lin
    (el_lin.comp (sq_lin.comp sq_lin)) (fun i hi => ?_) a
  have : ∀ i : Fin 13, gfSq2 (el (BitVec.twoPow 13 i)) = el (mul (mul (BitVec.twoPow 13 i) (BitVec.twoPow 13 i)) (mul (BitVec.twoPow 13 i) (BitVec.twoPow 13 i))) := by
    decide +kernel
  exact this ⟨i, hi⟩

/-! ## GfSqMul and GfSq2Mul -/

theorem Lin.id : Lin (fun x : BitVec 64 => x) := fun _ _ => rfl

theorem Lin.xor {f g : BitVec 64 → BitVec 64} (hf : Lin f) (hg : Lin g) : Lin (fun x => f x ^^^ g x) := fun x y => by
  show f (x ^^^ y) ^^^ g (x ^^^ y) = f x ^^^ g x ^^^ (f y ^^^ g y)
  rw [hf, hg]; ac_rfl

theorem Lin.shl {f : BitVec 64 → BitVec 64} (hf : Lin f) (k : Nat) : Lin (fun x => f x <<< k) := fun x y => by
  show f (x ^^^ y) <<< k = _
  rw [hf, BitVec.shiftLeft_xor_distrib]

theorem Lin.selL {f : BitVec 64 → BitVec 64} (hf : Lin f) (i : Nat) (t : BitVec 64) : Lin (fun x => sel (f x) i t) := fun x y => by
  show sel (f (x ^^^ y)) i t = _
  rw [hf, sel_xor_left]

theorem Lin.selR {f : BitVec 64 → BitVec 64} (hf : Lin f) (i : Nat) (b : BitVec 64) : Lin (fun x => sel b i (f x)) := fun x y => by
  show sel b i (f (x ^^^ y)) = _
  rw [hf, sel_xor_right]

/-- The product of `GfSqMul` before the reduction. -/
def sqPre (t0 t1 : BitVec 64) : BitVec 64 :=
  let u := t0 ^^^ t0 <<< 7
  sel t0 6 (t1 <<< 6) ^^^ (sel u 0 t1 ^^^ sel u 14 t1) ^^^ (sel u 1 t1 ^^^ sel u 15 t1) <<< 1 ^^^ (sel u 2 t1 ^^^ sel u 16 t1) <<< 2
    ^^^ (sel u 3 t1 ^^^ sel u 17 t1) <<< 3 ^^^ (sel u 4 t1 ^^^ sel u 18 t1) <<< 4 ^^^ (sel u 5 t1 ^^^ sel u 19 t1) <<< 5

theorem sqPre_left (t1 : BitVec 64) : Lin (fun t0 => sqPre t0 t1) := by
  have hu : Lin (fun x : BitVec 64 => x ^^^ x <<< 7) := Lin.id.xor (Lin.id.shl 7)
  exact (((((((Lin.id.selL 6 (t1 <<< 6)).xor ((hu.selL 0 t1).xor (hu.selL 14 t1))).xor (((hu.selL 1 t1).xor (hu.selL 15 t1)).shl 1)).xor (((hu.selL 2 t1).xor (hu.selL 16 t1)).shl 2)).xor (((hu.selL 3 t1).xor (hu.selL 17 t1)).shl 3)).xor (((hu.selL 4 t1).xor (hu.selL 18 t1)).shl 4)).xor (((hu.selL 5 t1).xor (hu.selL 19 t1)).shl 5))

theorem sqPre_right (t0 : BitVec 64) : Lin (fun t1 => sqPre t0 t1) := by
  exact ((((((((Lin.id.shl 6).selR 6 t0).xor ((Lin.id.selR 0 (t0 ^^^ t0 <<< 7)).xor (Lin.id.selR 14 (t0 ^^^ t0 <<< 7)))).xor (((Lin.id.selR 1 (t0 ^^^ t0 <<< 7)).xor (Lin.id.selR 15 (t0 ^^^ t0 <<< 7))).shl 1)).xor (((Lin.id.selR 2 (t0 ^^^ t0 <<< 7)).xor (Lin.id.selR 16 (t0 ^^^ t0 <<< 7))).shl 2)).xor (((Lin.id.selR 3 (t0 ^^^ t0 <<< 7)).xor (Lin.id.selR 17 (t0 ^^^ t0 <<< 7))).shl 3)).xor (((Lin.id.selR 4 (t0 ^^^ t0 <<< 7)).xor (Lin.id.selR 18 (t0 ^^^ t0 <<< 7))).shl 4)).xor (((Lin.id.selR 5 (t0 ^^^ t0 <<< 7)).xor (Lin.id.selR 19 (t0 ^^^ t0 <<< 7))).shl 5))

theorem sqMul_form (a m : P) : gfSqMul (el a) (el m) =
    mask13 (fold 0x7E000#64 (fold 0xFF80000#64 (fold 0x1FF0000000#64 (sqPre (up a) (up m))))) := by
  have h6 : up m <<< 6 * (up a &&& 0x40#64) = sel (up a) 6 (up m <<< 6) := mul_bit _ _ 6
  have h := fun b i j hb hd => mul_bits (up m) b i j (up_mask m) hb hd
  have h0 : ∀ b, up m * (b &&& 0x4001#64) = sel b 0 (up m) ^^^ sel b 14 (up m) := fun b => h b 0 14 (by decide) (by decide)
  have h1 : ∀ b, up m * (b &&& 0x8002#64) = sel b 1 (up m) ^^^ sel b 15 (up m) := fun b => h b 1 15 (by decide) (by decide)
  have h2 : ∀ b, up m * (b &&& 0x10004#64) = sel b 2 (up m) ^^^ sel b 16 (up m) := fun b => h b 2 16 (by decide) (by decide)
  have h3 : ∀ b, up m * (b &&& 0x20008#64) = sel b 3 (up m) ^^^ sel b 17 (up m) := fun b => h b 3 17 (by decide) (by decide)
  have h4 : ∀ b, up m * (b &&& 0x40010#64) = sel b 4 (up m) ^^^ sel b 18 (up m) := fun b => h b 4 18 (by decide) (by decide)
  have h5 : ∀ b, up m * (b &&& 0x80020#64) = sel b 5 (up m) ^^^ sel b 19 (up m) := fun b => h b 5 19 (by decide) (by decide)
  unfold sqPre
  simp only []
  rw [← h0, ← h1, ← h2, ← h3, ← h4, ← h5, ← h6]
  rfl

theorem sqMul_left (m : P) : Lin (fun a => gfSqMul (el a) (el m)) := fun x y => by
  show gfSqMul (el (x ^^^ y)) (el m) = gfSqMul (el x) (el m) ^^^ gfSqMul (el y) (el m)
  rw [sqMul_form, sqMul_form, sqMul_form, up_lin, show sqPre (up x ^^^ up y) (up m) = _ from sqPre_left (up m) (up x) (up y),
    fold_lin, fold_lin, fold_lin, mask13_lin]

theorem sqMul_right (a : P) : Lin (fun m => gfSqMul (el a) (el m)) := fun x y => by
  show gfSqMul (el a) (el (x ^^^ y)) = gfSqMul (el a) (el x) ^^^ gfSqMul (el a) (el y)
  rw [sqMul_form, sqMul_form, sqMul_form, up_lin, show sqPre (up a) (up x ^^^ up y) = _ from sqPre_right (up a) (up x) (up y),
    fold_lin, fold_lin, fold_lin, mask13_lin]

theorem sqMul_eq (a m : P) : gfSqMul (el a) (el m) = el (mul (mul a a) m) := by
  refine Lin.ext (f := fun a => gfSqMul (el a) (el m)) (g := fun a => el (mul (mul a a) m)) (sqMul_left m)
    (el_lin.comp ((mul_left m).comp sq_lin)) (fun i hi => ?_) a
  refine Lin.ext (f := fun m => gfSqMul (el (BitVec.twoPow 13 i)) (el m)) (g := fun m => el (mul (mul (BitVec.twoPow 13 i) (BitVec.twoPow 13 i)) m))
    (sqMul_right _) (el_lin.comp (mul_right _)) (fun j hj => ?_) m
  have : ∀ i : Fin 13, ∀ j : Fin 13, gfSqMul (el (BitVec.twoPow 13 i)) (el (BitVec.twoPow 13 j))
      = el (mul (mul (BitVec.twoPow 13 i) (BitVec.twoPow 13 i)) (BitVec.twoPow 13 j)) := by
    decide +kernel
  exact this ⟨i, hi⟩ ⟨j, hj⟩

/-- The product of `GfSq2Mul` before the reduction. -/
def sq2Pre (t0 t1 : BitVec 64) : BitVec 64 :=
  let u := t0 ^^^ t0 <<< 21
  sel t0 6 (t1 <<< 18) ^^^ (sel u 0 t1 ^^^ sel u 28 t1) ^^^ (sel u 1 t1 ^^^ sel u 29 t1) <<< 3 ^^^ (sel u 2 t1 ^^^ sel u 30 t1) <<< 6
    ^^^ (sel u 3 t1 ^^^ sel u 31 t1) <<< 9 ^^^ (sel u 4 t1 ^^^ sel u 32 t1) <<< 12 ^^^ (sel u 5 t1 ^^^ sel u 33 t1) <<< 15

theorem sq2Pre_left (t1 : BitVec 64) : Lin (fun t0 => sq2Pre t0 t1) := by
  have hu : Lin (fun x : BitVec 64 => x ^^^ x <<< 21) := Lin.id.xor (Lin.id.shl 21)
  exact (((((((Lin.id.selL 6 (t1 <<< 18)).xor ((hu.selL 0 t1).xor (hu.selL 28 t1))).xor (((hu.selL 1 t1).xor (hu.selL 29 t1)).shl 3)).xor (((hu.selL 2 t1).xor (hu.selL 30 t1)).shl 6)).xor (((hu.selL 3 t1).xor (hu.selL 31 t1)).shl 9)).xor (((hu.selL 4 t1).xor (hu.selL 32 t1)).shl 12)).xor (((hu.selL 5 t1).xor (hu.selL 33 t1)).shl 15))

theorem sq2Pre_right (t0 : BitVec 64) : Lin (fun t1 => sq2Pre t0 t1) := by
  exact ((((((((Lin.id.shl 18).selR 6 t0).xor ((Lin.id.selR 0 (t0 ^^^ t0 <<< 21)).xor (Lin.id.selR 28 (t0 ^^^ t0 <<< 21)))).xor (((Lin.id.selR 1 (t0 ^^^ t0 <<< 21)).xor (Lin.id.selR 29 (t0 ^^^ t0 <<< 21))).shl 3)).xor (((Lin.id.selR 2 (t0 ^^^ t0 <<< 21)).xor (Lin.id.selR 30 (t0 ^^^ t0 <<< 21))).shl 6)).xor (((Lin.id.selR 3 (t0 ^^^ t0 <<< 21)).xor (Lin.id.selR 31 (t0 ^^^ t0 <<< 21))).shl 9)).xor (((Lin.id.selR 4 (t0 ^^^ t0 <<< 21)).xor (Lin.id.selR 32 (t0 ^^^ t0 <<< 21))).shl 12)).xor (((Lin.id.selR 5 (t0 ^^^ t0 <<< 21)).xor (Lin.id.selR 33 (t0 ^^^ t0 <<< 21))).shl 15))

theorem sq2Mul_form (a m : P) : gfSq2Mul (el a) (el m) =
    mask13 (fold 0x1E000#64 (fold 0x1FE0000#64 (fold 0x3FE000000#64 (fold 0x7FC00000000#64 (fold 0xFF80000000000#64 (fold 0x1FF0000000000000#64
      (sq2Pre (up a) (up m)))))))) := by
  have h6 : up m <<< 18 * (up a &&& 0x40#64) = sel (up a) 6 (up m <<< 18) := mul_bit _ _ 6
  have h := fun b i j hb hd => mul_bits (up m) b i j (up_mask m) hb hd
  have h0 : ∀ b, up m * (b &&& 0x10000001#64) = sel b 0 (up m) ^^^ sel b 28 (up m) := fun b => h b 0 28 (by decide) (by decide)
  have h1 : ∀ b, up m * (b &&& 0x20000002#64) = sel b 1 (up m) ^^^ sel b 29 (up m) := fun b => h b 1 29 (by decide) (by decide)
  have h2 : ∀ b, up m * (b &&& 0x40000004#64) = sel b 2 (up m) ^^^ sel b 30 (up m) := fun b => h b 2 30 (by decide) (by decide)
  have h3 : ∀ b, up m * (b &&& 0x80000008#64) = sel b 3 (up m) ^^^ sel b 31 (up m) := fun b => h b 3 31 (by decide) (by decide)
  have h4 : ∀ b, up m * (b &&& 0x100000010#64) = sel b 4 (up m) ^^^ sel b 32 (up m) := fun b => h b 4 32 (by decide) (by decide)
  have h5 : ∀ b, up m * (b &&& 0x200000020#64) = sel b 5 (up m) ^^^ sel b 33 (up m) := fun b => h b 5 33 (by decide) (by decide)
  unfold sq2Pre
  simp only []
  rw [← h0, ← h1, ← h2, ← h3, ← h4, ← h5, ← h6]
  rfl

theorem sq2Mul_left (m : P) : Lin (fun a => gfSq2Mul (el a) (el m)) := fun x y => by
  show gfSq2Mul (el (x ^^^ y)) (el m) = gfSq2Mul (el x) (el m) ^^^ gfSq2Mul (el y) (el m)
  rw [sq2Mul_form, sq2Mul_form, sq2Mul_form, up_lin, show sq2Pre (up x ^^^ up y) (up m) = _ from sq2Pre_left (up m) (up x) (up y),
    fold_lin, fold_lin, fold_lin, fold_lin, fold_lin, fold_lin, mask13_lin]

theorem sq2Mul_right (a : P) : Lin (fun m => gfSq2Mul (el a) (el m)) := fun x y => by
  show gfSq2Mul (el a) (el (x ^^^ y)) = gfSq2Mul (el a) (el x) ^^^ gfSq2Mul (el a) (el y)
  rw [sq2Mul_form, sq2Mul_form, sq2Mul_form, up_lin, show sq2Pre (up a) (up x ^^^ up y) = _ from sq2Pre_right (up a) (up x) (up y),
    fold_lin, fold_lin, fold_lin, fold_lin, fold_lin, fold_lin, mask13_lin]

theorem sq2Mul_eq (a m : P) : gfSq2Mul (el a) (el m) = el (mul (mul (mul a a) (mul a a)) m) := by
  refine Lin.ext (f := fun a => gfSq2Mul (el a) (el m)) (g := fun a => el (mul (mul (mul a a) (mul a a)) m)) (sq2Mul_left m)
    (el_lin.comp ((mul_left m).comp (sq_lin.comp sq_lin))) (fun i hi => ?_) a
  refine Lin.ext (f := fun m => gfSq2Mul (el (BitVec.twoPow 13 i)) (el m))
    (g := fun m => el (mul (mul (mul (BitVec.twoPow 13 i) (BitVec.twoPow 13 i)) (mul (BitVec.twoPow 13 i) (BitVec.twoPow 13 i))) m))
    (sq2Mul_right _) (el_lin.comp (mul_right _)) (fun j hj => ?_) m
  have : ∀ i : Fin 13, ∀ j : Fin 13, gfSq2Mul (el (BitVec.twoPow 13 i)) (el (BitVec.twoPow 13 j))
      = el (mul (mul (mul (BitVec.twoPow 13 i) (BitVec.twoPow 13 i)) (mul (BitVec.twoPow 13 i) (BitVec.twoPow 13 i))) (BitVec.twoPow 13 j)) := by
    decide +kernel
  exact this ⟨i, hi⟩ ⟨j, hj⟩

/-! ## Every element but 0 is a power of x -/

/-- The field as a monoid under `mul`. -/
structure F where
  v : P

instance : CommMonoid F where
  mul a b := ⟨mul a.v b.v⟩
  one := ⟨1#13⟩
  mul_assoc a b c := congrArg F.mk (mul_assoc a.v b.v c.v)
  one_mul a := congrArg F.mk (one_mul a.v)
  mul_one a := congrArg F.mk ((mul_comm a.v 1#13).trans (one_mul a.v))
  mul_comm a b := congrArg F.mk (mul_comm a.v b.v)

theorem F.mul_v (a b : F) : (a * b).v = mul a.v b.v := rfl

/-- x. -/
def X : F := ⟨2#13⟩

/-- `a` squared `n` times. -/
def sqN (a : P) : Nat → P
  | 0 => a
  | n + 1 => mul (sqN a n) (sqN a n)

theorem sqN_eq (a : F) : ∀ n, a ^ (2 ^ n) = ⟨sqN a.v n⟩
  | 0 => by rw [pow_zero, pow_one]; rfl
  | n + 1 => by
    rw [pow_succ, pow_mul, pow_two, sqN_eq a n]; rfl

theorem X_inv : X * ⟨0x100D#13⟩ = 1 := by
  have : mul 2#13 0x100D#13 = 1#13 := by decide +kernel
  exact congrArg F.mk this

theorem X_pow : X ^ 8191 = 1 := by
  have h : X ^ (2 ^ 13) = X := by
    rw [sqN_eq]
    have : sqN 2#13 13 = 2#13 := by decide +kernel
    exact congrArg F.mk this
  have e : X ^ (2 ^ 13) = X ^ 8191 * X := by rw [← pow_succ, show (2 : ℕ) ^ 13 = 8191 + 1 from rfl]
  rw [e] at h
  calc X ^ 8191 = X ^ 8191 * (X * ⟨0x100D#13⟩) := by rw [X_inv, mul_one]
    _ = X ^ 8191 * X * ⟨0x100D#13⟩ := (_root_.mul_assoc _ _ _).symm
    _ = 1 := by rw [h, X_inv]

theorem prime8191 : Nat.Prime 8191 := by norm_num

theorem X_order : orderOf X = 8191 := by
  have : Fact (Nat.Prime 8191) := ⟨prime8191⟩
  refine orderOf_eq_prime X_pow (fun h => ?_)
  have : (2#13 : P) = 1#13 := congrArg F.v h
  exact absurd this (by decide)

theorem zero_mul (a : P) : mul 0#13 a = 0#13 := (mul_left a).zero

theorem X_ne (n : Nat) : (X ^ n).v ≠ 0#13 := by
  intro h
  have e : X ^ n * X ^ (8191 * n - n) = 1 := by
    rw [← pow_add, show n + (8191 * n - n) = 8191 * n by omega, pow_mul, X_pow, one_pow]
  have := congrArg F.v e
  rw [F.mul_v, h, zero_mul] at this
  exact absurd this (by decide)

/-- Every element but 0 is a power of x. -/
theorem is_pow (a : P) (ha : a ≠ 0#13) : ∃ n, X ^ n = ⟨a⟩ := by
  let f : Fin 8191 → Fin 8191 := fun n => ⟨(X ^ n.val).v.toNat - 1, by have := (X ^ n.val).v.isLt; omega⟩
  have hf : Function.Injective f := by
    intro m n h
    have h1 : (X ^ m.val).v.toNat - 1 = (X ^ n.val).v.toNat - 1 := congrArg Fin.val h
    have p1 : (X ^ m.val).v.toNat ≠ 0 := fun e => X_ne m.val (BitVec.eq_of_toNat_eq e)
    have p2 : (X ^ n.val).v.toNat ≠ 0 := fun e => X_ne n.val (BitVec.eq_of_toNat_eq e)
    have e : (X ^ m.val).v = (X ^ n.val).v := BitVec.eq_of_toNat_eq (by omega)
    have e' : X ^ m.val = X ^ n.val := congrArg F.mk e
    apply Fin.ext
    exact pow_injOn_Iio_orderOf (by rw [X_order]; exact m.isLt) (by rw [X_order]; exact n.isLt) e'
  have hs := Finite.surjective_of_injective hf
  have h0 : a.toNat ≠ 0 := fun e => ha (BitVec.eq_of_toNat_eq e)
  have hl := a.isLt
  obtain ⟨n, hn⟩ := hs ⟨a.toNat - 1, by omega⟩
  refine ⟨n.val, ?_⟩
  have h1 : (X ^ n.val).v.toNat - 1 = a.toNat - 1 := congrArg Fin.val hn
  have p1 : (X ^ n.val).v.toNat ≠ 0 := fun e => X_ne n.val (BitVec.eq_of_toNat_eq e)
  have : (X ^ n.val).v = a := BitVec.eq_of_toNat_eq (by omega)
  exact congrArg F.mk this

theorem pow_one' (a : P) (ha : a ≠ 0#13) : (⟨a⟩ : F) ^ 8191 = 1 := by
  obtain ⟨n, hn⟩ := is_pow a ha
  rw [← hn, ← pow_mul, Nat.mul_comm, pow_mul, X_pow, one_pow]

/-- `GfFrac` is the power 8190 of the denominator times the numerator. -/
theorem frac_eq (d n : P) : gfFrac (el d) (el n) = el ((⟨d⟩ : F) ^ 8190 * (⟨n⟩ : F)).v := by
  unfold gfFrac
  simp only [sqMul_eq, sq2Mul_eq, sq2_eq]
  congr 1
  have h1 : ∀ a b : F, mul a.v b.v = (a * b).v := fun _ _ => rfl
  obtain ⟨d', hd⟩ : ∃ d' : F, d' = ⟨d⟩ := ⟨_, rfl⟩
  obtain ⟨n', hn⟩ : ∃ n' : F, n' = ⟨n⟩ := ⟨_, rfl⟩
  rw [← hd, ← hn, show d = d'.v by rw [hd], show n = n'.v by rw [hn]]
  simp only [h1]
  congr 2
  simp only [← pow_succ, ← pow_two, ← pow_mul, ← pow_add]

end Cex.McEliece
