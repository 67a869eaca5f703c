import Mathlib.NumberTheory.LucasPrimality
import Mathlib.Tactic.NormNum.Prime
import Mathlib.Data.Nat.Prime.Basic
import Mathlib.Algebra.BigOperators.Associated
import Verif.Ec25519.Spec

/-!
# The number `2^255 - 19` is prime

By Lucas' criterion along a tree of the prime factors of `p - 1`.
-/

namespace Cex.Ec25519

/-- powers modulo `m` by squaring -/
def powMod (m : Nat) : Nat → Nat → Nat → Nat
  | 0, _, _ => 1 % m
  | f + 1, b, e => if e % 2 = 1 then b * powMod m f (b * b % m) (e / 2) % m else powMod m f (b * b % m) (e / 2)

theorem powMod_ok (m : Nat) : ∀ (f b e : Nat), e < 2 ^ f → powMod m f b e = b ^ e % m
  | 0, b, e, h => by rw [show e = 0 by omega]; rfl
  | f + 1, b, e, h => by
    have hs : (b * b % m) ^ (e / 2) % m = b ^ (2 * (e / 2)) % m := by rw [← Nat.pow_mod, ← pow_two, ← pow_mul]
    rw [powMod, powMod_ok m f _ _ (by omega), hs]
    split
    · rw [Nat.mul_mod_mod, ← pow_succ', show 2 * (e / 2) + 1 = e by omega]
    · rw [show 2 * (e / 2) = e by omega]

theorem lucas {p a b : Nat} (fs : List Nat) (hp : ∀ q ∈ fs, q.Prime) (hprod : fs.prod = p - 1 ∧ 1 < p ∧ p < 2 ^ b) (ha : powMod p b a (p - 1) = 1)
    (hd : ∀ q ∈ fs, powMod p b a ((p - 1) / q) ≠ 1) : p.Prime := by
  obtain ⟨h1, h2, h3⟩ := hprod
  have key : ∀ e, e < 2 ^ b → (((a : ZMod p)) ^ e = 1 ↔ powMod p b a e = 1) := fun e he => by
    rw [powMod_ok _ _ _ _ he, ← Nat.cast_pow, ← Nat.cast_one, ZMod.natCast_eq_natCast_iff', Nat.mod_eq_of_lt h2]
  refine lucas_primality p (a : ZMod p) ((key _ (by omega)).mpr ha) fun q hq hqd => ?_
  rw [← h1] at hqd
  obtain ⟨r, hr, hqr⟩ := (hq.prime.dvd_prod_iff).mp hqd
  have e : q = r := (Nat.prime_dvd_prime_iff_eq hq (hp r hr)).mp hqr
  subst e
  intro h
  exact hd q hr ((key _ (lt_of_le_of_lt (Nat.div_le_self _ _) (by omega))).mp h)

theorem prime_2773320623 : Nat.Prime 2773320623 :=
  lucas (a := 5) (b := 32) [2, 2437, 569003]
    (by simp only [List.mem_cons, List.not_mem_nil, or_false, forall_eq_or_imp, forall_eq]
        exact ⟨(by norm_num), (by norm_num), (by norm_num)⟩)
    (by decide) (by decide +kernel) (by decide +kernel)

theorem prime_72106336199 : Nat.Prime 72106336199 :=
  lucas (a := 7) (b := 37) [2, 13, 2773320623]
    (by simp only [List.mem_cons, List.not_mem_nil, or_false, forall_eq_or_imp, forall_eq]
        exact ⟨(by norm_num), (by norm_num), prime_2773320623⟩)
    (by decide) (by decide +kernel) (by decide +kernel)

theorem prime_1919519569386763 : Nat.Prime 1919519569386763 :=
  lucas (a := 2) (b := 51) [2, 3, 7, 19, 47, 47, 127, 8574133]
    (by simp only [List.mem_cons, List.not_mem_nil, or_false, forall_eq_or_imp, forall_eq]
        exact ⟨(by norm_num), (by norm_num), (by norm_num), (by norm_num), (by norm_num), (by norm_num), (by norm_num), (by norm_num)⟩)
    (by decide) (by decide +kernel) (by decide +kernel)

theorem prime_75445702479781427272750846543864801 : Nat.Prime 75445702479781427272750846543864801 :=
  lucas (a := 7) (b := 116) [2, 2, 2, 2, 2, 3, 3, 5, 5, 75707, 72106336199, 1919519569386763]
    (by simp only [List.mem_cons, List.not_mem_nil, or_false, forall_eq_or_imp, forall_eq]
        exact ⟨(by norm_num), (by norm_num), (by norm_num), (by norm_num), (by norm_num), (by norm_num), (by norm_num), (by norm_num), (by norm_num), (by norm_num), prime_72106336199, prime_1919519569386763⟩)
    (by decide) (by decide +kernel) (by decide +kernel)

theorem prime_31757755568855353 : Nat.Prime 31757755568855353 :=
  lucas (a := 10) (b := 55) [2, 2, 2, 3, 31, 107, 223, 4153, 430751]
    (by simp only [List.mem_cons, List.not_mem_nil, or_false, forall_eq_or_imp, forall_eq]
        exact ⟨(by norm_num), (by norm_num), (by norm_num), (by norm_num), (by norm_num), (by norm_num), (by norm_num), (by norm_num), (by norm_num)⟩)
    (by decide) (by decide +kernel) (by decide +kernel)

theorem prime_74058212732561358302231226437062788676166966415465897661863160754340907 : Nat.Prime 74058212732561358302231226437062788676166966415465897661863160754340907 :=
  lucas (a := 2) (b := 236) [2, 3, 353, 57467, 132049, 1923133, 31757755568855353, 75445702479781427272750846543864801]
    (by simp only [List.mem_cons, List.not_mem_nil, or_false, forall_eq_or_imp, forall_eq]
        exact ⟨(by norm_num), (by norm_num), (by norm_num), (by norm_num), (by norm_num), (by norm_num), prime_31757755568855353, prime_75445702479781427272750846543864801⟩)
    (by decide) (by decide +kernel) (by decide +kernel)

theorem prime_57896044618658097711785492504343953926634992332820282019728792003956564819949 : Nat.Prime 57896044618658097711785492504343953926634992332820282019728792003956564819949 :=
  lucas (a := 2) (b := 255) [2, 2, 3, 65147, 74058212732561358302231226437062788676166966415465897661863160754340907]
    (by simp only [List.mem_cons, List.not_mem_nil, or_false, forall_eq_or_imp, forall_eq]
        exact ⟨(by norm_num), (by norm_num), (by norm_num), (by norm_num), prime_74058212732561358302231226437062788676166966415465897661863160754340907⟩)
    (by decide) (by decide +kernel) (by decide +kernel)

theorem P_prime : P.Prime := prime_57896044618658097711785492504343953926634992332820282019728792003956564819949

end Cex.Ec25519
