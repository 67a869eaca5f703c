import Verif.Ed25519.ScReduce

/-!
# `Sc25519MulAdd`
-/

namespace Cex.Ed25519

open Cex.Ec25519 Cex.IntTools Finset

/-- the greatest limb of a scalar of 32 bytes -/
def top (i : Nat) : Nat := if i < 11 then 2 ^ 21 - 1 else if i = 11 then 2 ^ 25 - 1 else 0

theorem limb_top {x i : Nat} (hx : x < 2 ^ 256) (hi : i < 12) : limb 12 x i ≤ top i := by
  rw [limb, top]
  by_cases c : i + 1 = 12
  · obtain rfl : i = 11 := by omega
    rw [if_pos rfl, if_neg (by decide), if_pos rfl]
    have : x / 2 ^ (21 * 11) < 2 ^ 25 := Nat.div_lt_of_lt_mul (by rw [← Nat.pow_add]; exact hx)
    omega
  · rw [if_neg c, if_pos (by omega)]
    have : x / 2 ^ (21 * i) % 2 ^ 21 < 2 ^ 21 := Nat.mod_lt _ (by decide)
    omega

/-- the sum of products of column `k` -/
def column (f g h : Nat → Nat) (k : Nat) : Nat := (if k < 12 then h k else 0) + ∑ i ∈ Ico (k - 11) (min k 11 + 1), f i * g (k - i)

theorem column_mono {f g h f' g' h' : Nat → Nat} (hf : ∀ i < 12, f i ≤ f' i) (hg : ∀ i < 12, g i ≤ g' i) (hh : ∀ i < 12, h i ≤ h' i) {k : Nat} (hk : k < 23) :
    column f g h k ≤ column f' g' h' k := by
  rw [column, column]
  refine Nat.add_le_add ?_ (sum_le_sum fun i hi => ?_)
  · by_cases c : k < 12
    · rw [if_pos c, if_pos c]; exact hh k c
    · rw [if_neg c, if_neg c]
  · have := mem_Ico.mp hi
    exact Nat.mul_le_mul (hf i (by omega)) (hg _ (by omega))

theorem column_top : ∀ k < 23, column top top top k < 2 ^ 62 := by decide +kernel

theorem prodLimb_ok {x y z : Nat} (hx : x < 2 ^ 256) (hy : y < 2 ^ 256) (hz : z < 2 ^ 256) {k : Nat} (hk : k < 23) :
    prodLimb (limbs 12 x) (limbs 12 y) (limbs 12 z) k = .ok (column (limb 12 x) (limb 12 y) (limb 12 z) k : Nat) := by
  have hc : addend (limbs 12 z) k = .ok ((if k < 12 then limb 12 z k else 0 : Nat) : Int) := by
    rw [addend]
    by_cases c : k < 12
    · rw [if_pos c, if_pos c, dg_rd (by rw [limbs_length]; exact c), dg_limbs c]
    · rw [if_neg c, if_neg c]; rfl
  have ht := column_top k hk
  rw [column] at ht
  have hm : ∀ i, i < 12 → limb 12 x i ≤ top i := fun i hi => limb_top hx hi
  rw [prodLimb, hc, ok_bind]
  obtain ⟨r, e, hr⟩ := loopN_inv (f := fun i v => (do
      let p ← ck64 ((← rd (limbs 12 x) i) * (← rd (limbs 12 y) (k - i)))
      ck64 (v + p) : M Int))
    (fun i v => v = (((if k < 12 then limb 12 z k else 0) + ∑ t ∈ Ico (k - 11) i, limb 12 x t * limb 12 y (k - t) : Nat) : Int))
    (min k 11 + 1 - (k - 11)) (k - 11) ((if k < 12 then limb 12 z k else 0 : Nat) : Int)
    (fun i v h1 h2 hv => by
      have hi : i < 12 := by omega
      have hj : k - i < 12 := by omega
      rw [dg_rd (by rw [limbs_length]; exact hi), dg_limbs hi, ok_bind, dg_rd (by rw [limbs_length]; exact hj), dg_limbs hj, ok_bind]
      have hle : (if k < 12 then limb 12 z k else 0) + ∑ t ∈ Ico (k - 11) (i + 1), limb 12 x t * limb 12 y (k - t) ≤ column top top top k := by
        refine Nat.le_trans ?_ (column_mono (hm) (fun i hi => limb_top hy hi) (fun i hi => limb_top hz hi) hk)
        rw [column]
        refine Nat.add_le_add_left (sum_le_sum_of_subset ?_) _
        exact Ico_subset_Ico_right (by omega)
      rw [sum_Ico_succ_top h1] at hle ⊢
      rw [column] at hle
      generalize hP : limb 12 x i * limb 12 y (k - i) = P at *
      generalize ∑ t ∈ Ico (k - 11) i, limb 12 x t * limb 12 y (k - t) = S at *
      rw [← Nat.cast_mul, hP, ck64_in (by omega) (by omega), ok_bind, hv]
      generalize (if k < 12 then limb 12 z k else 0) = Z at *
      exact ⟨_, by rw [ck64_in (by omega) (by omega)], by push_cast; ring⟩)
    (by simp)
  rw [e, hr, column, show k - 11 + (min k 11 + 1 - (k - 11)) = min k 11 + 1 by omega]

/-- the sums of products -/
def aMul : Abs := ⟨(List.range 24).map fun k => (0, if k < 23 then (column top top top k : Int) else 0), List.replicate 24 true⟩

theorem mul_chk : accepts (mulOps ++ tailOps) aMul aTail = true := by decide +kernel

theorem column_sum (X : Int) (f g h : Nat → Nat) : ∑ k ∈ range 23, (column f g h k : Int) * X ^ k =
    (∑ i ∈ range 12, (f i : Int) * X ^ i) * (∑ i ∈ range 12, (g i : Int) * X ^ i) + ∑ i ∈ range 12, (h i : Int) * X ^ i := by
  simp only [column, sum_range_succ, sum_range_zero, sum_Ico_eq_sum_range]
  norm_num [sum_range_succ]
  ring

theorem aMul_iv {k : Nat} (hk : k < 24) : aMul.ivl k = (0, if k < 23 then (column top top top k : Int) else 0) := by
  rw [Abs.ivl, aMul, List.getElem?_map, List.getElem?_range hk]; rfl

/-- the columns and the limb that is 0 -/
def columns (x y z : Nat) : List Int := (List.range 23).map (fun k => (column (limb 12 x) (limb 12 y) (limb 12 z) k : Int)) ++ [0]

theorem dg_columns {x y z k : Nat} (hk : k < 23) : dg (columns x y z) k = column (limb 12 x) (limb 12 y) (limb 12 z) k := by
  rw [dg, columns, List.getElem?_append_left (by simpa using hk), List.getElem?_map, List.getElem?_range hk]; rfl

theorem dg_columns_top {x y z : Nat} : dg (columns x y z) 23 = 0 := by
  rw [dg, columns, List.getElem?_append_right (by simp)]; simp

theorem limb_cast (x : Nat) : ∑ i ∈ range 12, (limb 12 x i : Int) * (2 ^ 21 : Int) ^ i = (x : Int) := by
  have h := limb_sum x 11
  have h2 : ((∑ i ∈ range 12, limb 12 x i * 2 ^ (21 * i) : Nat) : Int) = (x : Int) := by rw [h]
  rw [← h2, Nat.cast_sum]
  refine sum_congr rfl fun i _ => ?_
  rw [Nat.cast_mul, Nat.cast_pow, pow_mul]; rfl

theorem aMul_ok {x y z : Nat} (hx : x < 2 ^ 256) (hy : y < 2 ^ 256) (hz : z < 2 ^ 256) :
    aMul.Ok (columns x y z) ∧ val aMul.live (columns x y z) = (x * y + z : Nat) := by
  refine ⟨⟨by simp [columns], by decide, by decide, fun k hk => ?_⟩, ?_⟩
  · rw [aMul_iv hk]
    by_cases c : k < 23
    · rw [dg_columns c, if_pos c]
      exact ⟨Int.natCast_nonneg _, Int.ofNat_le.mpr (column_mono (fun i hi => limb_top hx hi) (fun i hi => limb_top hy hi) (fun i hi => limb_top hz hi) c)⟩
    · obtain rfl : k = 23 := by omega
      rw [dg_columns_top, if_neg c]
      exact ⟨le_refl _, le_refl _⟩
  · rw [val_first (n := 24) (by decide) (by decide), sum_range_succ, dg_columns_top, zero_mul, add_zero]
    have e : ∑ k ∈ range 23, dg (columns x y z) k * 2 ^ (21 * k) = ∑ k ∈ range 23, (column (limb 12 x) (limb 12 y) (limb 12 z) k : Int) * (2 ^ 21) ^ k :=
      sum_congr rfl fun k hk => by rw [dg_columns (mem_range.mp hk), pow_mul]
    rw [e, column_sum, limb_cast, limb_cast, limb_cast]
    push_cast; rfl

theorem scMulAdd_ok {a b c pre old post : List Byte} (ha : 32 ≤ a.length) (hb : 32 ≤ b.length) (hc : 32 ≤ c.length) (ho : old.length = 32) :
    scMulAdd (pre ++ old ++ post) pre.length a b c =
      .ok (pre ++ leEnc 32 (((leVal a % 2 ^ 256) * (leVal b % 2 ^ 256) + leVal c % 2 ^ 256) % L) ++ post) := by
  have hx : leVal a % 2 ^ 256 < 2 ^ 256 := Nat.mod_lt _ (Nat.two_pow_pos _)
  have hy : leVal b % 2 ^ 256 < 2 ^ 256 := Nat.mod_lt _ (Nat.two_pow_pos _)
  have hz : leVal c % 2 ^ 256 < 2 ^ 256 := Nat.mod_lt _ (Nat.two_pow_pos _)
  rw [scMulAdd, loadLimbs_ok (N := 32) (Or.inl ⟨rfl, rfl⟩) ha, ok_bind, loadLimbs_ok (N := 32) (Or.inl ⟨rfl, rfl⟩) hb, ok_bind,
    loadLimbs_ok (N := 32) (Or.inl ⟨rfl, rfl⟩) hc, ok_bind, show 8 * 32 = 256 from rfl]
  generalize leVal a % 2 ^ 256 = x at *
  generalize leVal b % 2 ^ 256 = y at *
  generalize leVal c % 2 ^ 256 = z at *
  rw [append_loop _ (fun k => (column (limb 12 x) (limb 12 y) (limb 12 z) k : Int)) 23 fun k hk => prodLimb_ok hx hy hz hk, ok_bind]
  obtain ⟨h0, v0⟩ := aMul_ok hx hy hz
  obtain ⟨s3, m3, e3, h3, v3, -⟩ := accepts_ok (by decide) mul_chk h0
  obtain ⟨s4, w, e4, h4, hw, d4, m4, v4⟩ := last_ok h3
  have ew : w = (x * y + z) % L := mod_unique (m := m3 + m4) hw (by rw [v4, v3, v0]; ring)
  have st := storeLimbs_ok (pre := pre) (old := old) (post := post) h4 d4 ho
  rw [run_append] at e3
  rw [← ew, ← st]
  dsimp only
  change (run mulOps (columns x y z) >>= _) = _
  cases c1 : run mulOps (columns x y z) with
  | error f => rw [c1] at e3; cases e3
  | ok s2 =>
    rw [c1, ok_bind] at e3
    rw [ok_bind, e3, ok_bind, e4, ok_bind]

end Cex.Ed25519
