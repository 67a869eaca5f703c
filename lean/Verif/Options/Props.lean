import Verif.Options.Model
import Verif.Modes.Lemmas

/-!
# C19: parallel profile invariants

The full property: after any sequence of profile operations, when parallelism is reported enabled, the
parallel block size is a positive whole multiple of the minimum size, the minimum size is a multiple of
degree x block size, and the degree is one or even and at most the processor count.
-/

namespace Cex.Options
open Cex

/-- Multiplier applied to degree x block size. -/
def factor (simd : Nat) (o : Opts) : Nat := if o.simdMultiply then simd else 1

/-- The state after `Calculate()`: sizes fit together. -/
def Aligned (simd : Nat) (o : Opts) : Prop :=
  o.min = (o.degree * o.blockSize * factor simd o) % 2 ^ 64 ∧ o.prl % o.min = 0

theorem calcMin_eq (simd : Nat) (o : Opts) :
    calcMin simd o = (calcDegree o * o.blockSize * factor simd o) % 2 ^ 64 := by
  simp only [calcMin, factor, w64]
  split <;> simp [Nat.mod_mul_mod]

theorem calcSize_keeps (o : Opts) :
    (calcSize o).autoInit = false ∧ (calcSize o).blockSize = o.blockSize ∧ (calcSize o).simdMultiply = o.simdMultiply ∧
    (calcSize o).procs = o.procs ∧ (calcSize o).override = o.override ∧ (calcSize o).degree = o.degree ∧
    (calcSize o).min = o.min ∧ (o.autoInit = false → (calcSize o).isParallel = o.isParallel) ∧
    (o.autoInit = false → o.isParallel = true → o.min ≤ (calcSize o).prl) := by
  by_cases ha : o.autoInit = true
  · simp [calcSize, ha]
  · by_cases hp : o.isParallel = true
    · have ha' : o.autoInit = false := by simpa using ha
      have e : calcSize o = { o with prl := if (if o.prl = 0 then w64 (defDataCache * o.degree) else o.prl) < o.min then o.min
        else (if o.prl = 0 then w64 (defDataCache * o.degree) else o.prl) } := by
        simp only [calcSize, ha', hp, Bool.false_eq_true, if_true, if_false]
      rw [e]
      refine ⟨ha', rfl, rfl, rfl, rfl, rfl, rfl, fun _ => rfl, fun _ _ => ?_⟩
      show o.min ≤ (if _ then _ else _)
      generalize (if o.prl = 0 then w64 (defDataCache * o.degree) else o.prl) = q
      split <;> omega
    · simp [calcSize, ha, hp]

/-- What `Calculate()` guarantees, for every state. -/
theorem calculate_post (simd : Nat) (o o' : Opts) (h : calculate simd o = .ok o') :
    Aligned simd o' ∧ o'.autoInit = false ∧ o'.blockSize = o.blockSize ∧ o'.simdMultiply = o.simdMultiply ∧
    o'.procs = o.procs ∧ o'.override = o.override ∧ o'.degree = calcDegree o ∧
    (o.autoInit = false → o'.isParallel = o.isParallel) ∧
    (o.autoInit = false → o.isParallel = true → o'.min ≤ o'.prl) := by
  have hmod : ∀ a b : Nat, a - a % b = b * (a / b) := fun a b => by have := Nat.div_add_mod a b; omega
  obtain ⟨k1, k2, k3, k4, k5, k6, k7, k8, k9⟩ := calcSize_keeps { o with degree := calcDegree o, min := calcMin simd o }
  simp only [calculate] at h
  generalize calcSize { o with degree := calcDegree o, min := calcMin simd o } = q at *
  simp only at k2 k3 k4 k5 k6 k7 k8 k9
  have hmn : q.min = (q.degree * q.blockSize * factor simd q) % 2 ^ 64 := by
    rw [k7, k6, k2, calcMin_eq]; simp only [factor, k3]
  simp only [roundSize] at h
  split at h
  · rename_i h0
    injection h with h; subst h
    exact ⟨⟨hmn, by simp [h0]⟩, k1, k2, k3, k4, k5, k6, k8, fun a b => by rw [k7]; exact k9 a b⟩
  · split at h
    · cases h
    · rename_i hm0
      injection h with h; subst h
      refine ⟨⟨hmn, by simp only []; rw [hmod, Nat.mul_mod_right]⟩, k1, k2, k3, k4, k5, k6, k8, fun a b => ?_⟩
      have h9 := k9 a b
      simp only []
      rw [hmod]
      rw [← k7] at h9
      have h2 : 1 ≤ q.prl / q.min := (Nat.one_le_div_iff (by omega)).mpr h9
      have h3 := Nat.mul_le_mul_left q.min h2
      omega

/-- State invariant kept by every operation. -/
def Inv (simd : Nat) (o : Opts) : Prop :=
  Aligned simd o ∧ o.autoInit = false ∧ (o.override = false → o.degree ≤ o.procs)

theorem calculate_inv (simd : Nat) (o o' : Opts) (h : calculate simd o = .ok o') : Inv simd o' := by
  obtain ⟨h1, h2, _, _, h5, h6, h7, _, _⟩ := calculate_post simd o o' h
  refine ⟨h1, h2, fun ho => ?_⟩
  rw [h6] at ho
  rw [h7, h5, calcDegree]
  split
  · omega
  · rename_i hn
    simp only [ho, and_true, not_or, gt_iff_lt] at hn
    omega

theorem op_inv (simd : Nat) (op : Op) (o o' : Opts) (hI : Inv simd o) (h : op.run simd o = .ok o') : Inv simd o' := by
  cases op with
  | recalc => exact calculate_inv _ _ _ h
  | calc3 b p d => exact calculate_inv _ _ _ h
  | setBlockSize n =>
    simp only [Op.run, setBlockSize] at h
    split at h
    · cases h
    · exact calculate_inv _ _ _ h
  | setMaxDegree n =>
    simp only [Op.run, setMaxDegree] at h
    split at h
    · cases h
    · exact calculate_inv _ _ _ h
  | flag b =>
    simp only [Op.run] at h
    injection h with h; subst h
    exact hI

/-- **C19 (partial).** After construction (any of the three constructors) and any history of operations
that ends without undefined behaviour: the minimum size is degree x block size x SIMD factor (modulo
2^64), the parallel block size is a whole multiple of the minimum size, and the degree is at most the
processor count unless the user forced it with `SetMaxDegree`. Missing from the full property: the block
size may be zero while parallelism is reported on (`C19_zero_block_false`), and a forced degree is
neither bounded nor even (`C19_degree_false`). -/
theorem C19_history_partial (simd : Nat) (ops : List Op) (o o' : Opts) (hI : Inv simd o)
    (h : runOps simd ops o = .ok o') :
    o'.min = (o'.degree * o'.blockSize * factor simd o') % 2 ^ 64 ∧ o'.prl % o'.min = 0 ∧
      (o'.override = false → o'.degree ≤ o'.procs) := by
  suffices Inv simd o' from ⟨this.1.1, this.1.2, this.2.2⟩
  induction ops generalizing o with
  | nil => simp only [runOps] at h; injection h with h; exact h ▸ hI
  | cons op ops ih =>
    simp only [runOps] at h
    split at h
    · rename_i o1 h1; exact ih o1 (op_inv simd op o o1 hI h1) h
    · exact ih o hI h
    · cases h

/-- The constructors establish the invariant. -/
theorem C19_construct_partial (simd blk : Nat) (sm : Bool) (res : Nat) (sp : Bool) (deg phys virt l1 : Nat) (flag : Option Bool)
    (o : Opts) (h : construct simd blk sm res sp deg phys virt l1 flag = .ok o) : Inv simd o ∧ o.blockSize = blk := by
  simp only [construct] at h
  split at h
  · cases h
  · cases hc : calculate simd (detect phys virt l1 { autoInit := true, blockSize := blk, isParallel := false, reserved := res, l1 := 0, override := false, prl := 0, degree := deg, min := 0, procs := 0, phys := 0, virt := 0, simdMultiply := sm, split := sp }) with
    | error e => rw [hc] at h; cases h
    | ok o1 =>
      rw [hc] at h
      have hI := calculate_inv _ _ _ hc
      have hb := (calculate_post _ _ _ hc).2.2.1
      cases flag with
      | none => simp only [ok_bind, pure_eq_ok] at h; injection h with h; exact h ▸ ⟨hI, hb⟩
      | some b => simp only [ok_bind, pure_eq_ok] at h; injection h with h; subst h; exact ⟨hI, hb⟩

theorem C19_construct_user_partial (simd blk : Nat) (par : Bool) (prl deg : Nat) (sm : Bool) (res : Nat) (sp : Bool) (phys virt l1 : Nat)
    (o : Opts) (h : constructUser simd blk par prl deg sm res sp phys virt l1 = .ok o) : Inv simd o ∧ o.blockSize = blk := by
  simp only [constructUser] at h
  split at h
  · cases h
  · exact ⟨calculate_inv _ _ _ h, (calculate_post _ _ _ h).2.2.1⟩

/-- No size computation overflows. -/
def NoOverflow (simd : Nat) (o : Opts) : Prop := o.degree * o.blockSize * factor simd o < 2 ^ 64

/-- The invariant, together with a block size of at least the minimum, is what the block cipher modes
need of their profile. -/
theorem valid_of_inv {simd : Nat} {o : Opts} (hI : Inv simd o) (hb : o.blockSize = 16) (hno : NoOverflow simd o)
    (hm : o.isParallel = true → o.min ≠ 0 ∧ o.min ≤ o.prl) : (toProfile o).Valid := by
  intro hp
  obtain ⟨h0, h1⟩ := hm hp
  obtain ⟨⟨i1, i2⟩, _, _⟩ := hI
  rw [Nat.mod_eq_of_lt hno, hb] at i1
  refine ⟨?_, ?_, ?_⟩
  · rintro hd
    simp only [toProfile] at hd
    rw [hd] at i1; simp at i1; exact h0 i1
  · simp only [toProfile]; omega
  · simp only [toProfile]
    refine Nat.dvd_trans ⟨factor simd o, ?_⟩ (Nat.dvd_of_mod_eq_zero i2)
    rw [i1, Nat.mul_comm 16]

/-- **C19 (partial), the modes' gate.** When a block cipher mode's `Initialize` accepts a constructed
profile, that profile satisfies what the parallel engines rely on: the degree is non-zero, the parallel
block size is non-zero, at most the maximum, and a whole multiple of degree x 16. -/
theorem C19_mode_gate_partial (simd : Nat) (o : Opts) (hI : Inv simd o) (hb : o.blockSize = 16) (hno : NoOverflow simd o)
    (h : modeInitCheck o = .ok ()) : (toProfile o).Valid ∧ (o.isParallel = true → o.prl ≤ maxAlloc) := by
  by_cases hp : o.isParallel = true
  · simp only [modeInitCheck, hp, if_true] at h
    by_cases h1 : o.prl < o.min ∨ o.prl > maxAlloc
    · simp [h1] at h
    · by_cases h2 : o.min = 0
      · rw [if_neg h1, if_pos h2] at h; cases h
      · rw [not_or] at h1
        exact ⟨valid_of_inv hI hb hno (fun _ => ⟨h2, by omega⟩), fun _ => by omega⟩
  · exact ⟨fun h => absurd h hp, fun h => absurd h hp⟩

/-- Later changes through the setters keep the profile usable: after any setter call that returns, the
profile again satisfies what the engines rely on. Only writing through the `IsParallel()` reference can
break it (`C19_flag_false`). -/
theorem C19_setters_partial (simd : Nat) (op : Op) (o o' : Opts) (hI : Inv simd o) (hb : o.blockSize = 16)
    (hop : ∀ b, op ≠ .flag b) (h : op.run simd o = .ok o') (hno : NoOverflow simd o') (hm : o'.min ≠ 0) :
    (toProfile o').Valid := by
  have key : ∀ o1, o1.autoInit = false → o1.blockSize = 16 → calculate simd o1 = .ok o' → (toProfile o').Valid := by
    intro o1 ha hb1 hc
    obtain ⟨_, _, p3, _, _, _, _, p8, p9⟩ := calculate_post _ _ _ hc
    refine valid_of_inv (calculate_inv _ _ _ hc) (by rw [p3, hb1]) hno (fun hp => ⟨hm, p9 ha ?_⟩)
    rw [← p8 ha]; exact hp
  cases op with
  | recalc => exact key o hI.2.1 hb h
  | calc3 b p d =>
    simp only [Op.run, calculate3] at h
    exact key _ (by exact hI.2.1) (by exact hb) h
  | setBlockSize n =>
    simp only [Op.run, setBlockSize] at h
    split at h
    · cases h
    · exact key _ (by exact hI.2.1) (by exact hb) h
  | setMaxDegree n =>
    simp only [Op.run, setMaxDegree] at h
    split at h
    · cases h
    · exact key _ (by exact hI.2.1) (by exact hb) h
  | flag b => exact absurd rfl (hop b)

/-- Through a mode's own `ParallelMaxDegree` the degree is even, positive and at most the processor count. -/
theorem C19_mode_degree (simd n : Nat) (o o' : Opts) (h : modeSetDegree simd n o = .ok o') :
    o'.degree = n ∧ n ≠ 0 ∧ n % 2 = 0 ∧ n ≤ processorCount o := by
  simp only [modeSetDegree] at h
  split at h
  · cases h
  · rename_i hn
    simp only [not_or, gt_iff_lt, Nat.not_lt] at hn
    simp only [setMaxDegree, if_neg hn.1] at h
    have := (calculate_post _ _ _ h).2.2.2.2.2.2.1
    simp only [calcDegree, hn.1, or_false, Bool.true_eq_false, and_false, if_false] at this
    exact ⟨this, hn.1, by omega, hn.2.2⟩

/-- A 4-core machine, 32 KiB of L1 data cache per core. -/
def demo : M Opts := construct 4 16 true 1024 true 0 4 4 131072 none

/-- The constructor on a realistic machine gives a usable profile. -/
example : demo = .ok {
    autoInit := false, blockSize := 16, isParallel := true, reserved := 1024, l1 := 131072, override := false,
    prl := 65024, degree := 4, min := 256, procs := 4, phys := 4, virt := 4, simdMultiply := true, split := true } := by decide

example : (demo >>= modeInitCheck) = .ok () := by decide

/-- `SetMaxDegree` accepts an odd degree above the processor count. -/
theorem C19_degree_false : ∃ o o', demo = .ok o ∧ setMaxDegree 4 7 o = .ok o' ∧ modeInitCheck o' = .ok () ∧
    o'.isParallel = true ∧ o'.procs < o'.degree ∧ o'.degree % 2 ≠ 0 :=
  ⟨_, _, rfl, rfl, by decide, by decide, by decide, by decide⟩

/-- The auto-configuring constructor can report parallelism with a parallel block size of zero (the cache
left over is below the minimum size); every mode then refuses to initialise. -/
theorem C19_zero_block_false : ∃ o, construct 16 16 true 0 true 0 64 64 16384 none = .ok o ∧ o.isParallel = true ∧ o.prl = 0 ∧
    modeInitCheck o = .error (.throws .invalidSize) :=
  ⟨_, rfl, by decide, by decide, by decide⟩

theorem ctr_zero_block (k : Modes.Kind) (c : Modes.Cipher) (p : Modes.Profile) (hp : p.isParallel = true) (h0 : p.blockSize = 0)
    (scheds nonce inp io out oo len) : Modes.ctrTransform k 0 c p scheds nonce inp io out oo len = .error .ub := by
  simp [Modes.ctrTransform, hp, h0]

/-- Switching parallelism on through the `IsParallel()` reference after a successful `Initialize` can leave
a block size of zero, and then any transformation divides by zero. -/
theorem C19_flag_false : ∃ o, construct 16 16 true 0 true 0 64 64 16384 (some false) = .ok o ∧ modeInitCheck o = .ok () ∧
    ∀ (k : Modes.Kind) (c : Modes.Cipher) scheds nonce inp io out oo len,
      Modes.ctrTransform k 0 c (toProfile { o with isParallel := true }) scheds nonce inp io out oo len = .error .ub := by
  refine ⟨_, rfl, by decide, ?_⟩
  intro k c scheds nonce inp io out oo len
  exact ctr_zero_block k c _ rfl (by decide) scheds nonce inp io out oo len

end Cex.Options
