/-!
# Base: effects, buffers and loops used by all models

C++ buffers are lists; every access that C++ leaves undefined when out of range is an explicit
`Fault.ub` outcome, and a thrown exception is `Fault.throws`.
-/

namespace Cex

abbrev Byte := BitVec 8

/-- The `ErrorCodes` used by the modelled code (CEX/ErrorCodes.h). -/
inductive ErrCode
  | notInitialized | invalidSize | invalidParam | invalidKey | invalidNonce | invalidInfo
  | invalidSalt | maxExceeded | illegalOperation | authenticationFailure | invalidState | notSupported
  deriving DecidableEq, Repr

/-- Abnormal outcomes: C++ undefined behaviour, a C++ exception, or a loop that never ends. -/
inductive Fault
  | ub
  | throws (c : ErrCode)
  | diverges
  deriving DecidableEq, Repr

/-- Computations of the model. -/
abbrev M := Except Fault

instance {ε α : Type} [DecidableEq ε] [DecidableEq α] : DecidableEq (Except ε α)
  | .ok a, .ok b => if h : a = b then isTrue (by rw [h]) else isFalse (by intro e; cases e; exact h rfl)
  | .error a, .error b => if h : a = b then isTrue (by rw [h]) else isFalse (by intro e; cases e; exact h rfl)
  | .ok _, .error _ => isFalse (by intro e; cases e)
  | .error _, .ok _ => isFalse (by intro e; cases e)

section Buffers
variable {α : Type}

/-- `b[i]` as an rvalue. -/
def rd (b : List α) (i : Nat) : M α :=
  match b[i]? with
  | some x => .ok x
  | none => .error .ub

/-- `b[i] = v`. -/
def wr (b : List α) (i : Nat) (v : α) : M (List α) :=
  if i < b.length then .ok (b.set i v) else .error .ub

/-- The bytes `[off, off+len)` of `b`. -/
def slice (b : List α) (off len : Nat) : M (List α) :=
  if off + len ≤ b.length then .ok ((b.drop off).take len) else .error .ub

/-- Overwrite the window of `b` starting at `off` by `src`. -/
def blit (b : List α) (off : Nat) (src : List α) : M (List α) :=
  if off + src.length ≤ b.length then .ok (b.take off ++ src ++ b.drop (off + src.length)) else .error .ub

/-- `MemoryTools::Copy(src, so, dst, dof, len)` on byte arrays: nothing is touched when `len = 0`,
otherwise `memcpy` (CEX/MemoryTools.h:646-690, 705-760; the AVX branch copies the same bytes). -/
def copy (src : List α) (so : Nat) (dst : List α) (dof len : Nat) : M (List α) :=
  if len = 0 then .ok dst else do
    let s ← slice src so len
    blit dst dof s

/-- `MemoryTools::Clear(dst, off, len)` on byte arrays (CEX/MemoryTools.h:300-341). -/
def clear (dst : List Byte) (off len : Nat) : M (List Byte) :=
  if len = 0 then .ok dst else blit dst off (List.replicate len 0)

/-- bytewise XOR of two ranges -/
def xorBytes (a b : List Byte) : List Byte := List.zipWith (· ^^^ ·) a b

/-- `MemoryTools::XOR(src, so, dst, dof, len)`: `dst[dof+i] ^= src[so+i]`
(CEX/MemoryTools.h:1358-1402, scalar path `XorPartial`). -/
def xorInto (src : List Byte) (so : Nat) (dst : List Byte) (dof len : Nat) : M (List Byte) := do
  let s ← slice src so len
  let d ← slice dst dof len
  blit dst dof (xorBytes d s)

end Buffers

section Loops
variable {σ : Type}

/-- `for (j = i; j < i + n; ++j) s = f j s`. -/
def loopN : (n i : Nat) → (Nat → σ → M σ) → σ → M σ
  | 0, _, _, s => .ok s
  | n + 1, i, f, s => do
    let s' ← f i s
    loopN n (i + 1) f s'

/-- Total-correctness rule for `loopN`. -/
theorem loopN_inv {f : Nat → σ → M σ} (P : Nat → σ → Prop) :
    ∀ (n i : Nat) (s : σ),
      (∀ j s, i ≤ j → j < i + n → P j s → ∃ s', f j s = .ok s' ∧ P (j + 1) s') →
      P i s → ∃ s', loopN n i f s = .ok s' ∧ P (i + n) s'
  | 0, i, s, _, h => ⟨s, rfl, by simpa using h⟩
  | n + 1, i, s, step, h => by
    obtain ⟨s', h1, h2⟩ := step i s (Nat.le_refl _) (by omega) h
    obtain ⟨t, h3, h4⟩ := loopN_inv P n (i + 1) s'
      (fun j s hj hlt hp => step j s (by omega) (by omega) hp) h2
    refine ⟨t, ?_, by rw [show i + (n + 1) = i + 1 + n from by omega]; exact h4⟩
    simp only [loopN, h1]
    exact h3

end Loops

@[simp] theorem ok_bind {ε α β : Type} (a : α) (f : α → Except ε β) : (Except.ok a >>= f) = f a := rfl
@[simp] theorem error_bind {ε α β : Type} (e : ε) (f : α → Except ε β) :
    ((Except.error e : Except ε α) >>= f) = Except.error e := rfl
@[simp] theorem pure_eq_ok {ε α : Type} (a : α) : (pure a : Except ε α) = Except.ok a := rfl
@[simp] theorem throw_eq_error {ε α : Type} (e : ε) : (throw e : Except ε α) = Except.error e := rfl

section BufferLemmas
variable {α : Type}

theorem rd_ok {b : List α} {i : Nat} (h : i < b.length) : rd b i = .ok b[i] := by
  simp [rd, List.getElem?_eq_getElem h]

theorem rd_ub {b : List α} {i : Nat} (h : b.length ≤ i) : rd b i = .error .ub := by
  simp [rd, List.getElem?_eq_none h]

theorem wr_ok {b : List α} {i : Nat} (v : α) (h : i < b.length) : wr b i v = .ok (b.set i v) := by
  simp [wr, h]

theorem wr_ub {b : List α} {i : Nat} (v : α) (h : b.length ≤ i) : wr b i v = .error .ub := by
  simp [wr, Nat.not_lt.mpr h]

theorem slice_ok {b : List α} {off len : Nat} (h : off + len ≤ b.length) :
    slice b off len = .ok ((b.drop off).take len) := by simp [slice, h]

theorem slice_append (a b c : List α) :
    slice (a ++ b ++ c) a.length b.length = .ok b := by
  rw [slice_ok (by simp)]
  simp

theorem blit_ok {b : List α} {off : Nat} {src : List α} (h : off + src.length ≤ b.length) :
    blit b off src = .ok (b.take off ++ src ++ b.drop (off + src.length)) := by simp [blit, h]

theorem blit_append (a b c s : List α) (h : s.length = b.length) :
    blit (a ++ b ++ c) a.length s = .ok (a ++ s ++ c) := by
  rw [blit_ok (by simp [h])]
  simp [h]

theorem xorBytes_length (a b : List Byte) : (xorBytes a b).length = min a.length b.length := by
  simp [xorBytes]

end BufferLemmas

end Cex
