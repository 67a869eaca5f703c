import Verif.Modes.Model

/-!
# Model of `ParallelOptions` (CEX/ParallelOptions.cpp) and of the checks the modes make on it

`size_t` values are naturals below `2^64`; sums and products wrap. The CPU detection results are
parameters of the state (`l1`, `phys`, `virt`); `simd` is the build-time factor 1/4/8/16.
-/

namespace Cex.Options
open Cex

/-- 64-bit wrap. -/
def w64 (n : Nat) : Nat := n % 2 ^ 64

/-- The members of `ParallelOptions` that the size computations use (ParallelOptions.h:36-80). -/
structure Opts where
  autoInit : Bool
  blockSize : Nat
  isParallel : Bool
  reserved : Nat
  l1 : Nat
  override : Bool
  prl : Nat
  degree : Nat
  min : Nat
  procs : Nat
  phys : Nat
  virt : Nat
  simdMultiply : Bool
  split : Bool
  deriving DecidableEq

/-- `DEF_DATACACHE` and `MAX_PRLALLOC` (ParallelOptions.h). -/
def defDataCache : Nat := 16384
def maxAlloc : Nat := 16384 * 2000

/-- `ParallelOptions::Detect` (ParallelOptions.cpp:342-373). -/
def detect (phys virt l1 : Nat) (o : Opts) : Opts :=
  let procs := if virt > phys then virt else phys
  let procs := if procs > 1 ∧ procs % 2 ≠ 0 then procs - 1 else procs
  { o with
    phys := phys, virt := virt, procs := procs
    degree := if o.degree > procs then procs else o.degree
    isParallel := decide (procs > 1)
    l1 := l1 }

/-- The degree and minimum-size lines of `Calculate()` (ParallelOptions.cpp:213-236). -/
def calcDegree (o : Opts) : Nat :=
  if (o.degree > o.procs ∧ o.override = false) ∨ o.degree = 0 then o.procs else o.degree

def calcMin (simd : Nat) (o : Opts) : Nat :=
  let min := w64 (calcDegree o * o.blockSize)
  if o.simdMultiply then w64 (min * simd) else min

/-- The block-size lines of `Calculate()` (ParallelOptions.cpp:238-263), on the state with the new degree
and minimum size. -/
def calcSize (o : Opts) : Opts :=
  if o.autoInit then
    let prl := w64 (o.l1 + (2 ^ 64 - o.reserved))
    { o with prl := if o.split then prl / 2 else prl, isParallel := decide (o.procs > 1), autoInit := false }
  else if o.isParallel then
    let prl := if o.prl = 0 then w64 (defDataCache * o.degree) else o.prl
    { o with prl := if prl < o.min then o.min else prl }
  else o

/-- The rounding lines of `Calculate()` (ParallelOptions.cpp:265-269); `% m_parallelMinimumSize` with a
zero minimum is undefined. -/
def roundSize (o : Opts) : M Opts :=
  if o.prl = 0 then .ok o
  else if o.min = 0 then .error .ub
  else .ok { o with prl := o.prl - o.prl % o.min }

/-- `ParallelOptions::Calculate()` (ParallelOptions.cpp:211-270). -/
def calculate (simd : Nat) (o : Opts) : M Opts :=
  roundSize (calcSize { o with degree := calcDegree o, min := calcMin simd o })

/-- `ParallelOptions::Calculate(Parallel, ParallelBlockSize, MaxDegree)` (ParallelOptions.cpp:272-287). -/
def calculate3 (simd : Nat) (parallel : Bool) (prl degree : Nat) (o : Opts) : M Opts :=
  calculate simd { o with
    isParallel := if parallel = false then false else decide (o.procs > 1)
    prl := if prl ≠ 0 then prl else o.prl
    degree := if degree ≠ 0 then degree else o.degree }

/-- `ParallelOptions::SetBlockSize` (ParallelOptions.cpp:317-326). -/
def setBlockSize (simd : Nat) (n : Nat) (o : Opts) : M Opts :=
  if n < o.min then throw (.throws .invalidParam) else calculate simd { o with prl := n }

/-- `ParallelOptions::SetMaxDegree` (ParallelOptions.cpp:328-338). -/
def setMaxDegree (simd : Nat) (n : Nat) (o : Opts) : M Opts :=
  if n = 0 then throw (.throws .invalidParam) else calculate simd { o with override := true, degree := n }

/-- Constructors 1 and 2 (ParallelOptions.cpp:12-72): auto-configured; the second overrides the
parallel flag at the end (`flag`). -/
def construct (simd : Nat) (blockSize : Nat) (simdMultiply : Bool) (reserved : Nat) (split : Bool) (degree : Nat)
    (phys virt l1 : Nat) (flag : Option Bool) : M Opts := do
  if blockSize = 0 ∨ blockSize % 2 ≠ 0 then throw (.throws .invalidParam)
  let o : Opts := {
    autoInit := true, blockSize := blockSize, isParallel := false, reserved := reserved, l1 := 0,
    override := false, prl := 0, degree := degree, min := 0, procs := 0, phys := 0, virt := 0,
    simdMultiply := simdMultiply, split := split }
  let o ← calculate simd (detect phys virt l1 o)
  match flag with
  | none => return o
  | some b => return { o with isParallel := b }

/-- Constructor 3 (ParallelOptions.cpp:74-103): user-defined sizes. -/
def constructUser (simd : Nat) (blockSize : Nat) (parallel : Bool) (prl degree : Nat) (simdMultiply : Bool) (reserved : Nat)
    (split : Bool) (phys virt l1 : Nat) : M Opts := do
  if blockSize = 0 ∨ blockSize % 2 ≠ 0 then throw (.throws .invalidParam)
  let o : Opts := {
    autoInit := false, blockSize := blockSize, isParallel := parallel, reserved := reserved, l1 := 0,
    override := false, prl := prl, degree := degree, min := 0, procs := 0, phys := 0, virt := 0,
    simdMultiply := simdMultiply, split := split }
  calculate simd (detect phys virt l1 o)

/-- `ParallelOptions::ProcessorCount` (ParallelOptions.cpp:189-192). -/
def processorCount (o : Opts) : Nat := if o.virt ≠ 0 then o.virt else o.phys

/-- The profile checks in `Initialize` of the modes (e.g. CTR.cpp:193-203, CBC.cpp:198-208). -/
def modeInitCheck (o : Opts) : M Unit := do
  if o.isParallel then
    if o.prl < o.min ∨ o.prl > maxAlloc then throw (.throws .invalidSize)
    if o.min = 0 then throw .ub
    if o.prl % o.min ≠ 0 then throw (.throws .invalidParam)

/-- `ParallelMaxDegree(Degree)` of the modes (e.g. CTR.cpp:211-219). -/
def modeSetDegree (simd : Nat) (n : Nat) (o : Opts) : M Opts :=
  if n = 0 ∨ n % 2 ≠ 0 ∨ n > processorCount o then throw (.throws .invalidParam) else setMaxDegree simd n o

/-- What the modes see of the options. -/
def toProfile (o : Opts) : Modes.Profile := ⟨o.isParallel, o.prl, o.degree⟩

/-- The operations a user can perform on a profile; `flag` writes through the reference `IsParallel()`
returns (ParallelOptions.cpp:159-162). -/
inductive Op
  | recalc
  | calc3 (parallel : Bool) (prl degree : Nat)
  | setBlockSize (n : Nat)
  | setMaxDegree (n : Nat)
  | flag (b : Bool)

def Op.run (simd : Nat) : Op → Opts → M Opts
  | .recalc, o => calculate simd o
  | .calc3 b p d, o => calculate3 simd b p d o
  | .setBlockSize n, o => Options.setBlockSize simd n o
  | .setMaxDegree n, o => Options.setMaxDegree simd n o
  | .flag b, o => .ok { o with isParallel := b }

/-- A history of operations; an operation that throws leaves the (already assigned) state of its caller
as it was before (both throwing setters check before assigning). -/
def runOps (simd : Nat) : List Op → Opts → M Opts
  | [], o => .ok o
  | op :: ops, o =>
    match op.run simd o with
    | .ok o' => runOps simd ops o'
    | .error (.throws _) => runOps simd ops o
    | .error e => .error e

end Cex.Options
