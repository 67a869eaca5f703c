import Verif.Base

/-!
# Model of `MemoryPool` and `LockingAllocator` (CEX/MemoryPool.cpp, CEX/LockingAllocator.cpp)

The pool is a byte array at address `base`; blocks are given by their offsets. The pool is an object of the program, so offsets inside do not wrap; the sum `Length + PadSize(...)` is at most
63 more than the size of the pool and is taken without wrapping.
-/

namespace Cex.Pool
open Cex

/-- `PoolState` (MemoryPool.cpp:10-49) with the memory of the pool. `align` is `1 << AlignBit`. -/
structure Pool where
  base : Nat
  mem : List Byte
  free : List (Nat × Nat)
  minAlloc : Nat
  maxAlloc : Nat
  align : Nat
  deriving DecidableEq

/-- `PadSize` (MemoryPool.cpp:215-220). -/
def padSize (n al : Nat) : Nat := if n % al = 0 then 0 else al - n % al

/-- `Reset` (MemoryPool.cpp:132-136). -/
def Pool.reset (s : Pool) : M Pool := do
  let mem ← clear s.mem 0 s.mem.length
  return { s with mem := mem, free := s.free ++ [(0, s.mem.length)] }

/-- The constructor (MemoryPool.cpp:20-37, 51-56) for a pool that is not null. -/
def Pool.new (base : Nat) (mem : List Byte) (minAlloc maxAlloc alignBit : Nat) : M Pool :=
  if 6 < alignBit then throw (.throws .invalidParam)
  else if maxAlloc < minAlloc then throw (.throws .invalidSize)
  else Pool.reset ⟨base, mem, [], minAlloc, maxAlloc, 2 ^ alignBit⟩

/-- The first condition of MemoryPool.cpp:98: there is no best entry yet, or it is longer. -/
def better (best : Option (Nat × Nat × Nat)) (e : Nat × Nat) : Bool :=
  match best with
  | none => true
  | some b => b.2.2 > e.2

/-- The loop of `Allocate` over the free list (MemoryPool.cpp:80-103) from index `i`; `best` is an index with its entry. After a perfect fit the entry is erased and the loop goes on with
the iterator to it, which the erasure has made invalid (line 98 reads through it). -/
def scan (base len al : Nat) : Nat → Option (Nat × Nat × Nat) → List (Nat × Nat) → M (Option (Nat × Nat × Nat))
  | _, best, [] => return best
  | i, best, e :: l =>
    if e.2 = len ∧ e.1 % al = 0 then
      if (base + e.1) % al ≠ 0 then throw (.throws .invalidState) else throw .ub
    else if better best e = true ∧ e.2 ≥ len + padSize e.1 al then scan base len al (i + 1) (some (i, e)) l
    else scan base len al (i + 1) best l

/-- What takes the place of the entry `(f, s)` from which `len` bytes are given (MemoryPool.cpp:110-125). -/
def rest (f s len pad : Nat) : List (Nat × Nat) :=
  if pad ≠ 0 then
    if s - (len + pad) = 0 then [(f, pad)] else [(f, pad), (f + (len + pad), s - (len + pad))]
  else [(f + (len + pad), s - (len + pad))]

/-- `Allocate` (MemoryPool.cpp:66-130); the result is the offset of the block, or `none` for the null pointer. -/
def Pool.allocate (s : Pool) (len : Nat) : M (Pool × Option Nat) :=
  if len ≤ s.mem.length ∧ s.minAlloc ≤ len ∧ len ≤ s.maxAlloc then do
    let best ← scan s.base len s.align 0 none s.free
    match best with
    | none => return (s, none)
    | some (i, f, z) =>
      let pad := padSize f s.align
      let mem ← clear s.mem (f + pad) len
      if (s.base + f + pad) % s.align ≠ 0 then throw (.throws .invalidState)
      else return ({ s with mem := mem, free := s.free.take i ++ rest f z len pad ++ s.free.drop (i + 1) }, some (f + pad))
  else return (s, none)

/-- The entries before and from the place that `std::lower_bound` finds in a list sorted by offsets (MemoryPool.cpp:154). -/
def below (p : Nat) (l : List (Nat × Nat)) : List (Nat × Nat) := l.takeWhile fun x => x.1 < p
def above (p : Nat) (l : List (Nat × Nat)) : List (Nat × Nat) := l.dropWhile fun x => x.1 < p

/-- The merge with the next entry (MemoryPool.cpp:156-161): the entries from the found place on, and the length that remains. -/
def mergeNext (p len : Nat) : List (Nat × Nat) → List (Nat × Nat) × Nat
  | [] => ([], len)
  | e :: l => if p + len = e.1 then ((p, e.2 + len) :: l, 0) else (e :: l, len)

/-- The merge with the previous entry and the insertion (MemoryPool.cpp:163-187), where `a` and `b` are the entries before and from the place on. -/
def mergePrev (p len : Nat) (a b : List (Nat × Nat)) : M (List (Nat × Nat)) :=
  match a.getLast? with
  | some e =>
    if e.1 + e.2 = p then
      if len ≠ 0 then return a.dropLast ++ (e.1, e.2 + len) :: b
      else match b with
        | [] => throw .ub
        | x :: b => return a.dropLast ++ (e.1, e.2 + x.2) :: b
    else return if len ≠ 0 then a ++ (p, len) :: b else a ++ b
  | none => return if len ≠ 0 then a ++ (p, len) :: b else a ++ b

/-- `Deallocate` (MemoryPool.cpp:138-193) with `InPool` (207-213), of the address `ptr`. -/
def Pool.deallocate (s : Pool) (ptr len : Nat) : M (Pool × Bool) :=
  if s.base ≤ ptr ∧ (ptr + len) % 2 ^ 64 ≤ (s.base + s.mem.length) % 2 ^ 64 then do
    let p := ptr - s.base
    let mem ← clear s.mem p len
    let m := mergeNext p len (above p s.free)
    let free ← mergePrev p m.2 (below p s.free) m.1
    return ({ s with mem := mem, free := free }, true)
  else return (s, false)

/-- `LockingAllocator::allocate` (LockingAllocator.cpp:53-66) with its pool; the product is a `size_t`. -/
def lockAllocate (s : Pool) (n sz : Nat) : M (Pool × Option Nat) :=
  if sz = 0 then throw .ub
  else if (n * sz) % 2 ^ 64 / sz ≠ n then s.allocate ((n * sz) % 2 ^ 64)
  else return (s, none)

/-- `LockingAllocator::deallocate` (LockingAllocator.cpp:68-81). -/
def lockDeallocate (s : Pool) (ptr n sz : Nat) : M (Pool × Bool) :=
  if sz = 0 then throw .ub
  else if (n * sz) % 2 ^ 64 / sz ≠ n then s.deallocate ptr ((n * sz) % 2 ^ 64)
  else return (s, false)

end Cex.Pool
