import Verif.Streams.Model

/-!
# Model of the random generators: `SecureRandom`, and the buffering of `BCR`, `CSR` and `HCR`

The source behind a generator (the entropy-seeded DRBG, or the `IPrng` behind `SecureRandom`) is a parameter: a state and a function that fills a buffer. Failing sources, names and the
provider's availability are left out. `BCR`, `CSR` and `HCR` have the same private `Generate`; it is that of `SecureRandom` with moves for copies.
-/

namespace Cex.Random
open Cex Cex.Streams

/-- The generator that is called to fill a buffer: `Generate(Buffer, 0, n)` gives the `n` new bytes and the next state. -/
structure Engine (σ : Type) where
  gen : σ → Nat → M (List Byte × σ)

/-- `ScrState`, `BcrState`, `CsrState`, `HcrState` (SecureRandom.cpp:12-36, BCR.cpp:15-42, CSR.cpp:15-44, HCR.cpp:15-46), with the state of the engine. -/
structure Buffered (σ : Type) where
  buf : List Byte
  pos : Nat
  eng : σ
deriving DecidableEq

/-- `SecureMove` with offsets (SecureVector.h:396-446): copy, then erase the source. Gives the source and the destination. -/
def secureMove (src : List Byte) (so : Nat) (dst : List Byte) (dof len : Nat) : M (List Byte × List Byte) := do
  let dst ← copy src so dst dof len
  let src ← clear src so len
  return (src, dst)

/-- `SecureCopy` (SecureVector.h:121-128). -/
def secureCopy (src : List Byte) (so : Nat) (dst : List Byte) (dof len : Nat) : M (List Byte × List Byte) := do
  let dst ← copy src so dst dof len
  return (src, dst)

/-- How the bytes leave the buffer: moved, or copied in the `SecureVector` version of `SecureRandom::Generate`. -/
def deliver (mv : Bool) := if mv then secureMove else secureCopy

variable {σ : Type}

/-- The loop `while (Length >= Buffer.size())` (SecureRandom.cpp:140-146, 173-179, BCR.cpp:153-159, CSR.cpp:153-159, HCR.cpp:155-161). The first argument bounds the number of rounds;
`Length` rounds are enough unless the buffer is empty. -/
def drain (E : Engine σ) (mv : Bool) : Nat → Buffered σ → List Byte → Nat → Nat → M (Buffered σ × List Byte × Nat × Nat)
  | 0, s, out, off, len => if s.buf.length ≤ len then .error .diverges else .ok (s, out, off, len)
  | n + 1, s, out, off, len =>
    if s.buf.length ≤ len then do
      let (b, e) ← E.gen s.eng s.buf.length
      let (b, out) ← deliver mv b 0 out off b.length
      drain E mv n ⟨b, s.pos, e⟩ out (off + b.length) (len - b.length)
    else .ok (s, out, off, len)

/-- `Generate(Output, Offset, Length)` of `SecureRandom` (SecureRandom.cpp:127-158 with moves, 160-191 with copies) and the private `Generate` of `BCR` (BCR.cpp:140-171),
`CSR` (CSR.cpp:140-171) and `HCR` (HCR.cpp:142-173). -/
def generate (E : Engine σ) (mv : Bool) (s : Buffered σ) (out : List Byte) (off len : Nat) : M (Buffered σ × List Byte) :=
  let buflen := sub64 s.buf.length s.pos
  if len = 0 then .ok (s, out)
  else if buflen < len then do
    let (b, out) ← (if 0 < buflen then deliver mv s.buf s.pos out off buflen else .ok (s.buf, out))
    let (s, out, off, len) ← drain E mv len ⟨b, s.pos, s.eng⟩ out off len
    let (b, e) ← E.gen s.eng s.buf.length
    let (b, out) ← deliver mv b 0 out off len
    return (⟨b, len, e⟩, out)
  else do
    let (b, out) ← deliver mv s.buf s.pos out off len
    return (⟨b, s.pos + len, s.eng⟩, out)

/-- The constructor of `SecureRandom` (SecureRandom.cpp:19-24, 40-47): `N` is `BUFFER_SIZE`, 1024 (SecureRandom.h:62). -/
def secureRandom (N : Nat) (e : σ) : Buffered σ := ⟨List.replicate N 0, N, e⟩

/-- `Reset` of `BCR`, `CSR`, `HCR` (BCR.cpp:109-136, CSR.cpp:110-136, HCR.cpp:113-138): seed the DRBG anew, giving its state `e`, and fill the buffer. The position stays. -/
def reset (E : Engine σ) (s : Buffered σ) (e : σ) : M (Buffered σ) := do
  let (b, e) ← E.gen e s.buf.length
  return ⟨b, s.pos, e⟩

/-- The constructors of `BCR`, `CSR`, `HCR` (BCR.cpp:45-54, CSR.cpp:48-57, HCR.cpp:49-60); `N` is `CEX_PRNG_BUFFER_SIZE`, 1024 (CexConfig.h:606). -/
def prng (E : Engine σ) (N : Nat) (e : σ) : M (Buffered σ) := reset E ⟨List.replicate N 0, 0, e⟩ e

/-- `BCR`, `CSR` and `HCR`: `Generate(SecureVector, Offset, Length)` (BCR.cpp:99-107, CSR.cpp:100-108, HCR.cpp:103-111). -/
def prngSecure (E : Engine σ) (s : Buffered σ) (out : List Byte) (off len : Nat) : M (Buffered σ × List Byte) :=
  if sub64 out.length off < len then .error (.throws .invalidSize) else generate E true s out off len

/-- `BCR::Generate(std::vector, Offset, Length)` (BCR.cpp:81-92). -/
def bcrStd (E : Engine σ) (s : Buffered σ) (out : List Byte) (off len : Nat) : M (Buffered σ × List Byte) :=
  if sub64 out.length off < len then .error (.throws .invalidSize) else do
    let (s, tmp) ← generate E true s (List.replicate len 0) 0 len
    let (_, out) ← secureMove tmp 0 out off len
    return (s, out)

/-- `Generate(std::vector, Offset, Length)` of `CSR` (CSR.cpp:82-93) and `HCR` (HCR.cpp:85-96): `Output.size()` bytes are asked for, not `Length`. -/
def csrStd (E : Engine σ) (s : Buffered σ) (out : List Byte) (off len : Nat) : M (Buffered σ × List Byte) :=
  if sub64 out.length off < len then .error (.throws .invalidSize) else do
    let (s, tmp) ← generate E true s (List.replicate len 0) 0 out.length
    let (_, out) ← secureMove tmp 0 out off tmp.length
    return (s, out)

/-- `Generate(std::vector)` of `BCR`, `CSR`, `HCR` (BCR.cpp:73-79, CSR.cpp:74-80, HCR.cpp:77-83). -/
def prngStd (E : Engine σ) (s : Buffered σ) (out : List Byte) : M (Buffered σ × List Byte) := do
  let (s, tmp) ← generate E true s (List.replicate out.length 0) 0 out.length
  let (_, out) ← secureMove tmp 0 out 0 tmp.length
  return (s, out)

/-- A `BCR`, `CSR` or `HCR` as the engine of `SecureRandom` (SecureRandom.cpp:142, 148, 175, 181). What the buffer held before is left out: `generate` writes all of it. -/
def prngEngine (E : Engine σ) : Engine (Buffered σ) where
  gen s n := do
    let (s, out) ← prngSecure E s (List.replicate n 0) 0 n
    return (out, s)

/-- `Fill` for elements of `k` bytes (SecureRandom.cpp:71-117). The array is given by its bytes in memory; `size` is the number of its elements. -/
def fill (E : Engine σ) (k : Nat) (s : Buffered σ) (out : List Byte) (size off elems : Nat) : M (Buffered σ × List Byte) :=
  if size < add64 off elems then .error (.throws .invalidParam) else do
    let n := elems * k % 2 ^ 64
    let (s, tmp) ← generate E true s (List.replicate n 0) 0 n
    let out ← copy tmp 0 out (off * k) n
    return (s, out)

/-! ## Numbers in a range -/

/-- The loop `do { x = NextX(); ret = … } while (…)`: `acc` is one round, `none` when it is repeated. The samples are given; when they run out the loop has not ended. -/
def redraw {w : Nat} {α : Type} (acc : BitVec w → Option α) : List (BitVec w) → M (α × List (BitVec w))
  | [] => .error .diverges
  | x :: xs => match acc x with
    | some v => .ok (v, xs)
    | none => redraw acc xs

/-- `SMPMAX` from the largest number of the type and the modulus. -/
def smpMax (top thr : Int) : Int := top - top.tmod thr

/-- `NextUInt16/32/64(Maximum)` (SecureRandom.cpp:290-309, 400-419, 510-529). -/
def nextUMax {w : Nat} (max : BitVec w) (xs : List (BitVec w)) : M (Int × List (BitVec w)) :=
  if max.toNat < 1 then .error (.throws .illegalOperation) else
    redraw (fun x => if (x.toNat : Int) ≥ smpMax (2 ^ w - 1) max.toNat then none else some ((x.toNat : Int).tmod max.toNat)) xs

/-- `NextUInt16/32/64(Maximum, Minimum)` (SecureRandom.cpp:311-335, 421-445, 531-555). `SMPTHR` is reduced to the type; a zero divisor is undefined. -/
def nextURange {w : Nat} (max min : BitVec w) (xs : List (BitVec w)) : M (Int × List (BitVec w)) :=
  if max.toNat < 1 then .error (.throws .illegalOperation)
  else if max.toNat < min.toNat then .error (.throws .illegalOperation)
  else
    let thr := (max.toNat - min.toNat + 1) % 2 ^ w
    if thr = 0 then .error .ub else
      redraw (fun x => if (x.toNat : Int) ≥ smpMax (2 ^ w - 1) thr then none
        else some (((min.toNat : Int) + (x.toNat : Int).tmod thr) % 2 ^ w)) xs

/-- `NextInt16/32/64(Maximum)` (SecureRandom.cpp:235-254, 345-364, 455-474). -/
def nextSMax {w : Nat} (max : BitVec w) (xs : List (BitVec w)) : M (Int × List (BitVec w)) :=
  if max.toInt < 1 then .error (.throws .illegalOperation) else
    redraw (fun x => if x.toInt ≥ smpMax (2 ^ (w - 1) - 1) max.toInt ∨ x.toInt.tmod max.toInt < 0 then none
      else some (x.toInt.tmod max.toInt)) xs

/-- A result of signed arithmetic stored in a type of `w` bits: 16-bit values are computed as `int` and reduced, for 32 and 64 bits overflow is undefined. -/
def store (w : Nat) (v : Int) : M Int :=
  if w < 32 then .ok (BitVec.ofInt w v).toInt
  else if -2 ^ (w - 1) ≤ v ∧ v < 2 ^ (w - 1) then .ok v else .error .ub

/-- `NextInt16/32/64(Maximum, Minimum)` (SecureRandom.cpp:256-280, 366-390, 476-500). -/
def nextSRange {w : Nat} (max min : BitVec w) (xs : List (BitVec w)) : M (Int × List (BitVec w)) :=
  if max.toInt < 1 then .error (.throws .illegalOperation)
  else if max.toInt < min.toInt then .error (.throws .illegalOperation)
  else do
    let thr ← store w (max.toInt - min.toInt + 1)
    if thr = 0 then .error .ub else do
      let (ret, xs) ← redraw (fun x => if x.toInt ≥ smpMax (2 ^ (w - 1) - 1) thr ∨ x.toInt.tmod thr < 0 then none
        else some (x.toInt.tmod thr)) xs
      let v ← store w (min.toInt + ret)
      return (v, xs)

end Cex.Random
