import Verif.Base

/-!
# Model of CEX/IntegerTools.h

Function by function; line numbers refer to CEX/IntegerTools.h unless stated otherwise.
The little-endian target branch (`CEX_IS_LITTLE_ENDIAN`) is modelled.
-/

namespace Cex.IntTools
open Cex

/-! ## Big-endian writers and readers -/

/-- `Be16ToBytes` (IntegerTools.h:557-568): bytes are stored last first. -/
def be16ToBytes (v : BitVec 16) (out : List Byte) (off : Nat) : M (List Byte) := do
  let out ← wr out (off + 1) (v.setWidth 8)
  wr out off ((v >>> 8).setWidth 8)

/-- `Be32ToBytes` (IntegerTools.h:610-622). -/
def be32ToBytes (v : BitVec 32) (out : List Byte) (off : Nat) : M (List Byte) := do
  let out ← wr out (off + 3) (v.setWidth 8)
  let out ← wr out (off + 2) ((v >>> 8).setWidth 8)
  let out ← wr out (off + 1) ((v >>> 16).setWidth 8)
  wr out off ((v >>> 24).setWidth 8)

/-- `Be64ToBytes` (IntegerTools.h:667-684). -/
def be64ToBytes (v : BitVec 64) (out : List Byte) (off : Nat) : M (List Byte) := do
  let out ← wr out (off + 7) (v.setWidth 8)
  let out ← wr out (off + 6) ((v >>> 8).setWidth 8)
  let out ← wr out (off + 5) ((v >>> 16).setWidth 8)
  let out ← wr out (off + 4) ((v >>> 24).setWidth 8)
  let out ← wr out (off + 3) ((v >>> 32).setWidth 8)
  let out ← wr out (off + 2) ((v >>> 40).setWidth 8)
  let out ← wr out (off + 1) ((v >>> 48).setWidth 8)
  wr out off ((v >>> 56).setWidth 8)

/-- `BeBytesTo16` (IntegerTools.h:789-802). -/
def beBytesTo16 (inp : List Byte) (off : Nat) : M (BitVec 16) := do
  let b0 ← rd inp off
  let b1 ← rd inp (off + 1)
  return (b0.setWidth 16 <<< 8) ||| b1.setWidth 16

/-- `BeBytesTo32` (IntegerTools.h:833-849). -/
def beBytesTo32 (inp : List Byte) (off : Nat) : M (BitVec 32) := do
  let b0 ← rd inp off
  let b1 ← rd inp (off + 1)
  let b2 ← rd inp (off + 2)
  let b3 ← rd inp (off + 3)
  return (b0.setWidth 32 <<< 24) ||| (b1.setWidth 32 <<< 16) ||| (b2.setWidth 32 <<< 8) ||| b3.setWidth 32

/-- `BeBytesTo64` (IntegerTools.h:882-901). -/
def beBytesTo64 (inp : List Byte) (off : Nat) : M (BitVec 64) := do
  let b0 ← rd inp off
  let b1 ← rd inp (off + 1)
  let b2 ← rd inp (off + 2)
  let b3 ← rd inp (off + 3)
  let b4 ← rd inp (off + 4)
  let b5 ← rd inp (off + 5)
  let b6 ← rd inp (off + 6)
  let b7 ← rd inp (off + 7)
  return (b0.setWidth 64 <<< 56) ||| (b1.setWidth 64 <<< 48) ||| (b2.setWidth 64 <<< 40) |||
    (b3.setWidth 64 <<< 32) ||| (b4.setWidth 64 <<< 24) ||| (b5.setWidth 64 <<< 16) |||
    (b6.setWidth 64 <<< 8) ||| b7.setWidth 64

/-! ## Little-endian writers and readers (memcpy on a little-endian target) -/

/-- Object representation of an unsigned integer on a little-endian machine, `n` bytes. -/
def leRep (n : Nat) {w : Nat} (v : BitVec w) : List Byte :=
  (List.range n).map (fun k => (v >>> (8 * k)).setWidth 8)

/-- The unsigned integer whose little-endian object representation is `bs`. -/
def leUnrep (w : Nat) (bs : List Byte) : BitVec w :=
  bs.foldr (fun b acc => (acc <<< 8) ||| b.setWidth w) 0

/-- `Le16ToBytes` (IntegerTools.h:1264-1274) via `MemoryTools::CopyFromValue`. -/
def le16ToBytes (v : BitVec 16) (out : List Byte) (off : Nat) : M (List Byte) := blit out off (leRep 2 v)

/-- `Le32ToBytes` (IntegerTools.h:1317-1329). -/
def le32ToBytes (v : BitVec 32) (out : List Byte) (off : Nat) : M (List Byte) := blit out off (leRep 4 v)

/-- `Le64ToBytes` (IntegerTools.h:1374-1390). -/
def le64ToBytes (v : BitVec 64) (out : List Byte) (off : Nat) : M (List Byte) := blit out off (leRep 8 v)

/-- `LeBytesTo16` (IntegerTools.h:1547-1563) via `MemoryTools::CopyToValue`. -/
def leBytesTo16 (inp : List Byte) (off : Nat) : M (BitVec 16) := do
  return leUnrep 16 (← slice inp off 2)

/-- `LeBytesTo32` (IntegerTools.h:1597-1615). -/
def leBytesTo32 (inp : List Byte) (off : Nat) : M (BitVec 32) := do
  return leUnrep 32 (← slice inp off 4)

/-- `LeBytesTo64` (IntegerTools.h:1676-1698). -/
def leBytesTo64 (inp : List Byte) (off : Nat) : M (BitVec 64) := do
  return leUnrep 64 (← slice inp off 8)

/-- Body of the explicit-length readers: `r |= T(Input[InOffset+i]) << (8*i)`;
shifting by the width of `T` or more is undefined. -/
def leVarBody (w : Nat) (inp : List Byte) (off : Nat) (i : Nat) (r : BitVec w) : M (BitVec w) := do
  let b ← rd inp (off + i)
  if 8 * i < w then return r ||| (b.setWidth w <<< (8 * i)) else throw .ub

/-- `LeBytesTo32/64(Input, InOffset, Length)` (IntegerTools.h:1652-1665, 1710-1723). -/
def leBytesToVar (w : Nat) (inp : List Byte) (off len : Nat) : M (BitVec w) := do
  let r ← rd inp off
  loopN (len - 1) 1 (leVarBody w inp off) (r.setWidth w)

/-! ## Counters -/

/-- The `do { --i; ++Output[i]; if (Output[i] != 0) break; } while (i > Offset)` loop of
`BeIncrement8` (IntegerTools.h:944-954, 975-985); the first argument is `Offset`, the second `i`.
`--i` at `i = 0` wraps to `SIZE_MAX`, so the access is out of range. -/
def beIncLoop (off : Nat) : (i : Nat) → List Byte → M (List Byte)
  | 0, _ => .error .ub
  | i + 1, out => do
    let b ← rd out i
    let out ← wr out i (b + 1)
    if b + 1 ≠ 0 then return out
    else if off < i then beIncLoop off i out
    else return out

/-- `BeIncrement8(Output, Offset, Length)` (IntegerTools.h:965-986). -/
def beIncrement8At (out : List Byte) (off len : Nat) : M (List Byte) := beIncLoop off (off + len) out

/-- `BeIncrement8(Output)` (IntegerTools.h:935-955). -/
def beIncrement8 (out : List Byte) : M (List Byte) := beIncLoop 0 out.length out

/-- The loop of `LeIncrement` (IntegerTools.h:1884-1894, 1914-1924); `n` = iterations left. -/
def leIncLoop : (n i : Nat) → List Byte → M (List Byte)
  | 0, _, out => .ok out
  | n + 1, i, out => do
    let b ← rd out i
    let out ← wr out i (b + 1)
    if b + 1 ≠ 0 then return out else leIncLoop n (i + 1) out

/-- `LeIncrement(Output, Length)` (IntegerTools.h:1904-1925). -/
def leIncrementLen (out : List Byte) (len : Nat) : M (List Byte) := leIncLoop len 0 out

/-- `LeIncrement(Output)` (IntegerTools.h:1874-1895). -/
def leIncrement (out : List Byte) : M (List Byte) := leIncLoop out.length 0 out

/-- `LeIncrementW(Output)` on a word array (IntegerTools.h:2118-2129). -/
def leIncrementW {w : Nat} (out : List (BitVec w)) : M (List (BitVec w)) := do
  let x ← rd out 0
  let out ← wr out 0 (x + 1)
  if x + 1 = 0 then
    let y ← rd out 1
    wr out 1 (y + 1)
  else return out

/-- `cinc[k]` when in range, else `0x00`: the byte added at distance `k` from the least significant
end (IntegerTools.h:1010-1014 and 1023); `n = sizeof(T)`. -/
def cinc (n : Nat) {w : Nat} (v : BitVec w) (k : Nat) : Byte :=
  if k < n then (v >>> (8 * k)).setWidth 8 else 0

/-- One byte step shared by all `*Increase8` loops (IntegerTools.h:1022-1026):
returns the new byte and the new carry. -/
def incStep (odst osrc carry : Byte) : Byte × Byte :=
  let ndst := odst + osrc + carry
  (ndst, if ndst < odst then 1 else 0)

/-- The loop of `BeIncrease8(Input, Output, OutOffset, Value)` (IntegerTools.h:1116-1124); `k` is
`lctr - OutOffset`, `len = Input.size()`, so `MAXPOS - lctr = len - 1 - (k - 1)`. -/
def beIncreaseLoop (src : Nat → Byte) (off len : Nat) : (k : Nat) → Byte → List Byte → M (List Byte)
  | 0, _, out => .ok out
  | k + 1, carry, out => do
    let odst ← rd out (off + k)
    let (ndst, carry') := incStep odst (src (len - 1 - k)) carry
    let out ← wr out (off + k) ndst
    beIncreaseLoop src off len k carry' out

/-- `BeIncrease8(Input, Output, OutOffset, Value)` (IntegerTools.h:1089-1125); with `OutOffset = 0`
this is also the overload at 1039-1077. `n = sizeof(T)`. -/
def beIncrease8 (n : Nat) {w : Nat} (inp out : List Byte) (off : Nat) (v : BitVec w) : M (List Byte) := do
  let out ← copy inp 0 out off inp.length
  beIncreaseLoop (cinc n v) off inp.length inp.length 0 out

/-- `BeIncrease8(Output, Value)` in place (IntegerTools.h:996-1028). -/
def beIncrease8InPlace (n : Nat) {w : Nat} (out : List Byte) (v : BitVec w) : M (List Byte) :=
  beIncreaseLoop (cinc n v) 0 out.length out.length 0 out

/-- The loop of `LeIncrease8(Input, Output, OutOffset, [Length,] Value)` (IntegerTools.h:2052-2060,
2099-2107); `k` bytes left, `j = lctr - OutOffset`. -/
def leIncreaseLoop (src : Nat → Byte) (off : Nat) : (k j : Nat) → Byte → List Byte → M (List Byte)
  | 0, _, _, out => .ok out
  | k + 1, j, carry, out => do
    let odst ← rd out (off + j)
    let (ndst, carry') := incStep odst (src j) carry
    let out ← wr out (off + j) ndst
    leIncreaseLoop src off k (j + 1) carry' out

/-- `LeIncrease8(Input, Output, OutOffset, Value)` (IntegerTools.h:2027-2061), also 1978-2015 with
`OutOffset = 0`. -/
def leIncrease8 (n : Nat) {w : Nat} (inp out : List Byte) (off : Nat) (v : BitVec w) : M (List Byte) := do
  let out ← copy inp 0 out off inp.length
  leIncreaseLoop (cinc n v) off inp.length 0 0 out

/-- `LeIncrease8(Output, Value)` in place (IntegerTools.h:1935-1967). -/
def leIncrease8InPlace (n : Nat) {w : Nat} (out : List Byte) (v : BitVec w) : M (List Byte) :=
  leIncreaseLoop (cinc n v) 0 out.length 0 0 out

/-- `LeIncreaseW(Output, Length)` on 64-bit words (IntegerTools.h:2139-2150). -/
def leIncreaseW64 (out : List (BitVec 64)) (len : BitVec 64) : M (List (BitVec 64)) := do
  let x ← rd out 0
  let out ← wr out 0 (x + len)
  if x + len < len then
    let y ← rd out 1
    wr out 1 (y + 1)
  else return out

/-! ## Constant-time helpers -/

/-- `delta |= A[AOffset+i] ^ B[BOffset+i]`. -/
def deltaBody {w : Nat} (a : List (BitVec w)) (ao : Nat) (b : List (BitVec w)) (bo : Nat) (i : Nat) (delta : BitVec w) :
    M (BitVec w) := do
  let x ← rd a (ao + i)
  let y ← rd b (bo + i)
  return delta ||| (x ^^^ y)

/-- `Compare(A, AOffset, B, BOffset, Length)` (IntegerTools.h:2267-2284). -/
def compare {w : Nat} (a : List (BitVec w)) (ao : Nat) (b : List (BitVec w)) (bo len : Nat) : M Bool := do
  let d ← loopN len 0 (deltaBody a ao b bo) 0
  return decide (d = 0)

/-- `delta |= A[i] ^ B[i]` with a `size_t` accumulator and byte operands (the XOR is promoted). -/
def verifyBody (a : List Byte) (ao : Nat) (b : List Byte) (bo : Nat) (i : Nat) (delta : BitVec 64) : M (BitVec 64) := do
  let x ← rd a (ao + i)
  let y ← rd b (bo + i)
  return delta ||| (x ^^^ y).setWidth 64

/-- `Verify(A, AOffset, B, BOffset, Length)` (IntegerTools.h:2555-2572); with zero offsets 2523-2540.
Zero means equal. -/
def verify (a : List Byte) (ao : Nat) (b : List Byte) (bo len : Nat) : M (BitVec 64) :=
  loopN len 0 (verifyBody a ao b bo) 0

/-- The fold loop of `ExpandMask`: `for (i = 1; i != w; i *= 2) r |= r >> i` performs `lg` doubling
steps when `w = 2^lg` (IntegerTools.h:2369-2372). -/
def foldDown {w : Nat} : (lg : Nat) → BitVec w → BitVec w
  | 0, x => x
  | k + 1, x => let r := foldDown k x; r ||| (r >>> (2 ^ k))

/-- `ExpandMask<T>` (IntegerTools.h:2361-2378); `lg = log2` of the bit width of `T`. -/
def expandMask (lg : Nat) {w : Nat} (x : BitVec w) : BitVec w :=
  let r := foldDown lg x &&& 1
  ~~~ (r - 1)

/-- C++ `bool` to unsigned integer. -/
def ofBool (w : Nat) (b : Bool) : BitVec w := if b then 1 else 0

/-- `ExpandTopBit` (IntegerTools.h:2388-2391). -/
def expandTopBit (lg : Nat) {w : Nat} (x : BitVec w) : BitVec w := expandMask lg (x >>> (w - 1))

/-- `IsZero` (IntegerTools.h:2443-2446). -/
def isZero (lg : Nat) {w : Nat} (x : BitVec w) : BitVec w := ~~~ (expandMask lg x)

/-- `IsEqual` (IntegerTools.h:2402-2405). -/
def isEqual (lg : Nat) {w : Nat} (x y : BitVec w) : BitVec w := isZero lg (x ^^^ y)

/-- `IsLess` (IntegerTools.h:2416-2419). -/
def isLess (lg : Nat) {w : Nat} (x y : BitVec w) : BitVec w := expandMask lg (ofBool w (decide (x < y)))

/-- `IsLte` (IntegerTools.h:2430-2433). -/
def isLte (lg : Nat) {w : Nat} (x y : BitVec w) : BitVec w := expandMask lg (ofBool w (decide (x ≤ y)))

/-- `Select(Mask, A, B)` (IntegerTools.h:2458-2461). -/
def select {w : Nat} (mask a b : BitVec w) : BitVec w := (a &&& mask) ||| (b &&& ~~~ mask)

/-- `CMax(A, B)` (IntegerTools.h:2187-2190). -/
def cMax (lg : Nat) {w : Nat} (a b : BitVec w) : BitVec w := select (expandTopBit lg a) a b

/-- `CMin(A, B)` (IntegerTools.h:2248-2252). -/
def cMin (lg : Nat) {w : Nat} (a b : BitVec w) : BitVec w := select (expandTopBit lg b) b a

/-- `ConditionalCopy(Value, To, From0, From1, Length)` (IntegerTools.h:2296-2305); `To` distinct from
the sources, all of length `Length`. -/
def conditionalCopy (lg : Nat) {w : Nat} (v : BitVec w) (from0 from1 : List (BitVec w)) : List (BitVec w) :=
  let mask := expandMask lg v
  List.zipWith (select mask) from0 from1

/-- `ConditionalZeroMem(Condition, Array, Length)` with `Length = Array.size()` (IntegerTools.h:2315-2325). -/
def conditionalZeroMem (lg : Nat) {w : Nat} (c : BitVec w) (arr : List (BitVec w)) : List (BitVec w) :=
  let mask := expandMask lg c
  arr.map (fun x => select mask 0 x)

/-- Loop body of `CMov` (IntegerTools.h:2213-2216) on bytes; `mask` is the negated condition. -/
def cmovBody (inp : List Byte) (io oo : Nat) (mask : Byte) (i : Nat) (out : List Byte) : M (List Byte) := do
  let x ← rd inp (io + i)
  let y ← rd out (oo + i)
  wr out (oo + i) (y ^^^ (mask &&& (x ^^^ y)))

/-- `CMov(Input, InOffset, Output, OutOffset, Length, Condition)` on byte arrays (IntegerTools.h:2203-2217). -/
def cmov (inp : List Byte) (io : Nat) (out : List Byte) (oo len : Nat) (cond : Byte) : M (List Byte) :=
  let mask := ~~~cond + 1
  loopN len 0 (cmovBody inp io oo mask) out

/-- `DiffMask(A, B, Length)` for element width `w ≤ 16` (IntegerTools.h:2337-2351): a 16-bit
accumulator, then `(1 & ((diff - 1) >> 8)) - 1` in `int` arithmetic. -/
def diffMask {w : Nat} (a b : List (BitVec w)) (len : Nat) : M Int := do
  let d ← loopN len 0 (fun i (d : BitVec 16) => do
    let x ← rd a i
    let y ← rd b i
    return d ||| (x ^^^ y).setWidth 16) 0
  return (((d.toNat : Int) - 1) / 256) % 2 - 1

/-- One step of the `ShiftLeft` loop, most significant index first in `k` (IntegerTools.h:2486-2493). -/
def shiftLeftLoop (inp : List Byte) : (k : Nat) → BitVec 32 → List Byte → M (BitVec 32 × List Byte)
  | 0, bit, out => .ok (bit, out)
  | k + 1, bit, out => do
    let b ← rd inp k
    let b32 : BitVec 32 := b.setWidth 32
    let out ← wr out k (((b32 <<< 1) ||| bit).setWidth 8)
    shiftLeftLoop inp k ((b32 >>> 7) &&& 1) out

/-- `ShiftLeft(Input, Output)` (IntegerTools.h:2472-2496); an empty input wraps `--ctr`. -/
def shiftLeft (inp out : List Byte) : M (BitVec 32 × List Byte) :=
  if inp.length = 0 then .error .ub else shiftLeftLoop inp inp.length 0 out

/-- `RotL32`/`RotFL32` portable variant (IntegerTools.h:2734-2739, 2794-2799): a shift by the full
width (Shift = 0) is undefined in C++. -/
def rotL32 (v : BitVec 32) (s : Nat) : M (BitVec 32) :=
  if 0 < s ∧ s < 32 then return (v <<< s) ||| (v >>> (32 - s)) else throw .ub

/-- `RotL64` portable variant (IntegerTools.h:2809-2814). -/
def rotL64 (v : BitVec 64) (s : Nat) : M (BitVec 64) :=
  if 0 < s ∧ s < 64 then return (v <<< s) ||| (v >>> (64 - s)) else throw .ub

/-- `RotR32` portable variant (IntegerTools.h:2824-2829). -/
def rotR32 (v : BitVec 32) (s : Nat) : M (BitVec 32) :=
  if 0 < s ∧ s < 32 then return (v >>> s) ||| (v <<< (32 - s)) else throw .ub

/-- `RotR64` portable variant (IntegerTools.h:2839-2844). -/
def rotR64 (v : BitVec 64) (s : Nat) : M (BitVec 64) :=
  if 0 < s ∧ s < 64 then return (v >>> s) ||| (v <<< (64 - s)) else throw .ub

/-- `IsPowerOf2` (IntegerTools.h:256-259). -/
def isPowerOf2 {w : Nat} (v : BitVec w) : Bool := decide (0 < v) && decide (v &&& (v - 1) = 0)

/-- `Parity` (IntegerTools.h:312-322). -/
def parity (v : BitVec 64) : BitVec 64 :=
  let v := v ^^^ (v >>> 32)
  let v := v ^^^ (v >>> 16)
  let v := v ^^^ (v >>> 8)
  let v := v ^^^ (v >>> 4)
  let v := v ^^^ (v >>> 2)
  let v := v ^^^ (v >>> 1)
  v &&& 1

/-- `Crop` (IntegerTools.h:164-178). -/
def crop (v : BitVec 64) (len : Nat) : BitVec 64 :=
  if len < 64 then v &&& ((1#64 <<< len) - 1) else v

end Cex.IntTools
