import Verif.Stream
import Verif.IntTools.Model
import Verif.Mac.CmacModel

/-!
# Model of Poly1305 (CEX/Poly1305.cpp) and Donna128 (CEX/Donna128.h)

`CEX_NATIVE_UINT128` is defined nowhere in the library (CexConfig.h:332 defines `CEX_SYSTEM_NATIVE_UINT128`), so `Absorb` always works with the class `Donna128`.
-/

namespace Cex.Poly
open Cex Cex.IntTools Cex.Mac

/-! ## Donna128 -/

/-- `Donna128` (Donna128.h:18-19). -/
structure Donna where
  low : BitVec 64
  high : BitVec 64

namespace Donna

/-- `Mul64x64To128`, the portable branch (Donna128.h:328-360). -/
def mulPortable (X Y : BitVec 64) : Donna :=
  let ah : BitVec 32 := (X >>> 32).setWidth 32
  let al : BitVec 32 := (X &&& 0xFFFFFFFF).setWidth 32
  let bh : BitVec 32 := (Y >>> 32).setWidth 32
  let bl : BitVec 32 := (Y &&& 0xFFFFFFFF).setWidth 32
  let x0 : BitVec 64 := ah.setWidth 64 * bh.setWidth 64
  let x1 : BitVec 64 := al.setWidth 64 * bh.setWidth 64
  let x2 : BitVec 64 := ah.setWidth 64 * bl.setWidth 64
  let x3 : BitVec 64 := al.setWidth 64 * bl.setWidth 64
  let x2 := x2 + (x3 >>> 32)
  let x2 := x2 + x1
  let x0 := x0 + ((if x2 < x1 then 1 else 0 : BitVec 64) <<< 32)
  ⟨((x2 &&& 0xFFFFFFFF) <<< 32) + (x3 &&& 0xFFFFFFFF), x0 + (x2 >>> 32)⟩

/-- `operator*` of a `Donna128` made from a 64-bit integer (Donna128.h:216-227, 39-44). -/
def mul (x y : BitVec 64) : Donna := mulPortable x y

/-- `operator+=(Donna128)` (Donna128.h:182-191), also behind `operator+` (148-156). -/
def add (x y : Donna) : Donna :=
  let low := x.low + y.low
  let high := x.high + y.high
  ⟨low, high + (if low < y.low then 1 else 0)⟩

/-- `operator+=(uint64_t)` (Donna128.h:200-207). -/
def add64 (x : Donna) (y : BitVec 64) : Donna :=
  let low := x.low + y
  ⟨low, x.high + (if low < y then 1 else 0)⟩

/-- `operator>>` (Donna128.h:79-91). The constructor takes `(Low, High)`, so `Donna128 z(high, low)` exchanges the halves. Shifts above 63 are not used. -/
def shr (x : Donna) (s : Nat) : Donna :=
  let z : Donna := ⟨x.high, x.low⟩
  if s > 0 then
    let carry := z.high <<< (64 - s)
    ⟨(z.low >>> s) ||| carry, z.high >>> s⟩
  else z

/-- `CarryShift(Donna128)` (Donna128.h:249-254); exchanges the halves once more. -/
def carryShift (x : Donna) (s : Nat) : BitVec 64 :=
  let z : Donna := ⟨x.high, x.low⟩
  (z.shr s).low

/-- `operator&` (Donna128.h:121-124). -/
def and (x : Donna) (m : BitVec 64) : BitVec 64 := x.low &&& m

end Donna

/-! ## The limbs -/

/-- Three 64-bit words of 44, 44 and 42 bits: `State[0..2]` or `State[3..5]`. -/
structure Limbs where
  a : BitVec 64
  b : BitVec 64
  c : BitVec 64

/-- One iteration of the loop of `Absorb` (Poly1305.cpp:301-322); `t0`, `t1` are the words of the block. -/
def limbStep (hibit : BitVec 64) (r : Limbs) (t0 t1 : BitVec 64) (h : Limbs) : Limbs :=
  let s1 := r.b * 20
  let s2 := r.c * 20
  let h0 := h.a + (t0 &&& 0xFFFFFFFFFFF)
  let h1 := h.b + (((t0 >>> 44) ||| (t1 <<< 20)) &&& 0xFFFFFFFFFFF)
  let h2 := h.c + (((t1 >>> 24) &&& 0x3FFFFFFFFFF) ||| hibit)
  let d0 := ((Donna.mul h0 r.a).add (Donna.mul h1 s2)).add (Donna.mul h2 s1)
  let d1 := ((Donna.mul h0 r.b).add (Donna.mul h1 r.a)).add (Donna.mul h2 s2)
  let d2 := ((Donna.mul h0 r.c).add (Donna.mul h1 r.b)).add (Donna.mul h2 r.a)
  let c := d0.carryShift 44
  let h0 := d0.and 0xFFFFFFFFFFF
  let d1 := d1.add64 c
  let c := d1.carryShift 44
  let h1 := d1.and 0xFFFFFFFFFFF
  let d2 := d2.add64 c
  let c := d2.carryShift 42
  let h2 := d2.and 0x3FFFFFFFFFF
  let h0 := h0 + c * 5
  let c := h0 >>> 44
  let h0 := h0 &&& 0xFFFFFFFFFFF
  ⟨h0, h1 + c, h2⟩

/-- `Absorb` (Poly1305.cpp:272-331): `n = Length / 16` blocks from `InOffset`. -/
def absorb (inp : List Byte) (fin : Bool) (r : Limbs) : (n io : Nat) → Limbs → M Limbs
  | 0, _, h => return h
  | n + 1, io, h => do
    let t0 ← leBytesTo64 inp io
    let t1 ← leBytesTo64 inp (io + 8)
    absorb inp fin r n (io + 16) (limbStep (if fin then 0 else 1#64 <<< 40) r t0 t1 h)

/-- Poly1305.cpp:128-145: full carry. -/
def finCarry (h : Limbs) : Limbs :=
  let c := h.b >>> 44
  let h1 := h.b &&& 0xFFFFFFFFFFF
  let h2 := h.c + c
  let c := h2 >>> 42
  let h2 := h2 &&& 0x3FFFFFFFFFF
  let h0 := h.a + c * 5
  let c := h0 >>> 44
  let h0 := h0 &&& 0xFFFFFFFFFFF
  let h1 := h1 + c
  let c := h1 >>> 44
  let h1 := h1 &&& 0xFFFFFFFFFFF
  let h2 := h2 + c
  let c := h2 >>> 42
  let h2 := h2 &&& 0x3FFFFFFFFFF
  let h0 := h0 + c * 5
  let c := h0 >>> 44
  let h0 := h0 &&& 0xFFFFFFFFFFF
  let h1 := h1 + c
  ⟨h0, h1, h2⟩

/-- Poly1305.cpp:147-162: subtract the modulus if possible. -/
def finSelect (h : Limbs) : Limbs :=
  let g0 := h.a + 5
  let c := g0 >>> 44
  let g0 := g0 &&& 0xFFFFFFFFFFF
  let g1 := h.b + c
  let c := g1 >>> 44
  let g1 := g1 &&& 0xFFFFFFFFFFF
  let g2 := h.c + (c - (1#64 <<< 42))
  let c := (g2 >>> 63) - 1
  let g0 := g0 &&& c
  let g1 := g1 &&& c
  let g2 := g2 &&& c
  let c := ~~~c
  ⟨(h.a &&& c) ||| g0, (h.b &&& c) ||| g1, (h.c &&& c) ||| g2⟩

/-- Poly1305.cpp:165-177: add the pad, and pack into two words. -/
def finPad (t0 t1 : BitVec 64) (h : Limbs) : BitVec 64 × BitVec 64 :=
  let h0 := h.a + (t0 &&& 0xFFFFFFFFFFF)
  let c := h0 >>> 44
  let h0 := h0 &&& 0xFFFFFFFFFFF
  let h1 := h.b + ((((t0 >>> 44) ||| (t1 <<< 20)) &&& 0xFFFFFFFFFFF) + c)
  let c := h1 >>> 44
  let h1 := h1 &&& 0xFFFFFFFFFFF
  let h2 := h.c + (((t1 >>> 24) &&& 0x3FFFFFFFFFF) + c)
  let h2 := h2 &&& 0x3FFFFFFFFFF
  (h0 ||| (h1 <<< 44), (h1 >>> 20) ||| (h2 <<< 24))

/-! ## The object -/

/-- `Poly1305State` (Poly1305.cpp:12-41): `r`, `h` and pad are `State[0..2]`, `State[3..5]`, `State[6..7]`. -/
structure Poly1305 where
  r : Limbs
  h : Limbs
  p0 : BitVec 64
  p1 : BitVec 64
  buf : List Byte
  pos : Nat
  init : Bool

namespace Poly1305

/-- Construction (Poly1305.cpp:21-27, 45-58). `State` is not initialised there; it is not read before `Initialize`. -/
def fresh (st : Limbs × Limbs × BitVec 64 × BitVec 64) : Poly1305 := ⟨st.1, st.2.1, st.2.2.1, st.2.2.2, List.replicate 16 0, 0, false⟩

/-- `Reset` (Poly1305.cpp:34-40, 224-228). -/
def reset (s : Poly1305) : M Poly1305 := do
  let buf ← clear s.buf 0 s.buf.length
  return ⟨⟨0, 0, 0⟩, ⟨0, 0, 0⟩, 0, 0, buf, 0, false⟩

/-- `Initialize` (Poly1305.cpp:195-222). -/
def «initialize» (s : Poly1305) (key : List Byte) : M Poly1305 :=
  if key.length < 32 then throw (.throws .invalidKey)
  else do
    let t0 ← leBytesTo64 key 0
    let t1 ← leBytesTo64 key 8
    let s ← (if s.init then s.reset else pure s)
    let p0 ← leBytesTo64 key 16
    let p1 ← leBytesTo64 key 24
    return { s with
      r := ⟨t0 &&& 0xFFC0FFFFFFF, ((t0 >>> 44) ||| (t1 <<< 20)) &&& 0xFFFFFC0FFFF, (t1 >>> 24) &&& 0x00FFFFFFC0F⟩
      h := ⟨0, 0, 0⟩, p0 := p0, p1 := p1, init := true }

/-- A block that was begun (Poly1305.cpp:243-255). -/
def first (s : Poly1305) (inp : List Byte) (io len : Nat) : M (Poly1305 × Nat × Nat) :=
  if s.pos ≠ 0 ∧ s.pos + len ≥ 16 then do
    let n := 16 - s.pos
    let buf ← (if n ≠ 0 then copy inp io s.buf s.pos n else pure s.buf)
    let h ← absorb buf false s.r 1 0 s.h
    return ({ s with buf := buf, h := h, pos := 0 }, io + n, len - n)
  else return (s, io, len)

/-- `Update` (Poly1305.cpp:230-268). -/
def update (s : Poly1305) (inp : List Byte) (io len : Nat) : M Poly1305 :=
  if s.init = false then throw (.throws .notInitialized)
  else if subU inp.length io < len then throw (.throws .invalidSize)
  else if len ≠ 0 then do
    let q ← s.first inp io len
    let s := q.1
    let io := q.2.1
    let len := q.2.2
    let aln := (len / 16) * 16
    let h ← absorb inp false s.r (aln / 16) io s.h
    let s := { s with h := h }
    let len := len - aln
    let io := io + aln
    if len > 0 then do
      let buf ← copy inp io s.buf s.pos len
      return { s with buf := buf, pos := s.pos + len }
    else return s
  else return s

/-- The last block (Poly1305.cpp:111-122). -/
def last (s : Poly1305) : M Poly1305 :=
  if s.pos ≠ 0 then do
    let buf ← wr s.buf s.pos 0x01
    let n := buf.length - s.pos - 1
    let buf ← (if n > 0 then clear buf (s.pos + 1) n else pure buf)
    let h ← absorb buf true s.r 1 0 s.h
    return { s with buf := buf, h := h }
  else return s

/-- `Finalize(vector)` (Poly1305.cpp:92-183). The object is not reset. -/
def finalize (s : Poly1305) (out : List Byte) (oo : Nat) : M (Poly1305 × List Byte) :=
  if s.init = false then throw (.throws .notInitialized)
  else if subU out.length oo < 16 then throw (.throws .invalidSize)
  else do
    let s ← s.last
    let w := finPad s.p0 s.p1 (finSelect (finCarry s.h))
    let out ← le64ToBytes w.1 out oo
    let out ← le64ToBytes w.2 out (oo + 8)
    return (s, out)

/-- `Finalize(SecureVector)` (Poly1305.cpp:185-193). -/
def finalizeSecure (s : Poly1305) (out : List Byte) (oo : Nat) : M (Poly1305 × List Byte) := do
  let q ← s.finalize (List.replicate 16 0) 0
  let out ← copy q.2 0 out oo 16
  return (q.1, out)

/-- `Compute` (Poly1305.cpp:77-90). -/
def compute (s : Poly1305) (inp out : List Byte) : M (Poly1305 × List Byte) :=
  if s.init = false then throw (.throws .notInitialized)
  else if out.length < 16 then throw (.throws .invalidSize)
  else do
    let s ← s.update inp 0 inp.length
    s.finalize out 0

end Poly1305
end Cex.Poly
