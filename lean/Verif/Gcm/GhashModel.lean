import Verif.Gcm.CmulModel
import Verif.Mac.CmacModel

/-!
# Model of GHASH (CEX/GHASH.cpp) and GMAC (CEX/GMAC.cpp)

`simd` is `HAS_CMUL`. The accumulator of GHASH is the caller's `Output` vector, that of GMAC the member `State`.
-/

namespace Cex.Gcm
open Cex Cex.IntTools Cex.Mac

/-- `GhashState` (GHASH.cpp:16-39); in GMAC the members `Hash`, `Buffer`, `Position` (GMAC.cpp:21-26). -/
structure Gh where
  h0 : BitVec 64
  h1 : BitVec 64
  buf : List Byte
  pos : Nat

/-- A constructed GHASH (GHASH.cpp:20-22). -/
def Gh.fresh : Gh := ⟨0, 0, List.replicate 16 0, 0⟩

/-- `GHASH::Permute` (GHASH.cpp:154-174): the first 16 bytes of `Output` are multiplied in a copy. -/
def Gh.permute (simd : Bool) (g : Gh) (out : List Byte) : M (List Byte) := do
  let t ← slice out 0 16
  let t ← Gcm.permute simd g.h0 g.h1 t
  blit out 0 t

/-- `XOR128(src, so, Output, 0)` followed by `Permute`. -/
def Gh.block (simd : Bool) (g : Gh) (src : List Byte) (so : Nat) (out : List Byte) : M (List Byte) := do
  let out ← xorInto src so out 0 16
  g.permute simd out

/-- The `while (Length > CMUL_BLOCK_SIZE)` loop (GHASH.cpp:137-143, GMAC.cpp:319-325). -/
def Gh.loop (simd : Bool) (g : Gh) (inp : List Byte) (io len : Nat) (out : List Byte) : M (List Byte × Nat × Nat) :=
  if 16 < len then do
    let out ← g.block simd inp io out
    Gh.loop simd g inp (io + 16) (len - 16) out
  else .ok (out, io, len)
termination_by len

/-- A full buffer is processed first (GHASH.cpp:119-124, GMAC.cpp:301-306). -/
def Gh.flush (simd : Bool) (g : Gh) (out : List Byte) : M (Gh × List Byte) :=
  if g.pos = 16 then do
    let out ← g.block simd g.buf 0 out
    return ({ g with pos := 0 }, out)
  else return (g, out)

/-- The buffer is completed and whole blocks are taken from the input (GHASH.cpp:126-144, GMAC.cpp:308-326). -/
def Gh.fill (simd : Bool) (g : Gh) (inp : List Byte) (io len : Nat) (out : List Byte) : M (Gh × List Byte × Nat × Nat) :=
  if 16 - g.pos < len then do
    let buf ← copy inp io g.buf g.pos (16 - g.pos)
    let out ← { g with buf := buf }.block simd buf 0 out
    let r ← Gh.loop simd { g with buf := buf, pos := 0 } inp (io + (16 - g.pos)) (len - (16 - g.pos)) out
    return ({ g with buf := buf, pos := 0 }, r)
  else return (g, out, io, len)

/-- The rest is stored (GHASH.cpp:146-150, GMAC.cpp:328-332). -/
def Gh.store (inp : List Byte) (s : Gh × List Byte × Nat × Nat) : M (Gh × List Byte) :=
  if 0 < s.2.2.2 then do
    let buf ← copy inp s.2.2.1 s.1.buf s.1.pos s.2.2.2
    return ({ s.1 with buf := buf, pos := s.1.pos + s.2.2.2 }, s.2.1)
  else return (s.1, s.2.1)

/-- `GHASH::Update` (GHASH.cpp:115-152), `GMAC::Absorb` (GMAC.cpp:297-334). -/
def Gh.update (simd : Bool) (g : Gh) (inp : List Byte) (io len : Nat) (out : List Byte) : M (Gh × List Byte) :=
  if len = 0 then return (g, out)
  else do
    let s ← g.flush simd out
    if 16 < s.1.pos then throw .ub
    else do
      let s ← Gh.fill simd s.1 inp io len s.2
      Gh.store inp s

/-- The partial block in `Finalize` (GHASH.cpp:66-75, GMAC.cpp:379-388). -/
def Gh.last (simd : Bool) (g : Gh) (out : List Byte) : M (Gh × List Byte) :=
  if g.pos ≠ 0 then do
    let buf ← (if g.pos ≠ 16 then clear g.buf g.pos (g.buf.length - g.pos) else pure g.buf)
    let out ← xorInto buf 0 out 0 g.pos
    let out ← { g with buf := buf }.permute simd out
    return ({ g with buf := buf }, out)
  else return (g, out)

/-- The length block (GHASH.cpp:77-80, GMAC.cpp:390-393); `8 * x` wraps on 64 bits. -/
def lenBlock (ad txt : Nat) : M (List Byte) := do
  let t ← be64ToBytes (BitVec.ofNat 64 (ad * 8)) (List.replicate 16 0) 0
  be64ToBytes (BitVec.ofNat 64 (txt * 8)) t 8

/-- `GHASH::Finalize` (GHASH.cpp:64-83), `GMAC::PreCompute` (GMAC.cpp:377-396). The position is not changed. -/
def Gh.finalize (simd : Bool) (g : Gh) (out : List Byte) (ad txt : Nat) : M (Gh × List Byte) := do
  let s ← g.last simd out
  let t ← lenBlock ad txt
  let out ← s.1.block simd t 0 s.2
  return (s.1, out)

/-- `GHASH::Multiply` (GHASH.cpp:90-104), `GMAC::Multiply` (GMAC.cpp:343-359). -/
def Gh.multiply (simd : Bool) (g : Gh) (inp : List Byte) (boff len : Nat) (out : List Byte) : M (List Byte) :=
  if len ≠ 0 then do
    let out ← xorInto inp boff out 0 (min len 16)
    let out ← g.permute simd out
    Gh.multiply simd g inp (boff + min len 16) (len - min len 16) out
  else .ok out
termination_by len

/-- `GHASH::Clear` (GHASH.cpp:58-62). -/
def Gh.clear (g : Gh) : M Gh := do
  let buf ← Cex.clear g.buf 0 g.buf.length
  return { g with buf := buf, pos := 0 }

/-- `GHASH::Reset` (GHASH.cpp:33-38, 106-109): the key is zeroed too. -/
def Gh.reset (g : Gh) : M Gh := do
  let buf ← Cex.clear g.buf 0 g.buf.length
  return ⟨0, 0, buf, 0⟩

/-- `GHASH::Initialize` (GHASH.cpp:85-88) with a key of two words. -/
def Gh.initialize (g : Gh) (k0 k1 : BitVec 64) : Gh := { g with h0 := k0, h1 := k1 }

/-- `GmacState` (GMAC.cpp:17-56); `gh` holds `Hash`, `Buffer` and `Position`. -/
structure Gmac where
  gh : Gh
  state : List Byte
  nonce : List Byte
  counter : Nat
  init : Bool

/-- A constructed GMAC (GMAC.cpp:30-38). -/
def Gmac.fresh : Gmac := ⟨.fresh, List.replicate 16 0, [], 0, false⟩

/-- `GmacState::Reset` (GMAC.cpp:45-55, 272-275). -/
def Gmac.reset (st : Gmac) : M Gmac := do
  let gh ← st.gh.reset
  let nonce ← clear st.nonce 0 st.nonce.length
  let state ← clear st.state 0 st.state.length
  return ⟨gh, state, nonce, 0, false⟩

/-- `std::vector::resize(n)`. -/
def vresize (v : List Byte) (n : Nat) : List Byte := v.take n ++ List.replicate (n - v.length) 0

/-- The nonce of a 96-bit salt (GMAC.cpp:244-248). -/
def gmacShort (nonce : List Byte) : M (List Byte) := wr (vresize nonce 16) 15 0x01

/-- The nonce of any other salt (GMAC.cpp:251-265). -/
def gmacLong (simd : Bool) (gh : Gh) (nonce : List Byte) : M (Gh × List Byte) := do
  let y ← gh.multiply simd nonce 0 nonce.length (List.replicate 16 0)
  let r ← gh.finalize simd y 0 nonce.length
  let nonce ← (if nonce.length ≠ 16 then do
      let n ← (if 16 < nonce.length then clear nonce 16 (nonce.length - 16) else pure nonce)
      return vresize n 16
    else pure nonce)
  let nonce ← copy r.2 0 nonce 0 16
  return (r.1, nonce)

/-- `GMAC::Initialize` (GMAC.cpp:197-270) with the block encryption `E` of the key; `keyOk` is the outcome of the key-size test
(GMAC.cpp:207-210). -/
def Gmac.initialize (simd : Bool) (st : Gmac) (keyOk : Bool) (E : List Byte → List Byte) (iv : List Byte) : M Gmac :=
  if keyOk = false then throw (.throws .invalidKey)
  else if iv.length < 12 then throw (.throws .invalidSalt)
  else do
    let st ← (if st.init then st.reset else pure st)
    let tmph ← blit (List.replicate 16 0) 0 (E (List.replicate 16 0))
    let k0 ← beBytesTo64 tmph 0
    let k1 ← beBytesTo64 tmph 8
    let gh := st.gh.initialize k0 k1
    let nonce ← copy iv 0 (vresize st.nonce iv.length) 0 iv.length
    let r ← (if nonce.length = 12 then do
        let n ← gmacShort nonce
        return (gh, n)
      else gmacLong simd gh nonce)
    let b ← slice r.2 0 16
    let nonce ← blit r.2 0 (E b)
    return { st with gh := r.1, nonce := nonce, init := true }

/-- `GMAC::Update` (GMAC.cpp:277-293). -/
def Gmac.update (simd : Bool) (st : Gmac) (inp : List Byte) (io len : Nat) : M Gmac :=
  if st.init = false then throw (.throws .notInitialized)
  else if subU inp.length io < len then throw (.throws .invalidSize)
  else if len ≠ 0 then do
    let r ← st.gh.update simd inp io len st.state
    return { st with gh := r.1, state := r.2, counter := (st.counter + len) % 2 ^ 64 }
  else return st

/-- `GMAC::Finalize(std::vector)` (GMAC.cpp:168-185). -/
def Gmac.finalize (simd : Bool) (st : Gmac) (out : List Byte) (oo : Nat) : M (Gmac × List Byte) :=
  if st.init = false then throw (.throws .notInitialized)
  else if subU out.length oo < 16 then throw (.throws .invalidSize)
  else do
    let r ← st.gh.finalize simd st.state st.counter 0
    let state ← xorInto st.nonce 0 r.2 0 16
    let out ← copy state 0 out oo 16
    let st ← { st with gh := r.1, state := state }.reset
    return (st, out)

/-- `GMAC::Compute` (GMAC.cpp:153-166). -/
def Gmac.compute (simd : Bool) (st : Gmac) (inp out : List Byte) : M (Gmac × List Byte) :=
  if st.init = false then throw (.throws .notInitialized)
  else if out.length < 16 then throw (.throws .invalidSize)
  else do
    let st ← st.update simd inp 0 inp.length
    st.finalize simd out 0

end Cex.Gcm
