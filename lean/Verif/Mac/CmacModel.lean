import Verif.Modes.Model

/-!
# Model of CMAC (CEX/CMAC.cpp)

The CBC mode instance inside CMAC is represented by its keyed block encryption `enc` and its IV register.
Key-size checks are a parameter of `initialize` (`keyOk`).
-/

namespace Cex.Mac
open Cex Cex.Modes

/-- `a - b` on `size_t`. -/
def subU (a b : Nat) : Nat := (a + (2 ^ 64 - b)) % 2 ^ 64

theorem subU_le {a b : Nat} (h : b ≤ a) (ha : a < 2 ^ 64) : subU a b = a - b := by
  rw [subU, show a + (2 ^ 64 - b) = (a - b) + 2 ^ 64 by omega, Nat.add_mod_right, Nat.mod_eq_of_lt (by omega)]

/-- `CmacState` (CMAC.cpp:12-45) together with the CBC instance. -/
structure Cmac where
  buf : List Byte
  state : List Byte
  pos : Nat
  init : Bool
  lu : List Byte × List Byte
  enc : List Byte → List Byte
  iv : List Byte

/-- A constructed, not yet initialised instance (CMAC.cpp:49-97). -/
def Cmac.fresh : Cmac := ⟨List.replicate 16 0, List.replicate 16 0, 0, false, ([], []), id, List.replicate 16 0⟩

/-- `CMAC::Reset` and `CmacState::Reset` (CMAC.cpp:37-44, 233-244). -/
def Cmac.reset (st : Cmac) : M Cmac := do
  let iv ← clear st.iv 0 16
  let buf ← clear st.buf 0 st.buf.length
  let state ← clear st.state 0 st.state.length
  return { st with iv := iv, buf := buf, state := state, pos := 0, init := false, lu := ([], []) }

/-- `m_cbcMode->EncryptBlock(Input, InOffset, State, 0)` (CBC.cpp:171-186). -/
def Cmac.encBlock (st : Cmac) (inp : List Byte) (io : Nat) : M Cmac := do
  let r ← cbcEncBlock ⟨st.enc, id⟩ inp io 0 st.iv st.state
  return { st with iv := r.1, state := r.2 }

/-- The do-while loop of `CMAC::ShiftLeft` (CMAC.cpp:317-337), `n` = `ctr`. `tmpb` is a `uint32_t` whose
shifted value is truncated to 8 bits, so 8-bit words suffice. -/
def shiftLeftLoop (inp : List Byte) : Nat → List Byte → Byte → M (List Byte × Byte)
  | 0, out, bit => .ok (out, bit)
  | n + 1, out, bit => do
    let t ← rd inp n
    let out ← wr out n ((t <<< 1) ||| bit)
    shiftLeftLoop inp n out ((t >>> 7) &&& 1)

/-- `CMAC::DoubleLu` (CMAC.cpp:293-300): `MIX_C128 >> ((1 - carry) << 3)` is 0x87 or 0. -/
def doubleLu (inp out : List Byte) : M (List Byte) := do
  if inp.length = 0 then throw .ub
  let s ← shiftLeftLoop inp inp.length out 0
  let x ← rd s.1 (inp.length - 1)
  wr s.1 (inp.length - 1) (x ^^^ ((0x87 : Byte) >>> ((1 - s.2.toNat) <<< 3)))

/-- `CMAC::Initialize` (CMAC.cpp:191-231) with the block encryption of the new key. -/
def Cmac.initialize (st : Cmac) (keyOk : Bool) (enc : List Byte → List Byte) : M Cmac := do
  if keyOk = false then throw (.throws .invalidKey)
  let st ← (if st.init then st.reset else pure st)
  let iv ← cbcInit (List.replicate 16 0)
  let r ← cbcEncBlock ⟨enc, id⟩ (List.replicate 16 0) 0 0 iv (List.replicate 16 0)
  let k1 ← doubleLu r.2 (List.replicate 16 0)
  let k2 ← doubleLu k1 (List.replicate 16 0)
  let iv ← cbcInit (List.replicate 16 0)
  return { st with enc := enc, lu := (k1, k2), iv := iv, init := true }

/-- The `while (Length > BLOCK_SIZE)` loop of `Update` (CMAC.cpp:275-280). -/
def cmacLoop (inp : List Byte) (io len : Nat) (st : Cmac) : M (Cmac × Nat × Nat) :=
  if 16 < len then do
    let st ← st.encBlock inp io
    cmacLoop inp (io + 16) (len - 16) st
  else .ok (st, io, len)
termination_by len

/-- A full buffer is processed before more input is taken (CMAC.cpp:258-262). -/
def Cmac.flush (st : Cmac) : M Cmac :=
  if st.pos = 16 then do
    let st ← st.encBlock st.buf 0
    return { st with pos := 0 }
  else return st

/-- The filling of the buffer and the block loop (CMAC.cpp:264-281). -/
def Cmac.fill (st : Cmac) (inp : List Byte) (io len : Nat) : M (Cmac × Nat × Nat) :=
  if 16 - st.pos < len then do
    let buf ← copy inp io st.buf st.pos (16 - st.pos)
    let st' ← { st with buf := buf }.encBlock buf 0
    cmacLoop inp (io + (16 - st.pos)) (len - (16 - st.pos)) { st' with pos := 0 }
  else return (st, io, len)

/-- The rest is stored (CMAC.cpp:283-287). -/
def Cmac.store (inp : List Byte) (s : Cmac × Nat × Nat) : M Cmac :=
  if 0 < s.2.2 then do
    let buf ← copy inp s.2.1 s.1.buf s.1.pos s.2.2
    return { s.1 with buf := buf, pos := s.1.pos + s.2.2 }
  else return s.1

/-- `CMAC::Update` (CMAC.cpp:246-289). -/
def Cmac.update (st : Cmac) (inp : List Byte) (io len : Nat) : M Cmac :=
  if st.init = false then throw (.throws .notInitialized)
  else if subU inp.length io < len then throw (.throws .invalidSize)
  else if len = 0 then return st
  else do
    let st ← st.flush
    if 16 < st.pos then throw .ub
    else do
      let s ← st.fill inp io len
      Cmac.store inp s

/-- `CMAC::Pad` (CMAC.cpp:302-315). -/
def cmacPad (b : List Byte) (off len : Nat) : M (List Byte) :=
  if off ≠ len then do
    let b ← wr b off 0x80
    loopN (len - (off + 1)) (off + 1) (fun i b => wr b i 0) b
  else return b

/-- Padding and subkey masking inside `Finalize` (CMAC.cpp:164-173). -/
def cmacMask (st : Cmac) : M (List Byte) := do
  let buf ← cmacPad st.buf st.pos st.buf.length
  if st.pos ≠ 16 then xorInto st.lu.2 0 buf 0 16 else xorInto st.lu.1 0 buf 0 16

/-- `CMAC::Finalize(std::vector)` (CMAC.cpp:152-178). -/
def Cmac.finalize (st : Cmac) (out : List Byte) (oo : Nat) : M (Cmac × List Byte) :=
  if st.init = false then throw (.throws .notInitialized)
  else if subU out.length oo < 16 then throw (.throws .invalidSize)
  else do
    let buf ← cmacMask st
    let st ← { st with buf := buf }.encBlock buf 0
    let out ← copy st.state 0 out oo 16
    return (st, out)

/-- `CMAC::Compute` (CMAC.cpp:132-150) into a 16-byte output. -/
def Cmac.compute (st : Cmac) (inp : List Byte) : M (Cmac × List Byte) := do
  let st ← st.update inp 0 inp.length
  st.finalize (List.replicate 16 0) 0

/-- `CMAC::Finalize(SecureVector)` (CMAC.cpp:180-189), the tag and the state afterwards. -/
def Cmac.finalizeSecure (st : Cmac) : M (Cmac × List Byte) := do
  let r ← st.finalize (List.replicate 16 0) 0
  let st ← r.1.reset
  return (st, r.2)

end Cex.Mac
