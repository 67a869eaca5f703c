import Verif.SCipher.Auth
import Verif.Kdf.Fill

/-!
# Model of the state objects of the stream ciphers: serialisation and repeated initialisation

ChaChaP20, CSX512, RCS and RWS. The round keys and states of words are given as their bytes in memory.
-/

namespace Cex.SCipher
open Cex Cex.IntTools Cex.Kdf

/-! ## Writing and reading at a moving offset -/

/-- `MemoryTools::Copy` or `CopyFromObject` of a whole array to `state` at `soff`, `soff` moved on (e.g. ChaChaP20.cpp:140-141). -/
def put (x : List Byte) (b : List Byte × Nat) : M (List Byte × Nat) := do
  let o ← copy x 0 b.1 b.2 x.length
  return (o, b.2 + x.length)

/-- A vector behind its length as `uint16_t` (e.g. ChaChaP20.cpp:143-147). -/
def putVec (x : List Byte) (b : List Byte × Nat) : M (List Byte × Nat) := do
  let b ← put (leRep 2 (BitVec.ofNat 16 x.length)) b
  put x b

/-- The round keys of RCS and RWS: as `putVec`, but the length copied is the 16-bit one (RCS.cpp:204-209, RWS.cpp:163-167). -/
def putKeys (x : List Byte) (b : List Byte × Nat) : M (List Byte × Nat) := do
  let vlen : BitVec 16 := BitVec.ofNat 16 x.length
  let b ← put (leRep 2 vlen) b
  let o ← copy x 0 b.1 b.2 vlen.toNat
  return (o, b.2 + vlen.toNat)

/-- A `bool` as one byte. -/
def boolByte (b : Bool) : Byte := if b then 1#8 else 0#8

/-- Copying `n` bytes at `soff` to an object of that size (e.g. ChaChaP20.cpp:84-85). -/
def get (inp : List Byte) (n : Nat) (off : Nat) : M (List Byte × Nat) := do
  let x ← copy inp off (List.replicate n 0) 0 n
  return (x, off + n)

/-- A vector behind its length (e.g. ChaChaP20.cpp:87-91), of elements of `w` bytes (RCS.cpp:115-123). -/
def getVec (inp : List Byte) (w : Nat) (off : Nat) : M (List Byte × Nat) := do
  let l ← get inp 2 off
  let vlen := (leUnrep 16 l.1).toNat
  let x ← copy inp l.2 (List.replicate (vlen / w * w) 0) 0 vlen
  return (x, l.2 + vlen)

/-- A `bool` from a byte; reading one that is neither 0 nor 1 is undefined. -/
def getBool (inp : List Byte) (off : Nat) : M (Bool × Nat) := do
  let x ← get inp 1 off
  if x.1 = [0#8] then return (false, x.2) else if x.1 = [1#8] then return (true, x.2) else throw .ub

/-! ## ChaChaP20 and CSX512 -/

/-- The members of `CSX256State` and `CSX512State` (ChaChaP20.cpp:31-41, CSX512.cpp:27-37). -/
structure CsxState where
  state : List Byte
  custom : List Byte
  macKey : List Byte
  macTag : List Byte
  nonce : List Byte
  counter : BitVec 64
  isAuthenticated : Bool
  isEncryption : Bool
  isInitialized : Bool
deriving DecidableEq

namespace CsxState

/-- `Serialize` (ChaChaP20.cpp:130-174, CSX512.cpp:118-162). -/
def serialize (s : CsxState) : M (List Byte) := do
  let b := (List.replicate (s.state.length + s.custom.length + s.macKey.length + s.macTag.length + s.nonce.length + 8 + 3 * 2 + 3 * 1) 0, 0)
  let b ← put s.state b
  let b ← putVec s.custom b
  let b ← putVec s.macKey b
  let b ← putVec s.macTag b
  let b ← put s.nonce b
  let b ← put (leRep 8 s.counter) b
  let b ← put [boolByte s.isAuthenticated] b
  let b ← put [boolByte s.isEncryption] b
  let b ← put [boolByte s.isInitialized] b
  return b.1

/-- `DeSerialize` (ChaChaP20.cpp:75-116, CSX512.cpp:65-106) for a state of `n` bytes and a nonce of `m`. -/
def deserialize (n m : Nat) (inp : List Byte) : M CsxState := do
  let state ← get inp n 0
  let custom ← getVec inp 1 state.2
  let macKey ← getVec inp 1 custom.2
  let macTag ← getVec inp 1 macKey.2
  let nonce ← get inp m macTag.2
  let counter ← get inp 8 nonce.2
  let a ← getBool inp counter.2
  let e ← getBool inp a.2
  let i ← getBool inp e.2
  return ⟨state.1, custom.1, macKey.1, macTag.1, nonce.1, leUnrep 64 counter.1, a.1, e.1, i.1⟩

/-- The constructor from a state (ChaChaP20.cpp:187-202, CSX512.cpp:180-195): `thr` is `STATE_THRESHOLD`, `rate` and `tag` those of the KMAC. -/
def restore (P : List Byte → M (List Byte)) (n m thr rate tag : Nat) (inp : List Byte) : M (CsxState × Option Keccak.Kmac) := do
  if ¬ inp.length ≥ thr then throw (.throws .invalidKey)
  let s ← deserialize n m inp
  if s.isAuthenticated then do
    let k ← (Keccak.Kmac.fresh rate tag).initialize P s.macKey [] []
    return (s, some k)
  else return (s, none)

/-- `ChaChaP20(SecureVector<uint8_t> &State)`. -/
abbrev restoreChacha (P : List Byte → M (List Byte)) : List Byte → M (CsxState × Option Keccak.Kmac) := restore P 56 8 155 136 32

/-- `CSX512(SecureVector<uint8_t> &State)`. -/
abbrev restoreCsx (P : List Byte → M (List Byte)) : List Byte → M (CsxState × Option Keccak.Kmac) := restore P 112 16 243 72 64

end CsxState

/-! ## RCS and RWS -/

/-- The members of `RcsState` and `RwsState` (RCS.cpp:42-66, RWS.cpp:27-42). -/
structure RcsState where
  roundKeys : List Byte
  custom : List Byte
  macKey : List Byte
  macTag : List Byte
  name : List Byte
  nonce : List Byte
  counter : BitVec 64
  rounds : BitVec 32
  authenticator : Byte
  mode : Byte
  isAuthenticated : Bool
  isEncryption : Bool
  isInitialized : Bool
deriving DecidableEq

namespace RcsState

/-- `Serialize` (RCS.cpp:190-258, RWS.cpp:153-216). The array has room for seven lengths. -/
def serialize (s : RcsState) : M (List Byte) := do
  let b := (List.replicate (s.roundKeys.length + s.custom.length + s.macKey.length + s.macTag.length + s.name.length + s.nonce.length + 8 + 4 + 1 + 1 + 3 * 1 + 7 * 2) 0, 0)
  let b ← putKeys s.roundKeys b
  let b ← putVec s.custom b
  let b ← putVec s.macKey b
  let b ← putVec s.macTag b
  let b ← putVec s.name b
  let b ← putVec s.nonce b
  let b ← put (leRep 8 s.counter) b
  let b ← put (leRep 4 s.rounds) b
  let b ← put [s.authenticator] b
  let b ← put [s.mode] b
  let b ← put [boolByte s.isAuthenticated] b
  let b ← put [boolByte s.isEncryption] b
  let b ← put [boolByte s.isInitialized] b
  return b.1

/-- `DeSerialize` (RCS.cpp:107-170, RWS.cpp:78-137); `w` is the size of an element of `RoundKeys`. -/
def deserialize (w : Nat) (inp : List Byte) : M RcsState := do
  let roundKeys ← getVec inp w 0
  let custom ← getVec inp 1 roundKeys.2
  let macKey ← getVec inp 1 custom.2
  let macTag ← getVec inp 1 macKey.2
  let name ← getVec inp 1 macTag.2
  let nonce ← getVec inp 1 name.2
  let counter ← get inp 8 nonce.2
  let rounds ← get inp 4 counter.2
  let au ← get inp 1 rounds.2
  let mode ← get inp 1 au.2
  let a ← getBool inp mode.2
  let e ← getBool inp a.2
  let i ← getBool inp e.2
  let auv ← rd au.1 0
  let mov ← rd mode.1 0
  return ⟨roundKeys.1, custom.1, macKey.1, macTag.1, name.1, nonce.1, leUnrep 64 counter.1, leUnrep 32 rounds.1, auv, mov, a.1, e.1, i.1⟩

/-- `KMAC(KmacModes)` for a mode other than `None`: rate and tag (KMAC.cpp:55-88, Macs.h:80-88). -/
def macOf (a : Byte) : Keccak.Kmac :=
  if a = 16#8 then Keccak.Kmac.fresh 168 16 else if a = 17#8 then Keccak.Kmac.fresh 136 32 else Keccak.Kmac.fresh 72 64

/-- The constructor from a state (RCS.cpp:271-286, RWS.cpp:229-244); here the size must exceed `STATE_THRESHOLD`. -/
def restore (P : List Byte → M (List Byte)) (w thr : Nat) (inp : List Byte) : M (RcsState × Option Keccak.Kmac) := do
  if ¬ inp.length > thr then throw (.throws .invalidKey)
  let s ← deserialize w inp
  if s.authenticator ≠ 0#8 then do
    let k ← (macOf s.authenticator).initialize P s.macKey [] []
    return (s, some k)
  else return (s, none)

/-- `RCS(SecureVector<uint8_t> &State)`. -/
abbrev restoreRcs (P : List Byte → M (List Byte)) (w : Nat) : List Byte → M (RcsState × Option Keccak.Kmac) := restore P w 343

/-- `RWS(SecureVector<uint8_t> &State)`. -/
abbrev restoreRws (P : List Byte → M (List Byte)) : List Byte → M (RcsState × Option Keccak.Kmac) := restore P 4 838

end RcsState

/-! ## Repeated initialisation

`Custom` survives `Reset` as an array: cleared in ChaChaP20, RCS and RWS (ChaChaP20.cpp:120, RCS.cpp:179,
RWS.cpp:142), not even cleared in CSX512 (CSX512.cpp:108-116). A new object has an empty one. -/

/-- `Custom` in `ChaChaP20::Initialize` (ChaChaP20.cpp:342-359), found with the content `old`. -/
def chachaCustomFrom (old info : List Byte) : M (List Byte) :=
  if info.length ≠ 0 then copy info 0 (resize (List.replicate old.length 0) 16) 0 (min info.length 16)
  else copy sigmaInfo 0 (resize (List.replicate old.length 0) 16) 0 16

/-- `Custom` in `CSX512::Initialize` (CSX512.cpp:329-346). -/
def csxCustomFrom (old info : List Byte) : M (List Byte) :=
  if info.length ≠ 0 then copy info 0 (resize old 48) 0 (min info.length 48)
  else copy csxSigma 0 (resize old 48) 0 48

/-- `Custom` in `RCS::Initialize` and `RWS::Initialize` (RCS.cpp:418-451, RWS.cpp:376-416). -/
def rcsCustomFrom (old info : List Byte) : M (List Byte) :=
  if info.length ≠ 0 then copy info 0 (resize (List.replicate old.length 0) info.length) 0 info.length
  else pure (List.replicate old.length 0)

/-- `ChaChaP20::Initialize` of a used cipher without authentication (ChaChaP20.cpp:316-366). -/
def chachaReinit (old key nonce info : List Byte) : M ((Nat → BitVec 32) × (BitVec 32 × BitVec 32)) := do
  if key.length ≠ 32 then throw (.throws .invalidKey)
  if nonce.length ≠ 8 then throw (.throws .invalidNonce)
  if 0 < info.length ∧ info.length ≠ 16 then throw (.throws .invalidInfo)
  let custom ← chachaCustomFrom old info
  let st ← chachaLoad key nonce custom
  return (st, (0, 0))

/-- `CSX512::Initialize` of a used cipher without authentication (CSX512.cpp:306-352). -/
def csxReinit (old key nonce info : List Byte) : M ((Nat → BitVec 64) × (BitVec 64 × BitVec 64)) := do
  if key.length ≠ 64 then throw (.throws .invalidKey)
  if nonce.length ≠ 16 then throw (.throws .invalidNonce)
  let custom ← csxCustomFrom old info
  csxLoad key nonce custom

/-- The name string of RCS or RWS (RCS.cpp:453-464, RWS.cpp:418-428). -/
def rcsNameOf (counter : BitVec 64) (keyLen : Nat) (name : List Byte) : List Byte := leRep 8 counter ++ leRep 2 (BitVec.ofNat 16 (keyLen * 8)) ++ name

/-- The bytes of the round keys of RCS with a 256 or 512-bit key (RCS.cpp:418-516), before they are put into words. `Name()` is the same for every
key of an unauthenticated cipher. -/
def rcsRoundKeys (P : List Byte → M (List Byte)) (old key nonce info name : List Byte) : M (List Byte) := do
  if ¬ (key.length = 32 ∨ key.length = 64) then throw (.throws .invalidKey)
  if nonce.length ≠ 32 then throw (.throws .invalidNonce)
  let custom ← rcsCustomFrom old info
  let g ← Keccak.Shake.new (if key.length = 64 then 72 else 136)
  let g ← g.initAll P key custom (rcsNameOf 1 key.length name)
  let r ← g.generate P (List.replicate (32 * ((if key.length = 32 then 22 else 30) + 1)) 0)
  return r.2

/-- `RCS`, the `Name()` of the cipher without authentication (SymmetricCiphers.cpp:53-54). -/
def rcsName : List Byte := "RCS".toList.map (fun c => BitVec.ofNat 8 c.toNat)

end Cex.SCipher
