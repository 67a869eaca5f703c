import Verif.SCipher.ChaCha
import Verif.Mac.Interface
import Verif.Keccak.Objects

/-!
# Model of the authenticated mode of the stream ciphers

`Transform`, `SetAssociatedData` and `Finalize` of the authenticated ciphers have one shape. They are
written once, over a MAC object (`MacOps`), a keystream engine (`Process`, modelled in `Model.lean`) and a
`Fmt` with the strings in which the ciphers differ. `IsEncryption` selects `encrypt` or `decrypt`.
-/

namespace Cex.SCipher
open Cex Cex.IntTools Cex.Mac

/-- `Process(Input, InOffset, Output, OutOffset, Length)` on the counter. -/
abbrev Engine (κ : Type) := κ → List Byte → Nat → List Byte → Nat → Nat → M (κ × List Byte)

/-- The strings a cipher feeds to the MAC: `pos` the arrays with the block counter, `coded` whether
`SetAssociatedData` appends the length (and refuses an empty input), `fin` the string added by
`Finalize` for the value of `Counter`. -/
structure Fmt (κ : Type) where
  pos : κ → List (List Byte)
  coded : Bool
  fin : BitVec 64 → List Byte

/-- The part of the cipher's state used in authenticated mode: the block counter `Nonce`, the
authenticator, `Counter` and `MacTag`. -/
structure Auth (A : MacOps) (κ : Type) where
  nonce : κ
  mac : A.σ
  counter : BitVec 64
  macTag : List Byte

namespace Auth
variable {A : MacOps} {κ : Type} (F : Fmt κ)

/-- Consecutive `Update` calls with whole arrays. -/
def updates : A.σ → List (List Byte) → M A.σ
  | m, [] => return m
  | m, x :: xs => do
    let m ← A.update m x 0 x.length
    updates m xs

/-- `SetAssociatedData` of an initialised authenticated cipher (ChaChaP20.cpp:424-437, CSX512.cpp:411-434,
TSX256.cpp:303-326, RCS.cpp:547-570, RWS.cpp:482-505). -/
def setAad (s : Auth A κ) (inp : List Byte) (off len : Nat) : M (Auth A κ) := do
  if F.coded ∧ len = 0 then throw (.throws .invalidSize)
  let m ← A.update s.mac inp off len
  let m ← (if F.coded then A.update m (leRep 4 (BitVec.ofNat 32 len)) 0 4 else pure m)
  return { s with mac := m }

/-- `Finalize` (ChaChaP20.cpp:496-508, CSX512.cpp:493-505, TSX256.cpp:385-395, RCS.cpp:630-644,
RWS.cpp:565-579). -/
def finish (s : Auth A κ) : M (Auth A κ) := do
  let x := F.fin s.counter
  let m ← A.update s.mac x 0 x.length
  let r ← A.finalize m s.macTag 0
  return { s with mac := r.1, macTag := r.2 }

/-- `Transform` for encryption (ChaChaP20.cpp:441-462, CSX512.cpp:438-459, TSX256.cpp:330-351,
RCS.cpp:577-597, RWS.cpp:512-532). -/
def encrypt (E : Engine κ) (s : Auth A κ) (inp : List Byte) (io : Nat) (out : List Byte) (oo len : Nat) :
    M (Auth A κ × List Byte) := do
  if out.length < (len + oo + A.tag) % 2 ^ 64 then throw (.throws .invalidSize)
  let m ← updates s.mac (F.pos s.nonce)
  let p ← E s.nonce inp io out oo len
  let m ← A.update m p.2 oo len
  let s ← finish F { s with nonce := p.1, mac := m, counter := s.counter + BitVec.ofNat 64 len }
  let out ← copy s.macTag 0 p.2 (oo + len) s.macTag.length
  return (s, out)

/-- `Transform` for decryption (ChaChaP20.cpp:471-491, CSX512.cpp:468-488, TSX256.cpp:360-380,
RCS.cpp:606-625, RWS.cpp:541-560). The result `none` stands for `CryptoAuthenticationFailure`: the
caller's array is as before, and the state is the one the next call finds. -/
def decrypt (E : Engine κ) (s : Auth A κ) (inp : List Byte) (io : Nat) (out : List Byte) (oo len : Nat) :
    M (Auth A κ × Option (List Byte)) := do
  let m ← updates s.mac (F.pos s.nonce)
  let m ← A.update m inp io len
  let s ← finish F { s with mac := m, counter := s.counter + BitVec.ofNat 64 len }
  let eq ← compare inp (io + len) s.macTag 0 s.macTag.length
  if eq then do
    let p ← E s.nonce inp io out oo len
    return ({ s with nonce := p.1 }, some p.2)
  else return (s, none)

end Auth

/-! ## The ciphers -/

/-- ChaChaP20 (ChaChaP20.cpp:436, 451-452, 501). -/
def chachaFmt : Fmt (BitVec 32 × BitVec 32) := ⟨fun c => [leRep 4 c.1, leRep 4 c.2], false, fun n => leRep 8 n⟩

/-- CSX512 (CSX512.cpp:421-432, 448-449, 498). -/
def csxFmt : Fmt (BitVec 64 × BitVec 64) := ⟨fun c => [leRep 8 c.1, leRep 8 c.2], true, fun n => leRep 8 n⟩

/-- TSX256, TSX512 and TSX1024 (TSX256.cpp:313-324, 340-341, 388-391): `Custom` is the counter followed by
the name of the cipher. -/
def tsxFmt (name : List Byte) : Fmt (BitVec 64 × BitVec 64) :=
  ⟨fun c => [leRep 8 c.1, leRep 8 c.2], true, fun n => leRep 8 n ++ name⟩

/-- RCS and RWS (RCS.cpp:557-568, 587, 636-637; RWS.cpp:492-503, 522, 571-572). -/
def rcsFmt (B : Nat) : Fmt (List Byte) := ⟨fun c => [c], true, fun n => leRep 8 (n + BitVec.ofNat 64 B + 8)⟩

/-- KMAC behind the interface, without customization (the ciphers pass a `SymmetricKey` with a key only). -/
def kmacOps (P : List Byte → M (List Byte)) (tag : Nat) : MacOps where
  σ := Keccak.Kmac
  tag := tag
  init s k := s.initialize P k [] []
  update s := s.update P
  finalize s := s.finalizeSecure P
  reset s := s.reset

/-- `ChaChaP20-KMAC256`, the `Name()` of the authenticated cipher (ChaChaP20.cpp:255-267). -/
def chachaName : List Byte := "ChaChaP20-KMAC256".toList.map (fun c => BitVec.ofNat 8 c.toNat)

/-- `CSX512-KMAC512` (CSX512.cpp:247-257). -/
def csxName : List Byte := "CSX512-KMAC512".toList.map (fun c => BitVec.ofNat 8 c.toNat)

/-- The keys of an authenticated cipher (ChaChaP20.cpp:375-391, CSX512.cpp:362-378): two `Generate` calls of
cSHAKE with the cipher's key and name. -/
def deriveKeys (P : List Byte → M (List Byte)) (rate n : Nat) (key name : List Byte) : M (List Byte × List Byte) := do
  let g ← Keccak.Shake.new rate
  let g ← g.initAll P key [] name
  let a ← g.generate P (List.replicate n 0)
  let b ← a.1.generate P (List.replicate n 0)
  return (a.2, b.2)

/-- `ChaChaP20::Initialize` of a new authenticated cipher (ChaChaP20.cpp:316-405). -/
def chachaAuthInit (P : List Byte → M (List Byte)) (key nonce info : List Byte) :
    M ((Nat → BitVec 32) × Auth (kmacOps P 32) (BitVec 32 × BitVec 32)) := do
  if key.length ≠ 32 then throw (.throws .invalidKey)
  if nonce.length ≠ 8 then throw (.throws .invalidNonce)
  if 0 < info.length ∧ info.length ≠ 16 then throw (.throws .invalidInfo)
  let custom ← chachaCustom info
  let k ← deriveKeys P 136 32 key chachaName
  let st ← chachaLoad k.1 nonce custom
  let m ← (Keccak.Kmac.fresh 136 32).initialize P k.2 [] []
  return (st, ⟨(0, 0), m, 0, List.replicate 32 0⟩)

/-- `CSX512::Initialize` of a new authenticated cipher (CSX512.cpp:306-392). -/
def csxAuthInit (P : List Byte → M (List Byte)) (key nonce info : List Byte) :
    M ((Nat → BitVec 64) × Auth (kmacOps P 64) (BitVec 64 × BitVec 64)) := do
  if key.length ≠ 64 then throw (.throws .invalidKey)
  if nonce.length ≠ 16 then throw (.throws .invalidNonce)
  let custom ← csxCustom info
  let k ← deriveKeys P 72 64 key csxName
  let st ← csxLoad k.1 nonce custom
  let m ← (Keccak.Kmac.fresh 72 64).initialize P k.2 [] []
  return (st.1, ⟨st.2, m, 0, List.replicate 64 0⟩)

end Cex.SCipher
