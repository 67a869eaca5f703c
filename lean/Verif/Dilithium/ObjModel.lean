import Verif.Dilithium.SchemeModel

/-!
# Model of the class `Dilithium` (CEX/Dilithium.cpp)

The generator is the 32 bytes it gives in `Generate`; `Sign` is built without `DILITHIUM_RANDOMIZED_SIGNING` and does not use it.
-/

namespace Cex.Dilithium
open Cex

/-- The parameter sets of `DilithiumParameters`. -/
inductive Par
  | p2544
  | p4016
  | p4880
  deriving DecidableEq

/-- The constants that the switches select (Dilithium.cpp:214-245, 298-326, 344-372). -/
def Par.params : Par → Params
  | .p2544 => params2544
  | .p4016 => params4016
  | .p4880 => params4880

/-- An `AsymmetricKey` with the primitive `Dilithium`: its class, parameters (`none` is any other value of the enumeration) and bytes. -/
structure Key where
  isPublic : Bool
  par : Option Par
  bytes : List Byte

/-- `Dilithium` (`DilithiumState`, Dilithium.cpp:10-35, and the two key pointers). -/
structure Obj where
  par : Option Par
  publicKey : Option Key
  privateKey : Option Key
  initialized : Bool
  signer : Bool

/-- The constructors (Dilithium.cpp:37-65) with a valid set. -/
def Obj.new (q : Par) : Obj := ⟨some q, none, none, false, false⟩

/-- `Enumeral` (Dilithium.cpp:90-93): the name of the enumerator. -/
def Obj.enumeral (_ : Obj) : String := "SphincsPlus"

/-- The switch on the parameters; the default throws. -/
def Obj.params (o : Obj) : M Params :=
  match o.par with
  | some q => return q.params
  | none => .error (.throws .invalidParam)

/-- `PublicKeySize` (Dilithium.cpp:147-176). -/
def Obj.publicKeySize (o : Obj) : M Nat := return (← o.params).pkSize

/-- `PrivateKeySize` (Dilithium.cpp:116-145). -/
def Obj.privateKeySize (o : Obj) : M Nat := return (← o.params).skSize

/-- `SignatureSize` (Dilithium.cpp:178-207). -/
def Obj.signatureSize (o : Obj) : M Nat := return (← o.params).sigSize

variable (P : List Byte → M (List Byte))

/-- `Generate` (Dilithium.cpp:209-251): public and private key. -/
def Obj.generate (o : Obj) (fuel : Nat) (seed : List Byte) : M (Key × Key) := do
  let pr ← o.params
  let (pk, sk) ← Dilithium.generate P pr fuel (List.replicate pr.pkSize 0) (List.replicate pr.skSize 0) seed
  return (⟨true, o.par, pk⟩, ⟨false, o.par, sk⟩)

/-- `Initialize` (Dilithium.cpp:253-279) with a key of Dilithium for signatures. -/
def Obj.initialize (o : Obj) (k : Key) : Obj :=
  if k.isPublic then { o with publicKey := some k, par := k.par, signer := false, initialized := true }
  else { o with privateKey := some k, par := k.par, signer := true, initialized := true }

/-- `std::vector::resize`. -/
def resize (v : List Byte) (n : Nat) : List Byte := v.take n ++ List.replicate (n - v.length) 0

/-- `Sign` (Dilithium.cpp:281-329): the vector `Signature` afterwards; the return value is its length. -/
def Obj.sign (o : Obj) (fuel : Nat) (msg sig : List Byte) : M (List Byte) :=
  if !o.initialized then .error (.throws .illegalOperation)
  else if !o.signer then .error (.throws .notInitialized)
  else if msg.length = 0 then .error (.throws .invalidParam)
  else do
    let pr ← o.params
    match o.privateKey with
    | none => .error .ub
    | some k => Dilithium.sign P pr fuel (resize sig (pr.sigSize + msg.length)) msg k.bytes

/-- `Verify` (Dilithium.cpp:331-375): the return value and the vector `Message` afterwards. For a signature that is too short, `Signature.size() - SIGNATURE_SIZE` wraps and
`resize` throws `std::length_error`, which is `none` here. -/
def Obj.verify (o : Obj) (fuel : Nat) (sig msg : List Byte) : M (Option (Bool × List Byte)) :=
  if !o.initialized then .error (.throws .illegalOperation)
  else if o.signer then .error (.throws .notInitialized)
  else do
    let pr ← o.params
    if sig.length < pr.sigSize then return none
    else
      match o.publicKey with
      | none => .error .ub
      | some k => do return some (← Dilithium.verify P pr fuel (resize msg (sig.length - pr.sigSize)) sig k.bytes)

/-- A call on a `Dilithium` object; its arguments are arbitrary. -/
inductive Call
  | init (k : Key)
  | generate (fuel : Nat) (seed : List Byte)
  | sign (fuel : Nat) (msg sig : List Byte)
  | verify (fuel : Nat) (sig msg : List Byte)

/-- The object after a call; only `Initialize` changes it. -/
def Obj.after (o : Obj) : Call → Obj
  | .init k => o.initialize k
  | _ => o

end Cex.Dilithium
