import Verif.Keccak.Objects
import Verif.Rijndael.Ni
import Verif.SCipher.Model

/-!
# Model of the random bit generator BCG (CEX/BCG.cpp)

`P` is the Keccak permutation, `W` the width of the wide loop of `Transform` (0 scalar, 4 AVX, 8 AVX2, 16 AVX512). The entropy provider is an input: every
call that may read it takes the bytes it would return. A call that may start tasks takes the schedules under which they run.
The ownership flag `IsDestroyed` and the accessors are left out; `CyclicReseed()` is false, nothing sets it.
-/

namespace Cex.Drbg
open Cex Cex.Mac Cex.Par Cex.IntTools Cex.Keccak Cex.SCipher Cex.Rijndael

/-- `BCG_INFO` (BCG.cpp:23-26), `BCG version 1.0b`. -/
def bcgInfo : List Byte := [0x42, 0x43, 0x47, 0x20, 0x76, 0x65, 0x72, 0x73, 0x69, 0x6F, 0x6E, 0x20, 0x31, 0x2E, 0x30, 0x62]

/-- `BcgState` (BCG.cpp:28-55) with the parallel profile (107, 127); `prov`: `m_bcgProvider != nullptr`. -/
structure Bcg where
  keys : List Word
  custom : List Byte
  name : List Byte
  nonce : List Byte
  counter : Nat
  keySize : Nat
  reseed : Nat
  threshold : Nat
  rounds : Nat
  init : Bool
  prov : Bool
  prof : Prof

namespace Bcg

/-- The block `BCG::Transform256` (BCG.cpp:584-610) writes for a counter. Its statements are those of `RCS::Transform256`. A fault would leave an empty block;
the theorems show there is none. -/
def blockOf (keys : List Word) (rounds : Nat) (c : List Byte) : List Byte :=
  match transform256 keys rounds c 0 (List.replicate 32 0) 0 with
  | .ok b => b
  | .error _ => []

/-- What `Transform` and `Process` use: `LeIncrement(Counter, 16)` (BCG.cpp:427-536), `BeIncrease8(Nonce, thdCtr, (uint32_t)n)` (558-560), the block function, and
`Transform1024`, `Transform2048`, `Transform4096` (612-638), which call it once per counter. -/
def core (block : List Byte → List Byte) : Core :=
  ⟨List Byte, 32, fun c => leIncrementLen c 16, fun c n => beIncrease8 4 c (List.replicate 32 0) 0 (BitVec.ofNat 32 n), List.replicate 32 0, block,
    fun cs => cs.flatMap block⟩

/-- One task of `Process` (BCG.cpp:555-568). `BCG::Transform` (404-540) has the statements of the stream ciphers' `Generate`. -/
def task (C : Core) (W : Nat) (nonce : C.κ) (oo cnk : Nat) (i : Nat) : Thread C.κ :=
  ⟨(fun _ out => do
      let thdc ← C.jump nonce ((cnk / C.B) * i)
      return (thdc, out)) :: genActs C W (oo + i * cnk) cnk, C.blank⟩

/-- `BCG::Process` (BCG.cpp:542-582). -/
def process (W : Nat) (s : Bcg) (sched : List Nat) (out : List Byte) (oo len : Nat) : M (Bcg × List Byte) :=
  if s.prof.isParallel = false ∨ len < s.prof.blockSize then do
    let r ← runActs (genActs (core (blockOf s.keys s.rounds)) W oo len) s.nonce out
    return ({ s with nonce := r.1 }, r.2)
  else do
    if s.prof.degree = 0 then throw .ub
    let cnk := s.prof.blockSize / s.prof.degree
    let t ← runSched sched (task (core (blockOf s.keys s.rounds)) W s.nonce oo cnk) out
    let nonce := (t.1 (s.prof.degree - 1)).loc
    let aln := cnk * s.prof.degree
    if aln < len then
      let r ← runActs (genActs (core (blockOf s.keys s.rounds)) W (oo + aln) (len - aln)) nonce t.2
      return ({ s with nonce := r.1 }, r.2)
    else return ({ s with nonce := nonce }, t.2)

variable (P : List Byte → M (List Byte)) (W : Nat)

/-- The constructors (BCG.cpp:91-129), `DEF_RESEED = 102400000`; `prov = false` for `Providers::None`. The argument `Parallel` has no effect: the profile is built
with `true`. -/
def new (prov : Bool) (prof : Prof) : Bcg := ⟨[], [], [], List.replicate 32 0, 0, 0, 0, 102400000, 0, false, prov, prof⟩

/-- Assignment to `ReseedThreshold()` (BCG.cpp:173-176). -/
def setThreshold (s : Bcg) (t : Nat) : Bcg := { s with threshold := t }

/-- `ParallelProfile()` returns a reference (BCG.cpp:168-171); `ParallelMaxDegree(Degree)` (324-332) changes the profile. -/
def setProfile (s : Bcg) (p : Prof) : Bcg := { s with prof := p }

/-- `SecurityStrength()` (BCG.cpp:178-181). -/
def securityStrength (s : Bcg) : Nat := s.keySize * 8

/-- `Rounds` (BCG.cpp:282). -/
def roundsFor (keyLen : Nat) : Nat := if keyLen ≠ 128 then keyLen / 4 + 14 else 38

/-- `Name` (BCG.cpp:291-298): the key size in bits, low byte first, and `BCG`. -/
def nameFor (keyLen : Nat) : List Byte := [BitVec.ofNat 8 (keyLen * 8), BitVec.ofNat 8 (keyLen * 8 / 256), 0x42, 0x43, 0x47]

/-- `BCG::Initialize` (BCG.cpp:261-322). `Reset` (74-86) does not clear `Reseed`; the other fields are assigned below. -/
def initKey (s : Bcg) (key iv info : List Byte) : M Bcg :=
  if key.length ≠ 32 ∧ key.length ≠ 64 ∧ key.length ≠ 128 then throw (.throws .invalidKey)
  else if iv.length ≠ 32 then throw (.throws .invalidNonce)
  else do
    let custom := bcgInfo ++ info
    let name := nameFor key.length
    let rounds := roundsFor key.length
    let nonce ← copy iv 0 s.nonce 0 32
    let gen ← Shake.new 136
    let gen ← gen.initAll P key custom name
    let r ← gen.generate P (List.replicate (8 * (rounds + 1) * 4) 0)
    return { s with keys := beWords r.2, custom := custom, name := name, nonce := nonce, counter := if s.init then 0 else s.counter,
                    keySize := if 256 < key.length then 256 else key.length, rounds := rounds, init := true }

/-- `BCG::Derive` (BCG.cpp:383-394); `ent` is what the provider writes into `tmpc`. -/
def derive (key ent : List Byte) : M (List Byte) := do
  let gen ← Shake.new 136
  let gen ← gen.initAll P key ent []
  let r ← gen.generate P key
  return r.2

/-- `BCG::Update` (BCG.cpp:334-379), without `CEX_ENFORCE_LEGALKEY`; `MINKEY_LENGTH = 16`, `MAX_THRESHOLD = 10000`. -/
def update (s : Bcg) (key ent : List Byte) : M Bcg :=
  if key.length < 16 then throw (.throws .invalidKey)
  else if s.reseed + 1 > 10000 then throw (.throws .maxExceeded)
  else do
    let tmpk ← (if s.prov then derive P key ent else pure key)
    let s ← { s with reseed := s.reseed + 1 }.initKey P tmpk s.nonce s.custom
    return { s with counter := 0 }

/-- The end of `Generate` (BCG.cpp:213-238). -/
def checkReseed (s : Bcg) (sched : List Nat) (len : Nat) (ent : List Byte) : M Bcg :=
  if s.prov then
    let c := (s.counter + len) % 2 ^ 64
    if c ≥ s.threshold then
      if s.reseed + 1 > 10000 then throw (.throws .maxExceeded)
      else do
        let r ← { s with counter := c, reseed := s.reseed + 1 }.process W sched (List.replicate 32 0) 0 32
        let s ← r.1.update P r.2 ent
        return { s with counter := 0 }
    else return { s with counter := c }
  else return s

/-- `BCG::Generate(SecureVector, OutOffset, Length)` (BCG.cpp:195-239); `MAX_REQUEST = 102400000`. -/
def generate (s : Bcg) (scheds : Nat → List Nat) (out : List Byte) (oo len : Nat) (ent : List Byte) : M (Bcg × List Byte) :=
  if s.init = false then throw (.throws .notInitialized)
  else if subU out.length oo < len then throw (.throws .invalidSize)
  else if len > 102400000 then throw (.throws .maxExceeded)
  else do
    let r ← s.process W (scheds 0) out oo len
    let s ← r.1.checkReseed P W (scheds 1) len ent
    return (s, r.2)

/-- `BCG::Generate(vector, OutOffset, Length)` (BCG.cpp:241-259). -/
def generateVec (s : Bcg) (scheds : Nat → List Nat) (out : List Byte) (oo len : Nat) (ent : List Byte) : M (Bcg × List Byte) :=
  if s.init = false then throw (.throws .notInitialized)
  else if subU out.length oo < len then throw (.throws .invalidSize)
  else if len > 102400000 then throw (.throws .maxExceeded)
  else do
    let r ← s.generate P W scheds (List.replicate len 0) 0 len ent
    let out ← copy r.2 0 out oo len
    return (r.1, out)

end Bcg
end Cex.Drbg
