import Verif.Keccak.Sha3TreeModel

/-!
# Model of `SHA2Params`, `BlakeParams` and `SkeinParams`

`SHA2Params` has the members and, but for the size test of one constructor, the functions of `KeccakParams`, so it shares the type `KParams`.
-/

namespace Cex.Params
open Cex Cex.IntTools Cex.Keccak

/-! ## SHA2Params -/

/-- The constructor from an array (SHA2Params.cpp:48-73). The size test is made while `m_outputSize` is zero; behind it the constructor reads what that of `KeccakParams` reads
(SHA2Params.cpp:64-72, KeccakParams.cpp:57-67). -/
def sha2FromBytes (a : List Byte) : M KParams :=
  if a.length < 24 + KParams.codeMaxOf 0 then throw (.throws .illegalOperation) else KParams.fromBytes a

/-- `ToBytes` (SHA2Params.cpp:207-221), the same statements as KeccakParams.cpp:199-213. -/
def sha2ToBytes (p : KParams) : M (List Byte) := p.toBytes

/-- `Clone` and `DeepCopy` (SHA2Params.cpp:150-158). -/
def sha2Clone (p : KParams) : M KParams := do sha2FromBytes (← sha2ToBytes p)

/-- `Equals` (SHA2Params.cpp:160-187), the same sum as in KeccakParams.cpp:153-182. -/
def sha2Equals (p q : KParams) : M Bool := p.equals q

/-- The constructor from sizes (SHA2Params.cpp:24-46). -/
def sha2OfSizes (out : BitVec 64) (leaf : BitVec 32) (fan : Byte) : M KParams :=
  if out ≠ 32 ∧ out ≠ 64 then throw (.throws .illegalOperation)
  else if (0 < fan ∧ leaf = 0) ∨ (fan = 0 ∧ leaf ≠ 0) then throw (.throws .illegalOperation)
  else return ⟨0, 1, out, leaf, 0, fan, 0, List.replicate (KParams.codeMaxOf out) 0⟩

/-! ## BlakeParams -/

/-- `BlakeParams` (BlakeParams.h). -/
structure BParams where
  out : Byte
  key : Byte
  fan : Byte
  maxDepth : Byte
  leaf : BitVec 32
  nodeOff : Byte
  nodeDepth : Byte
  inner : Byte
  rsv : Byte
  code : List Byte
  deriving DecidableEq

namespace BParams

/-- `DistributionCodeMax` (BlakeParams.cpp:147-150). -/
def codeMaxOf (out : Byte) : Nat := if out = 32 then 12 else 40
def codeMax (p : BParams) : Nat := codeMaxOf p.out

/-- The constructor from sizes (BlakeParams.cpp:23-46). -/
def ofSizes (out depth fan leaf inner : Byte) : M BParams :=
  if out ≠ 32 ∧ out ≠ 64 then throw (.throws .illegalOperation)
  else if (1 < fan ∧ inner = 0) ∨ (fan = 1 ∧ inner ≠ 0) then throw (.throws .illegalOperation)
  else return ⟨out, 0, fan, depth, leaf.setWidth 32, 0, 0, inner, 0, List.replicate (codeMaxOf out) 0⟩

/-- The constructor from all members (BlakeParams.cpp:79-93): `resize` cuts the code or fills it with zeros. -/
def ofMembers (out key fan maxDepth : Byte) (leaf : BitVec 32) (nodeOff nodeDepth inner : Byte) (code : List Byte) : BParams :=
  ⟨out, key, fan, maxDepth, leaf, nodeOff, nodeDepth, inner, 0, code.take (codeMaxOf out) ++ List.replicate (codeMaxOf out - code.length) 0⟩

/-- `ToBytes` (BlakeParams.cpp:210-226): the members are written to adjacent places of a zeroed vector of `m_outputSize` bytes; what does not fit is written behind its end. -/
def toBytes (p : BParams) : M (List Byte) :=
  if p.out.toNat < 12 + p.code.length then throw .ub
  else return [p.out] ++ [p.key] ++ [p.fan] ++ [p.maxDepth] ++ leRep 4 p.leaf ++ [p.nodeOff] ++ [p.nodeDepth] ++ [p.inner] ++ [p.rsv] ++ p.code ++
    List.replicate (p.out.toNat - (12 + p.code.length)) 0

/-- The constructor from an array (BlakeParams.cpp:48-77). -/
def fromBytes (a : List Byte) : M BParams := do
  if a.length ≠ 32 ∧ a.length ≠ 64 then throw (.throws .illegalOperation)
  let out ← rd a 0
  let key ← rd a 1
  let fan ← rd a 2
  let maxDepth ← rd a 3
  let leaf ← leBytesTo32 a 4
  let nodeOff ← rd a 8
  let nodeDepth ← rd a 9
  let inner ← rd a 10
  let rsv ← rd a 11
  let code ← copy a 12 (List.replicate (codeMaxOf out) 0) 0 (codeMaxOf out)
  return ⟨out, key, fan, maxDepth, leaf, nodeOff, nodeDepth, inner, rsv, code⟩

/-- `Clone` and `DeepCopy` (BlakeParams.cpp:154-163). -/
def clone (p : BParams) : M BParams := do fromBytes (← p.toBytes)

/-- `GetHashCode` (BlakeParams.cpp:170-189). The first four terms are at most 31620 together; the term with the `uint32_t` member is computed modulo `2 ^ 32`. -/
def hashCode (p : BParams) : M (BitVec 32) := do
  let h := BitVec.ofNat 32 (31 * p.out.toNat + 31 * p.key.toNat + 31 * p.fan.toNat + 31 * p.maxDepth.toNat) + 31 * p.leaf
  let h ← KParams.addInt h (31 * p.nodeOff.toNat)
  let h ← KParams.addInt h (31 * p.nodeDepth.toNat)
  let h ← KParams.addInt h (31 * p.inner.toNat)
  let h ← KParams.addInt h (31 * p.rsv.toNat)
  p.code.foldlM (fun h b => KParams.addInt h (31 * b.toNat)) h

/-- `Equals` (BlakeParams.cpp:165-168). -/
def equals (p q : BParams) : M Bool := do
  let a ← p.hashCode
  let b ← q.hashCode
  return a = b

/-- `Reset` (BlakeParams.cpp:196-208). -/
def reset (p : BParams) : BParams := ⟨0, 0, 0, 0, 0, 0, 0, 0, 0, List.replicate p.code.length 0⟩

end BParams

/-! ## SkeinParams -/

/-- `SkeinParams` (SkeinParams.h). -/
structure SParams where
  schema : List Byte
  ver : BitVec 16
  rsv1 : BitVec 16
  out : BitVec 64
  leaf : Byte
  depth : Byte
  fan : Byte
  rsv2 : Byte
  rsv3 : BitVec 32
  code : List Byte
  deriving DecidableEq

namespace SParams

/-- `DistributionCodeMax` (SkeinParams.cpp:144-147): the difference wraps. -/
def codeMaxOf (out : BitVec 64) : Nat := (out - 24).toNat
def codeMax (p : SParams) : Nat := codeMaxOf p.out

/-- `GetHeaderSize` (SkeinParams.cpp:226-229). -/
def headerOf (out : BitVec 64) : Nat := (24 + (out - 24)).toNat

/-- `v.resize(n)` or `std::vector<uint8_t> v(n)`, zeroed; above `max_size()` it throws `std::length_error`, which has no code of the library and stands as `invalidSize`. -/
def zeroed (n : Nat) : M (List Byte) := if 2 ^ 63 ≤ n then throw (.throws .invalidSize) else return List.replicate n 0

/-- The constructor from sizes (SkeinParams.cpp:27-53). -/
def ofSizes (out : BitVec 64) (leaf fan : Byte) : M SParams :=
  if out ≠ 32 ∧ out ≠ 64 ∧ out ≠ 128 then throw (.throws .illegalOperation)
  else if (0 < fan ∧ leaf = 0) ∨ (fan = 0 ∧ leaf ≠ 0) then throw (.throws .illegalOperation)
  else do
    let code ← zeroed (codeMaxOf out)
    return ⟨[83, 72, 65, 51], 1, 0, out, leaf, 0, fan, 0, 0, code⟩

/-- The constructor from all members (SkeinParams.cpp:86-105), for a size that can be allocated: the leaf size is cut to eight bits by the member. -/
def ofMembers (schema : List Byte) (out : BitVec 64) (ver : BitVec 16) (leaf : BitVec 32) (fan depth : Byte) (code : List Byte) : SParams :=
  ⟨schema, ver, 0, out, leaf.setWidth 8, depth, fan, 0, 0, code.take (codeMaxOf out) ++ List.replicate (codeMaxOf out - code.length) 0⟩

/-- `ToBytes` (SkeinParams.cpp:245-261): the members are written to adjacent places of a zeroed vector of `GetHeaderSize()` bytes; what does not fit is written behind its end. -/
def toBytes (p : SParams) : M (List Byte) :=
  if 2 ^ 63 ≤ headerOf p.out then throw (.throws .invalidSize)
  else if p.schema.length < 4 ∨ headerOf p.out < 24 + p.code.length then throw .ub
  else return p.schema.take 4 ++ leRep 2 p.ver ++ leRep 2 p.rsv1 ++ leRep 8 p.out ++ [p.leaf] ++ [p.depth] ++ [p.fan] ++ [p.rsv2] ++ leRep 4 p.rsv3 ++ p.code ++
    List.replicate (headerOf p.out - (24 + p.code.length)) 0

/-- The constructor from an array (SkeinParams.cpp:55-84). The size test is made while `m_outputSize` is zero. -/
def fromBytes (a : List Byte) : M SParams := do
  if a.length < headerOf 0 then throw (.throws .illegalOperation)
  let schema ← copy a 0 (List.replicate 4 0) 0 4
  let ver ← leBytesTo16 a 4
  let rsv1 ← leBytesTo16 a 6
  let out ← leBytesTo64 a 8
  let leaf ← rd a 16
  let depth ← rd a 17
  let fan ← rd a 18
  let rsv2 ← rd a 19
  let rsv3 ← leBytesTo32 a 20
  let z ← zeroed (codeMaxOf out)
  let code ← copy a 24 z 0 (codeMaxOf out)
  return ⟨schema, ver, rsv1, out, leaf, depth, fan, rsv2, rsv3, code⟩

/-- `Clone` and `DeepCopy` (SkeinParams.cpp:188-196). -/
def clone (p : SParams) : M SParams := do fromBytes (← p.toBytes)

/-- `GetHashCode` (SkeinParams.cpp:203-224). The first three terms are at most 4071075 together; those with `uint64_t` and `uint32_t` members are computed modulo a power of two. -/
def hashCode (p : SParams) : M (BitVec 32) := do
  let h := BitVec.ofNat 32 (31 * p.ver.toNat + 31 * p.rsv1.toNat + 31 * p.leaf.toNat) + (31 * p.out).setWidth 32
  let h ← KParams.addInt h (31 * p.depth.toNat)
  let h ← KParams.addInt h (31 * p.fan.toNat)
  let h ← KParams.addInt h (31 * p.rsv2.toNat)
  let h := h + 31 * p.rsv3
  let h ← p.code.foldlM (fun h b => KParams.addInt h (31 * b.toNat)) h
  p.schema.foldlM (fun h b => KParams.addInt h (31 * b.toNat)) h

/-- `Equals` (SkeinParams.cpp:198-201). -/
def equals (p q : SParams) : M Bool := do
  let a ← p.hashCode
  let b ← q.hashCode
  return a = b

end SParams
end Cex.Params
