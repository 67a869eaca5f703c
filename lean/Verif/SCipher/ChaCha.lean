import Verif.SCipher.ChaChaProg
import Verif.SCipher.Model

/-!
# Model of the ChaCha block functions

The mixing code is the straight-line programs of `ChaChaProg.lean`, executed over three kinds of word:
32- or 64-bit integers, the 64-bit integers of which `PermuteP512C` uses the low half, and SIMD registers
(a word for every lane).
-/

namespace Cex.SCipher
open Cex Cex.IntTools

/-- The operations of the mixing code on a type of words. -/
structure Ops (α : Type) where
  add : α → α → α
  xor : α → α → α
  rot : α → Nat → α

/-- A statement: `X[a] += X[b]` or `X[a] = Rot(X[a] ^ X[b], r)`. -/
def step {α : Type} (o : Ops α) (X : Nat → α) : Ins → Nat → α
  | .add a b => fun i => if i = a then o.add (X a) (X b) else X i
  | .mix a b r => fun i => if i = a then o.rot (o.xor (X a) (X b)) r else X i

/-- A sequence of statements. -/
def exec {α : Type} (o : Ops α) (prog : List Ins) (X : Nat → α) : Nat → α := prog.foldl (step o) X

/-- `n` passes through the loop. -/
def passes {α : Type} (o : Ops α) (prog : List Ins) : Nat → (Nat → α) → Nat → α
  | 0, X => X
  | n + 1, X => passes o prog n (exec o prog X)

/-- `RotFL32`, `RotFL64` (IntegerTools.h:2734-2739, 2749-2754), also `UInt512::RotL32` and its siblings
per lane. -/
def rotl {w : Nat} (x : BitVec w) (r : Nat) : BitVec w := (x <<< r) ||| (x >>> (w - r))

/-- `uint32_t` or `uint64_t`. -/
def wordOps (w : Nat) : Ops (BitVec w) := ⟨fun x y => x + y, fun x y => x ^^^ y, rotl⟩

/-- `uint64_t` variables handed to `RotFL32(uint32_t, …)` (ChaCha.h:191, 199-263). -/
def halfOps : Ops (BitVec 64) := ⟨fun x y => x + y, fun x y => x ^^^ y, fun x r => (rotl (x.setWidth 32) r).setWidth 64⟩

/-- A SIMD register with `n` lanes. -/
def laneOps (n w : Nat) : Ops (Fin n → BitVec w) :=
  ⟨fun x y l => x l + y l, fun x y l => x l ^^^ y l, fun x r l => rotl (x l) r⟩

/-- The initial array `X` (ChaCha.h:191-194, 298-313, 997-1000, 1116-1119 and siblings). -/
def start {α : Type} (st : Nat → α) (c0 c1 : α) : Nat → α :=
  fun i => if i < 12 then st i else if i = 12 then c0 else if i = 13 then c1 else st (i - 2)

/-- Mixing and feed-forward. -/
def permute {α : Type} (o : Ops α) (prog : List Ins) (n : Nat) (st : Nat → α) (c0 c1 : α) : Nat → α :=
  fun i => o.add (passes o prog n (start st c0 c1) i) (start st c0 c1 i)

/-- Sixteen words stored little-endian (ChaCha.h:966-981, 1083-1098). -/
def storeWords (k : Nat) {w : Nat} (X : Nat → BitVec w) : List Byte := (List.range 16).flatMap (fun i => leRep k (X i))

/-- `PermuteP512C` with `Rounds = 2 * n` (ChaCha.h:188-283). -/
def permuteP512C (n : Nat) (st : Nat → BitVec 32) (c : BitVec 32 × BitVec 32) : List Byte :=
  storeWords 4 (fun i => ((permute halfOps progP512C n (fun j => (st j).setWidth 64) (c.1.setWidth 64) (c.2.setWidth 64) i).setWidth 32
    : BitVec 32))

/-- `PermuteR20P512U` (ChaCha.h:295-982). -/
def permuteR20P512U (st : Nat → BitVec 32) (c : BitVec 32 × BitVec 32) : List Byte :=
  storeWords 4 (permute (wordOps 32) progR20P512U 1 st c.1 c.2)

/-- `PermuteP1024C` with `Rounds = 2 * n` (ChaCha.h:994-1099). -/
def permuteP1024C (n : Nat) (st : Nat → BitVec 64) (c : BitVec 64 × BitVec 64) : List Byte :=
  storeWords 8 (permute (wordOps 64) progP1024C n st c.1 c.2)

/-- The horizontally vectorised functions: the counters fill the lanes of words 12 and 13, the other
words are the same in every lane, `Store…` writes the lanes one block after the other (ChaCha.h:69-171). -/
def permuteWide (k : Nat) {w : Nat} (prog : List Ins) (n : Nat) (st : Nat → BitVec w) (cs : List (BitVec w × BitVec w)) : List Byte :=
  let X := permute (laneOps cs.length w) prog n (fun j _ => st j) (fun l => cs[l].1) (fun l => cs[l].2)
  (List.ofFn (fun l : Fin cs.length => storeWords k (fun i => X i l))).flatten

/-- The vector unit the library is built for. -/
inductive Simd
  | none | avx | avx2 | avx512
deriving DecidableEq

/-- Blocks per call of the SIMD function in ChaChaP20 (ChaChaP20.cpp:518, 581, 620). -/
def Simd.w32 : Simd → Nat
  | .none => 0 | .avx => 4 | .avx2 => 8 | .avx512 => 16

/-- Blocks per call of the SIMD function in CSX512 (CSX512.cpp:515, 556; none for AVX). -/
def Simd.w64 : Simd → Nat
  | .none => 0 | .avx => 0 | .avx2 => 4 | .avx512 => 8

/-- The program of the SIMD function in ChaChaP20 (ChaCha.h:1113, 1342, 1570);
never called when there is no vector unit. -/
def Simd.prog32 : Simd → List Ins
  | .none => progP512C | .avx => progP4x512H | .avx2 => progP8x512H | .avx512 => progP16x512H

/-- The program of the SIMD function in CSX512 (ChaCha.h:1221, 1449); never called
without AVX2. -/
def Simd.prog64 : Simd → List Ins
  | .none => progP1024C | .avx => progP1024C | .avx2 => progP4x1024H | .avx512 => progP8x1024H

/-- `ROUND_COUNT` is 20 for ChaChaP20 (ChaChaP20.h:137); the block function depends on
`CEX_CIPHER_COMPACT` (ChaChaP20.cpp:652-656). -/
def chachaCore (compact : Bool) (u : Simd) (st : Nat → BitVec 32) : Core :=
  pairCore 32 64 (fun c => if compact then permuteP512C 10 st c else permuteR20P512U st c) (permuteWide 4 u.prog32 10 st)

/-- `CSX512` with `ROUND_COUNT = 2 * n`, 40 or 80 (CSX512.h:133-137, CSX512.cpp:589). -/
def csxCore (n : Nat) (u : Simd) (st : Nat → BitVec 64) : Core :=
  pairCore 64 128 (fun c => permuteP1024C n st c) (permuteWide 8 u.prog64 n st)

/-- `ChaChaP20::Load` (ChaChaP20.cpp:675-691). -/
def chachaLoad (key nonce code : List Byte) : M (Nat → BitVec 32) := do
  let s0 ← leBytesTo32 code 0
  let s1 ← leBytesTo32 code 4
  let s2 ← leBytesTo32 code 8
  let s3 ← leBytesTo32 code 12
  let s4 ← leBytesTo32 key 0
  let s5 ← leBytesTo32 key 4
  let s6 ← leBytesTo32 key 8
  let s7 ← leBytesTo32 key 12
  let s8 ← leBytesTo32 key 16
  let s9 ← leBytesTo32 key 20
  let s10 ← leBytesTo32 key 24
  let s11 ← leBytesTo32 key 28
  let s12 ← leBytesTo32 nonce 0
  let s13 ← leBytesTo32 nonce 4
  return fun i => match i with
    | 0 => s0 | 1 => s1 | 2 => s2 | 3 => s3 | 4 => s4 | 5 => s5 | 6 => s6 | 7 => s7 | 8 => s8
    | 9 => s9 | 10 => s10 | 11 => s11 | 12 => s12 | _ => s13

/-- `ChaChaP20::SIGMA_INFO` (ChaChaP20.cpp:25). -/
def sigmaInfo : List Byte :=
  [0x65, 0x78, 0x70, 0x61, 0x6E, 0x64, 0x20, 0x33, 0x32, 0x2D, 0x62, 0x79, 0x74, 0x65, 0x20, 0x6B]

/-- The choice of the distribution code in `Initialize` (ChaChaP20.cpp:348-359): `Custom.resize(INFO_SIZE)`
of a cleared or empty vector, then the caller's info or `SIGMA_INFO`. -/
def chachaCustom (info : List Byte) : M (List Byte) :=
  if info.length ≠ 0 then copy info 0 (List.replicate 16 0) 0 (min info.length 16)
  else copy sigmaInfo 0 (List.replicate 16 0) 0 16

/-- `ChaChaP20::Initialize` for a cipher without authentication (ChaChaP20.cpp:316-366): the key schedule
and the block counter. -/
def chachaInit (key nonce info : List Byte) : M ((Nat → BitVec 32) × (BitVec 32 × BitVec 32)) := do
  if key.length ≠ 32 then throw (.throws .invalidKey)
  if nonce.length ≠ 8 then throw (.throws .invalidNonce)
  if 0 < info.length ∧ info.length ≠ 16 then throw (.throws .invalidInfo)
  let custom ← chachaCustom info
  let st ← chachaLoad key nonce custom
  return (st, (0, 0))

/-- `CSX512::SIGMA_INFO` (CSX512.cpp:166-168). -/
def csxSigma : List Byte :=
  [0x43, 0x53, 0x58, 0x35, 0x31, 0x32, 0x20, 0x4B, 0x4D, 0x41, 0x43, 0x20, 0x61, 0x75, 0x74, 0x68,
   0x65, 0x6E, 0x74, 0x69, 0x63, 0x61, 0x74, 0x69, 0x6F, 0x6E, 0x20, 0x76, 0x65, 0x72, 0x2E, 0x20,
   0x31, 0x63, 0x20, 0x43, 0x45, 0x58, 0x2B, 0x2B, 0x20, 0x6C, 0x69, 0x62, 0x72, 0x61, 0x72, 0x79]

/-- The choice of the distribution code in `Initialize` (CSX512.cpp:335-346). -/
def csxCustom (info : List Byte) : M (List Byte) :=
  if info.length ≠ 0 then copy info 0 (List.replicate 48 0) 0 (min info.length 48)
  else copy csxSigma 0 (List.replicate 48 0) 0 48

/-- `CSX512::Load` on a little-endian machine (CSX512.cpp:604-609): `State` is an array of 14 words filled
by byte copies. -/
def csxLoad (key nonce code : List Byte) : M ((Nat → BitVec 64) × (BitVec 64 × BitVec 64)) := do
  let st ← copy key 0 (List.replicate 112 0) 0 key.length
  let st ← copy code 0 st (8 * (key.length / 8)) code.length
  let n ← copy nonce 0 (List.replicate 16 0) 0 nonce.length
  let n0 ← leBytesTo64 n 0
  let n1 ← leBytesTo64 n 8
  return (fun i => leUnrep 64 ((st.drop (8 * i)).take 8), (n0, n1))

/-- `CSX512::Initialize` for a cipher without authentication (CSX512.cpp:306-352). -/
def csxInit (key nonce info : List Byte) : M ((Nat → BitVec 64) × (BitVec 64 × BitVec 64)) := do
  if key.length ≠ 64 then throw (.throws .invalidKey)
  if nonce.length ≠ 16 then throw (.throws .invalidNonce)
  let custom ← csxCustom info
  csxLoad key nonce custom

end Cex.SCipher
