import Verif.Keccak.Objects

/-!
# Model of the cost based key derivation function SCBKDF (CEX/SCBKDF.cpp)

The state is its 200 bytes. A failed allocation of the cache is not modelled.
-/

namespace Cex.Keccak
open Cex Cex.Mac

variable (P : List Byte → M (List Byte))

/-- `ScbkdfState` (SCBKDF.cpp:11-37). `Domain` is 0x24 always. -/
structure Scb where
  st : List Byte
  cache : List Byte
  cpu : Nat
  mem : Nat
  rate : Nat
  init : Bool

namespace Scb

/-- The constructor (SCBKDF.cpp:22-37, 63-81): rate 168, 136 or 72; SHAKE1024 is refused although the state would take it. -/
def new (rate cpu mem : Nat) : M Scb :=
  if rate = 32 then throw (.throws .invalidParam)
  else return ⟨List.replicate 200 0, [], cpu, mem, rate, false⟩

/-- `Reset` (SCBKDF.cpp:52-58, 197-200) -/
def reset (s : Scb) : M Scb := do
  let st ← clear s.st 0 s.st.length
  let _ ← clear s.cache 0 s.cache.length
  return { s with st := st, cache := [], init := false }

/-- the references returned by `CpuCost` and `MemoryCost` (SCBKDF.cpp:98-106) -/
def setCost (s : Scb) (cpu mem : Nat) : Scb := { s with cpu := cpu, mem := mem }

/-- `Initialize` (SCBKDF.cpp:159-195) -/
def «initialize» (s : Scb) (key iv info : List Byte) : M Scb :=
  if key.length < 16 then throw (.throws .invalidKey)
  else do
    let s ← (if s.init then s.reset else pure s)
    let st ← (if iv.length ≠ 0 ∨ info.length ≠ 0 then customize P iv info s.rate s.st else pure s.st)
    let st ← absorb P key 0 key.length s.rate 0x24 st
    let st ← P st
    let cache := s.cache.take s.rate ++ List.replicate (s.rate - s.cache.length) 0
    let cache ← copy st 0 cache 0 s.rate
    return { s with st := st, cache := cache, init := true }

/-- one turn of `Expand` (SCBKDF.cpp:209-221); the length compared with the memory cost is that of the array of 25 words -/
def turn (s : Scb) : M Scb := do
  let st ← absorb P s.cache 0 s.cache.length s.rate 0x24 s.st
  if 25 < s.mem * 1000000 % 2 ^ 64 then do
    let cache ← copy st 0 (s.cache ++ List.replicate s.rate 0) s.cache.length s.rate
    return { s with st := st, cache := cache }
  else return { s with st := st }

/-- `Expand` (SCBKDF.cpp:204-222) -/
def turns (s : Scb) : M Scb := loopN s.cpu 0 (fun _ s => turn P s) s

/-- `Generate(Output, OutOffset, Length)` (SCBKDF.cpp:131-144) with `Extract` (224-243), whose loops are those of `expand` -/
def generateAt (s : Scb) (out : List Byte) (oo len : Nat) : M (Scb × List Byte) :=
  if s.init = false then throw (.throws .notInitialized)
  else if subU out.length oo < len then throw (.throws .invalidSize)
  else do
    let s ← s.turns P
    let r ← expand P s.rate s.st out oo len
    return ({ s with st := r.1 }, r.2)

end Scb
end Cex.Keccak
