import Verif.Keccak.Model

/-! # Model of `Keccak::Incremental`, `Keccak::SqueezePartial` and `Keccak::MACP1600` (CEX/Keccak.h) -/

namespace Cex.Keccak
open Cex

variable (P : List Byte → M (List Byte))

/-- Variables of `Incremental`. -/
structure Inc where
  t : List Byte
  st : List Byte
  io : Nat
  len : Nat
  pos : Nat

/-- Completing a word that was begun before (Keccak.h:257-274). The byte loop `t[i] = Input[InOffset]` is a copy; `(Position - i) / 8` is the
index of the word in which the call started. XORing `LeBytesTo64(t, 0)` to a word is XORing 8 bytes. -/
def incHead (inp : List Byte) (io len pos : Nat) (st : List Byte) : M Inc :=
  if pos % 8 > 0 then do
    let n := min (8 - pos % 8) len
    let t ← copy inp io (List.replicate 8 0) (pos % 8) n
    let st ← xorInto t 0 st (8 * ((pos + n - (pos % 8 + n)) / 8)) 8
    return ⟨t, st, io + n, len - n, pos + n⟩
  else return ⟨List.replicate 8 0, st, io, len, pos⟩

/-- Completing a block (Keccak.h:276-287). -/
def incFill (inp : List Byte) (rate : Nat) (q : Inc) : M Inc :=
  if q.pos ≠ 0 ∧ q.len ≥ rate - q.pos then do
    let st ← xorInto inp q.io q.st (8 * (q.pos / 8)) (8 * ((rate - q.pos) / 8))
    let st ← P st
    return ⟨q.t, st, q.io + (rate - q.pos), q.len - (rate - q.pos), 0⟩
  else return q

/-- Whole blocks (Keccak.h:289-299), `Rate / 8` words each, then whole words (301-308). -/
def incBody (inp : List Byte) (rate : Nat) (q : Inc) : M Inc := do
  let st ← absorbLoop P inp rate (q.len / rate) q.io q.st
  let io := q.io + rate * (q.len / rate)
  let len := q.len % rate
  let st ← xorInto inp io st (8 * (q.pos / 8)) (8 * (len / 8))
  return ⟨q.t, st, io + 8 * (len / 8), len - 8 * (len / 8), q.pos + 8 * (len / 8)⟩

/-- The last, incomplete word (Keccak.h:310-319). The array `t` may still hold bytes of the first step. -/
def incTail (inp : List Byte) (q : Inc) : M (List Byte × Nat) :=
  if q.len > 0 then do
    let t ← copy inp q.io q.t 0 q.len
    let st ← xorInto t 0 q.st (8 * (q.pos / 8)) 8
    return (st, q.pos + q.len)
  else return (q.st, q.pos)

/-- Domain and last bit (Keccak.h:321-329). `Domain << (8 * j)` XORed to word `i` is the domain byte XORed to byte `8 i + j`; bit 63 of the last word of the rate is bit 7
of byte `Rate - 1`. -/
def incFinal (rate : Nat) (dom : Byte) (st : List Byte) (pos : Nat) : M (List Byte) := do
  let st ← xorInto [dom] 0 st (8 * (pos / 8) + pos % 8) 1
  xorInto [0x80] 0 st (8 * (rate / 8 - 1) + 7) 1

/-- `Keccak::Incremental` (Keccak.h:254-332). Result: state and returned position. -/
def incremental (inp : List Byte) (io len pos rate : Nat) (dom : Byte) (st : List Byte) (fin : Bool) : M (List Byte × Nat) := do
  let q ← incHead inp io len pos st
  let q ← incFill P inp rate q
  let q ← incBody P inp rate q
  let r ← incTail inp q
  if fin then do
    let st ← incFinal rate dom r.1 r.2
    return (st, r.2)
  else return r

/-- `Keccak::SqueezePartial` (Keccak.h:8465-8471). -/
def squeezePartial (st out : List Byte) (oo len rate : Nat) : M (List Byte × List Byte) := do
  let r ← squeeze P rate 1 st (List.replicate rate 0) 0
  let out ← copy r.2 0 out oo len
  return (r.1, out)

/-- The key phase of `MACP1600` (Keccak.h:576-603): as `loadKey`, but the array `pad` stays in use. Result: `pad` and state. -/
def macKey (key : List Byte) (rate : Nat) (st : List Byte) : M (List Byte × List Byte) := do
  let r ← leftEncode (List.replicate 200 0) 0 (BitVec.ofNat 64 rate)
  let s ← leftEncode r.1 r.2 (BitVec.ofNat 64 (key.length * 8))
  let q ← feed P rate key ⟨s.1, r.2 + s.2, st⟩
  let p ← clear q.pad q.off (200 - q.off)
  let st ← xorInto p 0 q.st 0 (wordUp q.off)
  let st ← P st
  return (p, st)

/-- The last block of `MACP1600` (Keccak.h:614-626): `pad` is overwritten and cleared only if message bytes are left. -/
def macLast (msg : List Byte) (off len rate olen : Nat) (pad st : List Byte) : M (List Byte) := do
  let pad ← (if len ≠ 0 then do
      let pad ← copy msg off pad 0 len
      clear pad len (200 - len)
    else pure pad)
  let e ← rightEncode pad len (BitVec.ofNat 64 (olen * 8))
  let pad ← wr e.1 (len + e.2) 0x04
  let b ← rd pad (rate - 1)
  let pad ← wr pad (rate - 1) (b ||| 128)
  fastAbsorb pad 0 rate st

/-- `Keccak::MACP1600` (Keccak.h:562-640). -/
def macp (key cust msg : List Byte) (off len : Nat) (out : List Byte) (rate : Nat) : M (List Byte) := do
  let st ← customize P cust kmacName rate (List.replicate 200 0)
  let k ← macKey P key rate st
  let st ← absorbLoop P msg rate (len / rate) off k.2
  let st ← macLast msg (off + rate * (len / rate)) (len % rate) rate out.length k.1 st
  let r ← expand P rate st out 0 out.length
  return r.2

end Cex.Keccak
