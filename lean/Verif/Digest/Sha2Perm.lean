import Verif.Digest.Sha2Tables
import Verif.IntTools.Model

/-!
# Model of the SHA-2 permutations (CEX/SHA2.h)

`PermuteR64P512C/U` and `PermuteR80P1024C/U`, generic in the word type. The SHA-NI and the SIMD variants are
not modelled.
-/

namespace Cex.Digest
open Cex Cex.Digest.Fips Cex.IntTools

variable {w : Nat}

/-- The word functions of a variant as the code writes them, with the word codec. -/
structure Ops (w : Nat) where
  S0 : BitVec w → BitVec w
  S1 : BitVec w → BitVec w
  t0 : BitVec w → BitVec w
  t1 : BitVec w → BitVec w
  addH : BitVec w → BitVec w → BitVec w → BitVec w
  rc : List (BitVec w)
  steps : List (Step w)
  rdw : List Byte → Nat → M (BitVec w)

/-- `Round256` (SHA2.h:105-110), `Theta0`, `Theta1` (SHA2.h:93-103), `BeBytesTo32`. -/
def ops256 : Ops 32 where
  S0 A := ((A >>> 2) ||| (A <<< 30)) ^^^ ((A >>> 13) ||| (A <<< 19)) ^^^ ((A >>> 22) ||| (A <<< 10))
  S1 E := ((E >>> 6) ||| (E <<< 26)) ^^^ ((E >>> 11) ||| (E <<< 21)) ^^^ ((E >>> 25) ||| (E <<< 7))
  t0 X := ((X >>> 7) ||| (X <<< 25)) ^^^ ((X >>> 18) ||| (X <<< 14)) ^^^ (X >>> 3)
  t1 X := ((X >>> 17) ||| (X <<< 15)) ^^^ ((X >>> 19) ||| (X <<< 13)) ^^^ (X >>> 10)
  addH R s m := R + (s + m)
  rc := rc256
  steps := steps256
  rdw := beBytesTo32

/-- `Round512` (SHA2.h:112-117), `Sigma0`, `Sigma1` (SHA2.h:81-91), `BeBytesTo64`. -/
def ops512 : Ops 64 where
  S0 A := ((A <<< 36) ||| (A >>> 28)) ^^^ ((A <<< 30) ||| (A >>> 34)) ^^^ ((A <<< 25) ||| (A >>> 39))
  S1 E := ((E <<< 50) ||| (E >>> 14)) ^^^ ((E <<< 46) ||| (E >>> 18)) ^^^ ((E <<< 23) ||| (E >>> 41))
  t0 X := ((X <<< 63) ||| (X >>> 1)) ^^^ ((X <<< 56) ||| (X >>> 8)) ^^^ (X >>> 7)
  t1 X := ((X <<< 45) ||| (X >>> 19)) ^^^ ((X <<< 3) ||| (X >>> 61)) ^^^ (X >>> 6)
  addH R s m := R + s + m
  rc := rc512
  steps := steps512
  rdw := beBytesTo64

/-- The value `R` of a round. -/
def Ops.R (O : Ops w) (e f g h m p : BitVec w) : BitVec w := h + O.S1 e + ((e &&& f) ^^^ (~~~e &&& g)) + m + p

/-- The new value of the variable in role H. -/
def Ops.newH (O : Ops w) (R a b c : BitVec w) : BitVec w := O.addH R (O.S0 a) ((a &&& b) ^^^ (a &&& c) ^^^ (b &&& c))

/-- A call `Round(A[r'], …)` with the eight variables rotated by `r` (SHA2.h:305-320, 1239-1254), which is also
each unrolled round (SHA2.h:397-399 for `r = 0`, 400-402 for `r = 1`, …). -/
def Ops.step (O : Ops w) (r : Nat) (m p : BitVec w) (s : V8 w) : M (V8 w) :=
  match r with
  | 0 => let R := O.R s.e s.f s.g s.h m p; .ok { s with d := s.d + R, h := O.newH R s.a s.b s.c }
  | 1 => let R := O.R s.d s.e s.f s.g m p; .ok { s with c := s.c + R, g := O.newH R s.h s.a s.b }
  | 2 => let R := O.R s.c s.d s.e s.f m p; .ok { s with b := s.b + R, f := O.newH R s.g s.h s.a }
  | 3 => let R := O.R s.b s.c s.d s.e m p; .ok { s with a := s.a + R, e := O.newH R s.f s.g s.h }
  | 4 => let R := O.R s.a s.b s.c s.d m p; .ok { s with h := s.h + R, d := O.newH R s.e s.f s.g }
  | 5 => let R := O.R s.h s.a s.b s.c m p; .ok { s with g := s.g + R, c := O.newH R s.d s.e s.f }
  | 6 => let R := O.R s.g s.h s.a s.b m p; .ok { s with f := s.f + R, b := O.newH R s.c s.d s.e }
  | 7 => let R := O.R s.f s.g s.h s.a m p; .ok { s with e := s.e + R, a := O.newH R s.b s.c s.d }
  | _ => .error .ub

/-- Load `n` words of the block, from word `i` on (SHA2.h:288-291, 380-395, 1223-1226, 1314-1329). -/
def Ops.load (O : Ops w) (inp : List Byte) (io : Nat) : (n i : Nat) → M (List (BitVec w))
  | 0, _ => .ok []
  | n + 1, i => do
    let x ← O.rdw inp (io + i * (w / 8))
    let xs ← O.load inp io n (i + 1)
    return x :: xs

/-- `W[i] = t1(W[i-2]) + W[i-7] + t0(W[i-15]) + W[i-16]` for `n` further words (SHA2.h:296-299, 1231-1234); the
array is filled from the front. -/
def Ops.extend (O : Ops w) : (n : Nat) → List (BitVec w) → M (List (BitVec w))
  | 0, W => .ok W
  | n + 1, W => do
    let a ← rd W (W.length - 2)
    let b ← rd W (W.length - 7)
    let c ← rd W (W.length - 15)
    let d ← rd W (W.length - 16)
    O.extend n (W ++ [O.t1 a + b + O.t0 c + d])

/-- Round call `j` of the compact form. -/
def Ops.call (O : Ops w) (W : List (BitVec w)) (j : Nat) (s : V8 w) : M (V8 w) := do
  let k ← rd O.rc j
  let x ← rd W j
  O.step (j % 8) k x s

/-- `State[i] += A[i]` (SHA2.h:323-330, 641-648, 1257-1264, 1640-1647). -/
def addState (st s : V8 w) : V8 w :=
  ⟨st.a + s.a, st.b + s.b, st.c + s.c, st.d + s.d, st.e + s.e, st.f + s.f, st.g + s.g, st.h + s.h⟩

/-- `PermuteR64P512C` (SHA2.h:278-331) and `PermuteR80P1024C` (SHA2.h:1213-1265): `n` groups of eight calls. -/
def Ops.permuteC (O : Ops w) (n : Nat) (inp : List Byte) (io : Nat) (st : V8 w) : M (V8 w) := do
  let W ← O.load inp io 16 0
  let W ← O.extend (8 * n - 16) W
  let s ← loopN n 0 (fun i s => loopN 8 (8 * i) (O.call W) s) st
  return addState st s

/-- A schedule update. -/
def Ops.update (O : Ops w) (u : Option Upd) (W : List (BitVec w)) : M (List (BitVec w)) :=
  match u with
  | none => .ok W
  | some u => do
    let x ← rd W u.dst
    let a ← rd W u.s1
    let b ← rd W u.add
    let c ← rd W u.s0
    wr W u.dst (x + (O.t1 a + b + O.t0 c))

/-- One unrolled round. -/
def Ops.run1 (O : Ops w) (x : V8 w × List (BitVec w)) (t : Step w) : M (V8 w × List (BitVec w)) := do
  let W ← O.update t.upd x.2
  let p ← rd W t.wi
  let s ← O.step t.rot p t.k x.1
  return (s, W)

/-- `PermuteR64P512U` (SHA2.h:343-649) and `PermuteR80P1024U` (SHA2.h:1277-1648). -/
def Ops.permuteU (O : Ops w) (inp : List Byte) (io : Nat) (st : V8 w) : M (V8 w) := do
  let W ← O.load inp io 16 0
  let x ← O.steps.foldlM O.run1 (st, W)
  return addState st x.1

end Cex.Digest
