import Verif.IntTools.Model
import Verif.Threefish.Spec

/-!
# The straight-line programs of Skein.h and Threefish.h

Each unrolled function is a list of statements on local words `B0…` (`C0…` in Threefish.h), key words `K0…` and tweak words `T0…`. The
statements have the forms `Bi += s1 + s2 + …;` and `Bi = IntegerTools::RotL64(Bi, r) ^ Bj;`, and the function ends with
`State[i] = Bi + s1 + …;`. The compact and the SIMD functions have a loop whose body also moves two indices `x` and `y`.
-/

namespace Cex.Threefish
open Cex Cex.IntTools

/-- An operand. -/
inductive Src
  | b (i : Nat)
  | k (i : Nat)
  | t (i : Nat)
  | c (v : Nat)
deriving DecidableEq

/-- A statement. -/
inductive Stmt
  | add (i : Nat) (ss : List Src)
  | rx (i r j : Nat)
deriving DecidableEq

/-- A straight-line function: the statements and what is added to each word at the end. -/
structure Prog where
  body : List Stmt
  fin : List (List Src)
deriving DecidableEq

/-- The value of an operand; an index outside its array is undefined behaviour. -/
def Src.eval (K T B : List W) : Src → M W
  | b i => rd B i
  | k i => rd K i
  | t i => rd T i
  | c v => .ok (BitVec.ofNat 64 v)

/-- The sum of operands. -/
def sum (K T B : List W) (ss : List Src) : M W := ss.foldlM (fun a s => do return a + (← s.eval K T B)) 0

/-- One statement. -/
def Stmt.exec (K T : List W) (B : List W) : Stmt → M (List W)
  | add i ss => do
    let x ← rd B i
    let y ← sum K T B ss
    wr B i (x + y)
  | rx i r j => do
    let x ← rotL64 (← rd B i) r
    let y ← rd B j
    wr B i (x ^^^ y)

/-- The final additions (Skein.h:519-522, Threefish.h:646-649). -/
def output (K T B : List W) (fin : List (List Src)) : M (List W) :=
  (List.range fin.length).mapM fun i => do
    let ss ← rd fin i
    return (← rd B i) + (← sum K T B ss)

/-- `K4 = K0 ^ K1 ^ K2 ^ K3 ^ 0x1BD11BDAA9FC1A22ULL;` after the key words (Skein.h:173-177, Threefish.h:300-304). -/
def keys (K : List W) : List W := K ++ [K.foldl (· ^^^ ·) 0 ^^^ 0x1BD11BDAA9FC1A22]

/-- `T0`, `T1`, `T2` (Skein.h:178-180, Threefish.h:305-307). -/
def tweaks (T : W × W) : List W := [T.1, T.2, T.1 ^^^ T.2]

/-- A whole function on the block `B`, the key `K` and the tweak `T`. -/
def Prog.run (p : Prog) (K : List W) (T : W × W) (B : List W) : M (List W) := do
  let B ← p.body.foldlM (Stmt.exec (keys K) (tweaks T)) B
  output (keys K) (tweaks T) B p.fin

end Cex.Threefish
