import Verif.Threefish.Lang

/-!
# The loops of Skein.h and Threefish.h

The compact functions (`PemuteP256C`, `PemuteP512C`, `PemuteP1024C`) keep the words in arrays and do eight rounds per iteration; two
indices `x` and `y` run through the key and the tweak words. The wide functions of Threefish.h (`PemuteP4x…H`, `PemuteP8x…H`) are the
same loops on SIMD words, each lane of which is a word of another block.
-/

namespace Cex.Threefish
open Cex Cex.IntTools

/-- The operations of a word type. -/
structure Words (V : Type) where
  add : V → V → V
  xor : V → V → V
  rotl : V → Nat → M V
  lit : W → V

/-- `uint64_t`. -/
def scalar : Words W := ⟨(· + ·), (· ^^^ ·), rotL64, id⟩

/-- `ULong256` and `ULong512`, with 4 and 8 lanes (ULong256.h:132-135, 268-272, 338-352, 479-493 and the same functions of ULong512.h):
the shifts `slli` and `srli` give zero for a distance of 64. -/
def lanes (l : Nat) : Words (Fin l → W) where
  add a b := fun j => a j + b j
  xor a b := fun j => a j ^^^ b j
  rotl a r := .ok fun j => a j <<< r ||| a j >>> (64 - r)
  lit x := fun _ => x

/-- An operand: `B[i]`, `K[x]`, `T[y]`, `K[i]`, `T[i]`, `2 * i + off`, `Rounds / 4`. -/
inductive CSrc
  | b (i : Nat)
  | kx
  | ty
  | k (i : Nat)
  | t (i : Nat)
  | c (off : Nat)
  | rounds
deriving DecidableEq

/-- The condition in `x != 0 ? x -= 1 : x += 4;`. -/
inductive Cond
  | ne (v : Nat)
  | gt (v : Nat)
  | lt (v : Nat)
deriving DecidableEq

def Cond.holds (x : Nat) : Cond → Bool
  | ne v => x != v
  | gt v => v < x
  | lt v => x < v

/-- A statement of the loop body; `mx c up p q` is `x c ? x += p : x -= q;` if `up` and `x c ? x -= p : x += q;` otherwise. -/
inductive Cmd
  | add (i : Nat) (ss : List CSrc)
  | rx (i r j : Nat)
  | mx (c : Cond) (up : Bool) (p q : Nat)
  | my (c : Cond) (up : Bool) (p q : Nat)
deriving DecidableEq

/-- The new value of an index, a `size_t`. -/
def move (c : Cond) (up : Bool) (p q x : Nat) : Nat :=
  if c.holds x = up then (x + if up then p else q) % 2 ^ 64 else (x + 2 ^ 64 - if up then q else p) % 2 ^ 64

/-- A function: the loop body and what is added to each word at the end. -/
structure CProg where
  cmds : List Cmd
  fin : List (List CSrc)
deriving DecidableEq

variable {V : Type}

def CSrc.eval (o : Words V) (K T B : List V) (R i x y : Nat) : CSrc → M V
  | b j => rd B j
  | kx => rd K x
  | ty => rd T y
  | k j => rd K j
  | t j => rd T j
  | c off => .ok (o.lit (BitVec.ofNat 64 (2 * i + off)))
  | rounds => .ok (o.lit (BitVec.ofNat 64 (R / 4)))

def csum (o : Words V) (K T B : List V) (R i x y : Nat) (ss : List CSrc) : M V :=
  ss.foldlM (fun a s => do return o.add a (← s.eval o K T B R i x y)) (o.lit 0)

/-- One statement. -/
def Cmd.exec (o : Words V) (K T : List V) (R i : Nat) (s : List V × Nat × Nat) : Cmd → M (List V × Nat × Nat)
  | add j ss => do
    let a ← rd s.1 j
    let b ← csum o K T s.1 R i s.2.1 s.2.2 ss
    return (← wr s.1 j (o.add a b), s.2)
  | rx j r j' => do
    let a ← o.rotl (← rd s.1 j) r
    let b ← rd s.1 j'
    return (← wr s.1 j (o.xor a b), s.2)
  | mx c up p q => .ok (s.1, move c up p q s.2.1, s.2.2)
  | my c up p q => .ok (s.1, s.2.1, move c up p q s.2.2)

/-- The final additions. -/
def coutput (o : Words V) (K T B : List V) (R : Nat) (fin : List (List CSrc)) : M (List V) :=
  (List.range fin.length).mapM fun i => do
    let ss ← rd fin i
    return o.add (← rd B i) (← csum o K T B R 0 0 0 ss)

def ckeys (o : Words V) (K : List V) : List V := K ++ [o.xor (K.foldl o.xor (o.lit 0)) (o.lit 0x1BD11BDAA9FC1A22)]

def ctweaks (o : Words V) (T : V × V) : List V := [T.1, T.2, o.xor T.1 T.2]

/-- A whole function: `x = 1; y = 0;` and `Rounds / 8` iterations. -/
def CProg.run (o : Words V) (p : CProg) (R : Nat) (K : List V) (T : V × V) (B : List V) : M (List V) := do
  let s ← loopN (R / 8) 0 (fun i s => p.cmds.foldlM (Cmd.exec o (ckeys o K) (ctweaks o T) R i) s) (B, 1, 0)
  coutput o (ckeys o K) (ctweaks o T) s.1 R p.fin

end Cex.Threefish
