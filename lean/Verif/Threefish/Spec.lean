/-!
# Threefish

Written from *The Skein Hash Function Family*, version 1.3, section 3.3. A block has `n` words of 64 bits (4, 8 or 16). The paper fixes
72 rounds for 4 and 8 words and 80 for 16; the number of rounds is a parameter here.
-/

namespace Cex.Threefish

abbrev W := BitVec 64

/-- Tables 3 and 4: the word permutation and the rotation constants `R(d mod 8, j)`. -/
structure Alg (n : Nat) where
  pi : Fin n → Fin n
  rot : Nat → Nat → Nat

/-- An entry of a table of constants. -/
def entry (t : List (List Nat)) (d j : Nat) : Nat := match t[d % 8]? with
  | some r => match r[j]? with
    | some x => x
    | none => 0
  | none => 0

def alg256 : Alg 4 where
  pi := fun i => (#v[0, 3, 2, 1] : Vector (Fin 4) 4)[i]
  rot := entry [[14, 16], [52, 57], [23, 40], [5, 37], [25, 33], [46, 12], [58, 22], [32, 32]]

def alg512 : Alg 8 where
  pi := fun i => (#v[2, 1, 4, 7, 6, 5, 0, 3] : Vector (Fin 8) 8)[i]
  rot := entry [[46, 36, 19, 37], [33, 27, 14, 42], [17, 49, 36, 39], [44, 9, 54, 56], [39, 30, 34, 24], [13, 50, 10, 17], [25, 29, 39, 43], [8, 35, 56, 22]]

def alg1024 : Alg 16 where
  pi := fun i => (#v[0, 9, 2, 13, 6, 11, 4, 15, 10, 7, 12, 3, 14, 5, 8, 1] : Vector (Fin 16) 16)[i]
  rot := entry [[24, 13, 8, 47, 8, 17, 22, 37], [38, 19, 10, 55, 49, 18, 23, 52], [33, 4, 51, 13, 34, 41, 59, 17], [5, 20, 48, 41, 47, 28, 16, 25],
    [41, 9, 37, 31, 12, 47, 44, 30], [16, 34, 56, 51, 4, 53, 42, 41], [31, 44, 47, 46, 19, 42, 44, 25], [9, 48, 35, 52, 23, 31, 37, 20]]

variable {n : Nat}

/-- Section 3.3.2: the key words, with the parity word `k_n`. -/
def keyWord (K : Fin n → W) (i : Nat) : W :=
  if h : i < n then K ⟨i, h⟩ else (List.ofFn K).foldl (· ^^^ ·) 0x1BD11BDAA9FC1A22

/-- The tweak words, `t_2 = t_0 xor t_1`. -/
def tweakWord (T : W × W) (i : Nat) : W := if i = 0 then T.1 else if i = 1 then T.2 else T.1 ^^^ T.2

/-- Word `i` of subkey `s`. -/
def subkey (K : Fin n → W) (T : W × W) (s : Nat) (i : Fin n) : W :=
  keyWord K ((s + i.val) % (n + 1)) +
    (if i.val + 3 = n then tweakWord T (s % 3)
     else if i.val + 2 = n then tweakWord T ((s + 1) % 3)
     else if i.val + 1 = n then BitVec.ofNat 64 s
     else 0)

/-- Section 3.3.1: the function MIX on the pair of words that `i` belongs to. -/
def mix (A : Alg n) (hn : n % 2 = 0) (d : Nat) (e : Fin n → W) (i : Fin n) : W :=
  let x0 := e ⟨2 * (i.val / 2), by omega⟩
  let x1 := e ⟨2 * (i.val / 2) + 1, by omega⟩
  if i.val % 2 = 0 then x0 + x1 else x1.rotateLeft (A.rot d (i.val / 2)) ^^^ (x0 + x1)

/-- Round `d`: every fourth round starts with the addition of a subkey. -/
def round (A : Alg n) (hn : n % 2 = 0) (K : Fin n → W) (T : W × W) (d : Nat) (v : Fin n → W) : Fin n → W :=
  let e := fun i => if d % 4 = 0 then v i + subkey K T (d / 4) i else v i
  let f := mix A hn d e
  fun i => f (A.pi i)

/-- The rounds. -/
def rounds (A : Alg n) (hn : n % 2 = 0) (K : Fin n → W) (T : W × W) (r : Nat) (P : Fin n → W) : Fin n → W :=
  (List.range r).foldl (fun v d => round A hn K T d v) P

/-- Threefish with `r` rounds. -/
def encrypt (A : Alg n) (hn : n % 2 = 0) (r : Nat) (K : Fin n → W) (T : W × W) (P : Fin n → W) : Fin n → W :=
  fun i => rounds A hn K T r P i + subkey K T (r / 4) i

def threefish256 := encrypt alg256 rfl 72
def threefish512 := encrypt alg512 rfl 72
def threefish1024 := encrypt alg1024 rfl 80

end Cex.Threefish
