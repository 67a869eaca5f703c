import Verif.McEliece.KemModel

/-!
# Model of Syndrome of McEliece (CEX/MPKCN6960T119.cpp:237-276, CEX/MPKCN4608T96.cpp:238-272)

The public key is the list of its rows, each of `PK_ROW_BYTES` bytes. The error vector and a row of the matrix have `SYS_N / 8` bytes, so all indices are in range.
-/

namespace Cex.McEliece.Synd

/-- `row` after the copy of the row of the public key (MPKCN6960T119.cpp:253-258). -/
def copyRow (nb : Nat) (pk : List Byte) : List Byte := List.replicate (nb - pk.length) 0#8 ++ pk

/-- The loop from the end that shifts the row by `tail = 3` bits (MPKCN6960T119.cpp:260-263): every byte takes the upper bits of the byte before it, which the loop has not changed yet; the byte before the first is zero. -/
def shiftRow (nb : Nat) (pk : List Byte) : List Byte :=
  List.replicate (nb - pk.length) 0#8 ++ List.zipWith (fun b prev : Byte => b <<< 3 ||| prev >>> 5) pk (0 :: pk)

/-- `row[i / 8] |= 1 << (i % 8)` (MPKCN6960T119.cpp:265). -/
def unitBit (row : List Byte) (i : Nat) : List Byte := row.modify (i / 8) (· ||| 1#8 <<< (i % 8))

/-- `b` (MPKCN6960T119.cpp:266-276). -/
def dotByte (row e : List Byte) : Byte :=
  let b := (List.zipWith (· &&& ·) row e).foldl (· ^^^ ·) 0#8
  let b := b ^^^ b >>> 4
  let b := b ^^^ b >>> 2
  let b := b ^^^ b >>> 1
  b &&& 1#8

/-- `S[i / 8] |= (b << (i % 8))` for the bits of one byte of `S` (MPKCN6960T119.cpp:277); `bs i` is `b` in the pass `i`, there are `rows` passes. -/
def packS (rows : Nat) (bs : Nat → Byte) (j : Nat) : Byte :=
  (List.range 8).foldl (fun s k => if 8 * j + k < rows then s ||| bs (8 * j + k) <<< k else s) 0

/-- `b` in the pass `i` (MPKCN6960T119.cpp:249-276, MPKCN4608T96.cpp:250-268). -/
def pass (shift : Bool) (nb : Nat) (pk : List (List Byte)) (e : List Byte) (i : Nat) : Byte :=
  match pk[i]? with
  | some r => dotByte (unitBit (if shift then shiftRow nb r else copyRow nb r) i) e
  | none => 0

/-- `Syndrome` (MPKCN4608T96.cpp:238-272); with `shift` that of MPKCN6960T119.cpp. -/
def syndrome (shift : Bool) (nb : Nat) (pk : List (List Byte)) (e : List Byte) : List Byte :=
  (List.range ((pk.length + 7) / 8)).map (packS pk.length (pass shift nb pk e))

end Cex.McEliece.Synd
