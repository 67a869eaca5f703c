import Verif.Base

/-!
# The S-box code of CEX/Serpent.h

Transcribed by script. Registers 0 to 3 are `R0` to `R3`, register 4 is `B4`: `xor a b` stands for `a ^= b`, `and a b` for `a &= b`,
`or a b` for `a |= b`, `not a b` for `a = ~b` and `mov a b` for `a = b` (also `T B4 = b`).
-/

namespace Cex.Serpent

/-- A statement of the S-box code. -/
inductive Ins
  | xor (a b : Nat)
  | and (a b : Nat)
  | or (a b : Nat)
  | not (a b : Nat)
  | mov (a b : Nat)
deriving DecidableEq

/-- `Sb0` (CEX/Serpent.h:370-393). -/
def sb0 : List Ins := [
  .xor 3 0, .mov 4 1, .and 1 3, .xor 4 2, .xor 1 0, .or 0 3, .xor 0 4, .xor 4 3,
  .xor 3 2, .or 2 1, .xor 2 4, .not 4 4, .or 4 1, .xor 1 3, .xor 1 4, .or 3 0,
  .xor 1 3, .xor 4 3, .mov 3 0, .mov 0 1, .mov 1 4]

/-- `Sb1` (CEX/Serpent.h:422-446). -/
def sb1 : List Ins := [
  .not 0 0, .not 2 2, .mov 4 0, .and 0 1, .xor 2 0, .or 0 3, .xor 3 2, .xor 1 0,
  .xor 0 4, .or 4 1, .xor 1 3, .or 2 0, .and 2 4, .xor 0 1, .and 1 2, .xor 1 0,
  .and 0 2, .xor 4 0, .mov 0 2, .mov 2 3, .mov 3 1, .mov 1 4]

/-- `Sb2` (CEX/Serpent.h:478-499). -/
def sb2 : List Ins := [
  .mov 4 0, .and 0 2, .xor 0 3, .xor 2 1, .xor 2 0, .or 3 4, .xor 3 1, .xor 4 2,
  .mov 1 3, .or 3 4, .xor 3 0, .and 0 1, .xor 4 0, .xor 1 3, .xor 1 4, .mov 0 2,
  .mov 2 1, .mov 1 3, .not 3 4]

/-- `Sb3` (CEX/Serpent.h:528-552). -/
def sb3 : List Ins := [
  .mov 4 0, .or 0 3, .xor 3 1, .and 1 4, .xor 4 2, .xor 2 3, .and 3 0, .or 4 1,
  .xor 3 4, .xor 0 1, .and 4 0, .xor 1 3, .xor 4 2, .or 1 0, .xor 1 2, .xor 0 3,
  .mov 2 1, .or 1 3, .xor 0 1, .mov 1 2, .mov 2 3, .mov 3 4]

/-- `Sb4` (CEX/Serpent.h:582-607). -/
def sb4 : List Ins := [
  .xor 1 3, .not 3 3, .xor 2 3, .xor 3 0, .mov 4 1, .and 1 3, .xor 1 2, .xor 4 3,
  .xor 0 4, .and 2 4, .xor 2 0, .and 0 1, .xor 3 0, .or 4 1, .xor 4 0, .or 0 3,
  .xor 0 2, .and 2 3, .not 0 0, .xor 4 2, .mov 2 0, .mov 0 1, .mov 1 4]

/-- `Sb5` (CEX/Serpent.h:637-662). -/
def sb5 : List Ins := [
  .xor 0 1, .xor 1 3, .not 3 3, .mov 4 1, .and 1 0, .xor 2 3, .xor 1 2, .or 2 4,
  .xor 4 3, .and 3 1, .xor 3 0, .xor 4 1, .xor 4 2, .xor 2 0, .and 0 3, .not 2 2,
  .xor 0 4, .or 4 3, .xor 4 2, .mov 2 0, .mov 0 1, .mov 1 3, .mov 3 4]

/-- `Sb6` (CEX/Serpent.h:694-715). -/
def sb6 : List Ins := [
  .not 2 2, .mov 4 3, .and 3 0, .xor 0 4, .xor 3 2, .or 2 4, .xor 1 3, .xor 2 0,
  .or 0 1, .xor 2 1, .xor 4 0, .or 0 3, .xor 0 2, .xor 4 3, .xor 4 0, .not 3 3,
  .and 2 4, .xor 3 2, .mov 2 4]

/-- `Sb7` (CEX/Serpent.h:743-769). -/
def sb7 : List Ins := [
  .mov 4 1, .or 1 2, .xor 1 3, .xor 4 2, .xor 2 1, .or 3 4, .and 3 0, .xor 4 2,
  .xor 3 1, .or 1 4, .xor 1 0, .or 0 4, .xor 0 2, .xor 1 4, .xor 2 1, .and 1 0,
  .xor 1 4, .not 2 2, .or 2 0, .xor 4 2, .mov 2 1, .mov 1 3, .mov 3 0, .mov 0 4]

/-- `Ib0` (CEX/Serpent.h:396-419). -/
def ib0 : List Ins := [
  .not 2 2, .mov 4 1, .or 1 0, .not 4 4, .xor 1 2, .or 2 4, .xor 1 3, .xor 0 4,
  .xor 2 0, .and 0 3, .xor 4 0, .or 0 1, .xor 0 2, .xor 3 4, .xor 2 1, .xor 3 0,
  .xor 3 1, .and 2 3, .xor 4 2, .mov 2 1, .mov 1 4]

/-- `Ib1` (CEX/Serpent.h:449-475). -/
def ib1 : List Ins := [
  .mov 4 1, .xor 1 3, .and 3 1, .xor 4 2, .xor 3 0, .or 0 1, .xor 2 3, .xor 0 4,
  .or 0 2, .xor 1 3, .xor 0 1, .or 1 3, .xor 1 0, .not 4 4, .xor 4 1, .or 1 0,
  .xor 1 0, .or 1 4, .xor 3 1, .mov 1 0, .mov 0 4, .mov 4 2, .mov 2 3, .mov 3 4]

/-- `Ib2` (CEX/Serpent.h:502-525). -/
def ib2 : List Ins := [
  .xor 2 3, .xor 3 0, .mov 4 3, .and 3 2, .xor 3 1, .or 1 2, .xor 1 4, .and 4 3,
  .xor 2 3, .and 4 0, .xor 4 2, .and 2 1, .or 2 0, .not 3 3, .xor 2 3, .xor 0 3,
  .and 0 1, .xor 3 4, .xor 3 0, .mov 0 1, .mov 1 4]

/-- `Ib3` (CEX/Serpent.h:555-579). -/
def ib3 : List Ins := [
  .mov 4 2, .xor 2 1, .xor 0 2, .and 4 2, .xor 4 0, .and 0 1, .xor 1 3, .or 3 4,
  .xor 2 3, .xor 0 3, .xor 1 4, .and 3 2, .xor 3 1, .xor 1 0, .or 1 2, .xor 0 3,
  .xor 1 4, .xor 0 1, .mov 4 0, .mov 0 2, .mov 2 3, .mov 3 4]

/-- `Ib4` (CEX/Serpent.h:610-634). -/
def ib4 : List Ins := [
  .mov 4 2, .and 2 3, .xor 2 1, .or 1 3, .and 1 0, .xor 4 2, .xor 4 1, .and 1 2,
  .not 0 0, .xor 3 4, .xor 1 3, .and 3 0, .xor 3 2, .xor 0 1, .and 2 0, .xor 3 0,
  .xor 2 4, .or 2 3, .xor 3 0, .xor 2 1, .mov 1 3, .mov 3 4]

/-- `Ib5` (CEX/Serpent.h:665-691). -/
def ib5 : List Ins := [
  .not 1 1, .mov 4 3, .xor 2 1, .or 3 0, .xor 3 2, .or 2 1, .and 2 0, .xor 4 3,
  .xor 2 4, .or 4 0, .xor 4 1, .and 1 2, .xor 1 3, .xor 4 2, .and 3 4, .xor 4 1,
  .xor 3 4, .not 4 4, .xor 3 0, .mov 0 1, .mov 1 4, .mov 4 3, .mov 3 2, .mov 2 4]

/-- `Ib6` (CEX/Serpent.h:718-740). -/
def ib6 : List Ins := [
  .xor 0 2, .mov 4 2, .and 2 0, .xor 4 3, .not 2 2, .xor 3 1, .xor 2 3, .or 4 0,
  .xor 0 2, .xor 3 4, .xor 4 1, .and 1 3, .xor 1 0, .xor 0 3, .or 0 2, .xor 3 1,
  .xor 4 0, .mov 0 1, .mov 1 2, .mov 2 4]

/-- `Ib7` (CEX/Serpent.h:772-797). -/
def ib7 : List Ins := [
  .mov 4 2, .xor 2 0, .and 0 3, .or 4 3, .not 2 2, .xor 3 1, .or 1 0, .xor 0 2,
  .and 2 4, .and 3 4, .xor 1 2, .xor 2 0, .or 0 2, .xor 4 1, .xor 0 3, .xor 3 4,
  .or 4 0, .xor 3 2, .xor 4 2, .mov 2 1, .mov 1 0, .mov 0 3, .mov 3 4]

end Cex.Serpent
