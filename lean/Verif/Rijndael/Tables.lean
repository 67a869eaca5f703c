import Verif.Base

/-! # Rijndael tables and byte permutations, as written in CEX/Rijndael.h -/

namespace Cex.Rijndael

/-- `Rcon` (CEX/Rijndael.h:50-56). -/
def rcon : List (BitVec 32) :=
  [
   0x00000000#32, 0x01000000, 0x02000000, 0x04000000, 0x08000000, 0x10000000, 0x20000000, 0x40000000,
   0x80000000, 0x1B000000, 0x36000000, 0x6C000000, 0xD8000000, 0xAB000000, 0x4D000000, 0x9A000000,
   0x2F000000, 0x5E000000, 0xBC000000, 0x63000000, 0xC6000000, 0x97000000, 0x35000000, 0x6A000000,
   0xD4000000, 0xB3000000, 0x7D000000, 0xFA000000, 0xEF000000, 0xC5000000]

/-- `ISBox` (CEX/Rijndael.h:60-78). -/
def isbox : List Byte :=
  [
   0x52#8, 0x09, 0x6A, 0xD5, 0x30, 0x36, 0xA5, 0x38, 0xBF, 0x40, 0xA3, 0x9E, 0x81, 0xF3, 0xD7, 0xFB,
   0x7C, 0xE3, 0x39, 0x82, 0x9B, 0x2F, 0xFF, 0x87, 0x34, 0x8E, 0x43, 0x44, 0xC4, 0xDE, 0xE9, 0xCB,
   0x54, 0x7B, 0x94, 0x32, 0xA6, 0xC2, 0x23, 0x3D, 0xEE, 0x4C, 0x95, 0x0B, 0x42, 0xFA, 0xC3, 0x4E,
   0x08, 0x2E, 0xA1, 0x66, 0x28, 0xD9, 0x24, 0xB2, 0x76, 0x5B, 0xA2, 0x49, 0x6D, 0x8B, 0xD1, 0x25,
   0x72, 0xF8, 0xF6, 0x64, 0x86, 0x68, 0x98, 0x16, 0xD4, 0xA4, 0x5C, 0xCC, 0x5D, 0x65, 0xB6, 0x92,
   0x6C, 0x70, 0x48, 0x50, 0xFD, 0xED, 0xB9, 0xDA, 0x5E, 0x15, 0x46, 0x57, 0xA7, 0x8D, 0x9D, 0x84,
   0x90, 0xD8, 0xAB, 0x00, 0x8C, 0xBC, 0xD3, 0x0A, 0xF7, 0xE4, 0x58, 0x05, 0xB8, 0xB3, 0x45, 0x06,
   0xD0, 0x2C, 0x1E, 0x8F, 0xCA, 0x3F, 0x0F, 0x02, 0xC1, 0xAF, 0xBD, 0x03, 0x01, 0x13, 0x8A, 0x6B,
   0x3A, 0x91, 0x11, 0x41, 0x4F, 0x67, 0xDC, 0xEA, 0x97, 0xF2, 0xCF, 0xCE, 0xF0, 0xB4, 0xE6, 0x73,
   0x96, 0xAC, 0x74, 0x22, 0xE7, 0xAD, 0x35, 0x85, 0xE2, 0xF9, 0x37, 0xE8, 0x1C, 0x75, 0xDF, 0x6E,
   0x47, 0xF1, 0x1A, 0x71, 0x1D, 0x29, 0xC5, 0x89, 0x6F, 0xB7, 0x62, 0x0E, 0xAA, 0x18, 0xBE, 0x1B,
   0xFC, 0x56, 0x3E, 0x4B, 0xC6, 0xD2, 0x79, 0x20, 0x9A, 0xDB, 0xC0, 0xFE, 0x78, 0xCD, 0x5A, 0xF4,
   0x1F, 0xDD, 0xA8, 0x33, 0x88, 0x07, 0xC7, 0x31, 0xB1, 0x12, 0x10, 0x59, 0x27, 0x80, 0xEC, 0x5F,
   0x60, 0x51, 0x7F, 0xA9, 0x19, 0xB5, 0x4A, 0x0D, 0x2D, 0xE5, 0x7A, 0x9F, 0x93, 0xC9, 0x9C, 0xEF,
   0xA0, 0xE0, 0x3B, 0x4D, 0xAE, 0x2A, 0xF5, 0xB0, 0xC8, 0xEB, 0xBB, 0x3C, 0x83, 0x53, 0x99, 0x61,
   0x17, 0x2B, 0x04, 0x7E, 0xBA, 0x77, 0xD6, 0x26, 0xE1, 0x69, 0x14, 0x63, 0x55, 0x21, 0x0C, 0x7D]

/-- `SBox` (CEX/Rijndael.h:80-98). -/
def sbox : List Byte :=
  [
   0x63#8, 0x7C, 0x77, 0x7B, 0xF2, 0x6B, 0x6F, 0xC5, 0x30, 0x01, 0x67, 0x2B, 0xFE, 0xD7, 0xAB, 0x76,
   0xCA, 0x82, 0xC9, 0x7D, 0xFA, 0x59, 0x47, 0xF0, 0xAD, 0xD4, 0xA2, 0xAF, 0x9C, 0xA4, 0x72, 0xC0,
   0xB7, 0xFD, 0x93, 0x26, 0x36, 0x3F, 0xF7, 0xCC, 0x34, 0xA5, 0xE5, 0xF1, 0x71, 0xD8, 0x31, 0x15,
   0x04, 0xC7, 0x23, 0xC3, 0x18, 0x96, 0x05, 0x9A, 0x07, 0x12, 0x80, 0xE2, 0xEB, 0x27, 0xB2, 0x75,
   0x09, 0x83, 0x2C, 0x1A, 0x1B, 0x6E, 0x5A, 0xA0, 0x52, 0x3B, 0xD6, 0xB3, 0x29, 0xE3, 0x2F, 0x84,
   0x53, 0xD1, 0x00, 0xED, 0x20, 0xFC, 0xB1, 0x5B, 0x6A, 0xCB, 0xBE, 0x39, 0x4A, 0x4C, 0x58, 0xCF,
   0xD0, 0xEF, 0xAA, 0xFB, 0x43, 0x4D, 0x33, 0x85, 0x45, 0xF9, 0x02, 0x7F, 0x50, 0x3C, 0x9F, 0xA8,
   0x51, 0xA3, 0x40, 0x8F, 0x92, 0x9D, 0x38, 0xF5, 0xBC, 0xB6, 0xDA, 0x21, 0x10, 0xFF, 0xF3, 0xD2,
   0xCD, 0x0C, 0x13, 0xEC, 0x5F, 0x97, 0x44, 0x17, 0xC4, 0xA7, 0x7E, 0x3D, 0x64, 0x5D, 0x19, 0x73,
   0x60, 0x81, 0x4F, 0xDC, 0x22, 0x2A, 0x90, 0x88, 0x46, 0xEE, 0xB8, 0x14, 0xDE, 0x5E, 0x0B, 0xDB,
   0xE0, 0x32, 0x3A, 0x0A, 0x49, 0x06, 0x24, 0x5C, 0xC2, 0xD3, 0xAC, 0x62, 0x91, 0x95, 0xE4, 0x79,
   0xE7, 0xC8, 0x37, 0x6D, 0x8D, 0xD5, 0x4E, 0xA9, 0x6C, 0x56, 0xF4, 0xEA, 0x65, 0x7A, 0xAE, 0x08,
   0xBA, 0x78, 0x25, 0x2E, 0x1C, 0xA6, 0xB4, 0xC6, 0xE8, 0xDD, 0x74, 0x1F, 0x4B, 0xBD, 0x8B, 0x8A,
   0x70, 0x3E, 0xB5, 0x66, 0x48, 0x03, 0xF6, 0x0E, 0x61, 0x35, 0x57, 0xB9, 0x86, 0xC1, 0x1D, 0x9E,
   0xE1, 0xF8, 0x98, 0x11, 0x69, 0xD9, 0x8E, 0x94, 0x9B, 0x1E, 0x87, 0xE9, 0xCE, 0x55, 0x28, 0xDF,
   0x8C, 0xA1, 0x89, 0x0D, 0xBF, 0xE6, 0x42, 0x68, 0x41, 0x99, 0x2D, 0x0F, 0xB0, 0x54, 0xBB, 0x16]

/-- The statements of the row-shifting functions: `tmp = State[i]`, `State[d] = State[s]` and `State[d] = tmp`. -/
inductive Op
  | save (i : Nat)
  | mv (d s : Nat)
  | put (d : Nat)

/-- One after another; `tmp` starts indeterminate (reading it first would be undefined). -/
def runOps {α : Type} : List Op → Option α → List α → M (List α)
  | [], _, s => .ok s
  | .save i :: ops, _, s => do
    let v ← rd s i
    runOps ops (some v) s
  | .mv d i :: ops, tmp, s => do
    let v ← rd s i
    let s ← wr s d v
    runOps ops tmp s
  | .put d :: ops, tmp, s =>
    match tmp with
    | none => .error .ub
    | some v => do
      let s ← wr s d v
      runOps ops tmp s

/-- `InvShiftRows` (CEX/Rijndael.h:167-190). -/
def invShiftRowsOps : List Op :=
  [
   .save 13, .mv 13 9, .mv 9 5, .mv 5 1, .put 1, .save 2, .mv 2 10, .put 10, .save 6, .mv 6 14,
   .put 14, .save 3, .mv 3 7, .mv 7 11, .mv 11 15, .put 15]

/-- `ShiftRows128` (CEX/Rijndael.h:235-263). -/
def shiftRows128Ops : List Op :=
  [
   .save 1, .mv 1 5, .mv 5 9, .mv 9 13, .put 13, .save 2, .mv 2 10, .put 10, .save 6, .mv 6 14,
   .put 14, .save 15, .mv 15 11, .mv 11 7, .mv 7 3, .put 3]

/-- `ShiftRows256` (CEX/Rijndael.h:265-302). -/
def shiftRows256Ops : List Op :=
  [
   .save 1, .mv 1 5, .mv 5 9, .mv 9 13, .mv 13 17, .mv 17 21, .mv 21 25, .mv 25 29, .put 29,
   .save 2, .mv 2 14, .mv 14 26, .mv 26 6, .mv 6 18, .mv 18 30, .mv 30 10, .mv 10 22, .put 22,
   .save 3, .mv 3 19, .put 19, .save 7, .mv 7 23, .put 23, .save 11, .mv 11 27, .put 27, .save 15,
   .mv 15 31, .put 31]

/-- `ShiftRows512` (CEX/Rijndael.h:304-391). -/
def shiftRows512Ops : List Op :=
  [
   .save 0, .mv 0 4, .mv 4 8, .mv 8 12, .mv 12 16, .mv 16 20, .mv 20 24, .mv 24 28, .mv 28 32,
   .mv 32 36, .mv 36 40, .mv 40 44, .mv 44 48, .mv 48 52, .mv 52 56, .mv 56 60, .put 60, .save 1,
   .mv 1 9, .mv 9 17, .mv 17 25, .mv 25 33, .mv 33 41, .mv 41 49, .mv 49 57, .put 57, .save 5,
   .mv 5 13, .mv 13 21, .mv 21 29, .mv 29 37, .mv 37 45, .mv 45 53, .mv 53 61, .put 61, .save 2,
   .mv 2 18, .mv 18 34, .mv 34 50, .put 50, .save 6, .mv 6 22, .mv 22 38, .mv 38 54, .put 54,
   .save 10, .mv 10 26, .mv 26 42, .mv 42 58, .put 58, .save 14, .mv 14 30, .mv 30 46, .mv 46 62,
   .put 62, .save 3, .mv 3 35, .put 35, .save 7, .mv 7 39, .put 39, .save 11, .mv 11 43, .put 43,
   .save 15, .mv 15 47, .put 47, .save 19, .mv 19 51, .put 51, .save 23, .mv 23 55, .put 55,
   .save 27, .mv 27 59, .put 59, .save 31, .mv 31 63, .put 63]

end Cex.Rijndael
