import Verif.Lattice.Loop

/-!
# Model of the arithmetic of Dilithium (CEX/DLTMPolyMath.cpp), scalar build

`int32_t` and `int64_t` values are integers. Overflow of an `int32_t` or `int64_t` operation is undefined behaviour, with one
exception: the product in `MontReduce` (1950) overflows on nearly every input, see `montReduceStrict`; the model uses the wrapped value,
which is what compilers that define signed overflow compute. A `Poly` is the list of its 256 coefficients.
-/

namespace Cex.Dilithium
open Cex Cex.Lattice

/-- Conversion to `int32_t`. -/
def c32 (x : Int) : Int := (x + 2147483648) % 4294967296 - 2147483648

/-- The result of an `int32_t` operation. -/
def i32 (x : Int) : M Int := if -2147483648 ≤ x ∧ x ≤ 2147483647 then .ok x else .error .ub

/-- The result of an `int64_t` operation. -/
def i64 (x : Int) : M Int := if -9223372036854775808 ≤ x ∧ x ≤ 9223372036854775807 then .ok x else .error .ub

/-- `DILITHIUM_Q` (DLTMPolyMath.h:44). -/
def Q : Int := 8380417

/-- `DILITHIUM_QINV` (DLTMPolyMath.h:52). -/
def QINV : Int := 58728449

/-- `DLTMPolyMath::Zetas` (DLTMPolyMath.cpp:10-44), as the unsigned values in the source. -/
def zetas : List Int := [
  0x00000000, 0x000064F7, 0xFFD83102, 0xFFF81503, 0x00039E44, 0xFFF42118, 0xFFF2A128, 0x00071E24,
  0x001BDE2B, 0x0023E92B, 0xFFFA84AD, 0xFFE0147F, 0x002F9A75, 0xFFD3FB09, 0x002F7A49, 0x0028E527,
  0x00299658, 0x000FA070, 0xFFEF85A4, 0x0036B788, 0xFFF79D90, 0xFFEEEAA0, 0x0027F968, 0xFFDFD37B,
  0xFFDFADD6, 0xFFC51AE7, 0xFFEAA4F7, 0xFFCDFC98, 0x001AD035, 0xFFFFB422, 0x003D3201, 0x000445C5,
  0x00294A67, 0x00017620, 0x002EF4CD, 0x0035DEC5, 0xFFE6A503, 0xFFC9302C, 0xFFD947D4, 0x003BBEAF,
  0xFFC51585, 0xFFD18E7C, 0x00368A96, 0xFFD43E41, 0x00360400, 0xFFFB6A4D, 0x0023D69C, 0xFFF7C55D,
  0xFFE6123D, 0xFFE6EAD6, 0x00357E1E, 0xFFC5AF59, 0x0035843F, 0xFFDF5617, 0xFFE7945C, 0x0038738C,
  0x000C63A8, 0x00081B9A, 0x000E8F76, 0x003B3853, 0x003B8534, 0xFFD8FC30, 0x001F9D54, 0xFFD54F2D,
  0xFFC406E5, 0xFFE8AC81, 0xFFC7E1CF, 0xFFD19819, 0xFFE9D65D, 0x003509EE, 0x002135C7, 0xFFE7CFBB,
  0xFFECCF75, 0x001D9772, 0xFFC1B072, 0xFFF0BCF6, 0xFFCF5280, 0xFFCFD2AE, 0xFFC890E0, 0x0001EFCA,
  0x003410F2, 0xFFF0FE85, 0x0020C638, 0x00296E9F, 0xFFD2B7A3, 0xFFC7A44B, 0xFFF9BA6D, 0xFFDA3409,
  0xFFF5C282, 0xFFED4113, 0xFFFFA63B, 0xFFEC09F7, 0xFFFA2BDD, 0x001495D4, 0x001C4563, 0xFFEA2C62,
  0xFFCCFBE9, 0x00040AF0, 0x0007C417, 0x002F4588, 0x0000AD00, 0xFFEF36BE, 0x000DCD44, 0x003C675A,
  0xFFC72BCA, 0xFFFFDE7E, 0x00193948, 0xFFCE69C0, 0x0024756C, 0xFFFCC7DF, 0x000B98A1, 0xFFEBE808,
  0x0002E46C, 0xFFC9C808, 0x003036C2, 0xFFE3BFF6, 0xFFDB3C93, 0xFFFD4AE0, 0x00141305, 0x00147792,
  0x00139E25, 0xFFE7D0E0, 0xFFF39944, 0xFFEA0802, 0xFFD1EEA2, 0xFFC4C79C, 0xFFC8A057, 0x003A97D9,
  0x001FEA93, 0x0033FF5A, 0x002358D4, 0x003A41F8, 0xFFCCFF72, 0x00223DFB, 0xFFDAAB9F, 0xFFC9A422,
  0x000412F5, 0x00252587, 0xFFED24F0, 0x00359B5D, 0xFFCA48A0, 0xFFC6A2FC, 0xFFEDBB56, 0xFFCF45DE,
  0x000DBE5E, 0x001C5E1A, 0x000DE0E6, 0x000C7F5A, 0x00078F83, 0xFFE7628A, 0xFFFF5704, 0xFFF806FC,
  0xFFF60021, 0xFFD05AF6, 0x001F0084, 0x0030EF86, 0xFFC9B97D, 0xFFF7FCD6, 0xFFF44592, 0xFFC921C2,
  0x00053919, 0x0004610C, 0xFFDACD41, 0x003EB01B, 0x003472E7, 0xFFCD003B, 0x001A7CC7, 0x00031924,
  0x002B5EE5, 0x00291199, 0xFFD87A3A, 0x00134D71, 0x003DE11C, 0x00130984, 0x0025F051, 0x00185A46,
  0xFFC68518, 0x001314BE, 0x00283891, 0xFFC9DB90, 0xFFD25089, 0x001C853F, 0x001D0B4B, 0xFFEFF6A6,
  0xFFEBA8BE, 0x0012E11B, 0xFFCD5E3E, 0xFFEA2D2F, 0xFFF91DE4, 0x001406C7, 0x00327283, 0xFFE20D6E,
  0xFFEC7953, 0x001D4099, 0xFFD92578, 0xFFEB05AD, 0x0016E405, 0x000BDBE7, 0x00221DE8, 0x0033F8CF,
  0xFFF7B934, 0xFFD4CA0C, 0xFFE67FF8, 0xFFE3D157, 0xFFD8911B, 0xFFC72C12, 0x000910D8, 0xFFC65E1F,
  0xFFE14658, 0x00251D8B, 0x002573B7, 0xFFFD7C8F, 0x001DDD98, 0x00336898, 0x0002D4BB, 0xFFED93A7,
  0xFFCF6CBE, 0x00027C1C, 0x0018AA08, 0x002DFD71, 0x000C5CA5, 0x0019379A, 0xFFC7A167, 0xFFE48C3D,
  0xFFD1A13C, 0x0035C539, 0x003B0115, 0x00041DC0, 0x0021C4F7, 0xFFF11BF4, 0x001A35E7, 0x0007340E,
  0xFFF97D45, 0x001A4CD0, 0xFFE47CAE, 0x001D2668, 0xFFE68E98, 0xFFEF2633, 0xFFFC05DA, 0xFFC57FDB,
  0xFFD32764, 0xFFDDE1AF, 0xFFF993DD, 0xFFDD1D09, 0x0002CC93, 0xFFF11805, 0x00189C2A, 0xFFC9E5A9,
  0xFFF78A50, 0x003BCF2C, 0xFFFF434E, 0xFFEB36DF, 0x003C15CA, 0x00155E68, 0xFFF316B6, 0x001E29CE]

/-- `zeta = Zetas[k]` (DLTMPolyMath.cpp:1034). -/
def zetaAt (k : Nat) : M Int := do return c32 (← rd zetas k)

/-- `zeta = ~Zetas[k] + 1` (DLTMPolyMath.cpp:1001). -/
def negZetaAt (k : Nat) : M Int := do return c32 ((4294967295 - (← rd zetas k)) + 1)

/-- `MontReduce` (DLTMPolyMath.cpp:1946-1954), the product at 1950 wrapping. -/
def montReduce (a : Int) : M Int := do
  let t := c32 (c32 a * QINV)
  let p ← i64 (t * Q)
  let d ← i64 (a - p)
  return c32 (d / 4294967296)

/-- `MontReduce` by the letter of the language standard: the product at 1950 is a product of two `int32_t`. -/
def montReduceStrict (a : Int) : M Int := do
  let t ← i32 (c32 a * QINV)
  let p ← i64 (t * Q)
  let d ← i64 (a - p)
  return c32 (d / 4294967296)

/-- `MontReduce((int64_t)a * b)`; the unsigned product of `PolyPointwiseInvMont` (1397) is converted back to the same value. -/
def mulMont (a b : Int) : M Int := do montReduce (← i64 (a * b))

/-- The arithmetic of a butterfly of `Ntt` (DLTMPolyMath.cpp:1038-1040): new coefficients `j` and `j + len`. -/
def butterfly (z x y : Int) : M (Int × Int) := do
  let t ← mulMont z y
  let y ← i32 (x - t)
  let x ← i32 (x + t)
  return (x, y)

/-- The arithmetic of a butterfly of `InvNttToMont` (DLTMPolyMath.cpp:1005-1008). -/
def invButterfly (z x y : Int) : M (Int × Int) := do
  let s ← i32 (x + y)
  let d ← i32 (x - y)
  let d ← mulMont z d
  return (s, d)

/-- `Ntt` (DLTMPolyMath.cpp:1019-1044); `k` is increased before its use. -/
def ntt (r : List Int) : M (List Int) := do
  let (_, r) ← [128, 64, 32, 16, 8, 4, 2, 1].foldlM (fun (s : Nat × List Int) len => sweep (fun k => zetaAt (k + 1)) (· + 1) butterfly len s.1 s.2) (0, r)
  return r

/-- `InvNttToMont` (DLTMPolyMath.cpp:985-1017); `k` is decreased before its use. -/
def invNttToMont (r : List Int) : M (List Int) := do
  let (_, r) ← [1, 2, 4, 8, 16, 32, 64, 128].foldlM (fun (s : Nat × List Int) len => sweep (fun k => negZetaAt (k - 1)) (· - 1) invButterfly len s.1 s.2) (256, r)
  mapLoop (fun x => mulMont 41978 x) r

/-- `Reduce32` (DLTMPolyMath.cpp:1956-1964). -/
def reduce32 (a : Int) : M Int := do
  let s ← i32 (a + 4194304)
  let p ← i32 (s / 8388608 * Q)
  i32 (a - p)

/-- `CaddQ` (DLTMPolyMath.cpp:1939-1944). -/
def caddQ (a : Int) : M Int := i32 (a + if a < 0 then Q else 0)

/-- Loops that write each of 256 entries from an expression. -/
def fill (e : Nat → M Int) (r : List Int) : M (List Int) := loopN 256 0 (fun i r => do wr r i (← e i)) r

/-- `PolyAdd` (DLTMPolyMath.cpp:823-829). -/
def polyAdd (c a b : List Int) : M (List Int) := fill (fun i => do i32 ((← rd a i) + (← rd b i))) c

/-- `PolySub` (DLTMPolyMath.cpp:928-936). -/
def polySub (c a b : List Int) : M (List Int) := fill (fun i => do i32 ((← rd a i) - (← rd b i))) c

/-- `PolyCaddQ` (DLTMPolyMath.cpp:831-837). -/
def polyCaddQ (a : List Int) : M (List Int) := mapLoop caddQ a

/-- `PolyReduce` (DLTMPolyMath.cpp:908-916). -/
def polyReduce (a : List Int) : M (List Int) := mapLoop reduce32 a

/-- `<<= DILITHIUM_D` of an `int32_t`: undefined for negative values and results out of range. -/
def shl13 (a : Int) : M Int := if a < 0 then .error .ub else i32 (a * 8192)

/-- `PolyShiftL` (DLTMPolyMath.cpp:918-926). -/
def polyShiftL (a : List Int) : M (List Int) := mapLoop shl13 a

/-- `PolyPointwiseMont`, `PolyPointwiseInvMont` (DLTMPolyMath.cpp:1391-1407). -/
def polyPointwise (c a b : List Int) : M (List Int) := fill (fun i => do mulMont (← rd a i) (← rd b i)) c

/-! ## Rounding -/

/-- `DILITHIUM_GAMMA2` of the three parameter sets (DLTMBase.h:57, 81, 106). -/
def gamma88 : Int := (Q - 1) / 88
def gamma32 : Int := (Q - 1) / 32

/-- `Decompose` (DLTMPolyMath.cpp:1968-1989): the result and `A0`. For other values of `Gamma2` the result is `(A + 127) >> 7`. -/
def decompose (g2 a : Int) : M (Int × Int) := do
  let a1 := (← i32 (a + 127)) / 128
  let a1 ← (if g2 = gamma32 then do
      let p ← i32 (a1 * 1025)
      let p ← i32 (p + 2097152)
      pure (p / 4194304 % 16)
    else if g2 = gamma88 then do
      let p ← i32 (a1 * 11275)
      let p ← i32 (p + 8388608)
      let a1 := p / 16777216
      let d ← i32 (43 - a1)
      pure (if d < 0 then 0 else a1)
    else pure a1)
  let a0 := c32 (a - a1 * 2 * g2)
  let d ← i32 ((Q - 1) / 2 - a0)
  let a0 ← i32 (a0 - if d < 0 then Q else 0)
  return (a1, a0)

/-- `MakeHint` (DLTMPolyMath.cpp:1991-2003). -/
def makeHint (g2 a0 a1 : Int) : Int := if a0 ≤ g2 ∨ a0 > Q - g2 ∨ (a0 = Q - g2 ∧ a1 = 0) then 0 else 1

/-- `Power2Round` (DLTMPolyMath.cpp:2005-2013): the result and `A0`. -/
def power2Round (a : Int) : M (Int × Int) := do
  let s ← i32 (a + 4096)
  let s ← i32 (s - 1)
  let a1 := s / 8192
  let p ← shl13 a1
  let a0 ← i32 (a - p)
  return (a1, a0)

/-- `UseHint` (DLTMPolyMath.cpp:2015-2056). -/
def useHint (g2 a h : Int) : M Int := do
  let (a1, a0) ← decompose g2 a
  if h = 0 then return a1
  else if g2 = gamma32 then
    if a0 > 0 then return (a1 + 1) % 16 else return (a1 - 1) % 16
  else if g2 = gamma88 then
    if a0 > 0 then return (if a1 = 43 then 0 else a1 + 1) else return (if a1 = 0 then 43 else a1 - 1)
  else return 0

/-- `PolyChkNorm` (DLTMPolyMath.cpp:839-870): does some coefficient reach the bound? `B` is below `2 ^ 31`. -/
def chkLoop (b : Int) : (n i : Nat) → List Int → M Bool
  | 0, _, _ => return false
  | n + 1, i, a => do
    let v ← rd a i
    let t ← (if v < 0 then do i32 (v - (← i32 (2 * v))) else pure v)
    if t ≥ b then return true else chkLoop b n (i + 1) a

/-- `PolyChkNorm` (DLTMPolyMath.cpp:839-870). -/
def polyChkNorm (a : List Int) (b : Int) : M Bool := if b > (Q - 1) / 8 then return true else chkLoop b 256 0 a

/-- `PolyDecompose` (DLTMPolyMath.cpp:873-881): `A1` and `A0`. -/
def polyDecompose (a1 a0 a : List Int) (g2 : Int) : M (List Int × List Int) :=
  loopN 256 0 (fun i s => do
    let d ← decompose g2 (← rd a i)
    let a0 ← wr s.2 i d.2
    let a1 ← wr s.1 i d.1
    return (a1, a0)) (a1, a0)

/-- `PolyPower2Round` (DLTMPolyMath.cpp:898-906): `A1` and `A0`. -/
def polyPower2Round (a1 a0 a : List Int) : M (List Int × List Int) :=
  loopN 256 0 (fun i s => do
    let d ← power2Round (← rd a i)
    let a0 ← wr s.2 i d.2
    let a1 ← wr s.1 i d.1
    return (a1, a0)) (a1, a0)

/-- `PolyMakeHint` (DLTMPolyMath.cpp:883-896): `H` and the count (`uint32_t`, at most 256). -/
def polyMakeHint (h a0 a1 : List Int) (g2 : Int) : M (List Int × Int) :=
  loopN 256 0 (fun i s => do
    let b := makeHint g2 (← rd a0 i) (← rd a1 i)
    let h ← wr s.1 i b
    return (h, s.2 + b)) (h, 0)

/-- `PolyUseHint` (DLTMPolyMath.cpp:938-946). -/
def polyUseHint (b a h : List Int) (g2 : Int) : M (List Int) := fill (fun i => do useHint g2 (← rd a i) (← rd h i)) b

end Cex.Dilithium
