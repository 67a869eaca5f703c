import Verif.McEliece.Model

/-!
# Model of GenE, Decrypt and Decapsulate of McEliece (CEX/MPKCN*.cpp)

`MPKCN4608T96`, `MPKCN6688T128` and `MPKCN8192T128` have the same `Decrypt` and `Decapsulate` up to the constants; `MPKCN6960T119` adds the padding of the ciphertext. The lines cited are those of MPKCN6960T119.cpp and MPKCN4608T96.cpp.

What depends on the private key in `Decrypt` is abstract: the map from a received word to its `2t` syndromes (`Synd` with the Goppa polynomial and the support), and the map to the images of the support under the locator (`Bm` and `Root`). The theorems hold for every such pair of functions, whatever the decoder finds. `Keccak::XOFP1600` is an abstract function of the message and the output length.
-/

namespace Cex.McEliece.Kem

/-- `SYS_N / 8`, `SYND_BYTES`, `SYS_T` (MPKCN6960T119.cpp:13-21, MPKCN4608T96.cpp:13-21 and the same lines of the other two). -/
structure Par where
  nb : Nat
  sb : Nat
  t : Nat

def n4608 : Par := ⟨576, 156, 96⟩
def n6688 : Par := ⟨836, 208, 128⟩
def n6960 : Par := ⟨870, 194, 119⟩
def n8192 : Par := ⟨1024, 208, 128⟩

/-- The private key as `Decapsulate` uses it: `synd r` are the `2t` field elements of `Synd`, `image r i` is `images[i]`, `s` is the rejection string. -/
structure Key where
  synd : List Byte → List (BitVec 16)
  image : List Byte → Nat → BitVec 16
  s : List Byte

/-! ## GenE -/

/-- `LoadGf` (MPKCUtils.cpp:760-767). -/
def loadGf (b0 b1 : Byte) : BitVec 16 := (b0.setWidth 16 ||| b1.setWidth 16 <<< 8) &&& 0x1FFF#16

/-- `nrnd[i] = LoadGf(brnd + 2i)` (MPKCN6960T119.cpp:167-170). -/
def loadAll : List Byte → List (BitVec 16)
  | b0 :: b1 :: l => loadGf b0 b1 :: loadAll l
  | _ => []

/-- The loop that keeps the indices below `SYS_N` until there are `SYS_T` (MPKCN6960T119.cpp:174-190). -/
def collect (p : Par) : List (BitVec 16) → List (BitVec 16) → List (BitVec 16)
  | [], ind => ind
  | x :: l, ind =>
    if x.toNat < 8 * p.nb then
      if p.t ≤ (ind ++ [x]).length then ind ++ [x] else collect p l (ind ++ [x])
    else collect p l ind

/-- The check for repetition (MPKCN6960T119.cpp:197-211): `eq = 1` when some `ind[i] == ind[j]` with `j < i`. -/
def repeated (ind : List (BitVec 16)) : Bool :=
  (List.range ind.length).any fun i => (List.range i).any fun j => ind[i]? == ind[j]?

/-- `E[i]` (MPKCN6960T119.cpp:219-233). -/
def errByte (ind : List (BitVec 16)) (i : Nat) : Byte :=
  ind.foldl (fun e x => e ||| ((1#8 <<< (x &&& 7#16).toNat) &&& sameMask (BitVec.ofNat 16 i) (x >>> 3))) 0

/-- `GenE` (MPKCN6960T119.cpp:144-235): one element of the list for every call of `Rng->Fill`; the list ends before an index list is accepted only if the loop does not. -/
def genE (p : Par) : List (List Byte) → M (List Byte)
  | [] => .error .diverges
  | d :: l =>
    let ind := collect p (loadAll d) []
    if ind.length < p.t then genE p l
    else if repeated ind then genE p l
    else .ok ((List.range p.nb).map (errByte ind))

/-! ## Decrypt -/

/-- The eight passes of `E[i / 8] |= t << (i % 8)` with the same `i / 8` (MPKCN6960T119.cpp:126-131); `t = GfIsZero(images[i]) & 1`. -/
def packByte (img : Nat → BitVec 16) : Byte :=
  (List.range 8).foldl (fun e k => e ||| ((gfIsZero (img k) &&& 1#16) <<< k).setWidth 8) 0

/-- `Decrypt` (MPKCN6960T119.cpp:89-150): the error vector and the return value. -/
def decrypt (p : Par) (k : Key) (c : List Byte) : List Byte × BitVec 32 :=
  let r := c.take p.sb ++ List.replicate (p.nb - p.sb) 0
  let s := k.synd r
  let e := (List.range p.nb).map fun i => packByte fun j => k.image r (8 * i + j)
  let w := ((List.range (8 * p.nb)).map fun i => (gfIsZero (k.image r i) &&& 1#16).toNat).sum
  let scmp := k.synd e
  let check := BitVec.ofNat 16 w ^^^ BitVec.ofNat 16 p.t
  let check := (List.zipWith (· ^^^ ·) s scmp).foldl (· ||| ·) check
  let check := (check - 1#16) >>> 15
  (e, (check ^^^ 1#16).setWidth 32)

/-! ## Decapsulate -/

/-- `CheckCPadding` (MPKCN6960T119.cpp:284-297) of the last byte of the syndrome; `PK_NROWS % 8 = 3`. -/
def checkCPadding (b : Byte) : Int := (((b >>> 3 - 1#8) >>> 7).toNat : Int) - 1

/-- `Decapsulate` without the padding (MPKCN4608T96.cpp:562-608): the return value and the shared secret. A ciphertext that is too short is read past its end. -/
def decaps (p : Par) (k : Key) (H : List Byte → Nat → List Byte) (c : List Byte) : M (Bool × List Byte) :=
  if c.length < p.sb + 32 then .error .ub
  else
    let (e, ret) := decrypt p k c
    let retDecrypt : Byte := ret.setWidth 8
    let conf := H (2#8 :: e) 32
    let retConfirm := (List.zipWith (· ^^^ ·) conf ((c.drop p.sb).take 32)).foldl (· ||| ·) 0#8
    let m := ((retDecrypt ||| retConfirm).setWidth 16 - 1#16) >>> 8
    let x := List.zipWith (fun s e : Byte => ((~~~m &&& s.setWidth 16) ||| (m &&& e.setWidth 16)).setWidth 8) k.s e
    let pre := (m &&& 1#16).setWidth 8 :: x ++ c.take (p.sb + 32)
    .ok (retDecrypt.toNat + retConfirm.toNat == 0, H pre 32)

/-- `MPKCN6960T119::Decapsulate` (MPKCN6960T119.cpp:615-674): the same with the padding, which sets the secret to ones and is added to the return value. -/
def decaps6960 (k : Key) (H : List Byte → Nat → List Byte) (c : List Byte) : M (Bool × List Byte) :=
  let p := n6960
  if c.length < p.sb + 32 then .error .ub
  else do
    let paddingOk := checkCPadding (← rd c (p.sb - 1))
    let (e, ret) := decrypt p k c
    let retDecrypt : Byte := ret.setWidth 8
    let conf := H (2#8 :: e) 32
    let retConfirm := (List.zipWith (· ^^^ ·) conf ((c.drop p.sb).take 32)).foldl (· ||| ·) 0#8
    let m := ((retDecrypt ||| retConfirm).setWidth 16 - 1#16) >>> 8
    let x := List.zipWith (fun s e : Byte => ((~~~m &&& s.setWidth 16) ||| (m &&& e.setWidth 16)).setWidth 8) k.s e
    let pre := (m &&& 1#16).setWidth 8 :: x ++ c.take (p.sb + 32)
    let mask : Byte := BitVec.ofInt 8 paddingOk
    .ok ((retDecrypt.toNat : Int) + retConfirm.toNat + paddingOk == 0, (H pre 32).map (· ||| mask))

/-! ## Encapsulate -/

/-- `Encapsulate` after `GenE` (MPKCN4608T96.cpp:610-628): the ciphertext and the shared secret; `synd` is `Syndrome` with the public key. -/
def encaps (H : List Byte → Nat → List Byte) (synd : List Byte → List Byte) (e : List Byte) : List Byte × List Byte :=
  let c := synd e ++ H (2#8 :: e) 32
  (c, H (1#8 :: e ++ c) 32)

/-- `CheckPkPadding` (MPKCN6960T119.cpp:299-318) of the last bytes of the rows; `PK_NCOLS % 8 = 5`. -/
def checkPkPadding (last : List Byte) : Int := ((((last.foldl (· ||| ·) 0#8) >>> 5 - 1#8) >>> 7).toNat : Int) - 1

/-- `MPKCN6960T119::Encapsulate` after `GenE` (MPKCN6960T119.cpp:676-712): the return value, the ciphertext and the shared secret. -/
def encaps6960 (H : List Byte → Nat → List Byte) (synd : List Byte → List Byte) (last : List Byte) (e : List Byte) : Bool × List Byte × List Byte :=
  let paddingOk := checkPkPadding last
  let (c, ss) := encaps H synd e
  let mask : Byte := BitVec.ofInt 8 paddingOk ^^^ 0xFF#8
  (paddingOk == 0, c.map (· &&& mask), ss.map (· &&& mask))

end Cex.McEliece.Kem
