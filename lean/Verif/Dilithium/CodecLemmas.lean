import Verif.Dilithium.PackLemmas
import Verif.Dilithium.CodecSpec
import Verif.Dilithium.RoundLemmas

/-!
# The encodings of polynomials
-/

namespace Cex.Dilithium
open Cex Cex.Lattice Cex.Spec.Lattice Cex.Spec.Dilithium

/-- The polynomial with these coefficients. -/
def tab (x : Nat → Int) : List Int := (List.range 256).map x

theorem tab_length (x : Nat → Int) : (tab x).length = 256 := by rw [tab, List.length_map, List.length_range]

theorem tab_get {x : Nat → Int} {i : Nat} (hi : i < 256) : (tab x)[i]? = some (x i) := by rw [tab, List.getElem?_map, List.getElem?_range hi, Option.map_some]

theorem rd_tab {x : Nat → Int} {i : Nat} (hi : i < 256) : rd (tab x) i = .ok (x i) := by
  have hl : i < (tab x).length := by rw [tab_length]; exact hi
  rw [rd_ok hl]
  have := tab_get (x := x) hi
  rw [List.getElem?_eq_getElem hl] at this
  exact congrArg Except.ok (Option.some.inj this)

theorem tab_ext {x y : Nat → Int} (h : ∀ i, i < 256 → x i = y i) : tab x = tab y := by
  rw [tab, tab]
  exact List.map_congr_left fun i hi => h i (List.mem_range.mp hi)

theorem eq_tab {a : List Int} {x : Nat → Int} (hl : a.length = 256) (h : ∀ i v, a[i]? = some v → v = x i) : a = tab x := each_eq (g := x) ⟨hl, h⟩

theorem rep_tab {x : Nat → Int} {P : Int → F → Prop} {f : Nat → F} (h : ∀ i, i < 256 → P (x i) (f i)) : Rep P (tab x) f := by
  refine ⟨tab_length x, fun i v hv => ?_⟩
  have hi : i < 256 := by rw [← tab_length x]; exact (List.getElem?_eq_some_iff.mp hv).1
  rw [tab_get hi] at hv
  cases hv
  exact h i hi

theorem tab_of_rep {a : List Int} {P : Int → F → Prop} {f : Nat → F} {φ : F → Int} (h : Rep P a f) (hp : ∀ v x, P v x → v = φ x) : a = tab (fun i => φ (f i)) :=
  eq_tab h.1 fun i v hv => hp v (f i) (h.2 i v hv)

/-! ## Specification -/

theorem packBelow_length (d : Nat) (c : Int) (x : Nat → Int) : (packBelow d c x).length = 32 * d := by
  rw [packBelow, encode_length, List.length_map, List.length_range]; omega

theorem packPlain_length (d : Nat) (x : Nat → Int) : (packPlain d x).length = 32 * d := by
  rw [packPlain, encode_length, List.length_map, List.length_range]; omega

theorem number_encode {d : Nat} {g : Nat → Nat} (hg : ∀ i, i < 256 → g i < 2 ^ d) {i : Nat} (hi : i < 256) : number d (encode d ((List.range 256).map g)) i = g i := by
  have h := decode_encode (d := d) (cs := (List.range 256).map g) (by rw [List.length_map, List.length_range]; omega) (by
    intro c hc
    obtain ⟨j, hj, rfl⟩ := List.mem_map.mp hc
    exact hg j (List.mem_range.mp hj))
  have e := congrArg (fun l => l[i]?) h
  simp only [decode, List.length_map, List.length_range, List.getElem?_map, List.getElem?_range hi, Option.map_some] at e
  exact Option.some.inj e

theorem unpack_packBelow {d : Nat} {c : Int} {x : Nat → Int} (hx : ∀ i, i < 256 → x i ≤ c ∧ c - x i < 2 ^ d) {i : Nat} (hi : i < 256) : unpackBelow d c (packBelow d c x) i = x i := by
  rw [unpackBelow, packBelow, number_encode (fun i hi => by have := hx i hi; have e : (((2 ^ d : Nat) : Int)) = 2 ^ d := by push_cast; rfl
                                                            omega) hi]
  have := hx i hi
  omega

theorem unpack_packPlain {d : Nat} {x : Nat → Int} (hx : ∀ i, i < 256 → 0 ≤ x i ∧ x i < 2 ^ d) {i : Nat} (hi : i < 256) : unpackPlain d (packPlain d x) i = x i := by
  rw [unpackPlain, packPlain, number_encode (fun i hi => by have := hx i hi; have e : (((2 ^ d : Nat) : Int)) = 2 ^ d := by push_cast; rfl
                                                            omega) hi]
  have := hx i hi
  omega

theorem encode_numbers {d : Nat} {w : List Byte} (hw : w.length = 32 * d) : encode d ((List.range 256).map (number d w)) = w :=
  encode_decode (d := d) (n := 256) (by omega)

theorem pack_unpackBelow {d : Nat} {c : Int} {w : List Byte} (hw : w.length = 32 * d) : packBelow d c (unpackBelow d c w) = w := by
  rw [packBelow]
  conv_rhs => rw [← encode_numbers hw]
  congr 2
  funext i
  rw [unpackBelow]
  omega

theorem pack_unpackPlain {d : Nat} {w : List Byte} (hw : w.length = 32 * d) : packPlain d (unpackPlain d w) = w := by
  rw [packPlain]
  conv_rhs => rw [← encode_numbers hw]
  congr 2

theorem packBelow_ext {d : Nat} {c : Int} {x y : Nat → Int} (h : ∀ i, i < 256 → x i = y i) : packBelow d c x = packBelow d c y := by
  rw [packBelow, packBelow]
  congr 1
  exact List.map_congr_left fun i hi => by rw [h i (List.mem_range.mp hi)]

theorem packPlain_ext {d : Nat} {x y : Nat → Int} (h : ∀ i, i < 256 → x i = y i) : packPlain d x = packPlain d y := by
  rw [packPlain, packPlain]
  congr 1
  exact List.map_congr_left fun i hi => by rw [h i (List.mem_range.mp hi)]

/-! ## Loops -/

theorem packLoop_tab {d G m g : Nat} {val : Int → Nat} {sp : Int → Nat} {pk : List Nat → List Byte} (hp : Packs d m g pk) (hG : m * G = 256) {x : Nat → Int}
    (hv : ∀ i, i < 256 → val (x i) = sp (x i) ∧ sp (x i) < 2 ^ d) {off : Nat} (pre junk post : List Byte) (ho : pre.length = off) (hj : junk.length = 32 * d) :
    packLoop G m g val pk (tab x) (pre ++ junk ++ post) off = .ok (pre ++ encode d ((List.range 256).map fun i => sp (x i)) ++ post) := by
  have hgG : g * G = 32 * d := by
    have h1 : 8 * (g * G) = d * (m * G) := by rw [← Nat.mul_assoc, ← hp.1, Nat.mul_assoc]
    rw [hG] at h1
    omega
  subst ho
  rw [packLoop_spec hp (by rw [tab_length, hG]) (fun v hv' => ?_) pre junk post (by omega)]
  · congr 4
    rw [tab, List.map_map]
    exact List.map_congr_left fun i hi => (hv i (List.mem_range.mp hi)).1
  · obtain ⟨i, hi, rfl⟩ := List.mem_map.mp hv'
    have := hv i (List.mem_range.mp hi)
    omega

theorem unpackLoop_tab {d G m g : Nat} {out : Nat → Int} {un : List Byte → List Nat} (hu : Unpacks d m g un) (hG : m * G = 256) {w : List Byte} (hw : w.length = 32 * d) {bs : List Byte} {off : Nat}
    (hb : Holds bs off w) {r : List Int} (hr : r.length = 256) : unpackLoop G m g un out bs off r = .ok (tab fun i => out (number d w i)) := by
  have hgG : g * G = 32 * d := by
    have h1 : 8 * (g * G) = d * (m * G) := by rw [← Nat.mul_assoc, ← hu.1, Nat.mul_assoc]
    rw [hG] at h1
    omega
  rw [unpackLoop_spec hu (by omega) hb (by rw [hr, hG]), hG, decode, List.map_map]
  rfl

theorem polyEtaPack_tab {eta : Nat} (he : eta = 2 ∨ eta = 4) {x : Nat → Int} (hx : ∀ i, i < 256 → -(eta : Int) ≤ x i ∧ x i ≤ eta) {off : Nat} (pre junk post : List Byte) (ho : pre.length = off)
    (hj : junk.length = 32 * etaBits eta) : polyEtaPack (pre ++ junk ++ post) off (tab x) eta = .ok (pre ++ packBelow (etaBits eta) eta x ++ post) := by
  rcases he with rfl | rfl
  · refine packLoop_tab (sp := fun v => (2 - v).toNat) pk3_packs rfl (fun i hi => ?_) pre junk post ho hj
    have := hx i hi
    rw [minus8]
    omega
  · refine packLoop_tab (sp := fun v => (4 - v).toNat) pk4_packs rfl (fun i hi => ?_) pre junk post ho hj
    have := hx i hi
    rw [minus8]
    omega

theorem polyEtaUnpack_tab {eta : Nat} (he : eta = 2 ∨ eta = 4) {w bs : List Byte} {off : Nat} (hw : w.length = 32 * etaBits eta) (hb : Holds bs off w) {r : List Int} (hr : r.length = 256) :
    polyEtaUnpack r bs off eta = .ok (tab (unpackBelow (etaBits eta) eta w)) := by
  rcases he with rfl | rfl
  · exact unpackLoop_tab un3_unpacks rfl hw hb hr
  · exact unpackLoop_tab un4_unpacks rfl hw hb hr

theorem polyT0Pack_tab {x : Nat → Int} (hx : ∀ i, i < 256 → -4096 < x i ∧ x i ≤ 4096) {off : Nat} (pre junk post : List Byte) (ho : pre.length = off) (hj : junk.length = 416) :
    polyT0Pack (pre ++ junk ++ post) off (tab x) = .ok (pre ++ packBelow 13 4096 x ++ post) := by
  refine packLoop_tab (sp := fun v => (4096 - v).toNat) pk13_packs rfl (fun i hi => ?_) pre junk post ho hj
  have := hx i hi
  rw [minus32]
  omega

theorem polyT0Unpack_tab {w bs : List Byte} {off : Nat} (hw : w.length = 416) (hb : Holds bs off w) {r : List Int} (hr : r.length = 256) :
    polyT0Unpack r bs off = .ok (tab (unpackBelow 13 4096 w)) := unpackLoop_tab un13_unpacks rfl hw hb hr

theorem polyT1Pack_tab {x : Nat → Int} (hx : ∀ i, i < 256 → 0 ≤ x i ∧ x i < 1024) {off : Nat} (pre junk post : List Byte) (ho : pre.length = off) (hj : junk.length = 320) :
    polyT1Pack (pre ++ junk ++ post) off (tab x) = .ok (pre ++ packPlain 10 x ++ post) := by
  refine packLoop_tab (sp := fun v => v.toNat) pk10_packs rfl (fun i hi => ?_) pre junk post ho hj
  have := hx i hi
  rw [bits32]
  omega

theorem polyT1Unpack_tab {w bs : List Byte} {off : Nat} (hw : w.length = 320) (hb : Holds bs off w) {r : List Int} (hr : r.length = 256) :
    polyT1Unpack r bs off = .ok (tab (unpackPlain 10 w)) := unpackLoop_tab un10_unpacks rfl hw hb hr

theorem polyZPack_tab {gamma1 : Nat} (hg : gamma1 = 2 ^ 17 ∨ gamma1 = 2 ^ 19) {x : Nat → Int} (hx : ∀ i, i < 256 → -(gamma1 : Int) < x i ∧ x i ≤ gamma1) {off : Nat} (pre junk post : List Byte)
    (ho : pre.length = off) (hj : junk.length = 32 * zBits gamma1) : polyZPack (pre ++ junk ++ post) off (tab x) gamma1 = .ok (pre ++ packBelow (zBits gamma1) gamma1 x ++ post) := by
  rcases hg with rfl | rfl
  · refine packLoop_tab (sp := fun v => (((2 ^ 17 : Nat) : Int) - v).toNat) pk18_packs rfl (fun i hi => ?_) pre junk post ho hj
    have := hx i hi
    rw [minus32]
    simp only [show (2 : Nat) ^ 17 = 131072 from rfl, show (2 : Nat) ^ 18 = 262144 from rfl] at *
    omega
  · refine packLoop_tab (sp := fun v => (((2 ^ 19 : Nat) : Int) - v).toNat) pk20_packs rfl (fun i hi => ?_) pre junk post ho hj
    have := hx i hi
    rw [minus32]
    simp only [show (2 : Nat) ^ 19 = 524288 from rfl, show (2 : Nat) ^ 20 = 1048576 from rfl] at *
    omega

theorem polyZUnpack_tab {gamma1 : Nat} (hg : gamma1 = 2 ^ 17 ∨ gamma1 = 2 ^ 19) {w bs : List Byte} {off : Nat} (hw : w.length = 32 * zBits gamma1) (hb : Holds bs off w) {r : List Int} (hr : r.length = 256) :
    polyZUnpack r bs off gamma1 = .ok (tab (unpackBelow (zBits gamma1) gamma1 w)) := by
  rcases hg with rfl | rfl
  · exact unpackLoop_tab un18_unpacks rfl hw hb hr
  · exact unpackLoop_tab un20_unpacks rfl hw hb hr

theorem polyW1Pack_tab {g : Int} (hg : Gamma g) {x : Nat → Int} (hx : ∀ i, i < 256 → 0 ≤ x i ∧ x i < 8380416 / (2 * g)) {off : Nat} (pre junk post : List Byte) (ho : pre.length = off)
    (hj : junk.length = 32 * w1Bits g) : polyW1Pack (pre ++ junk ++ post) off (tab x) g = .ok (pre ++ packPlain (w1Bits g) x ++ post) := by
  rcases hg with rfl | rfl
  · rw [polyW1Pack, gamma88_eq, if_pos rfl]
    refine packLoop_tab (sp := fun v => v.toNat) pk6_packs rfl (fun i hi => ?_) pre junk post ho hj
    have := hx i hi
    rw [bits32]
    simp only [show (8380416 : Int) / (2 * 95232) = 44 from rfl, show (2 : Nat) ^ 6 = 64 from rfl] at *
    omega
  · rw [polyW1Pack, gamma88_eq, gamma32_eq, if_neg (by decide), if_pos rfl]
    refine packLoop_tab (sp := fun v => v.toNat) pk4_packs rfl (fun i hi => ?_) pre junk post ho hj
    have := hx i hi
    rw [bits32]
    simp only [show (8380416 : Int) / (2 * 261888) = 16 from rfl, show (2 : Nat) ^ 4 = 16 from rfl] at *
    omega

end Cex.Dilithium
