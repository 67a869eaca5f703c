import Verif.Kyber.CodecLemmas
import Verif.Kyber.ArithProps

/-!
# C59: the encodings of Kyber
-/

namespace Cex.Kyber
open Cex Cex.Lattice Cex.Spec.Lattice Cex.Spec.Kyber

/-- **C59** (`PolyToBytes`): 384 bytes, the canonical residues in 12 bits each; nothing else is written. -/
theorem C59_toBytes {a : List Int} (ha : Bounded 3328 a) (pre junk post : List Byte) (hj : junk.length = 384) :
    polyToBytes (pre ++ junk ++ post) pre.length a = .ok (pre ++ encodePoly (coeff a) ++ post) :=
  polyToBytes_rep (rep_of_bounded ha) pre junk post rfl hj

/-- **C59** (`PolyFromBytes`): the 256 numbers of 12 bits, for every 384 bytes. -/
theorem C59_fromBytes {w bs : List Byte} {off : Nat} (hw : w.length = 384) (hb : Holds bs off w) {r : List Int} (hr : r.length = 256) :
    ∃ r', polyFromBytes r bs off = .ok r' ∧ r' = (decode 12 256 w).map Int.ofNat ∧ Bounded 4095 r' ∧ ∀ i, i < 256 → coeff r' i = decodePoly w i := by
  refine ⟨_, polyFromBytes_eq hw hb hr, ?_, bounded_of_rep (fromBytes_rep w)⟩
  rw [decode, List.map_map]
  rfl

/-- **C59** (keys survive): what `PolyToBytes` wrote, `PolyFromBytes` reads back as the same polynomial, with coefficients from 0 to `q - 1`. -/
theorem C59_poly_roundtrip {a : List Int} (ha : Bounded 3328 a) (pre junk post : List Byte) (hj : junk.length = 384) {r : List Int} (hr : r.length = 256) :
    ∃ bs r', polyToBytes (pre ++ junk ++ post) pre.length a = .ok bs ∧ polyFromBytes r bs pre.length = .ok r' ∧ r'.length = 256 ∧ (∀ v ∈ r', 0 ≤ v ∧ v < 3329) ∧ ∀ i, i < 256 → coeff r' i = coeff a i := by
  refine ⟨_, _, C59_toBytes ha pre junk post hj, polyFromBytes_eq (encodePoly_length _) ⟨pre, post, rfl, rfl⟩ hr, by rw [List.length_map, List.length_range], ?_⟩
  have hd : decode 12 256 (encodePoly (coeff a)) = (List.range 256).map fun i => (coeff a i).val := by
    have hl : ((List.range 256).map fun i => (coeff a i).val).length = 256 := by rw [List.length_map, List.length_range]
    have := decode_encode (d := 12) (cs := (List.range 256).map fun i => (coeff a i).val) (by rw [hl]) (by
      intro c hc
      obtain ⟨i, _, rfl⟩ := List.mem_map.mp hc
      exact Nat.lt_trans (val_lt _) (by decide))
    rw [hl] at this
    exact this
  have hn : ∀ i, i < 256 → number 12 (encodePoly (coeff a)) i = (coeff a i).val := by
    intro i hi
    have := congrArg (·[i]?) hd
    simp only [decode, List.getElem?_map, List.getElem?_range hi, Option.map_some, Option.some.injEq] at this
    exact this
  refine ⟨fun v hv => ?_, fun i hi => ?_⟩
  · obtain ⟨i, hi, rfl⟩ := List.mem_map.mp hv
    rw [hn i (List.mem_range.mp hi)]
    have := val_lt (coeff a i)
    omega
  · rw [(bounded_of_rep (fromBytes_rep _)).2 i hi, decodePoly, hn i hi]
    exact ZMod.natCast_zmod_val _

/-- **C59** (bytes survive): encoding what was decoded gives back every byte, also for numbers that are no residues. -/
theorem C59_bytes_roundtrip {w bs : List Byte} {off : Nat} (hw : w.length = 384) (hb : Holds bs off w) {r : List Int} (hr : r.length = 256) (pre junk post : List Byte) (hj : junk.length = 384) :
    ∃ a, polyFromBytes r bs off = .ok a ∧ polyToBytes (pre ++ junk ++ post) pre.length a = .ok (pre ++ w ++ post) := by
  obtain ⟨a, h1, h2, h3, _⟩ := C59_fromBytes hw hb hr
  refine ⟨a, h1, ?_⟩
  have hv : ∀ v ∈ a, ∃ n : Nat, v = n ∧ n < 4096 := by
    intro v hv
    rw [h2] at hv
    obtain ⟨n, hn, rfl⟩ := List.mem_map.mp hv
    exact ⟨n, rfl, decode_lt hn⟩
  have ht : ∀ n : Nat, n < 4096 → toPos (n : Int) = n := by
    intro n hn
    rw [toPos, if_neg (by omega)]
    omega
  have he : a.map toPos = decode 12 256 w := by
    rw [h2, List.map_map]
    conv_rhs => rw [← List.map_id (decode 12 256 w)]
    exact List.map_congr_left fun n hn => ht n (decode_lt (d := 12) hn)
  rw [polyToBytes, packLoop_spec pk12_packs h3.1 (fun v hv' => ?_) pre junk post hj, he, encode_decode (by rw [hw])]
  obtain ⟨n, rfl, hn⟩ := hv v hv'
  rw [ht n hn]
  exact hn

/-- **C59** (the encoding of a key is not unique): `PolyFromBytes` checks no modulus, two different encodings stand for the same polynomial. -/
theorem C59_not_canonical : ∃ w w' : List Byte, w.length = 384 ∧ w'.length = 384 ∧ w ≠ w' ∧ ∀ r : List Int, r.length = 256 →
    ∃ a a', polyFromBytes r w 0 = .ok a ∧ polyFromBytes r w' 0 = .ok a' ∧ ∀ i, i < 256 → coeff a i = coeff a' i := by
  refine ⟨List.replicate 384 0#8, 0x01#8 :: 0x0D#8 :: List.replicate 382 0#8, List.length_replicate, by rw [List.length_cons, List.length_cons, List.length_replicate], by decide +kernel, fun r hr => ?_⟩
  obtain ⟨a, h1, h2, _, h3⟩ := C59_fromBytes (w := List.replicate 384 0#8) (off := 0) List.length_replicate ⟨[], [], by rw [List.nil_append, List.append_nil], rfl⟩ hr
  obtain ⟨a', h4, h5, _, h6⟩ := C59_fromBytes (w := 0x01#8 :: 0x0D#8 :: List.replicate 382 0#8) (off := 0) (by rw [List.length_cons, List.length_cons, List.length_replicate])
    ⟨[], [], by rw [List.nil_append, List.append_nil], rfl⟩ hr
  refine ⟨a, a', h1, h4, fun i hi => ?_⟩
  rw [h3 i hi, h6 i hi, decodePoly, decodePoly]
  have : ∀ i < 256, number 12 (List.replicate 384 0#8) i % 3329 = number 12 (0x01#8 :: 0x0D#8 :: List.replicate 382 0#8) i % 3329 := by decide +kernel
  exact (ZMod.natCast_eq_natCast_iff _ _ _).mpr (this i hi)

/-- **C59** (`PolyCompress`): the compressed coefficients in 4 bits (`k = 2, 3`) or 5 bits. -/
theorem C59_compress {a : List Int} (ha : Bounded 3328 a) (K : Nat) (pre junk post : List Byte) (hj : junk.length = 32 * dv K) :
    polyCompress (pre ++ junk ++ post) pre.length a K = .ok (pre ++ encodeCompressed (dv K) (coeff a) ++ post) :=
  polyCompress_rep (rep_of_bounded ha) K pre junk post rfl hj

theorem dv_mem (K : Nat) : dv K ∈ [4, 5, 10, 11] := by unfold dv; split <;> decide
theorem du_mem (K : Nat) : du K ∈ [4, 5, 10, 11] := by unfold du; split <;> decide

/-- **C59** (`PolyDecompress`). -/
theorem C59_decompress {w bs : List Byte} {off : Nat} (K : Nat) (hw : w.length = 32 * dv K) (hb : Holds bs off w) {r : List Int} (hr : r.length = 256) :
    ∃ r', polyDecompress r bs off K = .ok r' ∧ Bounded 3328 r' ∧ ∀ i, i < 256 → coeff r' i = decodeCompressed (dv K) w i :=
  ⟨_, polyDecompress_eq K hw hb hr, bounded_of_rep (decompress_rep (dv_mem K) w)⟩

/-- The vector of the polynomials. -/
theorem reps_of_bounded {B : Int} {K : Nat} {a : List (List Int)} (hl : a.length = K) (ha : ∀ p ∈ a, Bounded B p) :
    Reps (Is B) K a (fun i => match a[i]? with | some p => coeff p | none => fun _ => 0) :=
  ⟨hl, fun i r hr => by
    simp only [hr]
    exact rep_of_bounded (ha r (List.mem_of_getElem? hr))⟩

theorem flatMap_range {α : Type} {a : List (List Int)} (e : (Nat → F) → List α) :
    (List.range a.length).flatMap (fun i => e (match a[i]? with | some p => coeff p | none => fun _ => 0)) = a.flatMap fun p => e (coeff p) := by
  induction a using List.reverseRecOn with
  | nil => rfl
  | append_singleton a p ih =>
    rw [List.length_append, List.length_singleton, List.range_succ, List.flatMap_append, List.flatMap_append, ← ih]
    congr 1
    · have : ∀ i ∈ List.range a.length, e (match (a ++ [p])[i]? with | some p => coeff p | none => fun _ => 0) = e (match a[i]? with | some p => coeff p | none => fun _ => 0) := by
        intro i hi
        rw [List.getElem?_append_left (List.mem_range.mp hi)]
      exact List.flatMap_congr this
    · simp

/-- **C59** (`PolyVecToBytes`): the encodings of the polynomials one after another. -/
theorem C59_vecToBytes {a : List (List Int)} (ha : ∀ p ∈ a, Bounded 3328 p) {junk : List Byte} (hj : junk.length = 384 * a.length) (post : List Byte) :
    polyVecToBytes (junk ++ post) a = .ok ((a.flatMap fun p => encodePoly (coeff p)) ++ post) := by
  rw [polyVecToBytes_rep (reps_of_bounded rfl ha) hj post, flatMap_range]

/-- **C59** (`PolyVecCompress`): for two to five polynomials, 10 or 11 bits a coefficient. -/
theorem C59_vecCompress {a : List (List Int)} (hK : a.length ∈ [2, 3, 4, 5]) (ha : ∀ p ∈ a, Bounded 3328 p) {junk : List Byte} (hj : junk.length = 32 * du a.length * a.length) (post : List Byte) :
    polyVecCompress (junk ++ post) a = .ok ((a.flatMap fun p => encodeCompressed (du a.length) (coeff p)) ++ post) := by
  rw [polyVecCompress_rep hK (reps_of_bounded rfl ha) hj post, flatMap_range]

/-- **C59** (`PolyVecFromBytes`, `PolyVecDecompress`): polynomial `i` comes from the `i`-th piece. -/
theorem C59_vecFromBytes {K : Nat} {w : List Byte} (hw : 384 * K ≤ w.length) {r : List (List Int)} (hr : r.length = K) (hp : ∀ p ∈ r, p.length = 256) :
    ∃ a, polyVecFromBytes r w = .ok a ∧ a.length = K ∧ ∀ i p, a[i]? = some p → Bounded 4095 p ∧ ∀ j, j < 256 → coeff p j = decodePoly ((w.drop (384 * i)).take 384) j := by
  have h := reps_range (K := K) fun i _ => fromBytes_rep (chunk 384 w i)
  exact ⟨_, polyVecFromBytes_eq hw hr hp, h.1, fun i p hp => bounded_of_rep (h.2 i p hp)⟩

theorem C59_vecDecompress {K : Nat} (hK : K ∈ [2, 3, 4, 5]) {w : List Byte} (hw : 32 * du K * K ≤ w.length) {r : List (List Int)} (hr : r.length = K) (hp : ∀ p ∈ r, p.length = 256) :
    ∃ a, polyVecDecompress r w = .ok a ∧ a.length = K ∧ ∀ i p, a[i]? = some p → Bounded 3328 p ∧ ∀ j, j < 256 → coeff p j = decodeCompressed (du K) ((w.drop (32 * du K * i)).take (32 * du K)) j := by
  have h := reps_range (K := K) fun i _ => decompress_rep (du_mem K) (chunk (32 * du K) w i)
  exact ⟨_, polyVecDecompress_eq hK hw hr hp, h.1, fun i p hp => bounded_of_rep (h.2 i p hp)⟩

/-- **C59** (rounding): decompressing a compressed coefficient is at most this far from it, modulo `q`. -/
theorem C59_rounding (x : F) : norm (decompress 4 (compress 4 x) - x) ≤ 104 ∧ norm (decompress 5 (compress 5 x) - x) ≤ 52 ∧
    norm (decompress 10 (compress 10 x) - x) ≤ 2 ∧ norm (decompress 11 (compress 11 x) - x) ≤ 1 := by
  have h4 : ∀ a < 53, ∀ b < 64, norm (decompress 4 (compress 4 ((64 * a + b : Nat) : F)) - ((64 * a + b : Nat) : F)) ≤ 104 := by decide +kernel
  have h5 : ∀ a < 53, ∀ b < 64, norm (decompress 5 (compress 5 ((64 * a + b : Nat) : F)) - ((64 * a + b : Nat) : F)) ≤ 52 := by decide +kernel
  have h10 : ∀ a < 53, ∀ b < 64, norm (decompress 10 (compress 10 ((64 * a + b : Nat) : F)) - ((64 * a + b : Nat) : F)) ≤ 2 := by decide +kernel
  have h11 : ∀ a < 53, ∀ b < 64, norm (decompress 11 (compress 11 ((64 * a + b : Nat) : F)) - ((64 * a + b : Nat) : F)) ≤ 1 := by decide +kernel
  have hx : ((64 * (x.val / 64) + x.val % 64 : Nat) : F) = x := by rw [Nat.div_add_mod]; exact ZMod.natCast_zmod_val x
  have hv := val_lt x
  have ha : x.val / 64 < 53 := by omega
  have hb : x.val % 64 < 64 := by omega
  have g4 := h4 _ ha _ hb
  have g5 := h5 _ ha _ hb
  have g10 := h10 _ ha _ hb
  have g11 := h11 _ ha _ hb
  rw [hx] at g4 g5 g10 g11
  exact ⟨g4, g5, g10, g11⟩

/-- **C59** (ciphertexts survive): compressing a decompressed number gives it back. -/
theorem C59_recompress {d y : Nat} (hd : d ∈ [1, 4, 5, 10, 11]) (hy : y < 2 ^ d) : compress d (decompress d y) = y := by
  have h1 : ∀ y < 2 ^ 1, compress 1 (decompress 1 y) = y := by decide +kernel
  have h4 : ∀ y < 2 ^ 4, compress 4 (decompress 4 y) = y := by decide +kernel
  have h5 : ∀ y < 2 ^ 5, compress 5 (decompress 5 y) = y := by decide +kernel
  have h10 : ∀ y < 2 ^ 10, compress 10 (decompress 10 y) = y := by decide +kernel
  have h11 : ∀ y < 2 ^ 11, compress 11 (decompress 11 y) = y := by decide +kernel
  simp only [List.mem_cons, List.not_mem_nil, or_false] at hd
  rcases hd with rfl | rfl | rfl | rfl | rfl
  · exact h1 y hy
  · exact h4 y hy
  · exact h5 y hy
  · exact h10 y hy
  · exact h11 y hy

/-- A bit and an error of at most 831: the bit is recovered. -/
theorem compress_noise {b : Nat} (hb : b < 2) {e : Int} (h1 : -832 ≤ e) (h2 : e ≤ 831) : compress 1 (decompress 1 b + (e : F)) = b := by
  have h : ∀ b < 2, ∀ n < 1664, compress 1 (decompress 1 b + (((n : Nat) : F) - 832)) = b := by decide +kernel
  have := h b hb (e + 832).toNat (by omega)
  have he : ((e : Int) : F) = (((e + 832).toNat : Nat) : F) - 832 := by
    have : (((e + 832).toNat : Nat) : Int) = e + 832 := by omega
    have h3 : ((((e + 832).toNat : Nat) : Int) : F) = ((e + 832 : Int) : F) := by rw [this]
    push_cast at h3
    rw [h3]
    ring
  rw [he]
  exact this

/-- **C59** (messages): `PolyFromMsg` and an error whose coefficients are from -832 to 831, then `PolyToMsg`: the message is recovered. -/
theorem C59_message {m bs : List Byte} (hm : m.length = 32) (hb : Holds bs 0 m) {r : List Int} (hr : r.length = 256) :
    ∃ k, polyFromMsg r bs = .ok k ∧ Bounded 1665 k ∧ (∀ i, i < 256 → coeff k i = decompress 1 (number 1 m i)) ∧
      ∀ (a : List Int) (e : Nat → Int) (junk post : List Byte), Bounded 3328 a → (∀ i, i < 256 → coeff a i = coeff k i + (e i : F) ∧ -832 ≤ e i ∧ e i ≤ 831) → junk.length = 32 →
        polyToMsg (junk ++ post) a = .ok (m ++ post) := by
  obtain ⟨k, h1, h2⟩ := polyFromMsg_rep hm hb hr
  obtain ⟨h3, h4⟩ := bounded_of_rep h2
  refine ⟨k, h1, h3, h4, fun a e junk post ha hae hj => ?_⟩
  rw [polyToMsg_rep (rep_of_bounded ha) junk post hj, encodeCompressed]
  have : (List.range 256).map (fun i => compress 1 (coeff a i)) = decode 1 256 m := by
    rw [decode]
    refine List.map_congr_left fun i hi => ?_
    have hi := List.mem_range.mp hi
    obtain ⟨h5, h6, h7⟩ := hae i hi
    rw [h5, h4 i hi, decodeCompressed, compress_noise (number_lt 1 m i) h6 h7]
    rfl
  rw [this, encode_decode (by rw [hm])]

/-- Not vacuous: a message and an error at the bounds. -/
example : ∃ a : List Int, Bounded 3328 a ∧ ∀ i, i < 256 → coeff a i = decompress 1 (number 1 (List.replicate 32 0xA5#8) i) + ((if i % 3 = 0 then -832 else 831 : Int) : F) :=
  ⟨(List.range 256).map fun i => (if number 1 (List.replicate 32 0xA5#8) i = 1 then 1665 else 0) + (if i % 3 = 0 then -832 else 831), by
    constructor
    · rw [List.length_map, List.length_range]
    · intro v hv
      obtain ⟨i, _, rfl⟩ := List.mem_map.mp hv
      split <;> split <;> decide, by
    intro i hi
    rw [coeff, List.getElem?_map, List.getElem?_range hi, Option.map_some]
    have : ∀ i < 256, (((if number 1 (List.replicate 32 0xA5#8) i = 1 then 1665 else 0) + (if i % 3 = 0 then -832 else 831) : Int) : F) =
      decompress 1 (number 1 (List.replicate 32 0xA5#8) i) + ((if i % 3 = 0 then -832 else 831 : Int) : F) := by decide +kernel
    exact this i hi⟩

end Cex.Kyber
