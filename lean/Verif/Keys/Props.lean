import Verif.Keys.Model
import Verif.IntTools.Enc
import Verif.IntTools.Props
import Verif.Keccak.ObjLemmas

/-!
# C32, C47 Key containers

The format of a serialised symmetric key: the three lengths as 16-bit little-endian numbers, then key, nonce and info. The format of an asymmetric key: one byte each for class, parameters
and primitive, then the key.
-/

namespace Cex.Keys
open Cex Cex.IntTools Cex.Kdf Cex.Keccak

/-- The format of a symmetric key whose lengths fit. -/
def wire (key iv info : List Byte) : List Byte := leEnc 2 key.length ++ leEnc 2 iv.length ++ leEnc 2 info.length ++ key ++ iv ++ info

theorem resize_grow (b : List Byte) (n : Nat) : resize b (n + b.length) = b ++ List.replicate n 0 := by
  rw [resize, List.take_of_length_le (by omega), show n + b.length - b.length = n by omega]

theorem appendVector_eq (inp out : List Byte) : appendVector inp out = .ok (out ++ inp) := by
  rw [appendVector, resize_grow]
  have := copy_at (a := out) (b := List.replicate inp.length 0) (c := []) (Holds.self inp) rfl rfl List.length_replicate
  rw [List.append_nil, List.append_nil] at this
  exact this

theorem leRep_enc (n : Nat) {w : Nat} (v : BitVec w) (h : w = 8 * n) : leRep n v = leEnc n v.toNat := by
  have hv := v.isLt
  apply leVal_inj
  · rw [leRep_length, leEnc_length]
  · rw [leVal_leRep, leVal_leEnc]

theorem le16Vec_eq (v : BitVec 16) : le16Vec v = .ok (leEnc 2 v.toNat) := by
  have := blit_at (a := []) (b := List.replicate 2 0) (c := []) (s := leRep 2 v) (off := 0) rfl (by rw [leRep_length]; rfl)
  rw [List.append_nil, List.append_nil, List.nil_append, List.nil_append] at this
  rw [le16Vec, le16ToBytes, this, leRep_enc 2 v rfl]

theorem opt_append (c : Prop) [Decidable c] (x t : List Byte) : (if c then appendVector x t else pure t : M (List Byte)) = .ok (t ++ if c then x else []) := by
  split
  · exact appendVector_eq x t
  · rw [List.append_nil]; rfl

/-- What `Serialize` returns, for all lengths: the lengths modulo 2^16, and an array is left out when its length is 0 modulo 2^16. -/
theorem serialize_eq (k : SymKey) : k.serialize = .ok (leEnc 2 k.key.length ++ leEnc 2 k.iv.length ++ leEnc 2 k.info.length
      ++ (if 0 < k.key.length % 65536 then k.key else []) ++ (if 0 < k.iv.length % 65536 then k.iv else []) ++ (if 0 < k.info.length % 65536 then k.info else [])) := by
  have e (n : Nat) : leEnc 2 (BitVec.ofNat 16 n).toNat = leEnc 2 n := by
    rw [BitVec.toNat_ofNat, show (2 : Nat) ^ 16 = 256 ^ 2 by decide, leEnc_mod]
  have f (n : Nat) : (BitVec.ofNat 16 n).toNat = n % 65536 := BitVec.toNat_ofNat _ _
  rw [SymKey.serialize]
  rw [le16Vec_eq, ok_bind, appendVector_eq, ok_bind, le16Vec_eq, ok_bind, appendVector_eq, ok_bind, le16Vec_eq, ok_bind, appendVector_eq, ok_bind,
    opt_append, ok_bind, opt_append, ok_bind, opt_append, e, e, e, f, f, f, List.nil_append]

theorem leBytes16_eq {s h : List Byte} {off : Nat} (hh : Holds s off h) (hl : h.length = 2) : ∃ v : BitVec 16, leBytesTo16 s off = .ok v ∧ v.toNat = leVal h := by
  refine ⟨leUnrep 16 h, ?_, leUnrep_toNat _ _ (by omega)⟩
  rw [leBytesTo16, slice_holds hh hl.symm]; rfl

theorem part_eq {s : List Byte} {off len : Nat} (h : off + len ≤ s.length) : part s off len = .ok ((s.drop off).take len) := by
  rw [part]
  split
  · have hh : Holds s off ((s.drop off).take len) := by
      have := ((Holds.self s).dropN (n := off) (by omega)).takeN len
      rwa [Nat.zero_add] at this
    have hl : ((s.drop off).take len).length = len := by rw [List.length_take, List.length_drop]; omega
    have := copy_at (a := []) (off := 0) (b := List.replicate len 0) (c := []) hh rfl hl.symm (by rw [List.length_replicate, hl])
    rw [List.append_nil, List.append_nil, List.nil_append, List.nil_append] at this
    exact this
  · rename_i h0
    rw [show len = 0 by omega, List.take_zero]; rfl

theorem part_ub {s : List Byte} {off len : Nat} (h : s.length < off + len) (h0 : 0 < len) : part s off len = .error .ub := by
  rw [part, if_pos h0, copy, if_neg (by omega), slice, if_neg (by omega)]; rfl

theorem slice_ub {s : List Byte} {off n : Nat} (h : s.length < off + n) : slice s off n = .error .ub := by
  rw [slice, if_neg (by omega)]

/-- The announced lengths. -/
def lens (s : List Byte) : Nat × Nat × Nat := (leVal (s.take 2), leVal ((s.drop 2).take 2), leVal ((s.drop 4).take 2))

/-- Exactly what `DeSerialize` does with every byte stream: it reads outside a stream that is shorter than its header or than announced by it; it refuses an empty key; otherwise
it returns the announced parts. -/
theorem C32_deserialize (s : List Byte) :
    (s.length < 6 → SymKey.deserialize s = .error .ub)
      ∧ (6 ≤ s.length → s.length < 6 + (lens s).1 + (lens s).2.1 + (lens s).2.2 → SymKey.deserialize s = .error .ub)
      ∧ (6 ≤ s.length → (lens s).1 + (lens s).2.1 + (lens s).2.2 = 0 → SymKey.deserialize s = .error (.throws .invalidParam))
      ∧ (0 < (lens s).1 + (lens s).2.1 + (lens s).2.2 → 6 + (lens s).1 + (lens s).2.1 + (lens s).2.2 ≤ s.length →
          SymKey.deserialize s = .ok ⟨(s.drop 6).take (lens s).1, (s.drop (6 + (lens s).1)).take (lens s).2.1, (s.drop (6 + (lens s).1 + (lens s).2.1)).take (lens s).2.2⟩) := by
  have h2 (off : Nat) (h : off + 2 ≤ s.length) : ∃ v : BitVec 16, leBytesTo16 s off = .ok v ∧ v.toNat = leVal ((s.drop off).take 2) := by
    refine leBytes16_eq ?_ (by rw [List.length_take, List.length_drop]; omega)
    have := ((Holds.self s).dropN (n := off) (by omega)).takeN 2
    rwa [Nat.zero_add] at this
  have hb (off : Nat) : leVal ((s.drop off).take 2) < 65536 := by
    refine Nat.lt_of_lt_of_le (leVal_lt _) ?_
    rw [show (65536 : Nat) = 256 ^ 2 by decide]
    exact Nat.pow_le_pow_right (by omega) (by rw [List.length_take]; omega)
  refine ⟨?_, ?_⟩
  · intro h
    rw [SymKey.deserialize]
    by_cases h0 : s.length < 2
    · rw [leBytesTo16, slice_ub (by omega)]; rfl
    obtain ⟨v0, e0, _⟩ := h2 0 (by omega)
    rw [e0, ok_bind]
    by_cases h1 : s.length < 4
    · rw [leBytesTo16, slice_ub (by omega)]; rfl
    obtain ⟨v1, e1, _⟩ := h2 2 (by omega)
    rw [e1, ok_bind, leBytesTo16, slice_ub (by omega)]; rfl
  · by_cases h6 : 6 ≤ s.length
    · obtain ⟨v0, e0, f0⟩ := h2 0 (by omega)
      obtain ⟨v1, e1, f1⟩ := h2 2 (by omega)
      obtain ⟨v2, e2, f2⟩ := h2 4 (by omega)
      rw [SymKey.deserialize, e0, ok_bind, e1, ok_bind, e2, ok_bind]
      rw [show lens s = (v0.toNat, v1.toNat, v2.toNat) by rw [lens, f0, f1, f2, List.drop_zero]]
      have b0 := v0.isLt
      have b1 := v1.isLt
      have b2 := v2.isLt
      generalize v0.toNat = k at *
      generalize v1.toNat = n at *
      generalize v2.toNat = i at *
      simp only []
      refine ⟨?_, ?_, ?_⟩
      · intro _ hlt
        by_cases c0 : s.length < 6 + k
        · rw [part_ub c0 (by omega)]; rfl
        rw [part_eq (by omega), ok_bind]
        by_cases c1 : s.length < 6 + k + n
        · rw [part_ub (by omega) (by omega)]; rfl
        rw [part_eq (by omega), ok_bind, part_ub (by omega) (by omega)]; rfl
      · intro _ hz
        rw [part_eq (by omega), ok_bind, part_eq (by omega), ok_bind, part_eq (by omega), ok_bind, show k = 0 by omega, show n = 0 by omega, show i = 0 by omega]
        rfl
      · intro hp hle
        rw [part_eq (by omega), ok_bind, part_eq (by omega), ok_bind, part_eq (by omega), ok_bind, SymKey.new, if_pos]
        · rw [show k + 6 = 6 + k by omega, show k + n + 6 = 6 + k + n by omega]; rfl
        · simp only [List.length_take, List.length_drop]
          rw [Nat.mod_eq_of_lt (by omega)]
          omega
    · exact ⟨fun h => absurd h h6, fun h => absurd h h6, fun _ h => by omega⟩

theorem lens_wire (t : List Byte) (a b c : Nat) (ha : a < 65536) (hb : b < 65536) (hc : c < 65536) : lens (leEnc 2 a ++ leEnc 2 b ++ leEnc 2 c ++ t) = (a, b, c) := by
  have e (n : Nat) (h : n < 65536) : leVal (leEnc 2 n) = n := by rw [leVal_leEnc, Nat.mod_eq_of_lt (by omega)]
  rw [lens]
  have l (n : Nat) : (leEnc 2 n).length = 2 := leEnc_length 2 n
  have t1 : (leEnc 2 a ++ leEnc 2 b ++ leEnc 2 c ++ t).take 2 = leEnc 2 a := by
    rw [List.append_assoc, List.append_assoc, List.take_append_of_le_length (by rw [l]), List.take_of_length_le (by rw [l])]
  have t2 : ((leEnc 2 a ++ leEnc 2 b ++ leEnc 2 c ++ t).drop 2).take 2 = leEnc 2 b := by
    rw [List.append_assoc, List.append_assoc, List.drop_append_of_le_length (by rw [l]), List.drop_of_length_le (by rw [l]), List.nil_append,
      List.take_append_of_le_length (by rw [l]), List.take_of_length_le (by rw [l])]
  have t3 : ((leEnc 2 a ++ leEnc 2 b ++ leEnc 2 c ++ t).drop 4).take 2 = leEnc 2 c := by
    rw [List.append_assoc, List.drop_append_of_le_length (by rw [List.length_append, l, l]), List.drop_of_length_le (by rw [List.length_append, l, l]), List.nil_append,
      List.take_append_of_le_length (by rw [l]), List.take_of_length_le (by rw [l])]
  rw [t1, t2, t3, e a ha, e b hb, e c hc]

/-- Reading back what was written, for parts shorter than 2^16 bytes. (The full statement, for all lengths, is false: `C32_long_false`.) -/
theorem C32_roundtrip_partial (k : SymKey) (hk : k.key.length < 65536) (hv : k.iv.length < 65536) (hi : k.info.length < 65536)
    (h0 : 0 < k.key.length + k.iv.length + k.info.length) :
    k.serialize = .ok (wire k.key k.iv k.info) ∧ SymKey.deserialize (wire k.key k.iv k.info) = .ok k := by
  obtain ⟨key, iv, info⟩ := k
  simp only [] at hk hv hi h0
  have opt (x : List Byte) (h : x.length < 65536) : (if 0 < x.length % 65536 then x else []) = x := by
    rw [Nat.mod_eq_of_lt h]
    cases x with
    | nil => rfl
    | cons a b => rw [if_pos (by simp)]
  refine ⟨?_, ?_⟩
  · rw [serialize_eq]; simp only []; rw [opt _ hk, opt _ hv, opt _ hi]; rfl
  · have hw : wire key iv info = leEnc 2 key.length ++ leEnc 2 iv.length ++ leEnc 2 info.length ++ (key ++ iv ++ info) := by
      rw [wire, List.append_assoc _ key, List.append_assoc _ (key ++ iv)]
    have hl : lens (wire key iv info) = (key.length, iv.length, info.length) := by
      rw [hw]; exact lens_wire _ _ _ _ hk hv hi
    have hlen : (wire key iv info).length = 6 + key.length + iv.length + info.length := by
      simp only [wire, List.length_append, leEnc_length]
    have := (C32_deserialize (wire key iv info)).2.2.2
    rw [hl, hlen] at this
    simp only [] at this
    rw [this h0 (Nat.le_refl _)]
    have d6 : (wire key iv info).drop 6 = key ++ iv ++ info := by
      rw [hw, List.drop_append_of_le_length (by simp only [List.length_append, leEnc_length]; omega),
        List.drop_of_length_le (by simp only [List.length_append, leEnc_length]; omega), List.nil_append]
    rw [← List.drop_drop, ← List.drop_drop, ← List.drop_drop, d6]
    congr 2
    · rw [List.append_assoc, List.take_left]
    · rw [List.append_assoc, List.drop_left, List.take_left]
    · rw [List.append_assoc, List.drop_left, List.drop_left, List.take_length]

/-- A part of 2^16 bytes or more is never read back: the length field cannot represent it. -/
theorem C32_long_false (k : SymKey) (h : 65536 ≤ k.key.length ∨ 65536 ≤ k.iv.length ∨ 65536 ≤ k.info.length) :
    ∀ s, k.serialize = .ok s → SymKey.deserialize s ≠ .ok k := by
  intro s hs hd
  rw [serialize_eq] at hs
  have hs := (Except.ok.inj hs).symm
  rw [List.append_assoc, List.append_assoc _ (ite _ k.key []), List.append_assoc _ (leEnc 2 k.info.length)] at hs
  have hb (x : List Byte) : leVal (x.take 2) < 65536 := by
    refine Nat.lt_of_lt_of_le (leVal_lt _) ?_
    rw [show (65536 : Nat) = 256 ^ 2 by decide]
    exact Nat.pow_le_pow_right (by omega) (by rw [List.length_take]; omega)
  have q0 : (lens s).1 < 65536 := hb s
  have q1 : (lens s).2.1 < 65536 := hb _
  have q2 : (lens s).2.2 < 65536 := hb _
  obtain ⟨d1, d2, d3, d4⟩ := C32_deserialize s
  by_cases h6 : s.length < 6
  · rw [d1 h6] at hd; cases hd
  by_cases hlt : s.length < 6 + (lens s).1 + (lens s).2.1 + (lens s).2.2
  · rw [d2 (by omega) hlt] at hd; cases hd
  by_cases hz : (lens s).1 + (lens s).2.1 + (lens s).2.2 = 0
  · rw [d3 (by omega) hz] at hd; cases hd
  rw [d4 (by omega) (by omega)] at hd
  have := Except.ok.inj hd
  rw [← this] at h
  simp only [List.length_take] at h
  omega

/-- The key of a container that holds a key of 65536 bytes and a nonce is lost without a sign: the container read back has an empty key. -/
theorem C32_long_silent (key iv : List Byte) (hk : key.length = 65536) (hv : 0 < iv.length) (hv2 : iv.length < 65536) :
    ∃ s, (SymKey.mk key iv []).serialize = .ok s ∧ SymKey.deserialize s = .ok ⟨[], iv, []⟩ := by
  refine ⟨wire [] iv [], ?_, (C32_roundtrip_partial ⟨[], iv, []⟩ (by simp) hv2 (by simp) (by simp; omega)).2⟩
  rw [serialize_eq]
  simp only []
  rw [hk, if_neg (by decide), if_pos (by rw [Nat.mod_eq_of_lt hv2]; exact hv), if_neg (by simp)]
  simp only [wire, List.append_nil]
  rfl

/-- Different keys have different serialisations. -/
theorem C32_injective (k1 k2 : SymKey) (h1 : k1.key.length < 65536 ∧ k1.iv.length < 65536 ∧ k1.info.length < 65536 ∧ 0 < k1.key.length + k1.iv.length + k1.info.length)
    (h2 : k2.key.length < 65536 ∧ k2.iv.length < 65536 ∧ k2.info.length < 65536 ∧ 0 < k2.key.length + k2.iv.length + k2.info.length)
    (h : k1.serialize = k2.serialize) : k1 = k2 := by
  obtain ⟨a1, a2⟩ := C32_roundtrip_partial k1 h1.1 h1.2.1 h1.2.2.1 h1.2.2.2
  obtain ⟨b1, b2⟩ := C32_roundtrip_partial k2 h2.1 h2.2.1 h2.2.2.1 h2.2.2.2
  rw [a1, b1] at h
  rw [Except.ok.inj h, b2] at a2
  exact (Except.ok.inj a2).symm

/-- A stream cut off anywhere makes `DeSerialize` read outside of it. -/
theorem C32_truncated_ub (k : SymKey) (hk : k.key.length < 65536) (hv : k.iv.length < 65536) (hi : k.info.length < 65536) (n : Nat) (hn : n < (wire k.key k.iv k.info).length) :
    SymKey.deserialize ((wire k.key k.iv k.info).take n) = .error .ub := by
  obtain ⟨key, iv, info⟩ := k
  simp only [] at *
  have hlen : (wire key iv info).length = 6 + key.length + iv.length + info.length := by
    simp only [wire, List.length_append, leEnc_length]
  obtain ⟨d1, d2, _⟩ := C32_deserialize ((wire key iv info).take n)
  have hl : ((wire key iv info).take n).length = n := by rw [List.length_take]; omega
  by_cases h6 : n < 6
  · exact d1 (by omega)
  · have hw : wire key iv info = leEnc 2 key.length ++ leEnc 2 iv.length ++ leEnc 2 info.length ++ (key ++ iv ++ info) := by
      rw [wire, List.append_assoc _ key, List.append_assoc _ (key ++ iv)]
    have ht : (wire key iv info).take n = leEnc 2 key.length ++ leEnc 2 iv.length ++ leEnc 2 info.length ++ (key ++ iv ++ info).take (n - 6) := by
      rw [hw, List.take_append, List.take_of_length_le (by simp only [List.length_append, leEnc_length]; omega)]
      congr 1
    refine d2 (by omega) ?_
    rw [hl, ht, lens_wire _ _ _ _ hk hv hi]
    simp only []
    omega

/-! ## SymmetricKeySize -/

theorem appendValue32_eq (v : BitVec 32) (out : List Byte) : appendValue32 v out = .ok (out ++ leEnc 4 v.toNat) := by
  rw [appendValue32, show out.length + 4 = 4 + out.length by omega, resize_grow, le32ToBytes]
  have := blit_at (a := out) (b := List.replicate 4 0) (c := []) (s := leRep 4 v) rfl (by rw [leRep_length]; rfl)
  rw [List.append_nil, List.append_nil] at this
  rw [this, leRep_enc 4 v rfl]

theorem leBytes32_eq {s : List Byte} {off n : Nat} (hh : Holds s off (leEnc 4 n)) : leBytesTo32 s off = .ok (BitVec.ofNat 32 n) := by
  rw [leBytesTo32, slice_holds hh (by rw [leEnc_length])]
  show Except.ok _ = _
  congr 1
  apply BitVec.eq_of_toNat_eq
  rw [leUnrep_toNat _ _ (by rw [leEnc_length]), leVal_leEnc, BitVec.toNat_ofNat]

/-- The three sizes survive `ToBytes` and the constructor from an array. -/
theorem C32_size_roundtrip (s : KeySize) : ∃ b, s.toBytes = .ok b ∧ b.length = 12 ∧ KeySize.ofBytes b = .ok s := by
  obtain ⟨i, k, v⟩ := s
  refine ⟨leEnc 4 i.toNat ++ leEnc 4 k.toNat ++ leEnc 4 v.toNat, ?_, by simp, ?_⟩
  · rw [KeySize.toBytes, appendValue32_eq, ok_bind, appendValue32_eq, ok_bind, appendValue32_eq, List.nil_append]
  · rw [KeySize.ofBytes, if_pos (by simp)]
    have e0 : leBytesTo32 (leEnc 4 i.toNat ++ leEnc 4 k.toNat ++ leEnc 4 v.toNat) 0 = .ok (BitVec.ofNat 32 i.toNat) :=
      leBytes32_eq ⟨[], leEnc 4 k.toNat ++ leEnc 4 v.toNat, by simp, rfl⟩
    have e1 : leBytesTo32 (leEnc 4 i.toNat ++ leEnc 4 k.toNat ++ leEnc 4 v.toNat) 4 = .ok (BitVec.ofNat 32 k.toNat) :=
      leBytes32_eq ⟨leEnc 4 i.toNat, leEnc 4 v.toNat, rfl, leEnc_length _ _⟩
    have e2 : leBytesTo32 (leEnc 4 i.toNat ++ leEnc 4 k.toNat ++ leEnc 4 v.toNat) 8 = .ok (BitVec.ofNat 32 v.toNat) :=
      leBytes32_eq ⟨leEnc 4 i.toNat ++ leEnc 4 k.toNat, [], by simp, by simp⟩
    rw [e0, ok_bind, e1, ok_bind, e2, ok_bind]
    simp only [BitVec.ofNat_toNat, BitVec.setWidth_eq]
    rfl

/-- Arrays of fewer than 12 bytes are refused. -/
theorem C32_size_short (b : List Byte) (h : b.length < 12) : KeySize.ofBytes b = .error (.throws .invalidSize) := by
  rw [KeySize.ofBytes, if_neg (by omega)]; rfl

/-- `Contains` with key, nonce and info sizes all different from 0 finds exactly the listed combinations. -/
theorem C32_contains_partial (l : List KeySize) (key iv info : Nat) (hk : key ≠ 0) (hv : iv ≠ 0) (hi : info ≠ 0) :
    KeySize.contains l key iv info = true ↔ ∃ s ∈ l, s.key.toNat = key ∧ s.iv.toNat = iv ∧ s.info.toNat = info := by
  rw [KeySize.contains, List.any_eq_true]
  constructor
  · rintro ⟨s, h1, h2⟩
    rw [if_pos ⟨hk, hv, hi⟩] at h2
    exact ⟨s, h1, by simpa using h2⟩
  · rintro ⟨s, h1, h2⟩
    exact ⟨s, h1, by rw [if_pos ⟨hk, hv, hi⟩]; simpa using h2⟩

/-- A size of 0 is a wildcard, so `Contains` accepts a combination that is not listed: a key without a nonce, where every listed size has a nonce. -/
theorem C32_contains_false : ∃ l key iv info, KeySize.contains l key iv info = true ∧ ¬ ∃ s ∈ l, s.key.toNat = key ∧ s.iv.toNat = iv ∧ s.info.toNat = info :=
  ⟨[KeySize.new 32 16 0], 32, 0, 0, by decide, by decide⟩

/-! ## AsymmetricKey -/

theorem appendByte_eq (v : Byte) (out : List Byte) : appendByte v out = .ok (out ++ [v]) := by
  rw [appendByte, Nat.add_comm, resize_grow]
  have := blit_at (a := out) (b := List.replicate 1 0) (c := []) (s := [v]) rfl rfl
  rw [List.append_nil, List.append_nil] at this
  exact this

/-- An asymmetric key is read back as it was written, for every length. -/
theorem C47_roundtrip (k : AsymKey) (hp : k.poly ≠ []) (h1 : k.primitive ≠ 0) (h2 : k.cls ≠ 0) (h3 : k.params ≠ 0) :
    k.serialize = .ok ([k.cls, k.params, k.primitive] ++ k.poly) ∧ AsymKey.deserialize ([k.cls, k.params, k.primitive] ++ k.poly) = .ok k := by
  obtain ⟨poly, prim, cls, par⟩ := k
  simp only [] at *
  refine ⟨?_, ?_⟩
  · rw [AsymKey.serialize, appendByte_eq, ok_bind, appendByte_eq, ok_bind, appendByte_eq, ok_bind, appendVector_eq]; rfl
  · rw [AsymKey.deserialize, if_neg (by simp)]
    show AsymKey.new poly prim cls par = _
    rw [AsymKey.new, if_pos ⟨by simpa using hp, h1, h2, h3⟩]
    rfl

/-- Exactly what `DeSerialize` does with every byte stream. -/
theorem C47_deserialize (s : List Byte) :
    (s.length < 3 → AsymKey.deserialize s = .error .ub) ∧ (s.length = 3 → AsymKey.deserialize s = .error (.throws .invalidParam))
      ∧ ∀ k, AsymKey.deserialize s = .ok k ↔ s = [k.cls, k.params, k.primitive] ++ k.poly ∧ k.poly ≠ [] ∧ k.primitive ≠ 0 ∧ k.cls ≠ 0 ∧ k.params ≠ 0 := by
  refine ⟨fun h => by rw [AsymKey.deserialize, if_pos h]; rfl, ?_, ?_⟩
  · intro h
    obtain ⟨a, b, c, rfl⟩ := List.length_eq_three.mp h
    rw [AsymKey.deserialize, if_neg (by simp)]
    show AsymKey.new [] c a b = _
    rw [AsymKey.new, if_neg (by simp)]; rfl
  · intro k
    constructor
    · intro h
      rw [AsymKey.deserialize] at h
      split at h
      · cases h
      · rename_i hl
        match s, hl with
        | a :: b :: c :: t, _ =>
          have h : AsymKey.new t c a b = .ok k := h
          rw [AsymKey.new] at h
          split at h
          · rename_i hc
            cases h
            exact ⟨rfl, by simpa using hc.1, hc.2.1, hc.2.2.1, hc.2.2.2⟩
          · cases h
        | [], hl => simp at hl
        | [a], hl => simp at hl
        | [a, b], hl => simp at hl
    · rintro ⟨rfl, hp, h1, h2, h3⟩
      exact (C47_roundtrip k hp h1 h2 h3).2

/-- A non-trivial case. -/
example : ∃ s, (SymKey.mk [1, 2, 3] [4] []).serialize = .ok s ∧ s = [3, 0, 1, 0, 0, 0, 1, 2, 3, 4] ∧ SymKey.deserialize s = .ok ⟨[1, 2, 3], [4], []⟩ :=
  ⟨_, by decide, rfl, by decide⟩

end Cex.Keys
