import Verif.Kyber.KemLemmas

/-!
# Encryption and decryption
-/

namespace Cex.Kyber
open Cex Cex.Lattice Cex.Spec.Lattice Cex.Spec.Kyber

variable {P : List Byte → M (List Byte)} {f : List Byte → List Byte}

theorem part_append {L K i : Nat} {w r : List Byte} (hw : L * K ≤ w.length) (hi : i < K) : chunk L (w ++ r) i = part L w i := by
  have : L * (i + 1) ≤ L * K := Nat.mul_le_mul_left _ hi
  rw [Nat.mul_add, Nat.mul_one] at this
  rw [chunk, part, List.drop_append_of_le_length (by omega), List.take_append_of_le_length (by rw [List.length_drop]; omega)]

theorem fromBytes_vec {K : Nat} {w rest : List Byte} (hw : w.length = 384 * K) {t : Nat → Nat → F} (ht : DecodesTo K w t) :
    ∃ v, polyVecFromBytes (vec0 K) (w ++ rest) = .ok v ∧ Reps (Is 4095) K v (fun i => Spec.Kyber.ntt (t i)) := by
  refine ⟨_, polyVecFromBytes_eq (by rw [List.length_append]; omega) (vec0_length K) (fun p hp => vec0_mem hp), reps_range fun i hi => ?_⟩
  rw [part_append (by omega) hi]
  exact (fromBytes_rep _).mono fun v n hn hv => by rw [ht i hi n hn]; exact hv

theorem ctOffset_eq {K : Nat} (hK : K ∈ [2, 3, 4, 5]) : ctOffset K = 32 * du K * K := by
  simp only [List.mem_cons, List.not_mem_nil, or_false] at hK
  rcases hK with rfl | rfl | rfl | rfl <;> rfl

theorem packCiphertext_rep {K : Nat} (hK : K ∈ [2, 3, 4, 5]) {b : List (List Int)} {v : List Int} {u : Nat → Nat → F} {w : Nat → F} (hb : Reps (Is 3328) K b u) (hv : Rep (Is 3328) v w)
    {junk : List Byte} (hj : junk.length = cipherLen K) (post : List Byte) : packCiphertext (junk ++ post) b v K = .ok (cipherBytes K u w ++ post) := by
  rw [cipherLen] at hj
  have hl : ((List.range K).flatMap fun i => encodeCompressed (du K) (u i)).length = 32 * du K * K := by
    rw [List.length_flatMap]
    simp [encodeCompressed_length, Nat.mul_comm, Nat.mul_left_comm]
  have h1 := polyVecCompress_rep hK hb (junk := junk.take (32 * du K * K)) (by rw [List.length_take]; omega) (junk.drop (32 * du K * K) ++ post)
  rw [← List.append_assoc, List.take_append_drop] at h1
  rw [packCiphertext, h1, ok_bind, ← List.append_assoc, polyCompress_rep hv K _ (junk.drop (32 * du K * K)) post (by rw [ctOffset_eq hK, hl]) (by rw [List.length_drop]; omega), cipherBytes]

theorem unpackCiphertext_rep {K : Nat} (hK : K ∈ [2, 3, 4, 5]) {c rest : List Byte} (hc : c.length = cipherLen K) :
    ∃ b v, unpackCiphertext (vec0 K) poly0 (c ++ rest) = .ok (b, v) ∧ Reps (Is 3328) K b (fun i => decodeCompressed (du K) (part (32 * du K) c i)) ∧
      Rep (Is 3328) v (decodeCompressed (dv K) (c.drop (32 * du K * K))) := by
  rw [cipherLen] at hc
  have hdu : du K ∈ [4, 5, 10, 11] := by unfold du; split <;> simp
  have hdv : dv K ∈ [4, 5, 10, 11] := by unfold dv; split <;> simp
  have h1 := polyVecDecompress_eq hK (w := c ++ rest) (by rw [List.length_append]; omega) (vec0_length K) (fun p hp => vec0_mem hp)
  have h2 := polyDecompress_eq (w := c.drop (32 * du K * K)) (bs := c ++ rest) (off := ctOffset K) K (by rw [List.length_drop]; omega)
    ⟨c.take (32 * du K * K), rest, by rw [List.take_append_drop], by rw [ctOffset_eq hK, List.length_take]; omega⟩ poly0_length
  refine ⟨_, _, by rw [unpackCiphertext, h1, ok_bind, vec0_length, h2, ok_bind]; rfl, reps_range fun i hi => ?_, decompress_rep hdv _⟩
  rw [part_append (by omega) hi]
  exact decompress_rep hdu _

theorem enc_spec (p : Keccak.Perm P f) {q : Par} (hq : q ∈ sets) {fuel : Nat} {w ρ pkrest m msg coins cs : List Byte} {off : Nat} (hw : w.length = 384 * q.K) (hρ : ρ.length = 32)
    {A : Nat → Nat → Nat → F} (hA : Samples f fuel q.K ρ A) {t : Nat → Nat → F} (ht : DecodesTo q.K w t) (hm : Holds msg 0 m) (hml : m.length = 32) (hc : Holds coins off cs) (hcl : cs.length = 32)
    {junk : List Byte} (hj : junk.length = cipherLen q.K) (post : List Byte) :
    enc P fuel q (junk ++ post) msg (w ++ ρ ++ pkrest) coins off = .ok (encrypt f q.K q.eta1 A t m cs ++ post) := by
  obtain ⟨hK0, hK5, hK, he, _⟩ := set_K hq
  obtain ⟨tv, h1, htv⟩ := fromBytes_vec (rest := ρ ++ pkrest) hw ht
  rw [← List.append_assoc] at h1
  have h2 : copy (w ++ ρ ++ pkrest) (q.K * 384) (List.replicate 32 0) 0 32 = .ok ρ :=
    copy_whole ⟨w, pkrest, rfl, by omega⟩ hρ.symm (by rw [List.length_replicate, hρ])
  obtain ⟨k, h3, hk⟩ := polyFromMsg_rep hml hm poly0_length
  obtain ⟨a, h4, ha⟩ := genMatrix_rep p (seed := ρ) ⟨[], [], by simp, rfl⟩ hρ hA true
  obtain ⟨r, h5, hr⟩ := noiseVec1 p (K := q.K) (n0 := 0) (by omega) hc hcl he
  simp only [Nat.zero_add] at h5
  obtain ⟨e1, h6, he1⟩ := noiseVec2 p (K := q.K) (n0 := q.K) (by omega) hc hcl
  have h7 := C60_noise2 p hc hcl (nonce := q.K + q.K) (by omega) poly0_length
  have he2 : Rep (Is 3) _ _ := noise_rep (f := f) 2 (by decide) cs (q.K + q.K)
  rw [← Nat.two_mul] at h7 he2
  rw [encrypt]
  generalize noiseVec f q.eta1 cs 0 = R at *
  generalize noiseVec f 2 cs q.K = E1 at *
  generalize hE2 : (fun n => (noise f 2 cs (2 * q.K) n : F)) = E2 at *
  obtain ⟨r', h8, hr'⟩ := polyVecNtt_rep (hr.mono (Q := Is 9471) fun i _ v n _ hv => hv.mono (by omega))
  have hr4 : Reps (Is 4095) q.K r' (fun i => Spec.Kyber.ntt (R i)) := hr'.mono fun i _ v n _ hv => hv.mono (by omega)
  obtain ⟨b, h9, hb⟩ := vecLoop_spec (Q := Is 1664) (b := fun i k => dot q.K (fun j => Spec.Kyber.ntt (A j i)) (fun j => Spec.Kyber.ntt (R j)) k * 169)
    (u := fun i x => do polyVecBaseMulAcc x (← rd a i) r') (vec0_rep q.K) fun i hi x hx => by
      obtain ⟨row, f1, f2⟩ := ha i hi
      rw [f1, ok_bind]
      exact polyVecBaseMulAcc_spec hx.1 hK0 hK5 (f2.mono (Q := Is 4095) fun i _ v n _ hv => hv.mono (by omega)) hr4
  obtain ⟨v, h10, hv⟩ := polyVecBaseMulAcc_spec poly0_length hK0 hK5 htv hr4
  obtain ⟨b', h11, hb'⟩ := vecLoop_spec (Q := Is 3328) (b := fun i => Spec.Kyber.inner q.K (fun j => A j i) R) (u := fun _ x => invNtt x) hb fun i hi x hx =>
    invNtt_dot hx (fun _ _ _ _ => rfl) (fun _ _ _ _ => rfl)
  obtain ⟨v', h12, hv'⟩ := invNtt_dot (fa := t) (fb := R) hv (fun _ _ _ _ => rfl) (fun _ _ _ _ => rfl)
  obtain ⟨b'', h13, hb''⟩ := polyVecAdd_rep (C := 3331) hb' he1 (by decide) (by decide)
  obtain ⟨v'', h14, hv''⟩ := polyAdd_spec (C := 3331) hv'.1 hv' he2 (by decide) (by decide)
  obtain ⟨v3, h15, hv3⟩ := polyAdd_spec (C := 4996) hv''.1 hv'' hk (by decide) (by decide)
  obtain ⟨b3, h16, hb3⟩ := polyVecReduce_rep (hb''.mono (Q := Is 32767) fun i _ v n _ hv => hv.mono (by omega))
  obtain ⟨v4, h17, hv4⟩ := polyReduce_spec (hv3.mono (Q := Is 32767) fun v n _ hv => hv.mono (by omega))
  have h18 := packCiphertext_rep hK (hb3.mono (Q := Is 3328) fun i _ v n _ hv => hv.mono (by omega)) (hv4.mono (Q := Is 3328) fun v n _ hv => hv.mono (by omega)) hj post
  rw [enc, unpackPk, h1, ok_bind, vec0_length, h2, ok_bind, pure_eq_ok, ok_bind]
  simp only []
  rw [h3, ok_bind, h4, ok_bind, h5, ok_bind, h6, ok_bind, ← Nat.two_mul, h7, ok_bind, h8, ok_bind, h9, ok_bind, h10, ok_bind, polyVecInvNtt, h11, ok_bind, h12, ok_bind, h13, ok_bind, h14, ok_bind,
    h15, ok_bind, h16, ok_bind, h17, ok_bind]
  exact h18

theorem dec_spec {q : Par} (hq : q ∈ sets) {c crest w skrest : List Byte} (hc : c.length = cipherLen q.K) (hw : w.length = 384 * q.K) {s : Nat → Nat → F} (hs : DecodesTo q.K w s)
    {junk : List Byte} (hj : junk.length = 32) (post : List Byte) :
    dec q (junk ++ post) (c ++ crest) (w ++ skrest) = .ok (decrypt q.K s c ++ post) := by
  obtain ⟨hK0, hK5, hK, _⟩ := set_K hq
  obtain ⟨b, v, h1, hb, hv⟩ := unpackCiphertext_rep hK (rest := crest) hc
  obtain ⟨sv, h2, hsv⟩ := fromBytes_vec (rest := skrest) hw hs
  obtain ⟨b', h3, hb'⟩ := polyVecNtt_rep (hb.mono (Q := Is 9471) fun i _ v n _ hv => hv.mono (by omega))
  obtain ⟨x, h4, hx⟩ := polyVecBaseMulAcc_spec poly0_length hK0 hK5 hsv (hb'.mono (Q := Is 4095) fun i _ v n _ hv => hv.mono (by omega))
  obtain ⟨x', h5, hx'⟩ := invNtt_dot (fa := s) hx (fun _ _ _ _ => rfl) (fun _ _ _ _ => rfl)
  obtain ⟨y, h6, hy⟩ := polySub_spec (C := 6656) hx'.1 hv hx' (by decide) (by decide)
  obtain ⟨y', h7, hy'⟩ := polyReduce_spec (hy.mono (Q := Is 32767) fun v n _ hv => hv.mono (by omega))
  have h8 := polyToMsg_rep (hy'.mono (Q := Is 3328) fun v n _ hv => hv.mono (by omega)) junk post hj
  rw [dec, h1, ok_bind]
  simp only []
  rw [h2, ok_bind, h3, ok_bind, h4, ok_bind, h5, ok_bind, h6, ok_bind, h7, ok_bind]
  exact h8

end Cex.Kyber
