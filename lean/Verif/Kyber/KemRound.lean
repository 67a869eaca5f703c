import Verif.Kyber.KemEncLemmas
import Verif.Kyber.KemAlg

/-!
# Encapsulation, decapsulation, and decoding what was encoded
-/

namespace Cex.Kyber
open Cex Cex.Lattice Cex.Spec.Lattice Cex.Spec.Kyber

variable {P : List Byte → M (List Byte)} {f : List Byte → List Byte}

/-! ## Decoding -/

theorem flatMap_length {K L : Nat} {e : Nat → List Byte} (he : ∀ i, (e i).length = L) : ((List.range K).flatMap e).length = L * K := by
  rw [List.length_flatMap]
  simp [he, Nat.mul_comm]

theorem part_flatMap {K L i : Nat} {e : Nat → List Byte} (he : ∀ i, (e i).length = L) (hi : i < K) (rest : List Byte) : part L ((List.range K).flatMap e ++ rest) i = e i := by
  obtain ⟨d, rfl⟩ := Nat.exists_eq_add_of_lt hi
  have : List.range (i + d + 1) = List.range i ++ i :: (List.range d).map (i + 1 + ·) := by
    rw [Nat.add_assoc, List.range_add, Nat.add_comm d 1, List.range_add]
    simp [Function.comp_def, Nat.add_assoc]
  have hl := flatMap_length (K := i) he
  rw [this, List.flatMap_append, List.flatMap_cons, part, List.append_assoc, List.drop_append_of_le_length (by omega), List.drop_of_length_le (by omega), List.nil_append, List.append_assoc,
    List.take_append_of_le_length (by rw [he]), List.take_of_length_le (by rw [he])]

theorem decodePoly_encode (g : Nat → F) {n : Nat} (hn : n < 256) : decodePoly (encodePoly g) n = g n := by
  have hl : ((List.range 256).map fun i => (g i).val).length = 256 := by rw [List.length_map, List.length_range]
  have hd := decode_encode (d := 12) (cs := (List.range 256).map fun i => (g i).val) (by rw [hl]) (by
    intro c hc
    obtain ⟨i, _, rfl⟩ := List.mem_map.mp hc
    exact Nat.lt_trans (val_lt _) (by decide))
  rw [hl] at hd
  have := congrArg (·[n]?) hd
  simp only [decode, List.getElem?_map, List.getElem?_range hn, Option.map_some, Option.some.injEq] at this
  rw [decodePoly, number, encodePoly, this]
  exact ZMod.natCast_zmod_val _

theorem decodeCompressed_encode {d : Nat} (g : Nat → F) {n : Nat} (hn : n < 256) : decodeCompressed d (encodeCompressed d g) n = decompress d (compress d (g n)) := by
  have hl : ((List.range 256).map fun i => compress d (g i)).length = 256 := by rw [List.length_map, List.length_range]
  have hd := decode_encode (d := d) (cs := (List.range 256).map fun i => compress d (g i)) (by rw [hl]; omega) (by
    intro c hc
    obtain ⟨i, _, rfl⟩ := List.mem_map.mp hc
    exact Nat.mod_lt _ (Nat.two_pow_pos d))
  rw [hl] at hd
  have := congrArg (·[n]?) hd
  simp only [decode, List.getElem?_map, List.getElem?_range hn, Option.map_some, Option.some.injEq] at this
  rw [decodeCompressed, number, encodeCompressed, this]

theorem decodesTo_encode (K : Nat) (t : Nat → Nat → F) : DecodesTo K (encodeVec K t) t := by
  intro i hi n hn
  have := part_flatMap (K := K) (L := 384) (e := fun i => encodePoly (Spec.Kyber.ntt (t i))) (fun i => encodePoly_length _) hi []
  rw [List.append_nil] at this
  rw [encodeVec, this, decodePoly_encode _ hn]

theorem encodeVec_length (K : Nat) (t : Nat → Nat → F) : (encodeVec K t).length = 384 * K := flatMap_length fun _ => encodePoly_length _

theorem cipherBytes_length (K : Nat) (u : Nat → Nat → F) (v : Nat → F) : (cipherBytes K u v).length = cipherLen K := by
  rw [cipherBytes, List.length_append, flatMap_length (L := 32 * du K) fun _ => encodeCompressed_length _ _, encodeCompressed_length, cipherLen]

theorem decrypt_encrypt {K : Nat} {A : Nat → Nat → Nat → F} {s e r e1 : Nat → Nat → F} {e2 : Nat → F} {m : List Byte} (hm : m.length = 32)
    (h : ∀ n, n < 256 → ∃ x : Int, -832 ≤ x ∧ x ≤ 831 ∧ noiseTerm K A s e r e1 e2 m n = (x : F)) :
    decrypt K s (cipherBytes K (cipherVec K A r e1) (cipherPoly K (publicVec K A s e) r e2 m)) = m := by
  have key : ∀ n, n < 256 → compress 1 (decodeCompressed (dv K) ((cipherBytes K (cipherVec K A r e1) (cipherPoly K (publicVec K A s e) r e2 m)).drop (32 * du K * K)) n -
      Spec.Kyber.inner K s (fun i => decodeCompressed (du K) (part (32 * du K) (cipherBytes K (cipherVec K A r e1) (cipherPoly K (publicVec K A s e) r e2 m)) i)) n) = number 1 m n := by
    intro n hn
    have hl := flatMap_length (K := K) (L := 32 * du K) (e := fun i => encodeCompressed (du K) (cipherVec K A r e1 i)) fun _ => encodeCompressed_length _ _
    have hd : (cipherBytes K (cipherVec K A r e1) (cipherPoly K (publicVec K A s e) r e2 m)).drop (32 * du K * K) = encodeCompressed (dv K) (cipherPoly K (publicVec K A s e) r e2 m) := by
      rw [cipherBytes, ← hl, List.drop_left]
    rw [hd, decodeCompressed_encode _ hn]
    have hi := inner_congr (K := K) (a := s) (a' := s) (b := fun i => decodeCompressed (du K) (part (32 * du K) (cipherBytes K (cipherVec K A r e1) (cipherPoly K (publicVec K A s e) r e2 m)) i))
      (b' := fun i k => cipherVec K A r e1 i k + roundErr (du K) (cipherVec K A r e1 i k)) (fun _ _ _ _ => rfl) (fun k hk i hi => by
        rw [cipherBytes, part_flatMap (fun i => encodeCompressed_length _ _) hk, decodeCompressed_encode _ hi, roundErr]
        ring) n
    rw [hi]
    have hnt := noise_term K A s e r e1 (fun i k => roundErr (du K) (cipherVec K A r e1 i k)) e2 (fun k => roundErr (dv K) (cipherPoly K (publicVec K A s e) r e2 m k)) m hn
    have hv : decompress (dv K) (compress (dv K) (cipherPoly K (publicVec K A s e) r e2 m n)) = cipherPoly K (publicVec K A s e) r e2 m n + roundErr (dv K) (cipherPoly K (publicVec K A s e) r e2 m n) := by
      rw [roundErr]; ring
    rw [hv, hnt]
    obtain ⟨x, h1, h2, h3⟩ := h n hn
    rw [noiseTerm] at h3
    rw [h3, decodeCompressed, compress_noise (number_lt 1 m n) h1 h2]
  rw [decrypt, encodeCompressed]
  have : (List.range 256).map (fun n => compress 1 (decodeCompressed (dv K) ((cipherBytes K (cipherVec K A r e1) (cipherPoly K (publicVec K A s e) r e2 m)).drop (32 * du K * K)) n -
      Spec.Kyber.inner K s (fun i => decodeCompressed (du K) (part (32 * du K) (cipherBytes K (cipherVec K A r e1) (cipherPoly K (publicVec K A s e) r e2 m)) i)) n)) = decode 1 256 m := by
    rw [decode]
    exact List.map_congr_left fun n hn => key n (List.mem_range.mp hn)
  rw [this, encode_decode (by rw [hm])]

/-! ## Comparison and conditional move -/

theorem verify_byte (a b : List Byte) (len : Nat) (ha : len ≤ a.length) (hb : len ≤ b.length) :
    ∃ d : BitVec 64, IntTools.verify a 0 b 0 len = .ok d ∧ (d = 0 ↔ a.take len = b.take len) ∧ ∃ z : Byte, d = z.setWidth 64 := by
  obtain ⟨d, h1, h2⟩ := IntTools.C04_verify a b 0 0 len (by omega) (by omega)
  obtain ⟨d', h3, h4⟩ := loopN_inv (f := IntTools.verifyBody a 0 b 0) (fun _ (d : BitVec 64) => ∃ z : Byte, d = z.setWidth 64) len 0 0
    (by
      rintro j d _ hj ⟨z, rfl⟩
      refine ⟨_, by simp only [IntTools.verifyBody, rd_ok (show 0 + j < a.length by omega), rd_ok (show 0 + j < b.length by omega), ok_bind, pure_eq_ok]; rfl, ?_⟩
      exact ⟨z ||| (a[0 + j] ^^^ b[0 + j]), by ext i hi; simp only [BitVec.getElem_or, BitVec.getElem_setWidth, BitVec.getLsbD_or]⟩)
    ⟨0, rfl⟩
  rw [IntTools.verify, h3] at h1
  injection h1 with h1
  subst h1
  exact ⟨d', h3, by simpa using h2, h4⟩

theorem cmov_length (inp out : List Byte) (io len : Nat) (c : Byte) (hi : io + len ≤ inp.length) (ho : len ≤ out.length) :
    ∃ out', IntTools.cmov inp io out 0 len c = .ok out' ∧ out'.length = out.length := by
  obtain ⟨o, h1, h2⟩ := loopN_inv (f := IntTools.cmovBody inp io 0 (~~~c + 1)) (fun _ o => o.length = out.length) len 0 out
    (by
      intro j o _ hj hl
      refine ⟨_, by simp only [IntTools.cmovBody, rd_ok (show io + j < inp.length by omega), rd_ok (show 0 + j < o.length by omega), ok_bind]; exact wr_ok _ (by omega), ?_⟩
      rw [List.length_set]; exact hl)
    rfl
  exact ⟨o, h1, h2⟩

theorem cmov_zero (inp out : List Byte) (io len : Nat) (hi : io + len ≤ inp.length) (ho : len ≤ out.length) : IntTools.cmov inp io out 0 len 0 = .ok out := by
  have := IntTools.C05_cmov inp [] (out.take len) (out.drop len) io false (by rw [List.length_take]; omega)
  have hl : (out.take len).length = len := by rw [List.length_take]; omega
  simp only [List.nil_append, List.length_nil, Bool.false_eq_true, if_false, List.take_append_drop, hl] at this
  exact this

/-! ## The mechanism -/

theorem xof_64 (p : Keccak.Perm P f) {kr ss : List Byte} (hk : kr.length = 64) : Keccak.xof P kr 0 64 ss 0 ss.length 136 = .ok (KDF f kr ss.length) := by
  have h := Keccak.C38_xof p (r := 136) (by decide) (by decide) (by decide) ⟨kr, 0, 64, by omega, by omega⟩ [] ss []
  have hb : (⟨kr, 0, 64, by omega, by omega⟩ : Window).bytes = kr := by
    show (kr.drop 0).take 64 = kr
    rw [List.drop_zero, List.take_of_length_le (by omega)]
  rw [hb] at h
  simp only [List.nil_append, List.append_nil, List.length_nil] at h
  exact h

theorem hash_into (p : Keccak.Perm P f) {x kr : List Byte} (hx : x.length < 2 ^ 64) (hk : kr.length = 64) : Keccak.compute P x 0 x.length kr 32 136 = .ok (kr.take 32 ++ H f x) := by
  have := compute_at p (r := 136) (by decide) (by decide) (inp := x) (x := x) (io := 0) (len := x.length) ⟨[], [], by simp, rfl⟩ rfl hx (oo := 32) (kr.take 32) (kr.drop 32) []
    (by rw [List.length_take]; omega) (by rw [List.length_drop]; omega)
  rw [List.append_nil, List.append_nil, List.take_append_drop] at this
  exact this

theorem hash_G (p : Keccak.Perm P f) {x : List Byte} (hx : x.length = 64) : Keccak.compute P x 0 64 (List.replicate 64 0) 0 72 = .ok (G f x) := by
  have := compute_at p (r := 72) (by decide) (by decide) (inp := x) (x := x) (io := 0) (len := 64) ⟨[], [], by simp, rfl⟩ hx.symm (by omega) (oo := 0) [] (List.replicate 64 0) [] rfl List.length_replicate
  rw [List.nil_append, List.append_nil, List.nil_append, List.append_nil] at this
  exact this

theorem generate_spec (p : Keccak.Perm P f) {q : Par} (hq : q ∈ sets) {fuel : Nat} {d z pk sk : List Byte} (hd : d.length = 32) (hz : z.length = 32) (hpk : pk.length = q.pkSize) (hsk : sk.length = q.skSize)
    {A : Nat → Nat → Nat → F} (hA : Samples f fuel q.K ((G f d).take 32) A) :
    let s := noiseVec f q.eta1 ((G f d).drop 32) 0
    let PK := encodeVec q.K (publicVec q.K A s (noiseVec f q.eta1 ((G f d).drop 32) q.K)) ++ (G f d).take 32
    generate P fuel q pk sk d z = .ok (PK, encodeVec q.K s ++ PK ++ H f PK ++ z) := by
  intro s PK
  obtain ⟨hK0, hK5, _, _, e1, e2, _⟩ := set_K hq
  rw [e1] at hpk
  rw [e2] at hsk
  have h1 := keyPair_spec p hq (pk := pk) (sk := sk.take (384 * q.K)) (skrest := sk.drop (384 * q.K)) hd hpk (by rw [List.length_take]; omega) hA
  rw [List.take_append_drop] at h1
  have hGl := G_length p d
  have hPK : PK.length = 384 * q.K + 32 := by
    show (encodeVec _ _ ++ _).length = _
    rw [List.length_append, encodeVec_length, List.length_take, hGl]; rfl
  have hs : (encodeVec q.K s).length = 384 * q.K := encodeVec_length _ _
  have hrl : (sk.drop (384 * q.K)).length = 384 * q.K + 96 := by rw [List.length_drop]; omega
  generalize hR : sk.drop (384 * q.K) = R at *
  have h2 : copy PK 0 (encodeVec q.K s ++ R) (q.K * 384) PK.length = .ok (encodeVec q.K s ++ PK ++ R.drop PK.length) := by
    have := copy_at (src := PK) (s := PK) (so := 0) (a := encodeVec q.K s) (b := R.take PK.length) (c := R.drop PK.length) (off := q.K * 384) (n := PK.length) ⟨[], [], by simp, rfl⟩
      (by rw [hs, Nat.mul_comm]) rfl (by rw [List.length_take]; omega)
    rw [List.append_assoc, List.take_append_drop] at this
    exact this
  have hR2 : (R.drop PK.length).length = 64 := by rw [List.length_drop]; omega
  generalize R.drop PK.length = T at *
  have h3 : Keccak.compute P PK 0 PK.length (encodeVec q.K s ++ PK ++ T) (q.K * 384 + 32 + q.K * 384) 136 = .ok (encodeVec q.K s ++ PK ++ H f PK ++ T.drop 32) := by
    have := compute_at p (r := 136) (by decide) (by decide) (inp := PK) (x := PK) (io := 0) (len := PK.length) ⟨[], [], by simp, rfl⟩ rfl (by omega) (oo := q.K * 384 + 32 + q.K * 384)
      (encodeVec q.K s ++ PK) (T.take 32) (T.drop 32) (by rw [List.length_append]; omega) (by rw [List.length_take]; omega)
    rw [List.append_assoc, List.take_append_drop] at this
    exact this
  have h4 : blit (encodeVec q.K s ++ PK ++ H f PK ++ T.drop 32) (q.K * 384 + (q.K * 384 + 32) + 64 - 32) z = .ok (encodeVec q.K s ++ PK ++ H f PK ++ z) := by
    have := blit_at (a := encodeVec q.K s ++ PK ++ H f PK) (b := T.drop 32) (c := []) (s := z) (off := q.K * 384 + (q.K * 384 + 32) + 64 - 32)
      (by rw [List.length_append, List.length_append, H_length p]; omega) (by rw [List.length_drop]; omega)
    rw [List.append_nil, List.append_nil] at this
    exact this
  rw [generate, h1, ok_bind]
  show (do let sk ← copy PK 0 (encodeVec q.K s ++ R) (q.K * 384) PK.length; _) = _
  rw [h2, ok_bind, h3, ok_bind, h4, ok_bind]
  rfl

theorem encapsulate_spec (p : Keccak.Perm P f) {q : Par} (hq : q ∈ sets) {fuel : Nat} {w ρ pkrest ct ss d : List Byte} (hw : w.length = 384 * q.K) (hρ : ρ.length = 32) (hpr : pkrest.length < 2 ^ 63)
    (hd : d.length = 32) (hct : ct.length = cipherLen q.K) {A : Nat → Nat → Nat → F} (hA : Samples f fuel q.K ρ A) {t : Nat → Nat → F} (ht : DecodesTo q.K w t) :
    let g := G f (H f d ++ H f (w ++ ρ ++ pkrest))
    let c := encrypt f q.K q.eta1 A t (H f d) (g.drop 32)
    encapsulate P fuel q (w ++ ρ ++ pkrest) ct ss d = .ok (c, KDF f (g.take 32 ++ H f c) ss.length) := by
  intro g c
  obtain ⟨hK0, hK5, _⟩ := set_K hq
  have h1 : Keccak.compute P (d ++ List.replicate 32 0) 0 32 (d ++ List.replicate 32 0) 0 136 = .ok (H f d ++ List.replicate 32 0) := by
    have := compute_at p (r := 136) (by decide) (by decide) (inp := d ++ List.replicate 32 0) (x := d) (io := 0) (len := 32) ⟨[], List.replicate 32 0, rfl, rfl⟩ hd.symm
      (by rw [List.length_append, List.length_replicate, hd]; decide) (oo := 0) [] d (List.replicate 32 0) rfl hd
    rw [List.nil_append, List.nil_append] at this
    exact this
  have hpl : (w ++ ρ ++ pkrest).length < 2 ^ 64 := by rw [List.length_append, List.length_append]; omega
  have hb1 : (H f d ++ List.replicate 32 0).length = 64 := by rw [List.length_append, H_length p, List.length_replicate]
  have h2 := hash_into p hpl hb1
  rw [List.take_append_of_le_length (by rw [H_length p]), List.take_of_length_le (by rw [H_length p])] at h2
  have hb2 : (H f d ++ H f (w ++ ρ ++ pkrest)).length = 64 := by rw [List.length_append, H_length p, H_length p]
  have h3 := hash_G p hb2
  have hGl := G_length p (H f d ++ H f (w ++ ρ ++ pkrest))
  have h4 := enc_spec p hq (fuel := fuel) (pkrest := pkrest) (msg := H f d ++ H f (w ++ ρ ++ pkrest)) (coins := g) (cs := g.drop 32) (off := 32) hw hρ hA ht (m := H f d)
    ⟨[], _, rfl, rfl⟩ (H_length p _) ⟨g.take 32, [], by rw [List.append_nil, List.take_append_drop], by rw [List.length_take, hGl]; rfl⟩ (by rw [List.length_drop, hGl]) hct []
  rw [List.append_nil, List.append_nil] at h4
  have hcl : c.length = cipherLen q.K := cipherBytes_length _ _ _
  have hcb : cipherLen q.K < 2 ^ 63 := by
    have : q.K ∈ [2, 3, 4, 5] := (set_K hq).2.2.1
    simp only [List.mem_cons, List.not_mem_nil, or_false] at this
    rcases this with h | h | h | h <;> rw [h] <;> decide
  have h5 := hash_into p (x := c) (kr := g) (by omega) hGl
  have hkr : (g.take 32 ++ H f c).length = 64 := by rw [List.length_append, List.length_take, hGl, H_length p]; rfl
  have h6 := xof_64 p (ss := ss) hkr
  rw [encapsulate, blit_zero d hd, ok_bind, h1, ok_bind, h2, ok_bind, h3, ok_bind, h4, ok_bind]
  show (do let kr ← Keccak.compute P c 0 c.length g 32 136; _) = _
  rw [h5, ok_bind, h6, ok_bind]
  rfl

theorem decapsulate_spec (p : Keccak.Perm P f) {q : Par} (hq : q ∈ sets) {fuel : Nat} {w w' ρ h z c tail ss : List Byte} (hw : w.length = 384 * q.K) (hw' : w'.length = 384 * q.K) (hρ : ρ.length = 32)
    (hh : h.length = 32) (hz : z.length = 32) (hc : c.length = cipherLen q.K) (htl : tail.length < 2 ^ 63)
    {A : Nat → Nat → Nat → F} (hA : Samples f fuel q.K ρ A) {s t : Nat → Nat → F} (hs : DecodesTo q.K w s) (ht : DecodesTo q.K w' t) :
    let m := decrypt q.K s c
    let g := G f (m ++ h)
    ∃ b out, decapsulate P fuel q (w ++ (w' ++ ρ ++ (h ++ z))) (c ++ tail) ss = .ok (b, out) ∧
      (b = true ↔ c = encrypt f q.K q.eta1 A t m (g.drop 32) ∧ tail = List.replicate tail.length 0) ∧ (b = true → out = KDF f (g.take 32 ++ H f (c ++ tail)) ss.length) := by
  intro m g
  obtain ⟨hK0, hK5, _⟩ := set_K hq
  have hml : m.length = 32 := encodeCompressed_length 1 _
  have hcb : cipherLen q.K < 2 ^ 63 := by
    have : q.K ∈ [2, 3, 4, 5] := (set_K hq).2.2.1
    simp only [List.mem_cons, List.not_mem_nil, or_false] at this
    rcases this with h | h | h | h <;> rw [h] <;> decide
  have hskl : (w ++ (w' ++ ρ ++ (h ++ z))).length = 768 * q.K + 96 := by simp only [List.length_append]; omega
  have h1 : copy (w ++ (w' ++ ρ ++ (h ++ z))) (q.K * 384) (List.replicate (768 * q.K + 96 - q.K * 384) 0) 0 (768 * q.K + 96 - q.K * 384) = .ok (w' ++ ρ ++ (h ++ z)) :=
    copy_whole ⟨w, [], by simp, by omega⟩ (by simp only [List.length_append]; omega) (by rw [List.length_replicate]; simp only [List.length_append]; omega)
  have h2 := dec_spec hq (crest := tail) (skrest := w' ++ ρ ++ (h ++ z)) hc hw hs (junk := List.replicate 32 0) List.length_replicate (List.replicate 32 0)
  rw [List.replicate_append_replicate] at h2
  have h3 : copy (w ++ (w' ++ ρ ++ (h ++ z))) (q.K * 384 + (q.K * 384 + 32) + 64 - 64) (m ++ List.replicate 32 0) 32 32 = .ok (m ++ h) := by
    have := copy_at (src := w ++ (w' ++ ρ ++ (h ++ z))) (s := h) (so := q.K * 384 + (q.K * 384 + 32) + 64 - 64) (a := m) (b := List.replicate 32 0) (c := []) (off := 32) (n := 32)
      ⟨w ++ (w' ++ ρ), z, by simp, by simp only [List.length_append]; omega⟩ hml.symm hh.symm (by rw [List.length_replicate, hh])
    rw [List.append_nil, List.append_nil] at this
    exact this
  have hmh : (m ++ h).length = 64 := by rw [List.length_append]; omega
  have h4 := hash_G p hmh
  have hGl : g.length = 64 := G_length p (m ++ h)
  have hctl : (c ++ tail).length = cipherLen q.K + tail.length := by rw [List.length_append, hc]
  have h5 := enc_spec p hq (fuel := fuel) (pkrest := h ++ z) (msg := m ++ h) (coins := g) (cs := g.drop 32) (off := 32) hw' hρ hA ht (m := m)
    ⟨[], _, rfl, rfl⟩ hml ⟨g.take 32, [], by rw [List.append_nil, List.take_append_drop], by rw [List.length_take, hGl]; rfl⟩ (by rw [List.length_drop, hGl])
    (junk := List.replicate (cipherLen q.K) 0) List.length_replicate (List.replicate tail.length 0)
  rw [List.replicate_append_replicate, ← hctl] at h5
  have hel : (encrypt f q.K q.eta1 A t m (g.drop 32)).length = cipherLen q.K := cipherBytes_length _ _ _
  have hcmpl : (encrypt f q.K q.eta1 A t m (g.drop 32) ++ List.replicate tail.length 0).length = (c ++ tail).length := by rw [List.length_append, List.length_replicate, hctl]; omega
  obtain ⟨fail, h6, h7, x, hx⟩ := verify_byte (c ++ tail) (encrypt f q.K q.eta1 A t m (g.drop 32) ++ List.replicate tail.length 0) (c ++ tail).length (Nat.le_refl _) (by omega)
  rw [List.take_of_length_le (Nat.le_refl _), List.take_of_length_le (by omega)] at h7
  have h8 := hash_into p (x := c ++ tail) (kr := g) (by omega) hGl
  have hkr : (g.take 32 ++ H f (c ++ tail)).length = 64 := by rw [List.length_append, List.length_take, hGl, H_length p]; rfl
  obtain ⟨kr, h9, h10⟩ := cmov_length (w ++ (w' ++ ρ ++ (h ++ z))) (g.take 32 ++ H f (c ++ tail)) (q.K * 384 + (q.K * 384 + 32) + 64 - 32) 32 (fail.setWidth 8) (by omega) (by omega)
  have h11 := xof_64 p (ss := ss) (h10.trans hkr)
  refine ⟨decide (fail.setWidth 32 = 0), KDF f kr ss.length, ?_, ?_, ?_⟩
  · rw [decapsulate, hskl, if_neg (by omega), h1, ok_bind, h2, ok_bind, h3, ok_bind, h4, ok_bind, h5, ok_bind, h6, ok_bind, h8, ok_bind, h9, ok_bind, h11, ok_bind]
    rfl
  · rw [decide_eq_true_iff]
    have hz0 : fail.setWidth 32 = (0 : BitVec 32) ↔ fail = 0 := by
      rw [hx]
      constructor
      · intro hh
        have hn := congrArg BitVec.toNat hh
        have hlt := x.isLt
        rw [BitVec.toNat_setWidth, BitVec.toNat_setWidth, Nat.mod_eq_of_lt (b := 2 ^ 64) (by omega), Nat.mod_eq_of_lt (by omega)] at hn
        rw [BitVec.eq_of_toNat_eq (x := x) (y := 0) hn]; rfl
      · intro hh
        have hn := congrArg BitVec.toNat hh
        have hlt := x.isLt
        rw [BitVec.toNat_setWidth, Nat.mod_eq_of_lt (b := 2 ^ 64) (by omega)] at hn
        rw [BitVec.eq_of_toNat_eq (x := x) (y := 0) hn]; rfl
    rw [hz0, h7]
    exact ⟨fun hh => List.append_inj hh (by omega), fun hh => by rw [hh.1.symm, hh.2.symm]⟩
  · intro hb
    have hb := of_decide_eq_true hb
    have hx0 : fail.setWidth 8 = 0 := by
      have hn := congrArg BitVec.toNat hb
      have hlt := x.isLt
      rw [hx, BitVec.toNat_setWidth, BitVec.toNat_setWidth, Nat.mod_eq_of_lt (b := 2 ^ 64) (by omega), Nat.mod_eq_of_lt (by omega)] at hn
      rw [hx, BitVec.eq_of_toNat_eq (x := x) (y := 0) hn]; rfl
    rw [hx0, cmov_zero _ _ _ _ (by omega) (by omega)] at h9
    injection h9 with h9
    rw [← h9]

end Cex.Kyber
