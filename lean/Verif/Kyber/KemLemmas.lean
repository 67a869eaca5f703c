import Verif.Kyber.KemModel
import Verif.Kyber.KemSpec
import Verif.Kyber.SampleProps
import Verif.Kyber.ArithProps
import Verif.IntTools.Props

/-!
# Key generation, encryption and decryption
-/

namespace Cex.Kyber
open Cex Cex.Lattice Cex.Spec.Lattice Cex.Spec.Kyber

variable {P : List Byte → M (List Byte)} {f : List Byte → List Byte}

/-! ## Vectors -/

theorem vecLoop_spec {P1 Q : Int → F → Prop} {K : Nat} {u : Nat → List Int → M (List Int)} {r : List (List Int)} {a b : Nat → Nat → F}
    (hr : Reps P1 K r a) (h : ∀ i, i < K → ∀ p, Rep P1 p (a i) → ∃ q, u i p = .ok q ∧ Rep Q q (b i)) : ∃ r', vecLoop u r = .ok r' ∧ Reps Q K r' b := by
  obtain ⟨r', h1, h2, h3⟩ := loopN_inv (f := fun i r => do wr r i (← u i (← rd r i)))
    (fun i s => s.length = K ∧ ∀ j p, s[j]? = some p → (j < i → Rep Q p (b j)) ∧ (i ≤ j → Rep P1 p (a j))) K 0 r
    (by
      rintro i s _ hi ⟨hl, hs⟩
      have hi : i < s.length := by omega
      obtain ⟨q, e1, e2⟩ := h i (by omega) s[i] ((hs i _ (List.getElem?_eq_getElem hi)).2 (Nat.le_refl _))
      refine ⟨s.set i q, by show (do wr s i (← u i (← rd s i))) = _; rw [rd_ok hi, ok_bind, e1, ok_bind]; exact wr_ok _ hi, by rw [List.length_set]; exact hl, fun j p hp => ?_⟩
      rw [List.getElem?_set] at hp
      by_cases hij : i = j
      · subst hij
        rw [if_pos rfl, if_pos hi] at hp
        cases hp
        exact ⟨fun _ => e2, fun hh => by omega⟩
      · rw [if_neg hij] at hp
        exact ⟨fun hh => (hs j p hp).1 (by omega), fun hh => (hs j p hp).2 (by omega)⟩)
    ⟨hr.1, fun j p hp => ⟨fun hh => by omega, fun _ => hr.2 j p hp⟩⟩
  refine ⟨r', by rw [vecLoop, hr.1]; exact h1, h2, fun j p hp => (h3 j p hp).1 ?_⟩
  have := (List.getElem?_eq_some_iff.mp hp).1
  omega

theorem poly0_length : poly0.length = 256 := List.length_replicate

theorem vec0_length (K : Nat) : (vec0 K).length = K := List.length_replicate

theorem vec0_mem {K : Nat} {p : List Int} (h : p ∈ vec0 K) : p.length = 256 := by
  rw [vec0, List.mem_replicate] at h
  rw [h.2]; exact poly0_length

theorem vec0_rep (K : Nat) : Reps (fun _ _ => True) K (vec0 K) (fun _ _ => 0) := ⟨vec0_length K, fun _ _ hr => ⟨vec0_mem (List.mem_of_getElem? hr), fun _ _ _ => trivial⟩⟩

/-- A loop that fills a fresh vector. -/
theorem vecFill {K : Nat} {u : Nat → List Int → M (List Int)} {g : Nat → List Int} (h : ∀ i, i < K → ∀ p, p.length = 256 → u i p = .ok (g i)) :
    vecLoop u (vec0 K) = .ok ((List.range K).map g) := by
  rw [vecLoop, vec0_length]
  exact vecUnpack (u := u) (fun i r => rfl) h (vec0_length K) fun p hp => vec0_mem hp

theorem Reps.mono {P Q : Int → F → Prop} {K : Nat} {r : List (List Int)} {a b : Nat → Nat → F} (h : Reps P K r a) (hm : ∀ i, i < K → ∀ v n, n < 256 → P v (a i n) → Q v (b i n)) : Reps Q K r b := by
  refine ⟨h.1, fun i p hp => (h.2 i p hp).mono (hm i ?_)⟩
  have := (List.getElem?_eq_some_iff.mp hp).1
  rw [h.1] at this
  exact this

theorem polyNtt_rep {r : List Int} {a : Nat → F} (h : Rep (Is 9471) r a) : ∃ r', polyNtt r = .ok r' ∧ Rep (Is 1664) r' (Spec.Kyber.ntt a) := by
  obtain ⟨r', h1, h2⟩ := ntt_layers h
  obtain ⟨r'', h3, h4⟩ := polyReduce_spec h2
  exact ⟨r'', by rw [polyNtt, h1, ok_bind, h3], h4.mono fun v n hn hv => by rw [← layers_ntt _ hn]; exact hv⟩

theorem polyVecNtt_rep {K : Nat} {r : List (List Int)} {a : Nat → Nat → F} (h : Reps (Is 9471) K r a) : ∃ r', polyVecNtt r = .ok r' ∧ Reps (Is 1664) K r' (fun i => Spec.Kyber.ntt (a i)) :=
  vecLoop_spec h fun _ _ _ hp => polyNtt_rep hp

theorem polyVecReduce_rep {K : Nat} {r : List (List Int)} {a : Nat → Nat → F} (h : Reps (Is 32767) K r a) : ∃ r', polyVecReduce r = .ok r' ∧ Reps (Is 1664) K r' a :=
  vecLoop_spec h fun _ _ _ hp => polyReduce_spec hp

theorem polyVecAdd_rep {K : Nat} {r s : List (List Int)} {a b : Nat → Nat → F} {A B C : Int} (h : Reps (Is A) K r a) (hs : Reps (Is B) K s b) (hc : A + B ≤ C) (hC : C ≤ 32767) :
    ∃ r', polyVecAdd r s = .ok r' ∧ Reps (Is C) K r' (fun i n => a i n + b i n) :=
  vecLoop_spec h fun i hi p hp => by
    obtain ⟨q, e, hq⟩ := hs.get hi
    rw [e, ok_bind]
    exact polyAdd_spec hp.1 hp hq hc hC

/-- `InvNtt` after `PolyVecBaseMulAccMontgomery`: the scalar product of the polynomials with the given transforms. -/
theorem invNtt_dot {K : Nat} {r : List Int} {a b fa fb : Nat → Nat → F} (h : Rep (Is 1664) r (fun k => dot K a b k * 169))
    (ha : ∀ i, i < K → ∀ n, n < 256 → Spec.Kyber.ntt (fa i) n = a i n) (hb : ∀ i, i < K → ∀ n, n < 256 → Spec.Kyber.ntt (fb i) n = b i n) :
    ∃ r', invNtt r = .ok r' ∧ Rep (Is 3328) r' (Spec.Kyber.inner K fa fb) := by
  obtain ⟨r1, r2⟩ := bounded_of_rep h
  obtain ⟨d, h1, h2, h3⟩ := C58_invNtt (r := r) ⟨r1.1, fun v hv => by have := r1.2 v hv; omega⟩
  refine ⟨d, h1, (rep_of_bounded h2).mono fun v n hn hv => ?_⟩
  have key : ∀ n, n < 256 → coeff d n = Spec.Kyber.inner K fa fb n := ntt_inj fun n hn => by
    rw [h3 n hn, r2 n hn, show Spec.Kyber.inner K fa fb = fun i => ∑ k ∈ Finset.range K, mul (fa k) (fb k) i from rfl, ntt_sum, dot]
    have : ∀ k ∈ Finset.range K, Spec.Kyber.ntt (mul (fa k) (fb k)) n = Spec.Kyber.baseMul (a k) (b k) n := fun k hk => by
      have hk := Finset.mem_range.mp hk
      rw [ntt_mul, baseMul_congr (ha k hk) (hb k hk) hn]
    rw [Finset.sum_congr rfl this]
    linear_combination (∑ j ∈ Finset.range K, Spec.Kyber.baseMul (a j) (b j) n) * r_inv
  rw [← key n hn]
  exact hv

theorem ntt_inner (K : Nat) (a b : Nat → Nat → F) (n : Nat) : Spec.Kyber.ntt (Spec.Kyber.inner K a b) n = dot K (fun i => Spec.Kyber.ntt (a i)) (fun i => Spec.Kyber.ntt (b i)) n := by
  rw [show Spec.Kyber.inner K a b = fun i => ∑ k ∈ Finset.range K, mul (a k) (b k) i from rfl, ntt_sum, dot]
  exact Finset.sum_congr rfl fun k _ => by rw [ntt_mul]

/-! ## The matrix and the noise -/

/-- `A` is the matrix the code samples from the seed `ρ`. -/
def Samples (f : List Byte → List Byte) (fuel K : Nat) (ρ : List Byte) (A : Nat → Nat → Nat → F) : Prop :=
  ∀ i j, i < K → j < K → ∃ cs, uniform f 32 fuel (ρ ++ [BitVec.ofNat 8 j, BitVec.ofNat 8 i]) = .ok cs ∧ ∀ (n c : Nat), cs[n]? = some c → Spec.Kyber.ntt (A i j) n = (c : F)

theorem genMatrix_rep (p : Keccak.Perm P f) {fuel K : Nat} {seed ρ : List Byte} (hs : Holds seed 0 ρ) (hρ : ρ.length = 32) {A : Nat → Nat → Nat → F} (hA : Samples f fuel K ρ A) (tr : Bool) :
    ∃ m, genMatrix P 32 fuel (List.replicate K (vec0 K)) seed tr K = .ok m ∧
      ∀ i, i < K → ∃ row, rd m i = .ok row ∧ Reps (Is 3328) K row (fun j => Spec.Kyber.ntt (if tr then A j i else A i j)) := by
  have hU : ∀ x y, x < K → y < K → ∃ cs, uniform f 32 fuel (ρ ++ [BitVec.ofNat 8 x, BitVec.ofNat 8 y]) = .ok cs ∧ ∀ (n c : Nat), cs[n]? = some c → Spec.Kyber.ntt (A y x) n = (c : F) :=
    fun x y hx hy => hA y x hy hx
  choose! U hU1 hU2 using hU
  have hm := genMatrix_spec p (rate := 32) (fuel := fuel) (K := K) (tr := tr) (by decide) hs hρ hU1 (mat := List.replicate K (vec0 K)) List.length_replicate
    (fun row hrow => by rw [(List.mem_replicate.mp hrow).2]; exact ⟨vec0_length K, fun q hq => vec0_mem hq⟩)
  refine ⟨_, hm, fun i hi => ?_⟩
  have hl : i < ((List.range K).map fun i => (List.range K).map (entry U tr i)).length := by rw [List.length_map, List.length_range]; exact hi
  refine ⟨_, rd_ok hl, ?_⟩
  rw [List.getElem_map, List.getElem_range]
  refine reps_range fun j hj => ?_
  have key : ∀ x y, x < K → y < K → Rep (Is 3328) ((U x y).map Int.ofNat) (Spec.Kyber.ntt (A y x)) := by
    intro x y hx hy
    have h1 := hU1 x y hx hy
    obtain ⟨_, h2⟩ := genPoly_spec p (rate := 32) (fuel := fuel) (by decide) (ext := ρ ++ [BitVec.ofNat 8 x, BitVec.ofNat 8 y]) (by simp [hρ]) (buf := List.replicate 506 0) List.length_replicate poly0_length
    obtain ⟨h3, _⟩ := h2 _ h1
    refine ⟨by rw [List.length_map]; exact h3, fun n v hv => ?_⟩
    rw [List.getElem?_map] at hv
    cases hc : (U x y)[n]? with
    | none => rw [hc] at hv; cases hv
    | some c =>
      rw [hc] at hv
      cases hv
      rw [uniform] at h1
      have hlt := uniform_lt (fun c hc => accepted_lt (List.mem_of_mem_take hc)) h1 c (List.mem_of_getElem? hc)
      refine ⟨?_, by rw [hU2 x y hx hy n c hc]; rfl⟩
      show |(c : Int)| ≤ 3328
      exact abs_le.mpr (by omega)
  cases tr
  · exact key j i hj hi
  · exact key i j hi hj

theorem noise_rep (η : Nat) (hη : η ≤ 3) (seed : List Byte) (nonce : Nat) : Rep (Is 3) ((List.range 256).map (noise f η seed nonce)) (fun n => (noise f η seed nonce n : F)) :=
  rep_range fun i _ => ⟨by
    have := C60_small η (Fips202.shake f 136 (seed ++ [BitVec.ofNat 8 nonce]) (64 * η)) i
    have h3 : (η : Int) ≤ 3 := by exact_mod_cast hη
    exact le_trans this h3, rfl⟩

theorem noiseVec1 (p : Keccak.Perm P f) {K n0 : Nat} (hK : n0 + K < 256) {seed s : List Byte} {off : Nat} (hs : Holds seed off s) (hl : s.length = 32) {eta : Nat} (he : eta = 2 ∨ eta = 3) :
    ∃ r, vecLoop (fun i r => getNoiseEta1 P r seed off (BitVec.ofNat 8 (n0 + i)) eta) (vec0 K) = .ok r ∧ Reps (Is 3) K r (noiseVec f eta s n0) := by
  refine ⟨_, vecFill (g := fun i => (List.range 256).map (noise f eta s (n0 + i))) fun i hi q hq => C60_noise1 p hs hl (by omega) he hq, ?_⟩
  exact reps_range fun i hi => noise_rep eta (by omega) s (n0 + i)

theorem noiseVec2 (p : Keccak.Perm P f) {K n0 : Nat} (hK : n0 + K < 256) {seed s : List Byte} {off : Nat} (hs : Holds seed off s) (hl : s.length = 32) :
    ∃ r, vecLoop (fun i r => getNoiseEta2 P r seed off (BitVec.ofNat 8 (n0 + i))) (vec0 K) = .ok r ∧ Reps (Is 3) K r (noiseVec f 2 s n0) :=
  noiseVec1 p hK hs hl (Or.inl rfl)

/-! ## Key generation -/

theorem set_K {q : Par} (h : q ∈ sets) : 0 < q.K ∧ q.K ≤ 5 ∧ q.K ∈ [2, 3, 4, 5] ∧ (q.eta1 = 2 ∨ q.eta1 = 3) ∧ q.pkSize = 384 * q.K + 32 ∧ q.skSize = 768 * q.K + 96 ∧ q.ctSize = cipherLen q.K := by
  simp only [sets, List.mem_cons, List.not_mem_nil, or_false] at h
  rcases h with rfl | rfl | rfl | rfl <;> decide

theorem compute_at (p : Keccak.Perm P f) {r : Nat} (hr : r ≤ 200) (hd : (200 - r) / 2 ≤ r) {inp x : List Byte} {io len : Nat} (hx : Holds inp io x) (hl : len = x.length) (hi : inp.length < 2 ^ 64)
    {oo : Nat} (pre junk post : List Byte) (ho : oo = pre.length) (hj : junk.length = (200 - r) / 2) :
    Keccak.compute P inp io len (pre ++ junk ++ post) oo r = .ok (pre ++ Fips202.sponge f r 0x06 x ((200 - r) / 2) ++ post) := by
  subst ho hl
  obtain ⟨a, c, rfl, rfl⟩ := hx
  have := Keccak.C38_compute p hr hd ⟨a ++ x ++ c, a.length, x.length, by rw [List.length_append, List.length_append]; omega, hi⟩ pre junk post hj
  have hb : (⟨a ++ x ++ c, a.length, x.length, by rw [List.length_append, List.length_append]; omega, hi⟩ : Window).bytes = x := by
    show ((a ++ x ++ c).drop a.length).take x.length = x
    rw [List.append_assoc, List.drop_left, List.take_left]
  rw [hb] at this
  exact this

theorem G_length (p : Keccak.Perm P f) (x : List Byte) : (G f x).length = 64 :=
  Keccak.squeeze_length p (r := 72) (by decide) (by decide) 64 _ (Keccak.eager_length p (by decide) _ _ List.length_replicate)

theorem H_length (p : Keccak.Perm P f) (x : List Byte) : (H f x).length = 32 :=
  Keccak.squeeze_length p (r := 136) (by decide) (by decide) 32 _ (Keccak.eager_length p (by decide) _ _ List.length_replicate)

theorem blit_zero (d : List Byte) (hd : d.length = 32) : blit (List.replicate 64 (0 : Byte)) 0 d = .ok (d ++ List.replicate 32 0) := by
  have := blit_at (a := []) (b := List.replicate 32 (0 : Byte)) (c := List.replicate 32 0) (s := d) (off := 0) rfl (by rw [hd, List.length_replicate])
  rw [List.nil_append, List.replicate_append_replicate, List.nil_append] at this
  exact this

theorem keyPair_spec (p : Keccak.Perm P f) {q : Par} (hq : q ∈ sets) {fuel : Nat} {d pk sk skrest : List Byte} (hd : d.length = 32) (hpk : pk.length = 384 * q.K + 32) (hsk : sk.length = 384 * q.K)
    {A : Nat → Nat → Nat → F} (hA : Samples f fuel q.K ((G f d).take 32) A) :
    keyPair P fuel q pk (sk ++ skrest) d = .ok
      (encodeVec q.K (publicVec q.K A (noiseVec f q.eta1 ((G f d).drop 32) 0) (noiseVec f q.eta1 ((G f d).drop 32) q.K)) ++ (G f d).take 32,
        encodeVec q.K (noiseVec f q.eta1 ((G f d).drop 32) 0) ++ skrest) := by
  obtain ⟨hK0, hK5, hK, he, _⟩ := set_K hq
  have hGl := G_length p d
  have hρ : ((G f d).take 32).length = 32 := by rw [List.length_take, hGl]; rfl
  have hσ : ((G f d).drop 32).length = 32 := by rw [List.length_drop, hGl]
  have h1 : Keccak.compute P (d ++ List.replicate 32 0) 0 32 (d ++ List.replicate 32 0) 0 72 = .ok (G f d) := by
    have := compute_at p (r := 72) (by decide) (by decide) (inp := d ++ List.replicate 32 0) (x := d) (io := 0) (len := 32) ⟨[], List.replicate 32 0, rfl, rfl⟩ hd.symm
      (by rw [List.length_append, List.length_replicate, hd]; decide) (oo := 0) [] (d ++ List.replicate 32 0) [] rfl (by rw [List.length_append, List.length_replicate, hd])
    rw [List.nil_append, List.append_nil, List.nil_append, List.append_nil] at this
    exact this
  have hG0 : Holds (G f d) 0 ((G f d).take 32) := ⟨[], (G f d).drop 32, by rw [List.nil_append, List.take_append_drop], rfl⟩
  have hG1 : Holds (G f d) 32 ((G f d).drop 32) := ⟨(G f d).take 32, [], by rw [List.append_nil, List.take_append_drop], hρ⟩
  obtain ⟨a, h2, ha⟩ := genMatrix_rep p hG0 hρ hA false
  obtain ⟨s, h3, hs⟩ := noiseVec1 p (K := q.K) (n0 := 0) (by omega) hG1 hσ he
  simp only [Nat.zero_add] at h3
  obtain ⟨e, h4, hee⟩ := noiseVec1 p (K := q.K) (n0 := q.K) (by omega) hG1 hσ he
  generalize hs0 : noiseVec f q.eta1 ((G f d).drop 32) 0 = S at *
  generalize he0 : noiseVec f q.eta1 ((G f d).drop 32) q.K = E at *
  obtain ⟨s', h5, hs'⟩ := polyVecNtt_rep (hs.mono (Q := Is 9471) fun i _ v n _ hv => hv.mono (by omega))
  obtain ⟨e', h6, he'⟩ := polyVecNtt_rep (hee.mono (Q := Is 9471) fun i _ v n _ hv => hv.mono (by omega))
  obtain ⟨t, h7, ht⟩ := vecLoop_spec (Q := Is 3328) (b := fun i => dot q.K (fun j => Spec.Kyber.ntt (A i j)) (fun j => Spec.Kyber.ntt (S j)))
    (u := fun i r => do polyToMont (← polyVecBaseMulAcc r (← rd a i) s')) (vec0_rep q.K) fun i hi r hr => by
      obtain ⟨row, e1, e2⟩ := ha i hi
      obtain ⟨x, e3, e4⟩ := polyVecBaseMulAcc_spec hr.1 hK0 hK5 (e2.mono (Q := Is 4095) fun i _ v n _ hv => hv.mono (by omega)) (hs'.mono (Q := Is 4095) fun i _ v n _ hv => hv.mono (by omega))
      obtain ⟨y, e5, e6⟩ := polyToMont_spec (e4.mono (Q := Is 32767) fun v n _ hv => hv.mono (by omega))
      refine ⟨y, by rw [e1, ok_bind, e3, ok_bind, e5], e6.mono fun v n hn hv => ?_⟩
      have : dot q.K (fun j => Spec.Kyber.ntt (A i j)) (fun j => Spec.Kyber.ntt (S j)) n * 169 * 65536 = dot q.K (fun j => Spec.Kyber.ntt (A i j)) (fun j => Spec.Kyber.ntt (S j)) n := by
        linear_combination dot q.K (fun j => Spec.Kyber.ntt (A i j)) (fun j => Spec.Kyber.ntt (S j)) n * r_inv
      rw [← this]
      exact hv
  obtain ⟨t', h8, ht'⟩ := polyVecAdd_rep (C := 4992) ht he' (by decide) (by decide)
  obtain ⟨t'', h9, ht''⟩ := polyVecReduce_rep (ht'.mono (Q := Is 32767) fun i _ v n _ hv => hv.mono (by omega))
  have h10 := polyVecToBytes_rep (hs'.mono (Q := Is 3328) fun i _ v n _ hv => hv.mono (by omega)) hsk skrest
  have hT : Reps (Is 3328) q.K t'' (fun i => Spec.Kyber.ntt (publicVec q.K A S E i)) := ht''.mono fun i _ v n _ hv => by
    rw [show publicVec q.K A S E i = fun n => Spec.Kyber.inner q.K (A i) S n + E i n from rfl, ntt_add, ntt_inner]
    exact hv.mono (by omega)
  have h11 := polyVecToBytes_rep hT (junk := pk.take (384 * q.K)) (by rw [List.length_take]; omega) (pk.drop (384 * q.K))
  rw [List.take_append_drop] at h11
  have hel : (encodeVec q.K (publicVec q.K A S E)).length = 384 * q.K := by
    rw [encodeVec, List.length_flatMap]
    simp [encodePoly_length, Nat.mul_comm]
  have h12 : packPk pk t'' (G f d) = .ok (encodeVec q.K (publicVec q.K A S E) ++ (G f d).take 32) := by
    have hc := copy_at (c := []) (a := encodeVec q.K (publicVec q.K A S E)) (b := pk.drop (384 * q.K)) (off := t''.length * 384) (n := 32) hG0 (by rw [hel, hT.1, Nat.mul_comm]) hρ.symm
      (by rw [List.length_drop, hρ]; omega)
    rw [List.append_nil, List.append_nil] at hc
    rw [packPk, h11, ok_bind]
    exact hc
  rw [keyPair, blit_zero d hd, ok_bind, h1, ok_bind, h2, ok_bind, h3, ok_bind, h4, ok_bind, h5, ok_bind, h6, ok_bind, h7, ok_bind, h8, ok_bind, h9, ok_bind, h10, ok_bind, h12, ok_bind]
  rfl

end Cex.Kyber
