import Verif.Dilithium.CodecProps
import Verif.Dilithium.SignLemmas

/-!
# `Sign` of Dilithium
-/

namespace Cex.Dilithium
open Cex Cex.Lattice Cex.Spec.Dilithium Cex.Keccak Finset

variable {P : List Byte → M (List Byte)} {f : List Byte → List Byte}

/-- The secret is small. -/
def SmallSecret (X : Signing) : Prop := Between X.s.K (-X.s.eta) X.s.eta X.s2

theorem SmallSecret.mul {X : Signing} (h : SmallSecret X) (hs : Std X.s) {x : List Byte} {c : Nat → Int} (hc : IsChallenge X.f X.s.tau x c) {i k : Nat} (hi : i < X.s.K) (hk : k < 256) :
    |mul c (X.s2 i) k| ≤ (X.s.beta : Int) := cs_norm hs.bounds.2.2.2.1 hc h hi hk

/-- The loop ends with an accepted attempt or goes on. -/
theorem signLoop_or {X : Signing} {pr : Params} (p : Perm P X.f) (hf : Facts pr X.s) {q : Signer} (hq : SRep X q) (fuel : Nat) {len : Nat} (hn : pr.sigSize ≤ len) :
    ∀ (n κ : Nat) (a : Attempt), AShape X.s len a → signLoop P pr fuel q n (κ % 65536) a = .error .diverges ∨
      ∃ a' κ' c h, signLoop P pr fuel q n (κ % 65536) a = .ok a' ∧ AShape X.s len a' ∧ κ ≤ κ' ∧ Holds a'.sig 0 (X.hash κ') ∧ IsChallenge X.f X.s.tau (X.hash κ') c ∧
        Accepted X.s (fun i k => centre (X.z κ' c i k)) h a' ∧ (SmallSecret X → h = X.h κ' c ∧ X.Accepts κ' c ∧ ∀ j, κ ≤ j → j < κ' → ∃ d, IsChallenge X.f X.s.tau (X.hash j) d ∧ ¬ X.Accepts j d)
  | 0, κ, a, _ => .inl rfl
  | n + 1, κ, a, ha => by
    obtain ⟨a1, e1, h1, hc1⟩ := commit_spec p hf hq hn ha κ
    rw [signLoop, e1, ok_bind]
    have hlen := hash_length p κ
    rcases challenge_or p fuel hlen (tau := X.s.tau) hf.std.bounds.2.2.2.1 with ⟨c, hc, hrun⟩ | hrun
    · have hch := hrun a1.cp a1.sig h1.cp hc1.hash
      rw [← hf.tau] at hch
      obtain ⟨a2, b, e2, h2, hsig, hacc, hsm⟩ := respond_spec hf hq h1 hc1 (isChallenge_range hc) hch
      rw [e2, ok_bind]
      dsimp only
      cases b with
      | true =>
        rw [if_pos rfl]
        right
        by_cases hss : SmallSecret X
        · obtain ⟨hA, hB⟩ := hsm fun i k hi hk => hss.mul hf.std hc hi hk
          exact ⟨a2, κ, c, X.h κ c, rfl, h2, le_refl κ, by rw [hsig]; exact hc1.hash, hc, hB rfl, fun _ => ⟨rfl, hA.mp rfl, fun j h1 h2 => by omega⟩⟩
        · obtain ⟨h, hA⟩ := hacc rfl
          exact ⟨a2, κ, c, h, rfl, h2, le_refl κ, by rw [hsig]; exact hc1.hash, hc, hA, fun hh => absurd hh hss⟩
      | false =>
        rw [if_neg (by simp), Nat.mod_add_mod]
        rcases signLoop_or p hf hq fuel hn n (κ + 1) a2 h2 with hd | ⟨a', κ', c', h', e, k1, k2, k3, k4, k5, k6⟩
        · exact .inl hd
        · refine .inr ⟨a', κ', c', h', e, k1, by omega, k3, k4, k5, fun hss => ?_⟩
          obtain ⟨m1, m2, m3⟩ := k6 hss
          refine ⟨m1, m2, fun j hj hlt => ?_⟩
          by_cases ej : j = κ
          · subst ej
            refine ⟨c, hc, fun hA => ?_⟩
            have := (hsm fun i k hi hk => hss.mul hf.std hc hi hk).1.mpr hA
            simp at this
          · exact m3 j (by omega) hlt
    · have hch := hrun a1.cp a1.sig h1.cp hc1.hash
      rw [← hf.tau] at hch
      rw [respond_diverges hch]
      exact .inl rfl

/-- With enough fuel the loop finds the first accepted attempt. -/
theorem signLoop_found {X : Signing} {pr : Params} (p : Perm P X.f) (hf : Facts pr X.s) {q : Signer} (hq : SRep X q) (hss : SmallSecret X) {fuel len κ' : Nat} (hn : pr.sigSize ≤ len) {cs : Nat → Nat → Int}
    (hcs : ∀ j, j ≤ κ' → IsChallenge X.f X.s.tau (X.hash j) (cs j) ∧ ∀ cp : List Int, cp.length = 256 → ∀ seed, Holds seed 0 (X.hash j) → polyChallenge P fuel cp seed X.s.tau = .ok (tab (cs j)))
    (hrej : ∀ j, j < κ' → ¬ X.Accepts j (cs j)) (hacc : X.Accepts κ' (cs κ')) :
    ∀ (n κ : Nat) (a : Attempt), AShape X.s len a → κ ≤ κ' → κ' - κ < n →
      ∃ a', signLoop P pr fuel q n (κ % 65536) a = .ok a' ∧ AShape X.s len a' ∧ Holds a'.sig 0 (X.hash κ') ∧ Accepted X.s (fun i k => centre (X.z κ' (cs κ') i k)) (X.h κ' (cs κ')) a'
  | 0, κ, a, _, _, hlt => by omega
  | n + 1, κ, a, ha, hle, hlt => by
    obtain ⟨a1, e1, h1, hc1⟩ := commit_spec p hf hq hn ha κ
    rw [signLoop, e1, ok_bind]
    obtain ⟨hc, hrun⟩ := hcs κ hle
    have hch := hrun a1.cp h1.cp a1.sig hc1.hash
    rw [← hf.tau] at hch
    obtain ⟨a2, b, e2, h2, hsig, _, hsm⟩ := respond_spec hf hq h1 hc1 (isChallenge_range hc) hch
    obtain ⟨hA, hB⟩ := hsm fun i k hi hk => hss.mul hf.std hc hi hk
    rw [e2, ok_bind]
    dsimp only
    by_cases ek : κ = κ'
    · subst ek
      obtain rfl := hA.mpr hacc
      rw [if_pos rfl]
      exact ⟨a2, rfl, h2, by rw [hsig]; exact hc1.hash, hB rfl⟩
    · have hb : b ≠ true := fun h => hrej κ (by omega) (hA.mp h)
      rw [if_neg hb, Nat.mod_add_mod]
      exact signLoop_found p hf hq hss hn hcs hrej hacc n (κ + 1) a2 h2 (by omega) (by omega)

/-! ## The secret key -/

/-- `UnpackSk` reads the parts of `x` from `sk`. -/
structure Reads (s : Parameters) (sk : List Byte) (x : SecretKey) : Prop where
  ρ : x.ρ.length = 32
  key : x.key.length = 32
  tr : x.tr.length = 48
  s1 : Between s.L (-4096) 4096 x.s1
  s2 : Between s.K (-4096) 4096 x.s2
  t0 : Between s.K (-4096) 4096 x.t0
  run : unpackSk (List.replicate 32 0) (List.replicate 48 0) (List.replicate 32 0) (zeroVec s.K) (zeroVec s.L) (zeroVec s.K) sk s.eta (32 * etaBits s.eta) 416 =
    .ok (x.ρ, x.tr, x.key, tabs s.K x.t0, tabs s.L x.s1, tabs s.K x.s2)

theorem reads_any {s : Parameters} (hs : Std s) {sk : List Byte} (h : sk.length = 112 + 32 * etaBits s.eta * s.L + 32 * etaBits s.eta * s.K + 416 * s.K) : ∃ x, Reads s sk x := by
  obtain ⟨a1, a2, r, rfl, l1, l2⟩ := split3 (n := 32) (m := 32) (by omega : _ ≤ sk.length)
  simp only [List.length_append] at h
  obtain ⟨a3, a4, r, rfl, l3, l4⟩ := split3 (n := 48) (m := 32 * etaBits s.eta * s.L) (by omega : _ ≤ r.length)
  simp only [List.length_append] at h
  obtain ⟨a5, a6, r, rfl, l5, l6⟩ := split3 (n := 32 * etaBits s.eta * s.K) (m := 416 * s.K) (by omega : _ ≤ r.length)
  simp only [List.length_append] at h
  obtain rfl : r = [] := List.eq_nil_of_length_eq_zero (by omega)
  have hb : ∀ w i, -4096 ≤ unpackBelow (etaBits s.eta) s.eta w i ∧ unpackBelow (etaBits s.eta) s.eta w i ≤ 4096 := by
    intro w i
    have := unpackBelow_range (d := etaBits s.eta) (c := s.eta) w i
    have h16 : (2 : Int) ^ etaBits s.eta ≤ 16 := by unfold etaBits; split <;> norm_num
    rcases hs.eta with e | e <;> omega
  refine ⟨⟨a1, a2, a3, _, _, _⟩, l1, l2, l3, ?_, ?_, ?_, unpackSk_spec hs.eta l1 l2 l3 List.length_replicate List.length_replicate List.length_replicate l4 l5 l6 (zeroVec_shape _) (zeroVec_shape _) (zeroVec_shape _) (by simp)⟩
  · exact fun i k _ _ => hb _ _
  · exact fun i k _ _ => hb _ _
  · intro i k _ _
    have := unpackBelow_range (d := 13) (c := 4096) (chunk 416 a6 i) k
    norm_num at this
    show -4096 ≤ unpackBelow 13 4096 (chunk 416 a6 i) k ∧ unpackBelow 13 4096 (chunk 416 a6 i) k ≤ 4096
    omega

theorem reads_bytes {s : Parameters} (hs : Std s) {x : SecretKey} (hx : x.Fits s) : Reads s (x.bytes s) x := by
  have h := (C68_sk hs.eta hx.ρ hx.key hx.tr (within_tabs hx.s1) (within_tabs hx.s2) (within_tabs hx.t0)).2 (List.replicate 32 0) (List.replicate 48 0) (List.replicate 32 0) (zeroVec s.K) (zeroVec s.L) (zeroVec s.K)
    List.length_replicate List.length_replicate List.length_replicate (zeroVec_shape _) (zeroVec_shape _) (zeroVec_shape _)
  have e : encSk s.K s.L s.eta x.ρ x.key x.tr (co (tabs s.L x.s1)) (co (tabs s.K x.s2)) (co (tabs s.K x.t0)) = x.bytes s := by
    unfold SecretKey.bytes encSk
    rw [flatMap_range_congr (K := s.L) (g := fun i => packBelow (etaBits s.eta) s.eta (x.s1 i)) fun i hi => packBelow_ext fun k hk => co_tabs hi hk,
      flatMap_range_congr (K := s.K) (g := fun i => packBelow (etaBits s.eta) s.eta (x.s2 i)) fun i hi => packBelow_ext fun k hk => co_tabs hi hk,
      flatMap_range_congr (K := s.K) (g := fun i => packBelow 13 4096 (x.t0 i)) fun i hi => packBelow_ext fun k hk => co_tabs hi hk]
  rw [e] at h
  have he : s.eta ≤ 4 := by rcases hs.eta with e | e <;> omega
  exact ⟨hx.ρ, hx.key, hx.tr, fun i k hi hk => by have := hx.s1 i k hi hk; omega, fun i k hi hk => by have := hx.s2 i k hi hk; omega, fun i k hi hk => by have := hx.t0 i k hi hk; omega, h⟩

/-! ## `Sign` -/

/-- What a key, a message and the matrix determine. -/
def signing (f : List Byte → List Byte) (s : Parameters) (x : SecretKey) (msg : List Byte) (a : Nat → Nat → Nat → F) : Signing :=
  ⟨f, s, a, x.s1, x.s2, x.t0, Fips202.shake f 136 (x.tr ++ msg) 48, Fips202.shake f 136 (x.key ++ Fips202.shake f 136 (x.tr ++ msg) 48) 48⟩

theorem vrep_small {K : Nat} {x : Nat → Nat → Int} (h : Between K (-4096) 4096 x) : ∃ v, polyVecNtt (tabs K x) = .ok v ∧ VRep (Is 67047424) K v (fun i => Spec.Dilithium.ntt (red (x i))) :=
  polyVecNtt_spec (B := 4096) (by norm_num) (vrep_tabs fun i k hi hk => ⟨by have := h i k hi hk; rw [abs_le]; omega, rfl⟩)

theorem signStart_spec (p : Perm P f) {s : Parameters} {pr : Params} (hf : Facts pr s) {sk : List Byte} {x : SecretKey} (hx : Reads s sk x) (fuel : Nat) (msg : List Byte) :
    (∀ mat a, expandMat P fuel (List.replicate s.K (zeroVec s.L)) x.ρ = .ok mat → MatRep s.K s.L mat a → ∃ q, signStart P pr fuel msg sk = .ok q ∧ SRep (signing f s x msg a) q) ∧
    (expandMat P fuel (List.replicate s.K (zeroVec s.L)) x.ρ = .error .diverges → signStart P pr fuel msg sk = .error .diverges) := by
  have e1 := hash2_spec p (x := x.tr) (b := msg) (y := msg) (off := 0) (len := msg.length) (n := 48) hx.tr (Holds.self msg) rfl (by decide) (List.replicate 48 0) [] List.length_replicate
  rw [List.append_nil, List.append_nil] at e1
  have lmu : (Fips202.shake f 136 (x.tr ++ msg) 48).length = 48 := shake_len p (r := 136) (by decide) (by decide) _
  generalize hmu : Fips202.shake f 136 (x.tr ++ msg) 48 = mu at e1 lmu
  have e2 : copy x.key 0 (List.replicate 80 0) 0 32 = .ok (x.key ++ List.replicate 48 0) := by
    have := copy_at (s := x.key) (a := []) (b := List.replicate 32 0) (c := List.replicate 48 0) (off := 0) (n := 32) (Holds.self x.key) rfl hx.key.symm (by rw [hx.key]; rfl)
    simpa using this
  have e3 : copy mu 0 (x.key ++ List.replicate 48 0) 32 48 = .ok (x.key ++ mu) := by
    have := copy_at (s := mu) (a := x.key) (b := List.replicate 48 0) (c := []) (off := 32) (n := 48) (Holds.self mu) hx.key.symm lmu.symm (by rw [lmu]; rfl)
    simpa using this
  have e4 : xof P (x.key ++ mu) 0 80 (List.replicate 48 0) 0 48 136 = .ok (Fips202.shake f 136 (x.key ++ mu) 48) :=
    xof_spec p (by rw [List.length_append, hx.key, lmu]) (by rw [List.length_append, hx.key, lmu]; norm_num)
  obtain ⟨v1, e5, h1⟩ := vrep_small hx.s1
  obtain ⟨v2, e6, h2⟩ := vrep_small hx.s2
  obtain ⟨v0, e7, h0⟩ := vrep_small hx.t0
  constructor
  · intro mat a hm hr
    refine ⟨⟨mat, v1, v2, v0, mu, Fips202.shake f 136 (x.key ++ mu) 48⟩, ?_, ⟨hr, h1, h2, h0, hmu.symm, by rw [signing, hmu]; exact lmu, by rw [signing, hmu]⟩⟩
    rw [signStart, hf.K, hf.L, hf.eta, hf.etaSize, hx.run, ok_bind]
    dsimp only
    rw [e1, ok_bind, e2, ok_bind, e3, ok_bind, e4, ok_bind, hm, ok_bind, e5, ok_bind, e6, ok_bind, e7, ok_bind]
    rfl
  · intro hd
    rw [signStart, hf.K, hf.L, hf.eta, hf.etaSize, hx.run, ok_bind]
    dsimp only
    rw [e1, ok_bind, e2, ok_bind, e3, ok_bind, e4, ok_bind, hd]
    rfl

theorem sign_out {s : Parameters} {pr : Params} (hf : Facts pr s) {a : Attempt} {msg c : List Byte} {z : Nat → Nat → Int} {h : Nat → Nat → Bool} (hl : a.sig.length = pr.sigSize + msg.length)
    (hc : c.length = 32) (hs : Holds a.sig 0 c) (ha : Accepted s z h a) :
    (do let sig ← packSig a.sig a.sig a.z a.h pr.K pr.omega pr.zSize pr.gamma1
        copy msg 0 sig pr.sigSize msg.length) = Except.ok (encSig s.K s.L s.gamma1 s.omega c z h ++ msg) := by
  obtain ⟨b1, b2, b3, b4, b5, b6, b7, b8, b9, b10⟩ := hf.std.bounds
  have e1 := packSig_spec (K := s.K) (L := s.L) (ω := s.omega) hf.std.gamma1 hc hs (z := z) (h := h) (hs := a.h)
    (fun i k hi hk => by have := ha.range i k hi hk; rw [abs_lt] at this; omega) ha.hs ha.hints hf.pos (a.sig.take pr.sigSize) (a.sig.drop pr.sigSize) (by rw [List.length_take, hf.sigSize]; rw [hf.sigSize] at hl; omega)
  rw [List.take_append_drop] at e1
  have hlen : (encSig s.K s.L s.gamma1 s.omega c z h).length = pr.sigSize := by
    unfold encSig packHint
    simp only [List.length_append, List.length_map, List.length_replicate, List.length_range, hc, flatMap_length (K := s.L) (L := 32 * zBits s.gamma1) (e := fun i => packBelow (zBits s.gamma1) s.gamma1 (z i)) fun i _ => packBelow_length _ _ _]
    have := ha.hints
    rw [hf.sigSize]
    omega
  rw [hf.K, hf.omega, hf.zSize, hf.gamma1, ha.zs, e1, ok_bind]
  have := copy_at (s := msg) (a := encSig s.K s.L s.gamma1 s.omega c z h) (b := a.sig.drop pr.sigSize) (c := []) (off := pr.sigSize) (n := msg.length) (Holds.self msg) hlen.symm rfl (by rw [List.length_drop]; omega)
  simpa using this

theorem encSig_length {s : Parameters} {pr : Params} (hf : Facts pr s) {c : List Byte} (hc : c.length = 32) (z : Nat → Nat → Int) {h : Nat → Nat → Bool} (hh : (allIndices h s.K).length ≤ s.omega) :
    (encSig s.K s.L s.gamma1 s.omega c z h).length = pr.sigSize := by
  unfold encSig packHint
  simp only [List.length_append, List.length_map, List.length_replicate, List.length_range, hc, flatMap_length (K := s.L) (L := 32 * zBits s.gamma1) (e := fun i => packBelow (zBits s.gamma1) s.gamma1 (z i)) fun i _ => packBelow_length _ _ _]
  rw [hf.sigSize]
  omega

/-- `Sign` gives the signature and the message, or goes on. -/
theorem sign_or (p : Perm P f) {s : Parameters} {pr : Params} (hf : Facts pr s) {sk : List Byte} {x : SecretKey} (hx : Reads s sk x) (fuel : Nat) {buf msg : List Byte} (hb : buf.length = pr.sigSize + msg.length) :
    (∃ sig, sign P pr fuel buf msg sk = .ok (sig ++ msg) ∧ sig.length = pr.sigSize ∧ (Between s.K (-s.eta) s.eta x.s2 → IsSignature f s x msg sig)) ∨ sign P pr fuel buf msg sk = .error .diverges := by
  obtain ⟨b1, b2, b3, b4, b5, b6, b7, b8, b9, b10⟩ := hf.std.bounds
  obtain ⟨hs1, hs2⟩ := signStart_spec p hf hx fuel msg
  rcases expand_or p fuel (K := s.K) (L := s.L) (by omega) (by omega) x.ρ with ⟨mat, a, e1, hm, hr⟩ | e1
  · obtain ⟨q, e2, hq⟩ := hs1 mat a e1 hr
    have hf' : Facts pr (signing f s x msg a).s := hf
    have p' : Perm P (signing f s x msg a).f := p
    have ha : AShape (signing f s x msg a).s (pr.sigSize + msg.length) ⟨buf, zeroVec pr.L, zeroVec pr.L, zeroVec pr.K, zeroVec pr.K, zeroVec pr.K, zeroVec pr.K, List.replicate 256 0⟩ := by
      rw [hf.K, hf.L]
      exact ⟨hb, zeroVec_shape _, zeroVec_shape _, zeroVec_shape _, zeroVec_shape _, zeroVec_shape _, zeroVec_shape _, List.length_replicate⟩
    rcases signLoop_or p' hf' hq fuel (by omega) fuel 0 _ ha with hd | ⟨a', κ, c, h, e3, h3, _, hh, hc, hacc, hsm⟩
    · right
      rw [sign, e2, ok_bind, show (0 : Nat) = 0 % 65536 from rfl, hd]
      rfl
    · left
      have hlen := hash_length p' κ
      refine ⟨_, ?_, encSig_length hf hlen (fun i k => centre ((signing f s x msg a).z κ c i k)) hacc.hints, fun hss => ?_⟩
      · rw [sign, e2, ok_bind, show (0 : Nat) = 0 % 65536 from rfl, e3, ok_bind]
        exact sign_out hf h3.sig hlen hh hacc
      · obtain ⟨rfl, hA, hrej⟩ := hsm hss
        exact ⟨a, _, _, κ, c, hm, rfl, rfl, _, rfl, fun j hj => hrej j (by omega) hj, hc, hA, rfl⟩
  · right
    rw [sign, hs2 e1]
    rfl

/-- When there is a signature, `Sign` finds it. -/
theorem sign_found (p : Perm P f) {s : Parameters} {pr : Params} (hf : Facts pr s) {sk : List Byte} {x : SecretKey} (hx : Reads s sk x) (hss : Between s.K (-s.eta) s.eta x.s2) {msg sig : List Byte}
    (h : IsSignature f s x msg sig) : ∃ F, ∀ fuel, F ≤ fuel → ∀ buf : List Byte, buf.length = pr.sigSize + msg.length → sign P pr fuel buf msg sk = .ok (sig ++ msg) := by
  obtain ⟨b1, b2, b3, b4, b5, b6, b7, b8, b9, b10⟩ := hf.std.bounds
  obtain ⟨a, μ, ρ', κ, c, hm, rfl, rfl, X, hX, hrej, hc, hacc, rfl⟩ := h
  replace hX : X = signing f s x msg a := hX
  subst hX
  have hf' : Facts pr (signing f s x msg a).s := hf
  have p' : Perm P (signing f s x msg a).f := p
  obtain ⟨F1, hF1⟩ := expand_enough p (K := s.K) (L := s.L) (by omega) (by omega) hm
  classical
  -- the challenges of the attempts
  obtain ⟨cs, hcs⟩ : ∃ cs : Nat → Nat → Int, ∀ j, j ≤ κ → IsChallenge f s.tau ((signing f s x msg a).hash j) (cs j) ∧ (j < κ → ¬ (signing f s x msg a).Accepts j (cs j)) ∧ (j = κ → cs j = c) := by
    refine ⟨fun j => if hj : j < κ then (hrej j hj).choose else c, fun j hj => ?_⟩
    by_cases hlt : j < κ
    · have e : (if hj : j < κ then (hrej j hj).choose else c) = (hrej j hlt).choose := dif_pos hlt
      simp only [e]
      exact ⟨(hrej j hlt).choose_spec.1, fun _ => (hrej j hlt).choose_spec.2, fun h => by omega⟩
    · obtain rfl : j = κ := by omega
      have e : (if hj : j < j then (hrej j hj).choose else c) = c := dif_neg (by omega)
      simp only [e]
      exact ⟨hc, fun h => by omega, fun _ => trivial⟩
  obtain ⟨F2, hF2⟩ := bound_exists (fun j fuel => ∀ cp : List Int, cp.length = 256 → ∀ seed, Holds seed 0 ((signing f s x msg a).hash j) → polyChallenge P fuel cp seed s.tau = .ok (tab (cs j))) (κ + 1)
    (fun j hj => polyChallenge_enough p (hash_length p' j) b4 (hcs j (by omega)).1)
  refine ⟨max (max F1 F2) (κ + 1), fun fuel hfuel buf hb => ?_⟩
  obtain ⟨mat, e1, hr⟩ := hF1 fuel (by omega)
  obtain ⟨q, e2, hq⟩ := (signStart_spec p hf hx fuel msg).1 mat a e1 hr
  have ha : AShape (signing f s x msg a).s (pr.sigSize + msg.length) ⟨buf, zeroVec pr.L, zeroVec pr.L, zeroVec pr.K, zeroVec pr.K, zeroVec pr.K, zeroVec pr.K, List.replicate 256 0⟩ := by
    rw [hf.K, hf.L]
    exact ⟨hb, zeroVec_shape _, zeroVec_shape _, zeroVec_shape _, zeroVec_shape _, zeroVec_shape _, zeroVec_shape _, List.length_replicate⟩
  have hκ := (hcs κ (le_refl κ)).2.2 rfl
  obtain ⟨a', e3, h3, hh, hA⟩ := signLoop_found p' hf' hq hss (len := pr.sigSize + msg.length) (by omega) (cs := cs) (κ' := κ) (fuel := fuel)
    (fun j hj => ⟨(hcs j hj).1, hF2 j (by omega) fuel (by omega)⟩) (fun j hj => (hcs j (by omega)).2.1 hj) (by rw [hκ]; exact hacc) fuel 0 _ ha (by omega) (by omega)
  rw [hκ] at hA
  rw [sign, e2, ok_bind, show (0 : Nat) = 0 % 65536 from rfl, e3, ok_bind]
  exact sign_out hf h3.sig (hash_length p' κ) hh hA

end Cex.Dilithium
