import Verif.Dilithium.SignProof

/-!
# `Verify` of Dilithium
-/

namespace Cex.Dilithium
open Cex Cex.Lattice Cex.Spec.Dilithium Cex.Keccak Finset

variable {P : List Byte → M (List Byte)} {f : List Byte → List Byte}

theorem useHint_range {g : Int} (hg : Gamma g) (b : Bool) {a : Int} (h0 : 0 ≤ a) (h1 : a < 8380417) : 0 ≤ Spec.Dilithium.useHint g b a ∧ Spec.Dilithium.useHint g b a < 8380416 / (2 * g) := by
  obtain ⟨p1, p2, _⟩ := decompose_parts hg h0 h1
  unfold Spec.Dilithium.useHint
  generalize Spec.Dilithium.decompose g a = d at *
  obtain ⟨d1, d0⟩ := d
  simp only at *
  rcases hg with rfl | rfl <;> norm_num at * <;> (try split) <;> (try split) <;> omega

theorem Std.sigSet {s : Parameters} (h : Std s) : SigSet s.gamma1 s.K s.L s.omega := by
  rcases h with rfl | rfl | rfl
  · exact .inl rfl
  · exact .inr (.inl rfl)
  · exact .inr (.inr rfl)

/-- The hash that `Verify` compares. -/
def check (f : List Byte → List Byte) (s : Parameters) (pk msg : List Byte) (t1 z : Nat → Nat → Int) (h : Nat → Nat → Bool) (a : Nat → Nat → Nat → F) (c : Nat → Int) : List Byte :=
  Fips202.shake f 136 (Fips202.shake f 136 (Fips202.shake f 136 pk 48 ++ msg) 48 ++
    encW1 s fun i k => Spec.Dilithium.useHint s.gamma2 (h i k) (dot s.L a (fun j => red (z j)) i k - mul (red c) (fun k => red (t1 i) k * 8192) k).val) 32

theorem check_congr {s : Parameters} {pk msg : List Byte} {t1 t1' z z' : Nat → Nat → Int} {h h' : Nat → Nat → Bool} {a a' : Nat → Nat → Nat → F} {c c' : Nat → Int}
    (ht : ∀ i k, i < s.K → k < 256 → t1 i k = t1' i k) (hz : ∀ i k, i < s.L → k < 256 → z i k = z' i k) (hh : ∀ i k, i < s.K → k < 256 → h i k = h' i k)
    (ha : ∀ i j k, i < s.K → j < s.L → k < 256 → a i j k = a' i j k) (hc : c = c') : check f s pk msg t1 z h a c = check f s pk msg t1' z' h' a' c' := by
  subst hc
  unfold check
  rw [encW1_ext fun i k hi hk => ?_]
  rw [hh i k hi hk, dot_congr (fun j k hj hk => ha i j k hi hj hk) (fun j k hj hk => by simp only [red]; rw [hz j k hj hk]) k,
    mul_congr (fun _ _ => rfl) (fun k hk => by simp only [red]; rw [ht i k hi hk]) k]
  rfl

/-- The steps of `Verify` after the signature was read. -/
theorem verify_tail (p : Perm P f) {s : Parameters} {pr : Params} (hf : Facts pr s) (fuel : Nat) {pk rho c sg m buf : List Byte} {t1 z : Nat → Nat → Int} {h : Nat → Nat → Bool} {hs : List (List Int)}
    (hpk : pk.length = pr.pkSize) (hsg : sg.length = pr.sigSize) (hm : buf.length = m.length) (hc : c.length = 32) (ht : Between s.K 0 1023 t1)
    (hz : ∀ i k, i < s.L → k < 256 → |z i k| ≤ (s.gamma1 : Int)) (hh : Each (fun i y => Hints y (h i)) s.K hs)
    (e1 : unpackPk (List.replicate 32 0) (zeroVec s.K) pk 320 = .ok (rho, tabs s.K t1))
    (e2 : unpackSig (List.replicate 32 0) (zeroVec s.L) (zeroVec s.K) (sg ++ m) (32 * zBits s.gamma1) s.gamma1 s.omega = .ok (c, tabs s.L z, hs, false)) :
    (¬ (∀ i k, i < s.L → k < 256 → |z i k| < (s.gamma1 : Int) - s.beta) ∧ verify P pr fuel buf (sg ++ m) pk = .ok (false, buf)) ∨
    ((∀ i k, i < s.L → k < 256 → |z i k| < (s.gamma1 : Int) - s.beta) ∧
      (∀ cp mat a, polyChallenge P fuel (List.replicate 256 0) c s.tau = .ok (tab cp) → (∀ k, -1 ≤ cp k ∧ cp k ≤ 1) → expandMat P fuel (List.replicate s.K (zeroVec s.L)) rho = .ok mat → MatRep s.K s.L mat a →
        verify P pr fuel buf (sg ++ m) pk = .ok (if c = check f s pk m t1 z h a cp then (true, m) else (false, buf))) ∧
      (polyChallenge P fuel (List.replicate 256 0) c s.tau = .error .diverges → verify P pr fuel buf (sg ++ m) pk = .error .diverges) ∧
      ∀ cp, polyChallenge P fuel (List.replicate 256 0) c s.tau = .ok (tab cp) → expandMat P fuel (List.replicate s.K (zeroVec s.L)) rho = .error .diverges → verify P pr fuel buf (sg ++ m) pk = .error .diverges) := by
  obtain ⟨b1, b2, b3, b4, b5, b6, b7, b8, b9, b10⟩ := hf.std.bounds
  have hg := hf.std.gamma
  have hzr : VRep (Is 524288) s.L (tabs s.L z) (fun j => red (z j)) := vrep_tabs fun i k hi hk => ⟨by have := hz i k hi hk; omega, rfl⟩
  obtain ⟨b, e3, hb⟩ := polyVecChkNorm_spec (hzr.mono fun i k v _ _ h => h.mono (by norm_num)) (B := s.gamma1 - s.beta) (by omega)
  have hnorm : (∀ i k, i < s.L → k < 256 → norm (red (z i) k) < s.gamma1 - s.beta) ↔ ∀ i k, i < s.L → k < 256 → |z i k| < (s.gamma1 : Int) - s.beta := by
    have key : ∀ i k, i < s.L → k < 256 → (norm (red (z i) k) < s.gamma1 - s.beta ↔ |z i k| < (s.gamma1 : Int) - s.beta) := fun i k hi hk => by
      rw [norm_lt (x := red (z i) k) (v := z i k) ⟨by have := hz i k hi hk; omega, rfl⟩ (by omega), Nat.cast_sub (by omega)]
    exact ⟨fun h i k hi hk => (key i k hi hk).mp (h i k hi hk), fun h i k hi hk => (key i k hi hk).mpr (h i k hi hk)⟩
  rw [hnorm] at hb
  have hv0 : (sg ++ m).length ≥ pr.sigSize := by rw [List.length_append]; omega
  have hlen : (sg ++ m).length - pr.sigSize = m.length := by rw [List.length_append]; omega
  have hhold : Holds (sg ++ m) pr.sigSize m := ⟨sg, [], by simp, hsg⟩
  have hverify : ∀ r, (do
      if ← polyVecChkNorm (tabs s.L z) (s.gamma1 - s.beta) then return (false, buf)
      else do
        let mu ← Keccak.xof P pk 0 pr.pkSize (List.replicate 48 0) 0 48 136
        let mu ← hash2 P mu (sg ++ m) pr.sigSize m.length mu 48
        let cp ← polyChallenge P fuel (List.replicate 256 0) c s.tau
        let mat ← expandMat P fuel (List.replicate s.K (zeroVec s.L)) rho
        let z ← polyVecNtt (tabs s.L z)
        let w1 ← matrixLoop (zeroVec s.K) mat z
        let cp ← ntt cp
        let t1 ← polyVecShiftL (tabs s.K t1)
        let t1 ← polyVecNtt t1
        let t1 ← polyVecPointwise t1 cp t1
        let w1 ← polyVecSub w1 w1 t1
        let w1 ← polyVecReduce w1
        let w1 ← polyVecInvNtt w1
        let w1 ← polyVecCaddQ w1
        let w1 ← polyVecUseHint w1 w1 hs s.gamma2
        let b ← polyVecPackW1 (List.replicate (s.K * (32 * w1Bits s.gamma2)) 0) w1 (32 * w1Bits s.gamma2) s.gamma2
        let c2 ← hash2 P mu b 0 b.length (List.replicate 32 0) 32
        if c = c2 then do
          let msg ← copy (sg ++ m) pr.sigSize buf 0 m.length
          return (true, msg)
        else return (false, buf) : M (Bool × List Byte)) = r → verify P pr fuel buf (sg ++ m) pk = r := by
    intro r hr
    rw [verify, if_pos hv0]
    simp only []
    rw [hlen, hf.K, hf.L, hf.zSize, hf.gamma1, hf.gamma2, hf.omega, hf.beta, hf.tau, hf.w1Size, e1, ok_bind]
    dsimp only
    rw [e2, ok_bind]
    dsimp only
    rw [if_neg (by simp)]
    exact hr
  cases b with
  | true =>
    left
    refine ⟨fun hall => by simpa using hb.mpr hall, hverify _ ?_⟩
    rw [e3, ok_bind, if_pos rfl]
    rfl
  | false =>
    right
    refine ⟨hb.mp rfl, ?_⟩
    have lpk : (Fips202.shake f 136 pk 48).length = 48 := shake_len p (r := 136) (by decide) (by decide) _
    have e4 : xof P pk 0 pr.pkSize (List.replicate 48 0) 0 48 136 = .ok (Fips202.shake f 136 pk 48) := xof_spec p hpk.symm (by rw [hpk]; exact hf.small)
    have e5 := hash2_spec p (x := Fips202.shake f 136 pk 48) (b := sg ++ m) (y := m) (off := pr.sigSize) (len := m.length) (n := 48) lpk hhold rfl (by decide) (Fips202.shake f 136 pk 48) [] lpk
    rw [List.append_nil, List.append_nil] at e5
    have lmu : (Fips202.shake f 136 (Fips202.shake f 136 pk 48 ++ m) 48).length = 48 := shake_len p (r := 136) (by decide) (by decide) _
    refine ⟨fun cp mat a hch hcp hmat hrep => hverify _ ?_, fun hd => hverify _ ?_, fun cp hch hd => hverify _ ?_⟩
    · obtain ⟨z', e6, hz'⟩ := polyVecNtt_spec (by norm_num) hzr
      obtain ⟨w1, e7, hw1⟩ := matrixLoop_spec (x := fun j => red (z j)) b1 b2 (zeroVec_shape s.K) hrep hz' (by norm_num)
      obtain ⟨cp', e8, hcp'⟩ := ntt_rep (B := 1) (f := red cp) (by norm_num) (rep_tab (x := cp) (P := Is 1) fun k _ => ⟨by have := hcp k; rw [abs_le]; omega, rfl⟩)
      obtain ⟨v1, e9, hv1⟩ := polyVecShiftL_spec ht
      obtain ⟨v2, e10, hv2⟩ := polyVecNtt_spec (by norm_num) hv1
      obtain ⟨v3, e11, hv3⟩ := polyVecPointwise_spec hv2.shape hcp' hv2 (by norm_num)
      obtain ⟨w2, e12, hw2⟩ := polyVecSub_spec (C := 67043328) hw1.shape hw1 hv3 (by norm_num) (by norm_num)
      obtain ⟨w3, e13, hw3⟩ := polyVecReduce_spec (hw2.mono fun i k v _ _ h => h.mono (by norm_num))
      obtain ⟨w4, e14, hw4⟩ := polyVecInvNtt_spec (x := fun i k => dot s.L a (fun j => red (z j)) i k - mul (red cp) (fun k => red (t1 i) k * 8192) k) (hw3.mono fun i k v _ _ h => h.mono (by norm_num))
        (fun i k _ _ => by
          rw [ntt_sub, ntt_mul, sub_mul])
      obtain ⟨w5, e15, hw5⟩ := polyVecCaddQ_spec (hw4.mono fun i k v _ _ h => h.mono (by norm_num))
      have e16 := polyVecUseHint_spec hg hw5.shape hw5 hh
      have e17 := packW1_spec (K := s.K) hg (x := fun i k => Spec.Dilithium.useHint s.gamma2 (h i k) (dot s.L a (fun j => red (z j)) i k - mul (red cp) (fun k => red (t1 i) k * 8192) k).val)
        (fun i k _ _ => by obtain ⟨h0, h1⟩ := val_range (dot s.L a (fun j => red (z j)) i k - mul (red cp) (fun k => red (t1 i) k * 8192) k); exact useHint_range hg _ h0 h1)
        (List.replicate (s.K * (32 * w1Bits s.gamma2)) 0) [] (by rw [List.length_replicate, Nat.mul_comm])
      rw [List.append_nil, List.append_nil] at e17
      have e18 := hash2_spec p (x := Fips202.shake f 136 (Fips202.shake f 136 pk 48 ++ m) 48) (off := 0) (n := 32) lmu
        (Holds.self (encW1 s fun i k => Spec.Dilithium.useHint s.gamma2 (h i k) (dot s.L a (fun j => red (z j)) i k - mul (red cp) (fun k => red (t1 i) k * 8192) k).val)) rfl (by decide) (List.replicate 32 0) [] List.length_replicate
      rw [List.append_nil, List.append_nil] at e18
      rw [e3, ok_bind, if_neg (by simp), e4, ok_bind, e5, ok_bind, hch, ok_bind, hmat, ok_bind, e6, ok_bind, e7, ok_bind, e8, ok_bind, e9, ok_bind, e10, ok_bind, e11, ok_bind, e12, ok_bind, e13, ok_bind, e14, ok_bind,
        e15, ok_bind, e16, ok_bind, e17, ok_bind]
      show (do
        let c2 ← hash2 P _ (encW1 s _) 0 (encW1 s _).length _ 32
        if c = c2 then do
          let msg ← copy (sg ++ m) pr.sigSize buf 0 m.length
          return (true, msg)
        else return (false, buf) : M (Bool × List Byte)) = _
      rw [e18, ok_bind]
      show (if c = check f s pk m t1 z h a cp then _ else _) = _
      split
      · rw [copy_whole hhold rfl hm, ok_bind]
        rfl
      · rfl
    · rw [e3, ok_bind, if_neg (by simp), e4, ok_bind, e5, ok_bind, hd]
      rfl
    · rw [e3, ok_bind, if_neg (by simp), e4, ok_bind, e5, ok_bind, hch, ok_bind, hd]
      rfl

/-- The parts that make a signature valid are those that the code reads. -/
theorem valid_parts (p : Perm P f) {s : Parameters} (hst : Std s) {pk sg m : List Byte} (hv : Valid f s pk m sg) {rho c : List Byte} {t1 z hs : List (List Int)} {bad : Bool}
    (e1 : unpackPk (List.replicate 32 0) (zeroVec s.K) pk 320 = .ok (rho, t1))
    (e2 : unpackSig (List.replicate 32 0) (zeroVec s.L) (zeroVec s.K) (sg ++ m) (32 * zBits s.gamma1) s.gamma1 s.omega = .ok (c, z, hs, bad)) :
    bad = false ∧ (∀ i k, i < s.L → k < 256 → |co z i k| < (s.gamma1 : Int) - s.beta) ∧ ∃ a cp, IsMatrix f s.K s.L rho a ∧ IsChallenge f s.tau c cp ∧ c = check f s pk m (co t1) (co z) (hintOf hs) a cp := by
  obtain ⟨b1, b2, b3, b4, b5, b6, b7, b8, b9, b10⟩ := hst.bounds
  obtain ⟨ρ, T, ct, Z, H, a, cp, hρ, hT, hpk, hct, hZ, hH, hsg, hmat, hch, hcheck⟩ := hv
  have hco : encPk s.K ρ (co (tabs s.K T)) = pk := by
    rw [hpk]
    unfold encPk
    rw [flatMap_range_congr (K := s.K) (g := fun i => packPlain 10 (T i)) fun i hi => packPlain_ext fun k hk => co_tabs hi hk]
  have u1 := (C68_pk hρ (within_tabs hT)).2 (List.replicate 32 0) (zeroVec s.K) List.length_replicate (zeroVec_shape _)
  rw [hco, e1] at u1
  obtain ⟨rfl, rfl⟩ : rho = ρ ∧ t1 = tabs s.K T := by simpa using u1
  -- the hints as numbers
  have hE : Each (fun i y => Hints y (H i)) s.K (tabs s.K fun i k => if H i k then 1 else 0) := each_range fun i hi => ⟨tab_length _, fun k v hv => by
    have hk : k < 256 := by rw [← tab_length (fun k => if H i k then (1 : Int) else 0)]; exact (List.getElem?_eq_some_iff.mp hv).1
    rw [tab_get hk] at hv
    exact (Option.some.inj hv).symm⟩
  have hHo : ∀ i k, i < s.K → k < 256 → hintOf (tabs s.K fun i k => if H i k then 1 else 0) i k = H i k := fun i k hi hk => by
    rw [hintOf, co_tabs hi hk]
    cases H i k <;> simp
  have hp : SigParts s.gamma1 s.K s.L s.omega ct (tabs s.L Z) (tabs s.K fun i k => if H i k then 1 else 0) :=
    ⟨hct, within_tabs fun i k hi hk => by have := hZ i k hi hk; rw [abs_lt] at this; omega, within_hints hE, by rw [allIndices_ext hHo]; exact hH⟩
  have hsg' : encSig s.K s.L s.gamma1 s.omega ct (co (tabs s.L Z)) (hintOf (tabs s.K fun i k => if H i k then 1 else 0)) = sg := by
    rw [hsg]
    unfold encSig packHint
    rw [flatMap_range_congr (K := s.L) (g := fun i => packBelow (zBits s.gamma1) s.gamma1 (Z i)) fun i hi => packBelow_ext fun k hk => co_tabs hi hk, allIndices_ext hHo]
    congr 2
    refine List.map_congr_left fun i hi => ?_
    rw [allIndices_ext fun j k hj hk => hHo j k (by have := List.mem_range.mp hi; omega) hk]
  have u2 := (C68_sig hst.sigSet hp).2 (List.replicate 32 0) (zeroVec s.L) (zeroVec s.K) m List.length_replicate (zeroVec_shape _) (zeroVec_shape _)
  rw [hsg', e2] at u2
  obtain ⟨rfl, rfl, rfl, rfl⟩ : c = ct ∧ z = tabs s.L Z ∧ hs = _ ∧ bad = false := by simpa using u2
  refine ⟨rfl, fun i k hi hk => by rw [co_tabs hi hk]; exact hZ i k hi hk, a, cp, hmat, hch, ?_⟩
  rw [check_congr (fun i k hi hk => co_tabs hi hk) (fun i k hi hk => co_tabs hi hk) hHo (fun _ _ _ _ _ _ => rfl) rfl]
  exact hcheck

/-- The parts that the code reads from a key and a signature. -/
theorem reads_sig {s : Parameters} {pr : Params} (hf : Facts pr s) {pk sg : List Byte} (hpk : pk.length = pr.pkSize) (hsg : sg.length = pr.sigSize) (m : List Byte) :
    ∃ rho t1 c z hs bad, unpackPk (List.replicate 32 0) (zeroVec s.K) pk 320 = .ok (rho, t1) ∧ rho.length = 32 ∧ Within s.K 0 1023 t1 ∧ encPk s.K rho (co t1) = pk ∧
      unpackSig (List.replicate 32 0) (zeroVec s.L) (zeroVec s.K) (sg ++ m) (32 * zBits s.gamma1) s.gamma1 s.omega = .ok (c, z, hs, bad) ∧
      (bad = false → SigParts s.gamma1 s.K s.L s.omega c z hs ∧ encSig s.K s.L s.gamma1 s.omega c (co z) (hintOf hs) = sg) := by
  obtain ⟨rho, t1, h1, h2, h3, h4, _⟩ := C68_pk_onto (K := s.K) (by rw [hpk, hf.pkSize]) (rho0 := List.replicate 32 0) List.length_replicate (zeroVec_shape s.K)
  obtain ⟨c, z, hs, bad, h5, h6, _⟩ := C68_sig_canonical hf.std.sigSet (sig := sg) (post := m) (c0 := List.replicate 32 0) (by rw [hsg, hf.sigSize]) List.length_replicate (zeroVec_shape _) (zeroVec_shape _)
  exact ⟨rho, t1, c, z, hs, bad, h1, h2, h3, h4, h5, h6⟩

/-- `Verify` accepts exactly the valid signatures, or goes on. -/
theorem verify_or (p : Perm P f) {s : Parameters} {pr : Params} (hf : Facts pr s) (fuel : Nat) {pk sg m buf : List Byte} (hpk : pk.length = pr.pkSize) (hsg : sg.length = pr.sigSize) (hm : buf.length = m.length) :
    (verify P pr fuel buf (sg ++ m) pk = .ok (true, m) ∧ Valid f s pk m sg) ∨ (verify P pr fuel buf (sg ++ m) pk = .ok (false, buf) ∧ ¬ Valid f s pk m sg) ∨ verify P pr fuel buf (sg ++ m) pk = .error .diverges := by
  obtain ⟨b1, b2, b3, b4, b5, b6, b7, b8, b9, b10⟩ := hf.std.bounds
  obtain ⟨rho, t1, c, z, hs, bad, e1, hr, ht, hepk, e2, hsig⟩ := reads_sig hf hpk hsg m
  cases bad with
  | true =>
    right; left
    refine ⟨?_, fun hv => by simpa using (valid_parts p hf.std hv e1 e2).1⟩
    have hv0 : (sg ++ m).length ≥ pr.sigSize := by rw [List.length_append]; omega
    rw [verify, if_pos hv0]
    simp only []
    rw [hf.K, hf.L, hf.zSize, hf.gamma1, hf.omega, e1, ok_bind]
    dsimp only
    rw [e2, ok_bind]
    dsimp only
    rw [if_pos rfl]
    rfl
  | false =>
    obtain ⟨hp, hesg⟩ := hsig rfl
    have e1' := e1
    have e2' := e2
    rw [ht.eq_tabs] at e1'
    rw [hp.range.eq_tabs] at e2'
    rcases verify_tail p hf fuel hpk hsg hm hp.clen (fun i k hi hk => ht.co hi hk) (fun i k hi hk => by have := hp.range.co hi hk; rw [abs_le]; omega) hp.bits.hints e1' e2' with ⟨hn, h⟩ | ⟨hz, h1, h2, h3⟩
    · exact .inr (.inl ⟨h, fun hv => hn (valid_parts p hf.std hv e1 e2).2.1⟩)
    · rcases challenge_or p fuel hp.clen (tau := s.tau) b4 with ⟨cp, hc, hrun⟩ | hrun
      · have hch := hrun (List.replicate 256 0) c List.length_replicate (Holds.self c)
        rcases expand_or p fuel (K := s.K) (L := s.L) (by omega) (by omega) rho with ⟨mat, a, e3, hmat, hrep⟩ | e3
        · have hv := h1 cp mat a hch (isChallenge_range hc) e3 hrep
          by_cases hcheck : c = check f s pk m (co t1) (co z) (hintOf hs) a cp
          · rw [if_pos hcheck] at hv
            exact .inl ⟨hv, rho, co t1, c, co z, hintOf hs, a, cp, hr, fun i k hi hk => ht.co hi hk, hepk.symm, hp.clen, hz, hp.weight, hesg.symm, hmat, hc, hcheck⟩
          · rw [if_neg hcheck] at hv
            refine .inr (.inl ⟨hv, fun hV => ?_⟩)
            obtain ⟨_, _, a', cp', hmat', hc', hcheck'⟩ := valid_parts p hf.std hV e1 e2
            exact hcheck (hcheck'.trans (check_congr (fun _ _ _ _ => rfl) (fun _ _ _ _ => rfl) (fun _ _ _ _ => rfl) (fun i j k hi hj hk => matrix_unique p hmat' hmat hi hj hk) (isChallenge_unique hc' hc)))
        · exact .inr (.inr (h3 cp hch e3))
      · exact .inr (.inr (h2 (hrun (List.replicate 256 0) c List.length_replicate (Holds.self c))))

/-- A valid signature is accepted. -/
theorem verify_found (p : Perm P f) {s : Parameters} {pr : Params} (hf : Facts pr s) {pk sg m : List Byte} (hpk : pk.length = pr.pkSize) (hsg : sg.length = pr.sigSize) (hv : Valid f s pk m sg) :
    ∃ F, ∀ fuel, F ≤ fuel → ∀ buf : List Byte, buf.length = m.length → verify P pr fuel buf (sg ++ m) pk = .ok (true, m) := by
  obtain ⟨b1, b2, b3, b4, b5, b6, b7, b8, b9, b10⟩ := hf.std.bounds
  obtain ⟨rho, t1, c, z, hs, bad, e1, hr, ht, hepk, e2, hsig⟩ := reads_sig hf hpk hsg m
  obtain ⟨rfl, hz, a, cp, hmat, hc, hcheck⟩ := valid_parts p hf.std hv e1 e2
  obtain ⟨hp, hesg⟩ := hsig rfl
  rw [ht.eq_tabs] at e1
  rw [hp.range.eq_tabs] at e2
  obtain ⟨F1, hF1⟩ := expand_enough p (K := s.K) (L := s.L) (by omega) (by omega) hmat
  obtain ⟨F2, hF2⟩ := polyChallenge_enough p hp.clen b4 hc
  refine ⟨max F1 F2, fun fuel hfuel buf hm => ?_⟩
  obtain ⟨mat, e3, hrep⟩ := hF1 fuel (by omega)
  have hch := hF2 fuel (by omega) (List.replicate 256 0) List.length_replicate c (Holds.self c)
  rcases verify_tail p hf fuel hpk hsg hm hp.clen (fun i k hi hk => ht.co hi hk) (fun i k hi hk => by have := hp.range.co hi hk; rw [abs_le]; omega) hp.bits.hints e1 e2 with ⟨hn, _⟩ | ⟨_, h1, _, _⟩
  · exact absurd hz hn
  · have := h1 cp mat a hch (isChallenge_range hc) e3 hrep
    rwa [if_pos hcheck] at this

theorem verify_short {pr : Params} (fuel : Nat) {msg sig : List Byte} (h : sig.length < pr.sigSize) (pk : List Byte) : verify P pr fuel msg sig pk = .ok (false, msg) := by
  rw [verify, if_neg (by omega)]
  rfl

end Cex.Dilithium
