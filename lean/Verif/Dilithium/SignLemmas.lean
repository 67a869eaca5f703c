import Verif.Dilithium.SchemeLemmas

/-!
# The attempts of `Sign`
-/

namespace Cex.Dilithium
open Cex Cex.Lattice Cex.Spec.Dilithium Cex.Keccak Finset

variable {P : List Byte → M (List Byte)} {f : List Byte → List Byte}

/-! ## Hints -/

theorem allIndices_weight (h : Nat → Nat → Bool) (n : Nat) : (allIndices h (n + 1)).length = (allIndices h n).length + weight (h n) 256 := by
  rw [allIndices_succ, List.length_append, indices_length]

theorem allIndices_le (h : Nat → Nat → Bool) (n : Nat) : (allIndices h n).length ≤ 256 * n := by
  induction n with
  | zero => simp [allIndices]
  | succ n ih =>
    have : (indices (h n)).length ≤ 256 := by
      have := List.length_filter_le (h n) (List.range 256)
      rwa [List.length_range] at this
    rw [allIndices_weight, ← indices_length]
    omega

theorem allIndices_ext {h h' : Nat → Nat → Bool} {n : Nat} (e : ∀ i k, i < n → k < 256 → h i k = h' i k) : allIndices h n = allIndices h' n := by
  induction n with
  | zero => rfl
  | succ n ih =>
    rw [allIndices_succ, allIndices_succ, ih fun i k hi hk => e i k (by omega) hk]
    exact congrArg _ (List.filter_congr fun k hk => e n k (by omega) (List.mem_range.mp hk))

theorem Hints.ext {h : List Int} {b b' : Nat → Bool} (hh : Hints h b) (e : ∀ k, k < 256 → b k = b' k) : Hints h b' :=
  ⟨hh.1, fun k v hv => by rw [← e k (by rw [← hh.1]; exact (List.getElem?_eq_some_iff.mp hv).1)]; exact hh.2 k v hv⟩

theorem polyVecMakeHint_spec {K g : Nat} (hK : K ≤ 8) {h a0 : List (List Int)} {x0 : Nat → Nat → F} {x1 : Nat → Nat → Int} (hh : Shape K h) (h0 : VRep Can K a0 x0) {b : Nat → Nat → Bool}
    (hb : b = fun i k => decide (makeHint g ((x0 i k).val : Int) (x1 i k) ≠ 0)) :
    ∃ h', polyVecMakeHint h a0 (tabs K x1) g = .ok (h', (allIndices b K).length) ∧ Each (fun i y => Hints y (b i)) K h' := by
  obtain ⟨⟨s, n⟩, e, ⟨h1, h2, _⟩, h3⟩ := loopN_inv (f := fun i (s : List (List Int) × Nat) => do
      let (p, n) ← polyMakeHint (← rd s.1 i) (← rd a0 i) (← rd (tabs K x1) i) g
      let h ← wr s.1 i p
      return (h, (s.2 + (n % 4294967296).toNat) % 4294967296))
    (fun j s => (s.1.length = K ∧ (∀ i y, i < j → s.1[i]? = some y → Hints y (b i)) ∧ ∀ i y, j ≤ i → s.1[i]? = some y → y.length = 256) ∧ s.2 = (allIndices b j).length) K 0 (h, 0)
    (by
      rintro j ⟨s, n⟩ _ hlt ⟨⟨hl, hq, hp⟩, hn⟩
      simp only at hl hn
      have hj : j < s.length := by omega
      obtain ⟨aj, ea, ha⟩ := h0.get (i := j) (by omega)
      obtain ⟨p', e, hh'⟩ := polyMakeHint_spec (g := g) (h := s[j]) (a0 := aj) (a1 := tab (x1 j)) (x0 := fun k => ((x0 j k).val : Int)) (x1 := x1 j) (hp j _ (le_refl j) (List.getElem?_eq_getElem hj))
        (fun k hk => by obtain ⟨v, ev, _, hv⟩ := ha.get hk; rw [ev, hv]) (fun k hk => rd_tab hk)
      have hbj : (fun k => decide (makeHint g ((x0 j k).val : Int) (x1 j k) ≠ 0)) = b j := by rw [hb]
      rw [hbj] at e hh'
      have hw : weight (b j) 256 ≤ 256 := by
        have := List.length_filter_le (b j) (List.range 256)
        rw [← indices_length]
        rwa [List.length_range] at this
      have hle := allIndices_le b j
      refine ⟨(s.set j p', (allIndices b (j + 1)).length), ?_, set_mixed hl (by omega) hq hp hh', rfl⟩
      dsimp only
      rw [rd_ok hj, ok_bind, ea, ok_bind, rd_tabs x1 (by omega), ok_bind, e, ok_bind]
      dsimp only
      rw [wr_ok _ hj, ok_bind, pure_eq_ok, allIndices_weight, hn]
      have : ((weight (b j) 256 : Int) % 4294967296).toNat = weight (b j) 256 := by omega
      rw [this, Nat.mod_eq_of_lt (by omega)])
    ⟨⟨hh.1, fun i y hi => by omega, fun i y _ hy => hh.2 i y hy⟩, by simp [allIndices]⟩
  simp only [Nat.zero_add] at h1 h2 h3
  rw [polyVecMakeHint, hh.1, e, h3]
  exact ⟨s, rfl, h1, fun i y hy => h2 i y (by have := (List.getElem?_eq_some_iff.mp hy).1; omega) hy⟩

/-! ## Attempts -/

/-- What the signer holds. -/
structure SRep (X : Signing) (q : Signer) : Prop where
  mat : MatRep X.s.K X.s.L q.mat X.a
  s1 : VRep (Is 67047424) X.s.L q.s1 (fun i => Spec.Dilithium.ntt (red (X.s1 i)))
  s2 : VRep (Is 67047424) X.s.K q.s2 (fun i => Spec.Dilithium.ntt (red (X.s2 i)))
  t0 : VRep (Is 67047424) X.s.K q.t0 (fun i => Spec.Dilithium.ntt (red (X.t0 i)))
  mu : q.mu = X.μ
  muLen : X.μ.length = 48
  rhoprime : q.rhoprime = X.ρ'

/-- The variables have their sizes. -/
structure AShape (s : Parameters) (n : Nat) (a : Attempt) : Prop where
  sig : a.sig.length = n
  y : Shape s.L a.y
  z : Shape s.L a.z
  w : Shape s.K a.w
  w1 : Shape s.K a.w1
  w0 : Shape s.K a.w0
  h : Shape s.K a.h
  cp : a.cp.length = 256

/-- The state after the first part of attempt `κ`. -/
structure Committed (X : Signing) (κ : Nat) (a : Attempt) : Prop where
  y : a.y = tabs X.s.L fun i => mask X.f X.s.gamma1 X.ρ' (X.s.L * κ + i)
  w1 : a.w1 = tabs X.s.K fun i k => (Spec.Dilithium.decompose X.s.gamma2 (X.w κ i k).val).1
  w0 : a.w0 = tabs X.s.K fun i k => (Spec.Dilithium.decompose X.s.gamma2 (X.w κ i k).val).2
  hash : Holds a.sig 0 (X.hash κ)

theorem shape_tabs (K : Nat) (x : Nat → Nat → Int) : Shape K (tabs K x) := each_range fun _ _ => tab_length _

theorem hash_length {X : Signing} (p : Perm P X.f) (κ : Nat) : (X.hash κ).length = 32 := shake_len p (r := 136) (by decide) (by decide) _

theorem commit_spec {X : Signing} {pr : Params} (p : Perm P X.f) (hf : Facts pr X.s) {q : Signer} (hq : SRep X q) {n : Nat} (hn : pr.sigSize ≤ n) {a : Attempt} (ha : AShape X.s n a) (κ : Nat) :
    ∃ a', commit P pr q (κ % 65536) a = .ok a' ∧ AShape X.s n a' ∧ Committed X κ a' := by
  obtain ⟨b1, b2, b3, b4, b5, b6, b7, b8, b9, b10⟩ := hf.std.bounds
  have hg := hf.std.gamma
  have e1 := maskVec_spec p hf.std.gamma1 ha.y X.ρ' κ
  obtain ⟨z, e2, hz⟩ := polyVecNtt_spec (B := 524288) (K := X.s.L) (x := fun i => X.y κ i) (by norm_num)
    (vrep_tabs (K := X.s.L) (x := fun i => mask X.f X.s.gamma1 X.ρ' (X.s.L * κ + i)) (fun i k _ _ => ⟨by have := mask_range (f := X.f) hf.std.gamma1 X.ρ' (X.s.L * κ + i) k; rw [abs_le]; omega, rfl⟩))
  obtain ⟨w1, w2, w3, e3, e4, e5, hw⟩ := product_loop (x := fun i => X.y κ i) b1 b2 ha.w hq.mat hz (by norm_num)
  obtain ⟨w, e6, hw'⟩ := polyVecCaddQ_spec (hw.mono fun i k v _ _ h => h.mono (by norm_num))
  have e7 := polyVecDecompose_spec hg ha.w1 ha.w0 hw'
  have hlen : 32 * w1Bits X.s.gamma2 * X.s.K ≤ a.sig.length := by rw [ha.sig]; exact le_trans hf.w1Fits hn
  have e8 := packW1_spec (K := X.s.K) hg (x := fun i k => (Spec.Dilithium.decompose X.s.gamma2 (dot X.s.L X.a (fun i => X.y κ i) i k).val).1)
    (fun i k _ _ => by obtain ⟨h0, h1⟩ := val_range (dot X.s.L X.a (fun i => X.y κ i) i k); obtain ⟨p1, p2, _⟩ := decompose_parts hg h0 h1; exact ⟨p1, p2⟩)
    (a.sig.take (32 * w1Bits X.s.gamma2 * X.s.K)) (a.sig.drop (32 * w1Bits X.s.gamma2 * X.s.K)) (by rw [List.length_take]; omega)
  rw [List.take_append_drop] at e8
  have lenc : (encW1 X.s fun i k => highBits X.s.gamma2 (X.w κ i k).val).length = 32 * w1Bits X.s.gamma2 * X.s.K := flatMap_length fun i _ => packPlain_length _ _
  have h32 : 32 ≤ 32 * w1Bits X.s.gamma2 * X.s.K := by rcases hf.std with h | h | h <;> rw [h] <;> decide
  generalize henc : (encW1 X.s fun i k => highBits X.s.gamma2 (X.w κ i k).val) = enc at lenc
  replace e8 : polyVecPackW1 a.sig (tabs X.s.K fun i k => (Spec.Dilithium.decompose X.s.gamma2 (dot X.s.L X.a (fun i => X.y κ i) i k).val).1) (32 * w1Bits X.s.gamma2) X.s.gamma2
      = .ok (enc ++ a.sig.drop (32 * w1Bits X.s.gamma2 * X.s.K)) := by rw [e8, ← henc]; rfl
  have e9 := hash2_spec p (x := X.μ) (b := enc ++ a.sig.drop (32 * w1Bits X.s.gamma2 * X.s.K)) (y := enc) (off := 0) (len := X.s.K * (32 * w1Bits X.s.gamma2)) (n := 32) hq.muLen
    ⟨[], _, by rw [List.nil_append], rfl⟩ (by rw [lenc, Nat.mul_comm]) (by decide) (enc.take 32) (enc.drop 32 ++ a.sig.drop (32 * w1Bits X.s.gamma2 * X.s.K)) (by rw [List.length_take]; omega)
  rw [← List.append_assoc, List.take_append_drop] at e9
  have hash : Fips202.shake X.f 136 (X.μ ++ enc) 32 = X.hash κ := by rw [← henc]; rfl
  rw [hash] at e9
  refine ⟨⟨X.hash κ ++ (enc.drop 32 ++ a.sig.drop (32 * w1Bits X.s.gamma2 * X.s.K)), _, z, w, _, _, a.h, a.cp⟩, ?_, ⟨?_, shape_tabs _ _, hz.shape, hw'.shape, shape_tabs _ _, shape_tabs _ _, ha.h, ha.cp⟩, rfl, rfl, rfl, ⟨[], _, rfl, rfl⟩⟩
  · rw [commit, hf.gamma1, hf.gamma2, hf.w1Size, hf.K, hq.rhoprime, hq.mu, e1, ok_bind, e2, ok_bind, e3, ok_bind, e4, ok_bind, e5, ok_bind, e6, ok_bind, e7, ok_bind]
    dsimp only
    rw [e8, ok_bind, e9, ok_bind]
    rfl
  · simp only [List.length_append, List.length_drop, hash_length p]
    rw [ha.sig] at hlen ⊢
    omega

/-- What an accepted attempt leaves. -/
structure Accepted (s : Parameters) (z : Nat → Nat → Int) (h : Nat → Nat → Bool) (a : Attempt) : Prop where
  zs : a.z = tabs s.L z
  range : ∀ i k, i < s.L → k < 256 → |z i k| < (s.gamma1 : Int) - s.beta
  hs : Each (fun i y => Hints y (h i)) s.K a.h
  hints : (allIndices h s.K).length ≤ s.omega

theorem centre_of {K : Nat} {v : List (List Int)} {x : Nat → Nat → F} {B : Nat} (hB : B ≤ 1047552) (h : VRep (Is 6283009) K v x) (hn : ∀ i k, i < K → k < 256 → norm (x i k) < B) :
    VRep (fun w y => w = centre y ∧ |w| < B) K v x := h.mono fun i k w hi hk hw => by
  have := (norm_lt hw hB).mp (hn i k hi hk)
  exact ⟨centre_unique hw.2 (by omega), this⟩

theorem respond_spec {X : Signing} {pr : Params} (hf : Facts pr X.s) {q : Signer} (hq : SRep X q) {n fuel κ : Nat} {a : Attempt} (ha : AShape X.s n a) (hc : Committed X κ a) {c : Nat → Int}
    (hr : ∀ k, -1 ≤ c k ∧ c k ≤ 1) (hch : polyChallenge P fuel a.cp a.sig pr.tau = .ok (tab c)) :
    ∃ a' b, respond P pr fuel q a = .ok (a', b) ∧ AShape X.s n a' ∧ a'.sig = a.sig ∧
      (b = true → ∃ h, Accepted X.s (fun i k => centre (X.z κ c i k)) h a') ∧
      ((∀ i k, i < X.s.K → k < 256 → |mul c (X.s2 i) k| ≤ (X.s.beta : Int)) →
        (b = true ↔ X.Accepts κ c) ∧ (b = true → Accepted X.s (fun i k => centre (X.z κ c i k)) (X.h κ c) a')) := by
  obtain ⟨b1, b2, b3, b4, b5, b6, b7, b8, b9, b10⟩ := hf.std.bounds
  have hg := hf.std.gamma
  obtain ⟨cp, e1, hcp⟩ := ntt_rep (B := 1) (f := red c) (by norm_num) (rep_tab (x := c) (P := Is 1) fun k _ => ⟨by have := hr k; rw [abs_le]; omega, rfl⟩)
  obtain ⟨z1, z2, e2, e3, hz2⟩ := challenge_loop ha.z hcp hq.s1 (by norm_num)
  obtain ⟨z3, e4, hz3⟩ := polyVecAdd_spec (C := 4735488) (B := 524288) (v := a.y) (y := X.y κ) hz2.shape hz2
    (by rw [hc.y]; exact vrep_tabs fun i k _ _ => ⟨by have := mask_range (f := X.f) hf.std.gamma1 X.ρ' (X.s.L * κ + i) k; rw [abs_le]; omega, rfl⟩) (by norm_num) (by norm_num)
  obtain ⟨z4, e5, hz4⟩ := polyVecReduce_spec (hz3.mono fun i k v _ _ h => h.mono (by norm_num))
  replace hz4 : VRep (Is 6283009) X.s.L z4 (X.z κ c) := hz4.mono fun i k v _ _ h => by rw [Signing.z, add_comm]; exact h
  obtain ⟨bz, e6, hbz⟩ := polyVecChkNorm_spec hz4 (B := X.s.gamma1 - X.s.beta) (by omega)
  rw [respond, hch, ok_bind, e1, ok_bind, e2, ok_bind, e3, ok_bind, e4, ok_bind, e5, ok_bind, hf.gamma1, hf.gamma2, hf.beta, hf.omega, e6, ok_bind]
  cases bz with
  | true =>
    have hno : ¬ X.Accepts κ c := fun hA => by simpa using hbz.mpr hA.z
    rw [if_pos rfl]
    exact ⟨_, false, rfl, ⟨ha.sig, ha.y, hz4.shape, ha.w, ha.w1, ha.w0, ha.h, hcp.1⟩, rfl, fun h => by simp at h, fun _ => ⟨⟨fun h => by simp at h, fun h => absurd h hno⟩, fun h => by simp at h⟩⟩
  | false =>
    have hzn := hbz.mp rfl
    rw [if_neg (by simp)]
    obtain ⟨h1, h2, e7, e8, hh2⟩ := challenge_loop ha.h hcp hq.s2 (by norm_num)
    have hw0 : VRep (Is 261888) X.s.K a.w0 (fun i k => (((Spec.Dilithium.decompose X.s.gamma2 (X.w κ i k).val).2 : Int) : F)) := by
      rw [hc.w0]
      refine vrep_tabs fun i k _ _ => ⟨?_, rfl⟩
      obtain ⟨h0, h1⟩ := val_range (X.w κ i k)
      obtain ⟨_, _, p3, p4, _⟩ := decompose_parts hg h0 h1
      rw [abs_le]
      omega
    obtain ⟨w1, e9, hw1⟩ := polyVecSub_spec (C := 4473088) hw0.shape hw0 hh2 (by norm_num) (by norm_num)
    obtain ⟨w2, e10, hw2⟩ := polyVecReduce_spec (hw1.mono fun i k v _ _ h => h.mono (by norm_num))
    obtain ⟨bw, e11, hbw⟩ := polyVecChkNorm_spec hw2 (B := X.s.gamma2 - X.s.beta) (by omega)
    -- the two forms of the check of the low bits
    have hlow : (∀ i k, i < X.s.K → k < 256 → |mul c (X.s2 i) k| ≤ (X.s.beta : Int)) →
        ((∀ i k, i < X.s.K → k < 256 → norm ((((Spec.Dilithium.decompose X.s.gamma2 (X.w κ i k).val).2 : Int) : F) - mul (red c) (red (X.s2 i)) k) < X.s.gamma2 - X.s.beta) ↔
          ∀ i k, i < X.s.K → k < 256 → |(Spec.Dilithium.decompose X.s.gamma2 (X.r κ c i k).val).2| < (X.s.gamma2 : Int) - X.s.beta) := by
      intro hs2
      have key : ∀ i k, i < X.s.K → k < 256 → (norm ((((Spec.Dilithium.decompose X.s.gamma2 (X.w κ i k).val).2 : Int) : F) - mul (red c) (red (X.s2 i)) k) < X.s.gamma2 - X.s.beta ↔
          |(Spec.Dilithium.decompose X.s.gamma2 (X.r κ c i k).val).2| < (X.s.gamma2 : Int) - X.s.beta) := by
        intro i k hi hk
        obtain ⟨h0, h1⟩ := val_range (X.w κ i k)
        obtain ⟨_, _, p3, p4, _⟩ := decompose_parts hg h0 h1
        have hb := hs2 i k hi hk
        have hl := (low_bits hg (w := X.w κ i k) hb (by omega)).1
        rw [Signing.r, red_mul, ← hl, ← Int.cast_sub]
        rw [norm_lt (v := (Spec.Dilithium.decompose X.s.gamma2 (X.w κ i k).val).2 - mul c (X.s2 i) k) ⟨by rw [abs_le] at hb ⊢; omega, rfl⟩ (by omega), Nat.cast_sub (by omega)]
      exact ⟨fun h i k hi hk => (key i k hi hk).mp (h i k hi hk), fun h i k hi hk => (key i k hi hk).mpr (h i k hi hk)⟩
    rw [e7, ok_bind, e8, ok_bind, e9, ok_bind, e10, ok_bind, e11, ok_bind]
    cases bw with
    | true =>
      rw [if_pos rfl]
      refine ⟨_, false, rfl, ⟨ha.sig, ha.y, hz4.shape, ha.w, ha.w1, hw2.shape, hh2.shape, hcp.1⟩, rfl, fun h => by simp at h, fun hs2 => ⟨⟨fun h => by simp at h, fun hA => ?_⟩, fun h => by simp at h⟩⟩
      simpa using hbw.mpr ((hlow hs2).mpr hA.r0)
    | false =>
      have hwn := hbw.mp rfl
      rw [if_neg (by simp)]
      obtain ⟨g1, g2, e12, e13, hg2⟩ := challenge_loop hh2.shape hcp hq.t0 (by norm_num)
      obtain ⟨g3, e14, hg3⟩ := polyVecReduce_spec (hg2.mono fun i k v _ _ h => h.mono (by norm_num))
      replace hg3 : VRep (Is 6283009) X.s.K g3 (X.ct0 c) := hg3
      obtain ⟨bt, e15, hbt⟩ := polyVecChkNorm_spec hg3 (B := X.s.gamma2) (by omega)
      rw [e12, ok_bind, e13, ok_bind, e14, ok_bind, e15, ok_bind]
      cases bt with
      | true =>
        rw [if_pos rfl]
        refine ⟨_, false, rfl, ⟨ha.sig, ha.y, hz4.shape, ha.w, ha.w1, hw2.shape, hg3.shape, hcp.1⟩, rfl, fun h => by simp at h, fun hs2 => ⟨⟨fun h => by simp at h, fun hA => ?_⟩, fun h => by simp at h⟩⟩
        simpa using hbt.mpr hA.t0
      | false =>
        have htn := hbt.mp rfl
        rw [if_neg (by simp)]
        have hw3 := centre_of (by omega) hw2 hwn
        have hg4 := centre_of (by omega) hg3 htn
        obtain ⟨w3, e16, hw4⟩ := polyVecAdd_spec (C := 523776) hw2.shape (hw2.mono (Q' := Is 261888) fun i k v hi hk h => ⟨by have := (norm_lt h (by omega)).mp (hwn i k hi hk); omega, h.2⟩)
          (hg3.mono (Q' := Is 261888) fun i k v hi hk h => ⟨by have := (norm_lt h (by omega)).mp (htn i k hi hk); omega, h.2⟩) (by norm_num) (by norm_num)
        obtain ⟨w4, e17, hw5⟩ := polyVecCaddQ_spec (hw4.mono fun i k v _ _ h => h.mono (by norm_num))
        obtain ⟨hcode, hb⟩ : ∃ b : Nat → Nat → Bool, b = fun i k => decide (makeHint (X.s.gamma2 : Int) ((((((Spec.Dilithium.decompose X.s.gamma2 (X.w κ i k).val).2 : Int) : F) - mul (red c) (red (X.s2 i)) k) + X.ct0 c i k).val : Int)
          (Spec.Dilithium.decompose X.s.gamma2 (X.w κ i k).val).1 ≠ 0) := ⟨_, rfl⟩
        obtain ⟨hv, e18, hh⟩ := polyVecMakeHint_spec (g := X.s.gamma2) b3 hg3.shape hw5 (x1 := fun i k => (Spec.Dilithium.decompose X.s.gamma2 (X.w κ i k).val).1) hb
        rw [← hc.w1] at e18
        rw [e16, ok_bind, e17, ok_bind, e18, ok_bind]
        dsimp only
        have hzt : z4 = tabs X.s.L fun i k => centre (X.z κ c i k) := tabs_of_vrep (centre_of (by omega) hz4 hzn) fun w x h => h.1
        have hzr : ∀ i k, i < X.s.L → k < 256 → |centre (X.z κ c i k)| < (X.s.gamma1 : Int) - X.s.beta := fun i k hi hk => by
          rw [(centre_spec _).2.2]
          have := hzn i k hi hk
          omega
        have heq : (∀ i k, i < X.s.K → k < 256 → |mul c (X.s2 i) k| ≤ (X.s.beta : Int)) → ∀ i k, i < X.s.K → k < 256 → hcode i k = X.h κ c i k := by
          intro hs2 i k hi hk
          have h3 := ((hlow hs2).mp hwn) i k hi hk
          have h4 := (low_bits hg (w := X.w κ i k) (hs2 i k hi hk) (by omega)).2
          rw [← red_mul] at h4
          have h5 := h4 h3
          have h6 := (hint_code hg (r := X.r κ c i k) (ct := X.ct0 c i k) (by omega) (by have := htn i k hi hk; omega)).1
          have h7 : (((Spec.Dilithium.decompose X.s.gamma2 (X.r κ c i k).val).2 + centre (X.ct0 c i k) : Int) : F) =
              ((((Spec.Dilithium.decompose X.s.gamma2 (X.w κ i k).val).2 : Int) : F) - mul (red c) (red (X.s2 i)) k) + X.ct0 c i k := by
            rw [Signing.r, h5]
            push_cast
            rw [(centre_spec _).1, red_mul]
          have h8 : (Spec.Dilithium.decompose X.s.gamma2 (X.r κ c i k).val).1 = (Spec.Dilithium.decompose X.s.gamma2 (X.w κ i k).val).1 := by rw [Signing.r, h5]
          rw [h7, h8] at h6
          rw [Signing.h, h6, hb]
        have hsh : Shape X.s.K hv := Each.mono hh fun i y _ (h : Hints y (hcode i)) => h.1
        refine ⟨⟨a.sig, a.y, z4, a.w, a.w1, w4, hv, cp⟩, _, rfl, ⟨ha.sig, ha.y, hz4.shape, ha.w, ha.w1, hw5.shape, hsh, hcp.1⟩, rfl, fun h => ⟨hcode, hzt, hzr, hh, of_decide_eq_true h⟩, fun hs2 => ?_⟩
        have hE := allIndices_ext (heq hs2)
        refine ⟨⟨fun h => ⟨fun i k hi hk => hzn i k hi hk, (hlow hs2).mp hwn, htn, by rw [← hE]; exact of_decide_eq_true h⟩, fun hA => decide_eq_true (by rw [hE]; exact hA.hints)⟩,
          fun h => ⟨hzt, hzr, Each.mono hh fun i y hi hy => hy.ext (fun k hk => heq hs2 i k hi hk), by rw [← hE]; exact of_decide_eq_true h⟩⟩

theorem respond_diverges {pr : Params} {q : Signer} {fuel : Nat} {a : Attempt} (h : polyChallenge P fuel a.cp a.sig pr.tau = .error .diverges) : respond P pr fuel q a = .error .diverges := by
  rw [respond, h]
  rfl

end Cex.Dilithium
