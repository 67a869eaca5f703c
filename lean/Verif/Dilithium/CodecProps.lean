import Verif.Dilithium.KeyLemmas

/-!
# C68: the encodings of keys and signatures of Dilithium
-/

namespace Cex.Dilithium
open Cex Cex.Lattice Cex.Spec.Dilithium

/-- A vector of `K` polynomials with coefficients between `lo` and `hi`. -/
def Within (K : Nat) (lo hi : Int) (v : List (List Int)) : Prop := v.length = K ∧ ∀ p ∈ v, p.length = 256 ∧ ∀ x ∈ p, lo ≤ x ∧ x ≤ hi

/-- Coefficient `j` of polynomial `i`. -/
def co (v : List (List Int)) (i j : Nat) : Int := match v[i]? with | some p => (match p[j]? with | some x => x | none => 0) | none => 0

/-- The hints of a vector of zeros and ones. -/
def hintOf (v : List (List Int)) (i j : Nat) : Bool := decide (co v i j = 1)

theorem Within.eq_tabs {K : Nat} {lo hi : Int} {v : List (List Int)} (h : Within K lo hi v) : v = tabs K (co v) := by
  refine each_eq (g := fun i => tab (co v i)) ⟨h.1, fun i p hp => eq_tab (h.2 p (List.mem_of_getElem? hp)).1 fun j x hx => ?_⟩
  rw [co, hp]
  simp only [hx]

theorem Within.co {K : Nat} {lo hi : Int} {v : List (List Int)} (h : Within K lo hi v) {i j : Nat} (hi' : i < K) (hj : j < 256) : lo ≤ co v i j ∧ co v i j ≤ hi := by
  have hl : i < v.length := by rw [h.1]; exact hi'
  obtain ⟨h1, h2⟩ := h.2 v[i] (List.getElem_mem hl)
  have hl' : j < v[i].length := by rw [h1]; exact hj
  rw [Dilithium.co, List.getElem?_eq_getElem hl]
  simp only [List.getElem?_eq_getElem hl']
  exact h2 _ (List.getElem_mem hl')

theorem within_tabs {K : Nat} {lo hi : Int} {x : Nat → Nat → Int} (h : ∀ i j, i < K → j < 256 → lo ≤ x i j ∧ x i j ≤ hi) : Within K lo hi (tabs K x) := by
  refine ⟨tabs_length K x, fun p hp => ?_⟩
  obtain ⟨i, hi, rfl⟩ := List.mem_map.mp hp
  refine ⟨tab_length _, fun y hy => ?_⟩
  obtain ⟨j, hj, rfl⟩ := List.mem_map.mp hy
  exact h i j (List.mem_range.mp hi) (List.mem_range.mp hj)

theorem tabs_ext {K : Nat} {x y : Nat → Nat → Int} (h : ∀ i j, i < K → j < 256 → x i j = y i j) : tabs K x = tabs K y :=
  List.map_congr_left fun i hi => tab_ext fun j hj => h i j (List.mem_range.mp hi) hj

theorem co_tabs {K : Nat} {x : Nat → Nat → Int} {i j : Nat} (hi : i < K) (hj : j < 256) : co (tabs K x) i j = x i j := by
  rw [co, tabs, List.getElem?_map, List.getElem?_range hi]
  simp only [Option.map_some, tab_get hj]

theorem Within.hints {K : Nat} {v : List (List Int)} (h : Within K 0 1 v) : Each (fun i y => Hints y (hintOf v i)) K v := by
  refine ⟨h.1, fun i y hy => ⟨(h.2 y (List.mem_of_getElem? hy)).1, fun j x hx => ?_⟩⟩
  obtain ⟨h1, h2⟩ := (h.2 y (List.mem_of_getElem? hy)).2 x (List.mem_of_getElem? hx)
  rw [hintOf, Dilithium.co, hy]
  simp only [hx]
  by_cases e : x = 1
  · simp [e]
  · have : x = 0 := by omega
    simp [this]

/-- Vectors with the same hints are the same. -/
theorem hints_eq {K : Nat} {v w : List (List Int)} {h g : Nat → Nat → Bool} (hv : Each (fun i y => Hints y (h i)) K v) (hw : Each (fun i y => Hints y (g i)) K w)
    (e : ∀ i, i < K → indices (h i) = indices (g i)) : v = w := by
  have key : ∀ {v : List (List Int)} {h : Nat → Nat → Bool}, Each (fun i y => Hints y (h i)) K v → v = tabs K fun i j => if j ∈ indices (h i) then 1 else 0 := by
    intro v h hv
    refine each_eq ⟨hv.1, fun i y hy => eq_tab (hv.2 i y hy).1 fun j x hx => ?_⟩
    have hj : j < 256 := by rw [← (hv.2 i y hy).1]; exact (List.getElem?_eq_some_iff.mp hx).1
    rw [(hv.2 i y hy).2 j x hx]
    simp only [indices, List.mem_filter, List.mem_range, hj, true_and]
  rw [key hv, key hw]
  refine tabs_ext fun i j hi hj => ?_
  rw [e i hi]

/-- Hints give a vector of zeros and ones. -/
theorem within_hints {K : Nat} {v : List (List Int)} {h : Nat → Nat → Bool} (hv : Each (fun i y => Hints y (h i)) K v) : Within K 0 1 v := by
  refine ⟨hv.1, fun p hp => ?_⟩
  obtain ⟨i, hi⟩ := List.getElem?_of_mem hp
  refine ⟨(hv.2 i p hi).1, fun x hx => ?_⟩
  obtain ⟨j, hj⟩ := List.getElem?_of_mem hx
  rw [(hv.2 i p hi).2 j x hj]
  split <;> decide

theorem hintOf_indices {K : Nat} {v : List (List Int)} {h : Nat → Nat → Bool} (hv : Each (fun i y => Hints y (h i)) K v) {i : Nat} (hi : i < K) : indices (hintOf v i) = indices (h i) := by
  refine List.filter_congr fun j hj => ?_
  have hl : i < v.length := by rw [hv.1]; exact hi
  obtain ⟨h1, h2⟩ := hv.2 i v[i] (List.getElem?_eq_getElem hl)
  have hl' : j < v[i].length := by rw [h1]; exact List.mem_range.mp hj
  rw [hintOf, co, List.getElem?_eq_getElem hl]
  simp only [List.getElem?_eq_getElem hl']
  rw [h2 j _ (List.getElem?_eq_getElem hl')]
  cases h i j <;> simp

theorem unpackBelow_range {d : Nat} {c : Int} (w : List Byte) (i : Nat) : c - 2 ^ d < unpackBelow d c w i ∧ unpackBelow d c w i ≤ c := by
  have := number_lt d w i
  have e : (((2 ^ d : Nat) : Int)) = 2 ^ d := by push_cast; rfl
  rw [unpackBelow]
  omega

/-- **C68** (public keys): `PackPk` writes `ρ` and the 10-bit coefficients of `t₁` in order, over whatever the buffer held, and `UnpackPk` recovers both. -/
theorem C68_pk {K : Nat} {rho : List Byte} {t1 : List (List Int)} (hr : rho.length = 32) (ht : Within K 0 1023 t1) :
    (∀ pk : List Byte, pk.length = 32 + 320 * K → packPk pk rho t1 320 = .ok (encPk K rho (co t1))) ∧
    ∀ rho0 t0, rho0.length = 32 → Shape K t0 → unpackPk rho0 t0 (encPk K rho (co t1)) 320 = .ok (rho, t1) := by
  have hx : ∀ i j, i < K → j < 256 → 0 ≤ co t1 i j ∧ co t1 i j < 1024 := fun i j hi hj => by have := ht.co hi hj; omega
  constructor
  · intro pk hpk
    have := packPk_spec (rho := rho) hx pk [] (by omega)
    rwa [List.append_nil, List.append_nil, ← ht.eq_tabs] at this
  · intro rho0 t0 h0 hs
    rw [encPk, unpackPk_spec (rho := rho) (w := (List.range K).flatMap fun i => packPlain 10 (co t1 i)) hs (by omega) (flatMap_length fun i _ => packPlain_length _ _) (Holds.self _)]
    conv_rhs => rw [ht.eq_tabs]
    rw [tabs_ext fun i j hi hj => ?_]
    rw [chunk_flatMap (L := 320) (fun i _ => packPlain_length _ _) hi, unpack_packPlain (fun j hj => hx i j hi hj) hj]

/-- **C68** (public keys): every string of the right length is the encoding of what `UnpackPk` reads from it, and of nothing else. -/
theorem C68_pk_onto {K : Nat} {pk rho0 : List Byte} {t0 : List (List Int)} (hpk : pk.length = 32 + 320 * K) (h0 : rho0.length = 32) (hs : Shape K t0) :
    ∃ rho t1, unpackPk rho0 t0 pk 320 = .ok (rho, t1) ∧ rho.length = 32 ∧ Within K 0 1023 t1 ∧ encPk K rho (co t1) = pk ∧ packPk pk rho t1 320 = .ok pk := by
  have hw : (pk.drop 32).length = 320 * K := by rw [List.length_drop]; omega
  have hl : (pk.take 32).length = 32 := by rw [List.length_take]; omega
  have h := unpackPk_spec (rho0 := rho0) (rho := pk.take 32) (w := pk.drop 32) (pk := pk) hs (by omega) hw (by rw [List.take_append_drop]; exact Holds.self pk)
  have hwith : Within K 0 1023 (tabs K fun i => unpackPlain 10 (chunk 320 (pk.drop 32) i)) := within_tabs fun i j _ _ => by
    have := number_lt 10 (chunk 320 (pk.drop 32) i) j
    rw [unpackPlain]
    omega
  have he : encPk K (pk.take 32) (co (tabs K fun i => unpackPlain 10 (chunk 320 (pk.drop 32) i))) = pk := by
    rw [encPk, flatMap_range_congr fun i hi => ?_, flatMap_chunk hw, List.take_append_drop]
    rw [packPlain_ext fun j hj => co_tabs hi hj, pack_unpackPlain (chunk_length (by omega) hi)]
  refine ⟨_, _, h, hl, hwith, he, ?_⟩
  rw [(C68_pk hl hwith).1 pk hpk, he]

/-- **C68** (secret keys): `PackSk` writes `ρ`, the key, `tr`, and the coefficients of `s₁`, `s₂`, `t₀` in order, over whatever the buffer held, and `UnpackSk` recovers all six. -/
theorem C68_sk {K L eta : Nat} (he : eta = 2 ∨ eta = 4) {rho key tr : List Byte} {s1 s2 t0 : List (List Int)} (hr : rho.length = 32) (hk : key.length = 32) (htr : tr.length = 48)
    (h1 : Within L (-eta) eta s1) (h2 : Within K (-eta) eta s2) (h0 : Within K (-4095) 4096 t0) :
    (∀ sk : List Byte, sk.length = 112 + 32 * etaBits eta * L + 32 * etaBits eta * K + 416 * K →
      packSk sk rho key tr s1 s2 t0 eta (32 * etaBits eta) 416 = .ok (encSk K L eta rho key tr (co s1) (co s2) (co t0))) ∧
    ∀ r0 u0 k0 a b c, r0.length = 32 → u0.length = 48 → k0.length = 32 → Shape K a → Shape L b → Shape K c →
      unpackSk r0 u0 k0 a b c (encSk K L eta rho key tr (co s1) (co s2) (co t0)) eta (32 * etaBits eta) 416 = .ok (rho, tr, key, t0, s1, s2) := by
  have hb : (eta : Int) - -eta < 2 ^ etaBits eta := by rcases he with rfl | rfl <;> decide
  constructor
  · intro sk hsk
    have := packSk_spec he (rho := rho) (key := key) (tr := tr) (t0 := co t0) (fun i j hi hj => h1.co hi hj) (fun i j hi hj => h2.co hi hj)
      (fun i j hi hj => by have := h0.co hi hj; omega) sk (by omega)
    rwa [← h1.eq_tabs, ← h2.eq_tabs, ← h0.eq_tabs] at this
  · intro r0 u0 k0 a b c lr lu lk sa sb sc
    rw [encSk, unpackSk_spec he hr hk htr lr lk lu (w1 := (List.range L).flatMap fun i => packBelow (etaBits eta) eta (co s1 i)) (flatMap_length fun i _ => packBelow_length _ _ _)
      (w2 := (List.range K).flatMap fun i => packBelow (etaBits eta) eta (co s2 i)) (flatMap_length fun i _ => packBelow_length _ _ _)
      (w0 := (List.range K).flatMap fun i => packBelow 13 4096 (co t0 i)) (flatMap_length fun i _ => packBelow_length _ _ _) sb sc sa rfl]
    conv_rhs => rw [h1.eq_tabs, h2.eq_tabs, h0.eq_tabs]
    congr 5
    · refine tabs_ext fun i j hi hj => ?_
      rw [chunk_flatMap (L := 416) (fun i _ => packBelow_length _ _ _) hi, unpack_packBelow (fun j hj => by have := h0.co hi hj; omega) hj]
    · congr 1
      · refine tabs_ext fun i j hi hj => ?_
        rw [chunk_flatMap (fun i _ => packBelow_length _ _ _) hi, unpack_packBelow (fun j hj => by have := h1.co hi hj; omega) hj]
      · refine tabs_ext fun i j hi hj => ?_
        rw [chunk_flatMap (fun i _ => packBelow_length _ _ _) hi, unpack_packBelow (fun j hj => by have := h2.co hi hj; omega) hj]

/-- **C68** (commitments): `PolyVecPackW1` writes the coefficients of the high bits in order, over the start of the buffer and nothing after it. -/
theorem C68_w1 {K : Nat} {g : Int} (hg : g = 95232 ∨ g = 261888) {w1 : List (List Int)} (h : Within K 0 (8380416 / (2 * g) - 1) w1) (junk post : List Byte) (hj : junk.length = 32 * w1Bits g * K) :
    polyVecPackW1 (junk ++ post) w1 (32 * w1Bits g) g = .ok (((List.range K).flatMap fun i => packPlain (w1Bits g) (co w1 i)) ++ post) := by
  have := packW1_spec hg (x := co w1) (fun i j hi hj => by have := h.co hi hj; omega) junk post hj
  rwa [← h.eq_tabs] at this

/-- The three parameter sets: `γ₁`, `K`, `L`, `ω`. -/
def SigSet (gamma1 K L ω : Nat) : Prop := (gamma1, K, L, ω) = (2 ^ 17, 4, 4, 80) ∨ (gamma1, K, L, ω) = (2 ^ 19, 6, 5, 55) ∨ (gamma1, K, L, ω) = (2 ^ 19, 8, 7, 75)

/-- What a signature holds: a challenge, a response, and at most `ω` hints. -/
structure SigParts (gamma1 K L ω : Nat) (c : List Byte) (z h : List (List Int)) : Prop where
  /-- The length of the challenge. -/
  clen : c.length = 32
  /-- The range of the response. -/
  range : Within L (1 - gamma1) gamma1 z
  /-- Hints are bits. -/
  bits : Within K 0 1 h
  /-- Their number. -/
  weight : (allIndices (hintOf h) K).length ≤ ω

theorem SigSet.facts {gamma1 K L ω : Nat} (hs : SigSet gamma1 K L ω) : (gamma1 = 2 ^ 17 ∨ gamma1 = 2 ^ 19) ∧ ω < 256 ∧
    (32 + L * (32 * zBits gamma1) + ω ≤ 2420 ∨ 2420 < 32 + L * (32 * zBits gamma1)) ∧ (gamma1 : Int) - (1 - gamma1) < 2 ^ zBits gamma1 ∧ (gamma1 : Int) - 2 ^ zBits gamma1 = -gamma1 := by
  rcases hs with h | h | h <;> obtain ⟨rfl, rfl, rfl, rfl⟩ : gamma1 = _ ∧ K = _ ∧ L = _ ∧ ω = _ := by simpa only [Prod.mk.injEq] using h
  all_goals decide

/-- **C68** (signatures): `PackSig` writes the challenge, the response and the hints over whatever the start of the buffer held and nothing after it; the
challenge may be in the buffer already. `UnpackSig` accepts that and recovers all three. -/
theorem C68_sig {gamma1 K L ω : Nat} (hs : SigSet gamma1 K L ω) {c : List Byte} {z h : List (List Int)} (hp : SigParts gamma1 K L ω c z h) :
    (∀ cs junk post : List Byte, Holds cs 0 c → junk.length = 32 + 32 * zBits gamma1 * L + (ω + K) →
      packSig (junk ++ post) cs z h K ω (32 * zBits gamma1) gamma1 = .ok (encSig K L gamma1 ω c (co z) (hintOf h) ++ post)) ∧
    ∀ c0 z0 h0 post, c0.length = 32 → Shape L z0 → Shape K h0 →
      unpackSig c0 z0 h0 (encSig K L gamma1 ω c (co z) (hintOf h) ++ post) (32 * zBits gamma1) gamma1 ω = .ok (c, z, h, false) := by
  obtain ⟨f1, f2, f3, f4, _⟩ := hs.facts
  constructor
  · intro cs junk post hcs hj
    have := packSig_spec f1 hp.clen hcs (z := co z) (fun i j hi hj => by have := hp.range.co hi hj; omega) hp.bits.hints hp.weight f3 junk post hj
    rwa [← hp.range.eq_tabs] at this
  · intro c0 z0 h0 post l0 sz sh
    obtain ⟨hs', bad, u1, u2, u3⟩ := unpackSig_spec (c := c) (zw := (List.range L).flatMap fun i => packBelow (zBits gamma1) gamma1 (co z i)) (hw := packHint ω K (hintOf h))
      (sig := encSig K L gamma1 ω c (co z) (hintOf h) ++ post) f1 f2 l0 hp.clen (flatMap_length fun i _ => packBelow_length _ _ _) (packHint_length hp.weight) sz sh ⟨[], post, by rw [encSig]; rfl, rfl⟩
    have hbad : bad = false := by
      cases bad with
      | false => rfl
      | true => exact absurd ⟨hintOf h, hp.weight, rfl⟩ (u2 rfl)
    obtain ⟨g, ⟨hg1, hg2⟩, hg3⟩ := u3 hbad
    rw [u1, hbad]
    congr 3
    · conv_rhs => rw [hp.range.eq_tabs]
      refine tabs_ext fun i j hi hj => ?_
      rw [chunk_flatMap (fun i _ => packBelow_length _ _ _) hi, unpack_packBelow (fun j hj => by have := hp.range.co hi hj; omega) hj]
    · congr 1
      exact hints_eq hg3 hp.bits.hints fun i hi => packHint_inj f2 hg1 hp.weight hg2.symm hi

/-- **C68** (signatures are canonical): for every buffer of sufficient length `UnpackSig` ends without undefined behaviour. It accepts exactly if the start of
the buffer is the encoding of some signature; what it returns then encodes to exactly that. So no two encodings give the same parts. -/
theorem C68_sig_canonical {gamma1 K L ω : Nat} (hs : SigSet gamma1 K L ω) {sig post c0 : List Byte} {z0 h0 : List (List Int)} (hl : sig.length = 32 + 32 * zBits gamma1 * L + (ω + K))
    (l0 : c0.length = 32) (sz : Shape L z0) (sh : Shape K h0) :
    ∃ c z h bad, unpackSig c0 z0 h0 (sig ++ post) (32 * zBits gamma1) gamma1 ω = .ok (c, z, h, bad) ∧
      (bad = false → SigParts gamma1 K L ω c z h ∧ encSig K L gamma1 ω c (co z) (hintOf h) = sig) ∧
      (bad = true → ∀ c z h, SigParts gamma1 K L ω c z h → encSig K L gamma1 ω c (co z) (hintOf h) ≠ sig) := by
  obtain ⟨f1, f2, f3, f4, f5⟩ := hs.facts
  obtain ⟨c, zw, hw, rfl, lc, lz⟩ := split3 (n := 32) (m := 32 * zBits gamma1 * L) (by omega : _ ≤ sig.length)
  have lh : hw.length = ω + K := by simp only [List.length_append] at hl; omega
  obtain ⟨hs', bad, u1, u2, u3⟩ := unpackSig_spec f1 f2 l0 lc lz lh sz sh (sig := c ++ (zw ++ hw) ++ post) ⟨[], post, by simp, rfl⟩
  refine ⟨c, _, hs', bad, u1, fun hb => ?_, fun hb c' z' h' hp e => ?_⟩
  · obtain ⟨g, ⟨hg1, hg2⟩, hg3⟩ := u3 hb
    have hall : allIndices (hintOf hs') K = allIndices g K := allIndices_congr fun i hi => hintOf_indices hg3 hi
    have hz : Within L (1 - gamma1) gamma1 (tabs L fun i => unpackBelow (zBits gamma1) gamma1 (chunk (32 * zBits gamma1) zw i)) := within_tabs fun i j _ _ => by
      have := unpackBelow_range (d := zBits gamma1) (c := gamma1) (chunk (32 * zBits gamma1) zw i) j
      omega
    refine ⟨⟨lc, hz, within_hints hg3, by rw [hall]; exact hg1⟩, ?_⟩
    have hcnt : ∀ n, n ≤ K → allIndices (hintOf hs') n = allIndices g n := fun n hn => allIndices_congr fun i hi => hintOf_indices hg3 (by omega)
    have hpk : packHint ω K (hintOf hs') = packHint ω K g := by
      rw [packHint, packHint, hall]
      congr 1
      exact List.map_congr_left fun i hi => by rw [hcnt (i + 1) (by have := List.mem_range.mp hi; omega)]
    rw [encSig, hpk, ← hg2, flatMap_range_congr fun i hi => ?_, flatMap_chunk lz, List.append_assoc]
    rw [packBelow_ext fun j hj => co_tabs hi hj, pack_unpackBelow (chunk_length (by omega) hi)]
  · refine u2 hb ⟨hintOf h', hp.weight, ?_⟩
    rw [encSig, List.append_assoc] at e
    have e1 := (List.append_inj e (by rw [hp.clen, lc])).2
    exact (List.append_inj e1 (by rw [lz]; exact flatMap_length fun i _ => packBelow_length _ _ _)).2.symm

/-! ## Not vacuous -/

/-- A response at both ends of its range and three hints. -/
def exampleZ (gamma1 L : Nat) : List (List Int) := tabs L fun i j => if i = j then gamma1 else 1 - gamma1

/-- The hints of the example. -/
def exampleH (K : Nat) : List (List Int) := tabs K fun i j => if i = 1 ∧ (j = 3 ∨ j = 255) ∨ i = 3 ∧ j = 0 then 1 else 0

theorem exampleH_indices {K : Nat} (hK : 4 ≤ K) : (allIndices (hintOf (exampleH K)) K).length = 3 := by
  have h : ∀ i, i < K → indices (hintOf (exampleH K) i) = if i = 1 then [3, 255] else if i = 3 then [0] else [] := by
    intro i hi
    have e : indices (hintOf (exampleH K) i) = indices fun j => decide (i = 1 ∧ (j = 3 ∨ j = 255) ∨ i = 3 ∧ j = 0) := indices_congr fun j hj => by
      rw [hintOf, exampleH, co_tabs hi hj]
      split <;> simp_all
    rw [e]
    by_cases h1 : i = 1
    · subst h1; decide
    · by_cases h3 : i = 3
      · subst h3; decide
      · simp [h1, h3, indices]
  have g : ∀ n, 4 ≤ n → n ≤ K → (allIndices (hintOf (exampleH K)) n).length = 3 := by
    intro n h4
    induction n, h4 using Nat.le_induction with
    | base =>
      intro h4
      rw [allIndices_succ, allIndices_succ, allIndices_succ, allIndices_succ, h 0 (by omega), h 1 (by omega), h 2 (by omega), h 3 (by omega)]
      rfl
    | succ n hn ih =>
      intro hk
      rw [allIndices_succ, List.length_append, ih (by omega), h n (by omega), if_neg (by omega), if_neg (by omega)]
      rfl
  exact g K hK (le_refl K)

/-- Signatures with three hints exist for each parameter set. -/
theorem example_parts {gamma1 K L ω : Nat} (hs : SigSet gamma1 K L ω) (c : List Byte) (hc : c.length = 32) : SigParts gamma1 K L ω c (exampleZ gamma1 L) (exampleH K) := by
  have hk : 4 ≤ K ∧ 3 ≤ ω ∧ 1 ≤ gamma1 := by
    rcases hs with h | h | h <;> obtain ⟨rfl, rfl, rfl, rfl⟩ : gamma1 = _ ∧ K = _ ∧ L = _ ∧ ω = _ := by simpa only [Prod.mk.injEq] using h
    all_goals decide
  refine ⟨hc, within_tabs fun i j _ _ => ?_, within_tabs fun i j _ _ => ?_, by rw [exampleH_indices hk.1]; exact hk.2.1⟩
  · split <;> omega
  · split <;> decide

/-- A repeated position, positions in decreasing order, a decreasing count, a count above `ω` and a byte after the last position: none of these is an encoding. -/
def refusals : M (List Bool) := do
  let run := fun (idx cnt : List Byte) => do
    let sig := idx ++ List.replicate (80 - idx.length) 0 ++ cnt
    let r ← unhints sig 0 80 2 0 [[], []] 0
    if r.2.2 then return true else padLoop sig 0 (80 - r.2.1) r.2.1
  return [← run [3, 3] [2, 2], ← run [3, 2] [2, 2], ← run [3, 7] [2, 1], ← run [] [81, 81], ← run [3, 7, 9] [2, 2], ← run [7, 3] [1, 2]]

example : refusals = .ok [true, true, true, true, true, false] := by decide +kernel

end Cex.Dilithium
