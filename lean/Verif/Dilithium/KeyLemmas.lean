import Verif.Dilithium.HintLemmas

/-!
# Proofs about the encodings of keys and signatures of Dilithium
-/

namespace Cex.Dilithium
open Cex Cex.Lattice Cex.Spec.Dilithium

/-- A vector with the given coefficients. -/
def tabs (K : Nat) (x : Nat → Nat → Int) : List (List Int) := (List.range K).map fun i => tab (x i)

theorem tabs_length (K : Nat) (x : Nat → Nat → Int) : (tabs K x).length = K := by rw [tabs, List.length_map, List.length_range]

theorem rd_tabs {K i : Nat} (x : Nat → Nat → Int) (hi : i < K) : rd (tabs K x) i = .ok (tab (x i)) := by
  rw [rd_ok (by rw [tabs_length]; exact hi)]
  congr 1
  simp [tabs]

/-- Polynomials of any contents. -/
def Shape (K : Nat) (a : List (List Int)) : Prop := Each (fun _ p => p.length = 256) K a

theorem tabs_shape (K : Nat) (x : Nat → Nat → Int) : Shape K (tabs K x) := each_range fun i _ => tab_length (x i)

theorem vecLoop_tabs {K : Nat} {op : Nat → List Int → M (List Int)} {x : Nat → Nat → Int} (h : ∀ i p, i < K → p.length = 256 → op i p = .ok (tab (x i))) {r : List (List Int)} (hr : Shape K r) :
    vecLoop K op r = .ok (tabs K x) := by
  obtain ⟨r', h1, h2⟩ := vecLoop_spec (Q := fun i y => y = tab (x i)) (fun i p hi hp => ⟨_, h i p hi hp, rfl⟩) hr
  rw [h1, each_eq h2]
  rfl

/-- Splitting off the start of a buffer. -/
theorem split3 {b : List Byte} {n m : Nat} (h : n + m ≤ b.length) : ∃ a j c, b = a ++ (j ++ c) ∧ a.length = n ∧ j.length = m := by
  refine ⟨b.take n, (b.drop n).take m, (b.drop n).drop m, by simp [List.take_append_drop], ?_, ?_⟩
  · rw [List.length_take]; omega
  · rw [List.length_take, List.length_drop]; omega

theorem packW1_spec {K : Nat} {g : Int} (hg : Gamma g) {x : Nat → Nat → Int} (hx : ∀ i j, i < K → j < 256 → 0 ≤ x i j ∧ x i j < 8380416 / (2 * g)) (junk post : List Byte)
    (hj : junk.length = 32 * w1Bits g * K) :
    polyVecPackW1 (junk ++ post) (tabs K x) (32 * w1Bits g) g = .ok (((List.range K).flatMap fun i => packPlain (w1Bits g) (x i)) ++ post) := by
  rw [polyVecPackW1, tabs_length]
  refine packVec (L := 32 * w1Bits g) (e := fun i => packPlain (w1Bits g) (x i)) [] (fun i _ => packPlain_length _ _) (fun i hi pre junk post hp hj => ?_) junk hj post
  rw [rd_tabs x hi, ok_bind]
  exact polyW1Pack_tab hg (fun j hj => hx i j hi hj) pre junk post (by rw [hp, List.length_nil, Nat.zero_add, Nat.mul_comm]) hj

theorem packPk_spec {K : Nat} {rho : List Byte} {x : Nat → Nat → Int} (hx : ∀ i j, i < K → j < 256 → 0 ≤ x i j ∧ x i j < 1024) (junk post : List Byte) (hj : junk.length = rho.length + 320 * K) :
    packPk (junk ++ post) rho (tabs K x) 320 = .ok (encPk K rho x ++ post) := by
  obtain ⟨a, j, c, rfl, ha, hjl⟩ := split3 (n := rho.length) (m := 320 * K) (by omega : _ ≤ junk.length)
  obtain rfl : c = [] := List.eq_nil_of_length_eq_zero (by simp only [List.length_append] at hj; omega)
  have e1 : a ++ (j ++ []) ++ post = [] ++ a ++ (j ++ post) := by simp
  rw [packPk, e1, copy_at (s := rho) (a := []) (off := 0) (Holds.self rho) rfl rfl ha, ok_bind, tabs_length, List.nil_append,
    packVec (L := 320) (e := fun i => packPlain 10 (x i)) rho (fun i _ => packPlain_length _ _) (fun i hi pre junk post hp hj => by
      rw [rd_tabs x hi, ok_bind]
      exact polyT1Pack_tab (fun j hj => hx i j hi hj) pre junk post (by rw [hp, Nat.mul_comm]) hj) j hjl post, encPk, List.append_assoc]

theorem unpackPk_spec {K : Nat} {rho0 rho w pk : List Byte} {t : List (List Int)} (ht : Shape K t) (hr : rho0.length = rho.length) (hw : w.length = 320 * K) (hb : Holds pk 0 (rho ++ w)) :
    unpackPk rho0 t pk 320 = .ok (rho, tabs K fun i => unpackPlain 10 (chunk 320 w i)) := by
  obtain ⟨pre, post, e, hp⟩ := hb
  have h1 : Holds pk 0 rho := ⟨pre, w ++ post, by rw [e]; simp, hp⟩
  have h2 : Holds pk rho.length w := ⟨pre ++ rho, post, by rw [e]; simp, by rw [List.length_append, hp]; omega⟩
  rw [unpackPk, copy_whole h1 hr hr, ok_bind, ht.1, vecLoop_tabs (x := fun i => unpackPlain 10 (chunk 320 w i)) (fun i p hi hp => by
    rw [Nat.mul_comm]
    exact polyT1Unpack_tab (chunk_length (by omega) hi) (chunk_holds (by omega) hi h2) hp) ht, ok_bind]
  rfl

theorem packSk_spec {K L eta : Nat} (he : eta = 2 ∨ eta = 4) {rho key tr : List Byte} {s1 s2 t0 : Nat → Nat → Int} (h1 : ∀ i j, i < L → j < 256 → -(eta : Int) ≤ s1 i j ∧ s1 i j ≤ eta)
    (h2 : ∀ i j, i < K → j < 256 → -(eta : Int) ≤ s2 i j ∧ s2 i j ≤ eta) (h0 : ∀ i j, i < K → j < 256 → -4096 < t0 i j ∧ t0 i j ≤ 4096) (sk : List Byte)
    (hj : sk.length = rho.length + key.length + tr.length + 32 * etaBits eta * L + 32 * etaBits eta * K + 416 * K) :
    packSk sk rho key tr (tabs L s1) (tabs K s2) (tabs K t0) eta (32 * etaBits eta) 416 = .ok (encSk K L eta rho key tr s1 s2 t0) := by
  obtain ⟨a1, a2, r, rfl, l1, l2⟩ := split3 (n := rho.length) (m := key.length) (by omega : _ ≤ sk.length)
  simp only [List.length_append] at hj
  obtain ⟨a3, a4, r, rfl, l3, l4⟩ := split3 (n := tr.length) (m := 32 * etaBits eta * L) (by omega : _ ≤ r.length)
  simp only [List.length_append] at hj
  obtain ⟨a5, a6, r, rfl, l5, l6⟩ := split3 (n := 32 * etaBits eta * K) (m := 416 * K) (by omega : _ ≤ r.length)
  simp only [List.length_append] at hj
  obtain rfl : r = [] := List.eq_nil_of_length_eq_zero (by omega)
  have c1 : copy rho 0 (a1 ++ (a2 ++ (a3 ++ (a4 ++ (a5 ++ (a6 ++ [])))))) 0 rho.length = .ok (rho ++ (a2 ++ (a3 ++ (a4 ++ (a5 ++ (a6 ++ [])))))) := by
    have := copy_at (s := rho) (a := []) (b := a1) (c := a2 ++ (a3 ++ (a4 ++ (a5 ++ (a6 ++ []))))) (Holds.self rho) rfl rfl l1
    simpa using this
  have c2 : copy key 0 (rho ++ (a2 ++ (a3 ++ (a4 ++ (a5 ++ (a6 ++ [])))))) rho.length key.length = .ok (rho ++ key ++ (a3 ++ (a4 ++ (a5 ++ (a6 ++ []))))) := by
    rw [← copy_at (s := key) (a := rho) (b := a2) (c := a3 ++ (a4 ++ (a5 ++ (a6 ++ [])))) (Holds.self key) rfl rfl l2, List.append_assoc]
  have c3 : copy tr 0 (rho ++ key ++ (a3 ++ (a4 ++ (a5 ++ (a6 ++ []))))) (rho.length + key.length) tr.length = .ok (rho ++ key ++ tr ++ (a4 ++ (a5 ++ (a6 ++ [])))) := by
    rw [← copy_at (s := tr) (a := rho ++ key) (b := a3) (c := a4 ++ (a5 ++ (a6 ++ []))) (Holds.self tr) List.length_append.symm rfl l3, List.append_assoc (rho ++ key) a3]
  generalize hS1 : ((List.range L).flatMap fun i => packBelow (etaBits eta) eta (s1 i)) = S1
  generalize hS2 : ((List.range K).flatMap fun i => packBelow (etaBits eta) eta (s2 i)) = S2
  have lS1 : S1.length = 32 * etaBits eta * L := by rw [← hS1]; exact flatMap_length fun i _ => packBelow_length _ _ _
  have lS2 : S2.length = 32 * etaBits eta * K := by rw [← hS2]; exact flatMap_length fun i _ => packBelow_length _ _ _
  rw [packSk, c1, ok_bind]
  dsimp only
  rw [c2, ok_bind, c3, ok_bind, tabs_length, tabs_length, tabs_length,
    packVec (L := 32 * etaBits eta) (e := fun i => packBelow (etaBits eta) eta (s1 i)) (rho ++ key ++ tr) (fun i _ => packBelow_length _ _ _) (fun i hi pre junk post hp hj => by
      rw [rd_tabs s1 hi, ok_bind]
      exact polyEtaPack_tab he (fun j hj => h1 i j hi hj) pre junk post (by rw [hp, Nat.mul_comm i]; simp only [List.length_append]) hj) a4 l4, ok_bind, hS1,
    ← List.append_assoc (rho ++ key ++ tr) S1,
    packVec (L := 32 * etaBits eta) (e := fun i => packBelow (etaBits eta) eta (s2 i)) (rho ++ key ++ tr ++ S1) (fun i _ => packBelow_length _ _ _) (fun i hi pre junk post hp hj => by
      rw [rd_tabs s2 hi, ok_bind]
      exact polyEtaPack_tab he (fun j hj => h2 i j hi hj) pre junk post (by rw [hp, Nat.mul_comm i, Nat.mul_comm L]; simp only [List.length_append, lS1]) hj) a5 l5, ok_bind, hS2,
    ← List.append_assoc (rho ++ key ++ tr ++ S1) S2,
    packVec (L := 416) (e := fun i => packBelow 13 4096 (t0 i)) (rho ++ key ++ tr ++ S1 ++ S2) (fun i _ => packBelow_length _ _ _) (fun i hi pre junk post hp hj => by
      rw [rd_tabs t0 hi, ok_bind]
      exact polyT0Pack_tab (fun j hj => h0 i j hi hj) pre junk post (by rw [hp, Nat.mul_comm i, Nat.mul_comm L, Nat.mul_comm K]; simp only [List.length_append, lS1, lS2]) hj) a6 l6,
    encSk, hS1, hS2, List.append_nil]

theorem unpackSk_spec {K L eta : Nat} (he : eta = 2 ∨ eta = 4) {rho0 tr0 key0 rho key tr w1 w2 w0 sk : List Byte} {t s s' : List (List Int)} (lr : rho.length = 32) (lk : key.length = 32)
    (lt : tr.length = 48) (lr0 : rho0.length = 32) (lk0 : key0.length = 32) (lt0 : tr0.length = 48) (l1 : w1.length = 32 * etaBits eta * L) (l2 : w2.length = 32 * etaBits eta * K)
    (l0 : w0.length = 416 * K) (hs1 : Shape L s) (hs2 : Shape K s') (ht : Shape K t) (hb : sk = rho ++ key ++ tr ++ w1 ++ w2 ++ w0) :
    unpackSk rho0 tr0 key0 t s s' sk eta (32 * etaBits eta) 416 = .ok (rho, tr, key, tabs K fun i => unpackBelow 13 4096 (chunk 416 w0 i),
      tabs L fun i => unpackBelow (etaBits eta) eta (chunk (32 * etaBits eta) w1 i), tabs K fun i => unpackBelow (etaBits eta) eta (chunk (32 * etaBits eta) w2 i)) := by
  have b1 : Holds sk 0 rho := ⟨[], key ++ tr ++ w1 ++ w2 ++ w0, by rw [hb]; simp, rfl⟩
  have b2 : Holds sk 32 key := ⟨rho, tr ++ w1 ++ w2 ++ w0, by rw [hb]; simp, lr⟩
  have b3 : Holds sk 64 tr := ⟨rho ++ key, w1 ++ w2 ++ w0, by rw [hb]; simp, by rw [List.length_append, lr, lk]⟩
  have b4 : Holds sk 112 w1 := ⟨rho ++ key ++ tr, w2 ++ w0, by rw [hb]; simp, by rw [List.length_append, List.length_append, lr, lk, lt]⟩
  have b5 : Holds sk (112 + L * (32 * etaBits eta)) w2 := ⟨rho ++ key ++ tr ++ w1, w0, by rw [hb], by
    rw [List.length_append, List.length_append, List.length_append, lr, lk, lt, l1, Nat.mul_comm L]⟩
  have b6 : Holds sk (112 + L * (32 * etaBits eta) + K * (32 * etaBits eta)) w0 := ⟨rho ++ key ++ tr ++ w1 ++ w2, [], by rw [hb, List.append_nil], by
    rw [List.length_append, List.length_append, List.length_append, List.length_append, lr, lk, lt, l1, l2, Nat.mul_comm L, Nat.mul_comm K]⟩
  rw [unpackSk, copy_whole b1 lr.symm (by omega), ok_bind, copy_whole b2 lk.symm (by omega), ok_bind, copy_whole b3 lt.symm (by omega), ok_bind]
  dsimp only
  rw [hs1.1, vecLoop_tabs (x := fun i => unpackBelow (etaBits eta) eta (chunk (32 * etaBits eta) w1 i)) (fun i p hi hp => by
    rw [Nat.mul_comm i]
    exact polyEtaUnpack_tab he (chunk_length (by omega) hi) (chunk_holds (by omega) hi b4) hp) hs1, ok_bind, tabs_length, hs2.1,
    vecLoop_tabs (x := fun i => unpackBelow (etaBits eta) eta (chunk (32 * etaBits eta) w2 i)) (fun i p hi hp => by
    rw [Nat.mul_comm i]
    exact polyEtaUnpack_tab he (chunk_length (by omega) hi) (chunk_holds (by omega) hi b5) hp) hs2, ok_bind, tabs_length, ht.1,
    vecLoop_tabs (x := fun i => unpackBelow 13 4096 (chunk 416 w0 i)) (fun i p hi hp => by
    rw [Nat.mul_comm i]
    exact polyT0Unpack_tab (chunk_length (by omega) hi) (chunk_holds (by omega) hi b6) hp) ht, ok_bind]
  rfl

theorem packSig_spec {K L gamma1 ω : Nat} (hg : gamma1 = 2 ^ 17 ∨ gamma1 = 2 ^ 19) {c cs : List Byte} {z : Nat → Nat → Int} {h : Nat → Nat → Bool} {hs : List (List Int)} (hc : c.length = 32)
    (hcs : Holds cs 0 c) (hz : ∀ i j, i < L → j < 256 → -(gamma1 : Int) < z i j ∧ z i j ≤ gamma1) (hh : Each (fun i y => Hints y (h i)) K hs) (hw : (allIndices h K).length ≤ ω)
    (hpos : 32 + L * (32 * zBits gamma1) + ω ≤ 2420 ∨ 2420 < 32 + L * (32 * zBits gamma1)) (junk post : List Byte) (hj : junk.length = 32 + 32 * zBits gamma1 * L + (ω + K)) :
    packSig (junk ++ post) cs (tabs L z) hs K ω (32 * zBits gamma1) gamma1 = .ok (encSig K L gamma1 ω c z h ++ post) := by
  obtain ⟨a1, a2, a3, rfl, l1, l2⟩ := split3 (n := 32) (m := 32 * zBits gamma1 * L) (by omega : _ ≤ junk.length)
  simp only [List.length_append] at hj
  have l3 : a3.length = ω + K := by omega
  have c1 : copy cs 0 (a1 ++ (a2 ++ a3) ++ post) 0 32 = .ok (c ++ (a2 ++ (a3 ++ post))) := by
    have := copy_at (s := c) (a := []) (b := a1) (c := a2 ++ (a3 ++ post)) hcs rfl hc.symm (by omega)
    simpa using this
  generalize hZ : ((List.range L).flatMap fun i => packBelow (zBits gamma1) gamma1 (z i)) = Z
  have lZ : Z.length = 32 * zBits gamma1 * L := by rw [← hZ]; exact flatMap_length fun i _ => packBelow_length _ _ _
  have hp : (c ++ Z).length = 32 + L * (32 * zBits gamma1) := by rw [List.length_append, hc, lZ, Nat.mul_comm L]
  have c3 : clear (c ++ Z ++ (a3 ++ post)) (32 + L * (32 * zBits gamma1)) (ω + K) = .ok (c ++ Z ++ (List.replicate (ω + K) 0 ++ post)) := by
    rw [clear]
    split
    · rename_i e
      obtain rfl : a3 = [] := List.eq_nil_of_length_eq_zero (by omega)
      rw [e]; rfl
    · rw [← List.append_assoc, blit_at hp.symm (by rw [List.length_replicate, l3]), List.append_assoc]
  obtain ⟨k, hk⟩ := hints_pack hh hw hpos (c ++ Z) post hp
  rw [packSig, c1, ok_bind, tabs_length,
    packVec (L := 32 * zBits gamma1) (e := fun i => packBelow (zBits gamma1) gamma1 (z i)) c (fun i _ => packBelow_length _ _ _) (fun i hi pre junk post hp hj => by
      rw [rd_tabs z hi, ok_bind]
      exact polyZPack_tab hg (fun j hj => hz i j hi hj) pre junk post (by rw [hp, Nat.mul_comm i, hc]) hj) a2 l2, ok_bind, hZ, ← List.append_assoc c Z]
  dsimp only
  rw [c3, ok_bind, hk, ok_bind, encSig, hZ, List.append_assoc (c ++ Z)]
  rfl

theorem isHint_indices {ω K : Nat} {idx cnt : List Byte} (hi : idx.length = ω) {h : Nat → Nat → Bool} :
    IsHint ω K (idx ++ cnt) h ↔ (allIndices h K).length ≤ ω ∧ idx = (allIndices h K).map (BitVec.ofNat 8) ++ List.replicate (ω - (allIndices h K).length) 0 ∧
      cnt = (List.range K).map fun i => BitVec.ofNat 8 (allIndices h (i + 1)).length := by
  rw [IsHint, packHint]
  refine and_congr_right fun hw => ⟨fun e => ?_, fun ⟨e1, e2⟩ => by rw [← e1, ← e2]⟩
  exact List.append_inj e (by rw [hi, List.length_append, List.length_map, List.length_replicate]; omega)

theorem allIndices_take (h : Nat → Nat → Bool) {n m : Nat} (hn : n ≤ m) : (allIndices h m).take (allIndices h n).length = allIndices h n := by
  induction m with
  | zero => obtain rfl : n = 0 := by omega
            exact List.take_length
  | succ m ih =>
    by_cases e : n = m + 1
    · rw [e, List.take_length]
    · rw [allIndices_succ, List.take_append_of_le_length (allIndices_mono h (by omega)), ih (by omega)]

/-- The encoding determines the hints. -/
theorem packHint_inj {ω K : Nat} (hω : ω < 256) {g h : Nat → Nat → Bool} (hg : (allIndices g K).length ≤ ω) (hh : (allIndices h K).length ≤ ω) (e : packHint ω K g = packHint ω K h) {i : Nat}
    (hi : i < K) : indices (g i) = indices (h i) := by
  have hl : ∀ (h : Nat → Nat → Bool), (allIndices h K).length ≤ ω → ((allIndices h K).map (BitVec.ofNat 8) ++ List.replicate (ω - (allIndices h K).length) 0).length = ω := fun h hh => by
    rw [List.length_append, List.length_map, List.length_replicate]; omega
  rw [packHint, packHint] at e
  obtain ⟨e1, e2⟩ := List.append_inj e (by rw [hl g hg, hl h hh])
  have hn : ∀ n, n ≤ K → (allIndices g n).length = (allIndices h n).length := by
    intro n hn
    cases n with
    | zero => rfl
    | succ n =>
      have := congrArg (·[n]?) e2
      simp only [List.getElem?_map, List.getElem?_range (show n < K by omega), Option.map_some, Option.some.injEq] at this
      have := congrArg BitVec.toNat this
      have h1 := allIndices_mono g hn
      have h2 := allIndices_mono h hn
      rwa [BitVec.toNat_ofNat, BitVec.toNat_ofNat, Nat.mod_eq_of_lt (by omega), Nat.mod_eq_of_lt (by omega)] at this
  have e3 := congrArg (List.map BitVec.toNat) (List.append_inj e1 (by rw [List.length_map, List.length_map, hn K (le_refl K)])).1
  rw [map_toNat_ofNat fun j hj => allIndices_lt hj, map_toNat_ofNat fun j hj => allIndices_lt hj] at e3
  have e4 := allIndices_take g (show i + 1 ≤ K by omega)
  rw [e3, hn (i + 1) (by omega), allIndices_take h (show i + 1 ≤ K by omega), allIndices_succ, allIndices_succ] at e4
  exact (List.append_inj e4 (hn i (by omega)).symm).2.symm

theorem flatMap_range_congr {K : Nat} {f g : Nat → List Byte} (h : ∀ i, i < K → f i = g i) : (List.range K).flatMap f = (List.range K).flatMap g :=
  List.flatMap_congr fun i hi => h i (List.mem_range.mp hi)

theorem unpackSig_spec {K L gamma1 ω : Nat} (hg : gamma1 = 2 ^ 17 ∨ gamma1 = 2 ^ 19) (hω : ω < 256) {c0 c zw hw sig : List Byte} {z h : List (List Int)} (lc0 : c0.length = 32) (lc : c.length = 32)
    (lz : zw.length = 32 * zBits gamma1 * L) (lh : hw.length = ω + K) (hsz : Shape L z) (hsh : Shape K h) (hb : Holds sig 0 (c ++ zw ++ hw)) :
    ∃ hs bad, unpackSig c0 z h sig (32 * zBits gamma1) gamma1 ω = .ok (c, tabs L (fun i => unpackBelow (zBits gamma1) gamma1 (chunk (32 * zBits gamma1) zw i)), hs, bad) ∧
      (bad = true → ¬ ∃ h, IsHint ω K hw h) ∧ (bad = false → ∃ h, IsHint ω K hw h ∧ Each (fun i y => Hints y (h i)) K hs) := by
  obtain ⟨pre, post, e, hp⟩ := hb
  obtain rfl : pre = [] := List.eq_nil_of_length_eq_zero hp
  obtain ⟨idx, cnt, rfl, hi, hc⟩ : ∃ idx cnt, hw = idx ++ cnt ∧ idx.length = ω ∧ cnt.length = K :=
    ⟨hw.take ω, hw.drop ω, (List.take_append_drop ω hw).symm, by rw [List.length_take]; omega, by rw [List.length_drop]; omega⟩
  have b1 : Holds sig 0 c := ⟨[], zw ++ (idx ++ cnt) ++ post, by rw [e]; simp, rfl⟩
  have b2 : Holds sig 32 zw := ⟨c, idx ++ cnt ++ post, by rw [e]; simp, lc⟩
  have b3 : Holds sig (32 + L * (32 * zBits gamma1)) idx := ⟨c ++ zw, cnt ++ post, by rw [e]; simp, by rw [List.length_append, lc, lz, Nat.mul_comm L]⟩
  have b4 : Holds sig (32 + L * (32 * zBits gamma1) + ω) cnt := ⟨c ++ zw ++ idx, post, by rw [e]; simp, by rw [List.length_append, List.length_append, lc, lz, hi, Nat.mul_comm L]⟩
  obtain ⟨hs, k, bad, u1, u2, u3⟩ := unhints_spec hω hi hc b3 b4 K 0 h 0 (fun _ _ => false) (by omega)
    ⟨by omega, hsh.1, fun j y hj => by omega, fun y hy => by obtain ⟨j, hj⟩ := List.getElem?_of_mem hy; exact hsh.2 j y hj, rfl, rfl, fun j hj => by omega⟩
  rw [unpackSig, copy_whole b1 lc.symm (by omega), ok_bind, hsz.1, vecLoop_tabs (x := fun i => unpackBelow (zBits gamma1) gamma1 (chunk (32 * zBits gamma1) zw i)) (fun i p hi hp => by
    rw [Nat.mul_comm i]
    exact polyZUnpack_tab hg (chunk_length (by omega) hi) (chunk_holds (by omega) hi b2) hp) hsz, ok_bind, tabs_length, hsh.1]
  dsimp only
  rw [u1, ok_bind]
  dsimp only
  cases bad with
  | true =>
    rw [if_pos rfl]
    refine ⟨hs, true, rfl, fun _ => ?_, fun h => by simp at h⟩
    rintro ⟨h', hh'⟩
    obtain ⟨e1, e2, e3⟩ := (isHint_indices hi).mp hh'
    exact u3 rfl ⟨h', fun j hj => by omega, e1, e2, e3⟩
  | false =>
    obtain ⟨h', r1, r2, r3, _, r5, r6, r7⟩ := u2 rfl
    have r8 : cnt = (List.range K).map fun i => BitVec.ofNat 8 (allIndices h' (i + 1)).length := by
      apply each_eq ⟨hc, fun i y hy => ?_⟩
      have hiK : i < K := by rw [← hc]; exact (List.getElem?_eq_some_iff.mp hy).1
      rw [r7 i hiK] at hy
      exact (Option.some.inj hy).symm
    have r9 : idx.take k = (allIndices h' K).map (BitVec.ofNat 8) := by rw [← r6, map_ofNat_toNat]
    rw [if_neg (by decide), padLoop_spec b3 (ω - k) k (by omega), ok_bind]
    by_cases hpad : idx.drop k = List.replicate (ω - k) 0
    · refine ⟨hs, false, by rw [decide_eq_true hpad]; rfl, fun h => by simp at h, fun _ => ⟨h', ?_, r2, fun i y hy => r3 i y ?_ hy⟩⟩
      · refine (isHint_indices hi).mpr ⟨by omega, ?_, r8⟩
        rw [← r9, ← r5, ← hpad, List.take_append_drop]
      · rw [← r2]; exact (List.getElem?_eq_some_iff.mp hy).1
    · refine ⟨hs, true, by rw [decide_eq_false hpad]; rfl, fun _ => ?_, fun h => by simp at h⟩
      rintro ⟨g, hg⟩
      obtain ⟨e1, e2, e3⟩ := (isHint_indices hi).mp hg
      have hlen : (allIndices g K).length = k := by
        cases K with
        | zero => rw [r5]; rfl
        | succ K =>
          have := congrArg (·[K]?) e3
          simp only [r7 K (by omega), List.getElem?_map, List.getElem?_range (Nat.lt_succ_self K), Option.map_some, Option.some.injEq] at this
          have := congrArg BitVec.toNat this
          rw [BitVec.toNat_ofNat, BitVec.toNat_ofNat, Nat.mod_eq_of_lt (by omega), Nat.mod_eq_of_lt (by omega)] at this
          omega
      apply hpad
      rw [e2, hlen, List.drop_left' (by rw [List.length_map, hlen])]

end Cex.Dilithium
