import Verif.Dilithium.VerifyProof

/-!
# `Generate` of Dilithium
-/

namespace Cex.Dilithium
open Cex Cex.Lattice Cex.Spec.Dilithium Cex.Keccak Finset

variable {P : List Byte → M (List Byte)} {f : List Byte → List Byte}

/-- The first blocks have 256 accepted values. -/
def Enough (f : List Byte → List Byte) (pr : Params) (seed : List Byte) (n : Nat) : Prop := 256 ≤ (smalls pr.eta (Fips202.shake f 168 (withNonce seed n) (168 * pr.blocks))).length

theorem secretLoop_or (p : Perm P f) {s : Parameters} {pr : Params} (hf : Facts pr s) (fuel n : Nat) (seed : List Byte) (nonce : Nat) :
    (∃ x, secretLoop P pr fuel (zeroVec n) seed nonce = .ok (tabs n x) ∧ Between n (-s.eta) s.eta x ∧ ∀ i, i < n → Enough f pr seed (nonce + i) → IsSmall f s.eta seed (nonce + i) (tab (x i))) ∨
    secretLoop P pr fuel (zeroVec n) seed nonce = .error .diverges := by
  have hsz : (zeroVec n).length = n := List.length_replicate
  rcases vecLoop_or (K := n) (op := fun i q => polyUniformEta P fuel q seed (nonce + i) pr.eta pr.blocks) (P := fun _ q => Small s.eta q)
    (Q := fun i q => Small s.eta q ∧ (Enough f pr seed (nonce + i) → IsSmall f s.eta seed (nonce + i) q)) (fun i q hi hq => by
      rw [hf.eta]
      by_cases he : Enough f pr seed (nonce + i)
      · have he' := he
        rw [Enough, hf.eta] at he'
        obtain ⟨cs, e, hcs⟩ := C69_secret_partial p hf.std.eta fuel hq.1 seed (nonce + i) pr.blocks he'
        rcases C69_secret_range p hf.std.eta fuel hq seed (nonce + i) hf.blocks with ⟨a', e', hs⟩ | e'
        · rw [e] at e'
          cases e'
          exact .inl ⟨cs, e, hs, fun _ => hcs⟩
        · exact .inr e'
      · rcases C69_secret_range p hf.std.eta fuel hq seed (nonce + i) hf.blocks with ⟨a', e', hs⟩ | e'
        · exact .inl ⟨a', e', hs, fun h => absurd h he⟩
        · exact .inr e') (r := zeroVec n) (each_replicate fun _ _ => ⟨List.length_replicate, fun v hv => by rw [List.eq_of_mem_replicate hv]; omega⟩) with ⟨v, e, hv⟩ | e
  · left
    have hw : Within n (-s.eta) s.eta v := ⟨hv.1, fun q hq => by
      obtain ⟨i, hi⟩ := List.getElem?_of_mem hq
      exact (hv.2 i q hi).1⟩
    refine ⟨co v, by rw [secretLoop, hsz, e, ← hw.eq_tabs], fun i k hi hk => hw.co hi hk, fun i hi he => ?_⟩
    have hl : i < v.length := by rw [hv.1]; exact hi
    have h1 := (hv.2 i _ (List.getElem?_eq_getElem hl)).2 he
    have h2 : (tabs n (co v))[i]? = some v[i] := by rw [← hw.eq_tabs]; exact List.getElem?_eq_getElem hl
    rw [tabs, List.getElem?_map, List.getElem?_range hi, Option.map_some] at h2
    rw [Option.some.inj h2]
    exact h1
  · right
    rw [secretLoop, hsz, e]

/-- `Generate` gives a pair of keys, or goes on. -/
theorem generate_or (p : Perm P f) {s : Parameters} {pr : Params} (hf : Facts pr s) (fuel : Nat) {pk sk seed : List Byte} (hpk : pk.length = pr.pkSize) (hsk : sk.length = pr.skSize) (hseed : seed.length = 32) :
    (∃ (x : SecretKey) (pk' : List Byte), generate P pr fuel pk sk seed = .ok (pk', x.bytes s) ∧ x.Fits s ∧ IsPublic f s x pk' ∧ pk'.length = pr.pkSize ∧ ∃ ρ', Fips202.shake f 136 seed 96 = x.ρ ++ ρ' ++ x.key ∧ ρ'.length = 32 ∧
      (∀ i, i < s.L → Enough f pr ρ' i → IsSmall f s.eta ρ' i (tab (x.s1 i))) ∧ ∀ i, i < s.K → Enough f pr ρ' (s.L + i) → IsSmall f s.eta ρ' (s.L + i) (tab (x.s2 i))) ∨
    (generate P pr fuel pk sk seed = .error .diverges ∧ ∃ ρ ρ' key, Fips202.shake f 136 seed 96 = ρ ++ ρ' ++ key ∧ ρ.length = 32 ∧ ρ'.length = 32 ∧ (expandMat P fuel (List.replicate s.K (zeroVec s.L)) ρ = .error .diverges ∨
      secretLoop P pr fuel (zeroVec s.L) ρ' 0 = .error .diverges ∨ secretLoop P pr fuel (zeroVec s.K) ρ' s.L = .error .diverges)) := by
  obtain ⟨b1, b2, b3, b4, b5, b6, b7, b8, b9, b10⟩ := hf.std.bounds
  have e1 : xof P seed 0 32 (List.replicate 96 0) 0 96 136 = .ok (Fips202.shake f 136 seed 96) := xof_spec p hseed.symm (by rw [hseed]; norm_num)
  have hlen : (Fips202.shake f 136 seed 96).length = 96 := shake_len p (r := 136) (by decide) (by decide) _
  obtain ⟨rho, ρ', key, hsplit, lr, lr'⟩ := split3 (n := 32) (m := 32) (by omega : 32 + 32 ≤ (Fips202.shake f 136 seed 96).length)
  have lk : key.length = 32 := by rw [hsplit] at hlen; simp only [List.length_append] at hlen; omega
  have e2 : copy (Fips202.shake f 136 seed 96) 0 (List.replicate 32 0) 0 32 = .ok rho := copy_whole ⟨[], ρ' ++ key, by rw [hsplit]; simp, rfl⟩ lr.symm (by rw [lr]; rfl)
  have e3 : copy (Fips202.shake f 136 seed 96) 32 (List.replicate 32 0) 0 32 = .ok ρ' := copy_whole ⟨rho, key, by rw [hsplit]; simp, lr⟩ lr'.symm (by rw [lr']; rfl)
  have e4 : copy (Fips202.shake f 136 seed 96) 64 (List.replicate 32 0) 0 32 = .ok key := copy_whole ⟨rho ++ ρ', [], by rw [hsplit]; simp, by rw [List.length_append, lr, lr']⟩ lk.symm (by rw [lk]; rfl)
  have hgen : ∀ r, (do
      let mat ← expandMat P fuel (List.replicate s.K (zeroVec s.L)) rho
      let s1 ← secretLoop P pr fuel (zeroVec s.L) ρ' 0
      let s2 ← secretLoop P pr fuel (zeroVec s.K) ρ' s.L
      let s1hat ← polyVecNtt s1
      let t ← matrixLoop (zeroVec s.K) mat s1hat
      let t ← polyVecReduce t
      let t ← polyVecInvNtt t
      let t ← polyVecAdd t t s2
      let t ← polyVecCaddQ t
      let (t1, t0) ← polyVecPower2Round (zeroVec s.K) (zeroVec s.K) t
      let pk ← packPk pk rho t1 320
      let tr ← Keccak.xof P pk 0 pr.pkSize (List.replicate 48 0) 0 48 136
      let sk ← packSk sk rho key tr s1 s2 t0 s.eta (32 * etaBits s.eta) 416
      return (pk, sk) : M (List Byte × List Byte)) = r → generate P pr fuel pk sk seed = r := by
    intro r hr
    rw [generate, e1, ok_bind, e2, ok_bind, e3, ok_bind, e4, ok_bind, hf.K, hf.L, hf.eta, hf.etaSize]
    exact hr
  rcases expand_or p fuel (K := s.K) (L := s.L) (by omega) (by omega) rho with ⟨mat, a, e5, hmat, hrep⟩ | e5
  · rcases secretLoop_or p hf fuel s.L ρ' 0 with ⟨s1, e6, h1, hs1⟩ | e6
    · rcases secretLoop_or p hf fuel s.K ρ' s.L with ⟨s2, e7, h2, hs2⟩ | e7
      · left
        have heta : s.eta ≤ 4 := by rcases hf.std.eta with e | e <;> omega
        obtain ⟨s1hat, e8, h3⟩ := polyVecNtt_spec (B := 4) (K := s.L) (v := tabs s.L s1) (x := fun i => red (s1 i)) (by norm_num) (vrep_tabs fun i k hi hk => ⟨by have := h1 i k hi hk; rw [abs_le]; omega, rfl⟩)
        obtain ⟨w1, w2, w3, e9, e10, e11, hw3⟩ := product_loop (x := fun i => red (s1 i)) b1 b2 (zeroVec_shape s.K) hrep h3 (by norm_num)
        obtain ⟨w4, e12, hw4⟩ := polyVecAdd_spec (C := 4211204) (B := 4) (v := tabs s.K s2) (y := fun i => red (s2 i)) hw3.shape hw3
          (vrep_tabs fun i k hi hk => ⟨by have := h2 i k hi hk; rw [abs_le]; omega, rfl⟩) (by norm_num) (by norm_num)
        obtain ⟨w5, e13, hw5⟩ := polyVecCaddQ_spec (hw4.mono fun i k v _ _ h => h.mono (by norm_num))
        have e14 := polyVecPower2Round_spec (zeroVec_shape s.K) (zeroVec_shape s.K) hw5
        obtain ⟨t1, t0, ht⟩ : ∃ t1 t0 : Nat → Nat → Int, ∀ i k, (t1 i k, t0 i k) = Spec.Dilithium.power2Round (dot s.L a (fun i => red (s1 i)) i k + red (s2 i) k).val :=
          ⟨fun i k => (Spec.Dilithium.power2Round (dot s.L a (fun i => red (s1 i)) i k + red (s2 i) k).val).1, fun i k => (Spec.Dilithium.power2Round (dot s.L a (fun i => red (s1 i)) i k + red (s2 i) k).val).2, fun _ _ => rfl⟩
        simp only [← ht] at e14
        have hrange : ∀ i k, (0 ≤ t1 i k ∧ t1 i k ≤ 1023) ∧ -4095 ≤ t0 i k ∧ t0 i k ≤ 4096 := by
          intro i k
          obtain ⟨h0, h1⟩ := val_range (dot s.L a (fun i => red (s1 i)) i k + red (s2 i) k)
          have := power2Round_parts h0 h1
          rw [← ht i k] at this
          simp only at this
          omega
        have e15 := packPk_spec (K := s.K) (rho := rho) (x := t1) (fun i k _ _ => by have := hrange i k; omega) pk [] (by rw [hpk, hf.pkSize, lr])
        rw [List.append_nil, List.append_nil] at e15
        have lpk : (encPk s.K rho t1).length = pr.pkSize := by
          unfold encPk
          rw [List.length_append, lr, flatMap_length (L := 320) fun i _ => packPlain_length _ _, hf.pkSize]
        have e16 : xof P (encPk s.K rho t1) 0 pr.pkSize (List.replicate 48 0) 0 48 136 = .ok (Fips202.shake f 136 (encPk s.K rho t1) 48) := xof_spec p lpk.symm (by rw [lpk]; exact hf.small)
        have ltr : (Fips202.shake f 136 (encPk s.K rho t1) 48).length = 48 := shake_len p (r := 136) (by decide) (by decide) _
        have e17 := packSk_spec (K := s.K) (L := s.L) hf.std.eta (rho := rho) (key := key) (tr := Fips202.shake f 136 (encPk s.K rho t1) 48) (s1 := s1) (s2 := s2) (t0 := t0)
          h1 h2 (fun i k _ _ => by have := hrange i k; omega) sk (by rw [hsk, hf.skSize, lr, lk, ltr])
        refine ⟨⟨rho, key, Fips202.shake f 136 (encPk s.K rho t1) 48, s1, s2, t0⟩, encPk s.K rho t1, hgen _ ?_, ⟨lr, lk, ltr, h1, h2, fun i k _ _ => (hrange i k).2⟩,
          ⟨a, hmat, t1, rfl, rfl, fun i k _ _ => ht i k⟩, lpk, ρ', by rw [hsplit]; simp, lr', fun i hi he => ?_, hs2⟩
        · rw [e5, ok_bind, e6, ok_bind, e7, ok_bind, e8, ok_bind, e9, ok_bind, e10, ok_bind, e11, ok_bind, e12, ok_bind, e13, ok_bind, e14, ok_bind]
          dsimp only
          rw [e15, ok_bind, e16, ok_bind, e17, ok_bind]
          rfl
        · have := hs1 i hi
          rw [Nat.zero_add] at this
          exact this he
      · right
        exact ⟨hgen _ (by rw [e5, ok_bind, e6, ok_bind, e7]; rfl), rho, ρ', key, by rw [hsplit]; simp, lr, lr', .inr (.inr e7)⟩
    · right
      exact ⟨hgen _ (by rw [e5, ok_bind, e6]; rfl), rho, ρ', key, by rw [hsplit]; simp, lr, lr', .inr (.inl e6)⟩
  · right
    exact ⟨hgen _ (by rw [e5]; rfl), rho, ρ', key, by rw [hsplit]; simp, lr, lr', .inl e5⟩

theorem secretLoop_enough (p : Perm P f) {s : Parameters} {pr : Params} (hf : Facts pr s) (fuel n : Nat) {seed : List Byte} {nonce : Nat} (h : ∀ i, i < n → Enough f pr seed (nonce + i)) :
    ∃ v, secretLoop P pr fuel (zeroVec n) seed nonce = .ok v := by
  obtain ⟨v, e, _⟩ := vecLoop_spec (K := n) (op := fun i q => polyUniformEta P fuel q seed (nonce + i) pr.eta pr.blocks) (P := fun _ (q : List Int) => q.length = 256) (Q := fun _ _ => True) (fun i q hi hq => by
      have := h i hi
      rw [Enough, hf.eta] at this
      rw [hf.eta]
      obtain ⟨cs, e, _⟩ := C69_secret_partial p hf.std.eta fuel hq seed (nonce + i) pr.blocks this
      exact ⟨cs, e, trivial⟩) (zeroVec_shape n)
  refine ⟨v, ?_⟩
  rw [secretLoop, zeroVec, List.length_replicate]
  exact e

/-- `Generate` ends when there is a matrix for `ρ` and the first blocks suffice for the secrets. -/
theorem generate_found (p : Perm P f) {s : Parameters} {pr : Params} (hf : Facts pr s) {seed ρ ρ' key : List Byte} (hseed : seed.length = 32) (hs : Fips202.shake f 136 seed 96 = ρ ++ ρ' ++ key)
    (hl : ρ.length = 32) (hl' : ρ'.length = 32) {a : Nat → Nat → Nat → F} (ha : IsMatrix f s.K s.L ρ a) (he : ∀ i, i < s.L + s.K → Enough f pr ρ' i) :
    ∃ F, ∀ fuel, F ≤ fuel → ∀ pk sk : List Byte, pk.length = pr.pkSize → sk.length = pr.skSize → ∃ r, generate P pr fuel pk sk seed = .ok r := by
  obtain ⟨b1, b2, b3, b4, b5, b6, b7, b8, b9, b10⟩ := hf.std.bounds
  obtain ⟨F, hF⟩ := expand_enough p (K := s.K) (L := s.L) (by omega) (by omega) ha
  refine ⟨F, fun fuel h pk sk hpk hsk => ?_⟩
  rcases generate_or p hf fuel hpk hsk hseed with ⟨x, pk', e, _⟩ | ⟨_, ρ1, ρ1', key1, h1, l1, l1', hd⟩
  · exact ⟨_, e⟩
  · rw [hs, List.append_assoc, List.append_assoc] at h1
    obtain ⟨rfl, h2⟩ := List.append_inj h1 (by rw [hl, l1])
    obtain ⟨rfl, _⟩ := List.append_inj h2 (by rw [hl', l1'])
    rcases hd with hd | hd | hd
    · obtain ⟨m, e, _⟩ := hF fuel h
      rw [e] at hd
      cases hd
    · obtain ⟨v, e⟩ := secretLoop_enough p hf fuel s.L (seed := ρ') (nonce := 0) fun i hi => he _ (by omega)
      rw [e] at hd
      cases hd
    · obtain ⟨v, e⟩ := secretLoop_enough p hf fuel s.K (seed := ρ') (nonce := s.L) fun i hi => he _ (by omega)
      rw [e] at hd
      cases hd

end Cex.Dilithium
