import Verif.Dilithium.SchemeProps

/-!
# Examples for the signature scheme of Dilithium

A permutation for which keys, signatures and verification can be followed by hand: `SHAKE128` of a seed with nonce gives zeros, `SHAKE256` gives bytes `0x10`.
Then the matrix is zero, the secrets are `η`, and the first attempt at a signature is accepted. Generation, signing and verification end for every seed and message.
-/

namespace Cex.Dilithium
open Cex Cex.Lattice Cex.Spec.Dilithium Cex.Keccak Finset

/-- The state that gives zeros. -/
def quiet : List Byte := List.replicate 199 0 ++ [1]

/-- The state that gives `0x10`. -/
def steady : List Byte := List.replicate 136 0x10 ++ List.replicate 64 0

def toy (s : List Byte) : List Byte := if s[199]? = some 1 ∨ s[167]? = some 0x80 then quiet else steady

theorem toyPerm : Perm (fun s => .ok (toy s)) toy := ⟨fun _ _ => rfl, fun s _ => by rw [toy]; split <;> rfl⟩

theorem toy_quiet : toy quiet = quiet := by decide +kernel

theorem toy_steady : toy steady = steady := by decide +kernel

theorem squeeze_const {f : List Byte → List Byte} {r : Nat} (hr : 0 < r) {s : List Byte} {b : Byte} (hf : f s = s) (hs : s.take r = List.replicate r b) (n : Nat) : Fips202.squeeze f r s n = List.replicate n b := by
  induction n using Nat.strong_induction_on with
  | _ n ih =>
    rw [Fips202.squeeze]
    split
    · rename_i h
      rw [hf, ih (n - r) (by omega), hs, List.replicate_append_replicate]
      congr 1
      omega
    · rename_i h
      have e : s.take n = (s.take r).take n := by rw [List.take_take, Nat.min_eq_left (by omega)]
      rw [e, hs, List.take_replicate, Nat.min_eq_left (by omega)]

theorem xor_get {a b : List Byte} {i : Nat} {x y : Byte} (ha : a[i]? = some x) (hb : b[i]? = some y) : (xorBytes a b)[i]? = some (x ^^^ y) := by
  rw [xorBytes, List.getElem?_zipWith, ha, hb]

theorem ext_get {b : List Byte} (h : b.length ≤ 136) {i : Nat} (h1 : 136 ≤ i) (h2 : i < 200) : (b ++ List.replicate (200 - b.length) (0 : Byte))[i]? = some 0 := by
  rw [List.getElem?_append_right (by omega), List.getElem?_replicate, if_pos (by omega)]

/-- States that `SHAKE256` reaches. -/
def Loud (s : List Byte) : Prop := s[199]? = some 0 ∧ s[167]? = some 0

theorem Loud.block {s b : List Byte} (h : Loud s) (hb : b.length ≤ 136) : Fips202.block toy s b = steady := by
  rw [Fips202.block, toy, xor_get h.1 (ext_get hb (by norm_num) (by norm_num)), xor_get h.2 (ext_get hb (by norm_num) (by norm_num)), if_neg (by decide)]

theorem loud_steady : Loud steady := by unfold Loud; decide +kernel

theorem loud_zero : Loud (List.replicate 200 0) := by unfold Loud; decide +kernel

theorem absorb_loud : ∀ (n : Nat) (m : List Byte) (s : List Byte), Loud s → m.length = 136 * (n + 1) → (Stream.eager 136 (Fips202.block toy) s m).1 = steady
  | 0, m, s, hs, hm => by
    rw [Stream.eager_one (by norm_num) (by omega)]
    exact hs.block (by omega)
  | n + 1, m, s, hs, hm => by
    rw [Stream.eager, if_pos (by omega), hs.block (by rw [List.length_take]; omega)]
    exact absorb_loud n _ _ loud_steady (by rw [List.length_drop]; omega)

theorem pad_length {r : Nat} (hr : 0 < r) (d : Byte) (l : Nat) : ∃ n, l + (Fips202.pad r d l).length = r * (n + 1) := by
  refine ⟨l / r, ?_⟩
  have h1 := Nat.mod_lt l hr
  have h2 := Nat.div_add_mod l r
  rw [Fips202.pad]
  split
  · simp only [List.length_cons, List.length_nil]
    rw [Nat.mul_add]; omega
  · simp only [List.length_cons, List.length_append, List.length_replicate, List.length_nil]
    rw [Nat.mul_add]; omega

/-- `SHAKE256` gives `0x10`. -/
theorem shake136 (x : List Byte) (n : Nat) : Fips202.shake toy 136 x n = List.replicate n 0x10 := by
  obtain ⟨k, hk⟩ := pad_length (r := 136) (by norm_num) 0x1F x.length
  rw [Fips202.shake, Fips202.sponge, Fips202.absorb, absorb_loud k _ _ loud_zero (by rw [List.length_append]; exact hk)]
  exact squeeze_const (by norm_num) toy_steady (by decide +kernel) n

/-- `SHAKE128` of a seed with nonce gives zeros. -/
theorem shake168 {x : List Byte} (hx : x.length = 34) (n : Nat) : Fips202.shake toy 168 x n = List.replicate n 0 := by
  have hp : Fips202.pad 168 0x1F 34 = (0x1F :: List.replicate 132 0) ++ [0x80] := by decide +kernel
  have hl : (x ++ Fips202.pad 168 0x1F x.length).length = 168 := by rw [hx, hp]; simp [hx]
  have hb : Fips202.block toy (List.replicate 200 0) (x ++ Fips202.pad 168 0x1F x.length) = quiet := by
    have h : (xorBytes (List.replicate 200 0) (x ++ Fips202.pad 168 0x1F x.length ++ List.replicate (200 - (x ++ Fips202.pad 168 0x1F x.length).length) 0))[167]? = some 0x80 := by
      refine xor_get (x := 0) (y := 0x80) (by rw [List.getElem?_replicate, if_pos (by norm_num)]) ?_
      rw [List.getElem?_append_left (by omega), List.getElem?_append_right (by omega), hx, hp]
      rfl
    rw [Fips202.block, toy, if_pos (.inr h)]
  rw [Fips202.shake, Fips202.sponge, Fips202.absorb, Stream.eager_one (by norm_num) hl]
  simp only [hb]
  exact squeeze_const (by norm_num) toy_quiet (by decide +kernel) n

theorem nonce_len {ρ : List Byte} (h : ρ.length = 32) (n : Nat) : (withNonce ρ n).length = 34 := by rw [withNonce, List.length_append, h]; rfl

/-- The matrix is zero. -/
theorem toy_matrix (K L : Nat) {ρ : List Byte} (h : ρ.length = 32) : IsMatrix toy K L ρ (fun _ _ _ => 0) := fun i j _ _ => by
  refine ⟨List.replicate 256 0, ⟨256, List.length_replicate, ?_⟩, fun k n hk => ?_⟩
  · rw [shake168 (nonce_len h _)]
    decide +kernel
  · obtain rfl := List.eq_of_mem_replicate (List.mem_of_getElem? hk)
    simp [Spec.Dilithium.ntt]

theorem toy_enough (q : Par) {ρ : List Byte} (h : ρ.length = 32) (i : Nat) : Enough toy q.params ρ i := by
  rw [Enough, shake168 (nonce_len h _)]
  cases q <;> decide +kernel

/-- The secrets are `η`. -/
theorem toy_small (q : Par) {ρ : List Byte} (h : ρ.length = 32) {i : Nat} {x : Nat → Int} (hx : IsSmall toy q.level.eta ρ i (tab x)) {k : Nat} (hk : k < 256) : x k = q.level.eta := by
  obtain ⟨m, _, he⟩ := hx
  rw [shake168 (nonce_len h _)] at he
  have h1 : (tab x)[k]? = some (x k) := by rw [tab, List.getElem?_map, List.getElem?_range hk]; rfl
  have h2 : x k ∈ smalls q.level.eta (List.replicate m 0) := List.mem_of_mem_take (by rw [← he]; exact List.mem_of_getElem? h1)
  rw [smalls, List.mem_filterMap] at h2
  obtain ⟨t, ht, hs⟩ := h2
  have h0 : ∀ m, ∀ t ∈ halves (List.replicate m 0), t = 0 := by
    intro m
    induction m with
    | zero => simp [halves]
    | succ m ih =>
      intro t ht
      rw [List.replicate_succ, halves] at ht
      simp only [List.mem_cons] at ht
      rcases ht with rfl | rfl | ht
      · rfl
      · rfl
      · exact ih t ht
  rw [h0 m t ht] at hs
  revert hs
  cases q <;> intro hs <;> exact (Option.some.inj hs).symm

theorem toy_ball {g : Nat → Byte} (hg : ∀ k, g k = 0x10) : ∀ (n i s a : Nat) (c : Nat → Int), 16 ≤ i → ∃ c', Ball g n i s a c c'
  | 0, _, _, _, c, _ => ⟨c, .done⟩
  | n + 1, i, s, a, c, hi => by
    have h0 : (g (a + 0)).toNat = 16 := by rw [hg]; rfl
    obtain ⟨c', hc⟩ := toy_ball hg n (i + 1) (s / 2) (a + 0 + 1) (place c i (g (a + 0)).toNat s) (by omega)
    exact ⟨c', .step 0 (fun j hj => by omega) (by rw [h0]; exact hi) hc⟩

theorem toy_challenge (q : Par) (seed : List Byte) : ∃ c, IsChallenge toy q.level.tau seed c :=
  toy_ball (fun k => by rw [xofByte, shake136, List.getElem?_replicate, if_pos (by omega)]) _ _ _ _ _ (by cases q <;> decide)

theorem toy_mask (q : Par) (ρ : List Byte) (n : Nat) {k : Nat} (hk : k < 256) : |mask toy q.level.gamma1 ρ n k| + 2 * q.level.beta < (q.level.gamma1 : Int) := by
  rw [mask, shake136]
  revert k
  cases q <;> decide +kernel

/-- The first attempt gives a signature. -/
theorem toy_signature (q : Par) {x : SecretKey} (hx : x.Fits q.level) (ht : ∀ i k, i < q.level.K → k < 256 → x.t0 i k = q.level.eta) (msg : List Byte) : ∃ sig, IsSignature toy q.level x msg sig := by
  have hs := q.facts.std
  have hg := hs.gamma
  obtain ⟨b1, b2, b3, b4, b5, b6, b7, b8, b9, b10⟩ := hs.bounds
  obtain ⟨X, hX⟩ : ∃ X : Signing, X = ⟨toy, q.level, fun _ _ _ => 0, x.s1, x.s2, x.t0, Fips202.shake toy 136 (x.tr ++ msg) 48, Fips202.shake toy 136 (x.key ++ Fips202.shake toy 136 (x.tr ++ msg) 48) 48⟩ := ⟨_, rfl⟩
  obtain ⟨c, hc⟩ := toy_challenge q (X.hash 0)
  have hw : ∀ i k, X.w 0 i k = 0 := fun i k => by
    rw [Signing.w, hX, dot]
    exact sum_eq_zero fun j _ => by simp [Lattice.mul]
  have hf : X.f = toy := by rw [hX]
  have hsX : X.s = q.level := by rw [hX]
  have h1 : ∀ i k, i < q.level.L → k < 256 → |mul c (x.s1 i) k| ≤ (q.level.beta : Int) := fun i k hi hk => cs_norm b4 hc hx.s1 hi hk
  have h2 : ∀ i k, i < q.level.K → k < 256 → |mul c (x.s2 i) k| ≤ (q.level.beta : Int) := fun i k hi hk => cs_norm b4 hc hx.s2 hi hk
  have h3 : ∀ i k, i < q.level.K → k < 256 → |mul c (x.t0 i) k| ≤ (q.level.beta : Int) := fun i k hi hk => cs_norm b4 hc (fun i k hi hk => by rw [ht i k hi hk]; omega) hi hk
  have hr : ∀ i k, X.r 0 c i k = ((-(mul c (x.s2 i) k) : Int) : F) := fun i k => by
    rw [Signing.r, hw, hX, red_mul]
    push_cast
    ring
  have hct : ∀ i k, X.ct0 c i k = ((mul c (x.t0 i) k : Int) : F) := fun i k => by rw [Signing.ct0, hX, red_mul]
  have hdec : ∀ v : Int, |v| < 95232 → Spec.Dilithium.decompose q.level.gamma2 (((v : Int) : F).val) = (0, v) := fun v hv => by
    rw [abs_lt] at hv
    have e : (((v : Int) : F).val : Int) = v % 8380417 := ZMod.val_intCast v
    have := decompose_at hg (w1 := 0) (u := v) (le_refl 0) (by rcases hg with e | e <;> rw [e] <;> norm_num) (by omega) (by omega)
    rw [zero_mul, zero_add] at this
    rw [e, this]
  have hnorm : ∀ v : Int, |v| ≤ 4190208 → norm (v : F) = |v| := fun v hv => by rw [← (centre_spec (v : F)).2.2, ← centre_unique (v := v) rfl hv]
  refine ⟨X.sig 0 c, fun _ _ _ => 0, _, _, 0, c, toy_matrix _ _ hx.ρ, rfl, rfl, X, hX, fun j hj => by omega, hc, ⟨fun i k hi hk => ?_, fun i k hi hk => ?_, fun i k hi hk => ?_, ?_⟩, rfl⟩
  · rw [hsX] at hi ⊢
    have hz : X.z 0 c i k = ((mask toy q.level.gamma1 X.ρ' (q.level.L * 0 + i) k + mul c (x.s1 i) k : Int) : F) := by
      rw [Signing.z, Signing.y, hX, red_mul, red]
      push_cast
      rfl
    have hm := toy_mask q X.ρ' (q.level.L * 0 + i) hk
    have := h1 i k hi hk
    have hv : |mask toy q.level.gamma1 X.ρ' (q.level.L * 0 + i) k + mul c (x.s1 i) k| < (q.level.gamma1 : Int) - q.level.beta := by
      rw [abs_lt]
      rw [abs_le] at this
      have ha := abs_le.mp (le_refl |mask toy q.level.gamma1 X.ρ' (q.level.L * 0 + i) k|)
      omega
    have := hnorm _ (by omega : |mask toy q.level.gamma1 X.ρ' (q.level.L * 0 + i) k + mul c (x.s1 i) k| ≤ 4190208)
    rw [hz]
    omega
  · rw [hsX] at hi ⊢
    have := h2 i k hi hk
    rw [hr, hdec _ (by rw [abs_neg]; omega)]
    simp only [abs_neg]
    omega
  · rw [hsX] at hi ⊢
    have := h3 i k hi hk
    have h4 := hnorm (mul c (x.t0 i) k) (by omega)
    rw [hct]
    omega
  · rw [hsX]
    have : allIndices (X.h 0 c) q.level.K = [] := by
      rw [allIndices, List.flatMap_eq_nil_iff]
      intro i hi
      rw [List.mem_range] at hi
      rw [indices, List.filter_eq_nil_iff]
      intro k hk
      rw [List.mem_range] at hk
      have a2 := h2 i k hi hk
      have a3 := h3 i k hi hk
      have e := (hint_code hg (r := X.r 0 c i k) (ct := X.ct0 c i k) (by rw [hr, hdec _ (by rw [abs_neg]; omega)]; simp only [abs_neg]; omega)
        (by rw [hct, hnorm _ (by omega)]; omega)).1
      rw [Signing.h, hsX]
      unfold Spec.Dilithium.makeHint
      have hsum : X.r 0 c i k + X.ct0 c i k = ((mul c (x.t0 i) k - mul c (x.s2 i) k : Int) : F) := by
        rw [hr, hct, Int.cast_sub, Int.cast_neg, neg_add_eq_sub]
      have e1 : ((X.r 0 c i k + X.ct0 c i k).val : Int) % 8380417 = (((mul c (x.t0 i) k - mul c (x.s2 i) k : Int) : F).val : Int) := by
        rw [hsum]
        exact Int.emod_eq_of_lt (by omega) (by exact_mod_cast ZMod.val_lt _)
      have e2 : ((X.r 0 c i k + X.ct0 c i k).val + -((X.ct0 c i k).val : Int)) % 8380417 = (((-mul c (x.s2 i) k : Int) : F).val : Int) := by
        have h5 : (((X.r 0 c i k + X.ct0 c i k).val + -((X.ct0 c i k).val : Int) : Int) : F) = X.r 0 c i k := by
          push_cast
          rw [ZMod.natCast_zmod_val, ZMod.natCast_zmod_val]
          ring
        rw [← val_mod h5, ← hr]
      rw [e1, e2, highBits, highBits, hdec _ (by rw [abs_lt]; rw [abs_le] at a2 a3; omega), hdec _ (by rw [abs_neg]; omega)]
      simp
    rw [this]
    exact Nat.zero_le _

/-- For this permutation generation, signing and verification all end: the hypotheses of C70 to C72 can be met, with every parameter set, seed and message. -/
theorem toy_run (q : Par) {seed msg : List Byte} (hs : seed.length = 32) (hm : msg ≠ []) : ∃ (n₁ n₂ n₃ : Nat) (pk sk : Key) (x : SecretKey) (sig : List Byte),
    (Obj.new q).generate (fun s => .ok (toy s)) n₁ seed = .ok (pk, sk) ∧ IsKeyPair toy q.level seed x pk.bytes ∧ ((Obj.new q).initialize sk).sign (fun s => .ok (toy s)) n₂ msg [] = .ok (sig ++ msg) ∧
    IsSignature toy q.level x msg sig ∧ ((Obj.new q).initialize pk).verify (fun s => .ok (toy s)) n₃ (sig ++ msg) [] = .ok (some (true, msg)) := by
  have p := toyPerm
  have hsplit : Fips202.shake toy 136 seed 96 = List.replicate 32 0x10 ++ List.replicate 32 0x10 ++ List.replicate 32 0x10 := by rw [shake136]; decide +kernel
  obtain ⟨h1, h2⟩ := C70_generate_partial p (o := Obj.new q) rfl hs hsplit List.length_replicate List.length_replicate fun i _ => toy_enough q List.length_replicate i
  obtain ⟨n, hF⟩ := h2 ⟨_, toy_matrix _ _ List.length_replicate⟩
  obtain ⟨⟨pk, sk⟩, hg⟩ := hF n (le_refl n)
  obtain ⟨x, hx, hk⟩ := h1 n pk sk hg
  obtain ⟨hfit, ⟨a, ha, t1, _, _, ht⟩, ρ', hl, _, _, hs2⟩ := id hk
  have ht0 : ∀ i k, i < q.level.K → k < 256 → x.t0 i k = q.level.eta := fun i k hi hk => by
    have e1 : dot q.level.L a (fun j => red (x.s1 j)) i k = 0 := by
      rw [dot_congr (a' := fun _ _ _ => 0) (v' := fun j => red (x.s1 j)) (fun j k hj hk => matrix_unique p ha (toy_matrix _ _ hfit.ρ) hi hj hk) (fun _ _ _ _ => rfl), dot]
      exact sum_eq_zero fun j _ => by simp [Lattice.mul]
    have e2 := ht i k hi hk
    rw [e1, zero_add, red, toy_small q hl (hs2 i hi) hk] at e2
    have e3 : x.t0 i k = (Spec.Dilithium.power2Round ((((q.level.eta : Nat) : Int) : Spec.Dilithium.F).val)).2 := (congrArg Prod.snd e2)
    rw [e3]
    cases q <;> decide +kernel
  obtain ⟨sig0, hi⟩ := toy_signature q hfit ht0 msg
  rcases C70_keypair p (o := Obj.new q) (q := q) rfl n hs with ⟨pk', sk', _, e, hp1, hp2, hq1, hq2, _⟩ | e
  · rw [hg] at e
    cases e
    obtain ⟨G, hG⟩ := C72_sign_found p (initialize_signs (Obj.new q) hp2 hq2) (by rw [hx]; exact reads_bytes q.facts.std hfit) hfit.s2 hm hi
    rcases C70_roundtrip p rfl hs hg (Obj.new q) (Obj.new q) hm G [] with ⟨sig, e1, _, ⟨H, hH⟩, _⟩ | e1
    · have e2 := hG G (le_refl G) []
      rw [e1] at e2
      obtain rfl := List.append_cancel_right (Except.ok.inj e2)
      exact ⟨n, G, H, pk, sk, x, sig, hg, hk, e1, hi, hH H (le_refl H) []⟩
    · rw [hG G (le_refl G) []] at e1
      cases e1
  · rw [hg] at e
    cases e

/-- The empty message is not signed. -/
example : ((Obj.new .p2544).initialize ⟨false, some .p2544, List.replicate 2544 0⟩).sign (fun s => .ok (toy s)) 100 [] [] = .error (.throws .invalidParam) := by decide +kernel

end Cex.Dilithium
