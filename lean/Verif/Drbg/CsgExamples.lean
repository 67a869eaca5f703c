import Verif.Drbg.CsgProps

/-! # C62: the constructor with a caller's provider, and cases that meet the hypotheses -/

namespace Cex.Drbg
open Cex Cex.IntTools Stream Cex.Mac Cex.Keccak Csg

/-- The key 00 01 … 0F. -/
def key16 : List Byte := (List.range 16).map (BitVec.ofNat 8)

/-- The generator built as `CSG(SHAKE512, provider)` does not produce SHAKE512 of its key: its rate is one byte. -/
theorem C62_ctor_refuted : ∃ s s' out, (newProv .shake512).initKey (permute 24) key16 [] [] = .ok s ∧ s.generate (permute 24) [0, 0] 0 2 [] = .ok (s', out) ∧
    out ≠ Fips202.shake (Fips202.keccakP 24) 72 key16 2 ∧ s'.rate = 1 := by
  have key : ((do
      let s ← (newProv .shake512).initKey (permute 24) key16 [] []
      let r ← s.generate (permute 24) [0, 0] 0 2 []
      let s2 ← (new .shake512 false).initKey (permute 24) key16 [] []
      let q ← s2.generate (permute 24) [0, 0] 0 2 []
      return decide (r.2 ≠ q.2 ∧ r.1.rate = 1)) : M Bool) = .ok true := by decide +kernel
  obtain ⟨s, e1, key⟩ := bind_ok key
  obtain ⟨q, e2, key⟩ := bind_ok key
  obtain ⟨s2, e3, key⟩ := bind_ok key
  obtain ⟨q2, e4, key⟩ := bind_ok key
  have h : q.2 ≠ q2.2 ∧ q.1.rate = 1 := by simpa using Except.ok.inj key
  refine ⟨s, q.1, q.2, e1, e2, ?_, h.2⟩
  have := C62_output perm24 (r := 72) (by simp [CsgRate]) _ s2 q2.1 none (.new (m := .shake512) (prov := false) rfl) key16 [] [] (by decide) (by decide) (Or.inl ⟨rfl, rfl⟩) e3 [q2.2]
    (.cons (buf := [0, 0]) (ent := []) (by decide) e4 .nil) (Or.inl rfl)
  have hlen : q2.2.length = 2 := by
    have h2 := C62_generate perm24 (r := 72) (by simp [CsgRate]) s2 _ (.initKey (.new (m := .shake512) (prov := false) rfl) (by decide) (by decide) (Or.inl ⟨rfl, rfl⟩) e3) [] [0, 0] [] []
      (by decide) (by decide) (by
        obtain ⟨t, et, _, hp, _⟩ := C62_initialize perm24 (r := 72) (by simp [CsgRate]) (new .shake512 false) none (.new (m := .shake512) rfl) key16 [] [] (by decide) (by decide) (by decide) (Or.inl ⟨rfl, rfl⟩)
        rw [e3] at et; cases et
        intro h; rw [hp] at h; cases h)
    obtain ⟨⟨t, et, _⟩, _⟩ := h2
    have et : generate (permute 24) s2 [0, 0] 0 2 [] = _ := et
    rw [e4] at et
    have := Except.ok.inj et
    rw [this]
    show (([] : List Byte) ++ _ ++ []).length = 2
    rw [List.nil_append, List.append_nil, next_len perm24 (by decide) (by decide) _ (Shake.start_len perm24 (by decide) (by decide) _ _ _)]
    rfl
  rw [List.flatten_cons, List.flatten_nil, List.append_nil, hlen, Sp800185.cshake, if_pos ⟨rfl, rfl⟩] at this
  rw [← this]
  exact h.1

/-- With 197 bytes of info `Initialize` of that generator writes past the end of a local array. -/
theorem C62_ctor_overrun_refuted : (newProv .shake512).initKey (permute 24) key16 [] (List.replicate 197 0) = .error .ub := by
  have key : ((do let _ ← (newProv .shake512).initKey (permute 24) key16 [] (List.replicate 197 0); return true) : M Bool) = .error .ub := by decide +kernel
  cases h : (newProv .shake512).initKey (permute 24) key16 [] (List.replicate 197 0) with
  | error e => rw [h] at key; exact congrArg _ (Except.error.inj key)
  | ok s => rw [h] at key; cases key

/-- The customization fits for every nonce if the info has at most seven bytes, in particular without info. -/
theorem C62_fit {r : Nat} (hm : CsgRate r) (iv info : List Byte) (hi : info.length ≤ 7) (hc : 8 * iv.length < 2 ^ 64) : Shake.Fits r iv info := by
  obtain ⟨h20, hr, _⟩ := hm.facts
  exact Shake.fits_short h20 hr hi hc

/-- A reachable case: two requests of unequal size on a generator with nonce. -/
example : ∃ s s1 s2 a b, Csg.Run (permute 24) (Fips202.keccakP 24) 136 s (some (.first (Fips202.keccakP 24) 136 key16 [1, 2, 3] [])) ∧
    s.generate (permute 24) (List.replicate 5 0) 0 5 [] = .ok (s1, a) ∧ s1.generate (permute 24) (List.replicate 200 0) 0 200 [] = .ok (s2, b) ∧
    a ++ b = Sp800185.cshake (Fips202.keccakP 24) 136 key16 205 [] [1, 2, 3] := by
  have hm : CsgRate 136 := by simp [CsgRate]
  obtain ⟨s, e, hrun, hp, _⟩ := C62_initialize perm24 hm (new .shake256 false) none (.new (m := .shake256) rfl) key16 [1, 2, 3] [] (by decide) (by decide) (by decide)
    (C62_fit hm _ _ (by decide) (by decide))
  have hp : s.prov = false := hp
  obtain ⟨⟨s1, e1, r1, p1, _⟩, _⟩ := C62_generate perm24 hm s _ hrun [] (List.replicate 5 0) [] [] (by decide) (by decide) (by intro h; rw [hp] at h; cases h)
  rw [hp] at p1
  obtain ⟨⟨s2, e2, _⟩, _⟩ := C62_generate perm24 hm s1 _ r1 [] (List.replicate 200 0) [] [] (by decide +kernel) (by decide +kernel) (by intro h; rw [p1] at h; cases h)
  simp only [List.nil_append, List.append_nil, List.length_replicate, List.length_nil] at e1 e2
  refine ⟨s, s1, s2, _, _, hrun, e1, e2, ?_⟩
  have h := C62_output perm24 hm _ s s2 none (.new (m := .shake256) (prov := false) rfl) key16 [1, 2, 3] [] (by decide) (by decide) (C62_fit hm _ _ (by decide) (by decide)) e
    [_, _] (.cons (buf := List.replicate 5 0) (ent := []) (by decide) e1 (.cons (buf := List.replicate 200 0) (ent := []) (by rw [List.length_replicate]; decide) e2 .nil)) (Or.inl rfl)
  have hl1 := next_len perm24 (r := 136) (by decide) (by decide) (.first (Fips202.keccakP 24) 136 key16 [1, 2, 3] []) (Shake.start_len perm24 (by decide) (by decide) _ _ _) 5
  simp only [List.flatten_cons, List.flatten_nil, List.append_nil, List.length_append] at h
  rw [hl1, next_len perm24 (r := 136) (by decide) (by decide)] at h
  · exact h
  · rw [hp]; exact Shake.start_len perm24 (by decide) (by decide) _ _ _

end Cex.Drbg
