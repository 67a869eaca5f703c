import Verif.Drbg.HcgLemmas
import Verif.Drbg.CsgProps

/-! # C63 The random bit generator HCG -/

namespace Cex.Drbg
open Cex Cex.Digest Cex.Mac Cex.IntTools Stream

variable {D : DigestOps} {H : List Byte → List Byte} {ok : Nat → Prop} {Has : D.σ → List Byte → Prop}

namespace Hcg

/-- `Run H Has s g`: `s` is reachable; `g` is the epoch since the last `Initialize`, or `none` before the first. -/
inductive Run (H : List Byte → List Byte) (Has : D.σ → List Byte → Prop) : Hcg D → Option HEpoch → Prop
  | new {dg name prov} : Has dg [] → Run H Has (new dg name prov) none
  | threshold {s g t} : Run H Has s g → t ≤ 2 ^ 63 → Run H Has (s.setThreshold t) g
  | initKey {s s' g key iv info} : Run H Has s g → key.length < 2 ^ 59 → iv.length < 2 ^ 64 → (Chain.codeString D.block s.name info).length < 0xFF00 → s.initKey key iv info = .ok s' →
      Run H Has s' (some (.first H D.block key (Chain.codeString D.block s.name info) iv))
  | update {s s' g key} : Run H Has s (some g) → key.length < 2 ^ 59 → s.update key = .ok s' → Run H Has s' (some (g.updated H D.block key))
  | generate {s s' g out oo len ent out'} : Run H Has s (some g) → out.length < 2 ^ 64 → oo ≤ out.length → ent.length = D.size → s.generate out oo len ent = .ok (s', out') →
      Run H Has s' (some (g.after H D.block s.prov s.threshold len ent))
  | generateSecure {s s' g out oo len ent out'} : Run H Has s (some g) → out.length < 2 ^ 64 → oo ≤ out.length → ent.length = D.size → s.generateSecure out oo len ent = .ok (s', out') →
      Run H Has s' (some (g.after H D.block s.prov s.threshold len ent))

/-- What holds in every reachable state. -/
structure Inv (H : List Byte → List Byte) (Has : D.σ → List Byte → Prop) (s : Hcg D) (g : Option HEpoch) : Prop where
  small : s.counter ≤ 2 ^ 63 + 102400000
  thr : s.threshold ≤ 2 ^ 63
  blen : s.buf.length = D.size
  nlen : s.nonce.length = 8
  mac : ∃ x, s.mac.Inv H Has x
  start : g = none → s.init = false
  keyed : ∀ e, g = some e → s.init = true ∧ s.In H Has e ∧ s.counter = e.count ∧ s.reseed = e.m

theorem new_inv (t : Two D H ok Has) (dg : D.σ) (h : Has dg []) (name : List Byte) (prov : Bool) : Inv H Has (new dg name prov) none :=
  ⟨Nat.zero_le _, by show 102400000 ≤ _; omega, by show (List.replicate (D.block / 2) (0 : Byte)).length = _; rw [List.length_replicate, t.div], rfl,
    ⟨none, by simp [Hcg.new, Hmac.fresh], by simp [Hcg.new, Hmac.fresh], (fun _ => ⟨rfl, h⟩), (fun _ _ e => by cases e)⟩, fun _ => rfl, by intro _ e; cases e⟩

/-- The nonce after a caller's nonce was copied. -/
theorem iv_eq (iv : List Byte) : (if iv.length ≠ 0 then copy iv 0 (List.replicate 8 0) 0 (min iv.length 8) else pure (List.replicate 8 0) : M (List Byte)) =
    .ok (iv.take 8 ++ List.replicate (8 - iv.length) 0) := by
  by_cases h : iv.length = 0
  · rw [if_neg (by simpa using h), List.eq_nil_of_length_eq_zero h]; rfl
  · rw [if_pos h]
    have hs : (List.replicate 8 0 : List Byte) = [] ++ List.replicate (min iv.length 8) 0 ++ List.replicate (8 - iv.length) 0 := by
      rw [List.nil_append, ← List.replicate_add]; congr 1; omega
    have hl : (iv.take 8).length = min iv.length 8 := by rw [List.length_take, Nat.min_comm]
    rw [hs, copy_at (a := []) (off := 0) (Keccak.holds_take iv 8) rfl hl.symm (by rw [List.length_replicate, hl])]
    simp

theorem codeOf_eq (D : DigestOps) (name info : List Byte) : codeOf D name info = Chain.codeString D.block name info := rfl

theorem initKey_inv (t : Two D H ok Has) {s : Hcg D} {g} (h : Inv H Has s g) {key iv info : List Byte} (hk : 16 ≤ key.length) (hk2 : key.length < 2 ^ 59)
    (hc : (Chain.codeString D.block s.name info).length < 0xFF00) :
    ∃ s', s.initKey key iv info = .ok s' ∧ Inv H Has s' (some (.first H D.block key (Chain.codeString D.block s.name info) iv)) ∧ s'.prov = s.prov ∧ s'.threshold = s.threshold ∧ s'.name = s.name := by
  rw [← codeOf_eq D s.name info] at hc ⊢
  have hsm := t.small
  have hha := t.half
  obtain ⟨x, hm⟩ := h.mac
  obtain ⟨m1, e1, i1⟩ := hmac_init_inv t.g (keyOk := macKeyOk) hm (k := key) (by omega) (t.ok _ (by omega)) (decide_eq_true (by omega))
  obtain ⟨m2, e2, i2⟩ := mac_update t.g i1 (codeOf D s.name info) (by omega)
  obtain ⟨c, hcd⟩ : ∃ c, c = (beVal (iv.take 8 ++ List.replicate (8 - iv.length) 0) + (codeOf D s.name info).length) % 2 ^ 64 := ⟨_, rfl⟩
  obtain ⟨m3, e3, i3⟩ := mac_update t.g i2 (beEnc 8 c) (by rw [beEnc_length]; omega)
  obtain ⟨m4, e4, i4⟩ := mac_final t i3 (by simp only [List.length_append, List.length_nil, beEnc_length]; omega) [] (List.replicate D.size 0) [] List.length_replicate
    (by simp only [List.length_append, List.length_nil, List.length_replicate]; omega)
  simp only [List.nil_append, List.append_nil, List.length_nil] at e4 i4
  have hnl : (iv.take 8 ++ List.replicate (8 - iv.length) (0 : Byte)).length = 8 := by rw [List.length_append, List.length_take, List.length_replicate]; omega
  have hn : beIncrease8InPlace 4 (iv.take 8 ++ List.replicate (8 - iv.length) 0) (BitVec.ofNat 32 (codeOf D s.name info).length) = .ok (beEnc 8 c) := by
    have h8 := beEnc_beVal (iv.take 8 ++ List.replicate (8 - iv.length) (0 : Byte))
    rw [hnl] at h8
    have := nonce_eq (beVal (iv.take 8 ++ List.replicate (8 - iv.length) 0)) _ hc
    rw [h8] at this
    rw [this, hcd]
  have hlen := hmac_length t.g key (codeOf D s.name info ++ beEnc 8 c)
  rw [initKey, if_neg (by omega), Keccak.clear_all s.buf s.buf.length rfl, ok_bind, Keccak.clear_all s.nonce s.nonce.length rfl, ok_bind]
  simp only [List.length_replicate]
  rw [h.nlen, iv_eq, ok_bind, e1, ok_bind, hn, ok_bind, e2, ok_bind, e3, ok_bind, h.blen, e4, ok_bind]
  refine ⟨_, rfl, ⟨Nat.zero_le _, h.thr, hlen, by show (beEnc 8 c).length = 8; rw [beEnc_length], ⟨_, i4⟩, (by intro e; cases e), ?_⟩, rfl, rfl, rfl⟩
  intro e he
  cases he
  refine ⟨rfl, ⟨i4, ?_, ?_, rfl, hc, by rw [hcd]; rfl, rfl, Nat.zero_le _⟩, rfl, rfl⟩
  · rw [hcd]; rfl
  · rw [hcd] at hlen; exact hlen

theorem update_inv (t : Two D H ok Has) {s : Hcg D} {g : HEpoch} (h : Inv H Has s (some g)) {key : List Byte} (hk : D.block / 4 ≤ key.length) (hk2 : key.length < 2 ^ 59) (hm : s.reseed < 10000) :
    ∃ s', s.update key = .ok s' ∧ Inv H Has s' (some (g.updated H D.block key)) ∧ s'.prov = s.prov ∧ s'.threshold = s.threshold ∧ s'.name = s.name := by
  have hsm := t.small
  have hha := t.half
  obtain ⟨hi, i, hc, hr⟩ := h.keyed g rfl
  obtain ⟨m1, e1, i1⟩ := mac_update t.g i.mac key (by omega)
  obtain ⟨m2, e2, i2⟩ := mac_final t i1 (by rw [List.nil_append]; omega) [] (List.replicate D.size 0) (List.replicate D.size 0) List.length_replicate
    (by simp only [List.length_append, List.length_nil, List.length_replicate]; omega)
  simp only [List.nil_append, List.length_nil] at e2 i2
  have hz : (List.replicate D.block 0 : List Byte) = List.replicate D.size 0 ++ List.replicate D.size 0 := by rw [← List.replicate_add]; congr 1; omega
  have i3 : In H Has { s with mac := m2, reseed := s.reseed + 1 } g := ⟨i2, i.buf, i.vlen, i.code, i.csmall, i.nonce, i.cached, i.left⟩
  obtain ⟨s', e3, i4, k⟩ := rekey_in t i3 (Rfc2104.hmac H D.block g.K key) (List.replicate D.size 0) (hmac_length t.g _ _) List.length_replicate
  rw [update, if_neg (by rw [strength, Nat.mul_div_cancel _ (by omega), if_neg (by omega)]; simp), if_neg (by omega), e1, ok_bind, hz, e2, ok_bind, e3]
  refine ⟨s', rfl, ⟨?_, ?_, ?_, ?_, ⟨_, i4.mac⟩, (by intro e; cases e), ?_⟩, k.prov, k.threshold, k.name⟩
  · rw [k.counter]; exact h.small
  · rw [k.threshold]; exact h.thr
  · rw [i4.buf, i4.vlen]
  · rw [i4.nonce, beEnc_length]
  · intro e he
    cases he
    refine ⟨?_, ⟨i4.mac, i4.buf, i4.vlen, i4.code, i4.csmall, i4.nonce, i4.cached, i4.left⟩, ?_, ?_⟩
    · rw [k.init]; exact hi
    · rw [k.counter]; exact hc
    · rw [k.reseed]; show s.reseed + 1 = g.m + 1; rw [hr]

/-- The condition under which the end of `Generate` does not throw. -/
def Room (s : Hcg D) (g : HEpoch) (len : Nat) : Prop := s.prov = true → s.threshold ≤ g.count + len → g.m < 10000

theorem pull_count (B : Nat) (g : HEpoch) (n : Nat) : (g.pull H B n).2.count = g.count ∧ (g.pull H B n).2.m = g.m := by
  have hb : ∀ n (g : HEpoch), (g.blocks H B n).2.count = g.count ∧ (g.blocks H B n).2.m = g.m := by
    intro n
    induction n using Nat.strongRecOn with
    | ind n ih =>
      intro g
      rw [HEpoch.blocks]
      split
      · exact ⟨rfl, rfl⟩
      · split
        · exact ⟨rfl, rfl⟩
        · exact ih _ (by omega) _
  rw [HEpoch.pull]
  split
  · exact ⟨rfl, rfl⟩
  · have := hb (n - g.left) { g with left := 0 }
    simp only []
    rw [HEpoch.wiped]
    split <;> exact this

theorem derive_in (t : Two D H ok Has) {s : Hcg D} {g : HEpoch} (h : s.In H Has g) (ent : List Byte) (he : ent.length = D.size) :
    ∃ s', s.derive ent = .ok s' ∧ s'.In H Has (g.rekeyed H D.block ent) ∧ Same s s' := by
  have hha := t.half
  have hz : (List.replicate D.block 0 : List Byte) = [] ++ List.replicate D.size 0 ++ List.replicate D.size 0 := by rw [List.nil_append, ← List.replicate_add]; congr 1; omega
  obtain ⟨s', e, i, k⟩ := rekey_in t h ent (List.replicate D.size 0) he List.length_replicate
  rw [derive, hz, t.div, copy_at (a := []) (off := 0) (Holds.self ent) rfl he.symm (by rw [List.length_replicate, he]), ok_bind, List.nil_append, e]
  exact ⟨s', rfl, i, k⟩

theorem generate_inv (t : Two D H ok Has) {s : Hcg D} {g : HEpoch} (h : Inv H Has s (some g)) (pre junk post ent : List Byte)
    (hl : (pre ++ junk ++ post).length < 2 ^ 64) (hq : junk.length ≤ 102400000) (he : ent.length = D.size) (hroom : Room s g junk.length) :
    ∃ s', s.generate (pre ++ junk ++ post) pre.length junk.length ent = .ok (s', pre ++ (g.pull H D.block junk.length).1 ++ post) ∧
      Inv H Has s' (some (g.after H D.block s.prov s.threshold junk.length ent)) ∧ s'.prov = s.prov ∧ s'.threshold = s.threshold ∧ s'.name = s.name := by
  obtain ⟨hi, i, hc, hre⟩ := h.keyed g rfl
  obtain ⟨s1, e1, i1, k1⟩ := expand_in t i pre junk post
  have hsub : subU (pre ++ junk ++ post).length pre.length = junk.length + post.length := by
    rw [subU_le (by simp only [List.length_append]; omega) (by omega)]; simp only [List.length_append]; omega
  rw [generate, if_neg (by simp [hi]), if_neg (by omega), if_neg (by omega), e1, ok_bind]
  simp only []
  have hsmall := h.small
  have hthr := h.thr
  have hcnt : s1.counter = g.count := by rw [k1.counter]; exact hc
  have hres : s1.reseed = g.m := by rw [k1.reseed]; exact hre
  have hini : s1.init = true := by rw [k1.init]; exact hi
  have hpr : s1.prov = s.prov := k1.prov
  have htr : s1.threshold = s.threshold := k1.threshold
  obtain ⟨pc, pm⟩ := pull_count (H := H) D.block g junk.length
  rw [checkReseed]
  by_cases hp : s.prov = true
  · rw [if_pos (by rw [hpr]; exact hp), Nat.mod_eq_of_lt (by omega)]
    simp only []
    by_cases ht : s.threshold ≤ g.count + junk.length
    · rw [if_pos (by omega), if_neg (by have := hroom hp ht; omega)]
      have i2 : In H Has { s1 with counter := s1.counter + junk.length, reseed := s1.reseed + 1 } (g.pull H D.block junk.length).2 :=
        ⟨i1.mac, i1.buf, i1.vlen, i1.code, i1.csmall, i1.nonce, i1.cached, i1.left⟩
      obtain ⟨s3, e3, i3, k3⟩ := derive_in t i2 ent he
      rw [e3, ok_bind]
      refine ⟨_, rfl, ⟨Nat.zero_le _, ?_, by show s3.buf.length = _; rw [i3.buf, i3.vlen], by show s3.nonce.length = 8; rw [i3.nonce, beEnc_length], ⟨_, i3.mac⟩, (by intro e; cases e), ?_⟩, k3.prov.trans hpr, k3.threshold.trans htr, k3.name.trans k1.name⟩
      · show s3.threshold ≤ _; rw [k3.threshold]; show s1.threshold ≤ _; omega
      · intro e he
        cases he
        rw [HEpoch.after]
        simp only []
        rw [if_neg (by simp [hp]), if_neg (by omega)]
        refine ⟨k3.init.trans hini, ⟨i3.mac, i3.buf, i3.vlen, i3.code, i3.csmall, i3.nonce, i3.cached, i3.left⟩, rfl, ?_⟩
        show s3.reseed = g.m + 1
        rw [k3.reseed, ← hres]
    · rw [if_neg (by omega)]
      refine ⟨_, rfl, ⟨by show s1.counter + junk.length ≤ _; omega, by show s1.threshold ≤ _; omega, by show s1.buf.length = _; rw [i1.buf, i1.vlen], by show s1.nonce.length = 8; rw [i1.nonce, beEnc_length], ⟨_, i1.mac⟩, (by intro e; cases e), ?_⟩, hpr, htr, k1.name⟩
      intro e he
      cases he
      rw [HEpoch.after]
      simp only []
      rw [if_neg (by simp [hp]), if_pos (by omega)]
      exact ⟨hini, ⟨i1.mac, i1.buf, i1.vlen, i1.code, i1.csmall, i1.nonce, i1.cached, i1.left⟩, by show s1.counter + junk.length = g.count + junk.length; rw [hcnt], by rw [hres]; exact pm.symm⟩
  · rw [if_neg (by rw [hpr]; exact hp)]
    refine ⟨_, rfl, ⟨by show s1.counter ≤ _; omega, by show s1.threshold ≤ _; omega, by show s1.buf.length = _; rw [i1.buf, i1.vlen], by show s1.nonce.length = 8; rw [i1.nonce, beEnc_length], ⟨_, i1.mac⟩, (by intro e; cases e), ?_⟩, hpr, htr, k1.name⟩
    intro e he
    cases he
    rw [HEpoch.after]
    simp only []
    rw [if_pos (by simpa using hp)]
    exact ⟨hini, i1, by rw [hcnt, pc], by rw [hres, pm]⟩

theorem blocks_len (t : Two D H ok Has) (n : Nat) : ∀ g : HEpoch, (g.blocks H D.block n).1.length = n := by
  have hdiv := t.div
  have hpos := t.pos
  induction n using Nat.strongRecOn with
  | ind n ih =>
    intro g
    have hv : (g.fill H D.block).V.length = D.size := hmac_length t.g _ _
    rw [HEpoch.blocks]
    split
    · rename_i h; subst h; rfl
    · split
      · rw [List.length_take]; omega
      · simp only [List.length_append]
        rw [ih _ (by omega), hv]; omega

theorem pull_len (t : Two D H ok Has) {g : HEpoch} (hv : g.V.length = D.size) (hg : g.left ≤ D.size) (n : Nat) : (g.pull H D.block n).1.length = n := by
  have hdiv := t.div
  rw [HEpoch.pull]
  split
  · rw [List.length_take, List.length_drop]; omega
  · simp only [List.length_append, List.length_drop]
    rw [blocks_len t]; omega

theorem generateSecure_inv (t : Two D H ok Has) {s : Hcg D} {g : HEpoch} (h : Inv H Has s (some g)) (pre junk post ent : List Byte)
    (hl : (pre ++ junk ++ post).length < 2 ^ 64) (hq : junk.length ≤ 102400000) (he : ent.length = D.size) (hroom : Room s g junk.length) :
    ∃ s', s.generateSecure (pre ++ junk ++ post) pre.length junk.length ent = .ok (s', pre ++ (g.pull H D.block junk.length).1 ++ post) ∧
      Inv H Has s' (some (g.after H D.block s.prov s.threshold junk.length ent)) ∧ s'.prov = s.prov ∧ s'.threshold = s.threshold ∧ s'.name = s.name := by
  obtain ⟨s1, e1, i1⟩ := generate_inv t h [] (List.replicate junk.length 0) [] ent (by simp only [List.length_append, List.length_replicate, List.length_nil]; omega)
    (by rw [List.length_replicate]; exact hq) he (by rw [List.length_replicate]; exact hroom)
  simp only [List.nil_append, List.append_nil, List.length_replicate, List.length_nil] at e1 i1
  obtain ⟨_, i, _⟩ := h.keyed g rfl
  have hpl := pull_len t i.vlen i.left junk.length
  rw [generateSecure, subU_le (by simp only [List.length_append]; omega) hl, if_neg (by simp only [List.length_append]; omega), e1, ok_bind]
  simp only []
  rw [copy_at (Holds.self _) rfl rfl hpl.symm, ok_bind]
  exact ⟨s1, rfl, i1⟩

/-- A call that succeeded stayed in the output and below the limits. -/
theorem generate_ok (t : Two D H ok Has) {s : Hcg D} {g : HEpoch} (h : Inv H Has s (some g)) {out ent : List Byte} {oo len : Nat} {q} (e : s.generate out oo len ent = .ok q)
    (ho : oo ≤ out.length) (hl : out.length < 2 ^ 64) : oo + len ≤ out.length ∧ len ≤ 102400000 ∧ Room s g len := by
  rw [generate] at e
  split at e
  · cases e
  · split at e
    · cases e
    · rename_i h1
      rw [subU_le ho hl] at h1
      split at e
      · cases e
      · rename_i h2
        refine ⟨by omega, by omega, ?_⟩
        intro hp ht
        obtain ⟨hi, i, hc, hre⟩ := h.keyed g rfl
        obtain ⟨pre, junk, post, rfl, rfl, rfl⟩ := Keccak.Shake.split3 (show oo + len ≤ out.length by omega)
        obtain ⟨s1, e1, i1, k1⟩ := expand_in t i pre junk post
        have hsmall := h.small
        rw [e1, ok_bind] at e
        obtain ⟨s2, e2, _⟩ := bind_ok e
        have hcnt : s1.counter = g.count := by rw [k1.counter]; exact hc
        have hres : s1.reseed = g.m := by rw [k1.reseed]; exact hre
        simp only [] at e2
        rw [checkReseed, k1.prov, hcnt, k1.threshold, hres, if_pos hp, Nat.mod_eq_of_lt (by omega)] at e2
        simp only [] at e2
        rw [if_pos ht] at e2
        split at e2
        · cases e2
        · omega

theorem update_ok {s : Hcg D} {key : List Byte} {q} (e : s.update key = .ok q) : D.block / 4 ≤ key.length ∧ s.reseed < 10000 := by
  rw [update, strength, Nat.mul_div_cancel _ (by omega)] at e
  by_cases h : key.length < D.block / 4
  · rw [if_pos h, if_pos (by decide)] at e; cases e
  · rw [if_neg h, if_neg (by decide)] at e
    split at e
    · cases e
    · omega

theorem Run.inv (t : Two D H ok Has) {s : Hcg D} {g} (h : Run H Has s g) : Inv H Has s g := by
  induction h with
  | new h => exact new_inv t _ h _ _
  | threshold _ ht ih => exact ⟨ih.small, ht, ih.blen, ih.nlen, ih.mac, ih.start, fun e he => by
      obtain ⟨a, i, b⟩ := ih.keyed e he
      exact ⟨a, ⟨i.mac, i.buf, i.vlen, i.code, i.csmall, i.nonce, i.cached, i.left⟩, b⟩⟩
  | @initKey s s' g key iv info _ hk2 hi hc e ih =>
    have hk : 16 ≤ key.length := by
      rw [Hcg.initKey] at e; split at e
      · cases e
      · omega
    obtain ⟨s1, e1, i1, _⟩ := initKey_inv t ih (iv := iv) hk hk2 hc
    rw [e] at e1; cases e1; exact i1
  | @update s s' g key _ hk2 e ih =>
    obtain ⟨h1, h2⟩ := update_ok e
    obtain ⟨s1, e1, i1, _⟩ := update_inv t ih h1 hk2 h2
    rw [e] at e1; cases e1; exact i1
  | @generate s s' g out oo len ent out' _ hl ho he e ih =>
    obtain ⟨h1, h2, h3⟩ := generate_ok t ih e ho hl
    obtain ⟨pre, junk, post, rfl, rfl, rfl⟩ := Keccak.Shake.split3 h1
    obtain ⟨s1, e1, i1, _⟩ := generate_inv t ih pre junk post ent hl h2 he h3
    rw [e] at e1; cases e1; exact i1
  | @generateSecure s s' g out oo len ent out' _ hl ho he e ih =>
    have e' := e
    rw [Hcg.generateSecure, subU_le ho hl] at e
    split at e
    · cases e
    · obtain ⟨q, e1, e⟩ := bind_ok e
      obtain ⟨_, h2, h3⟩ := generate_ok t ih e1 (Nat.zero_le _) (by rw [List.length_replicate]; omega)
      obtain ⟨pre, junk, post, rfl, rfl, rfl⟩ := Keccak.Shake.split3 (show oo + len ≤ out.length by omega)
      obtain ⟨s1, e1, i1, _⟩ := generateSecure_inv t ih pre junk post ent hl h2 he h3
      rw [e'] at e1; cases e1; exact i1

end Hcg

open Hcg

/-- Whatever happened before, `Initialize` with at least 16 key bytes starts the chain of the key, the code and the nonce. -/
theorem C63_initialize (t : Two D H ok Has) (s : Hcg D) (g) (h : Hcg.Run H Has s g) (key iv info : List Byte) (hk : 16 ≤ key.length) (hk2 : key.length < 2 ^ 59)
    (hi : iv.length < 2 ^ 64) (hc : (Chain.codeString D.block s.name info).length < 0xFF00) :
    ∃ s', s.initKey key iv info = .ok s' ∧ Hcg.Run H Has s' (some (.first H D.block key (Chain.codeString D.block s.name info) iv)) ∧ s'.prov = s.prov ∧ s'.threshold = s.threshold ∧ s'.name = s.name := by
  obtain ⟨s', e, _, h1⟩ := Hcg.initKey_inv t (h.inv t) (iv := iv) hk hk2 hc
  exact ⟨s', e, .initKey h hk2 hi hc e, h1⟩

/-- Both overloads of `Generate` return what the state machine `pull` returns, write nothing else, and reseed exactly when a provider is present and the threshold is reached. -/
theorem C63_generate (t : Two D H ok Has) (s : Hcg D) (g : HEpoch) (h : Hcg.Run H Has s (some g)) (pre junk post ent : List Byte) (hl : (pre ++ junk ++ post).length < 2 ^ 64)
    (hq : junk.length ≤ 102400000) (he : ent.length = D.size) (hroom : Hcg.Room s g junk.length) :
    (∃ s', s.generate (pre ++ junk ++ post) pre.length junk.length ent = .ok (s', pre ++ (g.pull H D.block junk.length).1 ++ post) ∧
      Hcg.Run H Has s' (some (g.after H D.block s.prov s.threshold junk.length ent)) ∧ s'.prov = s.prov ∧ s'.threshold = s.threshold ∧ s'.name = s.name) ∧
    (∃ s', s.generateSecure (pre ++ junk ++ post) pre.length junk.length ent = .ok (s', pre ++ (g.pull H D.block junk.length).1 ++ post) ∧
      Hcg.Run H Has s' (some (g.after H D.block s.prov s.threshold junk.length ent)) ∧ s'.prov = s.prov ∧ s'.threshold = s.threshold ∧ s'.name = s.name) := by
  have i := h.inv t
  obtain ⟨s1, e1, _, h1⟩ := Hcg.generate_inv t i pre junk post ent hl hq he hroom
  obtain ⟨s2, e2, _, h2⟩ := Hcg.generateSecure_inv t i pre junk post ent hl hq he hroom
  exact ⟨⟨s1, e1, .generate h hl (by simp only [List.length_append]; omega) he e1, h1⟩, ⟨s2, e2, .generateSecure h hl (by simp only [List.length_append]; omega) he e2, h2⟩⟩

/-- `Update` with at least a quarter block of key, fewer than 10000 times since `Initialize`, replaces the key: the first half is the HMAC of the new key under the old one. -/
theorem C63_update (t : Two D H ok Has) (s : Hcg D) (g : HEpoch) (h : Hcg.Run H Has s (some g)) (key : List Byte) (hk : D.block / 4 ≤ key.length) (hk2 : key.length < 2 ^ 59) (hres : g.m < 10000) :
    ∃ s', s.update key = .ok s' ∧ Hcg.Run H Has s' (some (g.updated H D.block key)) ∧ s'.prov = s.prov ∧ s'.threshold = s.threshold ∧ s'.name = s.name := by
  have i := h.inv t
  obtain ⟨s', e, _, h1⟩ := Hcg.update_inv t i hk hk2 (by rw [(i.keyed g rfl).2.2.2]; exact hres)
  exact ⟨s', e, .update h hk2 e, h1⟩

/-- The limits are enforced. -/
theorem C63_limits (t : Two D H ok Has) (s : Hcg D) (g) (h : Hcg.Run H Has s g) (out ent : List Byte) (oo len : Nat) (key : List Byte) (hl : out.length < 2 ^ 64) (ho : oo ≤ out.length) :
    (g = none → s.generate out oo len ent = .error (.throws .notInitialized)) ∧
    (∀ e, g = some e → len ≤ out.length - oo → 102400000 < len → s.generate out oo len ent = .error (.throws .maxExceeded)) ∧
    (∀ e, g = some e → out.length - oo < len → s.generate out oo len ent = .error (.throws .invalidSize)) ∧
    (∀ e, g = some e → D.block / 4 ≤ key.length → 10000 ≤ e.m → s.update key = .error (.throws .maxExceeded)) ∧
    (key.length < D.block / 4 → s.update key = .error (.throws .invalidKey)) := by
  have i := h.inv t
  refine ⟨?_, ?_, ?_, ?_, ?_⟩
  · intro hi; rw [Hcg.generate, if_pos (i.start hi)]; rfl
  · intro e he h1 h2
    have := (i.keyed e he).1
    rw [Hcg.generate, if_neg (by simp [this]), subU_le ho hl, if_neg (by omega), if_pos h2]; rfl
  · intro e he h1
    have := (i.keyed e he).1
    rw [Hcg.generate, if_neg (by simp [this]), subU_le ho hl, if_pos h1]; rfl
  · intro e he h1 h2
    have := (i.keyed e he).2.2.2
    rw [Hcg.update, if_neg (by rw [Hcg.strength, Nat.mul_div_cancel _ (by omega), if_neg (by omega)]; simp), if_pos (by omega)]; rfl
  · intro h1; rw [Hcg.update, if_pos (by rw [Hcg.strength, Nat.mul_div_cancel _ (by omega), if_pos (by omega)]; simp)]; rfl

/-! ## The stream -/

/-- Enough blocks are enough. -/
theorem flat_take {F : Nat → List Byte} {z : Nat} (hz : 0 < z) (hF : ∀ i, (F i).length = z) {m k : Nat} (h : m ≤ k) : ((List.range k).flatMap F).take m = ((List.range m).flatMap F).take m := by
  obtain ⟨j, rfl⟩ : ∃ j, k = m + j := ⟨k - m, by omega⟩
  have hlen : ∀ n, ((List.range n).flatMap F).length = n * z := by
    intro n
    induction n with
    | zero => simp
    | succ n ih => rw [List.range_succ, List.flatMap_append, List.length_append, ih]; simp [hF, Nat.succ_mul]
  rw [List.range_add, List.flatMap_append, List.take_append_of_le_length (by rw [hlen]; exact Nat.le_mul_of_pos_right _ hz)]

theorem repeat_step (B : Nat) (n : Nat) (x : Chain) : Nat.repeat (Chain.step H B) n (x.step H B) = Nat.repeat (Chain.step H B) (n + 1) x := by
  induction n with
  | zero => rfl
  | succ n ih => rw [Nat.repeat, ih]; rfl

/-- The stream, block by block. -/
theorem stream_cons (t : Two D H ok Has) (x : Chain) (n : Nat) (h : D.size ≤ n) : x.stream H D.block n = (x.step H D.block).V ++ (x.step H D.block).stream H D.block (n - D.size) := by
  have hpos := t.pos
  have hv : ∀ y : Chain, (y.step H D.block).V.length = D.size := fun y => hmac_length t.g _ _
  rw [Chain.stream, Chain.stream]
  obtain ⟨k, rfl⟩ : ∃ k, n = k + 1 := ⟨n - 1, by omega⟩
  rw [List.range_succ_eq_map, List.flatMap_cons, List.take_append, show (Nat.repeat (Chain.step H D.block) (0 + 1) x).V = (x.step H D.block).V from rfl, hv]
  rw [List.take_of_length_le (by rw [hv]; omega), List.flatMap_map]
  congr 1
  rw [flat_take hpos (fun i => by rw [Nat.repeat]; exact hv _) (show k + 1 - D.size ≤ k by omega)]
  congr 1
  apply List.flatMap_congr
  intro i _
  rw [repeat_step]

theorem stream_small (t : Two D H ok Has) (x : Chain) (n : Nat) (h : n ≤ D.size) : x.stream H D.block n = (x.step H D.block).V.take n := by
  have hv : (x.step H D.block).V.length = D.size := hmac_length t.g _ _
  rw [Chain.stream]
  rcases n with _ | k
  · rfl
  · rw [List.range_succ_eq_map, List.flatMap_cons, List.take_append, show (Nat.repeat (Chain.step H D.block) (0 + 1) x).V = (x.step H D.block).V from rfl, hv, show k + 1 - D.size = 0 by omega]
    simp

/-- New blocks are the stream. -/
theorem blocks_stream (t : Two D H ok Has) (n : Nat) : ∀ g : HEpoch, (g.blocks H D.block n).1 = g.toChain.stream H D.block n := by
  have hdiv := t.div
  have hpos := t.pos
  induction n using Nat.strongRecOn with
  | ind n ih =>
    intro g
    rw [HEpoch.blocks]
    split
    · rename_i h; subst h; rfl
    · split
      · rw [stream_small t _ _ (by omega)]; rfl
      · simp only []
        rw [ih _ (by omega), stream_cons t _ n (by omega), hdiv]; rfl

/-- After whole blocks nothing is left over, and the stream goes on where it stopped. -/
theorem blocks_whole (t : Two D H ok Has) (q : Nat) : ∀ g : HEpoch, g.left = 0 → ((g.blocks H D.block (q * D.size)).2.left = 0 ∧
    ∀ m, g.toChain.stream H D.block (q * D.size + m) = g.toChain.stream H D.block (q * D.size) ++ (g.blocks H D.block (q * D.size)).2.toChain.stream H D.block m) := by
  have hdiv := t.div
  have hpos := t.pos
  induction q with
  | zero =>
    intro g hg
    rw [HEpoch.blocks, if_pos (by omega)]
    exact ⟨hg, fun m => by rw [Nat.zero_mul, Nat.zero_add]; rfl⟩
  | succ q ih =>
    intro g hg
    have hmul : (q + 1) * D.size = q * D.size + D.size := Nat.succ_mul _ _
    rw [HEpoch.blocks, if_neg (by omega)]
    by_cases hq : (q + 1) * D.size ≤ D.block / 2 ∨ D.block / 2 = 0
    · have hq0 : q * D.size = 0 := by omega
      rw [if_pos hq, hmul, hq0, Nat.zero_add]
      refine ⟨by show D.block / 2 - D.size = 0; omega, fun m => ?_⟩
      rw [stream_cons t _ _ (by omega), stream_small t _ D.size (Nat.le_refl _), List.take_of_length_le (by rw [show (g.toChain.step H D.block).V.length = D.size from hmac_length t.g _ _]), Nat.add_sub_cancel_left]
      rfl
    · rw [if_neg hq]
      obtain ⟨h1, h2⟩ := ih { g.fill H D.block with left := 0 } rfl
      simp only []
      rw [show (q + 1) * D.size - D.block / 2 = q * D.size by omega]
      refine ⟨h1, fun m => ?_⟩
      rw [stream_cons t _ _ (by omega), show (q + 1) * D.size + m - D.size = q * D.size + m by omega, stream_cons t _ ((q + 1) * D.size) (by omega), List.append_assoc,
        show (q + 1) * D.size - D.size = q * D.size by omega]
      congr 1
      exact h2 m

/-- Consecutive calls of `Generate` that returned `outs`; each fills a buffer. -/
inductive HGens : Hcg D → List (List Byte) → Hcg D → Prop
  | nil {s} : HGens s [] s
  | cons {s s' s'' buf ent o os} : buf.length < 2 ^ 64 → ent.length = D.size → s.generate buf 0 buf.length ent = .ok (s', o) → HGens s' os s'' → HGens s (o :: os) s''

/-- The outputs together are the stream, as long as no reseed happens, if all requests but the last are for whole blocks.
The full claim, for every splitting of the requests, is refuted below. -/
theorem C63_stream_partial (t : Two D H ok Has) (s s' : Hcg D) (g : HEpoch) (h : Hcg.Run H Has s (some g)) (hl : g.left = 0) (outs : List (List Byte)) (hg : HGens s outs s')
    (hw : ∀ o ∈ outs.dropLast, D.size ∣ o.length) (hp : s.prov = false ∨ g.count + outs.flatten.length < s.threshold) :
    outs.flatten = g.toChain.stream H D.block outs.flatten.length := by
  have hdiv := t.div
  have hpos := t.pos
  induction hg generalizing g with
  | nil => rfl
  | @cons s s1 s2 buf ent o os hb he e hg ih =>
    have i := h.inv t
    obtain ⟨_, hq, hroom⟩ := Hcg.generate_ok t i e (Nat.zero_le _) hb
    have hrun := Hcg.Run.generate h hb (Nat.zero_le _) he e
    obtain ⟨s3, e3, _, hp3, ht3, _⟩ := Hcg.generate_inv t i [] buf [] ent (by simpa using hb) hq he hroom
    simp only [List.nil_append, List.append_nil, List.length_nil] at e3
    rw [e] at e3
    cases e3
    have hge : { g with left := 0 } = g := by rw [← hl]
    have hd0 : g.V.drop (D.block / 2 - g.left) = [] := List.drop_of_length_le (by rw [((i.keyed g rfl).2.1).vlen]; omega)
    have hpull : g.pull H D.block buf.length = ((g.blocks H D.block buf.length).1, (g.blocks H D.block buf.length).2.wiped D.block) := by
      rw [HEpoch.pull]
      by_cases h0 : buf.length ≤ g.left
      · have : buf.length = 0 := by omega
        rw [if_pos h0, hd0, this, HEpoch.blocks, if_pos rfl, HEpoch.wiped, if_pos hl, hl]
        simp only [List.take_nil, Nat.sub_zero]
        rw [hge]
      · rw [if_neg h0, hge, hd0, hl]; rfl
    rw [hpull] at hp hw ⊢
    rcases os with _ | ⟨o2, os⟩
    · simp only [List.flatten_cons, List.flatten_nil, List.append_nil]
      rw [Hcg.blocks_len t, blocks_stream t]
    · obtain ⟨q, hqq⟩ := hw (g.blocks H D.block buf.length).1 (by simp)
      rw [Hcg.blocks_len t, Nat.mul_comm] at hqq
      obtain ⟨hw1, hw2⟩ := blocks_whole t q g hl
      rw [← hqq] at hw1 hw2
      have hwip : (g.blocks H D.block buf.length).2.wiped D.block = (g.blocks H D.block buf.length).2 := by rw [HEpoch.wiped, if_pos hw1]
      obtain ⟨pc, _⟩ := Hcg.pull_count (H := H) D.block g buf.length
      rw [hpull, hwip] at pc
      obtain ⟨c', hc', hafter⟩ : ∃ c', (s.prov = false ∨ c' = g.count + buf.length) ∧ g.after H D.block s.prov s.threshold buf.length ent = { (g.blocks H D.block buf.length).2 with count := c' } := by
        rw [HEpoch.after]
        simp only []
        rw [hpull, hwip]
        by_cases hpr : s.prov = false
        · rw [if_pos hpr]; exact ⟨_, Or.inl hpr, rfl⟩
        · have := hp.resolve_left hpr
          rw [List.flatten_cons, List.length_append, Hcg.blocks_len t] at this
          rw [if_neg hpr, if_pos (by omega)]; exact ⟨_, Or.inr rfl, rfl⟩
      rw [hafter] at hrun
      have ih2 := ih _ hrun hw1 (fun o ho => hw o (by rw [List.dropLast_cons_cons]; exact List.mem_cons_of_mem _ ho)) (by
        rw [hp3, ht3]
        rcases hp with hp | hp
        · exact Or.inl hp
        · rw [List.flatten_cons, List.length_append, Hcg.blocks_len t] at hp
          rcases hc' with hc' | rfl
          · exact Or.inl hc'
          · exact Or.inr (by simpa [Nat.add_assoc] using hp))
      rw [List.flatten_cons, List.length_append, Hcg.blocks_len t, hw2, ← ih2, blocks_stream t]

end Cex.Drbg
