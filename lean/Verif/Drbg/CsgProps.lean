import Verif.Drbg.CsgLemmas

/-! # C62 The random bit generator CSG -/

namespace Cex.Drbg
open Cex Cex.IntTools Stream Cex.Mac Cex.Keccak

variable {P : List Byte → M (List Byte)} {f : List Byte → List Byte} {r : Nat}

namespace Csg

/-- `Run P f r s g`: `s` is reachable and has rate `r`; `g` is the epoch since the last `Initialize`, or `none` before the first. -/
inductive Run (P : List Byte → M (List Byte)) (f : List Byte → List Byte) (r : Nat) : Csg → Option Epoch → Prop
  | new {m prov} : m.rate = r → Run P f r (new m prov) none
  | newProv {m} : m.rateProv = r → Run P f r (newProv m) none
  | threshold {s g t} : Run P f r s g → t ≤ 2 ^ 63 → Run P f r (s.setThreshold t) g
  | initKey {s s' g key iv info} : Run P f r s g → 8 * iv.length < 2 ^ 64 → 8 * info.length < 2 ^ 64 → Shake.Fits r iv info → s.initKey P key iv info = .ok s' →
      Run P f r s' (some (.first f r key iv info))
  | update {s s' g key ent} : Run P f r s g → s.update P key ent = .ok s' → Run P f r s' (g.map (·.updated f r s.prov key ent))
  | generate {s s' g out oo len ent out'} : Run P f r s (some g) → out.length < 2 ^ 64 → oo ≤ out.length → s.generate P out oo len ent = .ok (s', out') →
      Run P f r s' (some (g.after f r s.prov s.threshold len ent))
  | generateVec {s s' g out oo len ent out'} : Run P f r s (some g) → out.length < 2 ^ 64 → oo ≤ out.length → s.generateVec P out oo len ent = .ok (s', out') →
      Run P f r s' (some (g.after f r s.prov s.threshold len ent))

/-- What holds in every reachable state. -/
structure Inv (f : List Byte → List Byte) (r : Nat) (s : Csg) (g : Option Epoch) : Prop extends Shape r s where
  small : s.counter ≤ 2 ^ 63 + 102400000
  thr : s.threshold ≤ 2 ^ 63
  keyed : ∀ e, g = some e → s.init = true ∧ s.In f r e ∧ s.dom = e.dom ∧ s.counter = e.c ∧ s.reseed = e.m

theorem make_inv (prov : Bool) : Inv f r (make r prov) none :=
  ⟨⟨rfl, List.length_replicate, List.length_replicate, Nat.zero_le _⟩, by show 0 ≤ _; omega, by show 102400000 ≤ _; omega, by intro _ e; cases e⟩

theorem reset_eq {s : Csg} (h : Shape r s) : s.reset = .ok { s with st := List.replicate 200 0, buf := List.replicate r 0, cached := 0, counter := 0, reseed := 0, init := false } := by
  rw [reset, clear_all _ _ h.blen, ok_bind, clear_all _ _ h.len, ok_bind]; rfl

theorem initKey_eq (p : Perm P f) (h20 : 20 ≤ r) (hr : r < 200) (h8 : r % 8 = 0) {s : Csg} (h : Shape r s) {key iv info : List Byte} (hk : 16 ≤ key.length)
    (hc : 8 * iv.length < 2 ^ 64) (hi : 8 * info.length < 2 ^ 64) (hf : Shake.Fits r iv info) :
    s.initKey P key iv info = .ok { s with st := Shake.start f r key iv info, buf := List.replicate r 0, cached := 0, counter := 0, reseed := 0, dom := Shake.domain iv info, init := true } := by
  have h0 : 0 < r := by omega
  have hr2 : r ≤ 200 := by omega
  rw [initKey, if_neg (by omega), reset_eq h, ok_bind]
  have hcu : ∀ t : Csg, t.rate = r → t.st = List.replicate 200 0 → t.customized P iv info = .ok { t with st := Shake.base f r iv info, dom := Shake.domain iv info } := by
    intro s hs hz
    rw [customized]
    by_cases hn : iv = [] ∧ info = []
    · rw [if_neg (by rw [hn.1, hn.2]; simp), Shake.base, if_pos hn, Shake.domain, if_pos hn, ← hz]; rfl
    · rw [if_pos (by rcases iv with _ | _ <;> rcases info with _ | _ <;> simp_all), hs, hz, customize_eq p hr h20 h8 zeros200 iv info hc hi (hf.resolve_left hn), ok_bind, Shake.base, if_neg hn,
        Shake.domain, if_neg hn]
      rfl
  have hsh : Shape r { s with st := Shake.base f r iv info, buf := List.replicate r 0, cached := 0, counter := 0, reseed := 0, dom := Shake.domain iv info, init := false } :=
    ⟨h.rate, Shake.base_len p hr2 _ _, List.length_replicate, Nat.zero_le _⟩
  rw [hcu { s with st := List.replicate 200 0, buf := List.replicate r 0, cached := 0, counter := 0, reseed := 0, init := false } h.rate rfl, ok_bind, absorbKey_eq p h0 hr2 hsh, ok_bind]
  rfl

theorem initKey_inv (p : Perm P f) (h20 : 20 ≤ r) (hr : r < 200) (h8 : r % 8 = 0) {s : Csg} {g} (h : Inv f r s g) {key iv info : List Byte} (hk : 16 ≤ key.length)
    (hc : 8 * iv.length < 2 ^ 64) (hi : 8 * info.length < 2 ^ 64) (hf : Shake.Fits r iv info) :
    ∃ s', s.initKey P key iv info = .ok s' ∧ Inv f r s' (some (.first f r key iv info)) ∧ s'.prov = s.prov ∧ s'.threshold = s.threshold := by
  have hS := Shake.start_len (r := r) p (by omega) (by omega) key iv info
  refine ⟨_, initKey_eq p h20 hr h8 h.toShape hk hc hi hf, ⟨⟨h.rate, hS, List.length_replicate, Nat.zero_le _⟩, Nat.zero_le _, h.thr, ?_⟩, rfl, rfl⟩
  intro e he
  cases he
  refine ⟨rfl, ⟨⟨h.rate, hS, List.length_replicate, Nat.zero_le _⟩, hS, rfl, ?_, ?_⟩, rfl, rfl, rfl⟩
  · show 0 + 0 = 0 * r; omega
  · show (List.replicate r (0 : Byte)).drop (r - 0) = ((Shake.start f r key iv info).take r).drop (r - 0)
    rw [Nat.sub_zero, List.drop_of_length_le (by rw [List.length_replicate]), List.drop_of_length_le (by rw [List.length_take]; omega)]

theorem update_inv (p : Perm P f) (h0 : 0 < r) (hr : r ≤ 200) {s : Csg} {g} (h : Inv f r s g) {key : List Byte} (ent : List Byte) (hk : 16 ≤ key.length) (hm : s.reseed < 10000) :
    ∃ s', s.update P key ent = .ok s' ∧ Inv f r s' (g.map (·.updated f r s.prov key ent)) ∧ s'.prov = s.prov ∧ s'.threshold = s.threshold := by
  rw [update, if_neg (by omega), if_neg (by omega)]
  have hsh : Shape r { s with reseed := s.reseed + 1 } := ⟨h.rate, h.len, h.blen, h.cle⟩
  have hb : ∃ s1, (if s.prov then Csg.derive P { s with reseed := s.reseed + 1 } ent else pure { s with reseed := s.reseed + 1 }) = .ok s1 ∧ Shape r s1 ∧
      Same { s with reseed := s.reseed + 1 } s1 ∧ ∀ e, g = some e → s1.In f r (if s.prov then e.fed f r ent else e) := by
    by_cases hp : s.prov = true
    · rw [if_pos hp, derive_eq p h0 hr hsh]
      refine ⟨_, rfl, derive_shape p h0 hr hsh ent, ⟨rfl, rfl, rfl, rfl, rfl, rfl⟩, ?_⟩
      intro e he
      obtain ⟨_, i, hd, _⟩ := h.keyed e he
      rw [if_pos hp]
      exact derive_in p h0 hr (s := { s with reseed := s.reseed + 1 }) ⟨hsh, i.glen, i.st, i.cnt, i.tail⟩ hd ent
    · rw [if_neg hp]
      refine ⟨_, rfl, hsh, ⟨rfl, rfl, rfl, rfl, rfl, rfl⟩, ?_⟩
      intro e he
      obtain ⟨_, i, hd, _⟩ := h.keyed e he
      rw [if_neg hp]
      exact ⟨hsh, i.glen, i.st, i.cnt, i.tail⟩
  obtain ⟨s1, e1, hs1, hsame, hin⟩ := hb
  have hd2 := derive_eq p h0 hr hs1 key
  rw [derive] at hd2
  simp only []
  rw [e1, ok_bind, hd2]
  refine ⟨_, rfl, ⟨derive_shape p h0 hr hs1 key, ?_, ?_, ?_⟩, hsame.prov, hsame.threshold⟩
  · show s1.counter ≤ _; rw [hsame.counter]; exact h.small
  · show s1.threshold ≤ _; rw [hsame.threshold]; exact h.thr
  · intro e he
    rcases g with _ | e0
    · cases he
    · cases he
      obtain ⟨hi, i, hd, hc, hre⟩ := h.keyed e0 rfl
      have hdom : s1.dom = (if s.prov then e0.fed f r ent else e0).dom := by
        rw [hsame.dom]; split <;> exact hd
      have := derive_in p h0 hr (hin e0 rfl) hdom key
      refine ⟨?_, ⟨this.toShape, this.glen, this.st, this.cnt, this.tail⟩, hdom, ?_, ?_⟩
      · show s1.init = true; rw [hsame.init]; exact hi
      · show s1.counter = _; rw [hsame.counter]; show s.counter = ((if s.prov then e0.fed f r ent else e0).fed f r key).c; split <;> exact hc
      · show s1.reseed = e0.m + 1; rw [hsame.reseed, ← hre]

/-- The condition under which the end of `Generate` does not throw. -/
def Room (s : Csg) (g : Epoch) (len : Nat) : Prop := s.prov = true → s.threshold ≤ g.c + len → g.m < 10000

theorem generate_inv (p : Perm P f) (h0 : 0 < r) (hr : r ≤ 200) {s : Csg} {g : Epoch} (h : Inv f r s (some g)) (pre junk post ent : List Byte)
    (hl : (pre ++ junk ++ post).length < 2 ^ 64) (hq : junk.length ≤ 102400000) (hroom : Room s g junk.length) :
    ∃ s', s.generate P (pre ++ junk ++ post) pre.length junk.length ent = .ok (s', pre ++ g.next f r junk.length ++ post) ∧
      Inv f r s' (some (g.after f r s.prov s.threshold junk.length ent)) ∧ s'.prov = s.prov ∧ s'.threshold = s.threshold := by
  obtain ⟨hi, i, hd, hc, hre⟩ := h.keyed g rfl
  obtain ⟨s1, e1, i1, hs1⟩ := expand_in p h0 hr i pre junk post
  have hsub : subU (pre ++ junk ++ post).length pre.length = junk.length + post.length := by
    rw [subU_le (by simp only [List.length_append]; omega) (by omega)]; simp only [List.length_append]; omega
  rw [generate, if_neg (by simp [hi]), if_neg (by omega), if_neg (by omega), e1, ok_bind]
  simp only []
  have hsmall := h.small
  have hthr := h.thr
  have hcnt : s1.counter = g.c := by rw [hs1]; exact hc
  have hres : s1.reseed = g.m := by rw [hs1]; exact hre
  have hdom : s1.dom = (g.served r junk.length).dom := by rw [hs1]; exact hd
  have hini : s1.init = true := by rw [hs1]; exact hi
  have hpr : s1.prov = s.prov := by rw [hs1]
  have htr : s1.threshold = s.threshold := by rw [hs1]
  rw [checkReseed]
  by_cases hp : s.prov = true
  · rw [if_pos (by rw [hpr]; exact hp), Nat.mod_eq_of_lt (by omega)]
    simp only []
    by_cases ht : s.threshold ≤ g.c + junk.length
    · rw [if_pos (by omega), if_neg (by have := hroom hp ht; omega)]
      have hsh : Shape r { s1 with counter := s1.counter + junk.length, reseed := s1.reseed + 1 } := ⟨i1.rate, i1.len, i1.blen, i1.cle⟩
      have i2 : In f r { s1 with counter := s1.counter + junk.length, reseed := s1.reseed + 1 } (g.served r junk.length) := ⟨hsh, i1.glen, i1.st, i1.cnt, i1.tail⟩
      rw [derive_eq p h0 hr hsh, ok_bind]
      have i3 := derive_in p h0 hr i2 hdom ent
      refine ⟨_, rfl, ⟨⟨i3.rate, i3.len, i3.blen, i3.cle⟩, Nat.zero_le _, by show s1.threshold ≤ _; omega, ?_⟩, hpr, htr⟩
      intro e he
      cases he
      rw [Epoch.after, if_neg (by simp [hp]), if_neg (by omega)]
      exact ⟨hini, ⟨⟨i3.rate, i3.len, i3.blen, i3.cle⟩, i3.glen, i3.st, i3.cnt, i3.tail⟩, hdom, rfl, by show s1.reseed + 1 = g.m + 1; rw [hres]⟩
    · rw [if_neg (by omega)]
      refine ⟨_, rfl, ⟨⟨i1.rate, i1.len, i1.blen, i1.cle⟩, by show s1.counter + junk.length ≤ _; omega, by show s1.threshold ≤ _; omega, ?_⟩, hpr, htr⟩
      intro e he
      cases he
      rw [Epoch.after, if_neg (by simp [hp]), if_pos (by omega)]
      exact ⟨hini, ⟨⟨i1.rate, i1.len, i1.blen, i1.cle⟩, i1.glen, i1.st, i1.cnt, i1.tail⟩, hdom, by show s1.counter + junk.length = g.c + junk.length; rw [hcnt], hres⟩
  · rw [if_neg (by rw [hpr]; exact hp)]
    refine ⟨_, rfl, ⟨⟨i1.rate, i1.len, i1.blen, i1.cle⟩, by show s1.counter ≤ _; omega, by show s1.threshold ≤ _; omega, ?_⟩, hpr, htr⟩
    intro e he
    cases he
    rw [Epoch.after, if_pos (by simpa using hp)]
    exact ⟨hini, ⟨⟨i1.rate, i1.len, i1.blen, i1.cle⟩, i1.glen, i1.st, i1.cnt, i1.tail⟩, hdom, hcnt, hres⟩

theorem generateVec_inv (p : Perm P f) (h0 : 0 < r) (hr : r ≤ 200) {s : Csg} {g : Epoch} (h : Inv f r s (some g)) (pre junk post ent : List Byte)
    (hl : (pre ++ junk ++ post).length < 2 ^ 64) (hq : junk.length ≤ 102400000) (hroom : Room s g junk.length) :
    ∃ s', s.generateVec P (pre ++ junk ++ post) pre.length junk.length ent = .ok (s', pre ++ g.next f r junk.length ++ post) ∧
      Inv f r s' (some (g.after f r s.prov s.threshold junk.length ent)) ∧ s'.prov = s.prov ∧ s'.threshold = s.threshold := by
  obtain ⟨s1, e1, i1⟩ := generate_inv p h0 hr h [] (List.replicate junk.length 0) [] ent (by simp only [List.length_append, List.length_replicate, List.length_nil]; omega)
    (by rw [List.length_replicate]; exact hq) (by rw [List.length_replicate]; exact hroom)
  simp only [List.nil_append, List.append_nil, List.length_replicate, List.length_nil] at e1 i1
  have hpl := next_len p h0 hr g (h.keyed g rfl).2.1.glen junk.length
  rw [generateVec, subU_le (by simp only [List.length_append]; omega) hl, if_neg (by simp only [List.length_append]; omega), e1, ok_bind]
  simp only []
  rw [copy_at (Holds.self _) rfl rfl hpl.symm, ok_bind]
  exact ⟨s1, rfl, i1⟩

/-- A call that succeeded stayed in the output and below the limits. -/
theorem generate_ok (p : Perm P f) (h0 : 0 < r) (hr : r ≤ 200) {s : Csg} {g : Epoch} (h : Inv f r s (some g)) {out ent : List Byte} {oo len : Nat} {q} (e : s.generate P out oo len ent = .ok q)
    (ho : oo ≤ out.length) (hl : out.length < 2 ^ 64) : oo + len ≤ out.length ∧ len ≤ 102400000 ∧ Room s g len := by
  have e' := e
  rw [generate] at e
  split at e
  · cases e
  · split at e
    · cases e
    · rename_i h1
      rw [subU_le ho hl] at h1
      split at e
      · cases e
      · rename_i h2
        refine ⟨by omega, by omega, ?_⟩
        intro hp ht
        obtain ⟨hi, i, hd, hc, hre⟩ := h.keyed g rfl
        obtain ⟨pre, junk, post, rfl, rfl, rfl⟩ := Shake.split3 (show oo + len ≤ out.length by omega)
        obtain ⟨s1, e1, i1, hs1⟩ := expand_in p h0 hr i pre junk post
        have hsmall := h.small
        rw [e1, ok_bind] at e
        obtain ⟨s2, e2, _⟩ := bind_ok e
        have hcnt : s1.counter = g.c := by rw [hs1]; exact hc
        have hres : s1.reseed = g.m := by rw [hs1]; exact hre
        have hpr : s1.prov = s.prov := by rw [hs1]
        have htr : s1.threshold = s.threshold := by rw [hs1]
        simp only [] at e2
        rw [checkReseed, hpr, hcnt, htr, hres, if_pos hp, Nat.mod_eq_of_lt (by omega)] at e2
        simp only [] at e2
        rw [if_pos ht] at e2
        split at e2
        · cases e2
        · omega

theorem Run.inv (p : Perm P f) (h20 : 20 ≤ r) (hr : r < 200) (h8 : r % 8 = 0) {s : Csg} {g} (h : Run P f r s g) : Inv f r s g := by
  have h0 : 0 < r := by omega
  have hr2 : r ≤ 200 := by omega
  induction h with
  | new e => rw [Csg.new, e]; exact make_inv _
  | newProv e => rw [Csg.newProv, e]; exact make_inv _
  | threshold _ ht ih => exact ⟨⟨ih.rate, ih.len, ih.blen, ih.cle⟩, ih.small, ht, fun e he => by
      obtain ⟨a, i, b⟩ := ih.keyed e he
      exact ⟨a, ⟨⟨ih.rate, ih.len, ih.blen, ih.cle⟩, i.glen, i.st, i.cnt, i.tail⟩, b⟩⟩
  | @initKey s s' g key iv info _ hc hi hf e ih =>
    have hk : 16 ≤ key.length := by
      rw [Csg.initKey] at e; split at e
      · cases e
      · omega
    obtain ⟨s1, e1, i1, _⟩ := initKey_inv p h20 hr h8 ih hk hc hi hf
    rw [e] at e1; cases e1; exact i1
  | @update s s' g key ent _ e ih =>
    have hk : 16 ≤ key.length ∧ s.reseed < 10000 := by
      rw [Csg.update] at e; split at e
      · cases e
      · split at e
        · cases e
        · omega
    obtain ⟨s1, e1, i1, _⟩ := update_inv p h0 hr2 ih ent hk.1 hk.2
    rw [e] at e1; cases e1; exact i1
  | @generate s s' g out oo len ent out' _ hl ho e ih =>
    obtain ⟨h1, h2, h3⟩ := generate_ok p h0 hr2 ih e ho hl
    obtain ⟨pre, junk, post, rfl, rfl, rfl⟩ := Shake.split3 h1
    obtain ⟨s1, e1, i1, _⟩ := generate_inv p h0 hr2 ih pre junk post ent hl h2 h3
    rw [e] at e1; cases e1; exact i1
  | @generateVec s s' g out oo len ent out' _ hl ho e ih =>
    have e' := e
    rw [Csg.generateVec, subU_le ho hl] at e
    split at e
    · cases e
    · obtain ⟨q, e1, e⟩ := bind_ok e
      obtain ⟨_, h2, h3⟩ := generate_ok p h0 hr2 ih e1 (Nat.zero_le _) (by rw [List.length_replicate]; omega)
      obtain ⟨pre, junk, post, rfl, rfl, rfl⟩ := Shake.split3 (show oo + len ≤ out.length by omega)
      obtain ⟨s1, e1, i1, _⟩ := generateVec_inv p h0 hr2 ih pre junk post ent hl h2 h3
      rw [e'] at e1; cases e1; exact i1

end Csg

open Csg

/-- The rates of the three modes. -/
def CsgRate (r : Nat) : Prop := r ∈ [168, 136, 72]

theorem CsgRate.facts (h : CsgRate r) : 20 ≤ r ∧ r < 200 ∧ r % 8 = 0 := by
  simp only [CsgRate, List.mem_cons, List.not_mem_nil, or_false] at h
  rcases h with rfl | rfl | rfl <;> decide

/-- Whatever happened before, `Initialize` with at least 16 key bytes starts a new epoch. -/
theorem C62_initialize (p : Perm P f) (hm : CsgRate r) (s : Csg) (g) (h : Run P f r s g) (key iv info : List Byte) (hk : 16 ≤ key.length)
    (hc : 8 * iv.length < 2 ^ 64) (hi : 8 * info.length < 2 ^ 64) (hf : Shake.Fits r iv info) :
    ∃ s', s.initKey P key iv info = .ok s' ∧ Run P f r s' (some (.first f r key iv info)) ∧ s'.prov = s.prov ∧ s'.threshold = s.threshold := by
  obtain ⟨h20, hr, h8⟩ := hm.facts
  obtain ⟨s', e, _, h1⟩ := initKey_inv p h20 hr h8 (h.inv p h20 hr h8) hk hc hi hf
  exact ⟨s', e, .initKey h hc hi hf e, h1⟩

/-- Its output is SHAKE of the key, or cSHAKE of the key with the nonce as customization and the info as function name. -/
theorem C62_first (h0 : 0 < r) (key iv info : List Byte) (n : Nat) : Epoch.stream f r (Epoch.first f r key iv info).S n = Sp800185.cshake f r key n info iv :=
  (Shake.cshake_eq h0 key iv info n).symm

/-- Both overloads of `Generate` return the next bytes of the epoch, write nothing else, and reseed exactly when a provider is present and the threshold is reached. -/
theorem C62_generate (p : Perm P f) (hm : CsgRate r) (s : Csg) (g : Epoch) (h : Run P f r s (some g)) (pre junk post ent : List Byte) (hl : (pre ++ junk ++ post).length < 2 ^ 64)
    (hq : junk.length ≤ 102400000) (hroom : Room s g junk.length) :
    (∃ s', s.generate P (pre ++ junk ++ post) pre.length junk.length ent = .ok (s', pre ++ g.next f r junk.length ++ post) ∧
      Run P f r s' (some (g.after f r s.prov s.threshold junk.length ent)) ∧ s'.prov = s.prov ∧ s'.threshold = s.threshold) ∧
    (∃ s', s.generateVec P (pre ++ junk ++ post) pre.length junk.length ent = .ok (s', pre ++ g.next f r junk.length ++ post) ∧
      Run P f r s' (some (g.after f r s.prov s.threshold junk.length ent)) ∧ s'.prov = s.prov ∧ s'.threshold = s.threshold) := by
  obtain ⟨h20, hr, h8⟩ := hm.facts
  have i := h.inv p h20 hr h8
  obtain ⟨s1, e1, _, h1⟩ := generate_inv p (by omega) (by omega) i pre junk post ent hl hq hroom
  obtain ⟨s2, e2, _, h2⟩ := generateVec_inv p (by omega) (by omega) i pre junk post ent hl hq hroom
  exact ⟨⟨s1, e1, .generate h hl (by simp only [List.length_append]; omega) e1, h1⟩, ⟨s2, e2, .generateVec h hl (by simp only [List.length_append]; omega) e2, h2⟩⟩

/-- `Gens P s outs s'`: consecutive calls of `Generate` that returned `outs`; each fills a buffer. -/
inductive Gens (P : List Byte → M (List Byte)) : Csg → List (List Byte) → Csg → Prop
  | nil {s} : Gens P s [] s
  | cons {s s' s'' buf ent o os} : buf.length < 2 ^ 64 → s.generate P buf 0 buf.length ent = .ok (s', o) → Gens P s' os s'' → Gens P s (o :: os) s''

/-- However the requests are split, the outputs together are the stream, as long as no reseed happens: without a provider always, with one until the threshold is reached. -/
theorem C62_stream (p : Perm P f) (hm : CsgRate r) (s s' : Csg) (g : Epoch) (h : Run P f r s (some g)) (outs : List (List Byte)) (hg : Gens P s outs s')
    (hp : s.prov = false ∨ g.c + outs.flatten.length < s.threshold) : outs.flatten = g.next f r outs.flatten.length := by
  obtain ⟨h20, hr, h8⟩ := hm.facts
  have h0 : 0 < r := by omega
  have hr2 : r ≤ 200 := by omega
  induction hg generalizing g with
  | nil =>
    have := next_len p h0 hr2 g ((h.inv p h20 hr h8).keyed g rfl).2.1.glen 0
    exact (List.eq_nil_of_length_eq_zero this).symm
  | @cons s s1 s2 buf ent o os hb e hg ih =>
    have i := h.inv p h20 hr h8
    obtain ⟨hi, ii, _⟩ := i.keyed g rfl
    have hn := next_len p h0 hr2 g ii.glen
    have hrun := Run.generate h hb (Nat.zero_le _) e
    obtain ⟨_, hq, hroom⟩ := generate_ok p h0 hr2 i e (Nat.zero_le _) hb
    obtain ⟨s3, e3, _, hp3, ht3⟩ := generate_inv p h0 hr2 i [] buf [] ent (by simpa using hb) hq hroom
    simp only [List.nil_append, List.append_nil, List.length_nil] at e3
    rw [e] at e3
    cases e3
    rw [List.flatten_cons, List.length_append, hn] at hp ⊢
    obtain ⟨c', hc', hafter⟩ : ∃ c', (s.prov = false ∨ c' = g.c + buf.length) ∧ g.after f r s.prov s.threshold buf.length ent = { g.served r buf.length with c := c' } := by
      rw [Epoch.after]
      by_cases hpr : s.prov = false
      · rw [if_pos hpr]; exact ⟨g.c, Or.inl hpr, rfl⟩
      · have := hp.resolve_left hpr
        rw [if_neg hpr, if_pos (by omega)]; exact ⟨_, Or.inr rfl, rfl⟩
    rw [hafter] at hrun
    have ih2 := ih _ hrun (by
      rw [hp3, ht3]
      rcases hp with hp | hp
      · exact Or.inl hp
      · rcases hc' with hc' | rfl
        · exact Or.inl hc'
        · exact Or.inr (by simpa [Nat.add_assoc] using hp))
    conv => lhs; rw [ih2]
    rw [Epoch.next, Epoch.next, Epoch.next, Epoch.stream, Epoch.stream, Epoch.stream, Epoch.served]
    simp only []
    generalize os.flatten.length = m
    have hS := p.len _ ii.glen
    rw [← List.take_append_drop buf.length (List.drop g.n (Fips202.squeeze f r (f g.S) (g.n + (buf.length + m)))), List.drop_drop,
      show g.n + buf.length + m = g.n + (buf.length + m) from by omega]
    congr 1
    rw [← Shake.squeeze_take p h0 hr2 m (g.n + buf.length) _ hS, show g.n + buf.length + m = g.n + (buf.length + m) from by omega, List.drop_take]
    congr 1; omega

/-- The main use: after `Initialize` the outputs of any sequence of requests are SHAKE or cSHAKE of the key. -/
theorem C62_output (p : Perm P f) (hm : CsgRate r) (s s1 s' : Csg) (g) (h : Run P f r s g) (key iv info : List Byte)
    (hc : 8 * iv.length < 2 ^ 64) (hi : 8 * info.length < 2 ^ 64) (hf : Shake.Fits r iv info) (e : s.initKey P key iv info = .ok s1) (outs : List (List Byte)) (hg : Gens P s1 outs s')
    (hp : s.prov = false ∨ outs.flatten.length < s.threshold) : outs.flatten = Sp800185.cshake f r key outs.flatten.length info iv := by
  have hk : 16 ≤ key.length := by
    rw [Csg.initKey] at e; split at e
    · cases e
    · omega
  obtain ⟨s2, e2, hrun, hp2, ht2⟩ := C62_initialize p hm s g h key iv info hk hc hi hf
  rw [e] at e2; cases e2
  have := C62_stream p hm s1 s' _ hrun outs hg (by
    rw [hp2, ht2]
    rcases hp with hp | hp
    · exact Or.inl hp
    · refine Or.inr ?_
      show 0 + _ < _
      omega)
  rw [Epoch.next, C62_first (by have := hm.facts; omega)] at this
  conv => lhs; rw [this]
  show (Sp800185.cshake f r key (0 + _) info iv).drop 0 = _
  rw [List.drop_zero, Nat.zero_add]

/-- `Update` with at least 16 bytes, fewer than 10000 times since `Initialize`, absorbs the provider's bytes (if any) and the new key. -/
theorem C62_update (p : Perm P f) (hm : CsgRate r) (s : Csg) (g : Epoch) (h : Run P f r s (some g)) (key ent : List Byte) (hk : 16 ≤ key.length) (hres : g.m < 10000) :
    ∃ s', s.update P key ent = .ok s' ∧ Run P f r s' (some (g.updated f r s.prov key ent)) ∧ s'.prov = s.prov := by
  obtain ⟨h20, hr, h8⟩ := hm.facts
  have i := h.inv p h20 hr h8
  obtain ⟨s', e, _, h1, _⟩ := update_inv p (by omega) (by omega) i ent hk (by rw [(i.keyed g rfl).2.2.2.2]; exact hres)
  exact ⟨s', e, .update h e, h1⟩

/-- The output after further input `x`: the padded input is absorbed into the state reached so far. -/
theorem C62_fed (h0 : 0 < r) (g : Epoch) (x : List Byte) (n : Nat) :
    (g.fed f r x).next f r n = Fips202.squeeze f r (Fips202.absorb f r (Nat.repeat f g.k g.S) (x ++ Fips202.pad r g.dom x.length)) n := by
  rw [Epoch.next, Epoch.stream, Epoch.fed]
  simp only []
  rw [f_absorbed (f := f) h0, Nat.zero_add, List.drop_zero]

/-- The limits are enforced: at most 102400000 bytes in a call, at most 10000 reseeds, no output before `Initialize`. -/
theorem C62_limits (p : Perm P f) (hm : CsgRate r) (s : Csg) (g) (h : Run P f r s g) (out ent : List Byte) (oo len : Nat) (key : List Byte) (hl : out.length < 2 ^ 64) (ho : oo ≤ out.length) :
    (s.init = false → s.generate P out oo len ent = .error (.throws .notInitialized)) ∧
    (∀ e, g = some e → len ≤ out.length - oo → 102400000 < len → s.generate P out oo len ent = .error (.throws .maxExceeded)) ∧
    (∀ e, g = some e → out.length - oo < len → s.generate P out oo len ent = .error (.throws .invalidSize)) ∧
    (∀ e, g = some e → 16 ≤ key.length → 10000 ≤ e.m → s.update P key ent = .error (.throws .maxExceeded)) ∧
    (key.length < 16 → s.update P key ent = .error (.throws .invalidKey)) := by
  obtain ⟨h20, hr, h8⟩ := hm.facts
  have i := h.inv p h20 hr h8
  refine ⟨?_, ?_, ?_, ?_, ?_⟩
  · intro hi; rw [Csg.generate, if_pos hi]; rfl
  · intro e he h1 h2
    have := (i.keyed e he).1
    rw [Csg.generate, if_neg (by simp [this]), subU_le ho hl, if_neg (by omega), if_pos h2]; rfl
  · intro e he h1
    have := (i.keyed e he).1
    rw [Csg.generate, if_neg (by simp [this]), subU_le ho hl, if_pos h1]; rfl
  · intro e he h1 h2
    have := (i.keyed e he).2.2.2.2
    rw [Csg.update, if_neg (by omega), if_pos (by omega)]; rfl
  · intro h1; rw [Csg.update, if_pos h1]; rfl

theorem xorBytes_cancel {a b : List Byte} (h : a.length = b.length) : xorBytes (xorBytes a b) b = a := by
  induction a generalizing b with
  | nil => cases b with | nil => rfl | cons => cases h
  | cons x xs ih =>
    cases b with
    | nil => cases h
    | cons y ys =>
      have := ih (b := ys) (by simpa using h)
      simp only [xorBytes, List.zipWith_cons_cons] at this ⊢
      rw [this, BitVec.xor_assoc, BitVec.xor_self, BitVec.xor_zero]

/-- That `Update` adds to the seed is false. A generator without provider that is seeded with a key and updated with the same key before any output forgets it:
for every key shorter than a block the output is the same, that of a sponge with no input. -/
theorem C62_update_refuted (p : Perm P f) (hm : CsgRate r) (s : Csg) (g) (h : Run P f r s g) (hp : s.prov = false) (key : List Byte) (hk : 16 ≤ key.length) (hk2 : key.length < r) (out ent : List Byte)
    (hl : out.length ≤ 102400000) :
    ∃ s1 s2 s3, s.initKey P key [] [] = .ok s1 ∧ s1.update P key ent = .ok s2 ∧ s2.generate P out 0 out.length ent = .ok (s3, Fips202.squeeze f r (f (List.replicate 200 0)) out.length) := by
  obtain ⟨h20, hr, h8⟩ := hm.facts
  have h0 : 0 < r := by omega
  obtain ⟨s1, e1, r1, p1, _⟩ := C62_initialize p hm s g h key [] [] hk (by simp) (by simp) (Or.inl ⟨rfl, rfl⟩)
  obtain ⟨s2, e2, r2, p2⟩ := C62_update p hm s1 _ r1 key ent hk (by show 0 < 10000; omega)
  have hpp : s2.prov = false := by rw [p2, p1, hp]
  obtain ⟨⟨s3, e3, _⟩, _⟩ := C62_generate p hm s2 _ r2 [] out [] ent (by simp; omega) hl (by intro hh; rw [hpp] at hh; cases hh)
  refine ⟨s1, s2, s3, e1, e2, ?_⟩
  simp only [List.nil_append, List.append_nil, List.length_nil] at e3
  rw [e3, p1, hp]
  congr 2
  rw [Epoch.next, Epoch.stream]
  show List.drop 0 (Fips202.squeeze f r (f (absorbed f r 0x1F (absorbed f r 0x1F (List.replicate 200 0) key) key)) (0 + out.length)) = _
  have hsh : ∀ st : List Byte, absorbed f r 0x1F st key = xorBytes st (key ++ Fips202.pad r 0x1F key.length ++ List.replicate (200 - r) 0) := by
    intro st; rw [absorbed, eager_short hk2]
  rw [List.drop_zero, Nat.zero_add, hsh, hsh, xorBytes_cancel]
  rw [List.length_replicate, List.length_append, List.length_append, pad_length h0, List.length_replicate, Nat.mod_eq_of_lt hk2]; omega

end Cex.Drbg
