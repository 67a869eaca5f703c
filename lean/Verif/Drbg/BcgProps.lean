import Verif.Drbg.BcgLemmas
import Verif.SCipher.Props

/-! # C64 The random bit generator BCG -/

namespace Cex.Drbg
open Cex Cex.Mac Cex.Par Cex.IntTools Cex.Keccak Cex.SCipher Cex.SCipher.Spec Cex.Rijndael

variable {P : List Byte → M (List Byte)} {f : List Byte → List Byte} {W : Nat}

/-- The key sizes `Initialize` accepts. -/
def LegalKey (key : List Byte) : Prop := key.length = 32 ∨ key.length = 64 ∨ key.length = 128

/-- A fresh SHAKE-256 object gives cSHAKE-256. -/
theorem shake_once (p : Perm P f) (key cust info : List Byte) (hk : 4 ≤ key.length) (hc : cust.length = 0 ∨ 4 ≤ cust.length) (hcl : 8 * cust.length < 2 ^ 64) (hi : info.length ≤ 7)
    (out : List Byte) (ho : out.length ≤ 4096) :
    ∃ g0 g1 g2, Shake.new 136 = .ok g0 ∧ g0.initAll P key cust info = .ok g1 ∧ g1.generate P out = .ok (g2, Sp800185.cshake f 136 key out.length info cust) := by
  have hm : ShakeRate 136 := by simp [ShakeRate]
  obtain ⟨g0, h0, hz⟩ : ∃ g0, Shake.new 136 = .ok g0 ∧ g0.ctr = 0 ∧ g0.init = false := by
    rw [Shake.new, Shake.reset, clear_all _ 200 List.length_replicate]
    exact ⟨_, rfl, rfl, rfl⟩
  obtain ⟨g1, h1, hr1⟩ := C44_initialize p hm g0 none (.new h0) key cust info hk hc hcl (by omega) (Shake.fits_short (by decide) (by decide) hi hcl)
  have hctr : g1.ctr = 0 := by
    have h1' := h1
    rw [Shake.initAll, if_neg (by omega), if_neg (by omega), hz.2] at h1'
    obtain ⟨g, e1, h1'⟩ := bind_ok h1'
    have : g.ctr = 0 := by cases e1; exact hz.1
    obtain ⟨g', e2, h1'⟩ := bind_ok h1'
    have h' : g'.ctr = 0 := by
      split at e2
      · rw [Shake.custom] at e2
        obtain ⟨_, _, e2⟩ := bind_ok e2
        cases e2; exact this
      · cases e2; exact this
    obtain ⟨_, _, h1'⟩ := bind_ok h1'
    cases h1'; exact h'
  have hdiv : out.length / 136 ≤ 4096 := Nat.le_trans (Nat.div_le_self _ _) ho
  obtain ⟨g2, h2⟩ := C44_first p hm g1 key cust info hr1 out (by omega) (by omega)
  exact ⟨g0, g1, g2, h0, h1, h2⟩

theorem cshake_len (p : Perm P f) (key cust info : List Byte) (hk : 4 ≤ key.length) (hc : cust.length = 0 ∨ 4 ≤ cust.length) (hcl : 8 * cust.length < 2 ^ 64) (hi : info.length ≤ 7)
    (n : Nat) : (Sp800185.cshake f 136 key n info cust).length = n := by
  rw [Shake.cshake_eq (by decide)]
  exact squeeze_length (r := 136) p (by decide) (by decide) _ _ (p.len _ (Shake.start_len (r := 136) p (by decide) (by decide) _ _ _))

namespace Bcg

theorem info_eq : bcgInfo = versionString := by decide +kernel

theorem name_eq (n : Nat) : nameFor n = leEnc 2 (8 * n) ++ [0x42, 0x43, 0x47] := by
  rw [nameFor, Nat.mul_comm]; rfl

theorem rounds_eq {t : Tally} (h : LegalKey t.key) : roundsFor t.key.length = t.rounds := by
  rw [Tally.rounds]
  rcases h with h | h | h <;> rw [h] <;> rfl

theorem rounds_pos (t : Tally) : 0 < t.rounds ∧ t.rounds ≤ 38 := by
  rw [Tally.rounds]
  split <;> decide

theorem roundKeys_length (p : Perm P f) {t : Tally} (h : LegalKey t.key) (hc : 4 ≤ t.cust.length) (hcl : 8 * t.cust.length < 2 ^ 64) :
    (t.roundKeys f).length = 4 * (8 * (t.rounds + 1)) := by
  rw [Tally.roundKeys, cshake_len p _ _ _ (by rcases h with h | h | h <;> omega) (Or.inr hc) hcl (by simp)]
  omega

/-- `Run P W s t`: `s` is reachable, `t` is its tally. Information strings are shorter than 4 GB. -/
inductive Run (P : List Byte → M (List Byte)) (f : List Byte → List Byte) (W : Nat) : Bcg → Tally → Prop
  | new {prov prof} : Run P f W (new prov prof) .blank
  | threshold {s t n} : Run P f W s t → n ≤ 2 ^ 63 → Run P f W (s.setThreshold n) t
  | profile {s t p} : Run P f W s t → Run P f W (s.setProfile p) t
  | initKey {s s' t key iv info} : Run P f W s t → info.length ≤ 2 ^ 32 → s.initKey P key iv info = .ok s' → Run P f W s' (t.seeded key iv info)
  | update {s s' t key ent} : Run P f W s t → key.length ≤ 4096 → ent.length = 32 → s.update P key ent = .ok s' → Run P f W s' (t.updated f s.prov key ent)
  | generate {s s' t scheds out oo len ent out'} : Run P f W s t → Fair s.prof → (∀ k, Covers s.prof.degree (turns 32 W (perTask s.prof * 32)) (scheds k)) →
      out.length < 2 ^ 64 → oo ≤ out.length → ent.length = 32 → s.generate P W scheds out oo len ent = .ok (s', out') → Run P f W s' (t.after f s.prof s.prov s.threshold len ent)
  | generateVec {s s' t scheds out oo len ent out'} : Run P f W s t → Fair s.prof → (∀ k, Covers s.prof.degree (turns 32 W (perTask s.prof * 32)) (scheds k)) →
      out.length < 2 ^ 64 → oo ≤ out.length → ent.length = 32 → s.generateVec P W scheds out oo len ent = .ok (s', out') → Run P f W s' (t.after f s.prof s.prov s.threshold len ent)

/-- What holds in every reachable state. -/
structure Inv (f : List Byte → List Byte) (s : Bcg) (t : Tally) : Prop where
  nlen : s.nonce.length = 32
  small : s.counter ≤ 2 ^ 63 + 102400000
  thr : s.threshold ≤ 2 ^ 63
  cust : s.custom = t.cust
  ctr : s.nonce = t.ctr
  cnt : s.counter = t.c
  res : s.reseed = t.m
  most : s.reseed ≤ 10000
  size : s.keySize = t.key.length
  short : s.custom.length ≤ 2 ^ 32 + 16 * (s.reseed + 1)
  fresh : s.init = false → s.counter = 0
  keyed : s.init = true → LegalKey t.key ∧ 4 ≤ t.cust.length ∧ s.keys = beWords (t.roundKeys f) ∧ s.rounds = t.rounds

theorem Inv.block (p : Perm P f) {s : Bcg} {t : Tally} (h : Inv f s t) (hi : s.init = true) :
    (∀ c, c.length = 32 → blockOf s.keys s.rounds c = t.E f c) ∧ ∀ c, c.length = 32 → (t.E f c).length = 32 := by
  obtain ⟨hk, hc, hkeys, hr⟩ := h.keyed hi
  have hsh := h.short
  have hm := h.most
  rw [h.cust] at hsh
  have hlen := roundKeys_length p hk hc (by omega)
  have hmap := (C56_rcs t.rounds (rounds_pos t).1 (t.roundKeys f) hlen).1
  refine ⟨?_, fun c hc => onBytes_length (nb := 8) _ hc⟩
  intro c hc
  have := hmap c 0 c (Holds.self c) hc [] (List.replicate 32 0) [] List.length_replicate
  simp only [List.nil_append, List.append_nil, List.length_nil] at this
  rw [blockOf, hkeys, hr, this]
  rfl

theorem initKey_eq (p : Perm P f) {s : Bcg} {t : Tally} (h : Inv f s t) {key iv info : List Byte} (hk : LegalKey key) (hiv : iv.length = 32) (hinf : info.length + 16 ≤ 2 ^ 32 + 16 * (s.reseed + 1)) :
    ∃ s', s.initKey P key iv info = .ok s' ∧ Inv f s' (t.seeded key iv info) ∧ s'.prov = s.prov ∧ s'.threshold = s.threshold ∧ s'.prof = s.prof ∧ s'.init = true ∧ s'.reseed = s.reseed := by
  have hm := h.most
  have hl : (bcgInfo ++ info).length = 16 + info.length := by rw [List.length_append]; rfl
  have hT : (t.seeded key iv info).key = key := rfl
  have hrd : roundsFor key.length = (t.seeded key iv info).rounds := rounds_eq (t := t.seeded key iv info) hk
  have hr38 := rounds_pos (t.seeded key iv info)
  obtain ⟨g0, g1, g2, e0, e1, e2⟩ := shake_once p key (bcgInfo ++ info) (nameFor key.length) (by rcases hk with h | h | h <;> omega) (Or.inr (by omega)) (by omega) (by simp [nameFor])
    (List.replicate (8 * (roundsFor key.length + 1) * 4) 0) (by rw [List.length_replicate, hrd]; omega)
  have hcp : copy iv 0 s.nonce 0 32 = .ok iv := by
    have := copy_at (Holds.self iv) (a := []) (off := 0) (b := s.nonce) (c := []) rfl hiv.symm (h.nlen.trans hiv.symm)
    simpa [hiv] using this
  rw [initKey, if_neg (by rcases hk with h | h | h <;> omega), if_neg (by omega)]
  simp only [hcp, ok_bind, e0, e1, e2]
  refine ⟨_, rfl, ?_, rfl, rfl, rfl, rfl, rfl⟩
  have hkl : ¬ 256 < key.length := by rcases hk with h | h | h <;> omega
  refine ⟨hiv, ?_, h.thr, ?_, rfl, ?_, h.res, h.most, ?_, ?_, (by intro e; cases e), ?_⟩
  · show (if s.init then 0 else s.counter) ≤ _
    split
    · omega
    · exact h.small
  · show bcgInfo ++ info = versionString ++ info
    rw [info_eq]
  · show (if s.init then 0 else s.counter) = 0
    split
    · rfl
    · rename_i hf; exact h.fresh (by simpa using hf)
  · show (if 256 < key.length then 256 else key.length) = key.length
    rw [if_neg hkl]
  · show (bcgInfo ++ info).length ≤ _
    rw [hl]
    show 16 + info.length ≤ 2 ^ 32 + 16 * (s.reseed + 1)
    omega
  · intro _
    refine ⟨hk, ?_, ?_, hrd⟩
    · show 4 ≤ (versionString ++ info).length
      rw [← info_eq, hl]; omega
    · show beWords (Sp800185.cshake f 136 key (List.replicate (8 * (roundsFor key.length + 1) * 4) (0 : Byte)).length (nameFor key.length) (bcgInfo ++ info)) = _
      rw [List.length_replicate, hrd, name_eq, info_eq, show 8 * ((t.seeded key iv info).rounds + 1) * 4 = 32 * ((t.seeded key iv info).rounds + 1) from by omega]
      rfl

theorem update_eq (p : Perm P f) {s : Bcg} {t : Tally} (h : Inv f s t) {key ent : List Byte} (hk : LegalKey key) (hent : ent.length = 32) (hm : s.reseed < 10000) :
    ∃ s', s.update P key ent = .ok s' ∧ Inv f s' (t.updated f s.prov key ent) ∧ s'.prov = s.prov ∧ s'.threshold = s.threshold ∧ s'.prof = s.prof ∧ s'.init = true ∧ s'.reseed = s.reseed + 1 := by
  have hk4 : 16 ≤ key.length ∧ key.length ≤ 128 := by rcases hk with h | h | h <;> omega
  have hd : (if s.prov then derive P key ent else pure key) = .ok (t.updated f s.prov key ent).key ∧ LegalKey (t.updated f s.prov key ent).key := by
    by_cases hp : s.prov = true
    · rw [if_pos hp]
      obtain ⟨g0, g1, g2, e0, e1, e2⟩ := shake_once p key ent [] (by omega) (Or.inr (by omega)) (by omega) (by simp) key (by omega)
      have hkey : (t.updated f s.prov key ent).key = Sp800185.cshake f 136 key key.length [] ent := by
        rw [hp]; rfl
      rw [hkey]
      refine ⟨?_, ?_⟩
      · rw [derive]
        simp only [e0, ok_bind, e1, e2, pure_eq_ok]
      · have := cshake_len p key ent [] (by omega) (Or.inr (by omega)) (by omega) (by simp) key.length
        rw [LegalKey, this]; exact hk
    · rw [if_neg hp]
      have hkey : (t.updated f s.prov key ent).key = key := by
        rw [show s.prov = false from by simpa using hp]; rfl
      rw [hkey]
      exact ⟨rfl, hk⟩
  rw [update, if_neg (by omega), if_neg (by omega), hd.1, ok_bind]
  have hsh := h.short
  have i1 : Inv f { s with reseed := s.reseed + 1 } { t with m := t.m + 1 } :=
    ⟨h.nlen, h.small, h.thr, h.cust, h.ctr, h.cnt, congrArg (· + 1) h.res, hm, h.size, Nat.le_trans hsh (by show _ ≤ 2 ^ 32 + 16 * (s.reseed + 1 + 1); omega), h.fresh, h.keyed⟩
  obtain ⟨s', e, i, e1, e2, e3, e4, e5⟩ := initKey_eq p i1 (iv := s.nonce) (info := s.custom) hd.2 h.nlen (by show _ ≤ 2 ^ 32 + 16 * (s.reseed + 1 + 1); omega)
  rw [e, ok_bind]
  have hT : Tally.seeded { t with m := t.m + 1 } (t.updated f s.prov key ent).key s.nonce s.custom = t.updated f s.prov key ent := by
    rw [h.cust, h.ctr]; rfl
  rw [hT] at i
  exact ⟨_, rfl, ⟨i.nlen, (by show 0 ≤ _; omega), i.thr, i.cust, i.ctr, rfl, i.res, i.most, i.size, i.short, fun _ => rfl, i.keyed⟩, e1, e2, e3, e4, e5⟩

theorem update_counter (P : List Byte → M (List Byte)) (s : Bcg) (hi : s.init = true) (x : Nat) (key ent : List Byte) :
    ({ s with counter := x } : Bcg).update P key ent = s.update P key ent := by
  simp only [update, initKey, hi, if_true]

/-- Room for the reseed at the end of a request. -/
def Room (s : Bcg) (len : Nat) : Prop := s.prov = true → s.threshold ≤ s.counter + len → s.reseed + 2 ≤ 10000

theorem checkReseed_eq (p : Perm P f) {s : Bcg} {t : Tally} (h : Inv f s t) (hi : s.init = true) (hf : Fair s.prof) {sched : List Nat}
    (hsc : Covers s.prof.degree (turns 32 W (perTask s.prof * 32)) sched) {len : Nat} (hlen : len ≤ 102400000) {ent : List Byte} (hent : ent.length = 32) (hroom : Room s len) :
    ∃ s', s.checkReseed P W sched len ent = .ok s' ∧
      Inv f s' (if s.prov then (if s.threshold ≤ t.c + len then
        Tally.updated f { t with ctr := ctrAfter s.prof t.ctr 32, m := t.m + 1 } true (answer (t.E f) s.prof t.ctr 32) ent else { t with c := t.c + len }) else t) ∧
      s'.prov = s.prov ∧ s'.threshold = s.threshold ∧ s'.prof = s.prof ∧ s'.init = true ∧
      s'.reseed = s.reseed + (if s.prov = true ∧ s.threshold ≤ s.counter + len then 2 else 0) := by
  have hsm := h.small
  have hth := h.thr
  have hst := h.short
  rw [checkReseed]
  by_cases hp : s.prov = true
  · rw [if_pos hp, if_pos hp, Nat.mod_eq_of_lt (by omega), ← h.cnt]
    by_cases hc : s.threshold ≤ s.counter + len
    · have hr := hroom hp hc
      simp only []
      rw [if_pos hc, if_pos hc, if_neg (show ¬ s.reseed + 1 > 10000 by omega), if_pos (show s.prov = true ∧ s.threshold ≤ s.counter + len from ⟨hp, hc⟩)]
      obtain ⟨hE, hl⟩ := h.block p hi
      have hpr := process_ok W { s with counter := s.counter + len, reseed := s.reseed + 1 } hE hl h.nlen hf sched hsc [] (List.replicate 32 0) []
      simp only [List.nil_append, List.append_nil, List.length_nil, List.length_replicate] at hpr
      rw [hpr, ok_bind]
      have ha : (answer (t.E f) s.prof s.nonce 32).length = 32 := answer_length hl h.nlen hf 32
      have i1 : Inv f { s with reseed := s.reseed + 1, nonce := ctrAfter s.prof s.nonce 32 }
          { t with ctr := ctrAfter s.prof t.ctr 32, m := t.m + 1 } :=
        ⟨ctrAfter_length _ h.nlen _, h.small, h.thr, h.cust, (by show ctrAfter s.prof s.nonce 32 = ctrAfter s.prof t.ctr 32; rw [h.ctr]), h.cnt, congrArg (· + 1) h.res,
          (by show s.reseed + 1 ≤ _; omega), h.size, Nat.le_trans hst (by show _ ≤ 2 ^ 32 + 16 * (s.reseed + 1 + 1); omega), (by intro e; rw [show s.init = false from e] at hi; cases hi), h.keyed⟩
      obtain ⟨s', e, i, e1, e2, e3, e4, e5⟩ := update_eq p i1 (key := answer (t.E f) s.prof s.nonce 32) (ent := ent) (Or.inl ha) hent (by show s.reseed + 1 < _; omega)
      have hu := update_counter P { s with reseed := s.reseed + 1, nonce := ctrAfter s.prof s.nonce 32 } hi (s.counter + len) (answer (t.E f) s.prof s.nonce 32) ent
      have e' := hu.trans e
      rw [show ({ s with counter := s.counter + len, reseed := s.reseed + 1, nonce := ctrAfter s.prof s.nonce 32 } : Bcg).update P (answer (t.E f) s.prof s.nonce 32) ent = .ok s' from e', ok_bind]
      rw [show ({ s with reseed := s.reseed + 1, nonce := ctrAfter s.prof s.nonce 32 } : Bcg).prov = true from hp] at i
      rw [← h.ctr]
      rw [← h.ctr] at i
      exact ⟨_, rfl, ⟨i.nlen, (by show 0 ≤ _; omega), i.thr, i.cust, i.ctr, rfl, i.res, i.most, i.size, i.short, fun _ => rfl, i.keyed⟩, e1, e2, e3, e4, e5⟩
    · simp only []
      rw [if_neg hc, if_neg hc, if_neg (by simp [hc])]
      refine ⟨_, rfl, ⟨h.nlen, (by show s.counter + len ≤ _; omega), h.thr, h.cust, h.ctr, rfl, h.res, h.most, h.size, h.short, (by intro e; rw [show s.init = false from e] at hi; cases hi),
        h.keyed⟩, rfl, rfl, rfl, hi, rfl⟩
  · rw [if_neg hp, if_neg hp, if_neg (by simp [hp])]
    exact ⟨s, rfl, h, rfl, rfl, rfl, hi, rfl⟩

theorem generate_eq (p : Perm P f) {s : Bcg} {t : Tally} (h : Inv f s t) (hi : s.init = true) (hf : Fair s.prof) {scheds : Nat → List Nat}
    (hsc : ∀ k, Covers s.prof.degree (turns 32 W (perTask s.prof * 32)) (scheds k)) (pre junk post : List Byte) (hl64 : (pre ++ junk ++ post).length < 2 ^ 64)
    (hlen : junk.length ≤ 102400000) {ent : List Byte} (hent : ent.length = 32) (hroom : Room s junk.length) :
    ∃ s', s.generate P W scheds (pre ++ junk ++ post) pre.length junk.length ent = .ok (s', pre ++ answer (t.E f) s.prof t.ctr junk.length ++ post) ∧
      Inv f s' (t.after f s.prof s.prov s.threshold junk.length ent) ∧ s'.prov = s.prov ∧ s'.threshold = s.threshold ∧ s'.prof = s.prof ∧ s'.init = true ∧
      s'.reseed = s.reseed + (if s.prov = true ∧ s.threshold ≤ s.counter + junk.length then 2 else 0) := by
  obtain ⟨hE, hl⟩ := h.block p hi
  have hpr := process_ok W s hE hl h.nlen hf (scheds 0) (hsc 0) pre junk post
  have hsub : subU (pre ++ junk ++ post).length pre.length = junk.length + post.length := by
    rw [subU_le (by simp only [List.length_append]; omega) hl64]
    simp only [List.length_append]; omega
  rw [generate, if_neg (by simp [hi]), hsub, if_neg (by omega), if_neg (by omega), hpr, ok_bind]
  have i1 : Inv f { s with nonce := ctrAfter s.prof s.nonce junk.length } { t with ctr := ctrAfter s.prof t.ctr junk.length } :=
    ⟨ctrAfter_length _ h.nlen _, h.small, h.thr, h.cust, (by show ctrAfter s.prof s.nonce _ = _; rw [h.ctr]), h.cnt, h.res, h.most, h.size, h.short, h.fresh, h.keyed⟩
  obtain ⟨s', e, i, e1⟩ := checkReseed_eq (W := W) p i1 hi hf (hsc 1) hlen hent hroom
  rw [e, ok_bind, h.ctr]
  exact ⟨s', rfl, i, e1⟩

theorem generateVec_eq (p : Perm P f) {s : Bcg} {t : Tally} (h : Inv f s t) (hi : s.init = true) (hf : Fair s.prof) {scheds : Nat → List Nat}
    (hsc : ∀ k, Covers s.prof.degree (turns 32 W (perTask s.prof * 32)) (scheds k)) (pre junk post : List Byte) (hl64 : (pre ++ junk ++ post).length < 2 ^ 64)
    (hlen : junk.length ≤ 102400000) {ent : List Byte} (hent : ent.length = 32) (hroom : Room s junk.length) :
    ∃ s', s.generateVec P W scheds (pre ++ junk ++ post) pre.length junk.length ent = .ok (s', pre ++ answer (t.E f) s.prof t.ctr junk.length ++ post) ∧
      Inv f s' (t.after f s.prof s.prov s.threshold junk.length ent) ∧ s'.prov = s.prov ∧ s'.threshold = s.threshold ∧ s'.prof = s.prof ∧ s'.init = true ∧
      s'.reseed = s.reseed + (if s.prov = true ∧ s.threshold ≤ s.counter + junk.length then 2 else 0) := by
  obtain ⟨hE, hl⟩ := h.block p hi
  have hsub : subU (pre ++ junk ++ post).length pre.length = junk.length + post.length := by
    rw [subU_le (by simp only [List.length_append]; omega) hl64]
    simp only [List.length_append]; omega
  have hz : (List.replicate junk.length (0 : Byte)).length = junk.length := List.length_replicate
  obtain ⟨s', e, r⟩ := generate_eq (W := W) p h hi hf hsc [] (List.replicate junk.length 0) [] (by simp only [List.nil_append, List.append_nil, hz]; omega) (by rw [hz]; exact hlen) hent
    (by rw [hz]; exact hroom)
  rw [hz] at e r
  simp only [List.nil_append, List.append_nil, List.length_nil] at e
  have ha := answer_length hl (by rw [← h.ctr]; exact h.nlen : t.ctr.length = 32) hf junk.length
  have hcp := copy_at (Holds.self (answer (t.E f) s.prof t.ctr junk.length)) (a := pre) (off := pre.length) (b := junk) (c := post) rfl ha.symm ha.symm
  rw [generateVec, if_neg (by simp [hi]), hsub, if_neg (by omega), if_neg (by omega), e, ok_bind, hcp, ok_bind]
  exact ⟨s', rfl, r⟩

/-! ## What a successful call has passed -/

theorem initKey_ok {s s' : Bcg} {key iv info : List Byte} (h : s.initKey P key iv info = .ok s') : LegalKey key ∧ iv.length = 32 := by
  rw [initKey] at h
  split at h
  · cases h
  · split at h
    · cases h
    · exact ⟨by rw [LegalKey]; omega, by omega⟩

theorem update_ok (p : Perm P f) {s s' : Bcg} {key ent : List Byte} (hk : key.length ≤ 4096) (hent : ent.length = 32) (h : s.update P key ent = .ok s') : LegalKey key ∧ s.reseed < 10000 := by
  rw [update] at h
  split at h
  · cases h
  · split at h
    · cases h
    · refine ⟨?_, by omega⟩
      obtain ⟨k, e, h⟩ := bind_ok h
      obtain ⟨s1, e1, h⟩ := bind_ok h
      have hl := (initKey_ok e1).1
      have : k.length = key.length := by
        split at e
        · obtain ⟨g0, g1, g2, f0, f1, f2⟩ := shake_once p key ent [] (by omega) (Or.inr (by omega)) (by omega) (by simp) key (by omega)
          rw [derive] at e
          simp only [f0, ok_bind, f1, f2, pure_eq_ok] at e
          cases e
          exact cshake_len p key ent [] (by omega) (Or.inr (by omega)) (by omega) (by simp) key.length
        · cases e; rfl
      rw [LegalKey, ← this]; exact hl

theorem checkReseed_room (p : Perm P f) {s : Bcg} {t : Tally} (h : Inv f s t) (hi : s.init = true) (hf : Fair s.prof) {sched : List Nat}
    (hsc : Covers s.prof.degree (turns 32 W (perTask s.prof * 32)) sched) {len : Nat} (hlen : len ≤ 102400000) {ent : List Byte} (hn : ¬ Room s len) :
    s.checkReseed P W sched len ent = .error (.throws .maxExceeded) := by
  have hsm := h.small
  have hth := h.thr
  rw [Room] at hn
  have hp : s.prov = true := by
    by_cases hp : s.prov = true
    · exact hp
    · exact absurd (fun e => absurd e hp) hn
  have hc : s.threshold ≤ s.counter + len := by
    by_cases hc : s.threshold ≤ s.counter + len
    · exact hc
    · exact absurd (fun _ e => absurd e hc) hn
  have hr : ¬ s.reseed + 2 ≤ 10000 := fun hr => hn fun _ _ => hr
  rw [checkReseed, if_pos hp, Nat.mod_eq_of_lt (by omega)]
  simp only []
  rw [if_pos hc]
  by_cases h1 : s.reseed + 1 > 10000
  · rw [if_pos h1]; rfl
  · rw [if_neg h1]
    obtain ⟨hE, hl⟩ := h.block p hi
    have hpr := process_ok W { s with counter := s.counter + len, reseed := s.reseed + 1 } hE hl h.nlen hf sched hsc [] (List.replicate 32 0) []
    simp only [List.nil_append, List.append_nil, List.length_nil, List.length_replicate] at hpr
    rw [hpr, ok_bind]
    have ha : (answer (t.E f) s.prof s.nonce 32).length = 32 := answer_length hl h.nlen hf 32
    rw [update, if_neg (by show ¬ (answer (t.E f) s.prof s.nonce 32).length < 16; omega), if_pos (by show s.reseed + 1 + 1 > 10000; omega)]
    rfl

theorem generate_room (p : Perm P f) {s : Bcg} {t : Tally} (h : Inv f s t) (hi : s.init = true) (hf : Fair s.prof) {scheds : Nat → List Nat}
    (hsc : ∀ k, Covers s.prof.degree (turns 32 W (perTask s.prof * 32)) (scheds k)) (pre junk post : List Byte) (hl64 : (pre ++ junk ++ post).length < 2 ^ 64)
    (hlen : junk.length ≤ 102400000) {ent : List Byte} (hn : ¬ Room s junk.length) :
    s.generate P W scheds (pre ++ junk ++ post) pre.length junk.length ent = .error (.throws .maxExceeded) := by
  obtain ⟨hE, hl⟩ := h.block p hi
  have hpr := process_ok W s hE hl h.nlen hf (scheds 0) (hsc 0) pre junk post
  have hsub : subU (pre ++ junk ++ post).length pre.length = junk.length + post.length := by
    rw [subU_le (by simp only [List.length_append]; omega) hl64]
    simp only [List.length_append]; omega
  rw [generate, if_neg (by simp [hi]), hsub, if_neg (by omega), if_neg (by omega), hpr, ok_bind]
  have i1 : Inv f { s with nonce := ctrAfter s.prof s.nonce junk.length } { t with ctr := ctrAfter s.prof t.ctr junk.length } :=
    ⟨ctrAfter_length _ h.nlen _, h.small, h.thr, h.cust, (by show ctrAfter s.prof s.nonce _ = _; rw [h.ctr]), h.cnt, h.res, h.most, h.size, h.short, h.fresh, h.keyed⟩
  rw [checkReseed_room (W := W) p i1 hi hf (hsc 1) hlen hn]
  rfl

/-- The arguments of a successful `Generate`. -/
theorem generate_ok {s s' : Bcg} {scheds : Nat → List Nat} {out out' ent : List Byte} {oo len : Nat} (hoo : oo ≤ out.length) (hl64 : out.length < 2 ^ 64) (h : s.generate P W scheds out oo len ent = .ok (s', out')) :
    s.init = true ∧ oo + len ≤ out.length ∧ len ≤ 102400000 := by
  rw [generate] at h
  split at h
  · cases h
  · split at h
    · cases h
    · split at h
      · cases h
      · rename_i h1 h2 h3
        rw [subU_le hoo hl64] at h2
        exact ⟨by simpa using h1, by omega, by omega⟩

theorem generateVec_ok {s s' : Bcg} {scheds : Nat → List Nat} {out out' ent : List Byte} {oo len : Nat} (hoo : oo ≤ out.length) (hl64 : out.length < 2 ^ 64) (h : s.generateVec P W scheds out oo len ent = .ok (s', out')) :
    s.init = true ∧ oo + len ≤ out.length ∧ len ≤ 102400000 ∧ ∃ o, s.generate P W scheds (List.replicate len 0) 0 len ent = .ok (s', o) := by
  rw [generateVec] at h
  split at h
  · cases h
  · split at h
    · cases h
    · split at h
      · cases h
      · rename_i h1 h2 h3
        rw [subU_le hoo hl64] at h2
        obtain ⟨r, e, h⟩ := bind_ok h
        obtain ⟨o, e1, h⟩ := bind_ok h
        cases h
        exact ⟨by simpa using h1, by omega, by omega, _, e⟩

/-- The parts of an output array around a window. -/
theorem window_split (out : List Byte) (oo len : Nat) (h : oo + len ≤ out.length) :
    ∃ pre junk post, out = pre ++ junk ++ post ∧ pre.length = oo ∧ junk.length = len :=
  ⟨out.take oo, (out.drop oo).take len, (out.drop oo).drop len, by rw [List.append_assoc, List.take_append_drop, List.take_append_drop], by rw [List.length_take]; omega,
    by rw [List.length_take, List.length_drop]; omega⟩

theorem generate_ok_inv (p : Perm P f) {s s' : Bcg} {t : Tally} (h : Inv f s t) (hf : Fair s.prof) {scheds : Nat → List Nat}
    (hsc : ∀ k, Covers s.prof.degree (turns 32 W (perTask s.prof * 32)) (scheds k)) {out out' ent : List Byte} {oo len : Nat} (hl64 : out.length < 2 ^ 64) (hoo : oo ≤ out.length)
    (hent : ent.length = 32) (e : s.generate P W scheds out oo len ent = .ok (s', out')) : Inv f s' (t.after f s.prof s.prov s.threshold len ent) := by
  obtain ⟨hi, hle, hmax⟩ := generate_ok hoo hl64 e
  obtain ⟨pre, junk, post, rfl, rfl, rfl⟩ := window_split out oo len hle
  by_cases hr : Room s junk.length
  · obtain ⟨s1, e1, i, _⟩ := generate_eq (W := W) p h hi hf hsc pre junk post hl64 hmax hent hr
    rw [e1] at e
    cases e
    exact i
  · rw [generate_room (W := W) p h hi hf hsc pre junk post hl64 hmax hr] at e
    cases e

theorem Run.inv (p : Perm P f) {s : Bcg} {t : Tally} (h : Run P f W s t) : Inv f s t := by
  induction h with
  | new => exact ⟨List.length_replicate, (by show 0 ≤ _; omega), (by show 102400000 ≤ _; omega), rfl, rfl, rfl, rfl, Nat.zero_le _, rfl, Nat.zero_le _, fun _ => rfl, (by intro e; cases e)⟩
  | threshold _ hn i => exact ⟨i.nlen, i.small, hn, i.cust, i.ctr, i.cnt, i.res, i.most, i.size, i.short, i.fresh, i.keyed⟩
  | profile _ i => exact ⟨i.nlen, i.small, i.thr, i.cust, i.ctr, i.cnt, i.res, i.most, i.size, i.short, i.fresh, i.keyed⟩
  | @initKey s s' t key iv info _ hl e i =>
    obtain ⟨hk, hiv⟩ := initKey_ok e
    obtain ⟨s1, e1, i1, _⟩ := initKey_eq p i (info := info) hk hiv (by omega)
    rw [e1] at e
    cases e
    exact i1
  | update _ hk hent e i =>
    obtain ⟨hl, hm⟩ := update_ok p hk hent e
    obtain ⟨s1, e1, i1, _⟩ := update_eq p i hl hent hm
    rw [e1] at e
    cases e
    exact i1
  | generate _ hf hsc hl hoo hent e i => exact generate_ok_inv p i hf hsc hl hoo hent e
  | generateVec _ hf hsc hl hoo hent e i =>
    obtain ⟨_, _, _, _, e1⟩ := generateVec_ok hoo hl e
    exact generate_ok_inv p i hf hsc (by rw [List.length_replicate]; omega) (Nat.zero_le _) hent e1

/-! ## The property -/

/-- **C64**: `Initialize` accepts the three key sizes with a 32-byte nonce in every reachable state. Afterwards the round keys are those of cSHAKE-256 under the
key and the counter is the nonce. -/
theorem C64_initialize (p : Perm P f) (s : Bcg) (t : Tally) (h : Run P f W s t) (key iv info : List Byte) (hk : LegalKey key) (hiv : iv.length = 32) (hinf : info.length ≤ 2 ^ 32) :
    ∃ s', s.initKey P key iv info = .ok s' ∧ Run P f W s' (t.seeded key iv info) ∧ s'.init = true ∧ s'.securityStrength = 8 * key.length ∧
      s'.keys = beWords (Tally.roundKeys f (t.seeded key iv info)) ∧ s'.nonce = iv := by
  obtain ⟨s', e, i, _, _, _, hi, _⟩ := initKey_eq p (h.inv p) (info := info) hk hiv (by omega)
  refine ⟨s', e, .initKey h hinf e, hi, ?_, (i.keyed hi).2.2.1, i.ctr⟩
  rw [securityStrength, i.size, Nat.mul_comm]; rfl

/-- **C64**: a request writes `answer` — counter mode of the block function, cut at the tasks — into the window it was given and nothing else, in both overloads,
in every build, under every schedule. The state after it follows the tally. -/
theorem C64_generate (p : Perm P f) (s : Bcg) (t : Tally) (h : Run P f W s t) (hi : s.init = true) (hf : Fair s.prof) (scheds : Nat → List Nat)
    (hsc : ∀ k, Covers s.prof.degree (turns 32 W (perTask s.prof * 32)) (scheds k)) (pre junk post : List Byte) (hl64 : (pre ++ junk ++ post).length < 2 ^ 64)
    (hlen : junk.length ≤ 102400000) (ent : List Byte) (hent : ent.length = 32) (hroom : Room s junk.length) :
    (∃ s', s.generate P W scheds (pre ++ junk ++ post) pre.length junk.length ent = .ok (s', pre ++ answer (t.E f) s.prof t.ctr junk.length ++ post) ∧
      Run P f W s' (t.after f s.prof s.prov s.threshold junk.length ent)) ∧
    ∃ s', s.generateVec P W scheds (pre ++ junk ++ post) pre.length junk.length ent = .ok (s', pre ++ answer (t.E f) s.prof t.ctr junk.length ++ post) ∧
      Run P f W s' (t.after f s.prof s.prov s.threshold junk.length ent) := by
  have i := h.inv p
  obtain ⟨s1, e1, _⟩ := generate_eq (W := W) p i hi hf hsc pre junk post hl64 hlen hent hroom
  obtain ⟨s2, e2, _⟩ := generateVec_eq (W := W) p i hi hf hsc pre junk post hl64 hlen hent hroom
  have hoo : pre.length ≤ (pre ++ junk ++ post).length := by simp only [List.length_append]; omega
  exact ⟨⟨s1, e1, .generate h hf hsc hl64 hoo hent e1⟩, ⟨s2, e2, .generateVec h hf hsc hl64 hoo hent e2⟩⟩

/-- **C64**: `Update` re-keys the generator and keeps the counter; with a provider the new key is cSHAKE-256 of the given key customized by fresh entropy. It also
works, and leaves the generator initialized, before any `Initialize`. -/
theorem C64_update (p : Perm P f) (s : Bcg) (t : Tally) (h : Run P f W s t) (key ent : List Byte) (hk : LegalKey key) (hent : ent.length = 32) (hm : s.reseed < 10000) :
    ∃ s', s.update P key ent = .ok s' ∧ Run P f W s' (t.updated f s.prov key ent) ∧ s'.init = true ∧ s'.reseed = s.reseed + 1 ∧
      s'.keys = beWords (Tally.roundKeys f (t.updated f s.prov key ent)) := by
  obtain ⟨s', e, i, _, _, _, hi, hr⟩ := update_eq p (h.inv p) hk hent hm
  exact ⟨s', e, .update h (by rcases hk with h | h | h <;> omega) hent e, hi, hr, (i.keyed hi).2.2.1⟩

/-- **C64**: what is refused, and how. -/
theorem C64_limits (p : Perm P f) (s : Bcg) (t : Tally) (h : Run P f W s t) (scheds : Nat → List Nat) (out : List Byte) (oo len : Nat) (ent : List Byte) (hoo : oo ≤ out.length) (hl64 : out.length < 2 ^ 64) :
    (s.init = false → s.generate P W scheds out oo len ent = .error (.throws .notInitialized) ∧ s.generateVec P W scheds out oo len ent = .error (.throws .notInitialized)) ∧
    (s.init = true → out.length < oo + len → s.generate P W scheds out oo len ent = .error (.throws .invalidSize) ∧ s.generateVec P W scheds out oo len ent = .error (.throws .invalidSize)) ∧
    (s.init = true → oo + len ≤ out.length → 102400000 < len → s.generate P W scheds out oo len ent = .error (.throws .maxExceeded) ∧
      s.generateVec P W scheds out oo len ent = .error (.throws .maxExceeded)) ∧
    (s.init = true → Fair s.prof → (∀ k, Covers s.prof.degree (turns 32 W (perTask s.prof * 32)) (scheds k)) → oo + len ≤ out.length → len ≤ 102400000 →
      ¬ Room s len → s.generate P W scheds out oo len ent = .error (.throws .maxExceeded)) ∧
    (∀ key iv info, ¬ LegalKey key → s.initKey P key iv info = .error (.throws .invalidKey)) ∧
    (∀ key iv info, LegalKey key → iv.length ≠ 32 → s.initKey P key iv info = .error (.throws .invalidNonce)) ∧
    (∀ key, key.length < 16 → s.update P key ent = .error (.throws .invalidKey)) ∧
    (∀ key, 16 ≤ key.length → 10000 ≤ s.reseed → s.update P key ent = .error (.throws .maxExceeded)) ∧
    ∀ key, 16 ≤ key.length → key.length ≤ 4096 → ent.length = 32 → ¬ LegalKey key → s.reseed < 10000 → s.update P key ent = .error (.throws .invalidKey) := by
  have hbad : ∀ (s : Bcg) key iv info, ¬ LegalKey key → s.initKey P key iv info = .error (.throws .invalidKey) := by
    intro s key iv info hk
    rw [LegalKey] at hk
    rw [initKey, if_pos (by omega)]; rfl
  refine ⟨?_, ?_, ?_, ?_, fun key iv info hk => hbad s key iv info hk, ?_, ?_, ?_, ?_⟩
  · intro hi
    rw [generate, generateVec, if_pos hi, if_pos hi]; exact ⟨rfl, rfl⟩
  · intro hi hlt
    have h2 : subU out.length oo < len := by rw [subU_le hoo hl64]; omega
    refine ⟨?_, ?_⟩
    · rw [generate, if_neg (by simp [hi]), if_pos h2]; rfl
    · rw [generateVec, if_neg (by simp [hi]), if_pos h2]; rfl
  · intro hi hle hlt
    have h2 : ¬ subU out.length oo < len := by rw [subU_le hoo hl64]; omega
    refine ⟨?_, ?_⟩
    · rw [generate, if_neg (by simp [hi]), if_neg h2, if_pos hlt]; rfl
    · rw [generateVec, if_neg (by simp [hi]), if_neg h2, if_pos hlt]; rfl
  · intro hi hf hsc hle hmax hr
    obtain ⟨pre, junk, post, rfl, rfl, rfl⟩ := window_split out oo len hle
    exact generate_room (W := W) p (h.inv p) hi hf hsc pre junk post hl64 hmax hr
  · intro key iv info hk hiv
    rw [initKey, if_neg (by rcases hk with h | h | h <;> omega), if_pos hiv]; rfl
  · intro key hk
    rw [update, if_pos hk]; rfl
  · intro key hk hm
    rw [update, if_neg (by omega), if_pos (by omega)]; rfl
  · intro key hk hk2 hent hl hm
    rw [update, if_neg (by omega), if_neg (by omega)]
    have hd : ∃ k, (if s.prov then derive P key ent else pure key) = .ok k ∧ k.length = key.length := by
      split
      · obtain ⟨g0, g1, g2, f0, f1, f2⟩ := shake_once p key ent [] (by omega) (Or.inr (by omega)) (by omega) (by simp) key (by omega)
        refine ⟨Sp800185.cshake f 136 key key.length [] ent, ?_, cshake_len p key ent [] (by omega) (Or.inr (by omega)) (by omega) (by simp) key.length⟩
        rw [derive]
        simp only [f0, ok_bind, f1, f2, pure_eq_ok]
      · exact ⟨key, rfl, rfl⟩
    obtain ⟨k, e, hkl⟩ := hd
    rw [e, ok_bind, hbad _ _ _ _ (by rw [LegalKey, hkl]; exact hl)]
    rfl

/-! ## Streams -/

theorem ctrStream_split {E : List Byte → List Byte} (hl : ∀ c, c.length = 32 → (E c).length = 32) {c : List Byte} (h : c.length = 32) (n r : Nat) :
    ctrStream E c (n * 32 + r) = ctrStream E c (n * 32) ++ ctrStream E (byteCnt c n) r := by
  have L := core_laws E hl
  have h1 := keystream_split L h n r
  have h2 := keystream_blocks L h n
  have h1' : ctrStream E c (n * 32 + r) = ksb (core E) byteCnt c n ++ ctrStream E (byteCnt c n) r := h1
  have h2' : ctrStream E c (n * 32) = ksb (core E) byteCnt c n := h2
  rw [h1', h2']

/-- `Gens P W s outs s'`: consecutive requests, none large enough for tasks, that returned `outs`. -/
inductive Gens (P : List Byte → M (List Byte)) (W : Nat) : Bcg → List (List Byte) → Bcg → Prop
  | nil {s} : Gens P W s [] s
  | cons {s s' s'' scheds buf ent o os} : buf.length < 2 ^ 64 → ent.length = 32 → Serial s.prof buf.length → s.generate P W scheds buf 0 buf.length ent = .ok (s', o) → Gens P W s' os s'' →
      Gens P W s (o :: os) s''

/-- Without tasks a schedule is never read. -/
theorem generate_serial (p : Perm P f) {s : Bcg} {t : Tally} (h : Inv f s t) (hi : s.init = true) (hprov : s.prov = false) {scheds : Nat → List Nat} {buf ent : List Byte} (hl : buf.length < 2 ^ 64)
    (hmax : buf.length ≤ 102400000) (hs : Serial s.prof buf.length) :
    ∃ s', s.generate P W scheds buf 0 buf.length ent = .ok (s', ctrStream (t.E f) t.ctr buf.length) ∧ Inv f s' { t with ctr := byteCnt t.ctr (blocksFor 32 buf.length) } ∧
      s'.init = true ∧ s'.prov = false ∧ s'.prof = s.prof := by
  obtain ⟨hE, hln⟩ := h.block p hi
  have hl' : ∀ c, c.length = 32 → (blockOf s.keys s.rounds c).length = 32 := fun c h => by rw [hE c h]; exact hln c h
  have hrun := (gen_runs (core_laws _ hl') W 0 buf.length h.nlen buf rfl).run [] [] rfl
  simp only [List.nil_append, List.append_nil] at hrun
  have hrun' : runActs (genActs (core (blockOf s.keys s.rounds)) W 0 buf.length) s.nonce buf =
      .ok (byteCnt s.nonce (blocksFor 32 buf.length), ctrStream (blockOf s.keys s.rounds) s.nonce buf.length) := hrun
  have hs' : s.prof.isParallel = false ∨ buf.length < s.prof.blockSize := hs
  rw [generate, if_neg (by simp [hi]), subU_le (Nat.zero_le _) hl, if_neg (by omega), if_neg (by omega), process, if_pos hs', hrun', ok_bind]
  simp only [pure_eq_ok, ok_bind]
  rw [checkReseed, if_neg (by simp [hprov]), ctrStream_congr hE h.nlen, h.ctr]
  exact ⟨_, rfl, ⟨byteCnt_length (by omega) (by rw [← h.ctr]; exact h.nlen) _, h.small, h.thr, h.cust, rfl, h.cnt, h.res, h.most, h.size, h.short, h.fresh, h.keyed⟩, hi, hprov, rfl⟩

/-- **C64** (partial): without a provider, consecutive requests that start no tasks continue one counter-mode stream if every request but the last asks for whole blocks.
Without this condition it is false (`C64_split_refuted`), and so it is with tasks (`C64_parallel_refuted`). -/
theorem C64_stream_partial (p : Perm P f) (s s' : Bcg) (t : Tally) (h : Run P f W s t) (hprov : s.prov = false) (outs : List (List Byte))
    (hg : Gens P W s outs s') (hw : ∀ o ∈ outs.dropLast, o.length % 32 = 0) : outs.flatten = ctrStream (t.E f) t.ctr outs.flatten.length := by
  have i := h.inv p
  clear h
  induction hg generalizing t with
  | nil => rfl
  | @cons s s1 s2 scheds buf ent o os hl hent hs e hg ih =>
    obtain ⟨hi, _, hmax⟩ := generate_ok (Nat.zero_le _) hl e
    obtain ⟨s3, e3, i3, hi3, hp3, hpf⟩ := generate_serial (W := W) (scheds := scheds) (ent := ent) p i hi hprov hl hmax hs
    rw [e3] at e
    cases e
    obtain ⟨hE, hln⟩ := i.block p hi
    have hcl : t.ctr.length = 32 := by rw [← i.ctr]; exact i.nlen
    have hol := ctrStream_length hln hcl buf.length
    rcases os with _ | ⟨o2, os⟩
    · simp only [List.flatten_cons, List.flatten_nil, List.append_nil, hol]
    · have hrest := ih { t with ctr := byteCnt t.ctr (blocksFor 32 buf.length) } hp3 (fun x hx => hw x (by simp only [List.dropLast_cons₂, List.mem_cons]; exact Or.inr hx)) i3
      have h32 : buf.length % 32 = 0 := by
        have := hw _ (by simp only [List.dropLast_cons₂, List.mem_cons]; exact Or.inl rfl)
        rwa [hol] at this
      obtain ⟨n, hn⟩ : ∃ n, buf.length = n * 32 := ⟨buf.length / 32, by omega⟩
      have hbf : blocksFor 32 buf.length = n := by rw [hn]; exact blocksFor_mul (by omega) n
      have hE' : Tally.E f { t with ctr := byteCnt t.ctr (blocksFor 32 buf.length) } = t.E f := rfl
      rw [hE', hbf] at hrest
      rw [List.flatten_cons, List.length_append, hol, hn, ctrStream_split hln hcl, ← hrest]

/-! ## Tasks change the output -/

theorem beJump_ne {c : List Byte} (h : c.length = 32) {n : Nat} (h0 : 0 < n) (hn : n < 2 ^ 32) : beJump c n ≠ byteCnt c n := by
  intro e
  have hd := congrArg (List.drop 16) e
  have hR : (byteCnt c n).drop 16 = c.drop 16 := by
    rw [byteCnt, List.drop_append, leEnc_length, List.drop_of_length_le (by rw [leEnc_length])]; simp
  rw [hR] at hd
  have hv : beVal (beJump c n) = (beVal c + n) % 256 ^ 32 := beVal_beEnc _ _
  have h1 : beVal (beJump c n) = beVal ((beJump c n).take 16) * 256 ^ 16 + beVal ((beJump c n).drop 16) := by
    have := beVal_append ((beJump c n).take 16) ((beJump c n).drop 16)
    rwa [List.take_append_drop, List.length_drop, beJump_length] at this
  have h2 : beVal c = beVal (c.take 16) * 256 ^ 16 + beVal (c.drop 16) := by
    have := beVal_append (c.take 16) (c.drop 16)
    rwa [List.take_append_drop, List.length_drop, h] at this
  rw [hd] at h1
  generalize beVal (c.drop 16) = lo at *
  generalize beVal (c.take 16) = hiC at *
  generalize beVal ((beJump c n).take 16) = hiJ at *
  rw [h1, h2] at hv
  have hm : (hiJ * 256 ^ 16 + lo) % 256 ^ 16 = _ % 256 ^ 16 := congrArg (· % 256 ^ 16) hv
  rw [show (256 : Nat) ^ 32 = 256 ^ 16 * 256 ^ 16 from by decide, Nat.mod_mul_right_mod] at hm
  rw [Nat.mul_comm hiJ, Nat.mul_add_mod, Nat.mul_comm hiC, Nat.add_assoc, Nat.mul_add_mod] at hm
  omega

theorem ctr_flat {E : List Byte → List Byte} (hl : ∀ c, c.length = 32 → (E c).length = 32) {c : List Byte} (h : c.length = 32) (m d : Nat) :
    ctrStream E c (d * (m * 32)) = flatW (fun i => ctrStream E (byteCnt c (m * i)) (m * 32)) d := by
  induction d with
  | zero =>
    rw [Nat.zero_mul]
    exact List.eq_nil_of_length_eq_zero (ctrStream_length hl h 0)
  | succ d ih =>
    rw [flatW_succ, ← ih, Nat.succ_mul, show d * (m * 32) = d * m * 32 from by rw [Nat.mul_assoc], ctrStream_split hl h, Nat.mul_comm d m]

theorem ctr_first {E : List Byte → List Byte} (hl : ∀ c, c.length = 32 → (E c).length = 32) {c : List Byte} (h : c.length = 32) {m : Nat} (hm : 0 < m) :
    (ctrStream E c (m * 32)).take 32 = E c := by
  have h1 := ctrStream_split hl h 1 ((m - 1) * 32)
  rw [show 1 * 32 + (m - 1) * 32 = m * 32 from by omega] at h1
  have hb := ctrStream_length hl h (1 * 32)
  have h2 : ctrStream E c (1 * 32) = E c := by
    have := keystream_blocks (core_laws E hl) h 1
    have h3 : ctrStream E c (1 * 32) = ksb (core E) byteCnt c 1 := this
    have h4 : ksb (core E) byteCnt c 1 = E (byteCnt c 0) := by simp [ksb, core]
    rw [h3, h4, byteCnt_zero (by omega) h]
  rw [h1, h2, List.take_append_of_le_length (by rw [hl c h]), List.take_of_length_le (by rw [hl c h])]

/-- **C64** (refuted): the output depends on the number of tasks. For every key, nonce and state, a request answered by two or more tasks differs from what the same
generator returns without tasks. The tasks' counters are advanced as one big-endian number, the blocks as a little-endian number in the first half. -/
theorem C64_parallel_refuted (p : Perm P f) (s : Bcg) (t : Tally) (h : Run P f W s t) (hi : s.init = true) (hpar : s.prof.isParallel = true) (hf : Fair s.prof) (hd : 2 ≤ s.prof.degree)
    (scheds : Nat → List Nat) (hsc : ∀ k, Covers s.prof.degree (turns 32 W (perTask s.prof * 32)) (scheds k)) (ent : List Byte) (hent : ent.length = 32) (hroom : Room s s.prof.blockSize) :
    ∃ s1 s2 x y, s.generate P W scheds (List.replicate s.prof.blockSize 0) 0 s.prof.blockSize ent = .ok (s1, x) ∧
      (s.setProfile { s.prof with isParallel := false }).generate P W scheds (List.replicate s.prof.blockSize 0) 0 s.prof.blockSize ent = .ok (s2, y) ∧ x ≠ y := by
  obtain ⟨hd0, hm0, hb, hbs⟩ := hf hpar
  have i := h.inv p
  obtain ⟨hE, hln⟩ := i.block p hi
  have hcl : t.ctr.length = 32 := by rw [← i.ctr]; exact i.nlen
  have hz : (List.replicate s.prof.blockSize (0 : Byte)).length = s.prof.blockSize := List.length_replicate
  obtain ⟨s1, e1, _⟩ := generate_eq (W := W) p i hi hf hsc [] (List.replicate s.prof.blockSize 0) [] (by simp only [List.nil_append, List.append_nil, hz]; omega) (by rw [hz]; omega) hent
    (by rw [hz]; exact hroom)
  have i2 := (Run.profile (p := { s.prof with isParallel := false }) h).inv p
  have hf2 : Fair { s.prof with isParallel := false } := by intro e; cases e
  obtain ⟨s2, e2, _⟩ := generate_eq (W := W) p i2 hi hf2 hsc [] (List.replicate s.prof.blockSize 0) [] (by simp only [List.nil_append, List.append_nil, hz]; omega) (by rw [hz]; omega) hent
    (by rw [hz]; exact hroom)
  rw [hz] at e1 e2
  simp only [List.nil_append, List.append_nil, List.length_nil] at e1 e2
  refine ⟨s1, s2, _, _, e1, e2, ?_⟩
  intro he
  have hser : Serial (s.setProfile { s.prof with isParallel := false }).prof s.prof.blockSize := Or.inl rfl
  have hnot : ¬ Serial s.prof s.prof.blockSize := by
    rw [Serial, not_or]; exact ⟨by simp [hpar], by omega⟩
  rw [answer, if_neg hnot, answer, if_pos hser, Nat.sub_self] at he
  have h0 : ctrStream (t.E f) (lastCtr s.prof t.ctr) 0 = [] := List.eq_nil_of_length_eq_zero (ctrStream_length hln (lastCtr_length _ _) 0)
  rw [h0, List.append_nil] at he
  have hc2 := ctr_flat hln hcl (perTask s.prof) s.prof.degree
  rw [← hb] at hc2
  have he' : flatW (fun i => ctrStream (t.E f) (beJump t.ctr (perTask s.prof * i)) (perTask s.prof * 32)) s.prof.degree =
      flatW (fun i => ctrStream (t.E f) (byteCnt t.ctr (perTask s.prof * i)) (perTask s.prof * 32)) s.prof.degree := he.trans hc2
  have h1 := flatW_inj (fun i _ => ctrStream_length hln (beJump_length _ _) _) (fun i _ => ctrStream_length hln (byteCnt_length (by omega) hcl _) _) he' 1 (by omega)
  have h2 := congrArg (List.take 32) h1
  rw [Nat.mul_one, ctr_first hln (beJump_length _ _) (by omega), ctr_first hln (byteCnt_length (by omega) hcl _) (by omega)] at h2
  have h3 := (C56_injective _ _).1 _ _ (beJump_length _ _) (byteCnt_length (by omega) hcl _) h2
  refine beJump_ne hcl (by omega) ?_ h3
  have : perTask s.prof * 32 ≤ s.prof.blockSize := by
    rw [hb]; exact Nat.le_mul_of_pos_left _ (by omega)
  omega

/-! ## Reseeding -/

/-- **C64** (refuted): the security strength does not survive. A generator with a provider that reaches its threshold is at 256 bits and 22 rounds afterwards,
also when it was initialized with a key of 64 or 128 bytes. -/
theorem C64_strength_refuted (p : Perm P f) (s : Bcg) (t : Tally) (h : Run P f W s t) (hi : s.init = true) (hf : Fair s.prof) (scheds : Nat → List Nat)
    (hsc : ∀ k, Covers s.prof.degree (turns 32 W (perTask s.prof * 32)) (scheds k)) (out : List Byte) (hlen : out.length ≤ 102400000) (ent : List Byte) (hent : ent.length = 32)
    (hp : s.prov = true) (ht : s.threshold ≤ s.counter + out.length) (hm : s.reseed + 2 ≤ 10000) :
    ∃ s' o, s.generate P W scheds out 0 out.length ent = .ok (s', o) ∧ s'.securityStrength = 256 ∧ s'.rounds = 22 ∧ s'.reseed = s.reseed + 2 := by
  have i := h.inv p
  obtain ⟨s1, e1, i1, _, _, _, hi1, hr⟩ := generate_eq (W := W) p i hi hf hsc [] out [] (by simp only [List.nil_append, List.append_nil]; omega) hlen hent (fun _ _ => hm)
  simp only [List.nil_append, List.append_nil, List.length_nil] at e1
  rw [if_pos ⟨hp, ht⟩] at hr
  obtain ⟨hE, hln⟩ := i.block p hi
  have hcl : t.ctr.length = 32 := by rw [← i.ctr]; exact i.nlen
  have hkey : (t.after f s.prof s.prov s.threshold out.length ent).key.length = 32 := by
    rw [Tally.after, if_pos hp, if_pos (by rw [← i.cnt]; exact ht)]
    have ha : (answer (t.E f) s.prof (ctrAfter s.prof t.ctr out.length) 32).length = 32 := answer_length hln (ctrAfter_length _ hcl _) hf 32
    show (Sp800185.cshake f 136 (answer (t.E f) s.prof (ctrAfter s.prof t.ctr out.length) 32) (answer (t.E f) s.prof (ctrAfter s.prof t.ctr out.length) 32).length [] ent).length = 32
    rw [cshake_len p _ _ _ (by omega) (Or.inr (by omega)) (by omega) (by simp), ha]
  refine ⟨s1, _, e1, ?_, ?_, hr⟩
  · rw [securityStrength, i1.size, hkey]
  · rw [(i1.keyed hi1).2.2.2, Tally.rounds, hkey]; rfl

/-- Every number of reseeds up to the limit is reached. -/
theorem reach_reseed (p : Perm P f) (prof : Prof) (n : Nat) (hn : n ≤ 10000) : ∃ s t, Run P f W s t ∧ s.init = true ∧ s.reseed = n := by
  induction n with
  | zero =>
    obtain ⟨s', e, r, hi, _⟩ := C64_initialize (W := W) p (Bcg.new false prof) .blank .new (List.replicate 32 0) (List.replicate 32 0) [] (Or.inl List.length_replicate) List.length_replicate (by simp)
    refine ⟨s', _, r, hi, ?_⟩
    rw [(r.inv p).res]; rfl
  | succ n ih =>
    obtain ⟨s, t, r, _, hr⟩ := ih (by omega)
    obtain ⟨s', _, r', hi, hr', _⟩ := C64_update p s t r (List.replicate 32 0) (List.replicate 32 0) (Or.inl List.length_replicate) List.length_replicate (by omega)
    exact ⟨s', _, r', hi, by omega⟩

/-- **C64** (refuted): at the reseed limit the exception asks for re-initialization, but `Initialize` does not reset the count. There is a reachable generator for
which every `Update` fails, before and after any `Initialize`. -/
theorem C64_reinit_refuted (p : Perm P f) (prof : Prof) : ∃ s t, Run P f W s t ∧ s.init = true ∧
    (∀ key ent, 16 ≤ key.length → s.update P key ent = .error (.throws .maxExceeded)) ∧
    ∀ key iv info s', info.length ≤ 2 ^ 32 → s.initKey P key iv info = .ok s' → ∀ key ent, 16 ≤ key.length → s'.update P key ent = .error (.throws .maxExceeded) := by
  obtain ⟨s, t, r, hi, hr⟩ := reach_reseed (W := W) p prof 10000 (Nat.le_refl _)
  have full : ∀ s : Bcg, s.reseed = 10000 → ∀ key ent, 16 ≤ key.length → s.update P key ent = .error (.throws .maxExceeded) := by
    intro s hs key ent hk
    rw [update, if_neg (by omega), if_pos (by omega)]; rfl
  refine ⟨s, t, r, hi, full s hr, ?_⟩
  intro key iv info s' hl e
  apply full
  have h1 := ((Run.initKey r hl e).inv p).res
  have h2 := (r.inv p).res
  rw [h1]
  show t.m = 10000
  rw [← h2, hr]

end Bcg
end Cex.Drbg
