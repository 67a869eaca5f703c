import Verif.Kdf.HkdfModel
import Verif.Mac.HmacProps

/-!
# C34 HKDF

`Run N st x`: the instance has come about by construction over a fresh digest and successful calls of `Initialize` and
`Generate`; `x = some (prk, info, c)` when it is keyed with `prk` and `info` and has produced `c` blocks. `N` bounds the
lengths the digest is right for. The two side conditions in `Run` are exactly the places where the code leaves RFC 5869
(`C34_reinit_false`, `C34_limit_false`, `C34_repeat`).
-/

namespace Cex.Kdf
open Cex Cex.Digest Cex.Stream Cex.Mac

/-- RFC 5869, section 2.3: `T(i)`. -/
def Rfc5869.T (mac : List Byte → List Byte → List Byte) (prk info : List Byte) : Nat → List Byte
  | 0 => []
  | i + 1 => mac prk (T mac prk info i ++ info ++ [BitVec.ofNat 8 (i + 1)])

/-- The blocks `T(c+1) … T(c+n)`. -/
def Rfc5869.blocks (mac : List Byte → List Byte → List Byte) (prk info : List Byte) (c n : Nat) : List Byte :=
  ((List.range n).map (fun j => Rfc5869.T mac prk info (c + j + 1))).flatten

/-- The pseudo-random key: HKDF-Extract when a salt is given, else the key itself (expand only, as documented in HKDF.h). -/
def Rfc5869.prk (mac : List Byte → List Byte → List Byte) (key salt : List Byte) : List Byte := if salt = [] then key else mac salt key

variable {D : DigestOps} {H : List Byte → List Byte} {ok : Nat → Prop} {Has : D.σ → List Byte → Prop}

inductive Hkdf.Run (D : DigestOps) (H : List Byte → List Byte) (Has : D.σ → List Byte → Prop) (keyOk : Nat → Bool) (N : Nat) :
    Hkdf D → Option (List Byte × List Byte × Nat) → Prop
  | new {s} : Has s [] → Run D H Has keyOk N (.fresh s) none
  | init {st st' x key iv info} : Run D H Has keyOk N st x → D.block + D.size + key.length + iv.length + info.length + 1 < N → (info ≠ [] ∨ st.info = []) →
      st.initialize keyOk key iv info = .ok st' → Run D H Has keyOk N st' (some (Rfc5869.prk (Rfc2104.hmac H D.block) key iv, info, 0))
  | gen {st st' prk info c out oo len out'} : Run D H Has keyOk N st (some (prk, info, c)) → c + blocksFor D.size len ≤ 255 → oo ≤ out.length → out.length < 2 ^ 64 →
      st.generate out oo len = .ok (st', out') → Run D H Has keyOk N st' (some (prk, info, c + blocksFor D.size len))

/-- Initialised with these values, counter `c`. -/
structure Hkdf.Keyed (H : List Byte → List Byte) (Has : D.σ → List Byte → Prop) (N : Nat) (st : Hkdf D) (prk info : List Byte) (c : Nat) : Prop where
  init : st.init = true
  mac : st.mac.Inv H Has (some (prk, []))
  infoEq : st.info = info
  bound : D.block + D.size + info.length + 1 < N
  le : c ≤ 255
  state : ∃ t, st.state = t ++ [BitVec.ofNat 8 c] ∧ t.length = D.size ∧ (c ≠ 0 → t = Rfc5869.T (Rfc2104.hmac H D.block) prk info c)

theorem rd_last {t : List Byte} {x : Byte} {n : Nat} (h : t.length = n) : rd (t ++ [x]) n = .ok x := by
  subst h; rw [rd_ok (by simp)]; simp

theorem ofNat8_ne_zero {c : Nat} (h : c ≤ 255) : (BitVec.ofNat 8 c ≠ 0) ↔ c ≠ 0 := by
  constructor
  · rintro h1 rfl; exact h1 rfl
  · intro h1 h2
    have := congrArg BitVec.toNat h2
    simp only [BitVec.toNat_ofNat] at this
    have h3 : (0 : BitVec 8).toNat = 0 := rfl
    omega

/-- One block: the code computes `T(c+1)`; the counter byte wraps after 255. -/
theorem hkdf_block (g : D.Hashes H ok Has) {N : Nat} (hN : ∀ n, n < N → ok n) (hN2 : N ≤ 2 ^ 64) {st : Hkdf D} {prk info : List Byte} {c : Nat}
    (h : st.Keyed H Has N prk info c) :
    ∃ st', st.block = .ok st' ∧ st'.Keyed H Has N prk info ((c + 1) % 256) ∧
      st'.state = Rfc5869.T (Rfc2104.hmac H D.block) prk info (c + 1) ++ [BitVec.ofNat 8 (c + 1)] := by
  obtain ⟨t, hs, ht, htc⟩ := h.state
  have hle := h.le
  have hb := h.bound
  have hinfo := h.infoEq
  have hmac := h.mac
  -- the previous block
  have h1 : ∃ mac, (if BitVec.ofNat 8 c ≠ 0 then st.mac.update st.state 0 (st.state.length - 1) else pure st.mac) = .ok mac ∧
      mac.Inv H Has (some (prk, Rfc5869.T (Rfc2104.hmac H D.block) prk info c)) := by
    by_cases hc : c = 0
    · rw [if_neg (fun e => (ofNat8_ne_zero hle).mp e hc)]
      subst hc
      exact ⟨st.mac, rfl, hmac⟩
    · rw [if_pos ((ofNat8_ne_zero hle).mpr hc)]
      obtain ⟨mac, e, i⟩ := hmac_update_inv g hmac ⟨st.state, 0, st.state.length - 1, by omega, by rw [hs, List.length_append, ht, List.length_singleton]; omega⟩
      refine ⟨mac, e, ?_⟩
      have : (Window.bytes ⟨st.state, 0, st.state.length - 1, by omega, by rw [hs, List.length_append, ht, List.length_singleton]; omega⟩) = Rfc5869.T (Rfc2104.hmac H D.block) prk info c := by
        simp only [Window.bytes, hs, List.length_append, List.length_singleton, List.drop_zero, Nat.add_sub_cancel, List.take_left]
        exact htc hc
      rw [this, List.nil_append] at i
      exact i
  obtain ⟨m1, e1, i1⟩ := h1
  have h2 : ∃ mac, (if st.info.length ≠ 0 then m1.update st.info 0 st.info.length else pure m1) = .ok mac ∧
      mac.Inv H Has (some (prk, Rfc5869.T (Rfc2104.hmac H D.block) prk info c ++ info)) := by
    by_cases hc : info = []
    · rw [if_neg (by rw [hinfo, hc]; simp), hc, List.append_nil]
      subst hc
      exact ⟨m1, rfl, i1⟩
    · rw [if_pos (by rw [hinfo]; simpa using hc), hinfo]
      obtain ⟨mac, e, i⟩ := hmac_update_inv g i1 (Window.whole info (by omega))
      rw [Window.whole_bytes] at i
      exact ⟨mac, e, i⟩
  obtain ⟨m2, e2, i2⟩ := h2
  have hc1 : BitVec.ofNat 8 c + 1 = BitVec.ofNat 8 (c + 1) := by
    rw [BitVec.ofNat_add]; rfl
  have hw : wr st.state D.size (BitVec.ofNat 8 c + 1) = .ok (t ++ [BitVec.ofNat 8 (c + 1)]) := by
    rw [hs, wr, if_pos (by simp [ht]), List.set_append_right _ _ (by omega), ht, Nat.sub_self, hc1]
    rfl
  obtain ⟨m3, e3, i3⟩ := hmac_update_inv g i2 ⟨t ++ [BitVec.ofNat 8 (c + 1)], D.size, 1, by simp [ht], by simp [ht]; omega⟩
  have hb3 : (Window.bytes ⟨t ++ [BitVec.ofNat 8 (c + 1)], D.size, 1, by simp [ht], by simp [ht]; omega⟩) = [BitVec.ofNat 8 (c + 1)] := by
    simp only [Window.bytes, ← ht, List.drop_left]; rfl
  rw [hb3] at i3
  have hTl : ∀ n, (Rfc5869.T (Rfc2104.hmac H D.block) prk info n).length ≤ D.size := by
    intro n
    cases n with
    | zero => simp [Rfc5869.T]
    | succ n => exact Nat.le_of_eq (hmac_length g _ _)
  obtain ⟨m4, e4, i4⟩ := hmac_final_inv g i3 (by
      apply hN
      have := hTl c
      simp only [List.length_append, List.length_singleton]; omega) (hN _ (by omega)) [] t [BitVec.ofNat 8 (c + 1)] ht (by simp [ht]; omega)
  simp only [List.nil_append, List.length_nil] at e4
  refine ⟨⟨m4, st.info, Rfc5869.T (Rfc2104.hmac H D.block) prk info (c + 1) ++ [BitVec.ofNat 8 (c + 1)], st.init⟩, ?_, ?_, rfl⟩
  · rw [Hkdf.block, hs, rd_last ht, ok_bind, ← hs, e1, ok_bind, e2, ok_bind, hw, ok_bind]
    simp only [e3, ok_bind, e4]
    rfl
  · refine ⟨h.init, i4, hinfo, hb, by omega, Rfc5869.T (Rfc2104.hmac H D.block) prk info (c + 1), ?_, hmac_length g _ _, ?_⟩
    · rw [show BitVec.ofNat 8 (c + 1) = BitVec.ofNat 8 ((c + 1) % 256) by
        apply BitVec.eq_of_toNat_eq; simp only [BitVec.toNat_ofNat]; omega]
    · intro hne
      rw [Nat.mod_eq_of_lt (by omega)]

/-- `Expand` within the counter range, and one block beyond it. -/
theorem hkdf_expand (g : D.Hashes H ok Has) {N : Nat} (hN : ∀ n, n < N → ok n) (hN2 : N ≤ 2 ^ 64) (hs : 0 < D.size) {st : Hkdf D} {prk info : List Byte} {c : Nat}
    (h : st.Keyed H Has N prk info c) (pre junk post : List Byte) (hc : c + blocksFor D.size junk.length ≤ 256) :
    ∃ st', st.expand (pre ++ junk ++ post) pre.length junk.length =
        .ok (st', pre ++ (Rfc5869.blocks (Rfc2104.hmac H D.block) prk info c (blocksFor D.size junk.length)).take junk.length ++ post) ∧
      st'.Keyed H Has N prk info ((c + blocksFor D.size junk.length) % 256) := by
  have hcl := h.le
  obtain ⟨st', e, i⟩ := fill_ok (f := Hkdf.pass junk.length pre.length) (B := D.size) (n := blocksFor D.size junk.length) (pre := pre) (junk := junk) (post := post)
    (R := fun k s => Hkdf.Keyed H Has N s prk info ((c + k) % 256)) (fun j => Rfc5869.T (Rfc2104.hmac H D.block) prk info (c + j + 1))
    (fun k _ => hmac_length g _ _) (fun k hk => Nat.le_of_lt (blocksFor_lt hs hk)) (blocksFor_ge hs _) (by
      intro k s a win cc hk hr ha hw
      obtain ⟨s', e1, i1, hst⟩ := hkdf_block g hN hN2 hr
      rw [Nat.mod_eq_of_lt (show c + k < 256 by omega)] at i1 hst
      refine ⟨s', ?_, i1⟩
      have hTl : (Rfc5869.T (Rfc2104.hmac H D.block) prk info (c + k + 1)).length = D.size := hmac_length g _ _
      rw [Hkdf.pass, e1, ok_bind]
      simp only
      rw [copy_at (s := (Rfc5869.T (Rfc2104.hmac H D.block) prk info (c + k + 1)).take (min D.size (junk.length - k * D.size)))
        (by
          rw [hst]
          exact Holds.takeN _ ⟨[], [_], by rw [List.nil_append], rfl⟩) ha.symm
        (by rw [List.length_take, hTl]; omega) (by rw [List.length_take, hTl, hw]; omega)]
      rfl) (s := st) (by rw [Nat.add_zero, Nat.mod_eq_of_lt (by omega)]; exact h)
  exact ⟨st', e, i⟩

theorem len_div_le {B : Nat} (len : Nat) : len / B ≤ blocksFor B len := by
  rw [blocksFor]
  by_cases h : B = 0
  · simp [h]
  · exact Nat.div_le_div_right (by omega)

/-- `Generate` in range. -/
theorem hkdf_generate (g : D.Hashes H ok Has) {N : Nat} (hN : ∀ n, n < N → ok n) (hN2 : N ≤ 2 ^ 64) (hs : 0 < D.size) {st : Hkdf D} {prk info : List Byte} {c : Nat}
    (h : st.Keyed H Has N prk info c) (pre junk post : List Byte) (hsz : (pre ++ junk ++ post).length < 2 ^ 64)
    (hc : c + blocksFor D.size junk.length ≤ 256) (hd : c + junk.length / D.size ≤ 255) :
    ∃ st', st.generate (pre ++ junk ++ post) pre.length junk.length =
        .ok (st', pre ++ (Rfc5869.blocks (Rfc2104.hmac H D.block) prk info c (blocksFor D.size junk.length)).take junk.length ++ post) ∧
      st'.Keyed H Has N prk info ((c + blocksFor D.size junk.length) % 256) := by
  obtain ⟨t, hst, ht, _⟩ := h.state
  have hcl := h.le
  obtain ⟨st', e, i⟩ := hkdf_expand g hN hN2 hs h pre junk post hc
  refine ⟨st', ?_, i⟩
  rw [Hkdf.generate, if_neg (by rw [h.init]; decide), if_neg (by omega), hst, rd_last ht, ok_bind]
  rw [if_neg (by rw [BitVec.toNat_ofNat, Nat.mod_eq_of_lt (by omega)]; omega),
    subU_le (by simp only [List.length_append]; omega) hsz, if_neg (by simp only [List.length_append]; omega)]
  exact e

theorem hkdf_reset (g : D.Hashes H ok Has) {st : Hkdf D} {x} (h : st.mac.Inv H Has x) (hl : st.state.length = D.size + 1) :
    ∃ st', st.reset = .ok st' ∧ st'.mac.Inv H Has none ∧ st'.state = List.replicate (D.size + 1) 0 ∧ st'.info = List.replicate st.info.length 0 := by
  obtain ⟨mac, e, i⟩ := hmac_reset_inv g h
  refine ⟨⟨mac, List.replicate st.info.length 0, List.replicate st.state.length 0, false⟩, ?_, i, by rw [hl], rfl⟩
  rw [Hkdf.reset, clear_whole, ok_bind, clear_whole, ok_bind, e]
  rfl

/-- What holds of the instance before `Initialize`. -/
structure Hkdf.Ready (H : List Byte → List Byte) (Has : D.σ → List Byte → Prop) (st : Hkdf D) : Prop where
  mac : ∃ x, st.mac.Inv H Has x
  len : st.state.length = D.size + 1
  zero : st.init = false → st.state = List.replicate (D.size + 1) 0

theorem hkdf_setKey (g : D.Hashes H ok Has) {keyOk : Nat → Bool} {N : Nat} (hN : ∀ n, n < N → ok n) (hN2 : N ≤ 2 ^ 64) {st : Hkdf D} {x} (hm : st.mac.Inv H Has x)
    (key iv info : List Byte) (hl : D.block + D.size + key.length + iv.length + info.length + 1 < N)
    (h1 : keyOk key.length = true) (h2 : iv ≠ [] → 4 ≤ iv.length + info.length ∧ keyOk iv.length = true ∧ keyOk D.size = true) :
    ∃ mac, st.setKey keyOk key iv info = .ok mac ∧ mac.Inv H Has (some (Rfc5869.prk (Rfc2104.hmac H D.block) key iv, [])) := by
  by_cases hiv : iv = []
  · rw [Hkdf.setKey, if_neg (by simp [hiv]), Rfc5869.prk, if_pos hiv]
    exact hmac_init_inv g hm (by omega) (hN _ (by omega)) h1
  · obtain ⟨h3, h4, h5⟩ := h2 hiv
    have hne : iv.length ≠ 0 := by simpa using hiv
    obtain ⟨m1, e1, i1⟩ := hmac_init_inv g hm (k := iv) (by omega) (hN _ (by omega)) h4
    obtain ⟨m2, e2, i2⟩ := hmac_update_inv g i1 (Window.whole key (by omega))
    rw [Window.whole_bytes, List.nil_append] at i2
    obtain ⟨m3, e3, i3⟩ := hmac_secure_inv g i2 (hN _ (by omega)) (hN _ (by omega)) [] (List.replicate D.size 0) [] (by simp)
    simp only [List.nil_append, List.append_nil, List.length_nil] at e3
    have hl4 := hmac_length g iv key
    obtain ⟨m4, e4, i4⟩ := hmac_init_inv g i3 (k := Rfc2104.hmac H D.block iv key) (by omega) (hN _ (by omega)) (by rw [hl4]; exact h5)
    refine ⟨m4, ?_, by rw [Rfc5869.prk, if_neg hiv]; exact i4⟩
    rw [Hkdf.setKey, if_pos hne, if_neg (by omega), Hkdf.extract, if_pos hne, e1, ok_bind]
    rw [show m1.update key 0 key.length = .ok m2 from e2, ok_bind, e3, ok_bind]
    exact e4

theorem hkdf_setInfo (st : Hkdf D) (info : List Byte) (h : info ≠ [] ∨ st.info = []) : st.setInfo info = .ok info := by
  rw [Hkdf.setInfo]
  by_cases hi : info = []
  · rw [if_neg (by simp [hi]), hi]
    rcases h with h | h
    · exact absurd hi h
    · rw [h]; rfl
  · rw [if_pos (by simpa using hi)]
    exact copy_whole (Holds.self _) (resize_length _ _) (resize_length _ _)

theorem hkdf_init (g : D.Hashes H ok Has) {keyOk : Nat → Bool} {N : Nat} (hN : ∀ n, n < N → ok n) (hN2 : N ≤ 2 ^ 64) {st : Hkdf D} (hr : st.Ready H Has)
    (key iv info : List Byte) (hl : D.block + D.size + key.length + iv.length + info.length + 1 < N) (h0 : 16 ≤ key.length)
    (h1 : keyOk key.length = true) (h2 : iv ≠ [] → 4 ≤ iv.length + info.length ∧ keyOk iv.length = true ∧ keyOk D.size = true)
    (hi : info ≠ [] ∨ st.info = []) :
    ∃ st', st.initialize keyOk key iv info = .ok st' ∧ st'.Keyed H Has N (Rfc5869.prk (Rfc2104.hmac H D.block) key iv) info 0 := by
  obtain ⟨x, hm⟩ := hr.mac
  have h3 : ∃ s, (if st.init then st.reset else pure st) = .ok s ∧ (∃ x, s.mac.Inv H Has x) ∧ s.state = List.replicate (D.size + 1) 0 ∧ (info ≠ [] ∨ s.info = []) := by
    by_cases hb : st.init = true
    · rw [if_pos hb]
      obtain ⟨s, e, i, e2, e3⟩ := hkdf_reset g hm hr.len
      refine ⟨s, e, ⟨_, i⟩, e2, ?_⟩
      rcases hi with hi | hi
      · exact .inl hi
      · right; rw [e3, hi]; rfl
    · rw [if_neg hb]
      exact ⟨st, rfl, ⟨x, hm⟩, hr.zero (by simpa using hb), hi⟩
  obtain ⟨s, e, ⟨y, hy⟩, e2, e3⟩ := h3
  obtain ⟨mac, e4, i4⟩ := hkdf_setKey g hN hN2 hy key iv info hl h1 h2
  refine ⟨⟨mac, info, s.state, true⟩, ?_, rfl, i4, rfl, by omega, by omega, List.replicate D.size 0, ?_, by simp, fun h => absurd rfl h⟩
  · rw [Hkdf.initialize, if_neg (by omega), e, ok_bind, hkdf_setInfo s info e3, ok_bind, e4]
    rfl
  · simp only [e2, List.replicate_succ']; rfl

/-- A successful `Initialize` has passed its checks. -/
theorem hkdf_init_checks (g : D.Hashes H ok Has) {keyOk : Nat → Bool} {N : Nat} (hN : ∀ n, n < N → ok n) (hN2 : N ≤ 2 ^ 64) {st st' : Hkdf D} (hr : st.Ready H Has)
    {key iv info : List Byte} (hl : D.block + D.size + key.length + iv.length + info.length + 1 < N) (h : st.initialize keyOk key iv info = .ok st') :
    16 ≤ key.length ∧ (iv = [] → keyOk key.length = true) ∧ (iv ≠ [] → 4 ≤ iv.length + info.length ∧ keyOk iv.length = true ∧ keyOk D.size = true) := by
  rw [Hkdf.initialize] at h
  split at h
  · cases h
  · rename_i hk
    obtain ⟨s, e1, h⟩ := bind_ok h
    obtain ⟨i, e2, h⟩ := bind_ok h
    obtain ⟨mac, e3, h⟩ := bind_ok h
    have hx : ∃ x, s.mac.Inv H Has x := by
      obtain ⟨x, hm⟩ := hr.mac
      split at e1
      · obtain ⟨s', e, i, _⟩ := hkdf_reset g hm hr.len
        rw [e1] at e; cases e; exact ⟨_, i⟩
      · cases e1; exact ⟨x, hm⟩
    obtain ⟨x, hm⟩ := hx
    have chk : ∀ (m m' : Hmac D) (k : List Byte), m.initialize keyOk k = .ok m' → keyOk k.length = true := by
      intro m m' k e
      by_cases hkk : keyOk k.length = true
      · exact hkk
      · rw [Hmac.initialize, if_pos (by simpa using hkk)] at e; cases e
    refine ⟨by omega, ?_, ?_⟩
    · rintro rfl
      rw [Hkdf.setKey, if_neg (by simp)] at e3
      exact chk _ _ _ e3
    · intro hiv
      rw [Hkdf.setKey, if_pos (by simpa using hiv)] at e3
      split at e3
      · cases e3
      · rename_i h4
        obtain ⟨r, e5, e3⟩ := bind_ok e3
        rw [Hkdf.extract, if_pos (by simpa using hiv)] at e5
        obtain ⟨m1, e6, e5⟩ := bind_ok e5
        obtain ⟨m2, e7, e5⟩ := bind_ok e5
        have hkiv := chk _ _ _ e6
        refine ⟨by omega, hkiv, ?_⟩
        obtain ⟨n1, f1, i1⟩ := hmac_init_inv g hm (k := iv) (by omega) (hN _ (by omega)) hkiv
        rw [f1] at e6; cases e6
        obtain ⟨n2, f2, i2⟩ := hmac_update_inv g i1 (Window.whole key (by omega))
        rw [Window.whole_bytes, List.nil_append] at i2
        rw [show m1.update key 0 key.length = .ok n2 from f2] at e7; cases e7
        obtain ⟨m3, f3, i3⟩ := hmac_secure_inv g i2 (hN _ (by omega)) (hN _ (by omega)) [] (List.replicate D.size 0) [] (by simp)
        simp only [List.nil_append, List.append_nil, List.length_nil] at f3
        rw [f3] at e5; cases e5
        have := chk _ _ _ e3
        rwa [hmac_length g] at this

theorem keyed_ready {N : Nat} {st : Hkdf D} {prk info : List Byte} {c : Nat} (h : st.Keyed H Has N prk info c) : st.Ready H Has := by
  obtain ⟨t, e, hl, _⟩ := h.state
  exact ⟨⟨_, h.mac⟩, by rw [e]; simp [hl], fun hf => by rw [h.init] at hf; cases hf⟩

theorem generate_split {out : List Byte} {oo len : Nat} (ho : oo + len ≤ out.length) :
    out = out.take oo ++ (out.drop oo).take len ++ (out.drop oo).drop len ∧ (out.take oo).length = oo ∧ ((out.drop oo).take len).length = len := by
  refine ⟨by rw [List.append_assoc, List.take_append_drop, List.take_append_drop], by rw [List.length_take]; omega, ?_⟩
  rw [List.length_take, List.length_drop]; omega

theorem Hkdf.Run.inv (g : D.Hashes H ok Has) {keyOk : Nat → Bool} (hkk : ∀ n, 16 ≤ n → keyOk n = true) {N : Nat} (hN : ∀ n, n < N → ok n) (hN2 : N ≤ 2 ^ 64)
    (hs : 0 < D.size) {st : Hkdf D} {x} (h : Hkdf.Run D H Has keyOk N st x) :
    st.Ready H Has ∧ ∀ prk info c, x = some (prk, info, c) → st.Keyed H Has N prk info c := by
  induction h with
  | new h =>
    refine ⟨⟨⟨none, by simp [Hkdf.fresh, Hmac.fresh], by simp [Hkdf.fresh, Hmac.fresh], fun _ => ⟨rfl, h⟩, fun _ _ e => by cases e⟩, by simp [Hkdf.fresh], fun _ => rfl⟩, ?_⟩
    intro _ _ _ e; cases e
  | init _ hl hi e ih =>
    obtain ⟨c1, c2, c3⟩ := hkdf_init_checks g hN hN2 ih.1 hl e
    obtain ⟨s, e1, k⟩ := hkdf_init g (keyOk := keyOk) hN hN2 ih.1 _ _ _ hl c1 (hkk _ c1) c3 hi
    rw [e] at e1; cases e1
    refine ⟨keyed_ready k, ?_⟩
    intro _ _ _ e; cases e; exact k
  | @gen st st' prk info c out oo len out' _ hc ho hsz e ih =>
    have k := ih.2 _ _ _ rfl
    obtain ⟨t, hst, ht, _⟩ := k.state
    have hcl := k.le
    have hdiv := len_div_le (B := D.size) len
    have hsub : oo + len ≤ out.length := by
      rw [Hkdf.generate, if_neg (by rw [k.init]; decide), if_neg (by omega), hst, rd_last ht, ok_bind] at e
      rw [if_neg (by rw [BitVec.toNat_ofNat, Nat.mod_eq_of_lt (by omega)]; omega), subU_le ho hsz] at e
      split at e
      · cases e
      · omega
    obtain ⟨e1, e2, e3⟩ := generate_split hsub
    obtain ⟨s, e4, k4⟩ := hkdf_generate g hN hN2 hs k (out.take oo) ((out.drop oo).take len) ((out.drop oo).drop len) (by rw [← e1]; exact hsz) (by rw [e3]; omega) (by rw [e3]; omega)
    rw [← e1, e2, e3] at e4
    rw [e] at e4; cases e4
    rw [e3] at k4
    rw [Nat.mod_eq_of_lt (by omega)] at k4
    refine ⟨keyed_ready k4, ?_⟩
    intro _ _ _ e; cases e; exact k4

/-- C34, what holds: after any history (with the side conditions of `Run`) and as long as 255 blocks are not exceeded, `Generate`
succeeds for any window of any buffer, writes the next RFC 5869 blocks cut to the requested length into exactly that window, and the
following request continues with the next block index, so no index is used twice. -/
theorem C34_hkdf_partial (g : D.Hashes H ok Has) (keyOk : Nat → Bool) (hkk : ∀ n, 16 ≤ n → keyOk n = true) (N : Nat) (hN : ∀ n, n < N → ok n) (hN2 : N ≤ 2 ^ 64)
    (hs : 0 < D.size) (st : Hkdf D) (prk info : List Byte) (c : Nat) (h : Hkdf.Run D H Has keyOk N st (some (prk, info, c))) (pre junk post : List Byte)
    (hsz : (pre ++ junk ++ post).length < 2 ^ 64) (hc : c + blocksFor D.size junk.length ≤ 255) :
    ∃ st', st.generate (pre ++ junk ++ post) pre.length junk.length =
        .ok (st', pre ++ (Rfc5869.blocks (Rfc2104.hmac H D.block) prk info c (blocksFor D.size junk.length)).take junk.length ++ post) ∧
      Hkdf.Run D H Has keyOk N st' (some (prk, info, c + blocksFor D.size junk.length)) := by
  have k := (h.inv g hkk hN hN2 hs).2 _ _ _ rfl
  have := len_div_le (B := D.size) junk.length
  obtain ⟨st', e, k'⟩ := hkdf_generate g hN hN2 hs k pre junk post hsz (by omega) (by omega)
  exact ⟨st', e, .gen h hc (by simp only [List.length_append]; omega) hsz e⟩

/-- Requests of more than 255 whole blocks (counting those already produced) are refused. -/
theorem C34_refused (g : D.Hashes H ok Has) (keyOk : Nat → Bool) (hkk : ∀ n, 16 ≤ n → keyOk n = true) (N : Nat) (hN : ∀ n, n < N → ok n) (hN2 : N ≤ 2 ^ 64)
    (hs : 0 < D.size) (st : Hkdf D) (prk info : List Byte) (c : Nat) (h : Hkdf.Run D H Has keyOk N st (some (prk, info, c))) (out : List Byte) (oo len : Nat)
    (hc : 255 < c + len / D.size) : st.generate out oo len = .error (.throws .maxExceeded) := by
  have k := (h.inv g hkk hN hN2 hs).2 _ _ _ rfl
  obtain ⟨t, hst, ht, _⟩ := k.state
  have hcl := k.le
  rw [Hkdf.generate, if_neg (by rw [k.init]; decide), if_neg (by omega), hst, rd_last ht, ok_bind, if_pos (by rw [BitVec.toNat_ofNat, Nat.mod_eq_of_lt (by omega)]; exact hc)]
  rfl

/-- The full claim on the limit: every successful request stays within 255 blocks. -/
def C34_limit_full (D : DigestOps) (H : List Byte → List Byte) (Has : D.σ → List Byte → Prop) (keyOk : Nat → Bool) (N : Nat) : Prop :=
  ∀ st prk info c, Hkdf.Run D H Has keyOk N st (some (prk, info, c)) → ∀ out len st' out', out.length < 2 ^ 64 → st.generate out 0 len = .ok (st', out') →
    c + blocksFor D.size len ≤ 255

/-- The code accepts `255 * TagSize + 1` bytes and then restarts at `T(1)`: the next request returns the first block again. -/
theorem C34_repeat (g : D.Hashes H ok Has) (keyOk : Nat → Bool) (hkk : ∀ n, 16 ≤ n → keyOk n = true) (N : Nat) (hN : ∀ n, n < N → ok n) (hN2 : N ≤ 2 ^ 64)
    (hs : 1 < D.size) (hs2 : D.size < 2 ^ 50) (st : Hkdf D) (prk info : List Byte) (h : Hkdf.Run D H Has keyOk N st (some (prk, info, 0))) (out : List Byte)
    (ho : out.length = 255 * D.size + 1) (out2 : List Byte) (ho2 : out2.length = D.size) :
    ∃ st' st'' d, st.generate out 0 out.length = .ok (st', (Rfc5869.blocks (Rfc2104.hmac H D.block) prk info 0 256).take out.length) ∧
      st'.generate out2 0 out2.length = .ok (st'', d) ∧ d = Rfc5869.T (Rfc2104.hmac H D.block) prk info 1 ∧
      d = ((Rfc5869.blocks (Rfc2104.hmac H D.block) prk info 0 256).take out.length).take D.size := by
  have k := (h.inv g hkk hN hN2 (by omega)).2 _ _ _ rfl
  have hb : blocksFor D.size out.length = 256 := by
    rw [blocksFor, ho, show 255 * D.size + 1 + D.size - 1 = 256 * D.size by omega, Nat.mul_div_cancel _ (by omega)]
  have hd : out.length / D.size = 255 := by
    rw [ho, Nat.mul_comm, Nat.mul_add_div (by omega), Nat.div_eq_of_lt hs]
  obtain ⟨st', e1, k1⟩ := hkdf_generate g hN hN2 (by omega) k [] out [] (by simp; omega) (by rw [hb]; omega) (by rw [hd]; omega)
  rw [hb] at k1 e1
  simp only [List.nil_append, List.append_nil, List.length_nil] at e1
  have hb2 : blocksFor D.size out2.length = 1 := by
    rw [blocksFor, ho2, show D.size + D.size - 1 = D.size * 1 + (D.size - 1) by omega, Nat.mul_add_div (by omega), Nat.div_eq_of_lt (by omega)]
  obtain ⟨st'', e2, k2⟩ := hkdf_generate g hN hN2 (by omega) k1 [] out2 [] (by simp; omega) (by rw [hb2]; decide) (by rw [ho2, Nat.div_self (by omega)]; decide)
  rw [hb2] at e2
  simp only [List.nil_append, List.append_nil, List.length_nil] at e2
  have hTl : (Rfc5869.T (Rfc2104.hmac H D.block) prk info 1).length = D.size := hmac_length g _ _
  have e3 : (Rfc5869.blocks (Rfc2104.hmac H D.block) prk info ((0 + 256) % 256) 1).take out2.length = Rfc5869.T (Rfc2104.hmac H D.block) prk info 1 := by
    show ([Rfc5869.T (Rfc2104.hmac H D.block) prk info 1].flatten).take _ = _
    rw [List.flatten_singleton, List.take_of_length_le (by omega)]
  refine ⟨st', st'', _, e1, e2, e3, ?_⟩
  rw [e3, List.take_take, Nat.min_eq_left (by omega)]
  show _ = (((List.range 256).map (fun j => Rfc5869.T (Rfc2104.hmac H D.block) prk info (0 + j + 1))).flatten).take D.size
  rw [show List.range 256 = 0 :: (List.range 255).map Nat.succ from List.range_succ_eq_map, List.map_cons, List.flatten_cons, List.take_left' (by exact hTl)]

/-- From a fresh digest an instance can be keyed. -/
theorem hkdf_start (g : D.Hashes H ok Has) (keyOk : Nat → Bool) (hkk : ∀ n, 16 ≤ n → keyOk n = true) (N : Nat) (hN : ∀ n, n < N → ok n) (hN2 : N ≤ 2 ^ 64) {s : D.σ}
    (h0 : Has s []) (key info : List Byte) (hk : 16 ≤ key.length) (hl : D.block + D.size + key.length + info.length + 1 < N) :
    ∃ st, Hkdf.Run D H Has keyOk N st (some (key, info, 0)) := by
  have r0 : Hkdf.Run D H Has keyOk N (.fresh s) none := .new h0
  have hr : (Hkdf.fresh s : Hkdf D).Ready H Has :=
    ⟨⟨none, by simp [Hkdf.fresh, Hmac.fresh], by simp [Hkdf.fresh, Hmac.fresh], fun _ => ⟨rfl, h0⟩, fun _ _ e => by cases e⟩, by simp [Hkdf.fresh], fun _ => rfl⟩
  obtain ⟨st, e, _⟩ := hkdf_init g (keyOk := keyOk) hN hN2 hr key [] info (by simpa using hl) hk (hkk _ hk) (fun h => absurd rfl h) (.inr rfl)
  exact ⟨st, .init r0 (by simpa using hl) (.inr rfl) e⟩

/-- The limit is not enforced, for every digest (with outputs of 2 to 2^50 bytes). -/
theorem C34_limit_false (g : D.Hashes H ok Has) (keyOk : Nat → Bool) (hkk : ∀ n, 16 ≤ n → keyOk n = true) (N : Nat) (hN : ∀ n, n < N → ok n) (hN2 : N ≤ 2 ^ 64)
    (hs : 1 < D.size) (hs2 : D.size < 2 ^ 50) (hl : D.block + D.size + 17 < N) {s : D.σ} (h0 : Has s []) : ¬ C34_limit_full D H Has keyOk N := by
  intro hf
  obtain ⟨st, r⟩ := hkdf_start g keyOk hkk N hN hN2 h0 (List.replicate 16 0) [] (by simp) (by simp; omega)
  obtain ⟨st', st'', d, e, _⟩ := C34_repeat g keyOk hkk N hN hN2 hs hs2 st _ _ r (List.replicate (255 * D.size + 1) 0) (by simp) (List.replicate D.size 0) (by simp)
  have := hf st _ _ 0 r _ _ _ _ (by rw [List.length_replicate]; omega) e
  rw [List.length_replicate, blocksFor, show 255 * D.size + 1 + D.size - 1 = 256 * D.size by omega, Nat.mul_div_cancel _ (by omega)] at this
  omega

/-- The overload for `SecureVector` with a non-zero offset: a request of at most one block writes outside its temporary. -/
theorem C34_secure_ub (g : D.Hashes H ok Has) (keyOk : Nat → Bool) (hkk : ∀ n, 16 ≤ n → keyOk n = true) (N : Nat) (hN : ∀ n, n < N → ok n) (hN2 : N ≤ 2 ^ 64)
    (st : Hkdf D) (prk info : List Byte) (c : Nat) (h : Hkdf.Run D H Has keyOk N st (some (prk, info, c))) (out : List Byte) (oo len : Nat)
    (ho : 0 < oo) (hl : 0 < len) (hl2 : len ≤ D.size) (hsz : oo + len ≤ out.length) (hsz2 : out.length < 2 ^ 64) (hc : c < 255) :
    st.generateSecure out oo len = .error .ub := by
  have k := (h.inv g hkk hN hN2 (by omega)).2 _ _ _ rfl
  obtain ⟨t, hst, ht, _⟩ := k.state
  obtain ⟨s', e1, k1, e2⟩ := hkdf_block g hN hN2 k
  have hdiv : len / D.size ≤ 1 := by
    rw [Nat.div_le_iff_le_mul_add_pred (by omega)]; omega
  have hb : blocksFor D.size len = 1 := by
    rw [blocksFor, show len + D.size - 1 = D.size * 1 + (len - 1) by omega, Nat.mul_add_div (by omega), Nat.div_eq_of_lt (by omega)]
  have hTl : (Rfc5869.T (Rfc2104.hmac H D.block) prk info (c + 1)).length = D.size := hmac_length g _ _
  rw [Hkdf.generateSecure, if_neg (by rw [k.init]; decide), if_neg (by omega), hst, rd_last ht, ok_bind,
    if_neg (by rw [BitVec.toNat_ofNat, Nat.mod_eq_of_lt (by omega)]; omega), subU_le (by omega) hsz2, if_neg (by omega), Hkdf.expand, hb]
  have hp : Hkdf.pass len oo 0 (st, List.replicate len 0) = .error .ub := by
    rw [Hkdf.pass, e1, ok_bind, Nat.zero_mul, Nat.sub_zero, Nat.min_eq_right hl2, copy, if_neg (by omega), slice,
      if_pos (by rw [e2, List.length_append, hTl]; omega), ok_bind, blit, if_neg]
    · rfl
    · rw [List.length_take, List.length_drop, e2, List.length_append, hTl, List.length_replicate, List.length_singleton]; omega
  simp only [loopN, hp]
  rfl

/-! ## Re-initialisation without info -/

/-- A small hash that depends on the length of the message. -/
def lenHash (m : List Byte) : List Byte := [m.foldl (fun a b => a + b + 1) 0, 0]

/-- The full claim on re-initialisation: the first block after a successful `Initialize` is `T(1)` of that key and info, whatever the
instance did before. -/
def C34_reinit_full : Prop :=
  ∀ (H : List Byte → List Byte) (D : DigestOps) (Has : D.σ → List Byte → Prop), D.Hashes H (fun _ => True) Has → ∀ (s : D.σ), Has s [] →
    ∀ (key info key' info' out : List Byte) (a b c : Hkdf D) (out' : List Byte), out.length = D.size →
      (Hkdf.fresh s).initialize (fun n => decide (8 ≤ n)) key [] info = .ok a → a.initialize (fun n => decide (8 ≤ n)) key' [] info' = .ok b →
      b.generate out 0 D.size = .ok (c, out') → out' = Rfc5869.T (Rfc2104.hmac H D.block) key' info' 1

/-- The old info is zeroed but keeps its length, so zeros are hashed in place of an empty info. -/
theorem C34_reinit_false : ¬ C34_reinit_full := by
  intro h
  have g := ideal_hashes (H := lenHash) (block := 2) (size := 2) (fun _ => rfl) (by decide) (by decide)
  have hr : ∃ a b c out', (Hkdf.fresh (D := idealOps lenHash 2 2) []).initialize (fun n => decide (8 ≤ n)) (List.replicate 16 1) [] [5, 5] = .ok a ∧
      a.initialize (fun n => decide (8 ≤ n)) (List.replicate 16 1) [] [] = .ok b ∧ b.generate [0, 0] 0 2 = .ok (c, out') ∧
      out' ≠ Rfc5869.T (Rfc2104.hmac lenHash 2) (List.replicate 16 1) [] 1 := by
    refine ⟨_, _, _, _, rfl, rfl, rfl, by decide +kernel⟩
  obtain ⟨a, b, c, out', e1, e2, e3, hne⟩ := hr
  exact hne (h lenHash _ _ g [] rfl _ _ _ _ _ a b c out' rfl e1 e2 e3)

/-- A run that meets the hypotheses, with the SHA2-256 model: the second request continues at block 2. -/
example : ∃ (st st' : Hkdf (sha2Ops (core256 true))), Hkdf.Run _ Fips.sha256 (Obj.Run (core256 true)) (fun n => decide (8 ≤ n)) (2 ^ 40) st (some (List.replicate 20 3, [1], 2)) ∧
    st.generate (List.replicate 40 0) 4 33 = .ok (st', List.replicate 4 0 ++
      (Rfc5869.blocks (Rfc2104.hmac Fips.sha256 64) (List.replicate 20 3) [1] 2 2).take 33 ++ List.replicate 3 0) := by
  have g := sha2_hashes (core256_good true) (by decide)
  obtain ⟨o, h0⟩ := (C36_sha256 true).1
  have hkk : ∀ n, 16 ≤ n → decide (8 ≤ n) = true := fun n h => by simp; omega
  obtain ⟨s0, r0⟩ := hkdf_start g (fun n => decide (8 ≤ n)) hkk (2 ^ 40) (fun _ _ => trivial) (by decide) (s := o) (.new h0) (List.replicate 20 3) [1] (by simp) (by simp [sha2Ops])
  obtain ⟨s1, e1, r1⟩ := C34_hkdf_partial g _ hkk (2 ^ 40) (fun _ _ => trivial) (by decide) (by decide) s0 _ _ _ r0 [] (List.replicate 50 0) [] (by simp) (by simp [blocksFor, sha2Ops])
  obtain ⟨s2, e2, r2⟩ := C34_hkdf_partial g _ hkk (2 ^ 40) (fun _ _ => trivial) (by decide) (by decide) s1 _ _ _ r1 (List.replicate 4 0) (List.replicate 33 0) (List.replicate 3 0) (by simp) (by simp [blocksFor, sha2Ops])
  exact ⟨s1, s2, r1, e2⟩

end Cex.Kdf
