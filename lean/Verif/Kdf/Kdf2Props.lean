import Verif.Kdf.Kdf2Model
import Verif.Kdf.HkdfProps
import Verif.IntTools.Props

/-!
# C35 KDF2 and PBKDF2

Specifications: ISO 18033-2 KDF2 (`H(Z || be32(i) || other)`, `i = 1, 2, …`) and RFC 8018 PBKDF2 over arbitrary functions.
-/

namespace Cex.Kdf
open Cex Cex.Digest Cex.Stream Cex.Mac Cex.IntTools

/-! ## The counter -/

theorem inc4 (i : Nat) : beIncrement8At (beEnc 4 i) 0 4 = .ok (beEnc 4 (i + 1)) := by
  have hl : (beEnc 4 i).length = 4 := beEnc_length 4 i
  obtain ⟨c, e, h1, h2⟩ := C02_be_increment_window [] (beEnc 4 i) [] (by intro h; rw [h] at hl; cases hl)
  simp only [List.nil_append, List.append_nil, List.length_nil, hl] at e h1 h2
  rw [e, ← eq_beEnc (v := i + 1) h1]
  rw [h2, beVal_beEnc, Nat.mod_add_mod]

theorem rd4 (i : Nat) (h : i < 2 ^ 32) : ∃ v, beBytesTo32 (beEnc 4 i) 0 = .ok v ∧ v.toNat = i := by
  obtain ⟨v, e, hv⟩ := C01_be32_read.1 [] (beEnc 4 i) [] (beEnc_length 4 i)
  simp only [List.nil_append, List.append_nil, List.length_nil] at e
  refine ⟨v, e, ?_⟩
  rw [hv, beVal_beEnc, Nat.mod_eq_of_lt (by exact h)]

theorem reset4 (c : List Byte) (h : c.length = 4) :
    (do let c ← clear c 0 (c.length - 1); wr c (c.length - 1) 1) = (.ok (beEnc 4 1) : M (List Byte)) := by
  match c, h with
  | [a, b, d, e], _ => rfl

theorem passes_lt {B : Nat} (hB : 0 < B) {len k : Nat} (hk : k < passesFor B len) : k * B ≤ len := by
  rw [passesFor] at hk
  by_cases h : k < blocksFor B len
  · exact Nat.le_of_lt (blocksFor_lt hB h)
  · have : k = 0 := by omega
    subst this; simp

theorem passes_ge {B : Nat} (hB : 0 < B) (len : Nat) : len ≤ passesFor B len * B :=
  Nat.le_trans (blocksFor_ge hB len) (Nat.mul_le_mul_right _ (Nat.le_max_right _ _))

theorem copy_into {k : List Byte} {b : List Byte} {n : Nat} (h : k.length ≤ n) :
    copy k 0 (resize b n) 0 k.length = .ok (k ++ (resize b n).drop k.length) := by
  have hc := copy_at (src := k) (a := []) (b := (resize b n).take k.length) (c := (resize b n).drop k.length) (s := k) (so := 0) (off := 0) (n := k.length)
      (Holds.self k) rfl rfl (by rw [List.length_take, resize_length]; omega)
  rwa [List.nil_append, List.take_append_drop, List.nil_append] at hc

theorem resize_zeros {z n : Nat} : resize (List.replicate z (0 : Byte)) n = List.replicate n 0 := by
  rw [resize, List.take_replicate, List.length_replicate, List.replicate_append_replicate]
  congr 1; omega

/-! ## KDF2 -/

/-- KDF2 block `i` for seed `z` and other info `s`. -/
def Iso18033.block (H : List Byte → List Byte) (z s : List Byte) (i : Nat) : List Byte := H (z ++ beEnc 4 i ++ s)

/-- `n` blocks from index `i`. -/
def Iso18033.blocks (H : List Byte → List Byte) (z s : List Byte) (i n : Nat) : List Byte := ((List.range n).map (fun j => Iso18033.block H z s (i + j))).flatten

/-- The seed and the salt the parameters stand for: with a nonce, the key and nonce; else the first block of the (zero padded) key, and
as salt what exceeds it followed by the info. A key of at most one block without nonce has no salt. -/
def Kdf2.seed (B : Nat) (key iv info : List Byte) : List Byte × List Byte :=
  if iv ≠ [] then (key, iv)
  else if key.length ≤ B then (key ++ List.replicate (B - key.length) 0, [])
  else (key.take B, key.drop B ++ info)

variable {D : DigestOps} {H : List Byte → List Byte} {ok : Nat → Prop} {Has : D.σ → List Byte → Prop}

/-- Histories of one KDF2 object. The side condition on `init` excludes re-initialisation that would have to drop an old salt. -/
inductive Kdf2.Run (D : DigestOps) (Has : D.σ → List Byte → Prop) (keyOk : Nat → Bool) (N : Nat) : Kdf2 D → Option (List Byte × List Byte × Nat) → Prop
  | new {s} : Has s [] → Run D Has keyOk N (.fresh s) none
  | init {st st' x key iv info} : Run D Has keyOk N st x → D.block + key.length + iv.length + info.length + 4 < N → (iv ≠ [] ∨ D.block < key.length ∨ st.salt = []) →
      st.initialize keyOk key iv info = .ok st' → Run D Has keyOk N st' (some ((Kdf2.seed D.block key iv info).1, (Kdf2.seed D.block key iv info).2, 1))
  | gen {st st' z s i out oo len out'} : Run D Has keyOk N st (some (z, s, i)) → oo ≤ out.length → out.length < 2 ^ 64 →
      st.generate out oo len = .ok (st', out') → Run D Has keyOk N st' (some (z, s, i + passesFor D.size len))

structure Kdf2.Keyed (Has : D.σ → List Byte → Prop) (N : Nat) (st : Kdf2 D) (z s : List Byte) (i : Nat) : Prop where
  init : st.init = true
  dg : Has st.dg []
  state : st.state = z
  salt : st.salt = s
  counter : st.counter = beEnc 4 i
  le : i ≤ 256
  bound : z.length + s.length + 4 < N

theorem kdf2_pass (g : D.Hashes H ok Has) {N : Nat} (hN : ∀ n, n < N → ok n) (hN2 : N ≤ 2 ^ 64) {st : Kdf2 D} {z s : List Byte} {i len oo k : Nat}
    {a win c : List Byte} (hi : i < 2 ^ 32) (hinit : st.init = true) (hd : Has st.dg []) (hst : st.state = z) (hsa : st.salt = s) (hct : st.counter = beEnc 4 i)
    (hb : z.length + s.length + 4 < N) (ha : a.length = oo + k * D.size) (hw : win.length = min D.size (len - k * D.size)) :
    ∃ st', Kdf2.pass len oo k (st, a ++ win ++ c) = .ok (st', a ++ (Iso18033.block H z s i).take (min D.size (len - k * D.size)) ++ c) ∧
      st'.init = true ∧ Has st'.dg [] ∧ st'.state = z ∧ st'.salt = s ∧ st'.counter = beEnc 4 (i + 1) := by
  obtain ⟨d1, e1, i1⟩ := g.update_all hd st.state (by rw [hst]; omega)
  rw [List.nil_append, hst] at i1
  obtain ⟨d2, e2, i2⟩ := g.update_all i1 st.counter (by rw [hct, beEnc_length]; decide)
  rw [hct] at i2
  have hcl : st.counter.length = 4 := by rw [hct, beEnc_length]
  rw [hcl] at e2
  have h3 : ∃ d3, (if st.salt.length ≠ 0 then D.update d2 st.salt 0 st.salt.length else pure d2) = .ok d3 ∧ Has d3 (z ++ beEnc 4 i ++ s) := by
    by_cases hs : s = []
    · rw [if_neg (by rw [hsa, hs]; simp), hs, List.append_nil]; exact ⟨d2, rfl, i2⟩
    · rw [if_pos (by rw [hsa]; simpa using hs), hsa]
      exact g.update_all i2 s (by omega)
  obtain ⟨d3, e3, i3⟩ := h3
  obtain ⟨d4, e4, i4⟩ := g.finalize_all i3 (hN _ (by simp only [List.length_append, beEnc_length]; omega)) (List.replicate D.size 0) (by simp)
  have hHl := g.size (z ++ beEnc 4 i ++ s)
  refine ⟨{ st with dg := d4, counter := beEnc 4 (i + 1) }, ?_, hinit, i4, hst, hsa, rfl⟩
  rw [Kdf2.pass]
  simp only [e1, ok_bind, e2, e3, e4]
  rw [hct, inc4, ok_bind, show H (z ++ beEnc 4 i ++ s) = Iso18033.block H z s i from rfl, copy_at (s := (Iso18033.block H z s i).take (min D.size (len - k * D.size))) (Holds.takeN _ (Holds.self _)) ha.symm
    (by rw [List.length_take, Iso18033.block, hHl]; omega) (by rw [List.length_take, Iso18033.block, hHl, hw]; omega)]
  rfl

theorem kdf2_expand (g : D.Hashes H ok Has) {N : Nat} (hN : ∀ n, n < N → ok n) (hN2 : N ≤ 2 ^ 64) (hs : 0 < D.size) {st : Kdf2 D} {z s : List Byte} {i : Nat}
    (h : st.Keyed Has N z s i) (pre junk post : List Byte) (hc : i + passesFor D.size junk.length ≤ 256) :
    ∃ st', st.expand (pre ++ junk ++ post) pre.length junk.length =
        .ok (st', pre ++ (Iso18033.blocks H z s i (passesFor D.size junk.length)).take junk.length ++ post) ∧ st'.Keyed Has N z s (i + passesFor D.size junk.length) := by
  obtain ⟨st', e, r1, r2, r3, r4, r5⟩ := fill_ok (f := Kdf2.pass junk.length pre.length) (B := D.size) (n := passesFor D.size junk.length) (pre := pre) (junk := junk) (post := post)
    (R := fun k (t : Kdf2 D) => t.init = true ∧ Has t.dg [] ∧ t.state = z ∧ t.salt = s ∧ t.counter = beEnc 4 (i + k)) (fun j => Iso18033.block H z s (i + j))
    (fun k _ => g.size _) (fun k hk => passes_lt hs hk) (passes_ge hs _) (by
      rintro k t a win c hk ⟨r1, r2, r3, r4, r5⟩ ha hw
      exact kdf2_pass g hN hN2 (by omega) r1 r2 r3 r4 r5 h.bound ha hw) (s := st) ⟨h.init, h.dg, h.state, h.salt, h.counter⟩
  exact ⟨st', e, r1, r2, r3, r4, r5, hc, h.bound⟩

theorem blocksFor_le (B len : Nat) : blocksFor B len ≤ len / B + 1 := by
  by_cases h : B = 0
  · simp [blocksFor, h]
  · rw [blocksFor, ← Nat.add_div_right _ (by omega)]
    exact Nat.div_le_div_right (by omega)

theorem kdf2_generate (g : D.Hashes H ok Has) {N : Nat} (hN : ∀ n, n < N → ok n) (hN2 : N ≤ 2 ^ 64) (hs : 0 < D.size) {st : Kdf2 D} {z s : List Byte} {i : Nat}
    (h : st.Keyed Has N z s i) (pre junk post : List Byte) (hsz : (pre ++ junk ++ post).length < 2 ^ 64) (hc : i + junk.length / D.size ≤ 255) :
    ∃ st', st.generate (pre ++ junk ++ post) pre.length junk.length =
        .ok (st', pre ++ (Iso18033.blocks H z s i (passesFor D.size junk.length)).take junk.length ++ post) ∧ st'.Keyed Has N z s (i + passesFor D.size junk.length) := by
  have hb := blocksFor_le D.size junk.length
  have hp : i + passesFor D.size junk.length ≤ 256 := by
    rw [passesFor]
    generalize junk.length / D.size = q at hb hc
    omega
  have hi : i ≤ 255 := Nat.le_trans (Nat.le_add_right _ _) hc
  obtain ⟨st', e, k⟩ := kdf2_expand g hN hN2 hs h pre junk post hp
  obtain ⟨v, e2, hv⟩ := rd4 i (by omega)
  refine ⟨st', ?_, k⟩
  rw [Kdf2.generate, if_neg (by rw [h.init]; decide), if_neg (by omega), h.counter, e2, ok_bind, if_neg (by rw [hv]; omega),
    subU_le (by simp only [List.length_append]; omega) hsz, if_neg (by simp only [List.length_append]; omega)]
  exact e

/-- What holds of the instance before `Initialize`. -/
structure Kdf2.Ready (Has : D.σ → List Byte → Prop) (st : Kdf2 D) : Prop where
  dg : ∃ m, Has st.dg m
  clen : st.counter.length = 4
  zero : st.init = false → st.counter = beEnc 4 1 ∧ Has st.dg [] ∧ st.state = [] ∧ st.salt = []

/-- The state `Initialize` fills. -/
theorem kdf2_cleared (g : D.Hashes H ok Has) {st : Kdf2 D} (hr : st.Ready Has) :
    ∃ s : Kdf2 D, (if st.init then st.reset else pure st) = .ok s ∧ Has s.dg [] ∧ s.counter = beEnc 4 1 ∧ s.state = List.replicate st.state.length 0 ∧ s.salt = List.replicate st.salt.length 0 := by
  by_cases hb : st.init = true
  · obtain ⟨m, hm⟩ := hr.dg
    obtain ⟨dg, e, i⟩ := g.reset hm
    refine ⟨⟨dg, beEnc 4 1, List.replicate st.salt.length 0, List.replicate st.state.length 0, false⟩, ?_, i, rfl, rfl, rfl⟩
    obtain ⟨c1, e1, e2⟩ := bind_ok (reset4 st.counter hr.clen)
    rw [if_pos hb, Kdf2.reset, e, ok_bind, e1, ok_bind, e2, ok_bind, clear_whole, ok_bind, clear_whole]
    rfl
  · obtain ⟨h1, h2, h3, h4⟩ := hr.zero (by simpa using hb)
    rw [if_neg hb]
    exact ⟨st, rfl, h2, h1, by rw [h3]; rfl, by rw [h4]; rfl⟩

theorem holds_take_drop (k : List Byte) (B : Nat) (h : B ≤ k.length) : Holds k B (k.drop B) :=
  ⟨k.take B, [], by rw [List.append_nil, List.take_append_drop], by rw [List.length_take]; omega⟩

theorem kdf2_init (g : D.Hashes H ok Has) {keyOk : Nat → Bool} {N : Nat} {st : Kdf2 D} (hr : st.Ready Has)
    (key iv info : List Byte) (hl : D.block + key.length + iv.length + info.length + 4 < N) (hk : keyOk key.length = true)
    (h1 : iv ≠ [] → info = [] ∧ 4 ≤ iv.length) (hi : iv ≠ [] ∨ D.block < key.length ∨ st.salt = []) :
    ∃ st', st.initialize keyOk key iv info = .ok st' ∧ st'.Keyed Has N (Kdf2.seed D.block key iv info).1 (Kdf2.seed D.block key iv info).2 1 := by
  obtain ⟨s, e, i, e1, e2, e3⟩ := kdf2_cleared g hr
  by_cases hiv : iv = []
  · subst hiv
    by_cases hb : key.length ≤ D.block
    · have hsalt : st.salt = [] := by
        rcases hi with hi | hi | hi
        · exact absurd rfl hi
        · omega
        · exact hi
      refine ⟨{ s with state := key ++ List.replicate (D.block - key.length) 0, init := true }, ?_, ?_⟩
      · rw [Kdf2.initialize, if_neg (by rw [hk]; decide), e, ok_bind, if_neg (by simp), Kdf2.loadKey, if_pos hb, copy_into hb, ok_bind, e2, resize_zeros, List.drop_replicate]
        rfl
      · simp only [Kdf2.seed, if_neg (fun h => h rfl : ¬ (([] : List Byte) ≠ [])), if_pos hb]
        exact ⟨rfl, i, rfl, by rw [e3, hsalt]; rfl, e1, by decide, by simp only [List.length_append, List.length_replicate, List.length_nil]; simp at hl; omega⟩
    · have hb' : D.block < key.length := by omega
      have c1 : copy key 0 (resize s.state D.block) 0 D.block = .ok (key.take D.block) :=
        copy_whole (Holds.takeN _ (Holds.self _)) (by rw [List.length_take]; omega) (by rw [resize_length, List.length_take]; omega)
      have c2 : copy key D.block (resize s.salt (key.length - D.block)) 0 (key.length - D.block) = .ok (key.drop D.block) :=
        copy_whole (holds_take_drop key D.block (by omega)) (by rw [List.length_drop]) (by rw [resize_length, List.length_drop])
      have c3 : (if info.length > 0 then copy info 0 (resize (key.drop D.block) ((key.drop D.block).length + info.length)) (key.drop D.block).length info.length else pure (key.drop D.block)) =
          (.ok (key.drop D.block ++ info) : M _) := by
        by_cases hinf : info = []
        · rw [if_neg (by simp [hinf]), hinf, List.append_nil]; rfl
        · rw [if_pos (List.length_pos_iff.mpr hinf)]
          have hrz : resize (key.drop D.block) ((key.drop D.block).length + info.length) = key.drop D.block ++ List.replicate info.length 0 ++ [] := by
            rw [resize, List.take_of_length_le (by omega), Nat.add_sub_cancel_left, List.append_nil]
          rw [hrz, copy_at (Holds.self info) rfl rfl (by simp), List.append_nil]
      refine ⟨{ s with state := key.take D.block, salt := key.drop D.block ++ info, init := true }, ?_, ?_⟩
      · rw [Kdf2.initialize, if_neg (by rw [hk]; decide), e, ok_bind, if_neg (by simp), Kdf2.loadKey, if_neg hb, c1, ok_bind, c2, ok_bind, c3]
        rfl
      · simp only [Kdf2.seed, if_neg (fun h => h rfl : ¬ (([] : List Byte) ≠ [])), if_neg hb]
        exact ⟨rfl, i, rfl, rfl, e1, by decide, by simp only [List.length_append, List.length_take, List.length_drop]; simp at hl; omega⟩
  · obtain ⟨h2, h3⟩ := h1 hiv
    subst h2
    have c1 : copy key 0 (resize s.state key.length) 0 key.length = .ok key :=
      copy_whole (Holds.self _) rfl (by rw [resize_length])
    have c2 : copy iv 0 (resize s.salt (iv.length + ([] : List Byte).length)) 0 (iv.length + ([] : List Byte).length) = .ok iv :=
      copy_whole (Holds.self _) rfl (by rw [resize_length]; rfl)
    refine ⟨{ s with state := key, salt := iv, init := true }, ?_, ?_⟩
    · rw [Kdf2.initialize, if_neg (by rw [hk]; decide), e, ok_bind, if_pos (by simpa using hiv), Kdf2.loadIv, if_neg (by simp; omega), c1, ok_bind, c2, ok_bind, if_neg (by simp)]
      rfl
    · simp only [Kdf2.seed, if_pos hiv]
      exact ⟨rfl, i, rfl, rfl, e1, by decide, by simp at hl; omega⟩

theorem kdf2_keyed_ready {N : Nat} {st : Kdf2 D} {z s : List Byte} {i : Nat} (h : st.Keyed Has N z s i) : st.Ready Has :=
  ⟨⟨_, h.dg⟩, by rw [h.counter, beEnc_length], fun hf => by rw [h.init] at hf; cases hf⟩

/-- With a nonce and an info, the copy of the nonce reads past its end. -/
theorem kdf2_info_ub (g : D.Hashes H ok Has) {keyOk : Nat → Bool} {st : Kdf2 D} (hr : st.Ready Has) (key iv info : List Byte) (hk : keyOk key.length = true)
    (hiv : iv ≠ []) (hinf : info ≠ []) (h4 : 4 ≤ iv.length + info.length) : st.initialize keyOk key iv info = .error .ub := by
  obtain ⟨s, e, i, e1, e2, e3⟩ := kdf2_cleared g hr
  have c1 : copy key 0 (resize s.state key.length) 0 key.length = .ok key :=
    copy_whole (Holds.self _) rfl (by rw [resize_length])
  have hp := List.length_pos_iff.mpr hinf
  have c2 : copy iv 0 (resize s.salt (iv.length + info.length)) 0 (iv.length + info.length) = .error .ub := by
    rw [copy, if_neg (by omega), slice, if_neg (by omega)]; rfl
  rw [Kdf2.initialize, if_neg (by rw [hk]; decide), e, ok_bind, if_pos (by simpa using hiv), Kdf2.loadIv, if_neg (by omega), c1, ok_bind, c2]
  rfl

theorem Kdf2.Run.inv (g : D.Hashes H ok Has) {keyOk : Nat → Bool} {N : Nat} (hN : ∀ n, n < N → ok n) (hN2 : N ≤ 2 ^ 64) (hs : 0 < D.size) {st : Kdf2 D} {x}
    (h : Kdf2.Run D Has keyOk N st x) : st.Ready Has ∧ ∀ z s i, x = some (z, s, i) → st.Keyed Has N z s i := by
  induction h with
  | new h => exact ⟨⟨⟨_, h⟩, rfl, fun _ => ⟨rfl, h, rfl, rfl⟩⟩, fun _ _ _ e => by cases e⟩
  | @init st st' x key iv info _ hl hi e ih =>
    have hk : keyOk key.length = true := by
      by_cases hk : keyOk key.length = true
      · exact hk
      · rw [Kdf2.initialize, if_pos (by simpa using hk)] at e; cases e
    have h1 : iv ≠ [] → info = [] ∧ 4 ≤ iv.length := by
      intro hiv
      have h4 : 4 ≤ iv.length + info.length := by
        rw [Kdf2.initialize, if_neg (by rw [hk]; decide)] at e
        obtain ⟨s, _, e⟩ := bind_ok e
        rw [if_pos (by simpa using hiv), Kdf2.loadIv] at e
        split at e
        · cases e
        · omega
      have hinf : info = [] := by
        apply Classical.byContradiction
        intro hinf
        rw [kdf2_info_ub g ih.1 key iv info hk hiv hinf h4] at e
        cases e
      subst hinf
      exact ⟨rfl, by simpa using h4⟩
    obtain ⟨s, e1, k⟩ := kdf2_init g (N := N) ih.1 key iv info hl hk h1 hi
    rw [e] at e1; cases e1
    exact ⟨kdf2_keyed_ready k, fun _ _ _ e => by cases e; exact k⟩
  | @gen st st' z s i out oo len out' _ ho hsz e ih =>
    have k := ih.2 _ _ _ rfl
    have hle := k.le
    obtain ⟨v, e2, hv⟩ := rd4 i (by omega)
    have hsub : i + len / D.size ≤ 255 ∧ oo + len ≤ out.length := by
      rw [Kdf2.generate, if_neg (by rw [k.init]; decide), if_neg (by omega), k.counter, e2, ok_bind, hv] at e
      split at e
      · cases e
      · rw [subU_le ho hsz] at e
        split at e
        · cases e
        · omega
    obtain ⟨e1, e2, e3⟩ := generate_split hsub.2
    obtain ⟨s, e4, k4⟩ := kdf2_generate g hN hN2 hs k (out.take oo) ((out.drop oo).take len) ((out.drop oo).drop len) (by rw [← e1]; exact hsz) (by rw [e3]; exact hsub.1)
    rw [← e1, e2, e3] at e4
    rw [e] at e4; cases e4
    rw [e3] at k4
    exact ⟨kdf2_keyed_ready k4, fun _ _ _ e => by cases e; exact k4⟩

/-- C35 for KDF2: after any history, a keyed instance fills exactly the requested window with the next KDF2 blocks, cut to length, and
goes on with the next index; requests past the limit are refused. -/
theorem C35_kdf2_partial (g : D.Hashes H ok Has) (keyOk : Nat → Bool) (N : Nat) (hN : ∀ n, n < N → ok n) (hN2 : N ≤ 2 ^ 64) (hs : 0 < D.size) (st : Kdf2 D)
    (z s : List Byte) (i : Nat) (h : Kdf2.Run D Has keyOk N st (some (z, s, i))) (pre junk post : List Byte) (hsz : (pre ++ junk ++ post).length < 2 ^ 64) :
    (i + junk.length / D.size ≤ 255 → ∃ st', st.generate (pre ++ junk ++ post) pre.length junk.length =
        .ok (st', pre ++ (Iso18033.blocks H z s i (passesFor D.size junk.length)).take junk.length ++ post) ∧
      Kdf2.Run D Has keyOk N st' (some (z, s, i + passesFor D.size junk.length))) ∧
    (255 < i + junk.length / D.size → st.generate (pre ++ junk ++ post) pre.length junk.length = .error (.throws .maxExceeded)) := by
  have k := (h.inv g hN hN2 hs).2 _ _ _ rfl
  constructor
  · intro hc
    obtain ⟨st', e, _⟩ := kdf2_generate g hN hN2 hs k pre junk post hsz hc
    exact ⟨st', e, .gen h (by simp only [List.length_append]; omega) hsz e⟩
  · intro hc
    have hle := k.le
    obtain ⟨v, e2, hv⟩ := rd4 i (by omega)
    rw [Kdf2.generate, if_neg (by rw [k.init]; decide), if_neg (by omega), k.counter, e2, ok_bind, if_pos (by rw [hv]; omega)]
    rfl

/-- Prefix consistency: a shorter request from the same state gives a prefix of the longer one. -/
theorem C35_kdf2_prefix (z s : List Byte) (i : Nat) (B a b : Nat) (hB : 0 < B) (hab : a ≤ b) (hl : ∀ m, (H m).length = B) :
    (Iso18033.blocks H z s i (passesFor B a)).take a = ((Iso18033.blocks H z s i (passesFor B b)).take b).take a := by
  have hp : passesFor B a ≤ passesFor B b := by
    rw [passesFor, passesFor]
    have : blocksFor B a ≤ blocksFor B b := by rw [blocksFor, blocksFor]; exact Nat.div_le_div_right (by omega)
    omega
  have hx : Iso18033.blocks H z s i (passesFor B b) = Iso18033.blocks H z s i (passesFor B a) ++
      ((List.range' (passesFor B a) (passesFor B b - passesFor B a)).map (fun j => Iso18033.block H z s (i + j))).flatten := by
    rw [Iso18033.blocks, Iso18033.blocks, ← List.flatten_append, ← List.map_append, List.range_eq_range', List.range_eq_range']
    have := List.range'_append_1 (s := 0) (m := passesFor B a) (n := passesFor B b - passesFor B a)
    rw [Nat.zero_add] at this
    rw [this, show passesFor B a + (passesFor B b - passesFor B a) = passesFor B b by omega]
  have hlen : (Iso18033.blocks H z s i (passesFor B a)).length = passesFor B a * B := by
    have hbl : Blocks B ((List.range (passesFor B a)).map (fun j => Iso18033.block H z s (i + j))) := by
      intro b hb
      obtain ⟨j, _, rfl⟩ := List.mem_map.mp hb
      exact hl _
    rw [Iso18033.blocks, hbl.length]; simp
  have hge := passes_ge hB a
  rw [List.take_take, Nat.min_eq_left hab, hx, List.take_append_of_le_length (by omega)]

/-- Any reachable KDF2 object: `Initialize` with both a nonce and an info is undefined behaviour. -/
theorem C35_kdf2_info_ub (g : D.Hashes H ok Has) (keyOk : Nat → Bool) (N : Nat) (hN : ∀ n, n < N → ok n) (hN2 : N ≤ 2 ^ 64) (hs : 0 < D.size) (st : Kdf2 D) (x)
    (h : Kdf2.Run D Has keyOk N st x) (key iv info : List Byte) (hk : keyOk key.length = true) (hiv : iv ≠ []) (hinf : info ≠ []) (h4 : 4 ≤ iv.length + info.length) :
    st.initialize keyOk key iv info = .error .ub := kdf2_info_ub g (h.inv g hN hN2 hs).1 key iv info hk hiv hinf h4

/-- The info is dropped when there is no nonce and the key has at most one block. -/
theorem C35_kdf2_info_ignored (keyOk : Nat → Bool) (st : Kdf2 D) (key info info' : List Byte) (hk : key.length ≤ D.block) :
    st.initialize keyOk key [] info = st.initialize keyOk key [] info' := by
  simp only [Kdf2.initialize, Kdf2.loadKey, if_pos hk, List.length_nil, ne_eq, not_true_eq_false, if_false]

theorem copy_oob {s d : List Byte} {so off n : Nat} (hn : n ≠ 0) (h : d.length < off + n) : copy s so d off n = .error .ub := by
  rw [copy, if_neg hn, slice]
  split
  · rename_i h2
    rw [ok_bind, blit, if_neg (by simp only [List.length_take, List.length_drop]; omega)]
  · rfl

/-- Filling a `SecureVector` away from its start writes past the end of a temporary. -/
theorem C35_kdf2_secure_ub (g : D.Hashes H ok Has) (keyOk : Nat → Bool) (N : Nat) (hN : ∀ n, n < N → ok n) (hN2 : N ≤ 2 ^ 64) (hs : 0 < D.size) (st : Kdf2 D)
    (z s : List Byte) (i : Nat) (h : Kdf2.Run D Has keyOk N st (some (z, s, i))) (out : List Byte) (oo len : Nat) (ho : 0 < oo) (hl : 0 < len) (hl2 : len ≤ D.size)
    (hsz : oo + len ≤ out.length) (hsz2 : out.length < 2 ^ 64) (hi : i < 255) : st.generateSecure out oo len = .error .ub := by
  have k := (h.inv g hN hN2 hs).2 _ _ _ rfl
  have hdiv : len / D.size ≤ 1 := by
    rw [Nat.div_le_iff_le_mul_add_pred (by omega)]; omega
  have hb : passesFor D.size len = 1 := by
    rw [passesFor, blocksFor, show len + D.size - 1 = D.size * 1 + (len - 1) by omega, Nat.mul_add_div (by omega), Nat.div_eq_of_lt (by omega)]; rfl
  obtain ⟨v, e2, hv⟩ := rd4 i (by omega)
  rw [Kdf2.generateSecure, if_neg (by rw [k.init]; decide), if_neg (by omega), k.counter, e2, ok_bind, if_neg (by omega),
    subU_le (by omega) hsz2, if_neg (by omega), Kdf2.expand, hb]
  have hp : Kdf2.pass len oo 0 (st, List.replicate len 0) = .error .ub := by
    obtain ⟨d1, e1, i1⟩ := g.update_all k.dg st.state (by rw [k.state]; have := k.bound; omega)
    obtain ⟨d2, e2, i2⟩ := g.update_all i1 st.counter (by rw [k.counter, beEnc_length]; decide)
    have hcl : st.counter.length = 4 := by rw [k.counter, beEnc_length]
    rw [hcl] at e2
    have h3 : ∃ d3, (if st.salt.length ≠ 0 then D.update d2 st.salt 0 st.salt.length else pure d2) = .ok d3 ∧ Has d3 (st.state ++ st.counter ++ st.salt) := by
      by_cases hs : st.salt = []
      · rw [if_neg (by rw [hs]; simp), hs, List.append_nil]; exact ⟨d2, rfl, i2⟩
      · rw [if_pos (by simpa using hs)]
        exact g.update_all i2 st.salt (by rw [k.salt]; have := k.bound; omega)
    obtain ⟨d3, e3, i3⟩ := h3
    obtain ⟨d4, e4, i4⟩ := g.finalize_all i3 (hN _ (by simp only [List.length_append, hcl, k.salt, k.state]; have := k.bound; omega)) (List.replicate D.size 0) (by simp)
    rw [Kdf2.pass]
    simp only [e1, ok_bind, e2, e3, e4]
    rw [k.counter, inc4, ok_bind, copy_oob (by omega) (by simp; omega)]
    rfl
  simp only [loopN, hp]
  rfl

/-- The full claim on re-initialisation. -/
def C35_kdf2_reinit_full : Prop :=
  ∀ (H : List Byte → List Byte) (D : DigestOps) (Has : D.σ → List Byte → Prop), D.Hashes H (fun _ => True) Has → ∀ (s : D.σ), Has s [] →
    ∀ (key iv key' out : List Byte) (a b c : Kdf2 D) (out' : List Byte), out.length = D.size →
      (Kdf2.fresh s).initialize (fun n => decide (16 ≤ n)) key iv [] = .ok a → a.initialize (fun n => decide (16 ≤ n)) key' [] [] = .ok b →
      b.generate out 0 D.size = .ok (c, out') → out' = Iso18033.block H (Kdf2.seed D.block key' [] []).1 (Kdf2.seed D.block key' [] []).2 1

/-- A salt given once stays, zeroed but with its length, when the instance is initialised again without one. -/
theorem C35_kdf2_reinit_false : ¬ C35_kdf2_reinit_full := by
  intro h
  have g := ideal_hashes (H := lenHash) (block := 20) (size := 2) (fun _ => rfl) (by decide) (by decide)
  have hr : ∃ a b c out', (Kdf2.fresh (D := idealOps lenHash 20 2) []).initialize (fun n => decide (16 ≤ n)) (List.replicate 16 1) [1, 2, 3, 4] [] = .ok a ∧
      a.initialize (fun n => decide (16 ≤ n)) (List.replicate 16 1) [] [] = .ok b ∧ b.generate [0, 0] 0 2 = .ok (c, out') ∧
      out' ≠ Iso18033.block lenHash (Kdf2.seed 20 (List.replicate 16 1) [] []).1 (Kdf2.seed 20 (List.replicate 16 1) [] []).2 1 := by
    refine ⟨_, _, _, _, rfl, rfl, rfl, by decide +kernel⟩
  obtain ⟨a, b, c, out', e1, e2, e3, hne⟩ := hr
  exact hne (h lenHash _ _ g [] rfl _ _ _ _ a b c out' rfl e1 e2 e3)

/-- From a fresh object and a key with nonce, a run exists. -/
theorem kdf2_start (g : D.Hashes H ok Has) (keyOk : Nat → Bool) (N : Nat) {s : D.σ} (h0 : Has s []) (key salt : List Byte)
    (hk : keyOk key.length = true) (hl : D.block + key.length + salt.length + 4 < N) (h4 : 4 ≤ salt.length) :
    ∃ st, Kdf2.Run D Has keyOk N st (some (key, salt, 1)) := by
  have r0 : Kdf2.Run D Has keyOk N (.fresh s) none := .new h0
  have hr : (Kdf2.fresh s : Kdf2 D).Ready Has := ⟨⟨_, h0⟩, rfl, fun _ => ⟨rfl, h0, rfl, rfl⟩⟩
  have hne : salt ≠ [] := by intro h; rw [h] at h4; simp at h4
  obtain ⟨st, e, _⟩ := kdf2_init g (keyOk := keyOk) hr key salt [] (by simpa using hl) hk (fun _ => ⟨rfl, h4⟩) (.inl hne)
  have r1 := Kdf2.Run.init r0 (by simpa using hl) (.inl hne) e
  simp only [Kdf2.seed, if_pos hne] at r1
  exact ⟨st, r1⟩

/-- KDF2 with SHA2-256, two requests: 50 bytes, then 33 bytes into the middle of a buffer. -/
example : ∃ (st st' : Kdf2 (sha2Ops (core256 true))), st.generate (List.replicate 4 0 ++ List.replicate 33 0 ++ List.replicate 3 0) 4 33 =
    .ok (st', List.replicate 4 0 ++ (Iso18033.blocks Fips.sha256 (List.replicate 20 3) [1, 2, 3, 4] 3 2).take 33 ++ List.replicate 3 0) := by
  have g := sha2_hashes (core256_good true) (by decide)
  obtain ⟨o, h0⟩ := (C36_sha256 true).1
  obtain ⟨s0, r0⟩ := kdf2_start g (fun n => decide (16 ≤ n)) (2 ^ 40) (s := o) (.new h0) (List.replicate 20 3) [1, 2, 3, 4] (by simp) (by simp [sha2Ops]) (by decide)
  obtain ⟨s1, e1, r1⟩ := (C35_kdf2_partial g _ (2 ^ 40) (fun _ _ => trivial) (by decide) (by decide) s0 _ _ _ r0 [] (List.replicate 50 0) [] (by simp)).1 (by simp [sha2Ops])
  obtain ⟨s2, e2, r2⟩ := (C35_kdf2_partial g _ (2 ^ 40) (fun _ _ => trivial) (by decide) (by decide) s1 _ _ _ r1 (List.replicate 4 0) (List.replicate 33 0) (List.replicate 3 0) (by simp)).1
    (by simp [passesFor, blocksFor, sha2Ops])
  exact ⟨s1, s2, e2⟩

end Cex.Kdf
