import Verif.Mac.HmacModel
import Verif.Digest.Sha2Props

/-!
# C29 HMAC

The specification is RFC 2104 over an arbitrary hash function. `Run D Has st x`: the instance `st` has come about by
construction over a fresh digest object and any sequence of successful calls; `x = some (k, m)` when it is initialised
with the key `k` and has received `m` since the last tag.
-/

namespace Cex.Mac
open Cex Cex.Digest Cex.Stream

/-- RFC 2104: the key padded to a block. -/
def Rfc2104.key (H : List Byte → List Byte) (B : Nat) (k : List Byte) : List Byte :=
  let k' := if k.length > B then H k else k
  k' ++ List.replicate (B - k'.length) 0

/-- RFC 2104: `H(K xor opad, H(K xor ipad, text))`. -/
def Rfc2104.hmac (H : List Byte → List Byte) (B : Nat) (k m : List Byte) : List Byte :=
  let K := Rfc2104.key H B k
  H (K.map (· ^^^ 0x5C) ++ H (K.map (· ^^^ 0x36) ++ m))

variable {D : DigestOps} {H : List Byte → List Byte} {ok : Nat → Prop} {Has : D.σ → List Byte → Prop}

/-- The states of an HMAC object. Messages have lengths the digest is correct for. -/
inductive Hmac.Run (D : DigestOps) (Has : D.σ → List Byte → Prop) (ok : Nat → Prop) (keyOk : Nat → Bool) :
    Hmac D → Option (List Byte × List Byte) → Prop
  | new {s} : Has s [] → Run D Has ok keyOk (.fresh s) none
  | init {st st' x k} : Run D Has ok keyOk st x → k.length < 2 ^ 64 → ok k.length → st.initialize keyOk k = .ok st' → Run D Has ok keyOk st' (some (k, []))
  | update {st st' k m} (x : Window) : Run D Has ok keyOk st (some (k, m)) → st.update x.buf x.off x.len = .ok st' → Run D Has ok keyOk st' (some (k, m ++ x.bytes))
  | final {st st' k m out oo out'} : Run D Has ok keyOk st (some (k, m)) → ok (D.block + m.length) → oo ≤ out.length → out.length < 2 ^ 64 →
      st.finalize out oo = .ok (st', out') → Run D Has ok keyOk st' (some (k, []))
  | finalSecure {st st' k m out oo out'} : Run D Has ok keyOk st (some (k, m)) → ok (D.block + m.length) →
      st.finalizeSecure out oo = .ok (st', out') → Run D Has ok keyOk st' (some (k, []))
  | reset {st st' x} : Run D Has ok keyOk st x → st.reset = .ok st' → Run D Has ok keyOk st' none

/-- The invariant. -/
structure Hmac.Inv (H : List Byte → List Byte) (Has : D.σ → List Byte → Prop) (st : Hmac D) (x : Option (List Byte × List Byte)) : Prop where
  ipadLen : st.ipad.length = D.block
  opadLen : st.opad.length = D.block
  none : x = none → st.init = false ∧ Has st.dg []
  some : ∀ k m, x = some (k, m) → st.init = true ∧ st.ipad = (Rfc2104.key H D.block k).map (· ^^^ 0x36) ∧
    st.opad = (Rfc2104.key H D.block k).map (· ^^^ 0x5C) ∧ Has st.dg (st.ipad ++ m)

theorem key_length (g : D.Hashes H ok Has) (k : List Byte) : (Rfc2104.key H D.block k).length = D.block := by
  have := g.size_le
  have := g.size k
  simp only [Rfc2104.key, List.length_append, List.length_replicate]
  split <;> omega

theorem hmac_reset_inv (g : D.Hashes H ok Has) {st : Hmac D} {x} (h : st.Inv H Has x) : ∃ st', st.reset = .ok st' ∧ st'.Inv H Has none := by
  have hd : ∃ m, Has st.dg m := by
    cases x with
    | none => exact ⟨_, (h.none rfl).2⟩
    | some p => exact ⟨_, (h.some p.1 p.2 rfl).2.2.2⟩
  obtain ⟨m, hd⟩ := hd
  obtain ⟨dg, h1, h2⟩ := g.reset hd
  refine ⟨⟨dg, List.replicate st.ipad.length 0, List.replicate st.opad.length 0, false⟩, ?_, by simp [h.ipadLen], by simp [h.opadLen], fun _ => ⟨rfl, h2⟩, fun _ _ e => by cases e⟩
  rw [Hmac.reset, h1, ok_bind, clear_whole, ok_bind, clear_whole]
  rfl

/-- `Initialize` from a state with a fresh digest. -/
theorem hmac_load (g : D.Hashes H ok Has) {st : Hmac D} {k : List Byte} (hi : st.ipad.length = D.block) (hk : k.length < 2 ^ 64) (hok : ok k.length)
    (hd : Has st.dg []) :
    ∃ dg p n, st.loadKey k = .ok (dg, p, n) ∧ Hmac.padKey D p n = .ok (Rfc2104.key H D.block k) ∧ Has dg [] := by
  have hsz := g.size_le
  have hlt := g.block_lt
  by_cases hb : k.length > D.block
  · obtain ⟨dg, h1, h2⟩ := g.update_all hd k hk
    rw [List.nil_append] at h2
    obtain ⟨dg', h3, h4⟩ := g.finalize h2 hok [] (st.ipad.take D.size) (st.ipad.drop D.size) (by rw [List.length_take]; omega)
      (by rw [List.nil_append, List.take_append_drop]; omega)
    rw [List.nil_append, List.take_append_drop, List.length_nil, List.nil_append] at h3
    refine ⟨dg', H k ++ st.ipad.drop D.size, D.size, ?_, ?_, h4⟩
    · rw [Hmac.loadKey, if_pos hb, h1, ok_bind, h3]; rfl
    · have hl := g.size k
      rw [Hmac.padKey]
      simp only [Rfc2104.key, if_pos hb, hl]
      split
      · have hbl := blit_at (a := H k) (b := st.ipad.drop D.size) (c := []) (s := List.replicate (D.block - D.size) 0) (off := D.size) hl.symm (by simp; omega)
        rw [List.append_nil, List.append_nil] at hbl
        rw [clear, if_neg (by omega)]; exact hbl
      · rw [List.drop_eq_nil_of_le (by omega), show D.block - D.size = 0 by omega]; rfl
  · have hc := copy_at (src := k) (a := []) (b := st.ipad.take k.length) (c := st.ipad.drop k.length) (s := k) (so := 0) (off := 0) (n := k.length)
      (Holds.self k) rfl rfl (by rw [List.length_take]; omega)
    rw [List.nil_append, List.take_append_drop, List.nil_append] at hc
    refine ⟨st.dg, k ++ st.ipad.drop k.length, k.length, ?_, ?_, hd⟩
    · rw [Hmac.loadKey, if_neg hb, hc]; rfl
    · rw [Hmac.padKey]
      simp only [Rfc2104.key, if_neg hb]
      split
      · have hbl := blit_at (a := k) (b := st.ipad.drop k.length) (c := []) (s := List.replicate (D.block - k.length) 0) (off := k.length) rfl (by simp; omega)
        rw [List.append_nil, List.append_nil] at hbl
        rw [clear, if_neg (by omega)]; exact hbl
      · rw [List.drop_eq_nil_of_le (by omega), show D.block - k.length = 0 by omega]; rfl

theorem hmac_init_inv (g : D.Hashes H ok Has) {keyOk : Nat → Bool} {st : Hmac D} {x} {k : List Byte} (h : st.Inv H Has x) (hk : k.length < 2 ^ 64)
    (hok : ok k.length) (hkk : keyOk k.length = true) : ∃ st', st.initialize keyOk k = .ok st' ∧ st'.Inv H Has (some (k, [])) := by
  have h0 : ∃ s0 : Hmac D, (if st.init then st.reset else pure st) = .ok s0 ∧ s0.Inv H Has none := by
    cases x with
    | none => rw [if_neg (by rw [(h.none rfl).1]; decide)]; exact ⟨st, rfl, h⟩
    | some p =>
      rw [if_pos (h.some p.1 p.2 rfl).1]
      exact hmac_reset_inv g h
  obtain ⟨s0, e0, i0⟩ := h0
  obtain ⟨dg, p, n, e1, e2, hd⟩ := hmac_load g (st := s0) i0.ipadLen hk hok (i0.none rfl).2
  have hkl := key_length g k
  have hlt := g.block_lt
  have e3 : copy (Rfc2104.key H D.block k) 0 s0.opad 0 (Rfc2104.key H D.block k).length = .ok (Rfc2104.key H D.block k) :=
    copy_whole (Holds.self _) rfl (by rw [i0.opadLen, hkl])
  obtain ⟨dg', e4, hd'⟩ := g.update_all hd ((Rfc2104.key H D.block k).map (· ^^^ 0x36)) (by rw [List.length_map]; omega)
  rw [List.nil_append] at hd'
  refine ⟨⟨dg', (Rfc2104.key H D.block k).map (· ^^^ 0x36), (Rfc2104.key H D.block k).map (· ^^^ 0x5C), true⟩, ?_, by simp [hkl], by simp [hkl], (fun e => by cases e), ?_⟩
  · rw [Hmac.initialize, if_neg (by rw [hkk]; decide), e0, ok_bind, e1, ok_bind, e2, ok_bind, e3, ok_bind]
    simp only [Hmac.xorPad, e4, ok_bind]
    rfl
  · intro k' m' e
    cases e
    exact ⟨rfl, rfl, rfl, by simpa using hd'⟩

theorem hmac_update_inv (g : D.Hashes H ok Has) {st : Hmac D} {k m : List Byte} (h : st.Inv H Has (some (k, m))) (x : Window) :
    ∃ st', st.update x.buf x.off x.len = .ok st' ∧ st'.Inv H Has (some (k, m ++ x.bytes)) := by
  obtain ⟨h1, h2, h3, h4⟩ := h.some k m rfl
  obtain ⟨dg, h5, h6⟩ := g.update h4 x
  have hle := x.le
  refine ⟨{ st with dg := dg }, ?_, h.ipadLen, h.opadLen, (fun e => by cases e), ?_⟩
  · rw [Hmac.update, if_neg (by rw [h1]; decide), subU_le (by omega) x.size, if_neg (by omega), h5]; rfl
  · intro k' m' e
    cases e
    exact ⟨h1, h2, h3, by simpa [List.append_assoc] using h6⟩

theorem hmac_final_inv (g : D.Hashes H ok Has) {st : Hmac D} {k m : List Byte} (h : st.Inv H Has (some (k, m))) (hm : ok (D.block + m.length))
    (h2k : ok (D.block + D.size)) (pre junk post : List Byte) (hj : junk.length = D.size) (hsz : (pre ++ junk ++ post).length < 2 ^ 64) :
    ∃ st', st.finalize (pre ++ junk ++ post) pre.length = .ok (st', pre ++ Rfc2104.hmac H D.block k m ++ post) ∧ st'.Inv H Has (some (k, [])) := by
  obtain ⟨h1, h2, h3, h4⟩ := h.some k m rfl
  have hlt := g.block_lt
  have hsl := g.size_le
  have hil := h.ipadLen
  have hol := h.opadLen
  obtain ⟨d1, e1, i1⟩ := g.finalize_all h4 (by rw [List.length_append, hil]; exact hm) (List.replicate D.size 0) (by simp)
  obtain ⟨d2, e2, i2⟩ := g.update_all i1 st.opad (by omega)
  have hHl := g.size (st.ipad ++ m)
  obtain ⟨d3, e3, i3⟩ := g.update_all i2 (H (st.ipad ++ m)) (by omega)
  rw [List.nil_append] at i3
  obtain ⟨d4, e4, i4⟩ := g.finalize i3 (by rw [List.length_append, hol, hHl]; exact h2k) pre junk post hj hsz
  obtain ⟨d5, e5, i5⟩ := g.update_all i4 st.ipad (by omega)
  rw [List.nil_append] at i5
  refine ⟨{ st with dg := d5 }, ?_, hil, hol, (fun e => by cases e), ?_⟩
  · have hle : pre.length ≤ (pre ++ junk ++ post).length := by simp only [List.length_append]; omega
    rw [Hmac.finalize, if_neg (by rw [h1]; decide), subU_le hle hsz, if_neg (by simp only [List.length_append]; omega), e1, ok_bind, e2, ok_bind]
    simp only [e3, ok_bind, e4, e5]
    rw [Rfc2104.hmac, h2, h3]
    rfl
  · intro k' m' e
    cases e
    exact ⟨h1, h2, h3, by simpa using i5⟩

theorem hmac_length (g : D.Hashes H ok Has) (k m : List Byte) : (Rfc2104.hmac H D.block k m).length = D.size := g.size _

theorem hmac_secure_inv (g : D.Hashes H ok Has) {st : Hmac D} {k m : List Byte} (h : st.Inv H Has (some (k, m))) (hm : ok (D.block + m.length))
    (h2k : ok (D.block + D.size)) (pre junk post : List Byte) (hj : junk.length = D.size) :
    ∃ st', st.finalizeSecure (pre ++ junk ++ post) pre.length = .ok (st', pre ++ Rfc2104.hmac H D.block k m ++ post) ∧ st'.Inv H Has (some (k, [])) := by
  obtain ⟨st', e, i⟩ := hmac_final_inv g h hm h2k [] (List.replicate D.size 0) [] (by simp) (by have := g.size_le; have := g.block_lt; simp; omega)
  simp only [List.nil_append, List.append_nil, List.length_nil] at e
  refine ⟨st', ?_, i⟩
  have hl := hmac_length g k m
  rw [Hmac.finalizeSecure, e, ok_bind]
  simp only
  rw [copy_at (Holds.self _) rfl rfl (by rw [hl, hj])]
  rfl

theorem Hmac.Run.inv (g : D.Hashes H ok Has) (h2k : ok (D.block + D.size)) {keyOk : Nat → Bool} {st : Hmac D} {x} (h : Hmac.Run D Has ok keyOk st x) :
    st.Inv H Has x := by
  induction h with
  | new h => exact ⟨by simp [Hmac.fresh], by simp [Hmac.fresh], fun _ => ⟨rfl, h⟩, fun _ _ e => by cases e⟩
  | @init st st' x k _ hk hok e ih =>
    by_cases hkk : keyOk k.length = true
    · obtain ⟨s, e1, i⟩ := hmac_init_inv g ih hk hok hkk
      rw [e] at e1; cases e1; exact i
    · rw [Hmac.initialize, if_pos (by simpa using hkk)] at e
      cases e
  | update x _ e ih =>
    obtain ⟨s, e1, i⟩ := hmac_update_inv g ih x
    rw [e] at e1; cases e1; exact i
  | @final st st' k m out oo out' _ hm ho hsz e ih =>
    by_cases hs : subU out.length oo < D.size
    · rw [Hmac.finalize, if_neg (by rw [(ih.some _ _ rfl).1]; decide), if_pos hs] at e
      cases e
    · rw [subU_le ho hsz] at hs
      have hsplit : out = out.take oo ++ (out.drop oo).take D.size ++ (out.drop oo).drop D.size := by
        rw [List.append_assoc, List.take_append_drop, List.take_append_drop]
      obtain ⟨s, e1, i⟩ := hmac_final_inv g ih hm h2k (out.take oo) ((out.drop oo).take D.size) ((out.drop oo).drop D.size)
        (by rw [List.length_take, List.length_drop]; omega) (by rw [← hsplit]; exact hsz)
      rw [← hsplit, List.length_take, Nat.min_eq_left ho, e] at e1
      cases e1; exact i
  | @finalSecure st st' k m out oo out' _ hm e ih =>
    obtain ⟨r, e1, e⟩ := bind_ok e
    obtain ⟨o2, e2, e⟩ := bind_ok e
    cases e
    obtain ⟨s, e3, i⟩ := hmac_final_inv g ih hm h2k [] (List.replicate D.size 0) [] (by simp) (by have := g.size_le; have := g.block_lt; simp; omega)
    simp only [List.nil_append, List.append_nil, List.length_nil] at e3
    rw [e3] at e1; cases e1; exact i
  | reset _ e ih =>
    obtain ⟨s, e1, i⟩ := hmac_reset_inv g ih
    rw [e] at e1; cases e1; exact i

/-- C29. Whatever was done with the instance before: `Initialize` with an accepted key succeeds; once it is initialised with `k` and
has received `m` (in any split), both `Finalize` overloads succeed for any place in any buffer and write the RFC 2104 tag of `m`,
changing nothing else, and the instance is ready for the next message under the same key (`Run.final`). -/
theorem C29_hmac (g : D.Hashes H ok Has) (h2k : ok (D.block + D.size)) (keyOk : Nat → Bool) (st : Hmac D) (x) (h : Hmac.Run D Has ok keyOk st x) :
    (∀ k : List Byte, k.length < 2 ^ 64 → ok k.length → keyOk k.length = true → ∃ st', st.initialize keyOk k = .ok st') ∧
    (∀ k m, x = some (k, m) → (∀ w : Window, ∃ st', st.update w.buf w.off w.len = .ok st') ∧
      (ok (D.block + m.length) → ∀ pre junk post, junk.length = D.size →
        ((pre ++ junk ++ post).length < 2 ^ 64 →
          ∃ st', st.finalize (pre ++ junk ++ post) pre.length = .ok (st', pre ++ Rfc2104.hmac H D.block k m ++ post)) ∧
        ∃ st', st.finalizeSecure (pre ++ junk ++ post) pre.length = .ok (st', pre ++ Rfc2104.hmac H D.block k m ++ post))) := by
  have i := h.inv g h2k
  refine ⟨fun k hk hok hkk => ?_, ?_⟩
  · obtain ⟨s, e, _⟩ := hmac_init_inv g i hk hok hkk
    exact ⟨s, e⟩
  · rintro k m rfl
    refine ⟨fun w => ?_, fun hm pre junk post hj => ⟨fun hs => ?_, ?_⟩⟩
    · obtain ⟨s, e, _⟩ := hmac_update_inv g i w
      exact ⟨s, e⟩
    · obtain ⟨s, e, _⟩ := hmac_final_inv g i hm h2k pre junk post hj hs
      exact ⟨s, e⟩
    · obtain ⟨s, e, _⟩ := hmac_secure_inv g i hm h2k pre junk post hj
      exact ⟨s, e⟩

/-- Reusability: after one `Initialize`, a sequence of `Compute` calls gives each message its own tag. -/
theorem C29_reuse (g : D.Hashes H ok Has) (h2k : ok (D.block + D.size)) (keyOk : Nat → Bool) (k : List Byte) :
    ∀ (ms : List (List Byte)) (st : Hmac D), Hmac.Run D Has ok keyOk st (some (k, [])) → (∀ m ∈ ms, m.length < 2 ^ 64 ∧ ok (D.block + m.length)) →
      ∃ st', ms.foldlM (fun (p : Hmac D × List (List Byte)) m => do
          let r ← p.1.compute m (List.replicate D.size 0)
          return (r.1, p.2 ++ [r.2])) (st, []) = .ok (st', ms.map (Rfc2104.hmac H D.block k)) := by
  suffices hg : ∀ (ms : List (List Byte)) (st : Hmac D) (acc : List (List Byte)), Hmac.Run D Has ok keyOk st (some (k, [])) →
      (∀ m ∈ ms, m.length < 2 ^ 64 ∧ ok (D.block + m.length)) →
      ∃ st', ms.foldlM (fun (p : Hmac D × List (List Byte)) m => do
          let r ← p.1.compute m (List.replicate D.size 0)
          return (r.1, p.2 ++ [r.2])) (st, acc) = .ok (st', acc ++ ms.map (Rfc2104.hmac H D.block k)) by
    intro ms st h hm
    simpa using hg ms st [] h hm
  intro ms
  induction ms with
  | nil => intro st acc _ _; exact ⟨st, by simp [pure_eq_ok]⟩
  | cons m ms ih =>
    intro st acc h hm
    obtain ⟨hl, hok⟩ := hm m (by simp)
    have hsz := g.size_le
    have hlt := g.block_lt
    obtain ⟨s1, e1, i1⟩ := hmac_update_inv g (h.inv g h2k) (Window.whole m hl)
    have r1 := Hmac.Run.update (Window.whole m hl) h e1
    obtain ⟨s2, e2, i2⟩ := hmac_final_inv g i1 (by rw [Window.whole_bytes, List.nil_append]; exact hok) h2k [] (List.replicate D.size 0) [] (by simp) (by simp; omega)
    simp only [List.nil_append, List.append_nil, List.length_nil, Window.whole_bytes] at e2
    have r2 := Hmac.Run.final r1 (by rw [Window.whole_bytes, List.nil_append]; exact hok) (Nat.zero_le _) (by simp; omega) e2
    obtain ⟨s3, e3⟩ := ih s2 (acc ++ [Rfc2104.hmac H D.block k m]) r2 (fun m' h' => hm m' (by simp [h']))
    refine ⟨s3, ?_⟩
    have hc : st.compute m (List.replicate D.size 0) = .ok (s2, Rfc2104.hmac H D.block k m) := by
      rw [Hmac.compute, if_neg (by rw [((h.inv g h2k).some _ _ rfl).1]; decide), if_neg (by simp)]
      rw [show st.update m 0 m.length = .ok s1 from e1, ok_bind]
      exact e2
    rw [List.foldlM_cons, hc, ok_bind, pure_eq_ok, ok_bind, e3, List.append_assoc]
    rfl

/-! ## The two digests HMAC is built with -/

/-- `SHA2256` / `SHA2512` behind the interface (SHA2256.h, SHA2512.h: `BlockSize` is the rate, `DigestSize` the output size). -/
def sha2Ops {w : Nat} (C : Core w) : DigestOps := ⟨Obj w, 2 * w, w, fun o => o.update C, fun o => o.finalize C, fun o => o.reset C⟩

theorem sha2_hashes {w : Nat} {C : Core w} {A : Fips.MD w} {T : Nat → Ctr} {ok : Nat → Prop} (g : C.Good A T ok) (hw : 2 * w < 2 ^ 64) :
    (sha2Ops C).Hashes A.hash ok (Obj.Run C) where
  size m := by
    have := g.width
    simp only [Fips.MD.hash, Fips.V8.bytes, List.length_append, beEnc_len, sha2Ops]; omega
  size_le := by simp only [sha2Ops]; omega
  block_lt := hw
  update h x := by
    obtain ⟨o', e⟩ := ((sequential g).2 _ _ h).1 x
    exact ⟨o', e, .update x h e⟩
  reset h := by
    obtain ⟨o', e⟩ := ((sequential g).2 _ _ h).2.1
    exact ⟨o', e, .reset h e⟩
  finalize h hok pre junk post hj hs := by
    obtain ⟨o', e⟩ := ((sequential g).2 _ _ h).2.2 hok pre junk post hj hs
    exact ⟨o', e, .final h e⟩

/-- HMAC-SHA2-256 as built by `HMAC(SHA2Digests::SHA2256)`: no condition on lengths is left. -/
theorem C29_hmac_sha256 (compact : Bool) (keyOk : Nat → Bool) (st : Hmac (sha2Ops (core256 compact))) (x)
    (h : Hmac.Run _ (Obj.Run (core256 compact)) (fun _ => True) keyOk st x) (k m : List Byte) (hx : x = some (k, m)) (pre junk post : List Byte) (hj : junk.length = 32)
    (hs : (pre ++ junk ++ post).length < 2 ^ 64) :
    ∃ st', st.finalize (pre ++ junk ++ post) pre.length = .ok (st', pre ++ Rfc2104.hmac Fips.sha256 64 k m ++ post) :=
  ((((C29_hmac (sha2_hashes (core256_good compact) (by decide)) trivial keyOk st x h).2 k m hx).2 trivial pre junk post hj).1 hs)

/-- HMAC-SHA2-512, for messages the digest is right for (C36). -/
theorem C29_hmac_sha512 (compact : Bool) (keyOk : Nat → Bool) (st : Hmac (sha2Ops (core512 compact))) (x)
    (h : Hmac.Run _ (Obj.Run (core512 compact)) ok512 keyOk st x) (k m : List Byte) (hx : x = some (k, m)) (hm : m.length < 2 ^ 61 - 256) (pre junk post : List Byte)
    (hj : junk.length = 64) (hs : (pre ++ junk ++ post).length < 2 ^ 64) :
    ∃ st', st.finalize (pre ++ junk ++ post) pre.length = .ok (st', pre ++ Rfc2104.hmac Fips.sha512 128 k m ++ post) :=
  ((((C29_hmac (sha2_hashes (core512_good compact) (by decide)) (show ok512 (128 + 64) by unfold ok512; decide) keyOk st x h).2 k m hx).2
    (by unfold ok512; simp only [sha2Ops]; rw [Nat.mod_eq_of_lt (by omega)]; omega) pre junk post hj).1 hs)

/-- A reachable state with a key longer than a block, on an instance used before: the hypotheses are met. -/
example : ∃ (st : Hmac (sha2Ops (core256 true))) (st' : Hmac (sha2Ops (core256 true))),
    Hmac.Run _ (Obj.Run (core256 true)) (fun _ => True) (fun n => decide (8 ≤ n)) st (some (List.replicate 100 5, [1, 2, 3])) ∧
      st.finalize (List.replicate 40 9) 3 = .ok (st', [9, 9, 9] ++ Rfc2104.hmac Fips.sha256 64 (List.replicate 100 5) [1, 2, 3] ++ [9, 9, 9, 9, 9]) := by
  have g := sha2_hashes (core256_good true) (by decide)
  obtain ⟨o, h0⟩ := (C36_sha256 true).1
  have r0 : Hmac.Run (sha2Ops (core256 true)) (Obj.Run (core256 true)) (fun _ => True) (fun n => decide (8 ≤ n)) (.fresh o) none := .new (.new h0)
  obtain ⟨s1, e1⟩ := (C29_hmac g trivial _ _ _ r0).1 (List.replicate 9 1) (by simp) trivial (by simp)
  have r1 := Hmac.Run.init r0 (by simp) trivial e1
  obtain ⟨s2, e2⟩ := ((C29_hmac g trivial _ _ _ r1).2 _ _ rfl).1 (Window.whole [7] (by decide))
  have r2 := Hmac.Run.update _ r1 e2
  obtain ⟨s3, e3⟩ := (C29_hmac g trivial _ _ _ r2).1 (List.replicate 100 5) (by simp) trivial (by simp)
  have r3 := Hmac.Run.init r2 (by simp) trivial e3
  obtain ⟨s4, e4⟩ := ((C29_hmac g trivial _ _ _ r3).2 _ _ rfl).1 ⟨[0, 1, 2, 3], 1, 3, by decide, by decide⟩
  have r4 := Hmac.Run.update _ r3 e4
  obtain ⟨s5, e5⟩ := C29_hmac_sha256 true _ s4 _ r4 _ _ rfl [9, 9, 9] (List.replicate 32 9) [9, 9, 9, 9, 9] (by simp) (by simp)
  exact ⟨s4, s5, r4, e5⟩

end Cex.Mac
