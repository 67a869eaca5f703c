import Verif.Drbg.HcgModel
import Verif.Drbg.HcgSpec
import Verif.IntTools.Props
import Verif.IntTools.Enc
import Verif.Keccak.ObjLemmas

/-! # HCG: one step at a time -/

namespace Cex.Drbg
open Cex Cex.Digest Cex.Mac Cex.IntTools Stream

/-- The generator as a state machine: a chain, of whose last block `left` bytes are not yet used, and the bytes and reseeds counted.
The chaining value is the content of the buffer: `wiped` says what becomes of it. -/
structure HEpoch extends Chain where
  left : Nat
  count : Nat
  m : Nat

namespace HEpoch
variable (H : List Byte → List Byte) (B : Nat)

/-- A new block, all of it unused. -/
def fill (g : HEpoch) : HEpoch := { g with toChain := g.toChain.step H B, left := B / 2 }

/-- `n` bytes from new blocks. -/
def blocks (g : HEpoch) (n : Nat) : List Byte × HEpoch :=
  if n = 0 then ([], g)
  else if n ≤ B / 2 ∨ B / 2 = 0 then ((g.fill H B).V.take n, { g.fill H B with left := B / 2 - n })
  else let r := blocks { g.fill H B with left := 0 } (n - B / 2); ((g.fill H B).V ++ r.1, r.2)
termination_by n

/-- The used part of a partly used block is overwritten with zeros. -/
def wiped (g : HEpoch) : HEpoch := if g.left = 0 then g else { g with V := List.replicate (B / 2 - g.left) 0 ++ g.V.drop (B / 2 - g.left) }

/-- `n` bytes: from the last block if they suffice, else its rest and new blocks. -/
def pull (g : HEpoch) (n : Nat) : List Byte × HEpoch :=
  if n ≤ g.left then ((g.V.drop (B / 2 - g.left)).take n, { g with left := g.left - n })
  else let r := blocks H B { g with left := 0 } (n - g.left); (g.V.drop (B / 2 - g.left) ++ r.1, r.2.wiped B)

/-- A new key from `x`. -/
def rekeyed (x : List Byte) (g : HEpoch) : HEpoch := { g with toChain := g.toChain.rekey H B x, left := B / 2 }

/-- After `Initialize`. -/
def first (key code iv : List Byte) : HEpoch := { toChain := .seed H B key code iv, left := 0, count := 0, m := 0 }

/-- After `Generate`. -/
def after (prov : Bool) (threshold : Nat) (g : HEpoch) (len : Nat) (ent : List Byte) : HEpoch :=
  let g1 := (g.pull H B len).2
  if prov = false then g1
  else if g.count + len < threshold then { g1 with count := g.count + len }
  else { g1.rekeyed H B ent with count := 0, m := g.m + 1 }

/-- After `Update`. -/
def updated (g : HEpoch) (key : List Byte) : HEpoch := { g.rekeyed H B (Rfc2104.hmac H B g.K key) with m := g.m + 1 }

end HEpoch

variable {D : DigestOps} {H : List Byte → List Byte} {ok : Nat → Prop} {Has : D.σ → List Byte → Prop}

/-- What is assumed of the digest: it hashes with `H` messages below 2^60 bytes, the block is twice the digest (SHA2-256, SHA2-512). -/
structure Two (D : DigestOps) (H : List Byte → List Byte) (ok : Nat → Prop) (Has : D.σ → List Byte → Prop) : Prop where
  g : D.Hashes H ok Has
  ok : ∀ n, n < 2 ^ 60 → ok n
  half : D.block = 2 * D.size
  pos : 0 < D.size
  small : D.block < 0xFF00
  big : 8 ≤ D.block

namespace Two

theorem div (t : Two D H ok Has) : D.block / 2 = D.size := by rw [t.half]; omega

end Two

namespace Hcg

theorem mac_update (g : D.Hashes H ok Has) {st : Hmac D} {k m : List Byte} (h : st.Inv H Has (some (k, m))) (x : List Byte) (hx : x.length < 2 ^ 64) :
    ∃ st', st.update x 0 x.length = .ok st' ∧ st'.Inv H Has (some (k, m ++ x)) := by
  obtain ⟨st', h1, h2⟩ := hmac_update_inv g h (Window.whole x hx)
  rw [Window.whole_bytes] at h2
  exact ⟨st', h1, h2⟩

theorem mac_final (t : Two D H ok Has) {st : Hmac D} {k m : List Byte} (h : st.Inv H Has (some (k, m))) (hm : m.length < 2 ^ 59) (pre junk post : List Byte) (hj : junk.length = D.size)
    (hs : (pre ++ junk ++ post).length < 2 ^ 64) :
    ∃ st', st.finalize (pre ++ junk ++ post) pre.length = .ok (st', pre ++ Rfc2104.hmac H D.block k m ++ post) ∧ st'.Inv H Has (some (k, [])) := by
  have := t.small
  have := t.half
  exact hmac_final_inv t.g h (t.ok _ (by omega)) (t.ok _ (by omega)) pre junk post hj hs

/-- The counter is increased by a small value. -/
theorem nonce_eq (c v : Nat) (hv : v < 0xFF00) : beIncrease8InPlace 4 (beEnc 8 c) (BitVec.ofNat 32 v) = .ok (beEnc 8 ((c + v) % 2 ^ 64)) := by
  obtain ⟨⟨c', e, hl, hi⟩, _⟩ := C03_inplace_partial 4 (w := 32) (by omega) (BitVec.ofNat 32 v) (beEnc 8 c)
  have hn : (BitVec.ofNat 32 v).toNat = v := by rw [BitVec.toNat_ofNat, Nat.mod_eq_of_lt (by omega)]
  rw [hn] at hi
  rw [beEnc_length] at hl hi
  have h2 := hi.mpr (C03_small hv)
  rw [beVal_beEnc, show (256 : Nat) ^ 8 = 2 ^ 64 from by decide, Nat.mod_add_mod] at h2
  rw [e, ← beEnc_beVal c', hl, h2]

/-- The object in epoch `g`. -/
structure In (H : List Byte → List Byte) (Has : D.σ → List Byte → Prop) (s : Hcg D) (g : HEpoch) : Prop where
  mac : s.mac.Inv H Has (some (g.K, []))
  buf : s.buf = g.V
  vlen : g.V.length = D.size
  code : s.code = g.code
  csmall : g.code.length < 0xFF00
  nonce : s.nonce = beEnc 8 g.c
  cached : s.cached = g.left
  left : g.left ≤ D.size

/-- What filling does not change. -/
structure Same (s s' : Hcg D) : Prop where
  counter : s'.counter = s.counter
  reseed : s'.reseed = s.reseed
  threshold : s'.threshold = s.threshold
  init : s'.init = s.init
  prov : s'.prov = s.prov
  name : s'.name = s.name

theorem Same.trans {a b c : Hcg D} (h1 : Same a b) (h2 : Same b c) : Same a c :=
  ⟨h2.1.trans h1.1, h2.2.trans h1.2, h2.3.trans h1.3, h2.4.trans h1.4, h2.5.trans h1.5, h2.6.trans h1.6⟩

theorem fill_in (t : Two D H ok Has) {s : Hcg D} {g : HEpoch} (h : s.In H Has g) : ∃ s', s.fill = .ok s' ∧ s'.In H Has (g.fill H D.block) ∧ Same s s' := by
  have hsm := t.small
  have hha := t.half
  have hcs := h.csmall
  obtain ⟨m1, e1, i1⟩ := mac_update t.g h.mac s.buf (by rw [h.buf, h.vlen]; omega)
  obtain ⟨m2, e2, i2⟩ := mac_update t.g i1 s.code (by rw [h.code]; omega)
  obtain ⟨m3, e3, i3⟩ := mac_update t.g i2 (beEnc 8 ((g.c + D.block) % 2 ^ 64)) (by rw [beEnc_length]; omega)
  have hml : (([] ++ s.buf ++ s.code ++ beEnc 8 ((g.c + D.block) % 2 ^ 64)) : List Byte).length < 2 ^ 59 := by
    rw [h.buf, h.code]; simp only [List.length_append, List.length_nil, beEnc_length, h.vlen]; omega
  have hbl : s.buf.length = D.size := by rw [h.buf, h.vlen]
  obtain ⟨m4, e4, i4⟩ := mac_final t i3 hml [] s.buf [] hbl (by rw [List.nil_append, List.append_nil, hbl]; omega)
  simp only [List.nil_append, List.append_nil, List.length_nil] at e4 i4
  have hlen := hmac_length t.g g.K (s.buf ++ s.code ++ beEnc 8 ((g.c + D.block) % 2 ^ 64))
  rw [fill, e1, ok_bind, e2, ok_bind, h.nonce, nonce_eq _ _ hsm, ok_bind, e3, ok_bind, e4, ok_bind]
  refine ⟨_, rfl, ⟨i4, ?_, ?_, h.code, h.csmall, rfl, ?_, ?_⟩, ⟨rfl, rfl, rfl, rfl, rfl, rfl⟩⟩
  · show Rfc2104.hmac H D.block g.K (s.buf ++ s.code ++ _) = Rfc2104.hmac H D.block g.K (g.V ++ g.code ++ _)
    rw [h.buf, h.code]
  · show (Rfc2104.hmac H D.block g.K (g.V ++ g.code ++ _)).length = D.size
    exact hmac_length t.g _ _
  · show (Rfc2104.hmac H D.block g.K _).length = D.block / 2
    rw [t.div]; exact hlen
  · show D.block / 2 ≤ D.size
    rw [t.div]

theorem rekey_in (t : Two D H ok Has) {s : Hcg D} {g : HEpoch} (h : s.In H Has g) (x z : List Byte) (hx : x.length = D.size) (hz : z.length = D.size) :
    ∃ s', s.rekey (x ++ z) = .ok s' ∧ s'.In H Has (g.rekeyed H D.block x) ∧ Same s s' := by
  have hsm := t.small
  have hha := t.half
  obtain ⟨s1, e1, i1, k1⟩ := fill_in t h
  have hbl : s1.buf.length = D.size := by rw [i1.buf, i1.vlen]
  obtain ⟨m2, e2, i2⟩ := mac_update t.g i1.mac s1.buf (by omega)
  obtain ⟨m3, e3, i3⟩ := mac_final t i2 (by rw [List.nil_append, hbl]; omega) x z [] hz (by simp only [List.length_append, List.length_nil]; omega)
  simp only [List.nil_append, List.append_nil] at e3 i3
  have hkl : (x ++ Rfc2104.hmac H D.block (g.fill H D.block).K s1.buf).length = D.block := by
    rw [List.length_append, hmac_length t.g]; omega
  obtain ⟨m4, e4, i4⟩ := hmac_init_inv t.g (keyOk := macKeyOk) (k := x ++ Rfc2104.hmac H D.block (g.fill H D.block).K s1.buf) i3 (by omega) (t.ok _ (by omega)) (by
    rw [hkl, macKeyOk]; exact decide_eq_true t.big)
  have i5 : In H Has { s1 with mac := m4 } { g.fill H D.block with K := x ++ Rfc2104.hmac H D.block (g.fill H D.block).K (g.fill H D.block).V } :=
    ⟨by rw [← i1.buf]; exact i4, i1.buf, i1.vlen, i1.code, i1.csmall, i1.nonce, i1.cached, i1.left⟩
  obtain ⟨s6, e6, i6, k6⟩ := fill_in t i5
  have hd : (x ++ z).length / 2 = x.length := by rw [List.length_append]; omega
  rw [rekey, e1, ok_bind, e2, ok_bind, hd, e3, ok_bind, e4, ok_bind, e6]
  exact ⟨s6, rfl, ⟨i6.mac, i6.buf, i6.vlen, i6.code, i6.csmall, i6.nonce, i6.cached, i6.left⟩, Same.trans (b := { s1 with mac := m4 }) ⟨k1.1, k1.2, k1.3, k1.4, k1.5, k1.6⟩ k6⟩

/-- The loop of `Expand`. -/
theorem fillLoop_in (t : Two D H ok Has) (k : Nat) : ∀ (len : Nat) (s : Hcg D) (g : HEpoch) (pre junk post : List Byte), s.In H Has g → g.left = 0 → junk.length = len → len ≤ k →
    ∃ s', fillLoop k s (pre ++ junk ++ post) pre.length len = .ok (s', pre ++ (g.blocks H D.block len).1 ++ post) ∧ s'.In H Has (g.blocks H D.block len).2 ∧ Same s s' := by
  have hdiv := t.div
  have hpos := t.pos
  induction k with
  | zero =>
    intro len s g pre junk post h hl hj hk
    have : len = 0 := by omega
    subst this
    have hj0 : junk = [] := List.eq_nil_of_length_eq_zero hj
    subst hj0
    rw [fillLoop, HEpoch.blocks, if_pos rfl]
    exact ⟨s, by simp, h, ⟨rfl, rfl, rfl, rfl, rfl, rfl⟩⟩
  | succ k ih =>
    intro len s g pre junk post h hl hj hk
    rcases len with _ | len
    · have hj0 : junk = [] := List.eq_nil_of_length_eq_zero hj
      subst hj0
      rw [fillLoop, HEpoch.blocks, if_pos rfl]
      exact ⟨s, by simp, h, ⟨rfl, rfl, rfl, rfl, rfl, rfl⟩⟩
    · obtain ⟨s1, e1, i1, k1⟩ := fill_in t h
      have hbl : s1.buf.length = D.size := by rw [i1.buf, i1.vlen]
      have hca : s1.cached = D.size := by rw [i1.cached, ← hdiv]; rfl
      rw [fillLoop, e1, ok_bind, HEpoch.blocks, if_neg (by omega)]
      simp only [hbl, hca]
      by_cases hle : len + 1 ≤ D.size
      · have hh : Holds s1.buf 0 ((g.fill H D.block).V.take (len + 1)) := by rw [← i1.buf]; exact Keccak.holds_take _ _
        have htl : ((g.fill H D.block).V.take (len + 1)).length = len + 1 := by rw [List.length_take, i1.vlen]; omega
        rw [if_pos (Or.inl (by omega)), show min D.size (len + 1) = len + 1 by omega, copy_at hh rfl htl.symm (by omega), ok_bind, Nat.sub_self, fillLoop]
        refine ⟨_, rfl, ⟨i1.mac, i1.buf, i1.vlen, i1.code, i1.csmall, i1.nonce, ?_, ?_⟩, ⟨k1.1, k1.2, k1.3, k1.4, k1.5, k1.6⟩⟩
        · show D.size - (len + 1) = D.block / 2 - (len + 1); omega
        · show D.block / 2 - (len + 1) ≤ D.size; omega
      · rw [if_neg (by omega), show min D.size (len + 1) = D.size by omega]
        obtain ⟨j1, j2, rfl, hj1⟩ : ∃ j1 j2, junk = j1 ++ j2 ∧ j1.length = D.size := ⟨junk.take D.size, junk.drop D.size, (List.take_append_drop _ _).symm, by rw [List.length_take]; omega⟩
        have hj2 : j2.length = len + 1 - D.size := by rw [List.length_append] at hj; omega
        have hc2 : copy s1.buf 0 (pre ++ (j1 ++ j2) ++ post) pre.length D.size = .ok (pre ++ (g.fill H D.block).V ++ j2 ++ post) := by
          rw [show pre ++ (j1 ++ j2) ++ post = pre ++ j1 ++ (j2 ++ post) from by simp, copy_at (Holds.self _) rfl hbl.symm (by rw [hbl, hj1]), i1.buf]
          simp
        rw [hc2, ok_bind, Nat.sub_self]
        have i2 : In H Has { s1 with cached := 0 } { g.fill H D.block with left := 0 } := ⟨i1.mac, i1.buf, i1.vlen, i1.code, i1.csmall, i1.nonce, rfl, Nat.zero_le _⟩
        obtain ⟨s', e, i', k'⟩ := ih (len + 1 - D.size) { s1 with cached := 0 } { g.fill H D.block with left := 0 } (pre ++ (g.fill H D.block).V) j2 post i2 rfl hj2 (by omega)
        rw [show (pre ++ (g.fill H D.block).V).length = pre.length + D.size from by rw [List.length_append, i1.vlen]] at e
        rw [e, hdiv]
        exact ⟨s', by simp, i', ⟨k1.1, k1.2, k1.3, k1.4, k1.5, k1.6⟩ |> fun (q : Same s { s1 with cached := 0 }) => q.trans k'⟩

/-- The unused rest of the last block never exceeds a block, and only a partly used block leaves a rest. -/
theorem blocks_left (B : Nat) (hB : 0 < B / 2) (n : Nat) : ∀ g : HEpoch, g.left = 0 → (g.blocks H B n).2.left < B / 2 := by
  induction n using Nat.strongRecOn with
  | ind n ih =>
    intro g hg
    rw [HEpoch.blocks]
    split
    · show g.left < _; omega
    · split
      · show B / 2 - n < B / 2; omega
      · exact ih _ (by omega) _ rfl

/-- `Expand` is `pull`. -/
theorem expand_in (t : Two D H ok Has) {s : Hcg D} {g : HEpoch} (h : s.In H Has g) (pre junk post : List Byte) :
    ∃ s', s.expand (pre ++ junk ++ post) pre.length junk.length = .ok (s', pre ++ (g.pull H D.block junk.length).1 ++ post) ∧ s'.In H Has (g.pull H D.block junk.length).2 ∧ Same s s' := by
  have hdiv := t.div
  have hpos := t.pos
  have hle := h.left
  have hbl : s.buf.length = D.size := by rw [h.buf, h.vlen]
  have hav : (g.V.drop (D.size - g.left)).length = g.left := by rw [List.length_drop, h.vlen]; omega
  have hh : Holds s.buf (D.size - g.left) (g.V.drop (D.size - g.left)) := by
    rw [h.buf]
    exact ⟨g.V.take (D.size - g.left), [], by simp, by rw [List.length_take, h.vlen]; omega⟩
  by_cases hc : g.left < junk.length
  · have hp : g.pull H D.block junk.length = (g.V.drop (D.size - g.left) ++ (HEpoch.blocks H D.block { g with left := 0 } (junk.length - g.left)).1, (HEpoch.blocks H D.block { g with left := 0 } (junk.length - g.left)).2.wiped D.block) := by
      rw [HEpoch.pull, if_neg (by omega), hdiv]
    rw [hp, expand, h.cached, if_pos hc]
    obtain ⟨j1, j2, rfl, hj1⟩ : ∃ j1 j2, junk = j1 ++ j2 ∧ j1.length = g.left := ⟨junk.take g.left, junk.drop g.left, (List.take_append_drop _ _).symm, by rw [List.length_take]; omega⟩
    have hcp : (if g.left ≠ 0 then copy s.buf (s.buf.length - g.left) (pre ++ (j1 ++ j2) ++ post) pre.length g.left else pure (pre ++ (j1 ++ j2) ++ post) : M (List Byte)) =
        .ok (pre ++ g.V.drop (D.size - g.left) ++ j2 ++ post) := by
      by_cases hz : g.left = 0
      · have : j1 = [] := List.eq_nil_of_length_eq_zero (by omega)
        rw [if_neg (by simpa using hz), this, hz, Nat.sub_zero, List.drop_of_length_le (by rw [h.vlen])]; simp
      · rw [if_pos hz, show pre ++ (j1 ++ j2) ++ post = pre ++ j1 ++ (j2 ++ post) from by simp, hbl, copy_at hh rfl hav.symm (by rw [hav, hj1])]; simp
    have hj2 : j2.length = (j1 ++ j2).length - g.left := by rw [List.length_append]; omega
    have i0 : In H Has { s with cached := 0 } { g with left := 0 } := ⟨h.mac, h.buf, h.vlen, h.code, h.csmall, h.nonce, rfl, Nat.zero_le _⟩
    obtain ⟨s', e, i', k'⟩ := fillLoop_in t ((j1 ++ j2).length - g.left) ((j1 ++ j2).length - g.left) _ _ (pre ++ g.V.drop (D.size - g.left)) j2 post i0 rfl hj2 (Nat.le_refl _)
    have hlt := blocks_left (H := H) D.block (by omega) ((j1 ++ j2).length - g.left) { g with left := 0 } rfl
    rw [show (pre ++ g.V.drop (D.size - g.left)).length = pre.length + g.left from by rw [List.length_append, hav]] at e
    rw [hcp, ok_bind, e, ok_bind]
    simp only []
    rw [i'.cached]
    generalize hg' : HEpoch.blocks H D.block { g with left := 0 } ((j1 ++ j2).length - g.left) = R at i' e hlt ⊢
    have hk : Same s s' := ⟨k'.1, k'.2, k'.3, k'.4, k'.5, k'.6⟩
    rw [HEpoch.wiped, hdiv]
    rw [hdiv] at hlt
    by_cases hz : R.2.left = 0
    · rw [if_neg (by simpa using hz), if_pos hz]
      exact ⟨s', by simp, i', hk⟩
    · rw [if_pos hz, if_neg hz]
      have hbl' : s'.buf.length = D.size := by rw [i'.buf, i'.vlen]
      have hcl : clear s'.buf 0 (s'.buf.length - R.2.left) = .ok (List.replicate (D.size - R.2.left) 0 ++ R.2.V.drop (D.size - R.2.left)) := by
        have hsp : s'.buf = [] ++ s'.buf.take (D.size - R.2.left) ++ s'.buf.drop (D.size - R.2.left) := by simp
        rw [hbl', clear, if_neg (by omega)]
        conv => lhs; rw [hsp]
        rw [blit_at (a := []) (s := List.replicate (D.size - R.2.left) 0) (off := 0) rfl (by rw [List.length_replicate, List.length_take]; omega), List.nil_append, i'.buf]
      rw [hcl, ok_bind]
      refine ⟨{ s' with buf := List.replicate (D.size - R.2.left) 0 ++ R.2.V.drop (D.size - R.2.left) }, by simp; exact i'.cached.symm, ⟨i'.mac, rfl, ?_, i'.code, i'.csmall, i'.nonce, i'.cached, i'.left⟩, ⟨hk.1, hk.2, hk.3, hk.4, hk.5, hk.6⟩⟩
      show (List.replicate (D.size - R.2.left) (0 : Byte) ++ R.2.V.drop (D.size - R.2.left)).length = D.size
      rw [List.length_append, List.length_replicate, List.length_drop, i'.vlen]; omega
  · have hp : g.pull H D.block junk.length = ((g.V.drop (D.size - g.left)).take junk.length, { g with left := g.left - junk.length }) := by
      rw [HEpoch.pull, if_pos (by omega), hdiv]
    rw [hp, expand, h.cached, if_neg hc, hbl, copy_at (hh.takeN junk.length) rfl (by rw [List.length_take]; omega) (by rw [List.length_take]; omega), ok_bind]
    refine ⟨_, rfl, ⟨h.mac, h.buf, h.vlen, h.code, h.csmall, h.nonce, rfl, ?_⟩, ⟨rfl, rfl, rfl, rfl, rfl, rfl⟩⟩
    show g.left - junk.length ≤ D.size; omega

end Hcg
end Cex.Drbg
