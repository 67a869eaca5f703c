import Verif.Keccak.ShakeProps
import Verif.Drbg.CsgModel

/-! # CSG: one step at a time -/

namespace Cex.Drbg
open Cex Cex.IntTools Stream Cex.Mac Cex.Keccak

variable {P : List Byte → M (List Byte)} {f : List Byte → List Byte} {r : Nat}

/-- What determines the coming output: the state `S` that holds all input, absorbed but not yet permuted, the bytes `n` returned since, the blocks `k` computed since,
the domain, and the bytes `c` returned and reseeds `m` made as counted for reseeding. -/
structure Epoch where
  S : List Byte
  n : Nat
  k : Nat
  dom : Byte
  c : Nat
  m : Nat

namespace Epoch

/-- The output of the epoch: the sponge is permuted, then squeezed. -/
def stream (f : List Byte → List Byte) (r : Nat) (S : List Byte) (n : Nat) : List Byte := Fips202.squeeze f r (f S) n

/-- The next `len` bytes. -/
def next (f : List Byte → List Byte) (r : Nat) (g : Epoch) (len : Nat) : List Byte := (stream f r g.S (g.n + len)).drop g.n

/-- After a request for `len` bytes. -/
def served (r : Nat) (g : Epoch) (len : Nat) : Epoch := { g with n := g.n + len, k := max g.k (blocks r (g.n + len)) }

/-- After further input: the padded input is absorbed into the current state, and one block is computed. -/
def fed (f : List Byte → List Byte) (r : Nat) (g : Epoch) (x : List Byte) : Epoch := { g with S := absorbed f r g.dom (Nat.repeat f g.k g.S) x, n := 0, k := 1 }

/-- `Initialize`: the input is the key after name and customization, as in SHAKE and cSHAKE. -/
def first (f : List Byte → List Byte) (r : Nat) (key iv info : List Byte) : Epoch := ⟨Shake.start f r key iv info, 0, 0, Shake.domain iv info, 0, 0⟩

/-- `Generate`: with a provider the bytes are counted, and the provider's bytes `ent` are absorbed when the threshold is reached. -/
def after (f : List Byte → List Byte) (r : Nat) (prov : Bool) (threshold : Nat) (g : Epoch) (len : Nat) (ent : List Byte) : Epoch :=
  if prov = false then g.served r len
  else if g.c + len < threshold then { g.served r len with c := g.c + len }
  else { (g.served r len).fed f r ent with c := 0, m := g.m + 1 }

/-- `Update`: the provider's bytes are absorbed first, if there is a provider. -/
def updated (f : List Byte → List Byte) (r : Nat) (prov : Bool) (g : Epoch) (key ent : List Byte) : Epoch :=
  { (if prov then g.fed f r ent else g).fed f r key with m := g.m + 1 }

end Epoch

namespace Csg

/-- What holds in every reachable state. -/
structure Shape (r : Nat) (s : Csg) : Prop where
  rate : s.rate = r
  len : s.st.length = 200
  blen : s.buf.length = r
  cle : s.cached ≤ r

/-- The object in epoch `g`. -/
structure In (f : List Byte → List Byte) (r : Nat) (s : Csg) (g : Epoch) : Prop extends Shape r s where
  glen : g.S.length = 200
  st : s.st = Nat.repeat f g.k g.S
  cnt : g.n + s.cached = g.k * r
  tail : s.buf.drop (r - s.cached) = (s.st.take r).drop (r - s.cached)

theorem blocks_add (h0 : 0 < r) (k x : Nat) : blocks r (k * r + x) = k + blocks r x := by
  rw [blocks, blocks, show k * r + x + r - 1 = x + r - 1 + r * k from by rw [Nat.mul_comm]; omega, Nat.add_mul_div_left _ _ h0]; omega

theorem blocks_le (h0 : 0 < r) {n k : Nat} (h : n ≤ k * r) : blocks r n ≤ k := by
  rw [blocks, Nat.div_le_iff_le_mul h0]; omega

/-- `Fill`. -/
theorem fill_eq (p : Perm P f) (hr : r ≤ 200) {s : Csg} (h : Shape r s) : s.fill P = .ok { s with st := f s.st, buf := (f s.st).take r, cached := r } := by
  have hl := p.len _ h.len
  have ht : ((f s.st).take r).length = r := by rw [List.length_take]; omega
  have hc : copy (f s.st) 0 s.buf 0 r = .ok ((f s.st).take r) := by
    have := copy_at (a := []) (b := s.buf) (c := []) (off := 0) (so := 0) (holds_take (f s.st) r) rfl ht.symm (by rw [ht, h.blen])
    simpa using this
  rw [fill, p.run _ h.len, ok_bind, h.rate, hc, ok_bind, ht]; rfl

/-- The loop of `Expand`. -/
theorem fillLoop_eq (p : Perm P f) (h0 : 0 < r) (hr : r ≤ 200) (k : Nat) : ∀ (len : Nat) (s : Csg) (pre junk post : List Byte), Shape r s → s.cached = 0 → junk.length = len → len ≤ k →
    ∃ s', fillLoop P k s (pre ++ junk ++ post) pre.length len = .ok (s', pre ++ Fips202.squeeze f r (f s.st) len ++ post) ∧
      s' = { s with st := Nat.repeat f (blocks r len) s.st, buf := s'.buf, cached := blocks r len * r - len } ∧ s'.buf.length = r ∧
      s'.buf.drop (r - s'.cached) = (s'.st.take r).drop (r - s'.cached) ∧ blocks r len * r - len < r := by
  induction k with
  | zero =>
    intro len s pre junk post h hc hj hk
    have : len = 0 := by omega
    subst this
    have hj0 : junk = [] := List.eq_nil_of_length_eq_zero hj
    subst hj0
    refine ⟨s, ?_, ?_, h.blen, ?_, ?_⟩
    · rw [fillLoop, squeeze_lt h0]; simp
    · rw [blocks_zero h0, Nat.zero_mul]; cases s; simp_all [Nat.repeat]
    · rw [hc, Nat.sub_zero, List.drop_of_length_le (by rw [h.blen]), List.drop_of_length_le (by rw [List.length_take]; omega)]
    · rw [blocks_zero h0, Nat.zero_mul]; omega
  | succ k ih =>
    intro len s pre junk post h hc hj hk
    rcases len with _ | len
    · have hj0 : junk = [] := List.eq_nil_of_length_eq_zero hj
      subst hj0
      refine ⟨s, ?_, ?_, h.blen, ?_, ?_⟩
      · rw [fillLoop, squeeze_lt h0]; simp
      · rw [blocks_zero h0, Nat.zero_mul]; cases s; simp_all [Nat.repeat]
      · rw [hc, Nat.sub_zero, List.drop_of_length_le (by rw [h.blen]), List.drop_of_length_le (by rw [List.length_take]; omega)]
      · rw [blocks_zero h0, Nat.zero_mul]; omega
    · have hl := p.len _ h.len
      have ht : ((f s.st).take r).length = r := by rw [List.length_take]; omega
      rw [fillLoop, fill_eq p hr h, ok_bind]
      simp only [ht]
      by_cases hlt : len + 1 < r
      · have hm : min r (len + 1) = len + 1 := by omega
        have hh : Holds ((f s.st).take r) 0 ((f s.st).take (len + 1)) := by
          have := holds_take ((f s.st).take r) (len + 1)
          rwa [List.take_take, Nat.min_eq_left (by omega)] at this
        rw [hm, copy_at hh rfl (by rw [List.length_take]; omega) (by rw [List.length_take]; omega), ok_bind, Nat.sub_self, fillLoop, squeeze_lt hlt]
        have hb : blocks r (len + 1) = 1 := blocks_lt hlt (by omega)
        refine ⟨_, rfl, ?_, ht, ?_, by rw [hb]; omega⟩
        · rw [hb]; simp [Nat.repeat]
        · rfl
      · have hm : min r (len + 1) = r := by omega
        obtain ⟨j1, j2, rfl, hj1⟩ : ∃ j1 j2, junk = j1 ++ j2 ∧ j1.length = r := ⟨junk.take r, junk.drop r, (List.take_append_drop _ _).symm, by rw [List.length_take]; omega⟩
        have hj2 : j2.length = len + 1 - r := by rw [List.length_append] at hj; omega
        have hc2 : copy ((f s.st).take r) 0 (pre ++ (j1 ++ j2) ++ post) pre.length r = .ok (pre ++ (f s.st).take r ++ j2 ++ post) := by
          rw [show pre ++ (j1 ++ j2) ++ post = pre ++ j1 ++ (j2 ++ post) from by simp, copy_at (Holds.self _) rfl ht.symm (by rw [ht, hj1])]
          simp
        rw [hm, hc2, ok_bind, Nat.sub_self]
        obtain ⟨s', e, hs', hb', ht', hlt'⟩ := ih (len + 1 - r) { s with st := f s.st, buf := (f s.st).take r, cached := 0 } (pre ++ (f s.st).take r) j2 post ⟨h.rate, hl, ht, by simp⟩ rfl hj2 (by omega)
        have hbk := blocks_ge h0 (show r ≤ len + 1 by omega)
        rw [List.length_append, ht] at e
        refine ⟨s', ?_, ?_, hb', ht', ?_⟩
        · rw [e, squeeze_ge h0 (show r ≤ len + 1 by omega)]; simp
        · rw [hs', hbk, repeat_shift, Nat.add_mul]
          simp only [Csg.mk.injEq, true_and, and_true]
          omega
        · rw [hbk, Nat.add_mul]; omega

/-- The bytes of the stream from the current block on. -/
theorem stream_drop (p : Perm P f) (h0 : 0 < r) (hr : r ≤ 200) {S : List Byte} (hS : S.length = 200) (k n : Nat) :
    (Epoch.stream f r S (k * r + n)).drop (k * r) = Fips202.squeeze f r (f (Nat.repeat f k S)) n := by
  rw [Epoch.stream, Shake.squeeze_drop p h0 hr n k _ (p.len _ hS), Shake.repeat_f (f := f)]

theorem next_len (p : Perm P f) (h0 : 0 < r) (hr : r ≤ 200) (g : Epoch) (hS : g.S.length = 200) (len : Nat) : (g.next f r len).length = len := by
  rw [Epoch.next, Epoch.stream, List.length_drop, squeeze_length p h0 hr _ _ (p.len _ hS)]; omega

theorem In.pred {s : Csg} {g : Epoch} (h : s.In f r g) (hz : s.cached ≠ 0) : ∃ j, g.k = j + 1 := by
  have hcnt := h.cnt
  rcases hk : g.k with _ | j
  · rw [hk, Nat.zero_mul] at hcnt; omega
  · exact ⟨j, rfl⟩

/-- `Expand` returns the next bytes of the epoch. -/
theorem expand_in (p : Perm P f) (h0 : 0 < r) (hr : r ≤ 200) {s : Csg} {g : Epoch} (h : s.In f r g) (pre junk post : List Byte) :
    ∃ s', s.expand P (pre ++ junk ++ post) pre.length junk.length = .ok (s', pre ++ g.next f r junk.length ++ post) ∧ s'.In f r (g.served r junk.length) ∧
      s' = { s with st := s'.st, buf := s'.buf, cached := s'.cached } := by
  have hcle := h.cle
  have hcnt := h.cnt
  have hrl := repeat_len p g.k h.glen
  have htl : (s.st.take r).length = r := by rw [List.length_take, h.len]; omega
  have hav : ((s.st.take r).drop (r - s.cached)).length = s.cached := by rw [List.length_drop, htl]; omega
  by_cases hc : s.cached < junk.length
  · -- the output is the rest of the block and new blocks
    have hout : g.next f r junk.length = (s.st.take r).drop (r - s.cached) ++ Fips202.squeeze f r (f s.st) (junk.length - s.cached) := by
      rw [Epoch.next]
      by_cases hz : s.cached = 0
      · rw [show g.n = g.k * r from by omega, stream_drop p h0 hr h.glen, ← h.st, hz, Nat.sub_zero, List.drop_of_length_le (by omega), List.nil_append, Nat.sub_zero]
      · obtain ⟨j, hj⟩ := h.pred hz
        have hst : f (Nat.repeat f j g.S) = s.st := by rw [h.st, hj]; rfl
        rw [hj, Nat.add_mul] at hcnt
        rw [show g.n = j * r + (r - s.cached) from by omega, ← List.drop_drop, show j * r + (r - s.cached) + junk.length = j * r + (r - s.cached + junk.length) from by omega,
          stream_drop p h0 hr h.glen, hst, squeeze_ge h0 (by omega), List.drop_append_of_le_length (by omega)]
        congr 2; omega
    obtain ⟨j1, j2, rfl, hj1⟩ : ∃ j1 j2, junk = j1 ++ j2 ∧ j1.length = s.cached := ⟨junk.take s.cached, junk.drop s.cached, (List.take_append_drop _ _).symm, by rw [List.length_take]; omega⟩
    have hcp : (if s.cached ≠ 0 then copy s.buf (s.buf.length - s.cached) (pre ++ (j1 ++ j2) ++ post) pre.length s.cached else pure (pre ++ (j1 ++ j2) ++ post) : M (List Byte)) =
        .ok (pre ++ (s.st.take r).drop (r - s.cached) ++ j2 ++ post) := by
      by_cases hz : s.cached = 0
      · have : j1 = [] := List.eq_nil_of_length_eq_zero (by omega)
        rw [if_neg (by simpa using hz), this, hz, Nat.sub_zero, List.drop_of_length_le (by omega)]; simp
      · rw [if_pos hz, show pre ++ (j1 ++ j2) ++ post = pre ++ j1 ++ (j2 ++ post) from by simp, h.blen]
        have hh : Holds s.buf (r - s.cached) ((s.st.take r).drop (r - s.cached)) := by
          rw [← h.tail]
          exact ⟨s.buf.take (r - s.cached), [], by simp, by rw [List.length_take, h.blen]; omega⟩
        rw [copy_at hh rfl hav.symm (by rw [hav, hj1])]; simp
    have hj2 : j2.length = (j1 ++ j2).length - s.cached := by rw [List.length_append]; omega
    obtain ⟨s', e, hs', hb', ht', hlt'⟩ := fillLoop_eq p h0 hr ((j1 ++ j2).length - s.cached) ((j1 ++ j2).length - s.cached) { s with cached := 0 } (pre ++ (s.st.take r).drop (r - s.cached)) j2 post
      ⟨h.rate, h.len, h.blen, by simp⟩ rfl hj2 (Nat.le_refl _)
    rw [show (pre ++ (s.st.take r).drop (r - s.cached)).length = pre.length + s.cached from by rw [List.length_append, hav]] at e
    rw [expand, if_pos hc, hcp, ok_bind, e, ok_bind]
    have hst' : s'.st = Nat.repeat f (blocks r ((j1 ++ j2).length - s.cached)) s.st := by rw [hs']
    have hca' : s'.cached = blocks r ((j1 ++ j2).length - s.cached) * r - ((j1 ++ j2).length - s.cached) := by rw [hs']
    have hra' : s'.rate = r := by rw [hs']; exact h.rate
    have hnk : g.n + (j1 ++ j2).length = g.k * r + ((j1 ++ j2).length - s.cached) := by omega
    have hbe : blocks r (g.n + (j1 ++ j2).length) = g.k + blocks r ((j1 ++ j2).length - s.cached) := by rw [hnk, blocks_add h0]
    have hle : (j1 ++ j2).length - s.cached ≤ blocks r ((j1 ++ j2).length - s.cached) * r := by
      rw [blocks]
      have := Nat.div_add_mod ((j1 ++ j2).length - s.cached + r - 1) r
      have h2 := Nat.mod_lt ((j1 ++ j2).length - s.cached + r - 1) h0
      rw [Nat.mul_comm]; omega
    have hS : ∀ b : List Byte, b.length = r → b.drop (r - s'.cached) = s'.buf.drop (r - s'.cached) → In f r { s' with buf := b } (g.served r (j1 ++ j2).length) := by
      intro b hb hbt
      refine ⟨⟨hra', ?_, hb, ?_⟩, h.glen, ?_, ?_, ?_⟩
      · show s'.st.length = 200
        rw [hst']; exact repeat_len p _ h.len
      · show s'.cached ≤ r; omega
      · show s'.st = _
        rw [hst', h.st, Shake.repeat_add, Epoch.served, hbe, Nat.max_eq_right (by omega)]
      · show g.n + (j1 ++ j2).length + s'.cached = max g.k _ * r
        rw [hbe, Nat.max_eq_right (by omega), hca', Nat.add_mul]; omega
      · exact hbt.trans ht'
    rw [hout]
    by_cases hz : s'.cached = 0
    · simp only [hz, ne_eq, not_true, if_false]
      refine ⟨s', by simp, hS s'.buf hb' rfl, ?_⟩
      rw [hs']
    · simp only [ne_eq, hz, not_false_iff, if_true]
      have hcl : clear s'.buf 0 (s'.buf.length - s'.cached) = .ok (List.replicate (r - s'.cached) 0 ++ s'.buf.drop (r - s'.cached)) := by
        have hsp : s'.buf = [] ++ s'.buf.take (r - s'.cached) ++ s'.buf.drop (r - s'.cached) := by simp
        rw [hb', clear]
        split
        · rename_i h0; rw [h0]; simp
        · conv => lhs; rw [hsp]
          rw [blit_at (a := []) (s := List.replicate (r - s'.cached) 0) (off := 0) rfl (by rw [List.length_replicate, List.length_take]; omega), List.nil_append]
      rw [hcl, ok_bind]
      refine ⟨_, by simp; rfl, hS _ ?_ ?_, ?_⟩
      · rw [List.length_append, List.length_replicate, List.length_drop]; omega
      · rw [List.drop_append_of_le_length (by rw [List.length_replicate]), List.drop_of_length_le (by rw [List.length_replicate]), List.nil_append]
      · simp only []; rw [hs']
  · have hc' : junk.length ≤ s.cached := by omega
    have hout : g.next f r junk.length = ((s.st.take r).drop (r - s.cached)).take junk.length := by
      by_cases hz : s.cached = 0
      · have hj0 : junk.length = 0 := by omega
        rw [List.eq_nil_of_length_eq_zero (by rw [next_len p h0 hr g h.glen, hj0] : (g.next f r junk.length).length = 0), hj0, List.take_zero]
      · obtain ⟨j, hj⟩ := h.pred hz
        have hst : f (Nat.repeat f j g.S) = s.st := by rw [h.st, hj]; rfl
        rw [hj, Nat.add_mul] at hcnt
        rw [Epoch.next, show g.n = j * r + (r - s.cached) from by omega, ← List.drop_drop, show j * r + (r - s.cached) + junk.length = j * r + (r - s.cached + junk.length) from by omega,
          stream_drop p h0 hr h.glen, hst, Fips202.squeeze, if_neg (by omega), List.drop_take, List.drop_take, List.take_take]
        congr 1; omega
    have hh : Holds s.buf (r - s.cached) (((s.st.take r).drop (r - s.cached)).take junk.length) := by
      rw [← h.tail]
      exact Holds.takeN _ ⟨s.buf.take (r - s.cached), [], by simp, by rw [List.length_take, h.blen]; omega⟩
    rw [expand, if_neg hc, h.blen, copy_at hh rfl (by rw [List.length_take]; omega) (by rw [List.length_take]; omega), ok_bind, hout]
    refine ⟨_, rfl, ⟨⟨h.rate, h.len, h.blen, ?_⟩, h.glen, ?_, ?_, ?_⟩, rfl⟩
    · show s.cached - junk.length ≤ r; omega
    · rw [Epoch.served, Nat.max_eq_left (blocks_le h0 (by omega))]; exact h.st
    · show g.n + junk.length + (s.cached - junk.length) = max g.k _ * r
      rw [Nat.max_eq_left (blocks_le h0 (by omega))]; omega
    · show s.buf.drop (r - (s.cached - junk.length)) = (s.st.take r).drop (r - (s.cached - junk.length))
      rw [show r - (s.cached - junk.length) = (r - s.cached) + junk.length from by omega, ← List.drop_drop, h.tail, List.drop_drop]

/-- What `Expand` keeps. -/
structure Same (s s' : Csg) : Prop where
  counter : s'.counter = s.counter
  reseed : s'.reseed = s.reseed
  threshold : s'.threshold = s.threshold
  dom : s'.dom = s.dom
  init : s'.init = s.init
  prov : s'.prov = s.prov

/-- `Absorb` and `Fill`. -/
theorem absorbKey_eq (p : Perm P f) (h0 : 0 < r) (hr : r ≤ 200) {s : Csg} (h : Shape r s) (x : List Byte) : s.absorbKey P x = .ok { s with st := absorbed f r s.dom s.st x } := by
  rw [absorbKey, h.rate, absorb_eq p h0 hr s.dom (Holds.self x) rfl h.len, ok_bind]; rfl

theorem derive_eq (p : Perm P f) (h0 : 0 < r) (hr : r ≤ 200) {s : Csg} (h : Shape r s) (x : List Byte) :
    s.derive P x = .ok { s with st := f (absorbed f r s.dom s.st x), buf := (f (absorbed f r s.dom s.st x)).take r, cached := r } := by
  have hs : Shape r { s with st := absorbed f r s.dom s.st x } := ⟨h.rate, absorbed_length p h0 hr h.len, h.blen, h.cle⟩
  rw [derive, absorbKey_eq p h0 hr h, ok_bind, fill_eq p hr hs]

theorem derive_shape (p : Perm P f) (h0 : 0 < r) (hr : r ≤ 200) {s : Csg} (h : Shape r s) (x : List Byte) :
    Shape r { s with st := f (absorbed f r s.dom s.st x), buf := (f (absorbed f r s.dom s.st x)).take r, cached := r } := by
  have hl := p.len _ (absorbed_length p h0 hr h.len (dom := s.dom) (m := x))
  exact ⟨h.rate, hl, by rw [List.length_take]; omega, Nat.le_refl _⟩

theorem derive_in (p : Perm P f) (h0 : 0 < r) (hr : r ≤ 200) {s : Csg} {g : Epoch} (h : s.In f r g) (hd : s.dom = g.dom) (x : List Byte) :
    In f r { s with st := f (absorbed f r s.dom s.st x), buf := (f (absorbed f r s.dom s.st x)).take r, cached := r } (g.fed f r x) := by
  refine ⟨derive_shape p h0 hr h.toShape x, ?_, ?_, ?_, ?_⟩
  · exact absorbed_length p h0 hr (repeat_len p _ h.glen)
  · show f (absorbed f r s.dom s.st x) = f (absorbed f r g.dom (Nat.repeat f g.k g.S) x)
    rw [hd, h.st]
  · show 0 + r = 1 * r; omega
  · rfl

end Csg
end Cex.Drbg
