import Verif.Keccak.IncLemmas
import Verif.Keccak.KmacProps

/-! # C38 The Keccak sponge functions -/

namespace Cex.Keccak
open Cex Cex.IntTools Stream Cex.Mac

variable {P : List Byte → M (List Byte)} {f : List Byte → List Byte} {r : Nat}

/-! ## One-shot absorption -/

/-- `Absorb` followed by the permutation is the absorption of the padded message, for any message, rate and starting state. -/
theorem C38_absorb (p : Perm P f) (h0 : 0 < r) (hr : r ≤ 200) (dom : Byte) (x : Window) (st : List Byte) (h : st.length = 200) :
    (do let s ← absorb P x.buf x.off x.len r dom st; P s) = .ok (Fips202.absorb f r st (x.bytes ++ Fips202.pad r dom x.len)) := by
  rw [absorb_eq p h0 hr dom x.holds x.bytes_length.symm h, ok_bind, p.run _ (absorbed_length p h0 hr h), f_absorbed (f := f) h0, x.bytes_length]

theorem zeros200 : (List.replicate 200 (0 : Byte)).length = 200 := List.length_replicate

/-- `Compute` (SHA3). -/
theorem C38_compute (p : Perm P f) (hr : r ≤ 200) (hd : (200 - r) / 2 ≤ r) (x : Window) (pre junk post : List Byte)
    (hj : junk.length = (200 - r) / 2) :
    compute P x.buf x.off x.len (pre ++ junk ++ post) pre.length r = .ok (pre ++ Fips202.sponge f r 0x06 x.bytes ((200 - r) / 2) ++ post) := by
  have h0 : 0 < r := by omega
  have hl := absorbed_length p h0 hr (dom := 0x06) (m := x.bytes) zeros200
  have hl2 := p.len _ hl
  have ht : ((f (absorbed f r 0x06 (List.replicate 200 0) x.bytes)).take ((200 - r) / 2)).length = (200 - r) / 2 := by rw [List.length_take]; omega
  rw [compute, absorb_eq p h0 hr 0x06 x.holds x.bytes_length.symm zeros200, ok_bind, p.run _ hl, ok_bind,
    copy_at (holds_take _ _) rfl ht.symm (by rw [ht, hj]), f_absorbed (f := f) h0, Fips202.sponge, Fips202.squeeze, if_neg (by omega)]

/-- The message block of `XOFP1600` is that of `Absorb`. -/
theorem xofBlock_eq (h0 : 0 < r) (hr : r ≤ 198) {inp rest : List Byte} {io : Nat} (hh : Holds inp io rest) (l : Nat) (hl : rest.length = l % r) :
    xofBlock inp io (l % r) r = .ok (rest ++ Fips202.pad r 0x1F l ++ List.replicate (200 - r) 0) := by
  have hm := Nat.mod_lt l h0
  have w := writePad (r := r) (l := l) 0x1F rest (List.replicate (200 - r) 0) hl h0 (by rw [List.length_replicate]; omega)
  have e : List.replicate 200 (0 : Byte) = [] ++ List.replicate rest.length 0 ++ (0 :: List.replicate (199 - rest.length) 0) := by
    rw [← List.replicate_succ, List.nil_append, List.replicate_append_replicate]; congr 1; omega
  have e3 : rest ++ List.replicate (200 - rest.length - (List.replicate (200 - r) (0 : Byte)).length) 0 ++ List.replicate (200 - r) (0 : Byte) = rest ++ 0 :: List.replicate (199 - rest.length) 0 := by
    rw [← List.replicate_succ, List.append_assoc, List.replicate_append_replicate, List.length_replicate]; congr 2; omega
  have hc : clear (rest ++ 0x1F :: List.replicate (199 - rest.length) 0) (rest.length + 1) (r - rest.length + 1) = .ok (rest ++ 0x1F :: List.replicate (199 - rest.length) 0) := by
    have e2 : rest ++ 0x1F :: List.replicate (199 - rest.length) (0 : Byte) = (rest ++ [0x1F]) ++ List.replicate (r - rest.length + 1) 0 ++ List.replicate (198 - r) 0 := by
      rw [List.append_assoc, List.replicate_append_replicate]; simp only [List.append_assoc, List.singleton_append]; congr 3; omega
    rw [clear, if_neg (by omega)]
    conv => lhs; rw [e2]
    rw [blit_at (by simp) rfl, ← e2]
  rw [e3, wr_at _ _ _ _ _ rfl, ok_bind] at w
  rw [xofBlock, e, ← hl, copy_at (a := []) (off := 0) hh rfl rfl List.length_replicate, ok_bind, List.nil_append, wr_at _ _ _ _ _ rfl, ok_bind, hc, ok_bind]
  exact w

theorem squeeze_len (p : Perm P f) : ∀ (n : Nat) (st out : List Byte) (oo : Nat) (R : List Byte × List Byte), squeeze P r n st out oo = .ok R → st.length = 200 → R.1.length = 200
  | 0, st, out, oo, R, h, hs => by cases h; exact hs
  | n + 1, st, out, oo, R, h, hs => by
    rw [squeeze, p.run _ hs, ok_bind] at h
    obtain ⟨o, _, h⟩ := bind_ok h
    exact squeeze_len p n _ _ _ R h (p.len _ hs)

/-- The output phase of `XOFP1600` gives what `expand` gives. -/
theorem xofOut_eq (p : Perm P f) (h8 : r % 8 = 0) (h0 : 0 < r) (hr : r ≤ 200) {st out msg : List Byte} {oo n : Nat} {R : List Byte × List Byte} (hs : st.length = 200) (hm : msg.length = 200)
    (h : expand P r st out oo n = .ok R) :
    (do let q ← squeeze P r (n / r) st out oo
        if n % r = 0 then return q.2
        else do
          let st ← P q.1
          let msg ← copy st 0 msg 0 (wordUp (n % r))
          copy msg 0 q.2 (oo + r * (n / r)) (n % r) : M (List Byte)) = .ok R.2 := by
  rw [expand] at h
  obtain ⟨Q, h1, h⟩ := bind_ok h
  have hQ := squeeze_len p _ _ _ _ _ h1 hs
  rw [h1, ok_bind]
  by_cases hz : n % r = 0
  · rw [if_pos hz] at h ⊢; cases h; rfl
  · rw [if_neg hz] at h ⊢
    rw [p.run _ hQ, ok_bind] at h ⊢
    obtain ⟨o, h2, h⟩ := bind_ok h
    cases h
    have hn := Nat.mod_lt n h0
    have hw := wordUp_le (Nat.le_of_lt hn) h8
    have hw2 := le_wordUp (n % r)
    have hl := p.len _ hQ
    have ht : ((f Q.1).take (wordUp (n % r))).length = wordUp (n % r) := by rw [List.length_take]; omega
    have e : msg = [] ++ msg.take (wordUp (n % r)) ++ msg.drop (wordUp (n % r)) := by simp
    have hc : copy (f Q.1) 0 msg 0 (wordUp (n % r)) = .ok ((f Q.1).take (wordUp (n % r)) ++ msg.drop (wordUp (n % r))) := by
      conv => lhs; rw [e]
      rw [copy_at (a := []) (off := 0) (holds_take _ _) rfl ht.symm (by rw [ht, List.length_take]; omega), List.nil_append]
    rw [hc, ok_bind]
    have hs1 : slice (f Q.1) 0 (n % r) = .ok ((f Q.1).take (n % r)) := slice_holds (holds_take _ _) (by rw [List.length_take]; omega)
    have hs2 : slice ((f Q.1).take (wordUp (n % r)) ++ msg.drop (wordUp (n % r))) 0 (n % r) = .ok ((f Q.1).take (n % r)) := by
      refine slice_holds ⟨[], ((f Q.1).take (wordUp (n % r))).drop (n % r) ++ msg.drop (wordUp (n % r)), ?_, rfl⟩ (by rw [List.length_take]; omega)
      have : (f Q.1).take (n % r) = ((f Q.1).take (wordUp (n % r))).take (n % r) := by rw [List.take_take, Nat.min_eq_left hw2]
      rw [this, List.nil_append, ← List.append_assoc, List.take_append_drop]
    rw [copy, hs1] at h2
    rw [copy, hs2]
    exact h2

/-- `XOFP1600` is SHAKE, for any input, output length and place in the output. -/
theorem C38_xof (p : Perm P f) (h0 : 0 < r) (hr : r ≤ 192) (h8 : r % 8 = 0) (x : Window) (pre junk post : List Byte) :
    xof P x.buf x.off x.len (pre ++ junk ++ post) pre.length junk.length r = .ok (pre ++ Fips202.shake f r x.bytes junk.length ++ post) := by
  have hr2 : r ≤ 200 := by omega
  have hS := eager_length p hr2 (List.replicate 200 0) x.bytes zeros200
  have hm := Nat.mod_lt x.bytes.length h0
  have hrest := eager_rest_mod (step := Fips202.block f) h0 (List.replicate 200 0) x.bytes
  have hh : Holds x.buf (x.off + r * (x.bytes.length / r)) (eager r (Fips202.block f) (List.replicate 200 0) x.bytes).2 := by
    rw [eager_rest h0]; exact x.holds.dropN (by have := Nat.div_add_mod x.bytes.length r; omega)
  have hblk := xofBlock_eq h0 (by omega) hh x.bytes.length hrest
  have hab := f_absorbed (f := f) h0 0x1F (List.replicate 200 0) x.bytes
  have hal := absorbed_length p h0 hr2 (dom := 0x1F) (m := x.bytes) zeros200
  have hlb := lastBlock_length (f := f) h0 0x1F (List.replicate 200 0) x.bytes
  have hfa := fastAbsorb_eq (inp := (eager r (Fips202.block f) (List.replicate 200 0) x.bytes).2 ++ Fips202.pad r 0x1F x.bytes.length ++ List.replicate (200 - r) 0)
    (b := (eager r (Fips202.block f) (List.replicate 200 0) x.bytes).2 ++ Fips202.pad r 0x1F x.bytes.length) (io := 0) (n := r) ⟨[], _, rfl, rfl⟩ hlb.symm hS (by omega)
  rw [fastAbsorb, hlb] at hfa
  rw [absorbed] at hab hal
  have he := expand_eq p h0 hr2 junk.length _ pre junk post hal rfl
  have ho := xofOut_eq (msg := (eager r (Fips202.block f) (List.replicate 200 0) x.bytes).2 ++ Fips202.pad r 0x1F x.bytes.length ++ List.replicate (200 - r) 0) p h8 h0 hr2 hal
    (by rw [List.length_append, hlb, List.length_replicate]; omega) he
  rw [xof, show x.len = x.bytes.length from x.bytes_length.symm, absorbLoop_eq p h0 hr2 x.buf _ x.off x.bytes _ x.holds rfl zeros200, ok_bind, hblk, ok_bind, hfa, ok_bind, ho,
    hab]
  rfl

/-- `CXOFP1600` is cSHAKE (with name or customization not empty), if the encoded customization length fits. -/
theorem C38_cxof_partial (p : Perm P f) (hr : r < 200) (h20 : 20 ≤ r) (h8 : r % 8 = 0) (key cust name : List Byte) (hc : 8 * cust.length < 2 ^ 64) (hn : 8 * name.length < 2 ^ 64)
    (hne : ¬ (name = [] ∧ cust = [])) (hfit : nameEnd r name.length + (Sp800185.leftEncode (8 * cust.length)).length ≤ r) (pre junk post : List Byte) :
    cxof P key cust name (pre ++ junk ++ post) pre.length junk.length r = .ok (pre ++ Sp800185.cshake f r key junk.length name cust ++ post) := by
  have h0 : 0 < r := by omega
  have hr2 : r ≤ 200 := by omega
  have hB := bytepad_mod h0 (Sp800185.encodeString name ++ Sp800185.encodeString cust)
  have hl := absorb_len (m := Sp800185.bytepad (Sp800185.encodeString name ++ Sp800185.encodeString cust) r) p hr2 zeros200
  have hpad : Fips202.pad r 0x04 (Sp800185.bytepad (Sp800185.encodeString name ++ Sp800185.encodeString cust) r ++ key).length = Fips202.pad r 0x04 key.length := by
    rw [Fips202.pad, Fips202.pad, List.length_append, Nat.add_mod, hB, Nat.zero_add, Nat.mod_mod]
  rw [cxof, customize_eq p hr h20 h8 zeros200 cust name hc hn hfit, ok_bind, absorb_eq p h0 hr2 0x04 (Holds.self key) rfl hl, ok_bind,
    expand_eq p h0 hr2 _ _ pre junk post (absorbed_length p h0 hr2 hl) rfl, ok_bind, f_absorbed (f := f) h0, Sp800185.cshake, if_neg hne, Fips202.sponge, hpad,
    List.append_assoc (Sp800185.bytepad _ _), absorb_append h0 _ _ _ hB]
  rfl

/-- The condition in the last theorem holds for customizations below 8 KB when the name is empty or short, as in all calls in the library. -/
theorem C38_fit_short (h20 : 20 ≤ r) (hr : r < 200) (n c : Nat) (hn : n ≤ 7) (hc : 8 * c < 2 ^ 64) : nameEnd r n + (Sp800185.leftEncode (8 * c)).length ≤ r := by
  have h1 : Sp800185.byteLen r = 1 := by rw [Sp800185.byteLen, if_pos (by omega)]
  have h2 : Sp800185.byteLen (8 * c) ≤ 8 := byteLen_le (by omega) (by decide)
  have h3 : Sp800185.byteLen (8 * n) = 1 := by rw [Sp800185.byteLen, if_pos (by omega)]
  rw [nameEnd, leftEncode_length, leftEncode_length, leftEncode_length, h1, h3, Nat.mod_eq_of_lt (by omega)]
  omega

/-! ## Incremental absorption -/

/-- `Incs P r dom s m st pos`: starting from the state `s` at position 0, a sequence of calls of `Incremental` (each at the position returned by the one before) absorbed `m` and returned
state `st` and position `pos`; no call both completed a word begun before and left an incomplete word. -/
inductive Incs (P : List Byte → M (List Byte)) (r : Nat) (s : List Byte) : List Byte → List Byte → Nat → Prop
  | start : Incs P r s [] s 0
  | call {m st pos st' pos'} (x : Window) (dom : Byte) : Incs P r s m st pos → Inc.Clean pos x.len → incremental P x.buf x.off x.len pos r dom st false = .ok (st', pos') →
      Incs P r s (m ++ x.bytes) st' pos'

theorem Incs.has (p : Perm P f) (h0 : 0 < r) (hr : r ≤ 192) (h8 : r % 8 = 0) {s m st : List Byte} {pos : Nat} (hs : s.length = 200) (h : Incs P r s m st pos) : Inc.Has f r s m st pos := by
  induction h with
  | start =>
    have : eager r (Fips202.block f) s [] = (s, []) := eager_short (by simpa using h0)
    exact ⟨by rw [this, part_nil hs], by rw [this]; rfl⟩
  | call x dom _ hc e ih =>
    obtain ⟨st1, pos1, h1, h2⟩ := incremental_has p h0 hr h8 hs ih x.holds (by rw [x.bytes_length]; exact hc) dom
    rw [x.bytes_length, e] at h1
    cases h1
    exact h2

/-- Under that condition any split works: every call succeeds, the position is the message length modulo the rate, and a last call with `Final`, followed by the permutation, gives the
state after absorbing the padded message. Without the condition this is false (`C38_incremental_false`). -/
theorem C38_incremental_partial (p : Perm P f) (h0 : 0 < r) (hr : r ≤ 192) (h8 : r % 8 = 0) (s m st : List Byte) (pos : Nat) (hs : s.length = 200) (h : Incs P r s m st pos) (x : Window)
    (hc : Inc.Clean pos x.len) (dom : Byte) (hd : dom &&& 0x80 = 0) :
    pos = m.length % r ∧ (∃ st' pos', incremental P x.buf x.off x.len pos r dom st false = .ok (st', pos')) ∧
    (do let q ← incremental P x.buf x.off x.len pos r dom st true; P q.1) = .ok (Fips202.absorb f r s (m ++ x.bytes ++ Fips202.pad r dom (m ++ x.bytes).length)) := by
  have i := h.has p h0 hr h8 hs
  obtain ⟨st1, pos1, h1, h2⟩ := incremental_has p h0 hr h8 hs i x.holds (by rw [x.bytes_length]; exact hc) dom
  rw [x.bytes_length] at h1
  refine ⟨by rw [i.pos, eager_rest_mod h0], ⟨st1, pos1, h1⟩, ?_⟩
  have hS := eager_length p (show r ≤ 200 by omega) s (m ++ x.bytes) hs
  have hf := incFinal_eq h0 (by omega) h8 hS (eager_rest_mod (step := Fips202.block f) h0 s (m ++ x.bytes)) dom hd
  rw [← h2.st, ← h2.pos] at hf
  have hlb := lastBlock_length (f := f) h0 dom s (m ++ x.bytes)
  have e : incremental P x.buf x.off x.len pos r dom st true = .ok (part (eager r (Fips202.block f) s (m ++ x.bytes)).1 ((eager r (Fips202.block f) s (m ++ x.bytes)).2 ++
      Fips202.pad r dom (m ++ x.bytes).length), pos1) := by
    rw [incremental] at h1 ⊢
    obtain ⟨q1, e1, h1⟩ := bind_ok h1
    obtain ⟨q2, e2, h1⟩ := bind_ok h1
    obtain ⟨q3, e3, h1⟩ := bind_ok h1
    obtain ⟨q4, e4, h1⟩ := bind_ok h1
    rw [if_neg (by simp)] at h1
    cases h1
    rw [e1, ok_bind, e2, ok_bind, e3, ok_bind, e4, ok_bind, if_pos rfl]
    simp only []
    rw [hf, ok_bind]
    rfl
  rw [e, ok_bind, p.run _ (part_length hS (by omega)), Fips202.absorb, eager_append s (m ++ x.bytes), eager_one h0 hlb]
  rfl

/-- Dilithium's use: two calls, the first with a multiple of 8 bytes. -/
theorem C38_incremental_two (p : Perm P f) (h0 : 0 < r) (hr : r ≤ 192) (h8 : r % 8 = 0) (s : List Byte) (hs : s.length = 200) (x y : Window) (h : x.len % 8 = 0) (dom : Byte)
    (hd : dom &&& 0x80 = 0) (d2 : Byte) :
    (do let a ← incremental P x.buf x.off x.len 0 r d2 s false
        let b ← incremental P y.buf y.off y.len a.2 r dom a.1 true
        P b.1) = .ok (Fips202.absorb f r s (x.bytes ++ y.bytes ++ Fips202.pad r dom (x.len + y.len))) := by
  obtain ⟨st1, pos1, h1, _⟩ := incremental_has p h0 hr h8 hs ((Incs.start (P := P) (r := r) (s := s)).has p h0 hr h8 hs) x.holds (Or.inl rfl) d2
  rw [x.bytes_length] at h1
  have h2 : Incs P r s ([] ++ x.bytes) st1 pos1 := .call x d2 .start (Or.inl rfl) h1
  rw [List.nil_append] at h2
  have hp : pos1 = x.bytes.length % r := by rw [(h2.has p h0 hr h8 hs).pos, eager_rest_mod h0]
  have hal : pos1 % 8 = 0 := by rw [hp, Nat.mod_mod_of_dvd _ (Nat.dvd_of_mod_eq_zero h8), x.bytes_length, h]
  have := (C38_incremental_partial p h0 hr h8 s x.bytes st1 pos1 hs h2 y (Or.inl hal) dom hd).2.2
  rw [h1, ok_bind, this, List.length_append, x.bytes_length, y.bytes_length]

end Cex.Keccak
