import Verif.Keccak.SpongeLemmas

/-! # `LeftEncode`, `RightEncode`, `Customize` and `LoadKey` -/

namespace Cex.Keccak
open Cex Cex.IntTools Stream

variable {P : List Byte → M (List Byte)} {f : List Byte → List Byte}

theorem countLoop_zero (k : Nat) : countLoop k 0 = 0 := by cases k <;> rfl

theorem byteLen_pos (x : Nat) : 0 < Sp800185.byteLen x := by rw [Sp800185.byteLen]; split <;> omega

theorem countLoop_eq : ∀ (k : Nat) (v : BitVec 64), v.toNat < 256 ^ k → v ≠ 0 → countLoop k v = Sp800185.byteLen v.toNat
  | 0, v, h, hv => by
    exact absurd (BitVec.eq_of_toNat_eq (by simp at h ⊢; omega)) hv
  | k + 1, v, h, hv => by
    rw [countLoop, if_neg hv, Sp800185.byteLen]
    have e : (v >>> 8).toNat = v.toNat / 256 := by rw [BitVec.toNat_ushiftRight, Nat.shiftRight_eq_div_pow]
    by_cases h1 : v.toNat < 256
    · rw [if_pos h1]
      have : v >>> 8 = 0 := BitVec.eq_of_toNat_eq (by rw [e]; simp; omega)
      rw [this, countLoop_zero]
    · rw [if_neg h1, countLoop_eq k (v >>> 8) (by rw [e]; rw [Nat.pow_succ] at h; omega) ?_, e]
      intro h0
      rw [h0] at e
      simp at e
      omega

theorem encCount_eq (v : BitVec 64) : encCount v = Sp800185.byteLen v.toNat := by
  rw [encCount]
  by_cases hv : v = 0
  · subst hv; decide +kernel
  · have h := countLoop_eq 8 v (by have := v.isLt; omega) hv
    have := byteLen_pos v.toNat
    rw [if_neg (by omega), h]

theorem leftEncode_length (x : Nat) : (Sp800185.leftEncode x).length = Sp800185.byteLen x + 1 := by simp [Sp800185.leftEncode]

theorem rightEncode_length (x : Nat) : (Sp800185.rightEncode x).length = Sp800185.byteLen x + 1 := by simp [Sp800185.rightEncode]

theorem byteLen_le {x k : Nat} (h : x < 256 ^ k) (hk : 0 < k) : Sp800185.byteLen x ≤ k := by
  induction k generalizing x with
  | zero => omega
  | succ k ih =>
    rw [Sp800185.byteLen]
    split
    · omega
    · rw [Nat.pow_succ] at h
      rcases Nat.eq_zero_or_pos k with h0 | h0
      · subst h0; omega
      · have := ih (x := x / 256) (by omega) h0; omega

theorem lt_byteLen (x : Nat) : x < 256 ^ Sp800185.byteLen x := by
  induction x using Nat.strongRecOn with
  | ind x ih =>
    rw [Sp800185.byteLen]
    split
    · omega
    · have := ih (x / 256) (by omega)
      rw [Nat.add_comm, Nat.pow_succ]; omega

/-- The digits of `beEnc` are the shifted bytes. -/
theorem beEnc_digit (n x i : Nat) (h1 : 1 ≤ i) (hn : i ≤ n) : (beEnc n x)[i - 1]? = some (BitVec.ofNat 8 (x / 256 ^ (n - i))) := by
  have lem : ∀ (n x j : Nat), j < n → (leEnc n x)[j]? = some (BitVec.ofNat 8 (x / 256 ^ j)) := by
    intro n
    induction n with
    | zero => intro x j h; omega
    | succ n ih =>
      intro x j h
      cases j with
      | zero => simp [leEnc]
      | succ j =>
        rw [leEnc, List.getElem?_cons_succ, ih _ j (by omega), Nat.div_div_eq_div_mul, Nat.pow_succ']
  rw [beEnc, List.getElem?_reverse (by rw [leEnc_length]; omega), leEnc_length, lem n x _ (by omega)]
  congr 4; omega

theorem shift_digit (v : BitVec 64) (k : Nat) : (v >>> (8 * k)).setWidth 8 = BitVec.ofNat 8 (v.toNat / 256 ^ k) := by
  apply BitVec.eq_of_toNat_eq
  rw [BitVec.toNat_setWidth, BitVec.toNat_ushiftRight, Nat.shiftRight_eq_div_pow, BitVec.toNat_ofNat, Nat.pow_mul]

/-- A loop that writes consecutive bytes. -/
theorem writeLoop (pos : Nat → Nat) (val : Nat → Byte) (w pre junk post : List Byte) (hj : junk.length = w.length)
    (hp : ∀ i, 1 ≤ i → i ≤ w.length → pos i = pre.length + (i - 1)) (hv : ∀ i, 1 ≤ i → i ≤ w.length → w[i - 1]? = some (val i)) :
    loopN w.length 1 (fun i out => wr out (pos i) (val i)) (pre ++ junk ++ post) = .ok (pre ++ w ++ post) := by
  have step : ∀ j s, 1 ≤ j → j < 1 + w.length → s = pre ++ w.take (j - 1) ++ (junk.drop (j - 1) ++ post) →
      ∃ s', wr s (pos j) (val j) = .ok s' ∧ s' = pre ++ w.take (j + 1 - 1) ++ (junk.drop (j + 1 - 1) ++ post) := by
    rintro j s hj1 hj2 rfl
    have hlt : j - 1 < junk.length := by omega
    rw [List.drop_eq_getElem_cons hlt, List.cons_append, hp j hj1 (by omega)]
    have hl : (pre ++ w.take (j - 1)).length = pre.length + (j - 1) := by rw [List.length_append, List.length_take]; omega
    refine ⟨_, wr_at _ _ _ _ _ hl.symm, ?_⟩
    have hg : w.take (j + 1 - 1) = w.take (j - 1) ++ [val j] := by
      have h3 := hv j hj1 (by omega)
      have hw : j - 1 < w.length := by omega
      rw [List.getElem?_eq_getElem hw] at h3
      rw [show j + 1 - 1 = (j - 1) + 1 from by omega, List.take_succ_eq_append_getElem hw, Option.some.inj h3]
    rw [hg, show j - 1 + 1 = j + 1 - 1 from by omega]
    simp
  obtain ⟨s, h1, h2⟩ := loopN_inv (f := fun i out => wr out (pos i) (val i)) (fun i out => out = pre ++ w.take (i - 1) ++ (junk.drop (i - 1) ++ post)) w.length 1
    (pre ++ junk ++ post) step (by simp)
  rw [h1, h2, show 1 + w.length - 1 = w.length from by omega, List.take_length, ← hj, List.drop_length]
  rfl

theorem leftEncode_eq (v : BitVec 64) (pre junk post : List Byte) (hj : junk.length = Sp800185.byteLen v.toNat + 1) {off : Nat} (ho : off = pre.length) :
    leftEncode (pre ++ junk ++ post) off v = .ok (pre ++ Sp800185.leftEncode v.toNat ++ post, (Sp800185.leftEncode v.toNat).length) := by
  subst ho
  match junk, hj with
  | x :: junk, hj =>
    rw [leftEncode]
    simp only [encCount_eq]
    have hb : (beEnc (Sp800185.byteLen v.toNat) v.toNat).length = Sp800185.byteLen v.toNat := beEnc_length _ _
    have w := writeLoop (fun i => pre.length + i) (fun i => (v >>> (8 * (Sp800185.byteLen v.toNat - i))).setWidth 8) (beEnc (Sp800185.byteLen v.toNat) v.toNat)
      (pre ++ [x]) junk post (by rw [hb]; simpa using hj) (by intro i h _; simp; omega)
      (by intro i h1 h2; rw [beEnc_digit _ _ _ h1 (by omega), shift_digit])
    rw [hb] at w
    have e : pre ++ x :: junk ++ post = pre ++ [x] ++ junk ++ post := by simp
    rw [e, w, ok_bind]
    have e2 : pre ++ [x] ++ beEnc (Sp800185.byteLen v.toNat) v.toNat ++ post = pre ++ x :: (beEnc (Sp800185.byteLen v.toNat) v.toNat ++ post) := by simp
    rw [e2, wr_at _ _ _ _ _ rfl, ok_bind, leftEncode_length, Sp800185.leftEncode]
    simp

theorem rightEncode_eq (v : BitVec 64) (pre junk post : List Byte) (hj : junk.length = Sp800185.byteLen v.toNat + 1) {off : Nat} (ho : off = pre.length) :
    rightEncode (pre ++ junk ++ post) off v = .ok (pre ++ Sp800185.rightEncode v.toNat ++ post, (Sp800185.rightEncode v.toNat).length) := by
  subst ho
  obtain ⟨a, x, rfl⟩ : ∃ a x, junk = a ++ [x] := ⟨junk.dropLast, junk.getLast (by intro e; rw [e] at hj; simp at hj), (List.dropLast_append_getLast _).symm⟩
  have ha : a.length = Sp800185.byteLen v.toNat := by simpa using hj
  rw [rightEncode]
  simp only [encCount_eq]
  have hb : (beEnc (Sp800185.byteLen v.toNat) v.toNat).length = Sp800185.byteLen v.toNat := beEnc_length _ _
  have w := writeLoop (fun i => pre.length + (i - 1)) (fun i => (v >>> (8 * (Sp800185.byteLen v.toNat - i))).setWidth 8) (beEnc (Sp800185.byteLen v.toNat) v.toNat)
    pre a (x :: post) (by rw [hb, ha]) (by intro i h _; rfl)
    (by intro i h1 h2; rw [beEnc_digit _ _ _ h1 (by omega), shift_digit])
  rw [hb] at w
  have e : pre ++ (a ++ [x]) ++ post = pre ++ a ++ (x :: post) := by simp
  rw [e, w, ok_bind, wr_at _ _ _ _ _ (by rw [List.length_append, hb]), ok_bind, rightEncode_length, Sp800185.rightEncode]
  simp

/-! ## Feeding strings through the pad -/

/-- After the bytes `m` were fed: complete blocks are absorbed when more data follows, the rest is in the pad. -/
structure Feed.Has (f : List Byte → List Byte) (r : Nat) (s : List Byte) (q : Feed) (m : List Byte) : Prop where
  padLen : q.pad.length = 200
  off : q.off = (Stream.lazy r (Fips202.block f) s m).2.length
  rest : q.pad.take q.off = (Stream.lazy r (Fips202.block f) s m).2
  st : q.st = (Stream.lazy r (Fips202.block f) s m).1

theorem holds_take (x : List Byte) (n : Nat) : Holds x 0 (x.take n) := (Holds.self x).takeN n

theorem feed_eq (p : Perm P f) {r : Nat} (h0 : 0 < r) (hr : r < 200) {s : List Byte} (hs : s.length = 200) :
    ∀ (x m : List Byte) (q : Feed), q.Has f r s m → ∃ q', feed P r x q = .ok q' ∧ q'.Has f r s (m ++ x)
  | [], m, q, h => ⟨q, rfl, by rw [List.append_nil]; exact h⟩
  | b :: x, m, q, h => by
    have hlen := lazy_length p (Nat.le_of_lt hr) s m hs
    have hle := lazy_rest_le (step := Fips202.block f) h0 s m
    rw [feed]
    have key : ∃ q1 : Feed, (if q.off = r then do
        let st ← absorbOne P q.pad 0 r q.st
        pure { q with off := 0, st := st }
      else pure q) = Except.ok q1 ∧ q1.pad.length = 200 ∧ q1.off < r ∧
        Stream.lazy r (Fips202.block f) s (m ++ [b]) = (q1.st, q1.pad.take q1.off ++ [b]) := by
      by_cases ho : q.off = r
      · have hl : (Stream.lazy r (Fips202.block f) s m).2.length = r := by rw [← h.off, ho]
        have hb : Holds q.pad 0 (Stream.lazy r (Fips202.block f) s m).2 := by
          rw [← h.rest]; exact holds_take _ _
        rw [if_pos ho, absorbOne_eq p hb hl.symm (by rw [h.st]; exact hlen) (by omega), ok_bind]
        refine ⟨_, rfl, h.padLen, h0, ?_⟩
        simp only []
        rw [lazy_append, lazy_cons h0 hl (by simp), lazy_short (by simp; omega), h.st]
        simp
      · rw [if_neg ho]
        refine ⟨q, rfl, h.padLen, by have := h.off; omega, ?_⟩
        rw [lazy_append, lazy_short (by rw [List.length_append, List.length_singleton]; have := h.off; omega), h.st, h.rest]
    obtain ⟨q1, e1, hp, ho, hlz⟩ := key
    rw [e1, ok_bind, wr_ok _ (by omega), ok_bind]
    have hto : (q1.pad.take q1.off).length = q1.off := by rw [List.length_take]; omega
    have hh : ({ q1 with pad := q1.pad.set q1.off b, off := q1.off + 1 } : Feed).Has f r s (m ++ [b]) := by
      constructor
      · simp [hp]
      · rw [hlz]; simp only [List.length_append, hto]; rfl
      · rw [hlz]
        simp only []
        rw [List.take_succ_eq_append_getElem (by rw [List.length_set]; omega), List.getElem_set_self, List.take_set_of_le (Nat.le_refl _)]
      · rw [hlz]
    obtain ⟨q', h1, h2⟩ := feed_eq p h0 hr hs x (m ++ [b]) _ hh
    refine ⟨q', h1, ?_⟩
    rw [List.append_assoc] at h2; exact h2

/-- `LeftEncode` into the pad, when it fits into the block. -/
theorem encode_feed {r : Nat} {s : List Byte} (v : BitVec 64) (m : List Byte) (q : Feed) (h : q.Has f r s m)
    (hr : r < 200) (hfit : q.off + (Sp800185.leftEncode v.toNat).length ≤ r) :
    ∃ t, leftEncode q.pad q.off v = .ok t ∧ (⟨t.1, q.off + t.2, q.st⟩ : Feed).Has f r s (m ++ Sp800185.leftEncode v.toNat) := by
  have hl := leftEncode_length v.toNat
  have e : q.pad = q.pad.take q.off ++ (q.pad.drop q.off).take (Sp800185.byteLen v.toNat + 1) ++ (q.pad.drop q.off).drop (Sp800185.byteLen v.toNat + 1) := by
    rw [List.append_assoc, List.take_append_drop, List.take_append_drop]
  have hp := h.padLen
  have hto : (q.pad.take q.off).length = q.off := by rw [List.length_take]; omega
  have hlz : Stream.lazy r (Fips202.block f) s (m ++ Sp800185.leftEncode v.toNat) = (q.st, q.pad.take q.off ++ Sp800185.leftEncode v.toNat) := by
    rw [lazy_append, lazy_short (by rw [List.length_append, ← h.off]; exact hfit), h.st, h.rest]
  have henc := leftEncode_eq v (q.pad.take q.off) ((q.pad.drop q.off).take (Sp800185.byteLen v.toNat + 1)) ((q.pad.drop q.off).drop (Sp800185.byteLen v.toNat + 1))
    (by rw [List.length_take, List.length_drop]; omega) hto.symm
  rw [← e] at henc
  refine ⟨_, henc, ?_⟩
  constructor
  · simp only [List.length_append, List.length_take, List.length_drop, hl]; omega
  · rw [hlz]; simp only [List.length_append, hto]
  · rw [hlz]
    simp only []
    rw [List.take_append_of_le_length (by rw [List.length_append, hto]), List.take_of_length_le (by rw [List.length_append, hto])]
  · rw [hlz]

theorem wordUp_le {n r : Nat} (h : n ≤ r) (h8 : r % 8 = 0) : wordUp n ≤ r := by rw [wordUp]; split <;> omega

theorem le_wordUp (n : Nat) : n ≤ wordUp n := by rw [wordUp]; split <;> omega

/-- The end of `Customize` and `LoadKey`: the fed bytes are absorbed, completed by zeros to whole blocks. -/
theorem flush_eq (p : Perm P f) {r : Nat} (h0 : 0 < r) (hr : r < 200) (h8 : r % 8 = 0) {s : List Byte} (hs : s.length = 200) (m : List Byte) (hm : m ≠ []) (q : Feed) (h : q.Has f r s m) :
    flush P q = .ok (Fips202.absorb f r s (m ++ Sp800185.fill r m.length)) := by
  have hlen := lazy_length p (Nat.le_of_lt hr) s m hs
  have hle := lazy_rest_le (step := Fips202.block f) h0 s m
  have hp := h.padLen
  have hoff := h.off
  have ho : q.off ≤ r := by omega
  have hto : (q.pad.take q.off).length = q.off := by rw [List.length_take]; omega
  have hw := wordUp_le ho h8
  have hw2 := le_wordUp q.off
  have e : q.pad = q.pad.take q.off ++ q.pad.drop q.off ++ [] := by rw [List.append_nil, List.take_append_drop]
  have hc : clear q.pad q.off (200 - q.off) = .ok (q.pad.take q.off ++ List.replicate (200 - q.off) 0) := by
    rw [clear, if_neg (by omega)]
    conv => lhs; rw [e]
    rw [blit_at (off := q.off) hto.symm (by rw [List.length_replicate, List.length_drop]; omega), List.append_nil]
  rw [flush, hc, ok_bind]
  have hb : Holds (q.pad.take q.off ++ List.replicate (200 - q.off) 0) 0 (q.pad.take q.off ++ List.replicate (wordUp q.off - q.off) 0) :=
    ⟨[], List.replicate (200 - wordUp q.off) 0, by
      rw [List.nil_append, List.append_assoc, List.replicate_append_replicate]; congr 2; omega, rfl⟩
  have hbl : (q.pad.take q.off ++ List.replicate (wordUp q.off - q.off) (0 : Byte)).length = wordUp q.off := by
    rw [List.length_append, hto, List.length_replicate]; omega
  have := fastAbsorb_eq (st := q.st) hb hbl.symm (by rw [h.st]; exact hlen) (by omega)
  rw [fastAbsorb] at this
  rw [this, ok_bind, p.run _ (xorBytes_state (by rw [h.st]; exact hlen) (by omega)), hbl]
  congr 1
  -- the specification side
  have hmod : ∀ (s m : List Byte), m ≠ [] → (Stream.lazy r (Fips202.block f) s m).2.length % r = m.length % r ∧
      Fips202.absorb f r s (m ++ Sp800185.fill r m.length) =
        Fips202.absorb f r (Stream.lazy r (Fips202.block f) s m).1 ((Stream.lazy r (Fips202.block f) s m).2 ++ Sp800185.fill r m.length) := by
    intro s m
    induction s, m using Stream.lazy.induct r (Fips202.block f) with
    | case1 s m hc ih =>
      intro _
      have hn : m.drop r ≠ [] := by intro e; have := congrArg List.length e; rw [List.length_drop] at this; simp at this; omega
      obtain ⟨i1, i2⟩ := ih hn
      have hml : (m.drop r).length % r = m.length % r := by rw [List.length_drop, ← Nat.mod_eq_sub_mod (by omega)]
      have hf : Sp800185.fill r (m.drop r).length = Sp800185.fill r m.length := by rw [Sp800185.fill, Sp800185.fill, hml]
      rw [Stream.lazy, if_pos hc]
      refine ⟨i1.trans hml, ?_⟩
      rw [hf] at i2
      rw [← i2, Fips202.absorb, Fips202.absorb]
      have : m ++ Sp800185.fill r m.length = m.take r ++ (m.drop r ++ Sp800185.fill r m.length) := by rw [← List.append_assoc, List.take_append_drop]
      rw [this, eager_cons h0 (by rw [List.length_take]; omega)]
    | case2 s m hc => intro _; rw [Stream.lazy, if_neg hc]; exact ⟨rfl, rfl⟩
  obtain ⟨e1, e2⟩ := hmod s m hm
  have hrest := lazy_rest_ne (B := r) (step := Fips202.block f) s m hm
  have hpos : 0 < q.off := by rw [hoff]; exact List.length_pos_iff.mpr hrest
  rw [e2, h.st, h.rest]
  have hfill : (Sp800185.fill r m.length).length = r - q.off := by
    rw [Sp800185.fill, List.length_replicate, ← e1, ← hoff]
    rcases Nat.lt_or_eq_of_le ho with h | h
    · rw [Nat.mod_eq_of_lt h, Nat.mod_eq_of_lt (by omega)]
    · rw [h, Nat.mod_self, Nat.sub_zero, Nat.mod_self, Nat.sub_self]
  have hfe : Sp800185.fill r m.length = List.replicate (r - q.off) 0 := by
    have : Sp800185.fill r m.length = List.replicate (Sp800185.fill r m.length).length 0 := by simp [Sp800185.fill]
    rw [this, hfill]
  have hbl2 : ((Stream.lazy r (Fips202.block f) s m).2 ++ Sp800185.fill r m.length).length = r := by
    rw [List.length_append, ← hoff, hfill]; omega
  rw [Fips202.absorb, eager_one h0 hbl2]
  simp only [Fips202.block, hbl2]
  rw [hfe, List.append_assoc, List.append_assoc, List.replicate_append_replicate, List.replicate_append_replicate,
    show wordUp q.off - q.off + (200 - wordUp q.off) = r - q.off + (200 - r) from by omega]

/-- The bytes that `LeftEncode` has to fit behind the function name. -/
def nameEnd (r n : Nat) : Nat := ((Sp800185.leftEncode r).length + (Sp800185.leftEncode (8 * n)).length + n - 1) % r + 1

theorem lazy_rest_mod {σ : Type} {B : Nat} {step : σ → List Byte → σ} (hB : 0 < B) (s : σ) (m : List Byte) (hm : m ≠ []) :
    (Stream.lazy B step s m).2.length = (m.length - 1) % B + 1 := by
  induction s, m using Stream.lazy.induct B step with
  | case1 s m h ih =>
    have hn : m.drop B ≠ [] := by intro e; have := congrArg List.length e; rw [List.length_drop] at this; simp at this; omega
    rw [Stream.lazy, if_pos h, ih hn, List.length_drop]
    rw [Nat.mod_eq_sub_mod (a := m.length - 1) (by omega)]
    congr 2; omega
  | case2 s m h =>
    have : 0 < m.length := List.length_pos_iff.mpr hm
    rw [Stream.lazy, if_neg h, Nat.mod_eq_of_lt (by omega)]; simp only []; omega

theorem ofNat_toNat64 {x : Nat} (h : x < 2 ^ 64) : (BitVec.ofNat 64 x).toNat = x := by
  rw [BitVec.toNat_ofNat, Nat.mod_eq_of_lt h]

/-- The first two encodings into the empty pad. -/
theorem start_feed {r : Nat} (hr : r < 200) (h20 : 20 ≤ r) (s : List Byte) (n : Nat) (hn : 8 * n < 2 ^ 64) :
    ∃ a b, leftEncode (List.replicate 200 0) 0 (BitVec.ofNat 64 r) = .ok a ∧ leftEncode a.1 a.2 (BitVec.ofNat 64 (n * 8)) = .ok b ∧
      (⟨b.1, a.2 + b.2, s⟩ : Feed).Has f r s (Sp800185.leftEncode r ++ Sp800185.leftEncode (8 * n)) := by
  have i : (⟨List.replicate 200 0, 0, s⟩ : Feed).Has f r s [] := by
    have : Stream.lazy r (Fips202.block f) s [] = (s, []) := lazy_short (by simp)
    exact ⟨List.length_replicate, by rw [this]; rfl, by rw [this]; rfl, by rw [this]⟩
  have l1 : (Sp800185.leftEncode r).length ≤ 9 := by
    rw [leftEncode_length]; have := byteLen_le (x := r) (k := 8) (by omega) (by omega); omega
  have l2 : (Sp800185.leftEncode (8 * n)).length ≤ 9 := by
    rw [leftEncode_length]; have := byteLen_le (x := 8 * n) (k := 8) (by omega) (by omega); omega
  obtain ⟨a, ha, hb⟩ := encode_feed (BitVec.ofNat 64 r) [] _ i hr (by rw [ofNat_toNat64 (by omega)]; simp only []; omega)
  rw [ofNat_toNat64 (by omega)] at hb
  simp only [List.nil_append, Nat.zero_add] at ha hb
  have ho : a.2 = (Sp800185.leftEncode r).length := by
    have := hb.off
    rwa [lazy_short (by omega)] at this
  obtain ⟨b, hc, hd⟩ := encode_feed (BitVec.ofNat 64 (n * 8)) _ _ hb hr (by rw [ofNat_toNat64 (by omega), Nat.mul_comm n 8]; simp only []; omega)
  rw [ofNat_toNat64 (by omega), Nat.mul_comm n 8] at hd
  refine ⟨a, b, ha, ?_, hd⟩
  exact hc

/-- Where `Customize` gives the state after `bytepad(encode_string(name) || encode_string(custom), rate)`. -/
theorem customize_eq (p : Perm P f) {r : Nat} (hr : r < 200) (h20 : 20 ≤ r) (h8 : r % 8 = 0) {s : List Byte} (hs : s.length = 200) (cust name : List Byte)
    (hc : 8 * cust.length < 2 ^ 64) (hn : 8 * name.length < 2 ^ 64) (hfit : nameEnd r name.length + (Sp800185.leftEncode (8 * cust.length)).length ≤ r) :
    customize P cust name r s = .ok (Fips202.absorb f r s (Sp800185.bytepad (Sp800185.encodeString name ++ Sp800185.encodeString cust) r)) := by
  have h0 : 0 < r := by omega
  obtain ⟨a, b, h1, h2, h3⟩ := start_feed (f := f) hr h20 s name.length hn
  rw [customize, h1, ok_bind, h2, ok_bind]
  obtain ⟨q, h4, h5⟩ := feed_eq p h0 hr hs name _ _ h3
  rw [h4, ok_bind]
  have hne : Sp800185.leftEncode r ++ Sp800185.leftEncode (8 * name.length) ++ name ≠ [] := by simp [Sp800185.leftEncode]
  have ho : q.off = nameEnd r name.length := by
    rw [h5.off, lazy_rest_mod h0 _ _ hne, nameEnd]; simp only [List.length_append]
  obtain ⟨t, h6, h7⟩ := encode_feed (BitVec.ofNat 64 (cust.length * 8)) _ _ h5 hr (by rw [ofNat_toNat64 (by omega), Nat.mul_comm cust.length 8, ho]; exact hfit)
  rw [ofNat_toNat64 (by omega), Nat.mul_comm cust.length 8] at h7
  rw [h6, ok_bind]
  obtain ⟨q2, h8', h9⟩ := feed_eq p h0 hr hs cust _ _ h7
  rw [h8', ok_bind]
  have hx : Sp800185.leftEncode r ++ Sp800185.leftEncode (8 * name.length) ++ name ++ Sp800185.leftEncode (8 * cust.length) ++ cust =
      Sp800185.leftEncode r ++ (Sp800185.encodeString name ++ Sp800185.encodeString cust) := by simp [Sp800185.encodeString]
  rw [hx] at h9
  rw [flush_eq p h0 hr h8 hs _ (by simp [Sp800185.leftEncode]) q2 h9]
  rfl

/-- `LoadKey` absorbs `bytepad(encode_string(key), rate)`. -/
theorem loadKey_eq (p : Perm P f) {r : Nat} (hr : r < 200) (h20 : 20 ≤ r) (h8 : r % 8 = 0) {s : List Byte} (hs : s.length = 200) (key : List Byte)
    (hn : 8 * key.length < 2 ^ 64) : loadKey P key r s = .ok (Fips202.absorb f r s (Sp800185.bytepad (Sp800185.encodeString key) r)) := by
  have h0 : 0 < r := by omega
  obtain ⟨a, b, h1, h2, h3⟩ := start_feed (f := f) hr h20 s key.length hn
  rw [loadKey, h1, ok_bind, h2, ok_bind]
  obtain ⟨q, h4, h5⟩ := feed_eq p h0 hr hs key _ _ h3
  rw [h4, ok_bind]
  rw [List.append_assoc] at h5
  rw [flush_eq p h0 hr h8 hs _ (by simp [Sp800185.leftEncode]) q h5]
  rfl

end Cex.Keccak
