import Verif.Random.Lemmas

/-!
# C48: random bytes are fresh

Every call fills exactly the window it was given, and over the whole life of a generator the bytes handed out are bytes of its source at positions that only go up.
-/

namespace Cex.Random
open Cex Cex.Streams

/-- A source that hands out the bytes `S 0, S 1, …` in order. The sequence is arbitrary: it is what a DRBG returns over its life, reseeds included. -/
def source (S : Nat → Byte) : Engine Nat where
  gen p n := .ok ((List.range' p n).map S, p + n)

theorem range'_incr (p n : Nat) : Incr p (List.range' p n) (p + n) where
  sorted := List.pairwise_lt_range'
  low i hi := by have := List.mem_range'_1.mp hi; omega
  high i hi := by have := List.mem_range'_1.mp hi; omega
  le := by omega

theorem source_draws (S : Nat → Byte) (N : Nat) : Draws (source S) N S (fun e p => e = p) := by
  rintro e p rfl
  exact ⟨List.range' e N, e + N, e + N, rfl, List.length_range', range'_incr e N, rfl⟩

/-- The bytes of a window. -/
abbrev part (x : List Byte) (off len : Nat) : List Byte := (x.drop off).take len

/-- The life of a `SecureRandom`: any number of `Generate` calls for either kind of vector (`mv`), each on a window inside its output. `outs` holds what the windows then contained. -/
inductive Session {σ : Type} (E : Engine σ) (start : Buffered σ) : List (List Byte) → Buffered σ → Prop
  | nil : Session E start [] start
  | call {outs : List (List Byte)} {s s' : Buffered σ} {mv : Bool} {out out' : List Byte} {off len : Nat} (h : Session E start outs s) (hw : off + len ≤ out.length)
      (hc : generate E mv s out off len = .ok (s', out')) : Session E start (outs ++ [part out' off len]) s'

variable {σ : Type} {E : Engine σ} {N : Nat} {S : Nat → Byte} {R : σ → Nat → Prop}

/-- `generate_ok` for an output and a window in it. -/
theorem generate_window (hE : Draws E N S R) (hN : 0 < N) (hN' : N < 2 ^ 64) {s : Buffered σ} {p : Nat} (hs : Ready N S R s p) (mv : Bool) (out : List Byte)
    (off len : Nat) (hw : off + len ≤ out.length) :
    ∃ s' idx q, generate E mv s out off len = .ok (s', out.take off ++ idx.map S ++ out.drop (off + len)) ∧ idx.length = len ∧ Incr p idx q ∧ Ready N S R s' q := by
  have e : out = out.take off ++ part out off len ++ out.drop (off + len) := by
    rw [part, List.append_assoc, ← List.drop_drop, List.take_append_drop, List.take_append_drop]
  have h1 : (out.take off).length = off := by rw [List.length_take]; omega
  have h2 : (part out off len).length = len := by rw [part, List.length_take, List.length_drop]; omega
  obtain ⟨s', idx, q, g1, g2, g3, g4⟩ := generate_ok (mv := mv) hE hN hN' s p hs (out.take off) (part out off len) (out.drop (off + len))
  rw [← e, h1, h2] at g1
  exact ⟨s', idx, q, g1, by rw [g2, h2], g3, g4⟩

theorem part_window (out w : List Byte) (off len : Nat) (hw : off + len ≤ out.length) (hl : w.length = len) :
    part (out.take off ++ w ++ out.drop (off + len)) off len = w := by
  have h1 : (out.take off).length = off := by rw [List.length_take]; omega
  rw [part, List.append_assoc, List.drop_left' h1, List.take_left' hl]

/-- What a session delivered, and that the generator is still ready. -/
theorem session_ready (hE : Draws E N S R) (hN : 0 < N) (hN' : N < 2 ^ 64) {start s : Buffered σ} {p : Nat} (hs : Ready N S R start p) {outs : List (List Byte)}
    (h : Session E start outs s) : ∃ idx q, outs.flatten = idx.map S ∧ Incr p idx q ∧ Ready N S R s q := by
  induction h with
  | nil => exact ⟨[], p, rfl, Incr.nil p, hs⟩
  | call h hw hc ih =>
    rename_i s1 s2 mv out out' off len
    obtain ⟨idx, q, h1, h2, h3⟩ := ih
    obtain ⟨s', idx', q', g1, g2, g3, g4⟩ := generate_window hE hN hN' h3 mv out off len hw
    rw [g1] at hc
    cases hc
    refine ⟨idx ++ idx', q', ?_, h2.append g3, g4⟩
    rw [List.flatten_append, h1, List.flatten_singleton, part_window out _ off len hw (by rw [List.length_map, g2]), List.map_append]

theorem secureRandom_ready {e : σ} {p : Nat} (h : R e p) : Ready N S R (secureRandom N e) p := by
  refine ⟨by simp [secureRandom], Nat.le_refl _, [], p, ?_, Incr.nil p, h⟩
  simp [secureRandom]

/-- After any session, a call on a window inside the output succeeds, fills the window with bytes of the source that have not been handed out, and changes nothing else. -/
theorem C48_generate (S : Nat → Byte) (hN : 0 < N) (hN' : N < 2 ^ 64) {outs : List (List Byte)} {s : Buffered Nat} (h : Session (source S) (secureRandom N 0) outs s)
    (mv : Bool) (out : List Byte) (off len : Nat) (hw : off + len ≤ out.length) :
    ∃ s' used idx q, generate (source S) mv s out off len = .ok (s', out.take off ++ idx.map S ++ out.drop (off + len)) ∧ idx.length = len ∧
      outs.flatten = used.map S ∧ Incr 0 (used ++ idx) q := by
  obtain ⟨used, p, h1, h2, h3⟩ := session_ready (source_draws S N) hN hN' (secureRandom_ready (S := S) rfl) h
  obtain ⟨s', idx, q, g1, g2, g3, -⟩ := generate_window (source_draws S N) hN hN' h3 mv out off len hw
  exact ⟨s', used, idx, q, g1, g2, h1, h2.append g3⟩

/-- Everything a `SecureRandom` ever hands out comes from its source at rising positions. -/
theorem C48_fresh (S : Nat → Byte) (hN : 0 < N) (hN' : N < 2 ^ 64) {outs : List (List Byte)} {s : Buffered Nat} (h : Session (source S) (secureRandom N 0) outs s) :
    ∃ idx q, outs.flatten = idx.map S ∧ Incr 0 idx q := by
  obtain ⟨idx, p, h1, h2, -⟩ := session_ready (source_draws S N) hN hN' (secureRandom_ready (S := S) rfl) h
  exact ⟨idx, p, h1, h2⟩

/-! ## The generators behind it -/

theorem secureMove_at {src a b c s : List Byte} {so off n : Nat} (hs : Holds src so s) (ho : off = a.length) (hn : n = s.length) (hb : b.length = s.length) :
    ∃ src', secureMove src so (a ++ b ++ c) off n = .ok (src', a ++ s ++ c) := by
  obtain ⟨src', h, -⟩ := deliver_at (mv := true) (c := c) hs ho hn hb
  exact ⟨src', h⟩

theorem move_window (tmp out : List Byte) (off len : Nat) (hw : off + len ≤ out.length) (hl : tmp.length = len) :
    ∃ t, secureMove tmp 0 out off len = .ok (t, out.take off ++ tmp ++ out.drop (off + len)) := by
  have e : out = out.take off ++ part out off len ++ out.drop (off + len) := by
    rw [part, List.append_assoc, ← List.drop_drop, List.take_append_drop, List.take_append_drop]
  have h1 : (out.take off).length = off := by rw [List.length_take]; omega
  have h2 : (part out off len).length = len := by rw [part, List.length_take, List.length_drop]; omega
  obtain ⟨t, h⟩ := secureMove_at (a := out.take off) (b := part out off len) (c := out.drop (off + len)) (off := off) (n := len) (Holds.self tmp) h1.symm hl.symm (by rw [h2, hl])
  rw [← e] at h
  exact ⟨t, h⟩

theorem sub64_window {n off len : Nat} (hw : off + len ≤ n) (hn : n < 2 ^ 64) : ¬ sub64 n off < len := by
  rw [sub64_le (by omega) hn]; omega

theorem bcrStd_ok (hE : Draws E N S R) (hN : 0 < N) (hN' : N < 2 ^ 64) {s : Buffered σ} {p : Nat} (hs : Ready N S R s p) (out : List Byte) (off len : Nat)
    (hw : off + len ≤ out.length) (ho : out.length < 2 ^ 64) :
    ∃ s' idx q, bcrStd E s out off len = .ok (s', out.take off ++ idx.map S ++ out.drop (off + len)) ∧ idx.length = len ∧ Incr p idx q ∧ Ready N S R s' q := by
  obtain ⟨s', idx, q, g1, g2, g3, g4⟩ := generate_window hE hN hN' hs true (List.replicate len 0) 0 len (by simp)
  have e : (List.replicate len (0 : Byte)).take 0 ++ idx.map S ++ (List.replicate len (0 : Byte)).drop (0 + len) = idx.map S := by simp
  rw [e] at g1
  obtain ⟨t, h⟩ := move_window (idx.map S) out off len hw (by rw [List.length_map, g2])
  refine ⟨s', idx, q, ?_, g2, g3, g4⟩
  rw [bcrStd, if_neg (sub64_window hw ho), g1, ok_bind]
  simp only []
  rw [h]; rfl

theorem prngSecure_ok (hE : Draws E N S R) (hN : 0 < N) (hN' : N < 2 ^ 64) {s : Buffered σ} {p : Nat} (hs : Ready N S R s p) (out : List Byte) (off len : Nat)
    (hw : off + len ≤ out.length) (ho : out.length < 2 ^ 64) :
    ∃ s' idx q, prngSecure E s out off len = .ok (s', out.take off ++ idx.map S ++ out.drop (off + len)) ∧ idx.length = len ∧ Incr p idx q ∧ Ready N S R s' q := by
  rw [prngSecure, if_neg (sub64_window hw ho)]
  exact generate_window hE hN hN' hs true out off len hw

theorem prngStd_ok (hE : Draws E N S R) (hN : 0 < N) (hN' : N < 2 ^ 64) {s : Buffered σ} {p : Nat} (hs : Ready N S R s p) (out : List Byte) :
    ∃ s' idx q, prngStd E s out = .ok (s', idx.map S) ∧ idx.length = out.length ∧ Incr p idx q ∧ Ready N S R s' q := by
  obtain ⟨s', idx, q, g1, g2, g3, g4⟩ := generate_window hE hN hN' hs true (List.replicate out.length 0) 0 out.length (by simp)
  have e : (List.replicate out.length (0 : Byte)).take 0 ++ idx.map S ++ (List.replicate out.length (0 : Byte)).drop (0 + out.length) = idx.map S := by simp
  rw [e] at g1
  obtain ⟨t, h⟩ := move_window (idx.map S) out 0 out.length (by omega) (by rw [List.length_map, g2])
  refine ⟨s', idx, q, ?_, g2, g3, g4⟩
  rw [prngStd, g1, ok_bind]
  simp only []
  rw [List.length_map, g2, h, ok_bind]
  simp

/-- A buffered generator is itself a source of fresh bytes. -/
theorem prngEngine_draws (hE : Draws E N S R) (hN : 0 < N) (hN' : N < 2 ^ 64) {K : Nat} (hK : K < 2 ^ 64) : Draws (prngEngine E) K S (Ready N S R) := by
  intro s p hs
  obtain ⟨s', idx, q, g1, g2, g3, g4⟩ := prngSecure_ok hE hN hN' hs (List.replicate K 0) 0 K (by simp) (by simpa using hK)
  have e : (List.replicate K (0 : Byte)).take 0 ++ idx.map S ++ (List.replicate K (0 : Byte)).drop (0 + K) = idx.map S := by simp
  rw [e] at g1
  refine ⟨idx, s', q, ?_, g2, g3, g4⟩
  show (prngSecure E s (List.replicate K 0) 0 K >>= fun x => pure (x.2, x.1)) = _
  rw [g1]; rfl

theorem reset_ready (hE : Draws E N S R) {s : Buffered σ} {p : Nat} (hl : s.buf.length = N) (hp : s.pos ≤ N) {e : σ} (he : R e p) :
    ∃ s', reset E s e = .ok s' ∧ Ready N S R s' p := by
  obtain ⟨idx, e', q, h1, h2, h3, h4⟩ := hE e p he
  refine ⟨⟨idx.map S, s.pos, e'⟩, by rw [reset, hl, h1]; rfl, by simp [h2], hp, ?_⟩
  obtain ⟨m, m1, m2⟩ := h3.split s.pos
  exact ⟨idx.drop s.pos, q, by simp [List.map_drop], m2.weaken m1.le, h4⟩

/-- The life of a `BCR`, `CSR` or `HCR`: calls of its public functions, `Reset` among them. `bcr` tells a `BCR` from the other two, whose `std::vector` version with offsets
is only called for whole vectors here. -/
inductive PrngSession (S : Nat → Byte) (bcr : Bool) (start : Buffered Nat) : List (List Byte) → Buffered Nat → Prop
  | nil : PrngSession S bcr start [] start
  | secure {outs s s' out out' off len} (h : PrngSession S bcr start outs s) (hw : off + len ≤ out.length) (ho : out.length < 2 ^ 64)
      (hc : prngSecure (source S) s out off len = .ok (s', out')) : PrngSession S bcr start (outs ++ [part out' off len]) s'
  | std {outs s s' out out'} (h : PrngSession S bcr start outs s) (hc : prngStd (source S) s out = .ok (s', out')) : PrngSession S bcr start (outs ++ [out']) s'
  | bcrStd {outs s s' out out' off len} (h : PrngSession S bcr start outs s) (hb : bcr = true) (hw : off + len ≤ out.length) (ho : out.length < 2 ^ 64)
      (hc : bcrStd (source S) s out off len = .ok (s', out')) : PrngSession S bcr start (outs ++ [part out' off len]) s'
  | csrStd {outs s s' out out'} (h : PrngSession S bcr start outs s) (hb : bcr = false) (ho : out.length < 2 ^ 64)
      (hc : csrStd (source S) s out 0 out.length = .ok (s', out')) : PrngSession S bcr start (outs ++ [out']) s'
  | reset {outs s s'} (h : PrngSession S bcr start outs s) (hc : reset (source S) s s.eng = .ok s') : PrngSession S bcr start outs s'

theorem csrStd_whole (E : Engine σ) (s : Buffered σ) (out : List Byte) (ho : out.length < 2 ^ 64) : csrStd E s out 0 out.length = prngStd E s out := by
  rw [csrStd, if_neg (sub64_window (by omega) ho), prngStd]

theorem prng_session_ready (hN : 0 < N) (hN' : N < 2 ^ 64) {bcr : Bool} {start s : Buffered Nat} (hs : prng (source S) N 0 = .ok start) {outs : List (List Byte)}
    (h : PrngSession S bcr start outs s) : ∃ idx q, outs.flatten = idx.map S ∧ Incr 0 idx q ∧ Ready N S (fun e p => e = p) s q := by
  have hE := source_draws S N
  induction h with
  | nil =>
    obtain ⟨s', h1, h2⟩ := reset_ready hE (s := ⟨List.replicate N 0, 0, 0⟩) (p := 0) (by simp) (Nat.zero_le _) (e := 0) rfl
    rw [prng, h1] at hs
    cases hs
    exact ⟨[], 0, rfl, Incr.nil 0, h2⟩
  | secure h hw ho hc ih =>
    obtain ⟨idx, q, h1, h2, h3⟩ := ih
    rename_i s1 s2 out out' off len
    obtain ⟨s', idx', q', g1, g2, g3, g4⟩ := prngSecure_ok hE hN hN' h3 out off len hw ho
    rw [g1] at hc
    cases hc
    refine ⟨idx ++ idx', q', ?_, h2.append g3, g4⟩
    rw [List.flatten_append, h1, List.flatten_singleton, part_window out _ off len hw (by rw [List.length_map, g2]), List.map_append]
  | std h hc ih =>
    obtain ⟨idx, q, h1, h2, h3⟩ := ih
    rename_i s1 s2 out out'
    obtain ⟨s', idx', q', g1, g2, g3, g4⟩ := prngStd_ok hE hN hN' h3 out
    rw [g1] at hc
    cases hc
    exact ⟨idx ++ idx', q', by rw [List.flatten_append, h1, List.flatten_singleton, List.map_append], h2.append g3, g4⟩
  | bcrStd h hb hw ho hc ih =>
    obtain ⟨idx, q, h1, h2, h3⟩ := ih
    rename_i s1 s2 out out' off len
    obtain ⟨s', idx', q', g1, g2, g3, g4⟩ := bcrStd_ok hE hN hN' h3 out off len hw ho
    rw [g1] at hc
    cases hc
    refine ⟨idx ++ idx', q', ?_, h2.append g3, g4⟩
    rw [List.flatten_append, h1, List.flatten_singleton, part_window out _ off len hw (by rw [List.length_map, g2]), List.map_append]
  | csrStd h hb ho hc ih =>
    obtain ⟨idx, q, h1, h2, h3⟩ := ih
    rename_i s1 s2 out out'
    obtain ⟨s', idx', q', g1, g2, g3, g4⟩ := prngStd_ok hE hN hN' h3 out
    rw [csrStd_whole _ _ _ ho, g1] at hc
    cases hc
    exact ⟨idx ++ idx', q', by rw [List.flatten_append, h1, List.flatten_singleton, List.map_append], h2.append g3, g4⟩
  | reset h hc ih =>
    obtain ⟨idx, q, h1, h2, h3, h4, idx', q', h5, h6, h7⟩ := ih
    rename_i s1 s2
    obtain ⟨s', g1, g2⟩ := reset_ready hE (s := s1) (p := q') h3 h4 (e := s1.eng) h7
    rw [g1] at hc
    cases hc
    obtain ⟨k1, k2, idx2, q2, k3, k4, k5⟩ := g2
    exact ⟨idx, q, h1, h2, k1, k2, idx2, q2, k3, k4.weaken h6.le, k5⟩

/-- Everything a `BCR`, `CSR` or `HCR` hands out, also across `Reset`, comes from its DRBG at rising positions. -/
theorem C48_prng_fresh (S : Nat → Byte) (hN : 0 < N) (hN' : N < 2 ^ 64) {bcr : Bool} {start s : Buffered Nat} (hs : prng (source S) N 0 = .ok start) {outs : List (List Byte)}
    (h : PrngSession S bcr start outs s) : ∃ idx q, outs.flatten = idx.map S ∧ Incr 0 idx q := by
  obtain ⟨idx, q, h1, h2, -⟩ := prng_session_ready hN hN' hs h
  exact ⟨idx, q, h1, h2⟩

/-- After any such life, a call on a window inside the output fills it and changes nothing else: `SecureVector` for all three, `std::vector` for `BCR` and, whole, for all. -/
theorem C48_prng_generate_partial (S : Nat → Byte) (hN : 0 < N) (hN' : N < 2 ^ 64) {bcr : Bool} {start s : Buffered Nat} (hs : prng (source S) N 0 = .ok start)
    {outs : List (List Byte)} (h : PrngSession S bcr start outs s) (out : List Byte) (off len : Nat) (hw : off + len ≤ out.length) (ho : out.length < 2 ^ 64) :
    (∃ s' w, prngSecure (source S) s out off len = .ok (s', out.take off ++ w ++ out.drop (off + len)) ∧ w.length = len) ∧
    (∃ s' w, bcrStd (source S) s out off len = .ok (s', out.take off ++ w ++ out.drop (off + len)) ∧ w.length = len) ∧
    (∃ s' w, prngStd (source S) s out = .ok (s', w) ∧ w.length = out.length) ∧ ∃ s' w, csrStd (source S) s out 0 out.length = .ok (s', w) ∧ w.length = out.length := by
  have hE := source_draws S N
  obtain ⟨-, q, -, -, hr⟩ := prng_session_ready hN hN' hs h
  obtain ⟨s1, i1, _, a1, a2, -, -⟩ := prngSecure_ok hE hN hN' hr out off len hw ho
  obtain ⟨s2, i2, _, b1, b2, -, -⟩ := bcrStd_ok hE hN hN' hr out off len hw ho
  obtain ⟨s3, i3, _, c1, c2, -, -⟩ := prngStd_ok hE hN hN' hr out
  exact ⟨⟨s1, i1.map S, a1, by rw [List.length_map, a2]⟩, ⟨s2, i2.map S, b1, by rw [List.length_map, b2]⟩, ⟨s3, i3.map S, c1, by rw [List.length_map, c2]⟩,
    s3, i3.map S, by rw [csrStd_whole _ _ _ ho]; exact c1, by rw [List.length_map, c2]⟩

/-- `SecureRandom` on top of a `BCR`, `CSR` or `HCR`: everything handed out comes from the DRBG below at rising positions. -/
theorem C48_layered (S : Nat → Byte) {K : Nat} (hN : 0 < N) (hN' : N < 2 ^ 64) (hK : 0 < K) (hK' : K < 2 ^ 64) {start : Buffered Nat} (hs : prng (source S) N 0 = .ok start)
    {s : Buffered (Buffered Nat)} {outs : List (List Byte)} (h : Session (prngEngine (source S)) (secureRandom K start) outs s) :
    ∃ idx q, outs.flatten = idx.map S ∧ Incr 0 idx q := by
  obtain ⟨used, p, _, hi, hr⟩ := prng_session_ready hN hN' hs (PrngSession.nil (bcr := true))
  obtain ⟨idx, q, h1, h2, -⟩ := session_ready (prngEngine_draws (source_draws S N) hN hN' hK') hK hK' (secureRandom_ready (S := S) hr) h
  exact ⟨idx, q, h1, h2.weaken hi.le⟩

/-! ## `Fill` -/

/-- `Fill` writes the bytes of exactly the elements named, with fresh bytes of the source. -/
theorem C48_fill (S : Nat → Byte) (hN : 0 < N) (hN' : N < 2 ^ 64) {outs : List (List Byte)} {s : Buffered Nat} (h : Session (source S) (secureRandom N 0) outs s)
    (k size off elems : Nat) (out : List Byte) (ho : out.length = size * k) (hk : 0 < k) (hs : size * k < 2 ^ 64) (hw : off + elems ≤ size) :
    ∃ s' used idx q, fill (source S) k s out size off elems = .ok (s', out.take (off * k) ++ idx.map S ++ out.drop ((off + elems) * k)) ∧ idx.length = elems * k ∧
      outs.flatten = used.map S ∧ Incr 0 (used ++ idx) q := by
  have h1 : size ≤ size * k := Nat.le_mul_of_pos_right _ hk
  have h2 : (off + elems) * k ≤ size * k := Nat.mul_le_mul_right _ hw
  have h3 : off * k + elems * k = (off + elems) * k := (Nat.add_mul _ _ _).symm
  obtain ⟨s', used, idx, q, g1, g2, g3, g4⟩ := C48_generate S hN hN' h true (List.replicate (elems * k) 0) 0 (elems * k) (by simp)
  have e : (List.replicate (elems * k) (0 : Byte)).take 0 ++ idx.map S ++ (List.replicate (elems * k) (0 : Byte)).drop (0 + elems * k) = idx.map S := by simp
  rw [e] at g1
  refine ⟨s', used, idx, q, ?_, g2, g3, g4⟩
  have e2 : out = out.take (off * k) ++ part out (off * k) (elems * k) ++ out.drop ((off + elems) * k) := by
    rw [part, List.append_assoc, ← h3, ← List.drop_drop, List.take_append_drop, List.take_append_drop]
  have hc : copy (idx.map S) 0 out (off * k) (elems * k) = .ok (out.take (off * k) ++ idx.map S ++ out.drop ((off + elems) * k)) := by
    have := copy_at (a := out.take (off * k)) (b := part out (off * k) (elems * k)) (c := out.drop ((off + elems) * k)) (off := off * k) (n := elems * k)
      (Holds.self (idx.map S)) (by rw [List.length_take]; omega) (by rw [List.length_map, g2]) (by rw [List.length_map, g2, part, List.length_take, List.length_drop]; omega)
    rwa [← e2] at this
  have hmod : elems * k % 2 ^ 64 = elems * k := Nat.mod_eq_of_lt (by omega)
  rw [fill, if_neg (by rw [add64_lt (by omega)]; omega)]
  simp only [hmod]
  rw [g1, ok_bind]
  simp only []
  rw [hc]; rfl

/-! ## Where it fails -/

theorem copy_over {src dst : List Byte} {so off n : Nat} (h0 : n ≠ 0) (h : dst.length < off + n) : copy src so dst off n = .error .ub := by
  rw [copy, if_neg h0]
  by_cases hs : so + n ≤ src.length
  · rw [slice_ok hs, ok_bind, blit, if_neg (by simp [List.length_take, List.length_drop]; omega)]
  · rw [slice, if_neg hs]; rfl

theorem deliver_over {mv : Bool} {src dst : List Byte} {so off n : Nat} (h0 : n ≠ 0) (h : dst.length < off + n) : deliver mv src so dst off n = .error .ub := by
  cases mv
  · show secureCopy _ _ _ _ _ = _
    rw [secureCopy, copy_over h0 h]; rfl
  · show secureMove _ _ _ _ _ = _
    rw [secureMove, copy_over h0 h]; rfl

theorem deliver_length {mv : Bool} {src dst x y : List Byte} {so off n : Nat} (h : deliver mv src so dst off n = .ok (x, y)) : y.length = dst.length ∧ x.length = src.length := by
  have hcopy : ∀ {z}, copy src so dst off n = .ok z → z.length = dst.length := by
    intro z hz
    unfold copy slice blit at hz
    split at hz
    · cases hz; rfl
    · split at hz
      · rw [ok_bind] at hz
        split at hz
        · cases hz; simp [List.length_take, List.length_drop] at *; omega
        · cases hz
      · cases hz
  have hclear : ∀ {z}, clear src so n = .ok z → z.length = src.length := by
    intro z hz
    unfold clear blit at hz
    split at hz
    · cases hz; rfl
    · split at hz
      · cases hz; simp [List.length_take, List.length_drop] at *; omega
      · cases hz
  cases mv
  · change secureCopy _ _ _ _ _ = _ at h
    rw [secureCopy] at h
    rcases hz : copy src so dst off n with _ | z
    · rw [hz] at h; cases h
    · rw [hz] at h; cases h; exact ⟨hcopy hz, rfl⟩
  · change secureMove _ _ _ _ _ = _ at h
    rw [secureMove] at h
    rcases hz : copy src so dst off n with _ | z
    · rw [hz] at h; cases h
    · rw [hz, ok_bind] at h
      rcases hy : clear src so n with _ | y'
      · rw [hy] at h; cases h
      · rw [hy] at h; cases h; exact ⟨hcopy hz, hclear hy⟩

theorem deliver_le {mv : Bool} {src dst x y : List Byte} {so off n : Nat} (h : deliver mv src so dst off n = .ok (x, y)) (h0 : n ≠ 0) : off + n ≤ dst.length := by
  rcases Nat.lt_or_ge dst.length (off + n) with hc | hc
  · rw [deliver_over h0 hc] at h; cases h
  · exact hc

/-- The loop on a window that does not fit runs over the end, or leaves a rest that does not fit. -/
theorem drain_over (hE : Draws E N S R) (hN : 0 < N) : ∀ (n : Nat) (s : Buffered σ) (out : List Byte) (off len p : Nat), s.buf.length = N → R s.eng p → len ≤ n →
    off ≤ out.length → out.length < off + len →
    drain E true n s out off len = .error .ub ∨ ∃ s' out' off' len' q, drain E true n s out off len = .ok (s', out', off', len') ∧ s'.buf.length = N ∧ R s'.eng q ∧
      off' ≤ out'.length ∧ out'.length < off' + len' := by
  intro n
  induction n with
  | zero =>
    intro s out off len p hl hR hn h1 h2
    omega
  | succ n ih =>
    intro s out off len p hl hR hn h1 h2
    by_cases h : s.buf.length ≤ len
    · obtain ⟨idx, e', q, g1, g2, g3, g4⟩ := hE s.eng p hR
      simp only [drain, if_pos h]
      rw [hl, g1, ok_bind]
      simp only []
      rw [List.length_map, g2]
      rcases hd : deliver true (idx.map S) 0 out off N with e | ⟨x, y⟩
      · left
        rcases Nat.lt_or_ge out.length (off + N) with hc | hc
        · rw [deliver_over (by omega) hc] at hd; cases hd; rfl
        · obtain ⟨t, ht⟩ := move_window (idx.map S) out off N hc (by rw [List.length_map, g2])
          change secureMove _ _ _ _ _ = _ at hd
          rw [ht] at hd; cases hd
      · have hle := deliver_le hd (by omega)
        obtain ⟨k1, k2⟩ := deliver_length hd
        rw [ok_bind]
        have hx : x.length = N := by rw [k2, List.length_map, g2]
        simp only []
        rw [hx]
        exact ih ⟨x, s.pos, e'⟩ y (off + N) (len - N) q hx g4 (by omega) (by omega) (by omega)
    · right
      exact ⟨s, out, off, len, p, by simp [drain, h], hl, hR, h1, h2⟩

/-- Asking for more bytes than the output holds writes behind its end. -/
theorem generate_over (hE : Draws E N S R) (hN : 0 < N) (hN' : N < 2 ^ 64) {s : Buffered σ} {p : Nat} (hs : Ready N S R s p) (out : List Byte) (len : Nat)
    (h : out.length < len) : generate E true s out 0 len = .error .ub := by
  obtain ⟨hl, hp, idx, q, hd, hi, hR⟩ := hs
  have hsub : sub64 s.buf.length s.pos = N - s.pos := by rw [hl, sub64_le hp hN']
  have h0 : len ≠ 0 := by omega
  by_cases h1 : N - s.pos < len
  · simp only [generate, hsub, if_neg h0, if_pos h1]
    have hfirst : (if 0 < N - s.pos then deliver true s.buf s.pos out 0 (N - s.pos) else .ok (s.buf, out)) = .error .ub ∨
        ∃ b o, (if 0 < N - s.pos then deliver true s.buf s.pos out 0 (N - s.pos) else .ok (s.buf, out)) = .ok (b, o) ∧ b.length = N ∧ o.length = out.length := by
      by_cases h2 : 0 < N - s.pos
      · rw [if_pos h2]
        rcases Nat.lt_or_ge out.length (0 + (N - s.pos)) with hc | hc
        · left; exact deliver_over (by omega) hc
        · right
          have hold : Holds s.buf s.pos (s.buf.drop s.pos) := ⟨s.buf.take s.pos, [], by rw [List.append_nil, List.take_append_drop], by rw [List.length_take]; omega⟩
          obtain ⟨b, g1, g2, -⟩ := deliver_at (mv := true) (a := []) (b := out.take (N - s.pos)) (c := out.drop (N - s.pos)) (off := 0) (n := N - s.pos) hold rfl
            (by simp [hl]) (by simp [hl]; omega)
          rw [List.nil_append, List.take_append_drop] at g1
          exact ⟨b, _, g1, by rw [g2, hl], by simp [hl]; omega⟩
      · rw [if_neg h2]; right; exact ⟨s.buf, out, rfl, hl, rfl⟩
    rcases hfirst with hf | ⟨b, o, hf, hb, ho⟩
    · rw [hf]; rfl
    · rw [hf, ok_bind]
      simp only []
      rcases drain_over hE hN len ⟨b, s.pos, s.eng⟩ o 0 len q hb hR (Nat.le_refl _) (by omega) (by omega) with hg | ⟨s', out', off', len', q', g1, g2, g3, g4, g5⟩
      · rw [hg]; rfl
      · rw [g1, ok_bind]
        simp only []
        obtain ⟨idx2, e2, q2, k1, k2, k3, k4⟩ := hE s'.eng q' g3
        rw [g2, k1, ok_bind]
        simp only []
        rw [deliver_over (by omega) g5]; rfl
  · simp only [generate, hsub, if_neg h0, if_neg h1]
    rw [deliver_over h0 (by omega)]; rfl

/-- **Counterexample** (CSR.cpp:82-93, HCR.cpp:85-96): after any life, filling a part of a `std::vector` that is not all of it writes behind the end of a temporary. -/
theorem C48_csr_part_ub (S : Nat → Byte) (hN : 0 < N) (hN' : N < 2 ^ 64) {bcr : Bool} {start s : Buffered Nat} (hs : prng (source S) N 0 = .ok start)
    {outs : List (List Byte)} (h : PrngSession S bcr start outs s) (out : List Byte) (off len : Nat) (hw : off + len ≤ out.length) (ho : out.length < 2 ^ 64)
    (hp : len < out.length) : csrStd (source S) s out off len = .error .ub := by
  obtain ⟨_, q, _, _, hr⟩ := prng_session_ready hN hN' hs h
  rw [csrStd, if_neg (sub64_window hw ho), generate_over (source_draws S N) hN hN' hr _ _ (by simpa using hp)]; rfl

/-- **Counterexample** (BCR.cpp:83): an offset behind the end makes the check wrap around, and the bytes are written there. -/
theorem C48_bcr_offset_ub (S : Nat → Byte) (hN : 0 < N) (hN' : N < 2 ^ 64) {bcr : Bool} {start s : Buffered Nat} (hs : prng (source S) N 0 = .ok start)
    {outs : List (List Byte)} (h : PrngSession S bcr start outs s) (out : List Byte) (off len : Nat) (ho : out.length < off) (ho' : off < 2 ^ 64) (hl : 0 < len)
    (hl' : len ≤ 2 ^ 64 - (off - out.length)) : bcrStd (source S) s out off len = .error .ub := by
  obtain ⟨_, q, _, _, hr⟩ := prng_session_ready hN hN' hs h
  obtain ⟨s', idx, q, g1, g2, g3, g4⟩ := generate_window (source_draws S N) hN hN' hr true (List.replicate len 0) 0 len (by simp)
  rw [bcrStd, if_neg (by rw [sub64_gt ho ho']; omega), g1, ok_bind]
  simp only []
  have : deliver true (List.take 0 (List.replicate len (0 : Byte)) ++ idx.map S ++ List.drop (0 + len) (List.replicate len (0 : Byte))) 0 out off len = .error .ub :=
    deliver_over (by omega) (by omega)
  change secureMove _ _ _ _ _ = _ at this
  rw [this]; rfl

/-! ## Concrete cases -/

/-- A source whose byte number `i` is `i`. -/
def count : Nat → Byte := fun i => BitVec.ofNat 8 i

/-- A buffer of 4 bytes: 3 bytes from a new block, then 6, for which the one left in the buffer is dropped; no byte comes twice. -/
example : (do
    let (s, a) ← generate (source count) true (secureRandom 4 0) [9, 9, 9, 9, 9] 1 3
    let (_, b) ← generate (source count) false s [9, 9, 9, 9, 9, 9, 9] 0 6
    return (a, b)) = (.ok ([9, 0, 1, 2, 9], [4, 5, 6, 7, 8, 9, 9]) : M (List Byte × List Byte)) := by decide +kernel

/-- The same as a session. -/
example : ∃ s, Session (source count) (secureRandom 4 0) [[0, 1, 2]] s :=
  ⟨_, Session.call (mv := true) (out := [9, 9, 9, 9, 9]) (off := 1) (len := 3) (out' := [9, 0, 1, 2, 9]) (s' := ⟨[0, 0, 0, 3], 3, 4⟩) .nil (by decide) (by decide +kernel)⟩

/-- A `CSR` asked for 2 bytes in the middle of 4. -/
example : (do
    let s ← prng (source count) 8 0
    let (_, b) ← csrStd (source count) s [9, 9, 9, 9] 1 2
    return b) = (.error .ub : M (List Byte)) := by decide +kernel

/-- A `BCR` asked for the same. -/
example : (do
    let s ← prng (source count) 8 0
    let (_, b) ← bcrStd (source count) s [9, 9, 9, 9] 1 2
    return b) = (.ok [9, 0, 1, 9] : M (List Byte)) := by decide +kernel

end Cex.Random
