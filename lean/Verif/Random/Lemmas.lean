import Verif.Random.Model
import Verif.Random.Spec
import Verif.Streams.Props
import Verif.Buf

/-! # Lemmas: the buffered generator -/

namespace Cex.Random
open Cex Cex.Streams

theorem Incr.nil (p : Nat) : Incr p [] p := ⟨List.Pairwise.nil, by simp, by simp, Nat.le_refl _⟩

theorem Incr.append {p q r : Nat} {a b : List Nat} (ha : Incr p a q) (hb : Incr q b r) : Incr p (a ++ b) r where
  sorted := List.pairwise_append.mpr ⟨ha.sorted, hb.sorted, fun x hx y hy => Nat.lt_of_lt_of_le (ha.high x hx) (hb.low y hy)⟩
  low i hi := by
    rcases List.mem_append.mp hi with h | h
    · exact ha.low i h
    · exact Nat.le_trans ha.le (hb.low i h)
  high i hi := by
    rcases List.mem_append.mp hi with h | h
    · exact Nat.lt_of_lt_of_le (ha.high i h) hb.le
    · exact hb.high i h
  le := Nat.le_trans ha.le hb.le

theorem Incr.weaken {p p' q : Nat} {a : List Nat} (ha : Incr p a q) (h : p' ≤ p) : Incr p' a q :=
  ⟨ha.sorted, fun i hi => Nat.le_trans h (ha.low i hi), ha.high, Nat.le_trans h ha.le⟩

/-- Cut a run of positions in two. -/
theorem Incr.split {p q : Nat} {a : List Nat} (ha : Incr p a q) (n : Nat) : ∃ m, Incr p (a.take n) m ∧ Incr m (a.drop n) q := by
  have e := List.take_append_drop n a
  have hs := ha.sorted
  rw [← e, List.pairwise_append] at hs
  rcases h : a.drop n with _ | ⟨y, ys⟩
  · have : a.take n = a := by rw [h, List.append_nil] at e; exact e
    refine ⟨q, ?_, Incr.nil q⟩
    rw [this]; exact ha
  · rw [h] at hs
    have hy : y ∈ a := by rw [← e, h]; simp
    refine ⟨y, ⟨hs.1, fun i hi => ha.low i (List.mem_of_mem_take hi), fun i hi => hs.2.2 i hi y (by simp), ha.low y hy⟩, ?_⟩
    refine ⟨hs.2.1, fun i hi => ?_, fun i hi => ha.high i ?_, Nat.le_of_lt (ha.high y hy)⟩
    · rcases List.mem_cons.mp hi with rfl | h'
      · exact Nat.le_refl _
      · exact Nat.le_of_lt ((List.pairwise_cons.mp hs.2.1).1 i h')
    · rw [← e, h]; exact List.mem_append_right _ hi

/-- The engine in state `e` delivers bytes of the sequence `S` from position `p` on; `R` holds the states. -/
def Draws {σ : Type} (E : Engine σ) (N : Nat) (S : Nat → Byte) (R : σ → Nat → Prop) : Prop :=
  ∀ e p, R e p → ∃ idx e' q, E.gen e N = .ok (idx.map S, e') ∧ idx.length = N ∧ Incr p idx q ∧ R e' q

/-- A generator whose buffered bytes, and those to come, are bytes of `S` from position `p` on. -/
def Ready {σ : Type} (N : Nat) (S : Nat → Byte) (R : σ → Nat → Prop) (s : Buffered σ) (p : Nat) : Prop :=
  s.buf.length = N ∧ s.pos ≤ N ∧ ∃ idx q, s.buf.drop s.pos = idx.map S ∧ Incr p idx q ∧ R s.eng q

theorem deliver_at {mv : Bool} {src a b c s : List Byte} {so off n : Nat} (hs : Holds src so s) (ho : off = a.length)
    (hn : n = s.length) (hb : b.length = s.length) :
    ∃ src', deliver mv src so (a ++ b ++ c) off n = .ok (src', a ++ s ++ c) ∧ src'.length = src.length ∧ src'.drop (so + n) = src.drop (so + n) := by
  cases mv
  · refine ⟨src, ?_, rfl, rfl⟩
    show secureCopy src so (a ++ b ++ c) off n = _
    rw [secureCopy, copy_at hs ho hn hb]; rfl
  · by_cases h0 : n = 0
    · refine ⟨src, ?_, rfl, rfl⟩
      show secureMove src so (a ++ b ++ c) off n = _
      rw [secureMove, copy_at hs ho hn hb, ok_bind, clear, if_pos h0]; rfl
    · obtain ⟨x, z, rfl, hx⟩ := hs
      refine ⟨x ++ List.replicate n 0 ++ z, ?_, by simp [hn], ?_⟩
      · show secureMove _ so (a ++ b ++ c) off n = _
        rw [secureMove, copy_at ⟨x, z, rfl, hx⟩ ho hn hb, ok_bind, clear, if_neg h0, blit_at hx.symm (by simp [hn])]; rfl
      · rw [List.drop_append, List.drop_append (l₁ := x ++ s)]
        simp [← hx, hn]

variable {σ : Type} {E : Engine σ} {N : Nat} {S : Nat → Byte} {R : σ → Nat → Prop} {mv : Bool}

theorem drain_ok (hE : Draws E N S R) (hN : 0 < N) :
    ∀ (n : Nat) (s : Buffered σ) (a b c : List Byte) (p : Nat), s.buf.length = N → R s.eng p → b.length ≤ n →
      ∃ s' idx q w, drain E mv n s (a ++ b ++ c) a.length b.length = .ok (s', a ++ idx.map S ++ w ++ c, a.length + idx.length, w.length) ∧
        idx.length + w.length = b.length ∧ w.length < N ∧ s'.buf.length = N ∧ Incr p idx q ∧ R s'.eng q := by
  intro n
  induction n with
  | zero =>
    intro s a b c p hl hR hb
    have : ¬ s.buf.length ≤ b.length := by omega
    exact ⟨s, [], p, b, by simp [drain, this], by simp, by omega, hl, Incr.nil p, hR⟩
  | succ n ih =>
    intro s a b c p hl hR hb
    by_cases h : s.buf.length ≤ b.length
    · obtain ⟨idx, e', q, h1, h2, h3, h4⟩ := hE s.eng p hR
      have e : a ++ b ++ c = a ++ b.take N ++ (b.drop N ++ c) := by
        rw [List.append_assoc, List.append_assoc, ← List.append_assoc (b.take N), List.take_append_drop]
      obtain ⟨src', h5, h6, h7⟩ := deliver_at (mv := mv) (a := a) (b := b.take N) (c := b.drop N ++ c) (off := a.length) (Holds.self (idx.map S)) rfl rfl
        (by simp [List.length_take, h2]; omega)
      have hlen : src'.length = N := by rw [h6, List.length_map, h2]
      obtain ⟨s', idx', q', w, g1, g2, g3, g4, g5, g6⟩ := ih ⟨src', s.pos, e'⟩ (a ++ idx.map S) (b.drop N) c q hlen h4 (by rw [List.length_drop]; omega)
      refine ⟨s', idx ++ idx', q', w, ?_, ?_, g3, g4, h3.append g5, g6⟩
      · have g1' := g1
        rw [List.length_append, List.length_map, h2, List.length_drop, List.append_assoc (a ++ idx.map S)] at g1'
        simp only [drain, if_pos h]
        rw [hl, h1, ok_bind]
        simp only []
        rw [e, h5, ok_bind]
        simp only []
        rw [hlen, g1']
        simp [List.append_assoc, h2, Nat.add_assoc]
      · rw [List.length_append, h2, Nat.add_assoc, g2, List.length_drop]; omega
    · exact ⟨s, [], p, b, by simp [drain, h], by simp, by omega, hl, Incr.nil p, hR⟩

/-- One call of `Generate` on a window of the output. -/
theorem generate_ok (hE : Draws E N S R) (hN : 0 < N) (hN' : N < 2 ^ 64) (s : Buffered σ) (p : Nat) (hs : Ready N S R s p) (a b c : List Byte) :
    ∃ s' idx q, generate E mv s (a ++ b ++ c) a.length b.length = .ok (s', a ++ idx.map S ++ c) ∧ idx.length = b.length ∧
      Incr p idx q ∧ Ready N S R s' q := by
  obtain ⟨hl, hp, idx, q, hd, hi, hR⟩ := hs
  have hsub : sub64 s.buf.length s.pos = N - s.pos := by rw [hl, sub64_le hp hN']
  have hlen : idx.length = N - s.pos := by
    have := congrArg List.length hd
    simpa [hl] using this.symm
  by_cases h0 : b.length = 0
  · have : b = [] := List.length_eq_zero_iff.mp h0
    subst this
    exact ⟨s, [], p, by simp [generate], rfl, Incr.nil p, hl, hp, idx, q, hd, hi, hR⟩
  · by_cases h1 : N - s.pos < b.length
    · -- the buffer does not hold enough
      have hfirst : ∃ b' w, (if 0 < N - s.pos then deliver mv s.buf s.pos (a ++ b ++ c) a.length (N - s.pos) else .ok (s.buf, a ++ b ++ c)) =
          .ok (b', a ++ w ++ c) ∧ b'.length = N ∧ w.length = b.length := by
        by_cases h2 : 0 < N - s.pos
        · rw [if_pos h2]
          have e : a ++ b ++ c = a ++ b.take (N - s.pos) ++ (b.drop (N - s.pos) ++ c) := by
            rw [List.append_assoc, List.append_assoc, ← List.append_assoc (b.take _), List.take_append_drop]
          have hold : Holds s.buf s.pos (idx.map S) := ⟨s.buf.take s.pos, [], by rw [List.append_nil, ← hd, List.take_append_drop],
            by rw [List.length_take]; omega⟩
          obtain ⟨src', g1, g2, -⟩ := deliver_at (mv := mv) (a := a) (b := b.take (N - s.pos)) (c := b.drop (N - s.pos) ++ c) (off := a.length)
            (n := N - s.pos) hold rfl (by simp [hlen]) (by simp [List.length_take, hlen]; omega)
          refine ⟨src', idx.map S ++ b.drop (N - s.pos), ?_, by rw [g2, hl], by simp [hlen]; omega⟩
          rw [e, g1]; simp [List.append_assoc]
        · rw [if_neg h2]; exact ⟨s.buf, b, rfl, hl, rfl⟩
      obtain ⟨b', w, f1, f2, f3⟩ := hfirst
      obtain ⟨s1, idx1, q1, w1, g1, g2, g3, g4, g5, g6⟩ := drain_ok (mv := mv) hE hN b.length ⟨b', s.pos, s.eng⟩ a w c q f2 hR (by omega)
      rw [f3] at g1
      obtain ⟨idx2, e2, q2, k1, k2, k3, k4⟩ := hE s1.eng q1 g6
      obtain ⟨m, m1, m2⟩ := k3.split w1.length
      have hold : Holds (idx2.map S) 0 ((idx2.take w1.length).map S) := ⟨[], (idx2.drop w1.length).map S, by
        rw [List.nil_append, ← List.map_append, List.take_append_drop], rfl⟩
      have hl2 : (idx2.take w1.length).length = w1.length := by rw [List.length_take, k2]; omega
      obtain ⟨b2, n1, n2, n3⟩ := deliver_at (mv := mv) (a := a ++ idx1.map S) (b := w1) (c := c) (off := a.length + idx1.length) (n := w1.length)
        hold (by simp) (by rw [List.length_map, hl2]) (by rw [List.length_map, hl2])
      refine ⟨⟨b2, w1.length, e2⟩, idx1 ++ idx2.take w1.length, m, ?_, ?_, ?_, ?_, ?_, idx2.drop w1.length, q2, ?_, m2, k4⟩
      · simp only [generate, hsub, if_neg h0, if_pos h1]
        rw [f1, ok_bind]
        simp only []
        rw [g1, ok_bind]
        simp only []
        rw [g4, k1, ok_bind]
        simp only []
        rw [n1, ok_bind]
        simp [List.append_assoc]
      · rw [List.length_append, hl2]; omega
      · exact (g5.append m1).weaken hi.le
      · simp only []; rw [n2, List.length_map, k2]
      · simp only []; omega
      · simp only []; rw [Nat.zero_add] at n3; rw [n3, List.map_drop]
    · -- served from the buffer
      obtain ⟨m, m1, m2⟩ := hi.split b.length
      have hold : Holds s.buf s.pos ((idx.take b.length).map S) := ⟨s.buf.take s.pos, (idx.drop b.length).map S, by
        rw [List.append_assoc, ← List.map_append, List.take_append_drop, ← hd, List.take_append_drop], by rw [List.length_take]; omega⟩
      have hl2 : (idx.take b.length).length = b.length := by rw [List.length_take]; omega
      obtain ⟨b2, n1, n2, n3⟩ := deliver_at (mv := mv) (a := a) (b := b) (c := c) (off := a.length) (n := b.length) hold rfl
        (by rw [List.length_map, hl2]) (by rw [List.length_map, hl2])
      refine ⟨⟨b2, s.pos + b.length, s.eng⟩, idx.take b.length, m, ?_, hl2, m1, ?_, ?_, idx.drop b.length, q, ?_, m2, hR⟩
      · simp only [generate, hsub, if_neg h0, if_neg h1]
        rw [n1, ok_bind]; rfl
      · simp only []; rw [n2, hl]
      · simp only []; omega
      · simp only []; rw [n3, ← List.drop_drop, hd, List.map_drop]

end Cex.Random
