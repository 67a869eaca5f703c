import Verif.CStream.Model
import Verif.Streams.Props

/-! # What the loops of the cipher stream do -/

namespace Cex.CStream
open Cex Cex.Kdf Cex.Streams

variable {σ τ : Type}

/-- The mode computes the function `F` on whole blocks: with `Transform` wherever input and output are and whatever the output array holds, with one block per call or many. `abs` is the part of its state that matters. -/
structure Does (e : Eng σ) (abs : σ → τ) (good : τ → Prop) (F : τ → List Byte → τ × List Byte) : Prop where
  blk : 0 < e.blk
  prl : e.par = true → e.blk ≤ e.prl ∧ e.blk ∣ e.prl
  transform : ∀ s m inp io pre junk post, good (abs s) → e.blk ∣ m.length → Holds inp io m → junk.length = m.length →
    ∃ s', e.transform s inp io (pre ++ junk ++ post) pre.length m.length = .ok (s', pre ++ (F (abs s) m).2 ++ post) ∧ abs s' = (F (abs s) m).1
  keeps : ∀ t m, good t → e.blk ∣ m.length → good (F t m).1
  nil : ∀ t, good t → F t [] = (t, [])
  app : ∀ t m m', good t → e.blk ∣ m.length → e.blk ∣ m'.length → F t (m ++ m') = ((F (F t m).1 m').1, (F t m).2 ++ (F (F t m).1 m').2)
  len : ∀ t m, good t → e.blk ∣ m.length → (F t m).2.length = m.length

/-- `EncryptBlock` or `DecryptBlock` computes `F` on one block. -/
def BlockDoes (e : Eng σ) (abs : σ → τ) (good : τ → Prop) (F : τ → List Byte → τ × List Byte) : Prop :=
  ∀ s m inp io pre junk post, good (abs s) → m.length = e.blk → Holds inp io m → junk.length = m.length →
    ∃ s', e.block s inp io (pre ++ junk ++ post) pre.length = .ok (s', pre ++ (F (abs s) m).2 ++ post) ∧ abs s' = (F (abs s) m).1

/-- A counter mode computes `F` on messages of any length. -/
structure Fluid (e : Eng σ) (abs : σ → τ) (good : τ → Prop) (F : τ → List Byte → τ × List Byte) : Prop extends Does e abs good F where
  tail : ∀ s m inp io pre junk post, good (abs s) → Holds inp io m → junk.length = m.length →
    ∃ s', e.transform s inp io (pre ++ junk ++ post) pre.length m.length = .ok (s', pre ++ (F (abs s) m).2 ++ post) ∧ abs s' = (F (abs s) m).1
  append : ∀ t m m', good t → e.blk ∣ m.length → F t (m ++ m') = ((F (F t m).1 m').1, (F t m).2 ++ (F (F t m).1 m').2)
  length : ∀ t m, good t → (F t m).2.length = m.length

variable {e : Eng σ} {abs : σ → τ} {good : τ → Prop} {F : τ → List Byte → τ × List Byte}

theorem loop_ok (h : Does e abs good F) {step : Nat} (hd : e.blk ∣ step) (inp : List Byte) (io oo start : Nat) :
    ∀ (n i : Nat) (s : σ) (r a j c : List Byte), good (abs s) → r.length = n * step → Holds inp (io + (start + i * step)) r → a.length = oo + (start + i * step) → j.length = n * step →
      ∃ s', loopN n i (fun k (st : σ × List Byte) => e.transform st.1 inp (io + (start + k * step)) st.2 (oo + (start + k * step)) step) (s, a ++ j ++ c)
          = .ok (s', a ++ (F (abs s) r).2 ++ c) ∧ abs s' = (F (abs s) r).1
  | 0, i, s, r, a, j, c, hg, hr, hh, ha, hj => by
    have hr : r = [] := List.eq_nil_of_length_eq_zero (by omega)
    have hj : j = [] := List.eq_nil_of_length_eq_zero (by omega)
    subst hr; subst hj
    rw [h.nil _ hg]
    exact ⟨s, rfl, rfl⟩
  | n + 1, i, s, r, a, j, c, hg, hr, hh, ha, hj => by
    rw [Nat.succ_mul] at hr hj
    have l1 : (r.take step).length = step := by rw [List.length_take]; omega
    have l2 : (r.drop step).length = n * step := by rw [List.length_drop]; omega
    have k1 : (j.take step).length = step := by rw [List.length_take]; omega
    have k2 : (j.drop step).length = n * step := by rw [List.length_drop]; omega
    have d2 : e.blk ∣ (r.drop step).length := by rw [l2]; exact Nat.dvd_trans hd (Nat.dvd_mul_left _ _)
    obtain ⟨s1, e1, f1⟩ := h.transform s (r.take step) inp _ a (j.take step) (j.drop step ++ c) hg (by rw [l1]; exact hd) (hh.takeN step) (by rw [k1, l1])
    have hlen := h.len (abs s) (r.take step) hg (by rw [l1]; exact hd)
    have hg1 : good (abs s1) := f1 ▸ h.keeps _ _ hg (by rw [l1]; exact hd)
    obtain ⟨s2, e2, f2⟩ := loop_ok h hd inp io oo start n (i + 1) s1 (r.drop step) (a ++ (F (abs s) (r.take step)).2) (j.drop step) c hg1 l2
      (by
        have := hh.dropN (n := step) (by omega)
        rwa [show io + (start + (i + 1) * step) = io + (start + i * step) + step by rw [Nat.succ_mul]; omega])
      (by rw [List.length_append, hlen, l1, ha, Nat.succ_mul]; omega) k2
    have happ := h.app (abs s) (r.take step) (r.drop step) hg (by rw [l1]; exact hd) d2
    rw [List.take_append_drop] at happ
    refine ⟨s2, ?_, by rw [happ, f2, f1]⟩
    rw [loopN]
    have ej : a ++ j ++ c = a ++ j.take step ++ (j.drop step ++ c) := by
      rw [List.append_assoc, List.append_assoc, ← List.append_assoc (j.take step), List.take_append_drop]
    rw [l1, ha] at e1
    rw [ej, e1, ok_bind, ← List.append_assoc (a ++ _), e2, happ, f1, List.append_assoc a]

theorem loopTo_ok (h : Does e abs good F) {step : Nat} (h0 : step ≠ 0) (hd : e.blk ∣ step) (inp : List Byte) (io oo start to : Nat) (hle : start ≤ to) (hm : step ∣ to - start)
    (s : σ) (r a j c : List Byte) (hg : good (abs s)) (hr : r.length = to - start) (hh : Holds inp (io + start) r) (ha : a.length = oo + start) (hj : j.length = to - start) :
    ∃ s', loopTo step start to (fun k (st : σ × List Byte) => e.transform st.1 inp (io + k) st.2 (oo + k) step) (s, a ++ j ++ c)
          = .ok (s', a ++ (F (abs s) r).2 ++ c) ∧ abs s' = (F (abs s) r).1 := by
  have hn : (to - start) / step * step = to - start := Nat.div_mul_cancel hm
  rw [loopTo, if_pos ⟨hle, h0, Nat.mod_eq_zero_of_dvd hm⟩]
  exact loop_ok h hd inp io oo start _ 0 s r a j c hg (by omega) (by rwa [Nat.zero_mul, Nat.add_zero]) (by rwa [Nat.zero_mul, Nat.add_zero]) (by omega)

/-! ## The lengths -/

theorem aln_fwd (n b : Nat) : alnLen true n b = n / b * b := by rw [alnLen, if_pos rfl]

theorem aln_bwd {n b : Nat} (h : b ≤ n) : alnLen false n b = n / b * b - b := by rw [alnLen, if_neg (by decide), if_neg (by omega)]

theorem div_mul_mono {b p n : Nat} (hb : 0 < b) (hd : b ∣ p) : n / p * p ≤ n / b * b := by
  have h1 : n / p * p ≤ n := Nat.div_mul_le_self _ _
  obtain ⟨k, hk⟩ := Nat.dvd_trans hd (Nat.dvd_mul_left p (n / p))
  rw [hk] at h1 ⊢
  rw [Nat.mul_comm b k] at h1 ⊢
  exact Nat.mul_le_mul_right _ ((Nat.le_div_iff_mul_le hb).mpr h1)

/-- What the first two loops are given: `plen` after the first, and where the second ends. -/
structure Lens (e : Eng σ) (fwd : Bool) (n : Nat) : Prop where
  prc_le : e.par = true → e.prl < n → prcLen fwd n e.prl ≤ alnLen fwd n e.blk
  prc_dvd : e.par = true → e.prl ∣ prcLen fwd n e.prl
  aln_dvd : e.blk ∣ alnLen fwd n e.blk
  aln_le : alnLen fwd n e.blk ≤ n

theorem lens_fwd (h : Does e abs good F) (n : Nat) : Lens e true n where
  prc_le := by
    intro hp _
    rw [prcLen, if_pos (Or.inr rfl), aln_fwd]
    exact div_mul_mono h.blk (h.prl hp).2
  prc_dvd := by
    intro _
    rw [prcLen, if_pos (Or.inr rfl)]
    exact Nat.dvd_mul_left _ _
  aln_dvd := by rw [aln_fwd]; exact Nat.dvd_mul_left _ _
  aln_le := by rw [aln_fwd]; exact Nat.div_mul_le_self _ _

theorem lens_bwd (h : Does e abs good F) {n : Nat} (hn : e.blk ∣ n) (h0 : 0 < n) : Lens e false n := by
  have hb := h.blk
  have hle : e.blk ≤ n := Nat.le_of_dvd h0 hn
  have hc : n / e.blk * e.blk = n := Nat.div_mul_cancel hn
  refine ⟨?_, ?_, ?_, ?_⟩
  · intro hp hlt
    obtain ⟨h1, h2⟩ := h.prl hp
    rw [aln_bwd hle, hc, prcLen]
    split
    · rename_i hcase
      have hne : n % e.prl ≠ 0 := hcase.resolve_right (by decide)
      have hb2 : e.blk ∣ n % e.prl := by
        have : e.blk ∣ n - n / e.prl * e.prl := Nat.dvd_sub hn (Nat.dvd_trans h2 (Nat.dvd_mul_left _ _))
        rwa [show n - n / e.prl * e.prl = n % e.prl by have := Nat.div_add_mod n e.prl; rw [Nat.mul_comm] at this; omega] at this
      have := Nat.le_of_dvd (by omega) hb2
      have := Nat.div_add_mod n e.prl
      rw [Nat.mul_comm] at this
      omega
    · have := Nat.div_mul_le_self n e.prl
      omega
  · intro hp
    rw [prcLen]
    split
    · exact Nat.dvd_mul_left _ _
    · exact Nat.dvd_sub (Nat.dvd_mul_left _ _) (Nat.dvd_refl _)
  · rw [aln_bwd hle]; exact Nat.dvd_sub (Nat.dvd_mul_left _ _) (Nat.dvd_refl _)
  · rw [aln_bwd hle]; omega

theorem take_split (m : List Byte) {a b : Nat} (h : a ≤ b) : m.take b = m.take a ++ (m.drop a).take (b - a) := by
  rw [← List.take_append_drop a (m.take b), List.take_take, Nat.min_eq_left h, List.drop_take]

/-- After the loops the first `plen` bytes are done. -/
theorem arrayBody_ok (h : Does e abs good F) (fwd : Bool) (s : σ) (hg : good (abs s)) (inp : List Byte) (io : Nat) (m : List Byte) (hm : inp = inp.take io ++ m) (hio : io ≤ inp.length)
    (hl : Lens e fwd m.length)
    (a j c : List Byte) (hj : j.length = if e.blk < m.length then alnLen fwd m.length e.blk else 0) :
    ∃ s', arrayBody e fwd s inp io (a ++ j ++ c) a.length = .ok ((s', a ++ (F (abs s) (m.take j.length)).2 ++ c), j.length) ∧ abs s' = (F (abs s) (m.take j.length)).1 := by
  have hb := h.blk
  have hlen : inp.length - io = m.length := by
    have := congrArg List.length hm
    rw [List.length_append, List.length_take] at this
    omega
  have hh : Holds inp io m := ⟨inp.take io, [], by rw [List.append_nil]; exact hm, by rw [List.length_take]; omega⟩
  rw [arrayBody]
  simp only [hlen]
  by_cases hn : e.blk < m.length
  · rw [if_pos hn] at hj
    simp only [if_pos hn]
    have hdvd := hl.aln_dvd
    have hle := hl.aln_le
    have hpl := hl.prc_le
    rw [hj]
    generalize alnLen fwd m.length e.blk = aln at *
    by_cases hp : e.par = true ∧ e.prl < m.length
    · simp only [if_pos hp]
      have p1 := hpl hp.1 hp.2
      have p2 := hl.prc_dvd hp.1
      obtain ⟨q1, q2⟩ := h.prl hp.1
      have p3 := Nat.dvd_trans q2 p2
      generalize prcLen fwd m.length e.prl = prc at *
      have l1 : (m.take prc).length = prc := by rw [List.length_take]; omega
      have l2 : ((m.drop prc).take (aln - prc)).length = aln - prc := by rw [List.length_take, List.length_drop]; omega
      have k1 : (j.take prc).length = prc := by rw [List.length_take]; omega
      have k2 : (j.drop prc).length = aln - prc := by rw [List.length_drop]; omega
      obtain ⟨s1, e1, f1⟩ := loopTo_ok h (by omega) q2 inp io a.length 0 prc (by omega) (by rwa [Nat.sub_zero]) s (m.take prc) a (j.take prc) (j.drop prc ++ c) hg (by omega)
        (by rw [Nat.add_zero]; exact hh.takeN _) (by omega) (by omega)
      have hg1 : good (abs s1) := f1 ▸ h.keeps _ _ hg (by rw [l1]; exact p3)
      have ln := h.len (abs s) (m.take prc) hg (by rw [l1]; exact p3)
      obtain ⟨s2, e2, f2⟩ := loopTo_ok h (by omega) (Nat.dvd_refl _) inp io a.length prc aln p1 (Nat.dvd_sub hdvd p3) s1 ((m.drop prc).take (aln - prc)) (a ++ (F (abs s) (m.take prc)).2) (j.drop prc) c hg1 l2
        ((hh.dropN (n := prc) (by omega)).takeN _) (by rw [List.length_append]; omega) k2
      have happ := h.app (abs s) (m.take prc) ((m.drop prc).take (aln - prc)) hg (by rw [l1]; exact p3) (by rw [l2]; exact Nat.dvd_sub hdvd p3)
      rw [← take_split m p1] at happ
      have ej : a ++ j ++ c = a ++ j.take prc ++ (j.drop prc ++ c) := by
        rw [List.append_assoc, List.append_assoc, ← List.append_assoc (j.take prc), List.take_append_drop]
      refine ⟨s2, ?_, by rw [happ, f2, f1]⟩
      rw [ej, e1, ok_bind, ← List.append_assoc (a ++ _), e2, ok_bind, happ, f1, List.append_assoc a]
      rfl
    · simp only [if_neg hp]
      obtain ⟨s1, e1, f1⟩ := loopTo_ok h (by omega) (Nat.dvd_refl _) inp io a.length 0 aln (by omega) (by rwa [Nat.sub_zero]) s (m.take aln) a j c hg (by rw [List.length_take]; omega)
        (by rw [Nat.add_zero]; exact hh.takeN _) (by omega) (by omega)
      refine ⟨s1, ?_, f1⟩
      show (pure (s, a ++ j ++ c) >>= _) = _
      rw [pure_eq_ok, ok_bind, e1]; rfl
  · rw [if_neg hn] at hj
    have hj0 : j = [] := List.eq_nil_of_length_eq_zero hj
    subst hj0
    simp only [if_neg hn]
    have hp : ¬ (e.par = true ∧ e.prl < m.length) := by
      rintro ⟨x, y⟩
      have := (h.prl x).1
      omega
    simp only [if_neg hp]
    rw [List.length_nil, List.take_zero, h.nil _ hg]
    exact ⟨s, rfl, rfl⟩

/-! ## The stream version -/

theorem splice_splice (b w w' : List Byte) (n : Nat) (h : n ≤ b.length) : splice (splice b n w) (n + w.length) w' = splice b n (w ++ w') := by
  have e0 (x : List Byte) : splice b n x = b.take n ++ x ++ b.drop (n + x.length) := by
    rw [splice, show n - b.length = 0 by omega, List.replicate_zero, List.append_nil]
  have hl : (b.take n ++ w).length = n + w.length := by rw [List.length_append, List.length_take]; omega
  rw [e0 w, e0, splice, show n + w.length - (b.take n ++ w ++ b.drop (n + w.length)).length = 0 by rw [List.length_append, hl]; omega, List.replicate_zero, List.append_nil,
    List.take_append_of_le_length (by omega), List.take_of_length_le (by omega), ← List.drop_drop (i := w'.length) (j := n + w.length)]
  rw [List.drop_append, List.drop_of_length_le (l := b.take n ++ w) (by omega), List.nil_append, show n + w.length - (b.take n ++ w).length = 0 by omega, List.drop_zero, List.drop_drop, List.length_append,
    List.append_assoc (b.take n), Nat.add_assoc]

theorem read_ok (ins : MemStream) (w buf : List Byte) (hd : ins.data.length < 2 ^ 63) (hh : Holds ins.data ins.pos w) (hb : w.length ≤ buf.length) :
    ins.read buf 0 w.length = .ok (w ++ buf.drop w.length, w.length, ⟨ins.data, ins.pos + w.length⟩) := by
  have hle := hh.le
  rw [MemStream.read, sub64_le (by omega) (by omega), add64_lt (by omega)]
  simp only [Nat.zero_add, if_neg (show ¬ ins.data.length - ins.pos < w.length by omega)]
  obtain ⟨a, c, e1, e2⟩ := hh
  split
  · rw [copy_splice (by omega) (by omega), splice_in (by rw [List.length_take, List.length_drop]; omega), List.take_zero, List.nil_append, Nat.zero_add, add64_lt (by omega), ok_bind]
    have : (ins.data.drop ins.pos).take w.length = w := by rw [e1, ← e2, List.append_assoc, List.drop_left, List.take_left]
    rw [this]; rfl
  · rename_i h0
    have : w = [] := List.eq_nil_of_length_eq_zero (by omega)
    subst this
    rfl

theorem write_ok (outs : MemStream) (w post : List Byte) (h : outs.pos + w.length < 2 ^ 63) :
    outs.write (w ++ post) 0 w.length = .ok ⟨splice outs.data outs.pos w, outs.pos + w.length⟩ := by
  rw [MemStream.write, add64_lt (by omega)]
  rw [copy_splice (by rw [List.length_append]; omega) (by rw [grow_length]; omega), List.drop_zero, List.take_left, splice_grow]
  rfl

/-- What `w` more bytes of output do to the state of the loops. -/
structure Moved (r r' : Run σ) (n : Nat) (w : List Byte) : Prop where
  ins : r'.ins = ⟨r.ins.data, r.ins.pos + n⟩
  outs : r'.outs = ⟨splice r.outs.data r.outs.pos w, r.outs.pos + w.length⟩
  inp : r'.inp.length = r.inp.length
  otp : r'.otp.length = r.otp.length

theorem turn_ok (h : Does e abs good F) {step : Nat} (hd : e.blk ∣ step) (r : Run σ) (hg : good (abs r.s)) (w : List Byte) (hw : w.length = step)
    (h1 : r.ins.data.length < 2 ^ 63) (h2 : Holds r.ins.data r.ins.pos w) (h3 : r.outs.pos + step < 2 ^ 63) (h4 : step ≤ r.inp.length) (h5 : step ≤ r.otp.length) :
    ∃ r', turn e step r = .ok r' ∧ Moved r r' step (F (abs r.s) w).2 ∧ abs r'.s = (F (abs r.s) w).1 := by
  have hdw : e.blk ∣ w.length := hw ▸ hd
  have ln := h.len (abs r.s) w hg hdw
  obtain ⟨s', e1, f1⟩ := h.transform r.s w (w ++ r.inp.drop w.length) 0 [] (r.otp.take step) (r.otp.drop step) hg hdw ⟨[], r.inp.drop w.length, by rw [List.nil_append], rfl⟩ (by rw [List.length_take]; omega)
  rw [List.nil_append, List.take_append_drop, List.nil_append, List.length_nil] at e1
  have er := read_ok r.ins w r.inp h1 h2 (by omega)
  have ew := write_ok r.outs (F (abs r.s) w).2 (r.otp.drop step) (by omega)
  rw [ln] at ew
  refine ⟨⟨s', w ++ r.inp.drop w.length, (F (abs r.s) w).2 ++ r.otp.drop step, ⟨r.ins.data, r.ins.pos + step⟩, ⟨splice r.outs.data r.outs.pos (F (abs r.s) w).2, r.outs.pos + w.length⟩⟩, ?_, ⟨rfl, by rw [ln], ?_, ?_⟩, f1⟩
  · rw [turn]
    subst hw
    simp only [er, ok_bind, e1, ew, if_true, pure_eq_ok]
  · simp only [List.length_append, List.length_drop]; omega
  · simp only [List.length_append, List.length_drop]; omega

theorem Holds_pos {d : List Byte} {p : Nat} {w : List Byte} (h : Holds d p w) : p ≤ d.length := by have := h.le; omega

theorem turns_ok (h : Does e abs good F) {step : Nat} (hd : e.blk ∣ step) :
    ∀ (n i : Nat) (r : Run σ) (w : List Byte), good (abs r.s) → w.length = n * step → r.ins.data.length < 2 ^ 63 → Holds r.ins.data r.ins.pos w → r.outs.pos + n * step < 2 ^ 63 →
      r.outs.pos ≤ r.outs.data.length → (n ≠ 0 → step ≤ r.inp.length) → (n ≠ 0 → step ≤ r.otp.length) →
      ∃ r', loopN n i (fun _ r => turn e step r) r = .ok r' ∧ Moved r r' (n * step) (F (abs r.s) w).2 ∧ abs r'.s = (F (abs r.s) w).1
  | 0, i, r, w, hg, hw, h1, h2, h3, h4, h5, h6 => by
    have : w = [] := List.eq_nil_of_length_eq_zero (by omega)
    subst this
    rw [h.nil _ hg]
    exact ⟨r, rfl, ⟨by rw [Nat.zero_mul, Nat.add_zero], by rw [splice_nil_in h4]; rfl, rfl, rfl⟩, rfl⟩
  | n + 1, i, r, w, hg, hw, h1, h2, h3, h4, h5, h6 => by
    rw [Nat.succ_mul] at hw h3
    have l1 : (w.take step).length = step := by rw [List.length_take]; omega
    have l2 : (w.drop step).length = n * step := by rw [List.length_drop]; omega
    have d1 : e.blk ∣ (w.take step).length := by rw [l1]; exact hd
    have d2 : e.blk ∣ (w.drop step).length := by rw [l2]; exact Nat.dvd_trans hd (Nat.dvd_mul_left _ _)
    obtain ⟨r1, e1, m1, f1⟩ := turn_ok h hd r hg (w.take step) l1 h1 (h2.takeN _) (by omega) (h5 (by omega)) (h6 (by omega))
    have ln := h.len (abs r.s) (w.take step) hg d1
    obtain ⟨r2, e2, m2, f2⟩ := turns_ok h hd n (i + 1) r1 (w.drop step) (f1 ▸ h.keeps _ _ hg d1) l2 (by rw [m1.ins]; exact h1) (by rw [m1.ins]; exact h2.dropN (n := step) (by omega))
      (by rw [m1.outs]; simp only []; omega) (by rw [m1.outs, splice_length]; simp only []; omega) (by rw [m1.inp]; exact fun _ => h5 (by omega)) (by rw [m1.otp]; exact fun _ => h6 (by omega))
    have happ := h.app (abs r.s) (w.take step) (w.drop step) hg d1 d2
    rw [List.take_append_drop] at happ
    refine ⟨r2, ?_, ⟨?_, ?_, by rw [m2.inp, m1.inp], by rw [m2.otp, m1.otp]⟩, by rw [happ, f2, f1]⟩
    · rw [loopN, e1, ok_bind, e2]
    · rw [m2.ins, m1.ins, Nat.succ_mul]; simp only [MemStream.mk.injEq, true_and]; omega
    · rw [m2.outs, m1.outs, happ, f1]
      simp only [MemStream.mk.injEq]
      exact ⟨splice_splice _ _ _ _ h4, by rw [List.length_append]; omega⟩

theorem turnsTo_ok (h : Does e abs good F) {step : Nat} (h0 : step ≠ 0) (hd : e.blk ∣ step) (start to : Nat) (hle : start ≤ to) (hm : step ∣ to - start) (r : Run σ) (w : List Byte)
    (hg : good (abs r.s)) (hw : w.length = to - start) (h1 : r.ins.data.length < 2 ^ 63) (h2 : Holds r.ins.data r.ins.pos w) (h3 : r.outs.pos + (to - start) < 2 ^ 63)
    (h4 : r.outs.pos ≤ r.outs.data.length) (h5 : step ≤ r.inp.length) (h6 : step ≤ r.otp.length) :
    ∃ r', loopTo step start to (fun _ r => turn e step r) r = .ok r' ∧ Moved r r' (to - start) (F (abs r.s) w).2 ∧ abs r'.s = (F (abs r.s) w).1 := by
  have hn : (to - start) / step * step = to - start := Nat.div_mul_cancel hm
  rw [loopTo, if_pos ⟨hle, h0, Nat.mod_eq_zero_of_dvd hm⟩]
  have := turns_ok h hd ((to - start) / step) 0 r w hg (by omega) h1 h2 (by omega) h4 (fun _ => h5) (fun _ => h6)
  rwa [hn] at this

/-- After the loops the first part of the input is read, processed and written, and the buffers have one block. -/
theorem streamBody_ok (h : Does e abs good F) (fwd : Bool) (s : σ) (hg : good (abs s)) (ins outs : MemStream) (m : List Byte) (hm : Holds ins.data ins.pos m) (h1 : ins.data.length < 2 ^ 63)
    (h2 : outs.pos ≤ outs.data.length) (hl : Lens e fwd m.length) (q : Nat) (hq : q = if e.blk < m.length then alnLen fwd m.length e.blk else 0) (h3 : outs.pos + q < 2 ^ 63) :
    ∃ r, streamBody e fwd s ins outs m.length = .ok r ∧ r.ins = ⟨ins.data, ins.pos + q⟩ ∧ r.outs = ⟨splice outs.data outs.pos (F (abs s) (m.take q)).2, outs.pos + q⟩
      ∧ r.inp.length = e.blk ∧ r.otp.length = e.blk ∧ abs r.s = (F (abs s) (m.take q)).1 := by
  have hb := h.blk
  rw [streamBody]
  by_cases hn : e.blk < m.length
  · rw [if_pos hn] at hq
    simp only [if_pos hn]
    have hdvd := hl.aln_dvd
    have hle := hl.aln_le
    have hpl := hl.prc_le
    rw [← hq] at hdvd hle hpl ⊢
    have lq : (m.take q).length = q := by rw [List.length_take]; omega
    have lnq := h.len (abs s) (m.take q) hg (by rw [lq]; exact hdvd)
    by_cases hp : e.par = true ∧ e.prl < m.length
    · simp only [if_pos hp]
      have p1 := hpl hp.1 hp.2
      have p2 := hl.prc_dvd hp.1
      obtain ⟨q1, q2⟩ := h.prl hp.1
      have p3 := Nat.dvd_trans q2 p2
      generalize prcLen fwd m.length e.prl = prc at *
      have l1 : (m.take prc).length = prc := by rw [List.length_take]; omega
      have l2 : ((m.drop prc).take (q - prc)).length = q - prc := by rw [List.length_take, List.length_drop]; omega
      obtain ⟨r1, e1, m1, f1⟩ := turnsTo_ok h (by omega) q2 0 prc (by omega) (by rwa [Nat.sub_zero]) ⟨s, List.replicate e.prl 0, List.replicate e.prl 0, ins, outs⟩ (m.take prc) hg (by omega) h1
        (hm.takeN _) (by simp only []; omega) h2 (by simp) (by simp)
      have hg1 : good (abs r1.s) := f1 ▸ h.keeps _ _ hg (by rw [l1]; exact p3)
      have ln := h.len (abs s) (m.take prc) hg (by rw [l1]; exact p3)
      have o1 := m1.outs
      have i1 := m1.ins
      simp only [Nat.sub_zero] at o1 i1
      obtain ⟨r2, e2, m2, f2⟩ := turnsTo_ok h (by omega) (Nat.dvd_refl _) prc q p1 (Nat.dvd_sub hdvd p3) { r1 with inp := resize r1.inp e.blk, otp := resize r1.otp e.blk } ((m.drop prc).take (q - prc)) hg1 l2
        (by simp only [i1]; exact h1) (by simp only [i1]; exact (hm.dropN (n := prc) (by omega)).takeN _) (by simp only [o1]; omega) (by simp only [o1, splice_length]; omega)
        (by simp only [resize_length]; omega) (by simp only [resize_length]; omega)
      have happ := h.app (abs s) (m.take prc) ((m.drop prc).take (q - prc)) hg (by rw [l1]; exact p3) (by rw [l2]; exact Nat.dvd_sub hdvd p3)
      rw [← take_split m p1] at happ
      have o2 := m2.outs
      have i2 := m2.ins
      have b2 := m2.inp
      have c2 := m2.otp
      simp only [o1, i1, resize_length] at o2 i2 b2 c2
      refine ⟨r2, ?_, ?_, ?_, b2, c2, by rw [happ, f2, f1]⟩
      · rw [e1, ok_bind, e2]
      · rw [i2]; simp only [MemStream.mk.injEq, true_and]; omega
      · rw [o2, splice_splice _ _ _ _ h2, happ, f1]
        simp only [MemStream.mk.injEq, true_and]
        have := congrArg (fun x => x.2.length) happ
        simp only [List.length_append, lnq, lq] at this
        omega
    · simp only [if_neg hp]
      obtain ⟨r1, e1, m1, f1⟩ := turnsTo_ok h (by omega) (Nat.dvd_refl _) 0 q (by omega) (by rwa [Nat.sub_zero]) ⟨s, resize [] e.blk, resize [] e.blk, ins, outs⟩ (m.take q) hg (by omega) h1
        (hm.takeN _) (by simp only []; omega) h2 (by simp only [resize_length]; omega) (by simp only [resize_length]; omega)
      have o1 := m1.outs
      have i1 := m1.ins
      simp only [Nat.sub_zero, lnq, lq] at o1 i1
      refine ⟨r1, ?_, i1, o1, by rw [m1.inp]; exact resize_length .., by rw [m1.otp]; exact resize_length .., f1⟩
      rw [pure_eq_ok, ok_bind, e1]
  · rw [if_neg hn] at hq
    subst hq
    have hp : ¬ (e.par = true ∧ e.prl < m.length) := by
      rintro ⟨x, y⟩
      have := (h.prl x).1
      omega
    simp only [if_neg hn, if_neg hp, List.take_zero, h.nil _ hg, pure_eq_ok, ok_bind]
    exact ⟨_, rfl, rfl, by rw [splice_nil_in h2]; rfl, resize_length .., resize_length .., rfl⟩

/-! The ends of the stream version, branch by branch -/

theorem tail_done (e : Eng σ) (p : Pad) (ctr enc : Bool) (n : Nat) (r : Run σ) : streamTail e p ctr enc n n r = .ok (r.s, r.ins, r.outs) := by
  rw [streamTail, if_pos rfl]; rfl

theorem tail_dec {e : Eng σ} {p : Pad} {n aln : Nat} {r : Run σ} {x y : List Byte} {b : Nat} {i o : MemStream} {s : σ} {k : BitVec 64} (hn : aln ≠ n) (h1 : r.ins.read r.inp 0 e.blk = .ok (x, b, i))
    (h2 : e.block r.s x 0 r.otp 0 = .ok (s, y)) (h3 : p.get y = .ok k) (h4 : r.outs.write y 0 k.toNat = .ok o) : streamTail e p false false n aln r = .ok (s, i, o) := by
  rw [streamTail, if_neg hn, if_neg (by decide), if_neg (by decide), h1, ok_bind]
  show (e.block r.s x 0 r.otp 0 >>= _) = _
  rw [h2, ok_bind]
  show (p.get y >>= _) = _
  rw [h3, ok_bind]
  generalize r.outs.write y 0 k.toNat = z at h4 ⊢
  subst h4
  rfl

theorem tail_enc {e : Eng σ} {p : Pad} {n aln : Nat} {r : Run σ} {x x' y : List Byte} {b : Nat} {i o : MemStream} {s : σ} (hn : aln ≠ n) (hb : n - aln ≠ e.blk) (h1 : r.ins.read r.inp 0 (n - aln) = .ok (x, b, i))
    (h2 : p.add x b x.length = .ok x') (h3 : e.block r.s x' 0 r.otp 0 = .ok (s, y)) (h4 : r.outs.write y 0 e.blk = .ok o) : streamTail e p false true n aln r = .ok (s, i, o) := by
  rw [streamTail, if_neg hn, if_neg (by decide), if_pos rfl, h1, ok_bind]
  show ((if n - aln ≠ e.blk then p.add x b x.length else pure x) >>= _) = _
  rw [if_pos hb, h2, ok_bind]
  show (e.block r.s x' 0 r.otp 0 >>= _) = _
  rw [h3, ok_bind]
  show (r.outs.write y 0 e.blk >>= _) = _
  generalize r.outs.write y 0 e.blk = z at h4 ⊢
  subst h4
  rfl

theorem tail_ctr {e : Eng σ} {p : Pad} {enc : Bool} {n aln : Nat} {r : Run σ} {x y u v : List Byte} {b : Nat} {i o : MemStream} {s : σ} (hn : aln ≠ n) (h1 : clear r.otp 0 r.otp.length = .ok u)
    (h2 : clear r.inp 0 r.inp.length = .ok v) (h3 : r.ins.read v 0 (n - aln) = .ok (x, b, i)) (h4 : e.transform r.s x 0 u 0 b = .ok (s, y)) (h5 : r.outs.write y 0 b = .ok o) :
    streamTail e p true enc n aln r = .ok (s, i, o) := by
  rw [streamTail, if_neg hn, if_pos rfl, h1, ok_bind, h2, ok_bind, h3, ok_bind]
  show (e.transform r.s x 0 u 0 b >>= _) = _
  rw [h4, ok_bind]
  show (r.outs.write y 0 b >>= _) = _
  generalize r.outs.write y 0 b = z at h5 ⊢
  subst h5
  rfl

end Cex.CStream
