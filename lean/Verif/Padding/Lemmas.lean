import Verif.Padding.Model
import Verif.Padding.Spec
import Verif.IntTools.Props

namespace Cex.Padding
open Cex Cex.IntTools

/-- A fill loop writing `g i` at every index of a window. -/
theorem fill_loop (g : Nat → Byte) (pre : List Byte) : ∀ (n : Nat) (done win post : List Byte), win.length = n →
    loopN n (pre.length + done.length) (fun i b => wr b i (g i)) (pre ++ done ++ win ++ post) =
      .ok (pre ++ done ++ (List.range n).map (fun i => g (pre.length + done.length + i)) ++ post) := by
  intro n
  induction n with
  | zero =>
    intro done win post h
    have : win = [] := by simpa using h
    subst this; simp [loopN]
  | succ n ih =>
    intro done win post h
    cases win with
    | nil => simp at h
    | cons x win =>
      have hw : ∀ v, wr (pre ++ done ++ (x :: win) ++ post) (pre.length + done.length) v =
          .ok (pre ++ (done ++ [v]) ++ win ++ post) := by
        intro v
        have : wr ([x] ++ win ++ post) 0 v = .ok ([v] ++ win ++ post) := rfl
        have := wr_append_right (pre ++ done) _ _ 0 v this
        simpa using this
      simp only [loopN, hw, ok_bind]
      have := ih (done ++ [g (pre.length + done.length)]) win post (by simpa using h)
      rw [List.length_append, List.length_singleton, ← Nat.add_assoc] at this
      rw [this, List.range_succ_eq_map]
      simp [Nat.add_assoc, Nat.add_comm 1]

theorem fill_loop' (g : Nat → Byte) (pre win post : List Byte) :
    loopN win.length pre.length (fun i b => wr b i (g i)) (pre ++ win ++ post) =
      .ok (pre ++ (List.range win.length).map (fun i => g (pre.length + i)) ++ post) := by
  have := fill_loop g pre win.length [] win post rfl
  simpa using this

theorem finish_eq (acc L pos : BitVec 64) : finish acc L pos = if acc = 0 then pos else L := by
  rw [finish, C05_select 6 (w := 64) rfl]
  by_cases h : acc = 0 <;> simp [h]

theorem geMask_eq (x y : BitVec 64) : geMask x y = if y ≤ x then BitVec.allOnes 8 else 0 := by
  rw [geMask, expandMask_ofBool 3 (w := 8) rfl]; simp

theorem setWidth64_eq_zero (z : Byte) : z.setWidth 64 = 0 ↔ z = 0 := by
  constructor
  · intro h
    have := congrArg BitVec.toNat h
    rw [setWidth_byte_toNat _ (by decide)] at this
    exact BitVec.eq_of_toNat_eq this
  · rintro rfl; rfl

/-- Accumulating loops. -/
theorem downLoop_or (stop : Nat) (f : Nat → BitVec 64 → M (BitVec 64)) (g : Nat → BitVec 64) :
    ∀ (start : Nat), stop ≤ start → (∀ c acc, stop < c → c ≤ start → f c acc = .ok (acc ||| g c)) →
    ∀ acc, ∃ r, downLoop stop f start acc = .ok r ∧
      (r = 0 ↔ acc = 0 ∧ ∀ c, stop < c → c ≤ start → g c = 0) := by
  intro start
  induction start with
  | zero =>
    intro h _ acc
    have : stop = 0 := by omega
    subst this
    exact ⟨acc, by simp [downLoop], by simp; intros; omega⟩
  | succ n ih =>
    intro h hf acc
    by_cases hs : stop = n + 1
    · refine ⟨acc, by simp [downLoop, hs], ?_⟩
      constructor
      · intro h0; exact ⟨h0, fun c h1 h2 => by omega⟩
      · exact fun h0 => h0.1
    · obtain ⟨r, h1, h2⟩ := ih (by omega) (fun c acc h3 h4 => hf c acc h3 (by omega)) (acc ||| g (n + 1))
      refine ⟨r, ?_, ?_⟩
      · simp only [downLoop, if_neg hs, hf (n + 1) acc (by omega) (by omega), ok_bind, h1]
      · rw [h2, or_eq_zero_iff]
        constructor
        · rintro ⟨⟨ha, hb⟩, hc⟩
          refine ⟨ha, fun c h3 h4 => ?_⟩
          by_cases hcn : c = n + 1
          · rw [hcn]; exact hb
          · exact hc c h3 (by omega)
        · rintro ⟨ha, hc⟩
          exact ⟨⟨ha, hc (n + 1) (by omega) (by omega)⟩, fun c h3 h4 => hc c h3 (by omega)⟩

theorem ofNat64_toNat {n : Nat} (h : n < 2 ^ 64) : (BitVec.ofNat 64 n).toNat = n := by
  rw [BitVec.toNat_ofNat, Nat.mod_eq_of_lt h]

theorem pos_toNat {len : Nat} (h : len < 2 ^ 64) (fnl : Byte) (hf : fnl.toNat ≤ len) :
    (BitVec.ofNat 64 len - fnl.setWidth 64) = BitVec.ofNat 64 (len - fnl.toNat) := by
  apply BitVec.eq_of_toNat_eq
  rw [BitVec.toNat_sub, setWidth_byte_toNat _ (by decide), ofNat64_toNat h, ofNat64_toNat (by omega)]
  omega

theorem acc0_eq_zero {len : Nat} (h : len < 2 ^ 64) (fnl : Byte) :
    expandMask 6 (ofBool 64 (decide (BitVec.ofNat 64 len < fnl.setWidth 64))) = 0 ↔ fnl.toNat ≤ len := by
  rw [expandMask_ofBool 6 (w := 64) rfl]
  have : (BitVec.ofNat 64 len < fnl.setWidth 64) ↔ len < fnl.toNat := by
    rw [BitVec.lt_def, setWidth_byte_toNat _ (by decide), ofNat64_toNat h]
  simp only [decide_eq_true_iff, this]
  split
  · constructor
    · intro e; exact absurd e (by decide)
    · omega
  · constructor
    · omega
    · intro _; rfl

/-- `(~m) & guard`, as a 64-bit accumulator contribution, is zero iff the guard is off or the check holds. -/
theorem contrib_zero (p q : Prop) [Decidable p] [Decidable q] :
    (((~~~ (if p then BitVec.allOnes 8 else 0)) &&& (if q then BitVec.allOnes 8 else 0)).setWidth 64 = 0#64) ↔ (q → p) := by
  by_cases hp : p <;> by_cases hq : q <;> simp [hp, hq] <;> decide

/-- PKCS7 and X9.23 readers: exact result. -/
theorem pkcs7Core_eq (inp : List Byte) (stop len : Nat) (h2 : 2 ≤ len) (hl : len ≤ inp.length) (hs : stop ≤ len - 2)
    (h64 : len < 2 ^ 64) (fnl : Byte) (hfnl : inp[len - 1]? = some fnl) :
    ∃ r, pkcs7Core inp stop len = .ok r ∧
      ((fnl.toNat ≤ len ∧ (∀ c, stop < c → c ≤ len - 2 → len - fnl.toNat ≤ c → inp[c]? = some fnl) ∧
          r = BitVec.ofNat 64 (len - fnl.toNat)) ∨
       (¬ (fnl.toNat ≤ len ∧ (∀ c, stop < c → c ≤ len - 2 → len - fnl.toNat ≤ c → inp[c]? = some fnl)) ∧
          r = BitVec.ofNat 64 len)) := by
  have hrd : rd inp (len - 1) = .ok fnl := by simp [rd, hfnl]
  obtain ⟨acc, h1, h3⟩ := downLoop_or stop (pkcs7Body inp fnl (BitVec.ofNat 64 len - fnl.setWidth 64))
    (fun c => ((~~~ isEqual 3 (inp[c]?.getD 0) fnl) &&&
      geMask (BitVec.ofNat 64 c) (BitVec.ofNat 64 len - fnl.setWidth 64)).setWidth 64) (len - 2) hs
    (by
      intro c acc hc1 hc2
      have hc : c < inp.length := by omega
      simp only [pkcs7Body, rd_ok hc, ok_bind, pure_eq_ok, List.getElem?_eq_getElem hc, Option.getD_some])
    (expandMask 6 (ofBool 64 (decide (BitVec.ofNat 64 len < fnl.setWidth 64))))
  have hres : pkcs7Core inp stop len = .ok (finish acc (BitVec.ofNat 64 len) (BitVec.ofNat 64 len - fnl.setWidth 64)) := by
    simp only [pkcs7Core, if_neg (show ¬ len = 0 by omega), if_neg (show ¬ len = 1 by omega), hrd, ok_bind, h1, pure_eq_ok]
  rw [acc0_eq_zero h64] at h3
  refine ⟨_, hres, ?_⟩
  rw [finish_eq]
  have key : fnl.toNat ≤ len → ((∀ c, stop < c → c ≤ len - 2 →
      ((~~~ isEqual 3 (inp[c]?.getD 0) fnl) &&&
      geMask (BitVec.ofNat 64 c) (BitVec.ofNat 64 len - fnl.setWidth 64)).setWidth 64 = 0#64) ↔
      (∀ c, stop < c → c ≤ len - 2 → len - fnl.toNat ≤ c → inp[c]? = some fnl)) := by
    intro hf
    apply forall_congr'; intro c
    apply forall_congr'; intro hc1
    apply forall_congr'; intro hc2
    have hc : c < inp.length := by omega
    rw [(C05_masks 3 (w := 8) rfl _ fnl).2.2.1, geMask_eq, contrib_zero, pos_toNat h64 fnl hf, BitVec.le_def,
      ofNat64_toNat (by omega), ofNat64_toNat (by omega), List.getElem?_eq_getElem hc]
    simp
  by_cases hcond : fnl.toNat ≤ len ∧ (∀ c, stop < c → c ≤ len - 2 → len - fnl.toNat ≤ c → inp[c]? = some fnl)
  · left
    refine ⟨hcond.1, hcond.2, ?_⟩
    rw [if_pos (h3.mpr ⟨hcond.1, (key hcond.1).mpr hcond.2⟩), pos_toNat h64 fnl hcond.1]
  · right
    refine ⟨hcond, ?_⟩
    rw [if_neg]
    intro h
    have := h3.mp h
    exact hcond ⟨this.1, (key this.1).mp this.2⟩

theorem x923Core_eq (inp : List Byte) (stop len : Nat) (h2 : 2 ≤ len) (hl : len ≤ inp.length) (hs : stop ≤ len - 2)
    (h64 : len < 2 ^ 64) (fnl : Byte) (hfnl : inp[len - 1]? = some fnl) :
    ∃ r, x923Core inp stop len = .ok r ∧
      ((fnl.toNat ≤ len ∧ (∀ c, stop < c → c ≤ len - 2 → len - fnl.toNat ≤ c → inp[c]? = some 0) ∧
          r = BitVec.ofNat 64 (len - fnl.toNat)) ∨
       (¬ (fnl.toNat ≤ len ∧ (∀ c, stop < c → c ≤ len - 2 → len - fnl.toNat ≤ c → inp[c]? = some 0)) ∧
          r = BitVec.ofNat 64 len)) := by
  have hrd : rd inp (len - 1) = .ok fnl := by simp [rd, hfnl]
  obtain ⟨acc, h1, h3⟩ := downLoop_or stop (x923Body inp (BitVec.ofNat 64 len - fnl.setWidth 64))
    (fun c => ((~~~ isZero 3 (inp[c]?.getD 0)) &&&
      geMask (BitVec.ofNat 64 c) (BitVec.ofNat 64 len - fnl.setWidth 64)).setWidth 64) (len - 2) hs
    (by
      intro c acc hc1 hc2
      have hc : c < inp.length := by omega
      simp only [x923Body, rd_ok hc, ok_bind, pure_eq_ok, List.getElem?_eq_getElem hc, Option.getD_some])
    (expandMask 6 (ofBool 64 (decide (BitVec.ofNat 64 len < fnl.setWidth 64))))
  have hres : x923Core inp stop len = .ok (finish acc (BitVec.ofNat 64 len) (BitVec.ofNat 64 len - fnl.setWidth 64)) := by
    simp only [x923Core, if_neg (show ¬ len = 0 by omega), if_neg (show ¬ len = 1 by omega), hrd, ok_bind, h1, pure_eq_ok]
  rw [acc0_eq_zero h64] at h3
  refine ⟨_, hres, ?_⟩
  rw [finish_eq]
  have key : fnl.toNat ≤ len → ((∀ c, stop < c → c ≤ len - 2 →
      ((~~~ isZero 3 (inp[c]?.getD 0)) &&&
      geMask (BitVec.ofNat 64 c) (BitVec.ofNat 64 len - fnl.setWidth 64)).setWidth 64 = 0#64) ↔
      (∀ c, stop < c → c ≤ len - 2 → len - fnl.toNat ≤ c → inp[c]? = some 0)) := by
    intro hf
    apply forall_congr'; intro c
    apply forall_congr'; intro hc1
    apply forall_congr'; intro hc2
    have hc : c < inp.length := by omega
    rw [(C05_masks 3 (w := 8) rfl _ fnl).2.1, geMask_eq, contrib_zero, pos_toNat h64 fnl hf, BitVec.le_def,
      ofNat64_toNat (by omega), ofNat64_toNat (by omega), List.getElem?_eq_getElem hc]
    simp
  by_cases hcond : fnl.toNat ≤ len ∧ (∀ c, stop < c → c ≤ len - 2 → len - fnl.toNat ≤ c → inp[c]? = some 0)
  · left
    refine ⟨hcond.1, hcond.2, ?_⟩
    rw [if_pos (h3.mpr ⟨hcond.1, (key hcond.1).mpr hcond.2⟩), pos_toNat h64 fnl hcond.1]
  · right
    refine ⟨hcond, ?_⟩
    rw [if_neg]
    intro h
    have := h3.mp h
    exact hcond ⟨this.1, (key this.1).mp this.2⟩

theorem espCore_eq (inp : List Byte) (stop len : Nat) (h2 : 1 ≤ len) (hl : len ≤ inp.length) (hs : stop ≤ len - 1)
    (h64 : len < 2 ^ 64) (fnl : Byte) (hfnl : inp[len - 1]? = some fnl) :
    ∃ r, espCore inp stop len = .ok r ∧
      ((fnl.toNat ≤ len ∧ (∀ c, stop < c → c ≤ len - 1 → len - fnl.toNat < c →
            inp[c - 1]? = inp[c]?.map (· - 1)) ∧
          r = BitVec.ofNat 64 (len - fnl.toNat)) ∨
       (¬ (fnl.toNat ≤ len ∧ (∀ c, stop < c → c ≤ len - 1 → len - fnl.toNat < c →
            inp[c - 1]? = inp[c]?.map (· - 1))) ∧
          r = BitVec.ofNat 64 len)) := by
  have hrd : rd inp (len - 1) = .ok fnl := by simp [rd, hfnl]
  obtain ⟨acc, h1, h3⟩ := downLoop_or stop (espBody inp (BitVec.ofNat 64 len - fnl.setWidth 64))
    (fun c => ((~~~ isEqual 3 (inp[c - 1]?.getD 0) (inp[c]?.getD 0 - 1)) &&&
      expandMask 3 (ofBool 8 (decide (BitVec.ofNat 64 len - fnl.setWidth 64 < BitVec.ofNat 64 c)))).setWidth 64) (len - 1) hs
    (by
      intro c acc hc1 hc2
      have hc : c < inp.length := by omega
      have hc' : c - 1 < inp.length := by omega
      simp only [espBody, rd_ok hc, rd_ok hc', ok_bind, pure_eq_ok, List.getElem?_eq_getElem hc,
        List.getElem?_eq_getElem hc', Option.getD_some])
    (expandMask 6 (ofBool 64 (decide (BitVec.ofNat 64 len < fnl.setWidth 64))))
  have hres : espCore inp stop len = .ok (finish acc (BitVec.ofNat 64 len) (BitVec.ofNat 64 len - fnl.setWidth 64)) := by
    simp only [espCore, if_neg (show ¬ len = 0 by omega), hrd, ok_bind, h1, pure_eq_ok]
  rw [acc0_eq_zero h64] at h3
  refine ⟨_, hres, ?_⟩
  rw [finish_eq]
  have key : fnl.toNat ≤ len → ((∀ c, stop < c → c ≤ len - 1 →
      ((~~~ isEqual 3 (inp[c - 1]?.getD 0) (inp[c]?.getD 0 - 1)) &&&
      expandMask 3 (ofBool 8 (decide (BitVec.ofNat 64 len - fnl.setWidth 64 < BitVec.ofNat 64 c)))).setWidth 64 = 0#64) ↔
      (∀ c, stop < c → c ≤ len - 1 → len - fnl.toNat < c → inp[c - 1]? = inp[c]?.map (· - 1))) := by
    intro hf
    apply forall_congr'; intro c
    apply forall_congr'; intro hc1
    apply forall_congr'; intro hc2
    have hc : c < inp.length := by omega
    have hc' : c - 1 < inp.length := by omega
    rw [(C05_masks 3 (w := 8) rfl _ _).2.2.1, expandMask_ofBool 3 (w := 8) rfl, contrib_zero, pos_toNat h64 fnl hf, decide_eq_true_iff, BitVec.lt_def,
      ofNat64_toNat (by omega), ofNat64_toNat (by omega), List.getElem?_eq_getElem hc, List.getElem?_eq_getElem hc']
    simp
  by_cases hcond : fnl.toNat ≤ len ∧ (∀ c, stop < c → c ≤ len - 1 → len - fnl.toNat < c → inp[c - 1]? = inp[c]?.map (· - 1))
  · left
    refine ⟨hcond.1, hcond.2, ?_⟩
    rw [if_pos (h3.mpr ⟨hcond.1, (key hcond.1).mpr hcond.2⟩), pos_toNat h64 fnl hcond.1]
  · right
    refine ⟨hcond, ?_⟩
    rw [if_neg]
    intro h
    have := h3.mp h
    exact hcond ⟨this.1, (key this.1).mp this.2⟩

theorem zeroOneBody_seen (inp : List Byte) (ctr : Nat) (s : ZS) (hc : ctr - 1 < inp.length)
    (hs : s.seen = BitVec.allOnes 8) : zeroOneBody inp ctr s = .ok s := by
  simp only [zeroOneBody, rd_ok hc, ok_bind, pure_eq_ok, hs, BitVec.allOnes_or]
  cases s
  simp_all [select]

theorem zeroOne_seen (inp : List Byte) (stop : Nat) : ∀ (c : Nat) (s : ZS), stop ≤ c → c ≤ inp.length →
    s.seen = BitVec.allOnes 8 → downLoop stop (zeroOneBody inp) c s = .ok s := by
  intro c
  induction c with
  | zero => intro s h _ _; have : stop = 0 := by omega
            simp [downLoop, this]
  | succ c ih =>
    intro s h hl hs
    by_cases he : stop = c + 1
    · simp [downLoop, he]
    · simp only [downLoop, if_neg he, zeroOneBody_seen inp (c + 1) s (by omega) hs, ok_bind]
      exact ih s (by omega) (by omega) hs

theorem zeroOne_bad (inp : List Byte) (stop : Nat) : ∀ (c : Nat) (s : ZS), stop ≤ c → c ≤ inp.length →
    s.inp ≠ 0 → ∃ t, downLoop stop (zeroOneBody inp) c s = .ok t ∧ t.inp ≠ 0 := by
  intro c
  induction c with
  | zero => intro s h _ hs; have : stop = 0 := by omega
            exact ⟨s, by simp [downLoop, this], hs⟩
  | succ c ih =>
    intro s h hl hs
    by_cases he : stop = c + 1
    · exact ⟨s, by simp [downLoop, he], hs⟩
    · have hb : ∃ t, zeroOneBody inp (c + 1) s = .ok t ∧ t.inp ≠ 0 := by
        refine ⟨_, by simp only [zeroOneBody, rd_ok (show c + 1 - 1 < inp.length by omega), ok_bind, pure_eq_ok]; rfl, ?_⟩
        intro h0
        exact hs ((or_eq_zero_iff _ _).mp h0).1
      obtain ⟨t, h1, h2⟩ := hb
      simp only [downLoop, if_neg he, h1, ok_bind]
      exact ih t (by omega) (by omega) h2

/-- Index of the pad marker: 0x80 at `i`, zeros after it up to `len`. -/
def MarkerAt (inp : List Byte) (len i : Nat) : Prop :=
  i < len ∧ inp[i]? = some 0x80 ∧ ∀ j, i < j → j < len → inp[j]? = some 0

theorem zeroOne_scan (inp : List Byte) (stop : Nat) : ∀ (c : Nat), stop ≤ c → c ≤ inp.length →
    ∃ t, downLoop stop (zeroOneBody inp) c { inp := 0, seen := 0, pos := BitVec.ofNat 64 c - 1 } = .ok t ∧
      ((t.inp ||| ~~~ t.seen = 0 ∧ ∃ i, stop ≤ i ∧ MarkerAt inp c i ∧ t.pos = BitVec.ofNat 64 i) ∨
       (t.inp ||| ~~~ t.seen ≠ 0 ∧ ¬ ∃ i, stop ≤ i ∧ MarkerAt inp c i)) := by
  intro c
  induction c with
  | zero =>
    intro h _
    have : stop = 0 := by omega
    refine ⟨_, by simp [downLoop, this]; rfl, Or.inr ⟨by decide, ?_⟩⟩
    rintro ⟨i, _, h1, _⟩; omega
  | succ c ih =>
    intro h hl
    by_cases he : stop = c + 1
    · refine ⟨_, by simp [downLoop, he]; rfl, Or.inr ⟨by simp, ?_⟩⟩
      rintro ⟨i, h0, h1, _⟩; omega
    · have hc : c < inp.length := by omega
      simp only [downLoop, if_neg he]
      have hget : inp[c]? = some inp[c] := List.getElem?_eq_getElem hc
      have hrd : rd inp (c + 1 - 1) = .ok inp[c] := rd_ok hc
      have hposone : (BitVec.ofNat 64 (c + 1) - 1) = BitVec.ofNat 64 c := by
        have : BitVec.ofNat 64 (c + 1) = BitVec.ofNat 64 c + 1#64 := by rw [BitVec.ofNat_add]
        rw [this]; exact BitVec.add_sub_cancel _ _
      by_cases h80 : inp[c] = 0x80
      · have hb : zeroOneBody inp (c + 1) { inp := 0, seen := 0, pos := BitVec.ofNat 64 (c + 1) - 1 } =
            .ok { inp := 0, seen := BitVec.allOnes 8, pos := BitVec.ofNat 64 c } := by
          simp only [zeroOneBody, hrd, ok_bind, pure_eq_ok, (C05_masks 3 (w := 8) rfl _ _).2.2.1, h80, if_true, hposone]
          simp [select]
        rw [hb, ok_bind, zeroOne_seen inp stop c _ (by omega) (by omega) rfl]
        refine ⟨_, rfl, Or.inl ⟨by simp, c, by omega, ⟨by omega, by rw [hget, h80], fun j h1 h2 => by omega⟩, rfl⟩⟩
      · by_cases h0 : inp[c] = 0
        · have hb : zeroOneBody inp (c + 1) { inp := 0, seen := 0, pos := BitVec.ofNat 64 (c + 1) - 1 } =
              .ok { inp := 0, seen := 0, pos := BitVec.ofNat 64 c - 1 } := by
            simp only [zeroOneBody, hrd, ok_bind, pure_eq_ok, (C05_masks 3 (w := 8) rfl _ _).2.2.1,
              (C05_masks 3 (w := 8) rfl _ 0).2.1, h0, if_true, hposone]
            simp [select]
          rw [hb, ok_bind]
          obtain ⟨t, h1, h2⟩ := ih (by omega) (by omega)
          refine ⟨t, h1, ?_⟩
          have ext : ∀ i, MarkerAt inp (c + 1) i ↔ MarkerAt inp c i := by
            intro i
            constructor
            · rintro ⟨g1, g2, g3⟩
              have hic : i ≠ c := by
                intro e; subst e; rw [hget] at g2; exact h80 (Option.some.inj g2)
              exact ⟨by omega, g2, fun j h3 h4 => g3 j h3 (by omega)⟩
            · rintro ⟨g1, g2, g3⟩
              refine ⟨by omega, g2, fun j h3 h4 => ?_⟩
              by_cases hj : j = c
              · subst hj; rw [hget, h0]
              · exact g3 j h3 (by omega)
          simp only [ext]
          exact h2
        · have hb : ∃ t, zeroOneBody inp (c + 1) { inp := 0, seen := 0, pos := BitVec.ofNat 64 (c + 1) - 1 } =
              .ok t ∧ t.inp ≠ 0 := by
            refine ⟨_, by simp only [zeroOneBody, hrd, ok_bind, pure_eq_ok, (C05_masks 3 (w := 8) rfl _ _).2.2.1,
              (C05_masks 3 (w := 8) rfl _ 0).2.1, h0, h80, if_false]; rfl, by simp⟩
          obtain ⟨t, h1, h2⟩ := hb
          rw [h1, ok_bind]
          obtain ⟨u, h3, h4⟩ := zeroOne_bad inp stop c t (by omega) (by omega) h2
          refine ⟨u, h3, Or.inr ⟨fun h5 => h4 ((or_eq_zero_iff _ _).mp h5).1, ?_⟩⟩
          rintro ⟨i, _, g1, g2, g3⟩
          by_cases hic : i = c
          · subst hic; rw [hget] at g2; exact h80 (Option.some.inj g2)
          · have := g3 c (by omega) (by omega)
            rw [hget] at this; exact h0 (Option.some.inj this)

theorem zeroOneCore_eq (inp : List Byte) (stop len : Nat) (hs : stop ≤ len) (hl : len ≤ inp.length) :
    ∃ r, zeroOneCore inp stop len = .ok r ∧
      ((∃ i, stop ≤ i ∧ MarkerAt inp len i ∧ r = BitVec.ofNat 64 i) ∨
       ((¬ ∃ i, stop ≤ i ∧ MarkerAt inp len i) ∧ r = BitVec.ofNat 64 len)) := by
  obtain ⟨t, h1, h2⟩ := zeroOne_scan inp stop len hs hl
  refine ⟨_, by simp only [zeroOneCore, h1, ok_bind, pure_eq_ok]; rfl, ?_⟩
  simp only [finish_eq, setWidth64_eq_zero]
  rcases h2 with ⟨h3, i, h4, h5, h6⟩ | ⟨h3, h4⟩
  · rw [if_pos h3]; exact Or.inl ⟨i, h4, h5, h6⟩
  · rw [if_neg h3]; exact Or.inr ⟨h4, rfl⟩

end Cex.Padding
