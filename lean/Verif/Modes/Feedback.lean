import Verif.Modes.Engine

/-! # CFB and OFB engines -/

namespace Cex.Modes
open Cex Cex.Par Cex.IntTools Cex.Modes.Spec

/-! ## Byte loops -/

theorem rd_at {a c : List Byte} {x : Byte} {i : Nat} (h : i = a.length) : rd (a ++ x :: c) i = .ok x := by
  subst h; simp [rd]

theorem wr_at {a c : List Byte} {x y : Byte} {i : Nat} (h : i = a.length) : wr (a ++ x :: c) i y = .ok (a ++ y :: c) := by
  subst h; simp [wr]

theorem holds_cons {x : List Byte} {off : Nat} {b : Byte} {w : List Byte} (h : Holds x off (b :: w)) :
    rd x off = .ok b ∧ Holds x (off + 1) w := by
  obtain ⟨a, c, rfl, rfl⟩ := h
  refine ⟨by rw [List.append_assoc]; exact rd_at rfl, a ++ [b], c, by simp, by simp⟩

theorem xorLoop_at (inp : List Byte) (io oo : Nat) : ∀ (s d a c : List Byte) (start : Nat), Holds inp (io + start) s →
    d.length = s.length → a.length = oo + start →
    xorLoop inp io (a ++ d ++ c) oo start s.length = .ok (a ++ xorBytes d s ++ c)
  | [], d, a, c, start, _, hd, _ => by
    have : d = [] := List.length_eq_zero_iff.mp (by simpa using hd)
    subst this; rfl
  | y :: s, [], a, c, start, _, hd, _ => by simp at hd
  | y :: s, x :: d, a, c, start, hs, hd, ha => by
    obtain ⟨h1, h2⟩ := holds_cons hs
    have ih := xorLoop_at inp io oo s d (a ++ [x ^^^ y]) c (start + 1) (by rw [← Nat.add_assoc]; exact h2) (by simpa using hd)
      (by simp [ha]; omega)
    rw [xorLoop] at ih ⊢
    rw [List.length_cons, loopN]
    have e1 : rd (a ++ x :: d ++ c) (oo + start) = .ok x := by rw [List.append_assoc]; exact rd_at ha.symm
    have e2 : wr (a ++ x :: d ++ c) (oo + start) (x ^^^ y) = .ok (a ++ [x ^^^ y] ++ d ++ c) := by
      rw [List.append_assoc]; rw [List.cons_append, wr_at ha.symm]; simp
    simp only [e1, h1, e2, ok_bind]
    rw [ih]
    simp [xorBytes]

/-- The output loop of OFB: `out[oo+i] = buf[i] ^ inp[io+i]`. -/
theorem xor3Loop_at (inp : List Byte) (io oo : Nat) : ∀ (s t d a c b0 : List Byte) (start : Nat), Holds inp (io + start) s →
    b0.length = start → t.length = s.length → d.length = s.length → a.length = oo + start →
    loopN s.length start (fun i out => do
      let x ← rd (b0 ++ t) i
      let y ← rd inp (io + i)
      wr out (oo + i) (x ^^^ y)) (a ++ d ++ c) = .ok (a ++ xorBytes t s ++ c)
  | [], t, d, a, c, b0, start, _, _, ht, hd, _ => by
    have h1 : d = [] := List.length_eq_zero_iff.mp (by simpa using hd)
    have h2 : t = [] := List.length_eq_zero_iff.mp (by simpa using ht)
    subst h1; subst h2; rfl
  | y :: s, [], _, _, _, _, _, _, _, ht, _, _ => by simp at ht
  | y :: s, _, [], _, _, _, _, _, _, _, hd, _ => by simp at hd
  | y :: s, z :: t, x :: d, a, c, b0, start, hs, hb, ht, hd, ha => by
    obtain ⟨h1, h2⟩ := holds_cons hs
    have ih := xor3Loop_at inp io oo s t d (a ++ [z ^^^ y]) c (b0 ++ [z]) (start + 1) (by rw [← Nat.add_assoc]; exact h2)
      (by simp [hb]) (by simpa using ht) (by simpa using hd) (by simp [ha]; omega)
    rw [List.length_cons, loopN]
    have e1 : rd (b0 ++ z :: t) start = .ok z := rd_at hb.symm
    have e2 : wr (a ++ x :: d ++ c) (oo + start) (z ^^^ y) = .ok (a ++ [z ^^^ y] ++ d ++ c) := by
      rw [List.append_assoc]; rw [List.cons_append, wr_at ha.symm]; simp
    simp only [e1, h1, e2, ok_bind]
    rw [show b0 ++ z :: t = b0 ++ [z] ++ t by simp, ih]
    simp [xorBytes]

/-! ## OFB -/

/-- OFB step. -/
def ofbStep (E : List Byte → List Byte) : List Byte → List Byte → List Byte × List Byte :=
  fun iv b => (E iv, xorBytes (E iv) b)

theorem ofbStep_run (E : List Byte → List Byte) (hE : ∀ b, b.length = 16 → (E b).length = 16) (iv : List Byte)
    (bs : List (List Byte)) (hbs : Blocks 16 bs) (hiv : iv.length = 16) :
    (runBlocks (ofbStep E) iv bs).1 = lastOr iv (ofbStream E bs.length iv) ∧
    (runBlocks (ofbStep E) iv bs).2.flatten = xorBytes (ofbStream E bs.length iv).flatten bs.flatten := by
  induction bs generalizing iv with
  | nil => exact ⟨rfl, rfl⟩
  | cons b bs ih =>
    obtain ⟨h1, h2⟩ := hbs.cons
    obtain ⟨i1, i2⟩ := ih (E iv) h2 (hE iv hiv)
    simp only [runBlocks, ofbStep, List.length_cons, ofbStream, lastOr, List.flatten_cons] at i1 i2 ⊢
    refine ⟨i1, ?_⟩
    rw [i2, xorBytes_append (by rw [hE iv hiv, h1])]

theorem ofbBlock_at (c : Cipher) (hE : ∀ b, b.length = 16 → (c.enc b).length = 16) {inp b iv a old q : List Byte}
    {io oo : Nat} (hb : Holds inp io b) (hl : b.length = 16) (hiv : iv.length = 16) (ho : a.length = oo)
    (hold : old.length = 16) :
    ofbBlock c inp io oo iv (a ++ old ++ q) = .ok ((ofbStep c.enc iv b).1, a ++ (ofbStep c.enc iv b).2 ++ q) := by
  have hx := hE iv hiv
  have h := xor3Loop_at inp io oo b (c.enc iv) old a q [] 0 hb rfl (by omega) (by omega) (by omega)
  rw [hl, List.nil_append] at h
  simp only [ofbBlock, cipherBlock_whole (Holds.self iv) hiv hx (by simp : (List.replicate 16 (0 : Byte)).length = 16), ok_bind, h,
    copy_whole (Holds.self (c.enc iv)) hx.symm (by omega : iv.length = (c.enc iv).length)]
  rfl

theorem ofbTransform_ok (c : Cipher) (hE : ∀ b, b.length = 16 → (c.enc b).length = 16) (inp : List Byte) (io oo : Nat)
    (bs : List (List Byte)) (hbs : Blocks 16 bs) (hin : Holds inp io bs.flatten) (iv pre junk post : List Byte)
    (hiv : iv.length = 16) (hp : pre.length = oo) (hj : junk.length = bs.length * 16) :
    ofbTransform c iv inp io (pre ++ junk ++ post) oo (bs.length * 16) =
      .ok (lastOr iv (ofbStream c.enc bs.length iv),
        pre ++ xorBytes (ofbStream c.enc bs.length iv).flatten bs.flatten ++ post) := by
  have h := runActs_blocks (ofbStep c.enc) (fun l => l.length = 16) 16 oo
    (fun i => ofbBlock c inp (i * 16 + io) (i * 16 + oo)) bs iv pre junk post hp hj hiv (by
      intro k b l hk hl
      have hb := hbs.get hk
      have hx : (c.enc l).length = 16 := hE l hl
      refine ⟨hx, by simp only [ofbStep, xorBytes_length, hx, hb]; rfl, ?_⟩
      intro a old q ha hold
      have hh := Cex.Holds.block hbs hin hk
      rw [Nat.add_comm] at hh
      exact ofbBlock_at c hE hh hb hl (by rw [ha]; omega) hold)
  obtain ⟨e1, e2⟩ := ofbStep_run c.enc hE iv bs hbs hiv
  rw [e1, e2] at h
  rw [ofbTransform, if_neg (by simp), Nat.mul_div_cancel _ (by omega)]
  exact h

/-! ## CFB -/

/-- CFB encryption step. -/
def cfbEncStep (E : List Byte → List Byte) (r : Nat) : List Byte → List Byte → List Byte × List Byte :=
  fun s b => (s.drop r ++ xorBytes ((E s).take r) b, xorBytes ((E s).take r) b)

/-- CFB decryption step. -/
def cfbDecStep (E : List Byte → List Byte) (r : Nat) : List Byte → List Byte → List Byte × List Byte :=
  fun s b => (s.drop r ++ b, xorBytes ((E s).take r) b)

theorem cfbEncStep_run (E : List Byte → List Byte) (r : Nat) (s : List Byte) (bs : List (List Byte)) :
    runBlocks (cfbEncStep E r) s bs = (cfbReg r s (cfbEnc E r s bs), cfbEnc E r s bs) := by
  induction bs generalizing s with
  | nil => rfl
  | cons b bs ih => simp only [runBlocks, cfbEncStep, cfbEnc, cfbReg] at ih ⊢; rw [ih]

theorem cfbDecStep_run (E : List Byte → List Byte) (r : Nat) (s : List Byte) (bs : List (List Byte)) :
    runBlocks (cfbDecStep E r) s bs = (cfbReg r s bs, cfbDec E r s bs) := by
  induction bs generalizing s with
  | nil => rfl
  | cons b bs ih => simp only [runBlocks, cfbDecStep, cfbDec, cfbReg] at ih ⊢; rw [ih]

theorem cfbShift_ok (mm : Bool) (r : Nat) (reg : List Byte) (hr : r ≤ 16) (hm : mm = true ∨ 8 ≤ r) (hl : reg.length = 16) :
    cfbShift mm r reg = .ok (reg.drop r ++ reg.drop (16 - r)) := by
  rw [cfbShift, if_neg (by omega)]
  split
  · rw [copyWithin, if_neg]
    · have hs : Holds reg r (reg.drop r) := ⟨reg.take r, [], by simp, by rw [List.length_take]; omega⟩
      have := copy_at (a := []) (b := reg.take (16 - r)) (c := reg.drop (16 - r)) (off := 0) (n := 16 - r) hs rfl
        (by rw [List.length_drop, hl]) (by rw [List.length_take, List.length_drop]; omega)
      simpa using this
    · rcases hm with h | h
      · simp [h]
      · rintro ⟨_, _, h3, _⟩; omega
  · have : r = 16 := by omega
    subst this
    simp [List.drop_of_length_le (Nat.le_of_eq hl)]

/-- Without `memmove` semantics, a register smaller than half a block overlaps: undefined. -/
theorem cfbShift_ub (r : Nat) (reg : List Byte) (hr : r < 8) (h0 : r ≠ 0) : cfbShift false r reg = .error .ub := by
  have h : 0 < 16 - r := by omega
  simp only [cfbShift, if_neg (by omega : ¬ 16 < r), if_pos h, copyWithin]
  rw [if_pos (by refine ⟨by omega, ?_, by omega, by omega⟩; first | rfl | trivial)]
  rfl

/-- Shift then insert `r` bytes. -/
theorem cfbShift_insert {reg b : List Byte} {src : List Byte} {so r : Nat} (hr : r ≤ 16) (hl : reg.length = 16)
    (hb : Holds src so b) (hbl : b.length = r) :
    copy src so (reg.drop r ++ reg.drop (16 - r)) (16 - r) r = .ok (reg.drop r ++ b) := by
  have := copy_at (a := reg.drop r) (b := reg.drop (16 - r)) (c := []) (off := 16 - r) (n := r) hb
    (by rw [List.length_drop, hl]) hbl.symm (by rw [List.length_drop, hl, hbl]; omega)
  simpa using this

theorem cfbEncBlock_at (mm : Bool) (c : Cipher) (hE : ∀ b, b.length = 16 → (c.enc b).length = 16) {r : Nat} (hr : r ≤ 16)
    (hm : mm = true ∨ 8 ≤ r) {inp b reg a old q : List Byte} {io oo : Nat} (hb : Holds inp io b) (hl : b.length = r)
    (hreg : reg.length = 16) (ho : a.length = oo) (hold : old.length = r) :
    cfbEncBlock mm c r inp io oo reg (a ++ old ++ q) =
      .ok ((cfbEncStep c.enc r reg b).1, a ++ (cfbEncStep c.enc r reg b).2 ++ q) := by
  have hx := hE reg hreg
  have htk : ((c.enc reg).take r).length = r := by rw [List.length_take, hx]; omega
  have hk : Holds (c.enc reg) 0 ((c.enc reg).take r) := ⟨[], (c.enc reg).drop r, by simp, rfl⟩
  have h1 := copy_at (a := a) (b := old) (c := q) hk ho.symm htk.symm (by omega)
  have h2 := xorLoop_at inp io oo b ((c.enc reg).take r) a q 0 hb (by omega) (by omega)
  have hy : (xorBytes ((c.enc reg).take r) b).length = r := by rw [xorBytes_length, htk, hl]; exact Nat.min_self _
  have h3 := cfbShift_insert (src := a ++ xorBytes ((c.enc reg).take r) b ++ q) (so := oo) hr hreg ⟨a, q, rfl, ho⟩ hy
  rw [hl] at h2
  simp only [cfbEncBlock, cipherBlock_whole (Holds.self reg) hreg hx (by simp : (List.replicate 16 (0 : Byte)).length = 16),
    ok_bind, h1, h2, cfbShift_ok mm r reg hr hm hreg, h3]
  rfl

theorem cfbDecBlock_at (mm : Bool) (c : Cipher) (hE : ∀ b, b.length = 16 → (c.enc b).length = 16) {r : Nat} (hr : r ≤ 16)
    (hm : mm = true ∨ 8 ≤ r) {inp b reg a old q : List Byte} {io oo : Nat} (hb : Holds inp io b) (hl : b.length = r)
    (hreg : reg.length = 16) (ho : a.length = oo) (hold : old.length = r) :
    cfbDecBlock mm c r inp io oo reg (a ++ old ++ q) =
      .ok ((cfbDecStep c.enc r reg b).1, a ++ (cfbDecStep c.enc r reg b).2 ++ q) := by
  have hx := hE reg hreg
  have htk : ((c.enc reg).take r).length = r := by rw [List.length_take, hx]; omega
  have hk : Holds (c.enc reg) 0 ((c.enc reg).take r) := ⟨[], (c.enc reg).drop r, by simp, rfl⟩
  have h1 := copy_at (a := a) (b := old) (c := q) hk ho.symm htk.symm (by omega)
  have h2 := xorLoop_at inp io oo b ((c.enc reg).take r) a q 0 hb (by omega) (by omega)
  have h3 := cfbShift_insert hr hreg hb hl
  rw [hl] at h2
  simp only [cfbDecBlock, cipherBlock_whole (Holds.self reg) hreg hx (by simp : (List.replicate 16 (0 : Byte)).length = 16),
    ok_bind, h1, h2, cfbShift_ok mm r reg hr hm hreg, h3]
  rfl

theorem cfbSegBlock_at (mm : Bool) (c : Cipher) (hE : ∀ b, b.length = 16 → (c.enc b).length = 16)
    {inp b reg a old q : List Byte} {io oo : Nat} (hb : Holds inp io b) (hl : b.length = 16)
    (hreg : reg.length = 16) (ho : a.length = oo) (hold : old.length = 16) :
    cfbSegBlock mm c 16 inp io oo reg (a ++ old ++ q) =
      .ok ((cfbDecStep c.enc 16 reg b).1, a ++ (cfbDecStep c.enc 16 reg b).2 ++ q) := by
  have hx := hE reg hreg
  have h2 := xorLoop_at inp io oo b (c.enc reg) a q 0 hb (by omega) (by omega)
  have h3 := cfbShift_insert (r := 16) (Nat.le_refl _) hreg hb hl
  rw [hl] at h2
  simp only [cfbSegBlock, cipherBlock_at (Holds.self reg) hreg hx ho.symm hold,
    ok_bind, h2, cfbShift_ok mm 16 reg (Nat.le_refl _) (Or.inr (by omega)) hreg, h3, cfbDecStep,
    List.take_of_length_le (Nat.le_of_eq hx)]
  rfl

theorem cfbReg_length {r : Nat} (hr : r ≤ 16) : ∀ (bs : List (List Byte)) (s : List Byte), Blocks r bs → s.length = 16 →
    (cfbReg r s bs).length = 16
  | [], _, _, h => h
  | b :: bs, s, hb, h => by
    rw [cfbReg]
    refine cfbReg_length hr bs _ hb.cons.2 ?_
    rw [List.length_append, List.length_drop, hb.cons.1, h]; omega

theorem cfbReg_append (r : Nat) (s : List Byte) (as bs : List (List Byte)) :
    cfbReg r s (as ++ bs) = cfbReg r (cfbReg r s as) bs := by
  induction as generalizing s with
  | nil => rfl
  | cons a as ih => simp only [List.cons_append, cfbReg, ih]

theorem cfbDec_append (E : List Byte → List Byte) (r : Nat) (s : List Byte) (as bs : List (List Byte)) :
    cfbDec E r s (as ++ bs) = cfbDec E r s as ++ cfbDec E r (cfbReg r s as) bs := by
  induction as generalizing s with
  | nil => rfl
  | cons a as ih => simp only [List.cons_append, cfbDec, cfbReg, ih]

theorem cfbDec_len (E : List Byte → List Byte) (r : Nat) (s : List Byte) (bs : List (List Byte)) :
    (cfbDec E r s bs).length = bs.length := by
  have := runBlocks_length (cfbDecStep E r) s bs
  rwa [cfbDecStep_run] at this

theorem cfbDec_blocks (E : List Byte → List Byte) (hE : ∀ b, b.length = 16 → (E b).length = 16) {r : Nat} (hr : r ≤ 16) :
    ∀ (bs : List (List Byte)) (s : List Byte), Blocks r bs → s.length = 16 → Blocks r (cfbDec E r s bs)
  | [], _, _, _ => by intro x hx; simp [cfbDec] at hx
  | b :: g, s, hb, hs => by
    obtain ⟨h1, h2⟩ := hb.cons
    intro x hx
    rw [cfbDec, List.mem_cons] at hx
    rcases hx with rfl | hx
    · rw [xorBytes_length, List.length_take, hE s hs, h1]; omega
    · exact cfbDec_blocks E hE hr g _ h2 (by rw [List.length_append, List.length_drop, h1, hs]; omega) x hx

theorem cfbEnc_blocks (E : List Byte → List Byte) (hE : ∀ b, b.length = 16 → (E b).length = 16) {r : Nat} (hr : r ≤ 16) :
    ∀ (bs : List (List Byte)) (s : List Byte), Blocks r bs → s.length = 16 →
      Blocks r (cfbEnc E r s bs) ∧ (cfbEnc E r s bs).length = bs.length
  | [], _, _, _ => ⟨by intro x hx; simp [cfbEnc] at hx, rfl⟩
  | b :: g, s, hb, hs => by
    obtain ⟨h1, h2⟩ := hb.cons
    have h3 : (xorBytes ((E s).take r) b).length = r := by rw [xorBytes_length, List.length_take, hE s hs, h1]; omega
    obtain ⟨i1, i2⟩ := cfbEnc_blocks E hE hr g (s.drop r ++ xorBytes ((E s).take r) b) h2
      (by rw [List.length_append, List.length_drop, h3, hs]; omega)
    refine ⟨?_, by rw [cfbEnc, List.length_cons, i2, List.length_cons]⟩
    intro x hx
    rw [cfbEnc, List.mem_cons] at hx
    rcases hx with rfl | hx
    · exact h3
    · exact i1 x hx

theorem cfbEncProcess_ok (mm : Bool) (c : Cipher) (hE : ∀ b, b.length = 16 → (c.enc b).length = 16) {r : Nat} (hr0 : r ≠ 0)
    (hr : r ≤ 16) (hm : mm = true ∨ 8 ≤ r) (p : Profile) (scheds : Nat → List Nat) (inp : List Byte) (io oo : Nat)
    (bs : List (List Byte)) (hbs : Blocks r bs) (hin : Holds inp io bs.flatten) (reg pre junk post : List Byte)
    (hreg : reg.length = 16) (hp : pre.length = oo) (hj : junk.length = bs.length * r) (len : Nat) (hlen : len / r = bs.length) :
    cfbProcess mm c r p scheds true reg inp io (pre ++ junk ++ post) oo len =
      .ok (cfbReg r reg (cfbEnc c.enc r reg bs), pre ++ (cfbEnc c.enc r reg bs).flatten ++ post) := by
  have h := runActs_blocks (cfbEncStep c.enc r) (fun l => l.length = 16) r oo
    (fun i => cfbEncBlock mm c r inp (i * r + io) (i * r + oo)) bs reg pre junk post hp hj hreg (by
      intro k b l hk hl
      have hb := hbs.get hk
      have hx : (xorBytes ((c.enc l).take r) b).length = r := by rw [xorBytes_length, List.length_take, hE l hl, hb]; omega
      refine ⟨by simp only [cfbEncStep, List.length_append, List.length_drop, hx, hl]; omega, hx, ?_⟩
      intro a old q ha hold
      have hh := Cex.Holds.block hbs hin hk
      rw [Nat.add_comm] at hh
      exact cfbEncBlock_at mm c hE hr hm hh hb hl (by rw [ha]; omega) hold)
  rw [cfbEncStep_run] at h
  simp only [cfbProcess, if_neg hr0, if_true, hlen]
  exact h

theorem cfbDecLoop_ok (mm : Bool) (c : Cipher) (hE : ∀ b, b.length = 16 → (c.enc b).length = 16) {r : Nat}
    (hr : r ≤ 16) (hm : mm = true ∨ 8 ≤ r) (inp : List Byte) (io oo prc : Nat)
    (bs : List (List Byte)) (hbs : Blocks r bs) (hin : Holds inp (io + prc * r) bs.flatten) (reg pre junk post : List Byte)
    (hreg : reg.length = 16) (hp : pre.length = oo + prc * r) (hj : junk.length = bs.length * r) :
    runActs (forActs 0 bs.length (fun i => cfbDecBlock mm c r inp ((i + prc) * r + io) ((i + prc) * r + oo))) reg (pre ++ junk ++ post) =
      .ok (cfbReg r reg bs, pre ++ (cfbDec c.enc r reg bs).flatten ++ post) := by
  have h := runActs_blocks (cfbDecStep c.enc r) (fun l => l.length = 16) r (oo + prc * r)
    (fun i => cfbDecBlock mm c r inp ((i + prc) * r + io) ((i + prc) * r + oo)) bs reg pre junk post hp hj hreg (by
      intro k b l hk hl
      have hb := hbs.get hk
      have hx : (xorBytes ((c.enc l).take r) b).length = r := by rw [xorBytes_length, List.length_take, hE l hl, hb]; omega
      refine ⟨by simp only [cfbDecStep, List.length_append, List.length_drop, hb, hl]; omega, hx, ?_⟩
      intro a old q ha hold
      have hh := Cex.Holds.block hbs hin hk
      rw [show io + prc * r + k * r = (k + prc) * r + io by rw [Nat.add_mul]; omega] at hh
      exact cfbDecBlock_at mm c hE hr hm hh hb hl (by rw [ha, Nat.add_mul]; omega) hold)
  rw [cfbDecStep_run] at h
  exact h

theorem cfbReg16 : ∀ (bs : List (List Byte)) (s : List Byte), Blocks 16 bs → s.length = 16 → cfbReg 16 s bs = lastOr s bs
  | [], _, _, _ => rfl
  | b :: bs, s, hb, hs => by
    rw [cfbReg, lastOr, List.drop_of_length_le (Nat.le_of_eq hs), List.nil_append, cfbReg16 bs b hb.cons.2 hb.cons.1]

theorem cfbParallel_ok (mm : Bool) (c : Cipher) (hE : ∀ b, b.length = 16 → (c.enc b).length = 16) (p : Profile) (m : Nat)
    (hm : m ≠ 0) (hd : p.degree ≠ 0) (hs : p.blockSize / p.degree = m * 16) (inp : List Byte) (io : Nat)
    (bs : List (List Byte)) (hbs : Blocks 16 bs) (hn : bs.length = p.degree * m) (hin : Holds inp io bs.flatten)
    (reg pre junk post : List Byte) (hreg : reg.length = 16) (oo : Nat) (hp : pre.length = oo)
    (hj : junk.length = p.degree * (m * 16)) (sched : List Nat) (hsc : Covers p.degree (m + 1) sched) :
    cfbParallel mm c 16 p sched inp io oo reg (pre ++ junk ++ post) =
      .ok (cfbReg 16 reg bs, pre ++ (cfbDec c.enc 16 reg bs).flatten ++ post) := by
  have hmm : m * 16 / 16 = m := Nat.mul_div_cancel _ (by omega)
  have h := par_blocks (cfbDecStep c.enc 16) 16 m p.degree oo bs hn reg
    (cfbThread mm c 16 inp io oo (m * 16) reg) (fun i s => s = cfbReg 16 reg (bs.take ((i + 1) * m))) pre junk post hp hj
    sched (by
      intro i hi w hw
      have h3 := mul_le_of_lt hi (Nat.le_of_eq hn.symm)
      rw [Nat.succ_mul] at h3
      have hg : ((bs.drop (i * m)).take m).length = m := by rw [List.length_take, List.length_drop]; omega
      have hg16 : Blocks 16 ((bs.drop (i * m)).take m) := (hbs.drop (i * m)).take m
      have hh := Holds.group hbs hin (i * m) m (by omega)
      rw [Nat.mul_assoc] at hh
      have hch : (cfbReg 16 reg (bs.take (i * m))).length = 16 := cfbReg_length (Nat.le_refl _) _ _ (hbs.take _) hreg
      have hr := (blockRuns0 (cfbDecStep c.enc 16) (fun l => l.length = 16) 16 (oo + i * (m * 16))
        (fun k => cfbSegBlock mm c 16 inp (io + i * (m * 16) + k * 16) (oo + i * (m * 16) + k * 16))
        ((bs.drop (i * m)).take m) (cfbReg 16 reg (bs.take (i * m))) w (by rw [hg, hw]) hch (by
          intro k b l hk hl
          have hb := hg16.get hk
          have hx : (xorBytes ((c.enc l).take 16) b).length = 16 := by
            rw [xorBytes_length, List.length_take, hE l hl, hb]; rfl
          refine ⟨by simp only [cfbDecStep, List.length_append, List.length_drop, hb, hl], hx, ?_⟩
          intro a old q ha hold
          exact cfbSegBlock_at mm c hE (Cex.Holds.block hg16 hh hk) hb hl ha hold)).1
      rw [hg, cfbDecStep_run] at hr
      rw [cfbDecStep_run, cfbDecStep_run]
      refine ⟨cfbReg 16 (cfbReg 16 reg (bs.take (i * m))) ((bs.drop (i * m)).take m), ?_, ?_⟩
      rotate_left
      · simp only [cfbThread, hmm]
        refine Runs.cons (l1 := cfbReg 16 reg (bs.take (i * m))) ?_ rfl hr
        intro a q _
        by_cases hi0 : i = 0
        · subst hi0
          simp only [ne_eq, not_true_eq_false, if_false, Nat.zero_mul, List.take_zero, cfbReg]
          rw [copy_whole (Holds.self reg) hreg.symm (by simp [hreg])]; rfl
        · obtain ⟨V, rfl⟩ : ∃ V, i = V + 1 := ⟨i - 1, by omega⟩
          obtain ⟨b, hb1, hb2⟩ := lastOr_group (iv := reg) (bs := bs) (k := V) hm (by omega)
          have hb16 := hbs.get hb1
          have hblk := Cex.Holds.block hbs hin hb1
          have e : io + (V * m + (m - 1)) * 16 = io + (V + 1) * (m * 16) - 16 := by
            rw [Nat.succ_mul V, ← Nat.mul_assoc]; omega
          rw [e] at hblk
          simp only [ne_eq, hi0, not_false_eq_true, if_true]
          rw [cfbReg16 _ _ (hbs.take _) hreg, hb2, copy_whole hblk hb16.symm (by simp [hb16])]; rfl
      · rw [take_drop_group, cfbReg_append])
    hsc.1 (fun i hi => by
      simp only [cfbThread, List.length_cons, forActs_length, hmm]; exact hsc.2 i hi)
  obtain ⟨ts', h1, h2⟩ := h
  have h3 := h2 (p.degree - 1) (by omega)
  rw [show p.degree - 1 + 1 = p.degree by omega, ← hn, List.take_length] at h3
  have h4 : (cfbReg 16 reg bs).length = 16 := cfbReg_length (Nat.le_refl _) _ _ hbs hreg
  rw [cfbDecStep_run] at h1
  simp only [cfbParallel, if_neg hd, hs, h1, ok_bind, h3, pure_eq_ok]
  rw [copy_whole (Holds.self (cfbReg 16 reg bs)) h4.symm (by omega)]
  rfl

theorem cfbDecProcess_ok (mm : Bool) (c : Cipher) (hE : ∀ b, b.length = 16 → (c.enc b).length = 16) {r : Nat} (hr0 : r ≠ 0)
    (hr : r ≤ 16) (hmv : mm = true ∨ 8 ≤ r) (p : Profile) (hv : p.Valid) (scheds : Nat → List Nat) (inp : List Byte) (io oo : Nat)
    (bs : List (List Byte)) (hbs : Blocks r bs) (hin : Holds inp io bs.flatten) (reg pre junk post : List Byte)
    (hreg : reg.length = 16) (hp : pre.length = oo) (hj : junk.length = bs.length * r) (len : Nat) (hlen : len / r = bs.length)
    (hsc : p.isParallel = true → ∀ i, i < len / p.blockSize → Covers p.degree (p.blockSize / p.degree / 16 + 1) (scheds i)) :
    cfbProcess mm c r p scheds false reg inp io (pre ++ junk ++ post) oo len =
      .ok (cfbReg r reg bs, pre ++ (cfbDec c.enc r reg bs).flatten ++ post) := by
  simp only [cfbProcess, if_neg hr0, Bool.false_eq_true, if_false]
  split
  · rename_i hc
    obtain ⟨hc1, hc2, hc3⟩ := hc
    subst hc3
    obtain ⟨m, hm, hd, hs, hb⟩ := hv.split hc1
    have hmm : m * 16 / 16 = m := Nat.mul_div_cancel _ (by omega)
    have hsc := hsc hc1
    rw [hs, hmm] at hsc
    have hb0 : p.blockSize ≠ 0 := (hv hc1).2.1
    rw [if_neg hb0]
    generalize hcnt : len / p.blockSize = cnt at *
    generalize hM : p.degree * m = M at *
    have hle : cnt * M ≤ bs.length := by rw [← hcnt, ← hlen]; subst hM; exact div_mul_assoc16 hb
    have hcb : cnt * (M * 16) = cnt * M * 16 := by rw [Nat.mul_assoc cnt]
    have hle16 : cnt * M * 16 ≤ bs.length * 16 := Nat.mul_le_mul_right _ hle
    have e0 : pre ++ junk ++ post =
        pre ++ junk.take (cnt * (M * 16)) ++ (junk.drop (cnt * (M * 16)) ++ post) := by
      simp only [List.append_assoc, List.append_cancel_left_eq]
      rw [← List.append_assoc, List.take_append_drop]
    have hl1 : (junk.take (cnt * (M * 16))).length = cnt * (M * 16) := by
      rw [List.length_take, hj, hcb]; omega
    have h := outer_blocks (cfbDecStep c.enc 16) (fun l => l.length = 16) 16 oo M cnt
      (fun i reg out => cfbParallel mm c 16 p (scheds i) inp (i * p.blockSize + io) (i * p.blockSize + oo) reg out)
      bs hle reg pre (junk.take (cnt * (M * 16))) (junk.drop (cnt * (M * 16)) ++ post) hp hl1 hreg (by
        intro k g l hk hg hgl hl
        have hg16 : Blocks 16 g := hg ▸ (hbs.drop _).take _
        have h3 := mul_le_of_lt hk hle
        rw [Nat.succ_mul] at h3
        have hh : Holds inp (io + k * M * 16) g.flatten := hg ▸ Holds.group hbs hin (k * M) _ (by omega)
        rw [Nat.mul_assoc, ← hb, Nat.add_comm] at hh
        rw [cfbDecStep_run]
        refine ⟨cfbReg_length (Nat.le_refl _) _ _ hg16 hl, ?_, ?_⟩
        · rw [(cfbDec_blocks c.enc hE (Nat.le_refl _) g l hg16 hl).length, cfbDec_len, hgl]
        · intro a old q ha hold
          rw [← hb, Nat.add_comm] at ha
          exact cfbParallel_ok mm c hE p m hm hd hs inp _ g hg16 (by rw [hgl, hM]) hh l a old q hl _ ha
            (by rw [hold, ← hM, Nat.mul_assoc]) (scheds k) (hsc k hk))
    rw [cfbDecStep_run, ← loopN_eq_runActs, ← e0] at h
    have hT : (cfbDec c.enc 16 reg (bs.take (cnt * M))).flatten.length = cnt * M * 16 := by
      rw [(cfbDec_blocks c.enc hE (Nat.le_refl _) _ reg (hbs.take _) hreg).length, cfbDec_len, List.length_take,
        Nat.min_eq_left hle]
    have hrest : (bs.drop (cnt * M)).length = bs.length - cnt * M := List.length_drop
    have hprc : p.blockSize / 16 * cnt = cnt * M := by
      rw [hb, Nat.mul_div_cancel _ (by omega), Nat.mul_comm]
    have hin2 := Cex.Holds.drop hbs hin (cnt * M) hle
    have := cfbDecLoop_ok mm c hE (Nat.le_refl _) hmv inp io oo (cnt * M) (bs.drop (cnt * M)) (hbs.drop _) hin2
      (cfbReg 16 reg (bs.take (cnt * M)))
      (pre ++ (cfbDec c.enc 16 reg (bs.take (cnt * M))).flatten) (junk.drop (cnt * (M * 16))) post
      (cfbReg_length (Nat.le_refl _) _ _ (hbs.take _) hreg) (by rw [List.length_append, hp, hT])
      (by rw [List.length_drop, hj, hcb, hrest, Nat.sub_mul])
    simp only [h, ok_bind, hprc, hlen, ← hrest]
    rw [← List.append_assoc, this, ← cfbReg_append, List.take_append_drop, List.append_assoc pre, ← List.flatten_append,
      ← cfbDec_append, List.take_append_drop]
  · have := cfbDecLoop_ok mm c hE hr hmv inp io oo 0 bs hbs (by simpa using hin) reg pre junk post hreg (by simpa using hp) hj
    simpa [hlen] using this

theorem cfbInit_ok (reg iv : List Byte) (hreg : reg.length = 16) (h1 : iv.length ≠ 0) (h2 : iv.length ≤ 16) :
    cfbInit reg iv = .ok (List.replicate (16 - iv.length) 0 ++ iv) := by
  have hs : reg = reg.take (16 - iv.length) ++ reg.drop (16 - iv.length) ++ [] := by simp
  have hl : (reg.take (16 - iv.length)).length = 16 - iv.length := by rw [List.length_take]; omega
  have hc : copy iv 0 reg (16 - iv.length) iv.length = .ok (reg.take (16 - iv.length) ++ iv) := by
    have := copy_at (a := reg.take (16 - iv.length)) (b := reg.drop (16 - iv.length)) (c := []) (Holds.self iv) hl.symm rfl
      (by rw [List.length_drop]; omega)
    rw [← hs] at this
    simpa using this
  simp only [cfbInit, if_neg (by omega : ¬ iv.length < 1), if_neg (by omega : ¬ 16 < iv.length), hc, ok_bind, clear]
  split
  · rename_i h; rw [h]; simp
  · have := blit_at (a := []) (b := reg.take (16 - iv.length)) (c := iv) (s := List.replicate (16 - iv.length) 0) (off := 0) rfl
      (by rw [hl]; simp)
    simpa using this

end Cex.Modes
