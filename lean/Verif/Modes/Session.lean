import Verif.Modes.Counter

/-!
# Vocabulary for whole sessions of calls

`Maps`: one call, wherever its input lies, wherever its output goes, under every fair schedule.
`Session`: consecutive calls on one instance.
-/

namespace Cex.Modes
open Cex Cex.Par Cex.Modes.Spec

/-- A `Transform`-like call on an instance in a given state: schedules, input, input offset, output,
output offset, length; returns the new state and the new output array. -/
abbrev Call (σ : Type) := (Nat → List Nat) → List Byte → Nat → List Byte → Nat → Nat → M (σ × List Byte)

/-- Every parallel section of a call over `len` bytes lets each task finish: the wait in `ParallelFor`. -/
def Fair (p : Profile) (turns len : Nat) (scheds : Nat → List Nat) : Prop :=
  p.isParallel = true → ∀ i, i < len / p.blockSize → Covers p.degree turns (scheds i)

/-- The call turns `msg` into `res` and ends in state `s'`, wherever the input sits in its array, whatever
the output array holds, under every fair schedule, and it writes only the output window. -/
def Maps {σ : Type} (p : Profile) (turns : Nat) (f : Call σ) (msg : List Byte) (s' : σ) (res : List Byte) : Prop :=
  ∀ scheds inp io pre junk post, Fair p turns msg.length scheds → Holds inp io msg → junk.length = msg.length →
    f scheds inp io (pre ++ junk ++ post) pre.length msg.length = .ok (s', pre ++ res ++ post)

/-- Consecutive calls on one instance. -/
inductive Session {σ : Type} (p : Profile) (turns : Nat) (f : σ → Call σ) : σ → List (List Byte) → σ → List (List Byte) → Prop
  | nil (s) : Session p turns f s [] s []
  | cons {s m s1 r ms s2 rs} : Maps p turns (f s) m s1 r → Session p turns f s1 ms s2 rs →
      Session p turns f s (m :: ms) s2 (r :: rs)

/-- `x` is a whole number of `r`-byte units. -/
def Aligned (r : Nat) (x : List Byte) : Prop := r ∣ x.length

theorem Aligned.append {r : Nat} {x y : List Byte} (hx : Aligned r x) (hy : Aligned r y) : Aligned r (x ++ y) := by
  rw [Aligned, List.length_append]; exact Nat.dvd_add hx hy

theorem aligned_flatten {r : Nat} {xs : List (List Byte)} (h : ∀ x ∈ xs, Aligned r x) : Aligned r xs.flatten := by
  induction xs with
  | nil => exact ⟨0, rfl⟩
  | cons x xs ih =>
    exact (h x (List.mem_cons_self ..)).append (ih (fun y hy => h y (List.mem_cons_of_mem _ hy)))

/-- Cut `x` into `n` pieces of `r` bytes. -/
def cut (r : Nat) : Nat → List Byte → List (List Byte)
  | 0, _ => []
  | n + 1, x => x.take r :: cut r n (x.drop r)

@[simp] theorem cut_length (r n : Nat) (x : List Byte) : (cut r n x).length = n := by
  induction n generalizing x with
  | zero => rfl
  | succ n ih => simp [cut, ih]

theorem cut_flatten (r : Nat) : ∀ (n : Nat) (x : List Byte), x.length = n * r → (cut r n x).flatten = x
  | 0, x, h => by
    have : x = [] := List.eq_nil_of_length_eq_zero (by omega)
    rw [this]; rfl
  | n + 1, x, h => by
    rw [Nat.succ_mul] at h
    rw [cut, List.flatten_cons, cut_flatten r n _ (by rw [List.length_drop]; omega), List.take_append_drop]

theorem cut_blocks (r : Nat) : ∀ (n : Nat) (x : List Byte), x.length = n * r → Blocks r (cut r n x)
  | 0, x, h => by intro b hb; simp [cut] at hb
  | n + 1, x, h => by
    rw [Nat.succ_mul] at h
    intro b hb
    rw [cut] at hb
    cases hb with
    | head => rw [List.length_take]; omega
    | tail _ hb => exact cut_blocks r n _ (by rw [List.length_drop]; omega) b hb

theorem cut_append (r : Nat) : ∀ (n m : Nat) (x y : List Byte), x.length = n * r → cut r (n + m) (x ++ y) = cut r n x ++ cut r m y
  | 0, m, x, y, h => by
    have : x = [] := List.eq_nil_of_length_eq_zero (by omega)
    rw [this]; simp [cut]
  | n + 1, m, x, y, h => by
    rw [Nat.succ_mul] at h
    rw [show n + 1 + m = (n + m) + 1 by omega, cut, cut, List.take_append_of_le_length (by omega),
      List.drop_append_of_le_length (by omega), cut_append r n m _ y (by rw [List.length_drop]; omega)]
    rfl

theorem cut_flatten_blocks {r : Nat} : ∀ {bs : List (List Byte)}, Blocks r bs → cut r bs.length bs.flatten = bs
  | [], _ => rfl
  | b :: bs, h => by
    obtain ⟨h1, h2⟩ := h.cons
    rw [List.length_cons, cut, List.flatten_cons, ← h1, List.take_left, List.drop_left, h1, cut_flatten_blocks h2]

/-- The `r`-byte pieces of an aligned message. -/
def pieces (r : Nat) (x : List Byte) : List (List Byte) := cut r (x.length / r) x

theorem Aligned.eq {r : Nat} {x : List Byte} (h : Aligned r x) : x.length = x.length / r * r :=
  (Nat.div_mul_cancel h).symm

theorem pieces_flatten {r : Nat} {x : List Byte} (h : Aligned r x) : (pieces r x).flatten = x := cut_flatten _ _ _ h.eq

theorem pieces_blocks {r : Nat} {x : List Byte} (h : Aligned r x) : Blocks r (pieces r x) := cut_blocks _ _ _ h.eq

theorem pieces_append {r : Nat} (hr : r ≠ 0) {x y : List Byte} (hx : Aligned r x) : pieces r (x ++ y) = pieces r x ++ pieces r y := by
  obtain ⟨k, hk⟩ := hx
  have e : (x ++ y).length / r = x.length / r + y.length / r := by
    rw [List.length_append, hk, Nat.mul_add_div (by omega), Nat.mul_div_cancel_left _ (by omega)]
  rw [pieces, e, cut_append]
  · rfl
  · rw [hk, Nat.mul_div_cancel_left _ (by omega), Nat.mul_comm]

theorem pieces_of_blocks {r : Nat} (hr : r ≠ 0) {bs : List (List Byte)} (h : Blocks r bs) : pieces r bs.flatten = bs := by
  rw [pieces, h.length, Nat.mul_div_cancel _ (by omega), cut_flatten_blocks h]

theorem blocks_aligned {r : Nat} {bs : List (List Byte)} (h : Blocks r bs) : Aligned r bs.flatten := by
  rw [Aligned, h.length]; exact Nat.dvd_mul_left _ _

/-- The engine `f` computes the pure function `F` on aligned messages, and `F` composes. -/
structure Follows {σ : Type} (p : Profile) (turns : Nat) (f : σ → Call σ) (F : σ → List Byte → σ × List Byte)
    (good : σ → Prop) (r : Nat) : Prop where
  maps : ∀ s m, good s → Aligned r m → Maps p turns (f s) m (F s m).1 (F s m).2
  keeps : ∀ s m, good s → Aligned r m → good (F s m).1
  nil : ∀ s, good s → F s [] = (s, [])
  app : ∀ s m m', good s → Aligned r m → Aligned r m' →
    F s (m ++ m') = ((F (F s m).1 m').1, (F s m).2 ++ (F (F s m).1 m').2)

theorem Follows.session {σ : Type} {p : Profile} {turns : Nat} {f : σ → Call σ} {F : σ → List Byte → σ × List Byte}
    {good : σ → Prop} {r : Nat} (h : Follows p turns f F good r) :
    ∀ (ms : List (List Byte)) (s : σ), good s → (∀ m ∈ ms, Aligned r m) →
      ∃ rs, Session p turns f s ms (F s ms.flatten).1 rs ∧ rs.flatten = (F s ms.flatten).2
  | [], s, hs, _ => ⟨[], by rw [List.flatten_nil, h.nil s hs]; exact ⟨.nil s, rfl⟩⟩
  | m :: ms, s, hs, ha => by
    have hm := ha m (List.mem_cons_self ..)
    have hms : ∀ m ∈ ms, Aligned r m := fun x hx => ha x (List.mem_cons_of_mem _ hx)
    obtain ⟨rs, h1, h2⟩ := h.session ms (F s m).1 (h.keeps s m hs hm) hms
    refine ⟨(F s m).2 :: rs, ?_, ?_⟩
    · rw [List.flatten_cons, h.app s m _ hs hm (aligned_flatten hms)]
      exact .cons (h.maps s m hs hm) h1
    · rw [List.flatten_cons, List.flatten_cons, h.app s m _ hs hm (aligned_flatten hms), h2]

/-! ## The calls of the modes -/

variable (c : Cipher)

/-- ECB `Transform` with block function `g` (encryption or decryption). -/
def ecbCall (W thr : Nat) (p : Profile) (g : List Byte → List Byte) : Unit → Call Unit :=
  fun _ scheds inp io out oo len => (ecbTransform W thr p g scheds inp io out oo len).map (fun o => ((), o))

def cbcCall (W : Nat) (p : Profile) (encryption : Bool) : List Byte → Call (List Byte) :=
  fun iv scheds inp io out oo len => cbcProcess c W p scheds encryption iv inp io out oo len

def cfbCall (mm : Bool) (r : Nat) (p : Profile) (encryption : Bool) : List Byte → Call (List Byte) :=
  fun reg scheds inp io out oo len => cfbProcess mm c r p scheds encryption reg inp io out oo len

def ofbCall : List Byte → Call (List Byte) := fun iv _ inp io out oo len => ofbTransform c iv inp io out oo len

def ctrCall (k : Kind) (W : Nat) (p : Profile) : List Byte → Call (List Byte) :=
  fun nonce scheds inp io out oo len => ctrTransform k W c p scheds nonce inp io out oo len

/-- The profile of an instance with parallel processing off. -/
def seqProfile : Profile := ⟨false, 0, 0⟩

theorem seqProfile_valid : seqProfile.Valid := by intro h; cases h

theorem fair_seq (t n : Nat) (s : Nat → List Nat) : Fair seqProfile t n s := by intro h; cases h

/-! ## The modes follow their textbook definitions -/

def ecbF (g : List Byte → List Byte) : Unit → List Byte → Unit × List Byte :=
  fun _ m => ((), ((pieces 16 m).map g).flatten)

theorem ecb_follows (W thr : Nat) (p : Profile) (hv : p.Valid) (g : List Byte → List Byte)
    (hg : ∀ b, b.length = 16 → (g b).length = 16) :
    Follows p (ecbTurns W thr (p.blockSize / p.degree / 16)) (ecbCall W thr p g) (ecbF g) (fun _ => True) 16 where
  maps := by
    intro s m _ ha scheds inp io pre junk post hf hin hj
    have := ecbTransform_ok W thr p hv g hg inp io (pieces 16 m) (pieces_blocks ha) (by rw [pieces_flatten ha]; exact hin)
      pre junk post pre.length rfl (by rw [hj, ha.eq]; simp [pieces]) m.length (by simp [pieces]) scheds hf
    simp only [ecbCall, this, ecbF]
    rfl
  keeps := fun _ _ _ _ => trivial
  nil := fun _ _ => rfl
  app := by
    intro s m m' _ ha _
    simp only [ecbF, pieces_append (by decide : (16 : Nat) ≠ 0) ha, List.map_append, List.flatten_append]

def cbcEncF : List Byte → List Byte → List Byte × List Byte :=
  fun iv m => (lastOr iv (cbcEnc c.enc iv (pieces 16 m)), (cbcEnc c.enc iv (pieces 16 m)).flatten)

def cbcDecF : List Byte → List Byte → List Byte × List Byte :=
  fun iv m => (lastOr iv (pieces 16 m), (cbcDec c.dec iv (pieces 16 m)).flatten)

theorem cbcEnc_append (E : List Byte → List Byte) (iv : List Byte) (as bs : List (List Byte)) :
    cbcEnc E iv (as ++ bs) = cbcEnc E iv as ++ cbcEnc E (lastOr iv (cbcEnc E iv as)) bs := by
  induction as generalizing iv with
  | nil => rfl
  | cons a as ih => simp only [List.cons_append, cbcEnc, lastOr, ih]

theorem cbcEnc_follows (hE : ∀ b, b.length = 16 → (c.enc b).length = 16) (W : Nat) (p : Profile) (t : Nat) :
    Follows p t (cbcCall c W p true) (cbcEncF c) (fun iv => iv.length = 16) 16 where
  maps := by
    intro s m hs ha scheds inp io pre junk post hf hin hj
    exact cbcEncProcess_ok c hE W p scheds inp io pre.length (pieces 16 m) (pieces_blocks ha)
      (by rw [pieces_flatten ha]; exact hin) s pre junk post hs rfl (by rw [hj, ha.eq]; simp [pieces]) m.length (by simp [pieces])
  keeps := fun s m hs ha => lastOr_length (cbcEnc_blocks c.enc hE _ _ (pieces_blocks ha) hs) hs
  nil := fun _ _ => rfl
  app := by
    intro s m m' _ ha _
    simp only [cbcEncF, pieces_append (by decide : (16 : Nat) ≠ 0) ha, cbcEnc_append, lastOr_append, List.flatten_append]

theorem cbcDec_follows (hD : ∀ b, b.length = 16 → (c.dec b).length = 16) (W : Nat) (p : Profile) (hv : p.Valid) :
    Follows p (cbcTurns W (p.blockSize / p.degree / 16)) (cbcCall c W p false) (cbcDecF c) (fun iv => iv.length = 16) 16 where
  maps := by
    intro s m hs ha scheds inp io pre junk post hf hin hj
    exact cbcDecProcess_ok c hD W p hv scheds inp io pre.length (pieces 16 m) (pieces_blocks ha)
      (by rw [pieces_flatten ha]; exact hin) s pre junk post hs rfl (by rw [hj, ha.eq]; simp [pieces]) m.length (by simp [pieces]) hf
  keeps := fun s m hs ha => lastOr_length (pieces_blocks ha) hs
  nil := fun _ _ => rfl
  app := by
    intro s m m' _ ha _
    simp only [cbcDecF, pieces_append (by decide : (16 : Nat) ≠ 0) ha, cbcDec_append, lastOr_append, List.flatten_append]

def cfbEncF (r : Nat) : List Byte → List Byte → List Byte × List Byte :=
  fun s m => (cfbReg r s (cfbEnc c.enc r s (pieces r m)), (cfbEnc c.enc r s (pieces r m)).flatten)

def cfbDecF (r : Nat) : List Byte → List Byte → List Byte × List Byte :=
  fun s m => (cfbReg r s (pieces r m), (cfbDec c.enc r s (pieces r m)).flatten)

theorem cfbEnc_append (E : List Byte → List Byte) (r : Nat) (s : List Byte) (as bs : List (List Byte)) :
    cfbEnc E r s (as ++ bs) = cfbEnc E r s as ++ cfbEnc E r (cfbReg r s (cfbEnc E r s as)) bs := by
  induction as generalizing s with
  | nil => rfl
  | cons a as ih => simp only [List.cons_append, cfbEnc, cfbReg, ih]

theorem cfbEnc_follows (hE : ∀ b, b.length = 16 → (c.enc b).length = 16) (mm : Bool) {r : Nat} (hr0 : r ≠ 0) (hr : r ≤ 16)
    (hm : mm = true ∨ 8 ≤ r) (p : Profile) (t : Nat) :
    Follows p t (cfbCall c mm r p true) (cfbEncF c r) (fun s => s.length = 16) r where
  maps := by
    intro s m hs ha scheds inp io pre junk post hf hin hj
    exact cfbEncProcess_ok mm c hE hr0 hr hm p scheds inp io pre.length (pieces r m) (pieces_blocks ha)
      (by rw [pieces_flatten ha]; exact hin) s pre junk post hs rfl (by rw [hj, ha.eq]; simp [pieces]) m.length (by simp [pieces])
  keeps := fun s m hs ha => cfbReg_length hr _ _ (cfbEnc_blocks c.enc hE hr _ _ (pieces_blocks ha) hs).1 hs
  nil := fun _ _ => by simp [cfbEncF, pieces, cut, cfbEnc, cfbReg]
  app := by
    intro s m m' _ ha _
    simp only [cfbEncF, pieces_append hr0 ha, cfbEnc_append, cfbReg_append, List.flatten_append]

theorem cfbDec_follows (hE : ∀ b, b.length = 16 → (c.enc b).length = 16) (mm : Bool) {r : Nat} (hr0 : r ≠ 0) (hr : r ≤ 16)
    (hm : mm = true ∨ 8 ≤ r) (p : Profile) (hv : p.Valid) :
    Follows p (p.blockSize / p.degree / 16 + 1) (cfbCall c mm r p false) (cfbDecF c r) (fun s => s.length = 16) r where
  maps := by
    intro s m hs ha scheds inp io pre junk post hf hin hj
    exact cfbDecProcess_ok mm c hE hr0 hr hm p hv scheds inp io pre.length (pieces r m) (pieces_blocks ha)
      (by rw [pieces_flatten ha]; exact hin) s pre junk post hs rfl (by rw [hj, ha.eq]; simp [pieces]) m.length (by simp [pieces]) hf
  keeps := fun s m hs ha => cfbReg_length hr _ _ (pieces_blocks ha) hs
  nil := fun _ _ => by simp [cfbDecF, pieces, cut, cfbDec, cfbReg]
  app := by
    intro s m m' _ ha _
    simp only [cfbDecF, pieces_append hr0 ha, cfbDec_append, cfbReg_append, List.flatten_append]

def ofbF : List Byte → List Byte → List Byte × List Byte :=
  fun iv m => (lastOr iv (ofbStream c.enc (m.length / 16) iv), xorBytes (ofbStream c.enc (m.length / 16) iv).flatten m)

theorem ofbStream_add (E : List Byte → List Byte) (a b : Nat) (iv : List Byte) :
    ofbStream E (a + b) iv = ofbStream E a iv ++ ofbStream E b (lastOr iv (ofbStream E a iv)) := by
  induction a generalizing iv with
  | zero => simp [ofbStream, lastOr]
  | succ a ih => rw [show a + 1 + b = (a + b) + 1 by omega]; simp only [ofbStream, lastOr, ih, List.cons_append]

theorem ofbStream_blocks (E : List Byte → List Byte) (hE : ∀ b, b.length = 16 → (E b).length = 16) :
    ∀ (n : Nat) (iv : List Byte), iv.length = 16 → Blocks 16 (ofbStream E n iv) ∧ (ofbStream E n iv).length = n
  | 0, _, _ => ⟨by intro b hb; simp [ofbStream] at hb, rfl⟩
  | n + 1, iv, h => by
    obtain ⟨h1, h2⟩ := ofbStream_blocks E hE n (E iv) (hE iv h)
    refine ⟨?_, by simp [ofbStream, h2]⟩
    intro b hb
    cases hb with
    | head => exact hE iv h
    | tail _ hb => exact h1 b hb

theorem ofbStream_flat_length (E : List Byte → List Byte) (hE : ∀ b, b.length = 16 → (E b).length = 16) (n : Nat) (iv : List Byte)
    (h : iv.length = 16) : (ofbStream E n iv).flatten.length = n * 16 := by
  obtain ⟨h1, h2⟩ := ofbStream_blocks E hE n iv h
  rw [h1.length, h2]

theorem ofb_follows (hE : ∀ b, b.length = 16 → (c.enc b).length = 16) :
    Follows seqProfile 0 (ofbCall c) (ofbF c) (fun iv => iv.length = 16) 16 where
  maps := by
    intro s m hs ha scheds inp io pre junk post hf hin hj
    have := ofbTransform_ok c hE inp io pre.length (pieces 16 m) (pieces_blocks ha)
      (by rw [pieces_flatten ha]; exact hin) s pre junk post hs rfl (by rw [hj, ha.eq]; simp [pieces])
    have e : (pieces 16 m).length = m.length / 16 := by simp [pieces]
    rw [e, ← ha.eq, pieces_flatten ha] at this
    exact this
  keeps := fun s m hs ha => lastOr_length (ofbStream_blocks c.enc hE _ _ hs).1 hs
  nil := fun _ _ => by simp [ofbF, ofbStream, lastOr, xorBytes]
  app := by
    intro s m m' hs ha hb
    obtain ⟨x, hx⟩ := ha
    have e : (m ++ m').length / 16 = m.length / 16 + m'.length / 16 := by rw [List.length_append, hx]; omega
    simp only [ofbF, e, ofbStream_add, lastOr_append, List.flatten_append]
    rw [xorBytes_append]
    rw [ofbStream_flat_length c.enc hE _ _ hs, hx]; omega

def ctrF (k : Kind) : List Byte → List Byte → List Byte × List Byte :=
  fun n m => (k.cnt n ((m.length + 15) / 16), xorBytes (ctrStream c.enc (k.cnt n) m.length) m)

/-- The parallel block of a counter mode is at most 0xFF00 cipher blocks (1 MB). -/
def SmallBlock (p : Profile) : Prop := p.isParallel = true → p.blockSize ≤ 16 * 0xFF00

theorem noLostCarry_of_small {k : Kind} {p : Profile} (hv : p.Valid) (hs : SmallBlock p) (n : List Byte) (len : Nat) :
    NoLostCarry k p n len := by
  intro hp
  exact noLostCarry_small k p hv n len (hs hp) hp

theorem ctr_follows (hE : ∀ b, b.length = 16 → (c.enc b).length = 16) (k : Kind) (W : Nat) (p : Profile) (hv : p.Valid)
    (hsm : SmallBlock p) :
    Follows p (ctrTurns W (p.blockSize / p.degree)) (ctrCall c k W p) (ctrF c k) (fun n => n.length = 16) 16 where
  maps := by
    intro s m hs _ scheds inp io pre junk post hf hin hj
    exact ctrTransform_ok k W c hE p hv s inp m io hs hin pre junk post pre.length rfl hj (noLostCarry_of_small hv hsm _ _) scheds hf
  keeps := fun s m hs _ => cnt_length _ _ _
  nil := by
    intro s hs
    simp [ctrF, ctrStream, xorBytes, cnt_zero k hs]
  app := by
    intro s m m' hs ha hb
    obtain ⟨x, hx⟩ := ha
    have e : ((m ++ m').length + 15) / 16 = (m.length + 15) / 16 + (m'.length + 15) / 16 := by rw [List.length_append, hx]; omega
    have e2 : (m.length + 15) / 16 = x := by rw [hx]; omega
    simp only [ctrF, e, cnt_add]
    rw [List.length_append, hx, Nat.mul_comm 16 x, ctrStream_split c.enc hE, ctrStream_blocks c.enc hE, xorBytes_append]
    · rw [show (x * 16 + 15) / 16 = x by omega]
    · rw [ksBlocks_length c.enc hE, hx, Nat.mul_comm]

end Cex.Modes
