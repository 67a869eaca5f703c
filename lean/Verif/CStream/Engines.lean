import Verif.CStream.Writes

/-! # The cipher modes as engines of the cipher stream -/

namespace Cex.CStream
open Cex Cex.Kdf Cex.Streams Cex.Padding Cex.Modes Cex.Modes.Spec Cex.Par

variable {σ : Type}

/-- A mode of Verif/Modes as the engine of a cipher stream. Its state is the register and the number of calls made; call number `n` runs its parallel sections with the schedules `scheds n`. -/
def eng (p : Profile) (f : σ → Call σ) (blk : List Byte → Nat → Nat → Act σ) (scheds : Nat → Nat → List Nat) : Eng (σ × Nat) where
  blk := 16
  par := p.isParallel
  prl := p.blockSize
  transform := fun s inp io out oo len => do
    let (r, o) ← f s.1 (scheds s.2) inp io out oo len
    return ((r, s.2 + 1), o)
  block := fun s inp io out oo => do
    let (r, o) ← blk inp io oo s.1 out
    return ((r, s.2 + 1), o)

/-- Every task of every parallel section of every call gets its turns. -/
def AllFair (p : Profile) (turns : Nat) (scheds : Nat → Nat → List Nat) : Prop := p.isParallel = true → ∀ n i, Covers p.degree turns (scheds n i)

theorem AllFair.fair {p : Profile} {turns : Nat} {scheds : Nat → Nat → List Nat} (h : AllFair p turns scheds) (n len : Nat) : Fair p turns len (scheds n) := fun hp i _ => h hp n i

theorem prl_ok {p : Profile} (hv : p.Valid) (hp : p.isParallel = true) : 16 ≤ p.blockSize ∧ 16 ∣ p.blockSize := by
  obtain ⟨m, h1, h2, _, h4⟩ := hv.split hp
  refine ⟨?_, ⟨p.degree * m, by rw [h4, Nat.mul_comm]⟩⟩
  have : 0 < p.degree * m := Nat.mul_pos (by omega) (by omega)
  omega

theorem eng_does {p : Profile} {turns : Nat} {f : σ → Call σ} {F : σ → List Byte → σ × List Byte} {good : σ → Prop} (h : Follows p turns f F good 16) (hv : p.Valid)
    {scheds : Nat → Nat → List Nat} (hf : AllFair p turns scheds) (hlen : ∀ t m, good t → Aligned 16 m → (F t m).2.length = m.length) (blk : List Byte → Nat → Nat → Act σ) :
    Does (eng p f blk scheds) Prod.fst good F where
  blk := show 0 < 16 by decide
  prl := fun hp => prl_ok hv hp
  transform := by
    intro s m inp io pre junk post hg hd hh hj
    refine ⟨((F s.1 m).1, s.2 + 1), ?_, rfl⟩
    show (f s.1 (scheds s.2) inp io (pre ++ junk ++ post) pre.length m.length >>= _) = _
    rw [h.maps s.1 m hg hd (scheds s.2) inp io pre junk post (hf.fair _ _) hh hj, ok_bind]
    rfl
  keeps := fun t m hg hd => h.keeps t m hg hd
  nil := fun t hg => h.nil t hg
  app := fun t m m' hg hd hd' => h.app t m m' hg hd hd'
  len := fun t m hg hd => hlen t m hg hd

theorem eng_block {p : Profile} {f : σ → Call σ} {F : σ → List Byte → σ × List Byte} {good : σ → Prop} {scheds : Nat → Nat → List Nat} {blk : List Byte → Nat → Nat → Act σ}
    (h : ∀ t m inp io pre junk post, good t → m.length = 16 → Holds inp io m → junk.length = 16 → blk inp io pre.length t (pre ++ junk ++ post) = .ok ((F t m).1, pre ++ (F t m).2 ++ post)) :
    BlockDoes (eng p f blk scheds) Prod.fst good F := by
  intro s m inp io pre junk post hg hl hh hj
  have hl : m.length = 16 := hl
  refine ⟨((F s.1 m).1, s.2 + 1), ?_, rfl⟩
  show (blk inp io pre.length s.1 (pre ++ junk ++ post) >>= _) = _
  rw [h s.1 m inp io pre junk post hg hl hh (by omega), ok_bind]
  rfl

theorem pieces_one {m : List Byte} (h : m.length = 16) : pieces 16 m = [m] := by
  rw [pieces, h, show 16 / 16 = 1 from rfl, cut, cut, List.take_of_length_le (by omega)]

/-! ## CBC -/

def cbcEnc (c : Cipher) (W : Nat) (p : Profile) (scheds : Nat → Nat → List Nat) : Eng (List Byte × Nat) := eng p (cbcCall c W p true) (cbcEncBlock c) scheds

def cbcDec (c : Cipher) (W : Nat) (p : Profile) (scheds : Nat → Nat → List Nat) : Eng (List Byte × Nat) := eng p (cbcCall c W p false) (cbcDecBlock c) scheds

variable {c : Cipher}

theorem cbcEnc_len (hE : ∀ b, b.length = 16 → (c.enc b).length = 16) (t m : List Byte) (hg : t.length = 16) (ha : Aligned 16 m) : (cbcEncF c t m).2.length = m.length := by
  rw [cbcEncF, (cbcEnc_blocks c.enc hE _ _ (pieces_blocks ha) hg).length, ha.eq]
  have : ∀ (bs : List (List Byte)) (iv : List Byte), (Spec.cbcEnc c.enc iv bs).length = bs.length := by
    intro bs
    induction bs with
    | nil => intro _; rfl
    | cons b bs ih => intro iv; simp [Spec.cbcEnc, ih]
  rw [this]; simp [pieces]

theorem cbcDec_len (hD : ∀ b, b.length = 16 → (c.dec b).length = 16) (t m : List Byte) (hg : t.length = 16) (ha : Aligned 16 m) : (cbcDecF c t m).2.length = m.length := by
  have : ∀ (bs : List (List Byte)) (iv : List Byte), iv.length = 16 → Blocks 16 bs → (Spec.cbcDec c.dec iv bs).flatten.length = bs.flatten.length := by
    intro bs
    induction bs with
    | nil => intro _ _ _; rfl
    | cons b bs ih =>
      intro iv hiv hb
      obtain ⟨h1, h2⟩ := hb.cons
      simp only [Spec.cbcDec, List.flatten_cons, List.length_append, ih b h1 h2, xorBytes_length, hD b h1, hiv, h1]
      omega
  rw [cbcDecF, this _ _ hg (pieces_blocks ha), pieces_flatten ha]

theorem cbcEnc_does (hE : ∀ b, b.length = 16 → (c.enc b).length = 16) (W : Nat) {p : Profile} (hv : p.Valid) {scheds : Nat → Nat → List Nat} (hf : AllFair p 0 scheds) :
    Does (cbcEnc c W p scheds) Prod.fst (fun iv => iv.length = 16) (cbcEncF c) := eng_does (cbcEnc_follows c hE W p 0) hv hf (cbcEnc_len hE) _

theorem cbcEnc_block (hE : ∀ b, b.length = 16 → (c.enc b).length = 16) (W : Nat) (p : Profile) (scheds : Nat → Nat → List Nat) :
    BlockDoes (cbcEnc c W p scheds) Prod.fst (fun iv => iv.length = 16) (cbcEncF c) := by
  apply eng_block
  intro t m inp io pre junk post hg hm hh hj
  rw [cbcEncBlock_at c hE hh hm hg rfl hj]
  simp [cbcEncF, pieces_one hm, Spec.cbcEnc, cbcEncStep, lastOr]

theorem cbcDec_does (hD : ∀ b, b.length = 16 → (c.dec b).length = 16) (W : Nat) {p : Profile} (hv : p.Valid) {scheds : Nat → Nat → List Nat} (hf : AllFair p (cbcTurns W (p.blockSize / p.degree / 16)) scheds) :
    Does (cbcDec c W p scheds) Prod.fst (fun iv => iv.length = 16) (cbcDecF c) := eng_does (cbcDec_follows c hD W p hv) hv hf (cbcDec_len hD) _

theorem cbcDec_block (hD : ∀ b, b.length = 16 → (c.dec b).length = 16) (W : Nat) (p : Profile) (scheds : Nat → Nat → List Nat) :
    BlockDoes (cbcDec c W p scheds) Prod.fst (fun iv => iv.length = 16) (cbcDecF c) := by
  apply eng_block
  intro t m inp io pre junk post hg hm hh hj
  rw [cbcDecBlock_at c hD hh hm hg rfl hj]
  simp [cbcDecF, pieces_one hm, Spec.cbcDec, cbcDecStep, lastOr]

theorem cbc_back (hc : c.Good) (iv m : List Byte) (hiv : iv.length = 16) (ha : Aligned 16 m) : (cbcDecF c iv (cbcEncF c iv m).2).2 = m := by
  have hb := cbcEnc_blocks c.enc hc.enc_len _ _ (pieces_blocks ha) hiv
  rw [cbcEncF, cbcDecF]
  simp only [pieces_of_blocks (by decide : (16 : Nat) ≠ 0) hb]
  rw [cbc_inv c hc _ _ (pieces_blocks ha) hiv, pieces_flatten ha]

/-! ## CFB with a register of 16 bytes -/

def cfbEnc (c : Cipher) (mm : Bool) (p : Profile) (scheds : Nat → Nat → List Nat) : Eng (List Byte × Nat) := eng p (cfbCall c mm 16 p true) (cfbEncBlock mm c 16) scheds

def cfbDec (c : Cipher) (mm : Bool) (p : Profile) (scheds : Nat → Nat → List Nat) : Eng (List Byte × Nat) := eng p (cfbCall c mm 16 p false) (cfbDecBlock mm c 16) scheds

theorem cfb_len (c : Cipher) (hE : ∀ b, b.length = 16 → (c.enc b).length = 16) (t m : List Byte) (hg : t.length = 16) (ha : Aligned 16 m) :
    (cfbEncF c 16 t m).2.length = m.length ∧ (cfbDecF c 16 t m).2.length = m.length := by
  have h1 := cfbEnc_blocks c.enc hE (Nat.le_refl 16) _ _ (pieces_blocks ha) hg
  have h2 := cfbDec_blocks c.enc hE (Nat.le_refl 16) _ _ (pieces_blocks ha) hg
  have h3 : ∀ (bs : List (List Byte)) (s : List Byte), (Spec.cfbDec c.enc 16 s bs).length = bs.length := by
    intro bs
    induction bs with
    | nil => intro _; rfl
    | cons b bs ih => intro s; simp [Spec.cfbDec, ih]
  have e : (pieces 16 m).length * 16 = m.length := by rw [ha.eq]; simp [pieces]
  constructor
  · rw [cfbEncF]; simp only []; rw [h1.1.length, h1.2, e]
  · rw [cfbDecF]; simp only []; rw [h2.length, h3, e]

theorem cfbEnc_does (hE : ∀ b, b.length = 16 → (c.enc b).length = 16) (mm : Bool) {p : Profile} (hv : p.Valid) {scheds : Nat → Nat → List Nat} (hf : AllFair p 0 scheds) :
    Does (cfbEnc c mm p scheds) Prod.fst (fun iv => iv.length = 16) (cfbEncF c 16) :=
  eng_does (cfbEnc_follows c hE mm (by decide) (Nat.le_refl 16) (Or.inr (by decide)) p 0) hv hf (fun t m h ha => (cfb_len c hE t m h ha).1) _

theorem cfbEnc_block (hE : ∀ b, b.length = 16 → (c.enc b).length = 16) (mm : Bool) (p : Profile) (scheds : Nat → Nat → List Nat) :
    BlockDoes (cfbEnc c mm p scheds) Prod.fst (fun iv => iv.length = 16) (cfbEncF c 16) := by
  apply eng_block
  intro t m inp io pre junk post hg hm hh hj
  rw [cfbEncBlock_at mm c hE (Nat.le_refl 16) (Or.inr (by decide)) hh hm hg rfl hj]
  simp [cfbEncF, pieces_one hm, Spec.cfbEnc, cfbEncStep, cfbReg]

theorem cfbDec_does (hE : ∀ b, b.length = 16 → (c.enc b).length = 16) (mm : Bool) {p : Profile} (hv : p.Valid) {scheds : Nat → Nat → List Nat} (hf : AllFair p (p.blockSize / p.degree / 16 + 1) scheds) :
    Does (cfbDec c mm p scheds) Prod.fst (fun iv => iv.length = 16) (cfbDecF c 16) :=
  eng_does (cfbDec_follows c hE mm (by decide) (Nat.le_refl 16) (Or.inr (by decide)) p hv) hv hf (fun t m h ha => (cfb_len c hE t m h ha).2) _

theorem cfbDec_block (hE : ∀ b, b.length = 16 → (c.enc b).length = 16) (mm : Bool) (p : Profile) (scheds : Nat → Nat → List Nat) :
    BlockDoes (cfbDec c mm p scheds) Prod.fst (fun iv => iv.length = 16) (cfbDecF c 16) := by
  apply eng_block
  intro t m inp io pre junk post hg hm hh hj
  rw [cfbDecBlock_at mm c hE (Nat.le_refl 16) (Or.inr (by decide)) hh hm hg rfl hj]
  simp [cfbDecF, pieces_one hm, Spec.cfbDec, cfbDecStep, cfbReg]

theorem cfb_back (hE : ∀ b, b.length = 16 → (c.enc b).length = 16) (iv m : List Byte) (hiv : iv.length = 16) (ha : Aligned 16 m) : (cfbDecF c 16 iv (cfbEncF c 16 iv m).2).2 = m := by
  have hb := (cfbEnc_blocks c.enc hE (Nat.le_refl 16) _ _ (pieces_blocks ha) hiv).1
  rw [cfbEncF, cfbDecF]
  simp only [pieces_of_blocks (by decide : (16 : Nat) ≠ 0) hb]
  rw [cfb_inv c.enc hE (Nat.le_refl 16) _ _ (pieces_blocks ha) hiv, pieces_flatten ha]

/-! ## OFB, which is never parallel here (CipherStream.cpp:125) -/

def ofb (c : Cipher) : Eng (List Byte × Nat) := eng seqProfile (ofbCall c) (ofbBlock c) (fun _ _ => [])

theorem ofb_len (hE : ∀ b, b.length = 16 → (c.enc b).length = 16) (t m : List Byte) (hg : t.length = 16) (ha : Aligned 16 m) : (ofbF c t m).2.length = m.length := by
  rw [ofbF]
  simp only [xorBytes_length, ofbStream_flat_length c.enc hE _ _ hg]
  have := ha.eq
  omega

theorem ofb_does (hE : ∀ b, b.length = 16 → (c.enc b).length = 16) : Does (ofb c) Prod.fst (fun iv => iv.length = 16) (ofbF c) :=
  eng_does (ofb_follows c hE) seqProfile_valid (by intro h; cases h) (ofb_len hE) _

theorem ofb_block (hE : ∀ b, b.length = 16 → (c.enc b).length = 16) : BlockDoes (ofb c) Prod.fst (fun iv => iv.length = 16) (ofbF c) := by
  apply eng_block
  intro t m inp io pre junk post hg hm hh hj
  rw [ofbBlock_at c hE hh hm hg rfl hj]
  simp [ofbF, hm, ofbStream, ofbStep, lastOr]

theorem ofb_back (hE : ∀ b, b.length = 16 → (c.enc b).length = 16) (iv m : List Byte) (hiv : iv.length = 16) (ha : Aligned 16 m) : (ofbF c iv (ofbF c iv m).2).2 = m := by
  have hl := ofb_len hE iv m hiv ha
  rw [ofbF, hl]
  simp only [ofbF]
  apply xorBytes_cancel
  rw [ofbStream_flat_length c.enc hE _ _ hiv]
  have := ha.eq
  omega

/-! ## CTR and ICM -/

def counter (c : Cipher) (k : Modes.Kind) (W : Nat) (p : Profile) (scheds : Nat → Nat → List Nat) : Eng (List Byte × Nat) := eng p (ctrCall c k W p) (ctrBlock k c) scheds

theorem ctr_len (hE : ∀ b, b.length = 16 → (c.enc b).length = 16) (k : Modes.Kind) (t m : List Byte) : (ctrF c k t m).2.length = m.length := by
  rw [ctrF]
  simp only [xorBytes_length, ctrStream_length c.enc hE]
  omega

theorem counter_fluid (hE : ∀ b, b.length = 16 → (c.enc b).length = 16) (k : Modes.Kind) (W : Nat) {p : Profile} (hv : p.Valid) (hsm : SmallBlock p) {scheds : Nat → Nat → List Nat}
    (hf : AllFair p (ctrTurns W (p.blockSize / p.degree)) scheds) : Fluid (counter c k W p scheds) Prod.fst (fun iv => iv.length = 16) (ctrF c k) where
  toDoes := eng_does (ctr_follows c hE k W p hv hsm) hv hf (fun t m _ _ => ctr_len hE k t m) _
  tail := by
    intro s m inp io pre junk post hg hh hj
    refine ⟨((ctrF c k s.1 m).1, s.2 + 1), ?_, rfl⟩
    show (ctrTransform k W c p (scheds s.2) s.1 inp io (pre ++ junk ++ post) pre.length m.length >>= _) = _
    rw [ctrTransform_ok k W c hE p hv s.1 inp m io hg hh pre junk post pre.length rfl hj (noLostCarry_of_small hv hsm _ _) (scheds s.2) (hf.fair _ _), ok_bind]
    rfl
  append := by
    intro s m m' hs ha
    obtain ⟨x, hx⟩ := ha
    have hx : m.length = 16 * x := hx
    have e : ((m ++ m').length + 15) / 16 = (m.length + 15) / 16 + (m'.length + 15) / 16 := by rw [List.length_append, hx]; omega
    simp only [ctrF, e, cnt_add]
    rw [List.length_append, hx, Nat.mul_comm 16 x, ctrStream_split c.enc hE, ctrStream_blocks c.enc hE, xorBytes_append]
    · rw [show (x * 16 + 15) / 16 = x by omega]
    · rw [ksBlocks_length c.enc hE, hx, Nat.mul_comm]
  length := fun t m _ => ctr_len hE k t m

theorem ctr_back (hE : ∀ b, b.length = 16 → (c.enc b).length = 16) (k : Modes.Kind) (n m : List Byte) : (ctrF c k n (ctrF c k n m).2).2 = m := by
  have hl := ctr_len hE k n m
  rw [ctrF, hl]
  simp only [ctrF]
  apply xorBytes_cancel
  rw [ctrStream_length c.enc hE]

end Cex.CStream
