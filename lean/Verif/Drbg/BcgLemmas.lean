import Verif.Drbg.BcgModel
import Verif.Drbg.BcgSpec
import Verif.Keccak.ShakeProps

/-! # Lemmas about BCG -/

namespace Cex.Drbg
open Cex Cex.Mac Cex.Par Cex.IntTools Cex.Keccak Cex.Modes Cex.SCipher Cex.SCipher.Spec Cex.Rijndael

namespace Bcg

/-! ## The counter engine -/

theorem core_laws (E : List Byte → List Byte) (hl : ∀ c, c.length = 32 → (E c).length = 32) :
    Laws (core E) (fun c : List Byte => c.length = 32) byteCnt (fun _ _ => False) where
  pos := by show 0 < 32; omega
  valid := fun h j => byteCnt_length (by omega) h j
  zero := fun h => byteCnt_zero (by omega) h
  add := fun _ i j => byteCnt_add _ i j
  inc := fun h => byteCnt_inc (by omega) h
  jump := fun _ hf => hf.elim
  len := fun h => hl _ h
  wide := fun cs _ => List.flatMap_def

theorem beJump_length (c : List Byte) (n : Nat) : (beJump c n).length = 32 := beEnc_length _ _

theorem core_jump (E : List Byte → List Byte) {c : List Byte} {n : Nat} (h : c.length = 32) (hn : n < 0xFF00) : (core E).jump c n = .ok (beJump c n) := by
  show beIncrease8 4 c (List.replicate 32 0) 0 (BitVec.ofNat 32 n) = _
  have hv : (BitVec.ofNat 32 n).toNat = n := by rw [BitVec.toNat_ofNat, Nat.mod_eq_of_lt (by omega)]
  obtain ⟨x, h1, h2, h3⟩ := C03_be_increase_partial 4 (Nat.le_refl 32) (BitVec.ofNat 32 n) c [] (List.replicate 32 0) [] (by simp [h])
  simp only [List.nil_append, List.append_nil, List.length_nil] at h1
  rw [hv, h] at h3
  rw [h] at h2
  rw [h1, beJump, eq_beEnc h2 (h3.mpr (C03_small hn))]
  rfl

theorem ctrStream_length {E : List Byte → List Byte} (hl : ∀ c, c.length = 32 → (E c).length = 32) {c : List Byte} (h : c.length = 32) (len : Nat) :
    (ctrStream E c len).length = len := keystream_length (core_laws E hl) h len

theorem ctrStream_congr {E E' : List Byte → List Byte} (he : ∀ c, c.length = 32 → E c = E' c) {c : List Byte} (h : c.length = 32) (len : Nat) :
    ctrStream E c len = ctrStream E' c len := by
  rw [ctrStream, ctrStream]
  congr 1
  funext j
  exact he _ (byteCnt_length (by omega) h j)

theorem lastCtr_length (p : Prof) (c : List Byte) : (lastCtr p c).length = 32 := byteCnt_length (by omega) (beJump_length _ _) _

theorem ctrAfter_length (p : Prof) {c : List Byte} (h : c.length = 32) (len : Nat) : (ctrAfter p c len).length = 32 := by
  rw [ctrAfter]
  split
  · exact byteCnt_length (by omega) h _
  · exact byteCnt_length (by omega) (lastCtr_length _ _) _

theorem answer_congr {E E' : List Byte → List Byte} (he : ∀ c, c.length = 32 → E c = E' c) {c : List Byte} (h : c.length = 32) (p : Prof) (len : Nat) :
    answer E p c len = answer E' p c len := by
  rw [answer, answer, ctrStream_congr he h, ctrStream_congr he (lastCtr_length _ _)]
  have : (fun i => ctrStream E (beJump c (perTask p * i)) (perTask p * 32)) = fun i => ctrStream E' (beJump c (perTask p * i)) (perTask p * 32) := by
    funext i; exact ctrStream_congr he (beJump_length _ _) _
  rw [this]

/-- The profile cuts a parallel block into equal tasks of whole blocks, and is not larger than about 2 MB. -/
def Fair (p : Prof) : Prop := p.isParallel = true → p.degree ≠ 0 ∧ perTask p ≠ 0 ∧ p.blockSize = p.degree * (perTask p * 32) ∧ p.blockSize < 32 * 0xFF00

theorem answer_length {E : List Byte → List Byte} (hl : ∀ c, c.length = 32 → (E c).length = 32) {c : List Byte} (h : c.length = 32) {p : Prof} (hp : Fair p) (len : Nat) :
    (answer E p c len).length = len := by
  rw [answer]
  split
  · exact ctrStream_length hl h len
  · rename_i hs
    rw [Serial, not_or] at hs
    have hpar : p.isParallel = true := by simpa using hs.1
    obtain ⟨hd, _, hb, _⟩ := hp hpar
    rw [List.length_append, ctrStream_length hl (lastCtr_length _ _)]
    have := flatW_length (fun i => ctrStream E (beJump c (perTask p * i)) (perTask p * 32)) (perTask p * 32) p.degree (fun i _ => ctrStream_length hl (beJump_length _ _) _)
    rw [flatW] at this
    rw [this, ← hb]
    omega

/-- The tasks, under every schedule that runs them to the end. -/
theorem tasks_ok {E : List Byte → List Byte} (hl : ∀ c, c.length = 32 → (E c).length = 32) (W d m : Nat) {c : List Byte} (hc : c.length = 32) (hm : m * d < 0xFF00 + m)
    (pre junk post : List Byte) (hj : junk.length = d * (m * 32)) (sched : List Nat) (hsc : Covers d (turns 32 W (m * 32)) sched) :
    ∃ ts, runSched sched (task (core E) W c pre.length (m * 32)) (pre ++ junk ++ post) =
      .ok (ts, pre ++ (List.range d).flatMap (fun i => ctrStream E (beJump c (m * i)) (m * 32)) ++ post) ∧
      ∀ i, i < d → (ts i).loc = byteCnt (beJump c (m * i)) m := by
  have L := core_laws E hl
  have hmm : m * 32 / 32 = m := Nat.mul_div_cancel _ (by omega)
  have hw : ∀ i, i < d → (winOf junk (m * 32) i).length = m * 32 := fun i hi => winOf_length _ _ d i hj hi
  obtain ⟨ts', h1, h2⟩ := interleave (L := List Byte) d (m * 32) pre.length (fun i => byteCnt (beJump c (m * i)) m)
    (fun i => ctrStream E (beJump c (m * i)) (m * 32)) sched
    (task (core E) W c pre.length (m * 32)) (winOf junk (m * 32)) pre post rfl hw (by
      intro i hi
      have hlt : m * i < 0xFF00 := by
        have := Nat.mul_le_mul_left m (show i + 1 ≤ d from hi)
        rw [Nat.mul_succ] at this
        omega
      have hr := gen_runs L W (pre.length + i * (m * 32)) (m * 32) (beJump_length c (m * i)) _ (hw i hi)
      have hb : blocksFor (core E).B (m * 32) = m := blocksFor_mul (B := 32) (by omega) m
      rw [hb] at hr
      refine Runs.cons (l1 := beJump c (m * i)) (w1 := winOf junk (m * 32) i) ?_ rfl hr
      intro a q _
      show ((core E).jump c (m * 32 / 32 * i) >>= fun t => Except.ok (t, a ++ winOf junk (m * 32) i ++ q)) = _
      rw [hmm, core_jump E hc hlt]
      rfl)
    hsc.1 (fun i hi => by
      have := gen_turns (core E) W (pre.length + i * (m * 32)) (m * 32)
      have h5 := hsc.2 i hi
      have h6 : (core E).B = 32 := rfl
      rw [h6] at this
      show (genActs (core E) W (pre.length + i * (m * 32)) (m * 32)).length + 1 ≤ _
      omega)
  rw [flatW_winOf, show d * (m * 32) = junk.length from hj.symm, List.take_length] at h1
  exact ⟨ts', h1, fun i hi => (h2 i hi).2⟩

theorem process_ok (W : Nat) (s : Bcg) {E : List Byte → List Byte} (hE : ∀ c, c.length = 32 → blockOf s.keys s.rounds c = E c) (hl : ∀ c, c.length = 32 → (E c).length = 32)
    (hc : s.nonce.length = 32) (hf : Fair s.prof) (sched : List Nat) (hsc : Covers s.prof.degree (turns 32 W (perTask s.prof * 32)) sched) (pre junk post : List Byte) :
    s.process W sched (pre ++ junk ++ post) pre.length junk.length =
      .ok ({ s with nonce := ctrAfter s.prof s.nonce junk.length }, pre ++ answer E s.prof s.nonce junk.length ++ post) := by
  have hl' : ∀ c, c.length = 32 → (blockOf s.keys s.rounds c).length = 32 := fun c h => by rw [hE c h]; exact hl c h
  have L := core_laws _ hl'
  rw [← answer_congr hE hc]
  generalize hB : blockOf s.keys s.rounds = B at *
  have gen : ∀ (c : List Byte) (hc : c.length = 32) (pre junk post : List Byte),
      runActs (genActs (core B) W pre.length junk.length) c (pre ++ junk ++ post) = .ok (byteCnt c (blocksFor 32 junk.length), pre ++ ctrStream B c junk.length ++ post) :=
    fun c hc pre junk post => (gen_runs L W pre.length junk.length hc junk rfl).run pre post rfl
  rw [process, hB]
  by_cases hs : Serial s.prof junk.length
  · have hs' : s.prof.isParallel = false ∨ junk.length < s.prof.blockSize := hs
    rw [if_pos hs', gen _ hc, ctrAfter, if_pos hs, answer, if_pos hs]
    rfl
  · have hs' : ¬ (s.prof.isParallel = false ∨ junk.length < s.prof.blockSize) := hs
    rw [if_neg hs']
    have hpar : s.prof.isParallel = true := by
      rw [Serial, not_or] at hs; simpa using hs.1
    have hle : s.prof.blockSize ≤ junk.length := by
      rw [Serial, not_or] at hs; omega
    obtain ⟨hd, hm0, hb, hbs⟩ := hf hpar
    rw [if_neg hd]
    have hcnk : s.prof.blockSize / s.prof.degree = perTask s.prof * 32 := by
      rw [hb, Nat.mul_comm, Nat.mul_div_cancel _ (by omega)]
    have haln : perTask s.prof * 32 * s.prof.degree = s.prof.blockSize := by rw [hb, Nat.mul_comm]
    have hsmall : perTask s.prof * s.prof.degree < 0xFF00 := by
      have : perTask s.prof * s.prof.degree * 32 = s.prof.blockSize := by rw [← haln, Nat.mul_right_comm]
      omega
    obtain ⟨ts, t1, t2⟩ := tasks_ok hl' W s.prof.degree (perTask s.prof) hc (by omega) pre (junk.take s.prof.blockSize) (junk.drop s.prof.blockSize ++ post)
      (by rw [List.length_take, ← hb]; omega) sched hsc
    have hsp : pre ++ junk.take s.prof.blockSize ++ (junk.drop s.prof.blockSize ++ post) = pre ++ junk ++ post := by
      simp only [List.append_assoc]; rw [← List.append_assoc (junk.take _), List.take_append_drop]
    rw [hsp] at t1
    have hlast := t2 (s.prof.degree - 1) (by omega)
    have hfl : ((List.range s.prof.degree).flatMap (fun i => ctrStream B (beJump s.nonce (perTask s.prof * i)) (perTask s.prof * 32))).length = s.prof.blockSize := by
      have := flatW_length (fun i => ctrStream B (beJump s.nonce (perTask s.prof * i)) (perTask s.prof * 32)) (perTask s.prof * 32) s.prof.degree
        (fun i _ => ctrStream_length hl' (beJump_length _ _) _)
      rw [flatW] at this
      rw [this, ← hb]
    simp only [pure_eq_ok, ok_bind, hcnk, haln]
    rw [t1]
    simp only [ok_bind]
    rw [hlast, ctrAfter, if_neg hs, answer, if_neg hs]
    by_cases hlt : s.prof.blockSize < junk.length
    · rw [if_pos hlt]
      have g := gen (lastCtr s.prof s.nonce) (lastCtr_length _ _) (pre ++ (List.range s.prof.degree).flatMap (fun i => ctrStream B (beJump s.nonce (perTask s.prof * i)) (perTask s.prof * 32)))
        (junk.drop s.prof.blockSize) post
      rw [List.length_append, hfl, List.length_drop] at g
      rw [← List.append_assoc]
      show (runActs (genActs (core B) W (pre.length + s.prof.blockSize) (junk.length - s.prof.blockSize)) (lastCtr s.prof s.nonce) _ >>= _) = _
      rw [g, ok_bind, List.append_assoc pre]
    · rw [if_neg hlt]
      have h0 : junk.length - s.prof.blockSize = 0 := by omega
      have hd0 : junk.drop s.prof.blockSize = [] := List.drop_of_length_le (by omega)
      have e1 : ctrStream B (lastCtr s.prof s.nonce) 0 = [] := by
        have := ctrStream_length hl' (lastCtr_length s.prof s.nonce) 0
        exact List.eq_nil_of_length_eq_zero this
      have e2 : byteCnt (lastCtr s.prof s.nonce) (blocksFor 32 0) = lastCtr s.prof s.nonce := by
        rw [show blocksFor 32 0 = 0 from rfl]; exact byteCnt_zero (by omega) (lastCtr_length _ _)
      rw [h0, hd0, e1, e2, List.append_nil]
      rfl

end Bcg
end Cex.Drbg
