import Verif.Rijndael.Ni
import Verif.Rijndael.Schedule
import Verif.Stream

/-! # The AES-NI code computes the same ciphers -/

namespace Cex.Rijndael
open Cex.Aes (St Schedule bytes col xorWord rotWord rconWord expand keyWords)

/-! ## Registers in memory -/

/-- `k` holds the register `x` at byte offset `off`. -/
def HasReg (k : List Byte) (off : Nat) (x : Reg) : Prop := ∀ r c : Fin 4, k[off + (4 * c.val + r.val)]? = some (x r c)

theorem bytes_get {nb : Nat} : ∀ (x : St nb) (r : Fin 4) (c : Fin nb), (bytes x)[4 * c.val + r.val]? = some (x r c) := by
  induction nb with
  | zero => intro x r c; exact c.elim0
  | succ nb ih =>
    intro x r c
    rw [bytes, List.ofFn_succ, List.flatten_cons]
    match c with
    | ⟨0, _⟩ =>
      rw [List.getElem?_append_left (by show 4 * 0 + r.val < 4; omega)]
      match r with
      | 0 => rfl
      | 1 => rfl
      | 2 => rfl
      | 3 => rfl
    | ⟨c + 1, hc⟩ =>
      rw [List.getElem?_append_right (by show 4 ≤ 4 * (c + 1) + r.val; omega)]
      have := ih (fun r c => x r c.succ) r ⟨c, by omega⟩
      rw [show 4 * (c + 1) + r.val - (col fun r => x r 0).length = 4 * c + r.val from by show 4 * (c + 1) + r.val - 4 = _; omega]
      exact this

theorem ldReg_ok {k : List Byte} {off : Nat} {x : Reg} (h : HasReg k off x) : ldReg k off = .ok x := by
  have hl : off + 16 ≤ k.length := by
    have := h 3 3
    have := (List.getElem?_eq_some_iff.mp this).1
    have e : off + (4 * 3 + 3) < k.length := this
    omega
  rw [ldReg, slice_ok hl, ok_bind, dif_pos (by rw [List.length_take, List.length_drop]; omega)]
  rw [pure_eq_ok]
  congr 1
  funext r c
  have e := h r c
  rw [List.getElem?_eq_some_iff] at e
  obtain ⟨h1, h2⟩ := e
  simp only [Aes.state, List.getElem_take, List.getElem_drop]
  exact h2

theorem hasReg_state {k : List Byte} {off : Nat} (h : off + 16 ≤ k.length) : ∃ x, HasReg k off x := by
  refine ⟨fun r c => k[off + (4 * c.val + r.val)], ?_⟩
  intro r c
  exact List.getElem?_eq_getElem _

theorem blit_get {k src : List Byte} {off : Nat} (h : off + src.length ≤ k.length) :
    ∃ k', blit k off src = .ok k' ∧ k'.length = k.length ∧ (∀ j, j < src.length → k'[off + j]? = src[j]?) ∧
      ∀ j, (j < off ∨ off + src.length ≤ j) → k'[j]? = k[j]? := by
  refine ⟨_, blit_ok h, ?_, ?_, ?_⟩
  · simp only [List.length_append, List.length_take, List.length_drop]; omega
  · intro j hj
    rw [List.append_assoc, List.getElem?_append_right (by rw [List.length_take]; omega), List.length_take,
      Nat.min_eq_left (by omega), Nat.add_sub_cancel_left, List.getElem?_append_left hj]
  · intro j hj
    rcases hj with hj | hj
    · rw [List.append_assoc, List.getElem?_append_left (by rw [List.length_take]; omega), List.getElem?_take_of_lt hj]
    · rw [List.getElem?_append_right (by simp only [List.length_append, List.length_take]; omega), List.getElem?_drop]
      simp only [List.length_append, List.length_take]
      congr 1
      omega

theorem stReg_ok {k : List Byte} {off : Nat} (x : Reg) (h : off + 16 ≤ k.length) :
    ∃ k', stReg k off x = .ok k' ∧ k'.length = k.length ∧ HasReg k' off x ∧ ∀ j, (j < off ∨ off + 16 ≤ j) → k'[j]? = k[j]? := by
  have hl : (bytes x).length = 16 := bytes_length x
  obtain ⟨k', h1, h2, h3, h4⟩ := blit_get (k := k) (src := bytes x) (off := off) (by omega)
  refine ⟨k', h1, h2, ?_, ?_⟩
  · intro r c
    rw [h3 _ (by omega), bytes_get]
  · intro j hj; exact h4 j (by omega)

/-- Storing elsewhere keeps a register. -/
theorem HasReg.keep {k k' : List Byte} {off o : Nat} {x : Reg} (h : HasReg k o x) (hk : ∀ j, (j < off ∨ off + 16 ≤ j) → k'[j]? = k[j]?)
    (ho : o + 16 ≤ off ∨ off + 16 ≤ o) : HasReg k' o x := by
  intro r c
  rw [hk _ (by omega)]
  exact h r c

/-! ## Schedules in memory -/

/-- The first `n` words in memory are the schedule `w`. -/
def Flat (k : List Byte) (w : Schedule) (n : Nat) : Prop := ∀ i, i < n → ∀ r : Fin 4, k[4 * i + r.val]? = some (w i r)

/-- Four words of a schedule as a register. -/
def regOf (w : Schedule) (i : Nat) : Reg := fun r c => w (i + c.val) r

theorem Flat.reg {k : List Byte} {w : Schedule} {n i : Nat} (h : Flat k w n) (hi : i + 4 ≤ n) : HasReg k (4 * i) (regOf w i) := by
  intro r c
  have := h (i + c.val) (by omega) r
  rw [show 4 * (i + c.val) + r.val = 4 * i + (4 * c.val + r.val) from by omega] at this
  exact this

theorem Flat.ld {k : List Byte} {w : Schedule} {n i : Nat} (h : Flat k w n) (hi : i + 4 ≤ n) : ldReg k (4 * i) = .ok (regOf w i) :=
  ldReg_ok (h.reg hi)

theorem Flat.le {k : List Byte} {w : Schedule} {n m : Nat} (h : Flat k w n) (hm : m ≤ n) : Flat k w m := fun i hi r => h i (by omega) r

theorem Flat.keep {k k' : List Byte} {w : Schedule} {n : Nat} (h : Flat k w n) (hk : ∀ j, j < 4 * n → k'[j]? = k[j]?) : Flat k' w n := by
  intro i hi r
  rw [hk _ (by omega)]
  exact h i hi r

theorem Flat.extend {k : List Byte} {w : Schedule} {i m : Nat} (h : Flat k w i) (hm : ∀ t, t < m → ∀ r : Fin 4, k[4 * i + (4 * t + r.val)]? = some (w (i + t) r)) :
    Flat k w (i + m) := by
  intro j hj r
  by_cases hlt : j < i
  · exact h j hlt r
  · have := hm (j - i) (by omega) r
    rw [show 4 * i + (4 * (j - i) + r.val) = 4 * j + r.val from by omega, show i + (j - i) = j from by omega] at this
    exact this

/-- Storing the next four words. -/
theorem Flat.st {k : List Byte} {w : Schedule} {i N : Nat} (hl : k.length = N) (h : Flat k w i) (hi : 4 * i + 16 ≤ N) {x : Reg} (hx : ∀ r c, x r c = w (i + c.val) r) :
    ∃ k', stReg k (4 * i) x = .ok k' ∧ k'.length = N ∧ Flat k' w (i + 4) := by
  obtain ⟨k', h1, h2, h3, h4⟩ := stReg_ok (k := k) (off := 4 * i) x (by omega)
  refine ⟨k', h1, h2.trans hl, Flat.extend (h.keep (fun j hj => h4 j (Or.inl hj))) ?_⟩
  intro t ht r
  rw [← hx r ⟨t, ht⟩]
  exact h3 r ⟨t, ht⟩

/-! ## Key schedule -/

theorem fin4 (c : Fin 4) : c = 0 ∨ c = 1 ∨ c = 2 ∨ c = 3 := by omega

theorem smear_lanes (p : Reg) (r : Fin 4) : smear p r 0 = p r 0 ∧ smear p r 1 = p r 0 ^^^ p r 1 ∧ smear p r 2 = p r 0 ^^^ p r 1 ^^^ p r 2 ∧
    smear p r 3 = p r 0 ^^^ p r 1 ^^^ p r 2 ^^^ p r 3 := by
  have cancel : ∀ a b : Byte, a ^^^ (a ^^^ b) = b := by intro a b; rw [← BitVec.xor_assoc, BitVec.xor_self, BitVec.zero_xor]
  have s0 : ∀ x : Reg, slli4 x r 0 = 0#8 := fun _ => rfl
  have s1 : ∀ x : Reg, slli4 x r 1 = x r 0 := fun _ => rfl
  have s2 : ∀ x : Reg, slli4 x r 2 = x r 1 := fun _ => rfl
  have s3 : ∀ x : Reg, slli4 x r 3 = x r 2 := fun _ => rfl
  simp only [smear, xorReg, s0, s1, s2, s3, BitVec.xor_zero]
  generalize p r 0 = a; generalize p r 1 = b; generalize p r 2 = c; generalize p r 3 = d
  refine ⟨trivial, ?_, ?_, ?_⟩
  · rw [show (b ^^^ a) ^^^ a ^^^ a = a ^^^ (a ^^^ (b ^^^ a)) from by ac_rfl, cancel]
    ac_rfl
  · rw [show (c ^^^ b) ^^^ (b ^^^ a) ^^^ ((b ^^^ a) ^^^ a) = b ^^^ (b ^^^ (a ^^^ (a ^^^ (a ^^^ (b ^^^ c))))) from by ac_rfl, cancel, cancel]
    ac_rfl
  · rw [show (d ^^^ c) ^^^ (c ^^^ b) ^^^ ((c ^^^ b) ^^^ (b ^^^ a)) = c ^^^ (c ^^^ (b ^^^ (b ^^^ (a ^^^ (b ^^^ (c ^^^ d)))))) from by ac_rfl, cancel, cancel]
    ac_rfl

/-- A block of four words: the first from `t`, the others chained. -/
theorem block_words {w : Schedule} {i off : Nat} {t : Fin 4 → Byte} (e0 : w i = xorWord (w (i - off)) t)
    (e : ∀ t, 0 < t → t < 4 → w (i + t) = xorWord (w (i - off + t)) (w (i + t - 1))) :
    ∀ r c : Fin 4, xorReg (smear (regOf w (i - off))) (fun r _ => t r) r c = w (i + c.val) r := by
  intro r c
  obtain ⟨l0, l1, l2, l3⟩ := smear_lanes (regOf w (i - off)) r
  have e1 := e 1 (by omega) (by omega)
  have e2 := e 2 (by omega) (by omega)
  have e3 := e 3 (by omega) (by omega)
  rw [show i + 1 - 1 = i from by omega] at e1
  rw [show i + 2 - 1 = i + 1 from by omega] at e2
  rw [show i + 3 - 1 = i + 2 from by omega] at e3
  rcases fin4 c with rfl | rfl | rfl | rfl
  · simp only [xorReg, l0]
    show w (i - off + 0) r ^^^ t r = w (i + 0) r
    rw [Nat.add_zero, Nat.add_zero, e0]; rfl
  · simp only [xorReg, l1]
    show w (i - off + 0) r ^^^ w (i - off + 1) r ^^^ t r = w (i + 1) r
    rw [e1, e0]; simp only [xorWord, Nat.add_zero]; ac_rfl
  · simp only [xorReg, l2]
    show w (i - off + 0) r ^^^ w (i - off + 1) r ^^^ w (i - off + 2) r ^^^ t r = w (i + 2) r
    rw [e2, e1, e0]; simp only [xorWord, Nat.add_zero]; ac_rfl
  · simp only [xorReg, l3]
    show w (i - off + 0) r ^^^ w (i - off + 1) r ^^^ w (i - off + 2) r ^^^ w (i - off + 3) r ^^^ t r = w (i + 3) r
    rw [e3, e2, e1, e0]; simp only [xorWord, Nat.add_zero]; ac_rfl

/-- A byte in front of three zeros. -/
def rcByte (rc : Byte) : Fin 4 → Byte := fun r => if r = 0 then rc else 0

theorem niRot_ok {k : List Byte} {w : Schedule} {i off N : Nat} {rc : Byte} (hl : k.length = N) (h : Flat k w (4 * i)) (hi : 16 * i + 16 ≤ N)
    (h0 : 0 < off) (ho : off ≤ i)
    (e0 : w (4 * i) = xorWord (w (4 * i - 4 * off)) (xorWord (Aes.subWord (rotWord (w (4 * i - 1)))) (rcByte rc)))
    (e : ∀ t, 0 < t → t < 4 → w (4 * i + t) = xorWord (w (4 * i - 4 * off + t)) (w (4 * i + t - 1))) :
    ∃ k', (do let k ← niAssist i rc k; niExpandRot i off k) = .ok k' ∧ k'.length = N ∧ Flat k' w (4 * (i + 1)) := by
  have e16 : ∀ j, 16 * j = 4 * (4 * j) := fun j => by omega
  have hp := h.ld (i := 4 * (i - 1)) (by omega)
  obtain ⟨k1, a1, b1, c1, d1⟩ := stReg_ok (k := k) (off := 16 * i) (keygenassist (regOf w (4 * (i - 1))) rc) (by omega)
  have f1 := h.keep (k' := k1) (fun j hj => d1 j (by omega))
  have hq := f1.ld (i := 4 * (i - off)) (by omega)
  obtain ⟨k2, a2, b2, c2, d2⟩ := stReg_ok (k := k1) (off := 16 * i) (broadcast 3 (keygenassist (regOf w (4 * (i - 1))) rc)) (by omega)
  have f2 := f1.keep (k' := k2) (fun j hj => d2 j (by omega))
  obtain ⟨k3, a3, b3, c3⟩ := Flat.st (N := N) (x := xorReg (smear (regOf w (4 * (i - off)))) (broadcast 3 (keygenassist (regOf w (4 * (i - 1))) rc)))
    (by omega) f2 (by omega) (by
      have := block_words (i := 4 * i) (off := 4 * off) e0 e
      rw [show 4 * i - 4 * off = 4 * (i - off) from by omega] at this
      rw [← show (fun (r : Fin 4) (_ : Fin 4) => xorWord (Aes.subWord (rotWord (w (4 * i - 1)))) (rcByte rc) r) = broadcast 3 (keygenassist (regOf w (4 * (i - 1))) rc) from by
        funext r c
        simp only [xorWord, Aes.subWord, rotWord, rcByte]
        rw [show 4 * i - 1 = 4 * (i - 1) + 3 from by omega]
        rfl]
      exact this)
  refine ⟨k3, ?_, b3, c3⟩
  rw [niAssist, e16 (i - 1), hp, ok_bind, a1, ok_bind, niExpandRot, e16 (i - off), hq, ok_bind, ldReg_ok c1, ok_bind, a2, ok_bind,
    ldReg_ok c2, ok_bind, e16 i]
  exact a3

theorem niSub_ok {k : List Byte} {w : Schedule} {i off N : Nat} (hl : k.length = N) (h : Flat k w (4 * i)) (hi : 16 * i + 16 ≤ N)
    (h0 : 0 < off) (ho : off ≤ i)
    (e0 : w (4 * i) = xorWord (w (4 * i - 4 * off)) (Aes.subWord (w (4 * i - 1))))
    (e : ∀ t, 0 < t → t < 4 → w (4 * i + t) = xorWord (w (4 * i - 4 * off + t)) (w (4 * i + t - 1))) :
    ∃ k', niExpandSub i off k = .ok k' ∧ k'.length = N ∧ Flat k' w (4 * (i + 1)) := by
  have e16 : ∀ j, 16 * j = 4 * (4 * j) := fun j => by omega
  have hp := h.ld (i := 4 * (i - 1)) (by omega)
  have hq := h.ld (i := 4 * (i - off)) (by omega)
  obtain ⟨k2, a2, b2, c2, d2⟩ := stReg_ok (k := k) (off := 16 * i) (broadcast 2 (keygenassist (regOf w (4 * (i - 1))) 0)) (by omega)
  have f2 := h.keep (k' := k2) (fun j hj => d2 j (by omega))
  obtain ⟨k3, a3, b3, c3⟩ := Flat.st (N := N) (x := xorReg (smear (regOf w (4 * (i - off)))) (broadcast 2 (keygenassist (regOf w (4 * (i - 1))) 0)))
    (by omega) f2 (by omega) (by
      have := block_words (i := 4 * i) (off := 4 * off) e0 e
      rw [show 4 * i - 4 * off = 4 * (i - off) from by omega] at this
      rw [← show (fun (r : Fin 4) (_ : Fin 4) => Aes.subWord (w (4 * i - 1)) r) = broadcast 2 (keygenassist (regOf w (4 * (i - 1))) 0) from by
        funext r c
        simp only [broadcast, keygenassist, regOf, Aes.subWord]
        rw [show 4 * i - 1 = 4 * (i - 1) + 3 from by omega]
        rfl]
      exact this)
  refine ⟨k3, ?_, b3, c3⟩
  rw [niExpandSub, e16 (i - off), hq, ok_bind, e16 (i - 1), hp, ok_bind, a2, ok_bind, ldReg_ok c2, ok_bind, e16 i]
  exact a3

/-- The invariant of the 192-bit schedule after `m` blocks of six words. -/
structure Six (N : Nat) (w : Schedule) (m : Nat) (st : List Byte × Reg × Reg) : Prop where
  length : st.1.length = N
  flat : Flat st.1 w (6 * m + 6)
  k0 : ∀ r c, st.2.1 r c = w (6 * m + c.val) r
  k1 : ∀ r, st.2.2 r 0 = w (6 * m + 4) r ∧ st.2.2 r 1 = w (6 * m + 5) r

theorem ni192_key1 {w : Schedule} {m : Nat} {rc : Byte} {k0 k1 : Reg} (h0 : ∀ r c, k0 r c = w (6 * m + c.val) r) (h1 : ∀ r, k1 r 1 = w (6 * m + 5) r)
    (e0 : w (6 * m + 6) = xorWord (w (6 * m)) (xorWord (Aes.subWord (rotWord (w (6 * m + 5)))) (rcByte rc)))
    (e : ∀ t, 0 < t → t < 4 → w (6 * m + 6 + t) = xorWord (w (6 * m + t)) (w (6 * m + 6 + t - 1))) :
    ∀ r c, xorReg (smear k0) (broadcast 1 (keygenassist k1 rc)) r c = w (6 * m + 6 + c.val) r := by
  have := block_words (w := w) (i := 6 * m + 6) (off := 6) (t := xorWord (Aes.subWord (rotWord (w (6 * m + 5)))) (rcByte rc))
    (by rw [show 6 * m + 6 - 6 = 6 * m from by omega]; exact e0) (by rw [show 6 * m + 6 - 6 = 6 * m from by omega]; exact e)
  rw [show 6 * m + 6 - 6 = 6 * m from by omega] at this
  rw [show k0 = regOf w (6 * m) from by funext r c; exact h0 r c]
  rw [show broadcast 1 (keygenassist k1 rc) = (fun (r : Fin 4) (_ : Fin 4) => xorWord (Aes.subWord (rotWord (w (6 * m + 5)))) (rcByte rc) r) from by
    funext r c
    simp only [xorWord, Aes.subWord, rotWord, rcByte, ← h1]
    rfl]
  exact this

theorem ni192_ok {w : Schedule} {m N : Nat} {rc : Byte} {st : List Byte × Reg × Reg} (h : Six N w m st) (hN : 4 * (6 * m + 12) ≤ N) (hoff : 24 * (m + 1) ≠ 192)
    (e0 : w (6 * m + 6) = xorWord (w (6 * m)) (xorWord (Aes.subWord (rotWord (w (6 * m + 5)))) (rcByte rc)))
    (e : ∀ t, 0 < t → t < 6 → w (6 * m + 6 + t) = xorWord (w (6 * m + t)) (w (6 * m + 6 + t - 1))) :
    ∃ st', niExpand192 13 rc (24 * (m + 1)) st = .ok st' ∧ Six N w (m + 1) st' := by
  obtain ⟨k, k0, k1⟩ := st
  obtain ⟨hl, hf, h0, h1⟩ := h
  simp only [] at hl hf h0 h1
  have hk := ni192_key1 h0 (fun r => (h1 r).2) e0 (fun t a b => e t a (by omega))
  obtain ⟨x, hx⟩ : ∃ x, x = xorReg (smear k0) (broadcast 1 (keygenassist k1 rc)) := ⟨_, rfl⟩
  rw [← hx] at hk
  have e24 : 24 * (m + 1) = 4 * (6 * m + 6) := by omega
  obtain ⟨ka, a1, a2, a3⟩ := Flat.st (i := 6 * m + 6) hl hf (by omega) hk
  obtain ⟨y, hy⟩ : ∃ y, y = xorReg (xorReg k1 (slli4 k1)) (broadcast 3 x) := ⟨_, rfl⟩
  have y0 : ∀ r, y r 0 = w (6 * m + 10) r := by
    intro r
    rw [hy]
    show k1 r 0 ^^^ 0#8 ^^^ x r 3 = _
    have := e 4 (by omega) (by omega)
    rw [show 6 * m + 6 + 4 - 1 = 6 * m + 6 + (3 : Fin 4).val from rfl, show 6 * m + 6 + 4 = 6 * m + 10 from by omega] at this
    rw [this, hk, (h1 r).1, BitVec.xor_zero]; rfl
  have y1 : ∀ r, y r 1 = w (6 * m + 11) r := by
    intro r
    rw [hy]
    show k1 r 1 ^^^ k1 r 0 ^^^ x r 3 = _
    have := e 5 (by omega) (by omega)
    rw [show 6 * m + 6 + 5 - 1 = 6 * m + 10 from by omega, show 6 * m + 6 + 5 = 6 * m + 11 from by omega] at this
    rw [this]
    show _ = w (6 * m + 5) r ^^^ w (6 * m + 10) r
    rw [← y0 r, hy]
    show _ = w (6 * m + 5) r ^^^ (k1 r 0 ^^^ 0#8 ^^^ x r 3)
    rw [(h1 r).2, BitVec.xor_zero]; ac_rfl
  have g4 : ∀ (v : Fin 4 → Byte) (r : Fin 4), (col v)[r.val]? = some (v r) := by
    intro v r; rcases fin4 r with rfl | rfl | rfl | rfl <;> rfl
  obtain ⟨kb, b1, b2, b3, b4⟩ := blit_get (k := ka) (src := lane0 y) (off := 4 * (6 * m + 10)) (by show _ + 4 ≤ _; omega)
  have fb : Flat kb w (6 * m + 6 + 4 + 1) := by
    refine Flat.extend (a3.keep (fun j hj => b4 j (by omega))) ?_
    intro t ht r
    have ht0 : t = 0 := by omega
    subst ht0
    have := b3 r.val (by show r.val < 4; omega)
    rw [show 4 * (6 * m + 6 + 4) + (4 * 0 + r.val) = 4 * (6 * m + 10) + r.val from by omega, this, show lane0 y = col (fun r => y r 0) from rfl, g4, y0,
      show 6 * m + 6 + 4 + 0 = 6 * m + 10 from by omega]
  obtain ⟨kc, c1, c2, c3, c4⟩ := blit_get (k := kb) (src := lane0 (srli4 y)) (off := 4 * (6 * m + 11)) (by show _ + 4 ≤ _; omega)
  have fc : Flat kc w (6 * m + 6 + 4 + 1 + 1) := by
    refine Flat.extend (fb.keep (fun j hj => c4 j (by omega))) ?_
    intro t ht r
    have ht0 : t = 0 := by omega
    subst ht0
    have := c3 r.val (by show r.val < 4; omega)
    rw [show 4 * (6 * m + 6 + 4 + 1) + (4 * 0 + r.val) = 4 * (6 * m + 11) + r.val from by omega, this, show lane0 (srli4 y) = col (fun r => y r 1) from rfl, g4, y1,
      show 6 * m + 6 + 4 + 1 + 0 = 6 * m + 11 from by omega]
  refine ⟨(kc, x, y), ?_, ⟨c2.trans (b2.trans a2), ?_, ?_, ?_⟩⟩
  · rw [stReg] at a1
    rw [niExpand192]
    simp only [← hx, e24]
    rw [a1, ok_bind, if_neg (by omega)]
    simp only [← hy]
    rw [show 4 * (6 * m + 6) + 16 = 4 * (6 * m + 10) from by omega, b1, ok_bind,
      show 4 * (6 * m + 10) + 4 = 4 * (6 * m + 11) from by omega, c1]
    rfl
  · rw [show 6 * (m + 1) + 6 = 6 * m + 6 + 4 + 1 + 1 from by omega]; exact fc
  · intro r c; rw [show 6 * (m + 1) + c.val = 6 * m + 6 + c.val from by omega]; exact hk r c
  · intro r
    refine ⟨?_, ?_⟩
    · rw [show 6 * (m + 1) + 4 = 6 * m + 10 from by omega]; exact y0 r
    · rw [show 6 * (m + 1) + 5 = 6 * m + 11 from by omega]; exact y1 r

/-- The last block of the 192-bit schedule stops after four words. -/
theorem ni192_last {w : Schedule} {rc : Byte} {st : List Byte × Reg × Reg} (h : Six 208 w 7 st)
    (e0 : w 48 = xorWord (w 42) (xorWord (Aes.subWord (rotWord (w 47))) (rcByte rc)))
    (e : ∀ t, 0 < t → t < 4 → w (48 + t) = xorWord (w (42 + t)) (w (48 + t - 1))) :
    ∃ st', niExpand192 13 rc 192 st = .ok st' ∧ st'.1.length = 208 ∧ Flat st'.1 w 52 := by
  obtain ⟨k, k0, k1⟩ := st
  obtain ⟨hl, hf, h0, h1⟩ := h
  have hk := ni192_key1 (m := 7) h0 (fun r => (h1 r).2) e0 (fun t a b => e t a b)
  obtain ⟨ka, a1, a2, a3⟩ := Flat.st (i := 48) hl hf (by omega) hk
  refine ⟨(ka, xorReg (smear k0) (broadcast 1 (keygenassist k1 rc)), k1), ?_, a2, a3⟩
  rw [stReg] at a1
  rw [niExpand192]
  simp only []
  rw [show (192 : Nat) = 4 * 48 from rfl, a1, ok_bind, if_pos ⟨trivial, trivial⟩]
  rfl

/-! ## The whole schedule -/

theorem rcByte_eq (i : Nat) (rc : Byte) (h : Aes.xpow (i - 1) 1 = rc) : rconWord i = rcByte rc := by
  subst h; rfl

theorem keyWords_get {key : List Byte} {i : Nat} (h : 4 * i + 4 ≤ key.length) (r : Fin 4) : key[4 * i + r.val]? = some (keyWords key i r) := by
  rw [keyWords, dif_pos (by omega)]
  exact List.getElem?_eq_getElem _

/-- The key itself holds the first words. -/
theorem key_flat {key : List Byte} {nk : Nat} (h : key.length = 4 * nk) : Flat key (expand nk (keyWords key)) nk := by
  intro i hi r
  rw [expand_low _ hi]
  exact keyWords_get (by omega) r

theorem expand_block {nk i : Nat} (key : Schedule) (h : nk ≤ i) (hn : nk = 4 ∨ nk = 6 ∨ nk = 8) (hm : i % nk = 0) {rc : Byte} (hr : Aes.xpow (i / nk - 1) 1 = rc) :
    expand nk key i = xorWord (expand nk key (i - nk)) (xorWord (Aes.subWord (rotWord (expand nk key (i - 1)))) (rcByte rc)) := by
  rw [expand_rot key (by omega) h hm, rcByte_eq _ _ hr]

theorem niExpand_128 {key : List Byte} (hk : key.length = 16) :
    ∃ k, niStandardExpand key = .ok (10, k) ∧ k.length = 176 ∧ Flat k (expand 4 (keyWords key)) 44 := by
  have hw := key_flat (nk := 4) hk
  obtain ⟨k0, a0, b0, s0⟩ := Flat.st (k := List.replicate 176 0) (w := expand 4 (keyWords key)) (i := 0) (N := 176) (by rw [List.length_replicate])
    (fun i hi => absurd hi (by omega)) (by omega) (x := regOf (expand 4 (keyWords key)) 0) (fun r c => rfl)
  obtain ⟨k1, a1, b1, s1⟩ := niRot_ok (i := 1) (off := 1) (rc := 0x01) b0 s0 (by omega) (by omega) (by omega)
    (expand_block _ (by omega) (by omega) (by omega) (by decide +kernel)) (expand_three (nk := 4) _ (by omega) (by omega) (by omega))
  obtain ⟨k2, a2, b2, s2⟩ := niRot_ok (i := 2) (off := 1) (rc := 0x02) b1 s1 (by omega) (by omega) (by omega)
    (expand_block _ (by omega) (by omega) (by omega) (by decide +kernel)) (expand_three (nk := 4) _ (by omega) (by omega) (by omega))
  obtain ⟨k3, a3, b3, s3⟩ := niRot_ok (i := 3) (off := 1) (rc := 0x04) b2 s2 (by omega) (by omega) (by omega)
    (expand_block _ (by omega) (by omega) (by omega) (by decide +kernel)) (expand_three (nk := 4) _ (by omega) (by omega) (by omega))
  obtain ⟨k4, a4, b4, s4⟩ := niRot_ok (i := 4) (off := 1) (rc := 0x08) b3 s3 (by omega) (by omega) (by omega)
    (expand_block _ (by omega) (by omega) (by omega) (by decide +kernel)) (expand_three (nk := 4) _ (by omega) (by omega) (by omega))
  obtain ⟨k5, a5, b5, s5⟩ := niRot_ok (i := 5) (off := 1) (rc := 0x10) b4 s4 (by omega) (by omega) (by omega)
    (expand_block _ (by omega) (by omega) (by omega) (by decide +kernel)) (expand_three (nk := 4) _ (by omega) (by omega) (by omega))
  obtain ⟨k6, a6, b6, s6⟩ := niRot_ok (i := 6) (off := 1) (rc := 0x20) b5 s5 (by omega) (by omega) (by omega)
    (expand_block _ (by omega) (by omega) (by omega) (by decide +kernel)) (expand_three (nk := 4) _ (by omega) (by omega) (by omega))
  obtain ⟨k7, a7, b7, s7⟩ := niRot_ok (i := 7) (off := 1) (rc := 0x40) b6 s6 (by omega) (by omega) (by omega)
    (expand_block _ (by omega) (by omega) (by omega) (by decide +kernel)) (expand_three (nk := 4) _ (by omega) (by omega) (by omega))
  obtain ⟨k8, a8, b8, s8⟩ := niRot_ok (i := 8) (off := 1) (rc := 0x80) b7 s7 (by omega) (by omega) (by omega)
    (expand_block _ (by omega) (by omega) (by omega) (by decide +kernel)) (expand_three (nk := 4) _ (by omega) (by omega) (by omega))
  obtain ⟨k9, a9, b9, s9⟩ := niRot_ok (i := 9) (off := 1) (rc := 0x1B) b8 s8 (by omega) (by omega) (by omega)
    (expand_block _ (by omega) (by omega) (by omega) (by decide +kernel)) (expand_three (nk := 4) _ (by omega) (by omega) (by omega))
  obtain ⟨k10, a10, b10, s10⟩ := niRot_ok (i := 10) (off := 1) (rc := 0x36) b9 s9 (by omega) (by omega) (by omega)
    (expand_block _ (by omega) (by omega) (by omega) (by decide +kernel)) (expand_three (nk := 4) _ (by omega) (by omega) (by omega))
  refine ⟨k10, ?_, b10, s10⟩
  simp only [niStandardExpand, show key.length / 4 = 4 from by omega]
  rw [if_neg (by omega), if_neg (by omega), show ldReg key 0 = .ok (regOf (expand 4 (keyWords key)) 0) from hw.ld (i := 0) (by omega), ok_bind]
  simp only [show 16 * (4 * (4 + 6 + 1) / 4) = 176 from rfl]
  rw [show stReg (List.replicate 176 0) 0 (regOf (expand 4 (keyWords key)) 0) = .ok k0 from a0, ok_bind]
  obtain ⟨t1, u1, v1⟩ := bind_ok a1
  rw [u1, ok_bind, v1, ok_bind]
  obtain ⟨t2, u2, v2⟩ := bind_ok a2
  rw [u2, ok_bind, v2, ok_bind]
  obtain ⟨t3, u3, v3⟩ := bind_ok a3
  rw [u3, ok_bind, v3, ok_bind]
  obtain ⟨t4, u4, v4⟩ := bind_ok a4
  rw [u4, ok_bind, v4, ok_bind]
  obtain ⟨t5, u5, v5⟩ := bind_ok a5
  rw [u5, ok_bind, v5, ok_bind]
  obtain ⟨t6, u6, v6⟩ := bind_ok a6
  rw [u6, ok_bind, v6, ok_bind]
  obtain ⟨t7, u7, v7⟩ := bind_ok a7
  rw [u7, ok_bind, v7, ok_bind]
  obtain ⟨t8, u8, v8⟩ := bind_ok a8
  rw [u8, ok_bind, v8, ok_bind]
  obtain ⟨t9, u9, v9⟩ := bind_ok a9
  rw [u9, ok_bind, v9, ok_bind]
  obtain ⟨t10, u10, v10⟩ := bind_ok a10
  rw [u10, ok_bind, v10, ok_bind]
  rfl

theorem niExpand_192 {key : List Byte} (hk : key.length = 24) :
    ∃ k, niStandardExpand key = .ok (12, k) ∧ k.length = 208 ∧ Flat k (expand 6 (keyWords key)) 52 := by
  have hw := key_flat (nk := 6) hk
  obtain ⟨w, ew⟩ : ∃ w, w = expand 6 (keyWords key) := ⟨_, rfl⟩
  rw [← ew] at hw ⊢
  obtain ⟨k1, hk1⟩ : ∃ x : Reg, x = srli8 (regOf w 2) := ⟨_, rfl⟩
  have g0 : ∀ r, k1 r 0 = w 4 r ∧ k1 r 1 = w 5 r := by intro r; rw [hk1]; exact ⟨rfl, rfl⟩
  obtain ⟨ka, a1, a2, a3⟩ := Flat.st (k := List.replicate 208 0) (w := w) (i := 0) (N := 208) (by rw [List.length_replicate])
    (fun i hi => absurd hi (by omega)) (by omega) (x := regOf w 0) (fun r c => rfl)
  obtain ⟨kb, b1, b2, b3, b4⟩ := stReg_ok (k := ka) (off := 16) k1 (by omega)
  have fb : Flat kb w (0 + 4 + 2) := by
    refine Flat.extend (a3.keep (fun j hj => b4 j (by omega))) ?_
    intro t ht r
    have := b3 r ⟨t, by omega⟩
    rw [show 4 * (0 + 4) = 16 from rfl, this]
    have ht2 : t = 0 ∨ t = 1 := by omega
    rcases ht2 with rfl | rfl
    · exact congrArg some (g0 r).1
    · exact congrArg some (g0 r).2
  have s0 : Six 208 w 0 (kb, regOf w 0, k1) := ⟨b2.trans a2, fb, fun r c => rfl, g0⟩
  have step : ∀ m, m < 8 → ∀ rc, Aes.xpow m 1 = rc → w (6 * m + 6) = xorWord (w (6 * m)) (xorWord (Aes.subWord (rotWord (w (6 * m + 5)))) (rcByte rc)) := by
    intro m _ rc hr
    rw [ew]
    have := expand_block (nk := 6) (i := 6 * m + 6) (rc := rc) (keyWords key) (by omega) (by omega) (by omega) (by rw [show (6 * m + 6) / 6 - 1 = m from by omega]; exact hr)
    rwa [show 6 * m + 6 - 6 = 6 * m from by omega, show 6 * m + 6 - 1 = 6 * m + 5 from by omega] at this
  have plain : ∀ m t, 0 < t → t < 6 → w (6 * m + 6 + t) = xorWord (w (6 * m + t)) (w (6 * m + 6 + t - 1)) := by
    intro m t h1 h2
    rw [ew, expand_plain _ (by omega) (by omega) (by omega) (by omega), show 6 * m + 6 + t - 6 = 6 * m + t from by omega]
  obtain ⟨st1, e1, s1⟩ := ni192_ok (rc := 0x01) s0 (by omega) (by omega) (step 0 (by omega) _ (by decide +kernel)) (plain 0)
  obtain ⟨st2, e2, s2⟩ := ni192_ok (rc := 0x02) s1 (by omega) (by omega) (step 1 (by omega) _ (by decide +kernel)) (plain 1)
  obtain ⟨st3, e3, s3⟩ := ni192_ok (rc := 0x04) s2 (by omega) (by omega) (step 2 (by omega) _ (by decide +kernel)) (plain 2)
  obtain ⟨st4, e4, s4⟩ := ni192_ok (rc := 0x08) s3 (by omega) (by omega) (step 3 (by omega) _ (by decide +kernel)) (plain 3)
  obtain ⟨st5, e5, s5⟩ := ni192_ok (rc := 0x10) s4 (by omega) (by omega) (step 4 (by omega) _ (by decide +kernel)) (plain 4)
  obtain ⟨st6, e6, s6⟩ := ni192_ok (rc := 0x20) s5 (by omega) (by omega) (step 5 (by omega) _ (by decide +kernel)) (plain 5)
  obtain ⟨st7, e7, s7⟩ := ni192_ok (rc := 0x40) s6 (by omega) (by omega) (step 6 (by omega) _ (by decide +kernel)) (plain 6)
  obtain ⟨st8, e8, l8, f8⟩ := ni192_last (rc := 0x80) s7 (step 7 (by omega) _ (by decide +kernel)) (fun t h1 h2 => plain 7 t h1 (by omega))
  refine ⟨st8.1, ?_, l8, f8⟩
  simp only [niStandardExpand, show key.length / 4 = 6 from by omega]
  rw [if_neg (by omega), if_pos trivial, show ldReg key 0 = .ok (regOf w 0) from hw.ld (i := 0) (by omega), ok_bind,
    show ldReg key 8 = .ok (regOf w 2) from hw.ld (i := 2) (by omega), ok_bind]
  simp only [show 16 * (4 * (6 + 6 + 1) / 4) = 208 from rfl, ← hk1]
  rw [show stReg (List.replicate 208 0) 0 (regOf w 0) = .ok ka from a1, ok_bind, b1, ok_bind]
  rw [show niExpand192 13 0x01 24 (kb, regOf w 0, k1) = .ok st1 from e1, ok_bind, show niExpand192 13 0x02 48 st1 = .ok st2 from e2, ok_bind, show niExpand192 13 0x04 72 st2 = .ok st3 from e3, ok_bind, show niExpand192 13 0x08 96 st3 = .ok st4 from e4, ok_bind, show niExpand192 13 0x10 120 st4 = .ok st5 from e5, ok_bind, show niExpand192 13 0x20 144 st5 = .ok st6 from e6, ok_bind, show niExpand192 13 0x40 168 st6 = .ok st7 from e7, ok_bind, show niExpand192 13 0x80 192 st7 = .ok st8 from e8, ok_bind]
  rfl

theorem niExpand_256 {key : List Byte} (hk : key.length = 32) :
    ∃ k, niStandardExpand key = .ok (14, k) ∧ k.length = 240 ∧ Flat k (expand 8 (keyWords key)) 60 := by
  have hw := key_flat (nk := 8) hk
  obtain ⟨k0, a0, b0, s0⟩ := Flat.st (k := List.replicate 240 0) (w := expand 8 (keyWords key)) (i := 0) (N := 240) (by rw [List.length_replicate])
    (fun i hi => absurd hi (by omega)) (by omega) (x := regOf (expand 8 (keyWords key)) 0) (fun r c => rfl)
  obtain ⟨k1, a1, b1, s1⟩ := Flat.st (i := 4) b0 s0 (by omega) (x := regOf (expand 8 (keyWords key)) 4) (fun r c => rfl)
  obtain ⟨k2, a2, b2, s2⟩ := niRot_ok (i := 2) (off := 2) (rc := 0x01) b1 s1 (by omega) (by omega) (by omega)
    (expand_block _ (by omega) (by omega) (by omega) (by decide +kernel)) (expand_three (nk := 8) _ (by omega) (by omega) (by omega))
  obtain ⟨k3, a3, b3, s3⟩ := niSub_ok (i := 3) (off := 2) b2 s2 (by omega) (by omega) (by omega)
    (expand_sub (nk := 8) _ (by omega) (by omega) (by omega)) (expand_three (nk := 8) _ (by omega) (by omega) (by omega))
  obtain ⟨k4, a4, b4, s4⟩ := niRot_ok (i := 4) (off := 2) (rc := 0x02) b3 s3 (by omega) (by omega) (by omega)
    (expand_block _ (by omega) (by omega) (by omega) (by decide +kernel)) (expand_three (nk := 8) _ (by omega) (by omega) (by omega))
  obtain ⟨k5, a5, b5, s5⟩ := niSub_ok (i := 5) (off := 2) b4 s4 (by omega) (by omega) (by omega)
    (expand_sub (nk := 8) _ (by omega) (by omega) (by omega)) (expand_three (nk := 8) _ (by omega) (by omega) (by omega))
  obtain ⟨k6, a6, b6, s6⟩ := niRot_ok (i := 6) (off := 2) (rc := 0x04) b5 s5 (by omega) (by omega) (by omega)
    (expand_block _ (by omega) (by omega) (by omega) (by decide +kernel)) (expand_three (nk := 8) _ (by omega) (by omega) (by omega))
  obtain ⟨k7, a7, b7, s7⟩ := niSub_ok (i := 7) (off := 2) b6 s6 (by omega) (by omega) (by omega)
    (expand_sub (nk := 8) _ (by omega) (by omega) (by omega)) (expand_three (nk := 8) _ (by omega) (by omega) (by omega))
  obtain ⟨k8, a8, b8, s8⟩ := niRot_ok (i := 8) (off := 2) (rc := 0x08) b7 s7 (by omega) (by omega) (by omega)
    (expand_block _ (by omega) (by omega) (by omega) (by decide +kernel)) (expand_three (nk := 8) _ (by omega) (by omega) (by omega))
  obtain ⟨k9, a9, b9, s9⟩ := niSub_ok (i := 9) (off := 2) b8 s8 (by omega) (by omega) (by omega)
    (expand_sub (nk := 8) _ (by omega) (by omega) (by omega)) (expand_three (nk := 8) _ (by omega) (by omega) (by omega))
  obtain ⟨k10, a10, b10, s10⟩ := niRot_ok (i := 10) (off := 2) (rc := 0x10) b9 s9 (by omega) (by omega) (by omega)
    (expand_block _ (by omega) (by omega) (by omega) (by decide +kernel)) (expand_three (nk := 8) _ (by omega) (by omega) (by omega))
  obtain ⟨k11, a11, b11, s11⟩ := niSub_ok (i := 11) (off := 2) b10 s10 (by omega) (by omega) (by omega)
    (expand_sub (nk := 8) _ (by omega) (by omega) (by omega)) (expand_three (nk := 8) _ (by omega) (by omega) (by omega))
  obtain ⟨k12, a12, b12, s12⟩ := niRot_ok (i := 12) (off := 2) (rc := 0x20) b11 s11 (by omega) (by omega) (by omega)
    (expand_block _ (by omega) (by omega) (by omega) (by decide +kernel)) (expand_three (nk := 8) _ (by omega) (by omega) (by omega))
  obtain ⟨k13, a13, b13, s13⟩ := niSub_ok (i := 13) (off := 2) b12 s12 (by omega) (by omega) (by omega)
    (expand_sub (nk := 8) _ (by omega) (by omega) (by omega)) (expand_three (nk := 8) _ (by omega) (by omega) (by omega))
  obtain ⟨k14, a14, b14, s14⟩ := niRot_ok (i := 14) (off := 2) (rc := 0x40) b13 s13 (by omega) (by omega) (by omega)
    (expand_block _ (by omega) (by omega) (by omega) (by decide +kernel)) (expand_three (nk := 8) _ (by omega) (by omega) (by omega))
  refine ⟨k14, ?_, b14, s14⟩
  simp only [niStandardExpand, show key.length / 4 = 8 from by omega]
  rw [if_pos trivial, show ldReg key 0 = .ok (regOf (expand 8 (keyWords key)) 0) from hw.ld (i := 0) (by omega), ok_bind]
  simp only [show 16 * (4 * (8 + 6 + 1) / 4) = 240 from rfl]
  rw [show stReg (List.replicate 240 0) 0 (regOf (expand 8 (keyWords key)) 0) = .ok k0 from a0, ok_bind,
    show ldReg key 16 = .ok (regOf (expand 8 (keyWords key)) 4) from hw.ld (i := 4) (by omega), ok_bind,
    show stReg k0 16 (regOf (expand 8 (keyWords key)) 4) = .ok k1 from a1, ok_bind]
  obtain ⟨t2, u2, v2⟩ := bind_ok a2
  rw [u2, ok_bind, v2, ok_bind]
  rw [a3, ok_bind]
  obtain ⟨t4, u4, v4⟩ := bind_ok a4
  rw [u4, ok_bind, v4, ok_bind]
  rw [a5, ok_bind]
  obtain ⟨t6, u6, v6⟩ := bind_ok a6
  rw [u6, ok_bind, v6, ok_bind]
  rw [a7, ok_bind]
  obtain ⟨t8, u8, v8⟩ := bind_ok a8
  rw [u8, ok_bind, v8, ok_bind]
  rw [a9, ok_bind]
  obtain ⟨t10, u10, v10⟩ := bind_ok a10
  rw [u10, ok_bind, v10, ok_bind]
  rw [a11, ok_bind]
  obtain ⟨t12, u12, v12⟩ := bind_ok a12
  rw [u12, ok_bind, v12, ok_bind]
  rw [a13, ok_bind]
  obtain ⟨t14, u14, v14⟩ := bind_ok a14
  rw [u14, ok_bind, v14, ok_bind]
  rfl

/-- The AES-NI key expansion, for the three key sizes. -/
theorem niStandardExpand_eq {key : List Byte} (hk : key.length = 16 ∨ key.length = 24 ∨ key.length = 32) :
    ∃ k, niStandardExpand key = .ok (key.length / 4 + 6, k) ∧ k.length = 16 * (key.length / 4 + 6 + 1) ∧
      Flat k (expand (key.length / 4) (keyWords key)) (4 * (key.length / 4 + 6 + 1)) := by
  rcases hk with h | h | h
  · obtain ⟨k, h1, h2, h3⟩ := niExpand_128 h; rw [h]; exact ⟨k, h1, h2, h3⟩
  · obtain ⟨k, h1, h2, h3⟩ := niExpand_192 h; rw [h]; exact ⟨k, h1, h2, h3⟩
  · obtain ⟨k, h1, h2, h3⟩ := niExpand_256 h; rw [h]; exact ⟨k, h1, h2, h3⟩

/-! ## Encryption -/

theorem xorReg_key (w : Schedule) (i : Nat) (s : St 4) : xorReg s (regOf w (4 * i)) = Aes.addRoundKey w i s := rfl

theorem aesenc_eq (w : Schedule) (i : Nat) (s : St 4) :
    aesenc s (regOf w (4 * i)) = Aes.addRoundKey w i (Aes.mixColumns (Aes.shiftRows Aes.aesShifts (Aes.subBytes s))) := rfl

theorem ni_rounds {k : List Byte} {w : Schedule} {n : Nat} (hf : Flat k w n) : ∀ (m i : Nat) (s : St 4), 4 * (i + m) ≤ n →
    loopN m i (fun i x => do
      let ki ← ldReg k (16 * i)
      return aesenc x ki) s = .ok (Aes.rounds Aes.aesShifts w m i s)
  | 0, _, _, _ => rfl
  | m + 1, i, s, h => by
    rw [loopN, show 16 * i = 4 * (4 * i) from by omega, hf.ld (by omega), ok_bind, pure_eq_ok, ok_bind, aesenc_eq, ni_rounds hf m (i + 1) _ (by omega)]
    rfl

theorem ldReg_holds {inp : List Byte} {off : Nat} {s : St 4} (h : Holds inp off (bytes s)) : ldReg inp off = .ok s := by
  apply ldReg_ok
  intro r c
  obtain ⟨a, b, rfl, rfl⟩ := h
  rw [List.append_assoc, List.getElem?_append_right (by omega), Nat.add_sub_cancel_left, List.getElem?_append_left (by rw [bytes_length]; omega), bytes_get]

theorem stReg_at {a b c : List Byte} {x : St 4} (hb : b.length = 16) : stReg (a ++ b ++ c) a.length x = .ok (a ++ bytes x ++ c) := by
  rw [stReg, blit_at rfl (by rw [bytes_length]; omega)]

theorem niEncrypt_eq {k : List Byte} {w : Schedule} {nr : Nat} (hnr : 0 < nr) (hf : Flat k w (4 * (nr + 1))) (s : St 4) {inp : List Byte} {inOff : Nat}
    (hin : Holds inp inOff (bytes s)) {a b c : List Byte} (hb : b.length = 16) :
    niEncrypt128 (nr + 1) k inp inOff (a ++ b ++ c) a.length = .ok (a ++ bytes (Aes.cipher Aes.aesShifts w nr s) ++ c) := by
  rw [niEncrypt128, ldReg_holds hin, ok_bind, show ldReg k 0 = .ok (regOf w (4 * 0)) from hf.ld (i := 0) (by omega), ok_bind, xorReg_key,
    ni_rounds hf (nr + 1 - 2) 1 _ (by omega), ok_bind, show 16 * (nr + 1 - 2 + 1) = 4 * (4 * nr) from by omega, hf.ld (by omega), ok_bind, stReg_at hb]
  rfl

/-! ## Decryption -/

/-- The schedule of the equivalent inverse cipher (FIPS 197, 5.3.5): round keys in reverse order, the inner ones through InvMixColumns. -/
def invSched (nr : Nat) (w : Schedule) : Schedule := fun j r =>
  if j / 4 = 0 then w (4 * nr + j % 4) r
  else if j / 4 = nr then w (j % 4) r
  else Aes.invMixColumns (regOf w (4 * (nr - j / 4))) r ⟨j % 4, by omega⟩

theorem regOf_inv {nr i : Nat} (w : Schedule) (h0 : 0 < i) (h1 : i < nr) : regOf (invSched nr w) (4 * i) = Aes.invMixColumns (regOf w (4 * (nr - i))) := by
  funext r c
  have e1 : (4 * i + c.val) / 4 = i := by omega
  have e2 : (4 * i + c.val) % 4 = c.val := by omega
  simp only [regOf, invSched, e1, e2]
  rw [if_neg (by omega), if_neg (by omega)]

theorem regOf_inv_first (nr : Nat) (w : Schedule) : regOf (invSched nr w) 0 = regOf w (4 * nr) := by
  funext r c
  have e1 : (0 + c.val) / 4 = 0 := by omega
  have e2 : (0 + c.val) % 4 = c.val := by omega
  simp only [regOf, invSched, e1, e2, if_true]

theorem regOf_inv_last {nr : Nat} (w : Schedule) (h : 0 < nr) : regOf (invSched nr w) (4 * nr) = regOf w 0 := by
  funext r c
  have e1 : (4 * nr + c.val) / 4 = nr := by omega
  have e2 : (4 * nr + c.val) % 4 = c.val := by omega
  simp only [regOf, invSched, e1, e2]
  rw [if_neg (by omega), if_pos trivial, Nat.zero_add]

/-- Registers, one after another, make a schedule. -/
theorem flat_of_regs {k : List Byte} {w : Schedule} {n : Nat} (h : ∀ j, j < n → HasReg k (16 * j) (regOf w (4 * j))) : Flat k w (4 * n) := by
  intro i hi r
  have := h (i / 4) (by omega) r ⟨i % 4, by omega⟩
  simp only [regOf] at this
  rwa [show 16 * (i / 4) + (4 * (i % 4) + r.val) = 4 * i + r.val from by omega, show 4 * (i / 4) + i % 4 = i from by omega] at this

/-- The keys prepared for decryption, for an even number of rounds. -/
theorem niInvertKeys_eq {k : List Byte} {w : Schedule} {m : Nat} (hm : 0 < m) (hl : k.length = 16 * (2 * m + 1)) (hf : Flat k w (4 * (2 * m + 1))) :
    ∃ k', niInvertKeys (2 * m + 1) k = .ok k' ∧ k'.length = 16 * (2 * m + 1) ∧ Flat k' (invSched (2 * m) w) (4 * (2 * m + 1)) := by
  have e16 : ∀ j, 4 * (4 * j) = 16 * j := fun j => by omega
  have hr : ∀ j, j < 2 * m + 1 → HasReg k (16 * j) (regOf w (4 * j)) := by
    intro j hj
    have := hf.reg (i := 4 * j) (by omega)
    rwa [e16] at this
  obtain ⟨k1, a1, a2, a3, a4⟩ := stReg_ok (k := k) (off := 0) (regOf w (4 * (2 * m))) (by omega)
  obtain ⟨k2, b1, b2, b3, b4⟩ := stReg_ok (k := k1) (off := 16 * (2 * m)) (regOf w (4 * 0)) (by omega)
  have h0 : HasReg k2 0 (regOf w (4 * (2 * m))) := a3.keep b4 (by omega)
  have hi : ∀ j, 0 < j → j < 2 * m → HasReg k2 (16 * j) (regOf w (4 * j)) := fun j h1 h2 => ((hr j (by omega)).keep a4 (by omega)).keep b4 (by omega)
  obtain ⟨k3, c1, c2, c3, c4, c5⟩ := loopN_inv (f := fun i k => do
      let x ← ldReg k (16 * i)
      let y ← ldReg k (16 * (2 * m + 1 - 1 - i))
      let k ← stReg k (16 * i) (aesimc y)
      stReg k (16 * (2 * m + 1 - 1 - i)) (aesimc x))
    (fun i k => k.length = 16 * (2 * m + 1) ∧ HasReg k 0 (regOf w (4 * (2 * m))) ∧ HasReg k (16 * (2 * m)) (regOf w (4 * 0)) ∧
      ∀ j, 0 < j → j < 2 * m → HasReg k (16 * j) (if j < i ∨ 2 * m < i + j then aesimc (regOf w (4 * (2 * m - j))) else regOf w (4 * j)))
    (m - 1) 1 k2
    (fun i s h1 h2 hp => by
      obtain ⟨p1, p2, p3, p4⟩ := hp
      have x1 := p4 i (by omega) (by omega)
      rw [if_neg (by omega)] at x1
      have y1 := p4 (2 * m - i) (by omega) (by omega)
      rw [if_neg (by omega)] at y1
      obtain ⟨s1, d1, d2, d3, d4⟩ := stReg_ok (k := s) (off := 16 * i) (aesimc (regOf w (4 * (2 * m - i)))) (by omega)
      obtain ⟨s2, f1, f2, f3, f4⟩ := stReg_ok (k := s1) (off := 16 * (2 * m - i)) (aesimc (regOf w (4 * i))) (by omega)
      refine ⟨s2, ?_, f2.trans (d2.trans p1), (p2.keep d4 (by omega)).keep f4 (by omega), (p3.keep d4 (by omega)).keep f4 (by omega), ?_⟩
      · simp only [show 2 * m + 1 - 1 - i = 2 * m - i from by omega]
        rw [ldReg_ok x1, ok_bind, ldReg_ok y1, ok_bind, d1, ok_bind, f1]
      · intro j g1 g2
        by_cases e1 : j = i
        · subst e1
          rw [if_pos (by omega)]
          exact d3.keep f4 (by omega)
        · by_cases e2 : j = 2 * m - i
          · subst e2
            rw [if_pos (by omega), show 2 * m - (2 * m - i) = i from by omega]
            exact f3
          · have := ((p4 j g1 g2).keep d4 (by omega)).keep f4 (by omega)
            by_cases e3 : j < i ∨ 2 * m < i + j
            · rw [if_pos e3] at this
              rw [if_pos (by omega)]; exact this
            · rw [if_neg e3] at this
              rw [if_neg (by omega)]; exact this)
    ⟨b2.trans (a2.trans hl), h0, b3, fun j g1 g2 => by rw [if_neg (by omega)]; exact hi j g1 g2⟩
  have xm := c5 m (by omega) (by omega)
  rw [if_neg (by omega)] at xm
  obtain ⟨k4, d1, d2, d3, d4⟩ := stReg_ok (k := k3) (off := 16 * m) (aesimc (regOf w (4 * m))) (by omega)
  refine ⟨k4, ?_, d2.trans c2, flat_of_regs ?_⟩
  · rw [niInvertKeys, show ldReg k 0 = .ok (regOf w (4 * 0)) from ldReg_ok (hr 0 (by omega)), ok_bind, show 2 * m + 1 - 1 = 2 * m from by omega,
      ldReg_ok (hr (2 * m) (by omega)), ok_bind, a1, ok_bind, b1, ok_bind, show (2 * m + 1 - 2) / 2 = m - 1 from by omega]
    rw [show 2 * m + 1 - 1 = 2 * m from by omega] at c1
    rw [c1, ok_bind]
    simp only [show m - 1 + 1 = m from by omega]
    rw [ldReg_ok xm, ok_bind, d1]
  · intro j hj
    by_cases j0 : j = 0
    · subst j0
      show HasReg k4 0 (regOf (invSched (2 * m) w) 0)
      rw [regOf_inv_first]
      exact c3.keep d4 (by omega)
    · by_cases jn : j = 2 * m
      · subst jn
        rw [regOf_inv_last w (by omega)]
        exact c4.keep d4 (by omega)
      · rw [regOf_inv w (by omega) (by omega)]
        by_cases jm : j = m
        · subst jm
          rw [show 2 * j - j = j from by omega]
          exact d3
        · have := (c5 j (by omega) (by omega)).keep d4 (by omega)
          rw [if_pos (by omega)] at this
          exact this

/-- `aesdec` with a prepared key is an inverse round of the standard. -/
theorem aesdec_eq (w : Schedule) (i : Nat) (s : St 4) : aesdec s (Aes.invMixColumns (regOf w (4 * i))) =
    Aes.invMixColumns (Aes.addRoundKey w i (Aes.invSubBytes (Aes.invShiftRows Aes.aesShifts s))) := by
  funext r c
  have := congrFun (Aes.circ_xor 0x0E 0x0B 0x0D 0x09 (fun k => Aes.invSubBytes (Aes.invShiftRows Aes.aesShifts s) k c) (fun k => regOf w (4 * i) k c)) r
  exact this.symm

theorem ni_inv_rounds {k : List Byte} {w : Schedule} {nr : Nat} (hf : Flat k (invSched nr w) (4 * (nr + 1))) : ∀ (m i : Nat) (s : St 4), i + m = nr → 0 < i →
    loopN m i (fun i x => do
      let ki ← ldReg k (16 * i)
      return aesdec x ki) s = .ok (Aes.invRounds Aes.aesShifts w m s)
  | 0, _, _, _, _ => rfl
  | m + 1, i, s, h, h0 => by
    rw [loopN, show 16 * i = 4 * (4 * i) from by omega, hf.ld (by omega), ok_bind, pure_eq_ok, ok_bind, regOf_inv w h0 (by omega), show nr - i = m + 1 from by omega,
      aesdec_eq, ni_inv_rounds hf m (i + 1) _ (by omega) (by omega)]
    rfl

theorem niDecrypt_eq {k : List Byte} {w : Schedule} {nr : Nat} (hnr : 0 < nr) (hf : Flat k (invSched nr w) (4 * (nr + 1))) (s : St 4) {inp : List Byte} {inOff : Nat}
    (hin : Holds inp inOff (bytes s)) {a b c : List Byte} (hb : b.length = 16) :
    niDecrypt128 (nr + 1) k inp inOff (a ++ b ++ c) a.length = .ok (a ++ bytes (Aes.invCipher Aes.aesShifts w nr s) ++ c) := by
  rw [niDecrypt128, ldReg_holds hin, ok_bind, show ldReg k 0 = .ok (regOf (invSched nr w) 0) from hf.ld (i := 0) (by omega), ok_bind, regOf_inv_first, xorReg_key,
    ni_inv_rounds hf (nr + 1 - 2) 1 _ (by omega) (by omega), ok_bind, show 16 * (nr + 1 - 2 + 1) = 4 * (4 * nr) from by omega, hf.ld (by omega), ok_bind,
    regOf_inv_last w hnr, stReg_at hb, show nr + 1 - 2 = nr - 1 from by omega]
  rfl

/-! ## Round keys from generated bytes -/

/-- The schedule of extended RHX: every group of four generated bytes, reversed. -/
def revWords (t : List Byte) : Schedule := fun i r => keyWords t i (3 - r)

theorem or4 (a b c d : Word) : d ||| c ||| b ||| a = a ||| b ||| c ||| d := by
  rw [BitVec.or_assoc, BitVec.or_assoc, BitVec.or_comm, BitVec.or_comm c, BitVec.or_assoc, BitVec.or_comm b a]
  ac_rfl

theorem secureWords_sched : ∀ (t : List Byte) (n : Nat), t.length = 4 * n → Sched (secureWords t) (revWords t) n
  | [], n, h => fun i hi => by simp at h; omega
  | [_], n, h => by simp at h; omega
  | [_, _], n, h => by simp at h; omega
  | [_, _, _], n, h => by simp at h; omega
  | a :: b :: c :: d :: t, 0, h => by simp at h
  | a :: b :: c :: d :: t, n + 1, h => by
    intro i hi
    match i with
    | 0 =>
      refine ⟨a.setWidth 32 ||| (b.setWidth 32 <<< 8) ||| (c.setWidth 32 <<< 16) ||| (d.setWidth 32 <<< 24), rfl, ?_⟩
      obtain ⟨h0, h1, h2, h3⟩ := wordByte_pack d c b a
      rw [show pack d c b a = a.setWidth 32 ||| (b.setWidth 32 <<< 8) ||| (c.setWidth 32 <<< 16) ||| (d.setWidth 32 <<< 24) from or4 _ _ _ _] at h0 h1 h2 h3
      intro r
      rcases fin4 r with rfl | rfl | rfl | rfl
      · exact h0
      · exact h1
      · exact h2
      · exact h3
    | i + 1 =>
      obtain ⟨k, h1, h2⟩ := secureWords_sched t n (by simp at h; omega) i (by omega)
      refine ⟨k, by rw [secureWords, List.getElem?_cons_succ]; exact h1, fun r => (h2 r).trans ?_⟩
      simp only [revWords, keyWords, List.length_cons]
      generalize 3 - r = q
      by_cases hq : 4 * i + q.val < t.length
      · rw [dif_pos hq, dif_pos (by omega)]
        simp only [show 4 * (i + 1) + q.val = 4 * i + q.val + 1 + 1 + 1 + 1 from by omega, List.getElem_cons_succ]
      · rw [dif_neg hq, dif_neg (by omega)]

theorem secureBytes_flat : ∀ (t : List Byte) (n : Nat), t.length = 4 * n → Flat (secureBytes t) (revWords t) n
  | [], n, h => fun i hi => by simp at h; omega
  | [_], n, h => by simp at h; omega
  | [_, _], n, h => by simp at h; omega
  | [_, _, _], n, h => by simp at h; omega
  | a :: b :: c :: d :: t, 0, h => by simp at h
  | a :: b :: c :: d :: t, n + 1, h => by
    intro i hi r
    match i with
    | 0 => rcases fin4 r with rfl | rfl | rfl | rfl <;> rfl
    | i + 1 =>
      have := secureBytes_flat t n (by simp at h; omega) i (by omega) r
      rw [secureBytes, show 4 * (i + 1) + r.val = 4 * i + r.val + 1 + 1 + 1 + 1 from by omega]
      simp only [List.getElem?_cons_succ]
      rw [this]
      simp only [revWords, keyWords, List.length_cons]
      generalize 3 - r = q
      by_cases hq : 4 * i + q.val < t.length
      · rw [dif_pos hq, dif_pos (by omega)]
        simp only [show 4 * (i + 1) + q.val = 4 * i + q.val + 1 + 1 + 1 + 1 from by omega, List.getElem_cons_succ]
      · rw [dif_neg hq, dif_neg (by omega)]

theorem secureBytes_length : ∀ (t : List Byte) (n : Nat), t.length = 4 * n → (secureBytes t).length = 4 * n
  | [], n, h => h
  | [_], n, h => by simp at h; omega
  | [_, _], n, h => by simp at h; omega
  | [_, _, _], n, h => by simp at h; omega
  | a :: b :: c :: d :: t, 0, h => by simp at h
  | a :: b :: c :: d :: t, n + 1, h => by
    simp only [secureBytes, List.length_cons, secureBytes_length t n (by simp at h; omega)]; omega

theorem beWords_sched : ∀ (t : List Byte) (n : Nat), t.length = 4 * n → Sched (beWords t) (keyWords t) n
  | [], n, h => fun i hi => by simp at h; omega
  | [_], n, h => by simp at h; omega
  | [_, _], n, h => by simp at h; omega
  | [_, _, _], n, h => by simp at h; omega
  | a :: b :: c :: d :: t, 0, h => by simp at h
  | a :: b :: c :: d :: t, n + 1, h => by
    intro i hi
    match i with
    | 0 =>
      obtain ⟨h0, h1, h2, h3⟩ := wordByte_pack a b c d
      refine ⟨pack a b c d, rfl, ?_⟩
      intro r
      rcases fin4 r with rfl | rfl | rfl | rfl
      · exact h0
      · exact h1
      · exact h2
      · exact h3
    | i + 1 =>
      obtain ⟨k, h1, h2⟩ := beWords_sched t n (by simp at h; omega) i (by omega)
      refine ⟨k, by rw [beWords, List.getElem?_cons_succ]; exact h1, fun q => (h2 q).trans ?_⟩
      simp only [keyWords, List.length_cons]
      by_cases hq : 4 * i + q.val < t.length
      · rw [dif_pos hq, dif_pos (by omega)]
        simp only [show 4 * (i + 1) + q.val = 4 * i + q.val + 1 + 1 + 1 + 1 from by omega, List.getElem_cons_succ]
      · rw [dif_neg hq, dif_neg (by omega)]

theorem bytes_flat {t : List Byte} {n : Nat} (h : t.length = 4 * n) : Flat t (keyWords t) n := fun i hi r => keyWords_get (by omega) r

/-! ## RCS -/

/-- The left and right halves of a 256-bit state. -/
def left (s : St 8) : Reg := fun r c => s r ⟨c.val, by omega⟩
def right (s : St 8) : Reg := fun r c => s r ⟨c.val + 4, by omega⟩

/-- Blending, byte shuffling and the row shifts inside `aesenc` make the row shifts of the wide state. -/
theorem rcs_shift (s : St 8) : Aes.shiftRows Aes.aesShifts (rcsMix (left s, right s)).1 = left (Aes.shiftRows shifts256 s) ∧
    Aes.shiftRows Aes.aesShifts (rcsMix (left s, right s)).2 = right (Aes.shiftRows shifts256 s) := by
  constructor <;>
  · funext r c
    rcases fin4 r with rfl | rfl | rfl | rfl <;> rcases fin4 c with rfl | rfl | rfl | rfl <;> rfl

theorem mix_left (s : St 8) : Aes.mixColumns (left s) = left (Aes.mixColumns s) := rfl
theorem mix_right (s : St 8) : Aes.mixColumns (right s) = right (Aes.mixColumns s) := rfl
theorem sub_left (s : St 8) : Aes.subBytes (left s) = left (Aes.subBytes s) := rfl
theorem sub_right (s : St 8) : Aes.subBytes (right s) = right (Aes.subBytes s) := rfl

theorem key_left (w : Schedule) (i : Nat) (s : St 8) : xorReg (left s) (regOf w (8 * i)) = left (Aes.addRoundKey w i s) := rfl
theorem key_right (w : Schedule) (i : Nat) (s : St 8) : xorReg (right s) (regOf w (8 * i + 4)) = right (Aes.addRoundKey w i s) := by
  funext r c
  simp only [xorReg, right, regOf, Aes.addRoundKey]
  rw [show 8 * i + (c.val + 4) = 8 * i + 4 + c.val from by omega]

theorem sub_shift {nb : Nat} (sh : Fin 4 → Nat) (s : St nb) : Aes.subBytes (Aes.shiftRows sh s) = Aes.shiftRows sh (Aes.subBytes s) := rfl

theorem rcs_round (w : Schedule) (i : Nat) (s : St 8) :
    aesenc (rcsMix (left s, right s)).1 (regOf w (8 * i)) = left (Aes.addRoundKey w i (Aes.mixColumns (Aes.shiftRows shifts256 (Aes.subBytes s)))) ∧
    aesenc (rcsMix (left s, right s)).2 (regOf w (8 * i + 4)) = right (Aes.addRoundKey w i (Aes.mixColumns (Aes.shiftRows shifts256 (Aes.subBytes s)))) := by
  refine ⟨?_, ?_⟩
  · rw [aesenc, (rcs_shift s).1, sub_left, mix_left, key_left, sub_shift]
  · rw [aesenc, (rcs_shift s).2, sub_right, mix_right, key_right, sub_shift]

theorem rcs_last (w : Schedule) (i : Nat) (s : St 8) :
    aesenclast (rcsMix (left s, right s)).1 (regOf w (8 * i)) = left (Aes.addRoundKey w i (Aes.shiftRows shifts256 (Aes.subBytes s))) ∧
    aesenclast (rcsMix (left s, right s)).2 (regOf w (8 * i + 4)) = right (Aes.addRoundKey w i (Aes.shiftRows shifts256 (Aes.subBytes s))) := by
  refine ⟨?_, ?_⟩
  · rw [aesenclast, (rcs_shift s).1, sub_left, key_left, sub_shift]
  · rw [aesenclast, (rcs_shift s).2, sub_right, key_right, sub_shift]

theorem bytes_halves (s : St 8) : bytes s = bytes (left s) ++ bytes (right s) := rfl

theorem rcs_rounds {k : List Byte} {w : Schedule} {n : Nat} (hf : Flat k w n) : ∀ (m j : Nat) (s : St 8), 8 * (j + m + 1) ≤ n →
    loopN m j (fun j (x : Reg × Reg) => do
      let t := rcsMix x
      let ka ← ldReg k (16 * (2 * j + 2))
      let kb ← ldReg k (16 * (2 * j + 3))
      return (aesenc t.1 ka, aesenc t.2 kb)) (left s, right s) =
      .ok (left (Aes.rounds shifts256 w m (j + 1) s), right (Aes.rounds shifts256 w m (j + 1) s))
  | 0, _, _, _ => rfl
  | m + 1, j, s, h => by
    rw [loopN, show 16 * (2 * j + 2) = 4 * (8 * (j + 1)) from by omega, hf.ld (by omega), show 16 * (2 * j + 3) = 4 * (8 * (j + 1) + 4) from by omega]
    simp only [ok_bind]
    rw [hf.ld (by omega), ok_bind, pure_eq_ok, ok_bind, (rcs_round w (j + 1) s).1, (rcs_round w (j + 1) s).2, rcs_rounds hf m (j + 1) _ (by omega)]
    rfl

theorem niTransform256_eq {k : List Byte} {w : Schedule} {nr : Nat} (hnr : 0 < nr) (hf : Flat k w (8 * (nr + 1))) (s : St 8) {inp : List Byte} {inOff : Nat}
    (hin : Holds inp inOff (bytes s)) {a b c : List Byte} (hb : b.length = 32) :
    niTransform256 (2 * (nr + 1)) k inp inOff (a ++ b ++ c) a.length = .ok (a ++ bytes (Aes.cipher shifts256 w nr s) ++ c) := by
  have hi1 : Holds inp inOff (bytes (left s)) := by
    rw [bytes_halves] at hin
    obtain ⟨u, v, rfl, rfl⟩ := hin
    exact ⟨u, bytes (right s) ++ v, by simp, rfl⟩
  have hi2 : Holds inp (inOff + 16) (bytes (right s)) := by
    rw [bytes_halves] at hin
    obtain ⟨u, v, rfl, rfl⟩ := hin
    exact ⟨u ++ bytes (left s), v, by simp, by rw [List.length_append, bytes_length]⟩
  rw [niTransform256, ldReg_holds hi1, ok_bind, ldReg_holds hi2, ok_bind, show ldReg k 0 = .ok (regOf w (8 * 0)) from hf.ld (i := 0) (by omega), ok_bind,
    show ldReg k 16 = .ok (regOf w (8 * 0 + 4)) from hf.ld (i := 4) (by omega), ok_bind, if_neg (by omega)]
  simp only []
  rw [key_left, key_right, show (2 * (nr + 1) - 4) / 2 = nr - 1 from by omega, rcs_rounds hf (nr - 1) 0 _ (by omega), ok_bind]
  simp only []
  rw [show 16 * (2 * (nr + 1) - 2) = 4 * (8 * nr) from by omega, hf.ld (by omega), ok_bind, show 16 * (2 * (nr + 1) - 1) = 4 * (8 * nr + 4) from by omega, hf.ld (by omega), ok_bind,
    (rcs_last w nr _).1, (rcs_last w nr _).2]
  have hsplit : b = b.take 16 ++ b.drop 16 := (List.take_append_drop 16 b).symm
  have l1 : (b.take 16).length = 16 := by rw [List.length_take]; omega
  have l2 : (b.drop 16).length = 16 := by rw [List.length_drop]; omega
  rw [show a ++ b ++ c = a ++ b.take 16 ++ (b.drop 16 ++ c) from by
    rw [List.append_assoc, List.append_assoc, ← List.append_assoc (b.take 16), ← hsplit], stReg_at l1, ok_bind]
  have := stReg_at (a := a ++ bytes (left (Aes.addRoundKey w nr (Aes.shiftRows shifts256 (Aes.subBytes (Aes.rounds shifts256 w (nr - 1) (0 + 1) (Aes.addRoundKey w 0 s)))))))
    (b := b.drop 16) (c := c) (x := right (Aes.addRoundKey w nr (Aes.shiftRows shifts256 (Aes.subBytes (Aes.rounds shifts256 w (nr - 1) (0 + 1) (Aes.addRoundKey w 0 s)))))) l2
  rw [List.length_append, bytes_length] at this
  rw [← List.append_assoc, show a.length + 16 = a.length + 4 * 4 from rfl, this, List.append_assoc a, ← bytes_halves]
  rfl

end Cex.Rijndael
