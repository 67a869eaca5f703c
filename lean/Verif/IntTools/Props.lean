import Verif.IntTools.Lemmas

/-!
# Properties C01–C05 of IntegerTools

Specification vocabulary: `beVal`/`leVal` (Spec.lean) read a byte string as a number.
-/

namespace Cex.IntTools
open Cex

/-! ## C01: integer codecs -/

/-- What a correct writer of the number `x` on `n` bytes at `off` does: succeeds exactly when the
window fits, changes only the window, and the window then denotes `x` under `val`. -/
def WritesAt (val : List Byte → Nat) (f : List Byte → Nat → M (List Byte)) (n x : Nat) : Prop :=
  (∀ pre win post, win.length = n →
    ∃ win', f (pre ++ win ++ post) pre.length = .ok (pre ++ win' ++ post) ∧ win'.length = n ∧ val win' = x) ∧
  (∀ out off, out.length < off + n → f out off = .error .ub)

/-- What a correct reader of an `n`-byte number does. -/
def ReadsAt {w : Nat} (val : List Byte → Nat) (g : List Byte → Nat → M (BitVec w)) (n : Nat) : Prop :=
  (∀ pre win post, win.length = n →
    ∃ v, g (pre ++ win ++ post) pre.length = .ok v ∧ v.toNat = val win) ∧
  (∀ inp off, inp.length < off + n → g inp off = .error .ub)

theorem C01_be16_write (v : BitVec 16) : WritesAt beVal (be16ToBytes v) 2 v.toNat := by
  constructor
  · intro pre win post h
    match win, h with
    | [a, b], _ =>
      refine ⟨[(v >>> 8).setWidth 8, v.setWidth 8], ?_, rfl, ?_⟩
      · simp [be16ToBytes, wr]
      · have := v.isLt
        simp only [beVal, List.foldl_cons, List.foldl_nil, BitVec.toNat_setWidth, BitVec.toNat_ushiftRight,
          Nat.shiftRight_eq_div_pow]; omega
  · intro out off h
    simp only [be16ToBytes]
    rw [wr_ub _ (by omega)]; rfl

theorem C01_be32_write (v : BitVec 32) : WritesAt beVal (be32ToBytes v) 4 v.toNat := by
  constructor
  · intro pre win post h
    match win, h with
    | [a, b, c, d], _ =>
      refine ⟨[(v >>> 24).setWidth 8, (v >>> 16).setWidth 8, (v >>> 8).setWidth 8, v.setWidth 8], ?_, rfl, ?_⟩
      · simp [be32ToBytes, wr]
      · have := v.isLt
        simp only [beVal, List.foldl_cons, List.foldl_nil, BitVec.toNat_setWidth, BitVec.toNat_ushiftRight,
          Nat.shiftRight_eq_div_pow]; omega
  · intro out off h
    simp only [be32ToBytes]
    rw [wr_ub _ (by omega)]; rfl

theorem C01_be64_write (v : BitVec 64) : WritesAt beVal (be64ToBytes v) 8 v.toNat := by
  constructor
  · intro pre win post h
    match win, h with
    | [a, b, c, d, e, f, g, i], _ =>
      refine ⟨[(v >>> 56).setWidth 8, (v >>> 48).setWidth 8, (v >>> 40).setWidth 8, (v >>> 32).setWidth 8,
        (v >>> 24).setWidth 8, (v >>> 16).setWidth 8, (v >>> 8).setWidth 8, v.setWidth 8], ?_, rfl, ?_⟩
      · simp [be64ToBytes, wr]
      · have := v.isLt
        simp only [beVal, List.foldl_cons, List.foldl_nil, BitVec.toNat_setWidth, BitVec.toNat_ushiftRight,
          Nat.shiftRight_eq_div_pow]; omega
  · intro out off h
    simp only [be64ToBytes]
    rw [wr_ub _ (by omega)]; rfl

theorem C01_be16_read : ReadsAt beVal beBytesTo16 2 := by
  constructor
  · intro pre win post h
    match win, h with
    | [a, b], _ =>
      refine ⟨_, ?_, be16_read a b⟩
      simp [beBytesTo16, rd]
  · intro inp off h
    unfold beBytesTo16
    apply rd_bind_ub; intro _
    rw [rd_ub (by omega)]; rfl

theorem C01_be32_read : ReadsAt beVal beBytesTo32 4 := by
  constructor
  · intro pre win post h
    match win, h with
    | [a, b, c, d], _ =>
      refine ⟨_, ?_, be32_read a b c d⟩
      simp [beBytesTo32, rd]
  · intro inp off h
    unfold beBytesTo32
    iterate 3 (apply rd_bind_ub; intro _)
    rw [rd_ub (by omega)]; rfl

theorem C01_be64_read : ReadsAt beVal beBytesTo64 8 := by
  constructor
  · intro pre win post h
    match win, h with
    | [a, b, c, d, e, f, g, i], _ =>
      refine ⟨_, ?_, be64_read a b c d e f g i⟩
      simp [beBytesTo64, rd]
  · intro inp off h
    unfold beBytesTo64
    iterate 7 (apply rd_bind_ub; intro _)
    rw [rd_ub (by omega)]; rfl

private theorem le_write_aux {w : Nat} (n : Nat) (v : BitVec w) (hw : w = 8 * n) :
    WritesAt leVal (fun out off => blit out off (leRep n v)) n v.toNat := by
  constructor
  · intro pre win post h
    refine ⟨leRep n v, blit_append _ _ _ _ (by rw [leRep_length, h]), leRep_length n v, ?_⟩
    rw [leVal_leRep, Nat.mod_eq_of_lt]
    have h2 : (2 : Nat) ^ w = 256 ^ n := by rw [hw, Nat.pow_mul]
    rw [← h2]; exact v.isLt
  · intro out off h
    simp only [blit, leRep_length, if_neg (Nat.not_le.mpr h)]

private theorem le_read_aux (w n : Nat) (hw : w = 8 * n) :
    ReadsAt leVal (fun inp off => (do return leUnrep w (← slice inp off n) : M (BitVec w))) n := by
  constructor
  · intro pre win post h
    refine ⟨leUnrep w win, ?_, leUnrep_toNat w win (by omega)⟩
    simp only [← h, slice_append, ok_bind, pure_eq_ok]
  · intro inp off h
    simp only [slice, if_neg (Nat.not_le.mpr h), error_bind]

theorem C01_le16_write (v : BitVec 16) : WritesAt leVal (le16ToBytes v) 2 v.toNat := le_write_aux 2 v rfl
theorem C01_le32_write (v : BitVec 32) : WritesAt leVal (le32ToBytes v) 4 v.toNat := le_write_aux 4 v rfl
theorem C01_le64_write (v : BitVec 64) : WritesAt leVal (le64ToBytes v) 8 v.toNat := le_write_aux 8 v rfl
theorem C01_le16_read : ReadsAt leVal leBytesTo16 2 := le_read_aux 16 2 rfl
theorem C01_le32_read : ReadsAt leVal leBytesTo32 4 := le_read_aux 32 4 rfl
theorem C01_le64_read : ReadsAt leVal leBytesTo64 8 := le_read_aux 64 8 rfl

/-- A correct writer followed by a correct reader at the same place returns the value, and a reader
followed by a writer restores the bytes. -/
theorem C01_roundtrip {w n : Nat} {val : List Byte → Nat} {f : BitVec w → List Byte → Nat → M (List Byte)}
    {g : List Byte → Nat → M (BitVec w)} (hf : ∀ v, WritesAt val (f v) n v.toNat) (hg : ReadsAt val g n)
    (hinj : ∀ a b : List Byte, a.length = b.length → val a = val b → a = b)
    (out : List Byte) (off : Nat) (h : off + n ≤ out.length) :
    (∀ v, ∃ out', f v out off = .ok out' ∧ out'.length = out.length ∧ g out' off = .ok v) ∧
    (∃ v, g out off = .ok v ∧ f v out off = .ok out) := by
  obtain ⟨pre, win, post, rfl, rfl, hl⟩ := split3 out off n h
  constructor
  · intro v
    obtain ⟨win', h1, h2, h3⟩ := (hf v).1 pre win post hl
    obtain ⟨u, h4, h5⟩ := hg.1 pre win' post h2
    refine ⟨_, h1, by simp [hl, h2], ?_⟩
    rw [h4, BitVec.eq_of_toNat_eq (h5.trans h3)]
  · obtain ⟨u, h4, h5⟩ := hg.1 pre win post hl
    obtain ⟨win', h1, h2, h3⟩ := (hf u).1 pre win post hl
    refine ⟨u, h4, ?_⟩
    rw [h1, hinj win' win (by omega) (by omega)]

/-- The six concrete codec pairs round-trip at every offset of every buffer that has room. -/
theorem C01_codecs (out : List Byte) (off : Nat) :
    (off + 2 ≤ out.length → ∀ v, ∃ o, be16ToBytes v out off = .ok o ∧ o.length = out.length ∧ beBytesTo16 o off = .ok v) ∧
    (off + 4 ≤ out.length → ∀ v, ∃ o, be32ToBytes v out off = .ok o ∧ o.length = out.length ∧ beBytesTo32 o off = .ok v) ∧
    (off + 8 ≤ out.length → ∀ v, ∃ o, be64ToBytes v out off = .ok o ∧ o.length = out.length ∧ beBytesTo64 o off = .ok v) ∧
    (off + 2 ≤ out.length → ∀ v, ∃ o, le16ToBytes v out off = .ok o ∧ o.length = out.length ∧ leBytesTo16 o off = .ok v) ∧
    (off + 4 ≤ out.length → ∀ v, ∃ o, le32ToBytes v out off = .ok o ∧ o.length = out.length ∧ leBytesTo32 o off = .ok v) ∧
    (off + 8 ≤ out.length → ∀ v, ∃ o, le64ToBytes v out off = .ok o ∧ o.length = out.length ∧ leBytesTo64 o off = .ok v) :=
  ⟨fun h => (C01_roundtrip C01_be16_write C01_be16_read (fun _ _ => beVal_inj) out off h).1,
   fun h => (C01_roundtrip C01_be32_write C01_be32_read (fun _ _ => beVal_inj) out off h).1,
   fun h => (C01_roundtrip C01_be64_write C01_be64_read (fun _ _ => beVal_inj) out off h).1,
   fun h => (C01_roundtrip C01_le16_write C01_le16_read (fun _ _ => leVal_inj) out off h).1,
   fun h => (C01_roundtrip C01_le32_write C01_le32_read (fun _ _ => leVal_inj) out off h).1,
   fun h => (C01_roundtrip C01_le64_write C01_le64_read (fun _ _ => leVal_inj) out off h).1⟩

example : be32ToBytes 0x01020304 [9, 9, 9, 9, 9, 9] 1 = .ok [9, 1, 2, 3, 4, 9] := by decide
example : le32ToBytes 0x01020304 [9, 9, 9, 9, 9, 9] 1 = .ok [9, 4, 3, 2, 1, 9] := by decide

/-! ## C02: counter increment -/

/-- `BeIncrement8(Output, Offset, Length)` with a non-empty window adds one modulo `256^Length` to the
window and touches nothing else. -/
theorem C02_be_increment_window (pre ctr post : List Byte) (h : ctr ≠ []) :
    ∃ ctr', beIncrement8At (pre ++ ctr ++ post) pre.length ctr.length = .ok (pre ++ ctr' ++ post) ∧
      ctr'.length = ctr.length ∧ beVal ctr' = (beVal ctr + 1) % 256 ^ ctr.length :=
  beIncLoop_spec pre ctr.length ctr post rfl (List.length_pos_iff.mpr h)

theorem C02_be_increment (ctr : List Byte) (h : ctr ≠ []) :
    ∃ ctr', beIncrement8 ctr = .ok ctr' ∧ ctr'.length = ctr.length ∧
      beVal ctr' = (beVal ctr + 1) % 256 ^ ctr.length := by
  have := C02_be_increment_window [] ctr [] h
  simpa [beIncrement8At, beIncrement8] using this

theorem C02_le_increment (ctr post : List Byte) :
    ∃ ctr', leIncrementLen (ctr ++ post) ctr.length = .ok (ctr' ++ post) ∧
      ctr'.length = ctr.length ∧ leVal ctr' = (leVal ctr + 1) % 256 ^ ctr.length := by
  have := leIncLoop_spec ctr.length [] ctr post rfl
  simpa [leIncrementLen] using this

/-- Iterating the counter `k` times. -/
def iterate (f : List Byte → M (List Byte)) : Nat → List Byte → M (List Byte)
  | 0, s => .ok s
  | n + 1, s => do iterate f n (← f s)

/-- `k` increments never fault, and the counter value after `k` increments is `start + k` modulo
`256^n`; hence the first `256^n` counter values are pairwise distinct. -/
theorem C02_be_increment_iter (k : Nat) (ctr : List Byte) (h : ctr ≠ []) :
    ∃ ctr', iterate beIncrement8 k ctr = .ok ctr' ∧ ctr'.length = ctr.length ∧
      beVal ctr' = (beVal ctr + k) % 256 ^ ctr.length := by
  induction k generalizing ctr with
  | zero => exact ⟨ctr, rfl, rfl, by rw [Nat.add_zero, Nat.mod_eq_of_lt (beVal_lt ctr)]⟩
  | succ k ih =>
    obtain ⟨c1, h1, h2, h3⟩ := C02_be_increment ctr h
    obtain ⟨c2, h4, h5, h6⟩ := ih c1 (by intro e; rw [e] at h2; exact h (List.length_eq_zero_iff.mp h2.symm))
    refine ⟨c2, ?_, by omega, ?_⟩
    · simp only [iterate, h1, ok_bind, h4]
    · rw [h6, h2, h3, Nat.mod_add_mod]; congr 1; omega

theorem C02_be_no_repeat (ctr a b : List Byte) (h : ctr ≠ []) (i j : Nat) (hi : i < j) (hj : j < 256 ^ ctr.length)
    (ha : iterate beIncrement8 i ctr = .ok a) (hb : iterate beIncrement8 j ctr = .ok b) : a ≠ b := by
  obtain ⟨a', h1, _, h2⟩ := C02_be_increment_iter i ctr h
  obtain ⟨b', h3, _, h4⟩ := C02_be_increment_iter j ctr h
  rw [h1] at ha; rw [h3] at hb; cases ha; cases hb
  intro e
  rw [e, h4] at h2
  have hlt := beVal_lt ctr
  generalize 256 ^ ctr.length = N at *
  generalize beVal ctr = v at *
  have e1 : (v + i) % N = if v + i < N then v + i else v + i - N := by
    split
    · rw [Nat.mod_eq_of_lt (by assumption)]
    · rw [Nat.mod_eq_sub_mod (by omega), Nat.mod_eq_of_lt (by omega)]
  have e2 : (v + j) % N = if v + j < N then v + j else v + j - N := by
    split
    · rw [Nat.mod_eq_of_lt (by assumption)]
    · rw [Nat.mod_eq_sub_mod (by omega), Nat.mod_eq_of_lt (by omega)]
  rw [e1, e2] at h2
  split at h2 <;> split at h2 <;> omega

/-- The two-word counter of the stream ciphers adds one modulo `2^(2w)`. -/
theorem C02_leIncrementW {w : Nat} (x y : BitVec w) (rest : List (BitVec w)) (hw : 0 < w) :
    ∃ x' y', leIncrementW (x :: y :: rest) = .ok (x' :: y' :: rest) ∧
      x'.toNat + 2 ^ w * y'.toNat = (x.toNat + 2 ^ w * y.toNat + 1) % (2 ^ w * 2 ^ w) := by
  have hx := x.isLt
  have hy := y.isLt
  have h1 : (1 : BitVec w).toNat = 1 := by
    show (1#w).toNat = 1
    rw [BitVec.toNat_ofNat, Nat.mod_eq_of_lt (Nat.one_lt_two_pow (by omega))]
  have hadd : ∀ z : BitVec w, (z + 1).toNat = (z.toNat + 1) % 2 ^ w := by
    intro z; rw [BitVec.toNat_add, h1]
  have hz : x + 1 = 0 ↔ x.toNat + 1 = 2 ^ w := by
    constructor
    · intro h
      have := congrArg BitVec.toNat h
      rw [hadd] at this
      have h0 : (0 : BitVec w).toNat = 0 := by simp
      rw [h0] at this
      apply Classical.byContradiction
      intro hne
      rw [Nat.mod_eq_of_lt (by omega)] at this
      omega
    · intro h; apply BitVec.eq_of_toNat_eq; rw [hadd, h]; simp
  by_cases hc : x + 1 = 0
  · refine ⟨x + 1, y + 1, ?_, ?_⟩
    · simp only [leIncrementW, rd, wr, List.getElem?_cons_zero, List.length_cons, ok_bind, if_pos hc]
      simp
    · rw [hadd, hadd, hz.mp hc, Nat.mod_self, Nat.zero_add, ← Nat.mul_mod_mul_left]
      congr 1
      rw [Nat.mul_add, ← hz.mp hc]; omega
  · refine ⟨x + 1, y, ?_, ?_⟩
    · simp only [leIncrementW, rd, wr, List.getElem?_cons_zero, List.length_cons, ok_bind, if_neg hc]
      simp
    · have hne : x.toNat + 1 ≠ 2 ^ w := fun h => hc (hz.mpr h)
      rw [hadd, Nat.mod_eq_of_lt (by omega), Nat.mod_eq_of_lt]
      · omega
      · have := Nat.mul_le_mul_left (2 ^ w) (Nat.succ_le_of_lt hy)
        rw [Nat.mul_succ] at this
        omega

example : beIncrement8 [0x00, 0xFF, 0xFF] = .ok [0x01, 0x00, 0x00] := by decide
example : beIncrement8At [7, 0xFF, 0xFF, 7] 1 2 = .ok [7, 0, 0, 7] := by decide
example : leIncrementW [0xFFFFFFFF#32, 4#32] = .ok [0#32, 5#32] := by decide

/-! ## C03: counter increase -/

/-- A carry into byte `k` (counted from the least significant end) meets an addend byte of `0xFF`,
below the most significant byte of an `n`-byte counter. -/
def CarryMeetsFF (n c v : Nat) : Prop :=
  ∃ k, k + 1 < n ∧ v / 256 ^ k % 256 = 255 ∧ 256 ^ k ≤ c % 256 ^ k + v % 256 ^ k

/-- Exact behaviour of `BeIncrease8(Input, Output, OutOffset, Value)`: it always succeeds when the
window fits, touches only the window, and the window holds `Input + Value mod 256^n` **iff** no carry
meets an addend byte of `0xFF`. The full property (equality always) is false, see
`C03_be_increase_false`. -/
theorem C03_be_increase_partial (n : Nat) {w : Nat} (hw : w ≤ 8 * n) (v : BitVec w) (inp pre win post : List Byte)
    (hl : win.length = inp.length) :
    ∃ win', beIncrease8 n inp (pre ++ win ++ post) pre.length v = .ok (pre ++ win' ++ post) ∧
      win'.length = inp.length ∧
      (beVal win' = (beVal inp + v.toNat) % 256 ^ inp.length ↔ ¬ CarryMeetsFF inp.length (beVal inp) v.toNat) := by
  refine ⟨(incList inp.reverse (cinc n v) 0 0).1.reverse, ?_, by simp [incList_length], ?_⟩
  · have hcopy : copy inp 0 (pre ++ win ++ post) pre.length inp.length = .ok (pre ++ inp ++ post) := by
      unfold copy
      split
      · rename_i h0
        have h1 : win = [] := by rw [h0] at hl; simpa using hl
        have h2 : inp = [] := by simpa using h0
        simp [h1, h2]
      · have : slice inp 0 inp.length = .ok inp := by simp [slice]
        rw [this, ok_bind, blit_append _ _ _ _ hl.symm]
    simp only [beIncrease8, hcopy, ok_bind]
    rw [beIncreaseLoop_eq _ _ _ _ _ _ _ rfl (Nat.le_refl _)]
    simp
  · rw [beVal_reverse]
    have := incList_correct_iff inp.reverse n v hw
    rw [leVal_reverse, List.length_reverse] at this
    exact this

/-- The same for the little-endian form. -/
theorem C03_le_increase_partial (n : Nat) {w : Nat} (hw : w ≤ 8 * n) (v : BitVec w) (inp pre win post : List Byte)
    (hl : win.length = inp.length) :
    ∃ win', leIncrease8 n inp (pre ++ win ++ post) pre.length v = .ok (pre ++ win' ++ post) ∧
      win'.length = inp.length ∧
      (leVal win' = (leVal inp + v.toNat) % 256 ^ inp.length ↔ ¬ CarryMeetsFF inp.length (leVal inp) v.toNat) := by
  refine ⟨(incList inp (cinc n v) 0 0).1, ?_, by simp [incList_length], incList_correct_iff inp n v hw⟩
  have hcopy : copy inp 0 (pre ++ win ++ post) pre.length inp.length = .ok (pre ++ inp ++ post) := by
    unfold copy
    split
    · rename_i h0
      have h1 : win = [] := by rw [h0] at hl; simpa using hl
      have h2 : inp = [] := by simpa using h0
      simp [h1, h2]
    · have : slice inp 0 inp.length = .ok inp := by simp [slice]
      rw [this, ok_bind, blit_append _ _ _ _ hl.symm]
  simp only [leIncrease8, hcopy, ok_bind]
  have := leIncreaseLoop_eq (cinc n v) pre inp 0 0 [] post rfl
  simpa using this

/-- In-place forms. -/
theorem C03_inplace_partial (n : Nat) {w : Nat} (hw : w ≤ 8 * n) (v : BitVec w) (ctr : List Byte) :
    (∃ c, beIncrease8InPlace n ctr v = .ok c ∧ c.length = ctr.length ∧
      (beVal c = (beVal ctr + v.toNat) % 256 ^ ctr.length ↔ ¬ CarryMeetsFF ctr.length (beVal ctr) v.toNat)) ∧
    (∃ c, leIncrease8InPlace n ctr v = .ok c ∧ c.length = ctr.length ∧
      (leVal c = (leVal ctr + v.toNat) % 256 ^ ctr.length ↔ ¬ CarryMeetsFF ctr.length (leVal ctr) v.toNat)) := by
  constructor
  · refine ⟨(incList ctr.reverse (cinc n v) 0 0).1.reverse, ?_, by simp [incList_length], ?_⟩
    · have := beIncreaseLoop_eq (cinc n v) [] ctr.length ctr.length 0 ctr [] rfl (Nat.le_refl _)
      simpa [beIncrease8InPlace] using this
    · rw [beVal_reverse]
      have := incList_correct_iff ctr.reverse n v hw
      rw [leVal_reverse, List.length_reverse] at this
      exact this
  · refine ⟨(incList ctr (cinc n v) 0 0).1, ?_, by simp [incList_length], incList_correct_iff ctr n v hw⟩
    have := leIncreaseLoop_eq (cinc n v) [] ctr 0 0 [] [] rfl
    simpa [leIncrease8InPlace] using this

/-- A sufficient condition visible in the addend alone: no byte of the value except the lowest is `0xFF`. -/
theorem C03_no_ff_byte {n c v : Nat} (h : ∀ k, 0 < k → v / 256 ^ k % 256 ≠ 255) : ¬ CarryMeetsFF n c v := by
  rintro ⟨k, _, h2, h3⟩
  by_cases hk : k = 0
  · subst hk; simp [Nat.mod_one] at h3
  · exact h k (by omega) h2

/-- In particular an addend below `0xFF00` (fewer than 65280) is always added correctly. -/
theorem C03_small {n c v : Nat} (h : v < 0xFF00) : ¬ CarryMeetsFF n c v := by
  apply C03_no_ff_byte
  intro k hk
  obtain ⟨j, rfl⟩ : ∃ j, k = j + 1 := ⟨k - 1, by omega⟩
  have h1 : v / 256 ^ (j + 1) = v / 256 / 256 ^ j := by rw [Nat.pow_succ', Nat.div_div_eq_div_mul]
  have h2 : v / 256 / 256 ^ j ≤ v / 256 := Nat.div_le_self _ _
  rw [h1]
  generalize v / 256 / 256 ^ j = q at *
  omega

/-- The full property fails: `0x0000F8 + 0xFF08` should be `0x010000`, the code yields `0x000000`.
This is the offset `CTRLEN * i = 0xFF08` a parallel CTR worker computes on 16-byte counters. -/
theorem C03_be_increase_false :
    ∃ (inp : List Byte) (v : BitVec 64) (out : List Byte),
      beIncrease8 8 inp (List.replicate 16 0) 0 v = .ok out ∧
      beVal out ≠ (beVal inp + v.toNat) % 256 ^ inp.length :=
  ⟨List.replicate 15 0 ++ [0xF8], 0xFF08, List.replicate 16 0, by decide, by decide⟩

theorem C03_le_increase_false :
    ∃ (inp : List Byte) (v : BitVec 64) (out : List Byte),
      leIncrease8 8 inp (List.replicate 16 0) 0 v = .ok out ∧
      leVal out ≠ (leVal inp + v.toNat) % 256 ^ inp.length :=
  ⟨0xF8 :: List.replicate 15 0, 0xFF08, List.replicate 16 0, by decide, by decide⟩

/-- `LeIncreaseW` on a two-word 64-bit counter is a correct 128-bit addition. -/
theorem C03_leIncreaseW (x y v : BitVec 64) (rest : List (BitVec 64)) :
    ∃ x' y', leIncreaseW64 (x :: y :: rest) v = .ok (x' :: y' :: rest) ∧
      x'.toNat + 2 ^ 64 * y'.toNat = (x.toNat + 2 ^ 64 * y.toNat + v.toNat) % 2 ^ 128 := by
  have hx := x.isLt
  have hy := y.isLt
  have hv := v.isLt
  by_cases hc : x + v < v
  · refine ⟨x + v, y + 1, by simp [leIncreaseW64, rd, wr, hc], ?_⟩
    rw [BitVec.lt_def, BitVec.toNat_add] at hc
    rw [BitVec.toNat_add, BitVec.toNat_add]
    have : (1 : BitVec 64).toNat = 1 := rfl
    rw [this]; omega
  · refine ⟨x + v, y, by simp [leIncreaseW64, rd, wr, hc], ?_⟩
    rw [BitVec.lt_def, BitVec.toNat_add] at hc
    rw [BitVec.toNat_add]; omega

example : beIncrease8 4 [0, 0, 0xFF, 0xF0] [1, 1, 1, 1, 1, 1] 1 (0x10 : BitVec 32) = .ok [1, 0, 1, 0, 0, 1] := by decide
example : leIncreaseW64 [0xFFFFFFFFFFFFFFFF, 3] 2 = .ok [1, 4] := by decide

/-! ## C04: constant-time comparison -/

/-- `Compare` returns true exactly when the two windows hold the same elements. -/
theorem C04_compare {w : Nat} (a b : List (BitVec w)) (ao bo len : Nat) (ha : ao + len ≤ a.length)
    (hb : bo + len ≤ b.length) :
    compare a ao b bo len = .ok (decide ((a.drop ao).take len = (b.drop bo).take len)) := by
  obtain ⟨d, h1, h2⟩ := compare_loop a b ao bo len ha hb
  simp only [compare, h1, ok_bind, pure_eq_ok, h2]

/-- `Verify` returns zero exactly when the two windows hold the same bytes. -/
theorem C04_verify (a b : List Byte) (ao bo len : Nat) (ha : ao + len ≤ a.length)
    (hb : bo + len ≤ b.length) :
    ∃ d, verify a ao b bo len = .ok d ∧ (d = 0 ↔ (a.drop ao).take len = (b.drop bo).take len) :=
  verify_loop a b ao bo len ha hb

/-- A window running past either end is an out-of-range access, never an answer. -/
theorem C04_out_of_range {w : Nat} (a b : List (BitVec w)) (ao bo len : Nat) (hl : 0 < len)
    (h : a.length < ao + len ∨ b.length < bo + len) : compare a ao b bo len = .error .ub := by
  have : loopN len 0 (deltaBody a ao b bo) 0 = .error .ub := by
    refine loopN_ub (len - 1) ?_ ?_ len 0 0 (by omega) (by omega)
    · intro s
      simp only [deltaBody]
      rcases h with h | h
      · rw [rd_ub (by omega)]; rfl
      · apply rd_bind_ub; intro _; rw [rd_ub (by omega)]; rfl
    · intro i s e he
      simp only [deltaBody, rd] at he
      split at he
      · simp only [ok_bind] at he; split at he
        · simp at he
        · simp at he; exact he.symm
      · simp at he; exact he.symm
  simp only [compare, this, error_bind]

/-- `DiffMask` on byte vectors is 0 when equal and -1 when different. -/
theorem C04_diffMask (a b : List Byte) (len : Nat) (ha : len ≤ a.length) (hb : len ≤ b.length) :
    diffMask a b len = .ok (if a.take len = b.take len then 0 else -1) := by
  have := loopN_inv (f := fun i (d : BitVec 16) => (do
      let x ← rd a i
      let y ← rd b i
      return d ||| (x ^^^ y).setWidth 16 : M (BitVec 16)))
    (fun i d => d.toNat < 256 ∧ (d.toNat = 0 ↔ a.take i = b.take i)) len 0 0
    (by
      intro j d _ hj ⟨hp1, hp2⟩
      refine ⟨_, by simp only [rd_ok (show j < a.length by omega), rd_ok (show j < b.length by omega), ok_bind, pure_eq_ok]; rfl, ?_⟩
      have hx : (a[j] ^^^ b[j]).toNat < 256 := (a[j] ^^^ b[j]).isLt
      rw [BitVec.toNat_or, setWidth_byte_toNat _ (by decide)]
      refine ⟨Nat.or_lt_two_pow (n := 8) hp1 hx, ?_⟩
      have e := take_drop_succ_eq_iff (a := a) (b := b) (ao := 0) (bo := 0) (i := j) (by omega) (by omega)
      simp only [List.drop_zero, Nat.zero_add] at e
      rw [e, ← hp2, Nat.or_eq_zero_iff]
      have : (a[j] ^^^ b[j]).toNat = 0 ↔ a[j] = b[j] := by
        rw [← xor_eq_zero_iff]
        exact ⟨fun h => BitVec.eq_of_toNat_eq h, fun h => by rw [h]; rfl⟩
      rw [this])
    (by simp)
  obtain ⟨d, h1, h2, h3⟩ := this
  rw [Nat.zero_add] at h3
  rw [diffMask, h1, ok_bind, pure_eq_ok]
  congr 1
  split
  · rename_i h; rw [h3.mpr h]; rfl
  · rename_i h
    have : d.toNat ≠ 0 := fun e => h (h3.mp e)
    omega

/-- On 16-bit elements `DiffMask` reports "equal" for different vectors. -/
theorem C04_diffMask16_false :
    ∃ a b : List (BitVec 16), a ≠ b ∧ diffMask a b 1 = .ok 0 ∧ a.length = 1 ∧ b.length = 1 :=
  ⟨[0x0101], [0x0000], by decide, by decide, rfl, rfl⟩

example : compare [1#8, 2, 3] 1 [2#8, 3] 0 2 = .ok true := by decide
example : compare [1#8, 2, 3] 1 [2#8, 4] 0 2 = .ok false := by decide

/-! ## C05: masks and selection -/

/-- On the four unsigned widths the mask builders return all-ones or zero exactly as named. -/
theorem C05_masks (lg : Nat) {w : Nat} (hw : w = 2 ^ lg) (x y : BitVec w) :
    expandMask lg x = (if x ≠ 0 then BitVec.allOnes w else 0) ∧
    isZero lg x = (if x = 0 then BitVec.allOnes w else 0) ∧
    isEqual lg x y = (if x = y then BitVec.allOnes w else 0) ∧
    isLess lg x y = (if x.toNat < y.toNat then BitVec.allOnes w else 0) ∧
    isLte lg x y = (if x.toNat ≤ y.toNat then BitVec.allOnes w else 0) := by
  refine ⟨?_, ?_, ?_, ?_, ?_⟩
  · rw [expandMask_eq lg hw]; split <;> simp_all
  · rw [isZero, expandMask_eq lg hw]; split <;> simp
  · rw [isEqual, isZero, expandMask_eq lg hw]
    by_cases h : x = y
    · simp [h]
    · have : x ^^^ y ≠ 0 := fun e => h ((xor_eq_zero_iff x y).mp e)
      rw [if_neg this, if_neg h]; simp
  · rw [isLess, expandMask_ofBool lg hw]; simp [BitVec.lt_def]
  · rw [isLte, expandMask_ofBool lg hw]; simp [BitVec.le_def]

/-- `ExpandTopBit` is the sign mask. -/
theorem C05_topBit (lg : Nat) {w : Nat} (hw : w = 2 ^ lg) (x : BitVec w) :
    expandTopBit lg x = if 2 ^ (w - 1) ≤ x.toNat then BitVec.allOnes w else 0 := by
  have hpos : 0 < w := by rw [hw]; exact Nat.two_pow_pos lg
  rw [expandTopBit, expandMask_eq lg hw]
  have hsh : (x >>> (w - 1)).toNat = x.toNat / 2 ^ (w - 1) := by
    rw [BitVec.toNat_ushiftRight, Nat.shiftRight_eq_div_pow]
  by_cases h : 2 ^ (w - 1) ≤ x.toNat
  · rw [if_pos h, if_neg]
    intro e
    have := congrArg BitVec.toNat e
    rw [hsh] at this
    have h0 : (0 : BitVec w).toNat = 0 := by simp
    rw [h0, Nat.div_eq_zero_iff] at this
    have := Nat.two_pow_pos (w - 1)
    omega
  · rw [if_neg h, if_pos]
    apply BitVec.eq_of_toNat_eq
    rw [hsh, Nat.div_eq_of_lt (by omega)]; simp

/-- `Select` with a mask produced by any of the predicates picks the first operand iff the predicate holds. -/
theorem C05_select (lg : Nat) {w : Nat} (hw : w = 2 ^ lg) (c a b : BitVec w) :
    select (expandMask lg c) a b = if c ≠ 0 then a else b := by
  rw [(C05_masks lg hw c c).1]; split
  · exact select_allOnes a b
  · exact select_zero a b

theorem C05_conditionalCopy (lg : Nat) {w : Nat} (hw : w = 2 ^ lg) (c : BitVec w) (f0 f1 : List (BitVec w))
    (h : f0.length = f1.length) : conditionalCopy lg c f0 f1 = if c ≠ 0 then f0 else f1 := by
  have : ∀ f0 f1 : List (BitVec w), f0.length = f1.length →
      List.zipWith (select (expandMask lg c)) f0 f1 = if c ≠ 0 then f0 else f1 := by
    intro f0
    induction f0 with
    | nil => intro f1 h; have : f1 = [] := by simpa using h.symm
             subst this; simp
    | cons x f0 ih =>
      intro f1 h
      cases f1 with
      | nil => simp at h
      | cons y f1 =>
        rw [List.zipWith_cons_cons, ih f1 (by simpa using h), C05_select lg hw]
        split <;> rfl
  exact this f0 f1 h

theorem C05_conditionalZeroMem (lg : Nat) {w : Nat} (hw : w = 2 ^ lg) (c : BitVec w) (arr : List (BitVec w)) :
    conditionalZeroMem lg c arr = if c ≠ 0 then List.replicate arr.length 0 else arr := by
  unfold conditionalZeroMem
  simp only [C05_select lg hw]
  split
  · rw [List.map_const']
  · simp

/-- `CMov` with condition 1 copies the window, with condition 0 leaves the destination unchanged. -/
theorem C05_cmov (inp pre win post : List Byte) (io : Nat) (c : Bool) (h : io + win.length ≤ inp.length) :
    cmov inp io (pre ++ win ++ post) pre.length win.length (if c then 1 else 0) =
      .ok (pre ++ (if c then (inp.drop io).take win.length else win) ++ post) := by
  have := loopN_inv (f := cmovBody inp io pre.length (~~~(if c then 1 else 0) + 1))
    (fun i out => out = pre ++ ((if c then (inp.drop io).take i else win.take i) ++ win.drop i) ++ post)
    win.length 0 (pre ++ win ++ post)
    (by
      intro j out _ hj hp
      subst hp
      have hj' : j < win.length := by omega
      have hlen : (if c then (inp.drop io).take j else win.take j).length = j := by
        split <;> simp <;> omega
      have hdrop : win.drop j = win[j] :: win.drop (j + 1) := by rw [List.drop_eq_getElem_cons hj']
      have hr : ∀ A : List Byte, A.length = j → rd (pre ++ (A ++ win.drop j) ++ post) (pre.length + j) = .ok win[j] := by
        intro A hA
        rw [hdrop]; subst hA
        have := rd_append_right (pre ++ A) (win[A.length] :: (win.drop (A.length + 1) ++ post)) 0
        rw [List.length_append, Nat.add_zero] at this
        simp only [List.append_assoc, List.cons_append] at this ⊢
        exact this
      have hw : ∀ (A : List Byte) v, A.length = j →
          wr (pre ++ (A ++ win.drop j) ++ post) (pre.length + j) v = .ok (pre ++ (A ++ [v] ++ win.drop (j + 1)) ++ post) := by
        intro A v hA
        rw [hdrop]; subst hA
        have : wr ([win[A.length]] ++ win.drop (A.length + 1) ++ post) 0 v = .ok ([v] ++ win.drop (A.length + 1) ++ post) := rfl
        have := wr_append_right (pre ++ A) _ _ 0 v this
        simpa using this
      refine ⟨_, by simp only [cmovBody, rd_ok (show io + j < inp.length by omega), ok_bind, hr _ hlen, hw _ _ hlen]; rfl, ?_⟩
      have hstep : ∀ y z : Byte, z ^^^ ((~~~(if c then 1 else 0) + 1) &&& (y ^^^ z)) = if c then y else z := by
        intro y z
        cases c
        · simp
        · have : (~~~(1 : Byte) + 1) = BitVec.allOnes 8 := by decide
          simp only [if_true, this, BitVec.allOnes_and]
          rw [BitVec.xor_comm y z, ← BitVec.xor_assoc, BitVec.xor_self, BitVec.zero_xor]
      rw [hstep]
      cases c
      · simp only [Bool.false_eq_true, if_false]
        rw [← List.take_succ_eq_append_getElem hj']
      · simp only [if_true]
        have : ((inp.drop io).take (j + 1)) = (inp.drop io).take j ++ [inp[io + j]] := by
          rw [List.take_succ_eq_append_getElem (by simp; omega)]; simp
        rw [this])
    (by cases c <;> simp)
  obtain ⟨s, h1, h2⟩ := this
  rw [Nat.zero_add] at h2
  unfold cmov
  rw [h1, h2]
  cases c <;> simp

/-- `CMax`/`CMin` do not compute maximum and minimum. -/
theorem C05_cMax_false : ∃ a b : BitVec 32, cMax 5 a b ≠ (if b.toNat ≤ a.toNat then a else b) :=
  ⟨5, 3, by decide⟩

theorem C05_cMin_false : ∃ a b : BitVec 32, cMin 5 a b ≠ (if a.toNat ≤ b.toNat then a else b) :=
  ⟨5, 3, by decide⟩

/-- `ShiftLeft` doubles the big-endian number; the bit shifted out is returned. -/
theorem C05_shiftLeft (inp out : List Byte) (hne : inp ≠ []) (hl : out.length = inp.length) :
    ∃ c out', shiftLeft inp out = .ok (c, out') ∧ out'.length = inp.length ∧
      beVal out' + 256 ^ inp.length * c.toNat = 2 * beVal inp := by
  have aux : ∀ (k : Nat) (inp1 inp2 out1 out2 : List Byte) (bit : BitVec 32), inp1.length = k → out1.length = k →
      bit.toNat < 2 →
      ∃ c o, shiftLeftLoop (inp1 ++ inp2) k bit (out1 ++ out2) = .ok (c, o ++ out2) ∧ o.length = k ∧
        beVal o + 256 ^ k * c.toNat = 2 * beVal inp1 + bit.toNat ∧ c.toNat < 2 := by
    intro k
    induction k with
    | zero =>
      intro inp1 inp2 out1 out2 bit h1 h2 h3
      have e1 : inp1 = [] := by simpa using h1
      have e2 : out1 = [] := by simpa using h2
      subst e1 e2
      exact ⟨bit, [], by simp [shiftLeftLoop], rfl, by simp, h3⟩
    | succ k ih =>
      intro inp1 inp2 out1 out2 bit h1 h2 h3
      obtain ⟨i1, x, rfl⟩ : ∃ i l, inp1 = i ++ [l] := by
        have hne : inp1 ≠ [] := by intro h; rw [h] at h1; simp at h1
        exact ⟨inp1.dropLast, inp1.getLast hne, (List.dropLast_concat_getLast hne).symm⟩
      obtain ⟨o1, y, rfl⟩ : ∃ i l, out1 = i ++ [l] := by
        have hne : out1 ≠ [] := by intro h; rw [h] at h2; simp at h2
        exact ⟨out1.dropLast, out1.getLast hne, (List.dropLast_concat_getLast hne).symm⟩
      simp only [List.length_append, List.length_cons, List.length_nil, Nat.zero_add, Nat.add_right_cancel_iff] at h1 h2
      have hr : rd (i1 ++ [x] ++ inp2) k = .ok x := by subst h1; simp [rd]
      have hw : ∀ v, wr (o1 ++ [y] ++ out2) k v = .ok (o1 ++ (v :: out2)) := by
        intro v; subst h2
        have : wr ([y] ++ out2) 0 v = .ok ([v] ++ out2) := rfl
        have := wr_append_right o1 _ _ 0 v this
        simpa using this
      simp only [shiftLeftLoop, hr, hw, ok_bind]
      have hx : x.toNat < 256 := x.isLt
      have hx32 : (x.setWidth 32).toNat = x.toNat := setWidth_byte_toNat x (by decide)
      have hb : (((x.setWidth 32) >>> 7) &&& (1 : BitVec 32)).toNat = x.toNat / 128 := by
        rw [BitVec.toNat_and, BitVec.toNat_ushiftRight, hx32, Nat.shiftRight_eq_div_pow,
          show (1 : BitVec 32).toNat = 1 from rfl, Nat.and_one_is_mod]
        omega
      have hv : ((((x.setWidth 32 : BitVec 32) <<< 1) ||| bit).setWidth 8).toNat = (2 * x.toNat + bit.toNat) % 256 := by
        rw [BitVec.toNat_setWidth, BitVec.toNat_or, shl_byte_toNat x 1 (by decide),
          or_eq_add 1 (by omega) (by omega)]
        congr 1; omega
      obtain ⟨c, o, g1, g2, g3, g4⟩ := ih i1 ([x] ++ inp2) o1
        (((((x.setWidth 32 : BitVec 32) <<< 1) ||| bit).setWidth 8) :: out2) (((x.setWidth 32) >>> 7) &&& 1) h1 h2
        (by rw [hb]; omega)
      refine ⟨c, o ++ [(((x.setWidth 32 : BitVec 32) <<< 1) ||| bit).setWidth 8], ?_, by simp [g2], ?_, g4⟩
      · rw [← List.append_assoc] at g1
        rw [g1]; simp
      · rw [beVal_concat, beVal_concat, hv, Nat.pow_succ']
        rw [hb] at g3
        rw [Nat.mul_assoc]; omega
  obtain ⟨c, o, h1, h2, h3, _⟩ := aux inp.length inp [] out [] 0 rfl hl (by decide)
  have hlen : inp.length ≠ 0 := by intro h; exact hne (List.length_eq_zero_iff.mp h)
  refine ⟨c, o, ?_, h2, by simpa using h3⟩
  simpa [shiftLeft, hlen] using h1

example : expandMask 3 (0x40 : BitVec 8) = 0xFF := by decide
example : shiftLeft [0x80, 0x81] [0, 0] = .ok (1, [0x01, 0x02]) := by decide
example : cmov [1, 2, 3] 1 [9, 9, 9, 9] 1 2 1 = .ok [9, 2, 3, 9] := by decide

/-- Rotations by an in-range non-zero amount are exact and mutually inverse. -/
theorem C05_rotates (v : BitVec 32) (u : BitVec 64) (s : Nat) (hs : 0 < s) :
    (s < 32 → rotL32 v s = .ok (v.rotateLeft s) ∧ rotR32 v s = .ok (v.rotateRight s)) ∧
    (s < 64 → rotL64 u s = .ok (u.rotateLeft s) ∧ rotR64 u s = .ok (u.rotateRight s)) := by
  constructor <;> intro h
  · simp [rotL32, rotR32, hs, h, BitVec.rotateLeft, BitVec.rotateRight, BitVec.rotateLeftAux, BitVec.rotateRightAux, Nat.mod_eq_of_lt h]
  · simp [rotL64, rotR64, hs, h, BitVec.rotateLeft, BitVec.rotateRight, BitVec.rotateLeftAux, BitVec.rotateRightAux, Nat.mod_eq_of_lt h]

/-- `Crop` keeps the value modulo `2^Length`. -/
theorem C05_crop (v : BitVec 64) (len : Nat) : (crop v len).toNat = v.toNat % 2 ^ len := by
  unfold crop
  split
  · rename_i h
    have h1 : ((1#64 <<< len) - 1).toNat = 2 ^ len - 1 := by
      have hlt : 2 ^ len < 2 ^ 64 := Nat.pow_lt_pow_right (by decide) h
      have hpos := Nat.two_pow_pos len
      have e : (1#64 <<< len).toNat = 2 ^ len := by
        rw [BitVec.toNat_shiftLeft, Nat.shiftLeft_eq, show (1#64).toNat = 1 from rfl, Nat.one_mul, Nat.mod_eq_of_lt hlt]
      rw [BitVec.toNat_sub, e, show (1 : BitVec 64).toNat = 1 from rfl]
      omega
    rw [BitVec.toNat_and, h1, Nat.and_two_pow_sub_one_eq_mod]
  · rename_i h
    rw [Nat.mod_eq_of_lt (Nat.lt_of_lt_of_le v.isLt (Nat.pow_le_pow_right (by decide) (by omega)))]

end Cex.IntTools
