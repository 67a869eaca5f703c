import Verif.McEliece.SyndModel
import Verif.McEliece.KemProps

/-!
# C104: Syndrome is the product of the matrix (I | T) of the public key with the error vector
-/

namespace Cex.McEliece.Synd

open Cex.McEliece.Kem

/-! ## Specification -/

/-- The bits of a string of bytes, the lowest of each byte first. -/
def bits : List Byte → List Bool
  | [] => []
  | b :: l => (List.range 8).map b.getLsbD ++ bits l

/-- The product of two vectors over GF(2). -/
def dot (a b : List Bool) : Bool := (List.zipWith (· && ·) a b).foldl xor false

/-- Row `i` of the matrix (I | T): the unit vector of length `rows`, then the first `cols` bits of the row of the public key. -/
def matrixRow (rows cols i : Nat) (pk : List Byte) : List Bool := (List.replicate rows false).set i true ++ (bits pk).take cols

/-! ## Bits -/

theorem range8 (f : Nat → Bool) : (List.range 8).map f = [f 0, f 1, f 2, f 3, f 4, f 5, f 6, f 7] := rfl

theorem bits_length : ∀ l : List Byte, (bits l).length = 8 * l.length
  | [] => rfl
  | b :: l => by rw [bits, List.length_append, bits_length l, range8, List.length_cons]; simp; omega

theorem bits_append : ∀ a b : List Byte, bits (a ++ b) = bits a ++ bits b
  | [], _ => rfl
  | x :: a, b => by rw [List.cons_append, bits, bits, bits_append a b, List.append_assoc]

theorem bits_zero : ∀ n, bits (List.replicate n 0#8) = List.replicate (8 * n) false
  | 0 => rfl
  | n + 1 => by
    rw [List.replicate_succ, bits, bits_zero n, show 8 * (n + 1) = 8 + 8 * n by omega, List.replicate_add]
    rfl

theorem bits_shift : ∀ (l : List Byte) (p : Byte), bits (List.zipWith (fun b prev : Byte => b <<< 3 ||| prev >>> 5) l (p :: l))
    = ([p.getLsbD 5, p.getLsbD 6, p.getLsbD 7] ++ bits l).take (8 * l.length)
  | [], p => by simp [bits]
  | b :: l, p => by
    rw [List.zipWith_cons_cons, bits, bits_shift l b, bits, range8, range8, List.length_cons, show 8 * (l.length + 1) = 8 * l.length + 8 by omega]
    simp [BitVec.getLsbD_or, BitVec.getLsbD_shiftLeft, BitVec.getLsbD_ushiftRight]

theorem byte_set (b : Byte) (i : Nat) (h : i < 8) : (List.range 8).map (b ||| 1#8 <<< i).getLsbD = ((List.range 8).map b.getLsbD).set i true := by
  have hi : i = 0 ∨ i = 1 ∨ i = 2 ∨ i = 3 ∨ i = 4 ∨ i = 5 ∨ i = 6 ∨ i = 7 := by omega
  rw [range8, range8]
  rcases hi with rfl | rfl | rfl | rfl | rfl | rfl | rfl | rfl <;> simp [BitVec.getLsbD_or]

theorem bits_unit : ∀ (l : List Byte) (i : Nat), i < 8 * l.length → bits (unitBit l i) = (bits l).set i true
  | [], i, h => by simp at h
  | b :: l, i, h => by
    unfold unitBit
    by_cases h8 : i < 8
    · rw [show i / 8 = 0 by omega, show i % 8 = i by omega, List.modify_zero_cons, bits, bits, byte_set b i h8,
        List.set_append_left _ _ (by simp; exact h8)]
    · have ih := bits_unit l (i - 8) (by rw [List.length_cons] at h; omega)
      unfold unitBit at ih
      rw [show i / 8 = (i - 8) / 8 + 1 by omega, List.modify_succ_cons, bits, show i % 8 = (i - 8) % 8 by omega, ih, bits,
        List.set_append_right _ _ (by simp; omega)]
      simp

theorem unitBit_length (l : List Byte) (i : Nat) : (unitBit l i).length = l.length := by simp [unitBit]

/-! ## The product -/

/-- The parity of a byte. -/
def par (b : Byte) : Bool := ((List.range 8).map b.getLsbD).foldl xor false

theorem foldl_xor_init (l : List Bool) : ∀ z, l.foldl xor z = xor z (l.foldl xor false) := by
  induction l with
  | nil => intro z; simp
  | cons x l ih => intro z; rw [List.foldl_cons, List.foldl_cons, ih, ih (xor false x), Bool.false_xor, Bool.xor_assoc]

theorem foldl_xor_zip : ∀ a b : List Bool, a.length = b.length →
    (List.zipWith xor a b).foldl xor false = xor (a.foldl xor false) (b.foldl xor false)
  | [], [], _ => rfl
  | x :: a, y :: b, h => by
    rw [List.zipWith_cons_cons, List.foldl_cons, List.foldl_cons, List.foldl_cons, foldl_xor_init, foldl_xor_zip a b (by simpa using h),
      foldl_xor_init a (xor false x), foldl_xor_init b (xor false y)]
    cases x <;> cases y <;> cases a.foldl xor false <;> cases b.foldl xor false <;> rfl

theorem par_xor (a b : Byte) : par (a ^^^ b) = xor (par a) (par b) := by
  unfold par
  rw [← foldl_xor_zip _ _ (by simp), range8, range8, range8]
  simp only [BitVec.getLsbD_xor]
  rfl

theorem dot_append (a a' b b' : List Bool) (h : a.length = b.length) : dot (a ++ a') (b ++ b') = xor (dot a b) (dot a' b') := by
  unfold dot
  rw [List.zipWith_append h, List.foldl_append, foldl_xor_init]

theorem dot_byte (a b : Byte) : dot ((List.range 8).map a.getLsbD) ((List.range 8).map b.getLsbD) = par (a &&& b) := by
  unfold dot par
  rw [range8, range8, range8]
  simp only [BitVec.getLsbD_and]
  rfl

theorem par_foldl : ∀ (r e : List Byte), r.length = e.length → ∀ z,
    par ((List.zipWith (· &&& ·) r e).foldl (· ^^^ ·) z) = xor (par z) (dot (bits r) (bits e)) := by
  intro r
  induction r with
  | nil => intro e h z; simp [bits, dot]
  | cons x r ih =>
    intro e h z
    cases e with
    | nil => simp at h
    | cons y e =>
      rw [List.zipWith_cons_cons, List.foldl_cons, ih e (by simpa using h), par_xor, bits, bits, dot_append _ _ _ _ (by simp), dot_byte, Bool.xor_assoc]

theorem par_fold (b : Byte) :
    (let c := b ^^^ b >>> 4; let c := c ^^^ c >>> 2; let c := c ^^^ c >>> 1; c &&& 1#8) = if par b then 1#8 else 0#8 := by
  have : ∀ b : BitVec 8, (let c := b ^^^ b >>> 4; let c := c ^^^ c >>> 2; let c := c ^^^ c >>> 1; c &&& 1#8) = if par b then 1#8 else 0#8 := by
    decide +kernel
  exact this b

theorem dotByte_eq (r e : List Byte) (h : r.length = e.length) : dotByte r e = if dot (bits r) (bits e) then 1#8 else 0#8 := by
  have := par_fold ((List.zipWith (· &&& ·) r e).foldl (· ^^^ ·) 0#8)
  unfold dotByte
  simp only [] at this ⊢
  rw [this, par_foldl r e h, show par 0#8 = false by decide, Bool.false_xor]

/-! ## The packing -/

theorem packS_bit (rows : Nat) (f : Nat → Bool) (bs : Nat → Byte) (hb : ∀ i, i < rows → bs i = if f i then 1#8 else 0#8) (j k : Nat) (hk : k < 8) :
    (packS rows bs j).getLsbD k = (decide (8 * j + k < rows) && f (8 * j + k)) := by
  have key : ∀ b0 b1 b2 b3 b4 b5 b6 b7 : Bool, ∀ k : Fin 8,
      ((((((((0#8 ||| (if b0 then 1#8 else 0#8) <<< 0) ||| (if b1 then 1#8 else 0#8) <<< 1)
        ||| (if b2 then 1#8 else 0#8) <<< 2) ||| (if b3 then 1#8 else 0#8) <<< 3)
        ||| (if b4 then 1#8 else 0#8) <<< 4) ||| (if b5 then 1#8 else 0#8) <<< 5)
        ||| (if b6 then 1#8 else 0#8) <<< 6) ||| (if b7 then 1#8 else 0#8) <<< 7).getLsbD k.val
      = [b0, b1, b2, b3, b4, b5, b6, b7][k.val] := by decide +kernel
  have hstep : ∀ (s : Byte) (m : Nat), (if 8 * j + m < rows then s ||| bs (8 * j + m) <<< m else s)
      = s ||| (if (decide (8 * j + m < rows) && f (8 * j + m)) then 1#8 else 0#8) <<< m := by
    intro s m
    by_cases h : 8 * j + m < rows
    · rw [if_pos h, hb _ h, decide_eq_true h, Bool.true_and]
    · rw [if_neg h, decide_eq_false h, Bool.false_and]
      simp
  have e : packS rows bs j = (List.range 8).foldl (fun s m => s ||| (if (decide (8 * j + m < rows) && f (8 * j + m)) then 1#8 else 0#8) <<< m) 0 := by
    unfold packS
    congr 1
    funext s m
    exact hstep s m
  rw [e]
  have g := fun m => (decide (8 * j + m < rows) && f (8 * j + m))
  have h := key (decide (8 * j + 0 < rows) && f (8 * j + 0)) (decide (8 * j + 1 < rows) && f (8 * j + 1)) (decide (8 * j + 2 < rows) && f (8 * j + 2))
    (decide (8 * j + 3 < rows) && f (8 * j + 3)) (decide (8 * j + 4 < rows) && f (8 * j + 4)) (decide (8 * j + 5 < rows) && f (8 * j + 5))
    (decide (8 * j + 6 < rows) && f (8 * j + 6)) (decide (8 * j + 7 < rows) && f (8 * j + 7)) ⟨k, hk⟩
  refine Eq.trans h ?_
  have hk' : k = 0 ∨ k = 1 ∨ k = 2 ∨ k = 3 ∨ k = 4 ∨ k = 5 ∨ k = 6 ∨ k = 7 := by omega
  rcases hk' with rfl | rfl | rfl | rfl | rfl | rfl | rfl | rfl <;> rfl

/-- The row of the matrix in bytes is the row of the specification. -/
theorem row_bits (shift : Bool) (nb rb i : Nat) (pk : List Byte) (hl : pk.length = rb) (hrb : rb ≤ nb)
    (rows : Nat) (hrows : rows = 8 * (nb - rb) + (if shift then 3 else 0)) (hi : i < rows) (hrb0 : 0 < rb) :
    bits (unitBit (if shift then shiftRow nb pk else copyRow nb pk) i) = matrixRow rows (8 * nb - rows) i pk := by
  have hbase : bits (if shift then shiftRow nb pk else copyRow nb pk) = List.replicate rows false ++ (bits pk).take (8 * nb - rows) := by
    cases shift with
    | false =>
      simp only [Bool.false_eq_true, if_false, Nat.add_zero] at hrows ⊢
      rw [copyRow, bits_append, bits_zero, hl, hrows, List.take_of_length_le]
      rw [bits_length]; omega
    | true =>
      simp only [if_true] at hrows ⊢
      rw [shiftRow, bits_append, bits_zero, bits_shift, hl, hrows, List.replicate_add, List.append_assoc]
      congr 1
      rw [List.take_append, List.take_of_length_le (l := [_, _, _]) (by simp; omega)]
      congr 2
      simp only [List.length_cons, List.length_nil]
      omega
  rw [bits_unit, hbase, matrixRow, List.set_append_left _ _ (by simpa using hi)]
  have := bits_length (if shift then shiftRow nb pk else copyRow nb pk)
  rw [← this, hbase, List.length_append, List.length_replicate]
  omega

theorem row_length (shift : Bool) (nb : Nat) (pk : List Byte) (h : pk.length ≤ nb) : (if shift then shiftRow nb pk else copyRow nb pk).length = nb := by
  cases shift <;> simp [shiftRow, copyRow] <;> omega

/-- The product for row `i`. -/
def specBit (nb : Nat) (pk : List (List Byte)) (e : List Byte) (i : Nat) : Bool :=
  match pk[i]? with
  | some r => dot (matrixRow pk.length (8 * nb - pk.length) i r) (bits e)
  | none => false

/-- C104: bit `i` of the syndrome is the product of row `i` of (I | T) with the error vector, and the bits after the last row are zero, for every public key and error vector. -/
theorem C104_syndrome (shift : Bool) (nb rb : Nat) (pk : List (List Byte)) (e : List Byte) (hrb : rb ≤ nb) (hrb0 : 0 < rb)
    (hpk : ∀ r ∈ pk, r.length = rb) (hrows : pk.length = 8 * (nb - rb) + (if shift then 3 else 0)) (he : e.length = nb) :
    (syndrome shift nb pk e).length = (pk.length + 7) / 8 ∧
    (∀ i, (h : i < pk.length) → bit (syndrome shift nb pk e) i = dot (matrixRow pk.length (8 * nb - pk.length) i pk[i]) (bits e)) ∧
    ∀ i, pk.length ≤ i → bit (syndrome shift nb pk e) i = false := by
  have hb : ∀ i, i < pk.length → pass shift nb pk e i = if specBit nb pk e i then 1#8 else 0#8 := by
    intro i hi
    unfold pass specBit
    rw [List.getElem?_eq_getElem hi]
    have hr := hpk pk[i] (List.getElem_mem hi)
    show dotByte _ e = if dot _ _ = true then _ else _
    rw [dotByte_eq, row_bits shift nb rb i pk[i] hr hrb pk.length hrows hi hrb0]
    rw [unitBit_length, row_length _ _ _ (by omega), he]
  refine ⟨by simp [syndrome], fun i h => ?_, fun i h => ?_⟩
  · rw [syndrome, bit_map _ _ _ (by omega), packS_bit _ _ _ hb (i / 8) (i % 8) (by omega), show 8 * (i / 8) + i % 8 = i by omega,
      decide_eq_true h, Bool.true_and]
    unfold specBit
    rw [List.getElem?_eq_getElem h]
  · by_cases hi : i < 8 * ((pk.length + 7) / 8)
    · rw [syndrome, bit_map _ _ _ hi, packS_bit _ _ _ hb (i / 8) (i % 8) (by omega), show 8 * (i / 8) + i % 8 = i by omega,
        decide_eq_false (by omega), Bool.false_and]
    · unfold bit
      rw [List.getElem?_eq_none (by simp [syndrome]; omega)]

/-- C104: the shapes of the four sets. -/
theorem C104_shapes : (1248 = 8 * (576 - 420) ∧ (4608 - 1248 + 7) / 8 = 420) ∧ (1664 = 8 * (836 - 628) ∧ (6688 - 1664 + 7) / 8 = 628)
    ∧ (1664 = 8 * (1024 - 816) ∧ (8192 - 1664 + 7) / 8 = 816) ∧ (1547 = 8 * (870 - 677) + 3 ∧ (6960 - 1547 + 7) / 8 = 677 ∧ 8 * 870 - 1547 = 6960 - 1547) := by decide

/-- C104: the syndrome of MPKCN6960T119 has a zero padding, so honest ciphertexts do not meet `C103_6960_padding`. -/
theorem C104_6960_padding (pk : List (List Byte)) (e : List Byte) (hpk : ∀ r ∈ pk, r.length = 677) (hrows : pk.length = 1547) (he : e.length = 870) :
    ∃ h : 193 < (syndrome true 870 pk e).length, (syndrome true 870 pk e)[193] >>> 3 = 0#8 := by
  obtain ⟨h1, _, h3⟩ := C104_syndrome true 870 677 pk e (by omega) (by omega) hpk (by rw [hrows]; rfl) he
  have hl : 193 < (syndrome true 870 pk e).length := by rw [h1, hrows]; decide
  refine ⟨hl, ?_⟩
  ext k hk
  rw [BitVec.getElem_ushiftRight, BitVec.getElem_zero]
  by_cases hk5 : 3 + k < 8
  · have := h3 (8 * 193 + (3 + k)) (by omega)
    unfold bit at this
    rw [show (8 * 193 + (3 + k)) / 8 = 193 by omega, show (8 * 193 + (3 + k)) % 8 = 3 + k by omega, List.getElem?_eq_getElem hl] at this
    exact this
  · exact BitVec.getLsbD_of_ge _ _ (by omega)

example : syndrome true 3 (List.replicate 11 [0xFF, 0x1F]) [0x05, 0x08, 0x00] = [0xFA, 0x07]
    ∧ syndrome false 3 (List.replicate 8 [0x01, 0x80]) [0x05, 0x01, 0x00] = [0xFA] := by decide +kernel

end Cex.McEliece.Synd
