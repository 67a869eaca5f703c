import Verif.Rijndael.Spec

/-! # GF(2⁸) facts: the S-box is a bijection, the column matrices are inverse to each other -/

namespace Cex.Aes

theorem xtime_xor (a b : Byte) : xtime (a ^^^ b) = xtime a ^^^ xtime b := by
  unfold xtime
  rw [BitVec.shiftLeft_xor_distrib, BitVec.msb_xor]
  have key : ∀ A B c : Byte, A ^^^ B ^^^ 0#8 = A ^^^ c ^^^ (B ^^^ c) := by
    intro A B c
    rw [show A ^^^ c ^^^ (B ^^^ c) = A ^^^ B ^^^ (c ^^^ c) from by ac_rfl, BitVec.xor_self]
  cases a.msb <;> cases b.msb
  · exact key _ _ _
  · simp only [Bool.bne_true, Bool.not_false, Bool.false_eq_true, if_true, if_false]; rw [BitVec.xor_zero]; ac_rfl
  · simp only [Bool.bne_false, Bool.false_eq_true, if_true, if_false]; rw [BitVec.xor_zero]; ac_rfl
  · exact key _ _ _

theorem xpow_xor (i : Nat) (a b : Byte) : xpow i (a ^^^ b) = xpow i a ^^^ xpow i b := by
  induction i with
  | zero => rfl
  | succ i ih => simp only [xpow, ih, xtime_xor]

theorem part_xor (c : Byte) (i : Nat) (a b : Byte) : part c i (a ^^^ b) = part c i a ^^^ part c i b := by
  unfold part
  split
  · exact xpow_xor i a b
  · rfl

/-- Multiplication distributes over addition. -/
theorem mul_xor (c a b : Byte) : mul c (a ^^^ b) = mul c a ^^^ mul c b := by
  simp only [mul, part_xor]
  ac_rfl

/-- `inv` is the multiplicative inverse. -/
theorem mul_inv : ∀ b : Byte, b ≠ 0 → mul b (inv b) = 1 := by decide +kernel

theorem inv_zero : inv 0 = 0 := by decide +kernel

theorem unaffine_affine : ∀ b : Byte, unaffine (affine b) = b ∧ affine (unaffine b) = b := by decide +kernel

theorem inv_inv : ∀ b : Byte, inv (inv b) = b := by decide +kernel

/-- The inverse S-box undoes the S-box. -/
theorem invSbox_sbox (b : Byte) : invSbox (sbox b) = b := by
  rw [invSbox, sbox, (unaffine_affine _).1, inv_inv]

theorem sbox_invSbox (b : Byte) : sbox (invSbox b) = b := by
  rw [invSbox, sbox, inv_inv, (unaffine_affine _).2]

/-- The products of the two circulant matrices, one entry at a time: 1 on the diagonal, 0 elsewhere. -/
theorem circ_entries : ∀ b : Byte,
    mul 0x0E (mul 0x02 b) ^^^ mul 0x0B (mul 0x01 b) ^^^ mul 0x0D (mul 0x01 b) ^^^ mul 0x09 (mul 0x03 b) = b ∧
    mul 0x0E (mul 0x03 b) ^^^ mul 0x0B (mul 0x02 b) ^^^ mul 0x0D (mul 0x01 b) ^^^ mul 0x09 (mul 0x01 b) = 0 ∧
    mul 0x0E (mul 0x01 b) ^^^ mul 0x0B (mul 0x03 b) ^^^ mul 0x0D (mul 0x02 b) ^^^ mul 0x09 (mul 0x01 b) = 0 ∧
    mul 0x0E (mul 0x01 b) ^^^ mul 0x0B (mul 0x01 b) ^^^ mul 0x0D (mul 0x03 b) ^^^ mul 0x09 (mul 0x02 b) = 0 := by decide +kernel

theorem circ_circ (v : Fin 4 → Byte) : circ 0x0E 0x0B 0x0D 0x09 (circ 0x02 0x03 0x01 0x01 v) = v := by
  funext r
  obtain ⟨a0, _⟩ := circ_entries (v r)
  obtain ⟨_, a1, _⟩ := circ_entries (v (r + 1))
  obtain ⟨_, _, a2, _⟩ := circ_entries (v (r + 2))
  obtain ⟨_, _, _, a3⟩ := circ_entries (v (r + 3))
  have e : ∀ r : Fin 4, r + 1 + 1 = r + 2 ∧ r + 1 + 2 = r + 3 ∧ r + 1 + 3 = r ∧ r + 2 + 1 = r + 3 ∧ r + 2 + 2 = r ∧
      r + 2 + 3 = r + 1 ∧ r + 3 + 1 = r ∧ r + 3 + 2 = r + 1 ∧ r + 3 + 3 = r + 2 := by decide
  obtain ⟨e1, e2, e3, e4, e5, e6, e7, e8, e9⟩ := e r
  simp only [circ, e1, e2, e3, e4, e5, e6, e7, e8, e9, mul_xor]
  calc _ = (mul 0x0E (mul 0x02 (v r)) ^^^ mul 0x0B (mul 0x01 (v r)) ^^^ mul 0x0D (mul 0x01 (v r)) ^^^ mul 0x09 (mul 0x03 (v r))) ^^^
      (mul 0x0E (mul 0x03 (v (r + 1))) ^^^ mul 0x0B (mul 0x02 (v (r + 1))) ^^^ mul 0x0D (mul 0x01 (v (r + 1))) ^^^ mul 0x09 (mul 0x01 (v (r + 1)))) ^^^
      (mul 0x0E (mul 0x01 (v (r + 2))) ^^^ mul 0x0B (mul 0x03 (v (r + 2))) ^^^ mul 0x0D (mul 0x02 (v (r + 2))) ^^^ mul 0x09 (mul 0x01 (v (r + 2)))) ^^^
      (mul 0x0E (mul 0x01 (v (r + 3))) ^^^ mul 0x0B (mul 0x01 (v (r + 3))) ^^^ mul 0x0D (mul 0x03 (v (r + 3))) ^^^ mul 0x09 (mul 0x02 (v (r + 3)))) := by ac_rfl
    _ = v r := by rw [a0, a1, a2, a3]; simp

/-- Linearity of the column maps. -/
theorem circ_xor (a0 a1 a2 a3 : Byte) (u v : Fin 4 → Byte) :
    circ a0 a1 a2 a3 (fun k => u k ^^^ v k) = fun r => circ a0 a1 a2 a3 u r ^^^ circ a0 a1 a2 a3 v r := by
  funext r
  simp only [circ, mul_xor]
  ac_rfl

/-! ## Undoing the steps -/

theorem invSubBytes_subBytes {nb : Nat} (s : St nb) : invSubBytes (subBytes s) = s := by
  funext r c; exact invSbox_sbox _

theorem invMixColumns_mixColumns {nb : Nat} (s : St nb) : invMixColumns (mixColumns s) = s := by
  funext r c; exact congrFun (circ_circ (fun k => s k c)) r

theorem invShiftRows_shiftRows {α : Type} {nb : Nat} {sh : Fin 4 → Nat} (h : ∀ r, sh r ≤ nb) (s : Fin 4 → Fin nb → α) :
    invShiftRows sh (shiftRows sh s) = s := by
  funext r c
  simp only [invShiftRows, shiftRows]
  congr 1
  apply Fin.ext
  simp only []
  rw [Nat.mod_add_mod, show c.val + (nb - sh r) + sh r = c.val + nb from by have := h r; omega, Nat.add_mod_right, Nat.mod_eq_of_lt c.isLt]

theorem addRoundKey_twice {nb : Nat} (w : Schedule) (k : Nat) (s : St nb) : addRoundKey w k (addRoundKey w k s) = s := by
  funext r c
  simp only [addRoundKey]
  rw [BitVec.xor_assoc, BitVec.xor_self, BitVec.xor_zero]

/-- The last of `n + 1` rounds. -/
theorem rounds_succ {nb : Nat} (sh : Fin 4 → Nat) (w : Schedule) : ∀ (n k : Nat) (s : St nb),
    rounds sh w (n + 1) k s = addRoundKey w (k + n) (mixColumns (shiftRows sh (subBytes (rounds sh w n k s))))
  | 0, k, s => rfl
  | n + 1, k, s => by
    rw [rounds, rounds_succ sh w n (k + 1), rounds, show k + 1 + n = k + (n + 1) from by omega]

theorem invRounds_rounds {nb : Nat} {sh : Fin 4 → Nat} (h : ∀ r, sh r ≤ nb) (w : Schedule) : ∀ (n : Nat) (s : St nb),
    invSubBytes (invShiftRows sh (invRounds sh w n (shiftRows sh (subBytes (rounds sh w n 1 s))))) = s
  | 0, s => by rw [rounds, invRounds, invShiftRows_shiftRows h, invSubBytes_subBytes]
  | n + 1, s => by
    rw [rounds_succ, invRounds, invShiftRows_shiftRows h, invSubBytes_subBytes, show 1 + n = n + 1 from by omega,
      addRoundKey_twice, invMixColumns_mixColumns]
    exact invRounds_rounds h w n s

/-- INVCIPHER undoes CIPHER, for every expanded key and every number of rounds. -/
theorem invCipher_cipher {nb : Nat} {sh : Fin 4 → Nat} (h : ∀ r, sh r ≤ nb) (w : Schedule) (nr : Nat) (s : St nb) :
    invCipher sh w nr (cipher sh w nr s) = s := by
  rw [invCipher, cipher, addRoundKey_twice, invRounds_rounds h, addRoundKey_twice]

end Cex.Aes
