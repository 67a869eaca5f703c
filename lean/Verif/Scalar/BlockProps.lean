import Verif.Scalar.BlockModel

/-!
# C109: blocks of bytes and big-endian words
-/

namespace Cex.Scalar

/-- The number written by the bytes in base 256, the highest first. -/
def val : List Byte → Nat
  | [] => 0
  | b :: l => b.toNat * 256 ^ l.length + val l

theorem val_lt (l : List Byte) : val l < 256 ^ l.length := by
  induction l with
  | nil => decide
  | cons b l ih =>
    have hb := b.isLt
    show b.toNat * 256 ^ l.length + val l < 256 ^ (l.length + 1)
    rw [Nat.pow_succ]
    have : b.toNat * 256 ^ l.length ≤ 255 * 256 ^ l.length := Nat.mul_le_mul_right _ (by omega)
    omega

theorem pow256 (n : Nat) : 2 ^ (8 * n) = 256 ^ n := by rw [Nat.pow_mul]

theorem load_val {w : Nat} (l : List Byte) : ∀ (o : BitVec w) (a : Nat), o.toNat = a * 256 ^ l.length → 8 * l.length ≤ w →
    (beLoad o l).toNat = a * 256 ^ l.length + val l := by
  induction l with
  | nil => intro o a h _; show o.toNat = _; rw [h]; rfl
  | cons b l ih =>
    intro o a h hw
    rw [List.length_cons] at h hw
    have hb := b.isLt
    have hlt : b.toNat * 2 ^ (8 * l.length) < 2 ^ (8 * l.length + 8) := by
      rw [Nat.pow_add, Nat.mul_comm]
      exact Nat.mul_lt_mul_of_pos_left hb (Nat.two_pow_pos _)
    have hle : 2 ^ (8 * l.length + 8) ≤ 2 ^ w := Nat.pow_le_pow_right (by decide) (by omega)
    have h8 : 2 ^ 8 ≤ 2 ^ w := Nat.pow_le_pow_right (by decide) (by omega)
    have e1 : (b.setWidth w <<< (8 * l.length)).toNat = b.toNat * 2 ^ (8 * l.length) := by
      rw [BitVec.toNat_shiftLeft, BitVec.toNat_setWidth, Nat.mod_eq_of_lt (a := b.toNat) (by omega), Nat.shiftLeft_eq, Nat.mod_eq_of_lt (by omega)]
    have e2 : (o ||| b.setWidth w <<< (8 * l.length)).toNat = (a * 256 + b.toNat) * 256 ^ l.length := by
      rw [BitVec.toNat_or, e1, h, ← pow256, Nat.mul_add, Nat.mul_one, ← Nat.shiftLeft_eq a, ← Nat.shiftLeft_add_eq_or_of_lt hlt, Nat.shiftLeft_eq, Nat.pow_add, pow256, Nat.add_mul,
        Nat.mul_assoc, Nat.mul_comm 256 (256 ^ l.length)]
    show (beLoad _ l).toNat = a * 256 ^ (l.length + 1) + (b.toNat * 256 ^ l.length + val l)
    rw [ih _ _ e2 (by omega), Nat.add_mul, Nat.pow_succ, Nat.mul_assoc, Nat.mul_comm 256]
    omega

theorem word_val (k : Nat) (l : List Byte) (h : l.length = k) : (beLoad (0#(8 * k)) l).toNat = val l := by
  have := load_val l (0#(8 * k)) 0 (by simp) (by omega)
  rw [this, Nat.zero_mul, Nat.zero_add]

/-- C109: `BlockToBe` writes for every group of k bytes the big-endian number, and nothing else, when the words written to were 0: at any offsets, for any number of words. -/
theorem C109_blockToBe_partial (k : Nat) (chunks : List (List Byte)) (hc : ∀ c ∈ chunks, c.length = k) :
    ∀ (ipre ipost : List Byte) (opre opost : List (BitVec (8 * k))) (i inOff outOff : Nat), ipre.length = inOff + i * k → opre.length = outOff + i →
      blockToBe k (ipre ++ chunks.flatten ++ ipost) inOff outOff i chunks.length (opre ++ List.replicate chunks.length 0#(8 * k) ++ opost)
        = .ok (opre ++ chunks.map (fun c => BitVec.ofNat (8 * k) (val c)) ++ opost) := by
  induction chunks with
  | nil => intro ipre ipost opre opost i inOff outOff _ _; rfl
  | cons c chunks ih =>
    intro ipre ipost opre opost i inOff outOff h1 h2
    have hk := hc c (List.mem_cons_self ..)
    have hs : slice (ipre ++ (c :: chunks).flatten ++ ipost) (inOff + i * k) k = .ok c := by
      unfold slice
      rw [if_pos (by simp only [List.flatten_cons, List.length_append]; omega), ← h1, List.flatten_cons, List.append_assoc, List.drop_left, List.append_assoc]
      rw [List.take_left' hk]
    have hr : rd (opre ++ List.replicate (c :: chunks).length 0#(8 * k) ++ opost) (outOff + i) = .ok 0#(8 * k) := by
      unfold rd
      rw [← h2, List.append_assoc, List.getElem?_append_right (Nat.le_refl _), Nat.sub_self]
      rfl
    have hw : wr (opre ++ List.replicate (c :: chunks).length 0#(8 * k) ++ opost) (outOff + i) (beLoad 0#(8 * k) c)
        = .ok ((opre ++ [beLoad 0#(8 * k) c]) ++ List.replicate chunks.length 0#(8 * k) ++ opost) := by
      unfold wr
      rw [if_pos (by simp only [List.length_append, List.length_replicate, List.length_cons]; omega), ← h2, List.append_assoc, List.set_append_right _ _ (Nat.le_refl _), Nat.sub_self]
      simp [List.replicate_succ]
    have hv : beLoad 0#(8 * k) c = BitVec.ofNat (8 * k) (val c) := by
      apply BitVec.eq_of_toNat_eq
      rw [word_val k c hk, BitVec.toNat_ofNat, Nat.mod_eq_of_lt]
      rw [pow256, ← hk]; exact val_lt c
    have hi := ih (fun d hd => hc d (List.mem_cons_of_mem _ hd)) (ipre ++ c) ipost (opre ++ [beLoad 0#(8 * k) c]) opost (i + 1) inOff outOff
      (by rw [List.length_append, h1, hk, Nat.add_mul]; omega) (by simp [h2]; omega)
    rw [List.length_cons]
    unfold blockToBe
    rw [List.length_cons] at hr hw
    rw [hs, ok_bind, hr, ok_bind, hw, ok_bind]
    rw [List.flatten_cons, ← List.append_assoc ipre c]
    rw [hi, hv]
    simp

/-- C109: `BlockToBe` ors into its output: a word that is not 0 keeps its bits. -/
theorem C109_blockToBe_false : blockToBe 4 [0x12#8, 0x34#8, 0x56#8, 0x78#8] 0 0 0 1 [0xFF#(8 * 4)] = .ok [0x123456FF#(8 * 4)] := by decide +kernel

theorem store_eq {w : Nat} (x : BitVec w) (l : List Byte) : x.toNat % 256 ^ l.length = val l → beStore x l.length = l := by
  induction l with
  | nil => intro _; rfl
  | cons b l ih =>
    intro h
    have hv := val_lt l
    have hp : 0 < 256 ^ l.length := Nat.pow_pos (by decide)
    have h' : x.toNat % (256 ^ l.length * 256) = b.toNat * 256 ^ l.length + val l := h
    have e1 : x.toNat / 256 ^ l.length % 256 = b.toNat := by
      rw [← Nat.mod_mul_right_div_self, h', Nat.mul_comm, Nat.mul_add_div hp, Nat.div_eq_of_lt hv, Nat.add_zero]
    have e2 : x.toNat % 256 ^ l.length = val l := by
      have := congrArg (· % 256 ^ l.length) h'
      simp only [Nat.mod_mul_right_mod] at this
      rw [this, Nat.mul_comm, Nat.mul_add_mod, Nat.mod_eq_of_lt hv]
    show (x >>> (8 * l.length)).setWidth 8 :: beStore x l.length = b :: l
    rw [ih e2]
    congr 1
    apply BitVec.eq_of_toNat_eq
    rw [BitVec.toNat_setWidth, BitVec.toNat_ushiftRight, Nat.shiftRight_eq_div_pow, pow256]
    exact e1

/-- C109: `BeToBlock` gives back the bytes of a word. -/
theorem C109_roundtrip (k : Nat) (l : List Byte) (h : l.length = k) : beStore (BitVec.ofNat (8 * k) (val l)) k = l := by
  subst h
  apply store_eq
  rw [BitVec.toNat_ofNat, pow256, Nat.mod_mod, Nat.mod_eq_of_lt (val_lt l)]

example : blockToBe 4 [9#8, 0x12#8, 0x34#8, 0x56#8, 0x78#8] 1 1 0 1 [7#(8 * 4), 0#(8 * 4)] = .ok [7#(8 * 4), 0x12345678#(8 * 4)] := by decide +kernel

end Cex.Scalar
