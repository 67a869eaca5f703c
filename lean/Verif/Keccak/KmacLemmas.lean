import Verif.Keccak.ObjLemmas

/-! # KMAC: the last block and the invariant -/

namespace Cex.Keccak
open Cex Cex.IntTools Stream Cex.Mac

variable {P : List Byte → M (List Byte)} {f : List Byte → List Byte}

/-- The block that `Finalize` absorbs for the buffered bytes `rest` and the encoded output length `re`: what does not fit into the rate is cut off. -/
def lastBlock (r : Nat) (rest re : List Byte) : List Byte :=
  (rest ++ re ++ [0x04] ++ List.replicate r 0).take (r - 1) ++ (((rest ++ re ++ [0x04] ++ List.replicate r 0).drop (r - 1)).take 1).map (· ||| 0x80)

theorem lastBlock_len {r : Nat} (h0 : 0 < r) (rest re : List Byte) : (lastBlock r rest re).length = r := by
  simp [lastBlock]; omega

/-- When everything fits, it is the padded end of the message. -/
theorem lastBlock_fit {r l : Nat} (h0 : 0 < r) (rest re : List Byte) (h : rest.length + re.length < r) (hl : l % r = rest.length + re.length) :
    lastBlock r rest re = rest ++ re ++ Fips202.pad r 0x04 l := by
  rw [lastBlock, Fips202.pad, hl]
  by_cases h1 : r - (rest.length + re.length) = 1
  · rw [if_pos h1]
    have e : r - 1 = (rest ++ re).length := by rw [List.length_append]; omega
    rw [List.append_assoc (rest ++ re), e, List.take_left, List.drop_left]
    rfl
  · rw [if_neg h1]
    obtain ⟨k, hk⟩ : ∃ k, r = rest.length + re.length + 1 + k + 1 := ⟨r - (rest.length + re.length) - 2, by omega⟩
    have e : rest ++ re ++ [0x04] ++ List.replicate r (0 : Byte) = (rest ++ re ++ [0x04] ++ List.replicate k 0) ++ 0 :: List.replicate (r - k - 1) 0 := by
      conv => lhs; rw [show r = k + (1 + (r - k - 1)) from by omega, List.replicate_add, List.replicate_add]
      simp
    have e2 : r - 1 = (rest ++ re ++ [0x04] ++ List.replicate k (0 : Byte)).length := by simp; omega
    rw [e, e2, List.take_left, List.drop_left, show r - (rest.length + re.length) - 2 = k from by omega]
    simp

theorem writeBytes (w pre junk post : List Byte) (src : List Byte) (hs : Holds src 0 w) (hj : junk.length = w.length) :
    loopN w.length 0 (fun i buf => do let b ← rd src i; wr buf (pre.length + i) b) (pre ++ junk ++ post) = .ok (pre ++ w ++ post) := by
  obtain ⟨a, c, hs, ha⟩ := hs
  have : a = [] := List.eq_nil_of_length_eq_zero ha
  subst this
  rw [List.nil_append] at hs
  subst hs
  have step : ∀ j s, 0 ≤ j → j < 0 + w.length → s = pre ++ w.take j ++ (junk.drop j ++ post) →
      ∃ s', (do let b ← rd (w ++ c) j; wr s (pre.length + j) b) = .ok s' ∧ s' = pre ++ w.take (j + 1) ++ (junk.drop (j + 1) ++ post) := by
    rintro j s - hj2 rfl
    have hjw : j < w.length := by omega
    have hjj : j < junk.length := by omega
    have hd : junk.drop j ++ post = junk[j] :: (junk.drop (j + 1) ++ post) := by rw [List.drop_eq_getElem_cons hjj]; rfl
    refine ⟨_, ?_, rfl⟩
    rw [rd_ok (by rw [List.length_append]; omega), ok_bind, hd, wr_at _ _ _ _ _ (by rw [List.length_append, List.length_take]; omega)]
    rw [List.getElem_append_left hjw, List.take_succ_eq_append_getElem hjw]
    simp only [List.append_assoc, List.singleton_append]
  obtain ⟨s', h1, h2⟩ := loopN_inv (fun j s => s = pre ++ w.take j ++ (junk.drop j ++ post)) w.length 0 (pre ++ junk ++ post) step (by simp)
  rw [h1, h2, Nat.zero_add, List.take_of_length_le (Nat.le_refl _), List.drop_of_length_le (by omega), List.nil_append]

theorem take_zeros (x : List Byte) {r k : Nat} (h : r ≤ x.length + k) : (x ++ List.replicate k 0).take r = (x ++ List.replicate r 0).take r := by
  rw [List.take_append, List.take_append, List.take_replicate, List.take_replicate]
  congr 2; omega

theorem lastBlock_zeros {r k : Nat} (h0 : 0 < r) (rest re : List Byte) (h : r ≤ (rest ++ re ++ [0x04]).length + k) :
    lastBlock r rest re = (rest ++ re ++ [0x04] ++ List.replicate k 0).take (r - 1) ++ (((rest ++ re ++ [0x04] ++ List.replicate k 0).drop (r - 1)).take 1).map (· ||| 0x80) := by
  have e := take_zeros _ h
  have h1 : ∀ l : List Byte, l.take (r - 1) = (l.take r).take (r - 1) := fun l => by rw [List.take_take]; congr 1; omega
  have h2 : ∀ l : List Byte, (l.drop (r - 1)).take 1 = (l.take r).drop (r - 1) := fun l => by rw [List.drop_take]; congr 1; omega
  rw [lastBlock, h1, h2, ← e, ← h1, ← h2]

/-- `Finalize` puts the last block together without leaving the buffer. -/
theorem lastBuf_eq {s : Kmac} {n : Nat} (hb : s.buf.length = 200) (h0 : 0 < s.rate) (hp : s.pos < s.rate) (hr : s.rate ≤ 168) (hn : 8 * n < 2 ^ 64) :
    ∃ b, s.lastBuf n = .ok b ∧ b.length = 200 ∧ Holds b 0 (lastBlock s.rate (s.buf.take s.pos) (Sp800185.rightEncode (8 * n))) := by
  have hv : (BitVec.ofNat 64 n * 8).toNat = 8 * n := by
    rw [BitVec.toNat_mul, ofNat_toNat64 (by omega)]
    show n * 8 % 2 ^ 64 = _
    rw [Nat.mod_eq_of_lt (by omega)]; omega
  have hbl : Sp800185.byteLen (8 * n) ≤ 8 := byteLen_le (by omega) (by decide)
  have hel := rightEncode_length (8 * n)
  have hto : (s.buf.take s.pos).length = s.pos := by rw [List.length_take]; omega
  have henc : rightEncode (List.replicate 9 0) 0 (BitVec.ofNat 64 n * 8) = .ok (Sp800185.rightEncode (8 * n) ++ List.replicate (8 - Sp800185.byteLen (8 * n)) 0, (Sp800185.rightEncode (8 * n)).length) := by
    have e : List.replicate 9 (0 : Byte) = [] ++ List.replicate (Sp800185.byteLen (8 * n) + 1) 0 ++ List.replicate (8 - Sp800185.byteLen (8 * n)) 0 := by
      rw [List.nil_append, ← List.replicate_add]; congr 1; omega
    rw [e, rightEncode_eq (off := 0) _ [] _ _ (by rw [hv, List.length_replicate]) rfl, hv]; rfl
  rw [Kmac.lastBuf, clear_tail (by omega), ok_bind, henc, ok_bind]
  simp only []
  have hrest := hto
  revert hrest
  generalize hre : Sp800185.rightEncode (8 * n) = re at *
  generalize hrest' : s.buf.take s.pos = rest at *
  intro _
  have e1 : rest ++ List.replicate (s.buf.length - s.pos) (0 : Byte) = rest ++ List.replicate re.length 0 ++ (0 :: List.replicate (199 - s.pos - re.length) 0) := by
    rw [← List.replicate_succ, List.append_assoc, ← List.replicate_add]; congr 2; omega
  have hw := writeBytes re rest (List.replicate re.length 0) (0 :: List.replicate (199 - s.pos - re.length) 0) (re ++ List.replicate (8 - Sp800185.byteLen (8 * n)) 0)
    ⟨[], _, rfl, rfl⟩ List.length_replicate
  rw [hto] at hw
  rw [e1, hw, ok_bind, wr_at _ _ _ _ _ (by rw [List.length_append, hto]), ok_bind]
  have hz := lastBlock_zeros (k := 199 - s.pos - re.length) h0 rest re (by simp only [List.length_append, List.length_singleton]; omega)
  have e2 : rest ++ re ++ 0x04 :: List.replicate (199 - s.pos - re.length) (0 : Byte) = rest ++ re ++ [0x04] ++ List.replicate (199 - s.pos - re.length) 0 := by simp
  have hL : (rest ++ re ++ [0x04] ++ List.replicate (199 - s.pos - re.length) (0 : Byte)).length = 200 := by simp; omega
  rw [e2]
  generalize rest ++ re ++ [0x04] ++ List.replicate (199 - s.pos - re.length) (0 : Byte) = L at *
  have hlt : s.rate - 1 < L.length := by omega
  obtain ⟨A, x, C, hLe, hA⟩ : ∃ A x C, L = A ++ x :: C ∧ s.rate - 1 = A.length :=
    ⟨L.take (s.rate - 1), L[s.rate - 1], L.drop (s.rate - 1 + 1), by rw [← List.drop_eq_getElem_cons hlt, List.take_append_drop], by rw [List.length_take]; omega⟩
  subst hLe
  rw [rd_at _ _ _ _ hA, ok_bind, wr_at _ _ _ _ _ hA]
  rw [hA, List.take_left, List.drop_left] at hz
  refine ⟨_, rfl, ?_, [], C, ?_, rfl⟩
  · simpa using hL
  · rw [hz]; simp

end Cex.Keccak
