import Verif.Kyber.SampleModel
import Verif.Kyber.CodecLemmas
import Verif.Keccak.SpongeProps

/-!
# Sampling
-/

namespace Cex.Kyber
open Cex Cex.Lattice Cex.Spec.Lattice Cex.Spec.Kyber

/-! ## Sums of bits -/

theorem and_split (w x m : Nat) : x &&& m = (x / 2 ^ w &&& m / 2 ^ w) * 2 ^ w + (x % 2 ^ w &&& m % 2 ^ w) := by
  rw [← Nat.and_div_two_pow, ← Nat.and_mod_two_pow, Nat.mul_comm, Nat.div_add_mod]

/-- The mask that repeats `u` in `k` groups of `w` bits. -/
def mask (w u : Nat) : Nat → Nat
  | 0 => 0
  | k + 1 => u + 2 ^ w * mask w u k

def sum2 (m t : Nat) : Nat := (t &&& m) + (t / 2 &&& m)
def sum3 (m t : Nat) : Nat := (t &&& m) + (t / 2 &&& m) + (t / 4 &&& m)

theorem sum2_step (k t : Nat) : sum2 (mask 4 5 (k + 1)) t = sum2 5 (t % 16) + 16 * sum2 (mask 4 5 k) (t / 16) := by
  have hd : mask 4 5 (k + 1) / 2 ^ 4 = mask 4 5 k := by rw [mask]; omega
  have hm : mask 4 5 (k + 1) % 2 ^ 4 = 5 := by rw [mask]; omega
  have h : ∀ n < 32, (n / 2) &&& 5 = (n % 16 / 2) &&& 5 := by decide +kernel
  have h' := h (t % 32) (Nat.mod_lt _ (by decide))
  rw [show t % 32 / 2 = t / 2 % 16 from by omega, show t % 32 % 16 = t % 16 from by omega] at h'
  unfold sum2
  rw [and_split 4 t, and_split 4 (t / 2), hd, hm, show t / 2 / 2 ^ 4 = t / 16 / 2 from by omega, show t / 2 ^ 4 = t / 16 from rfl, show t / 2 % 2 ^ 4 = t / 2 % 16 from rfl,
    show t % 2 ^ 4 = t % 16 from rfl, h']
  omega

theorem sum3_step (k t : Nat) : sum3 (mask 6 9 (k + 1)) t = sum3 9 (t % 64) + 64 * sum3 (mask 6 9 k) (t / 64) := by
  have hd : mask 6 9 (k + 1) / 2 ^ 6 = mask 6 9 k := by rw [mask]; omega
  have hm : mask 6 9 (k + 1) % 2 ^ 6 = 9 := by rw [mask]; omega
  have h : ∀ n < 256, (n / 2 % 64) &&& 9 = (n % 64 / 2) &&& 9 ∧ (n / 4) &&& 9 = (n % 64 / 4) &&& 9 := by decide +kernel
  have h' := h (t % 256) (Nat.mod_lt _ (by decide))
  rw [show t % 256 / 2 % 64 = t / 2 % 64 from by omega, show t % 256 % 64 = t % 64 from by omega, show t % 256 / 4 = t / 4 % 64 from by omega] at h'
  unfold sum3
  rw [and_split 6 t, and_split 6 (t / 2), and_split 6 (t / 4), hd, hm, show t / 2 / 2 ^ 6 = t / 64 / 2 from by omega, show t / 4 / 2 ^ 6 = t / 64 / 4 from by omega, show t / 2 ^ 6 = t / 64 from rfl,
    show t / 2 % 2 ^ 6 = t / 2 % 64 from rfl, show t / 4 % 2 ^ 6 = t / 4 % 64 from rfl, show t % 2 ^ 6 = t % 64 from rfl, h'.1, h'.2]
  omega

theorem sum2_digit (k : Nat) : ∀ t j, j < k → sum2 (mask 4 5 k) t / 16 ^ j % 16 = sum2 5 (t / 16 ^ j % 16) := by
  have hs : ∀ n < 16, sum2 5 n < 16 := by decide +kernel
  induction k with
  | zero => intro t j h; omega
  | succ k ih =>
    intro t j hj
    have hlt := hs (t % 16) (Nat.mod_lt _ (by decide))
    rw [sum2_step]
    cases j with
    | zero => rw [Nat.pow_zero, Nat.div_one, Nat.div_one]; omega
    | succ j =>
      rw [Nat.pow_succ', ← Nat.div_div_eq_div_mul, ← Nat.div_div_eq_div_mul, show (sum2 5 (t % 16) + 16 * sum2 (mask 4 5 k) (t / 16)) / 16 = sum2 (mask 4 5 k) (t / 16) from by omega,
        ih (t / 16) j (by omega)]

theorem sum3_digit (k : Nat) : ∀ t j, j < k → sum3 (mask 6 9 k) t / 64 ^ j % 64 = sum3 9 (t / 64 ^ j % 64) := by
  have hs : ∀ n < 64, sum3 9 n < 64 := by decide +kernel
  induction k with
  | zero => intro t j h; omega
  | succ k ih =>
    intro t j hj
    have hlt := hs (t % 64) (Nat.mod_lt _ (by decide))
    rw [sum3_step]
    cases j with
    | zero => rw [Nat.pow_zero, Nat.div_one, Nat.div_one]; omega
    | succ j =>
      rw [Nat.pow_succ', ← Nat.div_div_eq_div_mul, ← Nat.div_div_eq_div_mul, show (sum3 9 (t % 64) + 64 * sum3 (mask 6 9 k) (t / 64)) / 64 = sum3 (mask 6 9 k) (t / 64) from by omega,
        ih (t / 64) j (by omega)]

theorem cbd2Sum_eq (t : Nat) : cbd2Sum t = sum2 (mask 4 5 8) t := by
  have hm : mask 4 5 8 = 0x55555555 := by decide
  have h1 : t &&& 0x55555555 ≤ 0x55555555 := Nat.and_le_right
  have h2 : t >>> 1 &&& 0x55555555 ≤ 0x55555555 := Nat.and_le_right
  rw [cbd2Sum, Nat.mod_eq_of_lt (by omega), sum2, hm]
  rfl

theorem cbd3Sum_eq (t : Nat) : cbd3Sum t = sum3 (mask 6 9 4) t := by
  have hm : mask 6 9 4 = 0x249249 := by decide
  have h1 : t &&& 0x249249 ≤ 0x249249 := Nat.and_le_right
  have h2 : t >>> 1 &&& 0x249249 ≤ 0x249249 := Nat.and_le_right
  have h3 : t >>> 2 &&& 0x249249 ≤ 0x249249 := Nat.and_le_right
  rw [cbd3Sum, Nat.mod_eq_of_lt (by omega), sum3, hm, Nat.shiftRight_eq_div_pow, Nat.shiftRight_eq_div_pow]

theorem leVal_chunk {L i : Nat} {w : List Byte} (h : L * (i + 1) ≤ w.length) : leVal (chunk L w i) = leVal w / 256 ^ (L * i) % 256 ^ L := by
  rw [Nat.mul_add, Nat.mul_one] at h
  have e : w = w.take (L * i) ++ (chunk L w i ++ w.drop (L * i + L)) := by
    rw [chunk, ← List.drop_drop, List.take_append_drop, List.take_append_drop]
  have l1 : (w.take (L * i)).length = L * i := by rw [List.length_take]; omega
  have l2 : (chunk L w i).length = L := by rw [chunk, List.length_take, List.length_drop]; omega
  have b1 := leVal_lt (w.take (L * i))
  have b2 := leVal_lt (chunk L w i)
  rw [l1] at b1
  rw [l2] at b2
  conv_rhs => rw [e, leVal_append, leVal_append, l1, l2, Nat.add_mul_div_left _ _ (Nat.pow_pos (by decide)), Nat.div_eq_of_lt b1, Nat.zero_add, Nat.add_mul_mod_self_left, Nat.mod_eq_of_lt b2]

theorem digit_chunk {B N j : Nat} (x : Nat) (hj : j < N) : x % B ^ N / B ^ j % B = x / B ^ j % B := by
  have : B ^ N = B ^ j * (B * B ^ (N - j - 1)) := by
    rw [← Nat.pow_succ', ← Nat.pow_add]; congr 1; omega
  rw [this, Nat.mod_mul_right_div_self, Nat.mod_mul_right_mod]

theorem groupLoop_spec {G m g : Nat} {h : List Byte → List Int} {sp : Nat → Int} {w : List Byte} (hw : g * G ≤ w.length)
    (hh : ∀ i, i < G → h (chunk g w i) = (List.range m).map fun j => sp (m * i + j)) {r : List Int} (hr : r.length = m * G) :
    groupLoop G m g h w r = .ok ((List.range (m * G)).map sp) := by
  obtain ⟨r', h1, h2⟩ := loopN_inv
    (f := fun i r => do
      let w ← slice w (g * i) g
      blit r (m * i) (h w))
    (fun i r => ∃ rest, r = (List.range (m * i)).map sp ++ rest ∧ rest.length = m * (G - i)) G 0 r
    (by
      rintro i r _ hi ⟨rest, rfl, hr⟩
      have hi : i < G := by omega
      have hmr : m * (G - i) = m + m * (G - (i + 1)) := by rw [show G - i = 1 + (G - (i + 1)) from by omega, Nat.mul_add, Nat.mul_one]
      refine ⟨(List.range (m * (i + 1))).map sp ++ rest.drop m, ?_, _, rfl, by rw [List.length_drop]; omega⟩
      have hs := slice_holds (chunk_holds hw hi) (chunk_length hw hi).symm
      simp only [hs, ok_bind]
      have hsp : (List.range (m * i)).map sp ++ rest = (List.range (m * i)).map sp ++ rest.take m ++ rest.drop m := by rw [List.append_assoc, List.take_append_drop]
      have hb : ∀ cs x : List Int, cs.length = m * i → x.length = m → blit (cs ++ rest.take m ++ rest.drop m) (m * i) x = .ok (cs ++ x ++ rest.drop m) := fun cs x h hx => by
        rw [← h, blit_append _ _ _ _ (by rw [hx, List.length_take]; omega)]
      rw [hsp, hh i hi, hb _ _ (by rw [List.length_map, List.length_range]) (by rw [List.length_map, List.length_range]), Nat.mul_add, Nat.mul_one, List.range_add, List.map_append, List.map_map]
      rfl)
    ⟨r, by simp, by simpa using hr⟩
  obtain ⟨rest, rfl, hr'⟩ := h2
  rw [groupLoop, h1]
  have hr0 : rest = [] := by apply List.eq_nil_of_length_eq_zero; rw [hr']; simp
  rw [hr0, List.append_nil, Nat.zero_add]

theorem bit_group {B : Nat} (x n : Nat) (hB : B = 2 ^ n) (j i : Nat) (hj : j < n) : x / 2 ^ (n * i + j) % 2 = x / B ^ i % B / 2 ^ j % 2 := by
  subst hB
  rw [← Nat.pow_mul, Nat.pow_add, ← Nat.div_div_eq_div_mul]
  have := digit_chunk (B := 2) (N := n) (j := j) (x / 2 ^ (n * i)) hj
  rw [this]

theorem cbd2_eq {w : List Byte} (hw : w.length = 128) {r : List Int} (hr : r.length = 256) : cbd2 r w = .ok ((List.range 256).map (cbd 2 w)) := by
  refine groupLoop_spec (G := 32) (m := 8) (g := 4) (by omega) (fun i hi => ?_) hr
  rw [cbd2Group]
  refine List.map_congr_left fun j hj => ?_
  have hj := List.mem_range.mp hj
  have hv : ∀ n < 16, sum2 5 n % 4 = n / 2 ^ 0 % 2 + n / 2 ^ 1 % 2 ∧ sum2 5 n / 4 % 4 = n / 2 ^ 2 % 2 + n / 2 ^ 3 % 2 := by decide +kernel
  have hd := sum2_digit 8 (leVal (chunk 4 w i)) j hj
  have hn : leVal (chunk 4 w i) / 16 ^ j % 16 = leVal w / 16 ^ (8 * i + j) % 16 := by
    rw [leVal_chunk (by omega), show (256 : Nat) ^ 4 = 16 ^ 8 from rfl, digit_chunk _ hj, show (256 : Nat) ^ (4 * i) = 16 ^ (8 * i) from by
      rw [show (256 : Nat) = 16 ^ 2 from rfl, ← Nat.pow_mul]; congr 1; omega, Nat.div_div_eq_div_mul, ← Nat.pow_add]
  rw [hn] at hd
  obtain ⟨v1, v2⟩ := hv _ (Nat.mod_lt (leVal w / 16 ^ (8 * i + j)) (by decide))
  rw [← hd, ← bit_group (B := 16) (leVal w) 4 rfl 0 _ (by decide), ← bit_group (B := 16) (leVal w) 4 rfl 1 _ (by decide)] at v1
  rw [← hd, ← bit_group (B := 16) (leVal w) 4 rfl 2 _ (by decide), ← bit_group (B := 16) (leVal w) 4 rfl 3 _ (by decide)] at v2
  rw [cbd2Sum_eq, Nat.shiftRight_eq_div_pow, Nat.shiftRight_eq_div_pow, Nat.pow_add, Nat.pow_mul, ← Nat.div_div_eq_div_mul]
  have e1 : sum2 (mask 4 5 8) (leVal (chunk 4 w i)) / (2 ^ 4) ^ j % 4 = sum2 (mask 4 5 8) (leVal (chunk 4 w i)) / 16 ^ j % 16 % 4 := by
    rw [show (2 : Nat) ^ 4 = 16 from rfl]; omega
  have e2 : sum2 (mask 4 5 8) (leVal (chunk 4 w i)) / (2 ^ 4) ^ j / 2 ^ 2 % 4 = sum2 (mask 4 5 8) (leVal (chunk 4 w i)) / 16 ^ j % 16 / 4 % 4 := by
    rw [show (2 : Nat) ^ 4 = 16 from rfl]; omega
  rw [e1, e2, v1, v2]
  simp only [cbd, Finset.sum_range_succ, Finset.sum_range_zero, bit]
  rw [show 2 * (8 * i + j) * 2 = 4 * (8 * i + j) from by omega]
  push_cast
  simp only [Nat.add_zero, zero_add, Nat.add_assoc]

theorem cbd3_eq {w : List Byte} (hw : w.length = 192) {r : List Int} (hr : r.length = 256) : cbd3 r w = .ok ((List.range 256).map (cbd 3 w)) := by
  refine groupLoop_spec (G := 64) (m := 4) (g := 3) (by omega) (fun i hi => ?_) hr
  rw [cbd3Group]
  refine List.map_congr_left fun j hj => ?_
  have hj := List.mem_range.mp hj
  have hv : ∀ n < 64, sum3 9 n % 8 = n / 2 ^ 0 % 2 + n / 2 ^ 1 % 2 + n / 2 ^ 2 % 2 ∧ sum3 9 n / 8 % 8 = n / 2 ^ 3 % 2 + n / 2 ^ 4 % 2 + n / 2 ^ 5 % 2 := by decide +kernel
  have hd := sum3_digit 4 (leVal (chunk 3 w i)) j hj
  have hn : leVal (chunk 3 w i) / 64 ^ j % 64 = leVal w / 64 ^ (4 * i + j) % 64 := by
    rw [leVal_chunk (by omega), show (256 : Nat) ^ 3 = 64 ^ 4 from rfl, digit_chunk _ hj, show (256 : Nat) ^ (3 * i) = 64 ^ (4 * i) from by
      rw [Nat.pow_mul, Nat.pow_mul], Nat.div_div_eq_div_mul, ← Nat.pow_add]
  rw [hn] at hd
  obtain ⟨v1, v2⟩ := hv _ (Nat.mod_lt (leVal w / 64 ^ (4 * i + j)) (by decide))
  rw [← hd, ← bit_group (B := 64) (leVal w) 6 rfl 0 _ (by decide), ← bit_group (B := 64) (leVal w) 6 rfl 1 _ (by decide), ← bit_group (B := 64) (leVal w) 6 rfl 2 _ (by decide)] at v1
  rw [← hd, ← bit_group (B := 64) (leVal w) 6 rfl 3 _ (by decide), ← bit_group (B := 64) (leVal w) 6 rfl 4 _ (by decide), ← bit_group (B := 64) (leVal w) 6 rfl 5 _ (by decide)] at v2
  rw [cbd3Sum_eq, Nat.shiftRight_eq_div_pow, Nat.shiftRight_eq_div_pow, Nat.pow_add, Nat.pow_mul, ← Nat.div_div_eq_div_mul]
  have e1 : sum3 (mask 6 9 4) (leVal (chunk 3 w i)) / (2 ^ 6) ^ j % 8 = sum3 (mask 6 9 4) (leVal (chunk 3 w i)) / 64 ^ j % 64 % 8 := by
    rw [show (2 : Nat) ^ 6 = 64 from rfl]; omega
  have e2 : sum3 (mask 6 9 4) (leVal (chunk 3 w i)) / (2 ^ 6) ^ j / 2 ^ 3 % 8 = sum3 (mask 6 9 4) (leVal (chunk 3 w i)) / 64 ^ j % 64 / 8 % 8 := by
    rw [show (2 : Nat) ^ 6 = 64 from rfl]; omega
  rw [e1, e2, v1, v2]
  simp only [cbd, Finset.sum_range_succ, Finset.sum_range_zero, bit]
  rw [show 2 * (4 * i + j) * 3 = 6 * (4 * i + j) from by omega]
  push_cast
  simp only [Nat.add_zero, zero_add, Nat.add_assoc]

/-! ## Rejection -/

theorem accepted_nil : accepted [] = [] := by simp [accepted, decode]

theorem accepted_cons (b0 b1 b2 : Byte) (t : List Byte) (h3 : t.length % 3 = 0) :
    accepted (b0 :: b1 :: b2 :: t) = ([(b0.toNat ||| (b1.toNat <<< 8)) % 4096, ((b1.toNat >>> 4) ||| (b2.toNat <<< 4)) % 4096].filter (· < 3329)) ++ accepted t := by
  have hu := un12_unpacks.2 [b0, b1, b2] rfl
  have hd : decode 12 (2 * ((b0 :: b1 :: b2 :: t).length / 3)) (b0 :: b1 :: b2 :: t) = un12 [b0, b1, b2] ++ decode 12 (2 * (t.length / 3)) t := by
    have hl : (b0 :: b1 :: b2 :: t).length / 3 = t.length / 3 + 1 := by simp only [List.length_cons]; omega
    rw [hl]
    refine decode_eq (x := 0) ?_ ?_ ?_
    · rw [List.length_append, hu.1, decode_length]; omega
    · intro c hc
      rcases List.mem_append.mp hc with hc | hc
      · exact hu.2.1 c hc
      · exact decode_lt hc
    · rw [Nat.mul_zero, Nat.add_zero, digits_append, hu.1, hu.2.2, digits_decode]
      have ht := leVal_lt t
      have : (256 : Nat) ^ t.length = 2 ^ (12 * (2 * (t.length / 3))) := by
        rw [show (256 : Nat) = 2 ^ 8 from rfl, ← Nat.pow_mul]; congr 1; omega
      rw [← this, Nat.mod_eq_of_lt ht, show b0 :: b1 :: b2 :: t = [b0, b1, b2] ++ t from rfl, leVal_append,
        show [b0, b1, b2].length = 3 from rfl, show (2 : Nat) ^ (12 * 2) = 256 ^ 3 from by decide]
  rw [accepted, hd, List.filter_append]
  rfl

theorem take_cons_succ {α : Type} (n : Nat) (x : α) (l : List α) (h : 0 < n) : (x :: l).take n = x :: l.take (n - 1) := by
  obtain ⟨m, rfl⟩ := Nat.exists_eq_succ_of_ne_zero (by omega : n ≠ 0)
  rfl

theorem rejLoop_spec (off rlen : Nat) (buf : List Byte) (c : List Byte) (len : Nat) (post : List Int) : ∀ (n : Nat) (w a : List Byte) (fuel ctr pos : Nat) (pre junk : List Int),
    w.length ≤ n → w.length % 3 = 0 → buf = a ++ w ++ c → pos = a.length → len = a.length + w.length → w.length < fuel → ctr ≤ rlen → pre.length = off + ctr → junk.length = rlen - ctr →
    rejLoop off rlen buf len fuel ctr pos (pre ++ junk ++ post) =
      .ok (pre ++ ((accepted w).take (rlen - ctr)).map Int.ofNat ++ junk.drop ((accepted w).take (rlen - ctr)).length ++ post, ctr + ((accepted w).take (rlen - ctr)).length) := by
  intro n
  induction n with
  | zero =>
    intro w a fuel ctr pos pre junk hn h3 hbuf hpos hlen hfuel hc hp hj
    obtain rfl : w = [] := List.eq_nil_of_length_eq_zero (by omega)
    obtain ⟨fuel, rfl⟩ := Nat.exists_eq_succ_of_ne_zero (by omega : fuel ≠ 0)
    rw [rejLoop, if_neg (by rw [hlen, hpos]; simp), accepted_nil]
    simp [pure_eq_ok]
  | succ n ih =>
    intro w a fuel ctr pos pre junk hn h3 hbuf hpos hlen hfuel hc hp hj
    obtain ⟨fuel, rfl⟩ := Nat.exists_eq_succ_of_ne_zero (by omega : fuel ≠ 0)
    match w, h3 with
    | [], _ =>
      rw [rejLoop, if_neg (by rw [hlen, hpos]; simp), accepted_nil]
      simp [pure_eq_ok]
    | b0 :: b1 :: b2 :: t, h3 =>
      have ht3 : t.length % 3 = 0 := by simp only [List.length_cons] at h3; omega
      simp only [List.length_cons] at hn hlen hfuel
      by_cases hcr : ctr < rlen
      · rw [rejLoop, if_pos ⟨hcr, by omega⟩]
        have r0 : rd buf pos = .ok b0 := by rw [hbuf, List.append_assoc]; exact Keccak.rd_at _ _ _ _ hpos
        have r1 : rd buf (pos + 1) = .ok b1 := by
          rw [hbuf, show a ++ b0 :: b1 :: b2 :: t ++ c = (a ++ [b0]) ++ b1 :: (b2 :: t ++ c) from by simp]; exact Keccak.rd_at _ _ _ _ (by simp [hpos])
        have r2 : rd buf (pos + 2) = .ok b2 := by
          rw [hbuf, show a ++ b0 :: b1 :: b2 :: t ++ c = (a ++ [b0, b1]) ++ b2 :: (t ++ c) from by simp]; exact Keccak.rd_at _ _ _ _ (by simp [hpos])
        rw [r0, ok_bind, r1, ok_bind, r2, ok_bind, accepted_cons _ _ _ _ ht3]
        have hb : buf = (a ++ [b0, b1, b2]) ++ t ++ c := by rw [hbuf]; simp
        have ih' := fun ctr' pre' junk' => ih t (a ++ [b0, b1, b2]) fuel ctr' (pos + 3) pre' junk' (by omega) ht3 hb (by simp [hpos]) (by rw [hlen]; simp; omega) (by omega)
        generalize (b0.toNat ||| (b1.toNat <<< 8)) % 4096 = v0
        generalize ((b1.toNat >>> 4) ||| (b2.toNat <<< 4)) % 4096 = v1
        obtain ⟨x, junk, rfl⟩ : ∃ x j, junk = x :: j := by
          match junk, hj with
          | [], hj => simp at hj; omega
          | x :: j, _ => exact ⟨x, j, rfl⟩
        simp only [List.length_cons] at hj
        by_cases h0 : v0 < 3329
        · have w0 : wr (pre ++ x :: junk ++ post) (off + ctr) (v0 : Int) = .ok (pre ++ [Int.ofNat v0] ++ junk ++ post) := by
            rw [List.append_assoc, List.cons_append, Keccak.wr_at _ _ _ _ _ hp.symm]; simp
          simp only [if_pos h0, w0, ok_bind, pure_eq_ok]
          by_cases h1 : ctr + 1 < rlen ∧ v1 < 3329
          · obtain ⟨y, junk, rfl⟩ : ∃ x j, junk = x :: j := by
              match junk, hj with
              | [], hj => simp at hj; omega
              | x :: j, _ => exact ⟨x, j, rfl⟩
            simp only [List.length_cons] at hj
            have w1 : wr (pre ++ [Int.ofNat v0] ++ y :: junk ++ post) (off + (ctr + 1)) (v1 : Int) = .ok (pre ++ [Int.ofNat v0, Int.ofNat v1] ++ junk ++ post) := by
              rw [List.append_assoc, List.cons_append, Keccak.wr_at _ _ _ _ _ (by simp [hp]; omega)]; simp
            simp only [if_pos h1, w1, ok_bind]
            rw [ih' (ctr + 1 + 1) (pre ++ [Int.ofNat v0, Int.ofNat v1]) junk (by omega) (by simp [hp]; omega) (by omega)]
            rw [List.filter_cons_of_pos (by simpa using h0), List.filter_cons_of_pos (by simpa using h1.2), List.filter_nil, List.cons_append, List.cons_append, List.nil_append,
              take_cons_succ _ _ _ (by omega), take_cons_succ _ _ _ (by omega), show rlen - ctr - 1 - 1 = rlen - (ctr + 1 + 1) from by omega]
            simp only [List.map_cons, List.length_cons, List.drop_succ_cons, List.append_assoc, List.cons_append, List.nil_append]
            congr 2
            omega
          · simp only [if_neg h1, ok_bind]
            rw [ih' (ctr + 1) (pre ++ [Int.ofNat v0]) junk (by omega) (by simp [hp]; omega) (by omega)]
            rw [List.filter_cons_of_pos (by simpa using h0), List.cons_append, take_cons_succ _ _ _ (by omega), show rlen - ctr - 1 = rlen - (ctr + 1) from by omega]
            have e : (List.filter (fun x => decide (x < 3329)) [v1] ++ accepted t).take (rlen - (ctr + 1)) = (accepted t).take (rlen - (ctr + 1)) := by
              by_cases hv : v1 < 3329
              · rw [show rlen - (ctr + 1) = 0 from by omega]; rfl
              · rw [List.filter_cons_of_neg (by simpa using hv)]; rfl
            rw [e]
            simp only [List.map_cons, List.length_cons, List.drop_succ_cons, List.append_assoc, List.cons_append, List.nil_append]
            congr 2
            omega
        · simp only [if_neg h0, ok_bind, pure_eq_ok]
          rw [List.filter_cons_of_neg (by simpa using h0)]
          by_cases h1 : ctr < rlen ∧ v1 < 3329
          · have w1 : wr (pre ++ x :: junk ++ post) (off + ctr) (v1 : Int) = .ok (pre ++ [Int.ofNat v1] ++ junk ++ post) := by
              rw [List.append_assoc, List.cons_append, Keccak.wr_at _ _ _ _ _ hp.symm]; simp
            simp only [if_pos h1, w1, ok_bind]
            rw [ih' (ctr + 1) (pre ++ [Int.ofNat v1]) junk (by omega) (by simp [hp]; omega) (by omega)]
            rw [List.filter_cons_of_pos (by simpa using h1.2), List.filter_nil, List.cons_append, List.nil_append, take_cons_succ _ _ _ (by omega), show rlen - ctr - 1 = rlen - (ctr + 1) from by omega]
            simp only [List.map_cons, List.length_cons, List.drop_succ_cons, List.append_assoc, List.cons_append, List.nil_append]
            congr 2
            omega
          · have hv : ¬ v1 < 3329 := fun h => h1 ⟨hcr, h⟩
            simp only [if_neg h1, ok_bind]
            rw [ih' ctr pre (x :: junk) (by omega) hp (by rw [List.length_cons]; omega), List.filter_cons_of_neg (by simpa using hv)]
            rfl
      · rw [rejLoop, if_neg (by omega), show rlen - ctr = 0 from by omega, List.take_zero]
        simp [pure_eq_ok]
    | [_], h3 => simp at h3
    | [_, _], h3 => simp at h3

/-- `RejUniform` on whole groups. -/
theorem rejUniform_spec {w c : List Byte} (h3 : w.length % 3 = 0) {off rlen len : Nat} (hlen : len = w.length) (pre junk post : List Int) (hp : pre.length = off) (hj : junk.length = rlen) :
    rejUniform (pre ++ junk ++ post) off rlen (w ++ c) len =
      .ok (pre ++ ((accepted w).take rlen).map Int.ofNat ++ junk.drop ((accepted w).take rlen).length ++ post, ((accepted w).take rlen).length) := by
  rw [rejUniform, rejLoop_spec off rlen (w ++ c) c len post w.length w [] (len + 1) 0 0 pre junk (Nat.le_refl _) h3 rfl rfl (by rw [hlen]; simp) (by omega) (by omega) (by omega) (by omega)]
  simp

theorem accepted_lt {w : List Byte} {c : Nat} (h : c ∈ accepted w) : c < 3329 := by
  rw [accepted, List.mem_filter] at h
  simpa using h.2

end Cex.Kyber
