import Verif.Ed25519.SigField

/-!
# The signed digits of a scalar
-/

namespace Cex.Ed25519

open Cex.Ec25519 Cex.IntTools Finset

/-- the digits from `k` on are the bits of `h` -/
def Bits (r : List Int) (k h : Nat) : Prop := ∀ j, j < 256 → k ≤ j → dg r j = ((h / 2 ^ (j - k) % 2 : Nat) : Int)

theorem Bits.head {r : List Int} {k h : Nat} (H : Bits r k h) (hk : k < 256) : dg r k = ((h % 2 : Nat) : Int) := by
  have := H k hk (Nat.le_refl _)
  rwa [Nat.sub_self, Nat.pow_zero, Nat.div_one] at this

theorem bit_shift {h k j : Nat} (hj : k + 1 ≤ j) : h / 2 ^ (j - k) = h / 2 / 2 ^ (j - (k + 1)) := by
  rw [Nat.div_div_eq_div_mul, show j - k = j - (k + 1) + 1 by omega, Nat.pow_succ, Nat.mul_comm]

theorem Bits.tail {r : List Int} {k h : Nat} (H : Bits r k h) : Bits r (k + 1) (h / 2) := fun j hj hk => by
  rw [H j hj (by omega), bit_shift hk]

theorem Bits.cons {r : List Int} {k h : Nat} (H : Bits r (k + 1) (h / 2)) (h0 : dg r k = ((h % 2 : Nat) : Int)) : Bits r k h := fun j hj hk => by
  rcases Nat.lt_or_ge k j with c | c
  · rw [H j hj c, bit_shift c]
  · have : j = k := by omega
    subst this
    rw [Nat.sub_self, Nat.pow_zero, Nat.div_one, h0]

theorem Bits.congr {r r' : List Int} {k h : Nat} (H : Bits r k h) (e : ∀ j, k ≤ j → dg r' j = dg r j) : Bits r' k h := fun j hj hk => by rw [e j hk, H j hj hk]

theorem slideCarry_ok : ∀ {n k h : Nat} {r : List Int}, r.length = 256 → n + k = 256 → Bits r k h →
    ∃ r', slideCarry n k r = .ok r' ∧ r'.length = 256 ∧ (∀ j < k, dg r' j = dg r j) ∧ Bits r' k (h + 1)
  | 0, k, h, r, hl, hn, H => ⟨r, rfl, hl, fun _ _ => rfl, fun j hj hk => by omega⟩
  | n + 1, k, h, r, hl, hn, H => by
    have hk : k < r.length := by omega
    have h0 := H.head (by omega)
    rw [slideCarry, dg_rd hk, ok_bind]
    have st : ∀ v : Int, Bits (r.set k v) (k + 1) (h / 2) := fun v => H.tail.congr (fun j hj => by rw [dg_set hk, if_neg (by omega)])
    by_cases c : dg r k = 0
    · rw [if_pos c, wr_ok _ hk]
      rw [h0] at c
      refine ⟨_, rfl, by rw [List.length_set, hl], fun j hj => by rw [dg_set hk, if_neg (by omega)], Bits.cons ?_ ?_⟩
      · rw [show (h + 1) / 2 = h / 2 by omega]; exact st 1
      · rw [dg_set hk, if_pos rfl, show (h + 1) % 2 = 1 by omega]; rfl
    · rw [if_neg c, wr_ok _ hk, ok_bind]
      rw [h0] at c
      obtain ⟨r', e, l', a, b⟩ := slideCarry_ok (n := n) (k := k + 1) (h := h / 2) (r := r.set k 0) (by rw [List.length_set, hl]) (by omega) (st 0)
      refine ⟨r', e, l', fun j hj => by rw [a j (by omega), dg_set hk, if_neg (by omega)], Bits.cons ?_ ?_⟩
      · rw [show (h + 1) / 2 = h / 2 + 1 by omega]; exact b
      · rw [a k (by omega), dg_set hk, if_pos rfl, show (h + 1) % 2 = 0 by omega]; rfl

/-- nothing happens in the turns 5 and 6 -/
theorem inner_high {i : Nat} {r : List Int} (hl : r.length = 256) (hd : -15 ≤ dg r i ∧ dg r i ≤ 15) (hi : i < 256) : ∀ {n b : Nat}, 5 ≤ b →
    (∀ j < 256, i < j → dg r j = 0 ∨ dg r j = 1) → slideInner i n b r = .ok r
  | 0, b, _, _ => rfl
  | n + 1, b, hb, H => by
    rw [slideInner]
    by_cases c : 256 ≤ i + b
    · rw [if_pos c]; rfl
    · have hk : i + b < r.length := by omega
      rw [if_neg c, dg_rd hk, ok_bind]
      by_cases c0 : dg r (i + b) = 0
      · rw [if_pos c0]
        exact inner_high hl hd hi (by omega) H
      · have h1 := (H (i + b) (by omega) (by omega)).resolve_left c0
        have p : (32 : Int) ≤ 2 ^ b := by
          have : (2 : Nat) ^ 5 ≤ 2 ^ b := Nat.pow_le_pow_right (by decide) hb
          exact_mod_cast this
        rw [if_neg c0, h1, ok_bind, dg_rd (by omega), ok_bind]
        dsimp only
        rw [if_neg (by omega), ok_bind, if_pos (by omega)]
        rfl

/-- what the inner loop leaves -/
def Done (i v : Nat) (r r' : List Int) : Prop :=
  r'.length = 256 ∧ (∀ j < i, dg r' j = dg r j) ∧ dg r' i % 2 = 1 ∧ -15 ≤ dg r' i ∧ dg r' i ≤ 15 ∧
    ∃ w : Nat, (v : Int) = dg r' i + 2 * w ∧ Bits r' (i + 1) w ∧ w * 2 ^ (i + 1) ≤ 2 ^ 253

/-- the window has `b` bits, `l` is their value, `h` the rest -/
structure Win (i b l h : Nat) (r : List Int) : Prop where
  len : r.length = 256
  cur : dg r i = (l : Int)
  mid : ∀ j, i < j → j < i + b → j < 256 → dg r j = 0
  rest : Bits r (i + b) h

theorem Win.bits {i b l h : Nat} {r : List Int} (H : Win i b l h r) (hb : 1 ≤ b) : Bits r (i + 1) (2 ^ (b - 1) * h) := fun j hj hk => by
  rcases Nat.lt_or_ge j (i + b) with c | c
  · rw [H.mid j (by omega) c hj]
    have e : 2 ^ (b - 1) * h / 2 ^ (j - (i + 1)) = 2 * (2 ^ (i + b - j - 1) * h) := by
      rw [show b - 1 = (j - (i + 1)) + (i + b - j) by omega, Nat.pow_add, Nat.mul_assoc, Nat.mul_div_cancel_left _ (Nat.two_pow_pos _)]
      conv_lhs => rw [show i + b - j = (i + b - j - 1) + 1 by omega, Nat.pow_succ]
      ring
    rw [e, Nat.mul_mod_right]; rfl
  · rw [H.rest j hj c, show j - (i + 1) = (b - 1) + (j - (i + b)) by omega, Nat.pow_add, Nat.mul_div_mul_left _ _ (Nat.two_pow_pos _)]

theorem bits01 {r : List Int} {k h : Nat} (H : Bits r k h) : ∀ j < 256, k ≤ j → dg r j = 0 ∨ dg r j = 1 := fun j hj hk => by
  rw [H j hj hk]; omega

theorem Win.stop {i b l h : Nat} {r : List Int} (H : Win i b l h r) (hi : i < 256) (hb : 1 ≤ b) (hl : l ≤ 15) (ho : l % 2 = 1) (hv : (l + 2 ^ b * h) * 2 ^ i ≤ 2 ^ 253) :
    Done i (l + 2 ^ b * h) r r := by
  refine ⟨H.len, fun _ _ => rfl, by rw [H.cur]; omega, by rw [H.cur]; omega, by rw [H.cur]; omega, 2 ^ (b - 1) * h, ?_, H.bits hb, ?_⟩
  · rw [H.cur]
    push_cast
    rw [← mul_assoc, ← pow_succ', show b - 1 + 1 = b by omega]
  · refine Nat.le_trans ?_ hv
    rw [Nat.pow_succ, show 2 ^ (b - 1) * h * (2 ^ i * 2) = 2 ^ (b - 1) * 2 * h * 2 ^ i by ring, ← Nat.pow_succ, show (b - 1).succ = b by omega]
    exact Nat.mul_le_mul_right _ (Nat.le_add_left _ _)

theorem high_ok {i b l h n : Nat} {r : List Int} (H : Win i b l h r) (hi : i < 256) (hb : 5 ≤ b) (hl : l ≤ 15) : slideInner i n b r = .ok r :=
  inner_high H.len (by rw [H.cur]; omega) hi hb (bits01 (H.bits (by omega)))

theorem Win.grow {i b l h : Nat} {r : List Int} (H : Win i b l h r) (hb : 1 ≤ b) (hk : i + b < 256) (h0 : h % 2 = 0) : Win i (b + 1) l (h / 2) r :=
  ⟨H.len, H.cur, fun j h1 h2 h3 => by
    rcases Nat.lt_or_ge j (i + b) with c | c
    · exact H.mid j h1 c h3
    · have : j = i + b := by omega
      subst this
      rw [H.rest.head hk, h0]; rfl, H.rest.tail⟩

theorem Win.take {i b l h : Nat} {r : List Int} (H : Win i b l h r) (hb : 1 ≤ b) (hk : i + b < 256) (v : Nat) :
    Win i (b + 1) v (h / 2) ((r.set i (v : Int)).set (i + b) 0) := by
  have hi : i < r.length := by rw [H.len]; omega
  have hs : i + b < (r.set i (v : Int)).length := by rw [List.length_set, H.len]; omega
  refine ⟨by rw [List.length_set, List.length_set, H.len], by rw [dg_set hs, if_neg (by omega), dg_set hi, if_pos rfl], fun j h1 h2 h3 => ?_, H.rest.tail.congr fun j hj => ?_⟩
  · rw [dg_set hs]
    rcases Nat.lt_or_ge j (i + b) with c | c
    · rw [if_neg (by omega), dg_set hi, if_neg (by omega), H.mid j h1 c h3]
    · rw [if_pos (by omega)]
  · rw [dg_set hs, if_neg (by omega), dg_set hi, if_neg (by omega)]

theorem Done.trans {i v : Nat} {r r' r'' : List Int} (h : Done i v r' r'') (e : ∀ j < i, dg r' j = dg r j) : Done i v r r'' := by
  obtain ⟨a, b, c⟩ := h
  exact ⟨a, fun j hj => by rw [b j hj, e j hj], c⟩

theorem inner4 {i l h n : Nat} {r : List Int} (H : Win i 4 l h r) (hi : i < 256) (hl : l < 16) (ho : l % 2 = 1) (hv : (l + 2 ^ 4 * h) * 2 ^ i ≤ 2 ^ 253) :
    ∃ r', slideInner i (n + 1) 4 r = .ok r' ∧ Done i (l + 2 ^ 4 * h) r r' := by
  rw [slideInner]
  by_cases c : 256 ≤ i + 4
  · rw [if_pos c]
    exact ⟨r, rfl, H.stop hi (by decide) (by omega) ho hv⟩
  · have hk : i + 4 < r.length := by rw [H.len]; omega
    have hi' : i < r.length := by rw [H.len]; exact hi
    rw [if_neg c, dg_rd hk, ok_bind, H.rest.head (by omega)]
    by_cases c0 : h % 2 = 0
    · rw [c0, if_pos (by rfl), high_ok (H.grow (by decide) (by omega) c0) hi (by decide) (by omega)]
      exact ⟨r, rfl, H.stop hi (by decide) (by omega) ho hv⟩
    · have c1 : h % 2 = 1 := by omega
      rw [c1, if_neg (by decide), ok_bind, dg_rd hi', ok_bind, H.cur]
      dsimp only
      rw [if_neg (by push_cast; omega), ok_bind, if_neg (by push_cast; omega), wr_ok _ hi', ok_bind, i8_id (by push_cast; omega)]
      have hb : Bits (r.set i ((l : Int) - ((1 : Nat) : Int) * 2 ^ 4)) (i + 4) h := H.rest.congr fun j hj => by rw [dg_set hi', if_neg (by omega)]
      obtain ⟨r', e, l', a, b⟩ := slideCarry_ok (n := 256 - (i + 4)) (by rw [List.length_set, H.len]) (by omega) hb
      have d0 : dg r' i = (l : Int) - 16 := by rw [a i (by omega), dg_set hi', if_pos rfl]; norm_num
      have hm : ∀ j, i < j → j < i + 4 → j < 256 → dg r' j = 0 := fun j h1 h2 h3 => by
        rw [a j (by omega), dg_set hi', if_neg (by omega), H.mid j h1 h2 h3]
      have hB : Bits r' (i + 1) (8 * (h + 1)) := by
        have W : Win i 4 l (h + 1) (r'.set i (l : Int)) := by
          have hi'' : i < r'.length := by omega
          exact ⟨by rw [List.length_set, l'], by rw [dg_set hi'', if_pos rfl], fun j h1 h2 h3 => by rw [dg_set hi'', if_neg (by omega), hm j h1 h2 h3],
            b.congr fun j hj => by rw [dg_set hi'', if_neg (by omega)]⟩
        exact (W.bits (by decide)).congr fun j hj => by rw [dg_set (by omega), if_neg (by omega)]
      rw [e, ok_bind, inner_high l' (by rw [d0]; omega) hi (by decide) (bits01 hB)]
      refine ⟨r', rfl, l', fun j hj => by rw [a j (by omega), dg_set hi', if_neg (by omega)], by rw [d0]; omega, by rw [d0]; omega, by rw [d0]; omega, 8 * (h + 1), ?_, hB, ?_⟩
      · rw [d0]; push_cast; ring
      · have hi253 : i ≤ 253 := by
          by_contra hc
          have : 2 ^ 253 < 2 ^ i := Nat.pow_lt_pow_right (by decide) (by omega)
          have : 1 * 2 ^ i ≤ (l + 2 ^ 4 * h) * 2 ^ i := Nat.mul_le_mul_right _ (by omega)
          omega
        obtain ⟨m, hm⟩ : ∃ m, m + i = 253 := ⟨253 - i, by omega⟩
        rw [← hm, Nat.pow_add] at hv
        rw [← hm, Nat.pow_add 2 m i]
        have hv := Nat.le_of_mul_le_mul_right hv (Nat.two_pow_pos i)
        rw [show 8 * (h + 1) * 2 ^ (i + 1) = (16 * (h + 1)) * 2 ^ i by rw [Nat.pow_succ]; ring]
        refine Nat.mul_le_mul_right _ ?_
        have h5 : 5 ≤ m := by
          by_contra hc
          have : 2 ^ m ≤ 2 ^ 4 := Nat.pow_le_pow_right (by decide) (by omega)
          omega
        obtain ⟨q, hq⟩ : ∃ q, 2 ^ m = 32 * q := ⟨2 ^ (m - 5), by rw [show (32 : Nat) = 2 ^ 5 from rfl, ← Nat.pow_add]; congr 1; omega⟩
        rw [hq] at hv ⊢
        omega

theorem innerLow {i b l h n : Nat} {r : List Int} (H : Win i b l h r) (hi : i < 256) (hb : 1 ≤ b ∧ b ≤ 3) (hl : l < 2 ^ b) (ho : l % 2 = 1)
    (hv : (l + 2 ^ b * h) * 2 ^ i ≤ 2 ^ 253) :
    (slideInner i (n + 1) b r = .ok r ∧ Done i (l + 2 ^ b * h) r r) ∨
    ∃ l' r', slideInner i (n + 1) b r = slideInner i n (b + 1) r' ∧ Win i (b + 1) l' (h / 2) r' ∧ l' < 2 ^ (b + 1) ∧ l' % 2 = 1 ∧ l + 2 ^ b * h = l' + 2 ^ (b + 1) * (h / 2) ∧
      ∀ j < i, dg r' j = dg r j := by
  rw [slideInner]
  have p : 2 ^ b ≤ 8 ∧ 2 ^ b % 2 = 0 := by rcases (by omega : b = 1 ∨ b = 2 ∨ b = 3) with rfl | rfl | rfl <;> decide
  have p2 : 2 ^ (b + 1) = 2 * 2 ^ b := by rw [Nat.pow_succ, Nat.mul_comm]
  by_cases c : 256 ≤ i + b
  · rw [if_pos c]
    exact .inl ⟨rfl, H.stop hi hb.1 (by omega) ho hv⟩
  · right
    have hk : i + b < r.length := by rw [H.len]; omega
    have hi' : i < r.length := by rw [H.len]; exact hi
    rw [if_neg c, dg_rd hk, ok_bind, H.rest.head (by omega)]
    have hd := Nat.div_add_mod h 2
    by_cases c0 : h % 2 = 0
    · rw [c0, if_pos (by rfl)]
      refine ⟨l, r, rfl, H.grow hb.1 (by omega) c0, by omega, ho, ?_, fun _ _ => rfl⟩
      rw [c0] at hd
      rw [p2]
      conv_lhs => rw [← hd]
      ring
    · have c1 : h % 2 = 1 := by omega
      rw [c1, if_neg (by decide), ok_bind, dg_rd hi', ok_bind, H.cur]
      dsimp only
      have e : (l : Int) + ((1 : Nat) : Int) * 2 ^ b = ((l + 2 ^ b : Nat) : Int) := by push_cast; ring
      rw [e, if_pos (by omega), i8_id (by omega), wr_ok _ hi', ok_bind, wr_ok _ (by rw [List.length_set]; exact hk), ok_bind]
      refine ⟨l + 2 ^ b, _, rfl, H.take hb.1 (by omega) _, by omega, by omega, ?_, fun j hj => ?_⟩
      · rw [c1] at hd
        rw [p2]
        conv_lhs => rw [← hd]
        ring
      · rw [dg_set (by rw [List.length_set]; exact hk), if_neg (by omega), dg_set hi', if_neg (by omega)]

theorem innerLow_ok {i b l h n : Nat} {r : List Int} (H : Win i b l h r) (hi : i < 256) (hb : 1 ≤ b ∧ b ≤ 3) (hl : l < 2 ^ b) (ho : l % 2 = 1)
    (hv : (l + 2 ^ b * h) * 2 ^ i ≤ 2 ^ 253)
    (next : ∀ {l' r'}, Win i (b + 1) l' (h / 2) r' → l' < 2 ^ (b + 1) → l' % 2 = 1 → (l' + 2 ^ (b + 1) * (h / 2)) * 2 ^ i ≤ 2 ^ 253 →
      ∃ r'', slideInner i n (b + 1) r' = .ok r'' ∧ Done i (l' + 2 ^ (b + 1) * (h / 2)) r' r'') :
    ∃ r', slideInner i (n + 1) b r = .ok r' ∧ Done i (l + 2 ^ b * h) r r' := by
  rcases innerLow (n := n) H hi hb hl ho hv with ⟨a, b⟩ | ⟨l', r', e, W, h1, h2, h3, h4⟩
  · exact ⟨r, a, b⟩
  · obtain ⟨r'', e', d⟩ := next W h1 h2 (by rw [← h3]; exact hv)
    exact ⟨r'', by rw [e, e'], by rw [h3]; exact d.trans h4⟩

theorem inner_ok {i v : Nat} {r : List Int} (hl : r.length = 256) (hi : i < 256) (H : Bits r i v) (ho : v % 2 = 1) (hv : v * 2 ^ i ≤ 2 ^ 253) :
    ∃ r', slideInner i 6 1 r = .ok r' ∧ Done i v r r' := by
  have W : Win i 1 1 (v / 2) r := ⟨hl, by rw [H.head hi, ho], fun j h1 h2 => by omega, H.tail⟩
  have e : v = 1 + 2 ^ 1 * (v / 2) := by omega
  rw [e] at hv
  obtain ⟨r', a, b⟩ := innerLow_ok W hi (by decide) (by decide) rfl hv fun W1 a1 b1 c1 =>
    innerLow_ok W1 hi (by decide) a1 b1 c1 fun W2 a2 b2 c2 =>
      innerLow_ok W2 hi (by decide) a2 b2 c2 fun W3 a3 b3 c3 => inner4 W3 hi a3 b3 c3
  exact ⟨r', a, by rw [e]; exact b⟩

theorem bit_byte : ∀ b : Byte, ∀ k < 8, ((b >>> k) &&& 1).toNat = b.toNat / 2 ^ k % 2 := by decide +kernel

/-- the signed digits -/
theorem slide_ok {a : List Byte} {off : Nat} (h : off + 32 ≤ a.length) (hN : leVal ((a.drop off).take 32) ≤ 2 ^ 253) :
    ∃ r, slide a off = .ok r ∧ r.length = 256 ∧ (∀ j < 256, dg r j = 0 ∨ (dg r j % 2 = 1 ∧ -15 ≤ dg r j ∧ dg r j ≤ 15)) ∧
      ∑ j ∈ range 256, dg r j * 2 ^ j = (leVal ((a.drop off).take 32) : Int) := by
  obtain ⟨t, ht⟩ : ∃ t, t = (a.drop off).take 32 := ⟨_, rfl⟩
  rw [← ht] at hN ⊢
  have tl : t.length = 32 := by rw [ht, List.length_take, List.length_drop]; omega
  have tr : ∀ i < 32, rd a (off + i) = rd t i := fun i hi => by
    rw [rd, rd, ht, List.getElem?_take_of_lt hi, List.getElem?_drop]
  obtain ⟨r0, e0, l0, d0⟩ := loopN_inv (f := fun i r => do wr r i ((((← rd a (off + i / 8)) >>> (i % 8)) &&& 1).toNat : Int))
    (fun i (r : List Int) => r.length = 256 ∧ ∀ j < i, dg r j = ((leVal t / 2 ^ j % 2 : Nat) : Int)) 256 0 (List.replicate 256 0)
    (fun i r _ hi hr => by
      have h1 : i / 8 < t.length := by omega
      have hir : i < r.length := by omega
      rw [tr _ (by omega), rd_ok h1, ok_bind, wr_ok _ hir, bit_byte _ _ (by omega)]
      refine ⟨_, rfl, by rw [List.length_set, hr.1], fun j hj => ?_⟩
      rw [dg_set hir]
      by_cases c : j = i
      · subst c
        rw [if_pos rfl, ← byteAt_eq h1, byteAt_val h1]
        congr 1
        rw [show (256 : Nat) ^ (j / 8) = 2 ^ (8 * (j / 8)) by rw [Nat.pow_mul]]
        conv_rhs => rw [show j = 8 * (j / 8) + j % 8 by omega, Nat.pow_add, ← Nat.div_div_eq_div_mul]
        generalize leVal t / 2 ^ (8 * (j / 8)) = w
        have := Nat.mod_lt j (show 8 > 0 by decide)
        generalize j % 8 = k at *
        rcases (by omega : k = 0 ∨ k = 1 ∨ k = 2 ∨ k = 3 ∨ k = 4 ∨ k = 5 ∨ k = 6 ∨ k = 7) with rfl | rfl | rfl | rfl | rfl | rfl | rfl | rfl <;> omega
      · rw [if_neg c, hr.2 j (by omega)])
    ⟨List.length_replicate, fun j hj => by omega⟩
  obtain ⟨r, e, hl, hd, v, hs, -, hv⟩ := loopN_inv (f := slideTurn)
    (fun i (r : List Int) => r.length = 256 ∧ (∀ j < i, dg r j = 0 ∨ (dg r j % 2 = 1 ∧ -15 ≤ dg r j ∧ dg r j ≤ 15)) ∧
      ∃ v : Nat, (leVal t : Int) = ∑ j ∈ range i, dg r j * 2 ^ j + v * 2 ^ i ∧ Bits r i v ∧ v * 2 ^ i ≤ 2 ^ 253) 256 0 r0
    (fun i r _ hi hr => by
      obtain ⟨hl, hd, v, hs, hB, hv⟩ := hr
      rw [slideTurn, dg_rd (by omega), ok_bind, hB.head (by omega)]
      by_cases c : v % 2 = 0
      · rw [c, if_pos (by rfl)]
        have d0 : dg r i = 0 := by rw [hB.head (by omega), c]; rfl
        refine ⟨r, rfl, hl, fun j hj => ?_, v / 2, ?_, hB.tail, ?_⟩
        · rcases Nat.lt_succ_iff_lt_or_eq.mp hj with h | rfl
          · exact hd j h
          · exact .inl d0
        · rw [hs, sum_range_succ, d0, pow_succ]
          obtain ⟨w, rfl⟩ : ∃ w, v = 2 * w := ⟨v / 2, by omega⟩
          rw [Nat.mul_div_cancel_left _ (by decide)]
          push_cast; ring
        · refine Nat.le_trans ?_ hv
          rw [Nat.pow_succ, show v / 2 * (2 ^ i * 2) = v / 2 * 2 * 2 ^ i by ring]
          exact Nat.mul_le_mul_right _ (by omega)
      · rw [if_neg (by omega)]
        obtain ⟨r', e, l', a, b1, b2, b3, w, hw, hB', hv'⟩ := inner_ok hl (by omega) hB (by omega) hv
        refine ⟨r', e, l', fun j hj => ?_, w, ?_, hB', hv'⟩
        · rcases Nat.lt_succ_iff_lt_or_eq.mp hj with h | rfl
          · rw [a j h]; exact hd j h
          · exact .inr ⟨b1, b2, b3⟩
        · rw [hs, sum_range_succ, sum_congr rfl (fun j hj => by rw [← a j (mem_range.mp hj)] : ∀ j ∈ range i, dg r j * 2 ^ j = dg r' j * 2 ^ j), hw, pow_succ]
          ring)
    ⟨l0, fun j hj => by omega, leVal t, by simp, fun j hj _ => by rw [d0 j (by omega), Nat.sub_zero], by simpa using hN⟩
  refine ⟨r, by rw [slide, e0, ok_bind, e], hl, hd, ?_⟩
  have : v = 0 := by
    by_contra c
    have : 1 * 2 ^ (0 + 256) ≤ v * 2 ^ (0 + 256) := Nat.mul_le_mul_right _ (by omega)
    have : (2 : Nat) ^ 253 < 1 * 2 ^ (0 + 256) := by decide
    omega
  rw [this] at hs
  simpa using hs.symm

end Cex.Ed25519
