import Verif.Dilithium.EtaLemmas

/-!
# The challenge and the matrix
-/

namespace Cex.Dilithium
open Cex Cex.IntTools Cex.Lattice Cex.Spec.Lattice Cex.Spec.Dilithium Cex.Keccak

variable {P : List Byte → M (List Byte)} {f : List Byte → List Byte}

theorem xofByte_eq (p : Perm P f) {r : Nat} (h0 : 0 < r) (hr : r ≤ 200) (x : List Byte) {k n : Nat} (h : k < n) : (Fips202.shake f r x n)[k]? = some (xofByte f r x k) := by
  have e := shake_take p h0 hr x (show k + 1 ≤ n by omega)
  have hl := shake_len p (n := k + 1) h0 hr x
  have h1 : (Fips202.shake f r x (k + 1))[k]? = some ((Fips202.shake f r x (k + 1))[k]'(by omega)) := List.getElem?_eq_getElem (by omega)
  rw [xofByte, h1]
  dsimp only
  rw [← h1, ← e, List.getElem?_take_of_lt (by omega)]

/-- The buffer of `PolyChallenge` is block `m`, read up to `pos`. -/
structure Sync (f : List Byte → List Byte) (x : List Byte) (m pos : Nat) (st buf : List Byte) : Prop where
  st : st = after f 136 x (m + 1)
  buf : buf = (after f 136 x (m + 1)).take 136
  pos : pos ≤ 136

theorem Sync.rd (p : Perm P f) {x : List Byte} {m pos : Nat} {st buf : List Byte} (h : Sync f x m pos st buf) (hp : pos < 136) : rd buf pos = .ok (xofByte f 136 x (136 * m + pos)) := by
  have hs := after_length p (show 0 < 136 by decide) (by decide) x (m + 1)
  have hl : pos < buf.length := by rw [h.buf, List.length_take]; omega
  have e := xofByte_eq p (r := 136) (by decide) (by decide) x (show 136 * m + pos < 136 * (m + 1) by omega)
  rw [shake_step p (by decide) (by decide), List.getElem?_append_right (by rw [shake_len p (by decide) (by decide)]; omega), shake_len p (by decide) (by decide), Nat.add_sub_cancel_left, ← h.buf,
    List.getElem?_eq_getElem hl] at e
  rw [rd_ok hl, Option.some.inj e]

theorem nextByte_spec (p : Perm P f) (x : List Byte) (i : Nat) : ∀ (fuel m pos : Nat) (st buf : List Byte), Sync f x m pos st buf →
    (∃ k, k < fuel ∧ (∀ j, j < k → i < (xofByte f 136 x (136 * m + pos + j)).toNat) ∧ (xofByte f 136 x (136 * m + pos + k)).toNat ≤ i ∧
      ∃ m' pos' st' buf', nextByte P i fuel st buf pos = .ok (xofByte f 136 x (136 * m + pos + k), st', buf', pos') ∧ Sync f x m' pos' st' buf' ∧ 136 * m' + pos' = 136 * m + pos + k + 1) ∨
    ((∀ k, k < fuel → i < (xofByte f 136 x (136 * m + pos + k)).toNat) ∧ nextByte P i fuel st buf pos = .error .diverges)
  | 0, m, pos, st, buf, h => .inr ⟨fun k hk => by omega, rfl⟩
  | n + 1, m, pos, st, buf, h => by
    -- the position, after more bytes were drawn if needed
    obtain ⟨m1, pos1, st1, buf1, e1, s1, hlt, hp⟩ : ∃ m1 pos1 st1 buf1, (if pos ≥ 136 then do
        let (st, buf) ← Keccak.squeeze P 136 1 st buf 0
        pure (st, buf, 0)
      else pure (st, buf, pos) : M (List Byte × List Byte × Nat)) = .ok (st1, buf1, pos1) ∧ Sync f x m1 pos1 st1 buf1 ∧ pos1 < 136 ∧ 136 * m1 + pos1 = 136 * m + pos := by
      by_cases hp : pos ≥ 136
      · have hs := after_length p (show 0 < 136 by decide) (by decide) x (m + 1)
        have hq := h.pos
        have hl : buf.length = 136 := by rw [h.buf, List.length_take]; omega
        have hsq := squeeze_one p (r := 136) (by decide) hs [] buf [] (off := 0) rfl hl
        rw [List.nil_append, List.append_nil, List.nil_append, List.append_nil] at hsq
        refine ⟨m + 1, 0, after f 136 x (m + 2), (after f 136 x (m + 2)).take 136, ?_, ⟨rfl, rfl, by decide⟩, by decide, by omega⟩
        rw [if_pos hp, h.st, hsq, ok_bind]
        rfl
      · exact ⟨m, pos, st, buf, by rw [if_neg hp]; rfl, h, by omega, rfl⟩
    rw [nextByte, e1, ok_bind]
    dsimp only
    rw [s1.rd p hlt, ok_bind, hp]
    by_cases hb : (xofByte f 136 x (136 * m + pos)).toNat > i
    · rw [if_pos hb]
      rcases nextByte_spec p x i n m1 (pos1 + 1) st1 buf1 ⟨s1.st, s1.buf, hlt⟩ with ⟨k, hk, h1, h2, m', pos', st', buf', h3, h4, h5⟩ | ⟨h1, h2⟩
      · have e : ∀ j, 136 * m1 + (pos1 + 1) + j = 136 * m + pos + (j + 1) := fun j => by omega
        rw [e] at h2 h3
        refine .inl ⟨k + 1, by omega, fun j hj => ?_, h2, m', pos', st', buf', h3, h4, by omega⟩
        cases j with
        | zero => exact hb
        | succ j =>
          rw [← e]
          exact h1 j (by omega)
      · refine .inr ⟨fun k hk => ?_, h2⟩
        cases k with
        | zero => exact hb
        | succ k =>
          rw [show 136 * m + pos + (k + 1) = 136 * m1 + (pos1 + 1) + k from by omega]
          exact h1 k (by omega)
    · rw [if_neg hb]
      exact .inl ⟨0, by omega, fun j hj => by omega, Nat.not_lt.mp hb, m1, pos1 + 1, st1, buf1, rfl, ⟨s1.st, s1.buf, hlt⟩, by omega⟩

theorem wr_tab {x : Nat → Int} {i : Nat} (hi : i < 256) (v : Int) : wr (tab x) i v = .ok (tab fun k => if k = i then v else x k) := by
  rw [wr_ok _ (by rw [tab_length]; exact hi)]
  congr 1
  refine eq_tab (by rw [List.length_set, tab_length]) fun j w hj => ?_
  by_cases e : j = i
  · subst e
    rw [List.getElem?_set_self (by rw [tab_length]; exact hi)] at hj
    rw [if_pos rfl]
    exact (Option.some.inj hj).symm
  · rw [List.getElem?_set_ne (Ne.symm e)] at hj
    have hl := (List.getElem?_eq_some_iff.mp hj).1
    rw [tab_length] at hl
    rw [tab_get hl] at hj
    rw [if_neg e]
    exact (Option.some.inj hj).symm

theorem sign_eq (s : Nat) : asI32 (1 + 18446744073709551616 - 2 * (s &&& 1)) = if s % 2 = 1 then -1 else 1 := by
  rw [Nat.and_one_is_mod]
  rcases Nat.mod_two_eq_zero_or_one s with h | h <;> rw [h] <;> decide

theorem ballLoop_spec (p : Perm P f) (x : List Byte) (fuel : Nat) : ∀ (n i s : Nat) (c : Nat → Int) (m pos : Nat) (st buf : List Byte), i + n = 256 → Sync f x m pos st buf →
    (∃ c', ballLoop P fuel n i s (tab c) st buf pos = .ok (tab c') ∧ Ball (xofByte f 136 x) n i s (136 * m + pos) c c') ∨ ballLoop P fuel n i s (tab c) st buf pos = .error .diverges
  | 0, i, s, c, m, pos, st, buf, hi, h => .inl ⟨c, rfl, .done⟩
  | n + 1, i, s, c, m, pos, st, buf, hi, h => by
    rw [ballLoop]
    rcases nextByte_spec p x i fuel m pos st buf h with ⟨k, hk, h1, h2, m', pos', st', buf', h3, h4, h5⟩ | ⟨h1, h2⟩
    · rw [h3, ok_bind]
      dsimp only
      rw [rd_tab (by omega), ok_bind, wr_tab (by omega), ok_bind, wr_tab (by omega), ok_bind, sign_eq, Nat.shiftRight_one]
      rcases ballLoop_spec p x fuel n (i + 1) (s / 2) (place c i (xofByte f 136 x (136 * m + pos + k)).toNat s) m' pos' st' buf' (by omega) h4 with ⟨c', h6, h7⟩ | h6
      · rw [h5] at h7
        exact .inl ⟨c', h6, .step k h1 h2 h7⟩
      · exact .inr h6
    · rw [h2]
      exact .inr rfl

/-- With enough fuel the challenge is found. -/
theorem ballLoop_enough (p : Perm P f) (x : List Byte) {n i s a : Nat} {c c' : Nat → Int} (hB : Ball (xofByte f 136 x) n i s a c c') : i + n = 256 →
    ∃ F, ∀ fuel, F ≤ fuel → ∀ (m pos : Nat) (st buf : List Byte), Sync f x m pos st buf → 136 * m + pos = a → ballLoop P fuel n i s (tab c) st buf pos = .ok (tab c') := by
  induction hB with
  | done => exact fun _ => ⟨0, fun fuel _ m pos st buf _ _ => rfl⟩
  | @step n i s a c c' k skip hit rest ih =>
    intro hi
    obtain ⟨F, hF⟩ := ih (by omega)
    refine ⟨max F (k + 1), fun fuel hf m pos st buf h ha => ?_⟩
    subst ha
    rw [ballLoop]
    rcases nextByte_spec p x i fuel m pos st buf h with ⟨k', hk, h1, h2, m', pos', st', buf', h3, h4, h5⟩ | ⟨h1, h2⟩
    · obtain rfl : k' = k := by
        rcases Nat.lt_trichotomy k' k with hlt | rfl | hlt
        · have := skip k' hlt; omega
        · rfl
        · have := h1 k hlt; omega
      rw [h3, ok_bind]
      dsimp only
      rw [rd_tab (by omega), ok_bind, wr_tab (by omega), ok_bind, wr_tab (by omega), ok_bind, sign_eq, Nat.shiftRight_one]
      exact hF fuel (by omega) m' pos' st' buf' h4 h5
    · have := h1 k (by omega)
      omega

theorem ball_unique {g : Nat → Byte} {n i s a : Nat} {c c1 c2 : Nat → Int} (h1 : Ball g n i s a c c1) : Ball g n i s a c c2 → c1 = c2 := by
  induction h1 with
  | done => intro h2; cases h2; rfl
  | step k skip hit rest ih =>
    intro h2
    cases h2 with
    | step k' skip' hit' rest' =>
      obtain rfl : k' = k := by
        rcases Nat.lt_trichotomy k' k with hlt | rfl | hlt
        · have := skip k' hlt; omega
        · rfl
        · have := skip' k hlt; omega
      exact ih rest'

/-- Coefficients are `-1`, `0` or `1`. -/
theorem ball_range {g : Nat → Byte} {n i s a : Nat} {c c' : Nat → Int} (h : Ball g n i s a c c') : (∀ k, -1 ≤ c k ∧ c k ≤ 1) → ∀ k, -1 ≤ c' k ∧ c' k ≤ 1 := by
  induction h with
  | done => exact fun h => h
  | step k skip hit rest ih =>
    intro h
    refine ih fun j => ?_
    rw [place]
    split
    · split <;> decide
    · split
      · exact h _
      · exact h _

/-- The number of coefficients below `n` that are not zero. -/
def count (c : Nat → Int) : Nat → Nat
  | 0 => 0
  | n + 1 => count c n + if c n = 0 then 0 else 1

theorem count_congr {c d : Nat → Int} {n : Nat} (h : ∀ k, k < n → c k = d k) : count c n = count d n := by
  induction n with
  | zero => rfl
  | succ n ih => rw [count, count, ih fun k hk => h k (by omega), h n (by omega)]

/-- Setting a coefficient below `n`. -/
theorem count_set (c : Nat → Int) {j n : Nat} (hj : j < n) {v : Int} (hv : v ≠ 0) : count (fun k => if k = j then v else c k) n + (if c j = 0 then 0 else 1) = count c n + 1 := by
  induction n with
  | zero => omega
  | succ n ih =>
    rw [count, count]
    by_cases e : j = n
    · subst e
      rw [count_congr (d := c) fun k hk => if_neg (by omega), if_pos rfl, if_neg hv]
      omega
    · have := ih (by omega)
      rw [if_neg (Ne.symm e)]
      omega

theorem count_place (c : Nat → Int) {i j s : Nat} (hj : j ≤ i) : count (place c i j s) (i + 1) = count c i + 1 := by
  have hv : (if s % 2 = 1 then -1 else 1 : Int) ≠ 0 := by split <;> decide
  rw [count]
  by_cases e : j = i
  · subst e
    rw [count_congr (d := c) fun k hk => by rw [place, if_neg (by omega), if_neg (by omega)], place, if_pos rfl, if_neg hv]
  · have h := count_set c (n := i) (by omega : j < i) hv
    rw [count_congr (c := place c i j s) (d := fun k => if k = j then (if s % 2 = 1 then -1 else 1) else c k) fun k hk => by
        rw [place]; split
        · rfl
        · rw [if_neg (by omega)], place, if_neg (Ne.symm e), if_pos rfl]
    exact h

/-- Every step adds one coefficient that is not zero. -/
theorem ball_count {g : Nat → Byte} {n i s a : Nat} {c c' : Nat → Int} (h : Ball g n i s a c c') : count c' (i + n) = count c i + n := by
  induction h with
  | done => rfl
  | @step n i s a c c' k skip hit rest ih =>
    rw [show i + (n + 1) = i + 1 + n from by omega, ih, count_place c hit]
    omega

theorem signs_spec {w c : List Byte} : ∀ (n : Nat), n ≤ w.length → loopN n 0 (fun i s => do return s ||| ((← rd (w ++ c) i).toNat <<< (8 * i))) 0 = .ok (leVal (w.take n)) := by
  intro n hn
  obtain ⟨s, h1, h2⟩ := loopN_inv (f := fun i s => do return s ||| ((← rd (w ++ c) i).toNat <<< (8 * i))) (fun i s => s = leVal (w.take i)) n 0 0
    (by
      rintro i s _ hi rfl
      have hw : i < w.length := by omega
      have hl : (w.take i).length = i := by rw [List.length_take]; omega
      have hb := leVal_lt (w.take i)
      rw [hl, show 256 = 2 ^ 8 from rfl, ← Nat.pow_mul] at hb
      have hr : rd (w ++ c) i = .ok w[i] := by rw [rd_ok (by rw [List.length_append]; omega), List.getElem_append_left hw]
      have e : w.take (i + 1) = w.take i ++ [w[i]] := by rw [List.take_append_getElem]
      refine ⟨leVal (w.take (i + 1)), ?_, rfl⟩
      rw [hr, ok_bind, or_shl hb, e, leVal_append, hl, show (256 : Nat) = 2 ^ 8 from rfl, ← Nat.pow_mul, leVal, leVal, Nat.mul_zero, Nat.add_zero]
      rfl)
    rfl
  rw [h1, h2, Nat.zero_add]

/-- `PolyChallenge`: the start of the loop. -/
theorem polyChallenge_start (p : Perm P f) (fuel : Nat) {c : List Int} (hc : c.length = 256) {seed x : List Byte} (hx : Holds seed 0 x) (hl : x.length = 32) (tau : Nat) :
    ∃ st buf, Sync f x 0 8 st buf ∧ polyChallenge P fuel c seed tau = ballLoop P fuel tau (256 - tau) (leVal (Fips202.shake f 136 x 8)) (tab fun _ => 0) st buf 8 := by
  obtain ⟨pos', h1⟩ := incremental_final p (r := 136) (by decide) (by decide) (by decide) (inc_start (f := f) 136 (by decide)) hx (.inl rfl)
  rw [hl, List.nil_append] at h1
  have h2 := squeezePartial_after p (r := 136) (by decide) (by decide) x (len := 136) (off := 0) (le_refl _) [] (List.replicate 136 0) [] rfl List.length_replicate
  rw [List.nil_append, List.append_nil, List.nil_append, List.append_nil] at h2
  have hs : Fips202.shake f 136 x 136 = (after f 136 x 1).take 136 := by
    have := shake_step p (r := 136) (by decide) (by decide) x 0
    have h0 : Fips202.shake f 136 x (136 * 0) = [] := List.eq_nil_of_length_eq_zero (shake_len p (by decide) (by decide) x)
    rw [h0, List.nil_append] at this
    exact this
  have hk := shake_len p (r := 136) (n := 136) (by decide) (by decide) x
  have hsg := signs_spec (w := Fips202.shake f 136 x 136) (c := []) 8 (by rw [hk]; decide)
  rw [List.append_nil, shake_take p (by decide) (by decide) x (by decide)] at hsg
  have hz : loopN 256 0 (fun i c => wr c i (0 : Int)) c = .ok (tab fun _ => 0) := by
    obtain ⟨s, h3, h4, h5⟩ := loopN_inv (f := fun i c => wr c i (0 : Int)) (fun i s => s.length = 256 ∧ ∀ k v, k < i → s[k]? = some v → v = 0) 256 0 c
      (by
        rintro i s _ hi ⟨h6, h7⟩
        refine ⟨s.set i 0, wr_ok _ (by omega), by rw [List.length_set, h6], fun k v hk hv => ?_⟩
        by_cases e : k = i
        · subst e
          rw [List.getElem?_set_self (by omega)] at hv
          exact (Option.some.inj hv).symm
        · rw [List.getElem?_set_ne (Ne.symm e)] at hv
          exact h7 k v (by omega) hv)
      ⟨hc, fun k v hk => by omega⟩
    rw [h3, eq_tab (x := fun _ => 0) h4 fun k v hv => h5 k v (by have := (List.getElem?_eq_some_iff.mp hv).1; omega) hv]
  refine ⟨after f 136 x 1, Fips202.shake f 136 x 136, ⟨rfl, hs, by decide⟩, ?_⟩
  rw [polyChallenge, h1, ok_bind]
  dsimp only
  rw [h2, ok_bind]
  dsimp only
  rw [hsg, ok_bind, hz, ok_bind]

/-- `PolyChallenge`. -/
theorem polyChallenge_spec (p : Perm P f) (fuel : Nat) {c : List Int} (hc : c.length = 256) {seed x : List Byte} (hx : Holds seed 0 x) (hl : x.length = 32) {tau : Nat} (ht : tau ≤ 256) :
    (∃ c', polyChallenge P fuel c seed tau = .ok (tab c') ∧ IsChallenge f tau x c') ∨ polyChallenge P fuel c seed tau = .error .diverges := by
  obtain ⟨st, buf, h1, h2⟩ := polyChallenge_start p fuel hc hx hl tau
  rw [h2]
  exact ballLoop_spec p x fuel tau (256 - tau) _ _ 0 8 st buf (by omega) h1

theorem polyChallenge_enough (p : Perm P f) {x : List Byte} (hl : x.length = 32) {tau : Nat} (ht : tau ≤ 256) {c' : Nat → Int} (h : IsChallenge f tau x c') :
    ∃ F, ∀ fuel, F ≤ fuel → ∀ c : List Int, c.length = 256 → ∀ seed, Holds seed 0 x → polyChallenge P fuel c seed tau = .ok (tab c') := by
  obtain ⟨F, hF⟩ := ballLoop_enough p x h (by omega)
  refine ⟨F, fun fuel hf c hc seed hx => ?_⟩
  obtain ⟨st, buf, h1, h2⟩ := polyChallenge_start p fuel hc hx hl tau
  rw [h2]
  exact hF fuel hf 0 8 st buf h1 rfl

theorem isChallenge_unique {tau : Nat} {x : List Byte} {c c' : Nat → Int} (h : IsChallenge f tau x c) (h' : IsChallenge f tau x c') : c = c' := ball_unique h h'

theorem isChallenge_range {tau : Nat} {x : List Byte} {c : Nat → Int} (h : IsChallenge f tau x c) (k : Nat) : -1 ≤ c k ∧ c k ≤ 1 := ball_range h (fun _ => by decide) k

theorem isChallenge_count {tau : Nat} (ht : tau ≤ 256) {x : List Byte} {c : Nat → Int} (h : IsChallenge f tau x c) : count c 256 = tau := by
  have h0 : ∀ n, count (fun _ => (0 : Int)) n = 0 := by
    intro n
    induction n with
    | zero => rfl
    | succ n ih => rw [count, ih]; rfl
  have := ball_count h
  rw [h0, show 256 - tau + tau = 256 from by omega] at this
  omega

/-! ## The matrix -/

theorem loopN_or {σ : Type} {f : Nat → σ → M σ} (P : Nat → σ → Prop) : ∀ (n i : Nat) (s : σ),
    (∀ j s, i ≤ j → j < i + n → P j s → (∃ s', f j s = .ok s' ∧ P (j + 1) s') ∨ f j s = .error .diverges) → P i s →
    (∃ s', loopN n i f s = .ok s' ∧ P (i + n) s') ∨ loopN n i f s = .error .diverges
  | 0, i, s, _, h => .inl ⟨s, rfl, by simpa using h⟩
  | n + 1, i, s, step, h => by
    rw [loopN]
    rcases step i s (Nat.le_refl _) (by omega) h with ⟨s', h1, h2⟩ | h1
    · rw [h1, ok_bind]
      rcases loopN_or P n (i + 1) s' (fun j s hj hlt hp => step j s (by omega) (by omega) hp) h2 with ⟨t, h3, h4⟩ | h3
      · exact .inl ⟨t, h3, by rw [show i + (n + 1) = i + 1 + n from by omega]; exact h4⟩
      · exact .inr h3
    · rw [h1]; exact .inr rfl

/-- A loop over a vector whose step may not end. -/
theorem vecLoop_or {α : Type} {K : Nat} {op : Nat → α → M α} {P Q : Nat → α → Prop} (h : ∀ i x, i < K → P i x → (∃ y, op i x = .ok y ∧ Q i y) ∨ op i x = .error .diverges) {r : List α}
    (hr : Each P K r) : (∃ r', vecLoop K op r = .ok r' ∧ Each Q K r') ∨ vecLoop K op r = .error .diverges := by
  rcases loopN_or (f := fun i r => do wr r i (← op i (← rd r i)))
    (fun j s => s.length = K ∧ (∀ i y, i < j → s[i]? = some y → Q i y) ∧ ∀ i y, j ≤ i → s[i]? = some y → P i y) K 0 r
    (by
      rintro j s _ hlt ⟨hl, hq, hp⟩
      have hj : j < s.length := by omega
      rcases h j _ (by omega) (hp j _ (le_refl j) (List.getElem?_eq_getElem hj)) with ⟨y, e, qy⟩ | e
      · refine .inl ⟨s.set j y, ?_, set_mixed hl (by omega) hq hp qy⟩
        rw [rd_ok hj, ok_bind, e, ok_bind, wr_ok _ hj]
      · right
        rw [rd_ok hj, ok_bind, e]
        rfl)
    ⟨hr.1, fun i y hi => by omega, fun i y _ hy => hr.2 i y hy⟩ with ⟨s, h1, h2, h3, _⟩ | h1
  · exact .inl ⟨s, h1, h2, fun i y hy => h3 i y (by have := (List.getElem?_eq_some_iff.mp hy).1; omega) hy⟩
  · exact .inr h1

/-- The matrix of `K` rows and `L` columns. -/
def matTab (K L : Nat) (A : Nat → Nat → List Nat) : List (List (List Int)) := (List.range K).map fun i => (List.range L).map fun j => (A i j).map Int.ofNat

/-- A matrix of `K` rows and `L` columns of polynomials. -/
def MatShape (K L : Nat) (m : List (List (List Int))) : Prop := Each (fun _ row => Each (fun _ (p : List Int) => p.length = 256) L row) K m

theorem expandMat_spec (p : Perm P f) (fuel : Nat) {K L : Nat} (hK : K ≤ 256) (hL : L ≤ 256) {mat : List (List (List Int))} (hm : MatShape K L mat) (rho : List Byte) :
    (∃ A, expandMat P fuel mat rho = .ok (matTab K L A) ∧ ∀ i j, i < K → j < L → IsUniform f rho (256 * i + j) (A i j)) ∨ expandMat P fuel mat rho = .error .diverges := by
  have key := vecLoop_or (K := K) (op := fun i row => vecLoop row.length (fun j p => polyUniform P fuel p rho (((i <<< 8) + j) % 65536)) row) (P := fun _ row => Each (fun _ (p : List Int) => p.length = 256) L row)
    (Q := fun i row => row = (List.range L).map (fun j => ((found f (withNonce rho (256 * i + j)) (5 + fuel)).take 256).map Int.ofNat) ∧
      ∀ j, j < L → 256 ≤ (found f (withNonce rho (256 * i + j)) (5 + fuel)).length)
    (fun i row hi hrow => by
      have := vecLoop_or (K := L) (op := fun j p => polyUniform P fuel p rho (((i <<< 8) + j) % 65536)) (P := fun _ (p : List Int) => p.length = 256)
        (Q := fun j p => p = ((found f (withNonce rho (256 * i + j)) (5 + fuel)).take 256).map Int.ofNat ∧ 256 ≤ (found f (withNonce rho (256 * i + j)) (5 + fuel)).length)
        (fun j q hj hq => by
          rw [polyUniform_spec p fuel hq, Nat.shiftLeft_eq, show i * 2 ^ 8 + j = 256 * i + j from by omega, Nat.mod_eq_of_lt (by omega)]
          by_cases h : 256 ≤ (found f (withNonce rho (256 * i + j)) (5 + fuel)).length
          · rw [if_pos h]; exact .inl ⟨_, rfl, rfl, h⟩
          · rw [if_neg h]; exact .inr rfl) hrow
      rw [hrow.1]
      rcases this with ⟨r', h1, h2⟩ | h1
      · refine .inl ⟨r', h1, each_eq ⟨h2.1, fun j y hy => (h2.2 j y hy).1⟩, fun j hj => ?_⟩
        obtain ⟨y, _, hy⟩ := h2.get hj
        exact hy.2
      · exact .inr h1) hm
  rw [expandMat, hm.1]
  rcases key with ⟨m', h1, h2⟩ | h1
  · refine .inl ⟨fun i j => (found f (withNonce rho (256 * i + j)) (5 + fuel)).take 256, ?_, fun i j hi hj => ?_⟩
    · rw [h1, matTab]
      congr 1
      exact each_eq ⟨h2.1, fun i y hy => (h2.2 i y hy).1⟩
    · obtain ⟨y, _, hy⟩ := h2.get hi
      have hl := hy.2 j hj
      refine (found_uniform p).mpr ⟨5 + fuel, fun k hk => ?_⟩
      obtain ⟨d, rfl⟩ := Nat.exists_eq_add_of_le hk
      obtain ⟨h3, h4⟩ := found_take p (withNonce rho (256 * i + j)) (5 + fuel) d hl
      exact ⟨h4, h3⟩
  · exact .inr h1

theorem bound_exists (Q : Nat → Nat → Prop) : ∀ n, (∀ i, i < n → ∃ F, ∀ k, F ≤ k → Q i k) → ∃ F, ∀ i, i < n → ∀ k, F ≤ k → Q i k
  | 0, _ => ⟨0, fun i hi => by omega⟩
  | n + 1, h => by
    obtain ⟨F, hF⟩ := bound_exists Q n fun i hi => h i (by omega)
    obtain ⟨G, hG⟩ := h n (by omega)
    refine ⟨max F G, fun i hi k hk => ?_⟩
    by_cases e : i = n
    · subst e; exact hG k (by omega)
    · exact hF i (by omega) k (by omega)

theorem expandMat_enough (p : Perm P f) {K L : Nat} (hK : K ≤ 256) (hL : L ≤ 256) (rho : List Byte) {A : Nat → Nat → List Nat} (hA : ∀ i j, i < K → j < L → IsUniform f rho (256 * i + j) (A i j)) :
    ∃ F, ∀ fuel, F ≤ fuel → ∀ mat, MatShape K L mat → expandMat P fuel mat rho = .ok (matTab K L A) := by
  obtain ⟨F, hF⟩ := bound_exists (fun i k => ∀ j, j < L → 256 ≤ (found f (withNonce rho (256 * i + j)) k).length ∧ (found f (withNonce rho (256 * i + j)) k).take 256 = A i j) K fun i hi => by
    obtain ⟨F, hF⟩ := bound_exists (fun j k => 256 ≤ (found f (withNonce rho (256 * i + j)) k).length ∧ (found f (withNonce rho (256 * i + j)) k).take 256 = A i j) L fun j hj =>
      (found_uniform p).mp (hA i j hi hj)
    exact ⟨F, fun k hk j hj => hF j hj k hk⟩
  refine ⟨F, fun fuel hf mat hm => ?_⟩
  rw [expandMat, hm.1]
  obtain ⟨m', h1, h2⟩ := vecLoop_spec (K := K) (op := fun i row => vecLoop row.length (fun j p => polyUniform P fuel p rho (((i <<< 8) + j) % 65536)) row) (P := fun _ row => Each (fun _ (p : List Int) => p.length = 256) L row)
    (Q := fun i row => row = (List.range L).map (fun j => (A i j).map Int.ofNat))
    (fun i row hi hrow => by
      obtain ⟨r', h1, h2⟩ := vecLoop_spec (K := L) (op := fun j p => polyUniform P fuel p rho (((i <<< 8) + j) % 65536)) (P := fun _ (p : List Int) => p.length = 256)
        (Q := fun j p => p = (A i j).map Int.ofNat)
        (fun j q hj hq => by
          obtain ⟨h3, h4⟩ := hF i hi (5 + fuel) (by omega) j hj
          rw [polyUniform_spec p fuel hq, Nat.shiftLeft_eq, show i * 2 ^ 8 + j = 256 * i + j from by omega, Nat.mod_eq_of_lt (by omega), if_pos h3, h4]
          exact ⟨_, rfl, rfl⟩) hrow
      rw [hrow.1]
      exact ⟨r', h1, each_eq h2⟩) hm
  rw [h1, matTab, each_eq h2]

end Cex.Dilithium
