import Verif.Digest.Sha2Perm
import Verif.IntTools.Props
import Verif.Stream

/-! # The SHA-2 permutations compute the FIPS 180-4 compression function -/

namespace Cex.Digest
open Cex Cex.Digest.Fips Cex.IntTools

variable {w : Nat}

/-- The code's word functions and tables are those of the standard. -/
structure Ops.Good (O : Ops w) (A : Alg w) : Prop where
  S0 : ∀ x, O.S0 x = A.Sum0 x
  S1 : ∀ x, O.S1 x = A.Sum1 x
  t0 : ∀ x, O.t0 x = A.sig0 x
  t1 : ∀ x, O.t1 x = A.sig1 x
  addH : ∀ r s m, O.addH r s m = r + (s + m)
  rc : O.rc = A.K
  steps : O.steps = A.K.zipIdx.map (fun kt => ⟨kt.2 % 8, if kt.2 < 16 then none else
    some ⟨kt.2 % 16, (kt.2 - 2) % 16, (kt.2 - 7) % 16, (kt.2 - 15) % 16⟩, kt.2 % 16, kt.1⟩)
  rdw : ∀ inp off bs, Holds inp off bs → bs.length = w / 8 → O.rdw inp off = .ok (BitVec.ofNat w (beVal bs))

set_option maxRecDepth 20000 in
theorem tables256 : rc256 = alg256.K ∧ iv256 = alg256.H0 ∧ steps256 = alg256.K.zipIdx.map (fun kt => ⟨kt.2 % 8, if kt.2 < 16 then none else
    some ⟨kt.2 % 16, (kt.2 - 2) % 16, (kt.2 - 7) % 16, (kt.2 - 15) % 16⟩, kt.2 % 16, kt.1⟩) := by decide +kernel

set_option maxRecDepth 20000 in
theorem tables512 : rc512 = alg512.K ∧ iv512 = alg512.H0 ∧ steps512 = alg512.K.zipIdx.map (fun kt => ⟨kt.2 % 8, if kt.2 < 16 then none else
    some ⟨kt.2 % 16, (kt.2 - 2) % 16, (kt.2 - 7) % 16, (kt.2 - 15) % 16⟩, kt.2 % 16, kt.1⟩) := by decide +kernel

theorem len256 : alg256.K.length = 64 := by rw [← tables256.1]; rfl
theorem len512 : alg512.K.length = 80 := by rw [← tables512.1]; rfl

theorem ops256_good : ops256.Good alg256 where
  S0 _ := rfl
  S1 _ := rfl
  t0 _ := rfl
  t1 _ := rfl
  addH _ _ _ := rfl
  rc := tables256.1
  steps := tables256.2.2
  rdw := by
    rintro inp off bs ⟨a, c, rfl, rfl⟩ hl
    obtain ⟨v, h1, h2⟩ := C01_be32_read.1 a bs c hl
    show beBytesTo32 _ _ = _
    rw [h1, ← h2]; simp

theorem or_comm' {w : Nat} (x y : BitVec w) : x ||| y = y ||| x := BitVec.or_comm x y

theorem ops512_good : ops512.Good alg512 where
  S0 x := by simp only [ops512, alg512]; rw [or_comm' (x <<< 36), or_comm' (x <<< 30), or_comm' (x <<< 25)]; rfl
  S1 x := by simp only [ops512, alg512]; rw [or_comm' (x <<< 50), or_comm' (x <<< 46), or_comm' (x <<< 23)]; rfl
  t0 x := by simp only [ops512, alg512]; rw [or_comm' (x <<< 63), or_comm' (x <<< 56)]; rfl
  t1 x := by simp only [ops512, alg512]; rw [or_comm' (x <<< 45), or_comm' (x <<< 3)]; rfl
  addH _ _ _ := BitVec.add_assoc _ _ _
  rc := tables512.1
  steps := tables512.2.2
  rdw := by
    rintro inp off bs ⟨a, c, rfl, rfl⟩ hl
    obtain ⟨v, h1, h2⟩ := C01_be64_read.1 a bs c hl
    show beBytesTo64 _ _ = _
    rw [h1, ← h2]; simp

/-- The working variables a…h when the registers are rotated by `r`. -/
def view (r : Nat) (s : V8 w) : V8 w :=
  match r with
  | 0 => s
  | 1 => ⟨s.h, s.a, s.b, s.c, s.d, s.e, s.f, s.g⟩
  | 2 => ⟨s.g, s.h, s.a, s.b, s.c, s.d, s.e, s.f⟩
  | 3 => ⟨s.f, s.g, s.h, s.a, s.b, s.c, s.d, s.e⟩
  | 4 => ⟨s.e, s.f, s.g, s.h, s.a, s.b, s.c, s.d⟩
  | 5 => ⟨s.d, s.e, s.f, s.g, s.h, s.a, s.b, s.c⟩
  | 6 => ⟨s.c, s.d, s.e, s.f, s.g, s.h, s.a, s.b⟩
  | _ => ⟨s.b, s.c, s.d, s.e, s.f, s.g, s.h, s.a⟩

theorem step_view {O : Ops w} {A : Alg w} (g : O.Good A) (t : Nat) (m p : BitVec w) (s : V8 w) :
    ∃ s', O.step (t % 8) m p s = .ok s' ∧ view ((t + 1) % 8) s' = A.round (view (t % 8) s) m p := by
  have h8 : t % 8 < 8 := Nat.mod_lt _ (by decide)
  have hs : (t + 1) % 8 = (t % 8 + 1) % 8 := by omega
  rw [hs]
  generalize t % 8 = r at h8
  have : r = 0 ∨ r = 1 ∨ r = 2 ∨ r = 3 ∨ r = 4 ∨ r = 5 ∨ r = 6 ∨ r = 7 := by omega
  rcases this with rfl | rfl | rfl | rfl | rfl | rfl | rfl | rfl <;>
    exact ⟨_, rfl, by simp only [view, Alg.round, Ops.R, Ops.newH, g.S0, g.S1, g.addH, ch, maj]⟩

theorem round_comm (A : Alg w) (v : V8 w) (k x : BitVec w) : A.round v k x = A.round v x k := by
  simp only [Alg.round, BitVec.add_assoc, BitVec.add_comm k x]

/-- The first `n` rounds of the standard. -/
def roundsTo (A : Alg w) (b : List Byte) (v : V8 w) (n : Nat) : V8 w :=
  (A.K.take n).zipIdx.foldl (fun v kt => A.round v kt.1 (A.W b kt.2)) v

theorem roundsTo_succ (A : Alg w) (b : List Byte) (v : V8 w) (n : Nat) (hn : n < A.K.length) :
    roundsTo A b v (n + 1) = A.round (roundsTo A b v n) (A.K[n]) (A.W b n) := by
  rw [roundsTo, roundsTo, List.take_succ_eq_append_getElem hn, List.zipIdx_append, List.foldl_append]
  simp [List.length_take, Nat.min_eq_left (Nat.le_of_lt hn)]

theorem load_ok {O : Ops w} {A : Alg w} (g : O.Good A) {inp b : List Byte} {io : Nat} (hb : Holds inp io b) :
    ∀ (n i : Nat), (i + n) * (w / 8) ≤ b.length → O.load inp io n i = .ok ((List.range' i n).map (word w b))
  | 0, _, _ => rfl
  | n + 1, i, h => by
    rw [Nat.add_mul, Nat.add_mul] at h
    have hh : Holds inp (io + i * (w / 8)) ((b.drop (i * (w / 8))).take (w / 8)) :=
      (hb.dropN (n := i * (w / 8)) (by omega)).takeN _
    rw [Ops.load, g.rdw _ _ _ hh (by rw [List.length_take, List.length_drop]; omega), ok_bind,
      load_ok g hb n (i + 1) (by rw [Nat.add_mul, Nat.add_mul]; omega)]
    rfl

theorem W_lt (A : Alg w) (b : List Byte) {t : Nat} (h : t < 16) : A.W b t = word w b t := by rw [Alg.W, if_pos h]
theorem W_ge (A : Alg w) (b : List Byte) {t : Nat} (h : ¬ t < 16) :
    A.W b t = A.sig1 (A.W b (t - 2)) + A.W b (t - 7) + A.sig0 (A.W b (t - 15)) + A.W b (t - 16) := by rw [Alg.W, if_neg h]

theorem first16 (A : Alg w) (b : List Byte) : (List.range' 0 16).map (word w b) = (List.range 16).map (A.W b) := by
  rw [List.range_eq_range']
  apply List.map_congr_left
  intro t ht
  rw [W_lt]
  simp at ht; omega

theorem rd_map {α : Type} (f : Nat → α) {n j : Nat} (h : j < n) : rd ((List.range n).map f) j = .ok (f j) := by
  rw [rd_ok (by simpa using h)]; simp

theorem extend_ok {O : Ops w} {A : Alg w} (g : O.Good A) (b : List Byte) :
    ∀ (n l : Nat), 16 ≤ l → O.extend n ((List.range l).map (A.W b)) = .ok ((List.range (l + n)).map (A.W b))
  | 0, _, _ => rfl
  | n + 1, l, h => by
    have hl : ((List.range l).map (A.W b)).length = l := by simp
    rw [Ops.extend, hl, rd_map _ (by omega), ok_bind, rd_map _ (by omega), ok_bind, rd_map _ (by omega), ok_bind, rd_map _ (by omega), ok_bind,
      g.t0, g.t1, ← W_ge A b (by omega : ¬ l < 16)]
    have e : (List.range l).map (A.W b) ++ [A.W b l] = (List.range (l + 1)).map (A.W b) := by
      rw [List.range_succ, List.map_append]; rfl
    rw [e, extend_ok g b n (l + 1) (by omega), show l + 1 + n = l + (n + 1) by omega]

theorem view_zero (s : V8 w) : view 0 s = s := rfl

theorem permuteC_ok {O : Ops w} {A : Alg w} (g : O.Good A) (n : Nat) (hn : A.K.length = 8 * n) (h2 : 2 ≤ n) {inp b : List Byte} {io : Nat}
    (hb : Holds inp io b) (hl : b.length = 16 * (w / 8)) (st : V8 w) : O.permuteC n inp io st = .ok (A.compress st b) := by
  rw [Ops.permuteC, load_ok g hb 16 0 (by omega), ok_bind, first16 A, extend_ok g b _ 16 (by omega), ok_bind,
    show 16 + (8 * n - 16) = 8 * n by omega]
  obtain ⟨s, h1, h3⟩ := loopN_inv (f := fun i s => loopN 8 (8 * i) (O.call ((List.range (8 * n)).map (A.W b))) s)
    (fun i s => view ((8 * i) % 8) s = roundsTo A b st (8 * i)) n 0 st (by
      intro i s _ hi hs
      obtain ⟨s', h4, h5⟩ := loopN_inv (f := O.call ((List.range (8 * n)).map (A.W b)))
        (fun t s => view (t % 8) s = roundsTo A b st t) 8 (8 * i) s (by
          intro t s ht1 ht2 hs
          have hk : t < A.K.length := by omega
          obtain ⟨s', h6, h7⟩ := step_view g t A.K[t] (A.W b t) s
          refine ⟨s', ?_, by rw [h7, roundsTo_succ _ _ _ _ hk, hs]⟩
          simp only [Ops.call, g.rc, rd_ok hk, ok_bind, rd_map (A.W b) (show t < 8 * n by omega), h6]) hs
      exact ⟨s', h4, h5⟩) rfl
  rw [h1, ok_bind]
  simp only [Nat.zero_add, Nat.mul_mod_right, view_zero] at h3
  rw [h3, roundsTo, ← hn, List.take_length, Alg.compress]
  show Except.ok _ = _
  simp only [addState, V8.add, BitVec.add_comm]

/-- The ring of schedule variables before round `t`. -/
def Ring (A : Alg w) (b : List Byte) (t : Nat) (W : List (BitVec w)) : Prop :=
  W.length = 16 ∧ ∀ u, u < max t 16 → max t 16 ≤ u + 16 → W[u % 16]? = some (A.W b u)

theorem rd_of_get {α : Type} {b : List α} {i : Nat} {v : α} (h : b[i]? = some v) : rd b i = .ok v := by simp [rd, h]

theorem ring_step {O : Ops w} {A : Alg w} (g : O.Good A) (b : List Byte) (t : Nat) (W : List (BitVec w)) (h : Ring A b t W) :
    ∃ W', O.update (if t < 16 then none else some ⟨t % 16, (t - 2) % 16, (t - 7) % 16, (t - 15) % 16⟩) W = .ok W' ∧ Ring A b (t + 1) W' ∧
      rd W' (t % 16) = .ok (A.W b t) := by
  obtain ⟨hl, hw⟩ := h
  by_cases h16 : t < 16
  · rw [if_pos h16]
    refine ⟨W, rfl, ⟨hl, ?_⟩, rd_of_get ?_⟩
    · rwa [show max (t + 1) 16 = max t 16 by omega]
    · exact hw t (by omega) (by omega)
  · rw [if_neg h16]
    have e : (t - 16) % 16 = t % 16 := by omega
    have h0 := hw (t - 16) (by omega) (by omega)
    rw [e] at h0
    have hu : ∀ v, wr W (t % 16) v = .ok (W.set (t % 16) v) := fun v => wr_ok v (by omega)
    refine ⟨W.set (t % 16) (A.W b t), ?_, ⟨by simpa using hl, ?_⟩, rd_of_get ?_⟩
    · simp only [Ops.update, rd_of_get h0, rd_of_get (hw (t - 2) (by omega) (by omega)), rd_of_get (hw (t - 7) (by omega) (by omega)),
        rd_of_get (hw (t - 15) (by omega) (by omega)), ok_bind, hu, g.t0, g.t1]
      rw [W_ge A b h16, BitVec.add_comm]
    · intro u h1 h2
      by_cases hut : u = t
      · subst hut; simp [hl, Nat.mod_lt]
      · have hne : t % 16 ≠ u % 16 := by omega
        rw [List.getElem?_set, if_neg hne]
        exact hw u (by omega) (by omega)
    · simp [hl, Nat.mod_lt]

theorem permuteU_rounds {O : Ops w} {A : Alg w} (g : O.Good A) (b : List Byte) (st : V8 w) :
    ∀ (ks : List (BitVec w)) (t : Nat), A.K = A.K.take t ++ ks → t + ks.length = A.K.length → ∀ (s : V8 w) (W : List (BitVec w)), Ring A b t W →
      view (t % 8) s = roundsTo A b st t →
      ∃ s' W', ((ks.zipIdx t).map (fun kt => (⟨kt.2 % 8, if kt.2 < 16 then none else
        some ⟨kt.2 % 16, (kt.2 - 2) % 16, (kt.2 - 7) % 16, (kt.2 - 15) % 16⟩, kt.2 % 16, kt.1⟩ : Step w))).foldlM O.run1 (s, W) = .ok (s', W') ∧
        view (A.K.length % 8) s' = roundsTo A b st A.K.length
  | [], t, _, hl, s, W, _, hv => by
    refine ⟨s, W, rfl, ?_⟩
    simp at hl
    rwa [← hl]
  | k :: ks, t, hk, hl, s, W, hr, hv => by
    have htl : t < A.K.length := by simp at hl; omega
    have hkt : A.K[t] = k := by
      have : A.K[t]? = some k := by
        rw [hk, List.getElem?_append_right (by simp; omega)]
        simp [Nat.min_eq_left (Nat.le_of_lt htl)]
      rw [List.getElem?_eq_getElem htl] at this
      exact Option.some.inj this
    obtain ⟨W', h1, h2, h3⟩ := ring_step g b t W hr
    obtain ⟨s', h4, h5⟩ := step_view g t (A.W b t) k s
    obtain ⟨s'', W'', h6, h7⟩ := permuteU_rounds g b st ks (t + 1) (by
        rw [List.take_succ_eq_append_getElem htl, hkt, List.append_assoc]; exact hk) (by simp at hl; omega) s' W' h2
      (by rw [h5, roundsTo_succ _ _ _ _ htl, hkt, round_comm, hv])
    refine ⟨s'', W'', ?_, h7⟩
    rw [List.zipIdx_cons, List.map_cons, List.foldlM_cons]
    simp only [Ops.run1, h1, ok_bind, h3, h4]
    exact h6

theorem permuteU_ok {O : Ops w} {A : Alg w} (g : O.Good A) (h8 : A.K.length % 8 = 0) {inp b : List Byte} {io : Nat}
    (hb : Holds inp io b) (hl : b.length = 16 * (w / 8)) (st : V8 w) : O.permuteU inp io st = .ok (A.compress st b) := by
  obtain ⟨s', W', h1, h2⟩ := permuteU_rounds g b st A.K 0 (by simp) (by simp) st ((List.range 16).map (A.W b))
    ⟨by simp, by
      intro u hu _
      have : u < 16 := by omega
      rw [Nat.mod_eq_of_lt this]; simp [this]⟩ rfl
  rw [Ops.permuteU, load_ok g hb 16 0 (by omega), ok_bind, first16 A, g.steps, h1, ok_bind]
  rw [h8, view_zero] at h2
  rw [h2, roundsTo, List.take_length, Alg.compress]
  show Except.ok _ = _
  simp only [addState, V8.add, BitVec.add_comm]

end Cex.Digest
