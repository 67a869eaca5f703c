import Verif.McEliece.GoppaModel
import Verif.McEliece.KemProps
import Verif.McEliece.BenesProps
import Verif.McEliece.Props

/-!
# C106: the syndromes determine the error vector
-/

namespace Cex.McEliece.Goppa

open Spec Kem

/-! ## Specification -/

/-- a^n. -/
def pw (a : P) : Nat → P
  | 0 => 1#13
  | n + 1 => mul (pw a n) a

/-- The sum of y·a^j over a list of pairs (y, a). -/
def T : List (P × P) → Nat → P
  | [], _ => 0#13
  | (y, a) :: l, j => mul y (pw a j) ^^^ T l j

/-- The elements of the list at the positions `i, i+1, …` that are set in `b`. -/
def sel (b : Nat → Bool) : Nat → List (P × P) → List (P × P)
  | _, [] => []
  | i, x :: l => if b i then x :: sel b (i + 1) l else sel b (i + 1) l

/-- y is the inverse of the square of f(a). -/
def Inv2 (f : List P) (x : P × P) : Prop := mul x.1 (mul (value f x.2 1#13) (value f x.2 1#13)) = 1#13

/-! ## Algebra -/

theorem mul_zero (a : P) : mul a 0#13 = 0#13 := (mul_right a).zero

theorem mul_one (a : P) : mul a 1#13 = a := by rw [mul_comm, one_mul]

theorem mul_ne {a b : P} (ha : a ≠ 0#13) (hb : b ≠ 0#13) : mul a b ≠ 0#13 := by
  intro h
  obtain ⟨c, hc⟩ := C102_field.2.2.2.2.1 b hb
  have := congrArg (fun x => mul x c) h
  simp only [mul_assoc, hc, mul_one, zero_mul] at this
  exact ha this

theorem add_r (a b c : P) : mul a (b ^^^ c) = mul a b ^^^ mul a c := mul_right a b c
theorem add_l (a b c : P) : mul (b ^^^ c) a = mul b a ^^^ mul c a := mul_left a b c

/-- The step of the elimination. -/
theorem T_shift (l : List (P × P)) (a : P) (j : Nat) :
    T (l.map fun x => (mul x.1 (x.2 ^^^ a), x.2)) j = T l (j + 1) ^^^ mul a (T l j) := by
  induction l with
  | nil => show 0#13 = 0#13 ^^^ mul a 0#13; rw [mul_zero]; rfl
  | cons x l ih =>
    obtain ⟨y, b⟩ := x
    show mul (mul y (b ^^^ a)) (pw b j) ^^^ T _ j = mul y (mul (pw b j) b) ^^^ T l (j + 1) ^^^ mul a (mul y (pw b j) ^^^ T l j)
    rw [ih, add_r, add_r, add_l, mul_assoc y b, mul_comm b (pw b j)]
    have : mul (mul y a) (pw b j) = mul a (mul y (pw b j)) := by rw [mul_comm y a, mul_assoc]
    rw [this]
    ac_rfl

/-- A sum of y·a^j with different a and no y = 0 does not vanish for as many j as it has terms. -/
theorem vandermonde (n : Nat) : ∀ l : List (P × P), l.length = n → (l.map Prod.snd).Nodup → (∀ x ∈ l, x.1 ≠ 0#13) →
    (∀ j, j < n → T l j = 0#13) → l = [] := by
  induction n with
  | zero => intro l h _ _ _; exact List.length_eq_zero_iff.mp h
  | succ n ih =>
    intro l hl hd hn hT
    cases l with
    | nil => rfl
    | cons x l =>
      exfalso
      obtain ⟨y, a⟩ := x
      have hd' := List.nodup_cons.mp hd
      have hS : ∀ j, j < n + 1 → T l j = mul y (pw a j) := by
        intro j hj
        have := hT j hj
        exact (BitVec.xor_eq_zero_iff.mp this).symm
      have he := ih (l.map fun x => (mul x.1 (x.2 ^^^ a), x.2)) (by simpa using hl) (by
          rw [List.map_map]; exact hd'.2) (by
          intro x hx
          obtain ⟨z, hz, rfl⟩ := List.mem_map.mp hx
          refine mul_ne (hn z (List.mem_cons_of_mem _ hz)) fun h => hd'.1 ?_
          rw [← BitVec.xor_eq_zero_iff.mp h]
          exact List.mem_map.mpr ⟨z, hz, rfl⟩) (by
          intro j hj
          rw [T_shift, hS _ (by omega), hS _ (by omega)]
          show mul y (mul (pw a j) a) ^^^ _ = _
          rw [mul_comm a, mul_assoc y, BitVec.xor_self])
      have hl0 : l = [] := List.map_eq_nil_iff.mp he
      subst hl0
      have := hT 0 (by omega)
      have h2 : mul y 1#13 ^^^ 0#13 = 0#13 := this
      rw [mul_one, BitVec.xor_zero] at h2
      exact hn (y, a) (List.mem_cons_self ..) h2

theorem sel_sub (b : Nat → Bool) (l : List (P × P)) : ∀ i, (sel b i l).Sublist l := by
  induction l with
  | nil => intro i; exact List.Sublist.refl _
  | cons x l ih =>
    intro i
    unfold sel
    split
    · exact (ih _).cons_cons x
    · exact (ih _).cons x

theorem sel_len (b : Nat → Bool) (l : List (P × P)) : ∀ i, (sel b i l).length = ((List.range' i l.length).filter b).length := by
  induction l with
  | nil => intro i; rfl
  | cons x l ih =>
    intro i
    rw [List.length_cons, List.range'_succ, List.filter_cons]
    unfold sel
    by_cases h : b i = true
    · rw [if_pos h, if_pos h, List.length_cons, List.length_cons, ih]
    · rw [if_neg h, if_neg h, ih]

theorem sel_xor_len (b c : Nat → Bool) (l : List (P × P)) : ∀ i, (sel (fun n => b n ^^ c n) i l).length ≤ (sel b i l).length + (sel c i l).length := by
  induction l with
  | nil => intro i; exact Nat.le_refl _
  | cons x l ih =>
    intro i
    have := ih (i + 1)
    unfold sel
    cases b i <;> cases c i <;> simp <;> omega

theorem T_cons (b : Nat → Bool) (i j : Nat) (y a : P) (l : List (P × P)) :
    T (sel b i ((y, a) :: l)) j = (if b i then mul y (pw a j) else 0#13) ^^^ T (sel b (i + 1) l) j := by
  have e : sel b i ((y, a) :: l) = if b i then (y, a) :: sel b (i + 1) l else sel b (i + 1) l := rfl
  rw [e]
  by_cases h : b i = true
  · rw [if_pos h, if_pos h]; rfl
  · rw [if_neg h, if_neg h, BitVec.zero_xor]

theorem T_xor (b c : Nat → Bool) (j : Nat) (l : List (P × P)) : ∀ i, T (sel (fun n => b n ^^ c n) i l) j = T (sel b i l) j ^^^ T (sel c i l) j := by
  induction l with
  | nil => intro i; show 0#13 = 0#13 ^^^ 0#13; decide
  | cons x l ih =>
    intro i
    obtain ⟨y, a⟩ := x
    rw [T_cons, T_cons, T_cons, ih (i + 1)]
    generalize mul y (pw a j) = v
    generalize T (sel b (i + 1) l) j = p
    generalize T (sel c (i + 1) l) j = q
    have e : ∀ u w : P, (u ^^^ p) ^^^ (w ^^^ q) = (u ^^^ w) ^^^ (p ^^^ q) := fun u w => by ac_rfl
    rw [e]
    congr 1
    cases b i <;> cases c i <;> simp

theorem sel_nil (b : Nat → Bool) (l : List (P × P)) : ∀ i, sel b i l = [] → ∀ k, k < l.length → b (i + k) = false := by
  induction l with
  | nil => intro i _ k hk; exact absurd hk (Nat.not_lt_zero _)
  | cons x l ih =>
    intro i h k hk
    unfold sel at h
    by_cases hb : b i = true
    · rw [if_pos hb] at h; cases h
    · rw [if_neg hb] at h
      cases k with
      | zero => simpa using hb
      | succ k =>
        have := ih (i + 1) h k (by simpa using hk)
        rw [← this]; congr 1; omega

/-! ## The code -/

theorem bit16 : ∀ b : BitVec 8, ∀ k : Fin 8, ((b >>> k.val) &&& 1#8).setWidth 16 = el (if b.getLsbD k.val then 1#13 else 0#13) := by decide +kernel

theorem inner_ok (c : Bool) (y a : P) (o : Nat → P) (m : Nat) : ∀ k,
    syndInner (el (if c then 1#13 else 0#13)) (el a) (el (mul y (pw a k))) ((List.range' k m).map fun j => el (o j))
      = (List.range' k m).map fun j => el (o j ^^^ if c then mul y (pw a j) else 0#13) := by
  induction m with
  | zero => intro k; rfl
  | succ m ih =>
    intro k
    rw [List.range'_succ, List.map_cons, List.map_cons]
    show gfAdd _ _ :: syndInner _ _ (gfMultiply _ _) _ = _
    rw [mult_eq, mult_eq, mul_assoc y (pw a k) a]
    have := ih (k + 1)
    have e : pw a (k + 1) = mul (pw a k) a := rfl
    rw [e] at this
    rw [this]
    congr 1
    show el _ ^^^ el _ = _
    rw [← el_lin]
    cases c
    · simp only [Bool.false_eq_true, if_false, mul_zero]
    · simp only [if_true, mul_one]

theorem einv_ok (v y : P) (h : mul y (mul v v) = 1#13) : gfInv (gfMultiply (el v) (el v)) = el y := by
  have hd : mul v v ≠ 0#13 := by
    intro e
    rw [e, mul_zero] at h
    exact absurd h (by decide)
  obtain ⟨q, hq, _, hu⟩ := (C102_frac (mul v v) 1#13).1 hd
  rw [mult_eq, hu y h]
  exact hq

theorem loop_ok (f : List P) (hf : 2 ≤ f.length) (R : List Byte) (m : Nat) (l : List (P × P)) (hl : ∀ x ∈ l, Inv2 f x) :
    ∀ i (o : Nat → P), i + l.length ≤ 8 * R.length →
      syndLoop (f.map el) R i (l.map fun x => el x.2) ((List.range' 0 m).map fun j => el (o j))
        = .ok ((List.range' 0 m).map fun j => el (o j ^^^ T (sel (bit R) i l) j)) := by
  induction l with
  | nil =>
    intro i o _
    show Except.ok _ = _
    congr 1
    refine List.map_congr_left fun j _ => ?_
    show _ = el (o j ^^^ 0#13)
    rw [BitVec.xor_zero]
  | cons x l ih =>
    intro i o h
    obtain ⟨y, a⟩ := x
    rw [List.length_cons] at h
    have hi : i / 8 < R.length := by omega
    rw [List.map_cons]
    unfold syndLoop
    rw [rd_ok hi, ok_bind, C102_eval f a hf]
    rw [ok_bind]
    have hy : mul y (mul (value f a 1#13) (value f a 1#13)) = 1#13 := hl (y, a) (List.mem_cons_self ..)
    have hb : bit R i = (R[i / 8]).getLsbD (i % 8) := by
      unfold bit
      rw [List.getElem?_eq_getElem hi]
    have hc := bit16 R[i / 8] ⟨i % 8, by omega⟩
    simp only [] at hc
    rw [← hb] at hc
    simp only [hc, einv_ok _ y hy]
    have hin := inner_ok (bit R i) y a o m 0
    have e0 : mul y (pw a 0) = y := mul_one y
    rw [e0] at hin
    rw [hin, ih (fun x hx => hl x (List.mem_cons_of_mem _ hx)) (i + 1) _ (by omega)]
    congr 1
    refine List.map_congr_left fun j _ => ?_
    show el _ = el _
    rw [T_cons, BitVec.xor_assoc]

/-- C106: `Synd` yields for j < 2t the sum of a^j/f(a)² over the elements a of the support at the positions set in the word, for every polynomial without a zero in the support. -/
theorem C106_synd (f : List P) (hf : 2 ≤ f.length) (t : Nat) (l : List (P × P)) (hl : ∀ x ∈ l, Inv2 f x) (R : List Byte) (hR : l.length ≤ 8 * R.length) :
    synd (f.map el) (l.map fun x => el x.2) R t = .ok ((List.range (2 * t)).map fun j => el (T (sel (bit R) 0 l) j)) := by
  have h := loop_ok f hf R (2 * t) l hl 0 (fun _ => 0#13) (by omega)
  have e : (List.range' 0 (2 * t)).map (fun _ => el 0#13) = List.replicate (2 * t) 0#16 := by
    rw [List.map_const', List.length_range']; rfl
  rw [e] at h
  unfold synd
  rw [h, List.range_eq_range']
  simp only [BitVec.zero_xor]

/-- For every support without zeros of the polynomial there are the factors 1/f(a)². -/
theorem C106_points (f L : List P) (h : ∀ a ∈ L, value f a 1#13 ≠ 0#13) : ∃ l : List (P × P), l.map Prod.snd = L ∧ ∀ x ∈ l, Inv2 f x := by
  induction L with
  | nil => exact ⟨[], rfl, by simp⟩
  | cons a L ih =>
    obtain ⟨l, h1, h2⟩ := ih fun b hb => h b (List.mem_cons_of_mem _ hb)
    have ha := h a (List.mem_cons_self ..)
    obtain ⟨y, hy⟩ := C102_field.2.2.2.2.1 _ (mul_ne ha ha)
    refine ⟨(y, a) :: l, by simp [h1], fun x hx => ?_⟩
    rcases List.mem_cons.mp hx with rfl | hx
    · show mul y _ = _
      rw [mul_comm]; exact hy
    · exact h2 x hx

theorem map_el_eq (l : List (P × P)) (L : List P) (h : l.map Prod.snd = L) : (l.map fun x => el x.2) = L.map el := by
  rw [← h, List.map_map]; rfl

theorem bits_eq (e e' : List Byte) (hl : e.length = e'.length) (h : ∀ i, i < 8 * e.length → bit e i = bit e' i) : e = e' := by
  refine List.ext_getElem hl fun n h1 h2 => ?_
  ext k hk
  have := h (8 * n + k) (by omega)
  unfold bit at this
  have q : (8 * n + k) / 8 = n := by omega
  have r : (8 * n + k) % 8 = k := by omega
  rw [q, r, List.getElem?_eq_getElem h1, List.getElem?_eq_getElem h2] at this
  simpa [BitVec.getLsbD_eq_getElem hk] using this

/-- C106: two words of weight at most t with the same 2t syndromes are equal, for every support of different elements that are no zeros of the polynomial. -/
theorem C106_unique (f : List P) (hf : 2 ≤ f.length) (L : List P) (hL : L.Nodup) (hz : ∀ a ∈ L, value f a 1#13 ≠ 0#13) (t : Nat)
    (e e' : List Byte) (h1 : 8 * e.length = L.length) (h2 : 8 * e'.length = L.length) (w1 : weight e ≤ t) (w2 : weight e' ≤ t)
    (h : synd (f.map el) (L.map el) e t = synd (f.map el) (L.map el) e' t) : e = e' := by
  obtain ⟨l, hl, hi⟩ := C106_points f L hz
  have hlen : l.length = L.length := by rw [← hl, List.length_map]
  rw [← map_el_eq l L hl, C106_synd f hf t l hi e (by omega), C106_synd f hf t l hi e' (by omega)] at h
  have hT : ∀ j, j < 2 * t → T (sel (bit e) 0 l) j = T (sel (bit e') 0 l) j := by
    intro j hj
    have h3 := List.map_inj_left.mp (Except.ok.inj h) j (List.mem_range.mpr hj)
    exact el_inj h3
  have hw : ∀ e : List Byte, 8 * e.length = L.length → (sel (bit e) 0 l).length = weight e := by
    intro e he
    rw [sel_len, weight, List.range_eq_range', hlen, he]
  have hx := sel_xor_len (bit e) (bit e') l 0
  rw [hw e h1, hw e' h2] at hx
  have hs := sel_sub (fun n => bit e n ^^ bit e' n) l 0
  have hnil := vandermonde _ (sel (fun n => bit e n ^^ bit e' n) 0 l) rfl
    (by
      have := hs.map Prod.snd
      rw [hl] at this
      exact this.nodup hL)
    (by
      intro x hx h0
      have := hi x (hs.subset hx)
      unfold Inv2 at this
      rw [h0, zero_mul] at this
      exact absurd this (by decide))
    (by
      intro j hj
      rw [T_xor, hT j (by omega), BitVec.xor_self])
  refine bits_eq e e' (by omega) fun i hi' => ?_
  have := sel_nil _ l 0 hnil i (by omega)
  simpa using this

theorem key_synd (f : List P) (hf : 2 ≤ f.length) (L : List P) (hz : ∀ a ∈ L, value f a 1#13 ≠ 0#13) (t : Nat)
    (image : List Byte → Nat → BitVec 16) (s : List Byte) (r : List Byte) (hr : L.length ≤ 8 * r.length) :
    synd (f.map el) (L.map el) r t = .ok ((key (f.map el) (L.map el) t image s).synd r) := by
  obtain ⟨l, hl, hi⟩ := C106_points f L hz
  have hlen : l.length = L.length := by rw [← hl, List.length_map]
  have h := C106_synd f hf t l hi r (by omega)
  rw [map_el_eq l L hl] at h
  unfold key
  simp only [List.length_map, if_pos hr, h]

theorem el_lt (a : P) : (el a).toNat < 8192 := by
  unfold el
  have := a.isLt
  rw [BitVec.toNat_setWidth]
  omega

/-- C106: the private keys of the model of `Decrypt` (C103) are met by `Synd`: 2t elements of the field. -/
theorem C106_key (f : List P) (hf : 2 ≤ f.length) (L : List P) (hz : ∀ a ∈ L, value f a 1#13 ≠ 0#13) (t : Nat)
    (image : List Byte → Nat → BitVec 16) (s : List Byte) : (key (f.map el) (L.map el) t image s).Ok t := by
  intro r
  by_cases hr : L.length ≤ 8 * r.length
  · obtain ⟨l, hl, hi⟩ := C106_points f L hz
    have hlen : l.length = L.length := by rw [← hl, List.length_map]
    have h := C106_synd f hf t l hi r (by omega)
    rw [map_el_eq l L hl, key_synd f hf L hz t image s r hr] at h
    rw [Except.ok.inj h]
    refine ⟨by simp, fun x hx => ?_⟩
    obtain ⟨j, _, rfl⟩ := List.mem_map.mp hx
    exact el_lt _
  · have e : (key (f.map el) (L.map el) t image s).synd r = List.replicate (2 * t) 0#16 := by
      unfold key
      simp only [List.length_map, if_neg hr]
    rw [e]
    refine ⟨List.length_replicate, fun x hx => ?_⟩
    rw [List.eq_of_mem_replicate hx]; decide

/-- C106: `Decrypt` never accepts a wrong vector: if some vector of weight t has the syndromes of the ciphertext and `Decrypt` returns 0, it has written that vector, whatever the decoder does; and if there is no such vector, it returns 1. -/
theorem C106_decrypt (p : Par) (hn : p.nb ≤ 1024) (hb : p.sb ≤ p.nb) (ht : p.t ≤ 8192) (f : List P) (hf : 2 ≤ f.length) (L : List P) (hL : L.Nodup)
    (hlen : L.length = 8 * p.nb) (hz : ∀ a ∈ L, value f a 1#13 ≠ 0#13) (image : List Byte → Nat → BitVec 16) (s : List Byte) (c : List Byte) (hc : p.sb ≤ c.length) :
    ((decrypt p (key (f.map el) (L.map el) p.t image s) c).2 = 0 →
      ∀ e : List Byte, e.length = p.nb → weight e = p.t →
        synd (f.map el) (L.map el) e p.t = synd (f.map el) (L.map el) (received p c) p.t →
        (decrypt p (key (f.map el) (L.map el) p.t image s) c).1 = e)
    ∧ ((¬ ∃ e : List Byte, e.length = p.nb ∧ weight e = p.t ∧ synd (f.map el) (L.map el) e p.t = synd (f.map el) (L.map el) (received p c) p.t) →
      (decrypt p (key (f.map el) (L.map el) p.t image s) c).2 = 1) := by
  obtain ⟨d1, d2⟩ := C103_decrypt p hn ht _ (C106_key f hf L hz p.t image s) c
  have hrec : (received p c).length = p.nb := by
    unfold received
    rw [List.length_append, List.length_take, List.length_replicate]
    omega
  have hs : ∀ r : List Byte, r.length = p.nb → synd (f.map el) (L.map el) r p.t = .ok ((key (f.map el) (L.map el) p.t image s).synd r) :=
    fun r hr => key_synd f hf L hz p.t image s r (by omega)
  constructor
  · intro h e he hw hse
    rw [h] at d2
    split at d2
    · next hv =>
      refine C106_unique f hf L hL hz p.t _ e (by omega) (by omega) (by omega) (by omega) ?_
      rw [hse, hs _ d1, hs _ hrec, hv.2]
    · cases d2
  · intro h
    rw [d2, if_neg]
    rintro ⟨v1, v2⟩
    exact h ⟨_, d1, v1, by rw [hs _ d1, hs _ hrec, v2]⟩

/-- C106: the supports of `SupportGen` have different elements, for all control bits and all lengths up to 8192: the hypothesis of `C106_unique` and `C106_decrypt`. -/
theorem C106_support (c : Nat → Fin 64 → BitVec 64) (n : Nat) (hn : n ≤ 8192) :
    ∃ L : List P, L.Nodup ∧ L.map el = List.ofFn (fun i : Fin n => Benes.supportGen c i.val (by omega)) := by
  refine ⟨List.ofFn (fun i : Fin n => (Benes.supportGen c i.val (by omega)).setWidth 13), ?_, ?_⟩
  · rw [List.nodup_ofFn]
    intro i j h
    have h1 := congrArg el h
    simp only [] at h1
    rw [el_surj _ (Benes.C105_distinct c i.val i.val (by omega) (by omega)).1, el_surj _ (Benes.C105_distinct c j.val j.val (by omega) (by omega)).1] at h1
    exact Fin.ext ((Benes.C105_distinct c i.val j.val (by omega) (by omega)).2 h1)
  · rw [List.map_ofFn]
    congr 1
    funext i
    exact el_surj _ (Benes.C105_distinct c i.val i.val (by omega) (by omega)).1

/-- A case: x² + x + 1 has no zero among eight elements, and a vector of weight 2 has syndromes that are not zero. -/
theorem C106_case : [0#13, 1#13, 2#13, 3#13, 4#13, 5#13, 6#13, 7#13].Nodup
    ∧ (∀ a ∈ [0#13, 1#13, 2#13, 3#13, 4#13, 5#13, 6#13, 7#13], value [1#13, 1#13, 1#13] a 1#13 ≠ 0#13)
    ∧ weight [0x41#8] = 2
    ∧ (synd ([1#13, 1#13, 1#13].map el) ([0#13, 1#13, 2#13, 3#13, 4#13, 5#13, 6#13, 7#13].map el) [0x41#8] 2).toOption.map (·.any (· != 0)) = some true := by
  decide +kernel

end Cex.McEliece.Goppa
