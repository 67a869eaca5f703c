import Verif.Serpent.Blocks
import Verif.IntTools.Props

/-! # SHX: the key schedule -/

namespace Cex.Serpent
open Cex.IntTools
open Cex.Spec.Serpent (sbox onColumns leWord pad prekey roundKey)

theorem split_key {key : List Byte} {i : Nat} (h : 4 * i + 4 ≤ key.length) :
    ∃ a m c : List Byte, key = a ++ m ++ c ∧ m.length = 4 ∧ c.length = 4 * i := by
  refine ⟨key.take (key.length - 4 * i - 4), (key.drop (key.length - 4 * i - 4)).take 4, key.drop (key.length - 4 * i), ?_, ?_, ?_⟩
  · rw [List.append_assoc, show key.drop (key.length - 4 * i) = (key.drop (key.length - 4 * i - 4)).drop 4 from by rw [List.drop_drop]; congr 1; omega,
      List.take_append_drop, List.take_append_drop]
  · rw [List.length_take, List.length_drop]; omega
  · rw [List.length_drop]; omega

theorem beBytesTo32_key {key : List Byte} {i : Nat} (h : 4 * i + 4 ≤ key.length) : beBytesTo32 key (key.length - 4 * i - 4) = .ok (leWord key.reverse i) := by
  obtain ⟨a, m, c, rfl, hm, hc⟩ := split_key h
  obtain ⟨v, h1, h2⟩ := C01_be32_read.1 a m c hm
  rw [show (a ++ m ++ c).length - 4 * i - 4 = a.length from by rw [List.length_append, List.length_append]; omega, h1]
  congr 1
  apply BitVec.eq_of_toNat_eq
  rw [leWord, BitVec.toNat_ofNat, List.reverse_append, List.reverse_append, List.drop_left' (by rw [List.length_reverse, hc]),
    List.take_left' (by rw [List.length_reverse, hm]), leVal_reverse, ← h2, Nat.mod_eq_of_lt v.isLt]

/-! ## The words of the key -/

theorem pad_word {key : List Byte} {kw : Nat} (hk : key.length = 4 * kw) (h8 : kw ≤ 8) {i : Nat} (hi : i < 8) :
    leWord (pad key) i = if i < kw then leWord key i else if i = kw then 1 else 0 := by
  by_cases h : i < kw
  · rw [if_pos h]
    unfold pad
    split
    · rw [leWord, leWord, List.append_assoc, List.drop_append_of_le_length (by omega), List.take_append_of_le_length (by rw [List.length_drop]; omega)]
    · rfl
  · rw [if_neg h]
    unfold pad
    rw [if_pos (by omega), leWord, List.append_assoc, show 4 * i = key.length + (4 * i - key.length) from by omega, ← List.drop_drop, List.drop_left]
    split
    · rename_i h2
      subst h2
      rw [hk, Nat.sub_self, List.drop_zero, List.singleton_append, show 31 - 4 * i = 28 - 4 * i + 1 + 1 + 1 from by omega, List.replicate_succ, List.replicate_succ, List.replicate_succ]
      rfl
    · rename_i h2
      have e : (([1] ++ List.replicate (31 - key.length) (0 : Byte)).drop (4 * i - key.length)).take 4 = List.replicate 4 0 := by
        rw [show 4 * i - key.length = 1 + (4 * i - key.length - 1) from by omega, ← List.drop_drop, show ([1] ++ List.replicate (31 - key.length) (0 : Byte) : List Byte).drop 1 =
          List.replicate (31 - key.length) 0 from rfl, List.drop_replicate, List.take_replicate]
        congr 1
        omega
      rw [e]
      decide

/-! ## The steps -/

/-- The first `n` prekeys from number `s` on are in `w`. -/
def Pre (k : Nat → Word) (s n : Nat) (w : List Word) : Prop := ∀ j, j < n → w[j]? = some (prekey k (s + j))

theorem set_get {α : Type} {w : List α} {i : Nat} (v : α) (h : i < w.length) : (w.set i v)[i]? = some v := by
  rw [List.getElem?_set_self h]

theorem polyStep_ok {k : Nat → Word} {s i c : Nat} {w : List Word} (h : Pre k s i w) (h8 : 8 ≤ i) (hl : i < w.length) (hc : c = s + i - 8) :
    ∃ w', polyStep w i c = .ok w' ∧ w'.length = w.length ∧ Pre k s (i + 1) w' := by
  refine ⟨w.set i (prekey k (s + i)), ?_, List.length_set, ?_⟩
  · rw [polyStep, rd_of (h (i - 8) (by omega)), ok_bind, rd_of (h (i - 5) (by omega)), ok_bind, rd_of (h (i - 3) (by omega)), ok_bind,
      rd_of (h (i - 1) (by omega)), ok_bind, wr_ok _ hl]
    congr 2
    conv_rhs => rw [prekey, if_neg (by omega)]
    rw [show s + (i - 8) = s + i - 8 from by omega, show s + (i - 5) = s + i - 5 from by omega, show s + (i - 3) = s + i - 3 from by omega,
      show s + (i - 1) = s + i - 1 from by omega, hc]
    rfl
  · intro j hj
    by_cases e : j = i
    · subst e; exact set_get _ hl
    · rw [List.getElem?_set_ne (by omega)]
      exact h j (by omega)

/-- Groups of four: the first `g` are round keys, the others still prekeys. -/
def Part (key : List Byte) (g : Nat) (w : List Word) : Prop :=
  w.length = 132 ∧ (∀ i, i < g → w[4 * i]? = some (roundKey key i).a ∧ w[4 * i + 1]? = some (roundKey key i).b ∧
    w[4 * i + 2]? = some (roundKey key i).c ∧ w[4 * i + 3]? = some (roundKey key i).d) ∧
  ∀ j, 4 * g ≤ j → j < 132 → w[j]? = some (prekey (leWord (pad key)) (8 + j))

theorem boxAt_ok {key : List Byte} {g k : Nat} {w : List Word} {p : List Ins} (h : Part key g w) (hg : g < 33) (hk : k = 4 * g)
    (hp : p = sbs (3 - Fin.ofNat 8 g)) : ∃ w', boxAt p w k = .ok w' ∧ Part key (g + 1) w' := by
  subst hk; subst hp
  obtain ⟨hl, h1, h2⟩ := h
  let K := roundKey key g
  have hK : sb (sbs (3 - Fin.ofNat 8 g)) ⟨prekey (leWord (pad key)) (8 + 4 * g), prekey (leWord (pad key)) (8 + (4 * g + 1)),
      prekey (leWord (pad key)) (8 + (4 * g + 2)), prekey (leWord (pad key)) (8 + (4 * g + 3))⟩ = K := by
    rw [sb_word]; rfl
  refine ⟨(((w.set (4 * g) K.a).set (4 * g + 1) K.b).set (4 * g + 2) K.c).set (4 * g + 3) K.d, ?_, ?_, ?_, ?_⟩
  · rw [boxAt, rd_of (h2 _ (Nat.le_refl _) (by omega)), ok_bind, rd_of (h2 (4 * g + 1) (by omega) (by omega)), ok_bind,
      rd_of (h2 (4 * g + 2) (by omega) (by omega)), ok_bind, rd_of (h2 (4 * g + 3) (by omega) (by omega)), ok_bind, hK]
    simp only []
    rw [wr_ok _ (by omega), ok_bind, wr_ok _ (by rw [List.length_set]; omega), ok_bind, wr_ok _ (by rw [List.length_set, List.length_set]; omega), ok_bind,
      wr_ok _ (by rw [List.length_set, List.length_set, List.length_set]; omega)]
  · rw [List.length_set, List.length_set, List.length_set, List.length_set, hl]
  · intro i hi
    by_cases e : i = g
    · subst e
      refine ⟨?_, ?_, ?_, ?_⟩
      · rw [List.getElem?_set_ne (by omega), List.getElem?_set_ne (by omega), List.getElem?_set_ne (by omega), List.getElem?_set_self (by omega)]
      · rw [List.getElem?_set_ne (by omega), List.getElem?_set_ne (by omega), List.getElem?_set_self (by rw [List.length_set]; omega)]
      · rw [List.getElem?_set_ne (by omega), List.getElem?_set_self (by rw [List.length_set, List.length_set]; omega)]
      · rw [List.getElem?_set_self (by rw [List.length_set, List.length_set, List.length_set]; omega)]
    · have hs : ∀ j, j < 4 * g → ((((w.set (4 * g) K.a).set (4 * g + 1) K.b).set (4 * g + 2) K.c).set (4 * g + 3) K.d)[j]? = w[j]? := by
        intro j hj
        rw [List.getElem?_set_ne (by omega), List.getElem?_set_ne (by omega), List.getElem?_set_ne (by omega), List.getElem?_set_ne (by omega)]
      rw [hs _ (by omega), hs _ (by omega), hs _ (by omega), hs _ (by omega)]
      exact h1 i (by omega)
  · intro j hj hj2
    rw [List.getElem?_set_ne (by omega), List.getElem?_set_ne (by omega), List.getElem?_set_ne (by omega), List.getElem?_set_ne (by omega)]
    exact h2 j (by omega) hj2

theorem boxLoop_ok {key : List Byte} {w : List Word} (h : Part key 0 w) : ∃ w', boxLoop 4 w = .ok w' ∧ Part key 33 w' := by
  have loop := loopN_inv (f := fun t w => do
    let k := 32 * t
    let w ← boxAt sb3 w k
    let w ← boxAt sb2 w (k + 4)
    let w ← boxAt sb1 w (k + 8)
    let w ← boxAt sb0 w (k + 12)
    let w ← boxAt sb7 w (k + 16)
    let w ← boxAt sb6 w (k + 20)
    let w ← boxAt sb5 w (k + 24)
    boxAt sb4 w (k + 28)) (fun t w => Part key (8 * t) w) 4 0 w ?_ h
  · obtain ⟨w', h1, h2⟩ := loop
    rw [boxLoop, h1, ok_bind]
    exact boxAt_ok h2 (by omega) (by omega) (by decide)
  · intro t w _ ht hw
    have e : ∀ r : Fin 8, 3 - Fin.ofNat 8 (8 * t + r.val) = 3 - r := by
      intro r
      rw [fin8]
    obtain ⟨w1, a1, b1⟩ := boxAt_ok (p := sb3) hw (k := 32 * t) (by omega) (by omega) (by rw [show 8 * t = 8 * t + (0 : Fin 8).val from rfl, e]; rfl)
    obtain ⟨w2, a2, b2⟩ := boxAt_ok (p := sb2) b1 (k := 32 * t + 4) (by omega) (by omega) (by rw [show 8 * t + 1 = 8 * t + (1 : Fin 8).val from rfl, e]; rfl)
    obtain ⟨w3, a3, b3⟩ := boxAt_ok (p := sb1) b2 (k := 32 * t + 8) (by omega) (by omega) (by rw [show 8 * t + 1 + 1 = 8 * t + (2 : Fin 8).val from rfl, e]; rfl)
    obtain ⟨w4, a4, b4⟩ := boxAt_ok (p := sb0) b3 (k := 32 * t + 12) (by omega) (by omega) (by rw [show 8 * t + 1 + 1 + 1 = 8 * t + (3 : Fin 8).val from rfl, e]; rfl)
    obtain ⟨w5, a5, b5⟩ := boxAt_ok (p := sb7) b4 (k := 32 * t + 16) (by omega) (by omega) (by rw [show 8 * t + 1 + 1 + 1 + 1 = 8 * t + (4 : Fin 8).val from rfl, e]; rfl)
    obtain ⟨w6, a6, b6⟩ := boxAt_ok (p := sb6) b5 (k := 32 * t + 20) (by omega) (by omega) (by rw [show 8 * t + 1 + 1 + 1 + 1 + 1 = 8 * t + (5 : Fin 8).val from rfl, e]; rfl)
    obtain ⟨w7, a7, b7⟩ := boxAt_ok (p := sb5) b6 (k := 32 * t + 24) (by omega) (by omega) (by rw [show 8 * t + 1 + 1 + 1 + 1 + 1 + 1 = 8 * t + (6 : Fin 8).val from rfl, e]; rfl)
    obtain ⟨w8, a8, b8⟩ := boxAt_ok (p := sb4) b7 (k := 32 * t + 28) (by omega) (by omega) (by rw [show 8 * t + 1 + 1 + 1 + 1 + 1 + 1 + 1 = 8 * t + (7 : Fin 8).val from rfl, e]; rfl)
    refine ⟨w8, ?_, ?_⟩
    · simp only [a1, a2, a3, a4, a5, a6, a7, a8, ok_bind]
    · rw [show 8 * (t + 1) = 8 * t + 1 + 1 + 1 + 1 + 1 + 1 + 1 + 1 from by omega]
      exact b8

/-- `StandardExpand` makes the round keys of Serpent for the reversed key. -/
theorem standardExpand_ok {key : List Byte} (hk : key.length = 16 ∨ key.length = 24 ∨ key.length = 32) :
    ∃ rk, standardExpand key = .ok rk ∧ Sched rk (roundKey key.reverse) 33 := by
  obtain ⟨kw, hkw, hkw8⟩ : ∃ kw, key.length = 4 * kw ∧ kw ≤ 8 := ⟨key.length / 4, by omega, by omega⟩
  have hd : key.length / 4 = kw := by omega
  have hrl : key.reverse.length = 4 * kw := by rw [List.length_reverse, hkw]
  -- the key
  obtain ⟨w1, a1, l1, p1, z1⟩ := loopN_inv (f := fun i w => do
    let x ← beBytesTo32 key (key.length - 4 * i - 4)
    wr w i x) (fun i w => w.length = 16 ∧ (∀ j, j < i → w[j]? = some (leWord key.reverse j)) ∧ ∀ j, i ≤ j → j < 16 → w[j]? = some (0 : Word)) kw 0
    (List.replicate 16 (0 : Word)) (by
      intro i w _ hi ⟨hl, h1, h2⟩
      refine ⟨w.set i (leWord key.reverse i), ?_, ?_, ?_, ?_⟩
      · show (do let x ← beBytesTo32 key (key.length - 4 * i - 4); wr w i x) = _
        rw [beBytesTo32_key (by omega), ok_bind, wr_ok _ (by omega)]
      · rw [List.length_set, hl]
      · intro j hj
        by_cases e : j = i
        · subst e; exact set_get _ (by omega)
        · rw [List.getElem?_set_ne (by omega)]; exact h1 j (by omega)
      · intro j hj hj2
        rw [List.getElem?_set_ne (by omega)]; exact h2 j (by omega) hj2)
    ⟨List.length_replicate, fun j hj => absurd hj (by omega), fun j _ hj => List.getElem?_replicate_of_lt hj⟩
  rw [Nat.zero_add] at p1 z1
  -- padding
  obtain ⟨w2, a2, l2, p2⟩ : ∃ w2, padKey w1 kw = .ok w2 ∧ w2.length = 16 ∧
      Pre (leWord (pad key.reverse)) 0 8 w2 := by
    by_cases h : kw < 8
    · refine ⟨w1.set kw 1, by rw [padKey, if_pos h, wr_ok _ (by omega)], by rw [List.length_set, l1], ?_⟩
      intro j hj
      rw [Nat.zero_add, prekey, if_pos hj, pad_word hrl hkw8 hj]
      by_cases e : j = kw
      · subst e; rw [if_neg (by omega), if_pos rfl]; exact set_get _ (by omega)
      · rw [List.getElem?_set_ne (by omega)]
        by_cases e2 : j < kw
        · rw [if_pos e2]; exact p1 j e2
        · rw [if_neg e2, if_neg e]; exact z1 j (by omega) (by omega)
    · refine ⟨w1, by rw [padKey, if_neg h]; rfl, l1, ?_⟩
      intro j hj
      rw [Nat.zero_add, prekey, if_pos hj, pad_word hrl hkw8 hj, if_pos (by omega)]
      exact p1 j (by omega)
  -- the first eight prekeys
  obtain ⟨w3, a3, l3, p3⟩ := loopN_inv (f := fun i w => polyStep w i (i - 8)) (fun i w => w.length = 16 ∧ Pre (leWord (pad key.reverse)) 0 i w) 8 8 w2 (by
      intro i w h8 hi ⟨hl, hp⟩
      obtain ⟨w', h1, h2, h3⟩ := polyStep_ok hp h8 (c := i - 8) (by omega) (by omega)
      exact ⟨w', h1, by omega, h3⟩) ⟨l2, p2⟩
  -- into the array
  obtain ⟨r1, a4, l4, p4⟩ : ∃ r, copy w3 8 (List.replicate 132 (0 : Word)) 0 8 = .ok r ∧ r.length = 132 ∧ Pre (leWord (pad key.reverse)) 8 8 r := by
    refine ⟨(w3.drop 8).take 8 ++ List.replicate 124 0, ?_, ?_, ?_⟩
    · rw [copy, if_neg (by decide), slice_ok (by omega), ok_bind, blit_ok (by rw [List.length_take, List.length_drop, List.length_replicate]; omega)]
      congr 1
      rw [List.take_zero, List.nil_append, List.length_take, List.length_drop, List.drop_replicate, l3]
      rfl
    · rw [List.length_append, List.length_take, List.length_drop, List.length_replicate]; omega
    · intro j hj
      rw [List.getElem?_append_left (by rw [List.length_take, List.length_drop]; omega), List.getElem?_take, if_pos hj, List.getElem?_drop]
      have := p3 (8 + j) (by omega)
      rwa [Nat.zero_add] at this
  obtain ⟨r2, a5, l5, p5⟩ := loopN_inv (f := fun i w => polyStep w i i) (fun i w => w.length = 132 ∧ Pre (leWord (pad key.reverse)) 8 i w) 124 8 r1 (by
      intro i w h8 hi ⟨hl, hp⟩
      obtain ⟨w', h1, h2, h3⟩ := polyStep_ok hp h8 (c := i) (by omega) (by omega)
      exact ⟨w', h1, by omega, h3⟩) ⟨l4, p4⟩
  obtain ⟨r3, a6, b1, b2, b3⟩ := boxLoop_ok (key := key.reverse) (w := r2) ⟨l5, fun i hi => absurd hi (by omega), fun j _ hj => p5 j hj⟩
  refine ⟨r3, ?_, b1, b2⟩
  rw [standardExpand, hd]
  rw [a1, ok_bind, a2, ok_bind, a3, ok_bind, a4, ok_bind, a5, ok_bind, a6]

/-! ## Round keys from a KDF -/

/-- Four words at a time. -/
def quads (t : List Byte) (i : Nat) : Quad Word := ⟨leWord t (4 * i), leWord t (4 * i + 1), leWord t (4 * i + 2), leWord t (4 * i + 3)⟩

theorem leWords_get : ∀ (t : List Byte) (n : Nat), t.length = 4 * n → (leWords t).length = n ∧ ∀ i, i < n → (leWords t)[i]? = some (leWord t i)
  | [], n, h => by
    have : n = 0 := by simpa using h.symm
    subst this
    exact ⟨rfl, fun i hi => absurd hi (by omega)⟩
  | [_], n, h => absurd h (by simp only [List.length_cons, List.length_nil]; omega)
  | [_, _], n, h => absurd h (by simp only [List.length_cons, List.length_nil]; omega)
  | [_, _, _], n, h => absurd h (by simp only [List.length_cons, List.length_nil]; omega)
  | a :: b :: c :: d :: t, n, h => by
    obtain ⟨m, rfl⟩ : ∃ m, n = m + 1 := ⟨n - 1, by simp only [List.length_cons] at h; omega⟩
    obtain ⟨h1, h2⟩ := leWords_get t m (by simp only [List.length_cons] at h; omega)
    refine ⟨by rw [leWords, List.length_cons, h1], ?_⟩
    intro i hi
    match i with
    | 0 => rw [leWords, List.getElem?_cons_zero, leUnrep_eq (by simp)]; rfl
    | i + 1 =>
      rw [leWords, List.getElem?_cons_succ, h2 i (by omega)]
      congr 1

theorem leWords_sched (t : List Byte) (n : Nat) (h : t.length = 16 * n) : Sched (leWords t) (quads t) n := by
  obtain ⟨h1, h2⟩ := leWords_get t (4 * n) (by omega)
  exact ⟨h1, fun i hi => ⟨h2 _ (by omega), h2 _ (by omega), h2 _ (by omega), h2 _ (by omega)⟩⟩

end Cex.Serpent
