import Verif.Pool.Model

/-!
# C98, C99 MemoryPool and LockingAllocator

A block is a pair of offset and length. `live` are the blocks that the pool has given out and not got back.
-/

namespace Cex.Pool
open Cex

/-- Two blocks have no byte in common. -/
def Apart (a b : Nat × Nat) : Prop := a.1 + a.2 ≤ b.1 ∨ b.1 + b.2 ≤ a.1

theorem Apart.symm {a b : Nat × Nat} (h : Apart a b) : Apart b a := Or.symm h

def total (l : List (Nat × Nat)) : Nat := (l.map (·.2)).sum

theorem total_append (a b : List (Nat × Nat)) : total (a ++ b) = total a + total b := by simp [total]
theorem total_cons (e : Nat × Nat) (b : List (Nat × Nat)) : total (e :: b) = e.2 + total b := by simp [total]
theorem total_nil : total [] = 0 := rfl

/-- The free entries are sorted and do not touch, no byte is in two blocks, and every byte of the pool is in one. -/
structure Inv (s : Pool) (live : List (Nat × Nat)) : Prop where
  sorted : s.free.Pairwise fun a b => a.1 + a.2 < b.1
  fits : ∀ a ∈ s.free, 0 < a.2 ∧ a.1 + a.2 ≤ s.mem.length
  apart : ∀ a ∈ s.free, ∀ b ∈ live, Apart a b
  alive : live.Pairwise Apart
  liveFits : ∀ b ∈ live, 0 < b.2 ∧ b.1 + b.2 ≤ s.mem.length
  all : total s.free + total live = s.mem.length
  align : 0 < s.align
  aligned : s.base % s.align = 0
  min : 0 < s.minAlloc
  bound : s.base + s.mem.length < 2 ^ 64

theorem clear_zero (l : List Byte) (off len : Nat) (h : off + len ≤ l.length) : clear l off len = .ok (l.take off ++ List.replicate len 0 ++ l.drop (off + len)) := by
  rw [clear]
  split
  · next h0 => subst h0; rw [List.replicate_zero, List.append_nil, Nat.add_zero, List.take_append_drop]
  · rw [blit, if_pos (by rw [List.length_replicate]; exact h), List.length_replicate]

theorem clear_len (l : List Byte) (off len : Nat) (h : off + len ≤ l.length) : (l.take off ++ List.replicate len (0 : Byte) ++ l.drop (off + len)).length = l.length := by
  simp only [List.length_append, List.length_take, List.length_drop, List.length_replicate]; omega

/-- **C98.** A new pool is zero and wholly free. -/
theorem C98_new (base : Nat) (mem : List Byte) (mn mx bit : Nat) (hm : mem ≠ []) (h1 : bit ≤ 6) (h2 : mn ≤ mx) (h3 : 0 < mn) (h4 : base % 2 ^ bit = 0) (h5 : base + mem.length < 2 ^ 64) :
    ∃ s, Pool.new base mem mn mx bit = .ok s ∧ Inv s [] ∧ s.free = [(0, mem.length)] ∧ s.mem = List.replicate mem.length 0 := by
  have hl : 0 < mem.length := List.length_pos_iff.mpr hm
  have hc := clear_zero mem 0 mem.length (by omega)
  rw [List.take_zero, Nat.zero_add, List.drop_length, List.nil_append, List.append_nil] at hc
  refine ⟨_, by rw [Pool.new, if_neg (by omega), if_neg (by omega), Pool.reset]; simp only []; rw [hc]; rfl, ?_, rfl, rfl⟩
  have hmem : (List.replicate mem.length (0 : Byte)).length = mem.length := List.length_replicate
  exact ⟨List.pairwise_singleton _ _, fun a ha => by cases List.mem_singleton.mp ha; show 0 < mem.length ∧ 0 + mem.length ≤ _; rw [hmem]; omega, fun _ _ b hb => absurd hb List.not_mem_nil,
    List.Pairwise.nil, fun b hb => absurd hb List.not_mem_nil, by show mem.length + 0 + 0 = _; rw [hmem]; rfl, Nat.two_pow_pos bit, h4, h3, by show base + _ < _; rw [hmem]; exact h5⟩

/-! ## Allocation -/

theorem pad_aligned (n al : Nat) (h : 0 < al) : (n + padSize n al) % al = 0 := by
  rw [padSize]
  split
  · next h0 => rw [Nat.add_zero, h0]
  · have hlt := Nat.mod_lt n h
    have hd := Nat.div_add_mod n al
    have : n + (al - n % al) = al * (n / al + 1) := by rw [Nat.mul_add, Nat.mul_one]; omega
    rw [this, Nat.mul_mod_right]

/-- The result of the loop, when no entry fits perfectly. -/
theorem scan_spec (base len al : Nat) : ∀ (l : List (Nat × Nat)) (i : Nat) (best : Option (Nat × Nat × Nat)), (∀ e ∈ l, ¬ (e.2 = len ∧ e.1 % al = 0)) →
    ∃ r, scan base len al i best l = .ok r ∧ ((r = best ∧ (best = none → ∀ e ∈ l, e.2 < len + padSize e.1 al)) ∨
      ∃ A e B, l = A ++ e :: B ∧ r = some (i + A.length, e) ∧ len + padSize e.1 al ≤ e.2)
  | [], i, best, _ => ⟨best, rfl, .inl ⟨rfl, fun _ e he => absurd he List.not_mem_nil⟩⟩
  | e :: l, i, best, h => by
    have he := h e List.mem_cons_self
    have hl : ∀ x ∈ l, ¬ (x.2 = len ∧ x.1 % al = 0) := fun x hx => h x (List.mem_cons_of_mem _ hx)
    rw [scan, if_neg he]
    split
    · next hb =>
      obtain ⟨r, h1, h2⟩ := scan_spec base len al l (i + 1) (some (i, e)) hl
      refine ⟨r, h1, .inr ?_⟩
      rcases h2 with ⟨h2, _⟩ | ⟨A, x, B, h2, h3, h4⟩
      · exact ⟨[], e, l, rfl, by rw [h2]; rfl, hb.2⟩
      · exact ⟨e :: A, x, B, by rw [h2]; rfl, by rw [h3, List.length_cons]; congr 2; omega, h4⟩
    · next hb =>
      obtain ⟨r, h1, h2⟩ := scan_spec base len al l (i + 1) best hl
      refine ⟨r, h1, ?_⟩
      rcases h2 with ⟨h2, h3⟩ | ⟨A, x, B, h2, h3, h4⟩
      · refine .inl ⟨h2, fun hn y hy => ?_⟩
        rcases List.mem_cons.mp hy with rfl | hy
        · have : better best y = true := by rw [hn]; rfl
          exact Nat.lt_of_not_le fun hle => hb ⟨this, hle⟩
        · exact h3 hn y hy
      · exact .inr ⟨e :: A, x, B, by rw [h2]; rfl, by rw [h3, List.length_cons]; congr 2; omega, h4⟩

/-- A perfect fit anywhere in the list is reached. -/
theorem scan_perfect (base len al : Nat) (hb : base % al = 0) : ∀ (l : List (Nat × Nat)) (i : Nat) (best : Option (Nat × Nat × Nat)), (∃ e ∈ l, e.2 = len ∧ e.1 % al = 0) →
    scan base len al i best l = .error .ub
  | [], _, _, h => by obtain ⟨e, he, _⟩ := h; exact absurd he List.not_mem_nil
  | e :: l, i, best, h => by
    by_cases he : e.2 = len ∧ e.1 % al = 0
    · rw [scan, if_pos he, if_neg (by rw [Nat.add_mod, hb, he.2]; simp)]; rfl
    · have : ∃ x ∈ l, x.2 = len ∧ x.1 % al = 0 := by
        obtain ⟨x, hx, h⟩ := h
        rcases List.mem_cons.mp hx with rfl | hx
        · exact absurd h he
        · exact ⟨x, hx, h⟩
      rw [scan, if_neg he]
      split <;> exact scan_perfect base len al hb l _ _ this

theorem replace_sorted {A B mid : List (Nat × Nat)} {e : Nat × Nat} (h : (A ++ e :: B).Pairwise fun a b => a.1 + a.2 < b.1) (hm : mid.Pairwise fun a b => a.1 + a.2 < b.1)
    (hin : ∀ m ∈ mid, e.1 ≤ m.1 ∧ m.1 + m.2 ≤ e.1 + e.2) : (A ++ mid ++ B).Pairwise fun a b => a.1 + a.2 < b.1 := by
  rw [List.pairwise_append, List.pairwise_cons] at h
  obtain ⟨h1, ⟨h2, h3⟩, h4⟩ := h
  rw [List.append_assoc, List.pairwise_append, List.pairwise_append]
  refine ⟨h1, ⟨hm, h3, fun m hm b hb => ?_⟩, fun a ha b hb => ?_⟩
  · have := hin m hm; have := h2 b hb; omega
  · rcases List.mem_append.mp hb with hb | hb
    · have := hin b hb; have := h4 a ha e List.mem_cons_self; omega
    · exact h4 a ha b (List.mem_cons_of_mem _ hb)

theorem rest_mem {f z len pad : Nat} (h : len + pad ≤ z) : ∀ m ∈ rest f z len pad, f ≤ m.1 ∧ m.1 + m.2 ≤ f + z ∧ Apart m (f + pad, len) := by
  intro m hm
  rw [rest] at hm
  unfold Apart
  split at hm
  · split at hm
    · cases List.mem_singleton.mp hm; refine ⟨?_, ?_, ?_⟩ <;> dsimp only <;> omega
    · rcases List.mem_cons.mp hm with rfl | hm
      · refine ⟨?_, ?_, ?_⟩ <;> dsimp only <;> omega
      · cases List.mem_singleton.mp hm; refine ⟨?_, ?_, ?_⟩ <;> dsimp only <;> omega
  · cases List.mem_singleton.mp hm; refine ⟨?_, ?_, ?_⟩ <;> dsimp only <;> omega

theorem rest_pos {f z len pad : Nat} (h : len + pad ≤ z) (hp : pad = 0 → z ≠ len) : ∀ m ∈ rest f z len pad, 0 < m.2 := by
  intro m hm
  rw [rest] at hm
  split at hm
  · split at hm
    · cases List.mem_singleton.mp hm; dsimp only; omega
    · rcases List.mem_cons.mp hm with rfl | hm
      · dsimp only; omega
      · cases List.mem_singleton.mp hm; dsimp only; omega
  · cases List.mem_singleton.mp hm; dsimp only; omega

theorem rest_sorted {f z len pad : Nat} (hl : 0 < len) : (rest f z len pad).Pairwise fun a b => a.1 + a.2 < b.1 := by
  rw [rest]
  split
  · split
    · exact List.pairwise_singleton _ _
    · rw [List.pairwise_cons]
      refine ⟨fun b hb => ?_, List.pairwise_singleton _ _⟩
      cases List.mem_singleton.mp hb; dsimp only; omega
  · exact List.pairwise_singleton _ _

theorem rest_total {f z len pad : Nat} (h : len + pad ≤ z) : total (rest f z len pad) + len = z := by
  rw [rest]
  split
  · split
    · rw [total_cons, total_nil]; dsimp only; omega
    · rw [total_cons, total_cons, total_nil]; dsimp only; omega
  · rw [total_cons, total_nil]; dsimp only; omega

/-- **C98.** Unless a free entry has exactly the asked length, `Allocate` gives a block inside the pool that is aligned, zeroed and apart from all blocks given out before, and changes no byte outside of it;
or it gives the null pointer and no free entry can hold the block. -/
theorem C98_allocate_partial (s : Pool) (live : List (Nat × Nat)) (h : Inv s live) (len : Nat) (hp : ∀ e ∈ s.free, ¬ (e.2 = len ∧ e.1 % s.align = 0)) :
    (∃ s' off, s.allocate len = .ok (s', some off) ∧ Inv s' ((off, len) :: live) ∧ off + len ≤ s.mem.length ∧ (s.base + off) % s.align = 0 ∧ (∀ b ∈ live, Apart (off, len) b) ∧
      s'.mem = s.mem.take off ++ List.replicate len 0 ++ s.mem.drop (off + len)) ∨
    (s.allocate len = .ok (s, none) ∧ (len ≤ s.mem.length → s.minAlloc ≤ len → len ≤ s.maxAlloc → ∀ e ∈ s.free, e.2 < len + padSize e.1 s.align)) := by
  by_cases hr : len ≤ s.mem.length ∧ s.minAlloc ≤ len ∧ len ≤ s.maxAlloc
  · obtain ⟨r, h1, h2⟩ := scan_spec s.base len s.align s.free 0 none hp
    rw [Pool.allocate, if_pos hr, h1, ok_bind]
    rcases h2 with ⟨rfl, h2⟩ | ⟨A, ⟨f, z⟩, B, hf, rfl, hz⟩
    · exact .inr ⟨rfl, fun _ _ _ => h2 rfl⟩
    · refine .inl ?_
      dsimp only at hz ⊢
      have hmem : (f, z) ∈ s.free := by rw [hf]; simp
      obtain ⟨hz0, hzl⟩ := h.fits _ hmem
      dsimp only at hz0 hzl
      have hlen : 0 < len := Nat.lt_of_lt_of_le h.min hr.2.1
      have hin : f + padSize f s.align + len ≤ s.mem.length := by omega
      have hal : (s.base + (f + padSize f s.align)) % s.align = 0 := by rw [Nat.add_mod, h.aligned, pad_aligned _ _ h.align]; simp
      have hap : ∀ b ∈ live, Apart (f + padSize f s.align, len) b := fun b hb => by
        have := h.apart _ hmem b hb
        unfold Apart at this ⊢; dsimp only at this ⊢; omega
      have hperf : padSize f s.align = 0 → z ≠ len := fun h0 he => hp _ hmem ⟨he, by
        have := pad_aligned f _ h.align; rw [h0, Nat.add_zero] at this; exact this⟩
      have hcl := clear_len s.mem (f + padSize f s.align) len hin
      rw [clear_zero s.mem _ len hin, ok_bind, if_neg (by rw [Nat.add_assoc, hal]; simp)]
      refine ⟨_, _, rfl, ?_, hin, hal, hap, rfl⟩
      have htake : s.free.take (0 + A.length) = A := by rw [hf, Nat.zero_add, List.take_left]
      have hdrop : s.free.drop (0 + A.length + 1) = B := by rw [hf, Nat.zero_add, ← List.drop_drop, List.drop_left]; rfl
      have hrm := rest_mem (f := f) hz
      have hmemf : ∀ a, a ∈ A ++ rest f z len (padSize f s.align) ++ B → a ∈ s.free ∨ a ∈ rest f z len (padSize f s.align) := fun a ha => by
        rw [hf]
        rcases List.mem_append.mp ha with ha | ha
        · rcases List.mem_append.mp ha with ha | ha
          · exact .inl (List.mem_append_left _ ha)
          · exact .inr ha
        · exact .inl (List.mem_append_right _ (List.mem_cons_of_mem _ ha))
      have hAB : ∀ a, a ∈ A ∨ a ∈ B → Apart a (f, z) := fun a ha => by
        have hs := h.sorted
        rw [hf, List.pairwise_append, List.pairwise_cons] at hs
        unfold Apart
        rcases ha with ha | ha
        · have := hs.2.2 a ha _ List.mem_cons_self; dsimp only at this ⊢; omega
        · have := hs.2.1.1 a ha; dsimp only at this ⊢; omega
      constructor
      · show (s.free.take (0 + A.length) ++ _ ++ s.free.drop (0 + A.length + 1)).Pairwise _
        rw [htake, hdrop]
        exact replace_sorted (e := (f, z)) (by rw [← hf]; exact h.sorted) (rest_sorted hlen) (fun m hm => ⟨(hrm m hm).1, (hrm m hm).2.1⟩)
      · show ∀ a ∈ s.free.take (0 + A.length) ++ _ ++ s.free.drop (0 + A.length + 1), 0 < a.2 ∧ a.1 + a.2 ≤ List.length (_ ++ _ ++ _)
        rw [htake, hdrop, hcl]
        intro a ha
        rcases hmemf a ha with ha | ha
        · exact h.fits a ha
        · have := hrm a ha; exact ⟨rest_pos hz hperf a ha, by omega⟩
      · show ∀ a ∈ s.free.take (0 + A.length) ++ _ ++ s.free.drop (0 + A.length + 1), _
        rw [htake, hdrop]
        intro a ha b hb
        have key : Apart a (f + padSize f s.align, len) ∧ ∀ b ∈ live, Apart a b := by
          rcases List.mem_append.mp ha with ha' | ha'
          · rcases List.mem_append.mp ha' with ha' | ha'
            · refine ⟨?_, fun b hb => h.apart a (by rw [hf]; exact List.mem_append_left _ ha') b hb⟩
              have := hAB a (.inl ha'); unfold Apart at this ⊢; dsimp only at this ⊢; omega
            · refine ⟨(hrm a ha').2.2, fun b hb => ?_⟩
              have h1 := hrm a ha'
              have h2 := h.apart _ hmem b hb
              unfold Apart at h2 ⊢; dsimp only at h2; omega
          · refine ⟨?_, fun b hb => h.apart a (by rw [hf]; exact List.mem_append_right _ (List.mem_cons_of_mem _ ha')) b hb⟩
            have := hAB a (.inr ha'); unfold Apart at this ⊢; dsimp only at this ⊢; omega
        rcases List.mem_cons.mp hb with rfl | hb
        · exact key.1
        · exact key.2 b hb
      · exact List.pairwise_cons.mpr ⟨hap, h.alive⟩
      · show ∀ b ∈ ((f + padSize f s.align, len) :: live : List (Nat × Nat)), 0 < b.2 ∧ b.1 + b.2 ≤ List.length (_ ++ _ ++ _)
        rw [hcl]
        intro b hb
        rcases List.mem_cons.mp hb with rfl | hb
        · exact ⟨hlen, hin⟩
        · exact h.liveFits b hb
      · show total (s.free.take (0 + A.length) ++ _ ++ s.free.drop (0 + A.length + 1)) + total (_ :: live) = List.length (_ ++ _ ++ _)
        rw [htake, hdrop, hcl, ← h.all, hf, total_append, total_append, total_append, total_cons, total_cons]
        have := rest_total (f := f) hz
        dsimp only; omega
      · exact h.align
      · exact h.aligned
      · exact h.min
      · show s.base + List.length (_ ++ _ ++ _) < _
        rw [hcl]; exact h.bound
  · rw [Pool.allocate, if_neg hr]
    exact .inr ⟨rfl, fun a b c => absurd ⟨a, b, c⟩ hr⟩

/-- **C98**, refuted: a request for exactly the length of an aligned free entry uses an iterator that the erasure has made invalid. -/
theorem C98_allocate_perfect_ub (s : Pool) (live : List (Nat × Nat)) (h : Inv s live) (len : Nat) (h1 : s.minAlloc ≤ len) (h2 : len ≤ s.maxAlloc) (h3 : ∃ e ∈ s.free, e.2 = len ∧ e.1 % s.align = 0) :
    s.allocate len = .error .ub := by
  have hl : len ≤ s.mem.length := by obtain ⟨e, he, h4, _⟩ := h3; have := h.fits e he; omega
  rw [Pool.allocate, if_pos ⟨hl, h1, h2⟩, scan_perfect _ _ _ h.aligned _ _ _ h3]; rfl

/-! ## Release -/

theorem below_above (p : Nat) (l : List (Nat × Nat)) : below p l ++ above p l = l := List.takeWhile_append_dropWhile

theorem mem_below {p : Nat} : ∀ {l : List (Nat × Nat)} {a}, a ∈ below p l → a.1 < p
  | [], _, h => absurd h List.not_mem_nil
  | e :: l, a, h => by
    rw [below, List.takeWhile_cons] at h
    split at h
    · next he =>
      rcases List.mem_cons.mp h with rfl | h
      · exact of_decide_eq_true he
      · exact mem_below h
    · exact absurd h List.not_mem_nil

theorem mem_above {p : Nat} : ∀ {l : List (Nat × Nat)}, (l.Pairwise fun a b => a.1 + a.2 < b.1) → ∀ {a}, a ∈ above p l → p ≤ a.1
  | [], _, _, h => absurd h List.not_mem_nil
  | e :: l, hs, a, h => by
    rw [List.pairwise_cons] at hs
    rw [above, List.dropWhile_cons] at h
    split at h
    · exact mem_above hs.2 h
    · next he =>
      have he : p ≤ e.1 := by simpa using he
      rcases List.mem_cons.mp h with rfl | h
      · exact he
      · have := hs.1 a h; omega

/-- What the merges make of the free list: the new entry `m` covers the block, the touching entry `x` before it and the touching entry `y` behind it. -/
theorem merged (p len : Nat) (hl : 0 < len) (a b : List (Nat × Nat)) : ∃ A B x y lo hi, a = A ++ x ∧ b = y ++ B ∧
    (let m := mergeNext p len b; mergePrev p m.2 a m.1) = .ok (A ++ (lo, hi - lo) :: B) ∧
    ((x = [] ∧ lo = p ∧ ∀ e, a.getLast? = some e → e.1 + e.2 ≠ p) ∨ ∃ e, x = [e] ∧ lo = e.1 ∧ e.1 + e.2 = p) ∧
    ((y = [] ∧ hi = p + len ∧ ∀ e, b.head? = some e → p + len ≠ e.1) ∨ ∃ e, y = [e] ∧ e.1 = p + len ∧ hi = p + len + e.2) := by
  have prevCases : (∀ e, a.getLast? = some e → e.1 + e.2 ≠ p) ∨ ∃ A e, a = A ++ [e] ∧ e.1 + e.2 = p := by
    rcases List.eq_nil_or_concat a with rfl | ⟨A, e, rfl⟩
    · exact .inl fun e he => by cases he
    · by_cases h : e.1 + e.2 = p
      · exact .inr ⟨A, e, by rw [List.concat_eq_append], h⟩
      · exact .inl fun x hx => by rw [List.concat_eq_append, List.getLast?_concat] at hx; cases hx; exact h
  have noPrev : ∀ n b', (∀ e, a.getLast? = some e → e.1 + e.2 ≠ p) → mergePrev p n a b' = .ok (if n ≠ 0 then a ++ (p, n) :: b' else a ++ b') := fun n b' h => by
    rw [mergePrev]
    cases hg : a.getLast? with
    | none => rfl
    | some e => dsimp only; rw [if_neg (h e hg)]; rfl
  by_cases hn : ∃ e B, b = e :: B ∧ p + len = e.1
  · obtain ⟨e, B, rfl, he⟩ := hn
    have hm : mergeNext p len (e :: B) = ((p, e.2 + len) :: B, 0) := by rw [mergeNext, if_pos he]
    rcases prevCases with hp | ⟨A, x, rfl, hx⟩
    · refine ⟨a, B, [], [e], p, p + len + e.2, by simp, rfl, ?_, .inl ⟨rfl, rfl, hp⟩, .inr ⟨e, rfl, he.symm, rfl⟩⟩
      rw [hm]; dsimp only
      rw [noPrev _ _ hp, if_neg (by simp), show p + len + e.2 - p = e.2 + len from by omega]
    · refine ⟨A, B, [x], [e], x.1, p + len + e.2, rfl, rfl, ?_, .inr ⟨x, rfl, rfl, hx⟩, .inr ⟨e, rfl, he.symm, rfl⟩⟩
      rw [hm]; dsimp only
      rw [mergePrev, List.getLast?_concat]; dsimp only
      rw [if_pos hx, if_neg (by simp), List.dropLast_concat, show p + len + e.2 - x.1 = x.2 + (e.2 + len) from by omega]
      rfl
  · have hm : mergeNext p len b = (b, len) := by
      cases b with
      | nil => rfl
      | cons e B => rw [mergeNext, if_neg (fun h => hn ⟨e, B, rfl, h⟩)]
    have hh : ∀ e, b.head? = some e → p + len ≠ e.1 := fun e he hpe => by
      cases b with
      | nil => cases he
      | cons x B => cases he; exact hn ⟨_, B, rfl, hpe⟩
    rcases prevCases with hp | ⟨A, x, rfl, hx⟩
    · refine ⟨a, b, [], [], p, p + len, by simp, rfl, ?_, .inl ⟨rfl, rfl, hp⟩, .inl ⟨rfl, rfl, hh⟩⟩
      rw [hm]; dsimp only
      rw [noPrev _ _ hp, if_pos (by omega), show p + len - p = len from by omega]
    · refine ⟨A, b, [x], [], x.1, p + len, rfl, rfl, ?_, .inr ⟨x, rfl, rfl, hx⟩, .inl ⟨rfl, rfl, hh⟩⟩
      rw [hm]; dsimp only
      rw [mergePrev, List.getLast?_concat]; dsimp only
      rw [if_pos hx, if_pos (by omega), List.dropLast_concat, show p + len - x.1 = x.2 + len from by omega]
      rfl

/-- **C98.** A block that was given out can be given back: it is zeroed, nothing else is changed, and its bytes are free again. -/
theorem C98_deallocate (s : Pool) (L1 L2 : List (Nat × Nat)) (p len : Nat) (h : Inv s (L1 ++ (p, len) :: L2)) :
    ∃ s', s.deallocate (s.base + p) len = .ok (s', true) ∧ Inv s' (L1 ++ L2) ∧ s'.mem = s.mem.take p ++ List.replicate len 0 ++ s.mem.drop (p + len) := by
  have hm : (p, len) ∈ L1 ++ (p, len) :: L2 := by simp
  obtain ⟨hlen, hin⟩ := h.liveFits _ hm
  dsimp only at hlen hin
  have hb := h.bound
  have hcl := clear_len s.mem p len hin
  obtain ⟨A, B, x, y, lo, hi, ha, hb', hmerge, hx, hy⟩ := merged p len hlen (below p s.free) (above p s.free)
  have hfree : s.free = A ++ x ++ (y ++ B) := by rw [← ha, ← hb', below_above]
  have hsub : ∀ b ∈ L1 ++ L2, b ∈ L1 ++ (p, len) :: L2 := fun b hb => by
    rcases List.mem_append.mp hb with hb | hb
    · exact List.mem_append_left _ hb
    · exact List.mem_append_right _ (List.mem_cons_of_mem _ hb)
  have hdead : ∀ b ∈ L1 ++ L2, Apart (p, len) b := fun b hb => by
    have hal := h.alive
    rw [List.pairwise_append, List.pairwise_cons] at hal
    rcases List.mem_append.mp hb with hb | hb
    · exact (hal.2.2 b hb _ List.mem_cons_self).symm
    · exact hal.2.1.1 b hb
  have hlow : ∀ a ∈ A ++ x, a.1 + a.2 ≤ p ∧ 0 < a.2 := fun a haA => by
    have h1 := mem_below (by rw [ha]; exact haA : a ∈ below p s.free)
    have hmem : a ∈ s.free := by rw [hfree]; exact List.mem_append_left _ haA
    have h2 := h.apart a hmem _ hm
    have h3 := h.fits a hmem
    unfold Apart at h2; dsimp only at h2; omega
  have hhigh : ∀ b ∈ y ++ B, p + len ≤ b.1 ∧ 0 < b.2 ∧ b.1 + b.2 ≤ s.mem.length := fun b hbB => by
    have h1 := mem_above h.sorted (by rw [hb']; exact hbB : b ∈ above p s.free)
    have hmem : b ∈ s.free := by rw [hfree]; exact List.mem_append_right _ hbB
    have h2 := h.apart b hmem _ hm
    have h3 := h.fits b hmem
    unfold Apart at h2; dsimp only at h2; omega
  have hs := h.sorted
  rw [hfree, List.pairwise_append, List.pairwise_append, List.pairwise_append] at hs
  obtain ⟨⟨sA, _, sAx⟩, ⟨_, sB, syB⟩, sAB⟩ := hs
  have hlo : lo ≤ p ∧ ∀ a ∈ A, a.1 + a.2 < lo := by
    rcases hx with ⟨rfl, rfl, hx⟩ | ⟨e, rfl, rfl, hx⟩
    · refine ⟨Nat.le_refl _, fun a haA => ?_⟩
      rw [List.append_nil] at ha hlow
      rcases List.eq_nil_or_concat A with rfl | ⟨A', e, rfl⟩
      · exact absurd haA List.not_mem_nil
      · rw [List.concat_eq_append] at *
        have h1 := hx e (by rw [ha, List.getLast?_concat])
        have h2 := hlow e (by simp)
        rcases List.mem_append.mp haA with h3 | h3
        · rw [List.pairwise_append] at sA
          have := sA.2.2 a h3 e List.mem_cons_self
          omega
        · cases List.mem_singleton.mp h3; omega
    · exact ⟨by omega, fun a haA => sAx a haA e List.mem_cons_self⟩
  have hhi : p + len ≤ hi ∧ hi ≤ s.mem.length ∧ ∀ b ∈ B, hi < b.1 := by
    rcases hy with ⟨rfl, rfl, hy⟩ | ⟨e, rfl, he, rfl⟩
    · refine ⟨Nat.le_refl _, hin, fun b hbB => ?_⟩
      rw [List.nil_append] at hb' hhigh
      cases B with
      | nil => exact absurd hbB List.not_mem_nil
      | cons e B =>
        have h1 := hy e (by rw [hb']; rfl)
        have h2 := hhigh e List.mem_cons_self
        rcases List.mem_cons.mp hbB with rfl | h3
        · omega
        · have := (List.pairwise_cons.mp sB).1 b h3; omega
    · have h2 := hhigh e (by simp)
      refine ⟨by omega, by omega, fun b hbB => ?_⟩
      have := syB e List.mem_cons_self b hbB; omega
  have hnew : ∀ b ∈ L1 ++ L2, Apart (lo, hi - lo) b := fun b hb => by
    have h0 := hdead b hb
    have h1 : lo = p ∨ ∃ e ∈ s.free, lo = e.1 ∧ e.1 + e.2 = p := by
      rcases hx with ⟨_, rfl, _⟩ | ⟨e, rfl, rfl, hx⟩
      · exact .inl rfl
      · exact .inr ⟨e, by rw [hfree]; simp, rfl, hx⟩
    have h2 : hi = p + len ∨ ∃ e ∈ s.free, e.1 = p + len ∧ hi = p + len + e.2 := by
      rcases hy with ⟨_, rfl, _⟩ | ⟨e, rfl, he, rfl⟩
      · exact .inl rfl
      · exact .inr ⟨e, by rw [hfree]; simp, he, rfl⟩
    have hbp := (h.liveFits b (hsub b hb)).1
    clear hx hy
    unfold Apart at h0 ⊢
    dsimp only at h0 ⊢
    rcases h1 with rfl | ⟨e1, m1, rfl, q1⟩ <;> rcases h2 with rfl | ⟨e2, m2, q2, rfl⟩
    · omega
    · have a2 := h.apart e2 m2 b (hsub b hb); unfold Apart at a2; omega
    · have a1 := h.apart e1 m1 b (hsub b hb); unfold Apart at a1; omega
    · have a1 := h.apart e1 m1 b (hsub b hb); have a2 := h.apart e2 m2 b (hsub b hb); unfold Apart at a1 a2; omega
  refine ⟨{ s with mem := s.mem.take p ++ List.replicate len 0 ++ s.mem.drop (p + len), free := A ++ (lo, hi - lo) :: B }, ?_, ?_, rfl⟩
  · rw [Pool.deallocate, if_pos ⟨by omega, by rw [Nat.mod_eq_of_lt (by omega), Nat.mod_eq_of_lt (by omega)]; omega⟩]
    dsimp only
    rw [Nat.add_sub_cancel_left, clear_zero s.mem p len hin, ok_bind]
    dsimp only at hmerge
    rw [hmerge, ok_bind]; rfl
  · have hmemf : ∀ a ∈ A ++ (lo, hi - lo) :: B, a = (lo, hi - lo) ∨ a ∈ s.free := fun a haA => by
      rw [hfree]
      rcases List.mem_append.mp haA with h1 | h1
      · exact .inr (by simp [h1])
      · rcases List.mem_cons.mp h1 with h1 | h1
        · exact .inl h1
        · exact .inr (by simp [h1])
    constructor
    · show (A ++ (lo, hi - lo) :: B).Pairwise _
      rw [List.pairwise_append, List.pairwise_cons]
      refine ⟨sA, ⟨fun b hb => ?_, sB⟩, fun a haA b hb => ?_⟩
      · have := hhi.2.2 b hb; dsimp only; omega
      · rcases List.mem_cons.mp hb with rfl | hb
        · exact hlo.2 a haA
        · exact sAB a (List.mem_append_left _ haA) b (List.mem_append_right _ hb)
    · show ∀ a ∈ A ++ (lo, hi - lo) :: B, 0 < a.2 ∧ a.1 + a.2 ≤ List.length (_ ++ _ ++ _)
      rw [hcl]
      intro a haA
      rcases hmemf a haA with rfl | h1
      · dsimp only; omega
      · exact h.fits a h1
    · show ∀ a ∈ A ++ (lo, hi - lo) :: B, ∀ b ∈ L1 ++ L2, Apart a b
      intro a haA b hb
      rcases hmemf a haA with rfl | h1
      · exact hnew b hb
      · exact h.apart a h1 b (hsub b hb)
    · have hal := h.alive
      rw [List.pairwise_append, List.pairwise_cons] at hal
      rw [List.pairwise_append]
      exact ⟨hal.1, hal.2.1.2, fun a haA b hb => hal.2.2 a haA b (List.mem_cons_of_mem _ hb)⟩
    · show ∀ b ∈ L1 ++ L2, 0 < b.2 ∧ b.1 + b.2 ≤ List.length (_ ++ _ ++ _)
      rw [hcl]
      exact fun b hb => h.liveFits b (hsub b hb)
    · show total (A ++ (lo, hi - lo) :: B) + total (L1 ++ L2) = List.length (_ ++ _ ++ _)
      have ht := h.all
      rw [hfree, total_append, total_append, total_append, total_append, total_cons] at ht
      rw [hcl, total_append, total_cons, total_append]
      dsimp only at ht ⊢
      have tx : total x + lo = p := by
        rcases hx with ⟨rfl, rfl, _⟩ | ⟨e, rfl, rfl, hx⟩
        · rw [total_nil]; omega
        · rw [total_cons, total_nil]; omega
      have ty : hi = p + len + total y := by
        rcases hy with ⟨rfl, rfl, _⟩ | ⟨e, rfl, _, rfl⟩
        · rw [total_nil]; omega
        · rw [total_cons, total_nil]; omega
      omega
    · exact h.align
    · exact h.aligned
    · exact h.min
    · show s.base + List.length (_ ++ _ ++ _) < _
      rw [hcl]; exact h.bound

theorem sorted_total (N : Nat) : ∀ (l : List (Nat × Nat)) (lo : Nat), (l.Pairwise fun a b => a.1 + a.2 < b.1) → (∀ a ∈ l, lo ≤ a.1 ∧ a.1 + a.2 ≤ N) → l ≠ [] →
    total l + lo + (l.length - 1) ≤ N ∧ (l.length = 1 → total l + lo = N → l = [(lo, N - lo)])
  | [], _, _, _, h => absurd rfl h
  | [e], lo, _, h, _ => by
    have := h e List.mem_cons_self
    rw [total_cons, total_nil]
    refine ⟨by simp only [List.length_cons, List.length_nil]; omega, fun _ ht => ?_⟩
    obtain ⟨a, b⟩ := e
    dsimp only at this ht
    rw [show a = lo from by omega, show b = N - lo from by omega]
  | e :: x :: l, lo, hs, h, _ => by
    rw [List.pairwise_cons] at hs
    have he := h e List.mem_cons_self
    have ih := (sorted_total N (x :: l) (e.1 + e.2 + 1) hs.2 (fun a ha => ⟨hs.1 a ha, (h a (List.mem_cons_of_mem _ ha)).2⟩) (by simp)).1
    rw [total_cons]
    simp only [List.length_cons] at ih ⊢
    exact ⟨by omega, fun h1 => by omega⟩

/-- **C98.** When everything was given back, the free list is one entry with the whole pool: no memory is lost and none is split. -/
theorem C98_whole (s : Pool) (h : Inv s []) (hm : s.mem ≠ []) : s.free = [(0, s.mem.length)] := by
  have ha := h.all
  rw [total_nil, Nat.add_zero] at ha
  have hne : s.free ≠ [] := fun e => hm (List.length_eq_zero_iff.mp (by rw [← ha, e]; rfl))
  obtain ⟨h1, h2⟩ := sorted_total s.mem.length s.free 0 h.sorted (fun a hmem => ⟨Nat.zero_le _, (h.fits a hmem).2⟩) hne
  have hl : s.free.length = 1 := by have := List.length_pos_iff.mpr hne; omega
  exact h2 hl (by omega)

/-- **C98.** A block outside of the pool is not taken. -/
theorem C98_outside (s : Pool) (ptr len : Nat) (h : ptr < s.base) : s.deallocate ptr len = .ok (s, false) := by
  rw [Pool.deallocate, if_neg (by omega)]; rfl

/-- A pool of 64 bytes at the address 4096 with blocks from 1 to 64 bytes, aligned to 16. -/
def demo : M Pool := Pool.new 4096 (List.replicate 64 7) 1 64 4

/-- Three blocks of ten bytes; the second is given back. -/
example : (do
    let s ← demo
    let r ← s.allocate 10
    let r' ← r.1.allocate 10
    let r'' ← r'.1.allocate 10
    let q ← r''.1.deallocate (4096 + 16) 10
    return ([r.2, r'.2, r''.2], q.1.free, q.2)) = .ok ([some 0, some 16, some 32], [(10, 22), (42, 22)], true) := by decide +kernel

/-- **C98**, refuted: two blocks of 16 bytes; the first is given back and asked for again. Already a request for the whole new pool is undefined. -/
theorem C98_reuse_false : (do
    let s ← demo
    let r ← s.allocate 16
    let r' ← r.1.allocate 16
    let q ← r'.1.deallocate 4096 16
    q.1.allocate 16) = .error .ub ∧ (do let s ← demo; s.allocate 64) = .error .ub := by decide +kernel

/-- **C98**, refuted: `Reset` keeps the entries of the free list, so two blocks that overlap are given out after it. -/
theorem C98_reset_false : (do
    let s ← demo
    let s ← s.reset
    let r ← s.allocate 20
    let r' ← r.1.allocate 60
    return (r.2, r'.2)) = .ok (some 0, some 0) := by decide +kernel

/-! ## C99: the allocator of the secure vectors -/

/-- **C99**, refuted: for every size that can be computed, `LockingAllocator` never takes memory of the locked pool, and never returns a block to it. -/
theorem C99_never_locked (s : Pool) (n sz ptr : Nat) (h0 : sz ≠ 0) (h : n * sz < 2 ^ 64) : lockAllocate s n sz = .ok (s, none) ∧ lockDeallocate s ptr n sz = .ok (s, false) := by
  have e : ¬ (n * sz) % 2 ^ 64 / sz ≠ n := by rw [Nat.mod_eq_of_lt h, Nat.mul_div_cancel _ (Nat.pos_of_ne_zero h0)]; exact fun h => h rfl
  refine ⟨?_, ?_⟩
  · rw [lockAllocate, if_neg h0, if_neg e]; rfl
  · rw [lockDeallocate, if_neg h0, if_neg e]; rfl

/-- **C99**, refuted: when the size wraps, the caller gets a block of the pool that is shorter than asked for: every block it gets is of this kind. -/
theorem C99_short_block (s s' : Pool) (live : List (Nat × Nat)) (hi : Inv s live) (n sz off : Nat) (h : lockAllocate s n sz = .ok (s', some off)) :
    2 ^ 64 ≤ n * sz ∧ s.allocate ((n * sz) % 2 ^ 64) = .ok (s', some off) ∧ (n * sz) % 2 ^ 64 ≤ s.mem.length ∧ s.mem.length < n * sz := by
  by_cases h0 : sz = 0
  · rw [lockAllocate, if_pos h0] at h; cases h
  by_cases hw : n * sz < 2 ^ 64
  · rw [(C99_never_locked s n sz 0 h0 hw).1] at h; cases h
  · rw [lockAllocate, if_neg h0] at h
    split at h
    · refine ⟨by omega, h, ?_, ?_⟩
      · rw [Pool.allocate] at h
        split at h
        · next hr => exact hr.1
        · cases h
      · have := hi.bound; omega
    · cases h

/-- 2^60 + 1 elements of 16 bytes: a block of 16 bytes is given out. -/
theorem C99_short_block_case : (do let s ← demo; let r ← lockAllocate s (2 ^ 60 + 1) 16; return r.2) = .ok (some 0) := by decide +kernel

end Cex.Pool
