import Verif.Keccak.ObjLemmas
import Verif.Keccak.Sha3Props
import Verif.Keccak.Sha3TreeModel
import Verif.Keccak.Sha3TreeSpec

/-! # Lemmas on the parallel mode of SHA3 -/

namespace Cex.Keccak.Tree
open Cex Cex.IntTools Cex.Stream Cex.Mac Cex.Digest

variable {P : List Byte → M (List Byte)} {f : List Byte → List Byte} {r d D S : Nat}

theorem range_get (F : Nat → List Byte) {i : Nat} (h : i < S) : ((List.range S).map F)[i]? = some (F i) := by
  rw [List.getElem?_map, List.getElem?_range h]; rfl

theorem leaves_eq {g : Nat → List Byte → M (List Byte)} {F G : Nat → List Byte} (hD : D ≤ S) (H : ∀ i, i < D → g i (F i) = .ok (G i)) :
    leaves D g ((List.range S).map F) = .ok ((List.range S).map fun i => if i < D then G i else F i) := by
  obtain ⟨s', e, h⟩ := loopN_inv (f := fun i l => do let x ← rd l i; let y ← g i x; wr l i y)
    (fun j s => s = (List.range S).map fun i => if i < j then G i else F i) D 0 ((List.range S).map F) (by
      rintro j s - hj rfl
      have hj' : j < D := by omega
      have hl : j < ((List.range S).map fun i => if i < j then G i else F i).length := by rw [List.length_map, List.length_range]; omega
      refine ⟨_, ?_, rfl⟩
      rw [rd_ok hl, ok_bind]
      have e1 : ((List.range S).map fun i => if i < j then G i else F i)[j] = F j := by simp
      rw [e1, H j hj', ok_bind, wr_ok _ hl]
      congr 1
      apply List.ext_getElem?
      intro i
      rw [List.getElem?_set]
      by_cases hij : j = i
      · subst hij
        rw [if_pos rfl, if_pos hl, range_get _ (by omega), if_pos (by omega)]
      · rw [if_neg hij]
        by_cases hi : i < S
        · rw [range_get _ hi, range_get _ hi]
          congr 1
          by_cases h1 : i < j
          · rw [if_pos h1, if_pos (by omega)]
          · rw [if_neg h1, if_neg (by omega)]
        · rw [List.getElem?_eq_none (by simp; omega), List.getElem?_eq_none (by simp; omega)]) (by simp)
  rw [leaves, e, h, Nat.zero_add]

/-- Block `i` of a row. -/
def blk (r i : Nat) (b : List Byte) : List Byte := (b.drop (i * r)).take r

/-- One row. -/
def row (f : List Byte → List Byte) (r D : Nat) (F : Nat → List Byte) (b : List Byte) : Nat → List Byte := fun i => if i < D then Fips202.block f (F i) (blk r i b) else F i

/-- All states have 200 bytes. -/
def Full (F : Nat → List Byte) : Prop := ∀ i, (F i).length = 200

theorem row_full (p : Perm P f) (hr : r ≤ 200) {F : Nat → List Byte} (h : Full F) (b : List Byte) : Full (row f r D F b) := by
  intro i
  rw [row]
  split
  · exact block_length p (h i) (by rw [blk, List.length_take]; omega)
  · exact h i

theorem eager_full (p : Perm P f) (hr : r ≤ 200) (B : Nat) (F : Nat → List Byte) (m : List Byte) (h : Full F) : Full (eager B (row f r D) F m).1 := by
  induction F, m using eager.induct B (row f r D) with
  | case1 s m hm ih => rw [eager, if_pos hm]; exact ih (row_full p hr h _)
  | case2 s m hm => rw [eager, if_neg hm]; exact h

theorem blk_holds {inp x : List Byte} {io i : Nat} (hx : Holds inp io x) (hl : D * r ≤ x.length) (hi : i < D) :
    Holds inp (io + i * r) (blk r i x) ∧ (blk r i x).length = r := by
  have h1 : (i + 1) * r ≤ D * r := Nat.mul_le_mul_right _ hi
  rw [Nat.add_mul, Nat.one_mul] at h1
  refine ⟨(hx.dropN (by omega)).takeN _, ?_⟩
  rw [blk, List.length_take, List.length_drop]; omega

theorem blk_take {x : List Byte} {i : Nat} (hi : i < D) : blk r i (x.take (D * r)) = blk r i x := by
  have h1 : (i + 1) * r ≤ D * r := Nat.mul_le_mul_right _ hi
  rw [Nat.add_mul, Nat.one_mul] at h1
  rw [blk, blk, List.drop_take, List.take_take, Nat.min_eq_left (by omega)]

/-- A leaf over `q` rows. -/
theorem leaf_loop (p : Perm P f) (h0 : 0 < r) (hr : r ≤ 200) {inp x : List Byte} {io i q : Nat} (hx : Holds inp io x) (hl : x.length = q * (D * r)) (hi : i < D) (F : Nat → List Byte) (hF : Full F) :
    loopN q 0 (fun k s => absorbOne P inp (io + i * r + k * (D * r)) r s) (F i) = .ok ((eager (D * r) (row f r D) F x).1 i) := by
  have hp : 0 < D * r := Nat.mul_pos (by omega) h0
  obtain ⟨s', h1, h2⟩ := loopN_inv (f := fun k s => absorbOne P inp (io + i * r + k * (D * r)) r s)
    (fun k s => s = (eager (D * r) (row f r D) F (x.take (k * (D * r)))).1 i) q 0 (F i) (by
      intro k s _ hk hs
      have hk1 : (k + 1) * (D * r) ≤ q * (D * r) := Nat.mul_le_mul_right _ (by omega)
      rw [Nat.add_mul, Nat.one_mul] at hk1
      have hd : Holds inp (io + k * (D * r)) (x.drop (k * (D * r))) := hx.dropN (by omega)
      obtain ⟨b1, b2⟩ := blk_holds (r := r) (i := i) (D := D) hd (by rw [List.length_drop]; omega) hi
      have hsl : s.length = 200 := by rw [hs]; exact eager_full p hr _ _ _ hF i
      refine ⟨_, (by rw [show io + i * r + k * (D * r) = io + k * (D * r) + i * r by omega]; exact absorbOne_eq p b1 b2.symm hsl (by omega)), ?_⟩
      have hlk : (x.take (k * (D * r))).length = k * (D * r) := by rw [List.length_take]; omega
      have e0 : (eager (D * r) (row f r D) F (x.take (k * (D * r)))).2 = [] := by
        apply List.eq_nil_of_length_eq_zero
        rw [eager_rest_mod hp, hlk, Nat.mul_mod_left]
      rw [Nat.add_mul, Nat.one_mul, List.take_add, eager_append, e0, List.nil_append, eager_one hp (by rw [List.length_take, List.length_drop]; omega), hs]
      show _ = row f r D _ _ i
      rw [row, if_pos hi, blk_take hi]) (by rw [Nat.zero_mul, List.take_zero, eager_short (by simpa using hp)])
  rw [h1, h2, Nat.zero_add, ← hl, List.take_length]

/-- Leaves from `D` on do not change. -/
theorem eager_idle {i : Nat} (hi : ¬ i < D) (B : Nat) (F : Nat → List Byte) (m : List Byte) : (eager B (row f r D) F m).1 i = F i := by
  induction F, m using eager.induct B (row f r D) with
  | case1 s m hm ih => rw [eager, if_pos hm, ih, row, if_neg hi]
  | case2 s m hm => rw [eager, if_neg hm]

/-- The profile of an object with `D` leaves in use. -/
structure Profile (r D S : Nat) (o : Tree) : Prop where
  par : o.opts.isParallel = true
  deg : o.opts.degree = D
  dpos : 0 < D
  le : D ≤ S
  min : o.opts.min = D * r
  prl : ∃ k, 0 < k ∧ o.opts.prl = k * (D * r)

/-- The leaf states are `F` and the buffer holds `b`. -/
structure Has (r D S : Nat) (F : Nat → List Byte) (b : List Byte) (o : Tree) : Prop where
  prof : Profile r D S o
  full : Full F
  dgt : o.dgt = (List.range S).map F
  len : o.len = b.length
  lt : b.length < D * r
  buf : ∃ t, o.buf = b ++ t
  size : o.buf.length = S * r

theorem rows_ok (p : Perm P f) (h0 : 0 < r) (hr : r ≤ 200) {m k : Nat} {inp x : List Byte} {io : Nat} {F : Nat → List Byte} {o : Tree} (ho : Profile r D S o) (hF : Full F)
    (hd : o.dgt = (List.range S).map F) (hk : 0 < k) (hm : m = k * (D * r)) (hx : Holds inp io x) :
    ∃ F' x2 io', rows P r m inp (o, io, x.length) = .ok ({ o with dgt := (List.range S).map F' }, io', x2.length) ∧ Full F' ∧ Holds inp io' x2 ∧
      eager (D * r) (row f r D) F x = eager (D * r) (row f r D) F' x2 ∧ x2.length < m := by
  have hp : 0 < D * r := Nat.mul_pos ho.dpos h0
  have hmp : 0 < m := hm ▸ Nat.mul_pos hk hp
  rw [rows]
  by_cases h : x.length ≥ m
  · simp only [h, if_true, if_neg (Nat.ne_of_gt hmp)]
    have hml : x.length % m < m := Nat.mod_lt _ hmp
    have hdm := Nat.div_add_mod x.length m
    have hn : x.length - x.length % m = (x.length / m * k) * (D * r) := by
      rw [Nat.mul_assoc, ← hm, Nat.mul_comm]; omega
    generalize hnn : x.length - x.length % m = n at hn
    have hle : n ≤ x.length := by omega
    have hmn : m ≤ n := by
      have : m * 1 ≤ m * (x.length / m) := Nat.mul_le_mul_left _ (Nat.div_pos h hmp)
      omega
    have hl1 : (x.take n).length = n := by rw [List.length_take]; omega
    have hlv := leaves_eq (S := S) (F := F) (G := (eager (D * r) (row f r D) F (x.take n)).1) (g := fun i s => o.processLeaf P r inp (io + i * r) n s) ho.le (by
      intro i hi
      have hmm : D * r ≤ m := by rw [hm]; exact Nat.le_mul_of_pos_left _ hk
      rw [processLeaf, ho.min, if_neg (by omega), show n / (D * r) = x.length / m * k by rw [hn]; exact Nat.mul_div_cancel _ hp]
      exact leaf_loop p h0 hr (hx.takeN n) (hl1.trans hn) hi F hF)
    have hsame : (fun i => if i < D then (eager (D * r) (row f r D) F (x.take n)).1 i else F i) = (eager (D * r) (row f r D) F (x.take n)).1 := by
      funext i
      split
      · rfl
      · next hi => rw [eager_idle hi]
    rw [hsame] at hlv
    refine ⟨(eager (D * r) (row f r D) F (x.take n)).1, x.drop n, io + n, ?_, eager_full p hr _ _ _ hF, hx.dropN hle, ?_, ?_⟩
    · rw [hd, ho.deg, hlv, ok_bind, List.length_drop]; rfl
    · have e0 : (eager (D * r) (row f r D) F (x.take n)).2 = [] := by
        apply List.eq_nil_of_length_eq_zero
        rw [eager_rest_mod hp, hl1, hn, Nat.mul_mod_left]
      conv => lhs; rw [← List.take_append_drop n x, eager_append, e0, List.nil_append]
    · rw [List.length_drop]; omega
  · rw [if_neg h]
    refine ⟨F, x, io, ?_, hF, hx, rfl, by omega⟩
    have e : ({ o with dgt := (List.range S).map F } : Tree) = o := by rw [← hd]
    rw [e]; rfl

theorem store_ok {inp : List Byte} {io : Nat} {F : Nat → List Byte} {b x : List Byte} {o : Tree} (ho : Has r D S F b o) (hx : Holds inp io x) (hl : b.length + x.length < D * r) :
    ∃ o', store inp (o, io, x.length) = .ok o' ∧ Has r D S F (b ++ x) o' ∧ o'.par = o.par ∧ o'.opts = o.opts := by
  rw [store]
  by_cases h : x.length = 0
  · rw [if_neg (by simpa using h)]
    have : x = [] := List.eq_nil_of_length_eq_zero h
    subst this
    exact ⟨o, rfl, by rw [List.append_nil]; exact ho, rfl, rfl⟩
  · rw [if_pos h]
    obtain ⟨t, ht⟩ := ho.buf
    have hs := ho.size
    have hle : D * r ≤ S * r := Nat.mul_le_mul_right _ ho.prof.le
    rw [ht, List.length_append] at hs
    have e : o.buf = b ++ t.take x.length ++ t.drop x.length := by rw [List.append_assoc, List.take_append_drop, ht]
    simp only [e]
    rw [copy_at hx ho.len rfl (by rw [List.length_take]; omega), ok_bind]
    refine ⟨_, rfl, ⟨⟨ho.prof.par, ho.prof.deg, ho.prof.dpos, ho.prof.le, ho.prof.min, ho.prof.prl⟩, ho.full, ho.dgt, ?_, ?_, ⟨_, rfl⟩, ?_⟩, rfl, rfl⟩
    · simp [ho.len]
    · simp; omega
    · simp; omega

/-- `Update`, when the full buffer is not reached with fewer leaves in use than there are. -/
theorem update_ok (p : Perm P f) (h0 : 0 < r) (hr : r ≤ 200) {inp : List Byte} {io : Nat} {F : Nat → List Byte} {b x : List Byte} {o : Tree} (ho : Has r D S F b o)
    (hc : D = S ∨ b = []) (hx : Holds inp io x) :
    ∃ o', o.update P r inp io x.length = .ok o' ∧
      Has r D S (eager (D * r) (row f r D) F (b ++ x)).1 (eager (D * r) (row f r D) F (b ++ x)).2 o' ∧ o'.par = o.par ∧ o'.opts = o.opts := by
  have hp : 0 < D * r := Nat.mul_pos ho.prof.dpos h0
  rw [update]
  by_cases h0x : x.length = 0
  · have : x = [] := List.eq_nil_of_length_eq_zero h0x
    subst this
    rw [if_pos List.length_nil, List.append_nil, eager_short ho.lt]
    exact ⟨o, rfl, ho, rfl, rfl⟩
  · rw [if_neg h0x]
    obtain ⟨kb, hkb, hbs⟩ := ho.prof.prl
    have fill : ∃ F1 b1 x1 io1 o1, o.fill P r inp io x.length = .ok (o1, io1, x1.length) ∧ Has r D S F1 b1 o1 ∧ Holds inp io1 x1 ∧
        eager (D * r) (row f r D) F (b ++ x) = eager (D * r) (row f r D) F1 (b1 ++ x1) ∧ (b1 = [] ∨ b1.length + x1.length < D * r) ∧
        o1.par = o.par ∧ o1.opts = o.opts := by
      rw [Tree.fill]
      by_cases hf : o.len ≠ 0 ∧ x.length + o.len ≥ o.buf.length
      · rw [if_pos hf]
        have hlen := ho.len
        have hDS : D = S := by
          rcases hc with h | h
          · exact h
          · rw [h] at hlen; exact absurd hlen hf.1
        obtain ⟨t, ht⟩ := ho.buf
        have hs := ho.size
        have hlt := ho.lt
        rw [← hDS] at hs
        have hst : b.length + t.length = D * r := by rw [← hs, ht, List.length_append]
        generalize hkk : o.buf.length - o.len = k
        have hk : (x.take k).length = t.length := by rw [List.length_take]; omega
        have hcp : copy inp io o.buf o.len k = .ok (b ++ x.take k) := by
          have := copy_at (a := b) (b := t) (c := []) (off := o.len) (n := k) (hx.takeN k) hlen (by rw [List.length_take]; omega) hk.symm
          rw [List.append_nil, List.append_nil] at this
          rw [ht]; exact this
        have hb : (b ++ x.take k).length = D * r := by rw [List.length_append]; omega
        have hlv := leaves_eq (S := S) (F := F) (G := row f r D F (b ++ x.take k)) (g := fun i s => absorbOne P (b ++ x.take k) (i * r) r s) ho.prof.le (by
            intro i hi
            obtain ⟨b1, b2⟩ := blk_holds (r := r) (i := i) (D := D) (Holds.self (b ++ x.take k)) (by omega) hi
            rw [Nat.zero_add] at b1
            rw [row, if_pos hi]
            exact absorbOne_eq p b1 b2.symm (ho.full i) (by omega))
        have hsame : (fun i => if i < D then row f r D F (b ++ x.take k) i else F i) = row f r D F (b ++ x.take k) := by
          funext i
          split
          · rfl
          · next hi => rw [row, if_neg hi]
        rw [hsame] at hlv
        refine ⟨row f r D F (b ++ x.take k), [], x.drop k, io + k,
          { o with buf := b ++ x.take k, dgt := (List.range S).map (row f r D F (b ++ x.take k)), len := 0 }, ?_, ?_, hx.dropN (by omega), ?_, Or.inl rfl, rfl, rfl⟩
        · rw [hcp, ok_bind, ho.dgt, ho.prof.deg, hlv, ok_bind, List.length_drop]; rfl
        · exact ⟨⟨ho.prof.par, ho.prof.deg, ho.prof.dpos, ho.prof.le, ho.prof.min, ho.prof.prl⟩, row_full p hr ho.full _, rfl, rfl, hp, ⟨_, rfl⟩, by rw [hb, hDS]⟩
        · conv => lhs; rw [← List.take_append_drop k x, ← List.append_assoc]
          exact eager_cons hp hb
      · rw [if_neg hf]
        refine ⟨F, b, x, io, o, rfl, ho, hx, rfl, ?_, rfl, rfl⟩
        have hlen := ho.len
        have hs := ho.size
        rcases hc with hDS | h
        · rw [← hDS] at hs
          rcases Nat.eq_zero_or_pos b.length with h | h
          · exact Or.inl (List.eq_nil_of_length_eq_zero h)
          · right
            rcases Nat.lt_or_ge (b.length + x.length) (D * r) with h' | h'
            · exact h'
            · exact absurd ⟨by omega, by omega⟩ hf
        · exact .inl h
    obtain ⟨F1, b1, x1, io1, o1, e1, p1, hx1, q1, c1, pr1, bs1⟩ := fill
    obtain ⟨F2, x2, io2, e2, f2, hx2, q2, l2⟩ := rows_ok p h0 hr p1.prof p1.full p1.dgt hkb hbs hx1
    have prof2 : Profile r D S { o1 with dgt := (List.range S).map F2 } := ⟨p1.prof.par, p1.prof.deg, p1.prof.dpos, p1.prof.le, p1.prof.min, p1.prof.prl⟩
    obtain ⟨F3, x3, io3, e3, f3, hx3, q3, l3⟩ := rows_ok p h0 hr prof2 f2 rfl (k := 1) (m := o.opts.min) (by omega) (by rw [ho.prof.min, Nat.one_mul]) hx2
    rw [e1, ok_bind, e2, ok_bind, e3, ok_bind]
    rw [ho.prof.min] at l3
    have hfin : eager (D * r) (row f r D) F1 (b1 ++ x1) = (F3, b1 ++ x3) ∧ b1.length + x3.length < D * r := by
      rcases c1 with c | c
      · subst c
        rw [List.nil_append, List.nil_append, q2, q3, eager_short l3]
        exact ⟨rfl, by simpa using l3⟩
      · have s1 : eager (D * r) (row f r D) F1 x1 = (F1, x1) := eager_short (by omega)
        have s3 : eager (D * r) (row f r D) F3 x3 = (F3, x3) := eager_short l3
        rw [q2, q3, s3] at s1
        cases s1
        rw [eager_short (by rw [List.length_append]; exact c)]
        exact ⟨rfl, c⟩
    obtain ⟨o', h1, h2, h3, h4⟩ := store_ok (F := F3) (o := { o1 with dgt := (List.range S).map F3 })
      ⟨⟨p1.prof.par, p1.prof.deg, p1.prof.dpos, p1.prof.le, p1.prof.min, p1.prof.prl⟩, f3, rfl, p1.len, p1.lt, p1.buf, p1.size⟩ hx3 hfin.2
    refine ⟨o', h1, ?_, h3.trans pr1, h4.trans bs1⟩
    rw [q1, hfin.1]
    exact h2

end Cex.Keccak.Tree
