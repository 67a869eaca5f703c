import Verif.Digest.Sha2Props

/-! # The parallel mode of the SHA-2 digests -/

namespace Cex.Digest
open Cex Cex.Digest.Fips Cex.IntTools Cex.Stream

variable {w : Nat} {C : Core w} {A : MD w} {T : Nat → Ctr} {ok : Nat → Prop}

/-- Block `i` of a stripe. -/
def blk (w i : Nat) (b : List Byte) : List Byte := (b.drop (i * (2 * w))).take (2 * w)

/-- One stripe: leaf `i` takes block `i`. -/
def stripe (C : Core w) (A : MD w) (F : Nat → St w) (b : List Byte) : Nat → St w := fun i => C.step A (F i) (blk w i b)

theorem mapM_range {α : Type} (f : Nat → M α) (g : Nat → α) (d : Nat) (h : ∀ i, i < d → f i = .ok (g i)) :
    (List.range d).mapM f = .ok ((List.range d).map g) := by
  have : ∀ (l : List Nat), (∀ i ∈ l, f i = .ok (g i)) → l.mapM f = .ok (l.map g) := by
    intro l
    induction l with
    | nil => intro _; rfl
    | cons a l ih =>
      intro hl
      rw [List.mapM_cons, hl a (by simp), ok_bind, ih (fun i hi => hl i (by simp [hi]))]
      rfl
  exact this _ (fun i hi => h i (List.mem_range.mp hi))

/-- A parallel object after the leaf states `F` with `r` in the buffer. -/
structure PAbs (w d : Nat) (F : Nat → St w) (r : List Byte) (o : Obj w) : Prop where
  par : o.par = true
  deg : o.degree = d
  dpos : 0 < d
  dgt : o.dgt = (List.range d).map F
  min : o.minSize = d * (2 * w)
  blk : ∃ k, 0 < k ∧ o.blockSize = k * (d * (2 * w))
  len : o.len = r.length
  lt : r.length < d * (2 * w)
  buf : ∃ t, o.buf = r ++ t
  size : o.buf.length = d * (2 * w)

theorem leaves_ok {d : Nat} {F F' : Nat → St w} {o : Obj w} {f : Nat → St w → M (St w)} (hd : o.degree = d) (hF : o.dgt = (List.range d).map F)
    (h : ∀ i, i < d → f i (F i) = .ok (F' i)) : o.leaves f = .ok { o with dgt := (List.range d).map F' } := by
  rw [Obj.leaves, hd, mapM_range _ F' d, ok_bind, hF]
  · simp
  · intro i hi
    rw [hF, rd_map F hi, ok_bind, h i hi]

theorem blk_holds {inp x : List Byte} {io i d : Nat} (hx : Holds inp io x) (hl : d * (2 * w) ≤ x.length) (hi : i < d) :
    Holds inp (io + i * (2 * w)) (blk w i x) ∧ (blk w i x).length = 2 * w := by
  have h1 : (i + 1) * (2 * w) ≤ d * (2 * w) := Nat.mul_le_mul_right _ hi
  rw [Nat.add_mul, Nat.one_mul] at h1
  refine ⟨(hx.dropN (by omega)).takeN _, ?_⟩
  rw [blk, List.length_take, List.length_drop]; omega

theorem blk_take {x : List Byte} {i d : Nat} (hi : i < d) : blk w i (x.take (d * (2 * w))) = blk w i x := by
  have h1 : (i + 1) * (2 * w) ≤ d * (2 * w) := Nat.mul_le_mul_right _ hi
  rw [Nat.add_mul, Nat.one_mul] at h1
  rw [blk, blk, List.drop_take, List.take_take, Nat.min_eq_left (by omega)]

/-- A leaf over `q` stripes. -/
theorem leaf_loop (g : C.Good A T ok) {inp x : List Byte} {io i d q : Nat} (hx : Holds inp io x) (hl : x.length = q * (d * (2 * w))) (hi : i < d) (F : Nat → St w) :
    loopN q 0 (fun k s => C.permute inp (io + i * (2 * w) + k * (d * (2 * w))) s) (F i) =
      .ok ((eager (d * (2 * w)) (stripe C A) F x).1 i) := by
  have hp : 0 < d * (2 * w) := Nat.mul_pos (by omega) g.pos
  obtain ⟨s', h1, h2⟩ := loopN_inv (f := fun k s => C.permute inp (io + i * (2 * w) + k * (d * (2 * w))) s)
    (fun k s => s = (eager (d * (2 * w)) (stripe C A) F (x.take (k * (d * (2 * w))))).1 i) q 0 (F i) (by
      intro k s _ hk hs
      have hk1 : (k + 1) * (d * (2 * w)) ≤ q * (d * (2 * w)) := Nat.mul_le_mul_right _ (by omega)
      rw [Nat.add_mul, Nat.one_mul] at hk1
      have hd : Holds inp (io + k * (d * (2 * w))) (x.drop (k * (d * (2 * w)))) := hx.dropN (by omega)
      obtain ⟨b1, b2⟩ := blk_holds (w := w) (i := i) (d := d) hd (by rw [List.length_drop]; omega) hi
      refine ⟨_, (by rw [show io + i * (2 * w) + k * (d * (2 * w)) = io + k * (d * (2 * w)) + i * (2 * w) by omega]; exact permute_ok g b1 b2 s), ?_⟩
      have hlk : (x.take (k * (d * (2 * w)))).length = k * (d * (2 * w)) := by rw [List.length_take]; omega
      have e0 : (eager (d * (2 * w)) (stripe C A) F (x.take (k * (d * (2 * w))))).2 = [] := by
        apply List.eq_nil_of_length_eq_zero
        rw [eager_rest_mod hp, hlk, Nat.mul_mod_left]
      rw [Nat.add_mul, Nat.one_mul, List.take_add, eager_append, e0, List.nil_append, eager_one hp (by rw [List.length_take, List.length_drop]; omega),
        hs]
      show _ = C.step A _ (blk w i _)
      rw [blk_take hi]) (by rw [Nat.zero_mul, List.take_zero, eager_short (by simpa using hp)])
  rw [h1, h2, Nat.zero_add, ← hl, List.take_length]

theorem stripes_ok (g : C.Good A T ok) {d m k : Nat} {inp x : List Byte} {io : Nat} {F : Nat → St w} {o : Obj w} (hd : o.degree = d) (hdp : 0 < d)
    (hF : o.dgt = (List.range d).map F) (hmin : o.minSize = d * (2 * w)) (hk : 0 < k) (hm : m = k * (d * (2 * w))) (hx : Holds inp io x) :
    ∃ F' x2 io', Obj.stripes C m inp (o, io, x.length) = .ok ({ o with dgt := (List.range d).map F' }, io', x2.length) ∧ Holds inp io' x2 ∧
      eager (d * (2 * w)) (stripe C A) F x = eager (d * (2 * w)) (stripe C A) F' x2 ∧ x2.length < m := by
  have hp : 0 < d * (2 * w) := Nat.mul_pos (by omega) g.pos
  have hmp : 0 < m := hm ▸ Nat.mul_pos hk hp
  rw [Obj.stripes]
  by_cases h : x.length ≥ m
  · simp only [h, if_true, if_neg (Nat.ne_of_gt hmp)]
    have hml : x.length % m < m := Nat.mod_lt _ hmp
    have hdm := Nat.div_add_mod x.length m
    have hn : x.length - x.length % m = (x.length / m * k) * (d * (2 * w)) := by
      rw [Nat.mul_assoc, ← hm, Nat.mul_comm]; omega
    generalize hnn : x.length - x.length % m = n at hn
    have hle : n ≤ x.length := by omega
    have hmn : m ≤ n := by
      have : m * 1 ≤ m * (x.length / m) := Nat.mul_le_mul_left _ (Nat.div_pos h hmp)
      omega
    have hl1 : (x.take n).length = n := by rw [List.length_take]; omega
    have hlv := leaves_ok (F' := (eager (d * (2 * w)) (stripe C A) F (x.take n)).1) (f := fun i s => o.processLeaf C inp (io + i * (2 * w)) n s) hd hF (by
      intro i hi
      have hmm : d * (2 * w) ≤ m := by rw [hm]; exact Nat.le_mul_of_pos_left _ hk
      rw [Obj.processLeaf, hmin, if_neg (by omega), show n / (d * (2 * w)) = x.length / m * k by rw [hn]; exact Nat.mul_div_cancel _ hp]
      exact leaf_loop g (hx.takeN n) (hl1.trans hn) hi F)
    refine ⟨(eager (d * (2 * w)) (stripe C A) F (x.take n)).1, x.drop n, io + n, ?_, hx.dropN hle, ?_, ?_⟩
    · rw [hlv, ok_bind, List.length_drop]; rfl
    · have e0 : (eager (d * (2 * w)) (stripe C A) F (x.take n)).2 = [] := by
        apply List.eq_nil_of_length_eq_zero
        rw [eager_rest_mod hp, hl1, hn, Nat.mul_mod_left]
      conv => lhs; rw [← List.take_append_drop n x, eager_append, e0, List.nil_append]
    · rw [List.length_drop]; omega
  · rw [if_neg h]
    refine ⟨F, x, io, ?_, hx, rfl, by omega⟩
    have e : ({ o with dgt := (List.range d).map F } : Obj w) = o := by rw [← hF]
    rw [e]; rfl

theorem pstore_ok {d : Nat} {inp : List Byte} {io : Nat} {F : Nat → St w} {r x : List Byte} {o : Obj w} (ho : PAbs w d F r o)
    (hx : Holds inp io x) (hl : r.length + x.length < d * (2 * w)) :
    ∃ o', Obj.store inp (o, io, x.length) = .ok o' ∧ PAbs w d F (r ++ x) o' ∧ o'.params = o.params ∧ o'.blockSize = o.blockSize := by
  rw [Obj.store]
  by_cases h : x.length = 0
  · rw [if_neg (by simpa using h)]
    have : x = [] := List.eq_nil_of_length_eq_zero h
    subst this
    exact ⟨o, rfl, by rw [List.append_nil]; exact ho, rfl, rfl⟩
  · rw [if_pos h]
    obtain ⟨t, ht⟩ := ho.buf
    have hs := ho.size
    rw [ht, List.length_append] at hs
    have e : o.buf = r ++ t.take x.length ++ t.drop x.length := by rw [List.append_assoc, List.take_append_drop, ht]
    simp only [e]
    rw [copy_at hx ho.len rfl (by rw [List.length_take]; omega), ok_bind]
    refine ⟨_, rfl, ⟨ho.par, ho.deg, ho.dpos, ho.dgt, ho.min, ho.blk, ?_, ?_, ⟨_, rfl⟩, ?_⟩, rfl, rfl⟩
    · simp [ho.len]
    · simp; omega
    · simp; omega

theorem pupdate_ok (g : C.Good A T ok) {d : Nat} {inp : List Byte} {io : Nat} {F : Nat → St w} {r x : List Byte} {o : Obj w} (ho : PAbs w d F r o)
    (hx : Holds inp io x) :
    ∃ o', o.update C inp io x.length = .ok o' ∧
      PAbs w d (eager (d * (2 * w)) (stripe C A) F (r ++ x)).1 (eager (d * (2 * w)) (stripe C A) F (r ++ x)).2 o' ∧ o'.params = o.params ∧ o'.blockSize = o.blockSize := by
  have hp : 0 < d * (2 * w) := Nat.mul_pos ho.dpos g.pos
  rw [Obj.update]
  by_cases h0 : x.length = 0
  · have : x = [] := List.eq_nil_of_length_eq_zero h0
    subst this
    rw [if_pos List.length_nil, List.append_nil, eager_short ho.lt]
    exact ⟨o, rfl, ho, rfl, rfl⟩
  · rw [if_neg h0, if_pos ho.par]
    obtain ⟨kb, hkb, hbs⟩ := ho.blk
    -- after the buffer step
    have fill : ∃ F1 r1 x1 io1 o1, o.fillPar C inp io x.length = .ok (o1, io1, x1.length) ∧ PAbs w d F1 r1 o1 ∧ Holds inp io1 x1 ∧
        eager (d * (2 * w)) (stripe C A) F (r ++ x) = eager (d * (2 * w)) (stripe C A) F1 (r1 ++ x1) ∧ (r1 = [] ∨ r1.length + x1.length < d * (2 * w)) ∧
        o1.params = o.params ∧ o1.blockSize = o.blockSize := by
      rw [Obj.fillPar]
      by_cases hf : o.len ≠ 0 ∧ x.length + o.len ≥ o.buf.length
      · rw [if_pos hf]
        obtain ⟨t, ht⟩ := ho.buf
        have hs := ho.size
        have hlt := ho.lt
        have hlen := ho.len
        have hst : r.length + t.length = d * (2 * w) := by rw [← hs, ht, List.length_append]
        generalize hkk : o.buf.length - o.len = k
        have hk : (x.take k).length = t.length := by rw [List.length_take]; omega
        have hcp : copy inp io o.buf o.len k = .ok (r ++ x.take k) := by
          have := copy_at (a := r) (b := t) (c := []) (off := o.len) (n := k) (hx.takeN k) hlen (by rw [List.length_take]; omega) hk.symm
          rw [List.append_nil, List.append_nil] at this
          rw [ht]; exact this
        have hb : (r ++ x.take k).length = d * (2 * w) := by rw [List.length_append]; omega
        have hlv := leaves_ok (o := { o with buf := r ++ x.take k }) (F' := stripe C A F (r ++ x.take k)) (f := fun i s => C.permute (r ++ x.take k) (i * (2 * w)) s)
          ho.deg ho.dgt (by
            intro i hi
            obtain ⟨b1, b2⟩ := blk_holds (w := w) (i := i) (d := d) (Holds.self (r ++ x.take k)) (by omega) hi
            rw [Nat.zero_add] at b1
            exact permute_ok g b1 b2 _)
        refine ⟨stripe C A F (r ++ x.take k), [], x.drop k, io + k,
          { o with buf := r ++ x.take k, dgt := (List.range d).map (stripe C A F (r ++ x.take k)), len := 0 }, ?_, ?_, hx.dropN (by omega), ?_, Or.inl rfl, rfl, rfl⟩
        · rw [hcp, ok_bind, hlv, ok_bind, List.length_drop]; rfl
        · exact ⟨ho.par, ho.deg, ho.dpos, rfl, ho.min, ho.blk, rfl, hp, ⟨_, rfl⟩, hb⟩
        · conv => lhs; rw [← List.take_append_drop k x, ← List.append_assoc]
          exact eager_cons hp hb
      · rw [if_neg hf]
        refine ⟨F, r, x, io, o, rfl, ho, hx, rfl, ?_, rfl, rfl⟩
        have hlen := ho.len
        have hs := ho.size
        rcases Nat.eq_zero_or_pos r.length with h | h
        · exact Or.inl (List.eq_nil_of_length_eq_zero h)
        · right
          rcases Nat.lt_or_ge (r.length + x.length) (d * (2 * w)) with h' | h'
          · exact h'
          · exact absurd ⟨by omega, by omega⟩ hf
    obtain ⟨F1, r1, x1, io1, o1, e1, p1, hx1, q1, c1, pr1, bs1⟩ := fill
    obtain ⟨F2, x2, io2, e2, hx2, q2, l2⟩ := stripes_ok g p1.deg p1.dpos p1.dgt p1.min hkb hbs hx1
    obtain ⟨F3, x3, io3, e3, hx3, q3, l3⟩ := stripes_ok g (o := { o1 with dgt := (List.range d).map F2 }) (k := 1) (m := o.minSize) p1.deg p1.dpos rfl p1.min (by omega)
      (by rw [ho.min, Nat.one_mul]) hx2
    rw [e1, ok_bind, e2, ok_bind, e3, ok_bind]
    rw [ho.min] at l3
    -- the rest of the message when the buffer is not empty
    have hfin : eager (d * (2 * w)) (stripe C A) F1 (r1 ++ x1) = (F3, r1 ++ x3) ∧ r1.length + x3.length < d * (2 * w) := by
      rcases c1 with c | c
      · subst c
        rw [List.nil_append, List.nil_append, q2, q3, eager_short l3]
        exact ⟨rfl, by simpa using l3⟩
      · have s1 : eager (d * (2 * w)) (stripe C A) F1 x1 = (F1, x1) := eager_short (by omega)
        have s3 : eager (d * (2 * w)) (stripe C A) F3 x3 = (F3, x3) := eager_short l3
        rw [q2, q3, s3] at s1
        cases s1
        rw [eager_short (by rw [List.length_append]; exact c)]
        exact ⟨rfl, c⟩
    obtain ⟨o', h1, h2, h3, h4⟩ := pstore_ok (F := F3) (o := { o1 with dgt := (List.range d).map F3 })
      ⟨p1.par, p1.deg, p1.dpos, rfl, p1.min, p1.blk, p1.len, p1.lt, p1.buf, p1.size⟩ hx3 hfin.2
    refine ⟨o', h1, ?_, h3.trans pr1, h4.trans bs1⟩
    rw [q1, hfin.1]
    exact h2

/-! ## Construction and finalisation -/

/-- The leaf states after `Reset`. -/
def leafInit (C : Core w) (A : MD w) (params : Nat → List Byte) : Nat → St w := fun i => C.step A C.st0 (params i)

/-- What the parallel profile must provide (ParallelOptions.cpp:211-270 with `simdMultiply` off): minimum size = degree *
rate, block size a positive multiple of it; and parameter blocks of one rate. -/
structure Profile (d : Nat) (o : Obj w) : Prop where
  par : o.par = true
  deg : o.degree = d
  dpos : 0 < d
  min : o.minSize = d * (2 * w)
  blk : ∃ k, 0 < k ∧ o.blockSize = k * (d * (2 * w))
  params : ∀ i, i < d → (o.params i).length = 2 * w

theorem preset_ok (g : C.Good A T ok) {d : Nat} {o : Obj w} (p : Profile d o) :
    ∃ o', o.reset C = .ok o' ∧ PAbs w d (leafInit C A o.params) [] o' ∧ o'.params = o.params ∧ o'.blockSize = o.blockSize := by
  have hp : 0 < d * (2 * w) := Nat.mul_pos p.dpos g.pos
  have h : o.reset C = .ok { o with dgt := (List.range d).map (leafInit C A o.params), buf := List.replicate (d * (2 * w)) 0, len := 0 } := by
    rw [Obj.reset]
    simp only [p.par, if_true, p.deg]
    rw [mapM_range _ (leafInit C A o.params)]
    · rfl
    · intro i hi
      rw [Obj.leaf0, if_pos p.par]
      exact permute_ok g (Holds.self _) (p.params i hi) _
  exact ⟨_, h, ⟨p.par, p.deg, p.dpos, rfl, p.min, p.blk, rfl, hp, ⟨List.replicate (d * (2 * w)) 0, rfl⟩, by simp⟩, rfl, rfl⟩

theorem permute_total (g : C.Good A T ok) {b : List Byte} {io : Nat} (h : io + 2 * w ≤ b.length) (s : St w) : ∃ s', C.permute b io s = .ok s' :=
  ⟨_, permute_ok g (b := (b.drop io).take (2 * w)) ⟨b.take io, b.drop (io + 2 * w), by
    rw [List.append_assoc, ← List.drop_drop, List.take_append_drop, List.take_append_drop], by rw [List.length_take]; omega⟩
    (by rw [List.length_take, List.length_drop]; omega) s⟩

theorem clear_total {b : List Byte} {io n : Nat} (h : io + n ≤ b.length) : ∃ b', clear b io n = .ok b' ∧ b'.length = b.length := by
  rw [clear]
  split
  · exact ⟨b, rfl, rfl⟩
  · have : blit b io (List.replicate n 0) = .ok (b.take io ++ List.replicate n 0 ++ b.drop (io + (List.replicate n (0 : Byte)).length)) := by
      rw [blit, if_pos (by simpa using h)]
    exact ⟨_, this, blit_len this⟩

/-- `HashFinal` inside the buffer always succeeds and keeps the buffer size. -/
theorem hashFinal_total (g : C.Good A T ok) {b : List Byte} {io len : Nat} (h : io + 2 * w ≤ b.length) (hl : len ≤ 2 * w) (s : St w) :
    ∃ b' s', C.hashFinal b io len s = .ok (b', s') ∧ b'.length = b.length := by
  have hw := g.width
  have hp := g.pos
  rw [Core.hashFinal]
  have f1 : ∃ s1 l1, C.final1 b io len { s with T := C.inc s.T len } = .ok (s1, l1) ∧ l1 < 2 * w := by
    rw [Core.final1]
    by_cases hc : len = 2 * w
    · rw [if_pos hc]
      obtain ⟨s', h1⟩ := permute_total g h { s with T := C.inc s.T len }
      exact ⟨s', 0, by rw [h1]; rfl, hp⟩
    · rw [if_neg hc]
      exact ⟨_, _, rfl, by omega⟩
  obtain ⟨s1, l1, e1, hl1⟩ := f1
  have f2 : ∃ b2, Core.final2 b io l1 (2 * w) = .ok b2 ∧ b2.length = b.length := by
    rw [Core.final2, wr_ok _ (by omega), ok_bind]
    split
    · obtain ⟨b', c1, c2⟩ := clear_total (b := b.set (io + l1) 0x80) (io := io + (l1 + 1)) (n := 2 * w - (l1 + 1)) (by rw [List.length_set]; omega)
      exact ⟨b', c1, by rw [c2, List.length_set]⟩
    · exact ⟨_, rfl, by rw [List.length_set]⟩
  obtain ⟨b2, e2, hb2⟩ := f2
  have f3 : ∃ b3 s3, C.final3 b2 io l1 s1 = .ok (b3, s3) ∧ b3.length = b.length := by
    rw [Core.final3]
    split
    · obtain ⟨s3, h1⟩ := permute_total g (b := b2) (io := io) (by omega) s1
      obtain ⟨b3, c1, c2⟩ := clear_total (b := b2) (io := C.clearAt io) (n := 2 * w) (by have := g.clear_le io; omega)
      exact ⟨b3, s3, by rw [h1, ok_bind, c1]; rfl, by omega⟩
    · exact ⟨b2, s1, rfl, hb2⟩
  obtain ⟨b3, s3, e3, hb3⟩ := f3
  obtain ⟨b4, e4, hb4⟩ := g.putLen_ok ((C.inc s.T len).1 <<< 3) s3.T b3 io (by omega)
  obtain ⟨s5, e5⟩ := permute_total g (b := b4) (io := io) (by omega) s3
  refine ⟨b4, s5, ?_, by omega⟩
  simp only [e1, ok_bind, e2, e3, e4, e5]
  rfl

/-- The padding block of a message of `n` bytes, `n` a multiple of the rate. -/
def padBlock (w n : Nat) : List Byte := 0x80 :: List.replicate (2 * w - w / 4 - 1) 0 ++ beEnc (w / 4) (8 * n)

theorem padBlock_len (g : C.Good A T ok) (n : Nat) : (padBlock w n).length = 2 * w := by
  have hw := g.width
  rw [padBlock, List.length_append, List.length_cons, List.length_replicate, beEnc_len]; omega

theorem padding_full (g : C.Good A T ok) {n : Nat} (h : n % (2 * w) = 0) : A.padding n = padBlock w n := by
  have hw := g.width
  have := (pad_len hw A n).1
  rw [h] at this
  exact this (by omega)

/-- The end of `HashFinal` for an empty rest. -/
theorem final_empty (g : C.Good A T ok) {pre mid post : List Byte} {n m : Nat} (hm : mid.length = 2 * w) (hok : ok n) (hn : m = n ∨ m = n + 2 * w) (h : V8 w) :
    (do
      let b ← Core.final2 (pre ++ mid ++ post) pre.length 0 (2 * w)
      let r ← C.final3 b pre.length 0 ⟨h, T m⟩
      let b ← C.putLen ((T n).1 <<< 3) r.2.T r.1 pre.length
      let s ← C.permute b pre.length r.2
      (pure (b, s) : M (List Byte × St w))) = .ok (pre ++ padBlock w n ++ post, ⟨A.compress h (padBlock w n), C.inc (T m) (2 * w)⟩) := by
  have hw := g.width
  have hp := g.pos
  obtain ⟨y, t, rfl⟩ : ∃ y t', mid = y :: t' := by
    cases mid with
    | nil => simp at hm; omega
    | cons y t => exact ⟨y, t, rfl⟩
  rw [List.length_cons] at hm
  have h2 : Core.final2 (pre ++ y :: t ++ post) pre.length 0 (2 * w) = .ok (pre ++ 0x80 :: List.replicate (2 * w - 1) 0 ++ post) := by
    have hwr : wr (pre ++ y :: t ++ post) (pre.length + 0) (0x80 : Byte) = .ok (pre ++ 0x80 :: t ++ post) := by
      rw [wr, if_pos (by simp), Nat.add_zero]; simp
    have hb := blit_at (a := pre ++ [0x80]) (b := t) (c := post) (s := List.replicate (2 * w - 1) 0) (off := pre.length + (0 + 1)) (by simp) (by simp; omega)
    rw [Core.final2, hwr, ok_bind, if_pos (by omega), clear, if_neg (by omega)]
    simp only [List.append_assoc, List.singleton_append, List.cons_append, List.nil_append, Nat.zero_add] at hb ⊢
    rw [hb]
  rw [h2, ok_bind, Core.final3, if_neg (by omega)]
  simp only [pure_eq_ok, ok_bind]
  have e : pre ++ 0x80 :: List.replicate (2 * w - 1) 0 ++ post =
      (pre ++ 0x80 :: List.replicate (2 * w - w / 4 - 1) 0) ++ List.replicate (w / 4) (0 : Byte) ++ post := by
    rw [List.append_assoc pre, List.cons_append, List.append_assoc pre, List.append_assoc pre, List.cons_append, List.cons_append, List.replicate_append_replicate]
    congr 4
    omega
  rw [e, g.putLen n m _ _ post pre.length hok hn (by simp; omega) (by simp), ok_bind,
    permute_ok g (b := padBlock w n) ⟨pre, post, by simp [padBlock], rfl⟩ (padBlock_len g n), ok_bind]
  simp only [padBlock, List.append_assoc, Core.step]

theorem loop_blocks (g : C.Good A T ok) {buf : List Byte} {bs : List (List Byte)} (hb : Blocks (2 * w) bs) (hx : Holds buf 0 bs.flatten) (h : V8 w) (n : Nat) :
    loopN bs.length 0 (fun i s => C.permute buf (i * (2 * w)) s) ⟨h, T n⟩ = .ok ⟨bs.foldl A.compress h, T (n + bs.length * (2 * w))⟩ := by
  obtain ⟨s', h1, h2⟩ := loopN_inv (f := fun i s => C.permute buf (i * (2 * w)) s)
    (fun k s => s = ⟨(bs.take k).foldl A.compress h, T (n + k * (2 * w))⟩) bs.length 0 ⟨h, T n⟩ (by
      intro k s _ hk hs
      have hk : k < bs.length := by omega
      have hbk := Holds.block hb hx (k := k) (b := bs[k]) (List.getElem?_eq_getElem hk)
      rw [Nat.zero_add] at hbk
      refine ⟨_, permute_ok g hbk (hb _ (List.getElem_mem hk)) s, ?_⟩
      rw [hs, Core.step, g.inc _ _ (Nat.le_refl _), List.take_succ_eq_append_getElem hk, List.foldl_append, Nat.add_mul, Nat.one_mul, Nat.add_assoc]
      rfl) (by rw [Nat.zero_mul]; rfl)
  rw [h1, h2, Nat.zero_add, List.take_length]

/-- The root of a buffer that starts with the blocks `bs`: the hash of these blocks; nothing else of the buffer counts. -/
theorem root_ok (g : C.Good A T ok) {bs : List (List Byte)} (hb : Blocks (2 * w) bs) (hpos : 0 < bs.length) (tail : List Byte) (ht : 2 * w ≤ tail.length)
    (hok : ok (bs.length * (2 * w))) :
    ∃ b t, Obj.root C (bs.flatten ++ tail) (bs.length * (2 * w)) = .ok (b, ⟨A.blocks A.H0 (bs.flatten ++ A.padding (bs.length * (2 * w))), t⟩) := by
  have hp := g.pos
  have hw : 0 < w := by omega
  have hfl := hb.length
  have e : A.blocks A.H0 (bs.flatten ++ A.padding (bs.length * (2 * w))) = A.compress (bs.foldl A.compress A.H0) (padBlock w (bs.length * (2 * w))) := by
    rw [padding_full g (Nat.mul_mod_left _ _), blocks_eager A hw _ _ _ rfl, eager_append]
    have := eager_blocks (step := A.compress) hp bs A.H0 [] hb (by simpa using hp)
    rw [List.append_nil] at this
    rw [this, List.nil_append, eager_one hp (padBlock_len g _)]
  rw [e, Obj.root]
  by_cases hc : C.rootCmp (bs.length * (2 * w)) = true
  · rw [if_pos hc, Nat.mul_mod_left, Nat.sub_zero, Nat.mul_div_cancel _ hp, Core.st0, g.iv, ← g.T0, loop_blocks g hb ⟨[], tail, by simp, rfl⟩, ok_bind, Core.hashFinal]
    simp only [Nat.zero_add, g.inc _ 0 (Nat.zero_le _), Nat.add_zero]
    rw [Core.final1, if_neg (by omega)]
    simp only [pure_eq_ok, ok_bind]
    have hf := final_empty g (pre := bs.flatten) (mid := tail.take (2 * w)) (post := tail.drop (2 * w)) (n := bs.length * (2 * w)) (m := bs.length * (2 * w))
      (by rw [List.length_take]; omega) hok (Or.inl rfl) (bs.foldl A.compress A.H0)
    rw [List.append_assoc, List.take_append_drop, hfl] at hf
    simp only [pure_eq_ok] at hf
    rw [hf]
    exact ⟨_, _, rfl⟩
  · rw [if_neg hc]
    have hlen : bs.length = 1 := by
      rcases Nat.lt_or_ge 1 bs.length with h | h
      · have : 2 * (2 * w) ≤ bs.length * (2 * w) := Nat.mul_le_mul_right _ h
        exact absurd (g.root _ (by omega)) hc
      · omega
    obtain ⟨b, rfl⟩ : ∃ b, bs = [b] := by
      cases bs with
      | nil => cases hlen
      | cons b l => cases l with
        | nil => exact ⟨b, rfl⟩
        | cons _ _ => cases hlen
    have hbl : b.length = 2 * w := hb b (by simp)
    simp only [List.length_singleton, Nat.one_mul, List.flatten_cons, List.flatten_nil, List.append_nil, List.foldl_cons, List.foldl_nil] at hok ⊢
    rw [Core.hashFinal, Core.final1, if_pos rfl, Core.st0, g.iv, ← g.T0]
    have hi : C.inc (T 0) (2 * w) = T (2 * w) := by rw [g.inc _ _ (Nat.le_refl _), Nat.zero_add]
    simp only [hi]
    rw [permute_ok g (inp := b ++ tail) (io := 0) (b := b) ⟨[], tail, by simp, rfl⟩ hbl]
    simp only [pure_eq_ok, ok_bind, Core.step, g.inc (2 * w) _ (Nat.le_refl _)]
    have hf := final_empty g (pre := []) (mid := b) (post := tail) (n := 2 * w) (m := 2 * w + 2 * w) hbl hok (Or.inr rfl) (A.compress A.H0 b)
    simp only [pure_eq_ok, List.nil_append, List.length_nil] at hf
    rw [hf]
    exact ⟨_, _, rfl⟩

/-! ## The root input -/

/-- The root's input: each leaf's state, followed by what the message buffer holds. -/
theorem rootInput_ok (g : C.Good A T ok) {d : Nat} {F : Nat → St w} {o : Obj w} (hd : o.dgt = (List.range d).map F) (bs : List (List Byte)) (hb : Blocks (2 * w) bs)
    (hl : bs.length = d) (hbuf : o.buf = bs.flatten) :
    Obj.rootInput C o = .ok ((bs.zipIdx.map (fun bi => (F bi.2).H.bytes ++ bi.1.drop w)).flatten) := by
  have hw := g.width
  have hvl : ∀ v : V8 w, v.bytes.length = w := by
    intro v; simp only [V8.bytes, List.length_append, beEnc_len]; omega
  have hlen : o.dgt.length = d := by rw [hd]; simp
  rw [Obj.rootInput, hlen]
  obtain ⟨b', h1, h2⟩ := loopN_inv (f := fun i buf => do let s ← rd o.dgt i; C.put s.H buf (i * (2 * w)))
    (fun k b => b = (((bs.take k).zipIdx.map (fun bi => (F bi.2).H.bytes ++ bi.1.drop w)).flatten ++ (bs.drop k).flatten)) d 0 o.buf (by
      intro k b _ hk hbk
      have hk : k < bs.length := by omega
      have hkl : bs[k].length = 2 * w := hb _ (List.getElem_mem hk)
      have hpre : (((bs.take k).zipIdx.map (fun bi => (F bi.2).H.bytes ++ bi.1.drop w)).flatten).length = k * (2 * w) := by
        have hbl : Blocks (2 * w) ((bs.take k).zipIdx.map (fun bi => (F bi.2).H.bytes ++ bi.1.drop w)) := by
          intro y hy
          obtain ⟨bi, hbi, rfl⟩ := List.mem_map.mp hy
          have : bi.1 ∈ bs := List.mem_of_mem_take (List.fst_mem_of_mem_zipIdx hbi)
          rw [List.length_append, hvl, List.length_drop, hb _ this]; omega
        rw [hbl.length, List.length_map, List.length_zipIdx, List.length_take, Nat.min_eq_left (Nat.le_of_lt hk)]
      rw [hd, rd_map F (by omega)]
      simp only [ok_bind]
      rw [hbk, List.drop_eq_getElem_cons hk, List.flatten_cons]
      have hput := put_ok g (F k).H (((bs.take k).zipIdx.map (fun bi => (F bi.2).H.bytes ++ bi.1.drop w)).flatten) (bs[k].take w) (bs[k].drop w ++ (bs.drop (k + 1)).flatten)
        (by rw [List.length_take]; omega)
      rw [hpre, List.append_assoc, ← List.append_assoc (bs[k].take w), List.take_append_drop] at hput
      refine ⟨_, hput, ?_⟩
      rw [List.take_succ_eq_append_getElem hk, List.zipIdx_append, List.map_append, List.flatten_append]
      simp [Nat.min_eq_left (Nat.le_of_lt hk)]) (by simp [hbuf])
  rw [h1, h2, Nat.zero_add, ← hl, List.take_length, List.drop_length]
  simp

end Cex.Digest
