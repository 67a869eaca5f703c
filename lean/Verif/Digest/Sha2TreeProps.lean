import Verif.Digest.Sha2Tree

/-!
# C37 The parallel (tree) mode of SHA-2

`PRun C p o m`: the object `o` has come about from the profile `p` by construction and any sequence of successful
`Update`, `Reset` and `Finalize` calls, `m` being the bytes since the last construction, `Reset` or `Finalize`.
-/

namespace Cex.Digest
open Cex Cex.Digest.Fips Cex.IntTools Cex.Stream

variable {w : Nat} {C : Core w} {A : MD w} {T : Nat → Ctr} {ok : Nat → Prop}

inductive Obj.PRun (C : Core w) (p : Obj w) : Obj w → List Byte → Prop
  | new {o} : p.reset C = .ok o → PRun C p o []
  | update {o o' m} (x : Window) : PRun C p o m → o.update C x.buf x.off x.len = .ok o' → PRun C p o' (m ++ x.bytes)
  | reset {o o' m} : PRun C p o m → o.reset C = .ok o' → PRun C p o' []
  | final {o o' m out oo out'} : PRun C p o m → o.finalize C out oo = .ok (o', out') → PRun C p o' []

/-- The invariant. -/
def Obj.PInv (C : Core w) (A : MD w) (d : Nat) (o p : Obj w) (m : List Byte) : Prop :=
  PAbs w d (eager (d * (2 * w)) (stripe C A) (leafInit C A p.params) m).1 (eager (d * (2 * w)) (stripe C A) (leafInit C A p.params) m).2 o ∧
    o.params = p.params ∧ o.blockSize = p.blockSize

theorem PInv.profile {d : Nat} {p o : Obj w} {m : List Byte} (hp : Profile d p) (h : o.PInv C A d p m) : Profile d o :=
  ⟨h.1.par, h.1.deg, h.1.dpos, h.1.min, h.1.blk, by rw [h.2.1]; exact hp.params⟩

theorem preset_inv (g : C.Good A T ok) {d : Nat} {p o : Obj w} (hp : Profile d o) (he : o.params = p.params) (hb : o.blockSize = p.blockSize) :
    ∃ o', o.reset C = .ok o' ∧ o'.PInv C A d p [] := by
  obtain ⟨o', h1, h2, h3, h4⟩ := preset_ok g hp
  have h0 : 0 < d * (2 * w) := Nat.mul_pos hp.dpos g.pos
  refine ⟨o', h1, ?_, h3.trans he, h4.trans hb⟩
  rw [eager_short (by simpa using h0), ← he]
  exact h2

theorem pupdate_inv (g : C.Good A T ok) {d : Nat} {p o : Obj w} {m : List Byte} (h : o.PInv C A d p m) (x : Window) :
    ∃ o', o.update C x.buf x.off x.len = .ok o' ∧ o'.PInv C A d p (m ++ x.bytes) := by
  obtain ⟨o', h1, h2, h3, h4⟩ := pupdate_ok g h.1 x.holds
  rw [x.bytes_length] at h1
  refine ⟨o', h1, ?_, h3.trans h.2.1, h4.trans h.2.2⟩
  rw [eager_append]
  exact h2

theorem Obj.PRun.inv (g : C.Good A T ok) {d : Nat} {p o : Obj w} {m : List Byte} (hp : Profile d p) (h : Obj.PRun C p o m) : o.PInv C A d p m := by
  induction h with
  | new h =>
    obtain ⟨o', h1, h2⟩ := preset_inv g (p := p) hp rfl rfl
    rw [h] at h1; cases h1; exact h2
  | update x _ h ih =>
    obtain ⟨o', h1, h2⟩ := pupdate_inv g ih x
    rw [h] at h1; cases h1; exact h2
  | reset _ h ih =>
    obtain ⟨o', h1, h2⟩ := preset_inv g (p := p) (PInv.profile hp ih) ih.2.1 ih.2.2
    rw [h] at h1; cases h1; exact h2
  | final _ h ih =>
    rw [Obj.finalize] at h
    split at h
    · cases h
    · obtain ⟨s, _, h⟩ := bind_ok h
      obtain ⟨out, _, h⟩ := bind_ok h
      obtain ⟨o', h4, h⟩ := bind_ok h
      cases h
      obtain ⟨o', h1, h2⟩ := preset_inv g (p := p) (PInv.profile hp ih) ih.2.1 ih.2.2
      rw [h4] at h1; cases h1; exact h2

/-- `Finalize` starts by zeroing the unused part of the buffer. -/
theorem pad_buffer {d : Nat} {F : Nat → St w} {r : List Byte} {o : Obj w} (h : PAbs w d F r o) :
    clear o.buf o.len (o.buf.length - o.len) = .ok (r ++ List.replicate (d * (2 * w) - r.length) 0) := by
  obtain ⟨t, ht⟩ := h.buf
  have hs := h.size
  have hl := h.len
  have hlt := h.lt
  have hst : r.length + t.length = d * (2 * w) := by rw [← hs, ht, List.length_append]
  have hb := blit_at (a := r) (b := t) (c := []) (s := List.replicate (d * (2 * w) - r.length) 0) (off := o.len) hl (by simp; omega)
  rw [List.append_nil, List.append_nil, ← ht] at hb
  rw [clear, if_neg (by omega), hs, hl, ← hl]
  rw [hl] at hb ⊢
  exact hb

/-- The object `Finalize` works on is determined by the message. -/
theorem final_obj {d : Nat} {p o o' : Obj w} {m : List Byte} (h : o.PInv C A d p m) (h' : o'.PInv C A d p m) :
    o.finalPar C = o'.finalPar C ∧ o.reset C = o'.reset C ∧ o.par = o'.par := by
  have e1 := pad_buffer h.1
  have e2 := pad_buffer h'.1
  have hlt := h.1.lt
  have c1 : o.len < o.buf.length := by rw [h.1.len, h.1.size]; exact hlt
  have c2 : o'.len < o'.buf.length := by rw [h'.1.len, h'.1.size]; exact hlt
  have heq : ∀ b l, ({ o with buf := b, len := l } : Obj w) = { o' with buf := b, len := l } := by
    intro b l
    simp only [Obj.mk.injEq, h.1.dgt, h'.1.dgt, h.1.par, h'.1.par, h.1.deg, h'.1.deg, h.1.min, h'.1.min, h.2.1, h'.2.1, h.2.2, h'.2.2, and_self]
  have hl : o.len = o'.len := by rw [h.1.len, h'.1.len]
  refine ⟨?_, ?_, by rw [h.1.par, h'.1.par]⟩
  · rw [Obj.finalPar, Obj.finalPar, if_pos c1, if_pos c2, e1, e2]
    simp only [ok_bind]
    have := heq (List.append (eager (d * (2 * w)) (stripe C A) (leafInit C A p.params) m).2 (List.replicate (d * (2 * w) - (eager (d * (2 * w)) (stripe C A) (leafInit C A p.params) m).2.length) 0)) o'.len
    rw [show ({ o with buf := List.append (eager (d * (2 * w)) (stripe C A) (leafInit C A p.params) m).2 (List.replicate (d * (2 * w) - (eager (d * (2 * w)) (stripe C A) (leafInit C A p.params) m).2.length) 0), len := o'.len } : Obj w) = { o with buf := List.append (eager (d * (2 * w)) (stripe C A) (leafInit C A p.params) m).2 (List.replicate (d * (2 * w) - (eager (d * (2 * w)) (stripe C A) (leafInit C A p.params) m).2.length) 0) } from by rw [← hl]] at this
    exact congrArg (fun x => (Obj.finishLeaves C x >>= fun o => Obj.rootInput C o >>= fun buf => Obj.root C buf (o.dgt.length * w) >>= fun r => pure r.2)) this
  · have hdg : o.dgt = o'.dgt := by rw [h.1.dgt, h'.1.dgt]
    have := heq o.buf o.len
    exact (congrArg (Obj.reset C) this : Obj.reset C o = Obj.reset C { o' with buf := o.buf, len := o.len })

/-- In parallel mode too the outcome depends only on the bytes, not on how the updates were split: two objects of the
same profile that have received the same bytes behave the same. -/
theorem C37_split {C : Core w} (g : C.Good A T ok) {d : Nat} {p : Obj w} (hp : Profile d p) {o o' : Obj w} {m : List Byte} (h : Obj.PRun C p o m)
    (h' : Obj.PRun C p o' m) (out : List Byte) (oo : Nat) : o.finalize C out oo = o'.finalize C out oo := by
  obtain ⟨e1, e2, e3⟩ := final_obj (h.inv g hp) (h'.inv g hp)
  rw [Obj.finalize, Obj.finalize, e1, e2, e3, if_pos (h'.inv g hp).1.par, if_pos (h'.inv g hp).1.par]

/-! ## Which leaves count -/

/-- The chaining value of leaf `i` over a message of `q` stripes of `d` blocks: the compression function over the
parameter block and the blocks `i`, `i + d`, `i + 2d`, … -/
def leafValue (A : MD w) (param : List Byte) (d i q : Nat) (m : List Byte) : V8 w :=
  (List.range q).foldl (fun h j => A.compress h ((m.drop ((j * d + i) * (2 * w))).take (2 * w))) (A.compress A.H0 param)

theorem leaf_value (g : C.Good A T ok) {d i : Nat} (hi : i < d) (params : Nat → List Byte) : ∀ (q : Nat) (m : List Byte), m.length = q * (d * (2 * w)) →
    ((eager (d * (2 * w)) (stripe C A) (leafInit C A params) m).1 i).H = leafValue A (params i) d i q m := by
  intro q
  have hp : 0 < d * (2 * w) := Nat.mul_pos (by omega) g.pos
  induction q with
  | zero =>
    intro m hm
    have : m = [] := List.eq_nil_of_length_eq_zero (by simpa using hm)
    subst this
    rw [eager_short (by simpa using hp)]
    simp [leafValue, leafInit, Core.step, Core.st0, g.iv]
  | succ q ih =>
    intro m hm
    rw [Nat.add_mul, Nat.one_mul] at hm
    have hl1 : (m.take (q * (d * (2 * w)))).length = q * (d * (2 * w)) := by rw [List.length_take]; omega
    have e0 : (eager (d * (2 * w)) (stripe C A) (leafInit C A params) (m.take (q * (d * (2 * w))))).2 = [] := by
      apply List.eq_nil_of_length_eq_zero
      rw [eager_rest_mod hp, hl1, Nat.mul_mod_left]
    have hih := ih _ hl1
    conv => lhs; rw [← List.take_append_drop (q * (d * (2 * w))) m, eager_append, e0, List.nil_append, eager_one hp (by rw [List.length_drop]; omega)]
    show A.compress _ (blk w i _) = _
    rw [hih, leafValue, leafValue, List.range_succ, List.foldl_append]
    simp only [List.foldl_cons, List.foldl_nil]
    have hblk : blk w i (m.drop (q * (d * (2 * w)))) = (m.drop ((q * d + i) * (2 * w))).take (2 * w) := by
      rw [blk, List.drop_drop, Nat.add_mul, Nat.mul_assoc]
    rw [hblk]
    congr 1
    -- the earlier blocks are in the prefix
    have : ∀ (l : List Nat) (h : V8 w), (∀ j ∈ l, j < q) →
        l.foldl (fun h j => A.compress h (((m.take (q * (d * (2 * w)))).drop ((j * d + i) * (2 * w))).take (2 * w))) h =
        l.foldl (fun h j => A.compress h ((m.drop ((j * d + i) * (2 * w))).take (2 * w))) h := by
      intro l
      induction l with
      | nil => intro _ _; rfl
      | cons j l ihl =>
        intro h hj
        rw [List.foldl_cons, List.foldl_cons, ihl _ (fun x hx => hj x (by simp [hx]))]
        have hjq : j < q := hj j (by simp)
        have h1 : (j + 1) * d ≤ q * d := Nat.mul_le_mul_right _ hjq
        rw [Nat.add_mul, Nat.one_mul] at h1
        have h2 : (j * d + i + 1) * (2 * w) ≤ q * d * (2 * w) := Nat.mul_le_mul_right _ (by omega)
        rw [Nat.add_mul, Nat.one_mul, Nat.mul_assoc q] at h2
        rw [List.drop_take, List.take_take, Nat.min_eq_left (by omega)]
    exact this _ _ (fun j hj => List.mem_range.mp hj)

theorem zip_rep {β : Type} (a : List Byte) (f : Nat → β) : ∀ (n k : Nat), ((List.replicate n a).zipIdx k).map (fun bi => f bi.2) = (List.range' k n).map f
  | 0, _ => rfl
  | n + 1, k => by rw [List.replicate_succ, List.zipIdx_cons, List.map_cons, zip_rep a f n (k + 1)]; rfl

/-- The root state of a message of whole stripes, even degree: the hash over the first half of the leaves. -/
theorem finalPar_ok (g : C.Good A T ok) {k q : Nat} {p o : Obj w} {m : List Byte} (hk : 0 < k) (h : o.PInv C A (2 * k) p m)
    (hm : m.length = q * (2 * k * (2 * w))) (hok : ok (k * (2 * w))) :
    ∃ t, o.finalPar C = .ok ⟨A.blocks A.H0 (((List.range k).map (fun i => (leafValue A (p.params i) (2 * k) i q m).bytes ++ List.replicate w 0)).flatten ++
      A.padding (k * (2 * w))), t⟩ := by
  have hw := g.width
  have hp : 0 < 2 * k * (2 * w) := Nat.mul_pos (by omega) g.pos
  have hr : (eager (2 * k * (2 * w)) (stripe C A) (leafInit C A p.params) m).2 = [] := by
    apply List.eq_nil_of_length_eq_zero
    rw [eager_rest_mod hp, hm, Nat.mul_mod_left]
  have h1 := h.1
  rw [hr] at h1
  have hpb := pad_buffer h1
  have hl := h1.len
  rw [List.length_nil] at hl
  have c1 : o.len < o.buf.length := by rw [hl, h1.size]; exact hp
  generalize hF : (eager (2 * k * (2 * w)) (stripe C A) (leafInit C A p.params) m).1 = F at h1
  rw [Obj.finalPar, if_pos c1, hpb, List.nil_append, List.length_nil, Nat.sub_zero]
  simp only [ok_bind]
  have hfl : Obj.finishLeaves C { o with buf := List.replicate (2 * k * (2 * w)) 0 } = .ok { o with buf := List.replicate (2 * k * (2 * w)) 0 } := by
    rw [Obj.finishLeaves]
    have : (o.len + (2 * w - 1)) / (2 * w) = 0 := by rw [hl]; exact Nat.div_eq_of_lt (by omega)
    simp only [this, loopN]
  rw [hfl]
  simp only [ok_bind]
  have hbl : Blocks (2 * w) (List.replicate (2 * k) (List.replicate (2 * w) (0 : Byte))) := by
    intro b hb; rw [List.eq_of_mem_replicate hb]; simp
  have hrep : List.replicate (2 * k * (2 * w)) (0 : Byte) = (List.replicate (2 * k) (List.replicate (2 * w) (0 : Byte))).flatten := by
    rw [List.flatten_replicate_replicate]
  rw [rootInput_ok g (d := 2 * k) (F := F) (o := { o with buf := List.replicate (2 * k * (2 * w)) 0 }) h1.dgt _ hbl (by simp) hrep]
  simp only [ok_bind]
  have hdl : o.dgt.length = 2 * k := by rw [h1.dgt]; simp
  have hz : (List.replicate (2 * k) (List.replicate (2 * w) (0 : Byte))).zipIdx.map (fun bi => (F bi.2).H.bytes ++ bi.1.drop w) =
      (List.range k).map (fun i => (F i).H.bytes ++ List.replicate w 0) ++ (List.range' k k).map (fun i => (F i).H.bytes ++ List.replicate w 0) := by
    have e1 : (List.replicate (2 * k) (List.replicate (2 * w) (0 : Byte))).zipIdx.map (fun bi => (F bi.2).H.bytes ++ bi.1.drop w) =
        (List.replicate (2 * k) (List.replicate (2 * w) (0 : Byte))).zipIdx.map (fun bi => (F bi.2).H.bytes ++ List.replicate w 0) := by
      apply List.map_congr_left
      intro bi hbi
      rw [List.eq_of_mem_replicate (List.fst_mem_of_mem_zipIdx hbi), List.drop_replicate, show 2 * w - w = w by omega]
    have e2 := zip_rep (List.replicate (2 * w) (0 : Byte)) (fun i => (F i).H.bytes ++ List.replicate w 0) (2 * k) 0
    have e3 : List.range' 0 (2 * k) = List.range' 0 k ++ List.range' k k := by
      have := List.range'_append_1 (s := 0) (m := k) (n := k)
      rw [Nat.zero_add] at this
      rw [this, show k + k = 2 * k by omega]
    rw [e1, e2, List.range_eq_range', ← List.map_append, e3]
  have hvl : ∀ v : V8 w, v.bytes.length = w := by
    intro v; simp only [V8.bytes, List.length_append, beEnc_len]; omega
  have hB : ∀ l : List Nat, Blocks (2 * w) (l.map (fun i => (F i).H.bytes ++ List.replicate w 0)) := by
    intro l b hb
    obtain ⟨i, _, rfl⟩ := List.mem_map.mp hb
    rw [List.length_append, hvl, List.length_replicate]; omega
  rw [hz, List.flatten_append, hdl]
  have hroot := root_ok g (hB (List.range k)) (by simpa using hk) ((List.range' k k).map (fun i => (F i).H.bytes ++ List.replicate w 0)).flatten
    (by rw [(hB _).length, List.length_map, List.length_range']; exact Nat.le_mul_of_pos_left _ hk) (by simpa using hok)
  rw [List.length_map, List.length_range] at hroot
  obtain ⟨b, t, hroot⟩ := hroot
  rw [show 2 * k * w = k * (2 * w) by rw [Nat.mul_comm 2 k, Nat.mul_assoc], hroot]
  refine ⟨t, ?_⟩
  have hleaf : (List.range k).map (fun i => (F i).H.bytes ++ List.replicate w 0) =
      (List.range k).map (fun i => (leafValue A (p.params i) (2 * k) i q m).bytes ++ List.replicate w 0) := by
    apply List.map_congr_left
    intro i hi
    rw [← hF, leaf_value g (by have := List.mem_range.mp hi; omega) p.params q m hm]
  rw [← hleaf]
  rfl

/-- What the code computes in parallel mode with even degree `2k` for a message of `q` whole stripes: the hash of the
chaining values of the first `k` leaves, each followed by zeros. The leaves `k … 2k-1` do not occur in it. -/
theorem C37_root_partial (g : C.Good A T ok) {k q : Nat} {p o : Obj w} {m : List Byte} (hk : 0 < k) (hp : Profile (2 * k) p) (h : Obj.PRun C p o m)
    (hm : m.length = q * (2 * k * (2 * w))) (hok : ok (k * (2 * w))) (pre junk post : List Byte) (hj : junk.length = w)
    (hsz : (pre ++ junk ++ post).length < 2 ^ 64) :
    ∃ o', o.finalize C (pre ++ junk ++ post) pre.length = .ok (o', pre ++
      A.hash ((List.range k).map (fun i => (leafValue A (p.params i) (2 * k) i q m).bytes ++ List.replicate w 0)).flatten ++ post) := by
  have hw := g.width
  have hi := h.inv g hp
  obtain ⟨t, h3⟩ := finalPar_ok g hk hi hm hok
  obtain ⟨o', h4, _⟩ := preset_inv g (p := p) (PInv.profile hp hi) hi.2.1 hi.2.2
  refine ⟨o', ?_⟩
  have hle : pre.length ≤ (pre ++ junk ++ post).length := by simp only [List.length_append]; omega
  rw [Obj.finalize, Mac.subU_le hle hsz, if_neg (by simp only [List.length_append]; omega), if_pos hi.1.par, h3, ok_bind,
    put_ok g _ _ _ _ hj, ok_bind, h4]
  have hlen : (((List.range k).map (fun i => (leafValue A (p.params i) (2 * k) i q m).bytes ++ List.replicate w 0)).flatten).length = k * (2 * w) := by
    have hB : Blocks (2 * w) ((List.range k).map (fun i => (leafValue A (p.params i) (2 * k) i q m).bytes ++ List.replicate w 0)) := by
      intro b hb
      obtain ⟨i, _, rfl⟩ := List.mem_map.mp hb
      simp only [V8.bytes, List.length_append, beEnc_len, List.length_replicate]; omega
    rw [hB.length]; simp
  rw [MD.hash, hlen]
  rfl

/-- Two messages of whole stripes that agree on the blocks of the first half of the leaves have the same digest. -/
theorem C37_leaves_ignored (g : C.Good A T ok) {k q : Nat} {p o o' : Obj w} {m m' : List Byte} (hk : 0 < k) (hp : Profile (2 * k) p)
    (h : Obj.PRun C p o m) (h' : Obj.PRun C p o' m') (hm : m.length = q * (2 * k * (2 * w))) (hm' : m'.length = q * (2 * k * (2 * w)))
    (heq : ∀ j i, j < q → i < k → (m.drop ((j * (2 * k) + i) * (2 * w))).take (2 * w) = (m'.drop ((j * (2 * k) + i) * (2 * w))).take (2 * w))
    (hok : ok (k * (2 * w))) (pre junk post : List Byte) (hj : junk.length = w) (hsz : (pre ++ junk ++ post).length < 2 ^ 64) :
    ∃ a a' out, o.finalize C (pre ++ junk ++ post) pre.length = .ok (a, out) ∧ o'.finalize C (pre ++ junk ++ post) pre.length = .ok (a', out) := by
  obtain ⟨a, h1⟩ := C37_root_partial g hk hp h hm hok pre junk post hj hsz
  obtain ⟨a', h2⟩ := C37_root_partial g hk hp h' hm' hok pre junk post hj hsz
  have e : (List.range k).map (fun i => (leafValue A (p.params i) (2 * k) i q m).bytes ++ List.replicate w (0 : Byte)) =
      (List.range k).map (fun i => (leafValue A (p.params i) (2 * k) i q m').bytes ++ List.replicate w 0) := by
    apply List.map_congr_left
    intro i hi
    have : ∀ (l : List Nat) (h : V8 w), (∀ j ∈ l, j < q) →
        l.foldl (fun h j => A.compress h ((m.drop ((j * (2 * k) + i) * (2 * w))).take (2 * w))) h =
        l.foldl (fun h j => A.compress h ((m'.drop ((j * (2 * k) + i) * (2 * w))).take (2 * w))) h := by
      intro l
      induction l with
      | nil => intro _ _; rfl
      | cons j l ihl =>
        intro h hj
        rw [List.foldl_cons, List.foldl_cons, ihl _ (fun x hx => hj x (by simp [hx])), heq j i (hj j (by simp)) (List.mem_range.mp hi)]
    rw [leafValue, leafValue, this _ _ (fun j hj => List.mem_range.mp hj)]
  rw [e] at h1
  exact ⟨a, a', _, h1, h2⟩

/-! ## The claim and its failure -/

/-- The same class with any other function in place of the compression function. -/
def Core.withPerm (C : Core w) (f : V8 w → List Byte → V8 w) : Core w :=
  { C with perm := fun inp io h => do let b ← slice inp io (2 * w); return f h b }

theorem Core.Good.withPerm (g : C.Good A T ok) (f : V8 w → List Byte → V8 w) : (C.withPerm f).Good ⟨A.H0, f⟩ T ok where
  width := g.width
  iv := g.iv
  perm := by
    intro inp b io h hb hl
    show (slice inp io (2 * w) >>= fun b => pure (f h b)) = _
    rw [slice_holds hb hl.symm]; rfl
  putw := g.putw
  T0 := g.T0
  inc := g.inc
  putLen := g.putLen
  putLen_ok := g.putLen_ok
  clear0 := g.clear0
  clear_le := g.clear_le
  root := g.root

/-- C37 as information flow: with the compression function left open, different messages can be told apart by their
parallel digests, that is, for some compression function their digests differ. -/
def C37_full (C : Core w) : Prop :=
  ∀ (d : Nat) (p : Obj w), Profile d p → ∀ m m' : List Byte, m.length = m'.length → m ≠ m' →
    ∃ f : V8 w → List Byte → V8 w, ∀ o o', Obj.PRun (C.withPerm f) p o m → Obj.PRun (C.withPerm f) p o' m' →
      ∀ a a' out out', o.finalize (C.withPerm f) (List.replicate w 0) 0 = .ok (a, out) → o'.finalize (C.withPerm f) (List.replicate w 0) 0 = .ok (a', out') →
        out ≠ out'

/-- A profile with degree 2: one stripe is two blocks. -/
def twoLeaves (w : Nat) : Obj w := ⟨[], [], 0, true, 2, 2 * (2 * w), 2 * (2 * w), fun i => List.replicate (2 * w) (BitVec.ofNat 8 i)⟩

theorem twoLeaves_profile (w : Nat) : Profile 2 (twoLeaves w) :=
  ⟨rfl, rfl, by decide, rfl, ⟨1, by decide, (Nat.one_mul _).symm⟩, fun _ _ => List.length_replicate⟩

theorem prun_whole (g : C.Good A T ok) {d : Nat} {p : Obj w} (hp : Profile d p) (m : List Byte) (h : m.length < 2 ^ 64) : ∃ o, Obj.PRun C p o m := by
  obtain ⟨o0, h0, i0⟩ := preset_inv g (p := p) hp rfl rfl
  obtain ⟨o1, h1, _⟩ := pupdate_inv g i0 (Window.whole m h)
  have := Obj.PRun.update (Window.whole m h) (.new h0) h1
  rw [Window.whole_bytes, List.nil_append] at this
  exact ⟨o1, this⟩

/-- Two blocks with two leaves: the second block does not influence the digest, whatever the compression function. -/
theorem C37_false (g : C.Good A T ok) (hok : ok (2 * w)) : ¬ C37_full C := by
  intro h
  have hw := g.width
  have hpos := g.pos
  obtain ⟨f, hf⟩ := h 2 (twoLeaves w) (twoLeaves_profile w) (List.replicate (2 * w) 0 ++ List.replicate (2 * w) 0) (List.replicate (2 * w) 0 ++ List.replicate (2 * w) 1)
    (by simp) (by
      intro e
      have := List.append_cancel_left e
      have h1 : List.replicate (2 * w) (0 : Byte) = List.replicate (2 * w) 1 := this
      rw [List.replicate_inj] at h1
      rcases h1.2 with h2 | h2
      · omega
      · exact absurd h2 (by decide))
  have g' := g.withPerm f
  obtain ⟨o, r⟩ := prun_whole g' (twoLeaves_profile w) (List.replicate (2 * w) 0 ++ List.replicate (2 * w) 0) (by simp; omega)
  obtain ⟨o', r'⟩ := prun_whole g' (twoLeaves_profile w) (List.replicate (2 * w) 0 ++ List.replicate (2 * w) 1) (by simp; omega)
  obtain ⟨a, a', out, h1, h2⟩ := C37_leaves_ignored (k := 1) (q := 1) g' (by decide) (twoLeaves_profile w) r r' (by simp; omega) (by simp; omega) (by
    intro j i hj hi
    have : (j * (2 * 1) + i) * (2 * w) = 0 := by rw [show j = 0 by omega, show i = 0 by omega]; simp
    rw [this, List.drop_zero, List.drop_zero, List.take_left' (by simp), List.take_left' (by simp)]) (by simpa using hok) [] (List.replicate w 0) [] (by simp) (by simp; omega)
  simp only [List.nil_append, List.append_nil, List.length_nil] at h1 h2
  exact hf o o' r r' _ _ _ _ h1 h2 rfl

theorem C37_sha256_false (compact : Bool) : ¬ C37_full (core256 compact) := C37_false (core256_good compact) trivial
theorem C37_sha512_false (compact : Bool) : ¬ C37_full (core512 compact) := C37_false (core512_good compact) (by unfold ok512; decide)

/-- The default degree 8: in every stripe of eight blocks the last four do not influence the SHA2-256 digest. -/
theorem C37_sha256_degree8 (compact : Bool) {p o o' : Obj 32} (hp : Profile 8 p) (x y y' : List Byte) (hx : x.length = 4 * 64)
    (hy : y.length = 4 * 64) (hy' : y'.length = 4 * 64) (h : Obj.PRun (core256 compact) p o (x ++ y)) (h' : Obj.PRun (core256 compact) p o' (x ++ y')) :
    ∃ a a' out, o.finalize (core256 compact) (List.replicate 32 0) 0 = .ok (a, out) ∧ o'.finalize (core256 compact) (List.replicate 32 0) 0 = .ok (a', out) := by
  have := C37_leaves_ignored (k := 4) (q := 1) (core256_good compact) (by decide) hp h h' (by rw [List.length_append]; omega) (by rw [List.length_append]; omega) (by
    intro j i hj hi
    have e : ∀ z : List Byte, ((x ++ z).drop ((j * (2 * 4) + i) * (2 * 32))).take (2 * 32) = (x.drop (i * 64)).take 64 := by
      intro z
      rw [show (j * (2 * 4) + i) * (2 * 32) = i * 64 by omega, List.drop_append_of_le_length (by omega), List.take_append_of_le_length (by rw [List.length_drop]; omega)]
    rw [e, e]) trivial [] (List.replicate 32 0) [] (by simp) (by simp)
  simpa using this

/-- A default profile, and two messages that differ in one bit of block 4, reached by different splits: one digest. -/
example : ∃ (p o o' a a' : Obj 32) (out : List Byte), Profile 8 p ∧
    Obj.PRun (core256 true) p o (List.replicate 256 7 ++ (0 :: List.replicate 255 9)) ∧
    Obj.PRun (core256 true) p o' (List.replicate 256 7 ++ (1 :: List.replicate 255 9)) ∧
    o.finalize (core256 true) (List.replicate 32 0) 0 = .ok (a, out) ∧ o'.finalize (core256 true) (List.replicate 32 0) 0 = .ok (a', out) := by
  have hp : Profile 8 (⟨[], [], 0, true, 8, 512, 8192, fun _ => List.replicate 64 0⟩ : Obj 32) :=
    ⟨rfl, rfl, by decide, rfl, ⟨16, by decide, rfl⟩, fun _ _ => List.length_replicate⟩
  obtain ⟨o, r⟩ := prun_whole (core256_good true) hp (List.replicate 256 7 ++ (0 :: List.replicate 255 9)) (by rw [List.length_append, List.length_cons, List.length_replicate, List.length_replicate]; decide)
  obtain ⟨o', r'⟩ := prun_whole (core256_good true) hp (List.replicate 256 7 ++ (1 :: List.replicate 255 9)) (by rw [List.length_append, List.length_cons, List.length_replicate, List.length_replicate]; decide)
  obtain ⟨a, a', out, h1, h2⟩ := C37_sha256_degree8 true hp _ _ _ List.length_replicate
    (by rw [List.length_cons, List.length_replicate]) (by rw [List.length_cons, List.length_replicate]) r r'
  exact ⟨_, o, o', a, a', out, hp, r, r', h1, h2⟩

end Cex.Digest
