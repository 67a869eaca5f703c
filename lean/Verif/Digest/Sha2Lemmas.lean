import Verif.Digest.Sha2Model
import Verif.Digest.Sha2PermLemmas
import Verif.IntTools.Enc

/-! # The sequential SHA-2 digest computes the FIPS 180-4 hash -/

namespace Cex.Digest
open Cex Cex.Digest.Fips Cex.IntTools Cex.Stream

variable {w : Nat}

/-- What the proofs need of a class: `T n` is the counter after `n` bytes, `ok n` says the length field is right
for a message of `n` bytes. -/
structure Core.Good (C : Core w) (A : MD w) (T : Nat → Ctr) (ok : Nat → Prop) : Prop where
  width : w = 32 ∨ w = 64
  iv : C.iv = A.H0
  perm : ∀ {inp b : List Byte} {io : Nat} (h : V8 w), Holds inp io b → b.length = 2 * w → C.perm inp io h = .ok (A.compress h b)
  putw : ∀ (v : BitVec w) (pre win post : List Byte), win.length = w / 8 →
    C.putw v (pre ++ win ++ post) pre.length = .ok (pre ++ beEnc (w / 8) v.toNat ++ post)
  T0 : T 0 = (0, 0)
  inc : ∀ n k, k ≤ 2 * w → C.inc (T n) k = T (n + k)
  putLen : ∀ (n m : Nat) (b win post : List Byte) (io : Nat), ok n → (m = n ∨ m = n + 2 * w) →
    b.length = io + (2 * w - w / 4) → win.length = w / 4 →
    C.putLen ((T n).1 <<< 3) (T m) (b ++ win ++ post) io = .ok (b ++ beEnc (w / 4) (8 * n) ++ post)
  putLen_ok : ∀ (v : BitVec 64) (t : Ctr) (b : List Byte) (io : Nat), io + 2 * w ≤ b.length → ∃ b', C.putLen v t b io = .ok b' ∧ b'.length = b.length
  clear0 : C.clearAt 0 = 0
  clear_le : ∀ io, C.clearAt io ≤ io
  root : ∀ n, 2 * w < n → C.rootCmp n = true

/-- One block on a digest state. -/
def Core.step (C : Core w) (A : MD w) (s : St w) (b : List Byte) : St w := ⟨A.compress s.H b, C.inc s.T (2 * w)⟩

variable {C : Core w} {A : MD w} {T : Nat → Ctr} {ok : Nat → Prop}

theorem permute_ok (g : C.Good A T ok) {inp b : List Byte} {io : Nat} (h : Holds inp io b) (hl : b.length = 2 * w) (s : St w) :
    C.permute inp io s = .ok (C.step A s b) := by
  rw [Core.permute, g.perm _ h hl]; rfl

theorem Core.Good.pos (g : C.Good A T ok) : 0 < 2 * w := by rcases g.width with h | h <;> omega

/-- The object after some of the message. -/
structure Absorbed (C : Core w) (A : MD w) (s : St w) (r : List Byte) (o : Obj w) : Prop where
  par : o.par = false
  dgt : o.dgt = [s]
  len : o.len = r.length
  lt : r.length < 2 * w
  buf : ∃ t, o.buf = r ++ t
  size : o.buf.length = 2 * w

theorem loopSeq_ok (g : C.Good A T ok) {inp : List Byte} : ∀ (n io : Nat) (x : List Byte) (s : St w) (o : Obj w),
    x.length = n → Holds inp io x → o.dgt = [s] →
    ∃ io', Obj.loopSeq C inp io n o = .ok ({ o with dgt := [(eager (2 * w) (C.step A) s x).1] }, io', (eager (2 * w) (C.step A) s x).2.length) ∧
      Holds inp io' (eager (2 * w) (C.step A) s x).2 := by
  intro n
  induction n using Nat.strongRecOn with
  | ind n ih =>
    intro io x s o hn hx hd
    have hp := g.pos
    rw [Obj.loopSeq]
    by_cases h : 2 * w ≤ n
    · rw [if_pos ⟨by omega, h⟩, hd]
      have ht : (x.take (2 * w)).length = 2 * w := by rw [List.length_take]; omega
      have e : eager (2 * w) (C.step A) s x = eager (2 * w) (C.step A) (C.step A s (x.take (2 * w))) (x.drop (2 * w)) := by
        conv => lhs; rw [← List.take_append_drop (2 * w) x]
        exact eager_cons hp ht
      obtain ⟨io', h1, h2⟩ := ih (n - 2 * w) (by omega) (io + 2 * w) (x.drop (2 * w)) (C.step A s (x.take (2 * w))) { o with dgt := [C.step A s (x.take (2 * w))] }
        (by rw [List.length_drop]; omega) (hx.dropN (by omega)) rfl
      refine ⟨io', ?_, by rw [e]; exact h2⟩
      have r0 : rd [s] 0 = .ok s := rfl
      rw [r0, ok_bind, permute_ok g (hx.takeN _) ht, ok_bind, show wr [s] 0 (C.step A s (x.take (2 * w))) = .ok [C.step A s (x.take (2 * w))] from rfl, ok_bind, h1, e]
    · rw [if_neg (by omega), eager_short (by omega), hn]
      refine ⟨io, ?_, hx⟩
      rw [← hd]; rfl

theorem store_ok (g : C.Good A T ok) {inp : List Byte} {io : Nat} {s : St w} {r x : List Byte} {o : Obj w} (ho : Absorbed C A s r o)
    (hx : Holds inp io x) (hl : r.length + x.length < 2 * w) :
    ∃ o', Obj.store inp (o, io, x.length) = .ok o' ∧ Absorbed C A s (r ++ x) o' := by
  rw [Obj.store]
  by_cases h : x.length = 0
  · rw [if_neg (by simpa using h)]
    have : x = [] := List.eq_nil_of_length_eq_zero h
    subst this
    exact ⟨o, rfl, by rw [List.append_nil]; exact ho⟩
  · rw [if_pos h]
    obtain ⟨t, ht⟩ := ho.buf
    have hs := ho.size
    rw [ht, List.length_append] at hs
    have e : o.buf = r ++ t.take x.length ++ t.drop x.length := by rw [List.append_assoc, List.take_append_drop, ht]
    simp only [e]
    rw [copy_at hx ho.len rfl (by rw [List.length_take]; omega), ok_bind]
    refine ⟨_, rfl, ho.par, ho.dgt, ?_, ?_, ⟨_, rfl⟩, ?_⟩
    · simp [ho.len]
    · simp; omega
    · simp; omega

theorem update_ok (g : C.Good A T ok) {inp : List Byte} {io : Nat} {s : St w} {r x : List Byte} {o : Obj w} (ho : Absorbed C A s r o)
    (hx : Holds inp io x) :
    ∃ o', o.update C inp io x.length = .ok o' ∧
      Absorbed C A (eager (2 * w) (C.step A) s (r ++ x)).1 (eager (2 * w) (C.step A) s (r ++ x)).2 o' := by
  have hp := g.pos
  rw [Obj.update]
  by_cases h0 : x.length = 0
  · have : x = [] := List.eq_nil_of_length_eq_zero h0
    subst this
    rw [if_pos List.length_nil, List.append_nil, eager_short ho.lt]
    exact ⟨o, rfl, ho⟩
  · rw [if_neg h0, if_neg (by rw [ho.par]; simp)]
    by_cases hf : o.len ≠ 0 ∧ o.len + x.length ≥ 2 * w
    · obtain ⟨t, ht⟩ := ho.buf
      have hs := ho.size
      rw [ht, List.length_append] at hs
      have hlt := ho.lt
      have hlen := ho.len
      have hk : (x.take (2 * w - o.len)).length = t.length := by rw [List.length_take]; omega
      have hcp : copy inp io o.buf o.len (2 * w - o.len) = .ok (r ++ x.take (2 * w - o.len)) := by
        have := copy_at (a := r) (b := t) (c := []) (off := o.len) (n := 2 * w - o.len) (hx.takeN (2 * w - o.len)) hlen (by rw [List.length_take]; omega) hk.symm
        rw [List.append_nil, List.append_nil] at this
        rw [ht]; exact this
      have hb : (r ++ x.take (2 * w - o.len)).length = 2 * w := by rw [List.length_append]; omega
      obtain ⟨io', h1, h2⟩ := loopSeq_ok g (x.drop (2 * w - o.len)).length (io + (2 * w - o.len)) (x.drop (2 * w - o.len))
        (C.step A s (r ++ x.take (2 * w - o.len)))
        { o with buf := r ++ x.take (2 * w - o.len), dgt := [C.step A s (r ++ x.take (2 * w - o.len))], len := 0 } rfl
        (hx.dropN (by omega)) rfl
      have e : eager (2 * w) (C.step A) s (r ++ x) = eager (2 * w) (C.step A) (C.step A s (r ++ x.take (2 * w - o.len))) (x.drop (2 * w - o.len)) := by
        conv => lhs; rw [← List.take_append_drop (2 * w - o.len) x, ← List.append_assoc]
        exact eager_cons hp hb
      have hr := eager_rest_lt (step := C.step A) hp (C.step A s (r ++ x.take (2 * w - o.len))) (x.drop (2 * w - o.len))
      have a1 : Absorbed C A (eager (2 * w) (C.step A) s (r ++ x)).1 []
          { o with buf := r ++ x.take (2 * w - o.len), dgt := [(eager (2 * w) (C.step A) s (r ++ x)).1], len := 0 } :=
        ⟨ho.par, rfl, rfl, hp, ⟨_, rfl⟩, hb⟩
      obtain ⟨o', h3, h4⟩ := store_ok g a1 (x := (eager (2 * w) (C.step A) s (r ++ x)).2) (by rw [e]; exact h2) (by rw [e]; simpa using hr)
      refine ⟨o', ?_, h4⟩
      rw [Obj.fillSeq, if_pos hf, hcp, ok_bind, ho.dgt, show rd [s] 0 = .ok s from rfl, ok_bind, permute_ok g (Holds.self _) hb, ok_bind,
        show wr [s] 0 (C.step A s (r ++ x.take (2 * w - o.len))) = .ok [C.step A s (r ++ x.take (2 * w - o.len))] from rfl, ok_bind]
      simp only [pure_eq_ok, ok_bind]
      rw [List.length_drop] at h1
      rw [h1, ok_bind, ← h3, e]
    · rw [Obj.fillSeq, if_neg hf]
      simp only [pure_eq_ok, ok_bind]
      obtain ⟨io', h1, h2⟩ := loopSeq_ok g x.length io x s o rfl hx ho.dgt
      rw [h1, ok_bind]
      by_cases hr : r = []
      · subst hr
        have hrest := eager_rest_lt (step := C.step A) hp s x
        exact store_ok g (r := []) (o := { o with dgt := [(eager (2 * w) (C.step A) s x).1] }) ⟨ho.par, rfl, ho.len, ho.lt, ho.buf, ho.size⟩ h2 (by simpa using hrest)
      · have hl : o.len ≠ 0 := by rw [ho.len]; intro e; exact hr (List.eq_nil_of_length_eq_zero e)
        have hlen := ho.len
        have : r.length + x.length < 2 * w := by
          rcases Nat.lt_or_ge (r.length + x.length) (2 * w) with h | h
          · exact h
          · exact absurd ⟨hl, by omega⟩ hf
        have e1 : eager (2 * w) (C.step A) s x = (s, x) := eager_short (by omega)
        have e2 : eager (2 * w) (C.step A) s (r ++ x) = (s, r ++ x) := eager_short (by rw [List.length_append]; omega)
        rw [e1] at h2 ⊢
        rw [e2]
        have : ({ o with dgt := [s] } : Obj w) = o := by rw [← ho.dgt]
        rw [this]
        exact store_ok g ho h2 (by omega)

/-- The state after the complete blocks, in terms of the compression function and the byte count. -/
theorem eager_state (g : C.Good A T ok) : ∀ (n : Nat) (m : List Byte) (h : V8 w) (k : Nat), m.length = n →
    eager (2 * w) (C.step A) ⟨h, T k⟩ m = (⟨(eager (2 * w) A.compress h m).1, T (k + (m.length - (eager (2 * w) A.compress h m).2.length))⟩,
      (eager (2 * w) A.compress h m).2) ∧ (eager (2 * w) A.compress h m).2.length ≤ m.length := by
  intro n
  induction n using Nat.strongRecOn with
  | ind n ih =>
    intro m h k hn
    have hp := g.pos
    rw [eager.eq_def _ _ _ m, eager.eq_def (2 * w) A.compress h m]
    by_cases hc : 0 < 2 * w ∧ 2 * w ≤ m.length
    · rw [if_pos hc, if_pos hc]
      have hd : (m.drop (2 * w)).length = m.length - 2 * w := List.length_drop
      obtain ⟨h1, h2⟩ := ih (n - 2 * w) (by omega) (m.drop (2 * w)) (A.compress h (m.take (2 * w))) (k + 2 * w) (by omega)
      have e : C.step A ⟨h, T k⟩ (m.take (2 * w)) = ⟨A.compress h (m.take (2 * w)), T (k + 2 * w)⟩ := by
        rw [Core.step, g.inc _ _ (by omega)]
      rw [e, h1]
      refine ⟨?_, by omega⟩
      congr 3
      omega
    · rw [if_neg hc, if_neg hc]
      exact ⟨by simp, Nat.le_refl _⟩

/-! ## The final block -/

theorem blocks_eager (A : MD w) (hw : 0 < w) : ∀ (n : Nat) (m : List Byte) (h : V8 w), m.length = n → A.blocks h m = (eager (2 * w) A.compress h m).1 := by
  intro n
  induction n using Nat.strongRecOn with
  | ind n ih =>
    intro m h hn
    rw [MD.blocks, eager]
    by_cases hc : 2 * w ≤ m.length
    · rw [if_pos ⟨hw, hc⟩, if_pos ⟨by omega, hc⟩]
      exact ih (n - 2 * w) (by omega) _ _ (by rw [List.length_drop]; simp only [MD.rate]; omega)
    · rw [if_neg (by simp only [MD.rate]; omega), if_neg (by omega)]

theorem final2_ok {r t : List Byte} {n : Nat} (ht : r.length + t.length = n) (h : r.length < n) :
    Core.final2 (r ++ t) 0 r.length n = .ok (r ++ 0x80 :: List.replicate (n - (r.length + 1)) 0) := by
  obtain ⟨y, t, rfl⟩ : ∃ y t', t = y :: t' := by
    cases t with
    | nil => simp at ht; omega
    | cons y t => exact ⟨y, t, rfl⟩
  have hw : wr (r ++ y :: t) (0 + r.length) (0x80 : Byte) = .ok (r ++ 0x80 :: t) := by
    rw [wr, if_pos (by simp), Nat.zero_add]; simp
  simp only [List.length_cons] at ht
  rw [Core.final2, hw, ok_bind]
  by_cases hc : r.length + 1 < n
  · have hb := blit_at (a := r ++ [0x80]) (b := t) (c := []) (s := List.replicate (n - (r.length + 1)) 0) (off := 0 + (r.length + 1)) (by simp) (by simp; omega)
    rw [if_pos hc, clear, if_neg (by omega)]
    simp only [List.append_nil, List.append_assoc, List.singleton_append] at hb
    rw [hb]
  · rw [if_neg hc]
    have : t = [] := List.eq_nil_of_length_eq_zero (by omega)
    subst this
    rw [show n - (r.length + 1) = 0 by omega]; rfl

theorem pad_len (hw : w = 32 ∨ w = 64) (A : MD w) (n : Nat) :
    (n % (2 * w) + 1 ≤ 2 * w - w / 4 → A.padding n = 0x80 :: List.replicate (2 * w - w / 4 - (n % (2 * w) + 1)) 0 ++ beEnc (w / 4) (8 * n)) ∧
    (¬ n % (2 * w) + 1 ≤ 2 * w - w / 4 →
      A.padding n = (0x80 :: List.replicate (2 * w - (n % (2 * w) + 1)) 0) ++ (List.replicate (2 * w - w / 4) 0 ++ beEnc (w / 4) (8 * n))) := by
  constructor
  · intro h
    rw [MD.padding, MD.rate]
    congr 3
    rcases hw with rfl | rfl <;> omega
  · intro h
    rw [MD.padding, MD.rate, ← List.append_assoc, List.cons_append, List.cons_append, List.replicate_append_replicate]
    congr 3
    rcases hw with rfl | rfl <;> omega

theorem beEnc_len (n v : Nat) : (beEnc n v).length = n := beEnc_length n v

theorem finalSeq_ok (g : C.Good A T ok) {m : List Byte} {o : Obj w} {h : V8 w} {r : List Byte}
    (hm : eager (2 * w) A.compress A.H0 m = (h, r)) (hk : r.length ≤ m.length) (hr : r.length = m.length % (2 * w))
    (ho : Absorbed C A ⟨h, T (m.length - r.length)⟩ r o) (hok : ok m.length) :
    ∃ t, o.finalSeq C = .ok ⟨A.blocks A.H0 (m ++ A.padding m.length), t⟩ := by
  have hp := g.pos
  have hw0 : 0 < w := by omega
  have hw8 := g.width
  have hlt := ho.lt
  obtain ⟨t, ht⟩ := ho.buf
  have hs := ho.size
  rw [ht, List.length_append] at hs
  have hn : m.length - r.length + r.length = m.length := by omega
  obtain ⟨p1, p2⟩ := pad_len hw8 A m.length
  rw [← hr] at p1 p2
  rw [blocks_eager A hw0 _ _ _ rfl, eager_append, hm]
  rw [Obj.finalSeq, ho.dgt, show rd [(⟨h, T (m.length - r.length)⟩ : St w)] 0 = .ok ⟨h, T (m.length - r.length)⟩ from rfl, ok_bind,
    Core.hashFinal]
  have hinc : C.inc (T (m.length - r.length)) r.length = T m.length := by rw [g.inc _ _ (Nat.le_of_lt hlt), hn]
  simp only [ho.len, hinc]
  rw [Core.final1, if_neg (by omega)]
  simp only [pure_eq_ok, ok_bind]
  rw [ht, final2_ok hs hlt, ok_bind, Core.final3]
  by_cases hc : r.length + 1 > 2 * w - w / 4
  · rw [if_pos hc, p2 (by omega)]
    have hb : (r ++ 0x80 :: List.replicate (2 * w - (r.length + 1)) 0 : List Byte).length = 2 * w := by simp; omega
    have hcl : clear (r ++ 0x80 :: List.replicate (2 * w - (r.length + 1)) 0) (C.clearAt 0) (2 * w) = .ok (List.replicate (2 * w) 0) := by
      have := clear_whole (r ++ 0x80 :: List.replicate (2 * w - (r.length + 1)) 0)
      rw [hb] at this
      rw [g.clear0, this]
    rw [permute_ok g (Holds.self _) hb, ok_bind, hcl]
    simp only [ok_bind]
    have hpl := g.putLen m.length (m.length + 2 * w) (List.replicate (2 * w - w / 4) 0) (List.replicate (w / 4) 0) [] 0 hok (Or.inr rfl) (by simp) (by simp)
    rw [List.append_nil, List.append_nil, List.replicate_append_replicate, show 2 * w - w / 4 + w / 4 = 2 * w by omega] at hpl
    simp only [Core.step, g.inc _ (2 * w) (Nat.le_refl _), pure_eq_ok, ok_bind]
    have hb2 : (List.replicate (2 * w - w / 4) 0 ++ beEnc (w / 4) (8 * m.length) : List Byte).length = 2 * w := by
      rw [List.length_append, List.length_replicate, beEnc_len]; omega
    rw [hpl, ok_bind, permute_ok g (Holds.self _) hb2]
    simp only [ok_bind]
    rw [← List.append_assoc, eager_cons hp hb]
    rw [eager_one hp hb2]
    exact ⟨_, rfl⟩
  · rw [if_neg hc, p1 (by omega)]
    simp only [pure_eq_ok, ok_bind]
    have hpl := g.putLen m.length m.length (r ++ 0x80 :: List.replicate (2 * w - w / 4 - (r.length + 1)) 0) (List.replicate (w / 4) 0) [] 0 hok (Or.inl rfl)
      (by simp; omega) (by simp)
    have e : r ++ 0x80 :: List.replicate (2 * w - (r.length + 1)) 0 =
        r ++ 0x80 :: List.replicate (2 * w - w / 4 - (r.length + 1)) 0 ++ List.replicate (w / 4) (0 : Byte) := by
      rw [List.append_assoc, List.cons_append, List.replicate_append_replicate]
      congr 3
      omega
    rw [List.append_nil, List.append_nil] at hpl
    rw [e, hpl, ok_bind]
    have hb2 : (r ++ 0x80 :: List.replicate (2 * w - w / 4 - (r.length + 1)) 0 ++ beEnc (w / 4) (8 * m.length) : List Byte).length = 2 * w := by
      rw [List.length_append, List.length_append, List.length_cons, List.length_replicate, beEnc_len]; omega
    rw [permute_ok g (Holds.self _) hb2]
    simp only [ok_bind]
    rw [← List.append_assoc, eager_one hp hb2]
    exact ⟨_, rfl⟩

theorem put_ok (g : C.Good A T ok) (v : V8 w) (pre win post : List Byte) (hl : win.length = w) :
    C.put v (pre ++ win ++ post) pre.length = .ok (pre ++ v.bytes ++ post) := by
  have hw8 := g.width
  generalize hq : w / 8 = q
  have hwq : w = 8 * q := by omega
  have split : ∀ (n : Nat) (x : List Byte), q ≤ x.length → ∃ a b, x = a ++ b ∧ a.length = q ∧ b.length = x.length - q :=
    fun n x h => ⟨x.take q, x.drop q, (List.take_append_drop q x).symm, by rw [List.length_take]; omega, List.length_drop⟩
  obtain ⟨x1, y1, rfl, a1, b1⟩ := split 0 win (by omega)
  obtain ⟨x2, y2, rfl, a2, b2⟩ := split 0 y1 (by omega)
  obtain ⟨x3, y3, rfl, a3, b3⟩ := split 0 y2 (by omega)
  obtain ⟨x4, y4, rfl, a4, b4⟩ := split 0 y3 (by omega)
  obtain ⟨x5, y5, rfl, a5, b5⟩ := split 0 y4 (by omega)
  obtain ⟨x6, y6, rfl, a6, b6⟩ := split 0 y5 (by omega)
  obtain ⟨x7, x8, rfl, a7, b7⟩ := split 0 y6 (by omega)
  have a8 : x8.length = q := by omega
  clear b1 b2 b3 b4 b5 b6 b7 split
  have P := fun v pre win post h (off : Nat) (ho : off = List.length pre) => (show C.putw v (pre ++ win ++ post) off = _ from ho ▸ g.putw v pre win post h)
  rw [hq] at P
  have key : ∀ (u : BitVec w) (p x y : List Byte) (off : Nat) (h : x.length = q) (ho : off = p.length), C.putw u (p ++ (x ++ y)) off = .ok ((p ++ beEnc q u.toNat) ++ y) := by
    intro u p x y off h ho
    rw [← List.append_assoc]
    exact P u p x y h off ho
  rw [Core.put, hq]
  simp only [List.append_assoc]
  rw [key _ _ _ _ _ a1 rfl, ok_bind, key _ _ _ _ _ a2 (by simp only [List.length_append, beEnc_len]), ok_bind,
    key _ _ _ _ _ a3 (by simp only [List.length_append, beEnc_len]; omega), ok_bind,
    key _ _ _ _ _ a4 (by simp only [List.length_append, beEnc_len]; omega), ok_bind,
    key _ _ _ _ _ a5 (by simp only [List.length_append, beEnc_len]; omega), ok_bind,
    key _ _ _ _ _ a6 (by simp only [List.length_append, beEnc_len]; omega), ok_bind,
    key _ _ _ _ _ a7 (by simp only [List.length_append, beEnc_len]; omega), ok_bind,
    key _ _ _ _ _ a8 (by simp only [List.length_append, beEnc_len]; omega)]
  rw [V8.bytes, hq]
  simp only [List.append_assoc]

/-! ## The two classes -/

/-- The counter of SHA2-256 after `n` bytes. -/
def T256 (n : Nat) : Ctr := (BitVec.ofNat 64 n, 0)

/-- The counter of SHA2-512 after `n` bytes. -/
def T512 (n : Nat) : Ctr := (BitVec.ofNat 64 (n % 2 ^ 61), BitVec.ofNat 64 (n / 2 ^ 61))

/-- A 512-bit digest writes a wrong length field when the byte count is within a block of a multiple of `2^61`. -/
def ok512 (n : Nat) : Prop := n % 2 ^ 61 + 128 < 2 ^ 61

theorem write_be32 (v : BitVec 32) (pre win post : List Byte) (h : win.length = 4) :
    be32ToBytes v (pre ++ win ++ post) pre.length = .ok (pre ++ beEnc 4 v.toNat ++ post) := by
  obtain ⟨win', h1, h2, h3⟩ := (C01_be32_write v).1 pre win post h
  rw [h1, eq_beEnc h2 (h3.trans (Nat.mod_eq_of_lt v.isLt).symm)]

theorem write_be64 (v : BitVec 64) (pre win post : List Byte) (h : win.length = 8) :
    be64ToBytes v (pre ++ win ++ post) pre.length = .ok (pre ++ beEnc 8 v.toNat ++ post) := by
  obtain ⟨win', h1, h2, h3⟩ := (C01_be64_write v).1 pre win post h
  rw [h1, eq_beEnc h2 (h3.trans (Nat.mod_eq_of_lt v.isLt).symm)]

theorem beEnc_add (a b v : Nat) : beEnc (a + b) v = beEnc a (v / 256 ^ b) ++ beEnc b v := by
  symm
  apply eq_beEnc
  · rw [List.length_append, beEnc_len, beEnc_len]
  · rw [beVal_append, beVal_beEnc, beVal_beEnc, beEnc_len, Nat.pow_add, Nat.mul_comm (256 ^ a), Nat.mod_mul, Nat.mul_comm, Nat.add_comm]

theorem shl3 (n : Nat) : ((BitVec.ofNat 64 n <<< 3).toNat) = 8 * n % 2 ^ 64 := by
  rw [BitVec.toNat_shiftLeft, BitVec.toNat_ofNat, Nat.shiftLeft_eq]
  omega

theorem be32_total (v : BitVec 32) (b : List Byte) (io : Nat) (h : io + 4 ≤ b.length) : ∃ b', be32ToBytes v b io = .ok b' ∧ b'.length = b.length := by
  have h1 := write_be32 v (b.take io) ((b.drop io).take 4) ((b.drop io).drop 4) (by rw [List.length_take, List.length_drop]; omega)
  rw [List.append_assoc, List.take_append_drop, List.take_append_drop, List.length_take, Nat.min_eq_left (by omega)] at h1
  exact ⟨_, h1, by simp; omega⟩

theorem be64_total (v : BitVec 64) (b : List Byte) (io : Nat) (h : io + 8 ≤ b.length) : ∃ b', be64ToBytes v b io = .ok b' ∧ b'.length = b.length := by
  have h1 := write_be64 v (b.take io) ((b.drop io).take 8) ((b.drop io).drop 8) (by rw [List.length_take, List.length_drop]; omega)
  rw [List.append_assoc, List.take_append_drop, List.take_append_drop, List.length_take, Nat.min_eq_left (by omega)] at h1
  exact ⟨_, h1, by simp; omega⟩

theorem core256_good (compact : Bool) : (core256 compact).Good alg256.md T256 (fun _ => True) where
  width := Or.inl rfl
  iv := tables256.2.1
  perm := by
    intro inp b io h hb hl
    cases compact
    · exact permuteU_ok ops256_good (by rw [len256]) hb hl h
    · exact permuteC_ok ops256_good 8 len256 (by decide) hb hl h
  putw := fun v pre win post h => write_be32 v pre win post h
  T0 := rfl
  inc := by
    intro n k _
    show (BitVec.ofNat 64 n + BitVec.ofNat 64 k, (0 : BitVec 64)) = _
    rw [T256, BitVec.ofNat_add]
  putLen := by
    intro n m b win post io _ _ hb hw
    have hb : b.length = io + 56 := hb
    have hw : win.length = 8 := hw
    have h1 := write_be32 (((BitVec.ofNat 64 n <<< 3) >>> 32).setWidth 32) b (win.take 4) (win.drop 4 ++ post) (by rw [List.length_take]; omega)
    have h2 := write_be32 ((BitVec.ofNat 64 n <<< 3).setWidth 32) (b ++ beEnc 4 (((BitVec.ofNat 64 n <<< 3) >>> 32).setWidth 32).toNat) (win.drop 4) post
      (by rw [List.length_drop]; omega)
    have e1 : b ++ win ++ post = b ++ win.take 4 ++ (win.drop 4 ++ post) := by
      rw [List.append_assoc, List.append_assoc, ← List.append_assoc (win.take 4), List.take_append_drop]
    show (be32ToBytes (((BitVec.ofNat 64 n <<< 3) >>> 32).setWidth 32) (b ++ win ++ post) (io + 56) >>=
      fun b => be32ToBytes ((BitVec.ofNat 64 n <<< 3).setWidth 32) b (io + 60)) = _
    rw [hb] at h1
    rw [List.length_append, beEnc_len, hb] at h2
    rw [e1, h1, ok_bind, ← List.append_assoc, show io + 60 = io + 56 + 4 from rfl, h2]
    show Except.ok _ = Except.ok (b ++ beEnc (4 + 4) (8 * n) ++ post)
    rw [beEnc_add, BitVec.toNat_setWidth, BitVec.toNat_setWidth, BitVec.toNat_ushiftRight, shl3, Nat.shiftRight_eq_div_pow]
    have a1 : beEnc 4 (8 * n % 2 ^ 64 / 2 ^ 32 % 2 ^ 32) = beEnc 4 (8 * n / 256 ^ 4) := by
      rw [← beEnc_mod 4 (8 * n / 256 ^ 4)]
      congr 1
      rw [show (256 : Nat) ^ 4 = 2 ^ 32 from rfl]
      omega
    have a2 : beEnc 4 (8 * n % 2 ^ 64 % 2 ^ 32) = beEnc 4 (8 * n) := by
      rw [← beEnc_mod 4 (8 * n)]
      congr 1
      rw [show (256 : Nat) ^ 4 = 2 ^ 32 from rfl]
      omega
    rw [a1, a2, List.append_assoc b]
  putLen_ok := by
    intro v t b io h
    have h : io + 64 ≤ b.length := h
    obtain ⟨b1, h1, l1⟩ := be32_total ((v >>> 32).setWidth 32) b (io + 56) (by omega)
    obtain ⟨b2, h2, l2⟩ := be32_total (v.setWidth 32) b1 (io + 60) (by omega)
    exact ⟨b2, by simp only [core256, h1, ok_bind, h2], by omega⟩
  clear0 := rfl
  clear_le := fun _ => Nat.zero_le _
  root := fun n h => decide_eq_true h

theorem core512_good (compact : Bool) : (core512 compact).Good alg512.md T512 ok512 where
  width := Or.inr rfl
  iv := tables512.2.1
  perm := by
    intro inp b io h hb hl
    cases compact
    · exact permuteU_ok ops512_good (by rw [len512]) hb hl h
    · exact permuteC_ok ops512_good 10 len512 (by decide) hb hl h
  putw := fun v pre win post h => write_be64 v pre win post h
  T0 := rfl
  inc := by
    intro n k hk
    have hk : k ≤ 128 := hk
    show (if BitVec.ofNat 64 (n % 2 ^ 61) + BitVec.ofNat 64 k > 0x1FFFFFFFFFFFFFFF#64 then
      ((BitVec.ofNat 64 (n % 2 ^ 61) + BitVec.ofNat 64 k) &&& 0x1FFFFFFFFFFFFFFF#64,
        BitVec.ofNat 64 (n / 2 ^ 61) + ((BitVec.ofNat 64 (n % 2 ^ 61) + BitVec.ofNat 64 k) >>> 61))
      else (BitVec.ofNat 64 (n % 2 ^ 61) + BitVec.ofNat 64 k, BitVec.ofNat 64 (n / 2 ^ 61))) = _
    have hv : (BitVec.ofNat 64 (n % 2 ^ 61) + BitVec.ofNat 64 k).toNat = n % 2 ^ 61 + k := by
      rw [BitVec.toNat_add, BitVec.toNat_ofNat, BitVec.toNat_ofNat]; omega
    by_cases h : n % 2 ^ 61 + k ≥ 2 ^ 61
    · rw [if_pos (by rw [gt_iff_lt, BitVec.lt_def, hv, BitVec.toNat_ofNat]; omega), T512]
      congr 1
      · apply BitVec.eq_of_toNat_eq
        rw [BitVec.toNat_and, hv, BitVec.toNat_ofNat, BitVec.toNat_ofNat, show 0x1FFFFFFFFFFFFFFF % 2 ^ 64 = 2 ^ 61 - 1 from rfl, Nat.and_two_pow_sub_one_eq_mod]
        omega
      · apply BitVec.eq_of_toNat_eq
        rw [BitVec.toNat_add, BitVec.toNat_ushiftRight, hv, BitVec.toNat_ofNat, BitVec.toNat_ofNat, Nat.shiftRight_eq_div_pow]
        omega
    · rw [if_neg (by rw [gt_iff_lt, BitVec.lt_def, hv, BitVec.toNat_ofNat]; omega), T512]
      congr 1
      · apply BitVec.eq_of_toNat_eq
        rw [hv, BitVec.toNat_ofNat]
        omega
      · congr 1
        omega
  putLen := by
    intro n m b win post io hok hm hb hw
    have hb : b.length = io + 112 := hb
    have hw : win.length = 16 := hw
    have hok : n % 2 ^ 61 + 128 < 2 ^ 61 := hok
    have hm : m = n ∨ m = n + 128 := hm
    have hq : m / 2 ^ 61 = n / 2 ^ 61 := by omega
    have h1 := write_be64 (BitVec.ofNat 64 (n / 2 ^ 61)) b (win.take 8) (win.drop 8 ++ post) (by rw [List.length_take]; omega)
    have h2 := write_be64 (BitVec.ofNat 64 (n % 2 ^ 61) <<< 3) (b ++ beEnc 8 (BitVec.ofNat 64 (n / 2 ^ 61)).toNat) (win.drop 8) post
      (by rw [List.length_drop]; omega)
    have e1 : b ++ win ++ post = b ++ win.take 8 ++ (win.drop 8 ++ post) := by
      rw [List.append_assoc, List.append_assoc, ← List.append_assoc (win.take 8), List.take_append_drop]
    show (be64ToBytes (BitVec.ofNat 64 (m / 2 ^ 61)) (b ++ win ++ post) (io + 112) >>=
      fun b => be64ToBytes (BitVec.ofNat 64 (n % 2 ^ 61) <<< 3) b (io + 120)) = _
    rw [hb] at h1
    rw [List.length_append, beEnc_len, hb] at h2
    rw [e1, hq, h1, ok_bind, ← List.append_assoc, show io + 120 = io + 112 + 8 from rfl, h2]
    show Except.ok _ = Except.ok (b ++ beEnc (8 + 8) (8 * n) ++ post)
    rw [beEnc_add, BitVec.toNat_ofNat, shl3]
    have a1 : beEnc 8 (n / 2 ^ 61 % 2 ^ 64) = beEnc 8 (8 * n / 256 ^ 8) := by
      rw [← beEnc_mod 8 (8 * n / 256 ^ 8)]
      congr 1
      rw [show (256 : Nat) ^ 8 = 2 ^ 64 from rfl]
      omega
    have a2 : beEnc 8 (8 * (n % 2 ^ 61) % 2 ^ 64) = beEnc 8 (8 * n) := by
      rw [← beEnc_mod 8 (8 * n)]
      congr 1
      rw [show (256 : Nat) ^ 8 = 2 ^ 64 from rfl]
      omega
    rw [a1, a2, List.append_assoc b]
  putLen_ok := by
    intro v t b io h
    have h : io + 128 ≤ b.length := h
    obtain ⟨b1, h1, l1⟩ := be64_total t.2 b (io + 112) (by omega)
    obtain ⟨b2, h2, l2⟩ := be64_total v b1 (io + 120) (by omega)
    exact ⟨b2, by simp only [core512, h1, ok_bind, h2], by omega⟩
  clear0 := rfl
  clear_le := fun _ => Nat.le_refl _
  root := fun n h => decide_eq_true (Nat.le_of_lt h)

end Cex.Digest
