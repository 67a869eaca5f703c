import Verif.Blake.TreeModel
import Verif.Blake.Props

/-!
# C66 BLAKE2 tree mode

The tree digests lose part of every long message. `Update` with more bytes than the buffer holds fills the buffer, which has two
blocks for each leaf, compresses the first block of each leaf, and discards the buffer.
-/

namespace Cex.Blake
open Cex Cex.IntTools Cex.Stream

variable {w : Nat}

/-! ## Reading at an offset -/

theorem slice_shift {α : Type} (p c : List α) (k n : Nat) : slice (p ++ c) (p.length + k) n = slice c k n := by
  rw [slice, slice, List.length_append, List.drop_append]
  by_cases h : k + n ≤ c.length
  · rw [if_pos (by omega), if_pos h, List.drop_eq_nil_of_le (by omega), List.nil_append, Nat.add_sub_cancel_left]
  · rw [if_neg (by omega), if_neg h]

theorem slice_prefix {α : Type} (p c : List α) {k n : Nat} (h : k + n ≤ p.length) : slice (p ++ c) k n = slice p k n := by
  rw [slice, slice, if_pos (by rw [List.length_append]; omega), if_pos h, List.drop_append_of_le_length (by omega),
    List.take_append_of_le_length (by rw [List.length_drop]; omega)]

theorem copy_shift {α : Type} (p c dst : List α) (k d n : Nat) : copy (p ++ c) (p.length + k) dst d n = copy c k dst d n := by
  rw [copy, copy, slice_shift]

theorem mapM_congr {α β : Type} {f g : α → M β} : ∀ {l : List α}, (∀ x ∈ l, f x = g x) → l.mapM f = l.mapM g
  | [], _ => rfl
  | a :: l, h => by
    rw [List.mapM_cons, List.mapM_cons, h a (by simp), mapM_congr fun x hx => h x (by simp [hx])]

/-- A compression function reads its block and nothing else. -/
structure Reads (C : Core w) : Prop where
  shift : ∀ (p c : List Byte) (k : Nat) (s : St w), C.permute (p ++ c) (p.length + k) s = C.permute c k s
  front : ∀ (p c : List Byte) (k : Nat) (s : St w), k + 2 * w ≤ p.length → C.permute (p ++ c) k s = C.permute p k s

theorem load_shift {getw : List Byte → Nat → M (BitVec w)} (h : ∀ p c k, getw (p ++ c) (p.length + k) = getw c k) (p c : List Byte) (k : Nat) :
    load getw (p ++ c) (p.length + k) = load getw c k := mapM_congr fun i _ => by rw [Nat.add_assoc, h]

theorem load_front {getw : List Byte → Nat → M (BitVec w)} (h8 : w % 8 = 0) (h : ∀ p c k, k + w / 8 ≤ p.length → getw (p ++ c) k = getw p k) (p c : List Byte) (k : Nat)
    (hk : k + 2 * w ≤ p.length) : load getw (p ++ c) k = load getw p k := mapM_congr fun i hi => by
  have hi : i < 16 := List.mem_range.mp hi
  refine h p c _ ?_
  have : i * (w / 8) + w / 8 = (i + 1) * (w / 8) := by rw [Nat.succ_mul]
  have : (i + 1) * (w / 8) ≤ 16 * (w / 8) := Nat.mul_le_mul_right _ (by omega)
  omega

theorem reads_of {C : Core w} (h1 : ∀ p c k h iv, C.perm (p ++ c) (p.length + k) h iv = C.perm c k h iv)
    (h2 : ∀ p c k h iv, k + 2 * w ≤ p.length → C.perm (p ++ c) k h iv = C.perm p k h iv) : Reads C where
  shift p c k s := by simp only [Core.permute, h1]
  front p c k s hk := by simp only [Core.permute, h2 _ _ _ _ _ hk]

theorem get32_shift (p c : List Byte) (k : Nat) : leBytesTo32 (p ++ c) (p.length + k) = leBytesTo32 c k := by rw [leBytesTo32, leBytesTo32, slice_shift]
theorem get64_shift (p c : List Byte) (k : Nat) : leBytesTo64 (p ++ c) (p.length + k) = leBytesTo64 c k := by rw [leBytesTo64, leBytesTo64, slice_shift]
theorem get32_front (p c : List Byte) (k : Nat) (h : k + 32 / 8 ≤ p.length) : leBytesTo32 (p ++ c) k = leBytesTo32 p k := by
  rw [leBytesTo32, leBytesTo32, slice_prefix _ _ h]
theorem get64_front (p c : List Byte) (k : Nat) (h : k + 64 / 8 ≤ p.length) : leBytesTo64 (p ++ c) k = leBytesTo64 p k := by
  rw [leBytesTo64, leBytesTo64, slice_prefix _ _ h]

theorem reads256 (compact : Bool) : Reads (core256 compact) := by
  cases compact
  · exact reads_of (fun p c k h iv => by show permuteU _ _ _ _ _ _ _ = permuteU _ _ _ _ _ _ _; rw [permuteU, permuteU, load_shift get32_shift])
      (fun p c k h iv hk => by show permuteU _ _ _ _ _ _ _ = permuteU _ _ _ _ _ _ _; rw [permuteU, permuteU, load_front rfl get32_front p c k hk])
  · exact reads_of (fun p c k h iv => by show permuteC _ _ _ _ _ _ _ _ = permuteC _ _ _ _ _ _ _ _; rw [permuteC, permuteC, load_shift get32_shift])
      (fun p c k h iv hk => by show permuteC _ _ _ _ _ _ _ _ = permuteC _ _ _ _ _ _ _ _; rw [permuteC, permuteC, load_front rfl get32_front p c k hk])

theorem reads512 (compact : Bool) : Reads (core512 compact) := by
  cases compact
  · exact reads_of (fun p c k h iv => by show permuteU _ _ _ _ _ _ _ = permuteU _ _ _ _ _ _ _; rw [permuteU, permuteU, load_shift get64_shift])
      (fun p c k h iv hk => by show permuteU _ _ _ _ _ _ _ = permuteU _ _ _ _ _ _ _; rw [permuteU, permuteU, load_front rfl get64_front p c k hk])
  · exact reads_of (fun p c k h iv => by show permuteC _ _ _ _ _ _ _ _ = permuteC _ _ _ _ _ _ _ _; rw [permuteC, permuteC, load_shift get64_shift])
      (fun p c k h iv hk => by show permuteC _ _ _ _ _ _ _ _ = permuteC _ _ _ _ _ _ _ _; rw [permuteC, permuteC, load_front rfl get64_front p c k hk])

/-! ## What a large `Update` does with the buffer -/

variable {C : Core w}

/-- The object with another buffer and other leaf states, nothing buffered. -/
def Obj.at0 (o : Obj w) (buf : List Byte) (dgt : List (St w)) : Obj w := { o with buf := buf, dgt := dgt, len := 0 }

/-- The large path: the result depends on the first block of each leaf and on what follows the buffer, not on the rest of the buffer. -/
theorem large_eq (g : Reads C) {o : Obj w} (hl : o.len = 0) (hw : 0 < w) (hf : o.fan > 1) (hm : 2 * w ≤ o.min) (hm2 : o.min < 2 ^ 64) {a c : List Byte}
    (ha : a.length = o.fan * (2 * w)) (hN : o.fan * (2 * w) ≤ o.buf.length) (hc : o.min - 2 * w < c.length) (hs : o.buf.length + c.length < 2 ^ 64) :
    ∃ R : M (List (St w) × Nat × Nat), ∀ x : List Byte, a.length + x.length = o.buf.length →
      o.largeTree C (a ++ x ++ c) 0 (o.buf.length + c.length) = R >>= fun r => .ok (o.at0 (a ++ x) r.1, o.buf.length + r.2.1, r.2.2, r.2.2) := by
  have hr : 2 * w ≤ o.fan * (2 * w) := Nat.le_mul_of_pos_left _ (by omega)
  let lv (d : List (St w)) (f : Nat → St w → M (St w)) : M (List (St w)) := do
    let dgt ← (List.range o.fan).mapM (fun i => do f i (← rd d i))
    return dgt ++ d.drop o.fan
  let plen := c.length - o.min - (c.length - o.min) % o.min
  refine ⟨do
    let d ← lv o.dgt (fun i s => C.absorb a (i * (2 * w)) s)
    if c.length > o.buf.length + (o.min - 2 * w) then do
      let d ← lv d (fun i s => Obj.processLeaf C o c (i * (2 * w)) plen s)
      return (d, plen, c.length - plen)
    else return (d, 0, c.length), fun x hx => ?_⟩
  have hax : (a ++ x).length = o.buf.length := by rw [List.length_append, hx]
  have hcp : copy (a ++ x ++ c) 0 o.buf 0 o.buf.length = .ok (a ++ x) := by
    rw [← hax]
    have := copy_at (src := a ++ x ++ c) (so := 0) (s := a ++ x) (a := []) (b := o.buf) (c := []) (off := 0) (n := (a ++ x).length)
      ⟨[], c, by simp, rfl⟩ rfl rfl hax.symm
    simpa using this
  rw [Obj.largeTree]
  simp only [hl, Nat.add_zero, Mac.subU_le hm hm2, Mac.subU_le (Nat.zero_le o.buf.length) (by omega), Nat.sub_zero]
  rw [if_pos (by omega), if_pos (by omega), hcp, ok_bind, Mac.subU_le (by omega) hs, Nat.add_sub_cancel_left]
  have hleaves : ∀ (o' : Obj w) (f f' : Nat → St w → M (St w)), o'.fan = o.fan → (∀ i < o.fan, ∀ s, f i s = f' i s) →
      o'.leaves f = lv o'.dgt f' >>= fun d => .ok { o' with dgt := d } := by
    intro o' f f' h1 h2
    rw [Obj.leaves, h1]
    simp only [lv, bind_assoc, pure_bind]
    rw [mapM_congr (g := fun i => do f' i (← rd o'.dgt i)) (fun i hi => by simp only [h2 i (List.mem_range.mp hi)])]
    rfl
  rw [hleaves ({ o with buf := a ++ x, len := 0 }) (fun i s => C.absorb (a ++ x) (i * (2 * w)) s) (fun i s => C.absorb a (i * (2 * w)) s) rfl (fun i hi s => g.front _ _ _ _ (by
    have : i * (2 * w) + 2 * w = (i + 1) * (2 * w) := (Nat.succ_mul i (2 * w)).symm
    have : (i + 1) * (2 * w) ≤ o.fan * (2 * w) := Nat.mul_le_mul_right _ hi
    omega))]
  simp only [bind_assoc, ok_bind]
  refine congrArg (fun k => lv o.dgt (fun i s => C.absorb a (i * (2 * w)) s) >>= k) (funext fun d => ?_)
  by_cases hbig : c.length > o.buf.length + (o.min - 2 * w)
  · have h2 : o.min ≤ c.length := by omega
    have hp : plen ≤ c.length := by show c.length - o.min - _ ≤ c.length; omega
    rw [if_pos hbig, if_pos hbig, Mac.subU_le h2 (by omega), hleaves ({ o with buf := a ++ x, len := 0, dgt := d })
      (fun i s => Obj.processLeaf C { o with buf := a ++ x, len := 0, dgt := d } (a ++ x ++ c) (0 + o.buf.length + i * (2 * w)) (c.length - o.min - (c.length - o.min) % o.min) s)
      (fun i s => Obj.processLeaf C o c (i * (2 * w)) plen s) rfl (fun i hi s => by
      show Obj.processLeaf C _ (a ++ x ++ c) (0 + o.buf.length + i * (2 * w)) plen s = _
      rw [Obj.processLeaf, Obj.processLeaf]
      simp only
      split
      · rfl
      · split
        · rfl
        · refine congrArg (fun f => loopN (plen / o.min) 0 f s) (funext fun k => funext fun s => ?_)
          rw [Nat.zero_add, Nat.add_assoc, ← hax, g.shift])]
    simp only [bind_assoc, ok_bind, pure_eq_ok]
    refine congrArg (fun k => lv d (fun i s => Obj.processLeaf C o c (i * (2 * w)) plen s) >>= k) (funext fun d => ?_)
    rw [Nat.zero_add, show c.length - o.min - (c.length - o.min) % o.min = plen from rfl, Mac.subU_le hp (by omega)]
    rfl
  · rw [if_neg hbig, if_neg hbig, pure_eq_ok, pure_eq_ok, ok_bind, Nat.zero_add]
    rfl

/-- What `Finalize` sees of an object: the unused part of the buffer is cleared. -/
def Obj.norm (o : Obj w) : Obj w := { o with buf := o.buf.take o.len ++ List.replicate (o.buf.length - o.len) 0 }

theorem finalize_norm {o : Obj w} (hf : o.fan > 1) (h : o.len ≤ o.buf.length) (h2 : o.buf.length < 2 ^ 64) (out : List Byte) (oo : Nat) :
    o.finalize C out oo = o.norm.finalize C out oo := by
  have key : ∀ o : Obj w, o.len ≤ o.buf.length → o.buf.length < 2 ^ 64 →
      clear o.buf o.len (Mac.subU o.buf.length o.len) = .ok (o.buf.take o.len ++ List.replicate (o.buf.length - o.len) 0) := by
    intro o h h2
    rw [Mac.subU_le h h2, clear]
    split
    · rename_i e
      rw [e, List.take_of_length_le (by omega), List.replicate_zero, List.append_nil]
    · rw [blit_ok (by rw [List.length_replicate]; omega), List.length_replicate, List.drop_eq_nil_of_le (by omega), List.append_nil]
  have hlen : o.norm.buf.length = o.buf.length := by
    show (o.buf.take o.len ++ List.replicate (o.buf.length - o.len) 0).length = _
    rw [List.length_append, List.length_take, List.length_replicate]; omega
  have e1 := key o h h2
  have e2 := key o.norm (by rw [hlen]; exact h) (by rw [hlen]; exact h2)
  have e3 : o.norm.buf.take o.norm.len ++ List.replicate (o.norm.buf.length - o.norm.len) 0 = o.buf.take o.len ++ List.replicate (o.buf.length - o.len) 0 := by
    rw [hlen]
    refine congrArg (· ++ _) ?_
    show (o.buf.take o.len ++ List.replicate (o.buf.length - o.len) 0).take o.len = _
    rw [List.take_append_of_le_length (by rw [List.length_take]; omega), List.take_take, Nat.min_self]
  rw [e3] at e2
  have ht : o.finalTree C out oo = o.norm.finalTree C out oo := by
    rw [Obj.finalTree, Obj.finalTree, e1, e2]
    rfl
  have hfn : o.norm.fan > 1 := hf
  rw [Obj.finalize, Obj.finalize]
  split
  · rfl
  · rw [ht]

/-- Two results of `Update` that `Finalize` cannot tell apart. -/
def Alike (r1 r2 : M (Obj w)) : Prop :=
  r1 = r2 ∨ ∃ o1 o2 : Obj w, r1 = .ok o1 ∧ r2 = .ok o2 ∧ o1.norm = o2.norm ∧
    (o1.fan > 1 ∧ o1.len ≤ o1.buf.length ∧ o1.buf.length < 2 ^ 64) ∧ (o2.fan > 1 ∧ o2.len ≤ o2.buf.length ∧ o2.buf.length < 2 ^ 64)

theorem Alike.final {r1 r2 : M (Obj w)} (h : Alike r1 r2) (out : List Byte) (oo : Nat) : (r1 >>= fun o => o.finalize C out oo) = r2 >>= fun o => o.finalize C out oo := by
  rcases h with h | ⟨o1, o2, rfl, rfl, e, ⟨a, b, c⟩, ⟨a', b', c'⟩⟩
  · rw [h]
  · rw [ok_bind, ok_bind, finalize_norm a b c, finalize_norm a' b' c', e]

/-- The end of `Update`, after the large path. -/
theorem rest_alike {o : Obj w} (hf : o.fan > 1) {a x y c : List Byte} (hx : a.length + x.length = o.buf.length) (hy : a.length + y.length = o.buf.length)
    (h0 : 0 < o.buf.length) (hs : o.buf.length < 2 ^ 64) (d : List (St w)) (q e : Nat) :
    Alike (Obj.shiftTree C (a ++ x ++ c) (o.at0 (a ++ x) d, o.buf.length + q, e, e) >>= Obj.store (a ++ x ++ c))
      (Obj.shiftTree C (a ++ y ++ c) (o.at0 (a ++ y) d, o.buf.length + q, e, e) >>= Obj.store (a ++ y ++ c)) := by
  have hax : (a ++ x).length = o.buf.length := by rw [List.length_append, hx]
  have hay : (a ++ y).length = o.buf.length := by rw [List.length_append, hy]
  by_cases he : e > o.buf.length
  · left
    have key : ∀ z : List Byte, (a ++ z).length = o.buf.length → (Obj.shiftTree C (a ++ z ++ c) (o.at0 (a ++ z) d, o.buf.length + q, e, e) >>= Obj.store (a ++ z ++ c)) =
        (do
          let s ← slice c q o.buf.length
          let o' ← Obj.leaves (o.at0 s d) (fun i t => C.absorb s (i * (2 * w)) t)
          let half := s.length / 2
          let buf' ← copy s half s 0 half
          Obj.store c ({ o' with buf := buf', len := Mac.subU s.length o.min }, q + o.buf.length, Mac.subU e o.buf.length)) := by
      intro z hz
      rw [Obj.shiftTree]
      simp only [Obj.at0, hz]
      rw [if_pos he, Mac.subU_le (Nat.zero_le _) hs, Nat.sub_zero, if_pos (by omega), copy, if_neg (by omega), ← hz, slice_shift]
      simp only [bind_assoc]
      rw [hz]
      cases hsl : slice c q o.buf.length with
      | error f => rfl
      | ok s =>
        have hsl' : s.length = o.buf.length := by
          rw [slice] at hsl
          split at hsl
          · cases hsl; rw [List.length_take, List.length_drop]; omega
          · cases hsl
        have hb : blit (a ++ z) 0 s = .ok s := by
          rw [blit_ok (by omega), hsl', List.drop_eq_nil_of_le (by omega)]; simp
        rw [ok_bind, ok_bind, hb, ok_bind]
        refine congrArg _ (funext fun o' => ?_)
        refine congrArg _ (funext fun b => ?_)
        rw [pure_eq_ok, ok_bind, Obj.store, Obj.store]
        simp only
        rw [Nat.add_assoc, ← hz, copy_shift]
    rw [key x hax, key y hay]
  · have hsk : ∀ z : List Byte, (a ++ z).length = o.buf.length → (Obj.shiftTree C (a ++ z ++ c) (o.at0 (a ++ z) d, o.buf.length + q, e, e) >>= Obj.store (a ++ z ++ c)) =
        if e ≠ 0 then (do
          let s ← slice c q e
          .ok { o with buf := s ++ (a ++ z).drop e, dgt := d, len := e }) else .ok (o.at0 (a ++ z) d) := by
      intro z hz
      rw [Obj.shiftTree]
      simp only [Obj.at0, hz]
      rw [if_neg he, pure_eq_ok, ok_bind, Obj.store]
      simp only
      split
      · rw [← hz, copy_shift, copy, if_neg (by assumption)]
        cases hsl : slice c q e with
        | error f => rfl
        | ok s =>
          have hsl' : s.length = e := by
            rw [slice] at hsl
            split at hsl
            · cases hsl; rw [List.length_take, List.length_drop]; omega
            · cases hsl
          rw [ok_bind, ok_bind, blit_ok (by omega), ok_bind, hsl', Nat.zero_add]
          rfl
      · rfl
    rw [hsk x hax, hsk y hay]
    by_cases h0e : e = 0
    · rw [if_neg (by omega), if_neg (by omega)]
      right
      refine ⟨_, _, rfl, rfl, ?_, ⟨hf, Nat.zero_le _, hax.trans_lt hs⟩, ⟨hf, Nat.zero_le _, hay.trans_lt hs⟩⟩
      rw [Obj.norm, Obj.norm]
      simp only [Obj.at0, List.take_zero, hax, hay]
    · rw [if_pos h0e, if_pos h0e]
      cases hsl : slice c q e with
      | error f => left; rfl
      | ok s =>
        have hsl' : s.length = e := by
          rw [slice] at hsl
          split at hsl
          · cases hsl; rw [List.length_take, List.length_drop]; omega
          · cases hsl
        have hlen : ∀ z : List Byte, (a ++ z).length = o.buf.length → (s ++ (a ++ z).drop e).length = o.buf.length := by
          intro z hz; rw [List.length_append, List.length_drop, hz, hsl']; omega
        right
        refine ⟨_, _, rfl, rfl, ?_, ⟨hf, ?_, ?_⟩, ⟨hf, ?_, ?_⟩⟩
        · rw [Obj.norm, Obj.norm]
          simp only [hlen x hax, hlen y hay]
          rw [List.take_append_of_le_length (by omega), List.take_append_of_le_length (by omega)]
        all_goals simp only [hlen x hax, hlen y hay]
        all_goals omega

/-- Collisions of the tree digest. Take a fresh tree object, its fan-out and buffer as they are. Two messages that agree in the first
`fan` blocks and after the bytes that the buffer holds have the same digest; if one fails, so does the other. -/
theorem collision (g : Reads C) {o : Obj w} (hl : o.len = 0) (hw : 0 < w) (hf : o.fan > 1) (hm : 2 * w ≤ o.min) (hm2 : o.min < 2 ^ 64) {a x y c : List Byte}
    (ha : a.length = o.fan * (2 * w)) (hx : a.length + x.length = o.buf.length) (hy : a.length + y.length = o.buf.length) (hc : o.min - 2 * w < c.length)
    (hs : o.buf.length + c.length < 2 ^ 64) (out : List Byte) : o.compute C (a ++ x ++ c) out = o.compute C (a ++ y ++ c) out := by
  have hr : 0 < o.fan * (2 * w) := Nat.mul_pos (by omega) (by omega)
  have hN : o.fan * (2 * w) ≤ o.buf.length := by omega
  obtain ⟨R, hR⟩ := large_eq g hl hw hf hm hm2 ha hN hc hs
  have hlen : ∀ z : List Byte, a.length + z.length = o.buf.length → (a ++ z ++ c).length = o.buf.length + c.length := by
    intro z hz; simp only [List.length_append]; omega
  have hu : Alike (o.update C (a ++ x ++ c) 0 (a ++ x ++ c).length) (o.update C (a ++ y ++ c) 0 (a ++ y ++ c).length) := by
    have key : ∀ z : List Byte, a.length + z.length = o.buf.length → o.update C (a ++ z ++ c) 0 (a ++ z ++ c).length =
        R >>= fun r => Obj.shiftTree C (a ++ z ++ c) (o.at0 (a ++ z) r.1, o.buf.length + r.2.1, r.2.2, r.2.2) >>= Obj.store (a ++ z ++ c) := by
      intro z hz
      rw [Obj.update, hlen z hz, if_pos (by omega), if_pos hf, hR z hz]
      simp only [bind_assoc, ok_bind]
    rw [key x hx, key y hy]
    cases R with
    | error f => left; rfl
    | ok r => exact rest_alike hf hx hy (by omega) (by omega) r.1 r.2.1 r.2.2
  rw [Obj.compute, Obj.compute]
  split
  · rfl
  · exact hu.final out 0

/-- A tree object as constructed or reset: nothing buffered, room for two blocks per leaf. The minimum size of the profile is one block
for each leaf when there are enough processors; any other size is allowed here. -/
structure Fresh (o : Obj w) : Prop where
  len : o.len = 0
  fan : o.fan > 1
  small : o.fan ≤ 64
  buf : o.buf.length = 2 * o.fan * (2 * w)
  min : 2 * w ≤ o.min
  min' : o.min < 2 ^ 32

/-- Collisions for both classes and builds, for every message longer than the buffer by at least the minimum size: the second half of the
buffer is lost, 512 bytes for both default objects. -/
theorem C66_collision : (∀ compact (o : Obj 32), Fresh o → ∀ a x y c : List Byte, a.length = o.fan * 64 → x.length = o.fan * 64 → y.length = o.fan * 64 → o.min ≤ c.length →
      c.length < 2 ^ 63 → ∀ out, o.compute (core256 compact) (a ++ x ++ c) out = o.compute (core256 compact) (a ++ y ++ c) out) ∧
    (∀ compact (o : Obj 64), Fresh o → ∀ a x y c : List Byte, a.length = o.fan * 128 → x.length = o.fan * 128 → y.length = o.fan * 128 → o.min ≤ c.length →
      c.length < 2 ^ 63 → ∀ out, o.compute (core512 compact) (a ++ x ++ c) out = o.compute (core512 compact) (a ++ y ++ c) out) := by
  refine ⟨fun compact o h a x y c ha hx hy hc hs out => ?_, fun compact o h a x y c ha hx hy hc hs out => ?_⟩
  · have := h.fan; have := h.small; have := h.buf; have := h.min; have := h.min'
    exact collision (reads256 compact) h.len (by decide) h.fan (by omega) (by omega) ha (by omega) (by omega) (by omega) (by omega) out
  · have := h.fan; have := h.small; have := h.buf; have := h.min; have := h.min'
    exact collision (reads512 compact) h.len (by decide) h.fan (by omega) (by omega) ha (by omega) (by omega) (by omega) (by omega) out

/-- Blake512 in tree mode ignores the output offset: `Finalize` writes to offset 0 whatever it is told. -/
theorem C66_offset_ignored (compact : Bool) (o : Obj 64) (hf : o.fan > 1) (out : List Byte) (oo : Nat) (h : oo + 64 ≤ out.length) (hs : out.length < 2 ^ 64) :
    o.finalize (core512 compact) out oo = o.finalize (core512 compact) out 0 := by
  have h1 : ¬ Mac.subU out.length oo < 64 := by rw [Mac.subU_le (by omega) hs]; omega
  have h2 : ¬ Mac.subU out.length 0 < 64 := by rw [Mac.subU_le (by omega) hs]; omega
  rw [Obj.finalize, Obj.finalize, if_neg h1, if_neg h2, if_pos hf, if_pos hf]
  rfl

end Cex.Blake
