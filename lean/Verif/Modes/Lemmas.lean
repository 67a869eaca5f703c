import Verif.Modes.Model
import Verif.Modes.Spec
import Verif.IntTools.Props

/-! # Helper lemmas for the block cipher modes -/

namespace Cex.Modes
open Cex Cex.Par Cex.IntTools Cex.Modes.Spec

theorem cipherBlock_at {f : List Byte → List Byte} {inp b a old c : List Byte} {io oo : Nat} (hb : Holds inp io b)
    (hl : b.length = 16) (hf : (f b).length = 16) (ho : oo = a.length) (hold : old.length = 16) :
    cipherBlock f inp io (a ++ old ++ c) oo = .ok (a ++ f b ++ c) := by
  rw [cipherBlock, slice_holds hb hl.symm, ok_bind, blit_at ho (by omega)]

theorem cipherBlock_whole {f : List Byte → List Byte} {inp b old : List Byte} {io : Nat} (hb : Holds inp io b)
    (hl : b.length = 16) (hf : (f b).length = 16) (hold : old.length = 16) :
    cipherBlock f inp io old 0 = .ok (f b) := by
  have := cipherBlock_at (a := []) (c := []) hb hl hf (oo := 0) rfl hold
  simpa using this

/-- `loopN` on a pair is a run of actions. -/
theorem loopN_eq_runActs {L : Type} (body : Nat → Act L) (n start : Nat) (l : L) (m : List Byte) :
    loopN n start (fun i (s : L × List Byte) => body i s.1 s.2) (l, m) = runActs (forActs start n body) l m := by
  induction n generalizing start l m with
  | zero => rfl
  | succ n ih =>
    rw [loopN, forActs, List.range'_succ, List.map_cons, runActs]
    cases h : body start l m with
    | error e => rfl
    | ok r => simp only [ok_bind]; exact ih (start + 1) r.1 r.2

/-- Block loop run on an array: the statement used by the sequential engines. -/
theorem runActs_blocks {L β : Type} (f : L → β → L × List Byte) (I : L → Prop) (B off : Nat) (body : Nat → Act L)
    (bs : List β) (s : L) (pre junk post : List Byte) (hp : pre.length = off) (hj : junk.length = bs.length * B)
    (hI : I s)
    (hstep : ∀ k b l, bs[k]? = some b → I l →
        I (f l b).1 ∧ (f l b).2.length = B ∧
        ∀ a old c : List Byte, a.length = off + k * B → old.length = B →
          body k l (a ++ old ++ c) = .ok ((f l b).1, a ++ (f l b).2 ++ c)) :
    runActs (forActs 0 bs.length body) s (pre ++ junk ++ post) =
      .ok ((runBlocks f s bs).1, pre ++ (runBlocks f s bs).2.flatten ++ post) :=
  (blockRuns0 f I B off body bs s junk hj hI hstep).1.run pre post hp

/-! ## Grouping blocks for tasks -/

/-- `n` groups of `m` blocks. -/
def groups (m n : Nat) (bs : List (List Byte)) : List (List (List Byte)) :=
  (List.range n).map (fun i => (bs.drop (i * m)).take m)

/-- Running groups one after the other is running the blocks. -/
theorem runBlocks_groups {L : Type} (f : L → List Byte → L × List Byte) (m : Nat) (bs : List (List Byte)) (s : L) (n : Nat) :
    runBlocks (fun s (g : List (List Byte)) => ((runBlocks f s g).1, (runBlocks f s g).2.flatten)) s (groups m n bs) =
      ((runBlocks f s (bs.take (n * m))).1,
       (List.range n).map (fun i =>
         (runBlocks f (runBlocks f s (bs.take (i * m))).1 ((bs.drop (i * m)).take m)).2.flatten)) := by
  induction n with
  | zero => simp [groups, runBlocks]
  | succ n ih =>
    have e : groups m (n + 1) bs = groups m n bs ++ [(bs.drop (n * m)).take m] := by
      simp [groups, List.range_succ]
    rw [e, runBlocks_append, ih]
    have e2 : bs.take ((n + 1) * m) = bs.take (n * m) ++ (bs.drop (n * m)).take m := by
      rw [Nat.succ_mul, List.take_add]
    rw [e2, runBlocks_append]
    simp only [runBlocks, List.range_succ, List.map_append, List.map_cons, List.map_nil]

theorem runBlocks_groups_flat {L : Type} (f : L → List Byte → L × List Byte) (m : Nat) (bs : List (List Byte)) (s : L)
    (n : Nat) :
    flatW (fun i => (runBlocks f (runBlocks f s (bs.take (i * m))).1 ((bs.drop (i * m)).take m)).2.flatten) n =
      (runBlocks f s (bs.take (n * m))).2.flatten := by
  induction n with
  | zero => simp [flatW, runBlocks]
  | succ n ih =>
    rw [flatW_succ, ih]
    have e2 : bs.take ((n + 1) * m) = bs.take (n * m) ++ (bs.drop (n * m)).take m := by
      rw [Nat.succ_mul, List.take_add]
    rw [e2, runBlocks_append, List.flatten_append]

theorem runBlocks_I {L β : Type} (f : L → β → L × List Byte) (I : L → Prop) :
    ∀ (bs : List β) (s : L), I s → (∀ l b, b ∈ bs → I l → I (f l b).1) → I (runBlocks f s bs).1
  | [], _, h, _ => h
  | b :: bs, s, h, hf => runBlocks_I f I bs (f s b).1 (hf s b (by simp) h) (fun l x hx => hf l x (by simp [hx]))

theorem runBlocks_length {L β : Type} (f : L → β → L × List Byte) (s : L) (bs : List β) :
    (runBlocks f s bs).2.length = bs.length := by
  induction bs generalizing s with
  | nil => rfl
  | cons b bs ih => simp [runBlocks, ih]

/-- Cutting a list into equal windows. -/
def winOf (x : List Byte) (seg i : Nat) : List Byte := (x.drop (i * seg)).take seg

theorem winOf_length (x : List Byte) (seg n i : Nat) (hx : x.length = n * seg) (hi : i < n) : (winOf x seg i).length = seg := by
  rw [winOf, List.length_take, List.length_drop, hx]
  have : (i + 1) * seg ≤ n * seg := Nat.mul_le_mul_right _ hi
  rw [Nat.succ_mul] at this
  omega

theorem flatW_winOf (x : List Byte) (seg n : Nat) : flatW (winOf x seg) n = x.take (n * seg) := by
  induction n with
  | zero => simp [flatW]
  | succ n ih => rw [flatW_succ, ih, winOf, Nat.succ_mul, List.take_add]

/-- The parallel engine theorem: `n` tasks of `m` blocks each (`B` bytes per block), task `i` turning its
window into what the block step `f` gives from the chaining state reached after the blocks before it. -/
theorem par_blocks {K L : Type} (f : L → List Byte → L × List Byte) (B m n base : Nat) (bs : List (List Byte))
    (hn : bs.length = n * m) (s : L) (ts : Nat → Thread K) (P : Nat → K → Prop) (pre junk post : List Byte)
    (hp : pre.length = base) (hj : junk.length = n * (m * B)) (sched : List Nat)
    (hruns : ∀ i, i < n → ∀ w : List Byte, w.length = m * B →
      ∃ fin, P i fin ∧ Runs (base + i * (m * B)) (ts i).prog (ts i).loc w fin
        (runBlocks f (runBlocks f s (bs.take (i * m))).1 ((bs.drop (i * m)).take m)).2.flatten)
    (hs : ∀ j ∈ sched, j < n) (hc : ∀ i, i < n → (ts i).prog.length ≤ sched.count i) :
    ∃ ts', runSched sched ts (pre ++ junk ++ post) = .ok (ts', pre ++ (runBlocks f s bs).2.flatten ++ post) ∧
      ∀ i, i < n → P i (ts' i).loc := by
  have hw : ∀ i, i < n → (winOf junk (m * B) i).length = m * B := fun i hi => winOf_length _ _ n i hj hi
  let fin : Nat → K := fun i => if h : i < n then (hruns i h _ (hw i h)).choose else (ts i).loc
  have hfin : ∀ i, (h : i < n) → fin i = (hruns i h _ (hw i h)).choose := fun i h => by simp [fin, h]
  obtain ⟨ts', h1, h2⟩ := interleave n (m * B) base fin _ sched ts (winOf junk (m * B)) pre post hp hw
    (fun i hi => by rw [hfin i hi]; exact (hruns i hi _ (hw i hi)).choose_spec.2) hs hc
  refine ⟨ts', ?_, fun i hi => ?_⟩
  · rw [flatW_winOf, ← hj, List.take_length] at h1
    rw [h1, runBlocks_groups_flat, ← hn, List.take_length]
  · rw [(h2 i hi).2, hfin i hi]; exact (hruns i hi _ (hw i hi)).choose_spec.1

theorem forActs_length {L : Type} (start n : Nat) (body : Nat → Act L) : (forActs start n body).length = n := by
  simp [forActs]

/-! ## XOR facts -/

theorem xorBytes_append {a b c d : List Byte} (h : a.length = b.length) :
    xorBytes (a ++ c) (b ++ d) = xorBytes a b ++ xorBytes c d := by
  simp only [xorBytes]; exact List.zipWith_append h

theorem xorBytes_comm (a b : List Byte) : xorBytes a b = xorBytes b a := by
  simp only [xorBytes]; rw [List.zipWith_comm]; simp only [BitVec.xor_comm]

theorem xorBytes_cancel {a b : List Byte} (h : a.length = b.length) : xorBytes a (xorBytes a b) = b := by
  induction a generalizing b with
  | nil => cases b with
    | nil => rfl
    | cons _ _ => simp at h
  | cons x a ih => cases b with
    | nil => simp at h
    | cons y b =>
      simp only [xorBytes, List.zipWith_cons_cons, List.length_cons] at ih h ⊢
      rw [ih (by omega), ← BitVec.xor_assoc, BitVec.xor_self, BitVec.zero_xor]

theorem xorBytes_cancel' {a b : List Byte} (h : a.length = b.length) : xorBytes (xorBytes a b) b = a := by
  rw [xorBytes_comm, xorBytes_comm a b]; exact xorBytes_cancel h.symm

/-! ## ECB -/

theorem mapBlocks_eq (f : List Byte → List Byte) : ∀ (bs : List (List Byte)), Blocks 16 bs →
    mapBlocks f bs.length bs.flatten = (bs.map f).flatten
  | [], _ => rfl
  | b :: bs, h => by
    obtain ⟨h1, h2⟩ := h.cons
    rw [List.length_cons, mapBlocks, List.flatten_cons, List.take_left' h1, List.drop_left' h1, mapBlocks_eq f bs h2]
    rfl

theorem map_length16 {f : List Byte → List Byte} (hf : ∀ b, b.length = 16 → (f b).length = 16) {bs : List (List Byte)}
    (h : Blocks 16 bs) : Blocks 16 (bs.map f) := by
  intro x hx
  obtain ⟨b, hb, rfl⟩ := List.mem_map.mp hx
  exact hf b (h b hb)

theorem cipherWide_at {f : List Byte → List Byte} (hf : ∀ b, b.length = 16 → (f b).length = 16) {W : Nat} {inp a old c : List Byte}
    {bs : List (List Byte)} {io oo : Nat} (hb : Holds inp io bs.flatten) (hl : Blocks 16 bs) (hW : bs.length = W)
    (ho : oo = a.length) (hold : old.length = W * 16) :
    cipherWide f W inp io (a ++ old ++ c) oo = .ok (a ++ (bs.map f).flatten ++ c) := by
  have h1 : bs.flatten.length = 16 * W := by rw [hl.length, hW, Nat.mul_comm]
  rw [cipherWide, slice_holds hb h1.symm, ok_bind, ← hW, mapBlocks_eq f bs hl, blit_at ho]
  rw [(map_length16 hf hl).length, List.length_map, hold, hW]

/-- The step function of ECB. -/
def ecbStep (f : List Byte → List Byte) : Unit → List Byte → Unit × List Byte := fun _ b => ((), f b)

theorem ecbStep_run (f : List Byte → List Byte) (u : Unit) (bs : List (List Byte)) :
    runBlocks (ecbStep f) u bs = ((), bs.map f) := by
  induction bs with
  | nil => rfl
  | cons b bs ih => simp [runBlocks, ecbStep] at ih ⊢; rw [ih]

theorem groups_get {m n k : Nat} {bs : List (List Byte)} {g : List (List Byte)} (h : (groups m n bs)[k]? = some g) :
    k < n ∧ g = (bs.drop (k * m)).take m := by
  simp only [groups, List.getElem?_map, Option.map_eq_some_iff] at h
  obtain ⟨i, h1, h2⟩ := h
  obtain ⟨h3, h4⟩ := List.getElem?_eq_some_iff.mp h1
  simp only [List.getElem_range] at h4
  rw [← h4] at h2
  exact ⟨by simpa using h3, h2.symm⟩

theorem Holds.group {x : List Byte} {off : Nat} {bs : List (List Byte)} {B : Nat} (hb : Blocks B bs)
    (h : Holds x off bs.flatten) (k m : Nat) (hk : k ≤ bs.length) :
    Holds x (off + k * B) ((bs.drop k).take m).flatten := Cex.Holds.take (Cex.Holds.drop hb h k hk) m

theorem mul_le_of_lt {i n m L : Nat} (hi : i < n) (h : n * m ≤ L) : (i + 1) * m ≤ L :=
  Nat.le_trans (Nat.mul_le_mul_right m hi) h

theorem ecbGen_runs (W thr : Nat) (f : List Byte → List Byte) (hf : ∀ b, b.length = 16 → (f b).length = 16)
    (inp : List Byte) (io oo : Nat) (bs : List (List Byte)) (hbs : Blocks 16 bs) (hin : Holds inp io bs.flatten)
    (w : List Byte) (hw : w.length = bs.length * 16) :
    Runs oo (ecbGenActs W thr f inp io oo bs.length) () w () (bs.map f).flatten := by
  rw [ecbGenActs]
  generalize hg : (if W ≠ 0 ∧ thr < bs.length then bs.length / W else 0) = g
  have hgW : g * W ≤ bs.length := by
    rw [← hg]; split
    · exact Nat.div_mul_le_self _ _
    · simp
  have e0 : w = w.take (g * W * 16) ++ w.drop (g * W * 16) := (List.take_append_drop _ _).symm
  have hgl : g * W * 16 ≤ bs.length * 16 := Nat.mul_le_mul_right 16 hgW
  have hl1 : (w.take (g * W * 16)).length = g * W * 16 := by
    rw [List.length_take, hw]; omega
  -- wide part
  have r1 := (blockRuns0 (fun (_ : Unit) (b : List (List Byte)) => ((), (b.map f).flatten)) (fun _ => True) (16 * W) oo
    (fun k _ out => do
      let out ← cipherWide f W inp (io + k * (16 * W)) out (oo + k * (16 * W))
      return ((), out)) (groups W g bs) () (w.take (g * W * 16))
    (by rw [hl1]; simp only [groups, List.length_map, List.length_range]; rw [Nat.mul_assoc, Nat.mul_comm W]) trivial
    (fun k b l hk _ => by
      obtain ⟨h1, h2⟩ := groups_get hk
      have h3 := mul_le_of_lt h1 hgW
      rw [Nat.succ_mul] at h3
      have hb16 : Blocks 16 b := h2 ▸ (hbs.drop _).take _
      have hlen : b.length = W := by rw [h2, List.length_take, List.length_drop]; omega
      refine ⟨trivial, by rw [(map_length16 hf hb16).length, List.length_map, hlen, Nat.mul_comm], ?_⟩
      intro a old c ha hold
      have hh : Holds inp (io + k * W * 16) b.flatten := h2 ▸ Holds.group hbs hin (k * W) W (by omega)
      rw [show k * W * 16 = k * (16 * W) by rw [Nat.mul_assoc, Nat.mul_comm W]] at hh
      rw [cipherWide_at hf hh hb16 hlen ha.symm (by rw [hold, Nat.mul_comm])]
      rfl)).1
  have hgr : (groups W g bs).length = g := by simp [groups]
  rw [hgr] at r1
  have hrb : (runBlocks (fun (_ : Unit) (b : List (List Byte)) => ((), (b.map f).flatten)) () (groups W g bs)).2.flatten =
      ((bs.take (g * W)).map f).flatten := by
    have := runBlocks_groups (ecbStep f) W bs () g
    simp only [ecbStep_run] at this
    rw [this]
    have h2 := runBlocks_groups_flat (ecbStep f) W bs () g
    simp only [ecbStep_run] at h2
    rw [← h2, flatW, List.flatMap_def]
  rw [hrb] at r1
  have r1' := r1.widen [] (w.drop (g * W * 16)) oo (by simp)
  rw [List.nil_append, ← e0, List.nil_append] at r1'
  -- scalar part
  have hdl : (bs.drop (g * W)).length = bs.length - g * W := List.length_drop ..
  have hol : ((bs.take (g * W)).map f).flatten.length = g * W * 16 := by
    rw [(map_length16 hf (hbs.take _)).length, List.length_map, List.length_take, Nat.min_eq_left hgW]
  have r2 := (blockRuns (ecbStep f) (fun _ => True) 16 oo
    (fun k _ out => do
      let out ← cipherBlock f inp (io + k * 16) out (oo + k * 16)
      return ((), out)) (bs.drop (g * W)) (g * W) () ((bs.take (g * W)).map f).flatten (w.drop (g * W * 16)) hol
    (by rw [List.length_drop, hw, hdl]; omega) trivial
    (fun k b l hk _ => by
      have hk' : bs[g * W + k]? = some b := by rwa [List.getElem?_drop] at hk
      have hb := hbs.get hk'
      refine ⟨trivial, hf b hb, ?_⟩
      intro a old c ha hold
      rw [cipherBlock_at (Cex.Holds.block hbs hin hk') hb (hf b hb) ha.symm hold]
      rfl)).1
  rw [hdl] at r2
  have := r1'.append r2
  have efin : ((bs.take (g * W)).map f).flatten ++ (runBlocks (ecbStep f) () (bs.drop (g * W))).2.flatten = (bs.map f).flatten := by
    rw [ecbStep_run, ← List.flatten_append, ← List.map_append, List.take_append_drop]
  rw [efin] at this
  exact this

theorem ecbGen_length (W thr : Nat) (f : List Byte → List Byte) (inp : List Byte) (io oo n : Nat) :
    (ecbGenActs W thr f inp io oo n).length ≤ n := by
  simp only [ecbGenActs, List.length_append, forActs_length]
  split
  · rename_i h
    have h1 : n / W * 1 ≤ n / W * W := Nat.mul_le_mul_left _ (by omega)
    have h2 := Nat.div_mul_le_self n W
    omega
  · omega

/-! ## CBC -/

/-- CBC encryption step. -/
def cbcEncStep (E : List Byte → List Byte) : List Byte → List Byte → List Byte × List Byte :=
  fun iv b => (E (xorBytes iv b), E (xorBytes iv b))

/-- CBC decryption step. -/
def cbcDecStep (D : List Byte → List Byte) : List Byte → List Byte → List Byte × List Byte :=
  fun iv b => (b, xorBytes (D b) iv)

theorem cbcEncStep_run (E : List Byte → List Byte) (iv : List Byte) (bs : List (List Byte)) :
    runBlocks (cbcEncStep E) iv bs = (lastOr iv (cbcEnc E iv bs), cbcEnc E iv bs) := by
  induction bs generalizing iv with
  | nil => rfl
  | cons b bs ih => simp only [runBlocks, cbcEncStep, cbcEnc, lastOr] at ih ⊢; rw [ih]

theorem cbcDecStep_run (D : List Byte → List Byte) (iv : List Byte) (bs : List (List Byte)) :
    runBlocks (cbcDecStep D) iv bs = (lastOr iv bs, cbcDec D iv bs) := by
  induction bs generalizing iv with
  | nil => rfl
  | cons b bs ih => simp only [runBlocks, cbcDecStep, cbcDec, lastOr] at ih ⊢; rw [ih]

theorem cbcEncBlock_at (c : Cipher) (hE : ∀ b, b.length = 16 → (c.enc b).length = 16) {inp b iv a old q : List Byte}
    {io oo : Nat} (hb : Holds inp io b) (hl : b.length = 16) (hiv : iv.length = 16) (ho : a.length = oo)
    (hold : old.length = 16) :
    cbcEncBlock c inp io oo iv (a ++ old ++ q) = .ok ((cbcEncStep c.enc iv b).1, a ++ (cbcEncStep c.enc iv b).2 ++ q) := by
  have h1 : xorInto inp io iv 0 16 = .ok (xorBytes iv b) := by
    have := xorInto_at (a := []) (c := []) hb (off := 0) rfl hl.symm (d := iv) (by omega)
    simpa using this
  have hx : (xorBytes iv b).length = 16 := by rw [xorBytes_length]; omega
  have hEx := hE _ hx
  simp only [cbcEncBlock, h1, ok_bind, cipherBlock_at (Holds.self _) hx hEx ho.symm hold,
    copy_whole (b := xorBytes iv b) ⟨a, q, rfl, ho⟩ hEx.symm (by omega)]
  rfl

theorem cbcDecBlock_at (c : Cipher) (hD : ∀ b, b.length = 16 → (c.dec b).length = 16) {inp b iv a old q : List Byte}
    {io oo : Nat} (hb : Holds inp io b) (hl : b.length = 16) (hiv : iv.length = 16) (ho : a.length = oo)
    (hold : old.length = 16) :
    cbcDecBlock c inp io oo iv (a ++ old ++ q) = .ok ((cbcDecStep c.dec iv b).1, a ++ (cbcDecStep c.dec iv b).2 ++ q) := by
  have hDb := hD b hl
  simp only [cbcDecBlock, slice_holds hb hl.symm, ok_bind, cipherBlock_at hb hl hDb ho.symm hold,
    xorInto_at (Holds.self iv) ho.symm hiv.symm (by omega : (c.dec b).length = iv.length),
    copy_whole (b := iv) (Holds.self b) hl.symm (by omega)]
  rfl

/-- CBC decryption of a group, all blocks at once. -/
theorem cbcDec_wide (D : List Byte → List Byte) (hD : ∀ b, b.length = 16 → (D b).length = 16) :
    ∀ (g : List (List Byte)) (iv : List Byte), Blocks 16 g → g ≠ [] → iv.length = 16 →
      xorBytes (g.map D).flatten (iv ++ g.dropLast.flatten) = (cbcDec D iv g).flatten
  | [], _, _, h, _ => absurd rfl h
  | [b], iv, hb, _, hiv => by
    simp [cbcDec]
  | b :: b2 :: g, iv, hb, _, hiv => by
    obtain ⟨h1, h2⟩ := hb.cons
    have ih := cbcDec_wide D hD (b2 :: g) b h2 (by simp) h1
    have e1 : ((b :: b2 :: g).map D).flatten = D b ++ ((b2 :: g).map D).flatten := rfl
    have e2 : (b :: b2 :: g).dropLast.flatten = b ++ (b2 :: g).dropLast.flatten := by simp
    have e3 : (cbcDec D iv (b :: b2 :: g)).flatten = xorBytes (D b) iv ++ (cbcDec D b (b2 :: g)).flatten := by
      rw [cbcDec, List.flatten_cons]
    rw [e1, e2, e3, xorBytes_append (by rw [hD b h1, hiv]), ih]

theorem cbcDec_blocks (D : List Byte → List Byte) (hD : ∀ b, b.length = 16 → (D b).length = 16) :
    ∀ (g : List (List Byte)) (iv : List Byte), Blocks 16 g → iv.length = 16 → Blocks 16 (cbcDec D iv g)
  | [], _, _, _ => by intro x hx; simp [cbcDec] at hx
  | b :: g, iv, hb, hiv => by
    obtain ⟨h1, h2⟩ := hb.cons
    intro x hx
    rw [cbcDec, List.mem_cons] at hx
    rcases hx with rfl | hx
    · rw [xorBytes_length, hD b h1, hiv]; rfl
    · exact cbcDec_blocks D hD g b h2 h1 x hx

theorem lastOr_length {iv : List Byte} {bs : List (List Byte)} (hb : Blocks 16 bs) (hiv : iv.length = 16) :
    (lastOr iv bs).length = 16 := by
  induction bs generalizing iv with
  | nil => exact hiv
  | cons b bs ih => exact ih hb.cons.2 hb.cons.1

theorem lastOr_append (iv : List Byte) (as bs : List (List Byte)) : lastOr iv (as ++ bs) = lastOr (lastOr iv as) bs := by
  induction as generalizing iv with
  | nil => rfl
  | cons a as ih => simp only [List.cons_append, lastOr, ih]

theorem cbcDec_append (D : List Byte → List Byte) (iv : List Byte) (as bs : List (List Byte)) :
    cbcDec D iv (as ++ bs) = cbcDec D iv as ++ cbcDec D (lastOr iv as) bs := by
  induction as generalizing iv with
  | nil => rfl
  | cons a as ih => simp only [List.cons_append, cbcDec, lastOr, ih]

theorem lastOr_getLast {iv : List Byte} {bs : List (List Byte)} (h : bs ≠ []) : lastOr iv bs = bs.getLast h := by
  induction bs generalizing iv with
  | nil => exact absurd rfl h
  | cons b bs ih =>
    cases bs with
    | nil => rfl
    | cons b2 bs => rw [lastOr, ih (by simp)]; simp

/-- Private-state invariant of the wide loop before group `k` of `G`, chaining value `ch k`. -/
def WideInv (W G : Nat) (bs : List (List Byte)) (iv : List Byte) (k : Nat) (s : CbcWide) : Prop :=
  s.iv = iv ∧ s.tmpv.length = 16 * W ∧ s.tmpn.length = 16 * W ∧
  (k < G → s.tmpv = lastOr iv (bs.take (k * W)) ++ ((bs.drop (k * W)).take W).dropLast.flatten) ∧
  (0 < k → s.tmpn.take 16 = lastOr iv (bs.take (k * W)))

theorem take_drop_group {α : Type} (bs : List α) (k W : Nat) :
    bs.take ((k + 1) * W) = bs.take (k * W) ++ (bs.drop (k * W)).take W := by
  rw [Nat.succ_mul, List.take_add]

/-- After the blocks before it, a whole group ends with its last block. -/
theorem lastOr_group {iv : List Byte} {bs : List (List Byte)} {k W : Nat} (hW : W ≠ 0) (hk : (k + 1) * W ≤ bs.length) :
    ∃ b, bs[k * W + (W - 1)]? = some b ∧ lastOr iv (bs.take ((k + 1) * W)) = b := by
  rw [Nat.succ_mul] at hk
  have hlt : k * W + (W - 1) < bs.length := by omega
  refine ⟨bs[k * W + (W - 1)], List.getElem?_eq_getElem hlt, ?_⟩
  have hne : bs.take ((k + 1) * W) ≠ [] := by
    rw [Ne, List.take_eq_nil_iff, Nat.succ_mul]
    rintro (h | h)
    · omega
    · subst h; simp at hlt
  rw [lastOr_getLast hne, List.getLast_eq_getElem]
  simp only [List.length_take, List.getElem_take]
  congr 1
  rw [Nat.succ_mul]; omega

theorem cbcWide_runs (c : Cipher) (hD : ∀ b, b.length = 16 → (c.dec b).length = 16) (W G : Nat) (hW : W ≠ 0)
    (inp : List Byte) (io oo : Nat) (bs : List (List Byte)) (hbs : Blocks 16 bs) (hin : Holds inp io bs.flatten)
    (hG : G * W ≤ bs.length) (iv : List Byte) (hiv : iv.length = 16) :
    ∀ (r k : Nat) (s : CbcWide) (done w : List Byte), k + r = G → WideInv W G bs iv k s →
      done.length = k * (16 * W) → w.length = r * (16 * W) →
      ∃ s', WideInv W G bs iv G s' ∧
        Runs oo (forActs k r (fun k => cbcDecWide c W inp (io + k * (16 * W)) (oo + k * (16 * W)))) s (done ++ w) s'
          (done ++ (cbcDec c.dec (lastOr iv (bs.take (k * W))) ((bs.take (G * W)).drop (k * W))).flatten)
  | 0, k, s, done, w, hk, hI, _, hw => by
    have hk' : k = G := by omega
    subst hk'
    have : w = [] := List.length_eq_zero_iff.mp (by simpa using hw)
    subst this
    refine ⟨s, hI, ?_⟩
    rw [List.drop_of_length_le (by rw [List.length_take]; omega)]
    simpa [forActs, cbcDec] using Runs.nil s done
  | r + 1, k, s, done, w, hk, hI, hd, hw => by
    obtain ⟨i1, i2, i3, i4, i5⟩ := hI
    have hkG : k < G := by omega
    have hkW := mul_le_of_lt hkG hG
    have hkW' := hkW
    rw [Nat.succ_mul] at hkW'
    -- the current group
    generalize hgdef : (bs.drop (k * W)).take W = g at *
    have hg16 : Blocks 16 g := hgdef ▸ (hbs.drop _).take _
    have hgl : g.length = W := by rw [← hgdef, List.length_take, List.length_drop]; omega
    have hgne : g ≠ [] := by intro e; rw [e] at hgl; simp at hgl; omega
    have hgh : Holds inp (io + k * (16 * W)) g.flatten := by
      have := Holds.group hbs hin (k * W) W (by omega)
      rw [hgdef] at this
      rwa [Nat.mul_assoc, Nat.mul_comm W] at this
    have hch : (lastOr iv (bs.take (k * W))).length = 16 := lastOr_length (hbs.take _) hiv
    -- next scratch
    have hlen := hin.le
    rw [hbs.length] at hlen
    obtain ⟨bl, hbl1, hbl2⟩ := lastOr_group (iv := iv) hW hkW
    have hblk : Holds inp (io + (k * W + (W - 1)) * 16) bl := Cex.Holds.block hbs hin hbl1
    have hb16 := hbs.get hbl1
    have epos : io + k * (16 * W) + (16 * W - 16) = io + (k * W + (W - 1)) * 16 := by
      have e1 : k * (16 * W) = k * W * 16 := by rw [Nat.mul_assoc, Nat.mul_comm W]
      rw [e1]; omega
    have htmpn : ∃ tn, copy inp (io + k * (16 * W) + (16 * W - 16)) s.tmpn 0
          (if 16 * W ≤ inp.length - (io + k * (16 * W) + (16 * W - 16)) then 16 * W
            else inp.length - (io + k * (16 * W) + (16 * W - 16))) = .ok tn ∧ tn.length = 16 * W ∧ tn.take 16 = bl ∧
          (k + 1 < G → tn = bl ++ ((bs.drop ((k + 1) * W)).take W).dropLast.flatten) := by
      generalize hP : io + k * (16 * W) + (16 * W - 16) = P at *
      have hPle : P + 16 ≤ inp.length := by have := hblk.le; rw [← epos, hb16] at this; exact this
      generalize hn : (if 16 * W ≤ inp.length - P then 16 * W else inp.length - P) = n
      have hn1 : n ≤ 16 * W ∧ P + n ≤ inp.length ∧ 16 ≤ n := by
        rw [← hn]; split <;> omega
      have hS : Holds inp P ((inp.drop P).take n) := by
        refine ⟨inp.take P, (inp.drop P).drop n, ?_, by rw [List.length_take]; omega⟩
        rw [List.append_assoc, List.take_append_drop, List.take_append_drop]
      have hSl : ((inp.drop P).take n).length = n := by rw [List.length_take, List.length_drop]; omega
      have hcp := copy_at (a := []) (b := s.tmpn.take n) (c := s.tmpn.drop n) (off := 0) hS rfl hSl.symm
        (by rw [List.length_take, hSl]; omega)
      rw [List.nil_append, List.take_append_drop, List.nil_append] at hcp
      refine ⟨_, hcp, by rw [List.length_append, hSl, List.length_drop]; omega, ?_, ?_⟩
      · rw [List.take_append_of_le_length (by omega), List.take_take, Nat.min_eq_left hn1.2.2]
        rw [← epos] at hblk
        obtain ⟨a, q, e, ha⟩ := hblk
        rw [e, ← ha, List.append_assoc, List.drop_left, List.take_left' hb16]
      · intro hlast
        have hk2 := mul_le_of_lt hlast hG
        have hn16 : n = 16 * W := by
          rw [← hn, if_pos]
          have e1 : k * (16 * W) = k * W * 16 := by rw [Nat.mul_assoc, Nat.mul_comm W]
          simp only [Nat.succ_mul] at hk2
          omega
        rw [hn16, List.drop_of_length_le (l := s.tmpn) (by omega), List.append_nil]
        -- window starting one block before the next group
        have hk3 := hk2
        simp only [Nat.succ_mul] at hk3
        have hwin := Holds.group hbs hin (k * W + (W - 1)) W (by omega)
        rw [← epos] at hwin
        have hsplit : (bs.drop (k * W + (W - 1))).take W = bl :: ((bs.drop ((k + 1) * W)).take W).dropLast := by
          obtain ⟨V, rfl⟩ : ∃ V, W = V + 1 := ⟨W - 1, by omega⟩
          have hlt : k * (V + 1) + (V + 1 - 1) < bs.length := by omega
          rw [List.drop_eq_getElem_cons hlt, List.take_succ_cons]
          rw [List.getElem?_eq_getElem hlt] at hbl1
          rw [Option.some.inj hbl1]
          congr 1
          rw [show (k + 1) * (V + 1) = k * (V + 1) + (V + 1 - 1) + 1 by rw [Nat.succ_mul]; omega]
          rw [List.dropLast_eq_take, List.take_take, List.length_take, List.length_drop]
          congr 1
          omega
        rw [hsplit] at hwin
        obtain ⟨a, q, e, ha⟩ := hwin
        rw [e, ← ha, List.append_assoc, List.drop_left, List.take_left']
        · rfl
        · rw [← hsplit, ((hbs.drop _).take _).length, List.length_take, List.length_drop]; omega
    obtain ⟨tn, ht1, ht2, ht3, ht4⟩ := htmpn
    have htv := i4 hkG
    have hout : xorBytes (g.map c.dec).flatten s.tmpv = (cbcDec c.dec (lastOr iv (bs.take (k * W))) g).flatten := by
      rw [htv]; exact cbcDec_wide c.dec hD g _ hg16 hgne hch
    have hgD : (g.map c.dec).flatten.length = 16 * W := by
      rw [(map_length16 hD hg16).length, List.length_map, hgl, Nat.mul_comm]
    have hol : (cbcDec c.dec (lastOr iv (bs.take (k * W))) g).flatten.length = 16 * W := by
      rw [← hout, xorBytes_length, hgD, i2]; exact Nat.min_self _
    have hchain : lastOr iv (bs.take ((k + 1) * W)) = lastOr (lastOr iv (bs.take (k * W))) g := by
      rw [take_drop_group, hgdef, lastOr_append]
    obtain ⟨s', hs', hr⟩ := cbcWide_runs c hD W G hW inp io oo bs hbs hin hG iv hiv r (k + 1)
      { iv := s.iv, tmpv := tn, tmpn := tn } (done ++ (cbcDec c.dec (lastOr iv (bs.take (k * W))) g).flatten)
      (w.drop (16 * W)) (by omega)
      ⟨i1, ht2, ht2, fun h => by rw [ht4 h, hbl2], fun _ => by rw [ht3, hbl2]⟩
      (by rw [List.length_append, hd, hol, Nat.succ_mul k])
      (by rw [List.length_drop, hw, Nat.succ_mul r]; omega)
    refine ⟨s', hs', ?_⟩
    have hwsplit : w = w.take (16 * W) ++ w.drop (16 * W) := (List.take_append_drop _ _).symm
    have hwt : (w.take (16 * W)).length = 16 * W := by rw [List.length_take, hw, Nat.succ_mul r]; omega
    have hfin : done ++ (cbcDec c.dec (lastOr iv (bs.take (k * W))) ((bs.take (G * W)).drop (k * W))).flatten =
        done ++ (cbcDec c.dec (lastOr iv (bs.take (k * W))) g).flatten ++
          (cbcDec c.dec (lastOr iv (bs.take ((k + 1) * W))) ((bs.take (G * W)).drop ((k + 1) * W))).flatten := by
      have e : (bs.take (G * W)).drop (k * W) = g ++ (bs.take (G * W)).drop ((k + 1) * W) := by
        have h1 : (bs.take (G * W)).drop (k * W) = ((bs.take (G * W)).drop (k * W)).take W ++
            ((bs.take (G * W)).drop (k * W)).drop W := (List.take_append_drop _ _).symm
        have h2 : ((bs.take (G * W)).drop (k * W)).take W = g := by
          rw [← hgdef, List.drop_take, List.take_take]
          have h3 : (k + 1) * W ≤ G * W := Nat.mul_le_mul_right _ hkG
          rw [Nat.succ_mul] at h3
          rw [Nat.min_eq_left (by omega)]
        rw [h2, List.drop_drop] at h1
        rw [h1, Nat.succ_mul]
      rw [e, cbcDec_append, List.flatten_append, ← hchain]
      simp only [List.append_assoc]
    rw [hfin, forActs, List.range'_succ, List.map_cons]
    rw [forActs] at hr
    refine Runs.cons (l1 := CbcWide.mk s.iv tn tn)
      (w1 := done ++ (cbcDec c.dec (lastOr iv (bs.take (k * W))) g).flatten ++ w.drop (16 * W)) ?_ ?_ hr
    · intro pre post hp
      have hpos : oo + k * (16 * W) = (pre ++ done).length := by rw [List.length_append, hp, hd]
      have e1 : pre ++ (done ++ w) ++ post = (pre ++ done) ++ w.take (16 * W) ++ (w.drop (16 * W) ++ post) := by
        simp only [List.append_assoc]
        rw [← List.append_assoc (w.take (16 * W)), List.take_append_drop]
      rw [e1]
      have hcw := cipherWide_at hD (c := w.drop (16 * W) ++ post) hgh hg16 hgl hpos
        (by rw [hwt, Nat.mul_comm] : (w.take (16 * W)).length = W * 16)
      have hxi := xorInto_at (c := w.drop (16 * W) ++ post) (Holds.self s.tmpv) hpos i2.symm
        (by rw [hgD, i2] : (g.map c.dec).flatten.length = s.tmpv.length)
      simp only [cbcDecWide, ht1, ok_bind, hcw, hxi, copy_whole (b := s.tmpv) (Holds.self tn) ht2.symm (by omega), hout]
      simp [List.append_assoc]
    · simp only [List.length_append, hol, List.length_drop]
      rw [hw, Nat.succ_mul r]; omega

theorem cbcSeg_runs (c : Cipher) (hD : ∀ b, b.length = 16 → (c.dec b).length = 16) (W : Nat)
    (inp : List Byte) (io oo : Nat) (bs : List (List Byte)) (hbs : Blocks 16 bs) (hin : Holds inp io bs.flatten)
    (s : CbcWide) (hiv : s.iv.length = 16) (w : List Byte) (hw : w.length = bs.length * 16) :
    ∃ s', s'.iv = lastOr s.iv bs ∧
      Runs oo (cbcSegActs c W inp io oo bs.length) s w s' (cbcDec c.dec s.iv bs).flatten := by
  rw [cbcSegActs]
  generalize hg : (if W ≠ 0 ∧ W - 1 < bs.length then bs.length / W else 0) = g
  have hgW : g * W ≤ bs.length := by
    rw [← hg]; split
    · exact Nat.div_mul_le_self _ _
    · simp
  have hgl : g * W * 16 ≤ bs.length * 16 := Nat.mul_le_mul_right 16 hgW
  have hl1 : (w.take (g * W * 16)).length = g * W * 16 := by
    rw [List.length_take, hw]; omega
  have hl2 : (w.drop (g * W * 16)).length = (bs.length - g * W) * 16 := by
    rw [List.length_drop, hw, Nat.sub_mul]
  -- the wide part
  have hwide : ∃ s1 : CbcWide, s1.iv = lastOr s.iv (bs.take (g * W)) ∧
      Runs oo (if g = 0 then [] else
        [fun s out => do
          let tmpv ← copy s.iv 0 (List.replicate (16 * W) 0) 0 16
          let tmpv ← copy inp io tmpv 16 (16 * W - 16)
          return ({ iv := s.iv, tmpv := tmpv, tmpn := List.replicate (16 * W) 0 }, out)] ++
        forActs 0 g (fun k => cbcDecWide c W inp (io + k * (16 * W)) (oo + k * (16 * W))) ++
        [fun s out => do
          let iv ← copy s.tmpn 0 s.iv 0 16
          return ({ s with iv := iv }, out)]) s w s1
        ((cbcDec c.dec s.iv (bs.take (g * W))).flatten ++ w.drop (g * W * 16)) := by
    by_cases hg0 : g = 0
    · subst hg0
      refine ⟨s, by simp [lastOr], ?_⟩
      simpa [cbcDec] using Runs.nil s w
    · rw [if_neg hg0]
      have hW : W ≠ 0 := by
        intro h; rw [if_neg (by simp [h])] at hg; omega
      have hWb : W ≤ bs.length := by
        have : 1 * W ≤ g * W := Nat.mul_le_mul_right _ (by omega)
        omega
      -- first action
      have hdl : (bs.take W).dropLast.flatten.length = 16 * W - 16 := by
        have : Blocks 16 (bs.take W).dropLast := fun x hx => hbs x (List.mem_of_mem_take (List.dropLast_subset _ hx))
        rw [this.length, List.length_dropLast, List.length_take, Nat.sub_mul]; omega
      have hhold : Holds inp io (bs.take W).dropLast.flatten := by
        rw [List.dropLast_eq_take]
        exact Cex.Holds.take (Cex.Holds.take hin W) _
      have hrep : List.replicate (16 * W) (0 : Byte) = List.replicate 16 0 ++ List.replicate (16 * W - 16) 0 := by
        rw [List.replicate_append_replicate]; congr 1; omega
      have c1 : copy s.iv 0 (List.replicate (16 * W) 0) 0 16 = .ok (s.iv ++ List.replicate (16 * W - 16) 0) := by
        have := copy_at (a := []) (b := List.replicate 16 0) (c := List.replicate (16 * W - 16) 0) (off := 0)
          (Holds.self s.iv) rfl hiv.symm (by simp [hiv])
        rw [List.nil_append, List.nil_append, ← hrep] at this
        exact this
      have c2 : copy inp io (s.iv ++ List.replicate (16 * W - 16) 0) 16 (16 * W - 16) =
          .ok (s.iv ++ (bs.take W).dropLast.flatten) := by
        have := copy_at (a := s.iv) (b := List.replicate (16 * W - 16) 0) (c := []) (off := 16) hhold hiv.symm hdl.symm
          (by simp [hdl])
        simpa using this
      obtain ⟨s1, ⟨j1, j2, j3, j4, j5⟩, hr⟩ := cbcWide_runs c hD W g hW inp io oo bs hbs hin hgW s.iv hiv g 0
        ⟨s.iv, s.iv ++ (bs.take W).dropLast.flatten, List.replicate (16 * W) 0⟩ [] (w.take (g * W * 16)) (by omega)
        ⟨rfl, by simp only [List.length_append, hiv, hdl]; omega, by simp, fun _ => by simp [lastOr], fun h => by omega⟩
        (by simp) (by rw [hl1, Nat.mul_assoc, Nat.mul_comm W])
      refine ⟨{ s1 with iv := s1.tmpn.take 16 }, j5 (by omega), ?_⟩
      have hr' := hr.widen [] (w.drop (g * W * 16)) oo rfl
      simp only [List.nil_append, Nat.zero_mul, List.take_zero, lastOr, List.drop_zero, List.take_append_drop] at hr'
      rw [List.append_assoc, List.singleton_append]
      refine Runs.cons (l1 := ⟨s.iv, s.iv ++ (bs.take W).dropLast.flatten, List.replicate (16 * W) 0⟩) (w1 := w) ?_ rfl
        (hr'.append (Runs.cons (l1 := { s1 with iv := s1.tmpn.take 16 }) ?_ rfl (Runs.nil _ _)))
      · intro pre post _
        simp only [c1, c2, ok_bind, pure_eq_ok]
      · intro pre post _
        have hs16 : (s1.tmpn.take 16).length = 16 := by rw [List.length_take, j3]; omega
        have : Holds s1.tmpn 0 (s1.tmpn.take 16) := ⟨[], s1.tmpn.drop 16, by simp, rfl⟩
        simp only [copy_whole (b := s1.iv) this hs16.symm (by rw [j1, hiv, hs16]), ok_bind, pure_eq_ok]
  obtain ⟨s1, hs1, hr1⟩ := hwide
  have hs1l : s1.iv.length = 16 := by rw [hs1]; exact lastOr_length (hbs.take _) hiv
  have hwl : (cbcDec c.dec s.iv (bs.take (g * W))).flatten.length = g * W * 16 := by
    have := hr1.length
    rw [List.length_append, hl2, hw, Nat.sub_mul] at this
    omega
  -- the block loop
  have hlen2 : (bs.drop (g * W)).length = bs.length - g * W := List.length_drop
  have hr2 := blockRuns (fun (l : CbcWide) b => ({ l with iv := (cbcDecStep c.dec l.iv b).1 }, (cbcDecStep c.dec l.iv b).2))
    (fun l => l.iv.length = 16) 16 oo
    (fun k => liftAct CbcWide.iv (fun v s => { s with iv := v }) (cbcDecBlock c inp (io + k * 16) (oo + k * 16)))
    (bs.drop (g * W)) (g * W) s1 (cbcDec c.dec s.iv (bs.take (g * W))).flatten (w.drop (g * W * 16)) hwl
    (by rw [hl2, hlen2]) hs1l (by
      intro k b l hk hl
      rw [List.getElem?_drop] at hk
      have hb16 := hbs.get hk
      refine ⟨hb16, by simp only [cbcDecStep, xorBytes_length, hD b hb16]; rw [hl]; rfl, ?_⟩
      intro a old q ha hold
      simp only [liftAct, cbcDecBlock_at c hD (Cex.Holds.block hbs hin hk) hb16 hl ha hold, ok_bind, pure_eq_ok])
  rw [hlen2] at hr2
  have hproj : ∀ (bs : List (List Byte)) (l : CbcWide),
      (runBlocks (fun (l : CbcWide) b => ({ l with iv := (cbcDecStep c.dec l.iv b).1 }, (cbcDecStep c.dec l.iv b).2)) l bs).1.iv =
        lastOr l.iv bs ∧
      (runBlocks (fun (l : CbcWide) b => ({ l with iv := (cbcDecStep c.dec l.iv b).1 }, (cbcDecStep c.dec l.iv b).2)) l bs).2 =
        cbcDec c.dec l.iv bs := by
    intro bs
    induction bs with
    | nil => intro l; exact ⟨rfl, rfl⟩
    | cons b bs ih =>
      intro l
      simp only [runBlocks]
      have := ih { l with iv := (cbcDecStep c.dec l.iv b).1 }
      simp only [cbcDecStep, lastOr, cbcDec] at this ⊢
      rw [this.1, this.2]
      exact ⟨rfl, rfl⟩
  have hp := hproj (bs.drop (g * W)) s1
  have h3 := hr2.1
  rw [hp.2] at h3
  have h4 := hr1.append h3
  rw [← List.flatten_append, hs1, ← cbcDec_append, List.take_append_drop] at h4
  exact ⟨_, by rw [hp.1, hs1, ← lastOr_append, List.take_append_drop], h4⟩

/-- Turns a thread of `CBC::DecryptParallel` needs. -/
def cbcTurns (W n : Nat) : Nat := (cbcSegActs ⟨id, id⟩ W [] 0 0 n).length + 1

theorem cbcSeg_length (c : Cipher) (W : Nat) (inp : List Byte) (io oo n : Nat) :
    (cbcSegActs c W inp io oo n).length + 1 = cbcTurns W n := by
  simp only [cbcTurns, cbcSegActs]
  generalize (if W ≠ 0 ∧ W - 1 < n then n / W else 0) = g
  by_cases hg : g = 0
  · simp [hg, forActs_length]
  · simp [hg, forActs_length]

/-- Turns a thread of `ECB::ProcessParallel` needs. -/
def ecbTurns (W thr n : Nat) : Nat := (ecbGenActs W thr id [] 0 0 n).length

theorem ecbGen_turns (W thr : Nat) (f : List Byte → List Byte) (inp : List Byte) (io oo n : Nat) :
    (ecbGenActs W thr f inp io oo n).length = ecbTurns W thr n := by
  simp only [ecbTurns, ecbGenActs, List.length_append, forActs_length]

/-! ## The outer loop over parallel blocks -/

/-- The outer loop of a mode: `cnt` big blocks of `m` blocks each. -/
theorem outer_blocks {L : Type} (f : L → List Byte → L × List Byte) (I : L → Prop) (B off m cnt : Nat) (body : Nat → Act L)
    (bs : List (List Byte)) (hcnt : cnt * m ≤ bs.length) (s : L) (pre junk post : List Byte) (hp : pre.length = off)
    (hj : junk.length = cnt * (m * B)) (hI : I s)
    (hstep : ∀ k g l, k < cnt → g = (bs.drop (k * m)).take m → g.length = m → I l →
        I (runBlocks f l g).1 ∧ (runBlocks f l g).2.flatten.length = m * B ∧
        ∀ a old c : List Byte, a.length = off + k * (m * B) → old.length = m * B →
          body k l (a ++ old ++ c) = .ok ((runBlocks f l g).1, a ++ (runBlocks f l g).2.flatten ++ c)) :
    runActs (forActs 0 cnt body) s (pre ++ junk ++ post) =
      .ok ((runBlocks f s (bs.take (cnt * m))).1, pre ++ (runBlocks f s (bs.take (cnt * m))).2.flatten ++ post) := by
  have hgr : (groups m cnt bs).length = cnt := by simp [groups]
  have h := runActs_blocks (fun s (g : List (List Byte)) => ((runBlocks f s g).1, (runBlocks f s g).2.flatten)) I (m * B) off
    body (groups m cnt bs) s pre junk post hp (by rw [hgr, hj]) hI (by
      intro k g l hk hl
      obtain ⟨h1, h2⟩ := groups_get hk
      have h3 := mul_le_of_lt h1 hcnt
      rw [Nat.succ_mul] at h3
      exact hstep k g l h1 h2 (by rw [h2, List.length_take, List.length_drop]; omega) hl)
  rw [hgr] at h
  rw [h, runBlocks_groups, ← runBlocks_groups_flat]
  simp [flatW, List.flatMap]

/-- What the modes need of the parallel profile (guaranteed by `ParallelOptions`, see C19). -/
def Profile.Valid (p : Profile) : Prop :=
  p.isParallel = true → p.degree ≠ 0 ∧ p.blockSize ≠ 0 ∧ 16 * p.degree ∣ p.blockSize

theorem Profile.Valid.split {p : Profile} (h : p.Valid) (hp : p.isParallel = true) :
    ∃ m, m ≠ 0 ∧ p.degree ≠ 0 ∧ p.blockSize / p.degree = m * 16 ∧ p.blockSize = p.degree * m * 16 := by
  obtain ⟨h1, h2, m, h3⟩ := h hp
  have e : p.blockSize = m * 16 * p.degree := by rw [h3, Nat.mul_comm 16, Nat.mul_comm _ m, Nat.mul_assoc, Nat.mul_comm 16]
  refine ⟨m, ?_, h1, ?_, ?_⟩
  · rintro rfl; simp at h3; exact h2 h3
  · rw [e, Nat.mul_div_cancel _ (by omega)]
  · rw [e, Nat.mul_comm (m * 16), Nat.mul_assoc]

end Cex.Modes
