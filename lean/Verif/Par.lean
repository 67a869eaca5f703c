import Verif.Base

/-!
# Threads over a shared output array

`ParallelTools::ParallelFor` (CEX/ParallelTools.cpp:20-47) starts one task per index and waits for all
of them. A task is a list of atomic actions on its private state and on the shared output array; a
schedule is a list of thread indices, each entry letting that thread perform its next action.
-/

namespace Cex.Par
open Cex

/-- An atomic action: private state and shared array to new private state and array. -/
abbrev Act (L : Type) := L → List Byte → M (L × List Byte)

/-- `for (k = start; k < start + n; ++k) body k` as a list of actions. -/
def forActs {L : Type} (start n : Nat) (body : Nat → Act L) : List (Act L) :=
  (List.range' start n).map body

/-- Run a list of actions without interruption: ordinary sequential execution. -/
def runActs {L : Type} : List (Act L) → L → List Byte → M (L × List Byte)
  | [], l, m => .ok (l, m)
  | a :: as, l, m => do
    let r ← a l m
    runActs as r.1 r.2

/-- A task: the actions still to be done and its private state. -/
structure Thread (L : Type) where
  prog : List (Act L)
  loc : L

/-- Update of a thread table. -/
def upd {L : Type} (ts : Nat → Thread L) (i : Nat) (t : Thread L) : Nat → Thread L :=
  fun j => if j = i then t else ts j

/-- Let thread `i` do its next action; a finished thread does nothing. -/
def stepThread {L : Type} (i : Nat) (ts : Nat → Thread L) (m : List Byte) : M ((Nat → Thread L) × List Byte) :=
  match (ts i).prog with
  | [] => .ok (ts, m)
  | a :: as => do
    let r ← a (ts i).loc m
    return (upd ts i ⟨as, r.1⟩, r.2)

/-- Run a schedule. -/
def runSched {L : Type} : List Nat → (Nat → Thread L) → List Byte → M ((Nat → Thread L) × List Byte)
  | [], ts, m => .ok (ts, m)
  | i :: s, ts, m => do
    let r ← stepThread i ts m
    runSched s r.1 r.2

/-- `sched` only names threads below `n` and gives each of them at least `steps` turns. -/
def Covers (n steps : Nat) (sched : List Nat) : Prop :=
  (∀ j ∈ sched, j < n) ∧ ∀ i, i < n → steps ≤ sched.count i

/-! ## Window-local executions -/

/-- `Runs off as l w l' w'`: started with private state `l` on an array holding `w` at offset `off`,
the actions `as` succeed whatever the rest of the array is, leave the rest alone, and end with `l'`
and window `w'`. -/
inductive Runs {L : Type} (off : Nat) : List (Act L) → L → List Byte → L → List Byte → Prop
  | nil (l w) : Runs off [] l w l w
  | cons {a as l w l1 w1 l' w'} :
      (∀ pre post : List Byte, pre.length = off → a l (pre ++ w ++ post) = .ok (l1, pre ++ w1 ++ post)) →
      w1.length = w.length → Runs off as l1 w1 l' w' → Runs off (a :: as) l w l' w'

variable {L : Type}

theorem Runs.nil_inv {off : Nat} {l w l' w'} (h : Runs (L := L) off [] l w l' w') : l = l' ∧ w = w' := by
  cases h; exact ⟨rfl, rfl⟩

theorem Runs.append {off : Nat} {as bs : List (Act L)} {l w l1 w1 l2 w2} (h1 : Runs off as l w l1 w1)
    (h2 : Runs off bs l1 w1 l2 w2) : Runs off (as ++ bs) l w l2 w2 := by
  induction h1 with
  | nil => exact h2
  | cons a b _ ih => exact Runs.cons a b (ih h2)

theorem Runs.length {off : Nat} {as : List (Act L)} {l w l1 w1} (h : Runs off as l w l1 w1) :
    w1.length = w.length := by
  induction h with
  | nil => rfl
  | cons _ b _ ih => rw [ih, b]

theorem Runs.run {off : Nat} {as : List (Act L)} {l w l1 w1} (h : Runs off as l w l1 w1)
    (pre post : List Byte) (hp : pre.length = off) :
    runActs as l (pre ++ w ++ post) = .ok (l1, pre ++ w1 ++ post) := by
  induction h with
  | nil => rfl
  | cons a _ _ ih => rw [runActs, a pre post hp, ok_bind, ih]

/-- A sub-window execution is an execution of the enclosing window. -/
theorem Runs.widen {off : Nat} {as : List (Act L)} {l w l1 w1} (h : Runs off as l w l1 w1) (x y : List Byte)
    (off' : Nat) (hoff : off' + x.length = off) : Runs off' as l (x ++ w ++ y) l1 (x ++ w1 ++ y) := by
  induction h with
  | nil => exact Runs.nil _ _
  | cons a b _ ih =>
    refine Runs.cons ?_ (by simp [b]) ih
    intro pre post hp
    have := a (pre ++ x) (y ++ post) (by simp [hp, hoff])
    simpa [List.append_assoc] using this

/-- Concatenation of the windows `W 0 .. W (n-1)`. -/
def flatW (W : Nat → List Byte) (n : Nat) : List Byte := (List.range n).flatMap W

theorem flatW_succ (W : Nat → List Byte) (n : Nat) : flatW W (n + 1) = flatW W n ++ W n := by
  simp [flatW, List.range_succ]

theorem flatW_length (W : Nat → List Byte) (seg n : Nat) (h : ∀ i, i < n → (W i).length = seg) :
    (flatW W n).length = n * seg := by
  induction n with
  | zero => simp [flatW]
  | succ n ih =>
    rw [flatW_succ, List.length_append, ih (fun i hi => h i (by omega)), h n (by omega), Nat.succ_mul]

theorem flatW_congr (W W' : Nat → List Byte) (n : Nat) (h : ∀ i, i < n → W i = W' i) : flatW W n = flatW W' n := by
  induction n with
  | zero => rfl
  | succ n ih => rw [flatW_succ, flatW_succ, ih (fun i hi => h i (by omega)), h n (by omega)]

/-- Isolating window `i`. -/
theorem flatW_split (W : Nat → List Byte) (n i : Nat) (h : i < n) :
    ∃ post, ∀ v, flatW (fun j => if j = i then v else W j) n = flatW W i ++ v ++ post := by
  induction n with
  | zero => omega
  | succ n ih =>
    by_cases hi : i = n
    · subst hi
      refine ⟨[], fun v => ?_⟩
      rw [flatW_succ, List.append_nil]
      congr 1
      · exact flatW_congr _ _ _ (fun j hj => by simp [Nat.ne_of_lt hj])
      · simp
    · obtain ⟨post, hp⟩ := ih (by omega)
      refine ⟨post ++ W n, fun v => ?_⟩
      rw [flatW_succ, hp v]
      simp [Ne.symm hi]

/-- Interleaving does not matter: whatever the schedule, once every thread has had enough turns the
shared array holds, window by window, what each thread alone would have produced, and each private
state is what the thread alone would have ended with. -/
theorem interleave (n seg base : Nat) (L' : Nat → L) (W' : Nat → List Byte) (sched : List Nat) :
    ∀ (ts : Nat → Thread L) (W : Nat → List Byte) (pre post : List Byte),
      pre.length = base →
      (∀ i, i < n → (W i).length = seg) →
      (∀ i, i < n → Runs (base + i * seg) (ts i).prog (ts i).loc (W i) (L' i) (W' i)) →
      (∀ j ∈ sched, j < n) → (∀ i, i < n → (ts i).prog.length ≤ sched.count i) →
      ∃ ts', runSched sched ts (pre ++ flatW W n ++ post) = .ok (ts', pre ++ flatW W' n ++ post) ∧
        ∀ i, i < n → (ts' i).prog = [] ∧ (ts' i).loc = L' i := by
  induction sched with
  | nil =>
    intro ts W pre post _ _ hr _ hc
    have hnil : ∀ i, i < n → (ts i).prog = [] := fun i hi => by
      have := hc i hi
      simpa using this
    have hend : ∀ i, i < n → (ts i).loc = L' i ∧ W i = W' i := fun i hi => by
      have := hr i hi
      rw [hnil i hi] at this
      exact this.nil_inv
    refine ⟨ts, ?_, fun i hi => ⟨hnil i hi, (hend i hi).1⟩⟩
    rw [runSched, flatW_congr W W' n (fun i hi => (hend i hi).2)]
  | cons i s ih =>
    intro ts W pre post hpre hW hr hs hc
    have hi : i < n := hs i (by simp)
    rw [runSched, stepThread]
    cases hprog : (ts i).prog with
    | nil =>
      simp only [ok_bind]
      refine ih ts W pre post hpre hW hr (fun j hj => hs j (by simp [hj])) (fun k hk => ?_)
      have := hc k hk
      rw [List.count_cons] at this
      by_cases hki : i = k
      · rw [← hki, hprog]; simp
      · simpa [hki] using this
    | cons a as =>
      have hri := hr i hi
      rw [hprog] at hri
      cases hri with
      | @cons _ _ _ _ l1 w1 _ _ ha hlen hrest =>
        obtain ⟨q, hq⟩ := flatW_split W n i hi
        have hW0 : flatW W n = flatW W i ++ W i ++ q := by
          rw [← hq (W i)]
          exact flatW_congr _ _ _ (fun j _ => by by_cases h : j = i <;> simp [h])
        have hpl : (pre ++ flatW W i).length = base + i * seg := by
          rw [List.length_append, hpre, flatW_length W seg i (fun j hj => hW j (by omega))]
        have hstep := ha (pre ++ flatW W i) (q ++ post) hpl
        have e1 : pre ++ flatW W n ++ post = pre ++ flatW W i ++ W i ++ (q ++ post) := by
          rw [hW0]; simp [List.append_assoc]
        have e2 : pre ++ flatW W i ++ w1 ++ (q ++ post) =
            pre ++ flatW (fun j => if j = i then w1 else W j) n ++ post := by
          rw [hq w1]; simp [List.append_assoc]
        rw [e1]
        simp only [hstep, ok_bind, pure_eq_ok]
        rw [e2]
        refine ih _ _ pre post hpre ?_ ?_ (fun j hj => hs j (by simp [hj])) ?_
        · intro j hj
          by_cases hji : j = i
          · simp [hji, hlen, hW i hi]
          · simp [hji, hW j hj]
        · intro j hj
          by_cases hji : j = i
          · subst hji; simpa [upd] using hrest
          · simpa [upd, hji] using hr j hj
        · intro j hj
          have := hc j hj
          rw [List.count_cons] at this
          by_cases hji : j = i
          · subst hji
            rw [hprog] at this
            simp only [upd, if_true]
            simp only [List.length_cons, beq_self_eq_true, if_true] at this
            omega
          · simp only [upd, if_neg hji]
            simpa [Ne.symm hji] using this

/-! ## Loops that fill a window block by block -/

/-- Run a block step over a list, collecting the produced blocks. -/
def runBlocks {β : Type} (f : L → β → L × List Byte) : L → List β → L × List (List Byte)
  | s, [] => (s, [])
  | s, b :: bs =>
    let r := f s b
    let t := runBlocks f r.1 bs
    (t.1, r.2 :: t.2)

theorem runBlocks_append {β : Type} (f : L → β → L × List Byte) (s : L) (as bs : List β) :
    runBlocks f s (as ++ bs) =
      ((runBlocks f (runBlocks f s as).1 bs).1, (runBlocks f s as).2 ++ (runBlocks f (runBlocks f s as).1 bs).2) := by
  induction as generalizing s with
  | nil => rfl
  | cons a as ih => simp only [List.cons_append, runBlocks, ih]

/-- A loop whose `k`-th action turns block `k` of the window into `(f l bs[k]).2`. `I` is an invariant
of the private state. -/
theorem blockRuns {β : Type} (f : L → β → L × List Byte) (I : L → Prop) (B off : Nat) (body : Nat → Act L) :
    ∀ (bs : List β) (start : Nat) (s : L) (done junk : List Byte),
      done.length = start * B → junk.length = bs.length * B → I s →
      (∀ k b l, bs[k]? = some b → I l →
        I (f l b).1 ∧ (f l b).2.length = B ∧
        ∀ a old c : List Byte, a.length = off + (start + k) * B → old.length = B →
          body (start + k) l (a ++ old ++ c) = .ok ((f l b).1, a ++ (f l b).2 ++ c)) →
      Runs off (forActs start bs.length body) s (done ++ junk) (runBlocks f s bs).1
        (done ++ (runBlocks f s bs).2.flatten) ∧ I (runBlocks f s bs).1 ∧
        (runBlocks f s bs).2.flatten.length = bs.length * B
  | [], start, s, done, junk, _, hj, hI, _ => by
    have : junk = [] := by simpa using hj
    subst this
    exact ⟨by simpa [forActs, runBlocks] using Runs.nil s done, hI, by simp [runBlocks]⟩
  | b :: bs, start, s, done, junk, hd, hj, hI, hstep => by
    obtain ⟨h1, h2, h3⟩ := hstep 0 b s rfl hI
    have hsplit : junk = junk.take B ++ junk.drop B := (List.take_append_drop B junk).symm
    have hlt : (junk.take B).length = B := by
      rw [List.length_take, hj, List.length_cons, Nat.succ_mul]; omega
    have hld : (junk.drop B).length = bs.length * B := by
      rw [List.length_drop, hj, List.length_cons, Nat.succ_mul]; omega
    obtain ⟨r1, r2, r3⟩ := blockRuns f I B off body bs (start + 1) (f s b).1 (done ++ (f s b).2) (junk.drop B)
      (by rw [List.length_append, hd, h2, Nat.succ_mul]) hld h1
      (fun k b' l hk hl => by
        have := hstep (k + 1) b' l (by simpa using hk) hl
        rw [show start + (k + 1) = start + 1 + k by omega] at this
        exact this)
    refine ⟨?_, r2, ?_⟩
    · rw [List.length_cons, forActs, List.range'_succ, List.map_cons]
      have hr : (runBlocks f s (b :: bs)).1 = (runBlocks f (f s b).1 bs).1 := rfl
      have hr2 : done ++ (runBlocks f s (b :: bs)).2.flatten =
          done ++ (f s b).2 ++ (runBlocks f (f s b).1 bs).2.flatten := by
        simp [runBlocks]
      rw [hr, hr2]
      refine Runs.cons (l1 := (f s b).1) (w1 := done ++ (f s b).2 ++ junk.drop B) ?_ ?_ r1
      · intro pre post hp
        have := h3 (pre ++ done) (junk.take B) (junk.drop B ++ post) (by simp [hp, hd]) hlt
        simp only [Nat.add_zero] at this
        rw [show pre ++ (done ++ junk) ++ post = pre ++ done ++ junk.take B ++ (junk.drop B ++ post) by
          simp only [List.append_assoc, List.append_cancel_left_eq]
          rw [← List.append_assoc, List.take_append_drop]]
        rw [this]
        simp [List.append_assoc]
      · simp [h2, hj, hld, Nat.succ_mul]; omega
    · simp only [runBlocks, List.flatten_cons, List.length_append, h2, r3, List.length_cons, Nat.succ_mul]
      omega

/-- The common case: the loop starts at 0 and the window is the whole output of the loop. -/
theorem blockRuns0 {β : Type} (f : L → β → L × List Byte) (I : L → Prop) (B off : Nat) (body : Nat → Act L)
    (bs : List β) (s : L) (junk : List Byte) (hj : junk.length = bs.length * B) (hI : I s)
    (hstep : ∀ k b l, bs[k]? = some b → I l →
        I (f l b).1 ∧ (f l b).2.length = B ∧
        ∀ a old c : List Byte, a.length = off + k * B → old.length = B →
          body k l (a ++ old ++ c) = .ok ((f l b).1, a ++ (f l b).2 ++ c)) :
    Runs off (forActs 0 bs.length body) s junk (runBlocks f s bs).1 (runBlocks f s bs).2.flatten ∧
      I (runBlocks f s bs).1 ∧ (runBlocks f s bs).2.flatten.length = bs.length * B := by
  have := blockRuns f I B off body bs 0 s [] junk (by simp) hj hI
    (fun k b l hk hl => by simpa using hstep k b l hk hl)
  simpa using this

end Cex.Par
