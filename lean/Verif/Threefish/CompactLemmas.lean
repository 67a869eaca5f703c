import Verif.Threefish.Compact
import Verif.Threefish.Lemmas

/-!
# Loops and straight-line programs

A loop on `uint64_t` does what the straight-line program written out from it does, and a loop on SIMD words does in each lane what the loop
on `uint64_t` does.
-/

namespace Cex.Threefish
open Cex Cex.IntTools

/-! ## Writing a loop out -/

def CSrc.inst (R i x y : Nat) : CSrc → Src
  | b j => .b j
  | kx => .k x
  | ty => .t y
  | k j => .k j
  | t j => .t j
  | c off => .c (2 * i + off)
  | rounds => .c (R / 4)

/-- The statements of one iteration and the indices after it. -/
def expand (R i : Nat) : List Cmd → Nat → Nat → List Stmt × Nat × Nat
  | [], x, y => ([], x, y)
  | .add j ss :: cs, x, y => (.add j (ss.map (CSrc.inst R i x y)) :: (expand R i cs x y).1, (expand R i cs x y).2)
  | .rx j r j' :: cs, x, y => (.rx j r j' :: (expand R i cs x y).1, (expand R i cs x y).2)
  | .mx c up p q :: cs, x, y => expand R i cs (move c up p q x) y
  | .my c up p q :: cs, x, y => expand R i cs x (move c up p q y)

/-- The statements of `m` iterations from `i` on. -/
def expandLoop (R : Nat) (cs : List Cmd) : Nat → Nat → Nat → Nat → List Stmt
  | 0, _, _, _ => []
  | m + 1, i, x, y => (expand R i cs x y).1 ++ expandLoop R cs m (i + 1) (expand R i cs x y).2.1 (expand R i cs x y).2.2

/-- Leave out the addition of zero. -/
def Stmt.norm : Stmt → Stmt
  | add i ss => .add i (ss.filter (· ≠ .c 0))
  | rx i r j => .rx i r j

def CProg.written (p : CProg) (R : Nat) : Prog where
  body := (expandLoop R p.cmds (R / 8) 0 1 0).map Stmt.norm
  fin := p.fin.map fun ss => ss.map (CSrc.inst R 0 0 0)

theorem csum_inst (K T B : List W) (R i x y : Nat) (ss : List CSrc) :
    csum scalar K T B R i x y ss = sum K T B (ss.map (CSrc.inst R i x y)) := by
  rw [csum, sum, List.foldlM_map]
  congr 1
  funext a s
  cases s <;> rfl

theorem exec_expand (K T : List W) (R i : Nat) : ∀ (cs : List Cmd) (B : List W) (x y : Nat),
    cs.foldlM (Cmd.exec scalar K T R i) (B, x, y) =
      (do let B' ← (expand R i cs x y).1.foldlM (Stmt.exec K T) B; Except.ok (ε := Fault) (B', (expand R i cs x y).2))
  | [], B, x, y => rfl
  | .mx c up p q :: cs, B, x, y => by
    rw [List.foldlM_cons]
    exact exec_expand K T R i cs B _ y
  | .my c up p q :: cs, B, x, y => by
    rw [List.foldlM_cons]
    exact exec_expand K T R i cs B x _
  | .add j ss :: cs, B, x, y => by
    have e : Cmd.exec scalar K T R i (B, x, y) (.add j ss) =
        (Stmt.exec K T B (.add j (ss.map (CSrc.inst R i x y))) >>= fun B' => Except.ok (B', x, y)) := by
      simp only [Cmd.exec, Stmt.exec, csum_inst, bind_assoc, pure_eq_ok, ok_bind]
      rfl
    rw [List.foldlM_cons, e, expand, List.foldlM_cons, bind_assoc, bind_assoc]
    congr 1
    funext B'
    rw [ok_bind, exec_expand K T R i cs B' x y]
  | .rx j r j' :: cs, B, x, y => by
    have e : Cmd.exec scalar K T R i (B, x, y) (.rx j r j') = (Stmt.exec K T B (.rx j r j') >>= fun B' => Except.ok (B', x, y)) := by
      simp only [Cmd.exec, Stmt.exec, bind_assoc, pure_eq_ok, ok_bind]
      rfl
    rw [List.foldlM_cons, e, expand, List.foldlM_cons, bind_assoc, bind_assoc]
    congr 1
    funext B'
    rw [ok_bind, exec_expand K T R i cs B' x y]

theorem loop_expand (K T : List W) (R : Nat) (cs : List Cmd) : ∀ (m i : Nat) (B : List W) (x y : Nat),
    (do let s ← loopN m i (fun i s => cs.foldlM (Cmd.exec scalar K T R i) s) (B, x, y); Except.ok (ε := Fault) s.1) =
      (expandLoop R cs m i x y).foldlM (Stmt.exec K T) B
  | 0, i, B, x, y => rfl
  | m + 1, i, B, x, y => by
    rw [loopN, exec_expand, expandLoop, List.foldlM_append, bind_assoc, bind_assoc]
    congr 1
    funext B'
    rw [ok_bind, ← loop_expand K T R cs m (i + 1) B']

theorem sum_norm (K T B : List W) (ss : List Src) : sum K T B (ss.filter (· ≠ .c 0)) = sum K T B ss := by
  have key : ∀ (ss : List Src) (a : W), (ss.filter (· ≠ .c 0)).foldlM (fun a s => do return a + (← s.eval K T B)) a =
      ss.foldlM (fun a s => do return a + (← s.eval K T B) : W → Src → M W) a := by
    intro ss
    induction ss with
    | nil => intro a; rfl
    | cons s ss ih =>
      intro a
      by_cases h : s = .c 0
      · rw [List.filter_cons_of_neg (by simp [h]), ih, List.foldlM_cons, h]
        simp only [Src.eval, ok_bind, pure_eq_ok]
        rw [show a + BitVec.ofNat 64 0 = a from BitVec.add_zero a]
      · rw [List.filter_cons_of_pos (by simp [h]), List.foldlM_cons, List.foldlM_cons]
        congr 1
        funext b
        exact ih b
  exact key ss 0

theorem exec_norm (K T B : List W) (s : Stmt) : Stmt.exec K T B s.norm = Stmt.exec K T B s := by
  cases s with
  | add i ss => simp only [Stmt.norm, Stmt.exec, sum_norm]
  | rx i r j => rfl

theorem mapM_congr_range {α : Type} (n : Nat) (f g : Nat → M α) (h : ∀ i < n, f i = g i) : (List.range n).mapM f = (List.range n).mapM g := by
  induction n with
  | zero => rfl
  | succ n ih =>
    rw [List.range_succ, List.mapM_append, List.mapM_append, ih fun i hi => h i (by omega), List.mapM_cons, List.mapM_cons, h n (by omega), List.mapM_nil, List.mapM_nil]

/-- A loop on `uint64_t` is the program written out from it. -/
theorem run_written (p : CProg) (R : Nat) (K : List W) (T : W × W) (B : List W) : p.run scalar R K T B = (p.written R).run K T B := by
  rw [CProg.run, Prog.run]
  have e1 : ckeys scalar K = keys K := rfl
  have e2 : ctweaks scalar T = tweaks T := rfl
  rw [e1, e2]
  have h := loop_expand (keys K) (tweaks T) R p.cmds (R / 8) 0 B 1 0
  have hb : (p.written R).body.foldlM (Stmt.exec (keys K) (tweaks T)) B = (expandLoop R p.cmds (R / 8) 0 1 0).foldlM (Stmt.exec (keys K) (tweaks T)) B := by
    rw [CProg.written, List.foldlM_map]
    congr 1
    funext B s
    exact exec_norm _ _ _ _
  rw [hb, ← h, bind_assoc]
  congr 1
  funext s
  rw [ok_bind, coutput, output, CProg.written, List.length_map]
  refine mapM_congr_range _ _ _ fun i hi => ?_
  have h2 : rd (p.fin.map fun ss => ss.map (CSrc.inst R 0 0 0)) i = .ok (p.fin[i].map (CSrc.inst R 0 0 0)) := by
    rw [rd_ok (by simpa using hi), List.getElem_map]
  rw [rd_ok hi, h2]
  simp only [ok_bind, csum_inst]
  rfl

/-! ## Lanes -/

variable {l : Nat}

/-- Whenever all the computations `f j` succeed, `m` succeeds and its result is, seen by lane `j`, that of `f j`. -/
def Par {α β : Type} (m : M α) (f : Fin l → M β) (π : Fin l → α → β) : Prop :=
  ∀ g : Fin l → β, (∀ j, f j = .ok (g j)) → ∃ a, m = .ok a ∧ ∀ j, π j a = g j

theorem Par.bind {α β γ δ : Type} {m : M α} {f : Fin l → M β} {π : Fin l → α → β} {k : α → M γ} {k' : Fin l → β → M δ} {ρ : Fin l → γ → δ}
    (h : Par m f π) (hk : ∀ a, Par (k a) (fun j => k' j (π j a)) ρ) : Par (m >>= k) (fun j => f j >>= k' j) ρ := by
  intro g hg
  choose b hb1 hb2 using fun j => bind_ok (hg j)
  obtain ⟨a, e1, e2⟩ := h b hb1
  obtain ⟨c, e3, e4⟩ := hk a g fun j => by dsimp only; rw [e2]; exact hb2 j
  exact ⟨c, by rw [e1, ok_bind, e3], e4⟩

theorem Par.ok {α β : Type} (a : α) (π : Fin l → α → β) : Par (.ok a) (fun j => .ok (π j a)) π := by
  intro g hg
  exact ⟨a, rfl, fun j => by injection hg j⟩

theorem Par.foldlM {α β γ : Type} {k : α → γ → M α} {k' : Fin l → β → γ → M β} {π : Fin l → α → β}
    (h : ∀ a c, Par (k a c) (fun j => k' j (π j a) c) π) : ∀ (cs : List γ) (a : α), Par (cs.foldlM k a) (fun j => cs.foldlM (k' j) (π j a)) π
  | [], a => Par.ok a π
  | c :: cs, a => by
    simp only [List.foldlM_cons]
    exact (h a c).bind fun b => Par.foldlM h cs b

theorem Par.loop {α β : Type} {k : Nat → α → M α} {k' : Fin l → Nat → β → M β} {π : Fin l → α → β}
    (h : ∀ i a, Par (k i a) (fun j => k' j i (π j a)) π) : ∀ (m i : Nat) (a : α), Par (loopN m i k a) (fun j => loopN m i (k' j) (π j a)) π
  | 0, i, a => Par.ok a π
  | m + 1, i, a => by
    simp only [loopN]
    exact (h i a).bind fun b => Par.loop h m (i + 1) b

theorem Par.mapM {α β γ : Type} {k : γ → M α} {k' : Fin l → γ → M β} {π : Fin l → α → β}
    (h : ∀ c, Par (k c) (fun j => k' j c) π) : ∀ cs : List γ, Par (cs.mapM k) (fun j => cs.mapM (k' j)) (fun j a => a.map (π j))
  | [] => Par.ok ([] : List α) (fun j a => a.map (π j))
  | c :: cs => by
    simp only [List.mapM_cons]
    refine (h c).bind fun a => (Par.mapM h cs).bind fun as => ?_
    exact Par.ok (a :: as) (fun j a => a.map (π j))

theorem Par.rd (hl : 0 < l) (B : List (Fin l → W)) (i : Nat) : Par (rd B i) (fun j => Cex.rd (B.map (· j)) i) (fun j a => a j) := by
  intro g hg
  have hi : i < B.length := by
    rcases Nat.lt_or_ge i B.length with h | h
    · exact h
    · have := hg ⟨0, hl⟩
      dsimp only at this
      rw [Cex.rd, List.getElem?_eq_none (by simpa using h)] at this
      cases this
  refine ⟨B[i], rd_ok hi, fun j => ?_⟩
  have := hg j
  dsimp only at this
  rw [rd_ok (by simpa using hi)] at this
  injection this with this
  rw [← this, List.getElem_map]

theorem Par.wr (hl : 0 < l) (B : List (Fin l → W)) (i : Nat) (v : Fin l → W) :
    Par (wr B i v) (fun j => Cex.wr (B.map (· j)) i (v j)) (fun j a => a.map (· j)) := by
  intro g hg
  have hi : i < B.length := by
    rcases Nat.lt_or_ge i B.length with h | h
    · exact h
    · have := hg ⟨0, hl⟩
      dsimp only at this
      rw [Cex.wr, if_neg (by simpa using h)] at this
      cases this
  refine ⟨B.set i v, wr_ok _ hi, fun j => ?_⟩
  have := hg j
  dsimp only at this
  rw [wr_ok _ (by simpa using hi)] at this
  injection this with this
  rw [← this]
  exact List.map_set

theorem Par.rotl (a : Fin l → W) (r : Nat) : Par ((lanes l).rotl a r) (fun j => rotL64 (a j) r) (fun j a => a j) := by
  intro g hg
  refine ⟨_, rfl, fun j => ?_⟩
  have := hg j
  dsimp only at this
  rw [rotL64] at this
  split at this
  · injection this
  · cases this

theorem Par.eval (hl : 0 < l) (K T B : List (Fin l → W)) (R i x y : Nat) (s : CSrc) :
    Par (s.eval (lanes l) K T B R i x y) (fun j => s.eval scalar (K.map (· j)) (T.map (· j)) (B.map (· j)) R i x y) (fun j a => a j) := by
  cases s
  case b m => exact Par.rd hl B m
  case kx => exact Par.rd hl K x
  case ty => exact Par.rd hl T y
  case k m => exact Par.rd hl K m
  case t m => exact Par.rd hl T m
  case c off => exact Par.ok ((lanes l).lit (BitVec.ofNat 64 (2 * i + off))) (fun j a => a j)
  case rounds => exact Par.ok ((lanes l).lit (BitVec.ofNat 64 (R / 4))) (fun j a => a j)

theorem Par.csum (hl : 0 < l) (K T B : List (Fin l → W)) (R i x y : Nat) (ss : List CSrc) :
    Par (csum (lanes l) K T B R i x y ss) (fun j => Threefish.csum scalar (K.map (· j)) (T.map (· j)) (B.map (· j)) R i x y ss) (fun j a => a j) := by
  unfold Threefish.csum
  refine Par.foldlM (l := l) (α := Fin l → W) (β := W) (k := fun a s => do return (lanes l).add a (← CSrc.eval (lanes l) K T B R i x y s))
    (k' := fun j a s => do return scalar.add a (← CSrc.eval scalar (K.map (· j)) (T.map (· j)) (B.map (· j)) R i x y s)) (π := fun j a => a j) ?_ ss ((lanes l).lit 0)
  intro a s
  exact (Par.eval hl K T B R i x y s).bind fun b => Par.ok ((lanes l).add a b) (fun j a => a j)

/-- What lane `j` sees of the words and the two indices. -/
def laneOf (j : Fin l) (s : List (Fin l → W) × Nat × Nat) : List W × Nat × Nat := (s.1.map (· j), s.2)

theorem Par.exec (hl : 0 < l) (K T : List (Fin l → W)) (R i : Nat) (s : List (Fin l → W) × Nat × Nat) (c : Cmd) :
    Par (Cmd.exec (lanes l) K T R i s c) (fun j => Cmd.exec scalar (K.map (· j)) (T.map (· j)) R i (laneOf j s) c) laneOf := by
  cases c
  case add m ss =>
    refine (Par.rd hl s.1 m).bind fun a => (Par.csum hl K T s.1 R i s.2.1 s.2.2 ss).bind fun b => (Par.wr hl s.1 m ((lanes l).add a b)).bind fun B => ?_
    exact Par.ok (B, s.2) laneOf
  case rx m r m' =>
    refine (Par.rd hl s.1 m).bind fun a => (Par.rotl a r).bind fun a => (Par.rd hl s.1 m').bind fun b => (Par.wr hl s.1 m ((lanes l).xor a b)).bind fun B => ?_
    exact Par.ok (B, s.2) laneOf
  case mx c up p q => exact Par.ok (s.1, move c up p q s.2.1, s.2.2) laneOf
  case my c up p q => exact Par.ok (s.1, s.2.1, move c up p q s.2.2) laneOf

theorem ckeys_lane (K : List (Fin l → W)) (j : Fin l) : (ckeys (lanes l) K).map (· j) = ckeys scalar (K.map (· j)) := by
  have h : ∀ (K : List (Fin l → W)) (a : Fin l → W), (K.foldl (lanes l).xor a) j = (K.map (· j)).foldl scalar.xor (a j) := by
    intro K
    induction K with
    | nil => intro a; rfl
    | cons k K ih => intro a; rw [List.foldl_cons, ih, List.map_cons, List.foldl_cons]; rfl
  rw [ckeys, ckeys, List.map_append]
  congr 1
  show [(List.foldl (lanes l).xor ((lanes l).lit 0) K) j ^^^ _] = _
  rw [h]
  rfl

/-- A loop on SIMD words does in each lane what the loop on `uint64_t` does. -/
theorem Par.run (hl : 0 < l) (p : CProg) (R : Nat) (K : List (Fin l → W)) (T : (Fin l → W) × (Fin l → W)) (B : List (Fin l → W)) :
    Par (p.run (lanes l) R K T B) (fun j => p.run scalar R (K.map (· j)) (T.1 j, T.2 j) (B.map (· j))) (fun j a => a.map (· j)) := by
  have e : ∀ j, ckeys scalar (K.map (· j)) = (ckeys (lanes l) K).map (· j) := fun j => (ckeys_lane K j).symm
  have e' : ∀ j, ctweaks scalar (T.1 j, T.2 j) = (ctweaks (lanes l) T).map (· j) := fun j => rfl
  simp only [CProg.run, e, e']
  refine Par.bind (π := laneOf) ?_ fun s => ?_
  · exact Par.loop (π := laneOf) (fun i s => Par.foldlM (π := laneOf) (Par.exec hl (ckeys (lanes l) K) (ctweaks (lanes l) T) R i) p.cmds s) (R / 8) 0 (B, 1, 0)
  · refine Par.mapM (fun i => ?_) _
    refine Par.bind (π := fun _ a => a) ?_ fun ss => (Par.rd hl s.1 i).bind fun a => (Par.csum hl _ _ s.1 R 0 0 0 ss).bind fun b => ?_
    · intro g hg
      exact ⟨g ⟨0, hl⟩, hg _, fun j => by injection (hg ⟨0, hl⟩).symm.trans (hg j)⟩
    · exact Par.ok ((lanes l).add a b) (fun j a => a j)

end Cex.Threefish
