import Verif.Skein.TreeLemmas

/-!
# `Finalize` in tree mode
-/

namespace Cex.Skein
open Cex Cex.IntTools Cex.Skein.Paper Cex.Stream

variable {C : Core} {E : Tbc C.n}

theorem pad_part {n D b : Nat} {r : List Byte} (hb : b < D) (hr : b * (8 * n) < r.length) (hl : r.length ≤ D * (8 * n)) :
    pad n (Tree.part n r b) = Tree.part n (r ++ List.replicate (D * (8 * n) - r.length) 0) b := by
  have := lane_le (k := 8 * n) hb
  obtain ⟨B, hB⟩ : ∃ B, B = D * (8 * n) := ⟨_, rfl⟩
  obtain ⟨a, ha⟩ : ∃ a, a = b * (8 * n) := ⟨_, rfl⟩
  rw [Tree.part, Tree.part, pad, ← hB, ← ha]
  rw [← hB] at this hl
  rw [← ha] at this hr
  rw [List.drop_append_of_le_length (by omega), List.take_append, List.take_replicate, List.length_take, List.length_drop]
  congr 2
  omega

/-- A lane after the first loop of `Finalize`. -/
def closed (E : Tbc C.n) (v : Nat → Fin C.n → W) (s : Nat → Ghost C.n) (r : List Byte) (i : Nat) : St :=
  if i * (8 * C.n) < r.length then ⟨List.ofFn (output E (last E (s i) (Tree.part C.n r i))), List.ofFn (v i), mtw tOut 8 false true⟩ else conc (List.ofFn (v i)) (s i)

theorem closed_S (v : Nat → Fin C.n → W) (s : Nat → Ghost C.n) (r : List Byte) (i : Nat) : (closed E v s r i).S = List.ofFn (Tree.value E s r i) := by
  rw [closed, Tree.value]
  split
  · rw [close_eq]
  · rfl

theorem closed_restart (v : Nat → Fin C.n → W) (s : Nat → Ghost C.n) (r : List Byte) (i : Nat) : Core.restart (closed E v s r i) = conc (List.ofFn (v i)) (v i, 0) := by
  rw [closed]
  split
  · exact restart_eq _ _ _
  · exact restart_eq _ _ _

/-- The lanes when the first `b` are closed. -/
def mixed (E : Tbc C.n) (v : Nat → Fin C.n → W) (D : Nat) (s : Nat → Ghost C.n) (r : List Byte) (b : Nat) : List St :=
  (List.range D).map fun i => if i < b then closed E v s r i else conc (List.ofFn (v i)) (s i)

theorem mixed_done {v : Nat → Fin C.n → W} {D : Nat} {s : Nat → Ghost C.n} {r : List Byte} {b : Nat} (h : r.length ≤ b * (8 * C.n)) : mixed E v D s r b = (List.range D).map (closed E v s r) := by
  refine List.map_congr_left fun i _ => ?_
  split
  · rfl
  · rename_i hi
    have : b * (8 * C.n) ≤ i * (8 * C.n) := Nat.mul_le_mul_right _ (by omega)
    rw [closed, if_neg (by omega)]

theorem finalLeaves_ok (g : C.Good E) {v : Nat → Fin C.n → W} {D : Nat} {s : Nat → Ghost C.n} {r : List Byte} (hr : r.length < D * (8 * C.n)) : ∀ (k b : Nat) (o : Obj), r.length - b * (8 * C.n) = k →
    o.buf = r ++ List.replicate (D * (8 * C.n) - r.length) 0 → o.dgt = mixed E v D s r b →
      Obj.finalLeaves C (r.length - b * (8 * C.n)) b o = .ok { o with dgt := (List.range D).map (closed E v s r) } := by
  intro k
  have h0 := g.pos
  induction k using Nat.strongRecOn with
  | ind k ih =>
    intro b o hk ho hd
    rw [Obj.finalLeaves]
    by_cases hz : r.length - b * (8 * C.n) = 0
    · rw [if_neg (by omega), ← mixed_done (b := b) (by omega), ← hd]
      rfl
    · rw [if_pos ⟨hz, h0⟩]
      have hbD : b < D := by
        refine Classical.byContradiction fun e => ?_
        have : D * (8 * C.n) ≤ b * (8 * C.n) := Nat.mul_le_mul_right _ (by omega)
        omega
      have hchunk : C.chunk (r.length - b * (8 * C.n)) = (Tree.part C.n r b).length := by
        rw [Core.chunk, Tree.part, List.length_take, List.length_drop, Core.rate]
        split <;> omega
      have hpl : (Tree.part C.n r b).length ≤ 8 * C.n := by rw [Tree.part, List.length_take]; omega
      have hpe : (Tree.part C.n r b).length = min (8 * C.n) (r.length - b * (8 * C.n)) := by rw [Tree.part, List.length_take, List.length_drop]
      have hfull : (r ++ List.replicate (D * (8 * C.n) - r.length) (0 : Byte)).length = D * (8 * C.n) := by rw [List.length_append, List.length_replicate]; omega
      have hh := part_holds hbD hfull (Holds.self _)
      rw [← pad_part hbD (by omega) (by omega), Nat.zero_add] at hh
      simp only [hchunk]
      have hdl : o.dgt.length = D := by rw [hd, mixed]; simp
      have hget : rd o.dgt b = .ok (conc (List.ofFn (v b)) (s b)) := by
        rw [rd_ok (by omega)]
        simp [hd, mixed]
      rw [hget, ok_bind, ho]
      have hfin := hashFinal_ok g hh hpl (List.ofFn (v b)) (s b)
      rw [show b * C.rate = b * (8 * C.n) from rfl, hfin, ok_bind, wr_ok _ (by omega), ok_bind]
      have hset : o.dgt.set b ⟨List.ofFn (output E (last E (s b) (Tree.part C.n r b))), List.ofFn (v b), mtw tOut 8 false true⟩ = mixed E v D s r (b + 1) := by
        refine List.ext_getElem (by simp [hdl, mixed]) fun i h1 h2 => ?_
        rw [List.getElem_set]
        have hi : i < D := by rw [List.length_set] at h1; omega
        by_cases e : b = i
        · subst e
          rw [if_pos rfl]
          simp only [mixed, List.getElem_map, List.getElem_range]
          rw [if_pos (by omega), closed, if_pos (by omega)]
        · rw [if_neg e]
          simp only [hd, mixed, List.getElem_map, List.getElem_range]
          by_cases hib : i < b
          · rw [if_pos hib, if_pos (by omega)]
          · rw [if_neg hib, if_neg (by omega)]
      rw [hset]
      have hnext : r.length - b * (8 * C.n) - (Tree.part C.n r b).length = r.length - (b + 1) * (8 * C.n) := by rw [hpe, Nat.add_one_mul b]; omega
      rw [hnext]
      have := ih _ (by rw [← hnext, hpe]; omega) (b + 1) { o with dgt := mixed E v D s r (b + 1) } rfl ho rfl
      simp only [ho] at this
      exact this

/-! ## The root node -/

theorem flatBytes_length (l : List (Fin C.n → W)) : (l.flatMap bytes).length = l.length * (8 * C.n) := by
  induction l with
  | nil => simp
  | cons a l ih => rw [List.flatMap_cons, List.length_append, ih, bytes_length, List.length_cons, Nat.add_one_mul l.length]; omega

theorem finalBlocks_ok (g : C.Good E) (V : List W) {inp : List Byte} : ∀ (vs : List (Fin C.n → W)) (io : Nat) (G : Fin C.n → W) (t : Nat) (f : Bool), Holds inp io (vs.flatMap bytes) →
    ∃ T, C.finalBlocks inp io (vs.length * (8 * C.n)) ⟨List.ofFn G, V, mtw tCfg t f true⟩ = .ok ⟨List.ofFn (Tree.chain E G t f vs), V, T⟩
  | [], io, G, t, f, _ => ⟨mtw tCfg t f true, by rw [Core.finalBlocks, if_neg (by simp)]; rfl⟩
  | v :: vs, io, G, t, f, hh => by
    have h0 := g.pos
    have hl : (v :: vs).length * (8 * C.n) = vs.length * (8 * C.n) + 8 * C.n := by rw [List.length_cons, Nat.add_one_mul vs.length]
    have hchunk : C.chunk (vs.length * (8 * C.n) + 8 * C.n) = 8 * C.n := by
      rw [Core.chunk, if_pos (by rw [Core.rate]; omega), Core.rate]
    rw [List.flatMap_cons] at hh
    have hv : Holds inp io (bytes v) := by
      have := hh.takeN (8 * C.n)
      rwa [List.take_append_of_le_length (by rw [bytes_length]), List.take_of_length_le (by rw [bytes_length])] at this
    have hvs : Holds inp (io + 8 * C.n) (vs.flatMap bytes) := by
      have := hh.dropN (n := 8 * C.n) (by rw [List.length_append, bytes_length]; omega)
      rwa [List.drop_append_of_le_length (by rw [bytes_length]), List.drop_of_length_le (by rw [bytes_length]), List.nil_append] at this
    obtain ⟨T, h1⟩ := finalBlocks_ok g V vs (io + 8 * C.n) (block E G (mtw tCfg (t + 8 * C.n) f true) v) (t + 8 * C.n) false hvs
    refine ⟨T, ?_⟩
    rw [hl, Core.finalBlocks, if_pos ⟨by omega, h0⟩]
    simp only [hchunk]
    rw [processBlock_ok g hv (bytes_length v) _ _ _ (by decide), ok_bind, words_bytes, Nat.add_sub_cancel, h1, Tree.chain, tw_eq]

theorem rootBuf_ok {D : Nat} {d : List St} {val : Nat → Fin C.n → W} (hd : d.length = D) (hS : ∀ i (h : i < d.length), d[i].S = List.ofFn (val i)) {buf : List Byte} (hb : buf.length = D * (8 * C.n)) :
    loopN D 0 (fun i b => do C.put (← rd d i).S b (i * C.rate)) buf = .ok (((List.range D).map val).flatMap bytes) := by
  obtain ⟨b, h1, q, h2, h3⟩ := loopN_inv (f := fun i b => do C.put (← rd d i).S b (i * C.rate))
    (fun j b => ∃ q, b = (((List.range D).map val).take j).flatMap bytes ++ q ∧ q.length + j * (8 * C.n) = D * (8 * C.n)) D 0 buf
    (by
      rintro j b _ hj ⟨q, rfl, hq⟩
      have hjD : j < D := by omega
      have hle := lane_le (k := 8 * C.n) hjD
      have hpl : ((((List.range D).map val).take j).flatMap bytes).length = j * (8 * C.n) := by
        rw [flatBytes_length, List.length_take, List.length_map, List.length_range, Nat.min_eq_left (by omega)]
      have e : (((List.range D).map val).take j).flatMap bytes ++ q = (((List.range D).map val).take j).flatMap bytes ++ q.take (8 * C.n) ++ q.drop (8 * C.n) := by
        rw [List.append_assoc, List.take_append_drop]
      have hp := put_ok (C := C) (val j) ((((List.range D).map val).take j).flatMap bytes) (q.take (8 * C.n)) (q.drop (8 * C.n)) (by rw [List.length_take]; omega)
      rw [hpl] at hp
      rw [rd_ok (by omega), ok_bind, hS j (by omega), e]
      refine ⟨_, hp, q.drop (8 * C.n), ?_, by rw [List.length_drop, Nat.add_one_mul j]; omega⟩
      have ht : ((List.range D).map val).take (j + 1) = ((List.range D).map val).take j ++ [val j] := by
        rw [List.take_add_one, List.getElem?_eq_getElem (by simpa using hjD), List.getElem_map, List.getElem_range]; rfl
      rw [ht, List.flatMap_append]
      simp only [List.flatMap_cons, List.flatMap_nil, List.append_nil])
    ⟨buf, by simp, by omega⟩
  have hq : q = [] := List.length_eq_zero_iff.mp (by rw [Nat.zero_add] at h3; omega)
  rw [h1, h2, hq, List.append_nil, Nat.zero_add, List.take_of_length_le (by simp)]

theorem root_ok (g : C.Good E) (vs : List (Fin C.n → W)) (hv : vs ≠ []) :
    ∃ V T, (do
      let cfg ← C.config (← Params.new C.rate 0 0)
      let root ← C.loadState cfg C.st0
      C.hashFinal (vs.flatMap bytes) 0 (vs.length * C.rate) root) = .ok ⟨List.ofFn (Tree.root E vs), V, T⟩ := by
  have h0 := g.pos
  have hc := g.config
  have hpos : 0 < vs.length := List.length_pos_iff.mpr hv
  have hne : vs.length * C.rate ≠ 0 := by
    have : 0 < vs.length * (8 * C.n) := Nat.mul_pos hpos (by omega)
    rw [Core.rate]; omega
  cases hp : Params.new C.rate 0 0 with
  | error e => rw [hp] at hc; cases hc
  | ok p =>
    rw [hp, ok_bind] at hc
    obtain ⟨T, hT⟩ := finalBlocks_ok g (List.ofFn (block E (fun _ => 0) (mtw tCfg 32 true true) (words C.n (pad C.n (Paper.config (64 * C.n) 0 0 0))))) vs 0
      (E (fun _ => 0) (mtw tCfg 32 true true) (words C.n (pad C.n (Paper.config (64 * C.n) 0 0 0)))) 32 true (Holds.self _)
    refine ⟨List.ofFn (block E (fun _ => 0) (mtw tCfg 32 true true) (words C.n (pad C.n (Paper.config (64 * C.n) 0 0 0)))), mtw tOut 8 false true, ?_⟩
    rw [ok_bind, hc, ok_bind, Core.st0, zeros_ofFn, loadState_ok g, ok_bind, Core.hashFinal]
    dsimp only
    rw [setFinal_eq (by decide), if_pos hne, show vs.length * C.rate = vs.length * (8 * C.n) from rfl, hT, ok_bind]
    dsimp only
    rw [out_ok g, Tree.root, tweak_eq (by decide)]

/-- A tree object in any message state; what `Reset` needs. -/
structure TReady (v : Nat → Fin C.n → W) (D : Nat) (o : Obj) : Prop where
  fit : Fit C D o.prof
  dgt : o.dgt.map Core.restart = lanes v D (fun i => (v i, 0))
  size : o.buf.length = D * (8 * C.n)

/-- The object has absorbed `m`. -/
def TInv (E : Tbc C.n) (v : Nat → Fin C.n → W) (D : Nat) (o : Obj) (m : List Byte) : Prop :=
  TAbsorbed v D (Tree.rows E D (fun i => (v i, 0)) m).1 (Tree.rows E D (fun i => (v i, 0)) m).2 o

theorem TInv.ready {v : Nat → Fin C.n → W} {D : Nat} {o : Obj} {m : List Byte} (h : TInv E v D o m) : TReady v D o := by
  refine ⟨h.fit, ?_, h.size⟩
  rw [h.dgt, lanes, lanes, List.map_map]
  exact List.map_congr_left fun i _ => restart_eq _ _ _

theorem tinv_nil (g : C.Good E) {v : Nat → Fin C.n → W} {D : Nat} {o : Obj} (hf : Fit C D o.prof) (hd : o.dgt = lanes v D (fun i => (v i, 0))) (hl : o.len = 0) (hs : o.buf.length = D * (8 * C.n)) :
    TInv E v D o [] := by
  have h0 := g.pos
  have hB : 0 < D * (8 * C.n) := Nat.mul_pos hf.pos (by omega)
  rw [TInv, rows_eager, eager_short (by simpa using hB)]
  exact ⟨hf, hd, hl, by simpa using hB, ⟨o.buf, rfl⟩, hs⟩

theorem treset_ok (g : C.Good E) {v : Nat → Fin C.n → W} {D : Nat} {o : Obj} (h : TReady v D o) : ∃ o', o.reset = .ok o' ∧ TInv E v D o' [] := by
  refine ⟨{ o with dgt := lanes v D (fun i => (v i, 0)), buf := List.replicate (D * (8 * C.n)) 0, len := 0 }, ?_, tinv_nil g h.fit rfl rfl (by simp)⟩
  rw [Obj.reset, Keccak.clear_all o.buf _ h.size, ok_bind, h.dgt]
  rfl

theorem tupdate_inv (g : C.Good E) {v : Nat → Fin C.n → W} {D : Nat} {o : Obj} {m : List Byte} (h : TInv E v D o m) (x : Window) :
    ∃ o', o.update C x.buf x.off x.len = .ok o' ∧ TInv E v D o' (m ++ x.bytes) := by
  have hb : x.bytes.length = x.len := x.bytes_length
  have hl : x.bytes.length < 2 ^ 64 := by have := x.holds.le; have := x.size; omega
  obtain ⟨o', h1, h2⟩ := tupdate_ok g h x.holds hl
  rw [hb] at h1
  refine ⟨o', h1, ?_⟩
  rw [TInv, rows_eager, eager_append, ← rows_eager, ← rows_eager]
  rw [← rows_eager] at h2
  exact h2

theorem finalTree_eq (g : C.Good E) {v : Nat → Fin C.n → W} {D : Nat} {o : Obj} {m : List Byte} (h : TInv E v D o m) :
    ∃ (G : Fin C.n → W) (o' : Obj), bytes G = Tree.tree E D v m ∧ TReady v D o' ∧
      ∀ (out : List Byte) (oo : Nat), o.finalTree C out oo = (do let out ← C.put (List.ofFn G) out oo; return (o', out)) := by
  rw [TInv] at h
  have h0 := g.pos
  have hB : 0 < D * (8 * C.n) := Nat.mul_pos h.fit.pos (by omega)
  have hD := h.fit.pos
  have htree : Tree.tree E D v m = bytes (Tree.root E ((List.range D).map (Tree.value E (Tree.rows E D (fun i => (v i, 0)) m).1 (Tree.rows E D (fun i => (v i, 0)) m).2))) := rfl
  obtain ⟨s, hse⟩ : ∃ s, s = (Tree.rows E D (fun i => (v i, 0)) m).1 := ⟨_, rfl⟩
  obtain ⟨r, hre⟩ : ∃ r, r = (Tree.rows E D (fun i => (v i, 0)) m).2 := ⟨_, rfl⟩
  rw [← hse, ← hre] at h htree
  obtain ⟨q, hq⟩ := h.buf
  have hs := h.size
  have hlt := h.lt
  have hs2 := h.size
  rw [hq, List.length_append] at hs
  have hclr : (if o.len < o.buf.length then clear o.buf o.len (o.buf.length - o.len) else pure o.buf : M (List Byte)) = .ok (r ++ List.replicate (D * (8 * C.n) - r.length) 0) := by
    rw [if_pos (by rw [h.len, hs2]; exact hlt), h.len, hs2, hq, clear, if_neg (by omega), show r ++ q = r ++ q ++ [] from by simp, blit_at rfl (by simp; omega)]
    simp
  have hfl := finalLeaves_ok g (v := v) (s := s) hlt (r.length) 0 { o with buf := r ++ List.replicate (D * (8 * C.n) - r.length) 0, len := 0 } (by omega) rfl
    (by rw [h.dgt, lanes, mixed]; exact List.map_congr_left fun i _ => by rw [if_neg (by omega)])
  rw [Nat.zero_mul, Nat.sub_zero] at hfl
  have hbuf := rootBuf_ok (C := C) (D := D) (d := (List.range D).map (closed E v s r)) (val := Tree.value E s r) (by simp) (by intro i hi; rw [List.getElem_map, List.getElem_range, closed_S])
    (buf := r ++ List.replicate (D * (8 * C.n) - r.length) 0) (by rw [List.length_append, List.length_replicate]; omega)
  have hne : (List.range D).map (Tree.value E s r) ≠ [] := by
    intro e; have := congrArg List.length e; simp at this; omega
  obtain ⟨V, T, hroot⟩ := root_ok g ((List.range D).map (Tree.value E s r)) hne
  have hdl : ((List.range D).map (closed E v s r)).length = D := by simp
  have hvl : ((List.range D).map (Tree.value E s r)).length = D := by simp
  refine ⟨Tree.root E ((List.range D).map (Tree.value E s r)),
    { o with buf := ((List.range D).map (Tree.value E s r)).flatMap bytes, len := D * C.rate, dgt := (List.range D).map (closed E v s r) }, htree.symm, ⟨h.fit, ?_, ?_⟩, fun out oo => ?_⟩
  · dsimp only
    rw [List.map_map, lanes]
    exact List.map_congr_left fun i _ => closed_restart v s r i
  · dsimp only
    rw [flatBytes_length, hvl]
  · rw [Obj.finalTree, hclr, ok_bind, h.len, hfl, ok_bind]
    dsimp only
    rw [hdl, hbuf]
    rw [hvl] at hroot
    cases hp : Params.new C.rate 0 0 with
    | error e => rw [hp] at hroot; cases hroot
    | ok p =>
      rw [hp, ok_bind] at hroot
      rw [ok_bind]
      cases hc : C.config p with
      | error e => rw [hc] at hroot; cases hroot
      | ok cfg =>
        rw [hc, ok_bind] at hroot
        rw [ok_bind]
        cases hl : C.loadState cfg C.st0 with
        | error e => rw [hl] at hroot; cases hroot
        | ok st =>
          rw [hl, ok_bind] at hroot
          rw [ok_bind, ok_bind, hroot, ok_bind]

theorem tfinalize_inv (g : C.Good E) {v : Nat → Fin C.n → W} {D : Nat} {o : Obj} {m : List Byte} (h : TInv E v D o m) (pre junk post : List Byte) (hj : junk.length = 8 * C.n)
    (hsz : (pre ++ junk ++ post).length < 2 ^ 64) :
    ∃ o', o.finalize C (pre ++ junk ++ post) pre.length = .ok (o', pre ++ Tree.tree E D v m ++ post) ∧ TInv E v D o' [] := by
  have hle : pre.length ≤ (pre ++ junk ++ post).length := by simp only [List.length_append]; omega
  obtain ⟨G, o1, h1, h2, h3⟩ := finalTree_eq g h
  obtain ⟨o2, h4, h5⟩ := treset_ok g h2
  refine ⟨o2, ?_, h5⟩
  rw [Obj.finalize, Mac.subU_le hle hsz, if_neg (by simp only [List.length_append, Core.rate]; omega), if_pos h.fit.par, h3, put_ok _ _ _ _ hj, ok_bind, h1, pure_eq_ok, ok_bind]
  dsimp only
  rw [h4, ok_bind]
  rfl

end Cex.Skein
