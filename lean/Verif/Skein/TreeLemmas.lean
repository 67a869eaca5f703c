import Verif.Skein.Lemmas
import Verif.Skein.TreeSpec

/-!
# The tree mode of the Skein objects
-/

namespace Cex.Skein
open Cex Cex.IntTools Cex.Skein.Paper Cex.Stream

theorem tw_eq (ty pos : Nat) (f l : Bool) : Tree.tw ty pos f l = mtw ty pos f l := by
  rw [Tree.tw, tweak_eq (Nat.mod_lt _ (by decide)), mtw, mtw]
  congr 1
  apply BitVec.eq_of_toNat_eq
  simp

theorem absorb_eq {n : Nat} (E : Tbc n) (s : Ghost n) (b : List Byte) : Tree.absorb E s b = step E s b := by
  rw [Tree.absorb, tw_eq]; rfl

theorem close_eq {n : Nat} (E : Tbc n) (s : Ghost n) (r : List Byte) : Tree.close E s r = output E (last E s r) := by
  rw [Tree.close, tw_eq]; rfl

/-! ## Words of bytes -/

theorem drop_flat : ∀ (l : List W) (i : Nat), (l.flatMap fun x => leEnc 8 x.toNat).drop (i * 8) = (l.drop i).flatMap fun x => leEnc 8 x.toNat
  | [], i => by simp
  | a :: l, 0 => by simp
  | a :: l, i + 1 => by
    rw [List.flatMap_cons, List.drop_append, List.drop_of_length_le (by rw [leEnc_length]; omega), List.nil_append, leEnc_length,
      show (i + 1) * 8 - 8 = i * 8 from by omega, drop_flat l i, List.drop_succ_cons]

theorem words_bytes {n : Nat} (v : Fin n → W) : words n (bytes v) = v := by
  funext i
  rw [words, bytes, drop_flat]
  have hi : i.val < (List.ofFn v).length := by simp
  rw [List.drop_eq_getElem_cons hi, List.flatMap_cons, List.take_append_of_le_length (by rw [leEnc_length]), List.take_of_length_le (by rw [leEnc_length]), leVal_leEnc]
  apply BitVec.eq_of_toNat_eq
  simp only [List.getElem_ofFn, BitVec.toNat_ofNat]
  have := (v i).isLt
  show (v i).toNat % 256 ^ 8 % 2 ^ 64 = (v i).toNat
  rw [show (256 : Nat) ^ 8 = 2 ^ 64 from by decide]
  omega

variable {C : Core} {E : Tbc C.n}

/-! ## Construction -/

theorem laneIV_zero (c : Fin C.n → W) : Tree.laneIV E c 0 = block E (fun _ => 0) (mtw tCfg 32 true true) c := by
  rw [Tree.laneIV, tweak_eq (by decide)]

theorem laneIV_succ (c : Fin C.n → W) (i : Nat) : Tree.laneIV E c (i + 1) = fun j => E (fun _ => 0) (mtw tCfg 32 true true) (Tree.laneIV E c i) j ^^^ c j := by
  rw [Tree.laneIV, tweak_eq (by decide)]

theorem init_tree (g : C.Good E) {p : Params} {c : Fin C.n → W} (hc : C.config p = .ok (List.ofFn c)) {D : Nat} (hD : 0 < D) :
    C.init (List.replicate D C.st0) p = .ok ((List.range D).map fun i => conc (List.ofFn (Tree.laneIV E c i)) (Tree.laneIV E c i, 0)) := by
  rw [Core.init, hc, ok_bind, rd_ok (by simpa using hD), List.getElem_replicate, ok_bind, Core.st0, zeros_ofFn, loadState_ok g, ok_bind, ← laneIV_zero, wr_ok _ (by simpa using hD), ok_bind]
  simp only [List.length_set, List.length_replicate]
  obtain ⟨d, h1, h2, h3, h4⟩ := loopN_inv (f := C.initLeaf (List.ofFn c))
    (fun k d => d.length = D ∧ (∀ i (hi : i < d.length), i < k → ∃ S T, d[i] = ⟨S, List.ofFn (Tree.laneIV E c i), T⟩) ∧
      (∀ i (hi : i < d.length), k ≤ i → d[i] = ⟨List.ofFn fun _ => 0, List.ofFn fun _ => 0, (0, 0)⟩)) (D - 1) 1
    ((List.replicate D ⟨List.ofFn fun _ => 0, List.ofFn fun _ => 0, (0, 0)⟩).set 0
      ⟨List.ofFn (E (fun _ => 0) (mtw tCfg 32 true true) c), List.ofFn (Tree.laneIV E c 0), mtw tCfg 32 true true⟩)
    (by
      rintro k d hk hk2 ⟨hl, ha, hb⟩
      obtain ⟨S, T, hp⟩ := ha (k - 1) (by omega) (by omega)
      rw [Core.initLeaf, rd_ok (by omega), ok_bind, rd_ok (show k - 1 < d.length by omega), ok_bind, hb k (by omega) (Nat.le_refl _), hp]
      dsimp only
      rw [cfgTweak_eq, permute_ok g, ok_bind]
      dsimp only
      rw [xorW_ok, ok_bind, wr_ok _ (by omega)]
      refine ⟨_, rfl, by rw [List.length_set]; exact hl, ?_, ?_⟩
      · intro i hi hik
        rw [List.length_set] at hi
        by_cases e : i = k
        · subst e
          obtain ⟨j, rfl⟩ : ∃ j, i = j + 1 := ⟨i - 1, by omega⟩
          refine ⟨List.ofFn (E (fun _ => 0) (mtw tCfg 32 true true) (Tree.laneIV E c (j + 1 - 1))), mtw tCfg 32 true true, ?_⟩
          rw [List.getElem_set_self, laneIV_succ, Nat.add_sub_cancel]
        · rw [List.getElem_set_ne (by omega)]
          exact ha i hi (by omega)
      · intro i hi hik
        rw [List.length_set] at hi
        rw [List.getElem_set_ne (by omega)]
        exact hb i hi (by omega))
    ⟨by simp, by
      intro i hi hi1
      obtain rfl : i = 0 := by omega
      exact ⟨_, _, by rw [List.getElem_set_self]⟩, by
      intro i hi hi1
      rw [List.getElem_set_ne (by omega), List.getElem_replicate]⟩
  rw [h1, ok_bind, pure_eq_ok]
  congr 1
  refine List.ext_getElem (by simp [h2]) fun i hi1 hi2 => ?_
  rw [List.length_map] at hi1
  obtain ⟨S, T, e⟩ := h3 i hi1 (by omega)
  rw [List.getElem_map, List.getElem_map, List.getElem_range, e, restart_eq]

/-! ## Rows -/

theorem rows_eager (E : Tbc C.n) (D : Nat) (s : Nat → Ghost C.n) (m : List Byte) : Tree.rows E D s m = eager (D * (8 * C.n)) (Tree.row E) s m := by
  induction hn : m.length using Nat.strongRecOn generalizing m s with
  | ind k ih =>
    rw [Tree.rows, eager]
    split
    · rename_i h
      exact ih _ (by rw [List.length_drop]; omega) _ _ rfl
    · rfl

/-- The lanes after `k` rows of `x`. -/
def after (E : Tbc C.n) (B : Nat) (s : Nat → Ghost C.n) (x : List Byte) : Nat → Nat → Ghost C.n
  | 0 => s
  | k + 1 => Tree.row E (after E B s x k) ((x.drop (k * B)).take B)

theorem after_eager {B : Nat} (hB : 0 < B) (s : Nat → Ghost C.n) (x : List Byte) : ∀ k, k * B ≤ x.length → eager B (Tree.row E) s (x.take (k * B)) = (after E B s x k, [])
  | 0, _ => by rw [Nat.zero_mul, List.take_zero, eager_short (by simpa using hB)]; rfl
  | k + 1, h => by
    rw [Nat.succ_mul] at h ⊢
    rw [List.take_add, eager_append, after_eager hB s x k (by omega)]
    simp only [List.nil_append]
    rw [eager_one hB (by rw [List.length_take, List.length_drop]; omega)]
    rfl

theorem lane_le {i D k : Nat} (h : i < D) : i * k + k ≤ D * k := by
  rw [← Nat.succ_mul]; exact Nat.mul_le_mul_right _ h

theorem part_length {n D i : Nat} {b : List Byte} (h : i < D) (hl : b.length = D * (8 * n)) : (Tree.part n b i).length = 8 * n := by
  have := lane_le (k := 8 * n) h
  rw [Tree.part, List.length_take, List.length_drop]; omega

theorem part_holds {n D i : Nat} {inp b : List Byte} {io : Nat} (h : i < D) (hl : b.length = D * (8 * n)) (hb : Holds inp io b) : Holds inp (io + i * (8 * n)) (Tree.part n b i) := by
  have := lane_le (k := 8 * n) h
  exact (hb.dropN (by omega)).takeN _

/-- The leaf states for the lanes `s` of an object with initial values `v`. -/
def lanes (v : Nat → Fin C.n → W) (D : Nat) (s : Nat → Ghost C.n) : List St := (List.range D).map fun i => conc (List.ofFn (v i)) (s i)

theorem rd_lanes {v : Nat → Fin C.n → W} {D : Nat} {s : Nat → Ghost C.n} {i : Nat} (h : i < D) : rd (lanes v D s) i = .ok (conc (List.ofFn (v i)) (s i)) := by
  rw [rd_ok (by simpa [lanes] using h)]
  simp [lanes]

/-- The profile fits the number of lanes. -/
structure Fit (C : Core) (D : Nat) (p : Options.Opts) : Prop where
  pos : 0 < D
  le : D ≤ 64
  par : p.isParallel = true
  degree : p.degree = D
  min : p.min = D * (8 * C.n)
  prl : 0 < p.prl
  mod : p.prl % (D * (8 * C.n)) = 0
  auto : p.autoInit = false
  unit : p.blockSize = 8 * C.n
  simd : p.simdMultiply = false

theorem leaves_ok {v : Nat → Fin C.n → W} {D : Nat} {s s' : Nat → Ghost C.n} {o : Obj} {f : Nat → St → M St} (hd : o.prof.degree = D) (ho : o.dgt = lanes v D s)
    (hf : ∀ i, i < D → f i (conc (List.ofFn (v i)) (s i)) = .ok (conc (List.ofFn (v i)) (s' i))) : o.leaves f = .ok { o with dgt := lanes v D s' } := by
  rw [Obj.leaves, hd, ho, Blake.mapM_ok _ (fun i => conc (List.ofFn (v i)) (s' i)) _ (fun i hi => by
    have hi := List.mem_range.mp hi
    rw [rd_lanes hi, ok_bind, hf i hi]), ok_bind, List.drop_of_length_le (by simp [lanes]), List.append_nil]
  rfl

theorem processLeaf_ok (g : C.Good E) {D : Nat} (hD : 0 < D) {inp x : List Byte} {io : Nat} (hx : Holds inp io x) {k : Nat} (hk : 0 < k) (hl : x.length = k * (D * (8 * C.n)))
    (v : Nat → Fin C.n → W) (s : Nat → Ghost C.n) {i : Nat} (hi : i < D) :
    Obj.processLeaf C (D * (8 * C.n)) inp (io + i * C.rate) x.length (conc (List.ofFn (v i)) (s i)) = .ok (conc (List.ofFn (v i)) (after E (D * (8 * C.n)) s x k i)) := by
  have h0 := g.pos
  have hB : 0 < D * (8 * C.n) := Nat.mul_pos hD (by omega)
  obtain ⟨B, hBe⟩ : ∃ B, B = D * (8 * C.n) := ⟨_, rfl⟩
  rw [← hBe] at hB hl ⊢
  have hxl : 0 < k * B := Nat.mul_pos hk hB
  rw [Obj.processLeaf, if_neg (by omega), if_neg (by rw [hl, Nat.mul_mod_left]; omega), hl, Nat.mul_div_cancel _ hB]
  obtain ⟨st, h1, h2⟩ := loopN_inv (f := fun k s => C.processBlock inp (io + i * C.rate + k * B) C.rate s)
    (fun j st => st = conc (List.ofFn (v i)) (after E B s x j i)) k 0 (conc (List.ofFn (v i)) (s i))
    (by
      rintro j st _ hj rfl
      have hjk : j * B + B ≤ k * B := lane_le (by omega)
      have hr : ((x.drop (j * B)).take B).length = D * (8 * C.n) := by rw [List.length_take, List.length_drop]; omega
      have hh : Holds inp (io + j * B) ((x.drop (j * B)).take B) := (hx.dropN (by omega)).takeN _
      have hp := part_holds hi hr hh
      refine ⟨_, ?_, rfl⟩
      have e : io + i * C.rate + j * B = io + j * B + i * (8 * C.n) := by rw [Core.rate]; omega
      rw [e, absorb_ok g hp (part_length hi hr), after, Tree.row, absorb_eq])
    rfl
  rw [h1, h2, Nat.zero_add]

/-- The direct processing of a multiple of `unit`. -/
theorem direct_ok (g : C.Good E) {D : Nat} {inp x : List Byte} {io : Nat} (hx : Holds inp io x) {v : Nat → Fin C.n → W} {s : Nat → Ghost C.n} {o : Obj} (hf : Fit C D o.prof)
    (ho : o.dgt = lanes v D s) {unit : Nat} (hu : 0 < unit) (hm : unit % (D * (8 * C.n)) = 0) :
    ∃ io' y s', Obj.direct C inp unit (o, io, x.length) = .ok ({ o with dgt := lanes v D s' }, io', y.length) ∧ Holds inp io' y ∧ y.length < unit ∧
      (∀ q, eager (D * (8 * C.n)) (Tree.row E) s (x ++ q) = eager (D * (8 * C.n)) (Tree.row E) s' (y ++ q)) := by
  have h0 := g.pos
  have hB : 0 < D * (8 * C.n) := Nat.mul_pos hf.pos (by omega)
  rw [Obj.direct]
  dsimp only
  by_cases h : x.length ≥ unit
  · rw [if_pos h, if_neg (by omega)]
    obtain ⟨p, hp⟩ : ∃ p, p = x.length - x.length % unit := ⟨_, rfl⟩
    have hlt := Nat.mod_lt x.length hu
    have hmp : p % (D * (8 * C.n)) = 0 := by
      have h1 : p = unit * (x.length / unit) := by have := Nat.div_add_mod x.length unit; omega
      rw [h1, Nat.mul_mod, hm, Nat.zero_mul, Nat.zero_mod]
    obtain ⟨k, hk⟩ : ∃ k, p = k * (D * (8 * C.n)) := ⟨p / (D * (8 * C.n)), by rw [Nat.mul_comm]; have := Nat.div_add_mod p (D * (8 * C.n)); omega⟩
    have hple : p ≤ x.length := by omega
    have hkp : 0 < k := by
      rcases Nat.eq_zero_or_pos k with e | e
      · rw [e, Nat.zero_mul] at hk; omega
      · exact e
    have htl : (x.take p).length = p := by rw [List.length_take]; omega
    refine ⟨io + p, x.drop p, after E (D * (8 * C.n)) s (x.take p) k, ?_, hx.dropN hple, by rw [List.length_drop]; omega, fun q => ?_⟩
    · have hl := leaves_ok (f := fun i st => Obj.processLeaf C o.prof.min inp (io + i * C.rate) p st) (s' := after E (D * (8 * C.n)) s (x.take p) k) hf.degree ho (by
        intro i hi
        rw [hf.min]
        have := processLeaf_ok g hf.pos (hx.takeN p) hkp (htl.trans hk) v s hi
        rw [htl] at this
        exact this)
      rw [← hp, hl, ok_bind, List.length_drop]
      rfl
    · conv_lhs => rw [← List.take_append_drop p x, List.append_assoc]
      have := after_eager (E := E) hB s (x.take p) k (by rw [htl, ← hk])
      rw [← hk, List.take_of_length_le (by rw [htl])] at this
      rw [eager_append, this]
      rfl
  · rw [if_neg h]
    refine ⟨io, x, s, ?_, hx, by omega, fun _ => rfl⟩
    rw [← ho]; rfl

/-- A tree object that has processed the rows up to the lanes `s` and holds `r`. -/
structure TAbsorbed (v : Nat → Fin C.n → W) (D : Nat) (s : Nat → Ghost C.n) (r : List Byte) (o : Obj) : Prop where
  fit : Fit C D o.prof
  dgt : o.dgt = lanes v D s
  len : o.len = r.length
  lt : r.length < D * (8 * C.n)
  buf : ∃ q, o.buf = r ++ q
  size : o.buf.length = D * (8 * C.n)

theorem tstore_ok {v : Nat → Fin C.n → W} {D : Nat} {inp x r : List Byte} {io : Nat} {s : Nat → Ghost C.n} {o : Obj} (h : TAbsorbed v D s r o) (hx : Holds inp io x)
    (hl : r.length + x.length < D * (8 * C.n)) : ∃ o', Obj.store inp (o, io, x.length) = .ok o' ∧ TAbsorbed v D s (r ++ x) o' := by
  obtain ⟨q, hq⟩ := h.buf
  have hs := h.size
  rw [hq, List.length_append] at hs
  by_cases h0 : x.length = 0
  · have : x = [] := List.length_eq_zero_iff.mp h0
    subst this
    refine ⟨o, rfl, ?_⟩
    rw [List.append_nil]; exact h
  · rw [Obj.store, if_pos h0]
    simp only
    have e : o.buf = r ++ q.take x.length ++ q.drop x.length := by rw [hq, List.append_assoc, List.take_append_drop]
    rw [e, copy_at hx h.len rfl (by rw [List.length_take]; omega), ok_bind]
    refine ⟨_, rfl, ⟨h.fit, h.dgt, ?_, ?_, ⟨q.drop x.length, by simp only [List.append_assoc]⟩, ?_⟩⟩
    · show o.len + x.length = _
      rw [h.len, List.length_append]
    · rw [List.length_append]; exact hl
    · show (r ++ x ++ q.drop x.length).length = _
      simp only [List.length_append, List.length_drop]; omega

/-- The two direct steps and the store, from an empty buffer. -/
theorem tdirect_ok (g : C.Good E) {v : Nat → Fin C.n → W} {D : Nat} {inp x : List Byte} {io : Nat} {s : Nat → Ghost C.n} {o : Obj} (h : TAbsorbed v D s [] o) (hx : Holds inp io x) :
    ∃ o', (do
      let r ← Obj.direct C inp o.prof.prl (o, io, x.length)
      let r ← Obj.direct C inp r.1.prof.min r
      Obj.store inp r) = .ok o' ∧ TAbsorbed v D (eager (D * (8 * C.n)) (Tree.row E) s x).1 (eager (D * (8 * C.n)) (Tree.row E) s x).2 o' := by
  have h0 := g.pos
  have hf := h.fit
  have hB : 0 < D * (8 * C.n) := Nat.mul_pos hf.pos (by omega)
  obtain ⟨io1, y, s1, h1, hy, _, e1⟩ := direct_ok g hx hf h.dgt hf.prl hf.mod
  rw [h1, ok_bind]
  dsimp only
  obtain ⟨io2, z, s2, h2, hz, hlt, e2⟩ := direct_ok g hy (o := { o with dgt := lanes v D s1 }) hf rfl (unit := o.prof.min) (by rw [hf.min]; exact hB) (by rw [hf.min, Nat.mod_self])
  rw [h2, ok_bind]
  rw [hf.min] at hlt
  have e : eager (D * (8 * C.n)) (Tree.row E) s x = (s2, z) := by
    have a := e1 []
    have b := e2 []
    rw [List.append_nil, List.append_nil] at a b
    rw [a, b, eager_short hlt]
  rw [e]
  obtain ⟨o', h3, h4⟩ := tstore_ok (v := v) (s := s2) (r := []) (o := { o with dgt := lanes v D s2 }) ⟨hf, rfl, h.len, by simpa using hB, ⟨_, rfl⟩, h.size⟩ hz (by simpa using hlt)
  exact ⟨o', h3, by simpa using h4⟩

/-- `Update` absorbs its input row by row. -/
theorem tupdate_ok (g : C.Good E) {v : Nat → Fin C.n → W} {D : Nat} {inp x r : List Byte} {io : Nat} {s : Nat → Ghost C.n} {o : Obj} (h : TAbsorbed v D s r o) (hx : Holds inp io x)
    (hx64 : x.length < 2 ^ 64) :
    ∃ o', o.update C inp io x.length = .ok o' ∧ TAbsorbed v D (eager (D * (8 * C.n)) (Tree.row E) s (r ++ x)).1 (eager (D * (8 * C.n)) (Tree.row E) s (r ++ x)).2 o' := by
  have h0 := g.pos
  have hf := h.fit
  have hB : 0 < D * (8 * C.n) := Nat.mul_pos hf.pos (by omega)
  have hB64 : D * (8 * C.n) < 2 ^ 64 := by
    have h1 := hf.le
    have h2 := g.small
    have := Nat.mul_le_mul h1 (show 8 * C.n ≤ 128 by omega)
    omega
  have hlt := h.lt
  by_cases hz : x.length = 0
  · have : x = [] := List.length_eq_zero_iff.mp hz
    subst this
    refine ⟨o, rfl, ?_⟩
    rw [List.append_nil, eager_short h.lt]; exact h
  · rw [Obj.update, if_pos hz, if_pos hf.par, Obj.fillTree]
    by_cases hb : r.length ≠ 0 ∧ x.length + r.length ≥ D * (8 * C.n)
    · rw [if_pos (by rw [h.len, h.size]; exact hb)]
      obtain ⟨q, hq⟩ := h.buf
      have hs := h.size
      rw [hq, List.length_append] at hs
      obtain ⟨B, hBe⟩ : ∃ B, B = D * (8 * C.n) := ⟨_, rfl⟩
      have hsz := h.size
      rw [← hBe] at hB hB64 hlt hb hs hsz ⊢
      have hrm : Mac.subU o.buf.length o.len = B - r.length := by rw [h.len, hsz]; exact Mac.subU_le (by omega) hB64
      have hln : Mac.subU x.length (B - r.length) = (x.drop (B - r.length)).length := by rw [Mac.subU_le (by omega) hx64, List.length_drop]
      have ht : (x.take (B - r.length)).length = B - r.length := by rw [List.length_take]; omega
      have hcp : (if B - r.length ≠ 0 then copy inp io o.buf o.len (B - r.length) else pure o.buf : M (List Byte)) = .ok (r ++ x.take (B - r.length)) := by
        rw [if_pos (by omega), hq, show r ++ q = r ++ q ++ [] from by simp, copy_at (hx.takeN (B - r.length)) h.len ht.symm (by omega), List.append_nil]
      have hbl : (r ++ x.take (B - r.length)).length = D * (8 * C.n) := by rw [List.length_append]; omega
      simp only [hrm, hln]
      rw [hcp, ok_bind]
      have hlv := leaves_ok (o := { o with buf := r ++ x.take (B - r.length), len := 0 }) (f := fun i s => C.processBlock (r ++ x.take (B - r.length)) (i * C.rate) C.rate s)
        (s' := Tree.row E s (r ++ x.take (B - r.length))) hf.degree h.dgt (by
          intro i hi
          have hp := part_holds hi hbl (Holds.self _)
          rw [Nat.zero_add] at hp
          have := absorb_ok g hp (part_length hi hbl) (List.ofFn (v i)) (s i)
          rw [Tree.row, absorb_eq]
          exact this)
      rw [hlv, ok_bind, pure_eq_ok, ok_bind]
      dsimp only
      obtain ⟨o', h1, h2⟩ := tdirect_ok g (v := v) (s := Tree.row E s (r ++ x.take (B - r.length))) (o := { o with buf := r ++ x.take (B - r.length), len := 0, dgt := lanes v D (Tree.row E s (r ++ x.take (B - r.length))) })
        ⟨hf, rfl, rfl, by simpa [← hBe] using hB, ⟨_, rfl⟩, hbl⟩ (hx.dropN (n := B - r.length) (by omega))
      refine ⟨o', h1, ?_⟩
      have e : eager B (Tree.row E) s (r ++ x) = eager B (Tree.row E) (Tree.row E s (r ++ x.take (B - r.length))) (x.drop (B - r.length)) := by
        conv_lhs => rw [← List.take_append_drop (B - r.length) x, ← List.append_assoc]
        exact eager_cons hB (by omega)
      rw [e]
      rw [← hBe] at h2
      exact h2
    · rw [if_neg (by rw [h.len, h.size]; exact hb), pure_eq_ok, ok_bind]
      dsimp only
      by_cases hr : r.length = 0
      · have hr : r = [] := List.length_eq_zero_iff.mp hr
        subst hr
        rw [List.nil_append]
        exact tdirect_ok g h hx
      · have hxr : r.length + x.length < D * (8 * C.n) := by omega
        have hprl : D * (8 * C.n) ≤ o.prof.prl := Nat.le_of_dvd hf.prl (Nat.dvd_of_mod_eq_zero hf.mod)
        have e1 : Obj.direct C inp o.prof.prl (o, io, x.length) = .ok (o, io, x.length) := by rw [Obj.direct, if_neg (by dsimp only; omega)]; rfl
        have e2 : Obj.direct C inp o.prof.min (o, io, x.length) = .ok (o, io, x.length) := by rw [Obj.direct, if_neg (by dsimp only; rw [hf.min]; omega)]; rfl
        rw [e1, ok_bind]
        dsimp only
        rw [e2, ok_bind, eager_short (by rw [List.length_append]; exact hxr)]
        exact tstore_ok h hx hxr

end Cex.Skein
