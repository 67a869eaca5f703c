import Verif.Skein.TreeFinal
import Verif.Skein.Props
import Verif.Options.Props

/-!
# C76 The tree mode of Skein

The tree digest is a function of the message alone, for every history, as long as the machine has as many processors as there are lanes or
the degree was set by the caller; otherwise part of the input is dropped.
-/

namespace Cex.Skein
open Cex Cex.IntTools Cex.Skein.Paper Cex.Stream

variable {C : Core} {E : Tbc C.n}

/-- The profile before the number of lanes is known to fit. -/
structure Base (C : Core) (p : Options.Opts) : Prop where
  auto : p.autoInit = false
  unit : p.blockSize = 8 * C.n
  simd : p.simdMultiply = false
  par : p.isParallel = true

theorem construct_base {deg phys virt l1 : Nat} {p : Options.Opts} (h : Options.construct 1 C.rate false 2048 false deg phys virt l1 (some true) = .ok p) : Base C p := by
  rw [Options.construct] at h
  split at h
  · cases h
  · obtain ⟨q, h1, h⟩ := bind_ok h
    obtain ⟨_, h2, h3, h4, _⟩ := Options.calculate_post _ _ _ h1
    cases h
    exact ⟨h2, h3, h4, rfl⟩

theorem setDegree_fit (hn : 0 < C.n) (hs : C.n ≤ 16) {D : Nat} (h0 : 0 < D) (h64 : D ≤ 64) {p q : Options.Opts} (hb : Base C p) (h : Options.setMaxDegree 1 D p = .ok q) : Fit C D q := by
  rw [Options.setMaxDegree, if_neg (by omega)] at h
  obtain ⟨⟨h1, h2⟩, h3, h4, h5, _, _, h8, h9, h10⟩ := Options.calculate_post _ _ _ h
  have hd : q.degree = D := by
    rw [h8, Options.calcDegree]
    dsimp only
    rw [if_neg (by simp; omega)]
  dsimp only at h4 h5 h9 h10
  have hlt : D * (8 * C.n) ≤ 64 * (8 * 16) := Nat.mul_le_mul h64 (by omega)
  have hpos : 0 < D * (8 * C.n) := Nat.mul_pos h0 (by omega)
  have hm : q.min = D * (8 * C.n) := by
    rw [h1, hd, h4, hb.unit, Options.factor, if_neg (by rw [h5, hb.simd]; decide), Nat.mul_one, Nat.mod_eq_of_lt (by omega)]
  have hp := h10 hb.auto hb.par
  exact ⟨h0, h64, (h9 hb.auto).trans hb.par, hd, hm, by omega, by rw [← hm]; exact h2, h3, h4.trans hb.unit, h5.trans hb.simd⟩

theorem setDegree_ok (hn : 0 < C.n) (hs : C.n ≤ 16) {D : Nat} (h0 : 0 < D) (h64 : D ≤ 64) {p : Options.Opts} (hb : Base C p) : ∃ q, Options.setMaxDegree 1 D p = .ok q := by
  have hlt : D * (8 * C.n) ≤ 64 * (8 * 16) := Nat.mul_le_mul h64 (by omega)
  have hpos : 0 < D * (8 * C.n) := Nat.mul_pos h0 (by omega)
  rw [Options.setMaxDegree, if_neg (by omega), Options.calculate, Options.roundSize]
  split
  · exact ⟨_, rfl⟩
  · rw [if_neg]
    · exact ⟨_, rfl⟩
    · rw [(Options.calcSize_keeps _).2.2.2.2.2.2.1]
      dsimp only
      rw [Options.calcMin_eq, Options.calcDegree]
      dsimp only
      rw [if_neg (by simp; omega), Options.factor, hb.unit]
      dsimp only
      rw [if_neg (by rw [hb.simd]; decide), Nat.mul_one, Nat.mod_eq_of_lt (by omega)]
      omega

/-- The number of processors `Detect` comes to. -/
def procs (phys virt : Nat) : Nat :=
  let p := if virt > phys then virt else phys
  if p > 1 ∧ p % 2 ≠ 0 then p - 1 else p

theorem construct_fit (hn : 0 < C.n) (hs : C.n ≤ 16) {D phys virt l1 : Nat} (h0 : 1 < D) (h64 : D ≤ 64) (hp : D ≤ procs phys virt) (hl : 2048 + D * (8 * C.n) ≤ l1) (hl2 : l1 < 2 ^ 64) :
    ∃ p, Options.construct 1 C.rate false 2048 false D phys virt l1 (some true) = .ok p ∧ Fit C D p := by
  have hlt : D * (8 * C.n) ≤ 64 * (8 * 16) := Nat.mul_le_mul h64 (by omega)
  have hpos : 0 < D * (8 * C.n) := Nat.mul_pos (by omega) (by omega)
  rw [Options.construct, if_neg (by rw [Core.rate]; omega)]
  simp only [Options.calculate, Options.detect, Options.calcDegree, Options.calcMin, Options.calcSize, Options.roundSize, Options.w64]
  rw [procs] at hp
  obtain ⟨pr, hpr⟩ : ∃ p, p = (if (if virt > phys then virt else phys) > 1 ∧ (if virt > phys then virt else phys) % 2 ≠ 0 then (if virt > phys then virt else phys) - 1 else
    (if virt > phys then virt else phys)) := ⟨_, rfl⟩
  rw [← hpr] at hp ⊢
  have e1 : (if D > pr then pr else D) = D := if_neg (by omega)
  have e2 : (if (D > pr ∧ True) ∨ D = 0 then pr else D) = D := if_neg (by omega)
  have e3 : D * C.rate % 2 ^ 64 = D * (8 * C.n) := by rw [Core.rate, Nat.mod_eq_of_lt (by omega)]
  have e4 : (l1 + (2 ^ 64 - 2048)) % 2 ^ 64 = l1 - 2048 := by
    rw [show l1 + (2 ^ 64 - 2048) = (l1 - 2048) + 2 ^ 64 from by omega, Nat.add_mod_right, Nat.mod_eq_of_lt (by omega)]
  simp only [e1, e2, e3, e4, if_true, if_false, Bool.false_eq_true]
  obtain ⟨B, hB⟩ : ∃ B, B = D * (8 * C.n) := ⟨_, rfl⟩
  rw [← hB] at hl hpos hlt ⊢
  rw [if_neg (by omega), if_neg (by omega)]
  have hmod : l1 - 2048 - (l1 - 2048) % B = B * ((l1 - 2048) / B) := by have := Nat.div_add_mod (l1 - 2048) B; omega
  refine ⟨_, rfl, ⟨by omega, h64, rfl, rfl, by dsimp only; exact hB, ?_, ?_, rfl, rfl, rfl⟩⟩
  · dsimp only
    have := Nat.mod_lt (l1 - 2048) hpos
    omega
  · dsimp only
    rw [← hB, hmod, Nat.mul_mod_right]

theorem Fit.base {D : Nat} {p : Options.Opts} (h : Fit C D p) : Base C p := ⟨h.auto, h.unit, h.simd, h.par⟩

/-! ## The configuration of the trees -/

/-- The class builds the tree configuration. -/
def Cfg (C : Core) : Prop :=
  ∀ D : Fin 65, D.val ≠ 0 → (do C.config (← Params.new C.rate (BitVec.ofNat 8 C.rate) (BitVec.ofNat 8 D.val))) = .ok (List.ofFn (Tree.treeCfg C.n D.val))

theorem cfg256 : Cfg core256 := by unfold Cfg; decide +kernel
theorem cfg512 : Cfg core512 := by unfold Cfg; decide +kernel
theorem cfg1024 : Cfg core1024 := by unfold Cfg; decide +kernel

theorem init_lanes (g : C.Good E) (hc : Cfg C) {D : Nat} (h0 : 0 < D) (h64 : D ≤ 64) :
    ∃ p, Params.new C.rate (BitVec.ofNat 8 C.rate) (BitVec.ofNat 8 D) = .ok p ∧
      C.init (List.replicate D C.st0) p = .ok (lanes (Tree.laneIV E (Tree.treeCfg C.n D)) D (fun i => (Tree.laneIV E (Tree.treeCfg C.n D) i, 0))) := by
  have h := hc ⟨D, by omega⟩ (by dsimp only; omega)
  dsimp only at h
  obtain ⟨p, h1, h2⟩ := bind_ok h
  exact ⟨p, h1, init_tree g h2 h0⟩

/-- The initial values of the lanes of a tree of degree `D`. -/
def ivs (E : Tbc C.n) (D : Nat) : Nat → Fin C.n → W := Tree.laneIV E (Tree.treeCfg C.n D)

/-- The digest of a tree of degree `D`. -/
def treeDigest (E : Tbc C.n) (D : Nat) (m : List Byte) : List Byte := Tree.tree E D (ivs E D) m

/-! ## Histories -/

/-- The tree object `o` of degree `D` has come about by one of the ways below and any sequence of successful `Update`, `Reset`, `Finalize` and
`ParallelMaxDegree` calls, the last with nothing in the message buffer; `m` is what was passed to `Update` since.
* `new`: a parallel object on a machine with at least 8 processors and a data cache of at least 2048 bytes more than eight blocks;
* `degree`: a parallel object on any machine, after `ParallelMaxDegree`;
* `params` (Skein256): an object from tree parameters with no more lanes than processors. -/
inductive TRun (C : Core) : Obj → Nat → List Byte → Prop
  | new {o} (phys virt l1 : Nat) : 8 ≤ procs phys virt → 2048 + 8 * (8 * C.n) ≤ l1 → l1 < 2 ^ 64 → Obj.new C true phys virt l1 = .ok o → TRun C o 8 []
  | degree {o o' D} (phys virt l1 : Nat) : Obj.new C true phys virt l1 = .ok o → o.setMaxDegree C D = .ok o' → TRun C o' D []
  | params {o p D} (phys virt l1 : Nat) : C.wide = true → 1 < D → D ≤ procs phys virt → 2048 + D * (8 * C.n) ≤ l1 → l1 < 2 ^ 64 →
      Params.new C.rate (BitVec.ofNat 8 C.rate) (BitVec.ofNat 8 D) = .ok p → D < 256 → Obj.newParams C p phys virt l1 = .ok o → TRun C o D []
  | setDegree {o o' D D' m} : TRun C o D m → o.len = 0 → o.setMaxDegree C D' = .ok o' → TRun C o' D' []
  | update {o o' D m} (x : Window) : TRun C o D m → o.update C x.buf x.off x.len = .ok o' → TRun C o' D (m ++ x.bytes)
  | reset {o o' D m} : TRun C o D m → o.reset = .ok o' → TRun C o' D []
  | final {o o' D m out oo out'} : TRun C o D m → o.finalize C out oo = .ok (o', out') → TRun C o' D []

theorem setDegree_inv (g : C.Good E) (hc : Cfg C) {o : Obj} (hb : Base C o.prof) {D : Nat} (h1 : D ≠ 0) (h2 : D % 2 = 0) (h3 : D ≤ 64) :
    ∃ q : Options.Opts × Params, o.setMaxDegree C D = .ok { o with dgt := lanes (ivs E D) D (fun i => (ivs E D i, 0)), buf := List.replicate (D * (8 * C.n)) 0, prof := q.1, par := q.2 } ∧ Fit C D q.1 := by
  have hn := g.pos
  have hs := g.small
  obtain ⟨q, hq⟩ := setDegree_ok hn hs (by omega) h3 hb
  obtain ⟨p, hp, hi⟩ := init_lanes g hc (by omega) h3
  refine ⟨(q, p), ?_, setDegree_fit hn hs (by omega) h3 hb hq⟩
  rw [Obj.setMaxDegree, if_neg (by omega), hq, ok_bind, hp, ok_bind, hi, ok_bind]
  rfl

theorem setDegree_some {o o' : Obj} {D : Nat} (h : o.setMaxDegree C D = .ok o') : D ≠ 0 ∧ D % 2 = 0 ∧ D ≤ 64 := by
  rw [Obj.setMaxDegree] at h
  split at h
  · cases h
  · omega

theorem new_tree (g : C.Good E) (hc : Cfg C) {o : Obj} {phys virt l1 : Nat} (h : Obj.new C true phys virt l1 = .ok o) :
    ∃ prof par, Options.construct 1 C.rate false 2048 false 8 phys virt l1 (some true) = .ok prof ∧
      o = ⟨lanes (ivs E 8) 8 (fun i => (ivs E 8 i, 0)), List.replicate (8 * (8 * C.n)) 0, 0, prof, par⟩ := by
  obtain ⟨p, hp, hi⟩ := init_lanes g hc (D := 8) (by decide) (by decide)
  rw [Obj.new] at h
  obtain ⟨prof, h1, h⟩ := bind_ok h
  rw [if_pos rfl, show (8 : Byte) = BitVec.ofNat 8 8 from rfl, hp, ok_bind] at h
  simp only [if_true] at h
  rw [hi, ok_bind] at h
  cases h
  exact ⟨prof, p, h1, rfl⟩

theorem TRun.inv (g : C.Good E) (hc : Cfg C) {o : Obj} {D : Nat} {m : List Byte} (h : TRun C o D m) : TInv E (ivs E D) D o m := by
  have hn := g.pos
  have hs := g.small
  induction h with
  | new phys virt l1 hp h1 h2 h =>
    obtain ⟨prof, par, h3, rfl⟩ := new_tree g hc h
    obtain ⟨q, h4, h5⟩ := construct_fit hn hs (by decide) (by decide) hp h1 h2
    rw [h3] at h4; cases h4
    exact tinv_nil g h5 rfl rfl (by simp)
  | degree phys virt l1 h h' =>
    obtain ⟨prof, par, h3, rfl⟩ := new_tree g hc h
    obtain ⟨a1, a2, a3⟩ := setDegree_some h'
    obtain ⟨q, h4, h5⟩ := setDegree_inv g hc (o := ⟨lanes (ivs E 8) 8 (fun i => (ivs E 8 i, 0)), List.replicate (8 * (8 * C.n)) 0, 0, prof, par⟩) (construct_base h3) a1 a2 a3
    rw [h'] at h4; cases h4
    exact tinv_nil g h5 rfl rfl (by simp)
  | @params o p D phys virt l1 hw h1 hp h2 h3 h4 h6 h =>
    have hf : p.fanOut.toNat = D := by
      rw [Params.new] at h4
      split at h4
      · cases h4
      · split at h4
        · cases h4
        · cases h4
          rw [BitVec.toNat_ofNat, Nat.mod_eq_of_lt (by omega)]
    rw [Obj.newParams] at h
    dsimp only at h
    rw [hf] at h
    split at h
    · cases h
    · rename_i h5
      obtain ⟨q, h7, h8⟩ := construct_fit (C := C) hn hs h1 (by omega) hp h2 h3
      obtain ⟨p', h9, h10⟩ := init_lanes g hc (D := D) (by omega) (by omega)
      rw [h4] at h9; cases h9
      rw [show decide (D > 1) = true from by simpa using h1, h7, ok_bind, h10, ok_bind] at h
      cases h
      exact tinv_nil g h8 rfl rfl (by simp [Core.rate])
  | setDegree _ hl h ih =>
    obtain ⟨a1, a2, a3⟩ := setDegree_some h
    obtain ⟨q, h4, h5⟩ := setDegree_inv g hc (Fit.base ih.fit) a1 a2 a3
    rw [h] at h4; cases h4
    exact tinv_nil g h5 rfl hl (by simp)
  | update x _ h ih =>
    obtain ⟨o', h1, h2⟩ := tupdate_inv g ih x
    rw [h] at h1; cases h1
    exact h2
  | reset _ h ih =>
    obtain ⟨o', h1, h2⟩ := treset_ok g ih.ready
    rw [h] at h1; cases h1
    exact h2
  | final _ h ih =>
    obtain ⟨G, o1, _, h2, h3⟩ := finalTree_eq g ih
    rw [Obj.finalize] at h
    split at h
    · cases h
    · rw [if_pos ih.fit.par, h3] at h
      obtain ⟨r, hr, h⟩ := bind_ok h
      obtain ⟨o2, h4, h⟩ := bind_ok h
      obtain ⟨x, _, hx⟩ := bind_ok hr
      cases hx
      obtain ⟨o', h5, h6⟩ := treset_ok g h2
      cases h
      rw [h4] at h5; cases h5
      exact h6

/-- What C76 says of one class. -/
def TreeOk (C : Core) (E : Tbc C.n) : Prop :=
  (∀ phys virt l1 D, 0 < phys → D ≠ 0 → D % 2 = 0 → D ≤ 64 → ∃ o o', Obj.new C true phys virt l1 = .ok o ∧ o.setMaxDegree C D = .ok o') ∧
  ∀ o D m, TRun C o D m →
    (∀ x : Window, ∃ o', o.update C x.buf x.off x.len = .ok o') ∧ (∃ o', o.reset = .ok o') ∧
    (∀ pre junk post, junk.length = 8 * C.n → (pre ++ junk ++ post).length < 2 ^ 64 →
      ∃ o', o.finalize C (pre ++ junk ++ post) pre.length = .ok (o', pre ++ treeDigest E D m ++ post))

theorem new_tree_ok (g : C.Good E) (hc : Cfg C) (phys virt l1 : Nat) (hp : 0 < phys) : ∃ o, Obj.new C true phys virt l1 = .ok o := by
  have h4 := Core.Good.four g
  have hs := g.small
  obtain ⟨prof, h1, h2⟩ := construct_ok (bs := C.rate) (deg := 8) (by rw [Core.rate]; omega) (by rw [Core.rate]; omega) (by rw [Core.rate]; omega) (by decide) phys virt l1 hp true
  obtain ⟨p, hp, hi⟩ := init_lanes g hc (D := 8) (by decide) (by decide)
  rw [Obj.new, h1, ok_bind, if_pos rfl, show (8 : Byte) = BitVec.ofNat 8 8 from rfl, hp, ok_bind]
  simp only [if_true]
  rw [hi, ok_bind]
  exact ⟨_, rfl⟩

theorem treeOk (g : C.Good E) (hc : Cfg C) : TreeOk C E := by
  refine ⟨fun phys virt l1 D hp h1 h2 h3 => ?_, fun o D m h => ⟨fun x => ?_, ?_, fun pre junk post hj hs => ?_⟩⟩
  · obtain ⟨o, ho⟩ := new_tree_ok g hc phys virt l1 hp
    obtain ⟨prof, par, h4, rfl⟩ := new_tree g hc ho
    obtain ⟨q, h5, _⟩ := setDegree_inv g hc (o := ⟨lanes (ivs E 8) 8 (fun i => (ivs E 8 i, 0)), List.replicate (8 * (8 * C.n)) 0, 0, prof, par⟩) (construct_base h4) h1 h2 h3
    exact ⟨_, _, ho, h5⟩
  · obtain ⟨o', h1, _⟩ := tupdate_inv g (h.inv g hc) x
    exact ⟨o', h1⟩
  · obtain ⟨o', h1, _⟩ := treset_ok g (h.inv g hc).ready
    exact ⟨o', h1⟩
  · obtain ⟨o', h1, _⟩ := tfinalize_inv g (h.inv g hc) pre junk post hj hs
    exact ⟨o', h1⟩

/-- C76 (partial): in the histories `TRun` the digest is the tree digest of the absorbed bytes, however they were cut. Missing from the full
property: objects on machines with fewer than 8 processors, see `C76_collision`, objects from tree parameters in Skein512 and Skein1024, see
`C76_params_false`, and a change of the degree with data in the buffer, see `C76_degree_false`. -/
theorem C76_tree_partial : TreeOk core256 Threefish.threefish256 ∧ TreeOk core512 Threefish.threefish512 ∧ TreeOk core1024 Threefish.threefish1024 :=
  ⟨treeOk core256_good cfg256, treeOk core512_good cfg512, treeOk core1024_good cfg1024⟩

/-! ## The degree changed in the middle of a message -/

/-- `ParallelMaxDegree` after `Update` of one byte, for one class: whatever the byte was, the digest is that of a zero byte. -/
def Forgets (C : Core) (E : Tbc C.n) : Prop :=
  ∀ o D m, TRun C o D m → m = [] → ∀ D', D' ≠ 0 → D' % 2 = 0 → D' ≤ 64 → ∀ x : Byte, ∀ out : List Byte, out.length = 8 * C.n →
    ∃ o1 o2 o3, o.update C [x] 0 1 = .ok o1 ∧ o1.setMaxDegree C D' = .ok o2 ∧ o2.finalize C out 0 = .ok (o3, treeDigest E D' [0])

theorem forgets (g : C.Good E) (hc : Cfg C) : Forgets C E := by
  rintro o D m h rfl D' h1 h2 h3 x out hl
  have hn := g.pos
  have hs := g.small
  have hi := h.inv g hc
  have hD := hi.fit.pos
  have hB : 8 ≤ D * (8 * C.n) := Nat.le_trans (by omega) (Nat.mul_le_mul hD (show 8 ≤ 8 * C.n by omega))
  have hB' : 8 ≤ D' * (8 * C.n) := Nat.le_trans (by omega) (Nat.mul_le_mul (show 1 ≤ D' by omega) (show 8 ≤ 8 * C.n by omega))
  obtain ⟨o1, u1, u2⟩ := tupdate_inv g hi (Window.whole [x] (by simp))
  have hlen : o1.len = 1 := by
    have e := u2.len
    rw [rows_eager, eager_short (by show 1 < _; omega)] at e
    exact e
  obtain ⟨q, d1, d2⟩ := setDegree_inv g hc (Fit.base u2.fit) h1 h2 h3
  have hinv : TInv E (ivs E D') D' { o1 with dgt := lanes (ivs E D') D' (fun i => (ivs E D' i, 0)), buf := List.replicate (D' * (8 * C.n)) 0, prof := q.1, par := q.2 } [0] := by
    rw [TInv, rows_eager, eager_short (by show 1 < _; omega)]
    refine ⟨d2, rfl, hlen, by show 1 < _; omega, ⟨List.replicate (D' * (8 * C.n) - 1) 0, ?_⟩, by simp⟩
    dsimp only
    rw [show D' * (8 * C.n) = (D' * (8 * C.n) - 1) + 1 from by omega, List.replicate_succ]
    simp
  obtain ⟨o3, f1, _⟩ := tfinalize_inv g hinv [] out [] hl (by simp [hl]; omega)
  simp only [List.nil_append, List.append_nil, List.length_nil] at f1
  exact ⟨o1, _, o3, u1, d1, f1⟩

/-- C76 does not hold when `ParallelMaxDegree` comes after `Update`: all one-byte messages get the same digest. -/
theorem C76_degree_false : Forgets core256 Threefish.threefish256 ∧ Forgets core512 Threefish.threefish512 ∧ Forgets core1024 Threefish.threefish1024 :=
  ⟨forgets core256_good cfg256, forgets core512_good cfg512, forgets core1024_good cfg1024⟩

/-! ## Fewer processors than lanes -/

/-- Four processors and 32 KiB of cache: the profile of a default parallel object. -/
theorem profile4 (hn : C.rate = 32 ∨ C.rate = 64 ∨ C.rate = 128) : ∃ p, Options.construct 1 C.rate false 2048 false 8 4 4 32768 (some true) = .ok p ∧
    p.isParallel = true ∧ p.degree = 4 ∧ 1 < p.prl ∧ 1 < p.min := by
  rcases hn with e | e | e <;> rw [e] <;> exact ⟨_, rfl, by decide, by decide, by decide, by decide⟩

/-- What is left of a tree object whose buffer has been processed. -/
theorem finalTree_zero (g : C.Good E) {D : Nat} (h0 : 0 < D) {o : Obj} (hl : o.len = 0) {val : Nat → Fin C.n → W} (hd : o.dgt.length = D)
    (hS : ∀ i (h : i < o.dgt.length), o.dgt[i].S = List.ofFn (val i)) (hb : o.buf.length = D * (8 * C.n)) :
    ∀ out oo, o.finalTree C out oo = (do
      let out ← C.put (List.ofFn (Tree.root E ((List.range D).map val))) out oo
      return ({ o with buf := ((List.range D).map val).flatMap bytes, len := D * C.rate }, out)) := by
  intro out oo
  have hn := g.pos
  have hB : 0 < D * (8 * C.n) := Nat.mul_pos h0 (by omega)
  have hvl : ((List.range D).map val).length = D := by simp
  obtain ⟨V, T, hroot⟩ := root_ok g ((List.range D).map val) (by intro e; rw [e] at hvl; simp at hvl; omega)
  rw [hvl] at hroot
  rw [Obj.finalTree, if_pos (by omega), hl, Nat.sub_zero, Keccak.clear_all o.buf _ rfl, ok_bind, Obj.finalLeaves, if_neg (by omega), pure_eq_ok, ok_bind]
  dsimp only
  rw [hd, rootBuf_ok hd hS (by simpa using hb)]
  cases hp : Params.new C.rate 0 0 with
  | error e => rw [hp] at hroot; cases hroot
  | ok p =>
    rw [hp, ok_bind] at hroot
    rw [ok_bind]
    cases hc : C.config p with
    | error e => rw [hc] at hroot; cases hroot
    | ok cfg =>
      rw [hc, ok_bind] at hroot
      rw [ok_bind]
      cases hl : C.loadState cfg C.st0 with
      | error e => rw [hl] at hroot; cases hroot
      | ok st =>
        rw [hl, ok_bind] at hroot
        rw [ok_bind, ok_bind, hroot, ok_bind]

/-- The lanes when the first four have got a block of `m` and the others have not. -/
def half (E : Tbc C.n) (v : Nat → Fin C.n → W) (m : List Byte) (i : Nat) : Ghost C.n := if i < 4 then Tree.absorb E (v i, 0) (Tree.part C.n m i) else (v i, 0)

theorem feed4 (g : C.Good E) (hc : Cfg C) {o : Obj} (h : Obj.new C true 4 4 32768 = .ok o) (x : Byte) (m : List Byte) (hm : (x :: m).length = 8 * (8 * C.n)) :
    ∃ (o1 : Obj) (q : Options.Opts × Params), o.update C [x] 0 1 = .ok o1 ∧ o1.update C m 0 m.length = .ok ⟨lanes (ivs E 8) 8 (half E (ivs E 8) (x :: m)), x :: m, 0, q.1, q.2⟩ ∧ q.1.isParallel = true := by
  have hn := g.pos
  have hs := g.small
  obtain ⟨prof, par, h3, rfl⟩ := new_tree g hc h
  obtain ⟨p, h4, hpar, hdeg, hprl, hmin⟩ := profile4 (C := C) g.size
  rw [h3] at h4; cases h4
  rw [List.length_cons] at hm
  have hrep : List.replicate (8 * (8 * C.n)) (0 : Byte) = 0 :: List.replicate m.length 0 := by rw [← hm, List.replicate_succ]
  refine ⟨⟨lanes (ivs E 8) 8 (fun i => (ivs E 8 i, 0)), x :: List.replicate m.length 0, 1, prof, par⟩, (prof, par), ?_, ?_, hpar⟩
  · rw [Obj.update, if_pos (by decide), if_pos hpar, Obj.fillTree, if_neg (by simp), pure_eq_ok, ok_bind]
    dsimp only
    rw [Obj.direct, if_neg (by dsimp only; omega), pure_eq_ok, ok_bind]
    dsimp only
    rw [Obj.direct, if_neg (by dsimp only; omega), pure_eq_ok, ok_bind, Obj.store, if_pos (by dsimp only; decide), hrep]
    dsimp only
    have := copy_at (a := []) (b := [(0 : Byte)]) (c := List.replicate m.length 0) (Holds.self [x]) rfl rfl rfl
    rw [show (0 : Byte) :: List.replicate m.length 0 = [] ++ [0] ++ List.replicate m.length 0 from rfl]
    rw [show (([] : List Byte).length) = 0 from rfl] at this
    rw [show [x].length = 1 from rfl] at this
    rw [this, ok_bind]
    rfl
  · have hne : m.length ≠ 0 := by omega
    have hsub : Mac.subU (m.length + 1) 1 = m.length := by rw [Mac.subU_le (by omega) (by omega)]; rfl
    have hcopy : copy m 0 (x :: List.replicate m.length 0) 1 m.length = .ok (x :: m) := by
      have := copy_at (a := [x]) (b := List.replicate m.length (0 : Byte)) (c := []) (Holds.self m) rfl rfl (by simp)
      simpa using this
    have hleaf : (⟨lanes (ivs E 8) 8 (fun i => (ivs E 8 i, 0)), x :: m, 0, prof, par⟩ : Obj).leaves (fun i s => C.processBlock (x :: m) (i * C.rate) C.rate s) =
        .ok ⟨lanes (ivs E 8) 8 (half E (ivs E 8) (x :: m)), x :: m, 0, prof, par⟩ := by
      rw [Obj.leaves]
      dsimp only
      rw [hdeg, Blake.mapM_ok _ (fun i => conc (List.ofFn (ivs E 8 i)) (half E (ivs E 8) (x :: m) i)) _ (fun i hi => by
        have hi := List.mem_range.mp hi
        have hh := part_holds (D := 8) (i := i) (by omega) (show (x :: m).length = 8 * (8 * C.n) from by rw [List.length_cons]; exact hm) (Holds.self _)
        rw [Nat.zero_add] at hh
        have hpl : (Tree.part C.n (x :: m) i).length = 8 * C.n := part_length (D := 8) (by omega) (by rw [List.length_cons]; exact hm)
        rw [rd_lanes (by omega), ok_bind, half, if_pos hi, absorb_eq]
        exact absorb_ok g hh hpl _ _), ok_bind]
      rfl
    rw [Obj.update, if_pos hne, if_pos hpar, Obj.fillTree]
    dsimp only
    rw [if_pos ⟨by decide, by simp⟩, List.length_cons, List.length_replicate, hsub, if_pos hne, hcopy, ok_bind, hleaf, ok_bind]
    have hz : Mac.subU m.length m.length = 0 := by rw [Mac.subU_le (Nat.le_refl _) (by omega)]; omega
    rw [hz, pure_eq_ok, ok_bind]
    dsimp only
    rw [Obj.direct, if_neg (by dsimp only; omega), pure_eq_ok, ok_bind]
    dsimp only
    rw [Obj.direct, if_neg (by dsimp only; omega), pure_eq_ok, ok_bind, Obj.store, if_neg (by dsimp only; omega)]
    rfl

theorem part_take {n i : Nat} (hi : i < 4) (b : List Byte) : Tree.part n b i = Tree.part n (b.take (4 * (8 * n))) i := by
  have := lane_le (k := 8 * n) hi
  rw [Tree.part, Tree.part, List.drop_take, List.take_take, Nat.min_eq_left (by omega)]

/-- Two messages of eight blocks, cut after the first byte, that agree in the first four blocks. -/
def Collides (C : Core) : Prop :=
  ∀ (x : Byte) (m m' : List Byte), (x :: m).length = 8 * (8 * C.n) → (x :: m').length = 8 * (8 * C.n) → (x :: m).take (4 * (8 * C.n)) = (x :: m').take (4 * (8 * C.n)) →
    ∀ out : List Byte, out.length = 8 * C.n → ∃ o o1 a a' b b' d, Obj.new C true 4 4 32768 = .ok o ∧ o.update C [x] 0 1 = .ok o1 ∧
      o1.update C m 0 m.length = .ok a ∧ o1.update C m' 0 m'.length = .ok a' ∧ a.finalize C out 0 = .ok (b, d) ∧ a'.finalize C out 0 = .ok (b', d)

theorem finish4 (g : C.Good E) {m : List Byte} (hm : m.length = 8 * (8 * C.n)) {v : Nat → Fin C.n → W} {s : Nat → Ghost C.n} {prof : Options.Opts} {par : Params} (hp : prof.isParallel = true)
    {out : List Byte} (hl : out.length = 8 * C.n) : ∃ b, (⟨lanes v 8 s, m, 0, prof, par⟩ : Obj).finalize C out 0 = .ok (b, bytes (Tree.root E ((List.range 8).map fun i => (s i).1))) := by
  have hs := g.small
  have hf := finalTree_zero g (D := 8) (by decide) (o := ⟨lanes v 8 s, m, 0, prof, par⟩) rfl (val := fun i => (s i).1) (by simp [lanes]) (by intro i hi; simp [lanes, conc]) hm out 0
  have hput := put_ok (C := C) (Tree.root E ((List.range 8).map fun i => (s i).1)) [] out [] hl
  simp only [List.nil_append, List.append_nil, List.length_nil] at hput
  rw [Obj.finalize, Mac.subU_le (Nat.zero_le _) (by omega), if_neg (by rw [Core.rate]; omega), if_pos hp, hf, hput, ok_bind, pure_eq_ok, ok_bind]
  dsimp only
  rw [Obj.reset, Keccak.clear_all _ _ rfl, ok_bind]
  exact ⟨_, rfl⟩

theorem collides (g : C.Good E) (hc : Cfg C) : Collides C := by
  intro x m m' hm hm' he out hl
  obtain ⟨o, ho⟩ := new_tree_ok g hc 4 4 32768 (by decide)
  obtain ⟨o1, q, h1, h2, h3⟩ := feed4 g hc ho x m hm
  obtain ⟨o1', q', h1', h2', h3'⟩ := feed4 g hc ho x m' hm'
  rw [h1] at h1'; cases h1'
  have hh : half E (ivs E 8) (x :: m') = half E (ivs E 8) (x :: m) := by
    funext i
    rw [half, half]
    split
    · rename_i hi
      rw [part_take hi (x :: m'), part_take hi (x :: m), he]
    · rfl
  rw [hh] at h2'
  obtain ⟨b, hb⟩ := finish4 g hm (v := ivs E 8) (s := half E (ivs E 8) (x :: m)) (par := q.2) h3 hl
  obtain ⟨b', hb'⟩ := finish4 g hm' (v := ivs E 8) (s := half E (ivs E 8) (x :: m)) (par := q'.2) h3' hl
  exact ⟨o, o1, _, _, b, b', _, ho, h1, h2, h2', hb, hb'⟩

/-- C76 does not hold for a default parallel object on a machine with four processors: half of every eight blocks that pass through the message
buffer has no influence on the digest. -/
theorem C76_collision : Collides core256 ∧ Collides core512 ∧ Collides core1024 :=
  ⟨collides core256_good cfg256, collides core512_good cfg512, collides core1024_good cfg1024⟩

/-! ## Tree parameters in Skein512 and Skein1024 -/

theorem loopN_first {σ : Type} {n i : Nat} {f : Nat → σ → M σ} {s : σ} {e : Fault} (hn : 0 < n) (h : f i s = .error e) : loopN n i f s = .error e := by
  obtain ⟨k, rfl⟩ : ∃ k, n = k + 1 := ⟨n - 1, by omega⟩
  rw [loopN, h]
  rfl

theorem loopN_next {σ : Type} {n i : Nat} {f : Nat → σ → M σ} {s s' : σ} (hn : 0 < n) (h : f i s = .ok s') : loopN n i f s = loopN (n - 1) (i + 1) f s' := by
  obtain ⟨k, rfl⟩ : ∃ k, n = k + 1 := ⟨n - 1, by omega⟩
  rw [loopN, h, ok_bind, Nat.add_sub_cancel]

theorem put_ub (hn : 0 < C.n) (h : Fin C.n → W) {out : List Byte} {oo : Nat} (ho : out.length ≤ oo) : C.put (List.ofFn h) out oo = .error .ub := by
  have hlen : (leRep 8 (h ⟨0, hn⟩)).length = 8 := by simp [leRep]
  rw [Core.put]
  refine loopN_first hn ?_
  rw [rd_ok (by simpa using hn), ok_bind, List.getElem_ofFn, le64ToBytes, blit, if_neg (by rw [hlen]; omega)]

/-- An object from parameters with two or more lanes cannot be finalized. -/
def ParamsBreak (C : Core) : Prop :=
  ∀ (D phys virt l1 : Nat), 2 ≤ D → D ≤ 64 → 0 < phys → ∃ p o, Params.new C.rate (BitVec.ofNat 8 C.rate) (BitVec.ofNat 8 D) = .ok p ∧ Obj.newParams C p phys virt l1 = .ok o ∧
    ∀ (out : List Byte) (oo : Nat), out.length < 2 ^ 64 → oo + C.rate ≤ out.length → o.finalize C out oo = .error .ub

theorem paramsBreak (g : C.Good E) (hc : Cfg C) (hw : C.wide = false) : ParamsBreak C := by
  intro D phys virt l1 h2 h64 hp
  have h4 := Core.Good.four g
  have hs := g.small
  have hlt : C.rate * D < 2 ^ 64 := by
    have : C.rate * D ≤ 128 * 64 := Nat.mul_le_mul (by rw [Core.rate]; omega) h64
    omega
  obtain ⟨p, h3, hi⟩ := init_lanes g hc (D := D) (by omega) h64
  obtain ⟨prof, h5, h6⟩ := construct_ok (bs := C.rate) (deg := D) (by rw [Core.rate]; omega) (by rw [Core.rate]; omega) hlt (by omega) phys virt l1 hp true
  have hf : p.fanOut.toNat = D := by
    rw [Params.new] at h3
    split at h3
    · cases h3
    · split at h3
      · cases h3
      · cases h3
        rw [BitVec.toNat_ofNat, Nat.mod_eq_of_lt (by omega)]
  refine ⟨p, ⟨lanes (ivs E D) D (fun i => (ivs E D i, 0)), List.replicate C.rate 0, 0, prof, p⟩, h3, ?_, fun out oo h8 h9 => ?_⟩
  · rw [Obj.newParams]
    dsimp only
    rw [hf, if_neg (by omega), show decide (D > 1) = true from by simp; omega, h5, ok_bind, hi, ok_bind, hw]
    rfl
  · have hr : C.rate = 8 * C.n := rfl
    have hcf := g.config
    have hput := put_ok (C := C) (ivs E D 0) [] (List.replicate C.rate 0) [] (by simp [hr])
    simp only [List.nil_append, List.append_nil, List.length_nil] at hput
    have hub := put_ub (by omega) (ivs E D 1) (out := bytes (ivs E D 0)) (oo := C.rate) (by rw [bytes_length, hr])
    rw [Obj.finalize, Mac.subU_le (by omega) h8, if_neg (by omega), if_pos h6, Obj.finalTree]
    dsimp only
    rw [if_pos (by simp [hr]; omega), Nat.sub_zero, Keccak.clear_all _ _ rfl, ok_bind, Obj.finalLeaves, if_neg (by omega), pure_eq_ok, ok_bind]
    dsimp only
    rw [List.length_replicate]
    cases hp : Params.new C.rate 0 0 with
    | error e => rw [hp] at hcf; cases hcf
    | ok p0 =>
      rw [hp, ok_bind] at hcf
      rw [ok_bind, hcf, ok_bind, Core.st0, zeros_ofFn, loadState_ok g, ok_bind]
      rw [show (lanes (ivs E D) D (fun i => (ivs E D i, 0))).length = D from by simp [lanes],
        loopN_next (s' := bytes (ivs E D 0)) (by omega) (by rw [rd_lanes (by omega), ok_bind, conc, Nat.zero_mul]; exact hput),
        loopN_first (e := .ub) (by omega) (by rw [rd_lanes (by omega), ok_bind, conc, Nat.zero_add, Nat.one_mul]; exact hub)]
      rfl

/-- C76 does not hold for tree parameters in Skein512 and Skein1024: the message buffer has the size of one block, and `Finalize` writes all
lanes into it. -/
theorem C76_params_false : ParamsBreak core512 ∧ ParamsBreak core1024 := ⟨paramsBreak core512_good cfg512 rfl, paramsBreak core1024_good cfg1024 rfl⟩

end Cex.Skein
