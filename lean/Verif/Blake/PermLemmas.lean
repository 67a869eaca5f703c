import Verif.Blake.Model
import Verif.Blake.Spec
import Verif.Serpent.Blocks

/-!
# Both permutations compute the RFC compression function
-/

namespace Cex.Blake
open Cex Cex.IntTools Cex.Blake.Rfc

variable {w : Nat}

section ofFn
variable {α : Type} {n : Nat}

theorem rd_ofFn (v : Fin n → α) (i : Nat) (h : i < n) : rd (List.ofFn v) i = .ok (v ⟨i, h⟩) := by
  rw [rd_ok (by simpa using h), List.getElem_ofFn]

theorem wr_ofFn (v : Fin n → α) (i : Nat) (h : i < n) (x : α) : wr (List.ofFn v) i x = .ok (List.ofFn (Rfc.put v ⟨i, h⟩ x)) := by
  rw [wr_ok _ (by simpa using h)]
  congr 1
  refine List.ext_getElem (by simp) fun k h1 h2 => ?_
  simp only [List.getElem_set, List.getElem_ofFn, Rfc.put, Fin.mk.injEq, eq_comm]

theorem put_put (v : Fin n → α) (i : Fin n) (x y : α) : Rfc.put (Rfc.put v i x) i y = Rfc.put v i y := by
  funext j; simp only [Rfc.put]; split <;> rfl

theorem put_self (v : Fin n → α) (i : Fin n) (x : α) : Rfc.put v i x i = x := by simp [Rfc.put]

theorem eq_ofFn (l : List α) (h : l.length = n) : ∃ v : Fin n → α, l = List.ofFn v := ⟨fun i => l[i.val]'(by omega), by
  refine List.ext_getElem (by simp [h]) fun k h1 h2 => ?_
  simp⟩

end ofFn

theorem rotr_eq (x : BitVec w) (r : Nat) (h : r < w) : rotr x r = x.rotateRight r := by
  rw [rotr, BitVec.rotateRight, BitVec.rotateRightAux, Nat.mod_eq_of_lt h]

/-- The rotation distances are those of the variant. -/
structure RotsOk (p : Rots) (A : Alg w) : Prop where
  e1 : p.r1 = A.R1
  e2 : p.r2 = A.R2
  e3 : p.r3 = A.R3
  e4 : p.r4 = A.R4
  b1 : A.R1 < w
  b2 : A.R2 < w
  b3 : A.R3 < w
  b4 : A.R4 < w

variable {p : Rots} {A : Alg w}

theorem gStep_ok (h : RotsOk p A) (m v : Fin 16 → BitVec w) (a b c d x y : Nat) (ha : a < 16) (hb : b < 16) (hc : c < 16) (hd : d < 16) (hx : x < 16) (hy : y < 16) :
    gStep p (List.ofFn m) a b c d x y (List.ofFn v) =
      .ok (List.ofFn (A.G v ⟨a, ha⟩ ⟨b, hb⟩ ⟨c, hc⟩ ⟨d, hd⟩ (m ⟨x, hx⟩) (m ⟨y, hy⟩))) := by
  simp only [gStep, rd_ofFn _ _ ha, rd_ofFn _ _ hb, rd_ofFn _ _ hc, rd_ofFn _ _ hd, rd_ofFn _ _ hx, rd_ofFn _ _ hy, wr_ofFn _ _ ha, wr_ofFn _ _ hb, wr_ofFn _ _ hc,
    wr_ofFn _ _ hd, ok_bind, put_put, put_self, h.e1, h.e2, h.e3, h.e4, rotr_eq _ _ h.b1, rotr_eq _ _ h.b2, rotr_eq _ _ h.b3, rotr_eq _ _ h.b4, Alg.G, BitVec.add_assoc]

theorem mapM_ok {α β : Type} (f : α → M β) (g : α → β) : ∀ l : List α, (∀ i ∈ l, f i = .ok (g i)) → l.mapM f = .ok (l.map g)
  | [], _ => rfl
  | a :: l, h => by
    rw [List.mapM_cons, h a (by simp), ok_bind, mapM_ok f g l (fun i hi => h i (by simp [hi])), ok_bind]
    rfl

theorem mapM_range (n : Nat) (f : Nat → M (BitVec w)) (v : Fin n → BitVec w) (h : ∀ i (hi : i < n), f i = .ok (v ⟨i, hi⟩)) :
    (List.range n).mapM f = .ok (List.ofFn v) := by
  rw [mapM_ok f (fun i => if hi : i < n then v ⟨i, hi⟩ else 0) _ (fun i hi => by
    have hi := List.mem_range.mp hi
    rw [h i hi, dif_pos hi])]
  congr 1
  refine List.ext_getElem (by simp) fun k h1 h2 => ?_
  have hk : k < n := by simpa using h1
  simp [hk]

/-- The schedule of the code is that of the RFC. -/
def SigOk (sigma : List Nat) (rounds : Nat) : Prop := ∀ i < rounds, ∀ k (h : k < 16), rd sigma (i * 16 + k) = .ok ((row i)[k]'h).val

theorem gSched_ok (h : RotsOk p A) {sigma : List Nat} {rounds i : Nat} (hs : SigOk sigma rounds) (hi : i < rounds) (m v : Fin 16 → BitVec w) (a b c d k j : Nat) (ha : a < 16) (hb : b < 16)
    (hc : c < 16) (hd : d < 16) (hk : k + 1 < 16) (hj : j = i * 16 + k) :
    gSched p sigma (List.ofFn m) a b c d j (List.ofFn v) =
      .ok (List.ofFn (A.G v ⟨a, ha⟩ ⟨b, hb⟩ ⟨c, hc⟩ ⟨d, hd⟩ (m ((row i)[k]'(by omega))) (m ((row i)[k + 1]'hk)))) := by
  subst hj
  rw [gSched, hs i hi k (by omega), ok_bind, Nat.add_assoc, hs i hi (k + 1) hk, ok_bind, gStep_ok h _ _ _ _ _ _ _ _ ha hb hc hd (by omega) (by omega)]

theorem roundC_ok (h : RotsOk p A) {sigma : List Nat} {rounds i : Nat} (hs : SigOk sigma rounds) (hi : i < rounds) (m v : Fin 16 → BitVec w) :
    roundC p sigma (List.ofFn m) i (List.ofFn v) = .ok (List.ofFn (A.round m i v)) := by
  rw [roundC, gSched_ok h hs hi m v 0 4 8 12 0 _ (by decide) (by decide) (by decide) (by decide) (by decide) (by omega), ok_bind,
    gSched_ok h hs hi m _ 1 5 9 13 2 _ (by decide) (by decide) (by decide) (by decide) (by decide) (by omega), ok_bind,
    gSched_ok h hs hi m _ 2 6 10 14 4 _ (by decide) (by decide) (by decide) (by decide) (by decide) (by omega), ok_bind,
    gSched_ok h hs hi m _ 3 7 11 15 6 _ (by decide) (by decide) (by decide) (by decide) (by decide) (by omega), ok_bind,
    gSched_ok h hs hi m _ 0 5 10 15 8 _ (by decide) (by decide) (by decide) (by decide) (by decide) (by omega), ok_bind,
    gSched_ok h hs hi m _ 1 6 11 12 10 _ (by decide) (by decide) (by decide) (by decide) (by decide) (by omega), ok_bind,
    gSched_ok h hs hi m _ 2 7 8 13 12 _ (by decide) (by decide) (by decide) (by decide) (by decide) (by omega), ok_bind,
    gSched_ok h hs hi m _ 3 4 9 14 14 _ (by decide) (by decide) (by decide) (by decide) (by decide) (by omega)]
  rfl

theorem loop_foldl (f : Nat → List (BitVec w) → M (List (BitVec w))) (g : Nat → (Fin 16 → BitVec w) → (Fin 16 → BitVec w)) (n : Nat)
    (h : ∀ i < n, ∀ v, f i (List.ofFn v) = .ok (List.ofFn (g i v))) (v : Fin 16 → BitVec w) :
    loopN n 0 f (List.ofFn v) = .ok (List.ofFn ((List.range n).foldl (fun v i => g i v) v)) := by
  obtain ⟨s, h1, h2⟩ := loopN_inv (f := f) (fun j s => s = List.ofFn ((List.range j).foldl (fun v i => g i v) v)) n 0 (List.ofFn v)
    (fun j s _ hj hs => by
      subst hs
      refine ⟨_, h j (by omega) _, ?_⟩
      rw [List.range_succ, List.foldl_append]; rfl) rfl
  rw [h1, h2, Nat.zero_add]

/-- The groups of round `i`. -/
def groupsOf (i : Nat) : List (Nat × Nat × Nat × Nat × Nat × Nat) :=
  let s := row i
  [(0, 4, 8, 12, s[0], s[1]), (1, 5, 9, 13, s[2], s[3]), (2, 6, 10, 14, s[4], s[5]), (3, 7, 11, 15, s[6], s[7]),
   (0, 5, 10, 15, s[8], s[9]), (1, 6, 11, 12, s[10], s[11]), (2, 7, 8, 13, s[12], s[13]), (3, 4, 9, 14, s[14], s[15])]

theorem groups_ok (h : RotsOk p A) (m v : Fin 16 → BitVec w) (i : Nat) :
    (groupsOf i).foldlM (fun R g => gStep p (List.ofFn m) g.1 g.2.1 g.2.2.1 g.2.2.2.1 g.2.2.2.2.1 g.2.2.2.2.2 R) (List.ofFn v) = .ok (List.ofFn (A.round m i v)) := by
  simp only [groupsOf, List.foldlM_cons, List.foldlM_nil]
  rw [gStep_ok h m v 0 4 8 12 _ _ (by decide) (by decide) (by decide) (by decide) (Fin.isLt _) (Fin.isLt _), ok_bind,
    gStep_ok h m _ 1 5 9 13 _ _ (by decide) (by decide) (by decide) (by decide) (Fin.isLt _) (Fin.isLt _), ok_bind,
    gStep_ok h m _ 2 6 10 14 _ _ (by decide) (by decide) (by decide) (by decide) (Fin.isLt _) (Fin.isLt _), ok_bind,
    gStep_ok h m _ 3 7 11 15 _ _ (by decide) (by decide) (by decide) (by decide) (Fin.isLt _) (Fin.isLt _), ok_bind,
    gStep_ok h m _ 0 5 10 15 _ _ (by decide) (by decide) (by decide) (by decide) (Fin.isLt _) (Fin.isLt _), ok_bind,
    gStep_ok h m _ 1 6 11 12 _ _ (by decide) (by decide) (by decide) (by decide) (Fin.isLt _) (Fin.isLt _), ok_bind,
    gStep_ok h m _ 2 7 8 13 _ _ (by decide) (by decide) (by decide) (by decide) (Fin.isLt _) (Fin.isLt _), ok_bind,
    gStep_ok h m _ 3 4 9 14 _ _ (by decide) (by decide) (by decide) (by decide) (Fin.isLt _) (Fin.isLt _), ok_bind]
  rfl

theorem unrolled_ok (h : RotsOk p A) (m : Fin 16 → BitVec w) : ∀ (l : List Nat) (v : Fin 16 → BitVec w),
    (l.flatMap groupsOf).foldlM (fun R g => gStep p (List.ofFn m) g.1 g.2.1 g.2.2.1 g.2.2.2.1 g.2.2.2.2.1 g.2.2.2.2.2 R) (List.ofFn v) =
      .ok (List.ofFn (l.foldl (fun v i => A.round m i v) v))
  | [], v => rfl
  | i :: l, v => by
    rw [List.flatMap_cons, List.foldlM_append, groups_ok h, ok_bind, unrolled_ok h m l]
    rfl

/-- `getw` reads a little-endian word. -/
def GetOk (getw : List Byte → Nat → M (BitVec w)) : Prop :=
  ∀ {inp s : List Byte} {off : Nat}, Holds inp off s → s.length = w / 8 → getw inp off = .ok (BitVec.ofNat w (leVal s))

variable {getw : List Byte → Nat → M (BitVec w)}

theorem load_ok (hg : GetOk getw) (h8 : w % 8 = 0) {inp b : List Byte} {io : Nat} (h : Holds inp io b) (hb : b.length = 2 * w) :
    load getw inp io = .ok (List.ofFn (words w b)) := by
  refine mapM_range 16 _ _ fun i hi => ?_
  have h1 : i * (w / 8) ≤ 15 * (w / 8) := Nat.mul_le_mul_right _ (by omega)
  rw [hg ((h.dropN (n := i * (w / 8)) (by omega)).takeN (w / 8)) (by rw [List.length_take, List.length_drop]; omega)]
  rfl

theorem fold8_ok (h : Fin 8 → BitVec w) (v : Fin 16 → BitVec w) :
    fold8 (List.ofFn h) (List.ofFn v) = .ok (List.ofFn fun i : Fin 8 => h i ^^^ v ⟨i.val, by omega⟩ ^^^ v ⟨i.val + 8, by omega⟩) := by
  refine mapM_range 8 _ _ fun i hi => ?_
  rw [rd_ofFn _ _ hi, ok_bind, rd_ofFn _ _ (by omega), ok_bind, rd_ofFn _ _ (by omega), ok_bind, pure_eq_ok, BitVec.xor_assoc]

/-- A permutation is right: it runs the rounds on the two halves and folds. -/
def PermOk (A : Alg w) (perm : List Byte → Nat → List (BitVec w) → List (BitVec w) → M (List (BitVec w))) : Prop :=
  ∀ {inp b : List Byte} {io : Nat}, Holds inp io b → b.length = 2 * w → ∀ (h : Fin 8 → BitVec w) (iv : List (BitVec w)) (v : Fin 16 → BitVec w),
    List.ofFn h ++ iv = List.ofFn v →
    perm inp io (List.ofFn h) iv = .ok (List.ofFn fun i : Fin 8 =>
      h i ^^^ (List.range A.rounds).foldl (fun v i => A.round (words w b) i v) v ⟨i.val, by omega⟩ ^^^
        (List.range A.rounds).foldl (fun v i => A.round (words w b) i v) v ⟨i.val + 8, by omega⟩)

theorem permuteC_ok (h : RotsOk p A) (hg : GetOk getw) (h8 : w % 8 = 0) {sigma : List Nat} (hs : SigOk sigma A.rounds) :
    PermOk A (permuteC getw p A.rounds sigma) := by
  intro inp b io hb hl h' iv v e
  rw [permuteC, load_ok hg h8 hb hl, ok_bind, e, loop_foldl _ (A.round (words w b)) _ (fun i hi v => roundC_ok h hs hi _ v), ok_bind, fold8_ok]

theorem permuteU_ok (h : RotsOk p A) (hg : GetOk getw) (h8 : w % 8 = 0) : PermOk A (permuteU getw p ((List.range A.rounds).flatMap groupsOf)) := by
  intro inp b io hb hl h' iv v e
  rw [permuteU, load_ok hg h8 hb hl, ok_bind, e, unrolled_ok h, ok_bind, fold8_ok]

theorem get32_ok : GetOk leBytesTo32 := by
  intro inp s off h hs
  rw [leBytesTo32, slice_holds h hs.symm, ok_bind, pure_eq_ok]
  refine congrArg _ (BitVec.eq_of_toNat_eq ?_)
  rw [leUnrep_toNat _ _ (by omega), BitVec.toNat_ofNat, Nat.mod_eq_of_lt]
  have := leVal_lt s
  rw [hs] at this; exact this

theorem get64_ok : GetOk leBytesTo64 := by
  intro inp s off h hs
  rw [leBytesTo64, slice_holds h hs.symm, ok_bind, pure_eq_ok]
  refine congrArg _ (BitVec.eq_of_toNat_eq ?_)
  rw [leUnrep_toNat _ _ (by omega), BitVec.toNat_ofNat, Nat.mod_eq_of_lt]
  have := leVal_lt s
  rw [hs] at this; exact this

theorem rots2s : RotsOk ⟨16, 12, 8, 7⟩ alg2s := ⟨rfl, rfl, rfl, rfl, by decide, by decide, by decide, by decide⟩
theorem rots2b : RotsOk ⟨32, 24, 16, 63⟩ alg2b := ⟨rfl, rfl, rfl, rfl, by decide, by decide, by decide, by decide⟩

theorem sig256 : SigOk sigma256 10 := by unfold SigOk; decide +kernel
theorem sig512 : SigOk sigma512 12 := by unfold SigOk; decide +kernel
theorem unr256 : unrolled256 = (List.range 10).flatMap groupsOf := by decide +kernel
theorem unr512 : unrolled512 = (List.range 12).flatMap groupsOf := by decide +kernel

theorem perm256_ok (compact : Bool) : PermOk alg2s (core256 compact).perm := by
  cases compact
  · show PermOk alg2s (permuteU leBytesTo32 ⟨16, 12, 8, 7⟩ unrolled256)
    rw [unr256]
    exact permuteU_ok rots2s get32_ok rfl
  · exact permuteC_ok (A := alg2s) rots2s get32_ok rfl sig256

theorem perm512_ok (compact : Bool) : PermOk alg2b (core512 compact).perm := by
  cases compact
  · show PermOk alg2b (permuteU leBytesTo64 ⟨32, 24, 16, 63⟩ unrolled512)
    rw [unr512]
    exact permuteU_ok rots2b get64_ok rfl
  · exact permuteC_ok (A := alg2b) rots2b get64_ok rfl sig512

end Cex.Blake
