import Verif.SCipher.ChaCha
import Verif.SCipher.ChaChaSpec
import Verif.IntTools.Lemmas
import Verif.IntTools.Enc
import Verif.SCipher.Blocks
import Verif.Stream

/-!
# The ChaCha block functions compute the published block
-/

namespace Cex.SCipher
open Cex Cex.IntTools Cex.SCipher.Spec

/-- `f` preserves the operations for the rotation distances satisfying `R`. -/
structure Hom {α β : Type} (o : Ops α) (p : Ops β) (R : Nat → Prop) (f : α → β) : Prop where
  add : ∀ x y, f (o.add x y) = p.add (f x) (f y)
  xor : ∀ x y, f (o.xor x y) = p.xor (f x) (f y)
  rot : ∀ x r, R r → f (o.rot x r) = p.rot (f x) r

/-- The rotation distance of a statement. -/
def Ins.Dist (R : Nat → Prop) : Ins → Prop
  | .add _ _ => True
  | .mix _ _ r => R r

theorem step_hom {α β : Type} {o : Ops α} {p : Ops β} {R : Nat → Prop} {f : α → β} (h : Hom o p R f) (s : Ins) (hs : s.Dist R) (X : Nat → α) :
    (fun i => f (step o X s i)) = step p (fun i => f (X i)) s := by
  cases s with
  | add a b =>
    funext i
    simp only [step]
    split
    · exact h.add _ _
    · rfl
  | mix a b r =>
    funext i
    simp only [step]
    split
    · rw [h.rot _ _ hs, h.xor]
    · rfl

theorem exec_hom {α β : Type} {o : Ops α} {p : Ops β} {R : Nat → Prop} {f : α → β} (h : Hom o p R f) (prog : List Ins)
    (hs : ∀ s ∈ prog, s.Dist R) (X : Nat → α) : (fun i => f (exec o prog X i)) = exec p prog (fun i => f (X i)) := by
  induction prog generalizing X with
  | nil => rfl
  | cons s t ih =>
    have e := ih (fun x hx => hs x (List.mem_cons_of_mem _ hx)) (step o X s)
    simp only [exec, List.foldl_cons] at e ⊢
    rw [e, step_hom h s (hs s (List.mem_cons_self ..))]

theorem passes_hom {α β : Type} {o : Ops α} {p : Ops β} {R : Nat → Prop} {f : α → β} (h : Hom o p R f) (prog : List Ins)
    (hs : ∀ s ∈ prog, s.Dist R) (n : Nat) (X : Nat → α) :
    (fun i => f (passes o prog n X i)) = passes p prog n (fun i => f (X i)) := by
  induction n generalizing X with
  | zero => rfl
  | succ n ih => simp only [passes]; rw [ih, exec_hom h prog hs]

theorem start_map {α β : Type} (f : α → β) (st : Nat → α) (c0 c1 : α) :
    (fun i => f (start st c0 c1 i)) = start (fun j => f (st j)) (f c0) (f c1) := by
  funext i
  simp only [start]
  split
  · rfl
  · split
    · rfl
    · split <;> rfl

theorem permute_hom {α β : Type} {o : Ops α} {p : Ops β} {R : Nat → Prop} {f : α → β} (h : Hom o p R f) (prog : List Ins)
    (hs : ∀ s ∈ prog, s.Dist R) (n : Nat) (st : Nat → α) (c0 c1 : α) :
    (fun i => f (permute o prog n st c0 c1 i)) = permute p prog n (fun j => f (st j)) (f c0) (f c1) := by
  funext i
  simp only [permute]
  rw [h.add]
  have e1 := congrFun (passes_hom h prog hs n (start st c0 c1)) i
  have e2 := congrFun (start_map f st c0 c1) i
  rw [e1, e2, start_map]

/-- The operations of the published description. -/
def specOps (w : Nat) : Ops (BitVec w) := ⟨fun x y => x + y, fun x y => x ^^^ y, fun x r => x.rotateLeft r⟩

theorem rotl_eq {w : Nat} (x : BitVec w) {r : Nat} (h : r < w) : rotl x r = x.rotateLeft r := by
  rw [rotl, BitVec.rotateLeft_def, Nat.mod_eq_of_lt h]

theorem word_hom (w : Nat) : Hom (wordOps w) (specOps w) (· < w) id :=
  ⟨fun _ _ => rfl, fun _ _ => rfl, fun x _ h => rotl_eq x h⟩

theorem half_hom : Hom halfOps (specOps 32) (· < 32) (fun x => x.setWidth 32) where
  add x y := by simp only [halfOps, specOps]; exact BitVec.setWidth_add x y (by omega)
  xor x y := by simp only [halfOps, specOps]; exact BitVec.setWidth_xor
  rot x r h := by
    simp only [halfOps, specOps]
    rw [← rotl_eq _ h]
    generalize rotl (x.setWidth 32) r = y
    apply BitVec.eq_of_toNat_eq
    simp only [BitVec.toNat_setWidth]
    have := y.isLt
    omega

theorem lane_hom (n w : Nat) (l : Fin n) : Hom (laneOps n w) (specOps w) (· < w) (fun x => x l) :=
  ⟨fun _ _ => rfl, fun _ _ => rfl, fun x _ h => rotl_eq (x l) h⟩

/-- The statements of a quarter round. -/
def quarterProg (q r : Nat × Nat × Nat × Nat) : List Ins :=
  [.add q.1 q.2.1, .mix q.2.2.2 q.1 r.1, .add q.2.2.1 q.2.2.2, .mix q.2.1 q.2.2.1 r.2.1,
   .add q.1 q.2.1, .mix q.2.2.2 q.1 r.2.2.1, .add q.2.2.1 q.2.2.2, .mix q.2.1 q.2.2.1 r.2.2.2]

/-- Four different words. -/
def Apart (q : Nat × Nat × Nat × Nat) : Prop :=
  q.1 ≠ q.2.1 ∧ q.1 ≠ q.2.2.1 ∧ q.1 ≠ q.2.2.2 ∧ q.2.1 ≠ q.2.2.1 ∧ q.2.1 ≠ q.2.2.2 ∧ q.2.2.1 ≠ q.2.2.2

instance (q : Nat × Nat × Nat × Nat) : Decidable (Apart q) := by unfold Apart; infer_instance

theorem exec_quarter {w : Nat} (q r : Nat × Nat × Nat × Nat) (hq : Apart q) (X : Nat → BitVec w) :
    exec (specOps w) (quarterProg q r) X = quarterAt q r X := by
  obtain ⟨a, b, c, d⟩ := q
  obtain ⟨h1, h2, h3, h4, h5, h6⟩ := hq
  simp only at h1 h2 h3 h4 h5 h6
  funext i
  simp only [exec, quarterProg, List.foldl_cons, List.foldl_nil, step, quarterAt, quarter, specOps]
  simp only [h1, h2, h3, h4, h5, h6, h1.symm, h2.symm, h3.symm, h4.symm, h5.symm, h6.symm, if_true, if_false]
  by_cases ha : i = a
  · subst ha; simp [h1, h2, h3]
  · by_cases hb : i = b
    · subst hb; simp [ha]
    · by_cases hc : i = c
      · subst hc; simp [ha, hb]
      · by_cases hd : i = d
        · subst hd; simp [ha, hb, hc]
        · simp [ha, hb, hc, hd]

theorem exec_append {α : Type} (o : Ops α) (p q : List Ins) (X : Nat → α) : exec o (p ++ q) X = exec o q (exec o p X) := by
  simp [exec]

theorem exec_quarters {w : Nat} (l : List ((Nat × Nat × Nat × Nat) × (Nat × Nat × Nat × Nat))) (h : ∀ q ∈ l, Apart q.1) (X : Nat → BitVec w) :
    exec (specOps w) (l.flatMap (fun q => quarterProg q.1 q.2)) X = l.foldl (fun X q => quarterAt q.1 q.2 X) X := by
  induction l generalizing X with
  | nil => rfl
  | cons q t ih =>
    rw [List.flatMap_cons, exec_append, exec_quarter _ _ (h q (List.mem_cons_self ..)), ih (fun x hx => h x (List.mem_cons_of_mem _ hx))]
    rfl

/-- A program made of the eight quarter rounds is the double round. -/
theorem exec_double {w : Nat} {prog : List Ins} {rots : List (Nat × Nat × Nat × Nat)}
    (h : prog = (quarters.zip rots).flatMap (fun q => quarterProg q.1 q.2)) (X : Nat → BitVec w) :
    exec (specOps w) prog X = doubleRound rots X := by
  rw [h, exec_quarters]
  · rfl
  · intro q hq
    have : q.1 ∈ quarters := (List.of_mem_zip hq).1
    exact (by decide +kernel : ∀ q ∈ quarters, Apart q) _ this

theorem passes_rounds {w : Nat} {prog : List Ins} {rots : List (Nat × Nat × Nat × Nat)}
    (h : prog = (quarters.zip rots).flatMap (fun q => quarterProg q.1 q.2)) (n : Nat) (X : Nat → BitVec w) :
    passes (specOps w) prog n X = rounds rots n X := by
  induction n generalizing X with
  | zero => rfl
  | succ n ih => rw [passes, rounds, ih, exec_double h]

theorem progP512C_eq : progP512C = (quarters.zip chachaRots).flatMap (fun q => quarterProg q.1 q.2) := by decide +kernel
theorem progP4x512H_eq : progP4x512H = progP512C := by decide +kernel
theorem progP8x512H_eq : progP8x512H = progP512C := by decide +kernel
theorem progP16x512H_eq : progP16x512H = progP512C := by decide +kernel
theorem progR20_eq : progR20P512U = (List.replicate 10 progP512C).flatten := by decide +kernel
theorem progP1024C_eq : progP1024C = (quarters.zip csxRots).flatMap (fun q => quarterProg q.1 q.2) := by decide +kernel
theorem progP4x1024H_eq : progP4x1024H = progP1024C := by decide +kernel
theorem progP8x1024H_eq : progP8x1024H = progP1024C := by decide +kernel

instance (w : Nat) (s : Ins) : Decidable (s.Dist (· < w)) := by cases s <;> unfold Ins.Dist <;> infer_instance

theorem dist512 : ∀ s ∈ progP512C, s.Dist (· < 32) := by decide +kernel
theorem distR20 : ∀ s ∈ progR20P512U, s.Dist (· < 32) := by
  intro s hs
  rw [progR20_eq] at hs
  obtain ⟨l, h1, h2⟩ := List.mem_flatten.mp hs
  rw [(List.mem_replicate.mp h1).2] at h2
  exact dist512 s h2
theorem dist1024 : ∀ s ∈ progP1024C, s.Dist (· < 64) := by decide +kernel

theorem exec_replicate {α : Type} (o : Ops α) (prog : List Ins) (n : Nat) (X : Nat → α) :
    exec o ((List.replicate n prog).flatten) X = passes o prog n X := by
  induction n generalizing X with
  | zero => rfl
  | succ n ih => rw [List.replicate_succ, List.flatten_cons, exec_append, ih, passes]

/-- Sixteen words of keystream. -/
def specWords {w : Nat} (rots : List (Nat × Nat × Nat × Nat)) (n : Nat) (X : Nat → BitVec w) : Nat → BitVec w :=
  fun i => rounds rots n X i + X i

theorem permute_spec {w : Nat} {prog : List Ins} {rots : List (Nat × Nat × Nat × Nat)}
    (h : prog = (quarters.zip rots).flatMap (fun q => quarterProg q.1 q.2)) (n : Nat) (st : Nat → BitVec w) (c0 c1 : BitVec w) :
    permute (specOps w) prog n st c0 c1 = specWords rots n (start st c0 c1) := by
  funext i
  simp only [permute, specWords, specOps]
  rw [← passes_rounds h]
  rfl

theorem p512C_spec (n : Nat) (st : Nat → BitVec 32) (c : BitVec 32 × BitVec 32) :
    permuteP512C n st c = storeWords 4 (specWords chachaRots n (start st c.1 c.2)) := by
  rw [permuteP512C, permute_hom half_hom progP512C dist512, ← permute_spec progP512C_eq]
  have e : ∀ x : BitVec 32, (x.setWidth 64).setWidth 32 = x := by
    intro x
    apply BitVec.eq_of_toNat_eq
    simp only [BitVec.toNat_setWidth]
    have := x.isLt
    omega
  simp only [e]

theorem r20_spec (st : Nat → BitVec 32) (c : BitVec 32 × BitVec 32) :
    permuteR20P512U st c = storeWords 4 (specWords chachaRots 10 (start st c.1 c.2)) := by
  have h := permute_hom (word_hom 32) progR20P512U distR20 1 st c.1 c.2
  simp only [id] at h
  rw [permuteR20P512U, ← permute_spec progP512C_eq]
  refine congrArg _ (h.trans ?_)
  funext i
  simp only [permute, passes]
  rw [progR20_eq, exec_replicate]
  rfl

theorem p1024C_spec (n : Nat) (st : Nat → BitVec 64) (c : BitVec 64 × BitVec 64) :
    permuteP1024C n st c = storeWords 8 (specWords csxRots n (start st c.1 c.2)) := by
  have h := permute_hom (word_hom 64) progP1024C dist1024 n st c.1 c.2
  simp only [id] at h
  rw [permuteP1024C, ← permute_spec progP1024C_eq]
  exact congrArg _ h

theorem wide_spec (k : Nat) {w : Nat} {prog : List Ins} {rots : List (Nat × Nat × Nat × Nat)}
    (h : prog = (quarters.zip rots).flatMap (fun q => quarterProg q.1 q.2)) (hd : ∀ s ∈ prog, s.Dist (· < w)) (n : Nat)
    (st : Nat → BitVec w) (cs : List (BitVec w × BitVec w)) :
    permuteWide k prog n st cs = (cs.map (fun c => storeWords k (specWords rots n (start st c.1 c.2)))).flatten := by
  have e : ∀ l : Fin cs.length, storeWords k (fun i => permute (laneOps cs.length w) prog n (fun j _ => st j) (fun l => cs[l].1) (fun l => cs[l].2) i l) =
      storeWords k (specWords rots n (start st cs[l].1 cs[l].2)) := by
    intro l
    rw [permute_hom (lane_hom cs.length w l) prog hd, permute_spec h]
  simp only [permuteWide, e]
  refine congrArg _ ?_
  apply List.ext_getElem
  · simp
  · intro i h1 h2
    simp

theorem storeWords_length (k : Nat) {w : Nat} (X : Nat → BitVec w) : (storeWords k X).length = 16 * k := by
  rw [storeWords, List.length_flatMap]
  simp only [leRep_length, List.map_const', List.length_range, List.replicate, List.sum_cons, List.sum_nil]
  omega

/-- Every build of ChaChaP20 computes the same blocks. -/
theorem chachaCore_block (compact : Bool) (st : Nat → BitVec 32) (c : BitVec 32 × BitVec 32) :
    (if compact then permuteP512C 10 st c else permuteR20P512U st c) = storeWords 4 (specWords chachaRots 10 (start st c.1 c.2)) := by
  cases compact
  · exact r20_spec st c
  · exact p512C_spec 10 st c

theorem prog32_eq (u : Simd) : u.prog32 = progP512C := by
  cases u
  · rfl
  · exact progP4x512H_eq
  · exact progP8x512H_eq
  · exact progP16x512H_eq

theorem prog64_eq (u : Simd) : u.prog64 = progP1024C := by
  cases u
  · rfl
  · rfl
  · exact progP4x1024H_eq
  · exact progP8x1024H_eq

theorem chachaLaws (compact : Bool) (u : Simd) (st : Nat → BitVec 32) :
    Laws (chachaCore compact u st) (fun _ => True) pairCnt (fun _ n => n < 2 ^ 32) := by
  refine pairLaws (by omega) (by omega) _ _ (fun c => ?_) (fun cs => ?_)
  · rw [chachaCore_block compact, storeWords_length]
  · rw [prog32_eq, wide_spec 4 progP512C_eq dist512]
    simp only [chachaCore_block compact]

theorem csxLaws (n : Nat) (u : Simd) (st : Nat → BitVec 64) :
    Laws (csxCore n u st) (fun _ => True) pairCnt (fun _ n => n < 2 ^ 64) := by
  refine pairLaws (by omega) (by omega) _ _ (fun c => ?_) (fun cs => ?_)
  · rw [p1024C_spec, storeWords_length]
  · rw [prog64_eq, wide_spec 8 progP1024C_eq dist1024]
    simp only [p1024C_spec]

/-! ### The input words -/

/-- The `i`-th little-endian word of `k` bytes. -/
def word (k : Nat) (buf : List Byte) (i : Nat) : BitVec (8 * k) := BitVec.ofNat (8 * k) (leVal ((buf.drop (k * i)).take k))

theorem word_left {k : Nat} (a b : List Byte) {i : Nat} (h : k * i + k ≤ a.length) : word k (a ++ b) i = word k a i := by
  rw [word, word, List.drop_append_of_le_length (by omega), List.take_append_of_le_length (by rw [List.length_drop]; omega)]

theorem word_right {k : Nat} (a b : List Byte) {m : Nat} (i : Nat) (h : a.length = k * m) : word k (a ++ b) (m + i) = word k b i := by
  rw [word, word, Nat.mul_add, ← h, ← List.drop_drop, List.drop_left]

theorem leRep_eq (k : Nat) {w : Nat} (x : BitVec w) : leRep k x = leEnc k x.toNat :=
  eq_leEnc (leRep_length k x) (leVal_leRep k x)

theorem word_leRep {k : Nat} (x : BitVec (8 * k)) : word k (leRep k x) 0 = x := by
  rw [word, Nat.mul_zero, List.drop_zero, List.take_of_length_le (by rw [leRep_length]; exact Nat.le_refl _), leVal_leRep]
  have e : 256 ^ k = 2 ^ (8 * k) := by rw [Nat.pow_mul]
  rw [e, Nat.mod_eq_of_lt x.isLt, BitVec.ofNat_toNat, BitVec.setWidth_eq]

theorem leEnc_pair {k : Nat} (c : BitVec (8 * k) × BitVec (8 * k)) : leEnc (2 * k) (pairVal c) = leRep k c.1 ++ leRep k c.2 := by
  refine (eq_leEnc ?_ ?_).symm
  · rw [List.length_append, leRep_length, leRep_length]; omega
  · have e : 256 ^ k = 2 ^ (8 * k) := by rw [Nat.pow_mul]
    have e2 : 256 ^ (2 * k) = 2 ^ (8 * k) * 2 ^ (8 * k) := by rw [Nat.two_mul, Nat.pow_add, e]
    rw [leVal_append, leVal_leRep, leVal_leRep, leRep_length, e2, e, Nat.mod_eq_of_lt c.1.isLt, Nat.mod_eq_of_lt c.2.isLt,
      Nat.mod_eq_of_lt (pairVal_lt c), pairVal]

/-- Two states with the same sixteen words. -/
def Agree {w : Nat} (X Y : Nat → BitVec w) : Prop := ∀ i, i < 16 → X i = Y i

theorem quarterAt_agree {w : Nat} {q : Nat × Nat × Nat × Nat} (hq : q.1 < 16 ∧ q.2.1 < 16 ∧ q.2.2.1 < 16 ∧ q.2.2.2 < 16)
    (r : Nat × Nat × Nat × Nat) {X Y : Nat → BitVec w} (h : Agree X Y) : Agree (quarterAt q r X) (quarterAt q r Y) := by
  intro i hi
  simp only [quarterAt]
  rw [h _ hq.1, h _ hq.2.1, h _ hq.2.2.1, h _ hq.2.2.2, h _ hi]

theorem quarters_agree {w : Nat} (l : List ((Nat × Nat × Nat × Nat) × (Nat × Nat × Nat × Nat)))
    (hl : ∀ q ∈ l, q.1.1 < 16 ∧ q.1.2.1 < 16 ∧ q.1.2.2.1 < 16 ∧ q.1.2.2.2 < 16) {X Y : Nat → BitVec w} (h : Agree X Y) :
    Agree (l.foldl (fun X q => quarterAt q.1 q.2 X) X) (l.foldl (fun X q => quarterAt q.1 q.2 X) Y) := by
  induction l generalizing X Y with
  | nil => exact h
  | cons q t ih =>
    exact ih (fun x hx => hl x (List.mem_cons_of_mem _ hx)) (quarterAt_agree (hl q (List.mem_cons_self ..)) q.2 h)

theorem rounds_agree {w : Nat} (rots : List (Nat × Nat × Nat × Nat)) (n : Nat) {X Y : Nat → BitVec w} (h : Agree X Y) :
    Agree (rounds rots n X) (rounds rots n Y) := by
  induction n generalizing X Y with
  | zero => exact h
  | succ n ih =>
    refine ih (quarters_agree _ (fun q hq => ?_) h)
    exact (by decide +kernel : ∀ q ∈ quarters, q.1 < 16 ∧ q.2.1 < 16 ∧ q.2.2.1 < 16 ∧ q.2.2.2 < 16) _ (List.of_mem_zip hq).1

/-- The stored block is the published block of the input the words come from. -/
theorem store_spec {k : Nat} (rots : List (Nat × Nat × Nat × Nat)) (n : Nat) (X : Nat → BitVec (8 * k)) (input : List Byte)
    (h : ∀ i, i < 16 → X i = word k input i) : storeWords k (specWords rots n X) = chachaBlock k rots n input := by
  have ha : Agree X (word k input) := h
  simp only [storeWords, chachaBlock, leRep_eq, specWords]
  rw [List.flatMap_def, List.flatMap_def]
  refine congrArg _ (List.map_congr_left ?_)
  intro i hi
  have hi := List.mem_range.mp hi
  rw [rounds_agree rots n ha i hi, ha i hi]
  rfl

/-! ### ChaChaP20 -/

theorem ld32 (buf : List Byte) (off i : Nat) (h : off = 4 * i) (hl : off + 4 ≤ buf.length) : leBytesTo32 buf off = .ok (word 4 buf i) := by
  have e : (buf.drop off).take 4 = (buf.drop (4 * i)).take 4 := by rw [h]
  rw [leBytesTo32, slice_ok hl, ok_bind, pure_eq_ok]
  refine congrArg _ (BitVec.eq_of_toNat_eq ?_)
  rw [leUnrep_toNat _ _ (by rw [List.length_take]; omega), word, BitVec.toNat_ofNat, ← e, Nat.mod_eq_of_lt]
  have := leVal_lt ((buf.drop off).take 4)
  have hl : ((buf.drop off).take 4).length = 4 := by rw [List.length_take, List.length_drop]; omega
  rw [hl] at this
  exact this

theorem chachaLoad_ok {key nonce code : List Byte} (hk : key.length = 32) (hn : nonce.length = 8) (hc : code.length = 16) :
    ∃ st, chachaLoad key nonce code = .ok st ∧ ∀ (c : BitVec 32 × BitVec 32) (i : Nat), i < 16 →
      start st c.1 c.2 i = word 4 (code ++ key ++ leEnc 8 (pairVal c) ++ nonce) i := by
  refine ⟨_, by
    rw [chachaLoad, ld32 code 0 0 rfl (by omega), ok_bind, ld32 code 4 1 rfl (by omega), ok_bind, ld32 code 8 2 rfl (by omega), ok_bind,
      ld32 code 12 3 rfl (by omega), ok_bind, ld32 key 0 0 rfl (by omega), ok_bind, ld32 key 4 1 rfl (by omega), ok_bind,
      ld32 key 8 2 rfl (by omega), ok_bind, ld32 key 12 3 rfl (by omega), ok_bind, ld32 key 16 4 rfl (by omega), ok_bind,
      ld32 key 20 5 rfl (by omega), ok_bind, ld32 key 24 6 rfl (by omega), ok_bind, ld32 key 28 7 rfl (by omega), ok_bind,
      ld32 nonce 0 0 rfl (by omega), ok_bind, ld32 nonce 4 1 rfl (by omega), ok_bind, pure_eq_ok], ?_⟩
  intro c i hi
  rw [show (8 : Nat) = 2 * 4 from rfl, leEnc_pair (k := 4) c]
  have l1 := leRep_length 4 c.1
  have l2 := leRep_length 4 c.2
  have s0 := word_leRep (k := 4) c.1
  have s1 := word_leRep (k := 4) c.2
  have wc : ∀ j, j < 4 → word 4 (code ++ key ++ (leRep 4 c.1 ++ leRep 4 c.2) ++ nonce) j = word 4 code j := fun j hj => by
    rw [List.append_assoc, List.append_assoc, word_left _ _ (by omega)]
  have wk : ∀ j, j < 8 → word 4 (code ++ key ++ (leRep 4 c.1 ++ leRep 4 c.2) ++ nonce) (4 + j) = word 4 key j := fun j hj => by
    rw [List.append_assoc, List.append_assoc, word_right _ _ _ (by omega), word_left _ _ (by omega)]
  have w12 : word 4 (code ++ key ++ (leRep 4 c.1 ++ leRep 4 c.2) ++ nonce) (12 + 0) = c.1 := by
    rw [List.append_assoc, word_right _ _ _ (by rw [List.length_append]; omega), List.append_assoc, word_left _ _ (by omega), s0]
  have w13 : word 4 (code ++ key ++ (leRep 4 c.1 ++ leRep 4 c.2) ++ nonce) (12 + (1 + 0)) = c.2 := by
    rw [List.append_assoc, word_right _ _ _ (by rw [List.length_append]; omega), List.append_assoc, word_right _ _ _ (by omega),
      word_left _ _ (by omega), s1]
  have wn : ∀ j, word 4 (code ++ key ++ (leRep 4 c.1 ++ leRep 4 c.2) ++ nonce) (14 + j) = word 4 nonce j := fun j => by
    rw [word_right _ _ _ (by simp only [List.length_append]; omega)]
  match i, hi with
  | 0, _ => exact (wc 0 (by omega)).symm
  | 1, _ => exact (wc 1 (by omega)).symm
  | 2, _ => exact (wc 2 (by omega)).symm
  | 3, _ => exact (wc 3 (by omega)).symm
  | 4, _ => exact (wk 0 (by omega)).symm
  | 5, _ => exact (wk 1 (by omega)).symm
  | 6, _ => exact (wk 2 (by omega)).symm
  | 7, _ => exact (wk 3 (by omega)).symm
  | 8, _ => exact (wk 4 (by omega)).symm
  | 9, _ => exact (wk 5 (by omega)).symm
  | 10, _ => exact (wk 6 (by omega)).symm
  | 11, _ => exact (wk 7 (by omega)).symm
  | 12, _ => exact w12.symm
  | 13, _ => exact w13.symm
  | 14, _ => exact (wn 0).symm
  | 15, _ => exact (wn 1).symm
  | n + 16, h => omega

/-- The code in use: the caller's sixteen bytes, or the published constant. -/
def codeOf (info : List Byte) : List Byte := if info = [] then Spec.sigma else info

theorem sigma_eq : sigmaInfo = Spec.sigma := by decide +kernel

theorem chachaInit_ok {key nonce info : List Byte} (hk : key.length = 32) (hn : nonce.length = 8) (hi : info = [] ∨ info.length = 16) :
    ∃ st, chachaInit key nonce info = .ok (st, (0, 0)) ∧ ∀ (c : BitVec 32 × BitVec 32) (i : Nat), i < 16 →
      start st c.1 c.2 i = word 4 (codeOf info ++ key ++ leEnc 8 (pairVal c) ++ nonce) i := by
  have hc : chachaCustom info = .ok (codeOf info) := by
    rcases hi with rfl | hi
    · rw [chachaCustom, if_neg (by simp), copy_whole (Holds.self sigmaInfo) (by decide) (by decide), codeOf, if_pos rfl, sigma_eq]
    · have h0 : info ≠ [] := by intro e; rw [e] at hi; simp at hi
      rw [chachaCustom, if_pos (by omega), hi, copy_whole (Holds.self info) (by omega) (by simp [hi]), codeOf, if_neg h0]
  have hl : (codeOf info).length = 16 := by
    rcases hi with rfl | hi
    · decide +kernel
    · have h0 : info ≠ [] := by intro e; rw [e] at hi; simp at hi
      rw [codeOf, if_neg h0, hi]
  obtain ⟨st, h1, h2⟩ := chachaLoad_ok hk hn hl
  refine ⟨st, ?_, h2⟩
  have hi' : ¬ (0 < info.length ∧ info.length ≠ 16) := by
    rcases hi with rfl | hi
    · simp
    · omega
  rw [chachaInit, if_neg (by omega), if_neg (by omega), if_neg hi']
  simp only [ok_bind, pure_eq_ok, hc, h1]

/-! ### CSX512 -/

/-- The code in use: the caller's bytes cut or zero-filled to 48, or the library's constant. -/
def csxCodeOf (info : List Byte) : List Byte :=
  if info = [] then csxSigma else info.take 48 ++ List.replicate (48 - info.length) 0

theorem csxCodeOf_length (info : List Byte) : (csxCodeOf info).length = 48 := by
  rw [csxCodeOf]
  split
  · decide
  · rw [List.length_append, List.length_take, List.length_replicate]; omega

theorem csxCustom_ok (info : List Byte) : csxCustom info = .ok (csxCodeOf info) := by
  rw [csxCustom, csxCodeOf]
  split
  · rename_i h
    have h0 : info ≠ [] := by intro e; rw [e] at h; exact h rfl
    rw [if_neg h0]
    have e : List.replicate 48 (0 : Byte) = [] ++ List.replicate (min info.length 48) 0 ++ List.replicate (48 - info.length) 0 := by
      rw [List.nil_append, List.replicate_append_replicate]; congr 1; omega
    have hh : Holds info 0 (info.take 48) := (Holds.self info).takeN 48
    have := copy_at hh (a := []) (b := List.replicate (min info.length 48) 0) (c := List.replicate (48 - info.length) 0)
      (n := min info.length 48) rfl (by rw [List.length_take]; omega) (by rw [List.length_take, List.length_replicate]; omega)
    rw [e, ← List.nil_append (info.take 48)]
    exact this
  · rename_i h
    have h0 : info = [] := by
      have : info.length = 0 := by omega
      exact List.length_eq_zero_iff.mp this
    rw [if_pos h0]
    exact copy_whole (Holds.self csxSigma) (by decide) (by decide)

theorem unrep_word {k : Nat} (buf : List Byte) (i : Nat) : leUnrep (8 * k) ((buf.drop (k * i)).take k) = word k buf i := by
  refine BitVec.eq_of_toNat_eq ?_
  have hl : ((buf.drop (k * i)).take k).length ≤ k := by rw [List.length_take]; omega
  rw [leUnrep_toNat _ _ (by omega), word, BitVec.toNat_ofNat, Nat.mod_eq_of_lt]
  have h1 := leVal_lt ((buf.drop (k * i)).take k)
  have e : 256 ^ k = 2 ^ (8 * k) := by rw [Nat.pow_mul]
  exact Nat.lt_of_lt_of_le h1 (e ▸ Nat.pow_le_pow_right (by omega) hl)

theorem ld64 (buf : List Byte) (off i : Nat) (h : off = 8 * i) (hl : off + 8 ≤ buf.length) : leBytesTo64 buf off = .ok (word 8 buf i) := by
  rw [leBytesTo64, slice_ok hl, ok_bind, pure_eq_ok, ← unrep_word, h]

theorem csxInit_ok {key nonce : List Byte} (info : List Byte) (hk : key.length = 64) (hn : nonce.length = 16) :
    ∃ st c, csxInit key nonce info = .ok (st, c) ∧ pairVal c = leVal nonce ∧ ∀ (c : BitVec 64 × BitVec 64) (i : Nat), i < 16 →
      start st c.1 c.2 i = word 8 (key ++ (csxCodeOf info).take 32 ++ leEnc 16 (pairVal c) ++ (csxCodeOf info).drop 32) i := by
  have hl := csxCodeOf_length info
  generalize hcode : csxCodeOf info = code at hl ⊢
  have e1 : copy key 0 (List.replicate 112 0) 0 key.length = .ok (key ++ List.replicate 48 0) := by
    have := copy_at (Holds.self key) (a := []) (b := List.replicate 64 0) (c := List.replicate 48 0) rfl rfl (by simp [hk])
    simpa using this
  have e2 : copy code 0 (key ++ List.replicate 48 0) (8 * (key.length / 8)) code.length = .ok (key ++ code) := by
    have := copy_at (Holds.self code) (a := key) (b := List.replicate 48 0) (c := []) (off := 8 * (key.length / 8)) (by omega) rfl (by simp [hl])
    simpa using this
  have e3 : copy nonce 0 (List.replicate 16 0) 0 nonce.length = .ok nonce := copy_whole (Holds.self nonce) rfl (by simp [hn])
  have hinit : csxInit key nonce info = .ok (fun i => leUnrep 64 (((key ++ code).drop (8 * i)).take 8), (word 8 nonce 0, word 8 nonce 1)) := by
    rw [csxInit, if_neg (by omega), if_neg (by omega)]
    simp only [pure_eq_ok, ok_bind, csxCustom_ok, hcode, csxLoad, e1, e2, e3, ld64 nonce 0 0 rfl (by omega), ld64 nonce 8 1 rfl (by omega)]
  refine ⟨_, _, hinit, ?_, ?_⟩
  · have e : nonce = nonce.take 8 ++ nonce.drop 8 := (List.take_append_drop 8 nonce).symm
    have h1 : (nonce.take 8).length = 8 := by rw [List.length_take]; omega
    have h2 : (nonce.drop 8).length = 8 := by rw [List.length_drop]; omega
    have hv : leVal nonce = leVal (nonce.take 8) + 256 ^ 8 * leVal (nonce.drop 8) := by
      conv => lhs; rw [e]
      rw [leVal_append, h1]
    have l1 := leVal_lt (nonce.take 8)
    have l2 := leVal_lt (nonce.drop 8)
    rw [h1] at l1; rw [h2] at l2
    rw [pairVal, hv]
    simp only [word, BitVec.toNat_ofNat, Nat.mul_zero, List.drop_zero, Nat.mul_one]
    rw [List.take_of_length_le (by omega : (nonce.drop 8).length ≤ 8), Nat.mod_eq_of_lt (by omega), Nat.mod_eq_of_lt (by omega)]
  · intro c i hi
    rw [show (16 : Nat) = 2 * 8 from rfl, leEnc_pair (k := 8) c]
    have l1 := leRep_length 8 c.1
    have l2 := leRep_length 8 c.2
    have s0 := word_leRep (k := 8) c.1
    have s1 := word_leRep (k := 8) c.2
    have t1 : (code.take 32).length = 32 := by rw [List.length_take]; omega
    have t2 : (code.drop 32).length = 16 := by rw [List.length_drop]; omega
    have esp : key ++ code = key ++ code.take 32 ++ code.drop 32 := by rw [List.append_assoc, List.take_append_drop]
    have lk : (key ++ code.take 32).length = 96 := by rw [List.length_append]; omega
    have wk : ∀ j, j < 12 → word 8 (key ++ code.take 32 ++ (leRep 8 c.1 ++ leRep 8 c.2) ++ code.drop 32) j = word 8 (key ++ code) j :=
      fun j hj => by
        rw [esp, List.append_assoc, word_left (key ++ code.take 32) _ (by omega), word_left (key ++ code.take 32) (code.drop 32) (by omega)]
    have w12 : word 8 (key ++ code.take 32 ++ (leRep 8 c.1 ++ leRep 8 c.2) ++ code.drop 32) (12 + 0) = c.1 := by
      rw [List.append_assoc, word_right _ _ _ (by omega), List.append_assoc, word_left _ _ (by omega), s0]
    have w13 : word 8 (key ++ code.take 32 ++ (leRep 8 c.1 ++ leRep 8 c.2) ++ code.drop 32) (12 + (1 + 0)) = c.2 := by
      rw [List.append_assoc, word_right _ _ _ (by omega), List.append_assoc, word_right _ _ _ (by omega), word_left _ _ (by omega), s1]
    have wn : ∀ j, word 8 (key ++ code.take 32 ++ (leRep 8 c.1 ++ leRep 8 c.2) ++ code.drop 32) (14 + j) = word 8 (key ++ code) (12 + j) :=
      fun j => by
        rw [word_right _ _ _ (by simp only [List.length_append]; omega), esp, word_right _ _ _ (by omega)]
    simp only [start]
    by_cases h1 : i < 12
    · rw [if_pos h1, wk i h1]; exact unrep_word (k := 8) _ i
    · rw [if_neg h1]
      by_cases h2 : i = 12
      · subst h2; rw [if_pos rfl]; exact w12.symm
      · rw [if_neg h2]
        by_cases h3 : i = 13
        · subst h3; rw [if_pos rfl]; exact w13.symm
        · rw [if_neg h3]
          have := wn (i - 14)
          rw [show 14 + (i - 14) = i by omega] at this
          rw [this, show 12 + (i - 14) = i - 2 by omega]
          exact unrep_word (k := 8) _ (i - 2)

end Cex.SCipher
