import Verif.Serpent.Model
import Verif.IntTools.Enc
import Verif.IntTools.Lemmas
import Verif.Buf
import Verif.Stream

/-! # SHX: the S-boxes, the rounds and the blocks -/

namespace Cex.Serpent
open Cex.IntTools
open Cex.Rijndael (BlockFn twice)
open Cex.Spec.Serpent (sbox invSbox onColumns column ofBits)

/-! ## The S-box code -/

instance : Bits Bool where
  xor := Bool.xor
  and := Bool.and
  or := Bool.or
  not := Bool.not

/-- A map which commutes with the bit operations. -/
structure Hom {V W : Type} [Bits V] [Bits W] (h : V → W) : Prop where
  xor : ∀ x y, h (Bits.xor x y) = Bits.xor (h x) (h y)
  and : ∀ x y, h (Bits.and x y) = Bits.and (h x) (h y)
  or : ∀ x y, h (Bits.or x y) = Bits.or (h x) (h y)
  not : ∀ x, h (Bits.not x) = Bits.not (h x)

def _root_.Cex.Quad.map {α β : Type} (h : α → β) (q : Quad α) : Quad β := ⟨h q.a, h q.b, h q.c, h q.d⟩

def Regs.map {V W : Type} (h : V → W) (s : Regs V) : Regs W := ⟨h s.r0, h s.r1, h s.r2, h s.r3, h s.b4⟩

theorem get_map {V W : Type} (h : V → W) (s : Regs V) (i : Nat) : (s.map h).get i = h (s.get i) := by
  match i with
  | 0 => rfl
  | 1 => rfl
  | 2 => rfl
  | 3 => rfl
  | _ + 4 => rfl

theorem set_map {V W : Type} (h : V → W) (s : Regs V) (v : V) (i : Nat) : (s.map h).set (h v) i = (s.set v i).map h := by
  match i with
  | 0 => rfl
  | 1 => rfl
  | 2 => rfl
  | 3 => rfl
  | _ + 4 => rfl

theorem step_map {V W : Type} [Bits V] [Bits W] {h : V → W} (H : Hom h) (s : Regs V) (i : Ins) : step (s.map h) i = (step s i).map h := by
  cases i <;> simp only [step, get_map, ← H.xor, ← H.and, ← H.or, ← H.not, set_map]

theorem foldl_map {V W : Type} [Bits V] [Bits W] {h : V → W} (H : Hom h) (p : List Ins) (s : Regs V) :
    p.foldl step (s.map h) = (p.foldl step s).map h := by
  induction p generalizing s with
  | nil => rfl
  | cons i p ih => rw [List.foldl_cons, List.foldl_cons, step_map H, ih]

theorem box_map {V W : Type} [Bits V] [Bits W] {h : V → W} (H : Hom h) (p : List Ins) (junk : V) (q : Quad V) :
    box p (h junk) (q.map h) = (box p junk q).map h := by
  have := foldl_map H p ⟨q.a, q.b, q.c, q.d, junk⟩
  exact congrArg (fun s : Regs W => Quad.mk s.r0 s.r1 s.r2 s.r3) this

theorem sb_map {V W : Type} [Bits V] [Bits W] {h : V → W} (H : Hom h) (p : List Ins) (q : Quad V) : sb p (q.map h) = (sb p q).map h :=
  box_map H p q.a q

theorem hom_bit {i : Nat} (hi : i < 32) : Hom (fun x : Word => x.getLsbD i) where
  xor x y := BitVec.getLsbD_xor
  and x y := BitVec.getLsbD_and
  or x y := BitVec.getLsbD_or
  not x := by
    show (~~~x).getLsbD i = !(x.getLsbD i)
    rw [BitVec.getLsbD_not]; simp [hi]

theorem allOnes_xor (x : Word) : x ^^^ 0xFFFFFFFF#32 = ~~~x := by
  rw [show (0xFFFFFFFF#32 : Word) = BitVec.allOnes 32 from by decide, BitVec.xor_allOnes]

theorem hom_lane (i : Nat) : Hom (fun x : Reg => x i) where
  xor _ _ := rfl
  and _ _ := rfl
  or _ _ := rfl
  not x := allOnes_xor (x i)

/-- The S-box programs by number. -/
def sbs : Fin 8 → List Ins
  | 0 => sb0
  | 1 => sb1
  | 2 => sb2
  | 3 => sb3
  | 4 => sb4
  | 5 => sb5
  | 6 => sb6
  | 7 => sb7

def ibs : Fin 8 → List Ins
  | 0 => ib0
  | 1 => ib1
  | 2 => ib2
  | 3 => ib3
  | 4 => ib4
  | 5 => ib5
  | 6 => ib6
  | 7 => ib7

/-- Four bits as a number, and back. -/
def nib (a b c d : Bool) : BitVec 4 := BitVec.ofBool d ++ BitVec.ofBool c ++ BitVec.ofBool b ++ BitVec.ofBool a
def unnib (x : BitVec 4) : Quad Bool := ⟨x.getLsbD 0, x.getLsbD 1, x.getLsbD 2, x.getLsbD 3⟩

theorem sbs_table : ∀ r : Fin 8, ∀ j a b c d : Bool, box (sbs r) j ⟨a, b, c, d⟩ = unnib (sbox r (nib a b c d)) := by decide +kernel
theorem ibs_table : ∀ r : Fin 8, ∀ j a b c d : Bool, box (ibs r) j ⟨a, b, c, d⟩ = unnib (invSbox r (nib a b c d)) := by decide +kernel

theorem ofBits_get (f : Nat → Bool) (n i : Nat) : (ofBits f n).getLsbD i = (decide (i < n) && f i) := by
  induction n with
  | zero => simp
  | succ n ih =>
    rw [ofBits, BitVec.getLsbD_cons, ih]
    by_cases h : i = n
    · subst h; simp
    · rw [if_neg h]
      congr 1
      exact decide_eq_decide.mpr (by omega)

theorem box_columns {p : List Ins} {s : BitVec 4 → BitVec 4} (h : ∀ j a b c d : Bool, box p j ⟨a, b, c, d⟩ = unnib (s (nib a b c d)))
    (junk : Word) (q : Quad Word) : box p junk q = onColumns s q := by
  have key : ∀ i, i < 32 → (box p junk q).map (fun x : Word => x.getLsbD i) = unnib (s (column q i)) := by
    intro i hi
    rw [← box_map (hom_bit hi)]
    exact h _ _ _ _ _
  generalize box p junk q = z at key
  obtain ⟨a, b, c, d⟩ := z
  have ka := fun i hi => congrArg Quad.a (key i hi)
  have kb := fun i hi => congrArg Quad.b (key i hi)
  have kc := fun i hi => congrArg Quad.c (key i hi)
  have kd := fun i hi => congrArg Quad.d (key i hi)
  rw [onColumns, Quad.mk.injEq]
  refine ⟨?_, ?_, ?_, ?_⟩
  all_goals
    apply BitVec.eq_of_getLsbD_eq
    intro i hi
    rw [ofBits_get]
    simp only [hi, decide_true, Bool.true_and]
  · exact ka i hi
  · exact kb i hi
  · exact kc i hi
  · exact kd i hi

theorem sb_word (r : Fin 8) (q : Quad Word) : sb (sbs r) q = onColumns (sbox r) q := box_columns (sbs_table r) _ _
theorem ib_word (r : Fin 8) (q : Quad Word) : sb (ibs r) q = onColumns (invSbox r) q := box_columns (ibs_table r) _ _

/-! ## The linear transformations -/

theorem rotl_eq (x : Word) : rotl32 x 13 = x.rotateLeft 13 ∧ rotl32 x 3 = x.rotateLeft 3 ∧ rotl32 x 1 = x.rotateLeft 1 ∧ rotl32 x 7 = x.rotateLeft 7 ∧
    rotl32 x 5 = x.rotateLeft 5 ∧ rotl32 x 22 = x.rotateLeft 22 ∧ rotl32 x 11 = x.rotateLeft 11 := ⟨rfl, rfl, rfl, rfl, rfl, rfl, rfl⟩

theorem rotr_eq (x : Word) : rotr32 x 13 = x.rotateRight 13 ∧ rotr32 x 3 = x.rotateRight 3 ∧ rotr32 x 1 = x.rotateRight 1 ∧ rotr32 x 7 = x.rotateRight 7 ∧
    rotr32 x 5 = x.rotateRight 5 ∧ rotr32 x 22 = x.rotateRight 22 := ⟨rfl, rfl, rfl, rfl, rfl, rfl⟩

theorem linear_word (q : Quad Word) : linear q = Spec.Serpent.linear q := by
  show (⟨_, _, _, _⟩ : Quad Word) = ⟨_, _, _, _⟩
  simp only [Bits.xor, Lanes.rotl, Lanes.shl, rotl_eq, BitVec.xor_assoc]

theorem invLinear_word (q : Quad Word) : invLinear q = Spec.Serpent.invLinear q := by
  show (⟨_, _, _, _⟩ : Quad Word) = ⟨_, _, _, _⟩
  simp only [Bits.xor, Lanes.rotr, Lanes.shl, rotr_eq, BitVec.xor_assoc]

theorem linear_lane (q : Quad Reg) (i : Nat) : (linear q).map (fun x => x i) = linear (q.map (fun x => x i)) := rfl

theorem rotr_lane (x : Word) {n : Nat} (h : n ≤ 32) : (x <<< (32 - n)) ||| (x >>> (32 - (32 - n))) = rotr32 x n := by
  rw [show 32 - (32 - n) = n from by omega, rotr32, BitVec.or_comm]

theorem invLinear_lane (q : Quad Reg) (i : Nat) : (invLinear q).map (fun x => x i) = invLinear (q.map (fun x => x i)) := by
  have e : ∀ (x : Reg) (n : Nat), n ≤ 32 → Lanes.rotr x n i = Lanes.rotr (x i) n := fun x n h => rotr_lane (x i) h
  have ex : ∀ x y : Reg, Bits.xor x y i = Bits.xor (x i) (y i) := fun _ _ => rfl
  have es : ∀ (x : Reg) n, Lanes.shl x n i = Lanes.shl (x i) n := fun _ _ => rfl
  simp only [invLinear, Quad.map, ex, es, e _ 22 (by decide), e _ 5 (by decide), e _ 7 (by decide), e _ 1 (by decide), e _ 3 (by decide), e _ 13 (by decide)]

/-! ## Lane by lane -/

/-- The lanes of a state of wide registers. -/
def at_ (q : Quad Reg) (i : Nat) : Quad Word := q.map (fun x => x i)

/-- `m` computes lane by lane what `w` computes on words. -/
def PerLane (m : Quad Reg → M (Quad Reg)) (w : Quad Word → Quad Word) : Prop := ∀ q, ∃ q', m q = .ok q' ∧ ∀ i, at_ q' i = w (at_ q i)

theorem sb_lane (p : List Ins) (q : Quad Reg) (i : Nat) : at_ (sb p q) i = sb p (at_ q i) := (sb_map (hom_lane i) p q).symm

/-- A schedule in an array. -/
def Sched (rk : List Word) (K : Nat → Quad Word) (n : Nat) : Prop :=
  rk.length = 4 * n ∧ ∀ i, i < n → rk[4 * i]? = some (K i).a ∧ rk[4 * i + 1]? = some (K i).b ∧ rk[4 * i + 2]? = some (K i).c ∧ rk[4 * i + 3]? = some (K i).d

theorem rd_of {α : Type} {l : List α} {i : Nat} {v : α} (h : l[i]? = some v) : rd l i = .ok v := by rw [rd, h]

/-- A key as every lane sees it. -/
def splat {V : Type} [Lanes V] (k : Quad Word) : Quad V := k.map Lanes.splat
def xorQ {V : Type} [Lanes V] (x y : Quad V) : Quad V := ⟨Bits.xor x.a y.a, Bits.xor x.b y.b, Bits.xor x.c y.c, Bits.xor x.d y.d⟩

theorem addKey_eq {V : Type} [Lanes V] {rk : List Word} {K : Nat → Quad Word} {n : Nat} (h : Sched rk K n) {i k : Nat} (hi : i < n) (hk : k = 4 * i) (q : Quad V) :
    addKey rk k q = .ok (xorQ q (splat (K i))) := by
  subst hk
  obtain ⟨h0, h1, h2, h3⟩ := h.2 i hi
  rw [addKey, rd_of h0, ok_bind, rd_of h1, ok_bind, rd_of h2, ok_bind, rd_of h3, ok_bind]
  rfl

/-- The rounds on any type of lanes. -/
def halfL {V : Type} [Lanes V] (K : Nat → Quad Word) (i : Nat) (q : Quad V) : Quad V := sb (sbs (Fin.ofNat 8 i)) (xorQ q (splat (K i)))
def roundsL {V : Type} [Lanes V] (K : Nat → Quad Word) : Nat → Quad V → Quad V
  | 0, q => q
  | n + 1, q => linear (halfL K n (roundsL K n q))
def encL {V : Type} [Lanes V] (K : Nat → Quad Word) (n : Nat) (q : Quad V) : Quad V := xorQ (halfL K (n - 1) (roundsL K (n - 1) q)) (splat (K n))
def invHalfL {V : Type} [Lanes V] (K : Nat → Quad Word) (i : Nat) (q : Quad V) : Quad V := xorQ (sb (ibs (Fin.ofNat 8 i)) q) (splat (K i))
def invRoundsL {V : Type} [Lanes V] (K : Nat → Quad Word) : Nat → Quad V → Quad V
  | 0, q => q
  | n + 1, q => invRoundsL K n (invHalfL K n (invLinear q))
def decL {V : Type} [Lanes V] (K : Nat → Quad Word) (n : Nat) (q : Quad V) : Quad V := invRoundsL K (n - 1) (invHalfL K (n - 1) (xorQ q (splat (K n))))

theorem xorQ_lane (x : Quad Reg) (k : Quad Word) (i : Nat) : at_ (xorQ x (splat k)) i = xorQ (at_ x i) (splat k) := rfl

theorem halfL_lane (K : Nat → Quad Word) (n : Nat) (q : Quad Reg) (i : Nat) : at_ (halfL K n q) i = halfL K n (at_ q i) := by
  rw [halfL, sb_lane, xorQ_lane]; rfl

theorem roundsL_lane (K : Nat → Quad Word) (n : Nat) (q : Quad Reg) (i : Nat) : at_ (roundsL K n q) i = roundsL K n (at_ q i) := by
  induction n with
  | zero => rfl
  | succ n ih =>
    show (linear _).map _ = _
    rw [linear_lane]
    show linear (at_ _ i) = _
    rw [halfL_lane, ih]; rfl

theorem encL_lane (K : Nat → Quad Word) (n : Nat) (q : Quad Reg) (i : Nat) : at_ (encL K n q) i = encL K n (at_ q i) := by
  rw [encL, xorQ_lane, halfL_lane, roundsL_lane]; rfl

theorem invHalfL_lane (K : Nat → Quad Word) (n : Nat) (q : Quad Reg) (i : Nat) : at_ (invHalfL K n q) i = invHalfL K n (at_ q i) := by
  rw [invHalfL, xorQ_lane, sb_lane]; rfl

theorem invRoundsL_lane (K : Nat → Quad Word) (n : Nat) (q : Quad Reg) (i : Nat) : at_ (invRoundsL K n q) i = invRoundsL K n (at_ q i) := by
  induction n generalizing q with
  | zero => rfl
  | succ n ih =>
    rw [invRoundsL, ih, invHalfL_lane, show at_ (invLinear q) i = invLinear (at_ q i) from invLinear_lane q i]; rfl

theorem decL_lane (K : Nat → Quad Word) (n : Nat) (q : Quad Reg) (i : Nat) : at_ (decL K n q) i = decL K n (at_ q i) := by
  rw [decL, invRoundsL_lane, invHalfL_lane, xorQ_lane]; rfl

/-! ## On words, the rounds of the specification -/

theorem xorQ_word (x k : Quad Word) : xorQ x (splat k) = Spec.Serpent.xor x k := rfl

theorem halfL_word (K : Nat → Quad Word) (n : Nat) (q : Quad Word) : halfL K n q = Spec.Serpent.half K n q := sb_word _ _

theorem roundsL_word (K : Nat → Quad Word) (n : Nat) (q : Quad Word) : roundsL K n q = Spec.Serpent.rounds K n q := by
  induction n with
  | zero => rfl
  | succ n ih => rw [roundsL, ih, halfL_word, linear_word]; rfl

theorem encL_word (K : Nat → Quad Word) (n : Nat) (q : Quad Word) : encL K n q = Spec.Serpent.encrypt K n q := by
  rw [encL, roundsL_word, halfL_word]; rfl

theorem invHalfL_word (K : Nat → Quad Word) (n : Nat) (q : Quad Word) : invHalfL K n q = Spec.Serpent.invHalf K n q := by
  rw [invHalfL, ib_word]; rfl

theorem invRoundsL_word (K : Nat → Quad Word) (n : Nat) (q : Quad Word) : invRoundsL K n q = Spec.Serpent.invRounds K n q := by
  induction n generalizing q with
  | zero => rfl
  | succ n ih => rw [invRoundsL, ih, invHalfL_word, invLinear_word]; rfl

theorem decL_word (K : Nat → Quad Word) (n : Nat) (q : Quad Word) : decL K n q = Spec.Serpent.decrypt K n q := by
  rw [decL, invRoundsL_word, invHalfL_word]; rfl

/-! ## The loops -/

theorem fin8 (j : Nat) (r : Fin 8) : Fin.ofNat 8 (8 * j + r.val) = r := by
  apply Fin.ext
  show (8 * j + r.val) % 8 = r.val
  omega

theorem halfL_at {V : Type} [Lanes V] (K : Nat → Quad Word) (j : Nat) (r : Fin 8) (q : Quad V) :
    halfL K (8 * j + r.val) q = sb (sbs r) (xorQ q (splat (K (8 * j + r.val)))) := by rw [halfL, fin8]

theorem invHalfL_at {V : Type} [Lanes V] (K : Nat → Quad Word) (j : Nat) (r : Fin 8) (q : Quad V) :
    invHalfL K (8 * j + r.val) q = xorQ (sb (ibs r) q) (splat (K (8 * j + r.val))) := by rw [invHalfL, fin8]

theorem encLoop_eq {V : Type} [Lanes V] {rk : List Word} {K : Nat → Quad Word} {m : Nat} (h : Sched rk K (8 * m + 1)) (q : Quad V) :
    ∀ (t j fuel : Nat), j + t + 1 = m → t + 1 ≤ fuel →
      encLoop rk fuel (32 * j) (roundsL K (8 * j) q) = .ok (32 * m, halfL K (8 * m - 1) (roundsL K (8 * m - 1) q)) := by
  intro t
  induction t with
  | zero =>
    intro j fuel hj hf
    obtain ⟨fuel, rfl⟩ : ∃ f, fuel = f + 1 := ⟨fuel - 1, by omega⟩
    have key : ∀ r : Fin 8, ∀ x : Quad V, addKey rk (32 * j + 4 * r.val) x = .ok (xorQ x (splat (K (8 * j + r.val)))) :=
      fun r x => addKey_eq h (by omega) (by omega) x
    have e : ∀ r : Fin 8, linear (sb (sbs r) (xorQ (roundsL K (8 * j + r.val) q) (splat (K (8 * j + r.val))))) = roundsL K (8 * j + r.val + 1) q := by
      intro r; rw [roundsL, halfL_at]
    have k0 : ∀ x : Quad V, addKey rk (32 * j) x = .ok (xorQ x (splat (K (8 * j)))) := key 0
    have e0 : linear (sb sb0 (xorQ (roundsL K (8 * j) q) (splat (K (8 * j))))) = roundsL K (8 * j + 1) q := e 0
    have k1 : ∀ x : Quad V, addKey rk (32 * j + 4) x = .ok (xorQ x (splat (K (8 * j + 1)))) := key 1
    have e1 : linear (sb sb1 (xorQ (roundsL K (8 * j + 1) q) (splat (K (8 * j + 1))))) = roundsL K (8 * j + 2) q := e 1
    have k2 : ∀ x : Quad V, addKey rk (32 * j + 8) x = .ok (xorQ x (splat (K (8 * j + 2)))) := key 2
    have e2 : linear (sb sb2 (xorQ (roundsL K (8 * j + 2) q) (splat (K (8 * j + 2))))) = roundsL K (8 * j + 3) q := e 2
    have k3 : ∀ x : Quad V, addKey rk (32 * j + 12) x = .ok (xorQ x (splat (K (8 * j + 3)))) := key 3
    have e3 : linear (sb sb3 (xorQ (roundsL K (8 * j + 3) q) (splat (K (8 * j + 3))))) = roundsL K (8 * j + 4) q := e 3
    have k4 : ∀ x : Quad V, addKey rk (32 * j + 16) x = .ok (xorQ x (splat (K (8 * j + 4)))) := key 4
    have e4 : linear (sb sb4 (xorQ (roundsL K (8 * j + 4) q) (splat (K (8 * j + 4))))) = roundsL K (8 * j + 5) q := e 4
    have k5 : ∀ x : Quad V, addKey rk (32 * j + 20) x = .ok (xorQ x (splat (K (8 * j + 5)))) := key 5
    have e5 : linear (sb sb5 (xorQ (roundsL K (8 * j + 5) q) (splat (K (8 * j + 5))))) = roundsL K (8 * j + 6) q := e 5
    have k6 : ∀ x : Quad V, addKey rk (32 * j + 24) x = .ok (xorQ x (splat (K (8 * j + 6)))) := key 6
    have e6 : linear (sb sb6 (xorQ (roundsL K (8 * j + 6) q) (splat (K (8 * j + 6))))) = roundsL K (8 * j + 7) q := e 6
    have k7 : ∀ x : Quad V, addKey rk (32 * j + 28) x = .ok (xorQ x (splat (K (8 * j + 7)))) := key 7
    have e7 : linear (sb sb7 (xorQ (roundsL K (8 * j + 7) q) (splat (K (8 * j + 7))))) = roundsL K (8 * j + 8) q := e 7
    rw [encLoop]
    simp only [k0, e0, k1, e1, k2, e2, k3, e3, k4, e4, k5, e5, k6, e6, k7, e7, ok_bind]
    rw [if_neg (by rw [h.1]; omega)]
    rw [show 8 * m - 1 = 8 * j + (7 : Fin 8).val from by show _ = 8 * j + 7; omega, halfL_at, show 32 * j + 32 = 32 * m from by omega]
    rfl
  | succ t ih =>
    intro j fuel hj hf
    obtain ⟨fuel, rfl⟩ : ∃ f, fuel = f + 1 := ⟨fuel - 1, by omega⟩
    have key : ∀ r : Fin 8, ∀ x : Quad V, addKey rk (32 * j + 4 * r.val) x = .ok (xorQ x (splat (K (8 * j + r.val)))) :=
      fun r x => addKey_eq h (by omega) (by omega) x
    have e : ∀ r : Fin 8, linear (sb (sbs r) (xorQ (roundsL K (8 * j + r.val) q) (splat (K (8 * j + r.val))))) = roundsL K (8 * j + r.val + 1) q := by
      intro r; rw [roundsL, halfL_at]
    have k0 : ∀ x : Quad V, addKey rk (32 * j) x = .ok (xorQ x (splat (K (8 * j)))) := key 0
    have e0 : linear (sb sb0 (xorQ (roundsL K (8 * j) q) (splat (K (8 * j))))) = roundsL K (8 * j + 1) q := e 0
    have k1 : ∀ x : Quad V, addKey rk (32 * j + 4) x = .ok (xorQ x (splat (K (8 * j + 1)))) := key 1
    have e1 : linear (sb sb1 (xorQ (roundsL K (8 * j + 1) q) (splat (K (8 * j + 1))))) = roundsL K (8 * j + 2) q := e 1
    have k2 : ∀ x : Quad V, addKey rk (32 * j + 8) x = .ok (xorQ x (splat (K (8 * j + 2)))) := key 2
    have e2 : linear (sb sb2 (xorQ (roundsL K (8 * j + 2) q) (splat (K (8 * j + 2))))) = roundsL K (8 * j + 3) q := e 2
    have k3 : ∀ x : Quad V, addKey rk (32 * j + 12) x = .ok (xorQ x (splat (K (8 * j + 3)))) := key 3
    have e3 : linear (sb sb3 (xorQ (roundsL K (8 * j + 3) q) (splat (K (8 * j + 3))))) = roundsL K (8 * j + 4) q := e 3
    have k4 : ∀ x : Quad V, addKey rk (32 * j + 16) x = .ok (xorQ x (splat (K (8 * j + 4)))) := key 4
    have e4 : linear (sb sb4 (xorQ (roundsL K (8 * j + 4) q) (splat (K (8 * j + 4))))) = roundsL K (8 * j + 5) q := e 4
    have k5 : ∀ x : Quad V, addKey rk (32 * j + 20) x = .ok (xorQ x (splat (K (8 * j + 5)))) := key 5
    have e5 : linear (sb sb5 (xorQ (roundsL K (8 * j + 5) q) (splat (K (8 * j + 5))))) = roundsL K (8 * j + 6) q := e 5
    have k6 : ∀ x : Quad V, addKey rk (32 * j + 24) x = .ok (xorQ x (splat (K (8 * j + 6)))) := key 6
    have e6 : linear (sb sb6 (xorQ (roundsL K (8 * j + 6) q) (splat (K (8 * j + 6))))) = roundsL K (8 * j + 7) q := e 6
    have k7 : ∀ x : Quad V, addKey rk (32 * j + 28) x = .ok (xorQ x (splat (K (8 * j + 7)))) := key 7
    have e7 : linear (sb sb7 (xorQ (roundsL K (8 * j + 7) q) (splat (K (8 * j + 7))))) = roundsL K (8 * j + 8) q := e 7
    rw [encLoop]
    simp only [k0, e0, k1, e1, k2, e2, k3, e3, k4, e4, k5, e5, k6, e6, k7, e7, ok_bind]
    rw [if_pos (by rw [h.1]; omega)]
    exact ih (j + 1) fuel (by omega) (by omega)

theorem encRounds_eq {V : Type} [Lanes V] {rk : List Word} {K : Nat → Quad Word} {m : Nat} (hm : 0 < m) (h : Sched rk K (8 * m + 1)) (q : Quad V) :
    encRounds rk q = .ok (encL K (8 * m) q) := by
  rw [encRounds, show encLoop rk (rk.length + 1) 0 q = _ from encLoop_eq h q (m - 1) 0 _ (by omega) (by rw [h.1]; omega), ok_bind]
  exact addKey_eq h (by omega) (by omega) _

theorem decLoop_eq {V : Type} [Lanes V] {rk : List Word} {K : Nat → Quad Word} {m : Nat} (h : Sched rk K (8 * m + 1)) :
    ∀ (j fuel : Nat) (q : Quad V), j + 1 ≤ m → j + 1 ≤ fuel →
      ∃ q', decLoop rk fuel (32 * (j + 1)) q = .ok (4, q') ∧ xorQ q' (splat (K 0)) = invRoundsL K (8 * j + 7) (invHalfL K (8 * j + 7) q) := by
  intro j
  induction j with
  | zero =>
    intro fuel q hj hf
    obtain ⟨fuel, rfl⟩ : ∃ f, fuel = f + 1 := ⟨fuel - 1, by omega⟩
    have key : ∀ r : Fin 8, ∀ x : Quad V, addKey rk (4 * r.val) x = .ok (xorQ x (splat (K (r.val)))) := fun r x => addKey_eq h (by omega) rfl x
    have e : ∀ r : Fin 8, ∀ x : Quad V, xorQ (sb (ibs r) x) (splat (K (r.val))) = invHalfL K (r.val) x := by
      intro r x
      have := invHalfL_at K 0 r x
      simp only [Nat.mul_zero, Nat.zero_add] at this
      exact this.symm
    refine ⟨_, ?_, e 0 _⟩
    have k0 : ∀ x : Quad V, addKey rk (32 * (0 + 1) - 32) x = .ok (xorQ x (splat (K 0))) := key 0
    have e0 : ∀ x : Quad V, xorQ (sb ib0 x) (splat (K 0)) = invHalfL K 0 x := e 0
    have k1 : ∀ x : Quad V, addKey rk (32 * (0 + 1) - 28) x = .ok (xorQ x (splat (K 1))) := key 1
    have e1 : ∀ x : Quad V, xorQ (sb ib1 x) (splat (K 1)) = invHalfL K 1 x := e 1
    have k2 : ∀ x : Quad V, addKey rk (32 * (0 + 1) - 24) x = .ok (xorQ x (splat (K 2))) := key 2
    have e2 : ∀ x : Quad V, xorQ (sb ib2 x) (splat (K 2)) = invHalfL K 2 x := e 2
    have k3 : ∀ x : Quad V, addKey rk (32 * (0 + 1) - 20) x = .ok (xorQ x (splat (K 3))) := key 3
    have e3 : ∀ x : Quad V, xorQ (sb ib3 x) (splat (K 3)) = invHalfL K 3 x := e 3
    have k4 : ∀ x : Quad V, addKey rk (32 * (0 + 1) - 16) x = .ok (xorQ x (splat (K 4))) := key 4
    have e4 : ∀ x : Quad V, xorQ (sb ib4 x) (splat (K 4)) = invHalfL K 4 x := e 4
    have k5 : ∀ x : Quad V, addKey rk (32 * (0 + 1) - 12) x = .ok (xorQ x (splat (K 5))) := key 5
    have e5 : ∀ x : Quad V, xorQ (sb ib5 x) (splat (K 5)) = invHalfL K 5 x := e 5
    have k6 : ∀ x : Quad V, addKey rk (32 * (0 + 1) - 8) x = .ok (xorQ x (splat (K 6))) := key 6
    have e6 : ∀ x : Quad V, xorQ (sb ib6 x) (splat (K 6)) = invHalfL K 6 x := e 6
    have k7 : ∀ x : Quad V, addKey rk (32 * (0 + 1) - 4) x = .ok (xorQ x (splat (K 7))) := key 7
    have e7 : ∀ x : Quad V, xorQ (sb ib7 x) (splat (K 7)) = invHalfL K 7 x := e 7
    rw [decLoop, if_neg (by omega)]
    simp only [k1, e1, k2, e2, k3, e3, k4, e4, k5, e5, k6, e6, k7, e7, ok_bind]
    rfl
  | succ j ih =>
    intro fuel q hj hf
    obtain ⟨fuel, rfl⟩ : ∃ f, fuel = f + 1 := ⟨fuel - 1, by omega⟩
    have key : ∀ r : Fin 8, ∀ x : Quad V, addKey rk (32 * (j + 1) + 4 * r.val) x = .ok (xorQ x (splat (K (8 * (j + 1) + r.val)))) :=
      fun r x => addKey_eq h (by omega) (by omega) x
    have e : ∀ r : Fin 8, ∀ x : Quad V, xorQ (sb (ibs r) x) (splat (K (8 * (j + 1) + r.val))) = invHalfL K (8 * (j + 1) + r.val) x :=
      fun r x => (invHalfL_at K (j + 1) r x).symm
    have k0 : ∀ x : Quad V, addKey rk (32 * (j + 1 + 1) - 32) x = .ok (xorQ x (splat (K (8 * (j + 1) + 0)))) := fun x => by
      rw [show 32 * (j + 1 + 1) - 32 = 32 * (j + 1) + 4 * 0 from by omega]; exact key 0 x
    have e0 : ∀ x : Quad V, xorQ (sb ib0 x) (splat (K (8 * (j + 1) + 0))) = invHalfL K (8 * (j + 1) + 0) x := e 0
    have k1 : ∀ x : Quad V, addKey rk (32 * (j + 1 + 1) - 28) x = .ok (xorQ x (splat (K (8 * (j + 1) + 1)))) := fun x => by
      rw [show 32 * (j + 1 + 1) - 28 = 32 * (j + 1) + 4 * 1 from by omega]; exact key 1 x
    have e1 : ∀ x : Quad V, xorQ (sb ib1 x) (splat (K (8 * (j + 1) + 1))) = invHalfL K (8 * (j + 1) + 1) x := e 1
    have k2 : ∀ x : Quad V, addKey rk (32 * (j + 1 + 1) - 24) x = .ok (xorQ x (splat (K (8 * (j + 1) + 2)))) := fun x => by
      rw [show 32 * (j + 1 + 1) - 24 = 32 * (j + 1) + 4 * 2 from by omega]; exact key 2 x
    have e2 : ∀ x : Quad V, xorQ (sb ib2 x) (splat (K (8 * (j + 1) + 2))) = invHalfL K (8 * (j + 1) + 2) x := e 2
    have k3 : ∀ x : Quad V, addKey rk (32 * (j + 1 + 1) - 20) x = .ok (xorQ x (splat (K (8 * (j + 1) + 3)))) := fun x => by
      rw [show 32 * (j + 1 + 1) - 20 = 32 * (j + 1) + 4 * 3 from by omega]; exact key 3 x
    have e3 : ∀ x : Quad V, xorQ (sb ib3 x) (splat (K (8 * (j + 1) + 3))) = invHalfL K (8 * (j + 1) + 3) x := e 3
    have k4 : ∀ x : Quad V, addKey rk (32 * (j + 1 + 1) - 16) x = .ok (xorQ x (splat (K (8 * (j + 1) + 4)))) := fun x => by
      rw [show 32 * (j + 1 + 1) - 16 = 32 * (j + 1) + 4 * 4 from by omega]; exact key 4 x
    have e4 : ∀ x : Quad V, xorQ (sb ib4 x) (splat (K (8 * (j + 1) + 4))) = invHalfL K (8 * (j + 1) + 4) x := e 4
    have k5 : ∀ x : Quad V, addKey rk (32 * (j + 1 + 1) - 12) x = .ok (xorQ x (splat (K (8 * (j + 1) + 5)))) := fun x => by
      rw [show 32 * (j + 1 + 1) - 12 = 32 * (j + 1) + 4 * 5 from by omega]; exact key 5 x
    have e5 : ∀ x : Quad V, xorQ (sb ib5 x) (splat (K (8 * (j + 1) + 5))) = invHalfL K (8 * (j + 1) + 5) x := e 5
    have k6 : ∀ x : Quad V, addKey rk (32 * (j + 1 + 1) - 8) x = .ok (xorQ x (splat (K (8 * (j + 1) + 6)))) := fun x => by
      rw [show 32 * (j + 1 + 1) - 8 = 32 * (j + 1) + 4 * 6 from by omega]; exact key 6 x
    have e6 : ∀ x : Quad V, xorQ (sb ib6 x) (splat (K (8 * (j + 1) + 6))) = invHalfL K (8 * (j + 1) + 6) x := e 6
    have k7 : ∀ x : Quad V, addKey rk (32 * (j + 1 + 1) - 4) x = .ok (xorQ x (splat (K (8 * (j + 1) + 7)))) := fun x => by
      rw [show 32 * (j + 1 + 1) - 4 = 32 * (j + 1) + 4 * 7 from by omega]; exact key 7 x
    have e7 : ∀ x : Quad V, xorQ (sb ib7 x) (splat (K (8 * (j + 1) + 7))) = invHalfL K (8 * (j + 1) + 7) x := e 7
    rw [decLoop, if_neg (by omega)]
    simp only [k0, e0, k1, e1, k2, e2, k3, e3, k4, e4, k5, e5, k6, e6, k7, e7, ok_bind]
    rw [if_pos (by omega), if_neg (by omega)]
    rw [if_pos (by omega)]
    obtain ⟨q', h1, h2⟩ := ih fuel _ (by omega) (by omega)
    exact ⟨q', h1, h2⟩

theorem decRounds_eq {V : Type} [Lanes V] {rk : List Word} {K : Nat → Quad Word} {m : Nat} (hm : 0 < m) (h : Sched rk K (8 * m + 1)) (q : Quad V) :
    decRounds rk q = .ok (decL K (8 * m) q) := by
  have hl := h.1
  rw [decRounds, if_neg (by omega)]
  simp only []
  rw [addKey_eq h (i := 8 * m) (by omega) (by omega), ok_bind]
  obtain ⟨q', h1, h2⟩ := decLoop_eq h (m - 1) (rk.length + 1) (xorQ q (splat (K (8 * m)))) (by omega) (by omega)
  rw [show rk.length - 4 = 32 * (m - 1 + 1) from by omega, h1, ok_bind]
  simp only []
  rw [addKey_eq h (i := 0) (by omega) rfl, h2, show 8 * (m - 1) + 7 = 8 * m - 1 from by omega]
  rfl

end Cex.Serpent
