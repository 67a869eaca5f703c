import Verif.Ed25519.Points
import Verif.Ed25519.Table

/-!
# Every entry of the table

The whole table is checked by the kernel: entry `j` of row `i` is `(j + 1) 256^i` times the base point.
-/

namespace Cex.Ed25519

open Cex.Ec25519

/-- the residue of an element -/
def res (f : F10) : Nat := (f.val % (P : Int)).toNat

theorem res_ok (f : F10) : ((res f : Nat) : Fp) = ((f.val : Int) : Fp) := by
  have h : ((res f : Nat) : Int) = f.val % (P : Int) := Int.toNat_of_nonneg (Int.emod_nonneg _ (by decide))
  have : (((res f : Nat) : Int) : Fp) = ((f.val : Int) : Fp) := by
    rw [h]
    exact (ZMod.intCast_eq_intCast_iff _ _ _).mpr (Int.mod_modEq _ _)
  simpa using this

/-- the limbs are carried -/
def bdB (f : F10) : Bool :=
  Nat.ble f.a0.natAbs U && Nat.ble f.a1.natAbs V && Nat.ble f.a2.natAbs U && Nat.ble f.a3.natAbs V && Nat.ble f.a4.natAbs U &&
  Nat.ble f.a5.natAbs V && Nat.ble f.a6.natAbs U && Nat.ble f.a7.natAbs V && Nat.ble f.a8.natAbs U && Nat.ble f.a9.natAbs V

theorem bdB_ok {f : F10} (h : bdB f = true) : f.Bd 1 := by
  simp only [bdB, Bool.and_eq_true, Nat.ble_eq] at h
  obtain ⟨⟨⟨⟨⟨⟨⟨⟨⟨h0, h1⟩, h2⟩, h3⟩, h4⟩, h5⟩, h6⟩, h7⟩, h8⟩, h9⟩ := h
  constructor <;> rw [Nat.one_mul] <;> assumption

theorem bdB_is {f : F10} (h : bdB f = true) : Is 1 f (res f : Fp) := ⟨bdB_ok h, (res_ok f).symm⟩

/-- half of 1 -/
def half : Nat := (P + 1) / 2

/-- the coordinates of an entry -/
def prePt (e : Pre) : Nat × Nat :=
  ((res e.yplusx + (P - res e.yminusx)) * half % P, (res e.yplusx + res e.yminusx) * half % P)

/-- the entry belongs to its coordinates -/
def chkPre (e : Pre) : Bool :=
  bdB e.yplusx && bdB e.yminusx && bdB e.xy2d && Nat.beq (res e.xy2d % P) (2 * dN * ((prePt e).1 * (prePt e).2) % P)

theorem two_half : (2 : Fp) * (half : Fp) = 1 := by
  have h : ((2 * half : Nat) : Fp) = ((1 : Nat) : Fp) := nat_eq (by decide +kernel)
  push_cast at h
  exact h

theorem res_lt (f : F10) : res f < P := by
  have h : ((res f : Nat) : Int) = f.val % (P : Int) := Int.toNat_of_nonneg (Int.emod_nonneg _ (by decide))
  have := Int.emod_lt_of_pos f.val (b := (P : Int)) (by decide)
  exact Int.ofNat_lt.mp (h ▸ this)

theorem chkPre_ok {e : Pre} (h : chkPre e = true) {S : Pt} (hS : EdP S ((prePt e).1 : Fp) ((prePt e).2 : Fp)) : e.Is S := by
  simp only [chkPre, Bool.and_eq_true] at h
  obtain ⟨⟨⟨h0, h1⟩, h2⟩, h3⟩ := h
  have h3 := nat_eq (Nat.eq_of_beq_eq_true h3)
  push_cast at h3
  refine ⟨_, _, hS, (bdB_is h0).congr ?_, (bdB_is h1).congr ?_, (bdB_is h2).congr h3⟩
  all_goals
    simp only [prePt, kmod]
    push_cast [Nat.cast_sub (res_lt e.yminusx).le]
    rw [kP]
  · linear_combination (-(res e.yplusx : Fp)) * two_half
  · linear_combination (-(res e.yminusx : Fp)) * two_half

/-- `r = p + q` -/
def chkAdd (p q r : Nat × Nat) : Bool :=
  let w := p.1 * q.1 % P * (p.2 * q.2) % P
  Nat.beq (r.1 * (1 + dN * w) % P) ((p.1 * q.2 + p.2 * q.1) % P) && Nat.beq (r.2 * (1 + (P - dN) * w) % P) ((p.2 * q.2 + p.1 * q.1) % P)

theorem chkAdd_ok {p q r : Nat × Nat} (h : chkAdd p q r = true) {S T : Pt} (hS : EdP S (p.1 : Fp) (p.2 : Fp)) (hT : EdP T (q.1 : Fp) (q.2 : Fp)) :
    EdP (S + T) (r.1 : Fp) (r.2 : Fp) := by
  simp only [chkAdd, Bool.and_eq_true] at h
  have h1 := nat_eq (Nat.eq_of_beq_eq_true h.1)
  have h2 := nat_eq (Nat.eq_of_beq_eq_true h.2)
  push_cast [Nat.cast_sub (show dN ≤ P by decide), kmod] at h1 h2
  rw [kP] at h2
  obtain ⟨n1, n2, e⟩ := hS.add hT
  convert e using 1
  · rw [eq_div_iff n1]; linear_combination h1
  · rw [eq_div_iff n2]; linear_combination h2

/-- a candidate for `2 p` -/
def dbl (p : Nat × Nat) : Nat × Nat :=
  let w := p.1 * p.1 % P * (p.2 * p.2) % P
  ((p.1 * p.2 + p.2 * p.1) * powMod P 255 ((1 + dN * w) % P) (P - 2) % P, (p.2 * p.2 + p.1 * p.1) * powMod P 255 ((1 + (P - dN) * w) % P) (P - 2) % P)

/-- `2^n p`, each doubling checked -/
def dbls : Nat → Nat × Nat → Option (Nat × Nat)
  | 0, p => some p
  | n + 1, p => bif chkAdd p p (dbl p) then dbls n (dbl p) else none

theorem dbls_ok : ∀ {n : Nat} {p r : Nat × Nat} {S : Pt}, dbls n p = some r → EdP S (p.1 : Fp) (p.2 : Fp) → EdP ((2 ^ n) • S) (r.1 : Fp) (r.2 : Fp)
  | 0, p, r, S, h, hS => by cases h; simpa using hS
  | n + 1, p, r, S, h, hS => by
    rw [dbls] at h
    cases hc : chkAdd p p (dbl p) with
    | false => rw [hc] at h; cases h
    | true =>
      rw [hc] at h
      have := dbls_ok h (chkAdd_ok hc hS hS)
      convert this using 1
      rw [pow_succ, mul_smul, two_nsmul]

/-- the entries are `a + q`, `a + 2 q`, …; the last one -/
def chkRow (q : Nat × Nat) : List Pre → Nat × Nat → Option (Nat × Nat)
  | [], a => some a
  | e :: es, a => bif chkPre e && chkAdd a q (prePt e) then chkRow q es (prePt e) else none

theorem chkRow_ok {q : Nat × Nat} {T : Pt} (hT : EdP T (q.1 : Fp) (q.2 : Fp)) : ∀ {es : List Pre} {a r : Nat × Nat} {S : Pt}, chkRow q es a = some r →
    EdP S (a.1 : Fp) (a.2 : Fp) → EdP (S + es.length • T) (r.1 : Fp) (r.2 : Fp) ∧ ∀ (j : Nat) (e : Pre), es[j]? = some e → e.Is (S + (j + 1) • T)
  | [], a, r, S, h, hS => by cases h; exact ⟨by simpa using hS, by simp⟩
  | e :: es, a, r, S, h, hS => by
    rw [chkRow] at h
    cases hc : chkPre e && chkAdd a q (prePt e) with
    | false => rw [hc] at h; cases h
    | true =>
      rw [hc] at h
      rw [Bool.and_eq_true] at hc
      have h1 := chkAdd_ok hc.2 hS hT
      obtain ⟨i1, i2⟩ := chkRow_ok hT h h1
      refine ⟨?_, ?_⟩
      · convert i1 using 1
        rw [List.length_cons, succ_nsmul', add_assoc]
      · intro j e' he
        cases j with
        | zero =>
          cases he
          convert chkPre_ok hc.1 h1 using 1
          simp
        | succ j =>
          convert i2 j e' he using 1
          rw [succ_nsmul' T (j + 1), add_assoc]

/-- all rows -/
def chkTab : List (List Pre) → Nat × Nat → Bool
  | [], _ => true
  | row :: rows, q => Nat.beq row.length 8 &&
    match chkRow q row (0, 1) with
    | none => false
    | some p =>
      match dbls 5 p with
      | none => false
      | some r => chkTab rows r

theorem chkTab_ok : ∀ {rows : List (List Pre)} {q : Nat × Nat} {S : Pt}, chkTab rows q = true → EdP S (q.1 : Fp) (q.2 : Fp) →
    ∀ (i : Nat) (row : List Pre), rows[i]? = some row → row.length = 8 ∧ ∀ (j : Nat) (e : Pre), row[j]? = some e → e.Is ((j + 1) • (256 ^ i) • S)
  | [], q, S, h, hS => by simp
  | row :: rows, q, S, h, hS => by
    rw [chkTab, Bool.and_eq_true] at h
    obtain ⟨hl, h⟩ := h
    have hl := Nat.eq_of_beq_eq_true hl
    have h0 : EdP (0 : Pt) (((0, 1) : Nat × Nat).1 : Fp) (((0, 1) : Nat × Nat).2 : Fp) := ⟨Nat.cast_zero, Nat.cast_one⟩
    cases hr : chkRow q row (0, 1) with
    | none => rw [hr] at h; cases h
    | some p =>
      rw [hr] at h
      dsimp only at h
      obtain ⟨i1, i2⟩ := chkRow_ok hS hr h0
      cases hd : dbls 5 p with
      | none => rw [hd] at h; cases h
      | some r =>
        rw [hd] at h
        dsimp only at h
        have hn := dbls_ok hd i1
        rw [hl, zero_add, ← mul_smul] at hn
        have ih := chkTab_ok h hn
        intro i row' hrow
        cases i with
        | zero =>
          cases hrow
          refine ⟨hl, fun j e he => ?_⟩
          have := i2 j e he
          simpa using this
        | succ i =>
          obtain ⟨j1, j2⟩ := ih i row' hrow
          refine ⟨j1, fun j e he => ?_⟩
          convert j2 j e he using 2
          rw [← mul_smul, pow_succ]
          norm_num

theorem base_chk : chkTab base (BxN, ByN) = true := by decide +kernel

/-- the table -/
theorem base_ok {i : Nat} {row : List Pre} (h : base[i]? = some row) : row.length = 8 ∧ ∀ (j : Nat) (e : Pre), row[j]? = some e → e.Is ((j + 1) • (256 ^ i) • Bpt) :=
  chkTab_ok base_chk Bpt_ed i row h

end Cex.Ed25519
