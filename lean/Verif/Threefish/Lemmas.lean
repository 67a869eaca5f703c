import Verif.IntTools.Props
import Verif.Stream
import Verif.Threefish.Lang
import Mathlib.Data.List.FinRange

/-!
# Straight-line programs that compute Threefish

`gen` writes out the statements for given constants, with the word permutation turned into a renaming of the words; whatever the
constants, the program computes the rounds of the specification.
-/

namespace Cex.Threefish
open Cex Cex.IntTools

variable {n : Nat}

/-- Where word `i` of the block is kept before round `d`. -/
def sig (A : Alg n) : Nat → Fin n → Fin n
  | 0 => fun i => i
  | d + 1 => fun i => sig A d (A.pi i)

/-- The operands for word `i` of subkey `s`. -/
def subSrc (n s i : Nat) : List Src :=
  .k ((s + i) % (n + 1)) ::
    (if i + 3 = n then [.t (s % 3)] else if i + 2 = n then [.t ((s + 1) % 3)] else if i + 1 = n ∧ s ≠ 0 then [.c s] else [])

/-- The statements of round `d` for pair `j`, kept in words `a` and `b`. -/
def genPair (A : Alg n) (d j a b : Nat) : List Stmt :=
  if d % 4 = 0 then [.add b (subSrc n (d / 4) (2 * j + 1)), .add a (.b b :: subSrc n (d / 4) (2 * j)), .rx b (A.rot d j) a]
  else [.add a [.b b], .rx b (A.rot d j) a]

def genRound (A : Alg n) (d : Nat) : List Stmt :=
  (List.range (n / 2)).flatMap fun j =>
    if h : 2 * j + 1 < n then genPair A d j (sig A (d % 4) ⟨2 * j, by omega⟩) (sig A (d % 4) ⟨2 * j + 1, h⟩) else []

def genBody (A : Alg n) (r : Nat) : List Stmt := (List.range r).flatMap (genRound A)

/-- The final addition of subkey `s`. -/
def genFin (n s : Nat) : List (List Src) := (List.range n).map (subSrc n s)

def gen (A : Alg n) (r : Nat) : Prog := ⟨genBody A r, genFin n (r / 4)⟩

/-- What is used of the constants. -/
structure Alg.Good (A : Alg n) : Prop where
  even : n % 2 = 0
  four : 4 ≤ n
  inj : ∀ d < 4, ∀ i j, sig A d i = sig A d j → i = j
  period : ∀ i, sig A 4 i = i
  rot : ∀ d < 8, ∀ j < n / 2, 0 < A.rot d j ∧ A.rot d j < 64
  mod : ∀ d j, A.rot (d % 8) j = A.rot d j

theorem xor_foldl (l : List W) (a c : W) : l.foldl (· ^^^ ·) (a ^^^ c) = l.foldl (· ^^^ ·) a ^^^ c := by
  induction l generalizing a with
  | nil => rfl
  | cons x l ih =>
    rw [List.foldl_cons, List.foldl_cons, ← ih]
    congr 1
    rw [BitVec.xor_assoc, BitVec.xor_comm c x, BitVec.xor_assoc]

theorem keys_get (K : Fin n → W) (i : Nat) (hi : i < n + 1) : rd (keys (List.ofFn K)) i = .ok (keyWord K i) := by
  rw [keys, rd_ok (by simpa using hi)]
  congr 1
  rw [List.getElem_append, keyWord]
  by_cases h : i < n
  · rw [dif_pos (by simpa using h), dif_pos h, List.getElem_ofFn]
  · rw [dif_neg (by simpa using h), dif_neg h]
    simp only [List.length_ofFn, List.getElem_singleton]
    have := xor_foldl (List.ofFn K) 0 0x1BD11BDAA9FC1A22
    rw [show (0 : W) ^^^ 0x1BD11BDAA9FC1A22 = 0x1BD11BDAA9FC1A22 from BitVec.zero_xor] at this
    exact this.symm

theorem tweaks_get (T : W × W) (i : Nat) (hi : i < 3) : rd (tweaks T) i = .ok (tweakWord T i) := by
  obtain rfl | rfl | rfl : i = 0 ∨ i = 1 ∨ i = 2 := by omega
  all_goals rfl

theorem sum_cons (K T B : List W) (s : Src) (ss : List Src) {x y : W} (h1 : s.eval K T B = .ok x) (h2 : sum K T B ss = .ok y) :
    sum K T B (s :: ss) = .ok (x + y) := by
  have gen : ∀ (ss : List Src) (a c : W) {y : W}, ss.foldlM (fun a s => do return a + (← s.eval K T B)) a = Except.ok (ε := Fault) y →
      ss.foldlM (fun a s => do return a + (← s.eval K T B)) (c + a) = Except.ok (ε := Fault) (c + y) := by
    intro ss
    induction ss with
    | nil => intro a c y h; cases h; rfl
    | cons s ss ih =>
      intro a c y h
      rw [List.foldlM_cons] at h ⊢
      obtain ⟨z, e1, e2⟩ := bind_ok h
      obtain ⟨u, e3, e4⟩ := bind_ok e1
      rw [e3]
      cases e4
      have := ih _ c e2
      rw [← BitVec.add_assoc] at this
      exact this
  rw [sum, List.foldlM_cons, h1]
  have := gen ss 0 x h2
  rw [show (x : W) + 0 = 0 + x from BitVec.add_comm _ _] at this
  exact this

theorem sum_nil (K T B : List W) : sum K T B [] = .ok 0 := rfl

theorem subSrc_ok (h4 : 4 ≤ n) (K : Fin n → W) (T : W × W) (B : List W) (s : Nat) (i : Fin n) :
    sum (keys (List.ofFn K)) (tweaks T) B (subSrc n s i) = .ok (subkey K T s i) := by
  rw [subSrc, subkey]
  refine sum_cons _ _ _ _ _ (keys_get K _ (Nat.mod_lt _ (by omega))) ?_
  have one : ∀ (s : Src) {x : W}, s.eval (keys (List.ofFn K)) (tweaks T) B = .ok x → sum (keys (List.ofFn K)) (tweaks T) B [s] = .ok x := by
    intro s x h
    rw [sum_cons _ _ _ _ _ h (sum_nil _ _ _), show x + 0 = x from BitVec.add_zero x]
  split
  · exact one _ (tweaks_get T _ (Nat.mod_lt _ (by omega)))
  · split
    · exact one _ (tweaks_get T _ (Nat.mod_lt _ (by omega)))
    · by_cases h : i.val + 1 = n
      · rw [if_pos h]
        by_cases hs : s = 0
        · rw [if_neg (by simp [hs]), hs]; rfl
        · rw [if_pos ⟨h, hs⟩]; exact one _ rfl
      · rw [if_neg (by simp [h]), if_neg h]; rfl

/-- The words of `B` under the renaming `σ`. -/
def Rel (σ : Fin n → Fin n) (B : List W) (v : Fin n → W) : Prop := B.length = n ∧ ∀ i, B[(σ i).val]? = some (v i)

theorem rd_some {B : List W} {i : Nat} {x : W} (h : B[i]? = some x) : rd B i = .ok x := by rw [rd, h]

theorem add_ok {K T B : List W} {i : Nat} {ss : List Src} {x y : W} (h1 : B[i]? = some x) (h2 : sum K T B ss = .ok y) :
    (Stmt.add i ss).exec K T B = .ok (B.set i (x + y)) := by
  have hi : i < B.length := by
    rcases Nat.lt_or_ge i B.length with h | h
    · exact h
    · rw [List.getElem?_eq_none h] at h1; cases h1
  rw [Stmt.exec, rd_some h1, ok_bind, h2, ok_bind, wr_ok _ hi]

theorem rx_ok {K T B : List W} {i j r : Nat} {x y : W} (h1 : B[i]? = some x) (h2 : B[j]? = some y) (hr : 0 < r ∧ r < 64) :
    (Stmt.rx i r j).exec K T B = .ok (B.set i (x.rotateLeft r ^^^ y)) := by
  have hi : i < B.length := by
    rcases Nat.lt_or_ge i B.length with h | h
    · exact h
    · rw [List.getElem?_eq_none h] at h1; cases h1
  rw [Stmt.exec, rd_some h1, ok_bind, ((C05_rotates 0 x r hr.1).2 hr.2).1, ok_bind, rd_some h2, ok_bind, wr_ok _ hi]

/-- One pair. -/
theorem pair_ok (A : Alg n) (h4 : 4 ≤ n) (K : Fin n → W) (T : W × W) (d j a b : Nat) (hj : 2 * j + 1 < n) (hr : 0 < A.rot d j ∧ A.rot d j < 64)
    (v : Fin n → W) {B : List W} (hab : a ≠ b) (ha : B[a]? = some (v ⟨2 * j, by omega⟩)) (hb : B[b]? = some (v ⟨2 * j + 1, hj⟩)) :
    ∃ B', (genPair A d j a b).foldlM (Stmt.exec (keys (List.ofFn K)) (tweaks T)) B = .ok B' ∧ B'.length = B.length ∧
      (∀ c, c ≠ a → c ≠ b → B'[c]? = B[c]?) ∧
      (let e := fun i => if d % 4 = 0 then v i + subkey K T (d / 4) i else v i
       B'[a]? = some (e ⟨2 * j, by omega⟩ + e ⟨2 * j + 1, hj⟩) ∧
       B'[b]? = some ((e ⟨2 * j + 1, hj⟩).rotateLeft (A.rot d j) ^^^ (e ⟨2 * j, by omega⟩ + e ⟨2 * j + 1, hj⟩))) := by
  have lt : ∀ {B : List W} {i : Nat} {x : W}, B[i]? = some x → i < B.length := by
    intro B i x h
    rcases Nat.lt_or_ge i B.length with h' | h'
    · exact h'
    · rw [List.getElem?_eq_none h'] at h; cases h
  have hal := lt ha
  have hbl := lt hb
  obtain ⟨x0, hx0⟩ : ∃ x, x = v ⟨2 * j, by omega⟩ := ⟨_, rfl⟩
  obtain ⟨x1, hx1⟩ : ∃ x, x = v ⟨2 * j + 1, hj⟩ := ⟨_, rfl⟩
  rw [← hx0] at ha
  rw [← hx1] at hb
  simp only [genPair, ← hx0, ← hx1]
  by_cases hd : d % 4 = 0
  · simp only [hd, if_true]
    have s1 := subSrc_ok h4 K T B (d / 4) ⟨2 * j + 1, hj⟩
    obtain ⟨k0, hk0⟩ : ∃ x, x = subkey K T (d / 4) ⟨2 * j, by omega⟩ := ⟨_, rfl⟩
    obtain ⟨k1, hk1⟩ : ∃ x, x = subkey K T (d / 4) ⟨2 * j + 1, hj⟩ := ⟨_, rfl⟩
    rw [← hk1] at s1
    have e1 := add_ok hb s1
    have hb1 : (B.set b (x1 + k1))[b]? = some (x1 + k1) := by simp [hbl]
    have ha1 : (B.set b (x1 + k1))[a]? = some x0 := by rw [List.getElem?_set_ne (Ne.symm hab)]; exact ha
    have s2 := subSrc_ok h4 K T (B.set b (x1 + k1)) (d / 4) ⟨2 * j, by omega⟩
    rw [← hk0] at s2
    have e2 := add_ok ha1 (sum_cons (keys (List.ofFn K)) (tweaks T) (B.set b (x1 + k1)) (.b b) _ (rd_some hb1) s2)
    obtain ⟨B2, hB2⟩ : ∃ x, x = (B.set b (x1 + k1)).set a (x0 + (x1 + k1 + k0)) := ⟨_, rfl⟩
    have hb2 : B2[b]? = some (x1 + k1) := by rw [hB2, List.getElem?_set_ne hab]; exact hb1
    have ha2 : B2[a]? = some (x0 + (x1 + k1 + k0)) := by rw [hB2]; simp [hal]
    have e3 := rx_ok (K := keys (List.ofFn K)) (T := tweaks T) hb2 ha2 hr
    have hs : x0 + (x1 + k1 + k0) = x0 + k0 + (x1 + k1) := by
      rw [BitVec.add_comm (x1 + k1) k0, BitVec.add_assoc]
    refine ⟨B2.set b ((x1 + k1).rotateLeft (A.rot d j) ^^^ (x0 + (x1 + k1 + k0))), ?_, ?_, ?_, ?_, ?_⟩
    · rw [List.foldlM_cons, e1, ok_bind, List.foldlM_cons, e2, ok_bind, List.foldlM_cons, ← hB2, e3, ok_bind]; rfl
    · simp [hB2]
    · intro c h1 h2
      rw [List.getElem?_set_ne (Ne.symm h2), hB2, List.getElem?_set_ne (Ne.symm h1), List.getElem?_set_ne (Ne.symm h2)]
    · rw [List.getElem?_set_ne (Ne.symm hab), ha2, hs, hk0, hk1]
    · rw [hs, hk0, hk1]
      simp [hB2, hbl]
  · simp only [hd, if_false]
    have e2 := add_ok ha (sum_cons (keys (List.ofFn K)) (tweaks T) B (.b b) [] (rd_some hb) (sum_nil _ _ _))
    rw [show x1 + 0 = x1 from BitVec.add_zero x1] at e2
    have hb2 : (B.set a (x0 + x1))[b]? = some x1 := by rw [List.getElem?_set_ne hab]; exact hb
    have ha2 : (B.set a (x0 + x1))[a]? = some (x0 + x1) := by simp [hal]
    have e3 := rx_ok (K := keys (List.ofFn K)) (T := tweaks T) hb2 ha2 hr
    refine ⟨(B.set a (x0 + x1)).set b (x1.rotateLeft (A.rot d j) ^^^ (x0 + x1)), ?_, ?_, ?_, ?_, ?_⟩
    · rw [List.foldlM_cons, e2, ok_bind, List.foldlM_cons, e3, ok_bind]; rfl
    · simp
    · intro c h1 h2
      rw [List.getElem?_set_ne (Ne.symm h2), List.getElem?_set_ne (Ne.symm h1)]
    · rw [List.getElem?_set_ne (Ne.symm hab), ha2]
    · simp [hbl]

theorem sig_next {A : Alg n} (g : A.Good) (d : Nat) (i : Fin n) : sig A ((d + 1) % 4) i = sig A (d % 4) (A.pi i) := by
  by_cases h : d % 4 = 3
  · rw [show (d + 1) % 4 = 0 from by omega, h]
    exact (g.period i).symm
  · rw [show (d + 1) % 4 = d % 4 + 1 from by omega]; rfl

/-- One round. -/
theorem round_ok {A : Alg n} (g : A.Good) (K : Fin n → W) (T : W × W) (d : Nat) {B : List W} {v : Fin n → W} (h : Rel (sig A (d % 4)) B v) :
    ∃ B', (genRound A d).foldlM (Stmt.exec (keys (List.ofFn K)) (tweaks T)) B = .ok B' ∧ Rel (sig A ((d + 1) % 4)) B' (round A g.even K T d v) := by
  have hev := g.even
  have hinj := g.inj (d % 4) (Nat.mod_lt _ (by omega))
  obtain ⟨σ, hσ⟩ : ∃ σ, σ = sig A (d % 4) := ⟨_, rfl⟩
  rw [← hσ] at h hinj
  obtain ⟨e, he⟩ : ∃ e : Fin n → W, e = fun i => if d % 4 = 0 then v i + subkey K T (d / 4) i else v i := ⟨_, rfl⟩
  have key : ∀ k ≤ n / 2, ∃ B', ((List.range k).flatMap fun j => if h : 2 * j + 1 < n then genPair A d j (σ ⟨2 * j, by omega⟩) (σ ⟨2 * j + 1, h⟩) else []).foldlM
      (Stmt.exec (keys (List.ofFn K)) (tweaks T)) B = .ok B' ∧ B'.length = n ∧ ∀ i : Fin n, B'[(σ i).val]? = some (if i.val < 2 * k then mix A hev d e i else v i) := by
    intro k
    induction k with
    | zero =>
      intro _
      exact ⟨B, rfl, h.1, fun i => by rw [if_neg (by omega)]; exact h.2 i⟩
    | succ k ih =>
      intro hk
      obtain ⟨B1, h1, h2, h3⟩ := ih (by omega)
      have hj : 2 * k + 1 < n := by omega
      have hr := g.rot (d % 8) (Nat.mod_lt _ (by omega)) k (by omega)
      rw [g.mod] at hr
      have hne : (σ ⟨2 * k, by omega⟩).val ≠ (σ ⟨2 * k + 1, hj⟩).val := by
        intro hh
        have := congrArg Fin.val (hinj _ _ (Fin.ext hh))
        simp at this
      have ha := h3 ⟨2 * k, by omega⟩
      have hb := h3 ⟨2 * k + 1, hj⟩
      rw [if_neg (by simp)] at ha
      rw [if_neg (show ¬ 2 * k + 1 < 2 * k from by omega)] at hb
      obtain ⟨B2, p1, p2, p3, p4, p5⟩ := pair_ok A g.four K T d k _ _ hj hr v hne ha hb
      rw [← he] at p4 p5
      refine ⟨B2, ?_, p2.trans h2, ?_⟩
      · rw [List.range_succ, List.flatMap_append, List.foldlM_append, h1, ok_bind, List.flatMap_cons, List.flatMap_nil, List.append_nil, dif_pos hj]
        exact p1
      · intro i
        by_cases c0 : i.val = 2 * k
        · have ei : i = ⟨2 * k, Nat.lt_of_succ_lt hj⟩ := Fin.ext c0
          subst ei
          rw [p4, if_pos (by simp), mix]
          have e1 : 2 * k / 2 = k := by omega
          simp only [e1, show 2 * k % 2 = 0 from by omega, if_true]
        · by_cases c1 : i.val = 2 * k + 1
          · have ei : i = ⟨2 * k + 1, hj⟩ := Fin.ext c1
            subst ei
            rw [p5, if_pos (show 2 * k + 1 < 2 * (k + 1) from by omega), mix]
            have e1 : (2 * k + 1) / 2 = k := by omega
            simp only [e1, show (2 * k + 1) % 2 = 1 from by omega, Nat.one_ne_zero, if_false]
          · rw [p3 _ (fun hh => c0 (congrArg Fin.val (hinj _ _ (Fin.ext hh)))) (fun hh => c1 (congrArg Fin.val (hinj _ _ (Fin.ext hh)))), h3]
            by_cases c2 : i.val < 2 * k
            · rw [if_pos c2, if_pos (by omega)]
            · rw [if_neg c2, if_neg (by omega)]
  obtain ⟨B', h1, h2, h3⟩ := key (n / 2) (le_refl _)
  refine ⟨B', ?_, h2, fun i => ?_⟩
  · rw [genRound, ← hσ]; exact h1
  · rw [sig_next g, ← hσ, h3, if_pos (by omega), round, ← he]

theorem body_ok {A : Alg n} (g : A.Good) (K : Fin n → W) (T : W × W) (P : Fin n → W) (r : Nat) :
    ∃ B', (genBody A r).foldlM (Stmt.exec (keys (List.ofFn K)) (tweaks T)) (List.ofFn P) = .ok B' ∧ Rel (sig A (r % 4)) B' (rounds A g.even K T r P) := by
  induction r with
  | zero => exact ⟨_, rfl, by simp, fun i => by simp [sig, rounds]⟩
  | succ r ih =>
    obtain ⟨B1, h1, h2⟩ := ih
    obtain ⟨B2, h3, h4⟩ := round_ok g K T r h2
    refine ⟨B2, ?_, ?_⟩
    · rw [genBody, List.range_succ, List.flatMap_append, List.foldlM_append]
      rw [genBody] at h1
      rw [h1, ok_bind, List.flatMap_cons, List.flatMap_nil, List.append_nil]
      exact h3
    · rw [rounds, List.range_succ, List.foldl_append]
      exact h4

theorem mapM_rangeN {α : Type} (n : Nat) (f : Nat → M α) (g : Fin n → α) (h : ∀ i (hi : i < n), f i = .ok (g ⟨i, hi⟩)) :
    (List.range n).mapM f = .ok (List.ofFn g) := by
  have key : ∀ k (hk : k ≤ n), (List.range k).mapM f = Except.ok (ε := Fault) (List.ofFn fun i : Fin k => g ⟨i.val, by omega⟩) := by
    intro k
    induction k with
    | zero => intro _; rfl
    | succ k ih =>
      intro hk
      rw [List.range_succ, List.mapM_append, ih (by omega), ok_bind, List.mapM_cons, h k (by omega)]
      rw [List.ofFn_succ_last]
      rfl
  exact key n (le_refl _)

/-- The final addition of any subkey. -/
theorem output_ok {n : Nat} (h4 : 4 ≤ n) (K : Fin n → W) (T : W × W) (s : Nat) {B : List W} {v : Fin n → W} (h : Rel (fun i => i) B v) :
    output (keys (List.ofFn K)) (tweaks T) B (genFin n s) = .ok (List.ofFn fun i => v i + subkey K T s i) := by
  have hl : (genFin n s).length = n := by simp [genFin]
  rw [output, hl]
  refine mapM_rangeN n _ _ fun i hi => ?_
  have e : rd (genFin n s) i = .ok (subSrc n s i) := by
    rw [rd_ok (by omega)]
    simp [genFin]
  rw [e, ok_bind, rd_some (h.2 ⟨i, hi⟩), ok_bind, subSrc_ok h4 K T B s ⟨i, hi⟩]
  rfl

/-- A program with the rounds of `gen` and the final addition of subkey `s`. -/
theorem run_ok {A : Alg n} (g : A.Good) (K : Fin n → W) (T : W × W) (P : Fin n → W) (r s : Nat) (hr : r % 4 = 0) :
    Prog.run ⟨genBody A r, genFin n s⟩ (List.ofFn K) T (List.ofFn P) = .ok (List.ofFn fun i => rounds A g.even K T r P i + subkey K T s i) := by
  obtain ⟨B, h1, h2⟩ := body_ok g K T P r
  rw [Prog.run]
  simp only [h1, ok_bind]
  rw [hr] at h2
  exact output_ok g.four K T s h2

theorem entry_mod (t : List (List Nat)) (d j : Nat) : entry t (d % 8) j = entry t d j := by rw [entry, entry, Nat.mod_mod]

theorem good256 : alg256.Good := ⟨rfl, by decide, by decide, by decide, by decide, entry_mod _⟩
theorem good512 : alg512.Good := ⟨rfl, by decide, by decide, by decide, by decide, entry_mod _⟩
theorem good1024 : alg1024.Good := ⟨rfl, by decide, by decide +kernel, by decide +kernel, by decide +kernel, entry_mod _⟩

end Cex.Threefish
