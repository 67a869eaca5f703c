import Verif.Threefish.Same
import Mathlib.Data.Fintype.EquivFin

/-!
# C73 and C74: the permutations of Skein.h and Threefish.h
-/

namespace Cex.Threefish
open Cex Cex.IntTools

/-! ## C73: Skein.h -/

/-- C73. `Skein::PemuteR72P256U`, `PemuteR72P512U` and `PemuteR80P1024U` are Threefish-256, -512 and -1024, for every key, tweak and
block. -/
theorem C73_unrolled :
    (∀ (K P : Fin 4 → W) (T : W × W), skein256.run (List.ofFn K) T (List.ofFn P) = .ok (List.ofFn (threefish256 K T P))) ∧
    (∀ (K P : Fin 8 → W) (T : W × W), skein512.run (List.ofFn K) T (List.ofFn P) = .ok (List.ofFn (threefish512 K T P))) ∧
    (∀ (K P : Fin 16 → W) (T : W × W), skein1024.run (List.ofFn K) T (List.ofFn P) = .ok (List.ofFn (threefish1024 K T P))) := by
  refine ⟨fun K P T => ?_, fun K P T => ?_, fun K P T => ?_⟩
  · rw [skein256_eq]; exact run_ok good256 K T P 72 18 rfl
  · rw [skein512_eq]; exact run_ok good512 K T P 72 18 rfl
  · rw [skein1024_eq]; exact run_ok good1024 K T P 80 20 rfl

/-- C73. The compact forms, which a build with `CEX_DIGEST_COMPACT` uses, compute the same. -/
theorem C73_compact :
    (∀ (K P : Fin 4 → W) (T : W × W), loop256.run scalar 72 (List.ofFn K) T (List.ofFn P) = .ok (List.ofFn (threefish256 K T P))) ∧
    (∀ (K P : Fin 8 → W) (T : W × W), loop512.run scalar 72 (List.ofFn K) T (List.ofFn P) = .ok (List.ofFn (threefish512 K T P))) ∧
    (∀ (K P : Fin 16 → W) (T : W × W), loop1024.run scalar 80 (List.ofFn K) T (List.ofFn P) = .ok (List.ofFn (threefish1024 K T P))) := by
  refine ⟨fun K P T => ?_, fun K P T => ?_, fun K P T => ?_⟩
  · rw [run_written, loop256_72]; exact C73_unrolled.1 K P T
  · rw [run_written, loop512_72]; exact C73_unrolled.2.1 K P T
  · rw [run_written, loop1024_80]; exact C73_unrolled.2.2 K P T

/-! ## Threefish as a permutation -/

variable {n : Nat}

theorem rotl_inj (r : Nat) (hr : r < 64) (x y : W) (h : x.rotateLeft r = y.rotateLeft r) : x = y := by
  have key : ∀ z : W, (z.rotateLeft r).rotateRight r = z := by
    intro z
    apply BitVec.eq_of_getLsbD_eq
    intro i hi
    have hz : ∀ j, 64 ≤ j → z.getLsbD j = false := fun j hj => BitVec.getLsbD_of_ge z j hj
    rw [BitVec.getLsbD_rotateRight, Nat.mod_eq_of_lt hr]
    by_cases h : i < 64 - r
    · rw [decide_eq_true h, cond_true, BitVec.getLsbD_rotateLeft, Nat.mod_eq_of_lt hr, decide_eq_false (by omega), cond_false,
        decide_eq_true (by omega), Bool.true_and, show r + i - r = i from by omega]
    · rw [decide_eq_false h, cond_false, decide_eq_true hi, Bool.true_and, BitVec.getLsbD_rotateLeft, Nat.mod_eq_of_lt hr, decide_eq_true (by omega),
        cond_true, show 64 - r + (i - (64 - r)) = i from by omega]
  rw [← key x, ← key y, h]

theorem mix_inj (A : Alg n) (hn : n % 2 = 0) (d : Nat) (hr : ∀ j, j < n / 2 → A.rot d j < 64) (e e' : Fin n → W) (h : mix A hn d e = mix A hn d e') :
    e = e' := by
  have pair : ∀ j, (hj : 2 * j + 1 < n) → e ⟨2 * j, by omega⟩ = e' ⟨2 * j, by omega⟩ ∧ e ⟨2 * j + 1, hj⟩ = e' ⟨2 * j + 1, hj⟩ := by
    intro j hj
    have h0 := congrFun h ⟨2 * j, by omega⟩
    have h1 := congrFun h ⟨2 * j + 1, hj⟩
    simp only [mix, show 2 * j / 2 = j from by omega, show 2 * j % 2 = 0 from by omega, if_true] at h0
    simp only [mix, show (2 * j + 1) / 2 = j from by omega, show (2 * j + 1) % 2 = 1 from by omega] at h1
    rw [if_neg (by omega), if_neg (by omega), h0] at h1
    have h2 := rotl_inj _ (hr j (by omega)) _ _ ((BitVec.xor_left_inj _).mp h1)
    refine ⟨?_, h2⟩
    rw [h2] at h0
    exact (BitVec.add_left_inj _).mp h0
  funext i
  have := pair (i.val / 2) (by omega)
  rcases Nat.mod_two_eq_zero_or_one i.val with hi | hi
  · have e1 : (⟨2 * (i.val / 2), by omega⟩ : Fin n) = i := Fin.ext (by simp only []; omega)
    rw [← e1]; exact this.1
  · have e1 : (⟨2 * (i.val / 2) + 1, by omega⟩ : Fin n) = i := Fin.ext (by simp only []; omega)
    rw [← e1]; exact this.2

theorem round_inj {A : Alg n} (g : A.Good) (K : Fin n → W) (T : W × W) (d : Nat) (v v' : Fin n → W)
    (h : round A g.even K T d v = round A g.even K T d v') : v = v' := by
  have hs : Function.Surjective A.pi := Finite.injective_iff_surjective.mp fun i j hij => g.inj 1 (by omega) i j (by simpa [sig] using hij)
  have h1 : mix A g.even d (fun i => if d % 4 = 0 then v i + subkey K T (d / 4) i else v i) =
      mix A g.even d (fun i => if d % 4 = 0 then v' i + subkey K T (d / 4) i else v' i) := by
    funext i
    obtain ⟨j, rfl⟩ := hs i
    exact congrFun h j
  have h2 := mix_inj A g.even d (fun j hj => by rw [← g.mod]; exact (g.rot _ (Nat.mod_lt _ (by omega)) j hj).2) _ _ h1
  funext i
  have := congrFun h2 i
  by_cases hd : d % 4 = 0
  · simp only [hd, if_true] at this
    exact (BitVec.add_left_inj _).mp this
  · simpa only [hd, if_false] using this

theorem rounds_inj {A : Alg n} (g : A.Good) (K : Fin n → W) (T : W × W) (r : Nat) (P P' : Fin n → W)
    (h : rounds A g.even K T r P = rounds A g.even K T r P') : P = P' := by
  induction r with
  | zero => exact h
  | succ r ih =>
    simp only [rounds, List.range_succ, List.foldl_append, List.foldl_cons, List.foldl_nil] at h ih
    exact ih (round_inj g K T r _ _ h)

/-! ## C74: Threefish.h -/

/-- The block of the stream ciphers: two counter words, the rest ones. -/
def ctrBlock (n : Nat) (c : W × W) : Fin n → W := fun i => if i.val = 0 then c.1 else if i.val = 1 then c.2 else 0xFFFFFFFFFFFFFFFF

/-- Threefish with `r` rounds and `last` in place of the last subkey. -/
def encryptLast (A : Alg n) (hn : n % 2 = 0) (r : Nat) (last : Fin n → W) (K : Fin n → W) (T : W × W) (P : Fin n → W) : Fin n → W :=
  fun i => rounds A hn K T r P i + last i

/-- What `PemuteR96P512U` adds at the end (Threefish.h:1935-1942). -/
def last512 (K : Fin 8 → W) (T : W × W) : Fin 8 → W :=
  fun i => K i + if i.val = 5 then T.1 else if i.val = 6 then T.2 else if i.val = 7 then 24 else 0

/-- What `PemuteR120P1024U` adds at the end (Threefish.h:4771-4786). -/
def last1024 (K : Fin 16 → W) (T : W × W) : Fin 16 → W :=
  fun i => keyWord K ((i.val + 3) % 17) + if i.val = 13 then T.1 ^^^ T.2 else if i.val = 14 then T.1 else if i.val = 15 then 30 else 0

/-- One key stream block as the three stream ciphers compute it (Threefish.h:281-650, 1011-1943, 2516-4787). -/
def block256 (K : Fin 4 → W) (T c : W × W) : M (List W) := three256.run (List.ofFn K) T (List.ofFn (ctrBlock 4 c))
def block512 (K : Fin 8 → W) (T c : W × W) : M (List W) := three512.run (List.ofFn K) T (List.ofFn (ctrBlock 8 c))
def block1024 (K : Fin 16 → W) (T c : W × W) : M (List W) := three1024.run (List.ofFn K) T (List.ofFn (ctrBlock 16 c))

/-- C74. The block of TSX256 is Threefish-256 of the counter block. -/
theorem C74_tsx256 (K : Fin 4 → W) (T c : W × W) : block256 K T c = .ok (List.ofFn (threefish256 K T (ctrBlock 4 c))) := by
  rw [block256, three256_eq]; exact run_ok good256 K T _ 72 18 rfl

theorem run_last {A : Alg n} (g : A.Good) (K : Fin n → W) (T : W × W) (P : Fin n → W) (r : Nat) (fin : List (List Src)) (last : Fin n → W)
    (hr : r % 4 = 0) (hl : fin.length = n)
    (hf : ∀ (B : List W) (i : Fin n), ∃ ss, rd fin i = .ok ss ∧ sum (keys (List.ofFn K)) (tweaks T) B ss = .ok (last i)) :
    Prog.run ⟨genBody A r, fin⟩ (List.ofFn K) T (List.ofFn P) = .ok (List.ofFn (encryptLast A g.even r last K T P)) := by
  obtain ⟨B, h1, h2⟩ := body_ok g K T P r
  rw [Prog.run]
  simp only [h1, ok_bind]
  rw [hr] at h2
  rw [output, hl]
  refine mapM_rangeN n _ _ fun i hi => ?_
  obtain ⟨ss, e1, e2⟩ := hf B ⟨i, hi⟩
  rw [e1, ok_bind, rd_some (i := i) (h2.2 ⟨i, hi⟩), ok_bind, e2]
  rfl

theorem sum_one (K T B : List W) (s : Src) {x : W} (h : s.eval K T B = .ok x) : sum K T B [s] = .ok x := by
  rw [sum_cons _ _ _ _ _ h (sum_nil _ _ _), show x + 0 = x from BitVec.add_zero x]

theorem sum_two (K T B : List W) (s t : Src) {x y : W} (h : s.eval K T B = .ok x) (h' : t.eval K T B = .ok y) : sum K T B [s, t] = .ok (x + y) :=
  sum_cons _ _ _ _ _ h (sum_one _ _ _ _ h')

/-- C74, what holds of TSX512: it is Threefish-512 with 96 rounds up to the last addition, where the key words are not rotated to the
position of subkey 24 but stand where subkey 18, the last one of 72 rounds, has them. -/
theorem C74_tsx512_partial (K : Fin 8 → W) (T c : W × W) :
    block512 K T c = .ok (List.ofFn (encryptLast alg512 rfl 96 (last512 K T) K T (ctrBlock 8 c))) := by
  have e : three512 = ⟨genBody alg512 96, three512.fin⟩ := by rw [← three512_body]
  rw [block512, e]
  refine run_last good512 K T _ 96 _ _ rfl rfl fun B i => ?_
  have k : ∀ i (hi : i < 8), Src.eval (keys (List.ofFn K)) (tweaks T) B (.k i) = .ok (K ⟨i, hi⟩) := fun i hi => by
    rw [Src.eval, keys_get K i (by omega), keyWord, dif_pos hi]
  obtain ⟨i, hi⟩ := i
  obtain rfl | rfl | rfl | rfl | rfl | rfl | rfl | rfl : i = 0 ∨ i = 1 ∨ i = 2 ∨ i = 3 ∨ i = 4 ∨ i = 5 ∨ i = 6 ∨ i = 7 := by omega
  · exact ⟨_, rfl, (sum_one _ _ _ _ (k 0 hi)).trans (by simp [last512])⟩
  · exact ⟨_, rfl, (sum_one _ _ _ _ (k 1 hi)).trans (by simp [last512])⟩
  · exact ⟨_, rfl, (sum_one _ _ _ _ (k 2 hi)).trans (by simp [last512])⟩
  · exact ⟨_, rfl, (sum_one _ _ _ _ (k 3 hi)).trans (by simp [last512])⟩
  · exact ⟨_, rfl, (sum_one _ _ _ _ (k 4 hi)).trans (by simp [last512])⟩
  · exact ⟨_, rfl, (sum_two _ _ _ _ (.t 0) (k 5 hi) (y := tweakWord T 0) (tweaks_get T 0 (by omega))).trans (by simp [last512, tweakWord])⟩
  · exact ⟨_, rfl, (sum_two _ _ _ _ (.t 1) (k 6 hi) (y := tweakWord T 1) (tweaks_get T 1 (by omega))).trans (by simp [last512, tweakWord])⟩
  · exact ⟨_, rfl, (sum_two _ _ _ _ _ (k 7 hi) (y := 24) rfl).trans (by simp [last512])⟩

/-- C74, what holds of TSX1024: the same with 120 rounds; the last addition has the key words of subkey 20. -/
theorem C74_tsx1024_partial (K : Fin 16 → W) (T c : W × W) :
    block1024 K T c = .ok (List.ofFn (encryptLast alg1024 rfl 120 (last1024 K T) K T (ctrBlock 16 c))) := by
  have e : three1024 = ⟨genBody alg1024 120, three1024.fin⟩ := by rw [← three1024_body]
  rw [block1024, e]
  refine run_last good1024 K T _ 120 _ _ rfl rfl fun B i => ?_
  have k : ∀ i (_ : i < 17), Src.eval (keys (List.ofFn K)) (tweaks T) B (.k i) = .ok (keyWord K i) := fun i hi => keys_get K i hi
  obtain ⟨i, hi⟩ := i
  obtain h | rfl | rfl | rfl : i < 13 ∨ i = 13 ∨ i = 14 ∨ i = 15 := by omega
  · have hm : rd three1024.fin i = .ok [.k (i + 3)] := by
      have : ∀ i < 13, three1024.fin[i]? = some [.k (i + 3)] := by decide
      rw [rd, this i h]
    refine ⟨_, hm, (sum_one _ _ _ _ (k (i + 3) (by omega))).trans ?_⟩
    simp only [last1024]
    rw [if_neg (by omega), if_neg (by omega), if_neg (by omega), Nat.mod_eq_of_lt (by omega), show keyWord K (i + 3) + 0 = keyWord K (i + 3) from BitVec.add_zero _]
  · exact ⟨_, rfl, (sum_two _ _ _ _ (.t 2) (k 16 (by omega)) (y := tweakWord T 2) (tweaks_get T 2 (by omega))).trans (by simp [last1024, tweakWord])⟩
  · exact ⟨_, rfl, (sum_two _ _ _ _ (.t 0) (k 0 (by omega)) (y := tweakWord T 0) (tweaks_get T 0 (by omega))).trans (by simp [last1024, tweakWord])⟩
  · exact ⟨_, rfl, (sum_two _ _ _ _ _ (k 1 (by omega)) (y := 30) rfl).trans (by simp [last1024])⟩

/-- C74 fails for TSX512 and TSX1024: whatever the tweak and the counter, under the key with first word 1 and the others 0 the block is not
that of Threefish with 96 and 120 rounds. -/
theorem C74_refuted (T c : W × W) :
    block512 (fun i => if i.val = 0 then 1 else 0) T c ≠ .ok (List.ofFn (encrypt alg512 rfl 96 (fun i => if i.val = 0 then 1 else 0) T (ctrBlock 8 c))) ∧
    block1024 (fun i => if i.val = 0 then 1 else 0) T c ≠ .ok (List.ofFn (encrypt alg1024 rfl 120 (fun i => if i.val = 0 then 1 else 0) T (ctrBlock 16 c))) := by
  constructor
  · rw [C74_tsx512_partial]
    intro h
    injection h with h
    have h := congrFun (List.ofFn_injective h) 0
    simp only [encryptLast, encrypt] at h
    exact absurd ((BitVec.add_right_inj _).mp h) (by simp [last512, subkey, keyWord])
  · rw [C74_tsx1024_partial]
    intro h
    injection h with h
    have h := congrFun (List.ofFn_injective h) 4
    simp only [encryptLast, encrypt] at h
    exact absurd ((BitVec.add_right_inj _).mp h) (by simp [last1024, subkey, keyWord])

/-- C74. Under one key and tweak, different counters give different blocks, in all three ciphers. -/
theorem C74_distinct (T c c' : W × W) (hc : c ≠ c') :
    (∀ K, block256 K T c ≠ block256 K T c') ∧ (∀ K, block512 K T c ≠ block512 K T c') ∧ (∀ K, block1024 K T c ≠ block1024 K T c') := by
  have ne : ∀ n, 2 ≤ n → ctrBlock n c ≠ ctrBlock n c' := by
    intro n hn h
    apply hc
    have h0 := congrFun h ⟨0, by omega⟩
    have h1 := congrFun h ⟨1, by omega⟩
    exact Prod.ext h0 h1
  have canc : ∀ {n} {A : Alg n} (g : A.Good) (r : Nat) (K l : Fin n → W), 2 ≤ n →
      List.ofFn (encryptLast A g.even r l K T (ctrBlock n c)) ≠ List.ofFn (encryptLast A g.even r l K T (ctrBlock n c')) := by
    intro n A g r K l hn h
    refine ne n hn (rounds_inj g K T r _ _ ?_)
    funext i
    exact (BitVec.add_left_inj _).mp (congrFun (List.ofFn_injective h) i)
  refine ⟨fun K h => ?_, fun K h => ?_, fun K h => ?_⟩
  · rw [C74_tsx256, C74_tsx256] at h
    injection h with h
    exact canc good256 72 K (subkey K T 18) (by omega) h
  · rw [C74_tsx512_partial, C74_tsx512_partial] at h
    injection h with h
    exact canc good512 96 K _ (by omega) h
  · rw [C74_tsx1024_partial, C74_tsx1024_partial] at h
    injection h with h
    exact canc good1024 120 K _ (by omega) h

/-- C74. The compact forms, which a build with `CEX_CIPHER_COMPACT` uses, give the same blocks. -/
theorem C74_compact (T c : W × W) :
    (∀ K, loop256.run scalar 72 (List.ofFn K) T (List.ofFn (ctrBlock 4 c)) = block256 K T c) ∧
    (∀ K, loop512.run scalar 96 (List.ofFn K) T (List.ofFn (ctrBlock 8 c)) = block512 K T c) ∧
    (∀ K, loop1024.run scalar 120 (List.ofFn K) T (List.ofFn (ctrBlock 16 c)) = block1024 K T c) := by
  refine ⟨fun K => ?_, fun K => ?_, fun K => ?_⟩
  · rw [run_written, loop256_72, skein256_eq, ← three256_eq]; rfl
  · rw [run_written, loop512_96]; rfl
  · rw [run_written, loop1024_120]; rfl

/-- A wide function (Threefish.h:666-852, 1959-2261, 4803-5329): `l` counters, the low words before the high words, in; the results of the
lanes one after the other (`Store4xULL256` and the others, Threefish.h:61-170) out. -/
def wide (p : CProg) (R l n : Nat) (K : Fin n → W) (T : W × W) (ctr : Fin l → W × W) : M (List W) := do
  let B := List.ofFn fun i : Fin n => fun j : Fin l => ctrBlock n (ctr j) i
  let S ← p.run (lanes l) R ((List.ofFn K).map (lanes l).lit) ((lanes l).lit T.1, (lanes l).lit T.2) B
  return (List.finRange l).flatMap fun j => S.map (· j)

theorem wide_ok (p : CProg) (R l n : Nat) (hl : 0 < l) (K : Fin n → W) (T : W × W) (ctr : Fin l → W × W) (S : Fin l → List W)
    (h : ∀ j, p.run scalar R (List.ofFn K) T (List.ofFn (ctrBlock n (ctr j))) = .ok (S j)) :
    wide p R l n K T ctr = .ok ((List.finRange l).flatMap S) := by
  obtain ⟨B, hB⟩ : ∃ B : List (Fin l → W), B = List.ofFn fun i : Fin n => fun j : Fin l => ctrBlock n (ctr j) i := ⟨_, rfl⟩
  have e1 : ∀ j, B.map (· j) = List.ofFn (ctrBlock n (ctr j)) := fun j => by rw [hB, List.map_ofFn]; rfl
  have e2 : ∀ j : Fin l, ((List.ofFn K).map (lanes l).lit).map (· j) = List.ofFn K := fun j => by
    rw [List.map_map, List.map_ofFn]; rfl
  obtain ⟨X, h1, h2⟩ := Par.run hl p R ((List.ofFn K).map (lanes l).lit) ((lanes l).lit T.1, (lanes l).lit T.2) B S fun j => by
    dsimp only
    rw [e1, e2]
    exact h j
  rw [wide, ← hB, h1, ok_bind]
  show Except.ok _ = _
  congr 2
  funext j
  exact h2 j

/-- C74. The wide forms, which AVX2 builds (4 lanes) and AVX-512 builds (8 lanes) use, give the blocks of their counters one after the
other. -/
theorem C74_wide (l : Nat) (hl : 0 < l) (T : W × W) (ctr : Fin l → W × W) :
    (∀ K, ∃ S : Fin l → List W, (∀ j, block256 K T (ctr j) = .ok (S j)) ∧ wide loop256 72 l 4 K T ctr = .ok ((List.finRange l).flatMap S)) ∧
    (∀ K, ∃ S : Fin l → List W, (∀ j, block512 K T (ctr j) = .ok (S j)) ∧ wide loop512 96 l 8 K T ctr = .ok ((List.finRange l).flatMap S)) ∧
    (∀ K, ∃ S : Fin l → List W, (∀ j, block1024 K T (ctr j) = .ok (S j)) ∧ wide loop1024 120 l 16 K T ctr = .ok ((List.finRange l).flatMap S)) := by
  refine ⟨fun K => ?_, fun K => ?_, fun K => ?_⟩
  · exact ⟨_, fun j => C74_tsx256 K T (ctr j), wide_ok _ _ _ _ hl K T ctr _ fun j => ((C74_compact T (ctr j)).1 K).trans (C74_tsx256 K T (ctr j))⟩
  · exact ⟨_, fun j => C74_tsx512_partial K T (ctr j), wide_ok _ _ _ _ hl K T ctr _ fun j => ((C74_compact T (ctr j)).2.1 K).trans (C74_tsx512_partial K T (ctr j))⟩
  · exact ⟨_, fun j => C74_tsx1024_partial K T (ctr j), wide_ok _ _ _ _ hl K T ctr _ fun j => ((C74_compact T (ctr j)).2.2 K).trans (C74_tsx1024_partial K T (ctr j))⟩

end Cex.Threefish
