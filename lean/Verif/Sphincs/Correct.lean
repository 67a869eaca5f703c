import Mathlib.Tactic.Ring
import Verif.Sphincs.Spec

/-!
# Correctness of SPHINCS+ as specified

Every signature made by the specification is valid, whatever the hash.
-/

namespace Cex.Spec.Sphincs
open Cex

/-! ## Chunks -/

theorem chunks_len {g : Nat → List Byte} {n : Nat} : ∀ k, (∀ i, i < k → (g i).length = n) → (chunks g k).length = k * n
  | 0, _ => by simp [chunks]
  | k + 1, h => by
    rw [chunks, List.length_append, chunks_len k fun i hi => h i (by omega), h k (by omega), Nat.add_one_mul k]

theorem chunks_congr {g g' : Nat → List Byte} : ∀ k, (∀ i, i < k → g i = g' i) → chunks g k = chunks g' k
  | 0, _ => rfl
  | k + 1, h => by rw [chunks, chunks, chunks_congr k fun i hi => h i (by omega), h k (by omega)]

theorem chunks_split {g : Nat → List Byte} (k : Nat) : ∀ r, chunks g (k + r) = chunks g k ++ chunks (fun i => g (k + i)) r
  | 0 => by simp [chunks]
  | r + 1 => by rw [← Nat.add_assoc, chunks, chunks_split k r, chunks, List.append_assoc]

/-- Piece `i` inside. -/
theorem chunks_at {g : Nat → List Byte} {k i : Nat} (hi : i < k) :
    chunks g k = chunks g i ++ g i ++ chunks (fun j => g (i + 1 + j)) (k - (i + 1)) := by
  rw [show k = i + 1 + (k - (i + 1)) from by omega, chunks_split, chunks, show i + 1 + (k - (i + 1)) - (i + 1) = k - (i + 1) from by omega]

theorem drop_chunks {g : Nat → List Byte} {n k i : Nat} (h : ∀ j, j < k → (g j).length = n) (hi : i < k) (rest : List Byte) :
    ∃ t, (chunks g k ++ rest).drop (i * n) = g i ++ t := by
  refine ⟨chunks (fun j => g (i + 1 + j)) (k - (i + 1)) ++ rest, ?_⟩
  rw [chunks_at hi, List.append_assoc, List.append_assoc, List.drop_append_of_le_length (by rw [chunks_len i fun j hj => h j (by omega)]),
    List.drop_eq_nil_of_le (by rw [chunks_len i fun j hj => h j (by omega)]), List.nil_append]

theorem piece_chunks {g : Nat → List Byte} {n k i : Nat} (h : ∀ j, j < k → (g j).length = n) (hi : i < k) : piece n (chunks g k) i = g i := by
  obtain ⟨t, ht⟩ := drop_chunks h hi []
  rw [List.append_nil] at ht
  rw [piece, ht, List.take_append_of_le_length (by rw [h i hi]), List.take_of_length_le (by rw [h i hi])]

/-! ## Trees -/

/-- The authentication path leads from a leaf to the root. -/
theorem climb_path {leaf : Nat → List Byte} {comb : Nat → Nat → List Byte → List Byte} {sib : Nat → List Byte} {i : Nat} :
    ∀ z, (∀ y, y < z → sib y = node leaf comb y (sibling (i / 2 ^ y))) → climb comb sib i (leaf i) z = node leaf comb z (i / 2 ^ z)
  | 0, _ => by simp [climb, node]
  | z + 1, h => by
    rw [climb, climb_path z fun y hy => h y (by omega), h z (by omega), node, Nat.pow_succ, ← Nat.div_div_eq_div_mul]
    by_cases hp : i / 2 ^ z % 2 = 1
    · generalize i / 2 ^ z = j at *
      rw [if_pos hp, sibling, if_pos hp, show 2 * (j / 2) = j - 1 from by omega, show j - 1 + 1 = j from by omega]
    · generalize i / 2 ^ z = j at *
      rw [if_neg hp, sibling, if_neg hp, show 2 * (j / 2) = j from by omega]

variable {H : Hash} {s : Parameters}

/-- Outputs have the length asked for. -/
structure Hash.Good (H : Hash) : Prop where
  xof : ∀ x n, (H.xof x n).length = n
  prf : ∀ x n, (H.xofPrf x n).length = n

theorem T_len (hH : H.Good) (a b c : List Byte) : (T H s a b c).length = s.n := hH.xof _ _

theorem prf_len (hH : H.Good) (a b : List Byte) : (prf H s a b).length = s.n := hH.prf _ _

theorem node_len {leaf : Nat → List Byte} {comb : Nat → Nat → List Byte → List Byte} {n : Nat} (hl : ∀ j, (leaf j).length = n) (hc : ∀ z j m, (comb z j m).length = n) :
    ∀ z j, (node leaf comb z j).length = n
  | 0, j => hl j
  | _ + 1, j => hc _ j _

theorem path_len {leaf : Nat → List Byte} {comb : Nat → Nat → List Byte → List Byte} {n : Nat} (hl : ∀ j, (leaf j).length = n) (hc : ∀ z j m, (comb z j m).length = n)
    (h i : Nat) : (path leaf comb h i).length = h * n := chunks_len h fun _ _ => node_len hl hc _ _

theorem treePath_len (hH : H.Good) (skseed pkseed : List Byte) (layer tree i : Nat) : (treePath H s skseed pkseed layer tree i).length = s.h * s.n :=
  path_len (fun _ => T_len hH _ _ _) (fun _ _ _ => T_len hH _ _ _) _ _

theorem treeRoot_len (hH : H.Good) (skseed pkseed : List Byte) (layer tree : Nat) : (treeRoot H s skseed pkseed layer tree).length = s.n :=
  node_len (fun _ => T_len hH _ _ _) (fun _ _ _ => T_len hH _ _ _) _ _

/-- Climbing with a path that is stored in pieces. -/
theorem climb_stored {leaf : Nat → List Byte} {comb : Nat → Nat → List Byte → List Byte} {n : Nat} (hl : ∀ j, (leaf j).length = n) (hc : ∀ z j m, (comb z j m).length = n)
    {h i : Nat} (hi : i < 2 ^ h) : climb comb (piece n (path leaf comb h i)) i (leaf i) h = node leaf comb h 0 := by
  have e : ∀ y, y < h → piece n (path leaf comb h i) y = node leaf comb y (sibling (i / 2 ^ y)) := fun y hy =>
    piece_chunks (g := fun z => node leaf comb z (sibling (i / 2 ^ z))) (fun _ _ => node_len hl hc _ _) hy
  rw [climb_path h e, Nat.div_eq_of_lt hi]

/-! ## The one-time signature -/

theorem chain_len (hH : H.Good) {pkseed : List Byte} {ad : Nat → List Byte} {start : Nat} {x : List Byte} (hx : x.length = s.n) : ∀ t, (chain H s pkseed ad start x t).length = s.n
  | 0 => hx
  | _ + 1 => T_len hH _ _ _

theorem chain_add {pkseed : List Byte} {ad : Nat → List Byte} {x : List Byte} {a : Nat} : ∀ b, chain H s pkseed ad a (chain H s pkseed ad 0 x a) b = chain H s pkseed ad 0 x (a + b)
  | 0 => rfl
  | b + 1 => by rw [chain, chain_add b, ← Nat.add_assoc, chain, Nat.zero_add]

theorem lengths_le (m : List Byte) (i : Nat) : (lengths m).getD i 0 ≤ 15 := by
  rw [List.getD_eq_getElem?_getD]
  cases h : (lengths m)[i]? with
  | none => simp
  | some d =>
    have hm := List.mem_of_getElem? h
    rw [Option.getD_some]
    rw [lengths, List.mem_append, hexDigits, List.mem_flatMap] at hm
    rcases hm with ⟨b, _, hb⟩ | hm
    · have := b.isLt
      simp only [List.mem_cons, List.not_mem_nil, or_false] at hb
      omega
    · simp only [List.mem_cons, List.not_mem_nil, or_false] at hm
      omega

theorem wotsSign_len (hH : H.Good) (skseed pkseed : List Byte) (layer tree i : Nat) (m : List Byte) : (wotsSign H s skseed pkseed layer tree i m).length = wlen s * s.n :=
  chunks_len _ fun _ _ => chain_len hH (prf_len hH _ _) _

theorem wots_correct (hH : H.Good) (skseed pkseed : List Byte) (layer tree i : Nat) (m : List Byte) :
    wotsPkFromSig H s pkseed layer tree i (wotsSign H s skseed pkseed layer tree i m) m = wotsPk H s skseed pkseed layer tree i := by
  refine chunks_congr _ fun c hc => ?_
  have e : piece s.n (wotsSign H s skseed pkseed layer tree i m) c = chain H s pkseed (wotsAdrs layer tree i c) 0 (wotsSecret H s skseed layer tree i c) ((lengths m).getD c 0) :=
    piece_chunks (g := fun c => chain H s pkseed (wotsAdrs layer tree i c) 0 (wotsSecret H s skseed layer tree i c) ((lengths m).getD c 0))
      (fun _ _ => chain_len hH (prf_len hH _ _) _) hc
  rw [e, chain_add]
  have := lengths_le m c
  rw [show (lengths m).getD c 0 + (15 - (lengths m).getD c 0) = 15 from by omega]

/-! ## The layers -/

theorem htSign_len (hH : H.Good) (skseed pkseed : List Byte) : ∀ r layer tree i m, (htSign H s skseed pkseed r layer tree i m).length = r * layerBytes s
  | 0, _, _, _, _ => by simp [htSign]
  | r + 1, layer, tree, i, m => by
    rw [htSign, List.length_append, List.length_append, wotsSign_len hH, treePath_len hH, htSign_len hH skseed pkseed r, Nat.add_one_mul r, layerBytes]
    omega

/-- The layers lead to the root of the last tree. -/
theorem ht_correct (hH : H.Good) (skseed pkseed : List Byte) : ∀ r layer tree i m, i < 2 ^ s.h →
    htRoot H s pkseed (r + 1) layer tree i m (htSign H s skseed pkseed (r + 1) layer tree i m) = treeRoot H s skseed pkseed (layer + r) (tree / 2 ^ (s.h * r))
  | r, layer, tree, i, m, hi => by
    have e1 : (htSign H s skseed pkseed (r + 1) layer tree i m).take (wlen s * s.n) = wotsSign H s skseed pkseed layer tree i m := by
      rw [htSign, List.append_assoc, List.take_append_of_le_length (by rw [wotsSign_len hH]), List.take_of_length_le (by rw [wotsSign_len hH])]
    have e2 : ((htSign H s skseed pkseed (r + 1) layer tree i m).drop (wlen s * s.n)).take (s.h * s.n) = treePath H s skseed pkseed layer tree i := by
      rw [htSign, List.append_assoc, List.drop_append_of_le_length (by rw [wotsSign_len hH]), List.drop_eq_nil_of_le (by rw [wotsSign_len hH]), List.nil_append,
        List.take_append_of_le_length (by rw [treePath_len hH]), List.take_of_length_le (by rw [treePath_len hH])]
    have e3 : (htSign H s skseed pkseed (r + 1) layer tree i m).drop (layerBytes s)
        = htSign H s skseed pkseed r (layer + 1) (tree / 2 ^ s.h) (tree % 2 ^ s.h) (treeRoot H s skseed pkseed layer tree) := by
      have : (wotsSign H s skseed pkseed layer tree i m ++ treePath H s skseed pkseed layer tree i).length = layerBytes s := by
        rw [List.length_append, wotsSign_len hH, treePath_len hH, layerBytes]
      rw [htSign, ← this, List.drop_left]
    have e4 : climb (treeComb H s pkseed layer tree) (piece s.n (treePath H s skseed pkseed layer tree i)) i
        (compressPk H s pkseed layer tree i (wotsPk H s skseed pkseed layer tree i)) s.h = treeRoot H s skseed pkseed layer tree :=
      climb_stored (leaf := treeLeaf H s skseed pkseed layer tree) (fun _ => T_len hH _ _ _) (fun _ _ _ => T_len hH _ _ _) hi
    rw [htRoot, e1, e2, e3, wots_correct hH, e4]
    cases r with
    | zero => simp [htRoot]
    | succ r =>
      rw [ht_correct hH skseed pkseed r (layer + 1) _ _ _ (Nat.mod_lt _ (Nat.two_pow_pos _)), Nat.div_div_eq_div_mul, ← Nat.pow_add]
      rw [show layer + 1 + r = layer + (r + 1) from by omega, show s.h + s.h * r = s.h * (r + 1) from by ring]

/-! ## The few-time signature -/

theorem forsIndex_lt (md : List Byte) (t : Nat) : forsIndex s md t < 2 ^ s.a := by
  rw [forsIndex]
  generalize s.a = a
  suffices h : ∀ (b : Nat → Nat) k, ((List.range k).map fun j => b j % 2 * 2 ^ j).sum < 2 ^ k from
    h (fun j => (md.getD ((t * a + j) / 8) 0).toNat / 2 ^ ((t * a + j) % 8)) a
  intro b k
  induction k with
  | zero => simp
  | succ k ih =>
    rw [List.range_succ, List.map_append, List.sum_append, List.map_singleton, List.sum_singleton, Nat.pow_succ]
    have : b k % 2 * 2 ^ k ≤ 1 * 2 ^ k := Nat.mul_le_mul_right _ (by omega)
    omega

theorem forsPart_len (hH : H.Good) (skseed pkseed : List Byte) (tree kp : Nat) (md : List Byte) (t : Nat) :
    (forsSecret H s skseed tree kp t (forsIndex s md t) ++ path (forsLeaf H s skseed pkseed tree kp t) (forsComb H s pkseed tree kp t) s.a (forsIndex s md t)).length = (s.a + 1) * s.n := by
  rw [List.length_append, forsSecret, prf_len hH, path_len (n := s.n) (leaf := forsLeaf H s skseed pkseed tree kp t) (comb := forsComb H s pkseed tree kp t) (fun _ => T_len hH _ _ _) (fun _ _ _ => T_len hH _ _ _), Nat.add_one_mul s.a]
  omega

theorem forsSign_len (hH : H.Good) (skseed pkseed : List Byte) (tree kp : Nat) (md : List Byte) : (forsSign H s skseed pkseed tree kp md).length = forsBytes s :=
  chunks_len _ fun _ _ => forsPart_len hH _ _ _ _ _ _

theorem fors_correct (hH : H.Good) (skseed pkseed : List Byte) (tree kp : Nat) (md : List Byte) :
    forsPkFromSig H s pkseed tree kp (forsSign H s skseed pkseed tree kp md) md = forsPk H s pkseed tree kp (chunks (forsRoot H s skseed pkseed tree kp) s.k) := by
  rw [forsPkFromSig]
  congr 1
  refine chunks_congr _ fun t ht => ?_
  obtain ⟨rest, hr⟩ := drop_chunks (fun j (_ : j < s.k) => forsPart_len hH skseed pkseed tree kp md j) ht []
  rw [List.append_nil] at hr
  have e1 : ((forsSign H s skseed pkseed tree kp md).drop (t * ((s.a + 1) * s.n))).take s.n = forsSecret H s skseed tree kp t (forsIndex s md t) := by
    have hl : (forsSecret H s skseed tree kp t (forsIndex s md t)).length = s.n := prf_len hH _ _
    rw [forsSign, hr, List.append_assoc, List.take_append_of_le_length (by omega), List.take_of_length_le (by omega)]
  have e2 : ((forsSign H s skseed pkseed tree kp md).drop (t * ((s.a + 1) * s.n) + s.n)).take (s.a * s.n)
      = path (forsLeaf H s skseed pkseed tree kp t) (forsComb H s pkseed tree kp t) s.a (forsIndex s md t) := by
    have hl : (forsSecret H s skseed tree kp t (forsIndex s md t)).length = s.n := prf_len hH _ _
    have hp : (path (forsLeaf H s skseed pkseed tree kp t) (forsComb H s pkseed tree kp t) s.a (forsIndex s md t)).length = s.a * s.n :=
      path_len (fun _ => T_len hH _ _ _) (fun _ _ _ => T_len hH _ _ _) _ _
    rw [← List.drop_drop, forsSign, hr, List.append_assoc, List.drop_append_of_le_length (by omega), List.drop_eq_nil_of_le (by omega), List.nil_append,
      List.take_append_of_le_length (by omega), List.take_of_length_le (by omega)]
  rw [e1, e2]
  exact climb_stored (leaf := forsLeaf H s skseed pkseed tree kp t) (fun _ => T_len hH _ _ _) (fun _ _ _ => T_len hH _ _ _) (forsIndex_lt md t)

/-! ## The scheme -/

theorem signDigest_len (hH : H.Good) (skseed pkseed md : List Byte) (tree leaf : Nat) :
    (signDigest H s skseed pkseed md tree leaf).length = forsBytes s + s.d * layerBytes s := by
  rw [signDigest, List.length_append, forsSign_len hH, htSign_len hH]

theorem sign_len (hH : H.Good) (skseed skprf pkseed root optrand m : List Byte) : (sign H s skseed skprf pkseed root optrand m).length = sigBytes s := by
  rw [sign]
  rw [List.length_append, hH.xof, signDigest_len hH, sigBytes]
  omega

/-- Whatever leaf of the lowest layer is used, the signature leads to the root of the top tree. -/
theorem root_correct (hH : H.Good) (hd : 0 < s.d) (skseed pkseed md : List Byte) {tree leaf : Nat} (ht : tree < 2 ^ (s.h * (s.d - 1))) (hl : leaf < 2 ^ s.h) :
    rootOf H s pkseed md tree leaf (signDigest H s skseed pkseed md tree leaf) = treeRoot H s skseed pkseed (s.d - 1) 0 := by
  have e1 : (signDigest H s skseed pkseed md tree leaf).take (forsBytes s) = forsSign H s skseed pkseed tree leaf md := by
    rw [signDigest, ← forsSign_len hH skseed pkseed tree leaf md, List.take_left]
  have e2 : (signDigest H s skseed pkseed md tree leaf).drop (forsBytes s)
      = htSign H s skseed pkseed s.d 0 tree leaf (forsPk H s pkseed tree leaf (chunks (forsRoot H s skseed pkseed tree leaf) s.k)) := by
    rw [signDigest, ← forsSign_len hH skseed pkseed tree leaf md, List.drop_left]
  rw [rootOf, e1, e2, fors_correct hH]
  obtain ⟨r, hr⟩ : ∃ r, s.d = r + 1 := ⟨s.d - 1, by omega⟩
  rw [hr, Nat.add_sub_cancel] at ht
  rw [hr, Nat.add_sub_cancel, ht_correct hH skseed pkseed r 0 tree leaf _ hl, Nat.zero_add, Nat.div_eq_of_lt ht]

/-- **Correctness of the scheme**: a signature is valid for the public key of the seeds. -/
theorem sign_valid (hH : H.Good) (hd : 0 < s.d) (skseed skprf pkseed optrand m : List Byte) :
    Valid H s pkseed (treeRoot H s skseed pkseed (s.d - 1) 0) m (sign H s skseed skprf pkseed (treeRoot H s skseed pkseed (s.d - 1) 0) optrand m) := by
  refine ⟨sign_len hH _ _ _ _ _ _, ?_⟩
  have hr : (H.xof (skprf ++ optrand ++ m) s.n).length = s.n := hH.xof _ _
  rw [sign]
  have e1 : ∀ y, (H.xof (skprf ++ optrand ++ m) s.n ++ y).take s.n = H.xof (skprf ++ optrand ++ m) s.n := fun y => by
    rw [List.take_append_of_le_length (by omega), List.take_of_length_le (by omega)]
  have e2 : ∀ y, (H.xof (skprf ++ optrand ++ m) s.n ++ y).drop s.n = y := fun y => by
    rw [List.drop_append_of_le_length (by omega), List.drop_eq_nil_of_le (by omega), List.nil_append]
  rw [e1, e2]
  exact root_correct hH hd _ _ _ (Nat.mod_lt _ (Nat.two_pow_pos _)) (Nat.mod_lt _ (Nat.two_pow_pos _))

end Cex.Spec.Sphincs
