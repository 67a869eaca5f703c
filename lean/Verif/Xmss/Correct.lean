import Verif.Sphincs.Correct
import Verif.Xmss.Spec
import Verif.IntTools.Enc

/-!
# Correctness of XMSS as specified

Every signature made by the specification is valid, whatever the hash.
-/

namespace Cex.Spec.Xmss
open Cex Cex.Spec.Sphincs

variable {s : Parameters}

/-- Outputs have `n` bytes. -/
def Parameters.Good (s : Parameters) : Prop := ∀ x, (s.H x).length = s.n

theorem stepF_len (g : s.Good) (a : List Byte) (b : Nat → List Byte) (c : List Byte) : (stepF s a b c).length = s.n := g _

theorem randHash_len (g : s.Good) (a : List Byte) (b : Nat → List Byte) (c : List Byte) : (randHash s a b c).length = s.n := g _

theorem prf_len (g : s.Good) (a b : List Byte) : (prf s a b).length = s.n := g _

theorem digest_len (g : s.Good) (r rt : List Byte) (i : Nat) (m : List Byte) : (digest s r rt i m).length = s.n := g _

theorem chain_len (g : s.Good) {seed : List Byte} {ad : Nat → Nat → List Byte} {start : Nat} {x : List Byte} (hx : x.length = s.n) : ∀ t, (chain s seed ad start x t).length = s.n
  | 0 => hx
  | _ + 1 => stepF_len g _ _ _

theorem chain_add {seed : List Byte} {ad : Nat → Nat → List Byte} {x : List Byte} {a : Nat} : ∀ b, chain s seed ad a (chain s seed ad 0 x a) b = chain s seed ad 0 x (a + b)
  | 0 => rfl
  | b + 1 => by rw [chain, chain_add b, ← Nat.add_assoc, chain, Nat.zero_add]

theorem wotsSign_len (g : s.Good) (skseed pkseed : List Byte) (layer tree i : Nat) (m : List Byte) : (wotsSign s skseed pkseed layer tree i m).length = wlen s * s.n :=
  chunks_len _ fun _ _ => chain_len g (prf_len g _ _) _

theorem wotsPk_len (g : s.Good) (skseed pkseed : List Byte) (layer tree i : Nat) : (wotsPk s skseed pkseed layer tree i).length = wlen s * s.n :=
  chunks_len _ fun _ _ => chain_len g (prf_len g _ _) _

theorem wots_correct (g : s.Good) (skseed pkseed : List Byte) (layer tree i : Nat) (m : List Byte) :
    wotsPkFromSig s pkseed layer tree i (wotsSign s skseed pkseed layer tree i m) m = wotsPk s skseed pkseed layer tree i := by
  refine chunks_congr _ fun c hc => ?_
  have e : piece s.n (wotsSign s skseed pkseed layer tree i m) c = chain s pkseed (wotsAdrs layer tree i c) 0 (wotsSecret s skseed layer tree i c) ((lengths m).getD c 0) :=
    piece_chunks (g := fun c => chain s pkseed (wotsAdrs layer tree i c) 0 (wotsSecret s skseed layer tree i c) ((lengths m).getD c 0))
      (fun _ _ => chain_len g (prf_len g _ _) _) hc
  rw [e, chain_add]
  have := lengths_le m c
  rw [show (lengths m).getD c 0 + (15 - (lengths m).getD c 0) = 15 from by omega]

theorem ltreeRow_len {comb : Nat → List Byte → List Byte} {n l : Nat} {g : Nat → List Byte} (hc : ∀ i m, (comb i m).length = n) (hg : ∀ i, i < l → (g i).length = n) :
    ∀ i, i < (l + 1) / 2 → (ltreeRow comb l g i).length = n := fun i hi => by
  rw [ltreeRow]
  split
  · exact hc _ _
  · exact hg _ (by omega)

theorem ltree_len {comb : Nat → Nat → List Byte → List Byte} {n : Nat} (hc : ∀ z i m, (comb z i m).length = n) : ∀ l z g, 0 < l → (∀ i, i < l → (g i).length = n) → (ltree comb z l g).length = n := by
  intro l
  induction l using Nat.strongRecOn with
  | ind l ih =>
    intro z g h0 hg
    rw [ltree]
    split
    · exact hg 0 h0
    · exact ih _ (by omega) _ _ (by omega) (ltreeRow_len (hc z) hg)

theorem compressPk_len (g : s.Good) {pkseed pk : List Byte} (layer tree ots : Nat) (hpk : pk.length = wlen s * s.n) : (compressPk s pkseed layer tree ots pk).length = s.n := by
  refine ltree_len (fun _ _ _ => randHash_len g _ _ _) _ _ _ (by rw [wlen]; omega) fun i hi => ?_
  have : (i + 1) * s.n ≤ wlen s * s.n := Nat.mul_le_mul_right _ hi
  rw [Nat.add_one_mul i] at this
  rw [piece, List.length_take, List.length_drop]; omega

theorem treeLeaf_len (g : s.Good) (skseed pkseed : List Byte) (layer tree j : Nat) : (treeLeaf s skseed pkseed layer tree j).length = s.n :=
  compressPk_len g _ _ _ (wotsPk_len g _ _ _ _ _)

theorem treePath_len (g : s.Good) (skseed pkseed : List Byte) (layer tree i : Nat) : (treePath s skseed pkseed layer tree i).length = s.h * s.n :=
  path_len (fun _ => treeLeaf_len g _ _ _ _ _) (fun _ _ _ => randHash_len g _ _ _) _ _

theorem treeRoot_len (g : s.Good) (skseed pkseed : List Byte) (layer tree : Nat) : (treeRoot s skseed pkseed layer tree).length = s.n :=
  node_len (fun _ => treeLeaf_len g _ _ _ _ _) (fun _ _ _ => randHash_len g _ _ _) _ _

theorem htSign_len (g : s.Good) (skseed pkseed : List Byte) : ∀ r layer tree i m, (htSign s skseed pkseed r layer tree i m).length = r * layerBytes s
  | 0, _, _, _, _ => by simp [htSign]
  | r + 1, layer, tree, i, m => by
    rw [htSign, List.length_append, List.length_append, wotsSign_len g, treePath_len g, htSign_len g skseed pkseed r, Nat.add_one_mul r, layerBytes]
    omega

/-- The layers lead to the root of the last tree. -/
theorem ht_correct (g : s.Good) (skseed pkseed : List Byte) : ∀ r layer tree i m, i < 2 ^ s.h →
    htRoot s pkseed (r + 1) layer tree i m (htSign s skseed pkseed (r + 1) layer tree i m) = treeRoot s skseed pkseed (layer + r) (tree / 2 ^ (s.h * r))
  | r, layer, tree, i, m, hi => by
    have e1 : (htSign s skseed pkseed (r + 1) layer tree i m).take (wlen s * s.n) = wotsSign s skseed pkseed layer tree i m := by
      rw [htSign, List.append_assoc, List.take_append_of_le_length (by rw [wotsSign_len g]), List.take_of_length_le (by rw [wotsSign_len g])]
    have e2 : ((htSign s skseed pkseed (r + 1) layer tree i m).drop (wlen s * s.n)).take (s.h * s.n) = treePath s skseed pkseed layer tree i := by
      rw [htSign, List.append_assoc, List.drop_append_of_le_length (by rw [wotsSign_len g]), List.drop_eq_nil_of_le (by rw [wotsSign_len g]), List.nil_append,
        List.take_append_of_le_length (by rw [treePath_len g]), List.take_of_length_le (by rw [treePath_len g])]
    have e3 : (htSign s skseed pkseed (r + 1) layer tree i m).drop (layerBytes s)
        = htSign s skseed pkseed r (layer + 1) (tree / 2 ^ s.h) (tree % 2 ^ s.h) (treeRoot s skseed pkseed layer tree) := by
      have : (wotsSign s skseed pkseed layer tree i m ++ treePath s skseed pkseed layer tree i).length = layerBytes s := by
        rw [List.length_append, wotsSign_len g, treePath_len g, layerBytes]
      rw [htSign, ← this, List.drop_left]
    have e4 : climb (treeComb s pkseed layer tree) (piece s.n (treePath s skseed pkseed layer tree i)) i
        (compressPk s pkseed layer tree i (wotsPk s skseed pkseed layer tree i)) s.h = treeRoot s skseed pkseed layer tree :=
      climb_stored (leaf := treeLeaf s skseed pkseed layer tree) (fun _ => treeLeaf_len g _ _ _ _ _) (fun _ _ _ => randHash_len g _ _ _) hi
    rw [htRoot, e1, e2, e3, wots_correct g, e4]
    cases r with
    | zero => simp [htRoot]
    | succ r =>
      rw [ht_correct g skseed pkseed r (layer + 1) _ _ _ (Nat.mod_lt _ (Nat.two_pow_pos _)), Nat.div_div_eq_div_mul, ← Nat.pow_add]
      rw [show layer + 1 + r = layer + (r + 1) from by omega, show s.h + s.h * r = s.h * (r + 1) from by ring]

theorem signBody_len (g : s.Good) (skseed skprf pkseed rt : List Byte) (idx : Nat) (m : List Byte) : (signBody s skseed skprf pkseed rt idx m).length = s.n + s.d * layerBytes s := by
  rw [signBody, List.length_append, randomizer, prf_len g, htSign_len g]

theorem sign_len (g : s.Good) (skseed skprf pkseed rt : List Byte) (idx : Nat) (m : List Byte) : (sign s skseed skprf pkseed rt idx m).length = sigBytes s := by
  rw [sign, List.length_append, beEnc_length, signBody_len g, sigBytes, Nat.add_assoc]

/-- **Correctness of the scheme**: each of the `2^(h*d)` one-time keys makes valid signatures. -/
theorem sign_valid (g : s.Good) (hd : 0 < s.d) (skseed skprf pkseed m : List Byte) {idx : Nat} (hi : idx < 2 ^ (s.h * s.d)) (hb : idx < 256 ^ s.ib) :
    Valid s (root s skseed pkseed) pkseed m (sign s skseed skprf pkseed (root s skseed pkseed) idx m) := by
  refine ⟨sign_len g _ _ _ _ _ _, ?_⟩
  have e1 : indexOf s (sign s skseed skprf pkseed (root s skseed pkseed) idx m) = idx := by
    rw [indexOf, sign, List.take_append_of_le_length (by rw [beEnc_length]), List.take_of_length_le (by rw [beEnc_length]), beVal_beEnc, Nat.mod_eq_of_lt hb]
  have e2 : (sign s skseed skprf pkseed (root s skseed pkseed) idx m).drop s.ib = signBody s skseed skprf pkseed (root s skseed pkseed) idx m := by
    rw [sign, List.drop_append_of_le_length (by rw [beEnc_length]), List.drop_eq_nil_of_le (by rw [beEnc_length]), List.nil_append]
  have hr : (randomizer s skprf idx).length = s.n := prf_len g _ _
  rw [rootOf, e1, ← List.drop_drop, e2, signBody, List.take_append_of_le_length (by omega), List.take_of_length_le (by omega), List.drop_append_of_le_length (by omega),
    List.drop_eq_nil_of_le (by omega), List.nil_append]
  obtain ⟨r, hr⟩ : ∃ r, s.d = r + 1 := ⟨s.d - 1, by omega⟩
  rw [root, hr, Nat.add_sub_cancel, ht_correct g skseed pkseed r 0 _ _ _ (Nat.mod_lt _ (Nat.two_pow_pos _)), Nat.zero_add, Nat.div_div_eq_div_mul, ← Nat.pow_add, Nat.div_eq_of_lt]
  rw [hr, Nat.mul_add, Nat.mul_one, Nat.add_comm] at hi
  exact hi

end Cex.Spec.Xmss
