import Verif.Sphincs.ForsLemmas

/-!
# The layers of the SPHINCS+ engine
-/

namespace Cex.Sphincs
open Cex Cex.IntTools Cex.Keccak Cex.Spec.Sphincs

variable {P : List Byte → M (List Byte)} {f : List Byte → List Byte} {pr : Params} {s : Parameters}

/-- A tree of a layer. -/
def layerTree (F : Facts pr s) (p : Perm P f) (sks sd : List Byte) (hsd : sd.length = s.n) (l : Nat) (t : BitVec 64) (L B : Nat) (hB : L < 2 ^ s.h ∧ B = s.h ∨ B = s.h + 1) (apre apost : List Byte) (old : Nat → List Byte)
    (hold : ∀ z, z < B → (old z).length = s.n) : Tree f pr s where
  l := l
  t := t
  ty := 2
  kp := 0
  io := 0
  H := s.h
  L := L
  B := B
  leaf := treeLeaf (shakeHash f pr.rate) s sks sd l t.toNat
  comb := treeComb (shakeHash f pr.rate) s sd l t.toNat
  sd := sd
  apre := apre
  apost := apost
  old := old
  sdl := hsd
  leafLen := fun _ => T_len (good p F) _ _ _
  combLen := fun _ _ _ => T_len (good p F) _ _ _
  combEq := fun z j m _ hz => by rw [treeComb, Nat.zero_shiftRight, Nat.add_zero]
  oldLen := hold
  fits := fun z idx hz hidx he => by
    rcases hB with ⟨hL, hB⟩ | hB
    · by_contra hc
      have : z = s.h := by omega
      subst this
      rw [Nat.shiftRight_eq_div_pow, Nat.shiftRight_eq_div_pow, Nat.div_eq_of_lt hL, Nat.div_eq_of_lt hidx] at he
      exact absurd he (by decide)
    · omega

theorem tree_next (F : Facts pr s) (t : BitVec 64) : (t >>> pr.treeHeight).toNat = t.toNat / 2 ^ s.h ∧ (t &&& BitVec.ofNat 64 (2 ^ pr.treeHeight - 1)).toNat % 2 ^ 32 = t.toNat % 2 ^ s.h := by
  have h16 : s.h ≤ 16 := Nat.le_trans F.ha F.aSmall
  have hp : 2 ^ s.h ≤ 2 ^ 16 := Nat.pow_le_pow_right (by decide) h16
  have hlt : t.toNat % 2 ^ s.h < 2 ^ s.h := Nat.mod_lt _ (Nat.two_pow_pos _)
  constructor
  · rw [BitVec.toNat_ushiftRight, Nat.shiftRight_eq_div_pow, F.h]
  · rw [BitVec.toNat_and, BitVec.toNat_ofNat, Nat.mod_eq_of_lt (a := 2 ^ pr.treeHeight - 1) (by rw [F.h]; omega), F.h, Nat.and_two_pow_sub_one_eq_mod, Nat.mod_eq_of_lt (by omega)]

section
variable (p : Perm P f) (F : Facts pr s) {seed sd : List Byte} (hs : Holds seed 0 sd) (hsd : sd.length = s.n)
include p F hs hsd

section
variable {skseed sks : List Byte} (hk : Holds skseed 0 sks) (hkl : sks.length = s.n)
include hk hkl

/-- One layer of a signature with a leaf of the tree. -/
theorem signLayer_ok {pre junk post m stack : List Byte} {heights : List Nat} {off : Nat} (idx L l kp y z l' y' z' : Nat) (t t0 t0' : BitVec 64) (hL : L < 2 ^ s.h) (hm : m.length = s.n) (ho : off = pre.length) (hj : junk.length = layerBytes s)
    (hsl : (s.h + 1) * s.n ≤ stack.length) (hhl : s.h + 1 ≤ heights.length) :
    ∃ u u' v v' stack' heights', (s.h + 1) * s.n ≤ stack'.length ∧ s.h + 1 ≤ heights'.length
      ∧ signLayer P pr skseed seed idx ⟨pre ++ junk ++ post, off, m, mk l t0 2 0 y z, mk l' t0' 0 kp y' z', t, L, stack, heights⟩
        = .ok ⟨pre ++ (Spec.Sphincs.wotsSign (shakeHash f pr.rate) s sks sd idx t.toNat L m ++ treePath (shakeHash f pr.rate) s sks sd idx t.toNat L) ++ post, off + layerBytes s,
            treeRoot (shakeHash f pr.rate) s sks sd idx t.toNat, mk idx t 2 0 u v, mk idx t 0 L u' v', t >>> pr.treeHeight, t.toNat % 2 ^ s.h, stack', heights'⟩ := by
  have hn := F.n
  have hH := good p F
  rw [layerBytes] at hj
  obtain ⟨j1, j2, rfl, hj1, hj2⟩ : ∃ j1 j2, junk = j1 ++ j2 ∧ j1.length = wlen s * s.n ∧ j2.length = s.h * s.n := ⟨junk.take (wlen s * s.n), junk.drop (wlen s * s.n), take_split _ _, by rw [List.length_take]; omega, by rw [List.length_drop]; omega⟩
  obtain ⟨y1, z1, hw⟩ := wotsSign_ok p F hs hsd hk hkl (pre := pre) (junk := j1) (post := j2 ++ post) hm idx t L y' z' ho hj1
  have hwl := wotsSign_len (s := s) hH sks sd idx t.toNat L m
  let C := layerTree F p sks sd hsd idx t L s.h (.inl ⟨hL, rfl⟩) (pre ++ Spec.Sphincs.wotsSign (shakeHash f pr.rate) s sks sd idx t.toNat L m) post (piece s.n j2) (fun z hz => piece_len hj2 hz)
  obtain ⟨st, h1, h2, h3, h4, y2, z2, h5⟩ := C.treeHash_ok p F hs (genLeaf := wotsGenLeaf P pr skseed seed) (fun lf i y z hl => wotsGenLeaf_ok p F hs hsd hk hkl hl idx t 2 0 y z i)
    (rpre := []) (rjunk := m) (rpost := []) (stack := stack) (heights := heights) y z rfl hm hsl hhl
  rw [C.path_eq hL rfl] at h2
  replace h2 : st.auth = pre ++ Spec.Sphincs.wotsSign (shakeHash f pr.rate) s sks sd idx t.toNat L m ++ treePath (shakeHash f pr.rate) s sks sd idx t.toNat L ++ post := h2
  replace h5 : st.addr = mk idx t 2 0 y2 z2 := h5
  have h1' : treeHash P pr (wotsGenLeaf P pr skseed seed) pr.treeHeight m 0 (pre ++ Spec.Sphincs.wotsSign (shakeHash f pr.rate) s sks sd idx t.toNat L m ++ (j2 ++ post)) (off + pr.wotsBytes) seed L 0 (mk idx t 2 0 y z) stack heights
      = .ok (treeRoot (shakeHash f pr.rate) s sks sd idx t.toNat, st) := by
    rw [List.nil_append, List.append_nil, List.nil_append, List.append_nil] at h1
    rw [F.h, ← List.append_assoc, ← chunks_piece (x := j2) hj2, show off + pr.wotsBytes = (pre ++ Spec.Sphincs.wotsSign (shakeHash f pr.rate) s sks sd idx t.toNat L m).length from by
      rw [List.length_append, hwl, ho, Params.wotsBytes, F.wlen, hn]]
    exact h1
  refine ⟨y2, y1, z2, z1, st.stack, st.heights, h3, h4, ?_⟩
  rw [signLayer, show setTree (setLayer (mk l t0 2 0 y z) idx) t = mk idx t 2 0 y z from rfl, show setKeypair (copySubtree (mk idx t 2 0 y z) (mk l' t0' 0 kp y' z')) L = mk idx t 0 L y' z' from rfl]
  dsimp only
  rw [← List.append_assoc pre, List.append_assoc _ j2 post, hw, ok_bind]
  dsimp only
  rw [h1', ok_bind, h2, h5, (tree_next F t).2, F.h, hn, Params.wotsBytes, F.wlen, hn]
  simp only [pure_eq_ok, layerBytes, Nat.add_assoc, List.append_assoc]

/-- One layer of a signature with a leaf the tree does not have: the path is what the buffer held. -/
theorem signLayer_wild {pre junk junk' post m stack : List Byte} {heights : List Nat} {off : Nat} (idx L l kp y z l' y' z' : Nat) (t t0 t0' : BitVec 64) (hL : 2 ^ s.h ≤ L) (hm : m.length = s.n) (ho : off = pre.length) (hj : junk.length = layerBytes s)
    (hj' : junk'.length = s.n) (hsl : (s.h + 1) * s.n ≤ stack.length) (hhl : s.h + 1 ≤ heights.length) :
    ∃ junk'' u u' v v' stack' heights', junk''.length = s.n ∧ (s.h + 1) * s.n ≤ stack'.length ∧ s.h + 1 ≤ heights'.length
      ∧ signLayer P pr skseed seed idx ⟨pre ++ junk ++ (junk' ++ post), off, m, mk l t0 2 0 y z, mk l' t0' 0 kp y' z', t, L, stack, heights⟩
        = .ok ⟨pre ++ (Spec.Sphincs.wotsSign (shakeHash f pr.rate) s sks sd idx t.toNat L m ++ junk.drop (wlen s * s.n)) ++ (junk'' ++ post), off + layerBytes s,
            treeRoot (shakeHash f pr.rate) s sks sd idx t.toNat, mk idx t 2 0 u v, mk idx t 0 L u' v', t >>> pr.treeHeight, t.toNat % 2 ^ s.h, stack', heights'⟩ := by
  have hn := F.n
  have hH := good p F
  rw [layerBytes] at hj
  obtain ⟨j1, j2, rfl, hj1, hj2⟩ : ∃ j1 j2, junk = j1 ++ j2 ∧ j1.length = wlen s * s.n ∧ j2.length = s.h * s.n := ⟨junk.take (wlen s * s.n), junk.drop (wlen s * s.n), take_split _ _, by rw [List.length_take]; omega, by rw [List.length_drop]; omega⟩
  obtain ⟨y1, z1, hw⟩ := wotsSign_ok p F hs hsd hk hkl (pre := pre) (junk := j1) (post := j2 ++ (junk' ++ post)) hm idx t L y' z' ho hj1
  have hwl := wotsSign_len (s := s) hH sks sd idx t.toNat L m
  have hj3 : (j2 ++ junk').length = (s.h + 1) * s.n := by rw [List.length_append, hj2, hj', Nat.add_one_mul]
  have hold : chunks (piece s.n (j2 ++ junk')) s.h = j2 := by
    rw [chunks_congr (g' := piece s.n j2) _ fun i hi => ?_, chunks_piece hj2]
    have : (i + 1) * s.n ≤ s.h * s.n := Nat.mul_le_mul_right _ hi
    rw [Nat.add_one_mul i] at this
    rw [piece, piece, List.drop_append_of_le_length (by omega), List.take_append_of_le_length (by rw [List.length_drop]; omega)]
  let C := layerTree F p sks sd hsd idx t L (s.h + 1) (.inr rfl) (pre ++ Spec.Sphincs.wotsSign (shakeHash f pr.rate) s sks sd idx t.toNat L m) post (piece s.n (j2 ++ junk')) (fun z hz => piece_len hj3 hz)
  obtain ⟨st, h1, h2, h3, h4, y2, z2, h5⟩ := C.treeHash_ok p F hs (genLeaf := wotsGenLeaf P pr skseed seed) (fun lf i y z hl => wotsGenLeaf_ok p F hs hsd hk hkl hl idx t 2 0 y z i)
    (rpre := []) (rjunk := m) (rpost := []) (stack := stack) (heights := heights) y z rfl hm hsl hhl
  have hlast : ((fun z => if (C.want z + 1) * 2 ^ z ≤ 2 ^ C.H then C.N z (C.want z) else C.old z) s.h).length = s.n := by
    dsimp only
    split
    · exact node_len C.leafLen C.combLen _ _
    · exact C.oldLen _ (Nat.lt_succ_self _)
  have hauth : chunks (fun z => if (C.want z + 1) * 2 ^ z ≤ 2 ^ C.H then C.N z (C.want z) else C.old z) C.B = j2 ++ (fun z => if (C.want z + 1) * 2 ^ z ≤ 2 ^ C.H then C.N z (C.want z) else C.old z) s.h := by
    rw [show C.B = s.h + 1 from rfl, chunks]
    refine congrArg (· ++ _) (Eq.trans (chunks_congr _ fun z hz => ?_) hold)
    rw [if_neg]
    · rfl
    rw [C.want_sibling, show C.H = s.h from rfl, show C.L = L from rfl]
    have hp : 2 ^ s.h = 2 ^ (s.h - z - 1) * 2 * 2 ^ z := by rw [← Nat.pow_succ, ← Nat.pow_add]; congr 1; omega
    have h1 : 2 ^ (s.h - z - 1) * 2 ≤ L / 2 ^ z := by
      rw [Nat.le_div_iff_mul_le (Nat.two_pow_pos z), ← hp]; exact hL
    have h2 : 2 ^ (s.h - z - 1) * 2 < sibling (L / 2 ^ z) + 1 := by
      rw [sibling]
      generalize L / 2 ^ z = x at h1
      split <;> omega
    rw [hp, Nat.not_le]
    exact Nat.mul_lt_mul_of_pos_right h2 (Nat.two_pow_pos z)
  rw [hauth] at h2
  generalize (fun z => if (C.want z + 1) * 2 ^ z ≤ 2 ^ C.H then C.N z (C.want z) else C.old z) s.h = junk'' at hlast h2
  replace h2 : st.auth = pre ++ Spec.Sphincs.wotsSign (shakeHash f pr.rate) s sks sd idx t.toNat L m ++ (j2 ++ junk'') ++ post := h2
  replace h5 : st.addr = mk idx t 2 0 y2 z2 := h5
  have h1' : treeHash P pr (wotsGenLeaf P pr skseed seed) pr.treeHeight m 0 (pre ++ Spec.Sphincs.wotsSign (shakeHash f pr.rate) s sks sd idx t.toNat L m ++ (j2 ++ (junk' ++ post))) (off + pr.wotsBytes) seed L 0 (mk idx t 2 0 y z) stack heights
      = .ok (treeRoot (shakeHash f pr.rate) s sks sd idx t.toNat, st) := by
    rw [List.nil_append, List.append_nil, List.nil_append, List.append_nil] at h1
    rw [F.h, ← List.append_assoc j2, ← List.append_assoc, ← chunks_piece (x := j2 ++ junk') hj3, show off + pr.wotsBytes = (pre ++ Spec.Sphincs.wotsSign (shakeHash f pr.rate) s sks sd idx t.toNat L m).length from by
      rw [List.length_append, hwl, ho, Params.wotsBytes, F.wlen, hn]]
    exact h1
  refine ⟨junk'', y2, y1, z2, z1, st.stack, st.heights, hlast, h3, h4, ?_⟩
  rw [signLayer, show setTree (setLayer (mk l t0 2 0 y z) idx) t = mk idx t 2 0 y z from rfl, show setKeypair (copySubtree (mk idx t 2 0 y z) (mk l' t0' 0 kp y' z')) L = mk idx t 0 L y' z' from rfl]
  dsimp only
  rw [← List.append_assoc pre, List.append_assoc _ j2, hw, ok_bind]
  dsimp only
  rw [h1', ok_bind, h2, h5, (tree_next F t).2, F.h, hn, Params.wotsBytes, F.wlen, hn, List.drop_append_of_le_length (by omega), List.drop_eq_nil_of_le (by omega), List.nil_append]
  simp only [pure_eq_ok, layerBytes, Nat.add_assoc, List.append_assoc]

/-- The remaining layers. -/
theorem signLayers_ok : ∀ (r : Nat) {pre junk post m stack : List Byte} {heights : List Nat} {off : Nat} (idx L l kp y z l' y' z' : Nat) (t t0 t0' : BitVec 64), L < 2 ^ s.h → m.length = s.n → off = pre.length → junk.length = r * layerBytes s →
    (s.h + 1) * s.n ≤ stack.length → s.h + 1 ≤ heights.length →
    ∃ st, loopN r idx (signLayer P pr skseed seed) ⟨pre ++ junk ++ post, off, m, mk l t0 2 0 y z, mk l' t0' 0 kp y' z', t, L, stack, heights⟩ = .ok st
      ∧ st.sig = pre ++ htSign (shakeHash f pr.rate) s sks sd r idx t.toNat L m ++ post
  | 0, pre, junk, post, m, stack, heights, off, idx, L, l, kp, y, z, l', y', z', t, t0, t0', _, _, _, hj, _, _ => by
    have : junk = [] := List.length_eq_zero_iff.mp (by simpa using hj)
    subst this
    exact ⟨_, rfl, rfl⟩
  | r + 1, pre, junk, post, m, stack, heights, off, idx, L, l, kp, y, z, l', y', z', t, t0, t0', hL, hm, ho, hj, hsl, hhl => by
    have hH := good p F
    rw [Nat.add_one_mul r] at hj
    obtain ⟨j1, j2, rfl, hj1, hj2⟩ : ∃ j1 j2, junk = j1 ++ j2 ∧ j1.length = layerBytes s ∧ j2.length = r * layerBytes s := ⟨junk.take (layerBytes s), junk.drop (layerBytes s), take_split _ _, by rw [List.length_take]; omega, by rw [List.length_drop]; omega⟩
    obtain ⟨y1, y1', z1, z1', stack', heights', h1, h2, h3⟩ := signLayer_ok p F hs hsd hk hkl (pre := pre) (junk := j1) (post := j2 ++ post) idx L l kp y z l' y' z' t t0 t0' hL hm ho hj1 hsl hhl
    have hml : (treeRoot (shakeHash f pr.rate) s sks sd idx t.toNat).length = s.n := treeRoot_len hH _ _ _ _
    obtain ⟨st, h4, h5⟩ := signLayers_ok r (pre := pre ++ (Spec.Sphincs.wotsSign (shakeHash f pr.rate) s sks sd idx t.toNat L m ++ treePath (shakeHash f pr.rate) s sks sd idx t.toNat L)) (junk := j2) (post := post)
      (off := off + layerBytes s) (idx + 1) (t.toNat % 2 ^ s.h) idx L y1 z1 idx y1' z1' (t >>> pr.treeHeight) t t (Nat.mod_lt _ (Nat.two_pow_pos _)) hml
      (by rw [List.length_append, List.length_append, wotsSign_len hH, treePath_len hH, ho, layerBytes]) hj2 h1 h2
    refine ⟨st, ?_, ?_⟩
    · rw [loopN, ← List.append_assoc pre, List.append_assoc _ j2 post, h3, ok_bind, ← List.append_assoc _ j2]
      exact h4
    · rw [h5, htSign, (tree_next F t).1]
      simp only [List.append_assoc]

end

/-- One layer of the verification. -/
theorem verifyLayer_ok {sig sg m leaf wpk : List Byte} {off : Nat} (hsig : Holds sig off sg) (hsg : layerBytes s ≤ sg.length) (idx L l kp y z l' y' z' l2 kp2 : Nat) (t t0 t0' t2 : BitVec 64) (hm : m.length = s.n) (hlf : leaf.length = s.n) (hwp : wpk.length = wlen s * s.n) :
    ∃ leaf' wpk' u v u' v', leaf'.length = s.n ∧ wpk'.length = wlen s * s.n ∧
      verifyLayer P pr sig seed idx ⟨off, m, leaf, wpk, mk l t0 2 0 y z, mk l' t0' 0 kp y' z', mk l2 t2 1 kp2 0 0, t, L⟩
        = .ok ⟨off + layerBytes s, climb (treeComb (shakeHash f pr.rate) s sd idx t.toNat) (piece s.n ((sg.drop (wlen s * s.n)).take (s.h * s.n))) L
            (compressPk (shakeHash f pr.rate) s sd idx t.toNat L (Spec.Sphincs.wotsPkFromSig (shakeHash f pr.rate) s sd idx t.toNat L (sg.take (wlen s * s.n)) m)) s.h,
            leaf', wpk', mk idx t 2 0 u v, mk idx t 0 L u' v', mk idx t 1 L 0 0, t >>> pr.treeHeight, t.toNat % 2 ^ s.h⟩ := by
  have hn := F.n
  have hH := good p F
  rw [layerBytes] at hsg
  obtain ⟨y1, z1, hw⟩ := wotsPkFromSig_ok p F hs hsd (sg := sg.take (wlen s * s.n)) (hsig.takeN _) (by rw [List.length_take]; omega) hm idx t L y' z' hwp
  have hpl : (Spec.Sphincs.wotsPkFromSig (shakeHash f pr.rate) s sd idx t.toNat L (sg.take (wlen s * s.n)) m).length = wlen s * s.n :=
    chunks_len _ fun i hi => chain_len hH (piece_len (k := wlen s) (by rw [List.length_take]; omega) hi) _
  have hth := thash_ok p F (pre := []) (junk := leaf) (post := []) (oo := 0) (blocks := wlen s) (Holds.self (Spec.Sphincs.wotsPkFromSig (shakeHash f pr.rate) s sd idx t.toNat L (sg.take (wlen s * s.n)) m)) hpl hs hsd (mk idx t 1 L 0 0) rfl rfl
    (by rw [wlen]; have := F.nSmall; omega) rfl hlf
  rw [List.nil_append, List.append_nil, List.nil_append, List.append_nil, mk_bytes] at hth
  obtain ⟨y2, z2, hc⟩ := computeRoot_ok p F hs hsd (l := idx) (t := t) (ty := 2) (kp := 0) (io := 0) (H := s.h) (L := L) (comb := treeComb (shakeHash f pr.rate) s sd idx t.toNat)
    (fun _ _ _ => T_len hH _ _ _) (fun z j m _ hz => by rw [treeComb, Nat.zero_shiftRight, Nat.add_zero]) F.h0 (pre := []) (junk := m) (post := []) (ro := 0)
    (Holds.self (compressPk (shakeHash f pr.rate) s sd idx t.toNat L (Spec.Sphincs.wotsPkFromSig (shakeHash f pr.rate) s sd idx t.toNat L (sg.take (wlen s * s.n)) m))) (T_len hH _ _ _)
    ((hsig.dropN (n := wlen s * s.n) (by omega)).takeN (s.h * s.n)) (by rw [List.length_take, List.length_drop]; omega) y z rfl hm
  rw [List.nil_append, List.append_nil, List.nil_append, List.append_nil] at hc
  refine ⟨compressPk (shakeHash f pr.rate) s sd idx t.toNat L (Spec.Sphincs.wotsPkFromSig (shakeHash f pr.rate) s sd idx t.toNat L (sg.take (wlen s * s.n)) m),
    Spec.Sphincs.wotsPkFromSig (shakeHash f pr.rate) s sd idx t.toNat L (sg.take (wlen s * s.n)) m, y2, z2, y1, z1, T_len hH _ _ _, hpl, ?_⟩
  rw [verifyLayer, show setTree (setLayer (mk l t0 2 0 y z) idx) t = mk idx t 2 0 y z from rfl, show setKeypair (copySubtree (mk idx t 2 0 y z) (mk l' t0' 0 kp y' z')) L = mk idx t 0 L y' z' from rfl,
    show copyKeypair (mk idx t 0 L y' z') (mk l2 t2 1 kp2 0 0) = mk idx t 1 L 0 0 from rfl]
  dsimp only
  rw [hw, ok_bind]
  dsimp only
  rw [F.wlen, hth, ok_bind, F.h, Params.wotsBytes, F.wlen, hn]
  rw [show T (shakeHash f pr.rate) s sd (adrs idx t.toNat 1 L 0 0) (Spec.Sphincs.wotsPkFromSig (shakeHash f pr.rate) s sd idx t.toNat L (sg.take (wlen s * s.n)) m)
    = compressPk (shakeHash f pr.rate) s sd idx t.toNat L (Spec.Sphincs.wotsPkFromSig (shakeHash f pr.rate) s sd idx t.toNat L (sg.take (wlen s * s.n)) m) from rfl, hc, ok_bind, ← F.h, (tree_next F t).2, F.h]
  simp only [pure_eq_ok, layerBytes, Nat.add_assoc]

/-- The remaining layers. -/
theorem verifyLayers_ok : ∀ (r : Nat) {sig sg m leaf wpk : List Byte} {off : Nat}, Holds sig off sg → sg.length = r * layerBytes s → ∀ (idx L l kp y z l' y' z' l2 kp2 : Nat) (t t0 t0' t2 : BitVec 64), m.length = s.n → leaf.length = s.n → wpk.length = wlen s * s.n →
    ∃ st, loopN r idx (verifyLayer P pr sig seed) ⟨off, m, leaf, wpk, mk l t0 2 0 y z, mk l' t0' 0 kp y' z', mk l2 t2 1 kp2 0 0, t, L⟩ = .ok st
      ∧ st.root = htRoot (shakeHash f pr.rate) s sd r idx t.toNat L m sg
  | 0, _, _, _, _, _, _, _, _, _, _, _, _, _, _, _, _, _, _, _, _, _, _, _, _, _, _ => ⟨_, rfl, rfl⟩
  | r + 1, sig, sg, m, leaf, wpk, off, hsig, hsg, idx, L, l, kp, y, z, l', y', z', l2, kp2, t, t0, t0', t2, hm, hlf, hwp => by
    have hH := good p F
    rw [Nat.add_one_mul r] at hsg
    obtain ⟨leaf', wpk', y1, z1, y1', z1', h1, h2, h3⟩ := verifyLayer_ok p F hs hsd hsig (by omega) idx L l kp y z l' y' z' l2 kp2 t t0 t0' t2 hm hlf hwp
    obtain ⟨st, h4, h5⟩ := verifyLayers_ok r (hsig.dropN (n := layerBytes s) (by omega)) (by rw [List.length_drop]; omega) (idx + 1) (t.toNat % 2 ^ s.h) idx L y1 z1 idx y1' z1' idx L (t >>> pr.treeHeight) t t t
      (climb_len (x := compressPk (shakeHash f pr.rate) s sd idx t.toNat L (Spec.Sphincs.wotsPkFromSig (shakeHash f pr.rate) s sd idx t.toNat L (sg.take (wlen s * s.n)) m)) (comb := treeComb (shakeHash f pr.rate) s sd idx t.toNat)
        (sib := piece s.n ((sg.drop (wlen s * s.n)).take (s.h * s.n))) (L := L) (T_len hH _ _ _) (fun _ _ _ => T_len hH _ _ _) s.h) h1 h2
    refine ⟨st, ?_, ?_⟩
    · rw [loopN, h3, ok_bind]
      exact h4
    · rw [h5, htRoot, (tree_next F t).1]

end
end Cex.Sphincs
