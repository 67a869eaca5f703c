import Verif.Xmss.TreeLemmas

/-!
# The layers of the XMSS engine
-/

namespace Cex.Xmss
open Cex Cex.IntTools
open Cex.Keccak hiding wr_at rd_at
open Cex.Spec.Sphincs (chunks piece node sibling path climb lengths hexDigits checksum chunks_len chunks_congr chunks_split chunks_at piece_chunks node_len path_len climb_stored lengths_le)
open Cex.Spec.Xmss hiding prf wotsSign wotsPkFromSig sign
open Cex.Sphincs (Addr ullToBytes bytesToUll bytesToUll_ok baseW resize fill loopN_last take_split wr_at rd_at piece_len piece_holds chunks_piece climb_len pair)

variable {ch : HashFn} {pr : Params} {s : Parameters}

/-! ## Roots -/

section
variable (H : Hashes ch s.H s.n) (F : Facts pr s) {seed sd : List Byte} (hs : Holds seed 0 sd) (hsd : sd.length = s.n)
include H F hs hsd

theorem computeRoot_ok {l L : Nat} {t : BitVec 64} {leaf x auth au junk : List Byte} {ao : Nat} (hx : Holds leaf 0 x) (hxl : x.length = s.n) (ha : Holds auth ao au) (hau : au.length = s.h * s.n) (y z k : Nat) (hj : junk.length = s.n) :
    ∃ y' z' k', computeRoot ch pr junk leaf L auth ao seed (mk l t 2 0 y z k) = .ok (climb (treeComb s sd l t.toNat) (piece s.n au) L x s.h, mk l t 2 0 y' z' k') := by
  have hn := F.n
  have hH := F.h0
  generalize hcomb : treeComb s sd l t.toNat = comb
  have hcl : ∀ z j m, (comb z j m).length = s.n := by rw [← hcomb]; exact fun _ _ _ => randHash_len H.good _ _ _
  have hce : ∀ i j m, comb (i + 1) j m = randHash s sd (adrs l t.toNat 2 0 i j) m := by rw [← hcomb]; exact fun _ _ _ => rfl
  have hsib : ∀ i, i < s.h → (piece s.n au i).length = s.n := fun i hi => piece_len hau hi
  have hhold : ∀ i, i < s.h → Holds auth (ao + i * s.n) (piece s.n au i) := fun i hi => piece_holds ha hau hi
  have hcll : ∀ i, (climb comb (piece s.n au) L x i).length = s.n := fun i => climb_len hxl hcl i
  have hpl : ∀ i, i < s.h → (pair comb (piece s.n au) L x i).length = 2 * s.n := fun i hi => by
    rw [pair]; split <;> rw [List.length_append, hcll, hsib i hi] <;> omega
  have e0 : List.replicate (pr.n * 2) (0 : Byte) = List.replicate pr.n 0 ++ List.replicate pr.n 0 := by rw [List.replicate_append_replicate]; congr 1; omega
  have hclimb : ∀ i, randHash s sd (adrs l t.toNat 2 0 i (L / 2 ^ (i + 1))) (pair comb (piece s.n au) L x i) = climb comb (piece s.n au) L x (i + 1) := fun i => by
    rw [climb, hce]; rfl
  have hfirst : (if L % 2 = 1 then do
      let b ← copy auth ao (List.replicate (pr.n * 2) 0) 0 pr.n
      copy leaf 0 b pr.n pr.n
    else do
      let b ← copy leaf 0 (List.replicate (pr.n * 2) 0) 0 pr.n
      copy auth ao b pr.n pr.n : M (List Byte)) = .ok (pair comb (piece s.n au) L x 0) := by
    have h0 := hhold 0 hH
    rw [Nat.zero_mul, Nat.add_zero] at h0
    rw [e0, pair, Nat.pow_zero, Nat.div_one]
    have hs0 := hsib 0 hH
    by_cases hp : L % 2 = 1
    · rw [if_pos hp, if_pos hp]
      have h1 := copy_at (a := []) (b := List.replicate pr.n (0 : Byte)) (c := List.replicate pr.n 0) h0 (off := 0) (n := pr.n) rfl (by omega) (by rw [List.length_replicate]; omega)
      rw [List.nil_append, List.nil_append] at h1
      have h2 := copy_at (a := piece s.n au 0) (b := List.replicate pr.n (0 : Byte)) (c := []) hx (off := pr.n) (n := pr.n) (by omega) (by omega) (by rw [List.length_replicate]; omega)
      rw [List.append_nil, List.append_nil] at h2
      rw [h1, ok_bind, h2]; rfl
    · rw [if_neg hp, if_neg hp]
      have h1 := copy_at (a := []) (b := List.replicate pr.n (0 : Byte)) (c := List.replicate pr.n 0) hx (off := 0) (n := pr.n) rfl (by omega) (by rw [List.length_replicate]; omega)
      rw [List.nil_append, List.nil_append] at h1
      have h2 := copy_at (a := x) (b := List.replicate pr.n (0 : Byte)) (c := []) h0 (off := pr.n) (n := pr.n) (by omega) (by omega) (by rw [List.length_replicate]; omega)
      rw [List.append_nil, List.append_nil] at h2
      rw [h1, ok_bind, h2]; rfl
  obtain ⟨⟨buf, l', ao', a'⟩, h1, e1, e2, e4, y', z', k', e5⟩ := loopN_inv
    (P := fun i (st : List Byte × Nat × Nat × Addr) => st.1 = pair comb (piece s.n au) L x i ∧ st.2.1 = L / 2 ^ i ∧ st.2.2.1 = ao + (i + 1) * s.n ∧ ∃ y z k, st.2.2.2 = mk l t 2 0 y z k)
    (f := fun i (st : List Byte × Nat × Nat × Addr) => do
      let (buf, l, ao, a) := st
      let a := setChain a i
      let l := l / 2
      let a := setHash a l
      let r ← (if l % 2 = 1 then do
          let b ← thashH ch pr buf pr.n buf 0 seed a
          let c ← copy auth ao b.1 0 pr.n
          return (c, b.2)
        else do
          let b ← thashH ch pr buf 0 buf 0 seed a
          let c ← copy auth ao b.1 pr.n pr.n
          return (c, b.2) : M (List Byte × Addr))
      return (r.1, l, ao + pr.n, r.2)) (pr.treeHeight - 1) 0 (pair comb (piece s.n au) L x 0, L, ao + pr.n, mk l t 2 0 y z k)
    (by
      rintro i ⟨buf, l', ao', a'⟩ _ hlt ⟨e1, e2, e4, y, z, k, e5⟩
      dsimp only at e1 e2 e4 e5 ⊢
      subst e1 e2 e4 e5
      rw [F.h] at hlt
      have hi : i + 1 < s.h := by omega
      have hpi := hpl i (by omega)
      rw [Nat.div_div_eq_div_mul, ← Nat.pow_succ]
      refine ⟨(pair comb (piece s.n au) L x (i + 1), L / 2 ^ (i + 1), ao + (i + 1) * s.n + pr.n, mk l t 2 0 i (L / 2 ^ (i + 1)) 2), ?_, rfl, rfl, by dsimp only; rw [hn, Nat.add_one_mul (i + 1)]; omega, _, _, _, rfl⟩
      rw [show setHash (setChain (mk l t 2 0 y z k) i) (L / 2 ^ (i + 1)) = mk l t 2 0 i (L / 2 ^ (i + 1)) k from rfl]
      have esplit : pair comb (piece s.n au) L x i = (pair comb (piece s.n au) L x i).take s.n ++ (pair comb (piece s.n au) L x i).drop s.n := take_split _ _
      have hlt1 : ((pair comb (piece s.n au) L x i).take s.n).length = s.n := by rw [List.length_take]; omega
      have hlt2 : ((pair comb (piece s.n au) L x i).drop s.n).length = s.n := by rw [List.length_drop]; omega
      have hau' := hhold (i + 1) hi
      have hsi := hsib (i + 1) hi
      have hcli := hcll (i + 1)
      by_cases hp : L / 2 ^ (i + 1) % 2 = 1
      · have ht := thashH_ok H F (pre := (pair comb (piece s.n au) L x i).take s.n) (junk := (pair comb (piece s.n au) L x i).drop s.n) (post := []) (oo := pr.n) (Holds.self (pair comb (piece s.n au) L x i))
          (by rw [hpi]) hs hsd l t 2 0 i (L / 2 ^ (i + 1)) k (by rw [hlt1, hn]) hlt2
        rw [List.append_nil, List.append_nil, ← esplit, hclimb] at ht
        have hc2 := copy_at (a := []) (b := (pair comb (piece s.n au) L x i).take s.n) (c := climb comb (piece s.n au) L x (i + 1)) hau' (off := 0) (n := pr.n) rfl (by omega) (by omega)
        rw [List.nil_append, List.nil_append] at hc2
        rw [if_pos hp, ht, ok_bind]
        dsimp only
        rw [hc2, ok_bind, pair, if_pos hp]
        rfl
      · have ht := thashH_ok H F (pre := []) (junk := (pair comb (piece s.n au) L x i).take s.n) (post := (pair comb (piece s.n au) L x i).drop s.n) (oo := 0) (Holds.self (pair comb (piece s.n au) L x i))
          (by rw [hpi]) hs hsd l t 2 0 i (L / 2 ^ (i + 1)) k rfl hlt1
        rw [List.nil_append, List.nil_append, ← esplit, hclimb] at ht
        have hc2 := copy_at (a := climb comb (piece s.n au) L x (i + 1)) (b := (pair comb (piece s.n au) L x i).drop s.n) (c := []) hau' (off := pr.n) (n := pr.n) (by omega) (by omega) (by omega)
        rw [List.append_nil, List.append_nil] at hc2
        rw [if_neg hp, ht, ok_bind]
        dsimp only
        rw [hc2, ok_bind, pair, if_neg hp]
        rfl)
    ⟨rfl, by simp, by dsimp only; rw [hn]; omega, y, z, k, rfl⟩
  dsimp only at e1 e2 e4 e5
  subst e1 e2 e5
  rw [Nat.zero_add, F.h] at *
  have hlast := hclimb (s.h - 1)
  rw [show s.h - 1 + 1 = s.h from by omega] at hlast
  have ht := thashH_ok H F (pre := []) (junk := junk) (post := []) (oo := 0) (Holds.self (pair comb (piece s.n au) L x (s.h - 1))) (by rw [hpl _ (by omega)]) hs hsd l t 2 0 (s.h - 1) (L / 2 ^ s.h) k' rfl hj
  rw [List.nil_append, List.append_nil, List.nil_append, List.append_nil, hlast] at ht
  refine ⟨s.h - 1, L / 2 ^ s.h, 2, ?_⟩
  rw [computeRoot, hfirst, ok_bind, F.h, h1, ok_bind]
  dsimp only
  rw [Nat.div_div_eq_div_mul, ← Nat.pow_succ, show (s.h - 1).succ = s.h from by omega, show setHash (setChain (mk l t 2 0 y' z' k') (s.h - 1)) (L / 2 ^ s.h) = mk l t 2 0 (s.h - 1) (L / 2 ^ s.h) k' from rfl, ht]

end

theorem tree_next (F : Facts pr s) (t : BitVec 64) : (t >>> pr.treeHeight).toNat = t.toNat / 2 ^ s.h ∧ (t &&& BitVec.ofNat 64 (2 ^ pr.treeHeight - 1)).toNat % 2 ^ 32 = t.toNat % 2 ^ s.h := by
  have hp : 2 ^ s.h ≤ 2 ^ 20 := Nat.pow_le_pow_right (by decide) F.hSmall
  have hlt : t.toNat % 2 ^ s.h < 2 ^ s.h := Nat.mod_lt _ (Nat.two_pow_pos _)
  constructor
  · rw [BitVec.toNat_ushiftRight, Nat.shiftRight_eq_div_pow, F.h]
  · rw [BitVec.toNat_and, BitVec.toNat_ofNat, Nat.mod_eq_of_lt (a := 2 ^ pr.treeHeight - 1) (by rw [F.h]; omega), F.h, Nat.and_two_pow_sub_one_eq_mod, Nat.mod_eq_of_lt (by omega)]

section
variable (H : Hashes ch s.H s.n) (F : Facts pr s) {seed sd : List Byte} (hs : Holds seed 0 sd) (hsd : sd.length = s.n)
include H F hs hsd

section
variable {skseed sks : List Byte} (hk : Holds skseed 0 sks) (hkl : sks.length = s.n)
include hk hkl

/-- One layer of a signature. -/
theorem signLayer_ok {pre junk post m sb : List Byte} {off : Nat} (i l kp y z k : Nat) (t t0 : BitVec 64) (hm : m.length = s.n) (hsb : sb.length = s.n) (ho : off = pre.length) (hj : junk.length = layerBytes s) :
    ∃ y' z' k' sb', sb'.length = s.n ∧ signLayer ch pr skseed seed i ⟨pre ++ junk ++ post, off, m, mk l t0 0 kp y z k, sb, t⟩
        = .ok ⟨pre ++ (Spec.Xmss.wotsSign s sks sd i (t.toNat / 2 ^ s.h) (t.toNat % 2 ^ s.h) m ++ treePath s sks sd i (t.toNat / 2 ^ s.h) (t.toNat % 2 ^ s.h)) ++ post, off + layerBytes s,
            treeRoot s sks sd i (t.toNat / 2 ^ s.h), mk i (t >>> pr.treeHeight) 0 (t.toNat % 2 ^ s.h) y' z' k', sb', t >>> pr.treeHeight⟩ := by
  have hn := F.n
  have hg := H.good
  rw [layerBytes] at hj
  obtain ⟨j1, j2, rfl, hj1, hj2⟩ : ∃ j1 j2, junk = j1 ++ j2 ∧ j1.length = wlen s * s.n ∧ j2.length = s.h * s.n := ⟨junk.take (wlen s * s.n), junk.drop (wlen s * s.n), take_split _ _, by rw [List.length_take]; omega, by rw [List.length_drop]; omega⟩
  have ht := tree_next F t
  rw [← ht.1]
  generalize hT : t >>> pr.treeHeight = T at *
  generalize hL : t.toNat % 2 ^ s.h = L at *
  have hLt : L < 2 ^ s.h := by rw [← hL]; exact Nat.mod_lt _ (Nat.two_pow_pos _)
  have hsl : (wotsSeed s sks i T.toNat L).length = s.n := prf_len hg _ _
  obtain ⟨y1, z1, k1, hw⟩ := wotsSign_ok H F hs hsd (sks := sks) (sec := wotsSeed s sks i T.toNat L) (pre := pre) (junk := j1) (post := j2 ++ post) (off := off) hm i T L 0 0 0 (Holds.self _) ho hj1
  have hwl := wotsSign_len hg sks sd i T.toNat L m
  let C : Tree s := ⟨i, T, L, sks, sd, pre ++ Spec.Xmss.wotsSign s sks sd i T.toNat L m, post, piece s.n j2, hg, hsd, hkl, fun z hz => piece_len hj2 hz, hLt⟩
  have h1 := C.treeHash_ok H F hs hk (rpre := []) (rjunk := m) (rpost := []) (ro := 0) 0 L y1 z1 k1 rfl hm
  replace h1 : treeHash ch pr ([] ++ m ++ []) 0 (pre ++ Spec.Xmss.wotsSign s sks sd i T.toNat L m ++ chunks (piece s.n j2) s.h ++ post) (pre ++ Spec.Xmss.wotsSign s sks sd i T.toNat L m).length skseed 0 seed L (mk i T 0 L y1 z1 k1)
    = .ok ([] ++ treeRoot s sks sd i T.toNat ++ [], pre ++ Spec.Xmss.wotsSign s sks sd i T.toNat L m ++ treePath s sks sd i T.toNat L ++ post) := h1
  rw [List.nil_append, List.append_nil, List.nil_append, List.append_nil, chunks_piece hj2, List.length_append, hwl, ← ho, List.append_assoc _ j2 post] at h1
  refine ⟨y1, z1, k1, wotsSeed s sks i T.toNat L, hsl, ?_⟩
  rw [signLayer]
  dsimp only
  rw [ht.2, hT, show setOts (setTree (setLayer (mk l t0 0 kp y z k) i) T) L = mk i T 0 L y z k from rfl, getSeed_ok H F hk hkl hsb, ok_bind]
  dsimp only
  rw [← List.append_assoc pre, List.append_assoc _ j2 post, hw, ok_bind]
  dsimp only
  rw [Params.wotsBytes, F.wlen, hn, h1, ok_bind, F.h]
  simp only [pure_eq_ok, layerBytes, Nat.add_assoc, List.append_assoc]

/-- The remaining layers. -/
theorem signLayers_ok : ∀ (r : Nat) {pre junk post m sb : List Byte} {off : Nat} (i l kp y z k : Nat) (t t0 : BitVec 64), m.length = s.n → sb.length = s.n → off = pre.length → junk.length = r * layerBytes s →
    ∃ st, loopN r i (signLayer ch pr skseed seed) ⟨pre ++ junk ++ post, off, m, mk l t0 0 kp y z k, sb, t⟩ = .ok st
      ∧ st.sig = pre ++ htSign s sks sd r i (t.toNat / 2 ^ s.h) (t.toNat % 2 ^ s.h) m ++ post
  | 0, pre, junk, post, m, sb, off, i, l, kp, y, z, k, t, t0, _, _, _, hj => by
    have : junk = [] := List.length_eq_zero_iff.mp (by simpa using hj)
    subst this
    exact ⟨_, rfl, rfl⟩
  | r + 1, pre, junk, post, m, sb, off, i, l, kp, y, z, k, t, t0, hm, hsb, ho, hj => by
    have hg := H.good
    rw [Nat.add_one_mul r] at hj
    obtain ⟨j1, j2, rfl, hj1, hj2⟩ : ∃ j1 j2, junk = j1 ++ j2 ∧ j1.length = layerBytes s ∧ j2.length = r * layerBytes s := ⟨junk.take (layerBytes s), junk.drop (layerBytes s), take_split _ _, by rw [List.length_take]; omega, by rw [List.length_drop]; omega⟩
    obtain ⟨y1, z1, k1, sb', hsb', h3⟩ := signLayer_ok H F hs hsd hk hkl (pre := pre) (junk := j1) (post := j2 ++ post) i l kp y z k t t0 hm hsb ho hj1
    obtain ⟨st, h4, h5⟩ := signLayers_ok r (pre := pre ++ (Spec.Xmss.wotsSign s sks sd i (t.toNat / 2 ^ s.h) (t.toNat % 2 ^ s.h) m ++ treePath s sks sd i (t.toNat / 2 ^ s.h) (t.toNat % 2 ^ s.h))) (junk := j2) (post := post)
      (off := off + layerBytes s) (i + 1) i (t.toNat % 2 ^ s.h) y1 z1 k1 (t >>> pr.treeHeight) (t >>> pr.treeHeight) (treeRoot_len hg sks sd i (t.toNat / 2 ^ s.h)) hsb'
      (by rw [List.length_append, List.length_append, wotsSign_len hg, treePath_len hg, ho, layerBytes]) hj2
    refine ⟨st, ?_, ?_⟩
    · rw [loopN, ← List.append_assoc pre, List.append_assoc _ j2 post, h3, ok_bind, ← List.append_assoc _ j2]
      exact h4
    · rw [h5, htSign, (tree_next F t).1]
      simp only [List.append_assoc]

end

/-- One layer of the verification. -/
theorem verifyLayer_ok {sig sg m leaf wpk : List Byte} {off : Nat} (hsig : Holds sig off sg) (hsg : layerBytes s ≤ sg.length) (i l y z k kp l' y' z' k' kp' l2 y2 z2 k2 : Nat) (t t0 t0' t2 : BitVec 64) (hm : m.length = s.n)
    (hlf : leaf.length = s.n) (hwp : wpk.length = wlen s * s.n) :
    ∃ leaf' wpk' y3 z3 k3 y4 z4 k4 y5 z5 k5, leaf'.length = s.n ∧ wpk'.length = wlen s * s.n ∧
      verifyLayer ch pr sig seed i ⟨off, m, leaf, wpk, mk l t0 0 kp y z k, mk l' t0' 1 kp' y' z' k', mk l2 t2 2 0 y2 z2 k2, t⟩
        = .ok ⟨off + layerBytes s, climb (treeComb s sd i (t.toNat / 2 ^ s.h)) (piece s.n ((sg.drop (wlen s * s.n)).take (s.h * s.n))) (t.toNat % 2 ^ s.h)
            (compressPk s sd i (t.toNat / 2 ^ s.h) (t.toNat % 2 ^ s.h) (Spec.Xmss.wotsPkFromSig s sd i (t.toNat / 2 ^ s.h) (t.toNat % 2 ^ s.h) (sg.take (wlen s * s.n)) m)) s.h,
            leaf', wpk', mk i (t >>> pr.treeHeight) 0 (t.toNat % 2 ^ s.h) y3 z3 k3, mk i (t >>> pr.treeHeight) 1 (t.toNat % 2 ^ s.h) y4 z4 k4, mk i (t >>> pr.treeHeight) 2 0 y5 z5 k5, t >>> pr.treeHeight⟩ := by
  have hn := F.n
  have hg := H.good
  rw [layerBytes] at hsg
  have ht := tree_next F t
  rw [← ht.1]
  generalize hT : t >>> pr.treeHeight = T at *
  generalize hL : t.toNat % 2 ^ s.h = L at *
  obtain ⟨y3, z3, k3, hw⟩ := wotsPkFromSig_ok H F hs hsd (sg := sg.take (wlen s * s.n)) (hsig.takeN _) (by rw [List.length_take]; omega) hm i T L y z k hwp
  have hpl : (Spec.Xmss.wotsPkFromSig s sd i T.toNat L (sg.take (wlen s * s.n)) m).length = wlen s * s.n :=
    chunks_len _ fun j hj => chain_len hg (piece_len (k := wlen s) (by rw [List.length_take]; omega) hj) _
  obtain ⟨wpk', y4, z4, k4, hwl, hlt⟩ := lTree_ok H F hs hsd (pre := []) (junk := leaf) (post := []) (off := 0) hpl i T L y' z' k' rfl hlf
  rw [List.nil_append, List.append_nil, List.nil_append, List.append_nil] at hlt
  have hcl := compressPk_len hg (pkseed := sd) i T.toNat L hpl
  obtain ⟨y5, z5, k5, hc⟩ := computeRoot_ok H F hs hsd (l := i) (t := T) (L := L) (junk := m) (Holds.self (compressPk s sd i T.toNat L (Spec.Xmss.wotsPkFromSig s sd i T.toNat L (sg.take (wlen s * s.n)) m))) hcl
    ((hsig.dropN (n := wlen s * s.n) (by omega)).takeN (s.h * s.n)) (by rw [List.length_take, List.length_drop]; omega) y2 z2 k2 hm
  refine ⟨compressPk s sd i T.toNat L (Spec.Xmss.wotsPkFromSig s sd i T.toNat L (sg.take (wlen s * s.n)) m), wpk', y3, z3, k3, y4, z4, k4, y5, z5, k5, hcl, hwl, ?_⟩
  rw [verifyLayer]
  dsimp only
  rw [ht.2, hT, show setOts (setTree (setLayer (mk l t0 0 kp y z k) i) T) L = mk i T 0 L y z k from rfl, hw, ok_bind]
  dsimp only
  rw [show setOts (setTree (setLayer (mk l' t0' 1 kp' y' z' k') i) T) L = mk i T 1 L y' z' k' from rfl, hlt, ok_bind]
  dsimp only
  rw [show setTree (setLayer (mk l2 t2 2 0 y2 z2 k2) i) T = mk i T 2 0 y2 z2 k2 from rfl, Params.wotsBytes, F.wlen, hn, hc, ok_bind, F.h]
  simp only [pure_eq_ok, layerBytes, Nat.add_assoc]

/-- The remaining layers. -/
theorem verifyLayers_ok : ∀ (r : Nat) {sig sg m leaf wpk : List Byte} {off : Nat}, Holds sig off sg → sg.length = r * layerBytes s → ∀ (i l y z k kp l' y' z' k' kp' l2 y2 z2 k2 : Nat) (t t0 t0' t2 : BitVec 64), m.length = s.n → leaf.length = s.n →
    wpk.length = wlen s * s.n →
    ∃ st, loopN r i (verifyLayer ch pr sig seed) ⟨off, m, leaf, wpk, mk l t0 0 kp y z k, mk l' t0' 1 kp' y' z' k', mk l2 t2 2 0 y2 z2 k2, t⟩ = .ok st
      ∧ st.root = htRoot s sd r i (t.toNat / 2 ^ s.h) (t.toNat % 2 ^ s.h) m sg
  | 0, _, _, _, _, _, _, _, _, _, _, _, _, _, _, _, _, _, _, _, _, _, _, _, _, _, _, _, _, _, _ => ⟨_, rfl, rfl⟩
  | r + 1, sig, sg, m, leaf, wpk, off, hsig, hsg, i, l, y, z, k, kp, l', y', z', k', kp', l2, y2, z2, k2, t, t0, t0', t2, hm, hlf, hwp => by
    have hg := H.good
    rw [Nat.add_one_mul r] at hsg
    obtain ⟨leaf', wpk', y3, z3, k3, y4, z4, k4, y5, z5, k5, h1, h2, h3⟩ := verifyLayer_ok H F hs hsd hsig (by omega) i l y z k kp l' y' z' k' kp' l2 y2 z2 k2 t t0 t0' t2 hm hlf hwp
    have hpl : (Spec.Xmss.wotsPkFromSig s sd i (t.toNat / 2 ^ s.h) (t.toNat % 2 ^ s.h) (sg.take (wlen s * s.n)) m).length = wlen s * s.n :=
      chunks_len _ fun j hj => chain_len hg (piece_len (k := wlen s) (by rw [List.length_take]; rw [layerBytes] at hsg; omega) hj) _
    obtain ⟨st, h4, h5⟩ := verifyLayers_ok r (hsig.dropN (n := layerBytes s) (by omega)) (by rw [List.length_drop]; omega) (i + 1) i y3 z3 k3 (t.toNat % 2 ^ s.h) i y4 z4 k4 (t.toNat % 2 ^ s.h) i y5 z5 k5
      (t >>> pr.treeHeight) (t >>> pr.treeHeight) (t >>> pr.treeHeight) (t >>> pr.treeHeight)
      (climb_len (x := compressPk s sd i (t.toNat / 2 ^ s.h) (t.toNat % 2 ^ s.h) (Spec.Xmss.wotsPkFromSig s sd i (t.toNat / 2 ^ s.h) (t.toNat % 2 ^ s.h) (sg.take (wlen s * s.n)) m)) (comb := treeComb s sd i (t.toNat / 2 ^ s.h))
        (sib := piece s.n ((sg.drop (wlen s * s.n)).take (s.h * s.n))) (L := t.toNat % 2 ^ s.h) (compressPk_len hg _ _ _ hpl) (fun _ _ _ => randHash_len hg _ _ _) s.h) h1 h2
    refine ⟨st, ?_, ?_⟩
    · rw [loopN, h3, ok_bind]
      exact h4
    · rw [h5, htRoot, (tree_next F t).1]

end

/-! ## The message -/

theorem hashMessage_ok (H : Hashes ch s.H s.n) (F : Facts pr s) {r rr pre x m root : List Byte} {ro mo len : Nat} (idx : BitVec 64) (hr : Holds r ro rr) (hrr : rr.length = s.n) (hroot : root.length = s.n) (hx : x.length = 4 * s.n) (hmo : mo = pre.length)
    (hlen : len = m.length) (hsm : pre.length + 4 * s.n + m.length < 2 ^ 61) :
    hashMessage ch pr (List.replicate pr.n 0) r ro root idx (pre ++ x ++ m) mo len
      = .ok (digest s rr root idx.toNat m, pre ++ (beEnc s.n 2 ++ rr ++ root ++ beEnc s.n idx.toNat) ++ m) := by
  have hn := F.n
  obtain ⟨x1, x2, x3, x4, rfl, h1, h2, h3, h4⟩ : ∃ x1 x2 x3 x4, x = x1 ++ x2 ++ x3 ++ x4 ∧ x1.length = s.n ∧ x2.length = s.n ∧ x3.length = s.n ∧ x4.length = s.n :=
    ⟨x.take s.n, (x.drop s.n).take s.n, ((x.drop s.n).drop s.n).take s.n, ((x.drop s.n).drop s.n).drop s.n, by simp only [List.append_assoc, List.take_append_drop], by rw [List.length_take]; omega, by rw [List.length_take, List.length_drop]; omega,
      by rw [List.length_take, List.length_drop, List.length_drop]; omega, by simp only [List.length_drop]; omega⟩
  have c1 := ullToBytes_ok pr.n (pre := pre) (junk := x1) (post := x2 ++ x3 ++ x4 ++ m) (off := mo) 2 hmo (by omega)
  have c2 := copy_at (a := pre ++ beEnc pr.n 2) (b := x2) (c := x3 ++ x4 ++ m) (off := mo + pr.n) (n := pr.n) hr (by rw [List.length_append, beEnc_length]; omega) (by omega) (by omega)
  have c3 := copy_at (a := pre ++ beEnc pr.n 2 ++ rr) (b := x3) (c := x4 ++ m) (off := mo + pr.n * 2) (n := pr.n) (Holds.self root) (by rw [List.length_append, List.length_append, beEnc_length]; omega) (by omega) (by omega)
  have c4 := ullToBytes_ok pr.n (pre := pre ++ beEnc pr.n 2 ++ rr ++ root) (junk := x4) (post := m) (off := mo + pr.n * 3) idx (by simp only [List.length_append, beEnc_length]; omega) (by omega)
  rw [show (2 : BitVec 64).toNat = 2 from rfl] at c1
  have c5 := H.ok (inp := pre ++ (beEnc pr.n 2 ++ rr ++ root ++ beEnc pr.n idx.toNat ++ m)) (x := beEnc pr.n 2 ++ rr ++ root ++ beEnc pr.n idx.toNat ++ m) (pre := []) (junk := List.replicate pr.n 0) (post := []) (io := mo) (oo := 0) (len := len + pr.n * 4)
    ⟨pre, [], by simp, hmo.symm⟩ (by simp only [List.length_append, beEnc_length]; omega) (by simp only [List.length_append, beEnc_length]; omega) rfl (by simp [hn])
  rw [List.nil_append, List.append_nil, List.nil_append, List.append_nil] at c5
  simp only [List.append_assoc] at c1 c2 c3 c4 c5 ⊢
  rw [hashMessage, c1, ok_bind, c2, ok_bind, c3, ok_bind, c4, ok_bind, c5, ok_bind, pure_eq_ok, hn, digest, Hmsg]
  simp only [List.append_assoc]

end Cex.Xmss
