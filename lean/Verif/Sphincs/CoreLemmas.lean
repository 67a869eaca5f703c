import Verif.Sphincs.SchemeLemmas

/-!
# `Generate`, `Sign` and `Verify` of the SPHINCS+ engine
-/

namespace Cex.Sphincs
open Cex Cex.IntTools Cex.Keccak Cex.Spec.Sphincs

variable {P : List Byte → M (List Byte)} {f : List Byte → List Byte} {pr : Params} {s : Parameters}

theorem generate_ok (p : Perm P f) (F : Facts pr s) {sks skp pks pk sk : List Byte} (h1 : sks.length = s.n) (h2 : skp.length = s.n) (h3 : pks.length = s.n) (hpk : pk.length = 2 * s.n) (hsk : sk.length = 4 * s.n) :
    generate P pr (sks ++ skp ++ pks) pk sk
      = .ok (publicKey (shakeHash f pr.rate) s sks pks, sks ++ skp ++ pks ++ treeRoot (shakeHash f pr.rate) s sks pks (s.d - 1) 0) := by
  have hn := F.n
  have hH := good p F
  obtain ⟨k1, k2, rfl, hk1, hk2⟩ : ∃ k1 k2, sk = k1 ++ k2 ∧ k1.length = 3 * s.n ∧ k2.length = s.n := ⟨sk.take (3 * s.n), sk.drop (3 * s.n), take_split _ _, by rw [List.length_take]; omega, by rw [List.length_drop]; omega⟩
  obtain ⟨p1, p2, rfl, hp1, hp2⟩ : ∃ p1 p2, pk = p1 ++ p2 ∧ p1.length = s.n ∧ p2.length = s.n := ⟨pk.take s.n, pk.drop s.n, take_split _ _, by rw [List.length_take]; omega, by rw [List.length_drop]; omega⟩
  have hpks : Holds (sks ++ skp ++ pks) (2 * pr.n) pks := ⟨sks ++ skp, [], by simp, by rw [List.length_append]; omega⟩
  have hsks : Holds (sks ++ skp ++ pks) 0 sks := ⟨[], skp ++ pks, by simp, rfl⟩
  have c1 := copy_at (a := []) (b := k1) (c := k2) (off := 0) (n := (sks ++ skp ++ pks).length) (Holds.self (sks ++ skp ++ pks)) rfl rfl (by simp only [List.length_append]; omega)
  have c2 := copy_at (a := []) (b := p1) (c := p2) (off := 0) (n := pr.n) hpks rfl (by omega) (by omega)
  have c3 := copy_at (a := []) (b := List.replicate pr.n (0 : Byte)) (c := []) (off := 0) (n := pr.n) hsks rfl (by omega) (by rw [List.length_replicate]; omega)
  have c4 := copy_at (a := []) (b := List.replicate pr.n (0 : Byte)) (c := []) (off := 0) (n := pr.n) hpks rfl (by omega) (by rw [List.length_replicate]; omega)
  rw [List.nil_append, List.nil_append] at c1 c2
  rw [List.nil_append, List.append_nil, List.nil_append, List.append_nil] at c3 c4
  have hj : (List.replicate (pr.treeHeight * pr.n) (0 : Byte)).length = s.h * s.n := by rw [List.length_replicate, F.h, hn]
  let C := layerTree F p sks pks h3 (s.d - 1) 0 0 s.h (.inl ⟨Nat.two_pow_pos _, rfl⟩) [] [] (piece s.n (List.replicate (pr.treeHeight * pr.n) (0 : Byte))) (fun z hz => piece_len hj hz)
  obtain ⟨st, t1, _⟩ := C.treeHash_ok p F (Holds.self pks) (genLeaf := wotsGenLeaf P pr sks pks) (fun lf i y z hl => wotsGenLeaf_ok p F (Holds.self pks) h3 (Holds.self sks) h1 hl (s.d - 1) 0 2 0 y z i)
    (rpre := []) (rjunk := List.replicate pr.n 0) (rpost := []) (stack := List.replicate ((pr.treeHeight + 1) * pr.n) 0) (heights := List.replicate (pr.treeHeight + 1) 0) 0 0 rfl (by rw [List.length_replicate, hn])
    (by rw [List.length_replicate, F.h, hn]; exact Nat.le_refl _) (by rw [List.length_replicate, F.h]; exact Nat.le_refl _)
  have t1' : treeHash P pr (wotsGenLeaf P pr sks pks) pr.treeHeight (List.replicate pr.n 0) 0 (List.replicate (pr.treeHeight * pr.n) 0) 0 pks 0 0 (mk (s.d - 1) 0 2 0 0 0)
      (List.replicate ((pr.treeHeight + 1) * pr.n) 0) (List.replicate (pr.treeHeight + 1) 0) = .ok (treeRoot (shakeHash f pr.rate) s sks pks (s.d - 1) 0, st) := by
    rw [List.nil_append, List.append_nil, List.nil_append, List.append_nil] at t1
    have e : C.apre ++ chunks C.old C.B ++ C.apost = List.replicate (pr.treeHeight * pr.n) (0 : Byte) := by
      rw [show C.apre = [] from rfl, show C.apost = [] from rfl, List.nil_append, List.append_nil]
      exact chunks_piece hj
    rw [e] at t1
    rw [show C.H = pr.treeHeight from F.h.symm] at t1
    rw [treeRoot, ← F.h]
    exact t1
  have hrl : (treeRoot (shakeHash f pr.rate) s sks pks (s.d - 1) 0).length = s.n := treeRoot_len hH _ _ _ _
  have c5 := copy_at (a := pks) (b := p2) (c := []) (off := pr.n) (n := pr.n) (Holds.self (treeRoot (shakeHash f pr.rate) s sks pks (s.d - 1) 0)) (by omega) (by omega) (by omega)
  have c6 := copy_at (a := sks ++ skp ++ pks) (b := k2) (c := []) (off := 3 * pr.n) (n := pr.n) (Holds.self (treeRoot (shakeHash f pr.rate) s sks pks (s.d - 1) 0)) (by simp only [List.length_append]; omega) (by omega) (by omega)
  rw [List.append_nil, List.append_nil] at c5 c6
  rw [generate, c1, ok_bind, c2, ok_bind, c3, ok_bind, c4, ok_bind, show setType (setLayer {} (pr.d - 1)) 2 = mk (pr.d - 1) 0 2 0 0 0 from rfl, F.d, t1', ok_bind]
  dsimp only
  rw [c5, ok_bind, c6, ok_bind]
  rfl

/-- The loop over the message at the beginning of `Sign`. -/
theorem copyMessage_ok {msg pre junk post : List Byte} {len b : Nat} (hb : b = pre.length) (hl : len ≤ msg.length) (hj : junk.length = len) :
    loopN len 0 (fun i sig => do
      let c ← rd msg (len - i - 1)
      wr sig (b + (len - i) - 1) c) (pre ++ junk ++ post) = .ok (pre ++ msg.take len ++ post) := by
  obtain ⟨sg, h1, h2⟩ := loopN_inv (P := fun i (sg : List Byte) => sg = pre ++ (junk.take (len - i) ++ (msg.take len).drop (len - i)) ++ post)
    (f := fun i sig => do
      let c ← rd msg (len - i - 1)
      wr sig (b + (len - i) - 1) c) len 0 (pre ++ junk ++ post)
    (by
      rintro i sg _ hi rfl
      rw [Nat.zero_add] at hi
      have hlt : len - i - 1 < msg.length := by omega
      refine ⟨_, ?_, rfl⟩
      rw [rd_ok hlt, ok_bind]
      obtain ⟨k, hk⟩ : ∃ k, len - i = k + 1 := ⟨len - i - 1, by omega⟩
      have hk' : len - (i + 1) = k := by omega
      have hkj : k < junk.length := by omega
      have hkm : k < msg.length := by omega
      simp only [hk, hk', Nat.add_sub_cancel]
      rw [show b + (k + 1) - 1 = b + k from rfl, List.take_succ_eq_append_getElem hkj]
      have hd : (msg.take len).drop k = msg[k] :: (msg.take len).drop (k + 1) := by
        rw [List.drop_eq_getElem_cons (by rw [List.length_take]; omega), List.getElem_take]
      rw [hd]
      have hw := wr_at (pre ++ junk.take k) ((msg.take len).drop (k + 1) ++ post) junk[k] msg[k] (i := b + k) (by rw [List.length_append, List.length_take]; omega)
      simp only [List.append_assoc, List.cons_append, List.nil_append] at hw ⊢
      exact hw)
    (by
      rw [Nat.sub_zero, List.take_of_length_le (by omega), List.drop_eq_nil_of_le (by rw [List.length_take]; omega), List.append_nil])
  rw [h1, h2, Nat.zero_add, Nat.sub_self, List.take_zero, List.nil_append, List.drop_zero]

/-- The signature the code computes, with `front` what the vector held in the place of the signature. -/
def signBody (H : Hash) (s : Parameters) (ulong : Nat) (sks skp pks root optrand front m : List Byte) : List Byte :=
  let r := H.xof (skp ++ optrand ++ m) s.n
  let dg := digest H s r (pks ++ root) m
  let leaf := codeLeaf ulong s dg
  let fpk := forsPk H s pks (treeIndex s dg) leaf (chunks (forsRoot H s sks pks (treeIndex s dg) leaf) s.k)
  r ++ Spec.Sphincs.forsSign H s sks pks (treeIndex s dg) leaf (md s dg)
    ++ (if leaf < 2 ^ s.h then htSign H s sks pks s.d 0 (treeIndex s dg) leaf fpk
      else Spec.Sphincs.wotsSign H s sks pks 0 (treeIndex s dg) leaf fpk ++ (front.drop (s.n + forsBytes s + wlen s * s.n)).take (s.h * s.n)
        ++ htSign H s sks pks (s.d - 1) 1 (treeIndex s dg / 2 ^ s.h) (treeIndex s dg % 2 ^ s.h) (treeRoot H s sks pks 0 (treeIndex s dg)))

theorem signBody_ok {H : Hash} {ulong : Nat} (F : Facts pr s) (h : Masked ulong s) (sks skp pks root optrand front m : List Byte) :
    signBody H s ulong sks skp pks root optrand front m = Spec.Sphincs.sign H s sks skp pks root optrand m := by
  rw [signBody, Spec.Sphincs.sign]
  simp only [h.leaf F]
  rw [if_pos (show leafIndex s _ < 2 ^ s.h from Nat.mod_lt _ (Nat.two_pow_pos _)), signDigest, List.append_assoc]

/-- The layers of `Sign`. -/
theorem layers_ok (p : Perm P f) (F : Facts pr s) {seed sd : List Byte} (hs : Holds seed 0 sd) (hsd : sd.length = s.n) {sks : List Byte} (hkl : sks.length = s.n) {pre junk post m stack : List Byte} {heights : List Nat} {off : Nat}
    (L : Nat) (t : BitVec 64) (hm : m.length = s.n) (ho : off = pre.length) (hj : junk.length = s.d * layerBytes s) (hsl : (s.h + 1) * s.n ≤ stack.length) (hhl : s.h + 1 ≤ heights.length) :
    ∃ st, loopN s.d 0 (signLayer P pr sks seed) ⟨pre ++ junk ++ post, off, m, mk 0 0 2 0 0 0, mk 0 t 0 L 0 0, t, L, stack, heights⟩ = .ok st
      ∧ st.sig = pre ++ (if L < 2 ^ s.h then htSign (shakeHash f pr.rate) s sks sd s.d 0 t.toNat L m
        else Spec.Sphincs.wotsSign (shakeHash f pr.rate) s sks sd 0 t.toNat L m ++ (junk.drop (wlen s * s.n)).take (s.h * s.n)
          ++ htSign (shakeHash f pr.rate) s sks sd (s.d - 1) 1 (t.toNat / 2 ^ s.h) (t.toNat % 2 ^ s.h) (treeRoot (shakeHash f pr.rate) s sks sd 0 t.toNat)) ++ post := by
  have hH := good p F
  by_cases hL : L < 2 ^ s.h
  · rw [if_pos hL]
    exact signLayers_ok p F hs hsd (Holds.self sks) hkl s.d 0 L 0 L 0 0 0 0 0 t 0 t hL hm ho hj hsl hhl
  · rw [if_neg hL]
    obtain ⟨r, hr⟩ : ∃ r, s.d = r + 1 := ⟨s.d - 1, by have := F.d2; omega⟩
    have hroom := F.room4
    rw [hr, Nat.add_one_mul r] at hj
    rw [hr, Nat.add_one_mul r] at hroom
    obtain ⟨j1, j2, j3, rfl, hj1, hj2, hj3⟩ : ∃ j1 j2 j3, junk = j1 ++ (j2 ++ j3) ∧ j1.length = layerBytes s ∧ j2.length = s.n ∧ j3.length + s.n = r * layerBytes s :=
      ⟨junk.take (layerBytes s), (junk.drop (layerBytes s)).take s.n, (junk.drop (layerBytes s)).drop s.n, by rw [List.take_append_drop, List.take_append_drop], by rw [List.length_take]; omega,
        by rw [List.length_take, List.length_drop]; omega, by rw [List.length_drop, List.length_drop]; omega⟩
    obtain ⟨j2', y1, y1', z1, z1', stack', heights', hj2', h1, h2, h3⟩ := signLayer_wild p F hs hsd (Holds.self sks) hkl (pre := pre) (junk := j1) (junk' := j2) (post := j3 ++ post) (off := off) 0 L 0 L 0 0 0 0 0 t 0 t (by omega) hm ho hj1 hj2 hsl hhl
    obtain ⟨st, h4, h5⟩ := signLayers_ok p F hs hsd (Holds.self sks) hkl r (pre := pre ++ (Spec.Sphincs.wotsSign (shakeHash f pr.rate) s sks sd 0 t.toNat L m ++ j1.drop (wlen s * s.n))) (junk := j2' ++ j3) (post := post)
      (off := off + layerBytes s) 1 (t.toNat % 2 ^ s.h) 0 L y1 z1 0 y1' z1' (t >>> pr.treeHeight) t t (Nat.mod_lt _ (Nat.two_pow_pos _)) (treeRoot_len hH sks sd 0 t.toNat)
      (by rw [List.length_append, List.length_append, wotsSign_len hH, List.length_drop, ho, hj1, layerBytes]; omega) (by rw [List.length_append]; omega) h1 h2
    refine ⟨st, ?_, ?_⟩
    · rw [hr, loopN, ← List.append_assoc pre, List.append_assoc _ (j2 ++ j3), List.append_assoc j2, h3, ok_bind, ← List.append_assoc j2', ← List.append_assoc _ (j2' ++ j3)]
      exact h4
    · rw [h5, (tree_next F t).1, hr, Nat.add_sub_cancel, List.drop_append_of_le_length (by rw [hj1, layerBytes]; omega), List.take_append_of_le_length (by rw [List.length_drop, hj1, layerBytes]; omega),
        List.take_of_length_le (l := j1.drop _) (by rw [List.length_drop, hj1, layerBytes]; omega)]
      simp only [List.append_assoc]

/-- `Sign` once the message is in its place. -/
theorem sign_moved (p : Perm P f) (F : Facts pr s) {ulong : Nat} {sks skp pks root optrand front m msg old : List Byte} (h1 : sks.length = s.n) (h2 : skp.length = s.n) (h3 : pks.length = s.n) (h4 : root.length = s.n) (h5 : optrand.length = s.n)
    (hb : front.length = sigBytes s) (hm : m.length = msg.length) (hlen : msg.length < 2 ^ 63)
    (hmove : loopN (msg.length % 2 ^ 32) 0 (fun i sig => do
      let b ← rd msg (msg.length % 2 ^ 32 - i - 1)
      wr sig (pr.bytes + (msg.length % 2 ^ 32 - i) - 1) b) (resize old (msg.length + pr.sigSize)) = .ok (front ++ m)) :
    sign P pr ulong old msg (sks ++ skp ++ pks ++ root) optrand = .ok (signBody (shakeHash f pr.rate) s ulong sks skp pks root optrand front m ++ m) := by
  have hn := F.n
  have hH := good p F
  have hroom := F.room4
  have c1 := copy_at (a := []) (b := List.replicate pr.n (0 : Byte)) (c := []) (off := 0) (n := pr.n) (so := 0) (s := sks) (src := sks ++ skp ++ pks ++ root) ⟨[], skp ++ pks ++ root, by simp, rfl⟩ rfl (by omega) (by rw [List.length_replicate]; omega)
  have c2 := copy_at (a := []) (b := List.replicate pr.n (0 : Byte)) (c := []) (off := 0) (n := pr.n) (so := pr.n) (s := skp) (src := sks ++ skp ++ pks ++ root) ⟨sks, pks ++ root, by simp, by omega⟩ rfl (by omega) (by rw [List.length_replicate]; omega)
  have c3 := copy_at (a := []) (b := List.replicate (2 * pr.n) (0 : Byte)) (c := []) (off := 0) (n := 2 * pr.n) (so := 2 * pr.n) (s := pks ++ root) (src := sks ++ skp ++ pks ++ root) ⟨sks ++ skp, [], by simp, by rw [List.length_append]; omega⟩ rfl
    (by rw [List.length_append]; omega) (by rw [List.length_replicate, List.length_append]; omega)
  rw [List.nil_append, List.append_nil, List.nil_append, List.append_nil] at c1 c2 c3
  have hsb : sigBytes s = s.n + forsBytes s + s.d * layerBytes s := rfl
  obtain ⟨f1, f2, f3, f4, rfl, hf1, hf2, hf3, hf4⟩ : ∃ f1 f2 f3 f4, front = f1 ++ (f2 ++ f3) ++ f4 ∧ f1.length = s.n ∧ f2.length = forsBytes s ∧ f3.length + 3 * s.n = s.d * layerBytes s ∧ f4.length = 3 * s.n :=
    ⟨front.take s.n, (front.drop s.n).take (forsBytes s), ((front.drop s.n).drop (forsBytes s)).take (s.d * layerBytes s - 3 * s.n), ((front.drop s.n).drop (forsBytes s)).drop (s.d * layerBytes s - 3 * s.n),
      by rw [List.append_assoc, List.append_assoc, List.take_append_drop, List.take_append_drop, List.take_append_drop], by rw [List.length_take]; omega, by rw [List.length_take, List.length_drop]; omega,
      by rw [List.length_take, List.length_drop, List.length_drop]; omega, by simp only [List.length_drop]; omega⟩
  obtain ⟨g1, g2, rfl, hg1, hg2⟩ : ∃ g1 g2, f4 = g1 ++ g2 ∧ g1.length = s.n ∧ g2.length = 2 * s.n := ⟨f4.take s.n, f4.drop s.n, take_split _ _, by rw [List.length_take]; omega, by rw [List.length_drop]; omega⟩
  have hgm := genMessageRandom_ok p F (pre1 := f1) (pre2 := f2 ++ f3 ++ g1) (x2 := g2) (m := m) (len := msg.length) (Holds.self skp) h2 h5 hf1 (by simp only [List.length_append]; omega) hg2 hm hlen
  have hrl : ((shakeHash f pr.rate).xof (skp ++ optrand ++ m) s.n).length = s.n := hH.xof _ _
  rw [signBody]
  generalize hr : (shakeHash f pr.rate).xof (skp ++ optrand ++ m) s.n = r at *
  obtain ⟨t, hhm, ht⟩ := hashMessage_ok p F (ulong := ulong) (rand := r ++ (f2 ++ f3 ++ g1) ++ (skp ++ optrand) ++ m) (r := r) (pk := pks ++ root) (pk' := pks ++ root) (pre := r ++ (f2 ++ f3)) (x3 := g1 ++ (skp ++ optrand)) (m := m) (len := msg.length)
    ⟨[], f2 ++ f3 ++ g1 ++ (skp ++ optrand) ++ m, by simp, rfl⟩ hrl (Holds.self _) (by rw [List.length_append]; omega) (by simp only [List.length_append]; omega) (by simp only [List.length_append]; omega) hm hlen
  rw [← ht]
  have hmd : (md s (digest (shakeHash f pr.rate) s r (pks ++ root) m)).length = mdBytes s := by
    have hdl : (digest (shakeHash f pr.rate) s r (pks ++ root) m).length = mdBytes s + treeBytes s + leafBytes s := hH.xof _ _
    rw [md, List.length_take]; omega
  generalize codeLeaf ulong s (digest (shakeHash f pr.rate) s r (pks ++ root) m) = leaf at *
  generalize md s (digest (shakeHash f pr.rate) s r (pks ++ root) m) = mdg at *
  have hseed : Holds (pks ++ root) 0 pks := ⟨[], root, by simp, rfl⟩
  have hfs := forsSign_ok p F hseed h3 (Holds.self sks) h1 (pre := r) (junk := f2) (post := f3 ++ (r ++ (pks ++ root)) ++ m) (pk := List.replicate pr.n 0) (msg := mdg) (off := pr.n) hmd t 0 leaf 0 0 (by omega) hf2 (by rw [List.length_replicate, hn])
  have hfl : (Spec.Sphincs.forsSign (shakeHash f pr.rate) s sks pks t.toNat leaf mdg).length = forsBytes s := forsSign_len hH _ _ _ _ _
  obtain ⟨st, hl, hsig⟩ := layers_ok p F hseed h3 h1 (pre := r ++ Spec.Sphincs.forsSign (shakeHash f pr.rate) s sks pks t.toNat leaf mdg) (junk := f3 ++ (r ++ (pks ++ root))) (post := m)
    (m := forsPk (shakeHash f pr.rate) s pks t.toNat leaf (chunks (forsRoot (shakeHash f pr.rate) s sks pks t.toNat leaf) s.k)) (stack := List.replicate ((pr.forsHeight + 1) * pr.n) 0) (heights := List.replicate (pr.forsHeight + 1) 0) (off := pr.n + pr.forsBytes)
    leaf t (T_len hH _ _ _) (by rw [List.length_append, hrl, hfl, hn, Params.forsBytes, F.a, F.k, hn, forsBytes, Nat.mul_assoc, Nat.mul_left_comm]) (by simp only [List.length_append]; omega)
    (by rw [List.length_replicate, F.a, hn]; exact Nat.mul_le_mul_right _ (by have := F.ha; omega)) (by rw [List.length_replicate, F.a]; have := F.ha; omega)
  have hpath : ((f3 ++ (r ++ (pks ++ root))).drop (wlen s * s.n)).take (s.h * s.n) = ((f1 ++ (f2 ++ f3) ++ (g1 ++ g2)).drop (s.n + forsBytes s + wlen s * s.n)).take (s.h * s.n) := by
    have hlb : layerBytes s = wlen s * s.n + s.h * s.n := rfl
    have e : (f1 ++ (f2 ++ f3) ++ (g1 ++ g2)).drop (s.n + forsBytes s + wlen s * s.n) = (f3 ++ (g1 ++ g2)).drop (wlen s * s.n) := by
      rw [← List.drop_drop, show f1 ++ (f2 ++ f3) ++ (g1 ++ g2) = (f1 ++ f2) ++ (f3 ++ (g1 ++ g2)) from by simp only [List.append_assoc], List.drop_left' (by rw [List.length_append]; omega)]
    rw [e, List.drop_append_of_le_length (by omega), List.drop_append_of_le_length (by omega), List.take_append_of_le_length (by rw [List.length_drop]; omega), List.take_append_of_le_length (by rw [List.length_drop]; omega)]
  rw [hpath] at hsig
  simp only [List.append_assoc] at hmove hgm hhm hfs hl hsig c1 c2 c3 ⊢
  rw [sign, c1, ok_bind, c2, ok_bind, c3, ok_bind]
  dsimp only
  rw [hmove, ok_bind, hgm, ok_bind, hhm, ok_bind]
  dsimp only
  rw [show setKeypair (setTree (setType {} 0) t) leaf = mk 0 t 0 leaf 0 0 from rfl, hfs, ok_bind, F.d]
  dsimp only
  rw [show setType {} 2 = mk 0 0 2 0 0 0 from rfl, hl, ok_bind, pure_eq_ok, hsig]

/-! ## Verification -/

/-- The root the code computes from a signature. -/
def codeRoot (H : Hash) (s : Parameters) (ulong : Nat) (pks root sg m : List Byte) : List Byte :=
  rootOf H s pks (md s (digest H s (sg.take s.n) (pks ++ root) m)) (treeIndex s (digest H s (sg.take s.n) (pks ++ root) m))
    (codeLeaf ulong s (digest H s (sg.take s.n) (pks ++ root) m)) (sg.drop s.n)

theorem verifyRoot_ok (p : Perm P f) (F : Facts pr s) {ulong : Nat} {pks root sg m : List Byte} (h1 : pks.length = s.n) (h2 : root.length = s.n) (hsg : sg.length = sigBytes s) (hm : m.length < 2 ^ 63) :
    ∃ pre, pre.length = sigBytes s ∧ verifyRoot P pr ulong (sg ++ m) (pks ++ root) = .ok (codeRoot (shakeHash f pr.rate) s ulong pks root sg m, root, pre ++ m) := by
  have hn := F.n
  have hb := F.bytes
  have hH := good p F
  have hroom := F.room
  have hsb : sigBytes s = s.n + forsBytes s + s.d * layerBytes s := rfl
  have hml : (sg ++ m).length - pr.bytes = m.length := by rw [List.length_append]; omega
  have c1 := copy_at (a := []) (b := List.replicate pr.n (0 : Byte)) (c := []) (off := 0) (n := pr.n) (so := pr.n) (s := root) (src := pks ++ root) ⟨pks, [], by simp, by omega⟩ rfl (by omega) (by rw [List.length_replicate]; omega)
  have c2 := copy_at (a := []) (b := List.replicate pr.n (0 : Byte)) (c := []) (off := 0) (n := pr.n) (so := 0) (s := pks) (src := pks ++ root) ⟨[], root, by simp, rfl⟩ rfl (by omega) (by rw [List.length_replicate]; omega)
  have c3 := copy_at (a := List.replicate (sigBytes s) (0 : Byte)) (b := List.replicate m.length (0 : Byte)) (c := []) (off := pr.bytes) (n := m.length) (so := pr.bytes) (s := m) (src := sg ++ m) ⟨sg, [], by simp, by omega⟩ (by rw [List.length_replicate, hb]) rfl (by rw [List.length_replicate])
  have c4 := copy_at (a := []) (b := List.replicate pr.bytes (0 : Byte)) (c := []) (off := 0) (n := pr.bytes) (so := 0) (s := sg) (src := sg ++ m) ⟨[], m, by simp, rfl⟩ rfl (by omega) (by rw [List.length_replicate]; omega)
  rw [List.nil_append, List.append_nil, List.nil_append, List.append_nil] at c1 c2 c4
  rw [List.append_nil, List.append_nil, List.replicate_append_replicate, ← hsg, ← List.length_append, hsg] at c3
  obtain ⟨t, hhm, ht⟩ := hashMessage_ok p F (ulong := ulong) (rand := sg) (r := sg.take s.n) (pk := pks ++ root) (pk' := pks ++ root) (pre := List.replicate (sigBytes s - 3 * s.n) 0) (x3 := List.replicate (3 * s.n) 0) (m := m) (len := m.length)
    ((Holds.self sg).takeN _) (by rw [List.length_take]; omega) (Holds.self _) (by rw [List.length_append]; omega) (by rw [List.length_replicate]; omega) (by rw [List.length_replicate]) rfl hm
  rw [List.replicate_append_replicate, Nat.sub_add_cancel hroom] at hhm
  rw [codeRoot, ← ht]
  have hmd : (md s (digest (shakeHash f pr.rate) s (sg.take s.n) (pks ++ root) m)).length = mdBytes s := by
    have hdl : (digest (shakeHash f pr.rate) s (sg.take s.n) (pks ++ root) m).length = mdBytes s + treeBytes s + leafBytes s := hH.xof _ _
    rw [md, List.length_take]; omega
  generalize codeLeaf ulong s (digest (shakeHash f pr.rate) s (sg.take s.n) (pks ++ root) m) = leaf at *
  generalize md s (digest (shakeHash f pr.rate) s (sg.take s.n) (pks ++ root) m) = mdg at *
  have hsm : Holds (sg ++ m) (0 + s.n) ((sg.drop s.n).take (forsBytes s)) := ((show Holds (sg ++ m) 0 sg from ⟨[], m, by simp, rfl⟩).dropN (by omega)).takeN _
  rw [Nat.zero_add] at hsm
  have hfs := forsPkFromSig_ok p F (Holds.self pks) h1 (sig := sg ++ m) (off := pr.n) (pk := List.replicate pr.n 0) (msg := mdg) (by rw [hn]; exact hsm) (by rw [List.length_take, List.length_drop]; omega) hmd t 0 leaf 0 0 (by rw [List.length_replicate, hn])
  have hsig : Holds sg (0 + (s.n + forsBytes s)) (sg.drop (s.n + forsBytes s)) := (Holds.self sg).dropN (by omega)
  rw [Nat.zero_add] at hsig
  obtain ⟨st, hl, hroot⟩ := verifyLayers_ok p F (Holds.self pks) h1 s.d (sig := sg) (off := s.n + forsBytes s) (m := Spec.Sphincs.forsPkFromSig (shakeHash f pr.rate) s pks t.toNat leaf ((sg.drop s.n).take (forsBytes s)) mdg)
    (leaf := List.replicate pr.n 0) (wpk := List.replicate pr.wotsBytes 0) hsig (by rw [List.length_drop]; omega) 0 leaf 0 leaf 0 0 0 0 0 0 0 t 0 t 0 (T_len hH _ _ _) (by rw [List.length_replicate, hn]) (by rw [List.length_replicate, Params.wotsBytes, F.wlen, hn])
  refine ⟨List.replicate (sigBytes s - 3 * s.n) 0 ++ (sg.take s.n ++ (pks ++ root)), by simp only [List.length_append, List.length_replicate, List.length_take]; omega, ?_⟩
  rw [verifyRoot]
  dsimp only
  rw [hml, c1, ok_bind, c2, ok_bind, c3, ok_bind, c4, ok_bind, hhm, ok_bind]
  dsimp only
  rw [show setKeypair (setTree (setType {} 0) t) leaf = mk 0 t 0 leaf 0 0 from rfl]
  rw [show pr.n + pr.forsBytes = s.n + forsBytes s from by rw [hn, Params.forsBytes, F.a, F.k, hn, forsBytes, Nat.mul_assoc, Nat.mul_left_comm]]
  rw [hfs, ok_bind, F.d]
  rw [show setType {} 2 = mk 0 0 2 0 0 0 from rfl, show setType {} 1 = mk 0 0 1 0 0 0 from rfl, hl, ok_bind, pure_eq_ok, hroot, rootOf, List.drop_drop]

/-- `resize` and the copy of the message. -/
theorem deliver_ok {old pre m : List Byte} {bytes : Nat} (hb : pre.length = bytes) (hm : m.length < 2 ^ 63) : deliver old (pre ++ m) bytes m.length = .ok m := by
  have c := copy_at (a := []) (b := resize old m.length) (c := []) (off := 0) (n := m.length) (so := bytes) (s := m) (src := pre ++ m) ⟨pre, [], by simp, hb⟩ rfl rfl
    (by rw [resize, List.length_append, List.length_take, List.length_replicate]; omega)
  rw [List.nil_append, List.append_nil, List.nil_append, List.append_nil] at c
  rw [deliver, if_neg (by omega), c]

theorem verify_char (p : Perm P f) (F : Facts pr s) {ulong : Nat} {old pks root sg m : List Byte} (h1 : pks.length = s.n) (h2 : root.length = s.n) (hsg : sg.length = sigBytes s) (hm : m.length < 2 ^ 63) :
    verify P pr ulong old (sg ++ m) (pks ++ root)
      = .ok (if codeRoot (shakeHash f pr.rate) s ulong pks root sg m = root then (true, m) else (false, List.replicate m.length 0)) := by
  have hb := F.bytes
  have hsm := F.small
  obtain ⟨pre, hpre, hv⟩ := verifyRoot_ok p F (ulong := ulong) h1 h2 hsg hm
  have hml : ((sg ++ m).length + (2 ^ 64 - pr.bytes)) % 2 ^ 64 = m.length := by rw [List.length_append]; omega
  rw [verify, if_pos (by rw [List.length_append]; omega), hv, ok_bind]
  dsimp only
  rw [hml]
  by_cases hr : codeRoot (shakeHash f pr.rate) s ulong pks root sg m = root
  · rw [if_pos hr, if_pos hr, deliver_ok (by omega) hm, ok_bind]; rfl
  · rw [if_neg hr, if_neg hr, Keccak.clear_all _ _ rfl, ok_bind, List.length_append, ← List.replicate_append_replicate]
    have := deliver_ok (old := old) (pre := List.replicate pre.length 0) (m := List.replicate m.length 0) (bytes := pr.bytes) (by rw [List.length_replicate]; omega) (by rw [List.length_replicate]; omega)
    rw [List.length_replicate] at this
    rw [this, ok_bind]; rfl

end Cex.Sphincs
