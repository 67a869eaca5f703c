import Verif.Sphincs.Lemmas

/-!
# One-time signatures in the SPHINCS+ engine
-/

namespace Cex.Sphincs
open Cex Cex.IntTools Cex.Keccak Cex.Spec.Sphincs

variable {P : List Byte → M (List Byte)} {f : List Byte → List Byte} {pr : Params} {s : Parameters}

/-! ## Digits -/

theorem hexDigits_len : ∀ m : List Byte, (hexDigits m).length = 2 * m.length
  | [] => rfl
  | b :: m => by
    have := hexDigits_len m
    rw [hexDigits] at *
    rw [List.flatMap_cons, List.length_append, this]
    simp only [List.length_cons, List.length_nil]
    omega

theorem hexDigits_hi : ∀ (m : List Byte) (i : Nat) (b : Byte), m[i]? = some b → (hexDigits m)[2 * i]? = some (b.toNat / 16)
  | [], _, _, h => by simp at h
  | c :: m, 0, b, h => by
    simp only [List.getElem?_cons_zero, Option.some.injEq] at h
    subst h; rfl
  | c :: m, i + 1, b, h => by
    rw [List.getElem?_cons_succ] at h
    have := hexDigits_hi m i b h
    rw [hexDigits] at *
    rw [List.flatMap_cons, show 2 * (i + 1) = 2 * i + 2 from by omega, List.getElem?_append_right (by simp)]
    exact this

theorem hexDigits_lo : ∀ (m : List Byte) (i : Nat) (b : Byte), m[i]? = some b → (hexDigits m)[2 * i + 1]? = some (b.toNat % 16)
  | [], _, _, h => by simp at h
  | c :: m, 0, b, h => by
    simp only [List.getElem?_cons_zero, Option.some.injEq] at h
    subst h; rfl
  | c :: m, i + 1, b, h => by
    rw [List.getElem?_cons_succ] at h
    have := hexDigits_lo m i b h
    rw [hexDigits] at *
    rw [List.flatMap_cons, show 2 * (i + 1) + 1 = 2 * i + 1 + 2 from by omega, List.getElem?_append_right (by simp)]
    exact this

theorem hexDigits_le {m : List Byte} {d : Nat} (h : d ∈ hexDigits m) : d ≤ 15 := by
  rw [hexDigits, List.mem_flatMap] at h
  obtain ⟨b, _, hb⟩ := h
  have := b.isLt
  simp only [List.mem_cons, List.not_mem_nil, or_false] at hb
  omega

theorem and15 (x : Nat) : x &&& 15 = x % 16 := Nat.and_two_pow_sub_one_eq_mod x 4

/-- The loop of `BaseW` after `j` digits. -/
theorem baseW_ok (a junk c : List Nat) {off len : Nat} {inp : List Byte} (ho : off = a.length) (hj : junk.length = len) (hl : len ≤ 2 * inp.length) :
    baseW (a ++ junk ++ c) off len inp = .ok (a ++ (hexDigits inp).take len ++ c) := by
  subst ho
  have hd := hexDigits_len inp
  obtain ⟨⟨o, off', total, bits, inoff⟩, h1, h2⟩ := loopN_inv
    (P := fun j (st : List Nat × Nat × Byte × Nat × Nat) => st.1 = a ++ (hexDigits inp).take j ++ junk.drop j ++ c ∧ st.2.1 = a.length + j ∧ st.2.2.2.2 = (j + 1) / 2 ∧
      ((j % 2 = 0 ∧ st.2.2.2.1 = 0) ∨ (j % 2 = 1 ∧ st.2.2.2.1 = 4 ∧ inp[j / 2]? = some st.2.2.1)))
    (f := fun _ (st : List Nat × Nat × Byte × Nat × Nat) => do
      let (out, off, total, bits, inoff) := st
      let (total, bits, inoff) ← (if bits = 0 then do
          let t ← rd inp inoff
          return (t, 8, inoff + 1)
        else return (total, bits, inoff) : M (Byte × Nat × Nat))
      let bits := bits - 4
      let out ← wr out off ((total >>> bits).toNat &&& 15)
      return (out, off + 1, total, bits, inoff)) len 0 (a ++ junk ++ c, a.length, 0, 0, 0)
    (by
      rintro j ⟨out, off, total, bits, inoff⟩ _ hlt ⟨e1, e2, e3, e4⟩
      dsimp only at e1 e2 e3 e4 ⊢
      subst e1 e2 e3
      have hw : ∀ v, wr (a ++ (hexDigits inp).take j ++ junk.drop j ++ c) (a.length + j) v = .ok (a ++ (hexDigits inp).take j ++ v :: (junk.drop (j + 1) ++ c)) := fun v => by
        rw [List.drop_eq_getElem_cons (by omega : j < junk.length), List.append_assoc, List.cons_append, wr_at _ _ _ _ (by rw [List.length_append, List.length_take, hd]; omega)]
      have ht : ∀ v, (hexDigits inp)[j]? = some v → a ++ (hexDigits inp).take j ++ v :: (junk.drop (j + 1) ++ c) = a ++ (hexDigits inp).take (j + 1) ++ junk.drop (j + 1) ++ c := fun v hv => by
        rw [List.take_add_one, hv]; simp
      rcases e4 with ⟨p1, p2⟩ | ⟨p1, p2, p3⟩
      · subst p2
        have hb : (j + 1) / 2 < inp.length := by omega
        have hg : inp[j / 2]? = some inp[(j + 1) / 2] := by
          rw [show j / 2 = (j + 1) / 2 from by omega, List.getElem?_eq_getElem hb]
        have hv := hexDigits_hi inp _ _ hg
        rw [show 2 * (j / 2) = j from by omega] at hv
        refine ⟨(a ++ (hexDigits inp).take (j + 1) ++ junk.drop (j + 1) ++ c, a.length + j + 1, inp[(j + 1) / 2], 4, (j + 1) / 2 + 1), ?_, rfl, by dsimp only; omega, by dsimp only; omega, .inr ⟨by omega, rfl, ?_⟩⟩
        · rw [if_pos rfl, rd_ok hb, ok_bind, pure_eq_ok, ok_bind]
          dsimp only
          rw [hw, ok_bind, pure_eq_ok, BitVec.toNat_ushiftRight, and15, Nat.shiftRight_eq_div_pow, ← ht _ hv]
          have := (inp[(j + 1) / 2]).isLt
          rw [show inp[(j + 1) / 2].toNat / 2 ^ (8 - 4) % 16 = inp[(j + 1) / 2].toNat / 16 from by omega]
        · exact List.getElem?_eq_getElem hb
      · subst p2
        have hv := hexDigits_lo inp _ _ p3
        rw [show 2 * (j / 2) + 1 = j from by omega] at hv
        refine ⟨(a ++ (hexDigits inp).take (j + 1) ++ junk.drop (j + 1) ++ c, a.length + j + 1, total, 0, (j + 1) / 2), ?_, rfl, by dsimp only; omega, by dsimp only; omega, .inl ⟨by omega, rfl⟩⟩
        rw [if_neg (by decide), pure_eq_ok, ok_bind]
        dsimp only
        rw [hw, ok_bind, pure_eq_ok, BitVec.toNat_ushiftRight, and15, Nat.shiftRight_eq_div_pow, ← ht _ hv]
        rw [show total.toNat / 2 ^ (4 - 4) % 16 = total.toNat % 16 from by simp])
    ⟨by simp, rfl, rfl, .inl ⟨rfl, rfl⟩⟩
  obtain ⟨e1, _⟩ := h2
  dsimp only at e1
  rw [baseW, h1, ok_bind, pure_eq_ok]
  dsimp only
  rw [e1, Nat.zero_add, List.drop_eq_nil_of_le (by omega), List.append_nil]

theorem checksum_take (ds : List Nat) (j : Nat) (hj : j < ds.length) : checksum (ds.take (j + 1)) = checksum (ds.take j) + (15 - ds[j]) := by
  rw [checksum, checksum, List.take_add_one, List.getElem?_eq_getElem hj, List.map_append, List.sum_append]
  rfl

theorem checksum_le : ∀ ds : List Nat, checksum ds ≤ ds.length * 15
  | [] => Nat.le_refl _
  | d :: ds => by
    have := checksum_le ds
    rw [checksum] at *
    rw [List.map_cons, List.sum_cons, List.length_cons]
    omega

theorem chainLengths_ok (F : Facts pr s) {msg : List Byte} (hm : msg.length = s.n) : chainLengths pr msg = .ok (lengths msg) := by
  have hn := F.n
  have hsm := F.nSmall
  have hd := hexDigits_len msg
  have h84 : 8 * pr.n / 4 = 2 * s.n := by rw [hn]; omega
  have e : List.replicate pr.wotsLen 0 = [] ++ List.replicate (2 * s.n) 0 ++ List.replicate 3 0 := by
    rw [List.nil_append, List.replicate_append_replicate, Params.wotsLen, h84]
  rw [chainLengths, h84, e, baseW_ok [] _ _ (off := 0) rfl (by simp) (by omega), ok_bind, List.nil_append, List.take_of_length_le (by omega), wotsChecksum, h84]
  obtain ⟨c, h1, h2⟩ := loopN_inv (P := fun j c => c = checksum ((hexDigits msg).take j)) (f := fun i c => do
    let d ← rd (hexDigits msg ++ List.replicate 3 0) i
    return c + (15 - d)) (2 * s.n) 0 0
    (by
      rintro j c _ hlt rfl
      have hj : j < (hexDigits msg).length := by omega
      refine ⟨_, ?_, (checksum_take _ j hj).symm⟩
      rw [rd_ok (by rw [List.length_append]; omega), ok_bind, pure_eq_ok, List.getElem_append_left hj]) (by simp [checksum])
  rw [Nat.zero_add, List.take_of_length_le (by omega)] at h2
  rw [h1, ok_bind, h2]
  have hc := checksum_le (hexDigits msg)
  generalize hcs : checksum (hexDigits msg) = cs at *
  have hcs' : cs ≤ 1920 := by omega
  have hv : (BitVec.ofNat 64 cs <<< (8 - 3 * 4 % 8)).toNat = cs * 16 := by
    rw [BitVec.toNat_shiftLeft, BitVec.toNat_ofNat, Nat.shiftLeft_eq, show 8 - 3 * 4 % 8 = 4 from rfl, Nat.mod_eq_of_lt (by omega : cs < 2 ^ 64)]
    omega
  have hu : ullToBytes (List.replicate ((3 * 4 + 7) / 8) 0) 0 (BitVec.ofNat 64 cs <<< (8 - 3 * 4 % 8)) ((3 * 4 + 7) / 8)
      = .ok [((BitVec.ofNat 64 cs <<< (8 - 3 * 4 % 8)) >>> 8).setWidth 8, (BitVec.ofNat 64 cs <<< (8 - 3 * 4 % 8)).setWidth 8] := rfl
  rw [hu, ok_bind]
  have e2 : hexDigits msg ++ List.replicate 3 0 = hexDigits msg ++ List.replicate 3 0 ++ [] := by simp
  rw [e2, baseW_ok _ _ _ (by omega) (by simp) (by simp), List.append_nil, lengths, hcs]
  congr 2
  simp only [hexDigits, List.flatMap_cons, List.flatMap_nil, List.cons_append, List.nil_append, List.take_succ_cons, List.take_zero, BitVec.toNat_setWidth, BitVec.toNat_ushiftRight, hv, Nat.shiftRight_eq_div_pow]
  refine congrArg₂ _ ?_ (congrArg₂ _ ?_ (congrArg₂ _ ?_ rfl)) <;> omega

theorem lengths_len {m : List Byte} : (lengths m).length = 2 * m.length + 3 := by
  rw [lengths, List.length_append, hexDigits_len]; rfl

theorem rd_lengths {m : List Byte} {i : Nat} (h : i < 2 * m.length + 3) : rd (lengths m) i = .ok ((lengths m).getD i 0) := by
  have hl : i < (lengths m).length := by rw [lengths_len]; exact h
  rw [rd_ok hl, List.getD_eq_getElem?_getD, List.getElem?_eq_getElem hl, Option.getD_some]

/-! ## Chains -/

section
variable (p : Perm P f) (F : Facts pr s) {seed sd : List Byte} (hs : Holds seed 0 sd) (hsd : sd.length = s.n)
include p F hs hsd

theorem genChain_ok {inp x pre junk post : List Byte} {io oo start steps : Nat} (hx : Holds inp io x) (hxl : x.length = s.n) (hst : start + steps ≤ 16) (l : Nat) (t : BitVec 64) (kp c z : Nat)
    (ho : oo = pre.length) (hj : junk.length = s.n) :
    ∃ z', genChain P pr (pre ++ junk ++ post) oo inp io start steps seed (mk l t 0 kp c z)
      = .ok (pre ++ chain (shakeHash f pr.rate) s sd (wotsAdrs l t.toNat kp c) start x steps ++ post, mk l t 0 kp c z') := by
  have hn := F.n
  have key : ∀ k, k ≤ steps → ∃ z', loopN k start (fun idx (st : List Byte × Addr) => do
      let a := setHash st.2 idx
      let out ← thash P pr st.1 oo st.1 oo 1 seed a (pr.n + 32 + 1 * pr.n) (1 * pr.n)
      return (out, a)) (pre ++ x ++ post, mk l t 0 kp c z)
      = .ok (pre ++ chain (shakeHash f pr.rate) s sd (wotsAdrs l t.toNat kp c) start x k ++ post, mk l t 0 kp c z') := by
    intro k
    induction k with
    | zero => exact fun _ => ⟨z, rfl⟩
    | succ k ih =>
      intro hk
      obtain ⟨z1, h1⟩ := ih (by omega)
      refine ⟨start + k, ?_⟩
      have hcl := chain_len (s := s) (good p F) (pkseed := sd) (ad := wotsAdrs l t.toNat kp c) (start := start) hxl k
      rw [loopN_last, h1, ok_bind]
      dsimp only
      rw [thash_ok p F ⟨pre, post, rfl, ho.symm⟩ (by rw [hcl]; omega) hs hsd _ rfl rfl (by decide) ho hcl, ok_bind, pure_eq_ok, chain]
      rw [show setHash (mk l t 0 kp c z1) (start + k) = mk l t 0 kp c (start + k) from rfl, mk_bytes]
      rfl
  obtain ⟨z', h⟩ := key steps (Nat.le_refl _)
  refine ⟨z', ?_⟩
  rw [genChain, copy_at hx ho (by omega) (by omega), ok_bind, show min (start + steps) 16 - start = steps from by omega, h]

variable {skseed sks : List Byte} (hk : Holds skseed 0 sks) (hkl : sks.length = s.n)
include hk hkl

omit hs hsd in
theorem wotsGenSk_ok {pre junk post : List Byte} {off : Nat} (l : Nat) (t : BitVec 64) (kp c z : Nat) (ho : off = pre.length) (hj : junk.length = s.n) :
    wotsGenSk P pr (pre ++ junk ++ post) off skseed (mk l t 0 kp c z) = .ok (pre ++ wotsSecret (shakeHash f pr.rate) s sks l t.toNat kp c ++ post, mk l t 0 kp c 0) := by
  rw [wotsGenSk, show setHash (mk l t 0 kp c z) 0 = mk l t 0 kp c 0 from rfl, prfAddress_ok p F hk hkl _ ho hj, ok_bind, pure_eq_ok, mk_bytes]
  rfl

/-- One chain from its secret value. -/
theorem wotsStep {pre junk post : List Byte} {off len : Nat} (l : Nat) (t : BitVec 64) (kp c y z : Nat) (hl : len ≤ 16) (ho : off = pre.length) (hj : junk.length = s.n) :
    ∃ z', (do
      let r ← wotsGenSk P pr (pre ++ junk ++ post) off skseed (setChain (mk l t 0 kp y z) c)
      genChain P pr r.1 off r.1 off 0 len seed r.2)
      = .ok (pre ++ chain (shakeHash f pr.rate) s sd (wotsAdrs l t.toNat kp c) 0 (wotsSecret (shakeHash f pr.rate) s sks l t.toNat kp c) len ++ post, mk l t 0 kp c z') := by
  have hw : (wotsSecret (shakeHash f pr.rate) s sks l t.toNat kp c).length = s.n := prf_len (good p F) _ _
  obtain ⟨z', h⟩ := genChain_ok p F hs hsd (inp := pre ++ wotsSecret (shakeHash f pr.rate) s sks l t.toNat kp c ++ post) (x := wotsSecret (shakeHash f pr.rate) s sks l t.toNat kp c)
    (pre := pre) (junk := wotsSecret (shakeHash f pr.rate) s sks l t.toNat kp c) (post := post) (io := off) (oo := off) (start := 0) (steps := len) ⟨pre, post, rfl, ho.symm⟩ hw (by omega) l t kp c 0 ho hw
  refine ⟨z', ?_⟩
  rw [show setChain (mk l t 0 kp y z) c = mk l t 0 kp c z from rfl, wotsGenSk_ok p F hk hkl l t kp c z ho hj, ok_bind]
  exact h

theorem wotsSign_ok {msg pre junk post : List Byte} {off : Nat} (hm : msg.length = s.n) (l : Nat) (t : BitVec 64) (kp y z : Nat) (ho : off = pre.length) (hj : junk.length = wlen s * s.n) :
    ∃ y' z', wotsSign P pr (pre ++ junk ++ post) off msg skseed seed (mk l t 0 kp y z)
      = .ok (pre ++ Spec.Sphincs.wotsSign (shakeHash f pr.rate) s sks sd l t.toNat kp msg ++ post, mk l t 0 kp y' z') := by
  have hH := good p F
  obtain ⟨a', ⟨y', z', rfl⟩, h⟩ := fill (σ := List Byte × Addr) (τ := Addr) (fun x a => (x, a)) (fun _ a => ∃ y z, a = mk l t 0 kp y z)
    (fun i => chain (shakeHash f pr.rate) s sd (wotsAdrs l t.toNat kp i) 0 (wotsSecret (shakeHash f pr.rate) s sks l t.toNat kp i) ((lengths msg).getD i 0)) s.n
    (fun i st => do
      let a := setChain st.2 i
      let r ← wotsGenSk P pr st.1 (off + i * pr.n) skseed a
      let l ← rd (lengths msg) i
      genChain P pr r.1 (off + i * pr.n) r.1 (off + i * pr.n) 0 l seed r.2) pre post (wlen s)
    (fun i _ => chain_len hH (prf_len hH _ _) _)
    (by
      rintro i hi pre' junk' post' _ ⟨y, z, rfl⟩ hp hj'
      obtain ⟨z', h⟩ := wotsStep p F hs hsd hk hkl (pre := pre') (junk := junk') (post := post') (off := off + i * pr.n) (len := (lengths msg).getD i 0) l t kp i y z
        (by have := lengths_le msg i; omega) (by rw [F.n]; omega) hj'
      refine ⟨mk l t 0 kp i z', ⟨i, z', rfl⟩, ?_⟩
      have hi' : i < 2 * msg.length + 3 := by rw [hm]; exact hi
      simp only [rd_lengths hi', ok_bind]
      exact h) junk (mk l t 0 kp y z) ⟨y, z, rfl⟩ hj
  refine ⟨y', z', ?_⟩
  rw [wotsSign, chainLengths_ok F hm, ok_bind, F.wlen]
  exact h

theorem wotsGenPk_ok {junk : List Byte} (l : Nat) (t : BitVec 64) (kp y z : Nat) (hj : junk.length = wlen s * s.n) :
    ∃ y' z', wotsGenPk P pr junk skseed seed (mk l t 0 kp y z) = .ok (wotsPk (shakeHash f pr.rate) s sks sd l t.toNat kp, mk l t 0 kp y' z') := by
  have hH := good p F
  obtain ⟨a', ⟨y', z', rfl⟩, h⟩ := fill (σ := List Byte × Addr) (τ := Addr) (fun x a => (x, a)) (fun _ a => ∃ y z, a = mk l t 0 kp y z)
    (fun i => chain (shakeHash f pr.rate) s sd (wotsAdrs l t.toNat kp i) 0 (wotsSecret (shakeHash f pr.rate) s sks l t.toNat kp i) 15) s.n
    (fun i st => do
      let a := setChain st.2 i
      let r ← wotsGenSk P pr st.1 (i * pr.n) skseed a
      genChain P pr r.1 (i * pr.n) r.1 (i * pr.n) 0 15 seed r.2) [] [] (wlen s)
    (fun i _ => chain_len hH (prf_len hH _ _) _)
    (by
      rintro i hi pre' junk' post' _ ⟨y, z, rfl⟩ hp hj'
      obtain ⟨z', h⟩ := wotsStep p F hs hsd hk hkl (pre := pre') (junk := junk') (post := post') (off := i * pr.n) (len := 15) l t kp i y z
        (by decide) (by rw [F.n, hp]; simp) hj'
      exact ⟨mk l t 0 kp i z', ⟨i, z', rfl⟩, h⟩) junk (mk l t 0 kp y z) ⟨y, z, rfl⟩ hj
  refine ⟨y', z', ?_⟩
  simp only [List.nil_append, List.append_nil] at h
  rw [wotsGenPk, F.wlen]
  exact h

/-- A leaf of a layer. -/
theorem wotsGenLeaf_ok {leaf : List Byte} (hleaf : leaf.length = s.n) (l : Nat) (t : BitVec 64) (ty kp y z idx : Nat) :
    wotsGenLeaf P pr skseed seed leaf idx (mk l t ty kp y z) = .ok (treeLeaf (shakeHash f pr.rate) s sks sd l t.toNat idx) := by
  have hw := F.wlen
  have hH := good p F
  obtain ⟨y', z', h⟩ := wotsGenPk_ok p F hs hsd hk hkl (junk := List.replicate pr.wotsBytes 0) l t idx 0 0 (by rw [List.length_replicate, Params.wotsBytes, hw, F.n])
  have hpk : (wotsPk (shakeHash f pr.rate) s sks sd l t.toNat idx).length = pr.wotsLen * s.n := by
    rw [hw]; exact chunks_len _ fun _ _ => chain_len hH (prf_len hH _ _) _
  have hsm := F.nSmall
  rw [wotsGenLeaf, show setKeypair (copySubtree (mk l t ty kp y z) (setType {} 0)) idx = mk l t 0 idx 0 0 from rfl]
  dsimp only
  rw [h, ok_bind]
  have ht := thash_ok p F (inp := wotsPk (shakeHash f pr.rate) s sks sd l t.toNat idx) (pre := []) (junk := leaf) (post := []) (io := 0) (oo := 0) (blocks := pr.wotsLen) (bufLen := pr.n + 32 + pr.wotsLen * pr.n)
    (maskLen := pr.wotsLen * pr.n) (Holds.self _) hpk hs hsd (mk l t 1 idx 0 0) rfl rfl (by rw [hw, wlen]; omega) rfl hleaf
  rw [List.nil_append, List.append_nil, List.nil_append, List.append_nil, mk_bytes] at ht
  exact ht

omit hk hkl in
theorem wotsPkFromSig_ok {sig sg msg junk : List Byte} {off : Nat} (hsig : Holds sig off sg) (hsg : sg.length = wlen s * s.n) (hm : msg.length = s.n) (l : Nat) (t : BitVec 64) (kp y z : Nat)
    (hj : junk.length = wlen s * s.n) :
    ∃ y' z', wotsPkFromSig P pr junk sig off msg seed (mk l t 0 kp y z)
      = .ok (Spec.Sphincs.wotsPkFromSig (shakeHash f pr.rate) s sd l t.toNat kp sg msg, mk l t 0 kp y' z') := by
  have hH := good p F
  have hpl : ∀ i, i < wlen s → (piece s.n sg i).length = s.n := fun i hi => by
    have : (i + 1) * s.n ≤ wlen s * s.n := Nat.mul_le_mul_right _ hi
    rw [Nat.add_one_mul i] at this
    rw [piece, List.length_take, List.length_drop]; omega
  obtain ⟨a', ⟨y', z', rfl⟩, h⟩ := fill (σ := List Byte × Addr) (τ := Addr) (fun x a => (x, a)) (fun _ a => ∃ y z, a = mk l t 0 kp y z)
    (fun i => chain (shakeHash f pr.rate) s sd (wotsAdrs l t.toNat kp i) ((lengths msg).getD i 0) (piece s.n sg i) (15 - (lengths msg).getD i 0)) s.n
    (fun i st => do
      let a := setChain st.2 i
      let l ← rd (lengths msg) i
      genChain P pr st.1 (i * pr.n) sig (off + i * pr.n) l (15 - l) seed a) [] [] (wlen s)
    (fun i hi => chain_len hH (hpl i hi) _)
    (by
      rintro i hi pre' junk' post' _ ⟨y, z, rfl⟩ hp hj'
      have hle := lengths_le msg i
      have hh : Holds sig (off + i * pr.n) (piece s.n sg i) := by
        have : i * s.n ≤ wlen s * s.n := Nat.mul_le_mul_right _ (by omega)
        rw [F.n, piece]
        exact (hsig.dropN (by omega)).takeN _
      obtain ⟨z', h⟩ := genChain_ok p F hs hsd (pre := pre') (junk := junk') (post := post') (oo := i * pr.n) (start := (lengths msg).getD i 0) (steps := 15 - (lengths msg).getD i 0) hh (hpl i hi)
        (by omega) l t kp i z (by rw [F.n, hp]; simp) hj'
      refine ⟨mk l t 0 kp i z', ⟨i, z', rfl⟩, ?_⟩
      have hi' : i < 2 * msg.length + 3 := by rw [hm]; exact hi
      simp only [rd_lengths hi', ok_bind]
      exact h) junk (mk l t 0 kp y z) ⟨y, z, rfl⟩ hj
  refine ⟨y', z', ?_⟩
  simp only [List.nil_append, List.append_nil] at h
  rw [wotsPkFromSig, chainLengths_ok F hm, ok_bind, F.wlen]
  exact h

end

end Cex.Sphincs
