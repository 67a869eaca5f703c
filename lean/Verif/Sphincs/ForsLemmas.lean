import Verif.Sphincs.TreeLemmas

/-!
# Roots from paths, and the few-time signature of the SPHINCS+ engine
-/

namespace Cex.Sphincs
open Cex Cex.IntTools Cex.Keccak Cex.Spec.Sphincs

variable {P : List Byte → M (List Byte)} {f : List Byte → List Byte} {pr : Params} {s : Parameters}

/-! ## Roots -/

/-- The two nodes below the node at height `i + 1`. -/
def pair (comb : Nat → Nat → List Byte → List Byte) (sib : Nat → List Byte) (L : Nat) (x : List Byte) (i : Nat) : List Byte :=
  if L / 2 ^ i % 2 = 1 then sib i ++ climb comb sib L x i else climb comb sib L x i ++ sib i

theorem climb_len {comb : Nat → Nat → List Byte → List Byte} {sib : Nat → List Byte} {L n : Nat} {x : List Byte} (hx : x.length = n) (hc : ∀ z j m, (comb z j m).length = n) :
    ∀ z, (climb comb sib L x z).length = n
  | 0 => hx
  | _ + 1 => hc _ _ _

theorem piece_len {n k : Nat} {x : List Byte} (hx : x.length = k * n) {i : Nat} (hi : i < k) : (piece n x i).length = n := by
  have : (i + 1) * n ≤ k * n := Nat.mul_le_mul_right _ hi
  rw [Nat.add_one_mul i] at this
  rw [piece, List.length_take, List.length_drop]; omega

theorem piece_holds {n k : Nat} {x b : List Byte} {off : Nat} (hb : Holds b off x) (hx : x.length = k * n) {i : Nat} (hi : i < k) : Holds b (off + i * n) (piece n x i) := by
  have : i * n ≤ k * n := Nat.mul_le_mul_right _ (by omega)
  rw [piece]
  exact (hb.dropN (by omega)).takeN _

theorem computeRoot_ok (p : Perm P f) (F : Facts pr s) {seed sd : List Byte} (hs : Holds seed 0 sd) (hsd : sd.length = s.n) {l : Nat} {t : BitVec 64} {ty kp io H L : Nat} {comb : Nat → Nat → List Byte → List Byte}
    (hcl : ∀ z j m, (comb z j m).length = s.n)
    (hce : ∀ z j m, 0 < z → z ≤ H → comb z j m = T (shakeHash f pr.rate) s sd (adrs l t.toNat ty kp z (j + io >>> z)) m) (hH : 0 < H)
    {leaf x auth au pre junk post : List Byte} {ao ro : Nat} (hx : Holds leaf 0 x) (hxl : x.length = s.n) (ha : Holds auth ao au) (hau : au.length = H * s.n) (y z : Nat) (ho : ro = pre.length) (hj : junk.length = s.n) :
    ∃ y' z', computeRoot P pr (pre ++ junk ++ post) ro leaf L io auth ao H seed (mk l t ty kp y z) = .ok (pre ++ climb comb (piece s.n au) L x H ++ post, mk l t ty kp y' z') := by
  have hn := F.n
  have hsib : ∀ i, i < H → (piece s.n au i).length = s.n := fun i hi => piece_len hau hi
  have hhold : ∀ i, i < H → Holds auth (ao + i * s.n) (piece s.n au i) := fun i hi => piece_holds ha hau hi
  have hcll : ∀ i, (climb comb (piece s.n au) L x i).length = s.n := fun i => climb_len hxl hcl i
  have hpl : ∀ i, i < H → (pair comb (piece s.n au) L x i).length = 2 * s.n := fun i hi => by
    rw [pair]; split <;> rw [List.length_append, hcll, hsib i hi] <;> omega
  have e0 : List.replicate (pr.n * 2) (0 : Byte) = List.replicate pr.n 0 ++ List.replicate pr.n 0 := by rw [List.replicate_append_replicate]; congr 1; omega
  have hfirst : (if L &&& 1 = 1 then do
      let b ← copy leaf 0 (List.replicate (pr.n * 2) 0) pr.n pr.n
      copy auth ao b 0 pr.n
    else do
      let b ← copy leaf 0 (List.replicate (pr.n * 2) 0) 0 pr.n
      copy auth ao b pr.n pr.n : M (List Byte)) = .ok (pair comb (piece s.n au) L x 0) := by
    have h0 := hhold 0 hH
    rw [Nat.zero_mul, Nat.add_zero] at h0
    rw [Nat.and_one_is_mod, e0, pair, Nat.pow_zero, Nat.div_one]
    have hs0 := hsib 0 hH
    by_cases hp : L % 2 = 1
    · rw [if_pos hp, if_pos hp]
      have h1 := copy_at (a := List.replicate pr.n 0) (b := List.replicate pr.n (0 : Byte)) (c := []) hx (off := pr.n) (n := pr.n) (by simp) (by omega) (by rw [List.length_replicate]; omega)
      rw [List.append_nil, List.append_nil] at h1
      have h2 := copy_at (a := []) (b := List.replicate pr.n (0 : Byte)) (c := x) h0 (off := 0) (n := pr.n) rfl (by omega) (by rw [List.length_replicate]; omega)
      rw [List.nil_append, List.nil_append] at h2
      rw [h1, ok_bind, h2]; rfl
    · rw [if_neg hp, if_neg hp]
      have h1 := copy_at (a := []) (b := List.replicate pr.n (0 : Byte)) (c := List.replicate pr.n 0) hx (off := 0) (n := pr.n) rfl (by omega) (by rw [List.length_replicate]; omega)
      rw [List.nil_append, List.nil_append] at h1
      have h2 := copy_at (a := x) (b := List.replicate pr.n (0 : Byte)) (c := []) h0 (off := pr.n) (n := pr.n) (by omega) (by omega) (by rw [List.length_replicate]; omega)
      rw [List.append_nil, List.append_nil] at h2
      rw [h1, ok_bind, h2]; rfl
  obtain ⟨⟨buf, l', o', ao', a'⟩, h1, e1, e2, e3, e4, y', z', e5⟩ := loopN_inv
    (P := fun i (st : List Byte × Nat × Nat × Nat × Addr) => st.1 = pair comb (piece s.n au) L x i ∧ st.2.1 = L >>> i ∧ st.2.2.1 = io >>> i ∧ st.2.2.2.1 = ao + (i + 1) * s.n ∧ ∃ y z, st.2.2.2.2 = mk l t ty kp y z)
    (f := fun i (st : List Byte × Nat × Nat × Nat × Addr) => do
      let (buf, l, o, ao, a) := st
      let l := l >>> 1
      let o := o >>> 1
      let a := setHash (setChain a (i + 1)) (l + o)
      let buf ← (if l &&& 1 ≠ 0 then do
          let b ← thash P pr buf pr.n buf 0 2 seed a (pr.n + 32 + pr.n * 2) (pr.n * 2)
          copy auth ao b 0 pr.n
        else do
          let b ← thash P pr buf 0 buf 0 2 seed a (pr.n + 32 + pr.n * 2) (pr.n * 2)
          copy auth ao b pr.n pr.n : M (List Byte))
      return (buf, l, o, ao + pr.n, a)) (H - 1) 0 (pair comb (piece s.n au) L x 0, L, io, ao + pr.n, mk l t ty kp y z)
    (by
      rintro i ⟨buf, l', o', ao', a'⟩ _ hlt ⟨e1, e2, e3, e4, y, z, e5⟩
      dsimp only at e1 e2 e3 e4 e5 ⊢
      subst e1 e2 e3 e4 e5
      have hi : i + 1 < H := by omega
      have hpi := hpl i (by omega)
      rw [← Nat.shiftRight_add, ← Nat.shiftRight_add]
      refine ⟨(pair comb (piece s.n au) L x (i + 1), L >>> (i + 1), io >>> (i + 1), ao + (i + 1) * s.n + pr.n, mk l t ty kp (i + 1) (L >>> (i + 1) + io >>> (i + 1))), ?_, rfl, rfl, rfl, by dsimp only; rw [hn, Nat.add_one_mul (i + 1)]; omega, _, _, rfl⟩
      rw [show setHash (setChain (mk l t ty kp y z) (i + 1)) (L >>> (i + 1) + io >>> (i + 1)) = mk l t ty kp (i + 1) (L >>> (i + 1) + io >>> (i + 1)) from rfl, Nat.and_one_is_mod]
      have hclimb : T (shakeHash f pr.rate) s sd (adrs l t.toNat ty kp (i + 1) (L >>> (i + 1) + io >>> (i + 1))) (pair comb (piece s.n au) L x i) = climb comb (piece s.n au) L x (i + 1) := by
        rw [climb, hce _ _ _ (by omega) (by omega), Nat.shiftRight_eq_div_pow L]; rfl
      have esplit : pair comb (piece s.n au) L x i = (pair comb (piece s.n au) L x i).take s.n ++ (pair comb (piece s.n au) L x i).drop s.n := take_split _ _
      have hlt1 : ((pair comb (piece s.n au) L x i).take s.n).length = s.n := by rw [List.length_take]; omega
      have hlt2 : ((pair comb (piece s.n au) L x i).drop s.n).length = s.n := by rw [List.length_drop]; omega
      have hau' := hhold (i + 1) hi
      have hsi := hsib (i + 1) hi
      have hcli := hcll (i + 1)
      by_cases hp : L >>> (i + 1) % 2 = 1
      · have ht := thash_ok p F (pre := (pair comb (piece s.n au) L x i).take s.n) (junk := (pair comb (piece s.n au) L x i).drop s.n) (post := []) (oo := pr.n) (blocks := 2) (Holds.self (pair comb (piece s.n au) L x i))
          (by rw [hpi]) hs hsd (mk l t ty kp (i + 1) (L >>> (i + 1) + io >>> (i + 1))) rfl rfl (by decide) (by rw [hlt1, hn]) hlt2
        rw [List.append_nil, List.append_nil, ← esplit, mk_bytes, hclimb, Nat.mul_comm 2 pr.n] at ht
        have hc2 := copy_at (a := []) (b := (pair comb (piece s.n au) L x i).take s.n) (c := climb comb (piece s.n au) L x (i + 1)) hau' (off := 0) (n := pr.n) rfl (by omega) (by omega)
        rw [List.nil_append, List.nil_append] at hc2
        rw [if_pos (by omega), ht, ok_bind, hc2, ok_bind, pair, ← Nat.shiftRight_eq_div_pow, if_pos hp]
        rfl
      · have ht := thash_ok p F (pre := []) (junk := (pair comb (piece s.n au) L x i).take s.n) (post := (pair comb (piece s.n au) L x i).drop s.n) (oo := 0) (blocks := 2) (Holds.self (pair comb (piece s.n au) L x i))
          (by rw [hpi]) hs hsd (mk l t ty kp (i + 1) (L >>> (i + 1) + io >>> (i + 1))) rfl rfl (by decide) rfl hlt1
        rw [List.nil_append, List.nil_append, ← esplit, mk_bytes, hclimb, Nat.mul_comm 2 pr.n] at ht
        have hc2 := copy_at (a := climb comb (piece s.n au) L x (i + 1)) (b := (pair comb (piece s.n au) L x i).drop s.n) (c := []) hau' (off := pr.n) (n := pr.n) (by omega) (by omega) (by omega)
        rw [List.append_nil, List.append_nil] at hc2
        rw [if_neg (by omega), ht, ok_bind, hc2, ok_bind, pair, ← Nat.shiftRight_eq_div_pow, if_neg hp]
        rfl)
    ⟨rfl, rfl, rfl, by dsimp only; rw [hn]; omega, y, z, rfl⟩
  dsimp only at e1 e2 e3 e4 e5
  subst e1 e2 e3 e5
  rw [Nat.zero_add] at *
  have hclimb : T (shakeHash f pr.rate) s sd (adrs l t.toNat ty kp H (L >>> H + io >>> H)) (pair comb (piece s.n au) L x (H - 1)) = climb comb (piece s.n au) L x H := by
    obtain ⟨m, rfl⟩ : ∃ m, H = m + 1 := ⟨H - 1, by omega⟩
    rw [climb, hce _ _ _ (by omega) (Nat.le_refl _), Nat.shiftRight_eq_div_pow L]; rfl
  refine ⟨H, L >>> H + io >>> H, ?_⟩
  rw [computeRoot, hfirst, ok_bind, h1, ok_bind]
  dsimp only
  rw [← Nat.shiftRight_add, ← Nat.shiftRight_add, show H - 1 + 1 = H from by omega,
    show setHash (setChain (mk l t ty kp y' z') H) (L >>> H + io >>> H) = mk l t ty kp H (L >>> H + io >>> H) from rfl,
    thash_ok p F (Holds.self (pair comb (piece s.n au) L x (H - 1))) (by rw [hpl _ (by omega)]) hs hsd _ (by omega) (by omega) (by decide) ho hj, mk_bytes, hclimb, ok_bind]
  rfl

/-! ## Indices -/

/-- The bits of an index collected so far. -/
def bitsUpTo (md : List Byte) (o : Nat) (k : Nat) : Nat := ((List.range k).map fun j => (md.getD ((o + j) / 8) 0).toNat / 2 ^ ((o + j) % 8) % 2 * 2 ^ j).sum

theorem bitsUpTo_succ (md : List Byte) (o k : Nat) : bitsUpTo md o (k + 1) = bitsUpTo md o k + (md.getD ((o + k) / 8) 0).toNat / 2 ^ ((o + k) % 8) % 2 * 2 ^ k := by
  rw [bitsUpTo, bitsUpTo, List.range_succ, List.map_append, List.sum_append, List.map_singleton, List.sum_singleton]

theorem bitsUpTo_lt (md : List Byte) (o : Nat) : ∀ k, bitsUpTo md o k < 2 ^ k
  | 0 => by simp [bitsUpTo]
  | k + 1 => by
    have := bitsUpTo_lt md o k
    have h2 : (md.getD ((o + k) / 8) 0).toNat / 2 ^ ((o + k) % 8) % 2 * 2 ^ k ≤ 1 * 2 ^ k := Nat.mul_le_mul_right _ (by omega)
    rw [bitsUpTo_succ, Nat.pow_succ]
    omega

theorem xor_add {x k b : Nat} (hx : x < 2 ^ k) : x ^^^ (b <<< k) = x + b * 2 ^ k := by
  have h1 : b <<< k + x = b <<< k ||| x := Nat.shiftLeft_add_eq_or_of_lt hx b
  rw [Nat.shiftLeft_eq] at *
  rw [Nat.add_comm x, h1]
  apply Nat.eq_of_testBit_eq
  intro i
  rw [Nat.testBit_xor, Nat.testBit_or, Nat.testBit_mul_two_pow]
  by_cases hi : k ≤ i
  · rw [Nat.testBit_lt_two_pow (Nat.lt_of_lt_of_le hx (Nat.pow_le_pow_right (by decide) hi))]
    simp
  · simp [hi]

theorem messageToIndices_ok (F : Facts pr s) {ind : List Nat} {msg : List Byte} (hi : s.k ≤ ind.length) (hm : msg.length = mdBytes s) :
    ∃ r, messageToIndices pr ind msg = .ok r ∧ ∀ t, t < s.k → rd r t = .ok (forsIndex s msg t) := by
  have hbound : ∀ i j, i < s.k → j < s.a → (i * s.a + j) / 8 < msg.length := fun i j hi hj => by
    have : (i + 1) * s.a ≤ s.k * s.a := Nat.mul_le_mul_right _ hi
    rw [Nat.add_one_mul i] at this
    rw [hm, mdBytes, Nat.mul_comm s.a s.k]
    omega
  obtain ⟨⟨r, o⟩, h1, e1, e2, e3⟩ := loopN_inv
    (P := fun i (st : List Nat × Nat) => st.1.length = ind.length ∧ st.2 = i * s.a ∧ ∀ t, t < i → st.1[t]? = some (forsIndex s msg t))
    (f := fun i (st : List Nat × Nat) => do
      let ind ← wr st.1 i 0
      loopN pr.forsHeight 0 (fun j (st : List Nat × Nat) => do
        let b ← rd msg (st.2 >>> 3)
        let v ← rd st.1 i
        let ind ← wr st.1 i (v ^^^ (((b.toNat >>> (st.2 &&& 7)) &&& 1) <<< j))
        return (ind, st.2 + 1)) (ind, st.2)) pr.forsTrees 0 (ind, 0)
    (by
      rintro i ⟨r, o⟩ _ hlt ⟨e1, e2, e3⟩
      rw [Nat.zero_add, F.k] at hlt
      dsimp only at e1 e2 e3 ⊢
      subst e2
      have hil : i < r.length := by omega
      rw [wr_ok _ hil, ok_bind, F.a]
      obtain ⟨⟨r', o'⟩, h2, q1, q2, q3, q4⟩ := loopN_inv
        (P := fun j (st : List Nat × Nat) => st.1.length = r.length ∧ st.2 = i * s.a + j ∧ st.1[i]? = some (bitsUpTo msg (i * s.a) j) ∧ ∀ t, t < i → st.1[t]? = r[t]?)
        (f := fun j (st : List Nat × Nat) => do
          let b ← rd msg (st.2 >>> 3)
          let v ← rd st.1 i
          let ind ← wr st.1 i (v ^^^ (((b.toNat >>> (st.2 &&& 7)) &&& 1) <<< j))
          return (ind, st.2 + 1)) s.a 0 (r.set i 0, i * s.a)
        (by
          rintro j ⟨r', o'⟩ _ hj ⟨q1, q2, q3, q4⟩
          rw [Nat.zero_add] at hj
          dsimp only at q1 q2 q3 q4 ⊢
          subst q2
          have hb := hbound i j hlt hj
          have hget : (msg.getD ((i * s.a + j) / 8) 0) = msg[(i * s.a + j) / 8] := by rw [List.getD_eq_getElem?_getD, List.getElem?_eq_getElem hb, Option.getD_some]
          refine ⟨(r'.set i (bitsUpTo msg (i * s.a) (j + 1)), i * s.a + j + 1), ?_, by simpa using q1, by dsimp only; omega, ?_, fun t ht => ?_⟩
          · have hb' : (i * s.a + j) >>> 3 = (i * s.a + j) / 8 := by rw [Nat.shiftRight_eq_div_pow]
            rw [hb', rd_ok hb, ok_bind, rd_get q3, ok_bind, wr_ok _ (by omega), ok_bind, xor_add (bitsUpTo_lt _ _ _), bitsUpTo_succ, hget, Nat.and_one_is_mod, Nat.shiftRight_eq_div_pow,
              show (i * s.a + j) &&& 7 = (i * s.a + j) % 8 from Nat.and_two_pow_sub_one_eq_mod _ 3]
            rfl
          · dsimp only
            rw [List.getElem?_set_self (by omega)]
          · dsimp only
            rw [List.getElem?_set_ne (by omega), q4 t ht])
        ⟨by simp, rfl, by dsimp only; rw [List.getElem?_set_self hil]; rfl, fun t ht => by dsimp only; rw [List.getElem?_set_ne (by omega)]⟩
      dsimp only at q1 q2 q3 q4
      refine ⟨_, h2, by dsimp only; omega, by dsimp only; rw [q2, Nat.add_one_mul i]; omega, fun t ht => ?_⟩
      dsimp only
      by_cases hti : t = i
      · subst hti; rw [q3, Nat.zero_add]; rfl
      · rw [q4 t (by omega), e3 t (by omega)])
    ⟨rfl, by dsimp only; omega, fun t ht => by omega⟩
  dsimp only at e3
  refine ⟨r, ?_, fun t ht => rd_get (e3 t (by rw [F.k]; omega))⟩
  rw [messageToIndices, h1, ok_bind]
  rfl

/-! ## The few-time signature -/

theorem shiftRight_mul_pow {t a z : Nat} (h : z ≤ a) : (t * 2 ^ a) >>> z = t * 2 ^ (a - z) := by
  rw [Nat.shiftRight_eq_div_pow, show a = (a - z) + z from by omega, Nat.pow_add, ← Nat.mul_assoc, Nat.mul_div_cancel _ (Nat.two_pow_pos z), Nat.add_sub_cancel]

theorem forsSkToLeaf_ok (p : Perm P f) (F : Facts pr s) {leaf sk x seed sd : List Byte} {off : Nat} (hx : Holds sk off x) (hxl : x.length = s.n) (hs : Holds seed 0 sd) (hsd : sd.length = s.n) (hl : leaf.length = s.n)
    (a : Addr) : forsSkToLeaf P pr leaf sk off seed a = .ok (T (shakeHash f pr.rate) s sd a.bytes x) := by
  have h := thash_ok p F (pre := []) (junk := leaf) (post := []) (oo := 0) (blocks := 1) hx (by omega) hs hsd a rfl (by rw [Nat.one_mul]) (by decide) rfl hl
  rw [List.nil_append, List.append_nil, List.nil_append, List.append_nil] at h
  exact h

theorem chunks_piece {n : Nat} : ∀ {k : Nat} {x : List Byte}, x.length = k * n → chunks (piece n x) k = x
  | 0, x, h => by
    have : x = [] := List.length_eq_zero_iff.mp (by simpa using h)
    subst this; rfl
  | k + 1, x, h => by
    rw [Nat.add_one_mul] at h
    have h1 : (x.take (k * n)).length = k * n := by rw [List.length_take]; omega
    have h2 := chunks_piece (k := k) (x := x.take (k * n)) h1
    rw [chunks]
    have h3 : chunks (piece n x) k = chunks (piece n (x.take (k * n))) k := chunks_congr _ fun i hi => by
      have : (i + 1) * n ≤ k * n := Nat.mul_le_mul_right _ hi
      rw [Nat.add_one_mul] at this
      rw [piece, piece, List.drop_take, List.take_take, Nat.min_eq_left (by omega)]
    rw [h3, h2, piece, List.take_of_length_le (i := n) (by rw [List.length_drop]; omega), List.take_append_drop]

theorem Tree.want_sibling (C : Tree f pr s) (z : Nat) : C.want z = sibling (C.L / 2 ^ z) := by
  rw [Tree.want, Nat.shiftRight_eq_div_pow, sibling]
  generalize C.L / 2 ^ z = x
  have h1 : (x ^^^ 1) % 2 = 1 ↔ ¬ (x % 2 = 1) := by
    rw [Nat.xor_mod_two_eq_one]; simp
  have h2 : (x ^^^ 1) / 2 = x / 2 := by rw [Nat.xor_div_two]; simp
  by_cases hx : x % 2 = 1
  · rw [if_pos hx]; omega
  · rw [if_neg hx]; omega

theorem Tree.path_eq (C : Tree f pr s) (hL : C.L < 2 ^ C.H) (hB : C.B = C.H) :
    chunks (fun z => if (C.want z + 1) * 2 ^ z ≤ 2 ^ C.H then C.N z (C.want z) else C.old z) C.B = path C.leaf C.comb C.H C.L := by
  rw [hB, path]
  refine chunks_congr _ fun z hz => ?_
  rw [if_pos, C.want_sibling]
  rw [C.want_sibling]
  have hp : 2 ^ C.H = 2 ^ (C.H - z - 1) * 2 * 2 ^ z := by rw [← Nat.pow_succ, ← Nat.pow_add]; congr 1; omega
  have h1 : C.L / 2 ^ z < 2 ^ (C.H - z - 1) * 2 := by
    rw [Nat.div_lt_iff_lt_mul (Nat.two_pow_pos z), ← hp]; exact hL
  have h2 : sibling (C.L / 2 ^ z) + 1 ≤ 2 ^ (C.H - z - 1) * 2 := by
    rw [sibling]
    generalize C.L / 2 ^ z = x at h1
    split <;> omega
  rw [hp]
  exact Nat.mul_le_mul_right _ h2

/-- The tree number `tr` of the few-time signature. -/
def forsTree (F : Facts pr s) (p : Perm P f) (sks sd : List Byte) (hsd : sd.length = s.n) (t : BitVec 64) (kp tr L : Nat) (hL : L < 2 ^ s.a) (apre apost : List Byte) (old : Nat → List Byte) (hold : ∀ z, z < s.a → (old z).length = s.n) : Tree f pr s where
  l := 0
  t := t
  ty := 3
  kp := kp
  io := tr * 2 ^ s.a
  H := s.a
  L := L
  B := s.a
  leaf := forsLeaf (shakeHash f pr.rate) s sks sd t.toNat kp tr
  comb := forsComb (shakeHash f pr.rate) s sd t.toNat kp tr
  sd := sd
  apre := apre
  apost := apost
  old := old
  sdl := hsd
  leafLen := fun _ => T_len (good p F) _ _ _
  combLen := fun _ _ _ => T_len (good p F) _ _ _
  combEq := fun z j m _ hz => by rw [forsComb, shiftRight_mul_pow hz, Nat.add_comm j]
  oldLen := hold
  fits := fun z idx hz hidx he => by
    by_contra hc
    have : z = s.a := by omega
    subst this
    rw [Nat.shiftRight_eq_div_pow, Nat.shiftRight_eq_div_pow, Nat.div_eq_of_lt hL, Nat.div_eq_of_lt hidx] at he
    exact absurd he (by decide)

section
variable (p : Perm P f) (F : Facts pr s) {seed sd : List Byte} (hs : Holds seed 0 sd) (hsd : sd.length = s.n)
include p F hs hsd

section
variable {skseed sks : List Byte} (hk : Holds skseed 0 sks) (hkl : sks.length = s.n)
include hk hkl

theorem forsGenLeaf_ok {leaf : List Byte} (hleaf : leaf.length = s.n) (t : BitVec 64) (ty kp y z tr j : Nat) :
    forsGenLeaf P pr skseed seed leaf (j + tr * 2 ^ s.a) (mk 0 t ty kp y z) = .ok (forsLeaf (shakeHash f pr.rate) s sks sd t.toNat kp tr j) := by
  rw [forsGenLeaf, show setHash (setType (copyKeypair (mk 0 t ty kp y z) {}) 3) (j + tr * 2 ^ s.a) = mk 0 t 3 kp 0 (j + tr * 2 ^ s.a) from rfl]
  have h := prfAddress_ok p F (pre := []) (junk := leaf) (post := []) (off := 0) hk hkl (mk 0 t 3 kp 0 (j + tr * 2 ^ s.a)) rfl hleaf
  rw [List.nil_append, List.append_nil, List.nil_append, List.append_nil, mk_bytes] at h
  have hl : (prf (shakeHash f pr.rate) s sks (adrs 0 t.toNat 3 kp 0 (j + tr * 2 ^ s.a))).length = s.n := prf_len (good p F) _ _
  rw [h, ok_bind, forsSkToLeaf_ok p F (Holds.self _) hl hs hsd hl, mk_bytes, Nat.add_comm j]
  rfl

end

section
variable {skseed sks : List Byte} (hk : Holds skseed 0 sks) (hkl : sks.length = s.n)
include hk hkl

/-- One tree: a secret and the path of its leaf. -/
theorem forsTree_ok {pre junk post rpre rjunk rpost stack : List Byte} {heights : List Nat} {ro : Nat} (t : BitVec 64) (kp tr L y z : Nat) (hL : L < 2 ^ s.a) (hj : junk.length = s.a * s.n) (hro : ro = rpre.length) (hrj : rjunk.length = s.n)
    (hsl : (s.a + 1) * s.n ≤ stack.length) (hhl : s.a + 1 ≤ heights.length) :
    ∃ st, treeHash P pr (forsGenLeaf P pr skseed seed) s.a (rpre ++ rjunk ++ rpost) ro (pre ++ junk ++ post) pre.length seed L (tr * 2 ^ s.a) (mk 0 t 3 kp y z) stack heights
        = .ok (rpre ++ forsRoot (shakeHash f pr.rate) s sks sd t.toNat kp tr ++ rpost, st)
      ∧ st.auth = pre ++ path (forsLeaf (shakeHash f pr.rate) s sks sd t.toNat kp tr) (forsComb (shakeHash f pr.rate) s sd t.toNat kp tr) s.a L ++ post
      ∧ (s.a + 1) * s.n ≤ st.stack.length ∧ s.a + 1 ≤ st.heights.length ∧ ∃ y z, st.addr = mk 0 t 3 kp y z := by
  let C := forsTree F p sks sd hsd t kp tr L hL pre post (piece s.n junk) (fun z hz => piece_len hj hz)
  obtain ⟨st, h1, h2, h3⟩ := C.treeHash_ok p F hs (genLeaf := forsGenLeaf P pr skseed seed) (fun lf idx y z hl => forsGenLeaf_ok p F hs hsd hk hkl hl t 3 kp y z tr idx)
    (rpre := rpre) (rjunk := rjunk) (rpost := rpost) (stack := stack) (heights := heights) y z hro hrj hsl hhl
  refine ⟨st, ?_, ?_, h3⟩
  · rw [← chunks_piece (x := junk) hj] 
    exact h1
  · rw [h2, C.path_eq hL rfl]; rfl

theorem forsSign_ok {pre junk post pk msg : List Byte} {off : Nat} (hm : msg.length = mdBytes s) (t : BitVec 64) (ty kp y z : Nat) (ho : off = pre.length) (hj : junk.length = forsBytes s) (hpk : pk.length = s.n) :
    forsSign P pr (pre ++ junk ++ post) off pk msg skseed seed (mk 0 t ty kp y z)
      = .ok (pre ++ Spec.Sphincs.forsSign (shakeHash f pr.rate) s sks sd t.toNat kp msg ++ post,
          forsPk (shakeHash f pr.rate) s sd t.toNat kp (chunks (forsRoot (shakeHash f pr.rate) s sks sd t.toNat kp) s.k)) := by
  have hn := F.n
  have hH := good p F
  obtain ⟨ind, hind, hrd⟩ := messageToIndices_ok F (ind := List.replicate pr.forsTrees 0) (by rw [List.length_replicate, F.k]) hm
  have hrl : ∀ i, (forsRoot (shakeHash f pr.rate) s sks sd t.toNat kp i).length = s.n := fun i => node_len (fun _ => T_len hH _ _ _) (fun _ _ _ => T_len hH _ _ _) _ _
  obtain ⟨⟨o, roots, stack, heights, a⟩, ⟨e1, ⟨r', e2, e3⟩, e4, e5, y', z', e6⟩, h⟩ := fill (σ := Nat × ForsState) (τ := Nat × List Byte × List Byte × List Nat × Addr) (fun x st => (st.1, ⟨x, st.2.1, st.2.2.1, st.2.2.2.1, st.2.2.2.2⟩))
    (fun i st => st.1 = off + i * ((s.a + 1) * s.n) ∧ (∃ r', st.2.1 = chunks (forsRoot (shakeHash f pr.rate) s sks sd t.toNat kp) i ++ r' ∧ r'.length = (s.k - i) * s.n)
      ∧ (s.a + 1) * s.n ≤ st.2.2.1.length ∧ s.a + 1 ≤ st.2.2.2.1.length ∧ ∃ y z, st.2.2.2.2 = mk 0 t 3 kp y z)
    (fun i => forsSecret (shakeHash f pr.rate) s sks t.toNat kp i (forsIndex s msg i)
      ++ path (forsLeaf (shakeHash f pr.rate) s sks sd t.toNat kp i) (forsComb (shakeHash f pr.rate) s sd t.toNat kp i) s.a (forsIndex s msg i)) ((s.a + 1) * s.n)
    (fun i (st : Nat × ForsState) => do
      let (idxsm, st) := st
      let idxoff := i * 2 ^ s.a
      let x ← rd ind i
      let a := setHash (setChain st.addr 0) (x + idxoff)
      let sig ← prfAddress P pr st.sig idxsm skseed a
      let idxsm := idxsm + pr.n
      let t ← treeHash P pr (forsGenLeaf P pr skseed seed) s.a st.roots (pr.n * i) sig idxsm seed x idxoff a st.stack st.heights
      return (idxsm + pr.n * s.a, ⟨t.2.auth, t.1, t.2.stack, t.2.heights, t.2.addr⟩)) pre post s.k
    (fun i _ => forsPart_len hH _ _ _ _ _ _)
    (by
      rintro i hi pre' junk' post' ⟨o, roots, stack, heights, a⟩ ⟨e1, ⟨r', e2, e3⟩, e4, e5, y, z, e6⟩ hp hj'
      dsimp only at e1 e2 e4 e5 e6 ⊢
      subst e1 e2 e6
      have hj2 : junk'.length = s.n + s.a * s.n := by rw [hj', Nat.add_one_mul s.a]; omega
      have hr2 : s.n ≤ r'.length := by
        rw [e3]
        have : 1 * s.n ≤ (s.k - i) * s.n := Nat.mul_le_mul_right _ (by omega)
        omega
      obtain ⟨j1, j2, rfl, hj1, hj2'⟩ : ∃ j1 j2, junk' = j1 ++ j2 ∧ j1.length = s.n ∧ j2.length = s.a * s.n := ⟨junk'.take s.n, junk'.drop s.n, take_split _ _, by rw [List.length_take]; omega, by rw [List.length_drop]; omega⟩
      obtain ⟨r1, r2, rfl, hr1⟩ : ∃ r1 r2, r' = r1 ++ r2 ∧ r1.length = s.n := ⟨r'.take s.n, r'.drop s.n, take_split _ _, by rw [List.length_take]; omega⟩
      have hsec : (forsSecret (shakeHash f pr.rate) s sks t.toNat kp i (forsIndex s msg i)).length = s.n := prf_len hH _ _
      have hL := forsIndex_lt (s := s) msg i
      obtain ⟨st, q1, q2, q3, q4, y', z', q5⟩ := forsTree_ok p F hs hsd hk hkl (pre := pre' ++ forsSecret (shakeHash f pr.rate) s sks t.toNat kp i (forsIndex s msg i)) (junk := j2) (post := post')
        (rpre := chunks (forsRoot (shakeHash f pr.rate) s sks sd t.toNat kp) i) (rjunk := r1) (rpost := r2) (stack := stack) (heights := heights) (ro := pr.n * i) t kp i (forsIndex s msg i) 0 (forsIndex s msg i + i * 2 ^ s.a) hL hj2' (by rw [chunks_len _ (fun i _ => hrl i), hn, Nat.mul_comm]) hr1 e4 e5
      refine ⟨(off + (i + 1) * ((s.a + 1) * s.n), chunks (forsRoot (shakeHash f pr.rate) s sks sd t.toNat kp) (i + 1) ++ r2, st.stack, st.heights, st.addr), ⟨rfl, ⟨r2, rfl, ?_⟩, q3, q4, y', z', q5⟩, ?_⟩
      · rw [List.length_append, hr1] at e3
        have : s.k - i = (s.k - (i + 1)) + 1 := by omega
        rw [this, Nat.add_one_mul] at e3
        omega
      · have hprf := prfAddress_ok p F (pre := pre') (junk := j1) (post := j2 ++ post') (off := off + i * ((s.a + 1) * s.n)) hk hkl (mk 0 t 3 kp 0 (forsIndex s msg i + i * 2 ^ s.a)) (by rw [hp, ho]) hj1
        rw [mk_bytes, Nat.add_comm (forsIndex s msg i), show prf (shakeHash f pr.rate) s sks (adrs 0 t.toNat 3 kp 0 (i * 2 ^ s.a + forsIndex s msg i)) = forsSecret (shakeHash f pr.rate) s sks t.toNat kp i (forsIndex s msg i) from rfl, ← List.append_assoc, ← List.append_assoc] at hprf
        rw [hrd i hi, ok_bind, show setHash (setChain (mk 0 t 3 kp y z) 0) (forsIndex s msg i + i * 2 ^ s.a) = mk 0 t 3 kp 0 (forsIndex s msg i + i * 2 ^ s.a) from rfl, ← List.append_assoc pre', Nat.add_comm (forsIndex s msg i), hprf, ok_bind, ← List.append_assoc _ r1,
          show off + i * ((s.a + 1) * s.n) + pr.n = (pre' ++ forsSecret (shakeHash f pr.rate) s sks t.toNat kp i (forsIndex s msg i)).length from by rw [List.length_append, hsec, hp, ho, hn], Nat.add_comm (i * 2 ^ s.a), q1, ok_bind]
        rw [q2, List.length_append, hsec, hp, chunks, ← ho, hn, Nat.mul_comm s.n s.a, Nat.add_one_mul i, Nat.add_one_mul s.a]
        simp only [List.append_assoc, pure_eq_ok, Nat.add_assoc, Nat.add_comm s.n])
    junk (off, List.replicate (pr.forsTrees * pr.n) 0, List.replicate ((pr.forsHeight + 1) * pr.n) 0, List.replicate (pr.forsHeight + 1) 0, mk 0 t 3 kp 0 0)
    ⟨by dsimp only; omega, ⟨List.replicate (pr.forsTrees * pr.n) 0, rfl, by rw [List.length_replicate, F.k, hn, Nat.sub_zero]⟩, by rw [List.length_replicate, F.a, hn], by rw [List.length_replicate, F.a], 0, 0, rfl⟩
    hj
  dsimp only at e1 e2 e4 e5 e6 h
  have : r' = [] := List.length_eq_zero_iff.mp (by rw [e3, Nat.sub_self, Nat.zero_mul])
  subst this e1 e2 e6
  rw [List.append_nil] at h
  have hth := thash_ok p F (pre := []) (junk := pk) (post := []) (oo := 0) (blocks := s.k) (Holds.self (chunks (forsRoot (shakeHash f pr.rate) s sks sd t.toNat kp) s.k)) (chunks_len _ (fun i _ => hrl i)) hs hsd (mk 0 t 4 kp 0 0) rfl rfl (Nat.le_trans F.kSmall (by decide)) rfl hpk
  rw [List.nil_append, List.append_nil, List.nil_append, List.append_nil, mk_bytes] at hth
  rw [forsSign, show setType (copyKeypair (mk 0 t ty kp y z) {}) 3 = mk 0 t 3 kp 0 0 from rfl, show setType (copyKeypair (mk 0 t ty kp y z) {}) 4 = mk 0 t 4 kp 0 0 from rfl]
  dsimp only
  rw [hind, ok_bind, F.k, F.a]
  rw [F.k, F.a] at h
  rw [h, ok_bind]
  dsimp only
  rw [hth, ok_bind]
  rfl

end
theorem forsPkFromSig_ok {sig sg pk msg : List Byte} {off : Nat} (hsig : Holds sig off sg) (hsg : sg.length = forsBytes s) (hm : msg.length = mdBytes s) (t : BitVec 64) (ty kp y z : Nat) (hpk : pk.length = s.n) :
    forsPkFromSig P pr pk sig off msg seed (mk 0 t ty kp y z)
      = .ok (Spec.Sphincs.forsPkFromSig (shakeHash f pr.rate) s sd t.toNat kp sg msg) := by
  have hn := F.n
  have hH := good p F
  obtain ⟨ind, hind, hrd⟩ := messageToIndices_ok F (ind := List.replicate (pr.forsTrees * pr.n) 0)
    (by rw [List.length_replicate, F.k, hn]; have : s.k * 1 ≤ s.k * s.n := Nat.mul_le_mul_left _ F.n0; omega) hm
  let g := fun i => climb (forsComb (shakeHash f pr.rate) s sd t.toNat kp i) (piece s.n ((sg.drop (i * ((s.a + 1) * s.n) + s.n)).take (s.a * s.n))) (forsIndex s msg i)
      (forsHash (shakeHash f pr.rate) s sd t.toNat kp i (forsIndex s msg i) ((sg.drop (i * ((s.a + 1) * s.n))).take s.n)) s.a
  have hgl : ∀ i, (g i).length = s.n := fun i => climb_len (T_len hH _ _ _) (fun _ _ _ => T_len hH _ _ _) _
  obtain ⟨⟨o, leaf, a⟩, ⟨e1, e2, y', z', e6⟩, h⟩ := fill (σ := List Byte × Nat × List Byte × Addr) (τ := Nat × List Byte × Addr) (fun x st => (x, st))
    (fun i st => st.1 = off + i * ((s.a + 1) * s.n) ∧ st.2.1.length = s.n ∧ ∃ y z, st.2.2 = mk 0 t 3 kp y z) g s.n
    (fun i (st : List Byte × Nat × List Byte × Addr) => do
      let (roots, idxsig, leaf, a) := st
      let idxoff := i * 2 ^ s.a
      let x ← rd ind i
      let a := setHash (setChain a 0) (x + idxoff)
      let leaf ← forsSkToLeaf P pr leaf sig idxsig seed a
      let idxsig := idxsig + pr.n
      let t ← computeRoot P pr roots (pr.n * i) leaf x idxoff sig idxsig s.a seed a
      return (t.1, idxsig + pr.n * s.a, leaf, t.2)) [] [] s.k
    (fun i _ => hgl i)
    (by
      rintro i hi pre' junk' post' ⟨o, leaf, a⟩ ⟨e1, e2, y, z, e6⟩ hp hj'
      dsimp only at e1 e2 e6 ⊢
      subst e1 e6
      have hb : (i + 1) * ((s.a + 1) * s.n) ≤ s.k * ((s.a + 1) * s.n) := Nat.mul_le_mul_right _ hi
      rw [Nat.add_one_mul i] at hb
      have hw : (s.a + 1) * s.n = s.a * s.n + s.n := Nat.add_one_mul _ _
      rw [forsBytes] at hsg
      have h1 : Holds sig (off + i * ((s.a + 1) * s.n)) ((sg.drop (i * ((s.a + 1) * s.n))).take s.n) := (hsig.dropN (by omega)).takeN _
      have h2 : Holds sig (off + (i * ((s.a + 1) * s.n) + s.n)) ((sg.drop (i * ((s.a + 1) * s.n) + s.n)).take (s.a * s.n)) := (hsig.dropN (by omega)).takeN _
      have hl1 : ((sg.drop (i * ((s.a + 1) * s.n))).take s.n).length = s.n := by rw [List.length_take, List.length_drop]; omega
      have hl2 : ((sg.drop (i * ((s.a + 1) * s.n) + s.n)).take (s.a * s.n)).length = s.a * s.n := by rw [List.length_take, List.length_drop]; omega
      rw [← Nat.add_assoc] at h2
      obtain ⟨y', z', hc⟩ := computeRoot_ok p F hs hsd (l := 0) (t := t) (ty := 3) (kp := kp) (io := i * 2 ^ s.a) (H := s.a) (L := forsIndex s msg i) (comb := forsComb (shakeHash f pr.rate) s sd t.toNat kp i)
        (fun _ _ _ => T_len hH _ _ _) (fun z j m _ hz => by rw [forsComb, shiftRight_mul_pow hz, Nat.add_comm j]) F.a0 (pre := pre') (junk := junk') (post := post') (ro := pr.n * i)
        (Holds.self (forsHash (shakeHash f pr.rate) s sd t.toNat kp i (forsIndex s msg i) ((sg.drop (i * ((s.a + 1) * s.n))).take s.n))) (T_len hH _ _ _) h2 hl2 0 (forsIndex s msg i + i * 2 ^ s.a)
        (by rw [hp, hn, Nat.mul_comm]; simp) hj'
      refine ⟨(off + (i + 1) * ((s.a + 1) * s.n), forsHash (shakeHash f pr.rate) s sd t.toNat kp i (forsIndex s msg i) ((sg.drop (i * ((s.a + 1) * s.n))).take s.n), mk 0 t 3 kp y' z'), ⟨rfl, T_len hH _ _ _, y', z', rfl⟩, ?_⟩
      rw [hrd i hi, ok_bind, show setHash (setChain (mk 0 t 3 kp y z) 0) (forsIndex s msg i + i * 2 ^ s.a) = mk 0 t 3 kp 0 (forsIndex s msg i + i * 2 ^ s.a) from rfl,
        forsSkToLeaf_ok p F h1 hl1 hs hsd e2, mk_bytes, ok_bind, hn, Nat.add_comm (forsIndex s msg i)]
      rw [hn, Nat.add_comm (forsIndex s msg i)] at hc
      rw [show T (shakeHash f pr.rate) s sd (adrs 0 t.toNat 3 kp 0 (i * 2 ^ s.a + forsIndex s msg i)) ((sg.drop (i * ((s.a + 1) * s.n))).take s.n) = forsHash (shakeHash f pr.rate) s sd t.toNat kp i (forsIndex s msg i) ((sg.drop (i * ((s.a + 1) * s.n))).take s.n) from rfl,
        hc, ok_bind, Nat.add_one_mul i, Nat.mul_comm s.n s.a]
      rw [show off + i * ((s.a + 1) * s.n) + s.n + s.a * s.n = off + (i * ((s.a + 1) * s.n) + (s.a + 1) * s.n) from by omega]
      rfl)
    (List.replicate (pr.forsTrees * pr.n) 0) (off, List.replicate pr.n 0, mk 0 t 3 kp 0 0)
    ⟨by dsimp only; omega, by rw [List.length_replicate, hn], 0, 0, rfl⟩
    (by rw [List.length_replicate, F.k, hn])
  dsimp only at e1 e2 e6 h
  rw [List.nil_append, List.append_nil, List.nil_append, List.append_nil] at h
  have hth := thash_ok p F (pre := []) (junk := pk) (post := []) (oo := 0) (blocks := s.k) (Holds.self (chunks g s.k)) (chunks_len _ (fun i _ => hgl i)) hs hsd (mk 0 t 4 kp 0 0) rfl rfl (Nat.le_trans F.kSmall (by decide)) rfl hpk
  rw [List.nil_append, List.append_nil, List.nil_append, List.append_nil, mk_bytes] at hth
  rw [forsPkFromSig, show setType (copyKeypair (mk 0 t ty kp y z) {}) 3 = mk 0 t 3 kp 0 0 from rfl, show setType (copyKeypair (mk 0 t ty kp y z) {}) 4 = mk 0 t 4 kp 0 0 from rfl]
  dsimp only
  rw [hind, ok_bind, F.k, F.a]
  rw [F.k] at h
  rw [h, ok_bind]
  dsimp only
  rw [hth]
  rfl

end
end Cex.Sphincs
