import Verif.Sphincs.WotsLemmas

/-!
# The tree computations of the SPHINCS+ engine
-/

namespace Cex.Sphincs
open Cex Cex.IntTools Cex.Keccak Cex.Spec.Sphincs

variable {P : List Byte → M (List Byte)} {f : List Byte → List Byte} {pr : Params} {s : Parameters}

/-! ## The stack -/

/-- The stack after `k` nodes of height `h` have been pushed: heights and indices, the top first. -/
def stk (k h : Nat) : List (Nat × Nat) :=
  if k = 0 then [] else if k % 2 = 1 then (h, k - 1) :: stk (k / 2) (h + 1) else stk (k / 2) (h + 1)
termination_by k
decreasing_by all_goals omega

theorem stk_zero (h : Nat) : stk 0 h = [] := by rw [stk]; rfl

theorem stk_odd {k h : Nat} (hk : k % 2 = 1) : stk k h = (h, k - 1) :: stk (k / 2) (h + 1) := by
  rw [stk, if_neg (by omega), if_pos hk]

theorem stk_even {k h : Nat} (hk : k % 2 = 0) : stk k h = stk (k / 2) (h + 1) := by
  by_cases h0 : k = 0
  · subst h0; rw [stk_zero, Nat.zero_div, stk_zero]
  · rw [stk, if_neg h0, if_neg (by omega)]

theorem stk_ge (k h : Nat) : ∀ e ∈ stk k h, h ≤ e.1 := by
  induction k using Nat.strongRecOn generalizing h with
  | ind k ih =>
    by_cases h0 : k = 0
    · subst h0; rw [stk_zero]; simp
    · by_cases hk : k % 2 = 1
      · rw [stk_odd hk]
        intro e he
        rcases List.mem_cons.mp he with rfl | he
        · exact Nat.le_refl _
        · have := ih (k / 2) (by omega) (h + 1) e he; omega
      · rw [stk_even (by omega)]
        intro e he
        have := ih (k / 2) (by omega) (h + 1) e he; omega

theorem stk_len (k h : Nat) : ∀ m, k < 2 ^ m → (stk k h).length ≤ m := by
  induction k using Nat.strongRecOn generalizing h with
  | ind k ih =>
    intro m hm
    by_cases h0 : k = 0
    · subst h0; rw [stk_zero]; simp
    · cases m with
      | zero => simp at hm; omega
      | succ m =>
        rw [Nat.pow_succ] at hm
        have := ih (k / 2) (by omega) (h + 1) m (by omega)
        by_cases hk : k % 2 = 1
        · rw [stk_odd hk, List.length_cons]; omega
        · rw [stk_even (by omega)]; omega

/-- A full tree is one node. -/
theorem stk_full : ∀ m h, stk (2 ^ m) h = [(h + m, 0)]
  | 0, h => by rw [stk_odd (by decide)]; simp [stk_zero]
  | m + 1, h => by
    rw [Nat.pow_succ, stk_even (by omega), Nat.mul_div_cancel _ (by decide), stk_full m, show h + 1 + m = h + (m + 1) from by omega]

section
variable (N : Nat → Nat → List Byte)

/-- The bytes of a stack. -/
def bytesOf : List (Nat × Nat) → List Byte
  | [] => []
  | e :: es => bytesOf es ++ N e.1 e.2

/-- The heights of a stack. -/
def heightsOf : List (Nat × Nat) → List Nat
  | [] => []
  | e :: es => heightsOf es ++ [e.1]

theorem heightsOf_len : ∀ es, (heightsOf es).length = es.length
  | [] => rfl
  | e :: es => by rw [heightsOf, List.length_append, heightsOf_len es]; rfl

theorem bytesOf_len {n : Nat} (hN : ∀ z j, (N z j).length = n) : ∀ es, (bytesOf N es).length = es.length * n
  | [] => by simp [bytesOf]
  | e :: es => by rw [bytesOf, List.length_append, bytesOf_len hN es, hN, List.length_cons, Nat.add_one_mul es.length]

end

/-! ## Writing into the authentication path -/

theorem chunks_write {g : Nat → List Byte} {v apre apost src : List Byte} {n B z so off : Nat} (hg : ∀ i, i < B → (g i).length = n) (hv : v.length = n) (hz : z < B) (hsrc : Holds src so v)
    (ho : off = apre.length + n * z) :
    copy src so (apre ++ chunks g B ++ apost) off n = .ok (apre ++ chunks (fun i => if i = z then v else g i) B ++ apost) := by
  have e1 : chunks (fun i => if i = z then v else g i) z = chunks g z := chunks_congr z fun i hi => if_neg (by omega)
  have e2 : chunks (fun j => (fun i => if i = z then v else g i) (z + 1 + j)) (B - (z + 1)) = chunks (fun j => g (z + 1 + j)) (B - (z + 1)) := chunks_congr _ fun i _ => if_neg (by omega)
  have hl : (chunks g z).length = z * n := chunks_len z fun i hi => hg i (by omega)
  rw [chunks_at hz (g := g), chunks_at hz (g := fun i => if i = z then v else g i), e1, e2, if_pos rfl]
  rw [show ∀ a b c d e : List Byte, a ++ (b ++ c ++ d) ++ e = a ++ b ++ c ++ (d ++ e) from fun a b c d e => by simp]
  rw [copy_at hsrc (by rw [List.length_append, hl, Nat.mul_comm z n]; exact ho) hv.symm (by rw [hg z hz, hv])]
  simp

/-! ## A tree -/

/-- What a tree computation works on: the address, the tree of the specification and where the path goes. -/
structure Tree (f : List Byte → List Byte) (pr : Params) (s : Parameters) where
  build ::
  l : Nat
  t : BitVec 64
  ty : Nat
  kp : Nat
  /-- `IndexOffset` -/
  io : Nat
  /-- the height -/
  H : Nat
  /-- `LeafIndex` -/
  L : Nat
  /-- the number of pieces of `n` bytes for the path -/
  B : Nat
  leaf : Nat → List Byte
  comb : Nat → Nat → List Byte → List Byte
  sd : List Byte
  apre : List Byte
  apost : List Byte
  old : Nat → List Byte
  sdl : sd.length = s.n
  leafLen : ∀ j, (leaf j).length = s.n
  combLen : ∀ z j m, (comb z j m).length = s.n
  combEq : ∀ z j m, 0 < z → z ≤ H → comb z j m = T (shakeHash f pr.rate) s sd (adrs l t.toNat ty kp z (j + io >>> z)) m
  oldLen : ∀ z, z < B → (old z).length = s.n
  fits : ∀ z idx, z ≤ H → idx < 2 ^ H → (L >>> z) ^^^ 1 = idx >>> z → z < B

namespace Tree
variable (C : Tree f pr s)

/-- The nodes. -/
abbrev N (z j : Nat) : List Byte := node C.leaf C.comb z j

theorem N_len (z j : Nat) : (C.N z j).length = s.n := node_len C.leafLen C.combLen z j

/-- The index wanted at height `z`. -/
def want (z : Nat) : Nat := (C.L >>> z) ^^^ 1

/-- What holds of the variables: `es` is on the stack, and the pieces of the path that satisfy `c` are written. -/
structure Inv (c : Nat → Prop) (es : List (Nat × Nat)) (st : TreeState) : Prop where
  stack : ∃ junk, st.stack = bytesOf C.N es ++ junk
  stackLen : (C.H + 1) * s.n ≤ st.stack.length
  heights : ∃ junk, st.heights = heightsOf es ++ junk
  heightsLen : C.H + 1 ≤ st.heights.length
  auth : ∃ g, st.auth = C.apre ++ chunks g C.B ++ C.apost ∧ ∀ z, z < C.B → (c z → g z = C.N z (C.want z)) ∧ (¬ c z → g z = C.old z)
  addr : ∃ y z, st.addr = mk C.l C.t C.ty C.kp y z
  leaf : st.leaf.length = s.n

/-- Piece `z` is complete after `idx` leaves, or after one more at a height up to `h`. -/
def Cond (idx h z : Nat) : Prop := (C.want z + 1) * 2 ^ z ≤ idx ∨ (z ≤ h ∧ (C.want z + 1) * 2 ^ z = idx + 1)

variable {C}

theorem Inv.mono {c c' : Nat → Prop} {es : List (Nat × Nat)} {st : TreeState} (h : C.Inv c es st) (hc : ∀ z, z < C.B → (c z ↔ c' z)) : C.Inv c' es st := by
  obtain ⟨g, h1, h2⟩ := h.auth
  exact ⟨h.stack, h.stackLen, h.heights, h.heightsLen, ⟨g, h1, fun z hz => by rw [← hc z hz]; exact h2 z hz⟩, h.addr, h.leaf⟩

/-- One more piece of the path, if it is the one wanted. -/
theorem Inv.write {c c' : Nat → Prop} {es : List (Nat × Nat)} {st : TreeState} {z j so off : Nat} (h : C.Inv c es st) (hcut : (C.want z = j) → z < C.B) (hsrc : Holds st.stack so (C.N z j))
    (ho : off = C.apre.length + s.n * z) (hc : ∀ y, y ≠ z → (c y ↔ c' y)) (hc1 : C.want z = j → c' z) (hc2 : C.want z ≠ j → (c z ↔ c' z)) :
    ∃ auth, (if C.want z = j then copy st.stack so st.auth off s.n else .ok st.auth) = .ok auth ∧ C.Inv c' es { st with auth := auth } := by
  obtain ⟨g, h1, h2⟩ := h.auth
  by_cases hw : C.want z = j
  · have hz := hcut hw
    have hg : ∀ i, i < C.B → (g i).length = s.n := fun i hi => by
      by_cases hci : c i
      · rw [(h2 i hi).1 hci, C.N_len]
      · rw [(h2 i hi).2 hci, C.oldLen i hi]
    refine ⟨C.apre ++ chunks (fun i => if i = z then C.N z j else g i) C.B ++ C.apost, by rw [if_pos hw, h1, chunks_write hg (C.N_len z j) hz hsrc ho], h.stack, h.stackLen, h.heights, h.heightsLen, ⟨_, rfl, fun y hy => ?_⟩, h.addr, h.leaf⟩
    by_cases hyz : y = z
    · subst hyz
      rw [if_pos rfl]
      exact ⟨fun _ => by rw [hw], fun hn => absurd (hc1 hw) hn⟩
    · rw [if_neg hyz, ← hc y hyz]; exact h2 y hy
  · refine ⟨_, by rw [if_neg hw], ?_⟩
    exact h.mono fun y _ => by
      by_cases hyz : y = z
      · subst hyz; exact hc2 hw
      · exact hc y hyz

theorem cond_step {idx h k : Nat} (hk : (k + 1) * 2 ^ h = idx + 1) (hodd : k % 2 = 1) : (k / 2 + 1) * 2 ^ (h + 1) = idx + 1 := by
  rw [Nat.pow_succ, ← hk, Nat.mul_comm (2 ^ h) 2, ← Nat.mul_assoc, show (k / 2 + 1) * 2 = k + 1 from by omega]

theorem shift_of {idx h k : Nat} (hk : (k + 1) * 2 ^ h = idx + 1) : idx >>> h = k := by
  rw [Nat.shiftRight_eq_div_pow]
  have := Nat.two_pow_pos h
  rw [Nat.add_one_mul k] at hk
  refine Nat.div_eq_of_lt_le (by omega) ?_
  rw [Nat.add_one_mul k]; omega

/-- The conditions after the last merge. -/
theorem cond_end {idx h k : Nat} (hk : (k + 1) * 2 ^ h = idx + 1) (heven : k % 2 = 0) (z : Nat) : C.Cond idx h z ↔ (C.want z + 1) * 2 ^ z ≤ idx + 1 := by
  constructor
  · rintro (h1 | ⟨_, h1⟩) <;> omega
  · intro h1
    by_cases h2 : (C.want z + 1) * 2 ^ z = idx + 1
    · refine .inr ⟨?_, h2⟩
      by_contra hz
      obtain ⟨d, rfl⟩ : ∃ d, z = h + 1 + d := ⟨z - (h + 1), by omega⟩
      rw [← hk, Nat.pow_add, Nat.pow_succ, Nat.mul_comm (2 ^ h) 2, show (C.want (h + 1 + d) + 1) * (2 * 2 ^ h * 2 ^ d) = (C.want (h + 1 + d) + 1) * 2 ^ d * 2 * 2 ^ h from by ring] at h2
      have := Nat.eq_of_mul_eq_mul_right (Nat.two_pow_pos h) h2
      omega
    · exact .inl (by omega)

/-- The nodes on top of the stack are merged as far as possible. -/
theorem merge_ok (p : Perm P f) (F : Facts pr s) {seed : List Byte} (hs : Holds seed 0 C.sd) {idx : Nat} (hidx : idx < 2 ^ C.H) :
    ∀ k h st, (k + 1) * 2 ^ h = idx + 1 → C.Inv (C.Cond idx h) ((h, k) :: stk k h) st →
      ∃ st', mergeLoop P pr seed C.apre.length C.L C.io idx ((stk k h).length + 1) st = .ok ((stk (k + 1) h).length, st')
        ∧ C.Inv (fun z => (C.want z + 1) * 2 ^ z ≤ idx + 1) (stk (k + 1) h) st' := by
  intro k
  induction k using Nat.strongRecOn with
  | ind k ih =>
    intro h st hk hinv
    by_cases hodd : k % 2 = 1
    · rw [stk_odd hodd] at hinv ⊢
      rw [List.length_cons, mergeLoop]
      obtain ⟨junk, e1⟩ := hinv.stack
      obtain ⟨jh, e2⟩ := hinv.heights
      obtain ⟨y, z, e3⟩ := hinv.addr
      generalize hes : stk (k / 2) (h + 1) = es at *
      have hl := heightsOf_len es
      have hbl := bytesOf_len C.N C.N_len es
      have r1 : rd st.heights (es.length + 1) = .ok h := by
        rw [e2, heightsOf, heightsOf, show heightsOf es ++ [h] ++ [h] ++ jh = (heightsOf es ++ [h]) ++ h :: jh from by simp, rd_at _ _ _ (by simp [hl])]
      have r2 : rd st.heights es.length = .ok h := by
        rw [e2, heightsOf, heightsOf, show heightsOf es ++ [h] ++ [h] ++ jh = heightsOf es ++ h :: (h :: jh) from by simp, rd_at _ _ _ hl.symm]
      rw [r1, ok_bind, r2, ok_bind, if_pos rfl]
      dsimp only
      have hstep := cond_step hk hodd
      have hH : h + 1 ≤ C.H := by
        by_contra hc
        have : 2 ^ (C.H + 1) ≤ 2 ^ (h + 1) := Nat.pow_le_pow_right (by decide) (by omega)
        have h2 : 2 ^ (h + 1) ≤ idx + 1 := by rw [← hstep]; exact Nat.le_mul_of_pos_left _ (by omega)
        rw [Nat.pow_succ] at this
        omega
      have hsh := shift_of hstep
      have e4 : st.stack = bytesOf C.N es ++ C.N h (k - 1) ++ (C.N h k ++ junk) := by rw [e1, bytesOf, bytesOf]; simp
      have hh : Holds st.stack (es.length * pr.n) (C.N h (k - 1) ++ C.N h k) := ⟨bytesOf C.N es, junk, by rw [e4]; simp, by rw [hbl, F.n]⟩
      have hth := thash_ok p F (pre := bytesOf C.N es) (junk := C.N h (k - 1)) (post := C.N h k ++ junk) (oo := es.length * pr.n) (blocks := 2) hh (by rw [List.length_append, C.N_len, C.N_len]; omega) hs C.sdl
        (mk C.l C.t C.ty C.kp (h + 1) (idx >>> (h + 1) + C.io >>> (h + 1))) rfl rfl (by decide) (by rw [hbl, F.n]) (C.N_len _ _)
      rw [← e4, mk_bytes, hsh] at hth
      have hnode : T (shakeHash f pr.rate) s C.sd (adrs C.l C.t.toNat C.ty C.kp (h + 1) (k / 2 + C.io >>> (h + 1))) (C.N h (k - 1) ++ C.N h k) = C.N (h + 1) (k / 2) := by
        show _ = node C.leaf C.comb (h + 1) (k / 2)
        rw [node, C.combEq _ _ _ (by omega) hH, show 2 * (k / 2) = k - 1 from by omega, show k - 1 + 1 = k from by omega]
      rw [hnode] at hth
      rw [e3, show setHash (setChain (mk C.l C.t C.ty C.kp y z) (h + 1)) (idx >>> (h + 1) + C.io >>> (h + 1)) = mk C.l C.t C.ty C.kp (h + 1) (idx >>> (h + 1) + C.io >>> (h + 1)) from rfl, hsh, hth, ok_bind]
      have r3 : wr st.heights es.length (h + 1) = .ok (heightsOf es ++ (h + 1) :: (h :: jh)) := by
        rw [e2, heightsOf, heightsOf, show heightsOf es ++ [h] ++ [h] ++ jh = heightsOf es ++ h :: (h :: jh) from by simp, wr_at _ _ _ _ hl.symm]
      rw [r3, ok_bind]
      have hinv1 : C.Inv (C.Cond idx h) ((h + 1, k / 2) :: es)
          ⟨st.auth, mk C.l C.t C.ty C.kp (h + 1) (k / 2 + C.io >>> (h + 1)), bytesOf C.N es ++ C.N (h + 1) (k / 2) ++ (C.N h k ++ junk), heightsOf es ++ (h + 1) :: (h :: jh), st.leaf⟩ :=
        ⟨⟨_, rfl⟩, by
            have := hinv.stackLen
            rw [e4] at this
            simpa [C.N_len] using this, ⟨h :: jh, by rw [heightsOf]; simp⟩, by
            have := hinv.heightsLen
            rw [e2] at this
            simpa [heightsOf] using this, hinv.auth, ⟨_, _, rfl⟩, hinv.leaf⟩
      obtain ⟨auth, ha, hinv2⟩ := hinv1.write (c' := C.Cond idx (h + 1)) (z := h + 1) (j := k / 2) (so := es.length * pr.n) (off := C.apre.length + pr.n * (h + 1))
        (fun hw => C.fits (h + 1) idx hH hidx (by rw [hsh]; exact hw)) ⟨bytesOf C.N es, C.N h k ++ junk, rfl, by rw [hbl, F.n]⟩ (by rw [F.n])
        (fun y hy => by rw [Cond, Cond]; refine or_congr Iff.rfl (and_congr_left fun _ => ?_); omega)
        (fun hw => .inr ⟨Nat.le_refl _, by rw [hw]; exact hstep⟩)
        (fun hw => by
          rw [Cond, Cond]
          refine or_congr Iff.rfl ⟨fun hx => by omega, fun hx => ?_⟩
          have := Nat.eq_of_mul_eq_mul_right (Nat.two_pow_pos (h + 1)) (hx.2.trans hstep.symm)
          omega)
      rw [show (if C.want (h + 1) = k / 2 then copy (bytesOf C.N es ++ C.N (h + 1) (k / 2) ++ (C.N h k ++ junk)) (es.length * pr.n) st.auth (C.apre.length + pr.n * (h + 1)) s.n else .ok st.auth)
        = (if C.L >>> (h + 1) ^^^ 1 = k / 2 then copy (bytesOf C.N es ++ C.N (h + 1) (k / 2) ++ (C.N h k ++ junk)) (es.length * pr.n) st.auth (C.apre.length + pr.n * (h + 1)) pr.n else .ok st.auth)
        from by rw [F.n]; rfl] at ha
      rw [ha, ok_bind]
      rw [← hes] at hinv2
      obtain ⟨st', hm, hi⟩ := ih (k / 2) (by omega) (h + 1) _ hstep hinv2
      refine ⟨st', ?_, ?_⟩
      · rw [hes] at hm
        rw [stk_even (k := k + 1) (by omega), show (k + 1) / 2 = k / 2 + 1 from by omega]
        exact hm
      · rw [stk_even (k := k + 1) (by omega), show (k + 1) / 2 = k / 2 + 1 from by omega]
        exact hi
    · have hev : k % 2 = 0 := by omega
      have hlast : stk (k + 1) h = (h, k) :: stk k h := by
        rw [stk_odd (k := k + 1) (by omega), show (k + 1) / 2 = k / 2 from by omega, Nat.add_sub_cancel, stk_even hev]
      refine ⟨st, ?_, by rw [hlast]; exact hinv.mono fun z _ => cond_end hk hev z⟩
      rw [hlast, List.length_cons]
      obtain ⟨jh, e2⟩ := hinv.heights
      cases hes : stk k h with
      | nil => rfl
      | cons e es =>
        have hge := stk_ge (k / 2) (h + 1) e (by rw [← stk_even hev, hes]; simp)
        rw [hes] at e2
        have hl := heightsOf_len es
        rw [List.length_cons, mergeLoop]
        have r1 : rd st.heights (es.length + 1) = .ok h := by
          rw [e2, heightsOf, heightsOf, show heightsOf es ++ [e.1] ++ [h] ++ jh = (heightsOf es ++ [e.1]) ++ h :: jh from by simp, rd_at _ _ _ (by simp [hl])]
        have r2 : rd st.heights es.length = .ok e.1 := by
          rw [e2, heightsOf, heightsOf, show heightsOf es ++ [e.1] ++ [h] ++ jh = heightsOf es ++ e.1 :: (h :: jh) from by simp, rd_at _ _ _ hl.symm]
        rw [r1, ok_bind, r2, ok_bind, if_neg (by omega)]
        rfl

/-- **The tree**: root and path are those of the specification. -/
theorem treeHash_ok (p : Perm P f) (F : Facts pr s) {seed : List Byte} (hs : Holds seed 0 C.sd) {genLeaf : List Byte → Nat → Addr → M (List Byte)}
    (hgen : ∀ lf idx y z, lf.length = s.n → genLeaf lf (idx + C.io) (mk C.l C.t C.ty C.kp y z) = .ok (C.leaf idx))
    {rpre rjunk rpost stack : List Byte} {heights : List Nat} {ro : Nat} (y z : Nat) (hro : ro = rpre.length) (hrj : rjunk.length = s.n) (hsl : (C.H + 1) * s.n ≤ stack.length) (hhl : C.H + 1 ≤ heights.length) :
    ∃ st, treeHash P pr genLeaf C.H (rpre ++ rjunk ++ rpost) ro (C.apre ++ chunks C.old C.B ++ C.apost) C.apre.length seed C.L C.io (mk C.l C.t C.ty C.kp y z) stack heights
        = .ok (rpre ++ C.N C.H 0 ++ rpost, st)
      ∧ st.auth = C.apre ++ chunks (fun z => if (C.want z + 1) * 2 ^ z ≤ 2 ^ C.H then C.N z (C.want z) else C.old z) C.B ++ C.apost
      ∧ (C.H + 1) * s.n ≤ st.stack.length ∧ C.H + 1 ≤ st.heights.length ∧ ∃ y z, st.addr = mk C.l C.t C.ty C.kp y z := by
  have hn := F.n
  obtain ⟨⟨o, st⟩, h1, ho, h2⟩ := loopN_inv
    (P := fun idx (st : Nat × TreeState) => st.1 = (stk idx 0).length ∧ C.Inv (fun z => (C.want z + 1) * 2 ^ z ≤ idx) (stk idx 0) st.2)
    (f := fun idx (st : Nat × TreeState) => do
      let (offset, s) := st
      let leaf ← genLeaf s.leaf (idx + C.io) s.addr
      let stack ← copy leaf 0 s.stack (offset * pr.n) pr.n
      let heights ← wr s.heights offset 0
      let auth ← (if C.L ^^^ 1 = idx then copy stack (offset * pr.n) s.auth C.apre.length pr.n else .ok s.auth : M (List Byte))
      mergeLoop P pr seed C.apre.length C.L C.io idx (offset + 1) ⟨auth, s.addr, stack, heights, leaf⟩)
    (2 ^ C.H) 0 (0, ⟨C.apre ++ chunks C.old C.B ++ C.apost, mk C.l C.t C.ty C.kp y z, stack, heights, List.replicate pr.n 0⟩)
    (by
      rintro idx ⟨o, st⟩ _ hlt ⟨ho, hinv⟩
      dsimp only at ho hinv ⊢
      subst ho
      rw [Nat.zero_add] at hlt
      obtain ⟨junk, e1⟩ := hinv.stack
      obtain ⟨jh, e2⟩ := hinv.heights
      obtain ⟨y, z, e3⟩ := hinv.addr
      have hsl := hinv.stackLen
      have hhl := hinv.heightsLen
      have hcap := stk_len idx 0 C.H hlt
      have hl := heightsOf_len (stk idx 0)
      have hbl := bytesOf_len C.N C.N_len (stk idx 0)
      have hcap2 : ((stk idx 0).length + 1) * s.n ≤ (C.H + 1) * s.n := Nat.mul_le_mul_right _ (by omega)
      rw [Nat.add_one_mul (stk idx 0).length] at hcap2
      have hjl : s.n ≤ junk.length := by rw [e1, List.length_append, hbl] at hsl; omega
      obtain ⟨j0, jr, rfl⟩ : ∃ j0 jr, jh = j0 :: jr := by
        cases jh with
        | nil => rw [e2, List.append_nil, hl] at hhl; omega
        | cons a b => exact ⟨a, b, rfl⟩
      rw [e3, hgen _ _ _ _ hinv.leaf, ok_bind]
      have e4 : st.stack = bytesOf C.N (stk idx 0) ++ junk.take s.n ++ junk.drop s.n := by rw [e1, List.append_assoc, List.take_append_drop]
      rw [e4, copy_at (Holds.self (C.leaf idx)) (by rw [hbl, hn]) (by rw [C.leafLen, hn]) (by rw [List.length_take, C.leafLen]; omega), ok_bind, e2, wr_at _ _ _ _ hl.symm, ok_bind]
      have hinv1 : C.Inv (fun z => (C.want z + 1) * 2 ^ z ≤ idx) ((0, idx) :: stk idx 0)
          ⟨st.auth, mk C.l C.t C.ty C.kp y z, bytesOf C.N (stk idx 0) ++ C.leaf idx ++ junk.drop s.n, heightsOf (stk idx 0) ++ 0 :: jr, C.leaf idx⟩ :=
        ⟨⟨_, rfl⟩, by
            rw [e1, List.length_append] at hsl
            dsimp only
            rw [List.length_append, List.length_append, List.length_drop, C.leafLen]
            omega, ⟨jr, by rw [heightsOf]; simp⟩, by
            rw [e2] at hhl
            simpa [heightsOf] using hhl, hinv.auth, ⟨_, _, rfl⟩, C.leafLen _⟩
      obtain ⟨auth, ha, hinv2⟩ := hinv1.write (c' := C.Cond idx 0) (z := 0) (j := idx) (so := (stk idx 0).length * pr.n) (off := C.apre.length)
        (fun hw => C.fits 0 idx (by omega) hlt hw) ⟨bytesOf C.N (stk idx 0), junk.drop s.n, rfl, by rw [hbl, hn]⟩ (by simp)
        (fun y hy => by rw [Cond]; exact ⟨fun h => .inl h, fun h => h.elim id fun h => absurd h.1 (by omega)⟩)
        (fun hw => .inr ⟨Nat.le_refl _, by rw [hw]; simp⟩)
        (fun hw => by
          rw [Cond]
          refine ⟨fun h => .inl h, fun h => h.elim id fun h => ?_⟩
          have := h.2
          rw [Nat.pow_zero, Nat.mul_one] at this
          omega)
      rw [show (if C.want 0 = idx then copy (bytesOf C.N (stk idx 0) ++ C.leaf idx ++ junk.drop s.n) ((stk idx 0).length * pr.n) st.auth C.apre.length s.n else .ok st.auth)
        = (if C.L ^^^ 1 = idx then copy (bytesOf C.N (stk idx 0) ++ C.leaf idx ++ junk.drop s.n) ((stk idx 0).length * pr.n) st.auth C.apre.length pr.n else .ok st.auth) from by rw [hn]; rfl] at ha
      rw [ha, ok_bind]
      obtain ⟨st', hm, hi⟩ := merge_ok p F hs hlt idx 0 _ (by simp) hinv2
      exact ⟨_, hm, rfl, hi⟩)
    ⟨by rw [stk_zero]; rfl, by
      rw [stk_zero]
      refine ⟨⟨stack, rfl⟩, hsl, ⟨heights, rfl⟩, hhl, ⟨C.old, rfl, fun z _ => ⟨fun h => ?_, fun _ => rfl⟩⟩, ⟨y, z, rfl⟩, by simp [hn]⟩
      exact absurd (Nat.mul_pos (Nat.succ_pos (C.want z)) (Nat.two_pow_pos z)) (Nat.not_lt.mpr h)⟩
  dsimp only at ho h2
  rw [Nat.zero_add, stk_full, Nat.zero_add] at h2
  obtain ⟨junk, e1⟩ := h2.stack
  obtain ⟨g, e2, e3⟩ := h2.auth
  refine ⟨st, ?_, ?_, h2.stackLen, h2.heightsLen, h2.addr⟩
  · rw [treeHash, h1, ok_bind]
    dsimp only
    rw [copy_at (s := C.N C.H 0) (so := 0) ⟨[], junk, by rw [e1, bytesOf, bytesOf], rfl⟩ hro (by rw [C.N_len, hn]) (by rw [C.N_len, hrj]), ok_bind]
    rfl
  · rw [e2]
    congr 2
    refine chunks_congr _ fun z hz => ?_
    by_cases hc : (C.want z + 1) * 2 ^ z ≤ 2 ^ C.H
    · rw [if_pos hc, (e3 z hz).1 hc]
    · rw [if_neg hc, (e3 z hz).2 hc]

end Tree

end Cex.Sphincs
