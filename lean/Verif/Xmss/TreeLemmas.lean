import Verif.Xmss.Lemmas

/-!
# The tree computations of the XMSS engine
-/

namespace Cex.Xmss
open Cex Cex.IntTools
open Cex.Keccak hiding wr_at rd_at
open Cex.Spec.Sphincs (chunks piece node sibling path climb lengths hexDigits checksum chunks_len chunks_congr chunks_split chunks_at piece_chunks node_len path_len climb_stored lengths_le)
open Cex.Spec.Xmss hiding prf wotsSign wotsPkFromSig
open Cex.Sphincs (Addr ullToBytes bytesToUll baseW resize be4 be4_eq fill loopN_last take_split wr_at rd_at rd_get piece_len piece_holds chunks_piece climb_len stk stk_zero stk_odd stk_even stk_ge stk_len stk_full bytesOf heightsOf bytesOf_len heightsOf_len chunks_write pair)

variable {ch : HashFn} {pr : Params} {s : Parameters}

/-! ## The tree over a one-time public key -/

section
variable (H : Hashes ch s.H s.n) (F : Facts pr s) {seed sd : List Byte} (hs : Holds seed 0 sd) (hsd : sd.length = s.n)
include H F hs hsd

theorem ltreeRow_ok {g : Nat → List Byte} {w : Nat} (hg : ∀ i, i < w → (g i).length = s.n) {junk : List Byte} (l : Nat) (t : BitVec 64) (ots z y k : Nat) :
    ∀ i, i ≤ w / 2 → ∃ y' k', loopN i 0 (fun i (st : List Byte × Addr) => do
        let a := setHash st.2 i
        thashH ch pr st.1 (i * pr.n) st.1 (pr.n * (i * 2)) seed a) (chunks g w ++ junk, mk l t 1 ots z y k)
      = .ok (chunks (fun j => if j < i then ltreeRow (ltreeComb s sd l t.toNat ots z) w g j else g j) w ++ junk, mk l t 1 ots z y' k') := by
  intro i
  induction i with
  | zero => exact fun _ => ⟨y, k, rfl⟩
  | succ i ih =>
    intro hi
    obtain ⟨y1, k1, h1⟩ := ih (by omega)
    refine ⟨i, 2, ?_⟩
    generalize hG : (fun j => if j < i then ltreeRow (ltreeComb s sd l t.toNat ots z) w g j else g j) = G at h1
    have hGl : ∀ j, j < w → (G j).length = s.n := fun j hj => by
      rw [← hG]; dsimp only
      split
      · exact ltreeRow_len (n := s.n) (fun _ _ => randHash_len H.good _ _ _) hg j (by omega)
      · exact hg j hj
    have hGg : ∀ j, i ≤ j → G j = g j := fun j hj => by rw [← hG]; exact if_neg (by omega)
    have hh : Holds (chunks G w ++ junk) (pr.n * (i * 2)) (g (2 * i) ++ g (2 * i + 1)) := by
      obtain ⟨r, hr⟩ : ∃ r, w = 2 * i + (2 + r) := ⟨w - 2 * i - 2, by omega⟩
      refine ⟨chunks G (2 * i), chunks (fun j => G (2 * i + (2 + j))) r ++ junk, ?_, ?_⟩
      · rw [hr, chunks_split, chunks_split (g := fun j => G (2 * i + j)), show chunks (fun j => G (2 * i + j)) 2 = G (2 * i) ++ G (2 * i + 1) from by simp [chunks], hGg _ (by omega), hGg _ (by omega)]
        simp
      · rw [chunks_len (n := s.n) _ fun j hj => hGl j (by omega), F.n]; ring
    have hpre : (chunks G i).length = i * s.n := chunks_len _ fun j hj => hGl j (by omega)
    have hth := thashH_ok H F (pre := chunks G i) (junk := G i) (post := chunks (fun j => G (i + 1 + j)) (w - (i + 1)) ++ junk) (oo := i * pr.n) hh
      (by rw [List.length_append, hg _ (by omega), hg _ (by omega)]; omega) hs hsd l t 1 ots z i k1 (by rw [hpre, F.n]) (hGl i (by omega))
    rw [loopN_last, h1, ok_bind, Nat.zero_add]
    dsimp only
    rw [show setHash (mk l t 1 ots z y1 k1) i = mk l t 1 ots z i k1 from rfl]
    rw [show chunks G w ++ junk = chunks G i ++ G i ++ (chunks (fun j => G (i + 1 + j)) (w - (i + 1)) ++ junk) from by rw [chunks_at (k := w) (i := i) (by omega)]; simp] at hth ⊢
    rw [hth, chunks_at (k := w) (i := i) (g := fun j => if j < i + 1 then ltreeRow (ltreeComb s sd l t.toNat ots z) w g j else g j) (by omega), if_pos (by omega)]
    rw [chunks_congr (g := fun j => if j < i + 1 then ltreeRow (ltreeComb s sd l t.toNat ots z) w g j else g j) (g' := G) i fun j hj => by rw [← hG]; dsimp only; rw [if_pos hj, if_pos (by omega)]]
    rw [chunks_congr (g := fun j => if i + 1 + j < i + 1 then ltreeRow (ltreeComb s sd l t.toNat ots z) w g (i + 1 + j) else g (i + 1 + j)) (g' := fun j => G (i + 1 + j)) _ fun j hj => by rw [hGg _ (by omega), if_neg (by omega)]]
    rw [ltreeRow, if_pos (by omega)]
    simp only [List.append_assoc]
    rfl

theorem lTreeRows_ok (l : Nat) (t : BitVec 64) (ots : Nat) : ∀ (w z y k : Nat) (g : Nat → List Byte) (junk : List Byte), 0 < w → (∀ i, i < w → (g i).length = s.n) →
    ∃ buf a b c, lTreeRows ch pr seed w z (chunks g w ++ junk, mk l t 1 ots z y k) = .ok (buf, mk l t 1 ots a b c)
      ∧ Holds buf 0 (ltree (ltreeComb s sd l t.toNat ots) z w g) ∧ buf.length = w * s.n + junk.length := by
  intro w
  induction w using Nat.strongRecOn with
  | ind w ih =>
    intro z y k g junk h0 hg
    rw [lTreeRows, ltree]
    by_cases hw : 1 < w
    · rw [if_pos hw, if_neg (show ¬ w ≤ 1 from by omega)]
      obtain ⟨y1, k1, h1⟩ := ltreeRow_ok H F hs hsd (junk := junk) hg l t ots z y k (w / 2) (Nat.le_refl _)
      rw [h1, ok_bind]
      dsimp only
      have hrl : ∀ i, i < (w + 1) / 2 → (ltreeRow (ltreeComb s sd l t.toNat ots z) w g i).length = s.n := ltreeRow_len (fun _ _ => randHash_len H.good _ _ _) hg
      have key : ∃ junk', junk'.length + (w + 1) / 2 * s.n = w * s.n + junk.length ∧ (if w % 2 = 1 then
          copy (chunks (fun j => if j < w / 2 then ltreeRow (ltreeComb s sd l t.toNat ots z) w g j else g j) w ++ junk) ((w - 1) * pr.n)
            (chunks (fun j => if j < w / 2 then ltreeRow (ltreeComb s sd l t.toNat ots z) w g j else g j) w ++ junk) (w / 2 * pr.n) pr.n
          else .ok (chunks (fun j => if j < w / 2 then ltreeRow (ltreeComb s sd l t.toNat ots z) w g j else g j) w ++ junk) : M (List Byte))
          = .ok (chunks (ltreeRow (ltreeComb s sd l t.toNat ots z) w g) ((w + 1) / 2) ++ junk') := by
        generalize hG : (fun j => if j < w / 2 then ltreeRow (ltreeComb s sd l t.toNat ots z) w g j else g j) = G
        have hGl : ∀ j, j < w → (G j).length = s.n := fun j hj => by
          rw [← hG]; dsimp only
          split
          · exact hrl j (by omega)
          · exact hg j hj
        by_cases ho : w % 2 = 1
        · have hlast : G (w - 1) = g (w - 1) := by rw [← hG]; exact if_neg (by omega)
          have hcw := chunks_write (g := G) (v := g (w - 1)) (apre := []) (apost := junk) (src := chunks G w ++ junk) (n := s.n) (B := w) (z := w / 2) (so := (w - 1) * pr.n) (off := w / 2 * pr.n) hGl (hg _ (by omega)) (by omega)
            ⟨chunks G (w - 1), junk, by
              rw [show w = w - 1 + 1 from by omega, chunks, Nat.add_sub_cancel, hlast], by rw [chunks_len (n := s.n) _ fun j hj => hGl j (by omega), F.n]⟩
            (by rw [F.n, List.length_nil, Nat.zero_add, Nat.mul_comm])
          rw [List.nil_append, List.nil_append] at hcw
          have e : w = (w + 1) / 2 + (w - (w + 1) / 2) := by omega
          refine ⟨chunks (fun j => (fun i => if i = w / 2 then g (w - 1) else G i) ((w + 1) / 2 + j)) (w - (w + 1) / 2) ++ junk, ?_, ?_⟩
          · rw [List.length_append, chunks_len (n := s.n) _ fun j hj => by dsimp only; rw [if_neg (by omega)]; exact hGl _ (by omega)]
            rw [show w * s.n = (w + 1) / 2 * s.n + (w - (w + 1) / 2) * s.n from by rw [← Nat.add_mul]; congr 1]
            omega
          · rw [if_pos ho, F.n] at *
            rw [hcw, e, chunks_split, ← e, List.append_assoc]
            congr 2
            refine chunks_congr _ fun j hj => ?_
            by_cases hj' : j = w / 2
            · rw [if_pos hj', ltreeRow, if_neg (by omega), hj']; congr 1; omega
            · rw [if_neg hj', ← hG]; exact if_pos (by omega)
        · have e : w = (w + 1) / 2 + (w - (w + 1) / 2) := by omega
          refine ⟨chunks (fun j => G ((w + 1) / 2 + j)) (w - (w + 1) / 2) ++ junk, ?_, ?_⟩
          · rw [List.length_append, chunks_len (n := s.n) _ fun j hj => hGl _ (by omega)]
            rw [show w * s.n = (w + 1) / 2 * s.n + (w - (w + 1) / 2) * s.n from by rw [← Nat.add_mul]; congr 1]
            omega
          · rw [if_neg ho, show chunks G w = chunks G ((w + 1) / 2 + (w - (w + 1) / 2)) from by rw [← e], chunks_split, List.append_assoc]
            congr 2
            refine chunks_congr _ fun j hj => ?_
            rw [← hG]; exact if_pos (by omega)
      obtain ⟨junk', hj', hk⟩ := key
      rw [hk, ok_bind, show (if w % 2 = 1 then w / 2 + 1 else w / 2) = (w + 1) / 2 from by split <;> omega]
      obtain ⟨buf, a, b, c, e1, e2, e3⟩ := ih ((w + 1) / 2) (by omega) (z + 1) y1 k1 _ junk' (by omega) hrl
      exact ⟨buf, a, b, c, e1, e2, by omega⟩
    · rw [if_neg hw, if_pos (by omega)]
      have : w = 1 := by omega
      subst this
      refine ⟨_, _, _, _, rfl, ⟨[], junk, by simp [chunks], rfl⟩, ?_⟩
      rw [List.length_append, chunks_len (n := s.n) _ hg]

theorem lTree_ok {pk pre junk post : List Byte} {off : Nat} (hpk : pk.length = wlen s * s.n) (l : Nat) (t : BitVec 64) (ots y z k : Nat) (ho : off = pre.length) (hj : junk.length = s.n) :
    ∃ pk' y' z' k', pk'.length = wlen s * s.n ∧ lTree ch pr (pre ++ junk ++ post) off pk seed (mk l t 1 ots y z k) = .ok (pre ++ compressPk s sd l t.toNat ots pk ++ post, pk', mk l t 1 ots y' z' k') := by
  obtain ⟨buf, a, b, c, e1, e2, e3⟩ := lTreeRows_ok H F hs hsd l t ots (wlen s) 0 z k (piece s.n pk) [] (by rw [wlen]; omega) (fun i hi => piece_len hpk hi)
  rw [List.append_nil, chunks_piece hpk] at e1
  refine ⟨buf, a, b, c, by simpa using e3, ?_⟩
  have hcl : (compressPk s sd l t.toNat ots pk).length = s.n := compressPk_len H.good _ _ _ hpk
  rw [lTree, F.wlen, show setChain (mk l t 1 ots y z k) 0 = mk l t 1 ots 0 z k from rfl, e1, ok_bind]
  dsimp only
  rw [copy_at (s := compressPk s sd l t.toNat ots pk) e2 ho (by rw [hcl, F.n]) (by rw [hcl, hj]), ok_bind]
  rfl

omit hs hsd in
theorem getSeed_ok {sk sks out : List Byte} {so : Nat} (hk : Holds sk so sks) (hkl : sks.length = s.n) (ho : out.length = s.n) (l : Nat) (t : BitVec 64) (ots y z k : Nat) :
    getSeed ch pr out sk so (mk l t 0 ots y z k) = .ok (wotsSeed s sks l t.toNat ots, mk l t 0 ots 0 0 0) := by
  have h := prf_ok H F (pre := []) (junk := out) (post := []) (off := 0) hk hkl (Holds.self (adrs l t.toNat 0 ots 0 0 0)) (adrs_len _ _ _ _ _ _ _) rfl ho
  rw [List.nil_append, List.append_nil, List.nil_append, List.append_nil] at h
  rw [getSeed, show setMask (setHash (setChain (mk l t 0 ots y z k) 0) 0) 0 = mk l t 0 ots 0 0 0 from rfl]
  rw [addressToBytes_ok, ok_bind, mk_bytes, h, ok_bind]
  rfl

theorem genLeafWots_ok {sk sks pre junk post : List Byte} {so off : Nat} (hk : Holds sk so sks) (hkl : sks.length = s.n) (l : Nat) (t : BitVec 64) (j y z k y1 z1 k1 : Nat) (ho : off = pre.length) (hj : junk.length = s.n) :
    ∃ a b c a' b' c', genLeafWots ch pr (pre ++ junk ++ post) off sk so seed (mk l t 1 j y z k) (mk l t 0 j y1 z1 k1)
      = .ok (pre ++ treeLeaf s sks sd l t.toNat j ++ post, mk l t 1 j a b c, mk l t 0 j a' b' c') := by
  obtain ⟨a', b', c', h2⟩ := wotsPkGen_ok H F hs hsd (sks := sks) (junk := List.replicate pr.wotsBytes 0) l t j 0 0 0 (Holds.self _) (by rw [List.length_replicate, Params.wotsBytes, F.wlen, F.n])
  obtain ⟨pk', a, b, c, _, h3⟩ := lTree_ok H F hs hsd (pre := pre) (junk := junk) (post := post) (wotsPk_len H.good sks sd l t.toNat j) l t j y z k ho hj
  refine ⟨a, b, c, a', b', c', ?_⟩
  rw [genLeafWots, getSeed_ok H F hk hkl (by simp [F.n]), ok_bind, h2, ok_bind, h3, ok_bind]
  rfl

end

/-! ## A tree -/

/-- What a tree computation works on. -/
structure Tree (s : Parameters) where
  build ::
  l : Nat
  t : BitVec 64
  /-- the leaf whose path is wanted -/
  L : Nat
  sks : List Byte
  sd : List Byte
  apre : List Byte
  apost : List Byte
  old : Nat → List Byte
  good : s.Good
  sdl : sd.length = s.n
  skl : sks.length = s.n
  oldLen : ∀ z, z < s.h → (old z).length = s.n
  Lt : L < 2 ^ s.h

namespace Tree
variable (C : Tree s)

/-- The nodes. -/
abbrev N (z j : Nat) : List Byte := node (treeLeaf s C.sks C.sd C.l C.t.toNat) (treeComb s C.sd C.l C.t.toNat) z j

theorem N_len (z j : Nat) : (C.N z j).length = s.n := node_len (fun _ => treeLeaf_len C.good _ _ _ _ _) (fun _ _ _ => randHash_len C.good _ _ _) z j

/-- The index wanted at height `z`. -/
def want (z : Nat) : Nat := (C.L >>> z) ^^^ 1

theorem fits {z idx : Nat} (hz : z ≤ s.h) (hidx : idx < 2 ^ s.h) (he : C.want z = idx >>> z) : z < s.h := by
  by_contra hc
  have : z = s.h := by omega
  subst this
  rw [want, Nat.shiftRight_eq_div_pow, Nat.shiftRight_eq_div_pow, Nat.div_eq_of_lt C.Lt, Nat.div_eq_of_lt hidx] at he
  exact absurd he (by decide)

theorem want_sibling (z : Nat) : C.want z = sibling (C.L / 2 ^ z) := by
  rw [Tree.want, Nat.shiftRight_eq_div_pow, sibling]
  generalize C.L / 2 ^ z = x
  have h1 : (x ^^^ 1) % 2 = 1 ↔ ¬ (x % 2 = 1) := by
    rw [Nat.xor_mod_two_eq_one]; simp
  have h2 : (x ^^^ 1) / 2 = x / 2 := by rw [Nat.xor_div_two]; simp
  by_cases hx : x % 2 = 1
  · rw [if_pos hx]; omega
  · rw [if_neg hx]; omega

theorem path_eq : chunks (fun z => if (C.want z + 1) * 2 ^ z ≤ 2 ^ s.h then C.N z (C.want z) else C.old z) s.h = treePath s C.sks C.sd C.l C.t.toNat C.L := by
  rw [treePath, path]
  refine chunks_congr _ fun z hz => ?_
  rw [if_pos, C.want_sibling]
  rw [C.want_sibling]
  have hp : 2 ^ s.h = 2 ^ (s.h - z - 1) * 2 * 2 ^ z := by rw [← Nat.pow_succ, ← Nat.pow_add]; congr 1; omega
  have h1 : C.L / 2 ^ z < 2 ^ (s.h - z - 1) * 2 := by
    rw [Nat.div_lt_iff_lt_mul (Nat.two_pow_pos z), ← hp]; exact C.Lt
  have h2 : sibling (C.L / 2 ^ z) + 1 ≤ 2 ^ (s.h - z - 1) * 2 := by
    rw [sibling]
    generalize C.L / 2 ^ z = x at h1
    split <;> omega
  rw [hp]
  exact Nat.mul_le_mul_right _ h2

/-- What holds of the variables: `es` is on the stack, and the pieces of the path that satisfy `c` are written. -/
structure Inv (c : Nat → Prop) (es : List (Nat × Nat)) (st : TreeState) : Prop where
  stack : ∃ junk, st.stack = bytesOf C.N es ++ junk
  stackLen : (s.h + 1) * s.n ≤ st.stack.length
  heights : ∃ junk, st.heights = heightsOf es ++ junk
  heightsLen : s.h + 1 ≤ st.heights.length
  auth : ∃ g, st.auth = C.apre ++ chunks g s.h ++ C.apost ∧ ∀ z, z < s.h → (c z → g z = C.N z (C.want z)) ∧ (¬ c z → g z = C.old z)
  node : ∃ x y z, st.node = mk C.l C.t 2 0 x y z
  ots : ∃ w x y z, st.ots = mk C.l C.t 0 w x y z
  ltree : ∃ w x y z, st.ltree = mk C.l C.t 1 w x y z

/-- Piece `z` is complete after `idx` leaves, or after one more at a height up to `h`. -/
def Cond (idx h z : Nat) : Prop := (C.want z + 1) * 2 ^ z ≤ idx ∨ (z ≤ h ∧ (C.want z + 1) * 2 ^ z = idx + 1)

variable {C}

theorem Inv.mono {c c' : Nat → Prop} {es : List (Nat × Nat)} {st : TreeState} (h : C.Inv c es st) (hc : ∀ z, z < s.h → (c z ↔ c' z)) : C.Inv c' es st := by
  obtain ⟨g, h1, h2⟩ := h.auth
  exact ⟨h.stack, h.stackLen, h.heights, h.heightsLen, ⟨g, h1, fun z hz => by rw [← hc z hz]; exact h2 z hz⟩, h.node, h.ots, h.ltree⟩

/-- One more piece of the path, if it is the one wanted. -/
theorem Inv.write {c c' : Nat → Prop} {es : List (Nat × Nat)} {st : TreeState} {z j so off : Nat} (h : C.Inv c es st) (hcut : (C.want z = j) → z < s.h) (hsrc : Holds st.stack so (C.N z j))
    (ho : off = C.apre.length + s.n * z) (hc : ∀ y, y ≠ z → (c y ↔ c' y)) (hc1 : C.want z = j → c' z) (hc2 : C.want z ≠ j → (c z ↔ c' z)) :
    ∃ auth, (if C.want z = j then copy st.stack so st.auth off s.n else .ok st.auth) = .ok auth ∧ C.Inv c' es { st with auth := auth } := by
  obtain ⟨g, h1, h2⟩ := h.auth
  by_cases hw : C.want z = j
  · have hz := hcut hw
    have hg : ∀ i, i < s.h → (g i).length = s.n := fun i hi => by
      by_cases hci : c i
      · rw [(h2 i hi).1 hci, C.N_len]
      · rw [(h2 i hi).2 hci, C.oldLen i hi]
    refine ⟨C.apre ++ chunks (fun i => if i = z then C.N z j else g i) s.h ++ C.apost, by rw [if_pos hw, h1, chunks_write hg (C.N_len z j) hz hsrc ho], h.stack, h.stackLen, h.heights, h.heightsLen, ⟨_, rfl, fun y hy => ?_⟩, h.node, h.ots, h.ltree⟩
    by_cases hyz : y = z
    · subst hyz
      rw [if_pos rfl]
      exact ⟨fun _ => by rw [hw], fun hn => absurd (hc1 hw) hn⟩
    · rw [if_neg hyz, ← hc y hyz]; exact h2 y hy
  · refine ⟨_, by rw [if_neg hw], ?_⟩
    exact h.mono fun y _ => by
      by_cases hyz : y = z
      · subst hyz; exact hc2 hw
      · exact hc y hyz

/-- The conditions after the last merge. -/
theorem cond_end {idx h k : Nat} (hk : (k + 1) * 2 ^ h = idx + 1) (heven : k % 2 = 0) (z : Nat) : C.Cond idx h z ↔ (C.want z + 1) * 2 ^ z ≤ idx + 1 := by
  constructor
  · rintro (h1 | ⟨_, h1⟩) <;> omega
  · intro h1
    by_cases h2 : (C.want z + 1) * 2 ^ z = idx + 1
    · refine .inr ⟨?_, h2⟩
      by_contra hz
      obtain ⟨d, rfl⟩ : ∃ d, z = h + 1 + d := ⟨z - (h + 1), by omega⟩
      rw [← hk, Nat.pow_add, Nat.pow_succ, Nat.mul_comm (2 ^ h) 2, show (C.want (h + 1 + d) + 1) * (2 * 2 ^ h * 2 ^ d) = (C.want (h + 1 + d) + 1) * 2 ^ d * 2 * 2 ^ h from by ring] at h2
      have := Nat.eq_of_mul_eq_mul_right (Nat.two_pow_pos h) h2
      omega
    · exact .inl (by omega)

/-- The nodes on top of the stack are merged as far as possible. -/
theorem merge_ok (H : Hashes ch s.H s.n) (F : Facts pr s) {seed : List Byte} (hs : Holds seed 0 C.sd) {idx : Nat} (hidx : idx < 2 ^ s.h) :
    ∀ k h st, (k + 1) * 2 ^ h = idx + 1 → C.Inv (C.Cond idx h) ((h, k) :: stk k h) st →
      ∃ st', mergeLoop ch pr seed C.apre.length C.L idx ((stk k h).length + 1) st = .ok ((stk (k + 1) h).length, st')
        ∧ C.Inv (fun z => (C.want z + 1) * 2 ^ z ≤ idx + 1) (stk (k + 1) h) st' := by
  intro k
  induction k using Nat.strongRecOn with
  | ind k ih =>
    intro h st hk hinv
    by_cases hodd : k % 2 = 1
    · rw [stk_odd hodd] at hinv ⊢
      rw [List.length_cons, mergeLoop]
      obtain ⟨junk, e1⟩ := hinv.stack
      obtain ⟨jh, e2⟩ := hinv.heights
      obtain ⟨x, y, z, e3⟩ := hinv.node
      generalize hes : stk (k / 2) (h + 1) = es at *
      have hl := heightsOf_len es
      have hbl := bytesOf_len C.N C.N_len es
      have r1 : rd st.heights (es.length + 1) = .ok h := by
        rw [e2, heightsOf, heightsOf, show heightsOf es ++ [h] ++ [h] ++ jh = (heightsOf es ++ [h]) ++ h :: jh from by simp, rd_at _ _ _ (by simp [hl])]
      have r2 : rd st.heights es.length = .ok h := by
        rw [e2, heightsOf, heightsOf, show heightsOf es ++ [h] ++ [h] ++ jh = heightsOf es ++ h :: (h :: jh) from by simp, rd_at _ _ _ hl.symm]
      rw [r1, ok_bind, r2, ok_bind, if_pos rfl]
      dsimp only
      have hstep := Sphincs.Tree.cond_step hk hodd
      have hH : h + 1 ≤ s.h := by
        by_contra hc
        have : 2 ^ (s.h + 1) ≤ 2 ^ (h + 1) := Nat.pow_le_pow_right (by decide) (by omega)
        have h2 : 2 ^ (h + 1) ≤ idx + 1 := by rw [← hstep]; exact Nat.le_mul_of_pos_left _ (by omega)
        rw [Nat.pow_succ] at this
        omega
      have hsh := Sphincs.Tree.shift_of hstep
      have e4 : st.stack = bytesOf C.N es ++ C.N h (k - 1) ++ (C.N h k ++ junk) := by rw [e1, bytesOf, bytesOf]; simp
      have hh : Holds st.stack (pr.n * es.length) (C.N h (k - 1) ++ C.N h k) := ⟨bytesOf C.N es, junk, by rw [e4]; simp, by rw [hbl, F.n, Nat.mul_comm]⟩
      have hth := thashH_ok H F (pre := bytesOf C.N es) (junk := C.N h (k - 1)) (post := C.N h k ++ junk) (oo := es.length * pr.n) hh (by rw [List.length_append, C.N_len, C.N_len]; omega) hs C.sdl
        C.l C.t 2 0 h (k / 2) z (by rw [hbl, F.n]) (C.N_len _ _)
      rw [← e4] at hth
      have hnode : randHash s C.sd (adrs C.l C.t.toNat 2 0 h (k / 2)) (C.N h (k - 1) ++ C.N h k) = C.N (h + 1) (k / 2) := by
        show _ = node _ _ (h + 1) (k / 2)
        rw [node, treeComb, Nat.add_sub_cancel, show 2 * (k / 2) = k - 1 from by omega, show k - 1 + 1 = k from by omega]
      rw [hnode] at hth
      rw [e3, hsh, show setHash (setChain (mk C.l C.t 2 0 x y z) h) (k / 2) = mk C.l C.t 2 0 h (k / 2) z from rfl, hth, ok_bind]
      have r3 : wr st.heights es.length (h + 1) = .ok (heightsOf es ++ (h + 1) :: (h :: jh)) := by
        rw [e2, heightsOf, heightsOf, show heightsOf es ++ [h] ++ [h] ++ jh = heightsOf es ++ h :: (h :: jh) from by simp, wr_at _ _ _ _ hl.symm]
      rw [r3, ok_bind]
      have hinv1 : C.Inv (C.Cond idx h) ((h + 1, k / 2) :: es)
          ⟨st.auth, st.ots, st.ltree, mk C.l C.t 2 0 h (k / 2) 2, bytesOf C.N es ++ C.N (h + 1) (k / 2) ++ (C.N h k ++ junk), heightsOf es ++ (h + 1) :: (h :: jh)⟩ :=
        ⟨⟨_, rfl⟩, by
            have := hinv.stackLen
            rw [e4] at this
            simpa [C.N_len] using this, ⟨h :: jh, by rw [heightsOf]; simp⟩, by
            have := hinv.heightsLen
            rw [e2] at this
            simpa [heightsOf] using this, hinv.auth, ⟨_, _, _, rfl⟩, hinv.ots, hinv.ltree⟩
      obtain ⟨auth, ha, hinv2⟩ := hinv1.write (c' := C.Cond idx (h + 1)) (z := h + 1) (j := k / 2) (so := es.length * pr.n) (off := C.apre.length + (h + 1) * pr.n)
        (fun hw => C.fits hH hidx (by rw [hsh]; exact hw)) ⟨bytesOf C.N es, C.N h k ++ junk, rfl, by rw [hbl, F.n]⟩ (by rw [F.n, Nat.mul_comm])
        (fun y hy => by rw [Cond, Cond]; refine or_congr Iff.rfl (and_congr_left fun _ => ?_); omega)
        (fun hw => .inr ⟨Nat.le_refl _, by rw [hw]; exact hstep⟩)
        (fun hw => by
          rw [Cond, Cond]
          refine or_congr Iff.rfl ⟨fun hx => by omega, fun hx => ?_⟩
          have := Nat.eq_of_mul_eq_mul_right (Nat.two_pow_pos (h + 1)) (hx.2.trans hstep.symm)
          omega)
      rw [show (if C.want (h + 1) = k / 2 then copy (bytesOf C.N es ++ C.N (h + 1) (k / 2) ++ (C.N h k ++ junk)) (es.length * pr.n) st.auth (C.apre.length + (h + 1) * pr.n) s.n else .ok st.auth)
        = (if C.L >>> (h + 1) ^^^ 1 = k / 2 then copy (bytesOf C.N es ++ C.N (h + 1) (k / 2) ++ (C.N h k ++ junk)) (es.length * pr.n) st.auth (C.apre.length + (h + 1) * pr.n) pr.n else .ok st.auth)
        from by rw [F.n]; rfl] at ha
      rw [ha, ok_bind]
      rw [← hes] at hinv2
      obtain ⟨st', hm, hi⟩ := ih (k / 2) (by omega) (h + 1) _ hstep hinv2
      refine ⟨st', ?_, ?_⟩
      · rw [hes] at hm
        rw [stk_even (k := k + 1) (by omega), show (k + 1) / 2 = k / 2 + 1 from by omega]
        exact hm
      · rw [stk_even (k := k + 1) (by omega), show (k + 1) / 2 = k / 2 + 1 from by omega]
        exact hi
    · have hev : k % 2 = 0 := by omega
      have hlast : stk (k + 1) h = (h, k) :: stk k h := by
        rw [stk_odd (k := k + 1) (by omega), show (k + 1) / 2 = k / 2 from by omega, Nat.add_sub_cancel, stk_even hev]
      refine ⟨st, ?_, by rw [hlast]; exact hinv.mono fun z _ => cond_end hk hev z⟩
      rw [hlast, List.length_cons]
      obtain ⟨jh, e2⟩ := hinv.heights
      cases hes : stk k h with
      | nil => rfl
      | cons e es =>
        have hge := stk_ge (k / 2) (h + 1) e (by rw [← stk_even hev, hes]; simp)
        rw [hes] at e2
        have hl := heightsOf_len es
        rw [List.length_cons, mergeLoop]
        have r1 : rd st.heights (es.length + 1) = .ok h := by
          rw [e2, heightsOf, heightsOf, show heightsOf es ++ [e.1] ++ [h] ++ jh = (heightsOf es ++ [e.1]) ++ h :: jh from by simp, rd_at _ _ _ (by simp [hl])]
        have r2 : rd st.heights es.length = .ok e.1 := by
          rw [e2, heightsOf, heightsOf, show heightsOf es ++ [e.1] ++ [h] ++ jh = heightsOf es ++ e.1 :: (h :: jh) from by simp, rd_at _ _ _ hl.symm]
        rw [r1, ok_bind, r2, ok_bind, if_neg (by omega)]
        rfl

/-- **The tree**: root and path are those of the specification. -/
theorem treeHash_ok (H : Hashes ch s.H s.n) (F : Facts pr s) {seed sk : List Byte} {so : Nat} (hs : Holds seed 0 C.sd) (hk : Holds sk so C.sks)
    {rpre rjunk rpost : List Byte} {ro : Nat} (ty w x y z : Nat) (hro : ro = rpre.length) (hrj : rjunk.length = s.n) :
    treeHash ch pr (rpre ++ rjunk ++ rpost) ro (C.apre ++ chunks C.old s.h ++ C.apost) C.apre.length sk so seed C.L (mk C.l C.t ty w x y z)
      = .ok (rpre ++ treeRoot s C.sks C.sd C.l C.t.toNat ++ rpost, C.apre ++ treePath s C.sks C.sd C.l C.t.toNat C.L ++ C.apost) := by
  have hn := F.n
  obtain ⟨⟨o, st⟩, h1, ho, h2⟩ := loopN_inv
    (P := fun idx (st : Nat × TreeState) => st.1 = (stk idx 0).length ∧ C.Inv (fun z => (C.want z + 1) * 2 ^ z ≤ idx) (stk idx 0) st.2)
    (f := fun idx (st : Nat × TreeState) => do
      let (offset, s) := st
      let ltree := setOts s.ltree idx
      let ots := setOts s.ots idx
      let g ← genLeafWots ch pr s.stack (offset * pr.n) sk so seed ltree ots
      let heights ← wr s.heights offset 0
      let auth ← (if C.L ^^^ 1 = idx then copy g.1 (offset * pr.n) s.auth C.apre.length pr.n else .ok s.auth : M (List Byte))
      mergeLoop ch pr seed C.apre.length C.L idx (offset + 1) ⟨auth, g.2.2, g.2.1, s.node, g.1, heights⟩)
    (2 ^ pr.treeHeight) 0 (0, ⟨C.apre ++ chunks C.old s.h ++ C.apost, mk C.l C.t 0 0 0 0 0, mk C.l C.t 1 0 0 0 0, mk C.l C.t 2 0 0 0 0, List.replicate (pr.n * (pr.treeHeight + 1)) 0, List.replicate ((pr.treeHeight + 1) * 4) 0⟩)
    (by
      rintro idx ⟨o, st⟩ _ hlt ⟨ho, hinv⟩
      dsimp only at ho hinv ⊢
      subst ho
      rw [Nat.zero_add, F.h] at hlt
      obtain ⟨junk, e1⟩ := hinv.stack
      obtain ⟨jh, e2⟩ := hinv.heights
      obtain ⟨w1, x1, y1, z1, e3⟩ := hinv.ots
      obtain ⟨w2, x2, y2, z2, e5⟩ := hinv.ltree
      have hsl := hinv.stackLen
      have hhl := hinv.heightsLen
      have hcap := stk_len idx 0 s.h hlt
      have hl := heightsOf_len (stk idx 0)
      have hbl := bytesOf_len C.N C.N_len (stk idx 0)
      have hcap2 : ((stk idx 0).length + 1) * s.n ≤ (s.h + 1) * s.n := Nat.mul_le_mul_right _ (by omega)
      rw [Nat.add_one_mul (stk idx 0).length] at hcap2
      have hjl : s.n ≤ junk.length := by rw [e1, List.length_append, hbl] at hsl; omega
      obtain ⟨j0, jr, rfl⟩ : ∃ j0 jr, jh = j0 :: jr := by
        cases jh with
        | nil => rw [e2, List.append_nil, hl] at hhl; omega
        | cons a b => exact ⟨a, b, rfl⟩
      have hll : (treeLeaf s C.sks C.sd C.l C.t.toNat idx).length = s.n := treeLeaf_len C.good _ _ _ _ _
      have e4 : st.stack = bytesOf C.N (stk idx 0) ++ junk.take s.n ++ junk.drop s.n := by rw [e1, List.append_assoc, List.take_append_drop]
      obtain ⟨a, b, c, a', b', c', hgen⟩ := genLeafWots_ok H F hs C.sdl (pre := bytesOf C.N (stk idx 0)) (junk := junk.take s.n) (post := junk.drop s.n) (off := (stk idx 0).length * pr.n) hk C.skl C.l C.t idx x2 y2 z2 x1 y1 z1
        (by rw [hbl, hn]) (by rw [List.length_take]; omega)
      rw [e3, e5, show setOts (mk C.l C.t 1 w2 x2 y2 z2) idx = mk C.l C.t 1 idx x2 y2 z2 from rfl, show setOts (mk C.l C.t 0 w1 x1 y1 z1) idx = mk C.l C.t 0 idx x1 y1 z1 from rfl, e4, hgen, ok_bind,
        e2, wr_at _ _ _ _ hl.symm, ok_bind]
      dsimp only
      have hinv1 : C.Inv (fun z => (C.want z + 1) * 2 ^ z ≤ idx) ((0, idx) :: stk idx 0)
          ⟨st.auth, mk C.l C.t 0 idx a' b' c', mk C.l C.t 1 idx a b c, st.node, bytesOf C.N (stk idx 0) ++ treeLeaf s C.sks C.sd C.l C.t.toNat idx ++ junk.drop s.n, heightsOf (stk idx 0) ++ 0 :: jr⟩ :=
        ⟨⟨_, rfl⟩, by
            rw [e1, List.length_append] at hsl
            dsimp only
            rw [List.length_append, List.length_append, List.length_drop, hll]
            omega, ⟨jr, by rw [heightsOf]; simp⟩, by
            rw [e2] at hhl
            simpa [heightsOf] using hhl, hinv.auth, hinv.node, ⟨_, _, _, _, rfl⟩, ⟨_, _, _, _, rfl⟩⟩
      obtain ⟨auth, ha, hinv2⟩ := hinv1.write (c' := C.Cond idx 0) (z := 0) (j := idx) (so := (stk idx 0).length * pr.n) (off := C.apre.length)
        (fun hw => C.fits (by omega) hlt hw) ⟨bytesOf C.N (stk idx 0), junk.drop s.n, rfl, by rw [hbl, hn]⟩ (by simp)
        (fun y hy => by rw [Cond]; exact ⟨fun h => .inl h, fun h => h.elim id fun h => absurd h.1 (by omega)⟩)
        (fun hw => .inr ⟨Nat.le_refl _, by rw [hw]; simp⟩)
        (fun hw => by
          rw [Cond]
          refine ⟨fun h => .inl h, fun h => h.elim id fun h => ?_⟩
          have := h.2
          rw [Nat.pow_zero, Nat.mul_one] at this
          omega)
      rw [show (if C.want 0 = idx then copy (bytesOf C.N (stk idx 0) ++ treeLeaf s C.sks C.sd C.l C.t.toNat idx ++ junk.drop s.n) ((stk idx 0).length * pr.n) st.auth C.apre.length s.n else .ok st.auth)
        = (if C.L ^^^ 1 = idx then copy (bytesOf C.N (stk idx 0) ++ treeLeaf s C.sks C.sd C.l C.t.toNat idx ++ junk.drop s.n) ((stk idx 0).length * pr.n) st.auth C.apre.length pr.n else .ok st.auth) from by rw [hn]; rfl] at ha
      rw [ha, ok_bind]
      obtain ⟨st', hm, hi⟩ := merge_ok H F hs hlt idx 0 _ (by simp) hinv2
      exact ⟨_, hm, rfl, hi⟩)
    ⟨by rw [stk_zero]; rfl, by
      rw [stk_zero]
      refine ⟨⟨List.replicate (pr.n * (pr.treeHeight + 1)) 0, rfl⟩, ?_, ⟨List.replicate ((pr.treeHeight + 1) * 4) 0, rfl⟩, ?_, ⟨C.old, rfl, fun z _ => ⟨fun h => ?_, fun _ => rfl⟩⟩, ⟨0, 0, 0, rfl⟩, ⟨0, 0, 0, 0, rfl⟩, ⟨0, 0, 0, 0, rfl⟩⟩
      · rw [List.length_replicate, F.h, hn, Nat.mul_comm]
      · rw [List.length_replicate, F.h]; omega
      · exact absurd (Nat.mul_pos (Nat.succ_pos (C.want z)) (Nat.two_pow_pos z)) (Nat.not_lt.mpr h)⟩
  dsimp only at ho h2
  rw [Nat.zero_add, F.h, stk_full, Nat.zero_add] at h2
  obtain ⟨junk, e1⟩ := h2.stack
  obtain ⟨g, e2, e3⟩ := h2.auth
  have hpath : st.auth = C.apre ++ treePath s C.sks C.sd C.l C.t.toNat C.L ++ C.apost := by
    rw [e2, ← C.path_eq]
    congr 2
    refine chunks_congr _ fun z hz => ?_
    by_cases hc : (C.want z + 1) * 2 ^ z ≤ 2 ^ s.h
    · rw [if_pos hc, (e3 z hz).1 hc]
    · rw [if_neg hc, (e3 z hz).2 hc]
  rw [treeHash]
  dsimp only
  rw [show setType (copySubtree {} (mk C.l C.t ty w x y z)) 0 = mk C.l C.t 0 0 0 0 0 from rfl, show setType (copySubtree {} (mk C.l C.t ty w x y z)) 1 = mk C.l C.t 1 0 0 0 0 from rfl,
    show setType (copySubtree {} (mk C.l C.t ty w x y z)) 2 = mk C.l C.t 2 0 0 0 0 from rfl]
  rw [h1, ok_bind]
  dsimp only
  rw [copy_at (s := C.N s.h 0) (so := 0) ⟨[], junk, by rw [e1, bytesOf, bytesOf], rfl⟩ hro (by rw [C.N_len, hn]) (by rw [C.N_len, hrj]), ok_bind, hpath]
  rfl

end Tree

end Cex.Xmss
