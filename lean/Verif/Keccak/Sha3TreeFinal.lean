import Verif.Keccak.Sha3TreeLemmas
import Verif.IntTools.Lemmas
import Verif.IntTools.Enc

/-! # `Reset` and `Finalize` of the parallel SHA3 -/

namespace Cex.Keccak.Tree
open Cex Cex.IntTools Cex.Stream Cex.Mac Cex.Digest

variable {P : List Byte → M (List Byte)} {f : List Byte → List Byte} {r d D S : Nat}

theorem column_cons (h0 : 0 < r) {b m : List Byte} (hb : b.length = D * r) {i : Nat} (hi : i < D) : Sha3Tree.column r D i (b ++ m) = blk r i b ++ Sha3Tree.column r D i m := by
  have hB : 0 < D * r := Nat.mul_pos (by omega) h0
  have hd : (b ++ m).length / (D * r) = m.length / (D * r) + 1 := by rw [List.length_append, hb, Nat.add_div_left _ hB]
  have hir : i * r + r ≤ b.length := by rw [hb]; have : (i + 1) * r ≤ D * r := Nat.mul_le_mul_right r hi; rw [Nat.add_mul] at this; omega
  rw [Sha3Tree.column, Sha3Tree.column, hd, List.range_succ_eq_map, List.flatMap_cons, List.flatMap_map]
  congr 1
  · rw [Nat.zero_mul, Nat.zero_add, List.drop_append_of_le_length (by omega), List.take_append_of_le_length (by rw [List.length_drop]; omega), blk]
  · congr 1
    funext j
    rw [show ((j + 1) * D + i) * r = b.length + (j * D + i) * r from by rw [hb, Nat.add_mul, Nat.add_mul, Nat.add_mul, Nat.add_mul, Nat.one_mul]; omega, ← List.drop_drop, List.drop_left]

theorem eager_column (h0 : 0 < r) {i : Nat} (hi : i < D) (F : Nat → List Byte) (m : List Byte) :
    (eager (D * r) (row f r D) F m).1 i = Fips202.absorb f r (F i) (Sha3Tree.column r D i m) := by
  have hB : 0 < D * r := Nat.mul_pos (by omega) h0
  induction F, m using eager.induct (D * r) (row f r D) with
  | case1 s m hm ih =>
    have hb : (m.take (D * r)).length = D * r := by rw [List.length_take]; omega
    obtain ⟨_, hl⟩ := blk_holds (r := r) (i := i) (Holds.self (m.take (D * r))) (by omega) hi
    have e := column_cons (r := r) h0 hb hi (m := m.drop (D * r))
    rw [List.take_append_drop] at e
    rw [eager, if_pos hm, ih, e, Fips202.absorb, Fips202.absorb, eager_cons h0 hl, row, if_pos hi]
  | case2 s m hm =>
    rw [eager, if_neg hm, Sha3Tree.column, Nat.div_eq_of_lt (by omega), List.range_zero, List.flatMap_nil, Fips202.absorb, eager_short (by simpa using h0)]

theorem hashFinal_eq (p : Perm P f) (h0 : 0 < r) (hr : r ≤ 200) {inp m st : List Byte} {io len : Nat} (hi : Holds inp io m) (hn : len = m.length) (h : st.length = 200) :
    hashFinal P r inp io len st = .ok (Fips202.absorb f r st (m ++ Fips202.pad r 0x06 m.length)) := by
  rw [hashFinal, absorb_eq p h0 hr 0x06 hi hn h, ok_bind, p.run _ (absorbed_length p h0 hr h), f_absorbed (f := f) h0]

theorem absorb_length (p : Perm P f) (hr : r ≤ 200) {st : List Byte} (h : st.length = 200) (m : List Byte) : (Fips202.absorb f r st m).length = 200 := eager_length p hr st m h

/-- The leaves with bytes in the buffer. -/
def closed (f : List Byte → List Byte) (r : Nat) (F : Nat → List Byte) (b : List Byte) : Nat → List Byte :=
  fun i => if blk r i b = [] then F i else Fips202.absorb f r (F i) (blk r i b ++ Fips202.pad r 0x06 (blk r i b).length)

theorem closed_full (p : Perm P f) (hr : r ≤ 200) {F : Nat → List Byte} (h : Full F) (b : List Byte) : Full (closed f r F b) := by
  intro i
  rw [closed]
  split
  · exact h i
  · exact absorb_length p hr (h i) _

theorem close_eq (p : Perm P f) (h0 : 0 < r) (hr : r ≤ 200) {F : Nat → List Byte} (hF : Full F) {b z : List Byte} (hb : b.length ≤ S * r) :
    close P r (b ++ z) b.length ((List.range S).map F) = .ok ((List.range S).map (closed f r F b)) := by
  have hn : (b.length + (r - 1)) / r ≤ S := by
    rw [Nat.div_le_iff_le_mul_add_pred h0, Nat.mul_comm]; omega
  have hlt : ∀ i, i < (b.length + (r - 1)) / r ↔ i * r < b.length := by
    intro i
    rw [Nat.lt_iff_add_one_le, Nat.le_div_iff_mul_le h0, Nat.add_mul]; omega
  have hbl : ∀ i, (blk r i b).length = if b.length - i * r ≥ r then r else b.length - i * r := by
    intro i
    rw [blk, List.length_take, List.length_drop]
    split <;> omega
  rw [close, leaves_eq (G := closed f r F b) hn (by
    intro i hi
    have hi' := (hlt i).mp hi
    have hh : Holds (b ++ z) (i * r) (blk r i b) := by
      have h1 : Holds (b ++ z) 0 b := ⟨[], z, rfl, rfl⟩
      have h2 := (h1.dropN (n := i * r) (by omega)).takeN r
      rw [Nat.zero_add] at h2
      exact h2
    have hne : blk r i b ≠ [] := by
      intro e
      have := hbl i
      rw [e, List.length_nil] at this
      split at this <;> omega
    rw [hashFinal_eq p h0 hr hh (hbl i).symm (hF i), closed, if_neg hne])]
  congr 1
  apply List.map_congr_left
  intro i _
  by_cases hi : i < (b.length + (r - 1)) / r
  · rw [if_pos hi]
  · rw [if_neg hi, closed, if_pos]
    apply List.eq_nil_of_length_eq_zero
    have h1 := (hlt i).not.mp hi
    rw [hbl i, if_neg (by omega)]; omega

theorem flat_length {F : Nat → List Byte} (hF : Full F) (hd : d ≤ 200) (n : Nat) : ((List.range n).flatMap fun i => (F i).take d).length = n * d := by
  induction n with
  | zero => simp
  | succ n ih => rw [List.range_succ, List.flatMap_append, List.length_append, ih, List.flatMap_singleton, List.length_take, hF n, Nat.add_mul]; omega

theorem rootInput_eq {F : Nat → List Byte} (hF : Full F) (hd : d ≤ 200) {buf : List Byte} (hb : S * d ≤ buf.length) :
    rootInput d ((List.range S).map F) buf = .ok (((List.range S).flatMap fun i => (F i).take d) ++ buf.drop (S * d)) := by
  obtain ⟨s', e, h⟩ := loopN_inv (f := fun i buf => do let st ← rd ((List.range S).map F) i; copy st 0 buf (i * d) d)
    (fun j s => s = ((List.range j).flatMap fun i => (F i).take d) ++ buf.drop (j * d)) S 0 buf (by
      rintro j s - hj rfl
      have hj' : j < S := by omega
      have hm : (j + 1) * d ≤ S * d := Nat.mul_le_mul_right _ hj'
      rw [Nat.add_mul, Nat.one_mul] at hm
      have hl : j < ((List.range S).map F).length := by rw [List.length_map, List.length_range]; omega
      refine ⟨_, ?_, rfl⟩
      rw [rd_ok hl, ok_bind]
      have e1 : ((List.range S).map F)[j] = F j := by simp
      have ht : ((F j).take d).length = d := by rw [List.length_take, hF j]; omega
      have e2 : buf.drop (j * d) = (buf.drop (j * d)).take d ++ buf.drop ((j + 1) * d) := by
        rw [Nat.add_mul, Nat.one_mul, ← List.drop_drop, List.take_append_drop]
      rw [e1, e2, ← List.append_assoc, copy_at (s := (F j).take d) (holds_take _ _) (flat_length hF hd j).symm ht.symm (by rw [ht, List.length_take, List.length_drop]; omega),
        List.range_succ, List.flatMap_append, List.flatMap_singleton]) (by simp)
  rw [rootInput, List.length_map, List.length_range, e, h, Nat.zero_add]

theorem root_eq (p : Perm P f) (h0 : 0 < r) (hr : r ≤ 200) {m z : List Byte} :
    root P r (m ++ z) m.length = .ok (Fips202.absorb f r (List.replicate 200 0) (m ++ Fips202.pad r 0x06 m.length)) := by
  have hz : (List.replicate 200 (0 : Byte)).length = 200 := List.length_replicate
  have hh : Holds (m ++ z) 0 m := ⟨[], z, rfl, rfl⟩
  rw [root]
  split
  · next h =>
    rw [absorbLoop_eq p h0 hr _ _ _ m _ hh rfl hz, ok_bind]
    have hle : r * (m.length / r) ≤ m.length := Nat.mul_div_le _ _
    have h2 := hh.dropN hle
    rw [Nat.zero_add, ← eager_rest (step := Fips202.block f) (s := List.replicate 200 0) h0] at h2
    rw [hashFinal, absorb_eq p h0 hr 0x06 h2 (eager_rest_mod h0 _ _).symm (eager_length p hr _ _ hz), ok_bind, p.run _ (absorbed_length p h0 hr (eager_length p hr _ _ hz)), Sha3.final_absorb (f := f) h0]
  · exact hashFinal_eq p h0 hr hh rfl hz

/-- The parameters fill one block. -/
structure Fits (r : Nat) (p : KParams) : Prop where
  code : p.code.length ≤ p.codeMax
  size : 24 + p.codeMax = r

/-- The block of leaf `i`. -/
def header (r : Nat) (p : KParams) (i : Nat) : List Byte := Sha3Tree.header r p.ver.toNat p.out.toNat p.leaf.toNat p.depth.toNat p.fan.toNat p.rsv.toNat p.code i

theorem leRep_eq (n : Nat) {w : Nat} (v : BitVec w) : leRep n v = leEnc n v.toNat := eq_leEnc (leRep_length n v) (leVal_leRep n v)

theorem byte_enc (b : Byte) : [b] = leEnc 1 b.toNat := by rw [leEnc, leEnc, BitVec.ofNat_toNat, BitVec.setWidth_eq]

theorem toBytes_eq {p : KParams} (h : Fits r p) {i : Nat} (hi : i < 2 ^ 32) : { p with node := BitVec.ofNat 32 i }.toBytes = .ok (header r p i) := by
  have hc := h.code
  have hs := h.size
  rw [KParams.toBytes, if_neg (by show ¬ p.code.length > p.codeMax; omega), pure_eq_ok]
  show Except.ok (leRep 4 (BitVec.ofNat 32 i) ++ leRep 2 p.ver ++ leRep 8 p.out ++ leRep 4 p.leaf ++ [p.depth] ++ [p.fan] ++ leRep 4 p.rsv ++ (p.code ++ List.replicate (p.codeMax - p.code.length) 0)) = _
  rw [header, Sha3Tree.header, leRep_eq, leRep_eq, leRep_eq, leRep_eq, leRep_eq, byte_enc, byte_enc, BitVec.toNat_ofNat, Nat.mod_eq_of_lt hi]
  simp only [List.length_append, leEnc_length]
  rw [show r - (4 + 2 + 8 + 4 + 1 + 1 + 4 + p.code.length) = p.codeMax - p.code.length from by omega]
  simp only [List.append_assoc]

theorem header_length {p : KParams} (h : Fits r p) (i : Nat) : (header r p i).length = r := by
  have hc := h.code
  have hs := h.size
  rw [header, Sha3Tree.header]
  simp only [List.length_append, leEnc_length, List.length_replicate]
  omega

/-- The leaves after `Reset`. -/
def start (f : List Byte → List Byte) (r : Nat) (p : KParams) : Nat → List Byte := fun i => Fips202.block f (List.replicate 200 0) (header r p i)

theorem start_full (p : Perm P f) (hr : r ≤ 200) {q : KParams} (h : Fits r q) : Full (start f r q) :=
  fun i => block_length p List.length_replicate (by rw [header_length h]; exact hr)

theorem reset_eq (p : Perm P f) (hr : r ≤ 200) {o : Tree} (ho : o.opts.isParallel = true) (hf : Fits r o.par) {F : Nat → List Byte} (hF : Full F) (hd : o.dgt = (List.range S).map F)
    (hS : S ≤ 2 ^ 32) :
    o.reset P r = .ok { o with buf := List.replicate o.buf.length 0, dgt := (List.range S).map (start f r o.par), len := 0 } := by
  rw [reset, clear_whole, ok_bind, hd, List.length_map, List.length_range, leaves_eq (G := start f r o.par) (Nat.le_refl _) (by
    intro i hi
    rw [leaf0, clear_all _ _ (hF i), ok_bind, if_pos ho, toBytes_eq hf (by omega), ok_bind,
      absorbOne_eq p (Holds.self _) (header_length hf i).symm List.length_replicate (by rw [header_length hf i]; exact hr)]
    rfl), ok_bind, pure_eq_ok]
  congr 2
  apply List.map_congr_left
  intro i hi
  rw [if_pos (List.mem_range.mp hi)]

theorem reset_has (p : Perm P f) (h0 : 0 < r) (hr : r ≤ 200) {o : Tree} (ho : Profile r D S o) (hf : Fits r o.par) {F : Nat → List Byte} (hF : Full F) (hd : o.dgt = (List.range S).map F)
    (hS : S ≤ 2 ^ 32) (hb : o.buf.length = S * r) :
    ∃ o', o.reset P r = .ok o' ∧ Has r D S (start f r o.par) [] o' ∧ o'.par = o.par ∧ o'.opts = o.opts := by
  refine ⟨_, reset_eq p hr ho.par hf hF hd hS, ⟨⟨ho.par, ho.deg, ho.dpos, ho.le, ho.min, ho.prl⟩, start_full p hr hf, rfl, rfl, Nat.mul_pos ho.dpos h0, ⟨_, rfl⟩, ?_⟩, rfl, rfl⟩
  simp [hb]

/-- `Finalize` on a state that is known. -/
theorem finalize_eq (p : Perm P f) (h0 : 0 < r) (hr : r ≤ 200) (hdr : d < r) {o : Tree} {F : Nat → List Byte} {b : List Byte} (ho : Has r D S F b o) (hf : Fits r o.par) (hS : S ≤ 2 ^ 32)
    (pre junk post : List Byte) (hj : junk.length = d) (hsz : (pre ++ junk ++ post).length < 2 ^ 64) :
    ∃ o', o.finalize P r d (pre ++ junk ++ post) pre.length =
        .ok (o', pre ++ Fips202.sponge f r 0x06 ((List.range S).flatMap fun i => (closed f r F b i).take d) d ++ post) ∧
      Has r D S (start f r o.par) [] o' ∧ o'.par = o.par ∧ o'.opts = o.opts := by
  obtain ⟨t, ht⟩ := ho.buf
  have hs := ho.size
  have hlt := ho.lt
  have hle := Nat.mul_le_mul_right r ho.prof.le
  have hst : b.length + t.length = S * r := by rw [← hs, ht, List.length_append]
  have hcf := closed_full p hr ho.full b
  have hdS : S * d ≤ S * r := Nat.mul_le_mul_left _ (by omega)
  have hclr : (if o.len < o.buf.length then clear o.buf o.len (o.buf.length - o.len) else pure o.buf : M (List Byte)) = .ok (b ++ List.replicate t.length 0) := by
    rw [if_pos (by rw [ho.len]; omega), clear, if_neg (by rw [ho.len]; omega)]
    have hb := blit_at (a := b) (b := t) (c := []) (s := List.replicate t.length 0) (off := b.length) rfl (by simp)
    rw [List.append_nil, List.append_nil] at hb
    rw [ho.len, ht, List.length_append, Nat.add_sub_cancel_left]
    exact hb
  have hlp : pre.length ≤ (pre ++ junk ++ post).length := by simp only [List.length_append]; omega
  have hfl := flat_length hcf (d := d) (by omega) S
  generalize hm : ((List.range S).flatMap fun i => (closed f r F b i).take d) = m at hfl
  have hroot : root P r (m ++ (b ++ List.replicate t.length 0).drop (S * d)) (S * d) = .ok (Fips202.absorb f r (List.replicate 200 0) (m ++ Fips202.pad r 0x06 m.length)) := by
    have := root_eq p h0 hr (m := m) (z := (b ++ List.replicate t.length 0).drop (S * d))
    rw [hfl] at this ⊢
    exact this
  have hal : (Fips202.absorb f r (List.replicate 200 0) (m ++ Fips202.pad r 0x06 m.length)).length = 200 := absorb_length p hr List.length_replicate _
  have htk : ((Fips202.absorb f r (List.replicate 200 0) (m ++ Fips202.pad r 0x06 m.length)).take d).length = d := by rw [List.length_take, hal]; omega
  obtain ⟨o', h1, h2, h3, h4⟩ := reset_has p h0 hr (o := { o with dgt := (List.range S).map (closed f r F b), buf := m ++ (b ++ List.replicate t.length 0).drop (S * d), len := b.length })
    ⟨ho.prof.par, ho.prof.deg, ho.prof.dpos, ho.prof.le, ho.prof.min, ho.prof.prl⟩ hf hcf rfl hS (by simp [hfl]; omega)
  refine ⟨o', ?_, h2, h3, h4⟩
  have hri := rootInput_eq hcf (d := d) (S := S) (by omega) (buf := b ++ List.replicate t.length 0) (by simp; omega)
  rw [hm] at hri
  rw [finalize, subU_le hlp hsz, if_neg (by simp only [List.length_append]; omega), hclr, ok_bind, ho.dgt, ho.len, close_eq p h0 hr ho.full (by omega), ok_bind, hri, ok_bind,
    List.length_map, List.length_range, hroot, ok_bind, copy_at (s := (Fips202.absorb f r (List.replicate 200 0) (m ++ Fips202.pad r 0x06 m.length)).take d) (holds_take _ _) rfl htk.symm
      (by rw [htk, hj]), ok_bind]
  rw [h1, ok_bind, pure_eq_ok, Fips202.sponge, squeeze_lt hdr]

/-- The leaves of the description. -/
theorem leaf_spec (h0 : 0 < r) {q : KParams} (hq : Fits r q) (m : List Byte) (i : Nat) (hD : 0 < D) :
    closed f r (eager (D * r) (row f r D) (start f r q) m).1 (eager (D * r) (row f r D) (start f r q) m).2 i = Sha3Tree.leaf f r D (header r q) m i := by
  have hB : 0 < D * r := Nat.mul_pos hD h0
  have e2 : (eager (D * r) (row f r D) (start f r q) m).2 = Sha3Tree.lastRow r D m := eager_rest hB _ _
  have e1 : (eager (D * r) (row f r D) (start f r q) m).1 i = Fips202.absorb f r (List.replicate 200 0) (header r q i ++ if i < D then Sha3Tree.column r D i m else []) := by
    rw [Fips202.absorb, eager_cons h0 (header_length hq i)]
    by_cases hi : i < D
    · rw [eager_column h0 hi, if_pos hi]; rfl
    · rw [eager_idle hi, if_neg hi, eager_short (by simpa using h0)]; rfl
  rw [closed, e1, e2]
  rfl

end Cex.Keccak.Tree
