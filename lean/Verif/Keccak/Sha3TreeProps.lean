import Verif.Keccak.Sha3TreeFinal

/-!
# C91 The parallel mode of SHA3

`Run P r d o0 o m`: the object `o` has come about from `o0` by any sequence of successful calls, and `m` is what was passed to `Update` since the start or the last `Reset`, `Finalize`.
-/

namespace Cex.Keccak.Tree
open Cex Cex.IntTools Cex.Stream Cex.Mac Cex.Digest Cex.Options

variable {P : List Byte → M (List Byte)} {f : List Byte → List Byte} {r d D S : Nat}

inductive Run (P : List Byte → M (List Byte)) (r d : Nat) (o0 : Tree) : Tree → List Byte → Prop
  | init : Run P r d o0 o0 []
  | update {o o' m} (x : Window) : Run P r d o0 o m → o.update P r x.buf x.off x.len = .ok o' → Run P r d o0 o' (m ++ x.bytes)
  | reset {o o' m} : Run P r d o0 o m → o.reset P r = .ok o' → Run P r d o0 o' []
  | final {o o' m out oo out'} : Run P r d o0 o m → o.finalize P r d out oo = .ok (o', out') → Run P r d o0 o' []

/-! ## The machine -/

/-- The processor count that the profile works with (ParallelOptions.cpp:359-365). -/
def procs (phys virt : Nat) : Nat := if 1 < max phys virt ∧ max phys virt % 2 ≠ 0 then max phys virt - 1 else max phys virt

theorem construct_profile (h0 : 0 < r) (h2 : r % 2 = 0) {n phys virt l1 : Nat} (hn : 0 < n) (hnr : n * r < 2 ^ 64) (hp : 0 < procs phys virt) (hl : 2048 + n * r ≤ l1) (hl2 : l1 < 2 ^ 64) :
    ∃ o, construct 1 r false 2048 false n phys virt l1 (some true) = .ok o ∧ o.isParallel = true ∧ o.degree = min n (procs phys virt) ∧ o.min = min n (procs phys virt) * r ∧
      ∃ k, 0 < k ∧ o.prl = k * (min n (procs phys virt) * r) := by
  have hpr : (if (if virt > phys then virt else phys) > 1 ∧ (if virt > phys then virt else phys) % 2 ≠ 0 then (if virt > phys then virt else phys) - 1 else (if virt > phys then virt else phys)) = procs phys virt := by
    rw [procs, show (if virt > phys then virt else phys) = max phys virt from by split <;> omega]
  have hD : 0 < min n (procs phys virt) := by omega
  have hDn : min n (procs phys virt) * r ≤ n * r := Nat.mul_le_mul_right _ (Nat.min_le_left _ _)
  have hDr : 0 < min n (procs phys virt) * r := Nat.mul_pos hD h0
  have hdeg : (if n > procs phys virt then procs phys virt else n) = min n (procs phys virt) := by split <;> omega
  have hw : w64 (min n (procs phys virt) * r) = min n (procs phys virt) * r := Nat.mod_eq_of_lt (by omega)
  have hl3 : w64 (l1 + (2 ^ 64 - 2048)) = l1 - 2048 := by rw [w64]; omega
  have hcalc : ∀ o : Opts, o.autoInit = true → o.degree = min n (procs phys virt) → o.procs = procs phys virt → o.blockSize = r → o.simdMultiply = false → o.split = false →
      o.reserved = 2048 → o.l1 = l1 → calculate 1 o = .ok { o with degree := min n (procs phys virt), min := min n (procs phys virt) * r, autoInit := false, isParallel := decide (o.procs > 1), prl := l1 - 2048 - (l1 - 2048) % (min n (procs phys virt) * r) } := by
    intro o a1 a2 a3 a4 a5 a6 a7 a8
    have c1 : calcDegree o = min n (procs phys virt) := by rw [calcDegree, if_neg (by omega), a2]
    have c2 : calcMin 1 o = min n (procs phys virt) * r := by simp only [calcMin, a5, c1, a4, hw]; rfl
    rw [calculate, c1, c2]
    simp only [calcSize, a1, if_true, a6, Bool.false_eq_true, if_false, a7, a8, hl3, roundSize]
    rw [if_neg (by omega), if_neg (by omega)]
  have hc := hcalc (detect phys virt l1 ⟨true, r, false, 2048, 0, false, 0, n, 0, 0, 0, 0, false, false⟩) rfl
    (by simp only [detect, hpr]; exact hdeg) (by simp only [detect]; exact hpr) rfl rfl rfl rfl rfl
  refine ⟨_, by rw [construct, if_neg (by omega)]; simp only [pure_eq_ok, ok_bind]; rw [hc, ok_bind], rfl, rfl, rfl, (l1 - 2048) / (min n (procs phys virt) * r), Nat.div_pos (by omega) hDr, ?_⟩
  show l1 - 2048 - (l1 - 2048) % (min n (procs phys virt) * r) = _
  have := Nat.div_add_mod (l1 - 2048) (min n (procs phys virt) * r)
  rw [Nat.mul_comm] at this
  omega

/-- The parameters that the constructor with a flag makes. -/
def defParams (r d D : Nat) : KParams := ⟨0, 1, BitVec.ofNat 64 d, (BitVec.ofNat 8 r).setWidth 32, 0, BitVec.ofNat 8 D, 0, List.replicate (KParams.codeMaxOf (BitVec.ofNat 64 d)) 0⟩

/-- The two digests. -/
def Kind (r d : Nat) : Prop := (r = 136 ∧ d = 32) ∨ (r = 72 ∧ d = 64)

theorem Kind.facts (k : Kind r d) : 0 < r ∧ r ≤ 200 ∧ d < r ∧ r % 2 = 0 := by rcases k with ⟨rfl, rfl⟩ | ⟨rfl, rfl⟩ <;> decide

theorem defParams_fits (k : Kind r d) (D : Nat) : Fits r (defParams r d D) := by
  rcases k with ⟨rfl, rfl⟩ | ⟨rfl, rfl⟩
  · exact ⟨by rw [defParams]; simp only [List.length_replicate, KParams.codeMax]; exact Nat.le_refl _, rfl⟩
  · exact ⟨by rw [defParams]; simp only [List.length_replicate, KParams.codeMax]; exact Nat.le_refl _, rfl⟩

theorem states (S : Nat) : List.replicate S (List.replicate 200 (0 : Byte)) = (List.range S).map fun _ => List.replicate 200 0 := by
  rw [List.map_const', List.length_range]

/-- Construction with `Parallel = true` on a machine with at least one processor and enough cache: eight leaves, of which as many are used as there are processors. -/
theorem new_has (p : Perm P f) (k : Kind r d) {phys virt l1 : Nat} (hp : 0 < procs phys virt) (hl : 2048 + 8 * r ≤ l1) (hl2 : l1 < 2 ^ 64) :
    ∃ o, new P r d phys virt l1 = .ok o ∧ Has r (min 8 (procs phys virt)) 8 (start f r (defParams r d (min 8 (procs phys virt)))) [] o ∧ o.par = defParams r d (min 8 (procs phys virt)) := by
  obtain ⟨h0, hr, hd, h2⟩ := k.facts
  obtain ⟨op, e1, e2, e3, e4, e5⟩ := construct_profile (n := 8) h0 h2 (by decide) (by omega) hp hl hl2
  have hz : Full fun _ : Nat => List.replicate 200 (0 : Byte) := fun _ => List.length_replicate
  have hpar : KParams.ofSizes (BitVec.ofNat 64 d) ((BitVec.ofNat 8 r).setWidth 32) (BitVec.ofNat 8 op.degree) = .ok (defParams r d (min 8 (procs phys virt))) := by
    rw [e3]
    generalize hD : min 8 (procs phys virt) = D
    have : D = 1 ∨ D = 2 ∨ D = 3 ∨ D = 4 ∨ D = 5 ∨ D = 6 ∨ D = 7 ∨ D = 8 := by omega
    rcases k with ⟨rfl, rfl⟩ | ⟨rfl, rfl⟩ <;> rcases this with rfl | rfl | rfl | rfl | rfl | rfl | rfl | rfl <;> rfl
  obtain ⟨o', h1, h3, h4, h5⟩ := reset_has p h0 hr (D := min 8 (procs phys virt)) (S := 8)
    (o := ⟨List.replicate 8 (List.replicate 200 0), List.replicate (8 * r) 0, 0, op, defParams r d (min 8 (procs phys virt))⟩)
    ⟨e2, e3, by omega, by omega, e4, e5⟩ (defParams_fits k _) hz (states 8) (by decide) List.length_replicate
  exact ⟨o', by rw [new, e1, ok_bind, hpar, ok_bind]; exact h1, h3, h4⟩

/-! ## The digest -/

/-- The invariant when all leaves are used. -/
theorem run_has (p : Perm P f) (h0 : 0 < r) (hr : r ≤ 200) (hd : d < r) {o0 o : Tree} {m : List Byte} (hs : Has r S S (start f r o0.par) [] o0) (hf : Fits r o0.par) (hS : S ≤ 2 ^ 32) (h : Run P r d o0 o m) :
    Has r S S (eager (S * r) (row f r S) (start f r o0.par) m).1 (eager (S * r) (row f r S) (start f r o0.par) m).2 o ∧ o.par = o0.par := by
  have hB : 0 < S * r := Nat.mul_pos hs.prof.dpos h0
  have e0 : eager (S * r) (row f r S) (start f r o0.par) [] = (start f r o0.par, []) := eager_short (by simpa using hB)
  induction h with
  | init => rw [e0]; exact ⟨hs, rfl⟩
  | update x _ hu ih =>
    obtain ⟨o', h1, h2, h3, _⟩ := update_ok p h0 hr ih.1 (.inl rfl) x.holds
    rw [x.bytes_length, hu] at h1
    cases h1
    rw [eager_append]
    exact ⟨h2, h3.trans ih.2⟩
  | reset _ hu ih =>
    obtain ⟨o', h1, h2, h3, _⟩ := reset_has p h0 hr ih.1.prof (by rw [ih.2]; exact hf) ih.1.full ih.1.dgt hS ih.1.size
    rw [hu] at h1
    cases h1
    rw [e0]
    rw [ih.2] at h2
    exact ⟨h2, h3.trans ih.2⟩
  | @final o o' m out oo out' _ hu ih =>
    rw [finalize] at hu
    split at hu
    · cases hu
    · next hsz =>
      obtain ⟨b1, g1, hu⟩ := bind_ok hu
      obtain ⟨t, ht⟩ := ih.1.buf
      have hs' := ih.1.size
      have hlt := ih.1.lt
      have hlen := ih.1.len
      have hfull := ih.1.full
      have hdg := ih.1.dgt
      generalize (eager (S * r) (row f r S) (start f r o0.par) m).2 = b at *
      generalize (eager (S * r) (row f r S) (start f r o0.par) m).1 = F at *
      have hst : b.length + t.length = S * r := by rw [← hs', ht, List.length_append]
      have hclr : (if o.len < o.buf.length then clear o.buf o.len (o.buf.length - o.len) else pure o.buf : M (List Byte)) = .ok (b ++ List.replicate t.length 0) := by
        rw [if_pos (by omega), clear, if_neg (by omega)]
        have hb := blit_at (a := b) (b := t) (c := []) (s := List.replicate t.length 0) (off := b.length) rfl (by simp)
        rw [List.append_nil, List.append_nil] at hb
        rw [hlen, ht, List.length_append, Nat.add_sub_cancel_left]
        exact hb
      rw [hclr] at g1
      cases g1
      rw [hdg, hlen, close_eq p h0 hr hfull (by omega), ok_bind] at hu
      have hcf := closed_full p hr hfull b
      have hdS : S * d ≤ S * r := Nat.mul_le_mul_left _ (by omega)
      rw [rootInput_eq hcf (by omega) (by simp; omega), ok_bind] at hu
      obtain ⟨s1, _, hu⟩ := bind_ok hu
      obtain ⟨s2, _, hu⟩ := bind_ok hu
      obtain ⟨s3, g3, hu⟩ := bind_ok hu
      cases hu
      obtain ⟨o2, h1, h2, h3, _⟩ := reset_has p h0 hr (D := S) (S := S) (o := { o with dgt := (List.range S).map (closed f r F b), buf := ((List.range S).flatMap fun i => (closed f r F b i).take d) ++ (b ++ List.replicate t.length 0).drop (S * d), len := b.length })
        ⟨ih.1.prof.par, ih.1.prof.deg, ih.1.prof.dpos, ih.1.prof.le, ih.1.prof.min, ih.1.prof.prl⟩ (by show Fits r o.par; rw [ih.2]; exact hf) hcf rfl hS (by simp only [List.length_append, List.length_drop, List.length_replicate, flat_length hcf (d := d) (by omega) S]; omega)
      rw [g3] at h1
      cases h1
      rw [e0]
      have e : start f r o.par = start f r o0.par := by rw [ih.2]
      rw [← e]
      exact ⟨h2, h3.trans ih.2⟩

/-- The digest of `m` by the eight leaves of a machine with `n` processors. -/
def digest (r d n : Nat) (m : List Byte) : List Byte := Sha3Tree.digest (Fips202.keccakP 24) r d (min 8 n) 8 (header r (defParams r d (min 8 n))) m

/-- With all leaves in use, the digest depends on the message only, not on how it was passed, and is that of the description. -/
theorem C91_leaves (p : Perm P f) (h0 : 0 < r) (hr : r ≤ 200) (hd : d < r) {o0 o : Tree} {m : List Byte} (hs : Has r S S (start f r o0.par) [] o0) (hf : Fits r o0.par) (hS : S ≤ 2 ^ 32)
    (h : Run P r d o0 o m) (pre junk post : List Byte) (hj : junk.length = d) (hsz : (pre ++ junk ++ post).length < 2 ^ 64) :
    ∃ o', o.finalize P r d (pre ++ junk ++ post) pre.length = .ok (o', pre ++ Sha3Tree.digest f r d S S (header r o0.par) m ++ post) := by
  obtain ⟨h1, h2⟩ := run_has p h0 hr hd hs hf hS h
  obtain ⟨o', h3, _⟩ := finalize_eq p h0 hr hd h1 (by rw [h2]; exact hf) hS pre junk post hj hsz
  refine ⟨o', ?_⟩
  rw [h3, Sha3Tree.digest]
  simp only [leaf_spec h0 hf m _ hs.prof.dpos]

/-- C91 for machines with eight processors or more: any history of calls on an object made with `Parallel = true`. -/
theorem C91_digest_partial (k : Kind r d) {phys virt l1 : Nat} (hp : 8 ≤ procs phys virt) (hl : 2048 + 8 * r ≤ l1) (hl2 : l1 < 2 ^ 64) {o0 o : Tree} {m : List Byte}
    (hn : new permute24U r d phys virt l1 = .ok o0) (h : Run permute24U r d o0 o m) (pre junk post : List Byte) (hj : junk.length = d) (hsz : (pre ++ junk ++ post).length < 2 ^ 64) :
    ∃ o', o.finalize permute24U r d (pre ++ junk ++ post) pre.length = .ok (o', pre ++ digest r d (procs phys virt) m ++ post) := by
  obtain ⟨h0, hr, hd, _⟩ := k.facts
  obtain ⟨o1, h1, h2, h3⟩ := new_has perm24U k (phys := phys) (virt := virt) (by omega) hl hl2
  rw [hn] at h1
  cases h1
  have e : min 8 (procs phys virt) = 8 := by omega
  rw [← h3, e] at h2
  obtain ⟨o', h4⟩ := C91_leaves perm24U h0 hr hd h2 (by rw [h3]; exact defParams_fits k _) (by decide) h pre junk post hj hsz
  refine ⟨o', ?_⟩
  rw [h4, digest, h3, e]

theorem one_update (p : Perm P f) (k : Kind r d) {phys virt l1 : Nat} (hp : 0 < procs phys virt) (hl : 2048 + 8 * r ≤ l1) (hl2 : l1 < 2 ^ 64) (x : Window)
    (pre junk post : List Byte) (hj : junk.length = d) (hsz : (pre ++ junk ++ post).length < 2 ^ 64) :
    ∃ o0 o o', new P r d phys virt l1 = .ok o0 ∧ o0.update P r x.buf x.off x.len = .ok o ∧
      o.finalize P r d (pre ++ junk ++ post) pre.length = .ok (o', pre ++ Sha3Tree.digest f r d (min 8 (procs phys virt)) 8 (header r (defParams r d (min 8 (procs phys virt)))) x.bytes ++ post) := by
  obtain ⟨h0, hr, hd, _⟩ := k.facts
  obtain ⟨o0, h1, h2, h3⟩ := new_has p k (phys := phys) (virt := virt) hp hl hl2
  obtain ⟨o, h4, h5, h6, _⟩ := update_ok p h0 hr h2 (.inr rfl) x.holds
  have hf : Fits r o.par := by rw [h6, h3]; exact defParams_fits k _
  obtain ⟨o', h7, _⟩ := finalize_eq p h0 hr hd h5 hf (by decide) pre junk post hj hsz
  refine ⟨o0, o, o', h1, by rw [← x.bytes_length]; exact h4, ?_⟩
  rw [h7, Sha3Tree.digest, List.nil_append]
  simp only [leaf_spec h0 (defParams_fits k _) x.bytes _ h2.prof.dpos]

/-- On any machine a single `Update` (or `Compute`) on a new object gives the digest of the description, for the number of leaves in use. -/
theorem C91_one_update (k : Kind r d) {phys virt l1 : Nat} (hp : 0 < procs phys virt) (hl : 2048 + 8 * r ≤ l1) (hl2 : l1 < 2 ^ 64) (x : Window)
    (pre junk post : List Byte) (hj : junk.length = d) (hsz : (pre ++ junk ++ post).length < 2 ^ 64) :
    ∃ o0 o o', new permute24U r d phys virt l1 = .ok o0 ∧ o0.update permute24U r x.buf x.off x.len = .ok o ∧
      o.finalize permute24U r d (pre ++ junk ++ post) pre.length = .ok (o', pre ++ digest r d (procs phys virt) x.bytes ++ post) := one_update perm24U k hp hl hl2 x pre junk post hj hsz

/-! ## What goes wrong -/

/-- With fewer leaves in use than there are, a full buffer loses the blocks of the others. -/
theorem fill_drops (p : Perm P f) (h0 : 0 < r) (hr : r ≤ 200) {o : Tree} {F : Nat → List Byte} {a b : List Byte} (ho : Has r D S F a o) (ha : a ≠ []) (hb : a.length + b.length = S * r)
    {inp : List Byte} {io : Nat} (hx : Holds inp io b) (hlt : D < S) :
    ∃ o', o.update P r inp io b.length = .ok o' ∧ Has r D S (row f r D F ((a ++ b).take (D * r))) [] o' ∧ o'.par = o.par ∧ o'.opts = o.opts := by
  obtain ⟨t, ht⟩ := ho.buf
  have hs := ho.size
  have hal := ho.lt
  have hlen := ho.len
  have hap : 0 < a.length := List.length_pos_iff.mpr ha
  have hle : D * r ≤ S * r := Nat.mul_le_mul_right _ (by omega)
  have hDr : 0 < D * r := Nat.mul_pos ho.prof.dpos h0
  have hst : a.length + t.length = S * r := by rw [← hs, ht, List.length_append]
  have hk : o.buf.length - o.len = b.length := by omega
  have hcp : copy inp io o.buf o.len b.length = .ok (a ++ b) := by
    have := copy_at (a := a) (b := t) (c := []) (off := o.len) (n := b.length) hx hlen rfl (by omega)
    rw [List.append_nil, List.append_nil] at this
    rw [ht]; exact this
  have hlv := leaves_eq (S := S) (F := F) (G := row f r D F ((a ++ b).take (D * r))) (g := fun i s => absorbOne P (a ++ b) (i * r) r s) ho.prof.le (by
    intro i hi
    obtain ⟨b1, b2⟩ := blk_holds (r := r) (i := i) (D := D) (Holds.self (a ++ b)) (by rw [List.length_append]; omega) hi
    rw [Nat.zero_add] at b1
    rw [row, if_pos hi, blk_take hi]
    exact absorbOne_eq p b1 b2.symm (ho.full i) (by omega))
  have hsame : (fun i => if i < D then row f r D F ((a ++ b).take (D * r)) i else F i) = row f r D F ((a ++ b).take (D * r)) := by
    funext i
    split
    · rfl
    · next hi => rw [row, if_neg hi]
  rw [hsame] at hlv
  obtain ⟨kb, hkb, hbs⟩ := ho.prof.prl
  have hprl : 0 < o.opts.prl := by rw [hbs]; exact Nat.mul_pos hkb hDr
  refine ⟨{ o with buf := a ++ b, dgt := (List.range S).map (row f r D F ((a ++ b).take (D * r))), len := 0 }, ?_, ?_, rfl, rfl⟩
  · rw [update, if_neg (by omega), Tree.fill, if_pos ⟨by omega, by omega⟩, hk, hcp, ok_bind, ho.dgt, ho.prof.deg, hlv, ok_bind, pure_eq_ok, ok_bind, Nat.sub_self]
    rw [rows, if_neg (by show ¬ 0 ≥ _; omega), pure_eq_ok, ok_bind, rows, if_neg (by show ¬ 0 ≥ _; rw [ho.prof.min]; omega), pure_eq_ok, ok_bind, store, if_neg (by simp)]
    rfl
  · exact ⟨⟨ho.prof.par, ho.prof.deg, ho.prof.dpos, ho.prof.le, ho.prof.min, ho.prof.prl⟩, row_full p hr ho.full _, rfl, rfl, hDr, ⟨_, rfl⟩, by rw [List.length_append]; exact hb⟩

/-- Two messages that are passed in two calls and differ only behind the blocks of the leaves in use have the same digest, whatever the permutation. -/
theorem C91_dropped (p : Perm P f) (k : Kind r d) {phys virt l1 : Nat} (hp : 0 < procs phys virt) (hp8 : procs phys virt < 8) (hl : 2048 + 8 * r ≤ l1) (hl2 : l1 < 2 ^ 64)
    (a b b' : Window) (ha : 0 < a.bytes.length) (ha' : a.bytes.length < procs phys virt * r) (hb : a.bytes.length + b.bytes.length = 8 * r) (hb' : a.bytes.length + b'.bytes.length = 8 * r)
    (heq : (a.bytes ++ b.bytes).take (procs phys virt * r) = (a.bytes ++ b'.bytes).take (procs phys virt * r)) :
    ∃ o0 o1 o2 o2' o3 o3' out, new P r d phys virt l1 = .ok o0 ∧ o0.update P r a.buf a.off a.len = .ok o1 ∧ o1.update P r b.buf b.off b.len = .ok o2 ∧ o1.update P r b'.buf b'.off b'.len = .ok o2' ∧
      o2.finalize P r d (List.replicate d 0) 0 = .ok (o3, out) ∧ o2'.finalize P r d (List.replicate d 0) 0 = .ok (o3', out) := by
  obtain ⟨h0, hr, hd, _⟩ := k.facts
  obtain ⟨o0, h1, h2, h3⟩ := new_has p k (phys := phys) (virt := virt) hp hl hl2
  have e : min 8 (procs phys virt) = procs phys virt := by omega
  rw [e] at h2 h3
  obtain ⟨o1, h4, h5, h6, _⟩ := update_ok p h0 hr h2 (.inr rfl) a.holds
  rw [List.nil_append, eager_short ha'] at h5
  obtain ⟨o2, g1, g2, g3, _⟩ := fill_drops p h0 hr h5 (List.length_pos_iff.mp ha) hb b.holds hp8
  obtain ⟨o2', g1', g2', g3', _⟩ := fill_drops p h0 hr h5 (List.length_pos_iff.mp ha) hb' b'.holds hp8
  rw [← heq] at g2'
  obtain ⟨o3, f1, _⟩ := finalize_eq p h0 hr hd g2 (by rw [g3, h6, h3]; exact defParams_fits k _) (by decide) [] (List.replicate d 0) [] List.length_replicate (by simp; omega)
  obtain ⟨o3', f1', _⟩ := finalize_eq p h0 hr hd g2' (by rw [g3', h6, h3]; exact defParams_fits k _) (by decide) [] (List.replicate d 0) [] List.length_replicate (by simp; omega)
  rw [a.bytes_length] at h4
  rw [b.bytes_length] at g1
  rw [b'.bytes_length] at g1'
  simp only [List.nil_append, List.append_nil, List.length_nil] at f1 f1'
  exact ⟨o0, o1, o2, o2', o3, o3', _, h1, h4, g1, g1', f1, f1'⟩

/-- C91 in full: on every machine, objects that were made in the same way and have received the same bytes give the same digest. -/
def C91_full (P : List Byte → M (List Byte)) (r d : Nat) : Prop :=
  ∀ phys virt l1, 0 < procs phys virt → 2048 + 8 * r ≤ l1 → l1 < 2 ^ 64 → ∀ o0, new P r d phys virt l1 = .ok o0 → ∀ o o' m, Run P r d o0 o m → Run P r d o0 o' m →
    ∀ q q', o.finalize P r d (List.replicate d 0) 0 = .ok q → o'.finalize P r d (List.replicate d 0) 0 = .ok q' → q.2 = q'.2

/-- If the digest did not depend on how the message is passed, then on a machine with less than eight processors any two messages of eight blocks that agree in the blocks of the leaves
in use would have the same digest. -/
theorem C91_full_collides (p : Perm P f) (k : Kind r d) (H : C91_full P r d) {n : Nat} (hn : 0 < n) (hn8 : n < 8) (hn2 : n = 1 ∨ n % 2 = 0) (m m' : List Byte) (hm : m.length = 8 * r) (hm' : m'.length = 8 * r)
    (heq : m.take (n * r) = m'.take (n * r)) :
    Sha3Tree.digest f r d n 8 (header r (defParams r d n)) m = Sha3Tree.digest f r d n 8 (header r (defParams r d n)) m' := by
  obtain ⟨h0, hr, hd, _⟩ := k.facts
  have hpr : procs n n = n := by rw [procs, Nat.max_self, if_neg (by omega)]
  have hnr : r ≤ n * r := Nat.le_mul_of_pos_left _ hn
  have h1 : ∀ x : List Byte, x.length = 8 * r → 1 < x.length := fun x hx => by omega
  have hone : m.take 1 = m'.take 1 := by
    have := congrArg (List.take 1) heq
    rwa [List.take_take, List.take_take, Nat.min_eq_left (by omega)] at this
  let W (x : List Byte) (hx : x.length = 8 * r) (o l : Nat) (h : o + l ≤ 8 * r) : Window := ⟨x, o, l, by omega, by omega⟩
  have ea : (W m hm 0 1 (by omega)).bytes = m.take 1 := by show (m.drop 0).take 1 = _; rw [List.drop_zero]
  have eb : ∀ x hx, (W x hx 1 (8 * r - 1) (by omega)).bytes = x.drop 1 := fun x hx => by
    show (x.drop 1).take (8 * r - 1) = _
    rw [List.take_of_length_le (by rw [List.length_drop]; omega)]
  have ew : ∀ x hx, (W x hx 0 (8 * r) (by omega)).bytes = x := fun x hx => by
    show (x.drop 0).take (8 * r) = _
    rw [List.drop_zero, List.take_of_length_le (by omega)]
  have la : (m.take 1).length = 1 := by rw [List.length_take]; omega
  obtain ⟨o0, o1, o2, o2', o3, o3', out, g0, g1, g2, g2', g3, g3'⟩ := C91_dropped p k (phys := n) (virt := n) (l1 := 32768) (by omega) (by omega) (by omega) (by decide)
    (W m hm 0 1 (by omega)) (W m hm 1 (8 * r - 1) (by omega)) (W m' hm' 1 (8 * r - 1) (by omega)) (by rw [ea, la]; decide) (by rw [ea, la, hpr]; omega)
    (by rw [ea, eb m hm, la, List.length_drop]; omega) (by rw [ea, eb m' hm', la, List.length_drop]; omega)
    (by rw [ea, eb m hm, eb m' hm', hpr, List.take_append_drop, hone, List.take_append_drop, heq])
  have r1 : Run P r d o0 o2 m := by
    have := Run.update (W m hm 1 (8 * r - 1) (by omega)) (Run.update (W m hm 0 1 (by omega)) (Run.init (P := P) (r := r) (d := d) (o0 := o0)) g1) g2
    rwa [ea, eb m hm, List.nil_append, List.take_append_drop] at this
  have r1' : Run P r d o0 o2' m' := by
    have := Run.update (W m' hm' 1 (8 * r - 1) (by omega)) (Run.update (W m hm 0 1 (by omega)) (Run.init (P := P) (r := r) (d := d) (o0 := o0)) g1) g2'
    rwa [ea, eb m' hm', List.nil_append, hone, List.take_append_drop] at this
  have main : ∀ (x : List Byte) (hx : x.length = 8 * r) (oo q), Run P r d o0 oo x → oo.finalize P r d (List.replicate d 0) 0 = .ok q →
      Sha3Tree.digest f r d n 8 (header r (defParams r d n)) x = q.2 := by
    intro x hx oo q hR hq
    obtain ⟨a0, a1, a2, f0, f1, f2⟩ := one_update p k (phys := n) (virt := n) (l1 := 32768) (by omega) (by omega) (by decide) (W x hx 0 (8 * r) (by omega)) [] (List.replicate d 0) [] List.length_replicate
      (by simp; omega)
    rw [g0] at f0
    cases f0
    have r2 := Run.update (W x hx 0 (8 * r) (by omega)) (Run.init (P := P) (r := r) (d := d) (o0 := o0)) f1
    rw [ew x hx, List.nil_append] at r2
    rw [ew x hx, hpr, Nat.min_eq_right (by omega)] at f2
    simp only [List.nil_append, List.append_nil, List.length_nil] at f2
    exact H n n 32768 (by omega) (by omega) (by decide) o0 g0 a1 oo x r2 hR _ _ f2 hq
  rw [main m hm o2 _ r1 g3, main m' hm' o2' _ r1' g3']

/-- The permutation that changes nothing. -/
theorem permId : Perm (fun s => .ok s) (fun s => s) := ⟨fun _ _ => rfl, fun _ h => h⟩

set_option maxRecDepth 20000 in
theorem id_differs : ¬ Sha3Tree.digest (fun s => s) 136 32 4 8 (header 136 (defParams 136 32 4)) (List.replicate 1088 1) =
    Sha3Tree.digest (fun s => s) 136 32 4 8 (header 136 (defParams 136 32 4)) (List.replicate 544 1 ++ List.replicate 544 2) := by decide +kernel

/-- The code does not make the digest independent of how the message is passed: it does not for the permutation that changes nothing, on a machine with four processors. -/
theorem C91_false : ¬ ∀ P f, Perm P f → C91_full P 136 32 := by
  intro H
  refine id_differs (C91_full_collides permId (.inl ⟨rfl, rfl⟩) (H _ _ permId) (by decide) (by decide) (.inr rfl) _ _ List.length_replicate (by simp only [List.length_append, List.length_replicate]) ?_)
  rw [List.take_left' List.length_replicate, List.take_replicate]
  rfl

/-- A loop over more leaves than there are. -/
theorem leaves_ub {g : Nat → List Byte → M (List Byte)} (H : ∀ i x, i < S → x.length = 200 → ∃ y, g i x = .ok y ∧ y.length = 200) :
    ∀ (n j : Nat) (l : List (List Byte)), l.length = S → j ≤ S → S < j + n → (∀ x ∈ l, x.length = 200) → loopN n j (fun i l => do let x ← rd l i; let y ← g i x; wr l i y) l = .error .ub
  | 0, j, l, _, hj, hn, _ => absurd hn (by omega)
  | n + 1, j, l, hl, hj, hn, hx => by
    rw [loopN]
    by_cases h : j = S
    · rw [rd_ub (by omega)]; rfl
    · have hjl : j < l.length := by omega
      obtain ⟨y, h1, h2⟩ := H j l[j] (by omega) (hx _ (List.getElem_mem hjl))
      rw [rd_ok hjl, ok_bind, h1, ok_bind, wr_ok _ hjl, ok_bind]
      refine leaves_ub H n (j + 1) _ (by rw [List.length_set, hl]) (by omega) (by omega) (fun x hm => ?_)
      rcases List.mem_or_eq_of_mem_set hm with h | h
      · exact hx x h
      · rw [h]; exact h2

theorem rows_ub (p : Perm P f) (h0 : 0 < r) (hr : r ≤ 200) {m k : Nat} {inp x : List Byte} {io : Nat} {o : Tree} (hd : o.opts.degree = D) (hm : o.opts.min = D * r) (hS : o.dgt.length < D)
    (hl : ∀ s ∈ o.dgt, s.length = 200) (hk : 0 < k) (hmk : m = k * (D * r)) (hx : Holds inp io x) (hge : m ≤ x.length) : rows P r m inp (o, io, x.length) = .error .ub := by
  have hp : 0 < D * r := Nat.mul_pos (by omega) h0
  have hmp : 0 < m := hmk ▸ Nat.mul_pos hk hp
  have hml : x.length % m < m := Nat.mod_lt _ hmp
  have hdm := Nat.div_add_mod x.length m
  have hn : x.length - x.length % m = (x.length / m * k) * (D * r) := by rw [Nat.mul_assoc, ← hmk, Nat.mul_comm]; omega
  rw [rows, if_pos hge, if_neg (by omega)]
  simp only
  generalize hnn : x.length - x.length % m = n at hn
  have hmn : m ≤ n := by
    have : m * 1 ≤ m * (x.length / m) := Nat.mul_le_mul_left _ (Nat.div_pos hge hmp)
    omega
  have hl1 : (x.take n).length = n := by rw [List.length_take]; omega
  rw [leaves, leaves_ub (S := o.dgt.length) (by
    intro i y hi hy
    have hmm : D * r ≤ m := by rw [hmk]; exact Nat.le_mul_of_pos_left _ hk
    rw [processLeaf, hm, if_neg (by omega), show n / (D * r) = x.length / m * k by rw [hn]; exact Nat.mul_div_cancel _ hp]
    have := leaf_loop p h0 hr (hx.takeN n) (hl1.trans hn) (show i < D by omega) (fun _ => y) (fun _ => hy)
    exact ⟨_, this, eager_full p hr _ _ _ (fun _ => hy) i⟩) _ _ _ rfl (Nat.zero_le _) (by rw [hd]; omega) hl]
  rfl

theorem calculate_keeps {o o' : Opts} (h : calculate 1 o = .ok o') : o'.blockSize = o.blockSize ∧ o'.simdMultiply = o.simdMultiply ∧ o'.autoInit = false := by
  have hc : ∀ o : Opts, (calcSize o).blockSize = o.blockSize ∧ (calcSize o).simdMultiply = o.simdMultiply ∧ (calcSize o).autoInit = false := by
    intro o
    rw [calcSize]
    split
    · exact ⟨rfl, rfl, rfl⟩
    · next h =>
      have h : o.autoInit = false := by simpa using h
      split
      · exact ⟨rfl, rfl, h⟩
      · exact ⟨rfl, rfl, h⟩
  obtain ⟨h1, h2, h3⟩ := hc { o with degree := calcDegree o, min := calcMin 1 o }
  rw [calculate, roundSize] at h
  split at h
  · cases h; exact ⟨h1, h2, h3⟩
  · split at h
    · cases h
    · cases h; exact ⟨h1, h2, h3⟩

theorem construct_keeps {n phys virt l1 : Nat} {o : Opts} (h : construct 1 r false 2048 false n phys virt l1 (some true) = .ok o) : o.blockSize = r ∧ o.simdMultiply = false ∧ o.autoInit = false := by
  rw [construct] at h
  split at h
  · cases h
  · dsimp only at h
    obtain ⟨o1, h1, h⟩ := bind_ok h
    cases h
    exact calculate_keeps h1

/-- The profile after `SetMaxDegree`. -/
theorem degree_profile {o : Opts} {n : Nat} (h1 : o.blockSize = r) (h2 : o.simdMultiply = false) (h3 : o.autoInit = false) (h4 : o.isParallel = true) (h5 : 0 < o.prl) (hn : 0 < n) (h0 : 0 < r) (hnr : n * r < 2 ^ 64) :
    ∃ o', setMaxDegree 1 n o = .ok o' ∧ o'.isParallel = true ∧ o'.degree = n ∧ o'.min = n * r ∧ ∃ k, 0 < k ∧ o'.prl = k * (n * r) := by
  have hp : 0 < n * r := Nat.mul_pos hn h0
  have c1 : calcDegree { o with override := true, degree := n } = n := by rw [calcDegree, if_neg (by simp; omega)]
  have c2 : calcMin 1 { o with override := true, degree := n } = n * r := by
    rw [calcMin, c1]
    show (if o.simdMultiply then w64 (w64 (n * o.blockSize) * 1) else w64 (n * o.blockSize)) = _
    rw [h1, h2]
    exact Nat.mod_eq_of_lt hnr
  rw [setMaxDegree, if_neg (by omega), calculate, c1, c2]
  simp only [calcSize, h3, Bool.false_eq_true, if_false, h4, if_true, if_neg (show ¬ o.prl = 0 by omega), roundSize]
  generalize hq : (if o.prl < n * r then n * r else o.prl) = q
  have hqn : n * r ≤ q := by rw [← hq]; split <;> omega
  rw [if_neg (by omega), if_neg (by omega)]
  refine ⟨_, rfl, rfl, rfl, rfl, q / (n * r), Nat.div_pos hqn hp, ?_⟩
  have := Nat.div_add_mod q (n * r)
  rw [Nat.mul_comm] at this
  show q - q % (n * r) = _
  omega

/-- `ParallelMaxDegree` with more than the number of leaves is accepted, and the next `Update` with a row of that many blocks works on states that do not exist. -/
theorem C91_degree_ub (p : Perm P f) (k : Kind r d) {phys virt l1 : Nat} (hp : 0 < procs phys virt) (hl : 2048 + 8 * r ≤ l1) (hl2 : l1 < 2 ^ 64) {n : Nat} (h8 : 8 < n) (hn2 : n % 2 = 0) (hn : n ≤ 64)
    (x : Window) (hx : n * r ≤ x.len) :
    ∃ o o', new P r d phys virt l1 = .ok o ∧ o.maxDegree P r n = .ok o' ∧ o'.update P r x.buf x.off x.len = .error .ub := by
  obtain ⟨h0, hr, hd, h2⟩ := k.facts
  obtain ⟨o, h1, h3, h4⟩ := new_has p k (phys := phys) (virt := virt) hp hl hl2
  have hk : o.opts.blockSize = r ∧ o.opts.simdMultiply = false ∧ o.opts.autoInit = false := by
    rw [new] at h1
    obtain ⟨op, g1, h1⟩ := bind_ok h1
    obtain ⟨q, g2, h1⟩ := bind_ok h1
    rw [reset] at h1
    obtain ⟨b1, _, h1⟩ := bind_ok h1
    obtain ⟨b2, _, h1⟩ := bind_ok h1
    cases h1
    exact construct_keeps g1
  have hnr : n * r ≤ 64 * 200 := Nat.mul_le_mul hn hr
  have hnp : 0 < n * r := Nat.mul_pos (by omega) h0
  obtain ⟨k0, hk0, hprl⟩ := h3.prof.prl
  have hpp : 0 < o.opts.prl := by rw [hprl]; exact Nat.mul_pos hk0 (Nat.mul_pos h3.prof.dpos h0)
  obtain ⟨op, g1, g2, g3, g4, k1, hk1, g5⟩ := degree_profile (n := n) hk.1 hk.2.1 hk.2.2 h3.prof.par hpp (by omega) h0 (by omega)
  have hf : Fits r o.par := by rw [h4]; exact defParams_fits k _
  obtain ⟨o', hre, q1, q2, q3⟩ : ∃ o', Tree.reset P r { o with opts := op } = .ok o' ∧ o'.len = 0 ∧ o'.opts = op ∧ o'.dgt = (List.range 8).map (start f r o.par) :=
    ⟨_, reset_eq (o := { o with opts := op }) p hr g2 hf h3.full h3.dgt (by decide), rfl, rfl, rfl⟩
  have hsf := start_full p hr hf
  refine ⟨o, o', h1, by rw [maxDegree, if_neg (by omega), g1, ok_bind]; exact hre, ?_⟩
  have q4 : o'.dgt.length = 8 := by rw [q3, List.length_map, List.length_range]
  have q5 : ∀ s ∈ o'.dgt, s.length = 200 := by
    intro s hs
    rw [q3] at hs
    obtain ⟨i, _, rfl⟩ := List.mem_map.mp hs
    exact hsf i
  have hxl : x.bytes.length = x.len := x.bytes_length
  have hub : ∀ m j, 0 < j → m = j * (n * r) → m ≤ x.bytes.length → rows P r m x.buf (o', x.off, x.bytes.length) = .error .ub := fun m j hj hm hge =>
    rows_ub p h0 hr (D := n) (by rw [q2, g3]) (by rw [q2, g4]) (by omega) q5 hj hm x.holds hge
  rw [update, if_neg (by omega), Tree.fill, if_neg (by rw [q1]; simp), pure_eq_ok, ok_bind, q2, ← hxl]
  by_cases hc : op.prl ≤ x.bytes.length
  · rw [hub _ k1 hk1 g5 hc]; rfl
  · rw [rows, if_neg (by show ¬ x.bytes.length ≥ op.prl; omega), pure_eq_ok, ok_bind, hub _ 1 (by decide) (by rw [g4, Nat.one_mul]) (by omega)]; rfl

/-! ## Parameters -/

/-- The constructor from parameters that fit the digest, on a machine with at least as many processors as leaves: any history gives the digest of the description. -/
theorem C91_params (h0 : 0 < r) (hr : r ≤ 200) (h2 : r % 2 = 0) (hd : d < r) {q : KParams} (hf : Fits r q) (h1 : 1 < q.fan.toNat) (h64 : q.fan.toNat ≤ 64) {phys virt l1 : Nat} (hp : q.fan.toNat ≤ procs phys virt)
    (hl : 2048 + 64 * r ≤ l1) (hl2 : l1 < 2 ^ 64) :
    ∃ o0, ofParams permute24U r q phys virt l1 = .ok o0 ∧ ∀ o m, Run permute24U r d o0 o m → ∀ pre junk post : List Byte, junk.length = d → (pre ++ junk ++ post).length < 2 ^ 64 →
      ∃ o', o.finalize permute24U r d (pre ++ junk ++ post) pre.length =
        .ok (o', pre ++ Sha3Tree.digest (Fips202.keccakP 24) r d q.fan.toNat q.fan.toNat (header r q) m ++ post) := by
  have hfr : q.fan.toNat * r ≤ 64 * r := Nat.mul_le_mul_right _ h64
  obtain ⟨op, e1, e2, e3, e4, e5⟩ := construct_profile (n := q.fan.toNat) h0 h2 (by omega) (by omega) (phys := phys) (virt := virt) (by omega) (by omega) hl2
  have em : min q.fan.toNat (procs phys virt) = q.fan.toNat := by omega
  rw [em] at e3 e4 e5
  have hz : Full fun _ : Nat => List.replicate 200 (0 : Byte) := fun _ => List.length_replicate
  obtain ⟨o', g1, g3, g4, g5⟩ := reset_has perm24U h0 hr (D := q.fan.toNat) (S := q.fan.toNat)
    (o := ⟨List.replicate q.fan.toNat (List.replicate 200 0), List.replicate (q.fan.toNat * r) 0, 0, op, q⟩)
    ⟨e2, e3, by omega, by omega, e4, e5⟩ hf hz (states _) (by omega) List.length_replicate
  have hne : ¬ (q.fan = 0 ∨ 64 < q.fan.toNat) := by
    rintro (h | h)
    · rw [h] at h1; exact absurd h1 (by decide)
    · omega
  refine ⟨o', by rw [ofParams, if_neg hne, decide_eq_true h1, e1, ok_bind]; exact g1, fun o m hR pre junk post hj hsz => ?_⟩
  have g4' : o'.par = q := g4
  have := C91_leaves perm24U h0 hr hd (o0 := o') (by rw [g4']; exact g3) (by rw [g4']; exact hf) (by omega) hR pre junk post hj hsz
  rwa [g4'] at this

/-- Parameters with another output size than 32 have a block of 72 bytes; SHA3-256 reads 136 of it. A code that is too long is written behind the block. -/
theorem C91_params_ub {q : KParams} (hq : q.out ≠ 32) (h1 : 1 < q.fan.toNat) (h64 : q.fan.toNat ≤ 64) {phys virt l1 : Nat} (hp : 0 < procs phys virt) (hl : 2048 + 64 * 136 ≤ l1) (hl2 : l1 < 2 ^ 64) :
    ofParams P 136 q phys virt l1 = .error .ub := by
  obtain ⟨op, e1, e2, _⟩ := construct_profile (r := 136) (n := q.fan.toNat) (by decide) (by decide) (by omega) (by omega) (phys := phys) (virt := virt) hp (by omega) hl2
  have hne : ¬ (q.fan = 0 ∨ 64 < q.fan.toNat) := by
    rintro (h | h)
    · rw [h] at h1; exact absurd h1 (by decide)
    · omega
  rw [ofParams, if_neg hne, decide_eq_true h1, e1, ok_bind, reset, clear_whole, ok_bind, leaves, List.length_replicate]
  obtain ⟨n, hn⟩ : ∃ n, q.fan.toNat = n + 1 := ⟨q.fan.toNat - 1, by omega⟩
  rw [hn, loopN, rd_ok (by simp), ok_bind]
  have hlf : ∀ o : Tree, o.opts = op → o.par = q → ∀ st : List Byte, o.leaf0 P 136 0 st = .error .ub := by
    intro o ho hpar st
    rw [leaf0, clear_whole, ok_bind, ho, if_pos e2, hpar, KParams.toBytes]
    have hm : ({ q with node := BitVec.ofNat 32 0 } : KParams).codeMax = 48 := if_neg hq
    split
    · rfl
    · next hc =>
      have hc : q.code.length ≤ 48 := by rw [hm] at hc; exact Nat.le_of_not_lt hc
      rw [pure_eq_ok, ok_bind, absorbOne, fastAbsorb]
      have : ∀ b : List Byte, b.length = 72 → ∀ st : List Byte, xorInto b 0 st 0 136 = .error .ub := by
        intro b hb st
        rw [xorInto, slice, if_neg (by omega)]
        rfl
      rw [this _ (by simp only [List.length_append, leRep_length, List.length_cons, List.length_nil, List.length_replicate, hm]; omega)]
      rfl
  rw [hlf _ rfl rfl]
  rfl

/-! ## Cases -/

/-- SHA3-256 on a machine with eight processors: 2000 bytes in two calls, an output with three bytes before and one behind the digest -/
example : ∃ o0 o1 o2 o3, new permute24U 136 32 4 8 32768 = .ok o0 ∧ o0.update permute24U 136 (List.replicate 2000 1) 0 700 = .ok o1 ∧ o1.update permute24U 136 (List.replicate 2000 1) 700 1300 = .ok o2 ∧
    o2.finalize permute24U 136 32 ([5, 5, 5] ++ List.replicate 32 0 ++ [6]) 3 =
      .ok (o3, [5, 5, 5] ++ digest 136 32 8 ([] ++ ((List.replicate 2000 1).drop 0).take 700 ++ ((List.replicate 2000 1).drop 700).take 1300) ++ [6]) := by
  have k : Kind 136 32 := .inl ⟨rfl, rfl⟩
  have hw : (List.replicate 2000 (1 : Byte)).length = 2000 := List.length_replicate
  let a : Window := ⟨List.replicate 2000 1, 0, 700, by omega, by omega⟩
  let b : Window := ⟨List.replicate 2000 1, 700, 1300, by omega, by omega⟩
  have e : min 8 (procs 4 8) = 8 := by decide
  obtain ⟨o0, h1, h2, h3⟩ := new_has perm24U k (phys := 4) (virt := 8) (l1 := 32768) (by decide) (by decide) (by decide)
  rw [e] at h2
  obtain ⟨o1, g1, g2, _⟩ := update_ok perm24U (by decide) (by decide) h2 (.inl rfl) a.holds
  obtain ⟨o2, g3, _⟩ := update_ok perm24U (by decide) (by decide) g2 (.inl rfl) b.holds
  rw [a.bytes_length] at g1
  rw [b.bytes_length] at g3
  obtain ⟨o3, g4⟩ := C91_digest_partial k (by decide) (by decide) (by decide) h1 (.update b (.update a .init g1) g3) [5, 5, 5] (List.replicate 32 0) [6] List.length_replicate (by decide)
  exact ⟨o0, o1, o2, o3, h1, g1, g3, g4⟩

/-- the last four of eight blocks are lost on a machine with four processors when one byte comes first -/
example : ∃ o0 o1 o2 o2' o3 o3' out, new permute24U 72 64 4 4 32768 = .ok o0 ∧ o0.update permute24U 72 [9] 0 1 = .ok o1 ∧ o1.update permute24U 72 (List.replicate 575 1) 0 575 = .ok o2 ∧
    o1.update permute24U 72 (List.replicate 287 1 ++ List.replicate 288 2) 0 575 = .ok o2' ∧ o2.finalize permute24U 72 64 (List.replicate 64 0) 0 = .ok (o3, out) ∧
    o2'.finalize permute24U 72 64 (List.replicate 64 0) 0 = .ok (o3', out) :=
  C91_dropped perm24U (.inr ⟨rfl, rfl⟩) (phys := 4) (virt := 4) (l1 := 32768) (by decide) (by decide) (by decide) (by decide) ⟨[9], 0, 1, by decide, by decide⟩
    ⟨List.replicate 575 1, 0, 575, by rw [List.length_replicate], by rw [List.length_replicate]; decide⟩
    ⟨List.replicate 287 1 ++ List.replicate 288 2, 0, 575, by simp only [List.length_append, List.length_replicate]; decide, by simp only [List.length_append, List.length_replicate]; decide⟩
    (by decide) (by decide) (by decide +kernel) (by decide +kernel) (by decide +kernel)

/-- parameters that fit, and such that do not -/
example : Fits 136 (defParams 136 32 4) ∧ 1 < (defParams 136 32 4).fan.toNat ∧ (defParams 136 32 4).fan.toNat ≤ procs 4 8 ∧
    KParams.ofSizes 64 136 4 = .ok ⟨0, 1, 64, 136, 0, 4, 0, List.replicate 48 0⟩ ∧ ofParams permute24U 136 ⟨0, 1, 64, 136, 0, 4, 0, List.replicate 48 0⟩ 4 8 32768 = .error .ub :=
  ⟨defParams_fits (.inl ⟨rfl, rfl⟩) 4, by decide, by decide, rfl, C91_params_ub (by decide) (by decide) (by decide) (by decide) (by decide) (by decide)⟩

end Cex.Keccak.Tree
