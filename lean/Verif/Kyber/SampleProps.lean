import Verif.Kyber.MatrixLemmas
import Verif.Keccak.PermProps
import Verif.Keccak.SpongeProps

/-!
# C60: the sampling functions of Kyber
-/

namespace Cex.Kyber
open Cex Cex.Lattice Cex.Spec.Lattice Cex.Spec.Kyber

variable {P : List Byte → M (List Byte)} {f : List Byte → List Byte}

/-! ## Noise -/

/-- **C60** (`Cbd2`): for every 128 bytes. -/
theorem C60_cbd2 {w : List Byte} (hw : w.length = 128) {r : List Int} (hr : r.length = 256) : cbd2 r w = .ok ((List.range 256).map (cbd 2 w)) := cbd2_eq hw hr

/-- **C60** (`Cbd3`): for every 192 bytes. -/
theorem C60_cbd3 {w : List Byte} (hw : w.length = 192) {r : List Int} (hr : r.length = 256) : cbd3 r w = .ok ((List.range 256).map (cbd 3 w)) := cbd3_eq hw hr

/-- The values of the centred binomial distribution. -/
theorem C60_small (η : Nat) (w : List Byte) (i : Nat) : |cbd η w i| ≤ η := by
  have h : ∀ n (g : Nat → Nat), (0 : Int) ≤ ∑ j ∈ Finset.range n, (bit w (g j) : Int) ∧ ∑ j ∈ Finset.range n, (bit w (g j) : Int) ≤ n := by
    intro n g
    refine ⟨Finset.sum_nonneg fun j _ => by omega, ?_⟩
    calc ∑ j ∈ Finset.range n, (bit w (g j) : Int) ≤ ∑ j ∈ Finset.range n, (1 : Int) := Finset.sum_le_sum fun j _ => by
          have : bit w (g j) < 2 := Nat.mod_lt _ (by decide)
          omega
      _ = n := by simp
  have h1 := h η fun j => 2 * i * η + j
  have h2 := h η fun j => 2 * i * η + η + j
  rw [cbd, abs_le]
  constructor <;> omega

theorem noiseBytes_eq (p : Keccak.Perm P f) {seed s : List Byte} {off : Nat} (hs : Holds seed off s) (hl : s.length = 32) (nonce : Byte) (eta : Nat) :
    noiseBytes P seed off nonce eta = .ok (Fips202.shake f 136 (s ++ [nonce]) (eta * 64)) := by
  have hc : copy seed off (List.replicate 33 0) 0 32 = .ok (s ++ [0]) := by
    rw [show List.replicate 33 (0 : Byte) = [] ++ List.replicate 32 0 ++ [0] from rfl, copy_at (a := []) (off := 0) hs rfl hl.symm (by rw [List.length_replicate, hl])]
    rfl
  have he : (s ++ [nonce]).length = 33 := by simp [hl]
  have hx := Keccak.C38_xof p (r := 136) (by decide) (by decide) (by decide) ⟨s ++ [nonce], 0, 33, by omega, by omega⟩ [] (List.replicate (eta * 64) 0) []
  have hb : (⟨s ++ [nonce], 0, 33, by omega, by omega⟩ : Window).bytes = s ++ [nonce] := by
    show ((s ++ [nonce]).drop 0).take 33 = _
    rw [List.drop_zero, List.take_of_length_le (by omega)]
  rw [hb] at hx
  simp only [List.nil_append, List.append_nil, List.length_replicate, List.length_nil] at hx
  rw [noiseBytes, hc, ok_bind, Keccak.wr_at _ _ _ _ _ hl.symm, ok_bind]
  exact hx

/-- **C60** (`PolyGetNoiseEta1`): the noise of the specification, for every seed and nonce. -/
theorem C60_noise1 (p : Keccak.Perm P f) {seed s : List Byte} {off : Nat} (hs : Holds seed off s) (hl : s.length = 32) {nonce : Nat} (hn : nonce < 256) {eta : Nat} (he : eta = 2 ∨ eta = 3)
    {r : List Int} (hr : r.length = 256) :
    getNoiseEta1 P r seed off (BitVec.ofNat 8 nonce) eta = .ok ((List.range 256).map (noise f eta s nonce)) := by
  have hlen := shake_length p (r := 136) (n := eta * 64) (by decide) (by decide) (s ++ [BitVec.ofNat 8 nonce])
  rw [getNoiseEta1, noiseBytes_eq p hs hl, ok_bind, polyCbdEta1]
  have hno : noise f eta s nonce = cbd eta (Fips202.shake f 136 (s ++ [BitVec.ofNat 8 nonce]) (eta * 64)) := by
    funext i; rw [noise, Nat.mul_comm]
  rw [hno]
  rcases he with rfl | rfl
  · rw [if_pos rfl, cbd2_eq hlen hr]
  · rw [if_neg (by decide), cbd3_eq hlen hr]

/-- **C60** (`PolyGetNoiseEta2`). -/
theorem C60_noise2 (p : Keccak.Perm P f) {seed s : List Byte} {off : Nat} (hs : Holds seed off s) (hl : s.length = 32) {nonce : Nat} (hn : nonce < 256) {r : List Int} (hr : r.length = 256) :
    getNoiseEta2 P r seed off (BitVec.ofNat 8 nonce) = .ok ((List.range 256).map (noise f 2 s nonce)) :=
  C60_noise1 p hs hl hn (Or.inl rfl) hr

/-! ## Rejection -/

/-- **C60** (`RejUniform`): the residues among the 12-bit numbers, in order, at most `rlen` of them; the rest of the polynomial is untouched. -/
theorem C60_reject {w c : List Byte} (h3 : w.length % 3 = 0) (pre junk post : List Int) :
    rejUniform (pre ++ junk ++ post) pre.length junk.length (w ++ c) w.length =
      .ok (pre ++ ((accepted w).take junk.length).map Int.ofNat ++ junk.drop ((accepted w).take junk.length).length ++ post, ((accepted w).take junk.length).length) :=
  rejUniform_spec h3 rfl pre junk post rfl rfl

theorem accepted_append : ∀ (n : Nat) (a b : List Byte), a.length = 3 * n → b.length % 3 = 0 → accepted (a ++ b) = accepted a ++ accepted b
  | 0, a, b, ha, _ => by
    have : a = [] := List.eq_nil_of_length_eq_zero (by omega)
    rw [this, accepted_nil]; rfl
  | n + 1, x :: y :: z :: a, b, ha, hb => by
    have ha' : a.length = 3 * n := by simp only [List.length_cons] at ha; omega
    rw [List.cons_append, List.cons_append, List.cons_append, accepted_cons _ _ _ _ (by rw [List.length_append]; omega), accepted_cons _ _ _ _ (by omega), accepted_append n a b ha' hb, List.append_assoc]
  | n + 1, [], b, ha, _ => by simp at ha
  | n + 1, [_], b, ha, _ => by simp at ha; omega
  | n + 1, [_, _], b, ha, _ => by simp at ha; omega

/-! ## Prefixes of the stream -/

theorem repeat_comm (n : Nat) (s : List Byte) : Nat.repeat f n (f s) = f (Nat.repeat f n s) := by
  induction n with
  | zero => rfl
  | succ n ih => rw [Nat.repeat, ih]; rfl

theorem squeeze_zero (r : Nat) (s : List Byte) : Fips202.squeeze f r s 0 = [] := by
  rw [Fips202.squeeze, if_neg (by omega), List.take_zero]

theorem squeeze_add {r n : Nat} (h0 : 0 < r) (hn : n ≤ r) : ∀ (m : Nat) (s : List Byte),
    Fips202.squeeze f r s (r * m + n) = Fips202.squeeze f r s (r * m) ++ (Nat.repeat f m s).take n
  | 0, s => by
    rw [Nat.mul_zero, Nat.zero_add, squeeze_zero, List.nil_append, Nat.repeat, Fips202.squeeze, if_neg (by omega)]
  | m + 1, s => by
    have h1 : r * (m + 1) = r * m + r := by ring
    rw [Keccak.squeeze_ge h0 (by omega), Keccak.squeeze_ge h0 (n := r * (m + 1)) (by omega), show r * (m + 1) + n - r = r * m + n from by omega,
      show r * (m + 1) - r = r * m from by omega, squeeze_add h0 hn m (f s), repeat_comm, List.append_assoc]
    rfl

/-- A longer output of SHAKE continues a shorter one. -/
theorem squeeze_prefix (p : Keccak.Perm P f) {r : Nat} (h0 : 0 < r) (hr : r ≤ 200) (s : List Byte) (hs : s.length = 200) (n d : Nat) :
    ∃ t, Fips202.squeeze f r s (n + d) = Fips202.squeeze f r s n ++ t := by
  induction d with
  | zero => exact ⟨[], by simp⟩
  | succ d ih =>
    obtain ⟨t, ht⟩ := ih
    have hm := Nat.div_add_mod (n + d) r
    have hlt := Nat.mod_lt (n + d) h0
    have e1 := squeeze_add (f := f) h0 (n := (n + d) % r) (by omega) ((n + d) / r) s
    have e2 := squeeze_add (f := f) h0 (n := (n + d) % r + 1) (by omega) ((n + d) / r) s
    rw [hm] at e1
    rw [← Nat.add_assoc, hm] at e2
    have hsp : (Nat.repeat f ((n + d) / r) s).take ((n + d) % r + 1) = (Nat.repeat f ((n + d) / r) s).take ((n + d) % r) ++ ((Nat.repeat f ((n + d) / r) s).drop ((n + d) % r)).take 1 :=
      List.take_add
    rw [hsp, ← List.append_assoc, ← e1, ht, List.append_assoc] at e2
    exact ⟨_, e2⟩

theorem shake_prefix (p : Keccak.Perm P f) {r : Nat} (h0 : 0 < r) (hr : r ≤ 200) (x : List Byte) {n m : Nat} (h : n ≤ m) :
    ∃ t, Fips202.shake f r x m = Fips202.shake f r x n ++ t := by
  have := squeeze_prefix p h0 hr _ (Keccak.eager_length p hr (List.replicate 200 0) (x ++ Fips202.pad r 0x1F x.length) List.length_replicate) n (m - n)
  rw [Nat.add_sub_cancel' h] at this
  exact this

/-- Of two prefixes of whole triples the shorter gives the first residues of the longer. -/
theorem accepted_prefix (p : Keccak.Perm P f) (x : List Byte) {n m : Nat} (h : n ≤ m) :
    ∃ t, accepted (Fips202.shake f 168 x (3 * m)) = accepted (Fips202.shake f 168 x (3 * n)) ++ t := by
  obtain ⟨t, ht⟩ := shake_prefix p (r := 168) (by decide) (by decide) x (n := 3 * n) (m := 3 * m) (by omega)
  have h1 := shake_length p (r := 168) (n := 3 * m) (by decide) (by decide) x
  have h2 := shake_length p (r := 168) (n := 3 * n) (by decide) (by decide) x
  rw [ht, List.length_append] at h1
  exact ⟨accepted t, by rw [ht, accepted_append n _ _ h2 (by omega)]⟩

/-- `Parse` has at most one result. -/
theorem C60_parse_unique (p : Keccak.Perm P f) {ρ : List Byte} {x y : Nat} {cs cs' : List Nat} (h : Parses f ρ x y cs) (h' : Parses f ρ x y cs') : cs = cs' := by
  obtain ⟨n, hl, hc⟩ := h
  obtain ⟨m, hl', hc'⟩ := h'
  have key : ∀ (n m : Nat) (A B : List Nat), n ≤ m → A.length = 256 → A = (accepted (Fips202.shake f 168 (ρ ++ [BitVec.ofNat 8 x, BitVec.ofNat 8 y]) (3 * n))).take 256 →
      B = (accepted (Fips202.shake f 168 (ρ ++ [BitVec.ofNat 8 x, BitVec.ofNat 8 y]) (3 * m))).take 256 → A = B := by
    intro n m A B hnm hA eA eB
    obtain ⟨t, ht⟩ := accepted_prefix p (ρ ++ [BitVec.ofNat 8 x, BitVec.ofNat 8 y]) hnm
    rw [ht] at eB
    have hge : 256 ≤ (accepted (Fips202.shake f 168 (ρ ++ [BitVec.ofNat 8 x, BitVec.ofNat 8 y]) (3 * n))).length := by
      rw [eA, List.length_take] at hA; omega
    rw [eB, List.take_append_of_le_length hge, eA]
  rcases Nat.le_total n m with hnm | hnm
  · exact key n m cs cs' hnm hl hc hc'
  · exact (key m n cs' cs hnm hl' hc' hc).symm

/-! ## The matrix -/

theorem shake_block (m n : Nat) (hn : n ≤ 168) (x : List Byte) :
    Fips202.shake f 168 x (168 * m + n) = Fips202.shake f 168 x (168 * m) ++ (f (Nat.repeat f m (Keccak.absorbed f 168 0x1F (List.replicate 200 0) x))).take n := by
  have hfa := Keccak.f_absorbed (f := f) (r := 168) (by decide) 0x1F (List.replicate 200 0) x
  rw [Fips202.shake, Fips202.sponge, ← hfa, squeeze_add (by decide) hn, repeat_comm, Fips202.shake, Fips202.sponge, ← hfa]

/-- With blocks of 168 bytes the loop of the code is `Parse`. -/
theorem more_168 (p : Keccak.Perm P f) (x : List Byte) : ∀ (fuel m : Nat) (cur : List Byte) (cs : List Nat), 0 < m → cur.length = 168 →
    more f 168 fuel (Nat.repeat f m (Keccak.absorbed f 168 0x1F (List.replicate 200 0) x)) cur ((accepted (Fips202.shake f 168 x (168 * m))).take 256) = .ok cs →
    ∃ n, cs.length = 256 ∧ cs = (accepted (Fips202.shake f 168 x (3 * n))).take 256
  | 0, m, cur, cs, hm, hc, h => by
    rw [more] at h
    split at h
    · cases h
    · rename_i hl
      cases h
      exact ⟨56 * m, by rw [List.length_take] at hl ⊢; omega, by rw [show 3 * (56 * m) = 168 * m from by omega]⟩
  | fuel + 1, m, cur, cs, hm, hc, h => by
    rw [more] at h
    split at h
    · rename_i hl
      have hal := Keccak.absorbed_length p (r := 168) (by decide) (by decide) (dom := 0x1F) (m := x) (st := List.replicate 200 0) List.length_replicate
      have hfl : (f (Nat.repeat f m (Keccak.absorbed f 168 0x1F (List.replicate 200 0) x))).length = 200 := p.len _ (Keccak.repeat_len p m hal)
      rw [List.drop_of_length_le (by omega), List.append_nil] at h
      have hcl : (((f (Nat.repeat f m (Keccak.absorbed f 168 0x1F (List.replicate 200 0) x)))).take 168).length = 168 := by rw [List.length_take]; omega
      have hsh := shake_block (f := f) m 168 (Nat.le_refl _) x
      have hsl := shake_length p (r := 168) (n := 168 * m) (by decide) (by decide) x
      have hacc := accepted_append (56 * m) (Fips202.shake f 168 x (168 * m)) _ (by omega) (show (((f (Nat.repeat f m (Keccak.absorbed f 168 0x1F (List.replicate 200 0) x)))).take 168).length % 3 = 0 by rw [hcl])
      rw [← hsh] at hacc
      have hlt : (accepted (Fips202.shake f 168 x (168 * m))).length < 256 := by rw [List.length_take] at hl; omega
      refine more_168 p x fuel (m + 1) _ cs (by omega) hcl ?_
      rw [List.take_of_length_le (l := accepted (Fips202.shake f 168 x (168 * m))) (by omega)] at h
      rw [show 168 * (m + 1) = 168 * m + 168 from by ring, hacc, List.take_append, List.take_of_length_le (l := accepted (Fips202.shake f 168 x (168 * m))) (by omega)]
      exact h
    · rename_i hl
      cases h
      exact ⟨56 * m, by rw [List.length_take] at hl ⊢; omega, by rw [show 3 * (56 * m) = 168 * m from by omega]⟩

/-- What the code samples when 534 bytes of the stream hold 256 residues. -/
theorem uniform_32 (p : Keccak.Perm P f) {x : List Byte} (fuel : Nat) (h : 256 ≤ (accepted (Fips202.shake f 168 x 534)).length) :
    uniform f 32 (fuel + 1) x = .ok ((accepted (Fips202.shake f 168 x 534)).take 256) := by
  have hal := Keccak.absorbed_length p (r := 168) (by decide) (by decide) (dom := 0x1F) (m := x) (st := List.replicate 200 0) List.length_replicate
  have hfl : (f (Nat.repeat f 3 (Keccak.absorbed f 168 0x1F (List.replicate 200 0) x))).length = 200 := p.len _ (Keccak.repeat_len p 3 hal)
  have hsh := shake_block (f := f) 3 30 (by decide) x
  have hsl := shake_length p (r := 168) (n := 504) (by decide) (by decide) x
  rw [show 168 * 3 = 504 from rfl, show 504 + 30 = 534 from rfl] at hsh
  rw [uniform]
  generalize hS : Nat.repeat f 3 (Keccak.absorbed f 168 0x1F (List.replicate 200 0) x) = S at *
  have h30 : ((f S).take 30).length = 30 := by rw [List.length_take]; omega
  have ha := accepted_append 168 (Fips202.shake f 168 x 504) ((f S).take 30) (by omega) (by omega)
  rw [← hsh] at ha
  rw [ha] at h ⊢
  rw [more]
  by_cases hl : (accepted (Fips202.shake f 168 x 504)).length < 256
  · rw [List.take_of_length_le (by omega), if_pos hl]
    have hsplit : (f S).take 32 ++ ((Fips202.shake f 168 x 504).take 168).drop 32 = (f S).take 30 ++ (((f S).take 32).drop 30 ++ ((Fips202.shake f 168 x 504).take 168).drop 32) := by
      rw [← List.append_assoc]
      congr 1
      conv_lhs => rw [← List.take_append_drop 30 ((f S).take 32), List.take_take]
      rfl
    have hb := accepted_append 10 ((f S).take 30) (((f S).take 32).drop 30 ++ ((Fips202.shake f 168 x 504).take 168).drop 32) (by omega)
      (by rw [List.length_append, List.length_drop, List.length_drop, List.length_take, List.length_take]; omega)
    rw [List.length_append] at h
    rw [hsplit, hb, List.take_append_of_le_length (by omega), List.take_append, List.take_of_length_le (l := accepted (Fips202.shake f 168 x 504)) (by omega)]
    cases fuel with
    | zero => rw [more, if_neg (by rw [List.length_append, List.length_take]; omega)]
    | succ n => rw [more, if_neg (by rw [List.length_append, List.length_take]; omega)]
  · rw [if_neg (by rw [List.length_take]; omega), List.take_append_of_le_length (by omega)]

/-- **C60** (`GenMatrix`), as far as it holds: if for every entry 534 bytes of the stream hold 256 residues, the matrix (or its transpose) is the one of the specification.
The full statement has no such condition (only that the stream holds 256 residues at all); `C60_matrix_refuted` shows that it fails. -/
theorem C60_matrix_partial (p : Keccak.Perm P f) {fuel K : Nat} {seed ρ : List Byte} (hs : Holds seed 0 ρ) (hρ : ρ.length = 32) {tr : Bool}
    (hU : ∀ x y, x < K → y < K → 256 ≤ (accepted (Fips202.shake f 168 (ρ ++ [BitVec.ofNat 8 x, BitVec.ofNat 8 y]) 534)).length)
    {mat : List (List (List Int))} (hm : mat.length = K) (hrow : ∀ row ∈ mat, row.length = K ∧ ∀ q ∈ row, q.length = 256) :
    ∃ A : Nat → Nat → List Nat, (∀ i j, i < K → j < K → if tr then Parses f ρ i j (A i j) else Parses f ρ j i (A i j)) ∧
      genMatrix P 32 (fuel + 1) mat seed tr K = .ok ((List.range K).map fun i => (List.range K).map fun j => (A i j).map Int.ofNat) := by
  refine ⟨fun i j => (accepted (Fips202.shake f 168 (ρ ++ [BitVec.ofNat 8 (if tr then i else j), BitVec.ofNat 8 (if tr then j else i)]) 534)).take 256, ?_, ?_⟩
  · intro i j hi hj
    cases tr
    · exact ⟨178, by rw [List.length_take]; have := hU j i hj hi; simp only [Bool.false_eq_true, if_false]; omega, rfl⟩
    · exact ⟨178, by rw [List.length_take]; have := hU i j hi hj; simp only [if_true]; omega, rfl⟩
  · exact genMatrix_spec p (by decide) hs hρ (U := fun x y => (accepted (Fips202.shake f 168 (ρ ++ [BitVec.ofNat 8 x, BitVec.ofNat 8 y]) 534)).take 256)
      (fun x y hx hy => uniform_32 p fuel (hU x y hx hy)) hm hrow

/-- **C60** (the repair): were line 1503 to squeeze blocks of 168 bytes, the matrix would be the one of the specification whenever the function returns. -/
theorem C60_matrix_repaired (p : Keccak.Perm P f) {fuel K : Nat} {seed ρ : List Byte} (hs : Holds seed 0 ρ) (hρ : ρ.length = 32) {tr : Bool}
    {U : Nat → Nat → List Nat} (hU : ∀ x y, x < K → y < K → uniform f 168 fuel (ρ ++ [BitVec.ofNat 8 x, BitVec.ofNat 8 y]) = .ok (U x y))
    {mat : List (List (List Int))} (hm : mat.length = K) (hrow : ∀ row ∈ mat, row.length = K ∧ ∀ q ∈ row, q.length = 256) :
    genMatrix P 168 fuel mat seed tr K = .ok ((List.range K).map fun i => (List.range K).map (entry U tr i)) ∧ ∀ x y, x < K → y < K → Parses f ρ x y (U x y) := by
  refine ⟨genMatrix_spec p (by decide) hs hρ hU hm hrow, fun x y hx hy => ?_⟩
  have h := hU x y hx hy
  rw [uniform] at h
  have hsl := shake_length p (r := 168) (n := 504) (by decide) (by decide) (ρ ++ [BitVec.ofNat 8 x, BitVec.ofNat 8 y])
  exact more_168 p _ fuel 3 _ _ (by decide) (by rw [List.length_take]; omega) h

end Cex.Kyber
