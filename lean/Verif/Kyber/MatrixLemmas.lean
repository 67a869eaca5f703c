import Verif.Kyber.SampleLemmas

/-!
# The matrix
-/

namespace Cex.Kyber
open Cex Cex.Lattice Cex.Spec.Lattice Cex.Spec.Kyber

variable {P : List Byte → M (List Byte)} {f : List Byte → List Byte}

/-- What the loop that draws more bytes does to the residues found: `cur` is the start of the buffer, of which `rate` bytes are replaced each time. -/
def more (f : List Byte → List Byte) (rate : Nat) : (fuel : Nat) → (st cur : List Byte) → List Nat → M (List Nat)
  | 0, _, _, acc => if acc.length < 256 then .error .diverges else .ok acc
  | n + 1, st, cur, acc =>
    if acc.length < 256 then more f rate n (f st) ((f st).take rate ++ cur.drop rate) (acc ++ (accepted ((f st).take rate ++ cur.drop rate)).take (256 - acc.length))
    else .ok acc

/-- What the code samples from the seed `ext`. -/
def uniform (f : List Byte → List Byte) (rate fuel : Nat) (ext : List Byte) : M (List Nat) :=
  more f rate fuel (Nat.repeat f 3 (Keccak.absorbed f 168 0x1F (List.replicate 200 0) ext)) ((Fips202.shake f 168 ext 504).take 168) ((accepted (Fips202.shake f 168 ext 504)).take 256)

theorem refill_spec (p : Keccak.Perm P f) {rate : Nat} (hr : rate ≤ 168) : ∀ (fuel : Nat) (st cur rest : List Byte) (len : Nat) (acc : List Nat) (junk : List Int),
    st.length = 200 → cur.length = 168 → len % 3 = 0 → acc.length ≤ 256 → junk.length = 256 - acc.length →
    (∀ e, more f rate fuel st cur acc = .error e → refill P rate fuel st (cur ++ rest) len (acc.map Int.ofNat ++ junk) acc.length = .error e) ∧
    ∀ cs, more f rate fuel st cur acc = .ok cs → cs.length = 256 ∧
      ∃ cur', refill P rate fuel st (cur ++ rest) len (acc.map Int.ofNat ++ junk) acc.length = .ok (cs.map Int.ofNat, cur' ++ rest) ∧ cur'.length = 168
  | 0, st, cur, rest, len, acc, junk, hs, hc, h3, ha, hj => by
    rw [more, refill]
    by_cases h : acc.length < 256
    · rw [if_pos h, if_pos h]
      exact ⟨fun e he => by cases he; rfl, fun cs hcs => by cases hcs⟩
    · rw [if_neg h, if_neg h]
      have : junk = [] := List.eq_nil_of_length_eq_zero (by omega)
      subst this
      refine ⟨fun e he => (by cases he), fun cs hcs => ?_⟩
      cases hcs
      exact ⟨by omega, cur, by rw [List.append_nil]; rfl, hc⟩
  | n + 1, st, cur, rest, len, acc, junk, hs, hc, h3, ha, hj => by
    rw [more, refill]
    by_cases h : acc.length < 256
    · rw [if_pos h, if_pos h]
      have hl := p.len _ hs
      have ht : ((f st).take rate).length = rate := by rw [List.length_take]; omega
      have hcopy : copy (f st) 0 (cur ++ rest) 0 rate = .ok ((f st).take rate ++ (cur.drop rate ++ rest)) := by
        have e : cur ++ rest = [] ++ cur.take rate ++ (cur.drop rate ++ rest) := by
          rw [List.nil_append, ← List.append_assoc, List.take_append_drop]
        rw [e, copy_at (a := []) (off := 0) (s := (f st).take rate) (Keccak.holds_take _ _) rfl ht.symm (by rw [ht, List.length_take]; omega), List.nil_append]
      have hnl : ((f st).take rate ++ cur.drop rate).length = 168 := by rw [List.length_append, ht, List.length_drop]; omega
      have hsq : Keccak.squeeze P rate 1 st (cur ++ rest) 0 = .ok (f st, ((f st).take rate ++ cur.drop rate) ++ rest) := by
        rw [Keccak.squeeze, p.run _ hs, ok_bind, hcopy, ok_bind, Keccak.squeeze, pure_eq_ok, List.append_assoc]
      have hrej := rejUniform_spec (w := (f st).take rate ++ cur.drop rate) (c := rest) (by rw [hnl]) (off := acc.length) (rlen := 256 - acc.length) (len := 0 + 168) hnl.symm
        (acc.map Int.ofNat) junk [] (by rw [List.length_map]) hj
      rw [List.append_nil, List.append_nil] at hrej
      simp only [h3, loopN, ok_bind, hsq, hrej]
      have hA : ((accepted ((f st).take rate ++ cur.drop rate)).take (256 - acc.length)).length ≤ 256 - acc.length := by rw [List.length_take]; omega
      generalize (accepted ((f st).take rate ++ cur.drop rate)).take (256 - acc.length) = A at hA ⊢
      have ih := refill_spec p hr n (f st) ((f st).take rate ++ cur.drop rate) rest (0 + 168) (acc ++ A) (junk.drop A.length) hl hnl (by omega)
        (by rw [List.length_append]; omega) (by rw [List.length_drop, List.length_append]; omega)
      rw [List.length_append, List.map_append] at ih
      exact ih
    · rw [if_neg h, if_neg h]
      have : junk = [] := List.eq_nil_of_length_eq_zero (by omega)
      subst this
      refine ⟨fun e he => (by cases he), fun cs hcs => ?_⟩
      cases hcs
      exact ⟨by omega, cur, by rw [List.append_nil]; rfl, hc⟩

theorem shake_length (p : Keccak.Perm P f) {r n : Nat} (h0 : 0 < r) (hr : r ≤ 200) (x : List Byte) : (Fips202.shake f r x n).length = n :=
  Keccak.squeeze_length p h0 hr n _ (Keccak.eager_length p hr _ _ List.length_replicate)

theorem genPoly_spec (p : Keccak.Perm P f) {rate fuel : Nat} (hr : rate ≤ 168) {ext buf : List Byte} {r : List Int} (he : ext.length = 34) (hb : buf.length = 506) (hrl : r.length = 256) :
    (∀ e, uniform f rate fuel ext = .error e → genPoly P rate fuel ext buf r = .error e) ∧
    ∀ cs, uniform f rate fuel ext = .ok cs → cs.length = 256 ∧ ∃ buf', genPoly P rate fuel ext buf r = .ok (cs.map Int.ofNat, buf') ∧ buf'.length = 506 := by
  have hz : (List.replicate 200 (0 : Byte)).length = 200 := List.length_replicate
  have hab := Keccak.absorb_eq p (r := 168) (by decide) (by decide) (inp := ext) (m := ext) (st := List.replicate 200 0) (io := 0) (len := 34) 0x1F ⟨[], [], by simp, rfl⟩ he.symm hz
  have hal := Keccak.absorbed_length p (r := 168) (by decide) (by decide) (dom := 0x1F) (m := ext) hz
  have hfa := Keccak.f_absorbed (f := f) (r := 168) (by decide) 0x1F (List.replicate 200 0) ext
  have hex := Keccak.expand_eq p (r := 168) (by decide) (by decide) 504 (Keccak.absorbed f 168 0x1F (List.replicate 200 0) ext) [] (buf.take 504) (buf.drop 504) hal (by rw [List.length_take]; omega)
  rw [List.nil_append, List.take_append_drop, List.nil_append, hfa] at hex
  have hsq : Keccak.squeeze P 168 3 (Keccak.absorbed f 168 0x1F (List.replicate 200 0) ext) buf 0 =
      .ok (Nat.repeat f 3 (Keccak.absorbed f 168 0x1F (List.replicate 200 0) ext), Fips202.shake f 168 ext 504 ++ buf.drop 504) := by
    have hb3 : Keccak.blocks 168 504 = 3 := by decide
    rw [Keccak.expand, hb3] at hex
    obtain ⟨R, h1, h2⟩ := bind_ok hex
    have h1' : Keccak.squeeze P 168 3 (Keccak.absorbed f 168 0x1F (List.replicate 200 0) ext) buf 0 = .ok R := h1
    rw [if_pos (by decide)] at h2
    rw [h1']
    exact h2
  have hsl := shake_length p (r := 168) (n := 504) (by decide) (by decide) ext
  have hrej := rejUniform_spec (w := Fips202.shake f 168 ext 504) (c := buf.drop 504) (by rw [hsl]) (off := 0) (rlen := 256) (len := 504) hsl.symm [] r [] rfl hrl
  rw [List.nil_append, List.append_nil, List.append_nil, List.nil_append] at hrej
  rw [genPoly, hab, ok_bind, hsq, ok_bind]
  simp only [hrej, ok_bind]
  have hA : ((accepted (Fips202.shake f 168 ext 504)).take 256).length ≤ 256 := by rw [List.length_take]; omega
  have hsp : Fips202.shake f 168 ext 504 ++ buf.drop 504 = (Fips202.shake f 168 ext 504).take 168 ++ ((Fips202.shake f 168 ext 504).drop 168 ++ buf.drop 504) := by
    rw [← List.append_assoc, List.take_append_drop]
  rw [hsp, uniform]
  have := refill_spec p hr fuel (Nat.repeat f 3 (Keccak.absorbed f 168 0x1F (List.replicate 200 0) ext)) ((Fips202.shake f 168 ext 504).take 168)
    ((Fips202.shake f 168 ext 504).drop 168 ++ buf.drop 504) 504 ((accepted (Fips202.shake f 168 ext 504)).take 256)
    (r.drop ((accepted (Fips202.shake f 168 ext 504)).take 256).length) (Keccak.repeat_len p 3 hal) (by rw [List.length_take]; omega) (by decide) hA (by rw [List.length_drop, hrl])
  refine ⟨this.1, fun cs hcs => ?_⟩
  obtain ⟨h1, cur', h2, h3⟩ := this.2 cs hcs
  refine ⟨h1, _, h2, ?_⟩
  rw [List.length_append, List.length_append, List.length_drop, List.length_drop]
  omega

/-! ## All entries -/

theorem extSeed_spec {ρ : List Byte} (hρ : ρ.length = 32) (a b : Byte) (tr : Bool) (i j : Nat) :
    extSeed (ρ ++ [a, b]) tr i j = .ok (ρ ++ [BitVec.ofNat 8 (if tr then i else j), BitVec.ofNat 8 (if tr then j else i)]) := by
  rw [extSeed, Keccak.wr_at _ _ _ _ _ hρ.symm, ok_bind, show ∀ x : Byte, ρ ++ x :: [b] = (ρ ++ [x]) ++ b :: [] from fun x => by simp, Keccak.wr_at _ _ _ _ _ (by simp [hρ])]
  simp

/-- Entry `(i, j)` of the matrix, from the polynomials sampled for each pair of bytes. -/
def entry (U : Nat → Nat → List Nat) (tr : Bool) (i j : Nat) : List Int := (U (if tr then i else j) (if tr then j else i)).map Int.ofNat

/-- `buf`, `ext` and the part of the matrix not sampled yet are in order. -/
structure GenInv (ρ : List Byte) (g : Gen) : Prop where
  buf : g.buf.length = 506
  ext : ∃ a b, g.ext = ρ ++ [a, b]

theorem genRow_spec (p : Keccak.Perm P f) {rate fuel K : Nat} (hr : rate ≤ 168) {ρ : List Byte} (hρ : ρ.length = 32) {U : Nat → Nat → List Nat} {tr : Bool}
    (hU : ∀ x y, x < K → y < K → uniform f rate fuel (ρ ++ [BitVec.ofNat 8 x, BitVec.ofNat 8 y]) = .ok (U x y)) {i : Nat} (hi : i < K)
    (done rest : List (List (List Int))) (row : List (List Int)) (hd : done.length = i) (hrow : row.length = K) (hpoly : ∀ q ∈ row, q.length = 256) {g : Gen} (hg : GenInv ρ g)
    (hm : g.mat = done ++ row :: rest) :
    ∃ g', loopN K 0 (fun j g => genEntry P rate fuel tr i j g) g = .ok g' ∧ GenInv ρ g' ∧ g'.mat = done ++ (List.range K).map (entry U tr i) :: rest := by
  obtain ⟨g', h1, h2, h3⟩ := loopN_inv (f := fun j g => genEntry P rate fuel tr i j g)
    (fun j g => GenInv ρ g ∧ ∃ q, g.mat = done ++ ((List.range j).map (entry U tr i) ++ q) :: rest ∧ q.length = K - j ∧ ∀ x ∈ q, x.length = 256) K 0 g
    (by
      rintro j ⟨mat, ext, buf⟩ _ hj ⟨⟨hb, a, b, he⟩, q, hq, hl, hp⟩
      simp only at hb he hq
      have hj : j < K := by omega
      obtain ⟨x, q, rfl⟩ : ∃ x t, q = x :: t := by
        match q, hl with
        | [], hl => simp at hl; omega
        | x :: t, _ => exact ⟨x, t, rfl⟩
      have hli : ((List.range j).map (entry U tr i)).length = j := by rw [List.length_map, List.length_range]
      have hu := hU (if tr then i else j) (if tr then j else i) (by split <;> assumption) (by split <;> assumption)
      obtain ⟨h4, h5⟩ := genPoly_spec p (fuel := fuel) hr (ext := ρ ++ [BitVec.ofNat 8 (if tr then i else j), BitVec.ofNat 8 (if tr then j else i)]) (by simp [hρ]) hb (hp x (by simp))
      obtain ⟨h6, buf', h7, h8⟩ := h5 _ hu
      refine ⟨⟨done ++ ((List.range (j + 1)).map (entry U tr i) ++ q) :: rest, ρ ++ [BitVec.ofNat 8 (if tr then i else j), BitVec.ofNat 8 (if tr then j else i)], buf'⟩, ?_,
        ⟨h8, _, _, rfl⟩, q, rfl, by rw [List.length_cons] at hl; omega, fun y hy => hp y (by simp [hy])⟩
      show genEntry P rate fuel tr i j ⟨mat, ext, buf⟩ = _
      rw [genEntry, he, extSeed_spec hρ, ok_bind, hq, Keccak.rd_at _ _ _ _ hd.symm, ok_bind, Keccak.rd_at _ _ _ _ hli.symm, ok_bind, h7, ok_bind]
      simp only []
      rw [Keccak.wr_at _ _ _ _ _ hli.symm, ok_bind, Keccak.wr_at _ _ _ _ _ hd.symm, ok_bind, pure_eq_ok, List.range_succ, List.map_append]
      simp [entry])
    ⟨hg, row, by simpa using hm, by omega, hpoly⟩
  obtain ⟨q, hq, hl, _⟩ := h3
  have hq0 : q = [] := List.eq_nil_of_length_eq_zero (by omega)
  rw [hq0, List.append_nil, Nat.zero_add] at hq
  exact ⟨g', h1, h2, hq⟩

/-- `GenMatrix` when every polynomial can be sampled. -/
theorem genMatrix_spec (p : Keccak.Perm P f) {rate fuel K : Nat} (hr : rate ≤ 168) {seed ρ : List Byte} (hs : Holds seed 0 ρ) (hρ : ρ.length = 32) {U : Nat → Nat → List Nat} {tr : Bool}
    (hU : ∀ x y, x < K → y < K → uniform f rate fuel (ρ ++ [BitVec.ofNat 8 x, BitVec.ofNat 8 y]) = .ok (U x y))
    {mat : List (List (List Int))} (hm : mat.length = K) (hrow : ∀ row ∈ mat, row.length = K ∧ ∀ q ∈ row, q.length = 256) :
    genMatrix P rate fuel mat seed tr K = .ok ((List.range K).map fun i => (List.range K).map (entry U tr i)) := by
  have hc : copy seed 0 (List.replicate 34 0) 0 32 = .ok (ρ ++ [0, 0]) := by
    rw [show List.replicate 34 (0 : Byte) = [] ++ List.replicate 32 0 ++ [0, 0] from rfl, copy_at (a := []) (off := 0) hs rfl hρ.symm (by rw [List.length_replicate, hρ])]
    rfl
  rw [genMatrix, hc, ok_bind]
  obtain ⟨g', h1, h2, h3⟩ := loopN_inv (f := fun i g => loopN K 0 (fun j g => genEntry P rate fuel tr i j g) g)
    (fun i g => GenInv ρ g ∧ ∃ rest, g.mat = (List.range i).map (fun i => (List.range K).map (entry U tr i)) ++ rest ∧ rest.length = K - i ∧ ∀ row ∈ rest, row.length = K ∧ ∀ q ∈ row, q.length = 256) K 0
    ⟨mat, ρ ++ [0, 0], List.replicate 506 0⟩
    (by
      rintro i g _ hi ⟨hg, rest, hq, hl, hp⟩
      have hi : i < K := by omega
      obtain ⟨row, rest, rfl⟩ : ∃ x t, rest = x :: t := by
        match rest, hl with
        | [], hl => simp at hl; omega
        | x :: t, _ => exact ⟨x, t, rfl⟩
      obtain ⟨hr1, hr2⟩ := hp row (by simp)
      obtain ⟨g', e1, e2, e3⟩ := genRow_spec p hr hρ hU hi _ rest row (by rw [List.length_map, List.length_range]) hr1 hr2 hg hq
      refine ⟨g', e1, e2, rest, ?_, by rw [List.length_cons] at hl; omega, fun y hy => hp y (by simp [hy])⟩
      rw [e3, List.range_succ, List.map_append]
      simp)
    ⟨⟨List.length_replicate, 0, 0, rfl⟩, mat, by simp, by omega, hrow⟩
  obtain ⟨rest, hq, hl, _⟩ := h3
  have hq0 : rest = [] := List.eq_nil_of_length_eq_zero (by omega)
  rw [hq0, List.append_nil, Nat.zero_add] at hq
  rw [h1, ok_bind, hq, pure_eq_ok]

theorem uniform_lt {f : List Byte → List Byte} {rate : Nat} : ∀ {fuel : Nat} {st cur : List Byte} {acc cs : List Nat}, (∀ c ∈ acc, c < 3329) → more f rate fuel st cur acc = .ok cs → ∀ c ∈ cs, c < 3329
  | 0, st, cur, acc, cs, ha, h => by
    rw [more] at h
    split at h
    · cases h
    · cases h; exact ha
  | n + 1, st, cur, acc, cs, ha, h => by
    rw [more] at h
    split at h
    · refine uniform_lt (fun c hc => ?_) h
      rcases List.mem_append.mp hc with hc | hc
      · exact ha c hc
      · exact accepted_lt (List.mem_of_mem_take hc)
    · cases h; exact ha

end Cex.Kyber
