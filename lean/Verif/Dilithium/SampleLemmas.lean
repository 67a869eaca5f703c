import Verif.Keccak.StreamLemmas
import Verif.Dilithium.SampleModel
import Verif.Dilithium.SampleSpec
import Verif.Dilithium.CodecLemmas

/-!
# Uniform and small polynomials
-/

namespace Cex.Dilithium
open Cex Cex.IntTools Cex.Lattice Cex.Spec.Lattice Cex.Spec.Dilithium Cex.Keccak

variable {P : List Byte → M (List Byte)} {f : List Byte → List Byte}

theorem seedNonce_spec (seed : List Byte) (n : Nat) : seedNonce seed n = .ok (withNonce seed n) := by
  have e : List.replicate (seed.length + 2) (0 : Byte) = [] ++ List.replicate seed.length 0 ++ [0, 0] := by
    rw [List.nil_append, List.replicate_add]; rfl
  rw [seedNonce, e, copy_at (a := []) (off := 0) (Holds.self seed) rfl rfl List.length_replicate, ok_bind, List.nil_append, wr_at _ _ _ _ _ rfl, ok_bind,
    show ∀ x : Byte, seed ++ x :: [0] = (seed ++ [x]) ++ 0 :: [] from fun x => by simp, wr_at _ _ _ _ _ (by simp), withNonce, Nat.shiftRight_eq_div_pow]
  simp

/-! ## Uniform polynomials -/

theorem numbers23_append : ∀ (w v : List Byte), w.length % 3 = 0 → numbers23 (w ++ v) = numbers23 w ++ numbers23 v
  | [], v, _ => rfl
  | [_], _, h => by simp at h
  | [_, _], _, h => by simp at h
  | a :: b :: c :: t, v, h => by
    rw [List.cons_append, List.cons_append, List.cons_append, numbers23, numbers23, numbers23_append t v (by simp only [List.length_cons] at h; omega)]
    rfl

theorem residues_append (w v : List Byte) (h : w.length % 3 = 0) : residues (w ++ v) = residues w ++ residues v := by
  rw [residues, numbers23_append w v h, List.filter_append]; rfl

theorem number_eq (a b c : Byte) : (a.toNat ||| (b.toNat <<< 8) ||| (c.toNat <<< 16)) &&& 0x7FFFFF = (a.toNat + 256 * b.toNat + 65536 * c.toNat) % 2 ^ 23 := by
  have ha := a.isLt
  have hb := b.isLt
  rw [or_shl (show a.toNat < 2 ^ 8 from ha), or_shl (show a.toNat + 2 ^ 8 * b.toNat < 2 ^ 16 by omega), show 0x7FFFFF = 2 ^ 23 - 1 from rfl, Nat.and_two_pow_sub_one_eq_mod]
  rfl

theorem rejLoop_spec (off rlen : Nat) (buf : List Byte) (c : List Byte) (len : Nat) (post : List Int) : ∀ (n : Nat) (w a : List Byte) (fuel ctr pos : Nat) (pre junk : List Int),
    w.length ≤ n → w.length % 3 = 0 → buf = a ++ w ++ c → pos = a.length → len = a.length + w.length → w.length < fuel → ctr ≤ rlen → pre.length = off + ctr → junk.length = rlen - ctr →
    rejLoop off rlen buf len fuel ctr pos (pre ++ junk ++ post) =
      .ok (pre ++ ((residues w).take (rlen - ctr)).map Int.ofNat ++ junk.drop ((residues w).take (rlen - ctr)).length ++ post, ctr + ((residues w).take (rlen - ctr)).length) := by
  intro n
  induction n with
  | zero =>
    intro w a fuel ctr pos pre junk hn h3 hbuf hpos hlen hfuel hc hp hj
    obtain rfl : w = [] := List.eq_nil_of_length_eq_zero (by omega)
    obtain ⟨fuel, rfl⟩ := Nat.exists_eq_succ_of_ne_zero (by omega : fuel ≠ 0)
    rw [rejLoop, if_neg (by rw [hlen, hpos]; simp), show residues [] = [] from rfl]
    simp [pure_eq_ok]
  | succ n ih =>
    intro w a fuel ctr pos pre junk hn h3 hbuf hpos hlen hfuel hc hp hj
    obtain ⟨fuel, rfl⟩ := Nat.exists_eq_succ_of_ne_zero (by omega : fuel ≠ 0)
    match w, h3 with
    | [], _ =>
      rw [rejLoop, if_neg (by rw [hlen, hpos]; simp), show residues [] = [] from rfl]
      simp [pure_eq_ok]
    | b0 :: b1 :: b2 :: t, h3 =>
      have ht3 : t.length % 3 = 0 := by simp only [List.length_cons] at h3; omega
      simp only [List.length_cons] at hn hlen hfuel
      by_cases hcr : ctr < rlen
      · rw [rejLoop, if_pos ⟨hcr, by omega⟩]
        have r0 : rd buf pos = .ok b0 := by rw [hbuf, List.append_assoc]; exact Keccak.rd_at _ _ _ _ hpos
        have r1 : rd buf (pos + 1) = .ok b1 := by
          rw [hbuf, show a ++ b0 :: b1 :: b2 :: t ++ c = (a ++ [b0]) ++ b1 :: (b2 :: t ++ c) from by simp]; exact Keccak.rd_at _ _ _ _ (by simp [hpos])
        have r2 : rd buf (pos + 2) = .ok b2 := by
          rw [hbuf, show a ++ b0 :: b1 :: b2 :: t ++ c = (a ++ [b0, b1]) ++ b2 :: (t ++ c) from by simp]; exact Keccak.rd_at _ _ _ _ (by simp [hpos])
        rw [r0, ok_bind, r1, ok_bind, r2, ok_bind, number_eq]
        have hb : buf = (a ++ [b0, b1, b2]) ++ t ++ c := by rw [hbuf]; simp
        have ih' := fun ctr' pre' junk' => ih t (a ++ [b0, b1, b2]) fuel ctr' (pos + 3) pre' junk' (by omega) ht3 hb (by simp [hpos]) (by rw [hlen]; simp; omega) (by omega)
        have hres : residues (b0 :: b1 :: b2 :: t) = if (b0.toNat + 256 * b1.toNat + 65536 * b2.toNat) % 2 ^ 23 < 8380417 then
            (b0.toNat + 256 * b1.toNat + 65536 * b2.toNat) % 2 ^ 23 :: residues t else residues t := by
          rw [residues, numbers23, List.filter_cons]
          simp only [decide_eq_true_eq]
          rfl
        rw [hres]
        generalize (b0.toNat + 256 * b1.toNat + 65536 * b2.toNat) % 2 ^ 23 = v
        dsimp only
        by_cases hv : v < 8380417
        · obtain ⟨x, junk, rfl⟩ : ∃ x j, junk = x :: j := by
            match junk, hj with
            | [], hj => simp at hj; omega
            | x :: j, _ => exact ⟨x, j, rfl⟩
          simp only [List.length_cons] at hj
          have w0 : wr (pre ++ x :: junk ++ post) (off + ctr) (v : Int) = .ok (pre ++ [Int.ofNat v] ++ junk ++ post) := by
            rw [List.append_assoc, List.cons_append, Keccak.wr_at _ _ _ _ _ hp.symm]; simp
          obtain ⟨d, hd⟩ : ∃ d, rlen - ctr = d + 1 := ⟨rlen - ctr - 1, by omega⟩
          rw [if_pos hv, if_pos hv, w0, ok_bind, ih' (ctr + 1) (pre ++ [Int.ofNat v]) junk (by omega) (by simp [hp]; omega) (by omega), hd, show rlen - (ctr + 1) = d from by omega, List.take_succ_cons]
          simp only [List.map_cons, List.length_cons, List.drop_succ_cons, List.append_assoc, List.cons_append, List.nil_append]
          congr 2
          omega
        · rw [if_neg hv, if_neg hv, ih' ctr pre junk hc hp hj]
      · rw [rejLoop, if_neg (fun h => hcr h.1), show rlen - ctr = 0 from by omega]
        simp [pure_eq_ok]

theorem rejUniform_spec {w c : List Byte} (h3 : w.length % 3 = 0) {off rlen len : Nat} (hlen : len = w.length) (pre junk post : List Int) (hp : pre.length = off) (hj : junk.length = rlen) :
    rejUniform (pre ++ junk ++ post) off rlen (w ++ c) len =
      .ok (pre ++ ((residues w).take rlen).map Int.ofNat ++ junk.drop ((residues w).take rlen).length ++ post, ((residues w).take rlen).length) := by
  have := rejLoop_spec off rlen (w ++ c) c len post w.length w [] (len + 1) 0 0 pre junk (le_refl _) h3 (by simp) rfl (by simp [hlen]) (by omega) (Nat.zero_le _) hp hj
  rw [rejUniform, this, Nat.sub_zero, Nat.zero_add]

/-- The residues found in `m` blocks. -/
def found (f : List Byte → List Byte) (x : List Byte) (m : Nat) : List Nat := residues (Fips202.shake f 168 x (168 * m))

theorem found_succ (p : Perm P f) (x : List Byte) (m : Nat) : found f x (m + 1) = found f x m ++ residues ((after f 168 x (m + 1)).take 168) := by
  rw [found, shake_step p (by decide) (by decide), residues_append _ _ (by rw [shake_len p (by decide) (by decide)]; omega)]
  rfl

theorem found_take (p : Perm P f) (x : List Byte) (m : Nat) : ∀ n, 256 ≤ (found f x m).length → (found f x (m + n)).take 256 = (found f x m).take 256 ∧ 256 ≤ (found f x (m + n)).length
  | 0, h => ⟨rfl, h⟩
  | n + 1, h => by
    obtain ⟨h1, h2⟩ := found_take p x m n h
    rw [← Nat.add_assoc, found_succ p, List.take_append_of_le_length h2, List.length_append]
    exact ⟨h1, by omega⟩

theorem take_more {α : Type} (n : Nat) (a b : List α) (h : a.length ≤ n) : a ++ b.take (n - a.length) = (a ++ b).take n := by
  rw [List.take_append, List.take_of_length_le h]

theorem refill_spec (p : Perm P f) (x : List Byte) : ∀ (fuel m len : Nat) (cur rest : List Byte) (junk : List Int), cur.length = 168 → len % 3 = 0 →
    junk.length = 256 - ((found f x m).take 256).length →
    refill P fuel (after f 168 x m) (cur ++ rest) len (((found f x m).take 256).map Int.ofNat ++ junk) ((found f x m).take 256).length =
      if 256 ≤ (found f x (m + fuel)).length then .ok (((found f x (m + fuel)).take 256).map Int.ofNat) else .error .diverges := by
  intro fuel
  induction fuel with
  | zero =>
    intro m len cur rest junk hc h3 hj
    rw [refill, Nat.add_zero]
    by_cases h : 256 ≤ (found f x m).length
    · have hl : ((found f x m).take 256).length = 256 := by rw [List.length_take]; omega
      obtain rfl : junk = [] := List.eq_nil_of_length_eq_zero (by omega)
      rw [if_neg (by omega), if_pos h, List.append_nil]
      rfl
    · rw [if_pos (by rw [List.length_take]; omega), if_neg h]
  | succ n ih =>
    intro m len cur rest junk hc h3 hj
    rw [refill]
    by_cases h : 256 ≤ (found f x m).length
    · have hl : ((found f x m).take 256).length = 256 := by rw [List.length_take]; omega
      obtain ⟨h1, h2⟩ := found_take p x m (n + 1) h
      obtain rfl : junk = [] := List.eq_nil_of_length_eq_zero (by omega)
      rw [if_neg (by omega), if_pos h2, h1, List.append_nil]
      rfl
    · have hs := after_length p (show 0 < 168 by decide) (by decide) x m
      have hs1 := after_length p (show 0 < 168 by decide) (by decide) x (m + 1)
      have ht : ((after f 168 x (m + 1)).take 168).length = 168 := by rw [List.length_take]; omega
      have htk : (found f x m).take 256 = found f x m := List.take_of_length_le (by omega)
      rw [htk] at hj ⊢
      rw [if_pos (by omega), h3]
      have hsq := squeeze_one p (r := 168) (by decide) hs [] cur rest (off := 0) rfl hc
      rw [List.nil_append, List.nil_append] at hsq
      have hrej := rejUniform_spec (w := (after f 168 x (m + 1)).take 168) (c := rest) (by rw [ht]) (off := (found f x m).length) (rlen := 256 - (found f x m).length) (len := 168 + 0)
        ht.symm ((found f x m).map Int.ofNat) junk [] (by rw [List.length_map]) hj
      rw [List.append_nil, List.append_nil] at hrej
      dsimp only
      have hA : (List.map Int.ofNat (found f x m) ++ junk).length - (found f x m).length = 256 - (found f x m).length := by rw [List.length_append, List.length_map]; omega
      rw [loopN, ok_bind, hsq, ok_bind]
      dsimp only
      rw [hA, show f (after f 168 x m) = after f 168 x (m + 1) from rfl, hrej, ok_bind]
      dsimp only
      have hm := take_more 256 (found f x m) (residues ((after f 168 x (m + 1)).take 168)) (by omega)
      rw [← found_succ p] at hm
      rw [← List.length_append, ← List.map_append, hm, show m + (n + 1) = m + 1 + n from by omega]
      refine ih (m + 1) (168 + 0) _ rest _ ht (by decide) ?_
      rw [List.length_drop, hj, ← hm, List.length_append]
      omega

/-- `PolyUniform`. -/
theorem polyUniform_spec (p : Perm P f) (fuel : Nat) {a : List Int} (ha : a.length = 256) (seed : List Byte) (n : Nat) :
    polyUniform P fuel a seed n = if 256 ≤ (found f (withNonce seed n) (5 + fuel)).length then .ok (((found f (withNonce seed n) (5 + fuel)).take 256).map Int.ofNat) else .error .diverges := by
  rw [polyUniform, seedNonce_spec, ok_bind, absorb_after p (by decide) (by decide), ok_bind]
  have hsq := squeeze_first p (r := 168) (by decide) (by decide) (withNonce seed n) 5 0 [] (List.replicate 840 0) (List.replicate 2 0) 0 rfl (by rw [List.length_replicate])
  rw [List.nil_append, ← List.replicate_add, Nat.mul_zero, List.drop_zero, List.nil_append, Nat.zero_add] at hsq
  have hsl := shake_len p (r := 168) (n := 168 * 5) (by decide) (by decide) (withNonce seed n)
  have hrej := rejUniform_spec (w := Fips202.shake f 168 (withNonce seed n) (168 * 5)) (c := List.replicate 2 0) (by rw [hsl]) (off := 0) (rlen := 256) (len := 840) hsl.symm [] a [] rfl ha
  rw [List.nil_append, List.append_nil, List.append_nil, List.nil_append] at hrej
  rw [hsq, ok_bind]
  dsimp only
  rw [ha, hrej, ok_bind]
  dsimp only
  have e : Fips202.shake f 168 (withNonce seed n) (168 * 5) ++ List.replicate 2 0 =
      (Fips202.shake f 168 (withNonce seed n) (168 * 5)).take 168 ++ ((Fips202.shake f 168 (withNonce seed n) (168 * 5)).drop 168 ++ List.replicate 2 0) := by
    rw [← List.append_assoc, List.take_append_drop]
  rw [e]
  exact refill_spec p (withNonce seed n) fuel 5 840 _ _ _ (by rw [List.length_take, hsl]; decide) (by decide) (by rw [List.length_drop, ha]; rfl)

theorem found_uniform (p : Perm P f) {seed : List Byte} {n : Nat} {cs : List Nat} : IsUniform f seed n cs ↔
    ∃ m, ∀ k, m ≤ k → 256 ≤ (found f (withNonce seed n) k).length ∧ (found f (withNonce seed n) k).take 256 = cs := by
  constructor
  · rintro ⟨m, h1, h2⟩
    refine ⟨m, fun k hk => ?_⟩
    have e : found f (withNonce seed n) k = residues (Fips202.shake f 168 (withNonce seed n) (3 * m)) ++ residues ((Fips202.shake f 168 (withNonce seed n) (168 * k)).drop (3 * m)) := by
      rw [found, ← residues_append _ _ (by rw [shake_len p (by decide) (by decide)]; omega), ← shake_take p (by decide) (by decide) (withNonce seed n) (show 3 * m ≤ 168 * k by omega), List.take_append_drop]
    have hl : 256 ≤ (residues (Fips202.shake f 168 (withNonce seed n) (3 * m))).length := by rw [h2, List.length_take] at h1; omega
    rw [e, List.take_append_of_le_length hl, List.length_append]
    exact ⟨by omega, h2.symm⟩
  · rintro ⟨m, h⟩
    obtain ⟨h1, h2⟩ := h m (le_refl m)
    refine ⟨56 * m, ?_, ?_⟩
    · rw [← h2, List.length_take]; omega
    · rw [← h2, found, show 168 * m = 3 * (56 * m) from by omega]

theorem residues_lt {w : List Byte} {v : Nat} (h : v ∈ residues w) : v < 8380417 := by
  have := (List.mem_filter.mp h).2
  simpa using this

end Cex.Dilithium
