import Verif.Sphincs.LayerLemmas

/-!
# Digests, key generation, signing and verification in the SPHINCS+ engine
-/

namespace Cex.Sphincs
open Cex Cex.IntTools Cex.Keccak Cex.Spec.Sphincs

variable {P : List Byte → M (List Byte)} {f : List Byte → List Byte} {pr : Params} {s : Parameters}

theorem or_add {a k b : Nat} (hb : b < 2 ^ k) : a * 2 ^ k ||| b = a * 2 ^ k + b := by
  have h1 : a <<< k + b = a <<< k ||| b := Nat.shiftLeft_add_eq_or_of_lt hb a
  rw [Nat.shiftLeft_eq] at h1
  exact h1.symm

theorem bytesToUll_ok {inp w : List Byte} {off len : Nat} (hw : Holds inp off w) (hl : w.length = len) (h8 : len ≤ 8) : ∃ v, bytesToUll inp off len = .ok v ∧ v.toNat = beVal w := by
  obtain ⟨v, h1, h2⟩ := loopN_inv (P := fun i (v : BitVec 64) => v.toNat = beVal (w.take i) * 2 ^ (8 * (len - i)))
    (f := fun i v => do
      let b ← rd inp (off + i)
      return v ||| (b.setWidth 64 <<< (8 * (len - 1 - i)))) len 0 0
    (by
      rintro i v _ hi hv
      have hiw : i < w.length := by omega
      have hrd : rd inp (off + i) = .ok w[i] := by
        obtain ⟨a, c, rfl, rfl⟩ := hw
        exact rd_get (by rw [List.append_assoc, List.getElem?_append_right (by omega), Nat.add_sub_cancel_left, List.getElem?_append_left hiw, List.getElem?_eq_getElem hiw])
      refine ⟨v ||| (w[i].setWidth 64 <<< (8 * (len - 1 - i))), by rw [hrd, ok_bind]; rfl, ?_⟩
      have hb : w[i].toNat < 2 ^ 8 := w[i].isLt
      have hk : 8 * (len - i) = 8 * (len - 1 - i) + 8 := by omega
      have hsm : w[i].toNat * 2 ^ (8 * (len - 1 - i)) < 2 ^ (8 * (len - i)) := by
        rw [hk, Nat.pow_add, Nat.mul_comm (2 ^ _)]
        exact Nat.mul_lt_mul_of_pos_right hb (Nat.two_pow_pos _)
      have h64 : 2 ^ (8 * (len - i)) ≤ 2 ^ 64 := Nat.pow_le_pow_right (by decide) (by omega)
      rw [BitVec.toNat_or, hv, BitVec.toNat_shiftLeft, BitVec.toNat_setWidth, Nat.mod_eq_of_lt (a := w[i].toNat) (by omega), Nat.shiftLeft_eq, Nat.mod_eq_of_lt (by omega), or_add hsm, hk, Nat.pow_add,
        show 8 * (len - (i + 1)) = 8 * (len - 1 - i) from by omega, List.take_succ_eq_append_getElem hiw, beVal_concat, Nat.add_mul]
      rw [show beVal (w.take i) * (2 ^ (8 * (len - 1 - i)) * 2 ^ 8) = beVal (w.take i) * 256 * 2 ^ (8 * (len - 1 - i)) from by rw [Nat.mul_comm (2 ^ _), ← Nat.mul_assoc]; rfl])
    (by simp)
  refine ⟨v, h1, ?_⟩
  rw [Nat.zero_add] at h2
  rw [h2, Nat.sub_self, Nat.mul_zero, Nat.pow_zero, Nat.mul_one, List.take_of_length_le (by omega)]

/-- The leaf index as the code computes it. -/
def codeLeaf (ulong : Nat) (s : Parameters) (dg : List Byte) : Nat := (beVal ((dg.drop (mdBytes s + treeBytes s)).take (leafBytes s)) % 2 ^ 32 &&& leafMask ulong s.h) % 2 ^ 32

theorem leaf_small {s : Parameters} (h : leafBytes s ≤ 2) (dg : List Byte) : beVal ((dg.drop (mdBytes s + treeBytes s)).take (leafBytes s)) < 2 ^ 16 := by
  refine Nat.lt_of_lt_of_le (beVal_lt _) ?_
  calc 256 ^ ((dg.drop (mdBytes s + treeBytes s)).take (leafBytes s)).length ≤ 256 ^ 2 := Nat.pow_le_pow_right (by decide) (by rw [List.length_take]; omega)
    _ = 2 ^ 16 := by decide

/-- With 32-bit `unsigned long` the mask is the one intended. -/
theorem codeLeaf_32 (F : Facts pr s) (dg : List Byte) : codeLeaf 32 s dg = leafIndex s dg := by
  have h16 : s.h ≤ 16 := Nat.le_trans F.ha F.aSmall
  have hsm := leaf_small F.leafSmall dg
  rw [codeLeaf, leafIndex, Nat.mod_eq_of_lt (a := beVal _) (b := 2 ^ 32) (by omega)]
  generalize beVal _ = x at *
  have : leafMask 32 s.h = 2 ^ s.h - 1 := by
    rw [leafMask, Nat.shiftRight_eq_div_pow]
    have h1 : 2 ^ 32 = 2 ^ s.h * 2 ^ (32 - s.h) := by rw [← Nat.pow_add]; congr 1; omega
    have h2 := Nat.two_pow_pos (32 - s.h)
    have h3 := Nat.two_pow_pos s.h
    rw [h1]
    refine Nat.div_eq_of_lt_le ?_ ?_
    · rw [Nat.sub_mul]; omega
    · rw [Nat.sub_add_cancel h3]
      have := Nat.mul_pos h3 h2
      omega
  rw [this, Nat.and_two_pow_sub_one_eq_mod]
  have h4 : x % 2 ^ s.h ≤ x := Nat.mod_le _ _
  rw [Nat.mod_eq_of_lt]; omega

/-- With 64-bit `unsigned long` nothing is masked. -/
theorem codeLeaf_64 (F : Facts pr s) (dg : List Byte) : codeLeaf 64 s dg = beVal ((dg.drop (mdBytes s + treeBytes s)).take (leafBytes s)) := by
  have hsm := leaf_small F.leafSmall dg
  rw [codeLeaf, Nat.mod_eq_of_lt (a := beVal _) (b := 2 ^ 32) (by omega)]
  generalize beVal _ = x at *
  have h16 : s.h ≤ 16 := Nat.le_trans F.ha F.aSmall
  have : leafMask 64 s.h = 2 ^ (32 + s.h) - 1 := by
    rw [leafMask, Nat.shiftRight_eq_div_pow]
    have h1 : 2 ^ 64 = 2 ^ (32 + s.h) * 2 ^ (32 - s.h) := by rw [← Nat.pow_add]; congr 1; omega
    have h2 := Nat.two_pow_pos (32 - s.h)
    have h3 := Nat.two_pow_pos (32 + s.h)
    rw [h1]
    refine Nat.div_eq_of_lt_le ?_ ?_
    · rw [Nat.sub_mul]; omega
    · rw [Nat.sub_add_cancel h3]
      have := Nat.mul_pos h3 h2
      omega
  have h5 : 2 ^ 32 ≤ 2 ^ (32 + s.h) := Nat.pow_le_pow_right (by decide) (by omega)
  rw [this, Nat.and_two_pow_sub_one_eq_mod, Nat.mod_eq_of_lt (a := x) (by omega), Nat.mod_eq_of_lt (by omega)]

theorem codeLeaf_whole (F : Facts pr s) (h : s.h = 8 * leafBytes s) (dg : List Byte) : codeLeaf 64 s dg = leafIndex s dg := by
  rw [codeLeaf_64 F, leafIndex, Nat.mod_eq_of_lt]
  refine Nat.lt_of_lt_of_le (beVal_lt _) ?_
  calc 256 ^ ((dg.drop (mdBytes s + treeBytes s)).take (leafBytes s)).length ≤ 256 ^ (leafBytes s) := Nat.pow_le_pow_right (by decide) (by rw [List.length_take]; omega)
    _ = 2 ^ s.h := by rw [h, Nat.pow_mul]

/-- The platforms and parameter sets on which the leaf index is what it should be. -/
def Masked (ulong : Nat) (s : Parameters) : Prop := ulong = 32 ∨ ulong = 64 ∧ s.h = 8 * leafBytes s

theorem Masked.leaf {ulong : Nat} (h : Masked ulong s) (F : Facts pr s) (dg : List Byte) : codeLeaf ulong s dg = leafIndex s dg := by
  rcases h with rfl | ⟨rfl, h⟩
  · exact codeLeaf_32 F dg
  · exact codeLeaf_whole F h dg

theorem Facts.room4 (F : Facts pr s) : layerBytes s + 4 * s.n ≤ s.d * layerBytes s ∧ 4 * s.n ≤ layerBytes s := by
  have h1 : 2 * layerBytes s ≤ s.d * layerBytes s := Nat.mul_le_mul_right _ F.d2
  have h2 : 4 * s.n ≤ Spec.Sphincs.wlen s * s.n := Nat.mul_le_mul_right _ (by rw [Spec.Sphincs.wlen]; have := F.n0; omega)
  rw [layerBytes] at *
  omega

theorem genMessageRandom_ok (p : Perm P f) (F : Facts pr s) {skprf sp optrand pre1 pre2 x2 m : List Byte} {len : Nat} (hsp : Holds skprf 0 sp) (hspl : sp.length = s.n) (ho : optrand.length = s.n) (h1 : pre1.length = s.n) (h2 : pre1.length + pre2.length + 2 * s.n = sigBytes s)
    (hx : x2.length = 2 * s.n) (hm : m.length = len) (hs : len < 2 ^ 63) :
    genMessageRandom P pr skprf optrand (pre1 ++ pre2 ++ x2 ++ m) len = .ok ((shakeHash f pr.rate).xof (sp ++ optrand ++ m) s.n ++ pre2 ++ (sp ++ optrand) ++ m) := by
  have hn := F.n
  have hns := F.nSmall
  have hb := F.bytes
  obtain ⟨a, b, rfl, hal, hbl⟩ : ∃ a b, x2 = a ++ b ∧ a.length = s.n ∧ b.length = s.n := ⟨x2.take s.n, x2.drop s.n, take_split _ _, by rw [List.length_take]; omega, by rw [List.length_drop]; omega⟩
  have c1 := copy_at (a := pre1 ++ pre2) (b := a) (c := b ++ m) (off := pr.bytes - 2 * pr.n) (n := pr.n) hsp (by rw [List.length_append]; omega) (by omega) (by omega)
  have c2 := copy_at (a := pre1 ++ pre2 ++ sp) (b := b) (c := m) (off := pr.bytes - pr.n) (n := pr.n) (Holds.self optrand) (by simp only [List.length_append]; omega) (by omega) (by omega)
  have c3 := copy_at (src := pre1 ++ pre2 ++ (sp ++ optrand ++ m)) (so := pr.bytes - 2 * pr.n) (a := []) (b := List.replicate (len + 2 * pr.n) (0 : Byte)) (c := []) (off := 0) (n := len + 2 * pr.n) (s := sp ++ optrand ++ m)
    ⟨pre1 ++ pre2, [], by simp, by rw [List.length_append]; omega⟩ rfl (by simp only [List.length_append]; omega) (by simp only [List.length_append, List.length_replicate]; omega)
  have hx := xof_at p (r := pr.rate) F.rate0 F.rate F.rate8 (x := sp ++ optrand ++ m) (len := (sp ++ optrand ++ m).length) (Holds.self _) rfl (by simp only [List.length_append]; omega) (pre := []) (junk := pre1) (post := pre2 ++ (sp ++ optrand ++ m)) (oo := 0) (n := pr.n) rfl (by omega)
  rw [List.nil_append, List.append_nil, List.nil_append, List.append_nil] at c3
  rw [List.nil_append, List.nil_append] at hx
  simp only [List.append_assoc] at c1 c2 c3 hx ⊢
  rw [genMessageRandom, c1, ok_bind, c2, ok_bind, c3, ok_bind, hx, hn]
  rfl

theorem hashMessage_ok (p : Perm P f) (F : Facts pr s) {ulong : Nat} {rand r pk pk' pre x3 m : List Byte} {len : Nat} (hr : Holds rand 0 r) (hrl : r.length = s.n) (hpk : Holds pk 0 pk') (hpkl : pk'.length = 2 * s.n) (h1 : pre.length + 3 * s.n = sigBytes s)
    (hx : x3.length = 3 * s.n) (hm : m.length = len) (hs : len < 2 ^ 63) :
    ∃ t, hashMessage P pr ulong rand pk (pre ++ x3 ++ m) len = .ok (⟨md s (digest (shakeHash f pr.rate) s r pk' m), t, codeLeaf ulong s (digest (shakeHash f pr.rate) s r pk' m)⟩, pre ++ (r ++ pk') ++ m)
      ∧ t.toNat = treeIndex s (digest (shakeHash f pr.rate) s r pk' m) := by
  have hn := F.n
  have hns := F.nSmall
  have hb := F.bytes
  have hH := good p F
  obtain ⟨a, b, rfl, hal, hbl⟩ : ∃ a b, x3 = a ++ b ∧ a.length = s.n ∧ b.length = 2 * s.n := ⟨x3.take s.n, x3.drop s.n, take_split _ _, by rw [List.length_take]; omega, by rw [List.length_drop]; omega⟩
  have c1 := copy_at (a := pre) (b := a) (c := b ++ m) (off := pr.bytes - pr.n - 2 * pr.n) (n := pr.n) hr (by omega) (by omega) (by omega)
  have c2 := copy_at (a := pre ++ r) (b := b) (c := m) (off := pr.bytes - 2 * pr.n) (n := 2 * pr.n) hpk (by simp only [List.length_append]; omega) (by omega) (by omega)
  have c3 := copy_at (src := pre ++ (r ++ pk' ++ m)) (so := pr.bytes - pr.n - 2 * pr.n) (a := []) (b := List.replicate (len + pr.n + 2 * pr.n) (0 : Byte)) (c := []) (off := 0) (n := len + pr.n + 2 * pr.n) (s := r ++ pk' ++ m)
    ⟨pre, [], by simp, by omega⟩ rfl (by simp only [List.length_append]; omega) (by simp only [List.length_append, List.length_replicate]; omega)
  have emd : pr.forsMsgBytes = mdBytes s := by rw [Params.forsMsgBytes, mdBytes, F.a, F.k]
  have etb : (pr.treeHeight * (pr.d - 1) + 7) / 8 = treeBytes s := by rw [treeBytes, F.h, F.d]
  have elb : (pr.treeHeight + 7) / 8 = leafBytes s := by rw [leafBytes, F.h]
  have hx := xof_at p (r := pr.rate) F.rate0 F.rate F.rate8 (x := r ++ pk' ++ m) (len := (r ++ pk' ++ m).length) (Holds.self _) rfl (by simp only [List.length_append]; omega)
    (pre := []) (junk := List.replicate (mdBytes s + treeBytes s + leafBytes s) 0) (post := []) (oo := 0) (n := mdBytes s + treeBytes s + leafBytes s) rfl (by rw [List.length_replicate])
  have hdl : (digest (shakeHash f pr.rate) s r pk' m).length = mdBytes s + treeBytes s + leafBytes s := hH.xof _ _
  rw [show Fips202.shake f pr.rate (r ++ pk' ++ m) (mdBytes s + treeBytes s + leafBytes s) = digest (shakeHash f pr.rate) s r pk' m from rfl] at hx
  generalize digest (shakeHash f pr.rate) s r pk' m = dg at *
  have c4 := copy_at (src := dg) (so := 0) (a := []) (b := List.replicate (mdBytes s) (0 : Byte)) (c := []) (off := 0) (n := mdBytes s) (s := dg.take (mdBytes s)) ((Holds.self dg).takeN _) rfl (by rw [List.length_take]; omega)
    (by rw [List.length_take, List.length_replicate]; omega)
  rw [List.nil_append, List.append_nil, List.nil_append, List.append_nil] at c3 c4 hx
  obtain ⟨t, ht, htv⟩ := bytesToUll_ok (inp := dg) (w := (dg.drop (mdBytes s)).take (treeBytes s)) (off := mdBytes s) (len := treeBytes s)
    (by have := ((Holds.self dg).dropN (n := mdBytes s) (by omega)).takeN (treeBytes s); rwa [Nat.zero_add] at this) (by rw [List.length_take, List.length_drop]; omega) F.treeSmall
  obtain ⟨l, hl, hlv⟩ := bytesToUll_ok (inp := dg) (w := (dg.drop (mdBytes s + treeBytes s)).take (leafBytes s)) (off := mdBytes s + treeBytes s) (len := leafBytes s)
    (by have := ((Holds.self dg).dropN (n := mdBytes s + treeBytes s) (by omega)).takeN (leafBytes s); rwa [Nat.zero_add] at this) (by rw [List.length_take, List.length_drop]; omega) (by have := F.leafSmall; omega)
  refine ⟨t &&& (BitVec.allOnes 64 >>> (64 - s.h * (s.d - 1))), ?_, ?_⟩
  · simp only [List.append_assoc] at c1 c2 c3 hx ⊢
    rw [hashMessage]
    rw [c1, ok_bind, c2, ok_bind, c3, ok_bind, emd, etb, elb, hx, ok_bind, c4, ok_bind, ht, ok_bind, hl, ok_bind, hlv, F.h, F.d]
    rfl
  · have h64 := F.treeBits
    rw [BitVec.toNat_and, BitVec.toNat_ushiftRight, BitVec.toNat_allOnes, htv, treeIndex]
    have h3 := Nat.two_pow_pos (s.h * (s.d - 1))
    have : (2 ^ 64 - 1) >>> (64 - s.h * (s.d - 1)) = 2 ^ (s.h * (s.d - 1)) - 1 := by
      rw [Nat.shiftRight_eq_div_pow]
      have h1 : 2 ^ 64 = 2 ^ (s.h * (s.d - 1)) * 2 ^ (64 - s.h * (s.d - 1)) := by rw [← Nat.pow_add]; congr 1; omega
      have h2 := Nat.two_pow_pos (64 - s.h * (s.d - 1))
      generalize 2 ^ (64 - s.h * (s.d - 1)) = y at *
      generalize 2 ^ (s.h * (s.d - 1)) = x at *
      rw [h1]
      refine Nat.div_eq_of_lt_le ?_ ?_
      · rw [Nat.sub_mul]; omega
      · rw [Nat.sub_add_cancel h3]
        have := Nat.mul_pos h3 h2
        omega
    rw [this, Nat.and_two_pow_sub_one_eq_mod]

end Cex.Sphincs
