import Verif.Xmss.LayerLemmas
import Verif.Xmss.Correct
import Verif.Digest.Sha2StaticProps
import Verif.Sphincs.Props

/-!
# The functions of the XMSS engine on keys and signatures
-/

namespace Cex.Xmss
open Cex Cex.IntTools
open Cex.Keccak hiding wr_at rd_at
open Cex.Spec.Sphincs (chunks piece node sibling path climb lengths hexDigits checksum chunks_len chunks_congr chunks_split chunks_at piece_chunks node_len path_len climb_stored lengths_le)
open Cex.Spec.Xmss hiding prf wotsSign wotsPkFromSig sign
open Cex.Sphincs (Addr ullToBytes bytesToUll bytesToUll_ok baseW resize fill loopN_last take_split wr_at rd_at piece_len piece_holds chunks_piece climb_len pair resize_split)

/-! ## The hash functions and the parameter sets -/

section
variable {P : List Byte → M (List Byte)} {f : List Byte → List Byte}

/-- `XOFP1600` on a part of a buffer. -/
theorem xof_part (p : Perm P f) {r : Nat} (h0 : 0 < r) (hr : r ≤ 192) (h8 : r % 8 = 0) {x w pre junk post : List Byte} {io len oo n : Nat} (hx : Holds x io w) (hl : len = w.length) (hs : x.length < 2 ^ 64)
    (ho : oo = pre.length) (hn : junk.length = n) : xof P x io len (pre ++ junk ++ post) oo n r = .ok (pre ++ Fips202.shake f r w n ++ post) := by
  obtain ⟨a, c, rfl, ha⟩ := hx
  subst hl ho hn ha
  have h := C38_xof p h0 hr h8 ⟨a ++ w ++ c, a.length, w.length, by simp, hs⟩ pre junk post
  rwa [show (Window.bytes ⟨a ++ w ++ c, a.length, w.length, by simp, hs⟩) = w from by simp [Window.bytes]] at h

/-- The member of the code's enumeration for a hash function. -/
def code : Fn → HashFunction
  | .sha256 => .sha2256
  | .sha512 => .sha2512
  | .shake128 => .shake128
  | .shake256 => .shake256

theorem hashes (p : Perm P f) (fn : Fn) : Hashes (coreHash P (code fn)) (fn.hash f) fn.n := by
  cases fn
  · refine ⟨fun x => Digest.V8.bytes_len (Or.inl rfl) _, ?_⟩
    rintro inp x pre junk post io oo len ⟨a, c, rfl, rfl⟩ rfl hs rfl hj
    exact Digest.C79_compute256 a x c pre junk post hj
  · refine ⟨fun x => Digest.V8.bytes_len (Or.inr rfl) _, ?_⟩
    rintro inp x pre junk post io oo len ⟨a, c, rfl, rfl⟩ rfl hs rfl hj
    exact Digest.C79_compute512_partial a x c pre junk post (by rw [List.length_append, List.length_append] at hs; omega) hj
  · exact ⟨fun x => shake_len p (by decide) (by decide) x, fun hx hl hs ho hj => xof_part p (by decide) (by decide) (by decide) hx hl (by omega) ho hj⟩
  · exact ⟨fun x => shake_len p (by decide) (by decide) x, fun hx hl hs ho hj => xof_part p (by decide) (by decide) (by decide) hx hl (by omega) ho hj⟩

/-- Every parameter set is found, and its constants are those of the specification. -/
theorem parse_ok (p : Perm P f) (set : Spec.Xmss.Set) : ∃ pr, parse (isXmss set) set.oid = some pr ∧ Facts pr (set.parameters f) ∧ Hashes (coreHash P pr.hash) (set.parameters f).H (set.parameters f).n := by
  cases set with
  | xmss fn h =>
    refine ⟨⟨code fn, fn.n, (Set.xmss fn h).shape.1, 1⟩, by cases fn <;> cases h <;> rfl, ?_, hashes p fn⟩
    cases fn <;> cases h <;> exact ⟨rfl, rfl, rfl, rfl, rfl, Nat.le_of_ble_eq_true rfl, Nat.le_of_ble_eq_true rfl, Nat.le_of_ble_eq_true rfl, Nat.le_of_ble_eq_true rfl, Nat.le_of_ble_eq_true rfl, Nat.le_of_ble_eq_true rfl, Nat.le_of_ble_eq_true rfl, Nat.le_of_ble_eq_true rfl⟩
  | mt fn l =>
    refine ⟨⟨code fn, fn.n, (Set.mt fn l).shape.1, (Set.mt fn l).shape.2⟩, by cases fn <;> cases l <;> rfl, ?_, hashes p fn⟩
    cases fn <;> cases l <;> exact ⟨rfl, rfl, rfl, rfl, rfl, Nat.le_of_ble_eq_true rfl, Nat.le_of_ble_eq_true rfl, Nat.le_of_ble_eq_true rfl, Nat.le_of_ble_eq_true rfl, Nat.le_of_ble_eq_true rfl, Nat.le_of_ble_eq_true rfl, Nat.le_of_ble_eq_true rfl, Nat.le_of_ble_eq_true rfl⟩

theorem toOid_eq (set : Spec.Xmss.Set) : toOid set = set.oid := by
  cases set with
  | xmss fn h => cases fn <;> cases h <;> rfl
  | mt fn h => cases fn <;> cases h <;> rfl

theorem oid_lt (set : Spec.Xmss.Set) : set.oid < 256 := by
  cases set with
  | xmss fn h => cases fn <;> cases h <;> decide
  | mt fn h => cases fn <;> cases h <;> decide

/-- The height fits the index. -/
theorem index_fits (set : Spec.Xmss.Set) (f : List Byte → List Byte) : 2 ^ ((set.parameters f).h * (set.parameters f).d) ≤ 256 ^ (set.parameters f).ib := by
  cases set with
  | xmss fn h => cases h <;> simp only [Set.parameters, Set.shape, Set.indexBytes] <;> decide
  | mt fn h => cases h <;> simp only [Set.parameters, Set.shape, Set.indexBytes] <;> decide

end

theorem beEnc4 {o : Nat} (h : o < 256) : beEnc 4 o = [0, 0, 0, BitVec.ofNat 8 o] := by
  simp only [beEnc, leEnc, List.reverse_cons, List.reverse_nil, List.nil_append, List.cons_append]
  rw [Nat.div_eq_of_lt h]; rfl

theorem putOid_ok {b rest : List Byte} {o : Nat} (hb : b.length = 4) (h : o < 256) : putOid (b ++ rest) o = .ok (beEnc 4 o ++ rest) := by
  match b, hb with
  | [b0, b1, b2, b3], _ =>
    have e : ∀ i, 1 ≤ i → o >>> (8 * i) = 0 := fun i hi => by
      rw [Nat.shiftRight_eq_div_pow]
      exact Nat.div_eq_of_lt (Nat.lt_of_lt_of_le h (by rw [show (256 : Nat) = 2 ^ 8 from rfl]; exact Nat.pow_le_pow_right (by decide) (by omega)))
    rw [beEnc4 h]
    show putOid (b0 :: b1 :: b2 :: b3 :: rest) o = _
    have w : ∀ (k : Nat) (x y : Byte) (u v : List Byte), u.length = k → wr (u ++ x :: v) k y = .ok (u ++ y :: v) := fun k x y u v hu => wr_at _ _ _ _ hu.symm
    have w3 := w 3 b3 (BitVec.ofNat 8 o) [b0, b1, b2] rest rfl
    have w2 := w 2 b2 (BitVec.ofNat 8 0) [b0, b1] (BitVec.ofNat 8 o :: rest) rfl
    have w1 := w 1 b1 (BitVec.ofNat 8 0) [b0] (BitVec.ofNat 8 0 :: BitVec.ofNat 8 o :: rest) rfl
    have w0 := w 0 b0 (BitVec.ofNat 8 0) [] (BitVec.ofNat 8 0 :: BitVec.ofNat 8 0 :: BitVec.ofNat 8 o :: rest) rfl
    simp only [List.cons_append, List.nil_append] at w0 w1 w2 w3 ⊢
    simp only [putOid, loopN, e 1 (by decide), e 2 (by decide), e 3 (by decide), Nat.zero_add, Nat.reduceAdd, Nat.mul_zero, Nat.shiftRight_zero, Nat.reduceSub]
    rw [w3, ok_bind, w2, ok_bind, w1, ok_bind, w0]
    rfl

theorem getOid_ok {rest : List Byte} {o : Nat} (h : o < 256) : getOid (beEnc 4 o ++ rest) = .ok o := by
  rw [beEnc4 h]
  have r : ∀ (k : Nat) (x : Byte) (u v : List Byte), u.length = k → rd (u ++ x :: v) k = .ok x := fun k x u v hu => rd_at _ _ _ hu.symm
  have r3 := r 3 (BitVec.ofNat 8 o) [0, 0, 0] rest rfl
  have r2 := r 2 0 [0, 0] (BitVec.ofNat 8 o :: rest) rfl
  have r1 := r 1 0 [0] (0 :: BitVec.ofNat 8 o :: rest) rfl
  have r0 := r 0 0 [] (0 :: 0 :: BitVec.ofNat 8 o :: rest) rfl
  simp only [List.cons_append, List.nil_append] at r0 r1 r2 r3 ⊢
  simp only [getOid, loopN, Nat.zero_add, Nat.reduceAdd, Nat.reduceSub]
  simp only [pure_eq_ok, r3, r2, r1, r0, ok_bind]
  have : (BitVec.ofNat 8 o).toNat = o := by rw [BitVec.toNat_ofNat]; omega
  simp [this]

theorem beEnc_zero : ∀ n, beEnc n 0 = List.replicate n (0 : Byte)
  | 0 => rfl
  | n + 1 => by rw [beEnc_succ, Nat.zero_div, beEnc_zero n, List.replicate_succ']; rfl

/-- Reading past the end is the only failure of `BytesToUll`. -/
theorem bytesToUll_ub {x : List Byte} {off len : Nat} {e : Fault} (h : bytesToUll x off len = .error e) : e = .ub := by
  have : ∀ (n start : Nat) (g : Nat → BitVec 64 → M (BitVec 64)), (∀ i v e, g i v = .error e → e = .ub) → ∀ v e, loopN n start g v = .error e → e = .ub := by
    intro n
    induction n with
    | zero => intro start g _ v e h; cases h
    | succ n ih =>
      intro start g hg v e h
      rw [loopN] at h
      cases hgv : g start v with
      | error e' => rw [hgv] at h; cases h; exact hg _ _ _ hgv
      | ok v' => rw [hgv, ok_bind] at h; exact ih _ _ hg _ _ h
  refine this len 0 _ ?_ 0 e h
  intro i v e h
  rw [rd] at h
  cases hx : x[off + i]? with
  | none => rw [hx] at h; cases h; rfl
  | some b => rw [hx] at h; cases h

variable {ch : HashFn} {pr : Params} {s : Parameters}

section
variable (H : Hashes ch s.H s.n) (F : Facts pr s)
include H F

/-! ## Keys -/

theorem coreKeyPair_ok {ob p1 p2 x sks skp pks : List Byte} (hob : ob.length = 4) (hp1 : p1.length = s.n) (hp2 : p2.length = s.n) (hx : x.length = s.ib + 4 * s.n) (h1 : sks.length = s.n) (h2 : skp.length = s.n) (h3 : pks.length = s.n) :
    coreKeyPair ch pr (ob ++ p1 ++ p2) (ob ++ x) (sks ++ skp) pks
      = .ok (ob ++ root s sks pks ++ pks, ob ++ beEnc s.ib 0 ++ sks ++ skp ++ root s sks pks ++ pks) := by
  have hn := F.n
  have hib := F.ib
  obtain ⟨x0, x1, x2, x3, rfl, l0, l1, l2, l3⟩ : ∃ x0 x1 x2 x3, x = x0 ++ (x1 ++ (x2 ++ x3)) ∧ x0.length = s.ib ∧ x1.length = 2 * s.n ∧ x2.length = s.n ∧ x3.length = s.n :=
    ⟨x.take s.ib, (x.drop s.ib).take (2 * s.n), ((x.drop s.ib).drop (2 * s.n)).take s.n, ((x.drop s.ib).drop (2 * s.n)).drop s.n, by simp only [List.take_append_drop], by rw [List.length_take]; omega,
      by rw [List.length_take, List.length_drop]; omega, by rw [List.length_take, List.length_drop, List.length_drop]; omega, by simp only [List.length_drop]; omega⟩
  have c0 : clear (ob ++ (x0 ++ (x1 ++ (x2 ++ x3)))) 4 pr.indexSize = .ok (ob ++ (beEnc s.ib 0 ++ (x1 ++ (x2 ++ x3)))) := by
    have := blit_at (off := 4) (a := ob) (b := x0) (c := x1 ++ (x2 ++ x3)) (s := List.replicate s.ib 0) hob.symm (by rw [List.length_replicate, l0])
    rw [hib, beEnc_zero, clear, if_neg (by have := F.ib0; omega)]
    simpa only [List.append_assoc] using this
  have hl0 : (beEnc s.ib 0).length = s.ib := beEnc_length _ _
  have c1 := copy_at (a := ob ++ beEnc s.ib 0) (b := x1) (c := x2 ++ x3) (off := 4 + pr.indexSize) (n := 2 * pr.n) (Holds.self (sks ++ skp)) (by rw [List.length_append]; omega) (by rw [List.length_append]; omega) (by rw [List.length_append]; omega)
  have c2 := copy_at (a := ob ++ beEnc s.ib 0 ++ (sks ++ skp) ++ x2) (b := x3) (c := []) (off := 4 + pr.indexSize + 3 * pr.n) (n := pr.n) (Holds.self pks) (by simp only [List.length_append]; omega) (by omega) (by omega)
  have hpk : Holds (ob ++ beEnc s.ib 0 ++ (sks ++ skp) ++ x2 ++ pks) (4 + pr.indexSize + 3 * pr.n) pks := ⟨ob ++ beEnc s.ib 0 ++ (sks ++ skp) ++ x2, [], by simp, by simp only [List.length_append]; omega⟩
  have c3 := copy_at (a := ob ++ p1) (b := p2) (c := []) (off := 4 + pr.n) (n := pr.n) hpk (by rw [List.length_append]; omega) (by omega) (by omega)
  have c4 := copy_at (a := []) (b := List.replicate pr.n (0 : Byte)) (c := []) (off := 0) (n := pr.n) hpk rfl (by omega) (by simp [hn, h3])
  rw [List.append_nil, List.append_nil] at c2 c3
  rw [List.nil_append, List.append_nil, List.nil_append, List.append_nil] at c4
  let C : Tree s := ⟨s.d - 1, 0, 0, sks, pks, [], [], fun _ => List.replicate s.n 0, H.good, h3, h1, fun _ _ => by rw [List.length_replicate], Nat.two_pow_pos _⟩
  have hold : List.replicate (pr.treeHeight * pr.n) (0 : Byte) = chunks (fun _ => List.replicate s.n 0) s.h := by
    rw [F.h, hn]
    have : ∀ k, List.replicate (k * s.n) (0 : Byte) = chunks (fun _ => List.replicate s.n 0) k := by
      intro k
      induction k with
      | zero => rw [Nat.zero_mul]; rfl
      | succ k ih => rw [Nat.add_one_mul k, ← List.replicate_append_replicate, ih]; rfl
    exact this _
  have hsk : Holds (ob ++ beEnc s.ib 0 ++ (sks ++ skp) ++ x2 ++ pks) (4 + pr.indexSize) sks := ⟨ob ++ beEnc s.ib 0, skp ++ x2 ++ pks, by simp only [List.append_assoc], by rw [List.length_append]; omega⟩
  have ht := C.treeHash_ok H F (Holds.self pks) hsk (rpre := ob) (rjunk := p1) (rpost := pks) (ro := 4) 0 0 0 0 0 hob.symm hp1
  replace ht : treeHash ch pr (ob ++ p1 ++ pks) 4 ([] ++ chunks (fun _ => List.replicate s.n 0) s.h ++ []) 0 (ob ++ beEnc s.ib 0 ++ (sks ++ skp) ++ x2 ++ pks) (4 + pr.indexSize) pks 0 (mk (s.d - 1) 0 0 0 0 0 0)
    = .ok (ob ++ root s sks pks ++ pks, [] ++ treePath s sks pks (s.d - 1) 0 0 ++ []) := ht
  rw [List.nil_append, List.append_nil, ← hold] at ht
  have hrl : (root s sks pks).length = s.n := treeRoot_len H.good _ _ _ _
  have c5 := copy_at (a := ob ++ beEnc s.ib 0 ++ (sks ++ skp)) (b := x2) (c := pks) (off := 4 + pr.indexSize + 2 * pr.n) (n := pr.n) (s := root s sks pks) (src := ob ++ root s sks pks ++ pks) (so := 4)
    ⟨ob, pks, rfl, hob⟩ (by simp only [List.length_append]; omega) (by omega) (by omega)
  rw [coreKeyPair]
  dsimp only
  rw [c0, ok_bind]
  simp only [List.append_assoc] at c1 c2 c3 c4 c5 ht ⊢
  rw [c1, ok_bind, c2, ok_bind, c3, ok_bind, c4, ok_bind, F.d, zero_mk, show setLayer (mk 0 0 0 0 0 0 0) (s.d - 1) = mk (s.d - 1) 0 0 0 0 0 0 from rfl, ht, ok_bind]
  dsimp only
  rw [c5, ok_bind]
  rfl

/-! ## Signatures -/

omit H in
theorem room : 4 * s.n ≤ s.d * layerBytes s := by
  have h1 : layerBytes s ≤ s.d * layerBytes s := Nat.le_mul_of_pos_left _ F.d0
  have h2 : 4 * s.n ≤ wlen s * s.n := Nat.mul_le_mul_right _ (by rw [wlen]; have := F.n0; omega)
  rw [layerBytes] at h1 ⊢
  omega

theorem coreSign_ok {ob kb sks skp root pks xb fr mb msg : List Byte} (hob : ob.length = 4) (hkb : kb.length = s.ib) (h1 : sks.length = s.n) (h2 : skp.length = s.n) (h3 : pks.length = s.n) (h4 : root.length = s.n)
    (hxb : xb.length = s.ib) (hfr : fr.length = s.n + s.d * layerBytes s) (hmb : mb.length = msg.length) (hsm : sigBytes s + msg.length < 2 ^ 61) :
    ∃ sk', coreSign ch pr (ob ++ kb ++ sks ++ skp ++ root ++ pks) (xb ++ fr ++ mb) msg
      = .ok (sk', kb ++ signBody s sks skp pks root (beVal xb) msg ++ msg, sigBytes s + msg.length) := by
  have hn := F.n
  have hib := F.ib
  have hsz := F.size
  have hroom := room F
  have hg := H.good
  have hsb : sigBytes s = s.ib + s.n + s.d * layerBytes s := rfl
  obtain ⟨f1, f2, rfl, hf1, hf2⟩ : ∃ f1 f2, fr = f1 ++ f2 ∧ f1.length = s.n ∧ f2.length = s.d * layerBytes s := ⟨fr.take s.n, fr.drop s.n, take_split _ _, by rw [List.length_take]; omega, by rw [List.length_drop]; omega⟩
  obtain ⟨g1, g2, hg12, hg1, hg2⟩ : ∃ g1 g2, f2 = g1 ++ g2 ∧ g1.length = s.d * layerBytes s - 4 * s.n ∧ g2.length = 4 * s.n :=
    ⟨f2.take (s.d * layerBytes s - 4 * s.n), f2.drop (s.d * layerBytes s - 4 * s.n), take_split _ _, by rw [List.length_take]; omega, by rw [List.length_drop]; omega⟩
  have hc : ∀ {a : List Byte} {w b : List Byte} {off : Nat}, ob ++ kb ++ sks ++ skp ++ root ++ pks = a ++ w ++ b → w.length = s.n → a.length = off → copy (ob ++ kb ++ sks ++ skp ++ root ++ pks) off (List.replicate pr.n 0) 0 pr.n = .ok w := by
    intro a w b off e hw ha
    have := copy_at (a := []) (b := List.replicate pr.n (0 : Byte)) (c := []) (off := 0) (n := pr.n) (s := w) (src := ob ++ kb ++ sks ++ skp ++ root ++ pks) (so := off) ⟨a, b, e, ha⟩ rfl (by omega) (by simp [hn, hw])
    rwa [List.nil_append, List.append_nil, List.nil_append, List.append_nil] at this
  have c1 := hc (a := ob ++ kb) (w := sks) (b := skp ++ root ++ pks) (off := 4 + pr.indexSize) (by simp only [List.append_assoc]) h1 (by rw [List.length_append]; omega)
  have c2 := hc (a := ob ++ kb ++ sks) (w := skp) (b := root ++ pks) (off := 4 + pr.indexSize + pr.n) (by simp only [List.append_assoc]) h2 (by simp only [List.length_append]; omega)
  have c3 := hc (a := ob ++ kb ++ sks ++ skp) (w := root) (b := pks) (off := 4 + pr.indexSize + 2 * pr.n) (by simp only [List.append_assoc]) h4 (by simp only [List.length_append]; omega)
  have c4 := hc (a := ob ++ kb ++ sks ++ skp ++ root) (w := pks) (b := []) (off := 4 + pr.indexSize + 3 * pr.n) (by simp only [List.append_assoc, List.append_nil]) h3 (by simp only [List.length_append]; omega)
  have c5 := copy_at (a := xb ++ (f1 ++ f2)) (b := mb) (c := []) (off := pr.sigSize) (n := msg.length) (Holds.self msg) (by simp only [List.length_append]; omega) rfl hmb
  rw [List.append_nil, List.append_nil] at c5
  obtain ⟨v, c6, hv⟩ := bytesToUll_ok (inp := xb ++ (f1 ++ f2) ++ msg) (w := xb) (off := 0) (len := s.ib) ⟨[], f1 ++ f2 ++ msg, by simp, rfl⟩ hxb F.ibSmall
  have c7 := copy_at (a := []) (b := xb) (c := f1 ++ f2 ++ msg) (off := 0) (n := pr.indexSize) (s := kb) (src := ob ++ kb ++ sks ++ skp ++ root ++ pks) (so := 4) ⟨ob, sks ++ skp ++ root ++ pks, by simp only [List.append_assoc], hob⟩ rfl (by omega) (by omega)
  rw [List.nil_append, List.nil_append] at c7
  have c8 := ullToBytes_ok s.ib (pre := ob) (junk := kb) (post := sks ++ skp ++ root ++ pks) (off := 4) (v + 1) hob.symm hkb
  have c9 := ullToBytes_ok 32 (pre := []) (junk := List.replicate 32 0) (post := []) (off := 0) v rfl (by rw [List.length_replicate])
  rw [List.nil_append, List.append_nil, List.nil_append, List.append_nil] at c9
  have c10 := prf_ok H F (pre := kb) (junk := f1) (post := f2 ++ msg) (off := pr.indexSize) (Holds.self skp) h2 (Holds.self (beEnc 32 v.toNat)) (beEnc_length _ _) (by omega) hf1
  change prf ch pr (kb ++ f1 ++ (f2 ++ msg)) pr.indexSize (beEnc 32 v.toNat) skp 0 = .ok (kb ++ randomizer s skp v.toNat ++ (f2 ++ msg)) at c10
  have hrl : (randomizer s skp v.toNat).length = s.n := prf_len hg _ _
  generalize hR : randomizer s skp v.toNat = R at c10 hrl
  have c11 := hashMessage_ok H F (r := kb ++ R ++ g1 ++ g2 ++ msg) (rr := R) (ro := pr.indexSize) (pre := kb ++ R ++ g1) (x := g2) (m := msg) (root := root) (mo := pr.sigSize - 4 * pr.n) (len := msg.length) v
    ⟨kb, g1 ++ g2 ++ msg, by simp only [List.append_assoc], by omega⟩ hrl h4 hg2 (by simp only [List.length_append]; omega) rfl (by simp only [List.length_append]; omega)
  obtain ⟨st, c12, c13⟩ := signLayers_ok H F (Holds.self pks) h3 (Holds.self sks) h1 s.d (pre := kb ++ R) (junk := g1 ++ (beEnc s.n 2 ++ R ++ root ++ beEnc s.n v.toNat)) (post := msg) (m := digest s R root v.toNat msg)
    (sb := List.replicate pr.n 0) (off := pr.indexSize + pr.n) 0 0 0 0 0 0 v 0 (digest_len hg _ _ _ _) (by simp [hn]) (by rw [List.length_append]; omega) (by simp only [List.length_append, beEnc_length]; omega)
  refine ⟨ob ++ beEnc s.ib (v + 1).toNat ++ (sks ++ skp ++ root ++ pks), ?_⟩
  rw [coreSign, c1, ok_bind, c2, ok_bind, c3, ok_bind, c4, ok_bind, c5, ok_bind, hib, c6, ok_bind]
  rw [hib] at c7 c10 c11 c12
  simp only [List.append_assoc, hg12] at c7 c8 c10 c11 c12 ⊢
  rw [c7, ok_bind, c8, ok_bind, c9, ok_bind, c10, ok_bind, c11, ok_bind, zero_mk, show setType (mk 0 0 0 0 0 0 0) 0 = mk 0 0 0 0 0 0 0 from rfl, F.d]
  dsimp only
  rw [c12, ok_bind, c13, pure_eq_ok, hsz, signBody, ← hv, hR]
  simp only [List.append_assoc]

theorem coreOpen_ok {ob root pks sg m msg : List Byte} (hob : ob.length = 4) (h3 : pks.length = s.n) (h4 : root.length = s.n) (hsg : sg.length = sigBytes s) (hmsg : msg.length = sigBytes s + m.length) (hsm : sigBytes s + m.length < 2 ^ 61) :
    ∃ rest, coreOpen ch pr msg (sg ++ m) (ob ++ root ++ pks) = .ok (if rootOf s pks root m sg = root then (true, m ++ rest, m.length) else (false, rest, 0)) := by
  have hn := F.n
  have hib := F.ib
  have hsz := F.size
  have hroom := room F
  have hg := H.good
  have hsb : sigBytes s = s.ib + s.n + s.d * layerBytes s := rfl
  have hc : ∀ {a : List Byte} {w b : List Byte} {off : Nat}, ob ++ root ++ pks = a ++ w ++ b → w.length = s.n → a.length = off → copy (ob ++ root ++ pks) off (List.replicate pr.n 0) 0 pr.n = .ok w := by
    intro a w b off e hw ha
    have := copy_at (a := []) (b := List.replicate pr.n (0 : Byte)) (c := []) (off := 0) (n := pr.n) (s := w) (src := ob ++ root ++ pks) (so := off) ⟨a, b, e, ha⟩ rfl (by omega) (by simp [hn, hw])
    rwa [List.nil_append, List.append_nil, List.nil_append, List.append_nil] at this
  have c1 := hc (a := ob) (w := root) (b := pks) (off := 4) rfl h4 hob
  have c2 := hc (a := ob ++ root) (w := pks) (b := []) (off := 4 + pr.n) (by simp only [List.append_assoc, List.append_nil]) h3 (by rw [List.length_append]; omega)
  have hml : ((sg ++ m).length + (2 ^ 64 - pr.sigSize)) % 2 ^ 64 = m.length := by
    rw [List.length_append, hsg, hsz, show sigBytes s + m.length + (2 ^ 64 - sigBytes s) = m.length + 2 ^ 64 from by omega, Nat.add_mod_right, Nat.mod_eq_of_lt (by omega)]
  have hix : (sg.take s.ib).length = s.ib := by rw [List.length_take]; omega
  obtain ⟨v, c3, hv⟩ := bytesToUll_ok (inp := sg ++ m) (w := sg.take s.ib) (off := 0) (len := s.ib) ⟨[], sg.drop s.ib ++ m, by rw [List.nil_append, ← List.append_assoc, List.take_append_drop], rfl⟩ hix F.ibSmall
  obtain ⟨q1, q2, q3, rfl, hq1, hq2, hq3⟩ : ∃ q1 q2 q3, msg = q1 ++ q2 ++ q3 ∧ q1.length = sigBytes s - 4 * s.n ∧ q2.length = 4 * s.n ∧ q3.length = m.length :=
    ⟨msg.take (sigBytes s - 4 * s.n), (msg.drop (sigBytes s - 4 * s.n)).take (4 * s.n), (msg.drop (sigBytes s - 4 * s.n)).drop (4 * s.n), by simp only [List.append_assoc, List.take_append_drop], by rw [List.length_take]; omega,
      by rw [List.length_take, List.length_drop]; omega, by rw [List.length_drop, List.length_drop]; omega⟩
  have hm : Holds (sg ++ m) pr.sigSize m := ⟨sg, [], by simp, by omega⟩
  have c4 := copy_at (a := q1 ++ q2) (b := q3) (c := []) (off := pr.sigSize) (n := m.length) hm (by rw [List.length_append]; omega) rfl hq3
  rw [List.append_nil, List.append_nil] at c4
  have hRl : ((sg.drop s.ib).take s.n).length = s.n := by rw [List.length_take, List.length_drop]; omega
  have hR : Holds (sg ++ m) pr.indexSize ((sg.drop s.ib).take s.n) := by
    refine ⟨sg.take s.ib, (sg.drop s.ib).drop s.n ++ m, ?_, by omega⟩
    rw [List.append_assoc, ← List.append_assoc _ _ m, List.take_append_drop, ← List.append_assoc, List.take_append_drop]
  have c5 := hashMessage_ok H F (pre := q1) (x := q2) (m := m) (root := root) (mo := pr.sigSize - pr.n * 4) (len := m.length) v hR hRl h4 hq2 (by omega) rfl (by omega)
  have hS : Holds (sg ++ m) (pr.indexSize + pr.n) (sg.drop (s.ib + s.n)) := ⟨sg.take (s.ib + s.n), m, by rw [List.take_append_drop], by rw [List.length_take]; omega⟩
  obtain ⟨st, c6, c7⟩ := verifyLayers_ok H F (Holds.self pks) h3 s.d hS (by rw [List.length_drop]; omega) 0 0 0 0 0 0 0 0 0 0 0 0 0 0 0 v 0 0 0 (digest_len hg ((sg.drop s.ib).take s.n) root v.toNat m)
    (leaf := List.replicate pr.n 0) (wpk := List.replicate pr.wotsBytes 0) (by simp [hn]) (by rw [List.length_replicate, Params.wotsBytes, F.wlen, hn])
  replace c7 : st.root = rootOf s pks root m sg := by rw [c7, hv]; rfl
  have hbuf : (q1 ++ (beEnc s.n 2 ++ (sg.drop s.ib).take s.n ++ root ++ beEnc s.n v.toNat) ++ m).length = sigBytes s + m.length := by simp only [List.length_append, beEnc_length]; omega
  generalize hB : q1 ++ (beEnc s.n 2 ++ (sg.drop s.ib).take s.n ++ root ++ beEnc s.n v.toNat) ++ m = B at c5 hbuf
  have pre : coreOpen ch pr (q1 ++ q2 ++ q3) (sg ++ m) (ob ++ root ++ pks) = (if st.root = root then do
      let msg ← copy (sg ++ m) pr.sigSize B 0 m.length
      return (true, msg, m.length)
    else do
      let msg ← clear B 0 B.length
      return (false, msg, 0)) := by
    rw [coreOpen]
    dsimp only
    rw [hml, c1, ok_bind, c2, ok_bind, hib, c3, ok_bind, c4, ok_bind]
    rw [hib] at c5 c6
    rw [c5, ok_bind, zero_mk, show setType (mk 0 0 0 0 0 0 0) 0 = mk 0 0 0 0 0 0 0 from rfl, show setType (mk 0 0 0 0 0 0 0) 1 = mk 0 0 1 0 0 0 0 from rfl, show setType (mk 0 0 0 0 0 0 0) 2 = mk 0 0 2 0 0 0 0 from rfl, F.d]
    dsimp only
    rw [c6, ok_bind]
  rw [c7] at pre
  rw [pre]
  by_cases h : rootOf s pks root m sg = root
  · have c8 := copy_at (a := []) (b := B.take m.length) (c := B.drop m.length) (off := 0) (n := m.length) hm rfl rfl (by rw [List.length_take]; omega)
    rw [List.nil_append, List.nil_append, List.take_append_drop] at c8
    refine ⟨B.drop m.length, ?_⟩
    rw [if_pos h, if_pos h, c8]
    rfl
  · refine ⟨List.replicate B.length 0, ?_⟩
    rw [if_neg h, if_neg h, Keccak.clear_all _ _ rfl]
    rfl

omit H in
/-- With too few bytes the length of the message wraps round and memory behind the signature is read. -/
theorem coreOpen_short {ob root pks sm msg : List Byte} (hob : ob.length = 4) (h3 : pks.length = s.n) (h4 : root.length = s.n) (hsm : sm.length < sigBytes s) (hz : sigBytes s < 2 ^ 63) :
    coreOpen ch pr msg sm (ob ++ root ++ pks) = .error .ub := by
  have hn := F.n
  have hib := F.ib
  have hsz := F.size
  have hsb : sigBytes s = s.ib + s.n + s.d * layerBytes s := rfl
  have hc : ∀ {a : List Byte} {w b : List Byte} {off : Nat}, ob ++ root ++ pks = a ++ w ++ b → w.length = s.n → a.length = off → copy (ob ++ root ++ pks) off (List.replicate pr.n 0) 0 pr.n = .ok w := by
    intro a w b off e hw ha
    have := copy_at (a := []) (b := List.replicate pr.n (0 : Byte)) (c := []) (off := 0) (n := pr.n) (s := w) (src := ob ++ root ++ pks) (so := off) ⟨a, b, e, ha⟩ rfl (by omega) (by simp [hn, hw])
    rwa [List.nil_append, List.append_nil, List.nil_append, List.append_nil] at this
  have c1 := hc (a := ob) (w := root) (b := pks) (off := 4) rfl h4 hob
  have c2 := hc (a := ob ++ root) (w := pks) (b := []) (off := 4 + pr.n) (by simp only [List.append_assoc, List.append_nil]) h3 (by rw [List.length_append]; omega)
  have hml : (sm.length + (2 ^ 64 - pr.sigSize)) % 2 ^ 64 = sm.length + (2 ^ 64 - sigBytes s) := by
    rw [hsz, Nat.mod_eq_of_lt (by omega)]
  have c4 : copy sm pr.sigSize msg pr.sigSize (sm.length + (2 ^ 64 - sigBytes s)) = .error .ub := by
    rw [copy, if_neg (show ¬ sm.length + (2 ^ 64 - sigBytes s) = 0 from by omega), slice, if_neg (show ¬ pr.sigSize + (sm.length + (2 ^ 64 - sigBytes s)) ≤ sm.length from by omega)]; rfl
  rw [coreOpen]
  dsimp only
  rw [hml, c1, ok_bind, c2, ok_bind, hib]
  by_cases hl : s.ib ≤ sm.length
  · have hix : (sm.take s.ib).length = s.ib := by rw [List.length_take]; omega
    obtain ⟨v, c3, hv⟩ := bytesToUll_ok (inp := sm) (w := sm.take s.ib) (off := 0) (len := s.ib) ⟨[], sm.drop s.ib, by rw [List.nil_append, List.take_append_drop], rfl⟩ hix F.ibSmall
    rw [c3, ok_bind, c4]
    rfl
  · cases hbt : bytesToUll sm 0 s.ib with
    | ok v => rw [ok_bind, c4]; rfl
    | error e => rw [bytesToUll_ub hbt]; rfl

end

end Cex.Xmss
