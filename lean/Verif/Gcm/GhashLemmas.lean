import Verif.Gcm.GhashModel
import Verif.Gcm.GhashSpec
import Verif.Gcm.CmulVec

/-! # GHASH: streaming -/

namespace Cex.Gcm
open Cex Cex.IntTools Cex.Mac Stream Polynomial

/-! ## XOR of blocks -/

theorem leVal_xor : ∀ a b : List Byte, a.length = b.length → leVal (xorBytes a b) = leVal a ^^^ leVal b
  | [], [], _ => rfl
  | x :: a, y :: b, h => by
    have ih := leVal_xor a b (by simpa using h)
    rw [xorBytes] at ih ⊢
    rw [List.zipWith_cons_cons, leVal, leVal, leVal, ih, BitVec.toNat_xor]
    have hx := x.isLt
    have hy := y.isLt
    have hxy := (x ^^^ y).isLt
    rw [BitVec.toNat_xor] at hxy
    apply Nat.eq_of_testBit_eq
    intro i
    rw [Nat.testBit_xor, Nat.add_comm, Nat.add_comm x.toNat, Nat.add_comm y.toNat, show (256 : Nat) = 2 ^ 8 from rfl, Nat.testBit_two_pow_mul_add _ hxy,
      Nat.testBit_two_pow_mul_add _ hx, Nat.testBit_two_pow_mul_add _ hy]
    split <;> rw [Nat.testBit_xor]
  | [], _ :: _, h => by simp at h
  | _ :: _, [], h => by simp at h

theorem xorBytes_reverse (a b : List Byte) (h : a.length = b.length) : (xorBytes a b).reverse = xorBytes a.reverse b.reverse := by
  rw [xorBytes, xorBytes, List.reverse_zipWith h]

theorem beVal_xor (a b : List Byte) (h : a.length = b.length) : beVal (xorBytes a b) = beVal a ^^^ beVal b := by
  rw [← leVal_reverse, xorBytes_reverse a b h, leVal_xor _ _ (by simpa using h), leVal_reverse, leVal_reverse]

theorem blk_xor (a b : List Byte) (h : a.length = b.length) : blk (xorBytes a b) = blk a ^^^ blk b := by
  apply BitVec.eq_of_toNat_eq
  rw [blk, blk, blk, BitVec.toNat_xor, BitVec.toNat_ofNat, BitVec.toNat_ofNat, BitVec.toNat_ofNat, beVal_xor a b h, Nat.xor_mod_two_pow]

theorem xorBytes_zeros (a : List Byte) : xorBytes a (List.replicate a.length 0) = a := by
  rw [xorBytes]
  induction a with
  | nil => rfl
  | cons x a ih => rw [List.length_cons, List.replicate_succ, List.zipWith_cons_cons, ih, show x ^^^ (0 : Byte) = x from BitVec.xor_zero]

theorem xorBytes_append (a b c d : List Byte) (h : a.length = c.length) : xorBytes (a ++ b) (c ++ d) = xorBytes a c ++ xorBytes b d := by
  rw [xorBytes, List.zipWith_append h]; rfl

/-! ## Padding -/

theorem pad16_nil : Nist.pad16 [] = [] := rfl

theorem pad16_short {m : List Byte} (h0 : m ≠ []) (h : m.length ≤ 16) : Nist.pad16 m = m ++ List.replicate (16 - m.length) 0 := by
  have : 0 < m.length := List.length_pos_iff.mpr h0
  rw [Nist.pad16]
  congr 2
  by_cases h16 : m.length = 16
  · omega
  · omega

theorem pad16_cons {b m : List Byte} (h : b.length = 16) : Nist.pad16 (b ++ m) = b ++ Nist.pad16 m := by
  rw [Nist.pad16, Nist.pad16, List.length_append, h, List.append_assoc]
  congr 4
  omega

theorem pad16_length (m : List Byte) : (Nist.pad16 m).length % 16 = 0 := by
  rw [Nist.pad16, List.length_append, List.length_replicate]; omega

/-- The unfinished block of a lazily absorbed message, padded. -/
theorem lazy_pad {σ : Type} (step : σ → List Byte → σ) (s : σ) (m : List Byte) : (eager 16 step s (Nist.pad16 m)).1 =
    if (lazy 16 step s m).2 = [] then (lazy 16 step s m).1 else step (lazy 16 step s m).1 (Nist.pad16 (lazy 16 step s m).2) := by
  induction s, m using lazy.induct 16 step with
  | case1 s m h ih =>
    rw [lazy, if_pos h, ← ih]
    have hl : (m.take 16).length = 16 := by rw [List.length_take]; omega
    conv => lhs; rw [← List.take_append_drop 16 m]
    rw [pad16_cons hl, eager_cons (by decide) hl]
  | case2 s m h =>
    rw [lazy, if_neg h]
    simp only []
    by_cases h0 : m = []
    · subst h0; rw [if_pos rfl, pad16_nil, eager_short (by simp)]
    · rw [if_neg h0, eager_one (by decide)]
      rw [pad16_short h0 (by omega), List.length_append, List.length_replicate]; omega

theorem eager_pad_append {σ : Type} (step : σ → List Byte → σ) (s : σ) (m r : List Byte) (hm : m.length % 16 = 0) :
    (eager 16 step s (m ++ r)).1 = (eager 16 step (eager 16 step s m).1 r).1 := by
  have h := eager_rest_mod (B := 16) (step := step) (by decide) s m
  rw [hm] at h
  rw [eager_append, List.eq_nil_of_length_eq_zero h, List.nil_append]

/-! ## The field operations -/

/-- The accumulator: the block `y` in the first 16 bytes, then `t`. -/
def acc (y : BitVec 128) (t : List Byte) : List Byte := unblk y ++ t

theorem permute_at (simd : Bool) (g : Gh) (b t : List Byte) (hb : b.length = 16) :
    g.permute simd (b ++ t) = .ok (acc (Nist.mul (blk b) (cat g.h0 g.h1)) t) := by
  have hs : slice (b ++ t) 0 16 = .ok b := slice_holds ⟨[], t, rfl, rfl⟩ hb.symm
  rw [Gh.permute, hs, ok_bind, permute_eq simd g.h0 g.h1 b hb, ok_bind]
  exact blit_at (a := []) (b := b) (c := t) rfl (by rw [unblk_length, hb])

theorem block_at (simd : Bool) (g : Gh) {src b : List Byte} {so : Nat} (hs : Holds src so b) (hb : b.length = 16) (y : BitVec 128) (t : List Byte) :
    g.block simd src so (acc y t) = .ok (acc (Nist.gstep (cat g.h0 g.h1) y b) t) := by
  have h := xorInto_at (a := []) (d := unblk y) (c := t) (off := 0) (n := 16) hs rfl hb.symm (by rw [unblk_length, hb])
  rw [Gh.block, acc]
  have h' : xorInto src so (unblk y ++ t) 0 16 = .ok (xorBytes (unblk y) b ++ t) := h
  rw [h', ok_bind, permute_at simd g _ t (by rw [xorBytes_length, unblk_length, hb]; rfl), blk_xor _ _ (by rw [unblk_length, hb]), blk_unblk, Nist.gstep]

/-- A short block: only its bytes are added. -/
theorem short_at (simd : Bool) (g : Gh) {src b : List Byte} {so : Nat} (hs : Holds src so b) (h0 : b ≠ []) (hb : b.length ≤ 16) (y : BitVec 128) (t : List Byte) :
    (xorInto src so (acc y t) 0 b.length >>= fun out => g.permute simd out) = .ok (acc (Nist.gstep (cat g.h0 g.h1) y (Nist.pad16 b)) t) := by
  have hl : ((unblk y).take b.length).length = b.length := by rw [List.length_take, unblk_length]; omega
  have h := xorInto_at (a := []) (d := (unblk y).take b.length) (c := (unblk y).drop b.length ++ t) (off := 0) (n := b.length) hs rfl rfl hl
  have e : acc y t = [] ++ (unblk y).take b.length ++ ((unblk y).drop b.length ++ t) := by
    rw [List.nil_append, ← List.append_assoc, List.take_append_drop, acc]
  rw [e, h, ok_bind, List.nil_append, ← List.append_assoc]
  have e2 : xorBytes ((unblk y).take b.length) b ++ (unblk y).drop b.length = xorBytes (unblk y) (Nist.pad16 b) := by
    conv => rhs; rw [← List.take_append_drop b.length (unblk y)]
    rw [pad16_short h0 hb, xorBytes_append _ _ _ _ hl]
    have hd : ((unblk y).drop b.length).length = 16 - b.length := by rw [List.length_drop, unblk_length]
    have := xorBytes_zeros ((unblk y).drop b.length)
    rw [hd] at this
    rw [this]
  have hp : (Nist.pad16 b).length = 16 := by rw [pad16_short h0 hb, List.length_append, List.length_replicate]; omega
  rw [e2, permute_at simd g _ t (by rw [xorBytes_length, unblk_length, hp]; rfl), blk_xor _ _ (by rw [unblk_length, hp]), blk_unblk, Nist.gstep]

theorem loop_ok (simd : Bool) (g : Gh) (inp t : List Byte) : ∀ (n : Nat) (m : List Byte) (io : Nat) (y : BitVec 128), m.length = n → Holds inp io m →
    ∃ io', Holds inp io' (lazy 16 (Nist.gstep (cat g.h0 g.h1)) y m).2 ∧
      Gh.loop simd g inp io n (acc y t) = .ok (acc (lazy 16 (Nist.gstep (cat g.h0 g.h1)) y m).1 t, io', (lazy 16 (Nist.gstep (cat g.h0 g.h1)) y m).2.length) := by
  intro n
  induction n using Nat.strongRecOn with
  | ind n ih =>
    intro m io y hm hh
    rw [Gh.loop, lazy]
    by_cases h : 16 < n
    · rw [if_pos h, if_pos ⟨by omega, by omega⟩]
      rw [block_at simd g (hh.takeN 16) (by rw [List.length_take]; omega) y t, ok_bind]
      exact ih (n - 16) (by omega) (m.drop 16) (io + 16) _ (by rw [List.length_drop]; omega) (hh.dropN (by omega))
    · rw [if_neg h, if_neg (by omega)]
      exact ⟨io, hh, by rw [hm]⟩

/-- The streaming invariant: from accumulator `y0` the data `msg` has been absorbed. -/
structure Absorbed (k0 k1 : BitVec 64) (y0 : BitVec 128) (t msg : List Byte) (g : Gh) (out : List Byte) : Prop where
  key0 : g.h0 = k0
  key1 : g.h1 = k1
  out : out = acc (lazy 16 (Nist.gstep (cat k0 k1)) y0 msg).1 t
  buf : ∃ rest, g.buf = (lazy 16 (Nist.gstep (cat k0 k1)) y0 msg).2 ++ rest ∧ g.buf.length = 16
  pos : g.pos = (lazy 16 (Nist.gstep (cat k0 k1)) y0 msg).2.length

theorem absorbed_nil {k0 k1 : BitVec 64} {y0 : BitVec 128} {t : List Byte} {g : Gh} (h0 : g.h0 = k0) (h1 : g.h1 = k1) (hb : g.buf.length = 16) (hp : g.pos = 0) :
    Absorbed k0 k1 y0 t [] g (acc y0 t) := by
  refine ⟨h0, h1, ?_, ⟨g.buf, ?_, hb⟩, ?_⟩ <;> rw [lazy_short (by simp)]
  · simp
  · rw [hp]; rfl

theorem gh_update_ok {k0 k1 : BitVec 64} {y0 : BitVec 128} {t msg : List Byte} {g : Gh} {out : List Byte} (simd : Bool) (h : Absorbed k0 k1 y0 t msg g out)
    (inp : List Byte) (io : Nat) (x : List Byte) (hin : Holds inp io x) :
    ∃ g' out', g.update simd inp io x.length out = .ok (g', out') ∧ Absorbed k0 k1 y0 t (msg ++ x) g' out' := by
  obtain ⟨h0, h1, h2, ⟨rest, h7, h8⟩, h9⟩ := h
  generalize hst : Nist.gstep (cat k0 k1) = step at *
  have hS : Nist.gstep (cat g.h0 g.h1) = step := by rw [h0, h1, hst]
  generalize hz : lazy 16 step y0 msg = z at *
  have hrl : z.2.length ≤ 16 := by rw [← hz]; exact lazy_rest_le (by decide) _ _
  rw [Gh.update]
  by_cases hx0 : x.length = 0
  · have : x = [] := List.eq_nil_of_length_eq_zero hx0
    subst this
    refine ⟨g, out, rfl, ⟨h0, h1, ?_, ⟨rest, ?_, h8⟩, ?_⟩⟩ <;> rw [List.append_nil, hst, hz] <;> assumption
  · rw [if_neg hx0]
    have hxne : x ≠ [] := fun e => hx0 (by rw [e]; rfl)
    obtain ⟨g1, y1, e1, i1, i2, r1, b1, b2, b3, b4, b5⟩ : ∃ g1 y1, g.flush simd out = .ok (g1, acc y1 t) ∧ g1.h0 = k0 ∧ g1.h1 = k1 ∧
        ∃ r1 : List Byte, r1.length < 16 ∧ g1.pos = r1.length ∧ (∃ rest, g1.buf = r1 ++ rest) ∧ g1.buf.length = 16 ∧
        lazy 16 step y0 (msg ++ x) = lazy 16 step y1 (r1 ++ x) := by
      rw [Gh.flush]
      by_cases hp : g.pos = 16
      · have hz16 : z.2.length = 16 := by omega
        have hrest : rest = [] := by
          have := congrArg List.length h7
          rw [List.length_append, h8, hz16] at this
          exact List.eq_nil_of_length_eq_zero (by omega)
        rw [if_pos hp, h2, block_at simd g (Holds.self g.buf) h8, ok_bind]
        refine ⟨_, _, rfl, h0, h1, [], by decide, rfl, ⟨g.buf, rfl⟩, h8, ?_⟩
        rw [lazy_append, hz, lazy_cons (by decide) hz16 hxne, List.nil_append, hS, h7, hrest, List.append_nil]
      · rw [if_neg hp]
        refine ⟨g, z.1, by rw [h2]; rfl, h0, h1, z.2, by omega, h9, ⟨rest, h7⟩, h8, ?_⟩
        rw [lazy_append, hz]
    obtain ⟨rest1, b3⟩ := b3
    rw [e1, ok_bind]
    simp only []
    rw [if_neg (by omega)]
    have hrest1 : rest1.length = 16 - r1.length := by
      have := congrArg List.length b3; rw [List.length_append, b4] at this; omega
    have hS1 : Nist.gstep (cat g1.h0 g1.h1) = step := by rw [i1, i2, hst]
    by_cases hlong : 16 - g1.pos < x.length
    · rw [Gh.fill, if_pos hlong]
      have hrmd : 16 - g1.pos = 16 - r1.length := by omega
      have ht : (x.take (16 - r1.length)).length = 16 - r1.length := by rw [List.length_take]; omega
      have hc : copy inp io g1.buf g1.pos (16 - g1.pos) = .ok (r1 ++ x.take (16 - r1.length)) := by
        rw [b3, b2]
        have := copy_at (a := r1) (b := rest1) (c := []) (Holds.takeN (16 - r1.length) hin) rfl ht.symm (by omega)
        simpa using this
      have hbl : (r1 ++ x.take (16 - r1.length)).length = 16 := by rw [List.length_append, ht]; omega
      have henc := block_at simd { g1 with buf := r1 ++ x.take (16 - r1.length) } (Holds.self (r1 ++ x.take (16 - r1.length))) hbl y1 t
      have hd : (x.drop (16 - r1.length)).length = x.length - (16 - r1.length) := List.length_drop
      have hdne : x.drop (16 - r1.length) ≠ [] := by
        intro e; rw [e] at hd; simp at hd; omega
      obtain ⟨io', q2, q4⟩ := loop_ok simd { g1 with buf := r1 ++ x.take (16 - r1.length), pos := 0 } inp t (x.length - (16 - r1.length))
        (x.drop (16 - r1.length)) (io + (16 - r1.length)) (step y1 (r1 ++ x.take (16 - r1.length))) hd (Holds.dropN hin (by omega))
      simp only [hS1] at henc q2 q4
      rw [hc]
      simp only [ok_bind, henc]
      rw [hrmd, q4]
      simp only [ok_bind, pure_eq_ok]
      have hl2 : lazy 16 step y0 (msg ++ x) = lazy 16 step (step y1 (r1 ++ x.take (16 - r1.length))) (x.drop (16 - r1.length)) := by
        rw [b5]
        conv => lhs; rw [← List.take_append_drop (16 - r1.length) x, ← List.append_assoc]
        rw [lazy_cons (by decide) hbl hdne]
      generalize hw : lazy 16 step (step y1 (r1 ++ x.take (16 - r1.length))) (x.drop (16 - r1.length)) = w at *
      have hwne : w.2 ≠ [] := by rw [← hw]; exact lazy_rest_ne _ _ hdne
      have hwl : w.2.length ≤ 16 := by rw [← hw]; exact lazy_rest_le (by decide) _ _
      have hwp : 0 < w.2.length := List.length_pos_iff.mpr hwne
      rw [Gh.store, if_pos hwp]
      have hc2 := copy_at (a := []) (b := (r1 ++ x.take (16 - r1.length)).take w.2.length)
        (c := (r1 ++ x.take (16 - r1.length)).drop w.2.length) (off := 0) q2 rfl rfl (by rw [List.length_take]; omega)
      rw [List.nil_append, List.nil_append, List.take_append_drop] at hc2
      simp only []
      rw [hc2, ok_bind]
      refine ⟨_, _, rfl, ⟨i1, i2, by rw [hst, hl2], ⟨_, by rw [hst, hl2], ?_⟩, by rw [hst, hl2, Nat.zero_add]⟩⟩
      simp only [List.length_append, List.length_drop] at hbl ⊢
      omega
    · rw [Gh.fill, if_neg hlong, pure_eq_ok, ok_bind, Gh.store, if_pos (by show 0 < x.length; omega)]
      simp only []
      have hc : copy inp io g1.buf g1.pos x.length = .ok (r1 ++ x ++ rest1.drop x.length) := by
        rw [b3, b2]
        have := copy_at (a := r1) (b := rest1.take x.length) (c := rest1.drop x.length) hin rfl rfl (by rw [List.length_take]; omega)
        rw [List.append_assoc, List.take_append_drop] at this
        exact this
      rw [hc, ok_bind]
      have hl2 : lazy 16 step y0 (msg ++ x) = (y1, r1 ++ x) := by
        rw [b5, lazy_short (by rw [List.length_append]; omega)]
      refine ⟨_, _, rfl, ⟨i1, i2, by rw [hst, hl2], ⟨_, by rw [hst, hl2], ?_⟩, by rw [hst, hl2, List.length_append, ← b2]⟩⟩
      simp only [List.length_append, List.length_drop]
      omega

theorem lenBlock_ok (a c : Nat) : lenBlock a c = .ok (Nist.lens a c) := by
  have h1 := Digest.write_be64 (BitVec.ofNat 64 (a * 8)) [] (List.replicate 8 0) (List.replicate 8 0) (by simp)
  have h2 := Digest.write_be64 (BitVec.ofNat 64 (c * 8)) (beEnc 8 (BitVec.ofNat 64 (a * 8)).toNat) (List.replicate 8 0) [] (by simp)
  have hm : ∀ v, beEnc 8 (BitVec.ofNat 64 (v * 8)).toNat = beEnc 8 (8 * v) := by
    intro v
    rw [BitVec.toNat_ofNat, show (2 : Nat) ^ 64 = 256 ^ 8 from rfl, beEnc_mod, Nat.mul_comm]
  rw [hm] at h1 h2
  rw [hm] at h2
  have h1' : be64ToBytes (BitVec.ofNat 64 (a * 8)) (List.replicate 16 0) 0 = .ok (beEnc 8 (8 * a) ++ List.replicate 8 0) := h1
  rw [List.append_nil, List.append_nil, beEnc_length] at h2
  rw [lenBlock, h1', ok_bind, h2, Nist.lens]

theorem lens_length (a c : Nat) : (Nist.lens a c).length = 16 := by rw [Nist.lens, List.length_append, beEnc_length, beEnc_length]

/-- `Finalize` hashes the padded rest and the length block. -/
theorem gh_finalize_ok {k0 k1 : BitVec 64} {y0 : BitVec 128} {t msg : List Byte} {g : Gh} {out : List Byte} (simd : Bool) (h : Absorbed k0 k1 y0 t msg g out) (ad txt : Nat) :
    ∃ buf, buf.length = 16 ∧ g.finalize simd out ad txt = .ok ({ g with buf := buf },
      acc (Nist.gstep (cat k0 k1) (eager 16 (Nist.gstep (cat k0 k1)) y0 (Nist.pad16 msg)).1 (Nist.lens ad txt)) t) := by
  obtain ⟨h0, h1, h2, ⟨rest, h7, h8⟩, h9⟩ := h
  rw [lazy_pad]
  have hrl : (lazy 16 (Nist.gstep (cat k0 k1)) y0 msg).2.length ≤ 16 := lazy_rest_le (by decide) _ _
  generalize lazy 16 (Nist.gstep (cat k0 k1)) y0 msg = z at *
  have hfin : ∀ (g' : Gh) (y : BitVec 128), g'.h0 = k0 → g'.h1 = k1 → g.last simd out = .ok (g', acc y t) →
      g.finalize simd out ad txt = .ok (g', acc (Nist.gstep (cat k0 k1) y (Nist.lens ad txt)) t) := by
    intro g' y e0 e1 hl
    rw [Gh.finalize, hl, ok_bind, lenBlock_ok, ok_bind]
    simp only []
    rw [block_at simd g' (Holds.self _) (lens_length ad txt), ok_bind, pure_eq_ok, e0, e1]
  by_cases hz : z.2 = []
  · rw [if_pos hz]
    refine ⟨g.buf, h8, hfin g z.1 h0 h1 ?_⟩
    rw [Gh.last, if_neg (by rw [h9, hz]; simp), h2]; rfl
  · rw [if_neg hz]
    have hp : 0 < z.2.length := List.length_pos_iff.mpr hz
    obtain ⟨buf, hb1, hb2, hb3⟩ : ∃ buf, buf.length = 16 ∧ Holds buf 0 z.2 ∧ (if g.pos ≠ 16 then clear g.buf g.pos (g.buf.length - g.pos) else pure g.buf) = .ok buf := by
      by_cases h16 : g.pos = 16
      · rw [if_neg (by omega)]
        exact ⟨g.buf, h8, ⟨[], rest, h7, rfl⟩, rfl⟩
      · rw [if_pos h16]
        have hrest : rest.length = 16 - z.2.length := by
          have := congrArg List.length h7; rw [List.length_append, h8] at this; omega
        refine ⟨z.2 ++ List.replicate (16 - z.2.length) 0, by simp; omega, ⟨[], _, rfl, rfl⟩, ?_⟩
        rw [clear, if_neg (by omega), h8, h7, h9]
        have := blit_at (a := z.2) (b := rest) (c := []) (s := List.replicate (16 - z.2.length) 0) rfl (by rw [List.length_replicate, hrest])
        simpa using this
    refine ⟨buf, hb1, hfin _ _ h0 h1 ?_⟩
    rw [Gh.last, if_pos (by omega), hb3, ok_bind, h2, h9]
    have hs := short_at simd { g with buf := buf } hb2 hz hrl z.1 t
    obtain ⟨o, e1, e2⟩ := bind_ok hs
    rw [e1, ok_bind, ← h9]
    show ({ g with buf := buf }.permute simd o >>= fun out => pure ({ g with buf := buf }, out)) = _
    rw [e2, ok_bind, pure_eq_ok]
    simp only [h0, h1]

/-- `Multiply` hashes the zero-padded input. -/
theorem multiply_ok (simd : Bool) (g : Gh) (inp t : List Byte) : ∀ (n : Nat) (m : List Byte) (io : Nat) (y : BitVec 128), m.length = n → Holds inp io m →
    g.multiply simd inp io n (acc y t) = .ok (acc (eager 16 (Nist.gstep (cat g.h0 g.h1)) y (Nist.pad16 m)).1 t) := by
  intro n
  induction n using Nat.strongRecOn with
  | ind n ih =>
    intro m io y hm hh
    rw [Gh.multiply]
    by_cases h : n = 0
    · rw [if_neg (by omega)]
      rw [List.eq_nil_of_length_eq_zero (hm.trans h), pad16_nil, eager_short (by simp)]
    · rw [if_pos h]
      have hmin : (m.take (min n 16)).length = min n 16 := by rw [List.length_take]; omega
      have hne : m.take (min n 16) ≠ [] := by intro e; rw [e] at hmin; simp at hmin; omega
      have hs := short_at simd g (hh.takeN (min n 16)) hne (by omega) y t
      rw [hmin] at hs
      obtain ⟨o, e1, e2⟩ := bind_ok hs
      simp only [e1, ok_bind, e2]
      rw [ih (n - min n 16) (by omega) (m.drop (min n 16)) (io + min n 16) _ (by rw [List.length_drop]; omega) (hh.dropN (by omega))]
      by_cases h16 : n ≤ 16
      · rw [Nat.min_eq_left h16, List.drop_of_length_le (by omega), pad16_nil, eager_short (by simp)]
        have e : m.take n = m := List.take_of_length_le (by omega)
        rw [Nat.min_eq_left h16, e] at hne
        rw [e, eager_one (by decide) (by rw [pad16_short hne (by omega), List.length_append, List.length_replicate]; omega)]
      · have e : min n 16 = 16 := by omega
        rw [e] at hmin hne ⊢
        conv => rhs; rw [← List.take_append_drop 16 m]
        rw [pad16_cons hmin, eager_cons (by decide) hmin]
        congr 3
        rw [pad16_short hne (by omega), hmin, Nat.sub_self]
        simp

/-- A string of one more block. -/
theorem eager_last {σ : Type} (step : σ → List Byte → σ) (s : σ) (m b : List Byte) (hm : m.length % 16 = 0) (hb : b.length = 16) :
    (eager 16 step s (m ++ b)).1 = step (eager 16 step s m).1 b := by
  rw [eager_pad_append _ _ _ _ hm, eager_one (by decide) hb]

/-! ## GHASH as a polynomial -/

theorem mod_mul_add (a c d : (ZMod 2)[X]) : (a %ₘ P * c + d) %ₘ P = (a * c + d) %ₘ P := by
  rw [add_modByMonic, add_modByMonic, mul_modByMonic, mul_modByMonic a c, (modByMonic_eq_self_iff P_monic).mpr (degree_modByMonic_lt a P_monic)]

theorem eager_poly (H : BitVec 128) : ∀ (n : ℕ) (m : List Byte) (y : BitVec 128), m.length = 16 * n →
    poly (eager 16 (Nist.gstep H) y m).1 = (poly y * poly H ^ n + ∑ i ∈ Finset.range n, poly (Nist.block m i) * poly H ^ (n - i)) %ₘ P
  | 0, m, y, h => by
    rw [eager_short (by omega)]; simp [poly_mod]
  | n + 1, m, y, h => by
    have hl : (m.take 16).length = 16 := by rw [List.length_take]; omega
    have e : (eager 16 (Nist.gstep H) y m).1 = (eager 16 (Nist.gstep H) (Nist.gstep H y (m.take 16)) (m.drop 16)).1 := by
      conv => lhs; rw [← List.take_append_drop 16 m]
      rw [eager_cons (by decide) hl]
    rw [e, eager_poly H n (m.drop 16) _ (by rw [List.length_drop]; omega), Nist.gstep, nist_mul, poly_xor, mod_mul_add, Finset.sum_range_succ']
    refine congrArg (· %ₘ P) ?_
    have hb : ∀ i, Nist.block (m.drop 16) i = Nist.block m (i + 1) := by
      intro i; rw [Nist.block, Nist.block, List.drop_drop]; congr 3; omega
    have h0 : Nist.block m 0 = blk (m.take 16) := by rw [Nist.block]; simp
    simp only [hb, h0, Nat.add_sub_add_right, Nat.sub_zero, pow_succ]
    ring

/-- GHASH is the polynomial with the blocks as coefficients, evaluated at the hash key. -/
theorem ghash_sum (H : BitVec 128) (m : List Byte) (n : ℕ) (hm : m.length = 16 * n) : poly (Nist.ghash H m) = Nist.hashSum H m n := by
  rw [Nist.ghash, eager_poly H n m 0 hm, poly_zero, zero_mul, zero_add, Nist.hashSum]

end Cex.Gcm
