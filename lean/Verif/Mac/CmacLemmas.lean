import Verif.Mac.CmacModel
import Verif.Mac.CmacSpec
import Verif.Modes.Lemmas
import Verif.IntTools.Enc
import Verif.Stream

/-! # CMAC engine lemmas -/

namespace Cex.Mac
open Cex Cex.Modes Cex.Stream Cex.Mac.Spec Cex.IntTools

/-! ## Doubling -/

theorem shl_byte (x : Byte) : ((x >>> 7) &&& (1 : Byte)).toNat * 256 + ((x <<< 1) ||| (0 : Byte)).toNat = 2 * x.toNat + 0 ∧
    ((x >>> 7) &&& (1 : Byte)).toNat * 256 + ((x <<< 1) ||| (1 : Byte)).toNat = 2 * x.toNat + 1 ∧
    (((x >>> 7) &&& (1 : Byte)) = 0 ∨ ((x >>> 7) &&& (1 : Byte)) = 1) := by
  revert x
  decide +kernel

theorem shl_arith {A o m b x y z : Nat} (h : A + o = 2 * m + b) (e : b * 256 + z = 2 * x + y) :
    A * 256 + (o * 256 + z) = 2 * (m * 256 + x) + y := by
  rw [← Nat.add_assoc, ← Nat.add_mul, h, Nat.add_mul, Nat.add_assoc, e, Nat.mul_assoc, Nat.mul_add, Nat.add_assoc]

theorem shiftLeftLoop_ok (inp post old : List Byte) (bit : Byte) (hb : bit = 0 ∨ bit = 1) :
    ∀ (m tail : List Byte), inp = m ++ tail → old.length = m.length → ∃ out c, out.length = m.length ∧ (c = 0 ∨ c = 1) ∧
      shiftLeftLoop inp m.length (old ++ post) bit = .ok (out ++ post, c) ∧
      c.toNat * 256 ^ m.length + beVal out = 2 * beVal m + bit.toNat := by
  intro m
  induction hn : m.length generalizing m post old bit with
  | zero =>
    intro tail h hl
    have hm : m = [] := List.eq_nil_of_length_eq_zero hn
    have ho : old = [] := List.eq_nil_of_length_eq_zero hl
    subst hm; subst ho
    exact ⟨[], bit, rfl, hb, rfl, by simp⟩
  | succ n ih =>
    intro tail h hl
    obtain ⟨m', x, rfl⟩ : ∃ m' x, m = m' ++ [x] := ⟨m.dropLast, m.getLast (by intro e; rw [e] at hn; cases hn), (List.dropLast_concat_getLast _).symm⟩
    obtain ⟨o', y, rfl⟩ : ∃ o' y, old = o' ++ [y] := ⟨old.dropLast, old.getLast (by intro e; rw [e] at hl; cases hl), (List.dropLast_concat_getLast _).symm⟩
    have hm' : m'.length = n := by simpa using hn
    have ho' : o'.length = n := by simpa using hl
    have hrd : rd inp n = .ok x := by rw [h, rd, ← hm']; simp
    have hwr : wr (o' ++ [y] ++ post) n ((x <<< 1) ||| bit) = .ok (o' ++ ([(x <<< 1) ||| bit] ++ post)) := by
      rw [wr, if_pos (by simp; omega), ← ho']; simp
    obtain ⟨s0, s1, s2⟩ := shl_byte x
    obtain ⟨out, c, h1, h2, h3, h4⟩ := ih ([(x <<< 1) ||| bit] ++ post) o' ((x >>> 7) &&& 1) s2 m' hm' ([x] ++ tail) (by rw [h]; simp) ho'
    refine ⟨out ++ [(x <<< 1) ||| bit], c, by simp [h1], h2, ?_, ?_⟩
    · rw [shiftLeftLoop, hrd, ok_bind, hwr, ok_bind, h3]; simp
    · rw [beVal_concat, beVal_concat, Nat.pow_succ]
      have e1 : ((x >>> 7) &&& 1).toNat * 256 + ((x <<< 1) ||| bit).toNat = 2 * x.toNat + bit.toNat := by
        rcases hb with rfl | rfl
        · exact s0
        · exact s1
      have e2 : c.toNat * (256 ^ n * 256) = (c.toNat * 256 ^ n) * 256 := by rw [Nat.mul_assoc]
      rw [e2]
      exact shl_arith h4 e1

theorem xor_low (a x k : Nat) (hx : x < 256) (hk : k < 256) : (a * 256 + x) ^^^ k = a * 256 + (x ^^^ k) := by
  have hxk : x ^^^ k < 2 ^ 8 := Nat.xor_lt_two_pow (by omega) (by omega)
  apply Nat.eq_of_testBit_eq
  intro i
  rw [Nat.testBit_xor, Nat.mul_comm a 256, show (256 : Nat) = 2 ^ 8 from rfl, Nat.testBit_two_pow_mul_add _ (by omega),
    Nat.testBit_two_pow_mul_add _ hxk]
  split
  · rw [Nat.testBit_xor]
  · rename_i h
    have : k.testBit i = false := Nat.testBit_lt_two_pow (Nat.lt_of_lt_of_le (by omega : k < 2 ^ 8) (Nat.pow_le_pow_right (by omega) (by omega)))
    rw [this, Bool.xor_false]

theorem doubleLu_ok (x : List Byte) (hx : x.length = 16) : doubleLu x (List.replicate 16 0) = .ok (dbl x) := by
  obtain ⟨out, c, h1, h2, h3, h4⟩ := shiftLeftLoop_ok x [] (List.replicate 16 0) 0 (Or.inl rfl) x [] (by simp) (by simp [hx])
  simp only [List.append_nil] at h3
  obtain ⟨o', y, rfl⟩ : ∃ o' y, out = o' ++ [y] := ⟨out.dropLast, out.getLast (by intro e; rw [e, hx] at h1; cases h1), (List.dropLast_concat_getLast _).symm⟩
  have ho : o'.length = 15 := by rw [hx] at h1; simpa using h1
  have hlast : ∀ v : Byte, (rd (o' ++ [y]) 15 >>= fun x => wr (o' ++ [y]) 15 (x ^^^ v)) = .ok (o' ++ [y ^^^ v]) := by
    intro v
    rw [rd, ← ho]; simp [wr]
  rw [hx] at h3
  rw [doubleLu, if_neg (by omega)]
  simp only [h3, ok_bind, hx]
  refine (hlast _).trans ?_
  have hlt := beVal_lt (o' ++ [y])
  rw [List.length_append, ho] at hlt
  rw [hx, show (0 : Byte).toNat = 0 from rfl, Nat.add_zero] at h4
  have hxlt := beVal_lt x
  rw [hx] at hxlt
  have hp : (256 : Nat) ^ 16 = 2 ^ 128 := by decide
  rw [hp] at h4 hxlt
  have hlt : beVal (o' ++ [y]) < 2 ^ 128 := by rw [← hp]; simpa using hlt
  rw [dbl]
  congr 1
  have hl : (o' ++ [y ^^^ (0x87 : Byte) >>> ((1 - c.toNat) <<< 3)]).length = 16 := by simp [ho]
  rcases h2 with rfl | rfl
  · have hv : beVal (o' ++ [y]) = 2 * beVal x := by simpa using h4
    have e : (0x87 : Byte) >>> ((1 - (0 : Byte).toNat) <<< 3) = 0 := by decide
    rw [e, show y ^^^ (0 : Byte) = y from BitVec.xor_zero, if_pos (by omega), ← hv]
    have := beEnc_beVal (o' ++ [y])
    rw [show (o' ++ [y]).length = 16 by simp [ho]] at this
    exact this.symm
  · have e : (0x87 : Byte) >>> ((1 - (1 : Byte).toNat) <<< 3) = 0x87 := by decide
    have h1v : (1 : Byte).toNat = 1 := by decide
    rw [h1v] at h4
    have hv : beVal (o' ++ [y]) = 2 * beVal x % 2 ^ 128 := by omega
    rw [e, if_neg (by omega), ← hv]
    have hvx : beVal (o' ++ [y ^^^ 0x87]) = beVal (o' ++ [y]) ^^^ 0x87 := by
      rw [beVal_concat, beVal_concat, xor_low _ _ _ y.isLt (by decide), BitVec.toNat_xor]; rfl
    rw [← hvx]
    have := beEnc_beVal (o' ++ [y ^^^ 0x87])
    rw [show (o' ++ [y ^^^ 0x87]).length = 16 by simp [ho]] at this
    exact this.symm

theorem dbl_length (x : List Byte) : (dbl x).length = 16 := by simp [dbl]

/-! ## Chaining -/

/-- One CBC-MAC step. -/
def mstep (E : List Byte → List Byte) (c b : List Byte) : List Byte := E (xorBytes c b)

theorem encBlock_ok (st : Cmac) (hE : ∀ b, b.length = 16 → (st.enc b).length = 16) (hs : st.state.length = 16) (hi : st.iv.length = 16)
    {inp b : List Byte} {io : Nat} (hb : Holds inp io b) (hl : b.length = 16) :
    st.encBlock inp io = .ok { st with iv := mstep st.enc st.iv b, state := mstep st.enc st.iv b } := by
  have h := cbcEncBlock_at ⟨st.enc, id⟩ hE (a := []) (old := st.state) (q := []) hb hl hi rfl hs
  simp only [List.nil_append, List.append_nil, List.length_nil] at h
  rw [Cmac.encBlock, h, ok_bind]
  rfl

theorem mstep_length {E : List Byte → List Byte} (hE : ∀ b, b.length = 16 → (E b).length = 16) {c b : List Byte}
    (hc : c.length = 16) (hb : b.length = 16) : (mstep E c b).length = 16 :=
  hE _ (by rw [xorBytes_length, hc, hb]; rfl)

theorem cmacLoop_ok (inp : List Byte) : ∀ (n : Nat) (m : List Byte) (io : Nat) (st : Cmac), m.length = n →
    (∀ b, b.length = 16 → (st.enc b).length = 16) → st.state.length = 16 → st.iv.length = 16 → Holds inp io m →
    ∃ io' s, s.length = 16 ∧ Holds inp io' (lazy 16 (mstep st.enc) st.iv m).2 ∧
      (lazy 16 (mstep st.enc) st.iv m).1.length = 16 ∧
      cmacLoop inp io n st = .ok ({ st with iv := (lazy 16 (mstep st.enc) st.iv m).1, state := s }, io',
        (lazy 16 (mstep st.enc) st.iv m).2.length) := by
  intro n
  induction n using Nat.strongRecOn with
  | ind n ih =>
    intro m io st hm hE hs hi hh
    rw [cmacLoop, lazy]
    by_cases h : 16 < n
    · rw [if_pos h, if_pos ⟨by omega, by omega⟩]
      have hm1 : (m.take 16).length = 16 := by rw [List.length_take]; omega
      have hh1 : Holds inp io (m.take 16) := by
        obtain ⟨a, q, e, ha⟩ := hh
        exact ⟨a, m.drop 16 ++ q, by rw [e]; simp only [List.append_assoc]; rw [← List.append_assoc (m.take 16), List.take_append_drop], ha⟩
      have hh2 : Holds inp (io + 16) (m.drop 16) := by
        obtain ⟨a, q, e, ha⟩ := hh
        exact ⟨a ++ m.take 16, q, by rw [e]; simp only [List.append_assoc]; rw [← List.append_assoc (m.take 16), List.take_append_drop],
          by rw [List.length_append, ha, hm1]⟩
      rw [encBlock_ok st hE hs hi hh1 hm1, ok_bind]
      have hl := mstep_length hE hi hm1
      obtain ⟨io', s, r1, r2, r3, r4⟩ := ih (n - 16) (by omega) (m.drop 16) (io + 16)
        { st with iv := mstep st.enc st.iv (m.take 16), state := mstep st.enc st.iv (m.take 16) } (by rw [List.length_drop]; omega) hE hl hl hh2
      exact ⟨io', s, r1, r2, r3, r4⟩
    · rw [if_neg h, if_neg (by omega)]
      exact ⟨io, st.state, hs, hh, hi, by rw [hm]⟩

/-- The streaming invariant: from chaining value `iv0` the instance has absorbed `msg`. -/
structure Absorbed (E : List Byte → List Byte) (msg : List Byte) (st : Cmac) : Prop where
  init : st.init = true
  enc : st.enc = E
  lu : st.lu = (dbl (E (List.replicate 16 0)), dbl (dbl (E (List.replicate 16 0))))
  state : st.state.length = 16
  chain : (lazy 16 (mstep E) (List.replicate 16 0) msg).1 = st.iv
  ivlen : st.iv.length = 16
  buf : ∃ rest, st.buf = (lazy 16 (mstep E) (List.replicate 16 0) msg).2 ++ rest ∧ st.buf.length = 16
  pos : st.pos = (lazy 16 (mstep E) (List.replicate 16 0) msg).2.length

theorem update_ok {E : List Byte → List Byte} (hE : ∀ b, b.length = 16 → (E b).length = 16) {msg : List Byte} {st : Cmac}
    (h : Absorbed E msg st) (inp : List Byte) (io : Nat) (x : List Byte) (hin : Holds inp io x) (hsz : inp.length < 2 ^ 64) :
    ∃ st', st.update inp io x.length = .ok st' ∧ Absorbed E (msg ++ x) st' := by
  obtain ⟨h1, h2, h3, h4, h5, h6, ⟨rest, h7, h8⟩, h9⟩ := h
  generalize hz : lazy 16 (mstep E) (List.replicate 16 0) msg = z at *
  have hrl : z.2.length ≤ 16 := by rw [← hz]; exact lazy_rest_le (by decide) _ _
  have hle := hin.le
  have hsub : ¬ subU inp.length io < x.length := by rw [subU_le (by omega) hsz]; omega
  rw [Cmac.update, if_neg (by simp [h1]), if_neg hsub]
  by_cases hx0 : x.length = 0
  · have : x = [] := List.eq_nil_of_length_eq_zero hx0
    subst this
    refine ⟨st, rfl, ⟨h1, h2, h3, h4, ?_, h6, ⟨rest, ?_, h8⟩, ?_⟩⟩ <;> rw [List.append_nil, hz] <;> assumption
  · rw [if_neg hx0]
    have hxne : x ≠ [] := fun e => hx0 (by rw [e]; rfl)
    -- state after the optional flush of a full buffer
    obtain ⟨st1, e1, i1, i2, i3, i4, i5, r1, b1, b2, b3, b4, b5⟩ : ∃ st1, st.flush = .ok st1 ∧ st1.init = true ∧ st1.enc = E ∧ st1.lu = st.lu ∧
        st1.state.length = 16 ∧ st1.iv.length = 16 ∧ ∃ r1 : List Byte, r1.length < 16 ∧ st1.pos = r1.length ∧
        (∃ rest, st1.buf = r1 ++ rest) ∧ st1.buf.length = 16 ∧
        lazy 16 (mstep E) (List.replicate 16 0) (msg ++ x) = lazy 16 (mstep E) st1.iv (r1 ++ x) := by
      rw [Cmac.flush]
      by_cases hp : st.pos = 16
      · rw [if_pos hp]
        have hz16 : z.2.length = 16 := by omega
        have hrest : rest = [] := by
          have := congrArg List.length h7
          rw [List.length_append, h8, hz16] at this
          exact List.eq_nil_of_length_eq_zero (by omega)
        rw [encBlock_ok st (by rw [h2]; exact hE) h4 h6 (Holds.self st.buf) h8, ok_bind]
        refine ⟨_, rfl, h1, h2, rfl, mstep_length (E := st.enc) (h2 ▸ hE) h6 h8, mstep_length (E := st.enc) (h2 ▸ hE) h6 h8, [], by decide,
          rfl, ⟨st.buf, rfl⟩, h8, ?_⟩
        rw [lazy_append, hz, lazy_cons (by decide) hz16 hxne, List.nil_append, h2]
        simp only []
        rw [h5, h7, hrest, List.append_nil]
      · rw [if_neg hp]
        refine ⟨st, rfl, h1, h2, rfl, h4, h6, z.2, by omega, h9, ⟨rest, h7⟩, h8, ?_⟩
        rw [lazy_append, hz, h5]
    obtain ⟨rest1, b3⟩ := b3
    rw [e1, ok_bind, if_neg (by omega)]
    have hrest1 : rest1.length = 16 - r1.length := by
      have := congrArg List.length b3; rw [List.length_append, b4] at this; omega
    by_cases hlong : 16 - st1.pos < x.length
    · rw [Cmac.fill, if_pos hlong]
      have hrmd : 16 - st1.pos = 16 - r1.length := by omega
      have ht : (x.take (16 - r1.length)).length = 16 - r1.length := by rw [List.length_take]; omega
      have hc : copy inp io st1.buf st1.pos (16 - st1.pos) = .ok (r1 ++ x.take (16 - r1.length)) := by
        rw [b3, b2]
        have := copy_at (a := r1) (b := rest1) (c := []) (Holds.takeN (16 - r1.length) hin) rfl ht.symm (by omega)
        simpa using this
      have hbl : (r1 ++ x.take (16 - r1.length)).length = 16 := by rw [List.length_append, ht]; omega
      have henc := encBlock_ok { st1 with buf := r1 ++ x.take (16 - r1.length) } (by rw [i2]; exact hE) i4 i5 (Holds.self _) hbl
      have hml := mstep_length (E := st1.enc) (by rw [i2]; exact hE) i5 hbl
      have hd : (x.drop (16 - r1.length)).length = x.length - (16 - r1.length) := List.length_drop
      have hdne : x.drop (16 - r1.length) ≠ [] := by
        intro e; rw [e] at hd; simp at hd; omega
      obtain ⟨io', s, q1, q2, q3, q4⟩ := cmacLoop_ok inp (x.length - (16 - r1.length)) (x.drop (16 - r1.length)) (io + (16 - r1.length))
        { st1 with buf := r1 ++ x.take (16 - r1.length), iv := mstep st1.enc st1.iv (r1 ++ x.take (16 - r1.length)),
                   state := mstep st1.enc st1.iv (r1 ++ x.take (16 - r1.length)), pos := 0 }
        hd (by rw [i2]; exact hE) hml hml (Holds.dropN hin (by omega))
      rw [hc]
      simp only [ok_bind, henc]
      rw [hrmd, q4]
      simp only [ok_bind]
      have hl2 : lazy 16 (mstep E) (List.replicate 16 0) (msg ++ x) =
          lazy 16 (mstep E) (mstep E st1.iv (r1 ++ x.take (16 - r1.length))) (x.drop (16 - r1.length)) := by
        rw [b5]
        conv => lhs; rw [← List.take_append_drop (16 - r1.length) x, ← List.append_assoc]
        rw [lazy_cons (by decide) hbl hdne]
      simp only [i2] at q2 q3 ⊢
      generalize hw : lazy 16 (mstep E) (mstep E st1.iv (r1 ++ x.take (16 - r1.length))) (x.drop (16 - r1.length)) = w at *
      have hwne : w.2 ≠ [] := by rw [← hw]; exact lazy_rest_ne _ _ hdne
      have hwl : w.2.length ≤ 16 := by rw [← hw]; exact lazy_rest_le (by decide) _ _
      have hwp : 0 < w.2.length := List.length_pos_iff.mpr hwne
      rw [Cmac.store, if_pos hwp]
      have hc2 := copy_at (a := []) (b := (r1 ++ x.take (16 - r1.length)).take w.2.length)
        (c := (r1 ++ x.take (16 - r1.length)).drop w.2.length) (off := 0) q2 rfl rfl (by rw [List.length_take]; omega)
      rw [List.nil_append, List.nil_append, List.take_append_drop] at hc2
      rw [hc2, ok_bind]
      refine ⟨_, rfl, ⟨i1, rfl, i3 ▸ h3, q1, by rw [hl2], q3, ⟨_, by rw [hl2], ?_⟩, by rw [hl2, Nat.zero_add]⟩⟩
      simp only [List.length_append, List.length_drop] at hbl ⊢
      omega
    · rw [Cmac.fill, if_neg hlong, pure_eq_ok, ok_bind, Cmac.store, if_pos (by show 0 < x.length; omega)]
      simp only []
      have hc : copy inp io st1.buf st1.pos x.length = .ok (r1 ++ x ++ rest1.drop x.length) := by
        rw [b3, b2]
        have := copy_at (a := r1) (b := rest1.take x.length) (c := rest1.drop x.length) hin rfl rfl (by rw [List.length_take]; omega)
        rw [List.append_assoc, List.take_append_drop] at this
        exact this
      rw [hc, ok_bind]
      have hl2 : lazy 16 (mstep E) (List.replicate 16 0) (msg ++ x) = (st1.iv, r1 ++ x) := by
        rw [b5, lazy_short (by rw [List.length_append]; omega)]
      refine ⟨_, rfl, ⟨i1, i2, i3 ▸ h3, i4, by rw [hl2], i5, ⟨_, by rw [hl2], ?_⟩, by rw [hl2, List.length_append, ← b2]⟩⟩
      simp only [List.length_append, List.length_drop]
      omega

/-! ## Finalisation -/

theorem cmacPad_ok (r rest : List Byte) (hl : (r ++ rest).length = 16) (hr : r.length < 16) :
    cmacPad (r ++ rest) r.length 16 = .ok (r ++ 0x80 :: List.replicate (15 - r.length) 0) := by
  rw [cmacPad, if_pos (by omega)]
  obtain ⟨y, rest', rfl⟩ : ∃ y rest', rest = y :: rest' := by
    cases rest with
    | nil => simp at hl; omega
    | cons y r => exact ⟨y, r, rfl⟩
  have hw : wr (r ++ y :: rest') r.length 0x80 = .ok (r ++ 0x80 :: rest') := by
    rw [wr, if_pos (by simp)]; simp
  rw [hw, ok_bind]
  have hr' : rest'.length = 15 - r.length := by simp at hl; omega
  obtain ⟨b, h1, h2⟩ := loopN_inv (f := fun i b => wr b i (0 : Byte))
    (fun i b => b = r ++ 0x80 :: (List.replicate (i - (r.length + 1)) 0 ++ rest'.drop (i - (r.length + 1)))) (16 - (r.length + 1)) (r.length + 1)
    (r ++ 0x80 :: rest') (by
      intro j s hj1 hj2 hs
      have hjl : j - (r.length + 1) < rest'.length := by omega
      refine ⟨_, wr_ok _ (by rw [hs]; simp; omega), ?_⟩
      rw [hs, show j + 1 - (r.length + 1) = (j - (r.length + 1)) + 1 by omega]
      rw [List.drop_eq_getElem_cons hjl]
      have e : j = (r ++ (0x80 : Byte) :: List.replicate (j - (r.length + 1)) 0).length := by simp; omega
      conv => lhs; rw [show r ++ (0x80 : Byte) :: (List.replicate (j - (r.length + 1)) 0 ++ rest'[j - (r.length + 1)] :: rest'.drop (j - (r.length + 1) + 1)) =
        (r ++ (0x80 : Byte) :: List.replicate (j - (r.length + 1)) 0) ++ rest'[j - (r.length + 1)] :: rest'.drop (j - (r.length + 1) + 1) by simp]
      rw [List.set_append]
      have hn : ¬ j < (r ++ (0x80 : Byte) :: List.replicate (j - (r.length + 1)) 0).length := by omega
      rw [if_neg hn, show j - (r ++ (0x80 : Byte) :: List.replicate (j - (r.length + 1)) 0).length = 0 by omega, List.set_cons_zero,
        List.replicate_succ']
      simp) (by simp)
  rw [h1, h2, show r.length + 1 + (16 - (r.length + 1)) - (r.length + 1) = 15 - r.length by omega, List.drop_of_length_le (by omega), List.append_nil]

theorem finalize_ok {E : List Byte → List Byte} (hE : ∀ b, b.length = 16 → (E b).length = 16) {msg : List Byte} {st : Cmac}
    (h : Absorbed E msg st) (pre junk post : List Byte) (hj : junk.length = 16) (hsz : (pre ++ junk ++ post).length < 2 ^ 64) :
    ∃ st', st.finalize (pre ++ junk ++ post) pre.length = .ok (st', pre ++ cmac E msg ++ post) := by
  obtain ⟨h1, h2, h3, h4, h5, h6, ⟨rest, h7, h8⟩, h9⟩ := h
  have hcm : cmac E msg = cmacLast E st.iv (lazy 16 (mstep E) (List.replicate 16 0) msg).2 := by
    rw [← h5, cmac]
    generalize List.replicate 16 (0 : Byte) = c0
    clear h3 h5 h7 h9
    induction c0, msg using lazy.induct 16 (mstep E) with
    | case1 s m hh ih => rw [cmacFrom, if_pos hh.2, lazy, if_pos hh]; exact ih
    | case2 s m hh => rw [cmacFrom, if_neg (by omega), lazy, if_neg hh]
  rw [hcm]
  generalize hz : lazy 16 (mstep E) (List.replicate 16 0) msg = z at *
  have hrl : z.2.length ≤ 16 := by rw [← hz]; exact lazy_rest_le (by decide) _ _
  have hl := dbl_length
  have hsub : ¬ subU (pre ++ junk ++ post).length pre.length < 16 := by
    rw [subU_le (by simp) hsz]; simp; omega
  rw [Cmac.finalize, if_neg (by simp [h1]), if_neg hsub]
  have hE0 := hE (List.replicate 16 0) (by simp)
  -- the masked last block
  obtain ⟨lastb, hll, hpad, hspec⟩ : ∃ lastb : List Byte, lastb.length = 16 ∧
      cmacMask st = .ok lastb ∧
      cmacLast E st.iv z.2 = mstep E st.iv lastb := by
    by_cases hp : z.2.length = 16
    · have hrest : rest = [] := by
        have := congrArg List.length h7
        rw [List.length_append, h8, hp] at this
        exact List.eq_nil_of_length_eq_zero (by omega)
      have hbz : st.buf = z.2 := by rw [h7, hrest, List.append_nil]
      have hx := xorInto_at (a := []) (c := []) (d := st.buf) (off := 0) (n := 16) (Holds.self st.lu.1) rfl (by rw [h3]; simp [hl]) (by rw [h3, h8]; simp [hl])
      refine ⟨xorBytes st.buf st.lu.1, by rw [xorBytes_length, h8, h3]; simp [hl], ?_, ?_⟩
      · rw [cmacMask, cmacPad, if_neg (by omega), pure_eq_ok, ok_bind]
        rw [if_neg (by omega)]
        simpa using hx
      · simp only [cmacLast, if_pos hp, mstep, h3, hbz]
    · have hlt : z.2.length < 16 := by omega
      have hpd := cmacPad_ok z.2 rest (by rw [← h7]; exact h8) hlt
      have hpl : (z.2 ++ 0x80 :: List.replicate (15 - z.2.length) (0 : Byte)).length = 16 := by simp; omega
      have hx := xorInto_at (a := []) (c := []) (d := z.2 ++ 0x80 :: List.replicate (15 - z.2.length) (0 : Byte)) (off := 0) (n := 16)
        (Holds.self st.lu.2) rfl (by rw [h3]; simp [hl]) (by rw [h3, hpl]; simp [hl])
      refine ⟨xorBytes (z.2 ++ 0x80 :: List.replicate (15 - z.2.length) (0 : Byte)) st.lu.2, by rw [xorBytes_length, hpl, h3]; simp [hl], ?_, ?_⟩
      · rw [cmacMask, h8, h9, h7, hpd, ok_bind]
        rw [if_pos hp]
        simpa using hx
      · simp only [cmacLast, if_neg hp, mstep, h3]
  have henc := encBlock_ok { st with buf := lastb } (by rw [h2]; exact hE) h4 h6 (Holds.self lastb) hll
  have hml := mstep_length (E := E) hE h6 hll
  have hcopy := copy_at (a := pre) (b := junk) (c := post) (Holds.self (mstep E st.iv lastb)) rfl hml.symm (by omega)
  refine ⟨{ st with buf := lastb, iv := mstep st.enc st.iv lastb, state := mstep st.enc st.iv lastb }, ?_⟩
  rw [hpad]
  simp only [ok_bind, henc]
  rw [h2, hcopy, hspec]
  rfl

/-! ## Initialisation -/

/-- What every reachable instance satisfies. -/
structure Cmac.Wf (st : Cmac) : Prop where
  buf : st.buf.length = 16
  state : st.state.length = 16
  iv : st.iv.length = 16
  pos : st.init = false → st.pos = 0

theorem reset_ok (st : Cmac) (h : st.Wf) : st.reset = .ok { st with iv := List.replicate 16 0, buf := List.replicate 16 0, state := List.replicate 16 0, pos := 0, init := false, lu := ([], []) } := by
  have hi := clear_whole st.iv
  rw [h.iv] at hi
  rw [Cmac.reset, hi, clear_whole, clear_whole, h.buf, h.state]
  rfl

theorem initialize_ok (st : Cmac) (h : st.Wf) (E : List Byte → List Byte) (hE : ∀ b, b.length = 16 → (E b).length = 16) :
    ∃ st', st.initialize true E = .ok st' ∧ Absorbed E [] st' := by
  have hr : ∃ st1 : Cmac, (if st.init then st.reset else pure st : M Cmac) = .ok st1 ∧ st1.pos = 0 ∧ st1.buf.length = 16 ∧ st1.state.length = 16 := by
    by_cases hi : st.init = true
    · rw [if_pos hi, reset_ok st h]; exact ⟨_, rfl, rfl, by simp, by simp⟩
    · rw [if_neg hi]; exact ⟨st, rfl, h.pos (by simpa using hi), h.buf, h.state⟩
  obtain ⟨st1, e1, p1, p2, p3⟩ := hr
  have hci : cbcInit (List.replicate 16 0) = .ok (List.replicate 16 0) := by decide
  have hb := cbcEncBlock_at ⟨E, id⟩ hE (a := []) (old := List.replicate 16 0) (q := []) (io := 0) (oo := 0) (Holds.self (List.replicate 16 (0 : Byte))) (by simp)
    (iv := List.replicate 16 0) (by simp) rfl (by simp)
  simp only [List.nil_append, List.append_nil] at hb
  have hx : xorBytes (List.replicate 16 (0 : Byte)) (List.replicate 16 0) = List.replicate 16 0 := by decide
  have hE0 := hE (List.replicate 16 0) (by simp)
  have hd1 := doubleLu_ok (E (List.replicate 16 0)) hE0
  have hd2 := doubleLu_ok (dbl (E (List.replicate 16 0))) (dbl_length _)
  have hcall : st.initialize true E = .ok { st1 with enc := E, lu := (dbl (E (List.replicate 16 0)), dbl (dbl (E (List.replicate 16 0)))), iv := List.replicate 16 0, init := true } := by
    rw [Cmac.initialize, if_neg (by decide), e1]
    simp only [ok_bind, hci, hb, cbcEncStep, hx, hd1, hd2]
    rfl
  refine ⟨_, hcall, ?_⟩
  · refine ⟨rfl, rfl, rfl, p3, ?_, by simp, ⟨st1.buf, ?_, p2⟩, ?_⟩
    · rw [lazy_short (by simp)]
    · rw [lazy_short (by simp)]; rfl
    · rw [lazy_short (by simp)]; exact p1

end Cex.Mac
