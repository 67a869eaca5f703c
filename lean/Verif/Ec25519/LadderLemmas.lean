import Verif.Ec25519.BytesLemmas
import Mathlib.Data.Int.ModEq

/-!
# The inversion and the ladder of the 32-bit path
-/

namespace Cex.Ec25519

/-- a carried element that stands for `n` -/
def F10.Rep (k : Nat) (f : F10) (n : Int) : Prop := f.Bd k ∧ f.val ≡ n [ZMOD P]

theorem modEq_of {v n c : Int} (h : v = n - c * P) : v ≡ n [ZMOD P] := by
  rw [h]; exact (Int.modEq_iff_dvd.mpr ⟨c, by ring⟩)

theorem F10.Rep.mul {f g : F10} {j k : Nat} {a b : Int} (hf : f.Rep j a) (hg : g.Rep k b) (hj : j ≤ 3) (hk : k ≤ 3) :
    ∃ r, f.mul g = .ok r ∧ r.Rep 1 (a * b) := by
  obtain ⟨r, e, h, c, hv⟩ := F10.mul_ok (hf.1.mono hj) (hg.1.mono hk)
  exact ⟨r, e, h, (modEq_of hv).trans (hf.2.mul hg.2)⟩

theorem F10.Rep.sq {f : F10} {j : Nat} {a : Int} (hf : f.Rep j a) (hj : j ≤ 3) : ∃ r, f.sq = .ok r ∧ r.Rep 1 (a * a) := by
  obtain ⟨r, e, h, c, hv⟩ := F10.sq_ok (hf.1.mono hj)
  exact ⟨r, e, h, (modEq_of hv).trans (hf.2.mul hf.2)⟩

theorem F10.Rep.add {f g : F10} {j k : Nat} {a b : Int} (hf : f.Rep j a) (hg : g.Rep k b) (h : j + k ≤ 3) :
    ∃ r, f.add g = .ok r ∧ r.Rep (j + k) (a + b) := by
  obtain ⟨r, e, h, hv⟩ := F10.add_ok hf.1 hg.1 h
  exact ⟨r, e, h, by rw [hv]; exact hf.2.add hg.2⟩

theorem F10.Rep.sub {f g : F10} {j k : Nat} {a b : Int} (hf : f.Rep j a) (hg : g.Rep k b) (h : j + k ≤ 3) :
    ∃ r, f.sub g = .ok r ∧ r.Rep (j + k) (a - b) := by
  obtain ⟨r, e, h, hv⟩ := F10.sub_ok hf.1 hg.1 h
  exact ⟨r, e, h, by rw [hv]; exact hf.2.sub hg.2⟩

theorem F10.Rep.mul32 {f : F10} {j : Nat} {a : Int} (hf : f.Rep j a) (hj : j ≤ 2) : ∃ r, f.mul32 121666 = .ok r ∧ r.Rep 1 (121666 * a) := by
  obtain ⟨r, e, h, c, hv⟩ := F10.mul32_ok (hf.1.mono hj)
  exact ⟨r, e, h, (modEq_of hv).trans (hf.2.mul_left _)⟩

theorem F10.Rep.congr {f : F10} {j : Nat} {a b : Int} (hf : f.Rep j a) (h : a ≡ b [ZMOD P]) : f.Rep j b := ⟨hf.1, hf.2.trans h⟩

theorem F10.Rep.toBytes {W : Nat} (hW : W = 32 ∨ W = 64) {f : F10} {n : Nat} (hf : f.Rep 1 n) (hn : n < P) {s : List Byte} (hs : s.length = 32) :
    f.toBytes W s = .ok (leEnc 32 n) := by
  obtain ⟨t, e, hc, c, hv, h0, h1⟩ := F10.reduce_ok hW hf.1
  have hT : t.val = n := by
    have a : t.val ≡ n [ZMOD P] := (modEq_of hv).trans hf.2
    rw [Int.ModEq, Int.emod_eq_of_lt h0 h1, Int.emod_eq_of_lt (by omega) (by omega)] at a
    exact a
  have hb := F10.bytes_ok hc
  have hl : t.bytes.length = 32 := rfl
  rw [F10.toBytes, e, ok_bind, blit_ok (by omega), hb, hT]
  simp [hs, leEnc_length]

/-- a carried element that stands for a power of `x` -/
def F10.Pw (x : Int) (e : Nat) (f : F10) : Prop := f.Rep 1 (x ^ e)

theorem F10.Pw.mul {x : Int} {f g : F10} {a b : Nat} (hf : f.Pw x a) (hg : g.Pw x b) : ∃ r, f.mul g = .ok r ∧ r.Pw x (a + b) := by
  obtain ⟨r, e, h⟩ := F10.Rep.mul hf hg (by decide) (by decide)
  exact ⟨r, e, by rw [F10.Pw, pow_add]; exact h⟩

theorem F10.Pw.sq {x : Int} {f : F10} {a : Nat} (hf : f.Pw x a) : ∃ r, f.sq = .ok r ∧ r.Pw x (a * 2) := by
  obtain ⟨r, e, h⟩ := F10.Rep.sq hf (by decide)
  exact ⟨r, e, by rw [F10.Pw, pow_mul, pow_two]; exact h⟩

theorem F10.Pw.sqn {x : Int} {f : F10} {a : Nat} (hf : f.Pw x a) (n : Nat) : ∃ r, f.sqn n = .ok r ∧ r.Pw x (a * 2 ^ n) := by
  obtain ⟨r, e, h⟩ := loopN_inv (f := fun _ t => F10.sq t) (fun i (r : F10) => r.Pw x (a * 2 ^ (i - 1))) n 1 f
    (fun j s hj _ hs => by
      obtain ⟨r, e, h⟩ := hs.sq
      refine ⟨r, e, ?_⟩
      rw [show j + 1 - 1 = j - 1 + 1 from by omega, Nat.pow_succ, ← Nat.mul_assoc]; exact h)
    (by rw [show 1 - 1 = 0 from rfl, Nat.pow_zero, Nat.mul_one]; exact hf)
  exact ⟨r, e, by rw [show 1 + n - 1 = n from by omega] at h; exact h⟩

theorem F10.invert_ok {z : F10} {x : Int} (hz : z.Rep 3 x) : ∃ r, z.invert = .ok r ∧ r.Rep 1 (x ^ (P - 2)) := by
  obtain ⟨t0, e0, h0⟩ : ∃ r, z.sq = .ok r ∧ r.Pw x (1 * 2) := by
    obtain ⟨r, e, h⟩ := hz.sq (by decide)
    exact ⟨r, e, by rw [F10.Pw, one_mul, pow_two]; exact h⟩
  obtain ⟨t1, e1, h1⟩ := h0.sq
  obtain ⟨t2, e2, h2⟩ := h1.sq
  obtain ⟨t3, e3, h3⟩ : ∃ r, z.mul t2 = .ok r ∧ r.Pw x (1 + 1 * 2 * 2 * 2) := by
    obtain ⟨r, e, h⟩ := hz.mul h2 (by decide) (by decide)
    exact ⟨r, e, by rw [F10.Pw, pow_add, pow_one]; exact h⟩
  obtain ⟨t4, e4, h4⟩ := h0.mul h3
  obtain ⟨t5, e5, h5⟩ := h4.sq
  obtain ⟨t6, e6, h6⟩ := h3.mul h5
  obtain ⟨t7, e7, h7⟩ := h6.sq
  obtain ⟨t8, e8, h8⟩ := h7.sqn 4
  obtain ⟨t9, e9, h9⟩ := h8.mul h6
  obtain ⟨t10, e10, h10⟩ := h9.sq
  obtain ⟨t11, e11, h11⟩ := h10.sqn 9
  obtain ⟨t12, e12, h12⟩ := h11.mul h9
  obtain ⟨t13, e13, h13⟩ := h12.sq
  obtain ⟨t14, e14, h14⟩ := h13.sqn 19
  obtain ⟨t15, e15, h15⟩ := h14.mul h12
  obtain ⟨t16, e16, h16⟩ := h15.sqn 10
  obtain ⟨t17, e17, h17⟩ := h16.mul h9
  obtain ⟨t18, e18, h18⟩ := h17.sq
  obtain ⟨t19, e19, h19⟩ := h18.sqn 49
  obtain ⟨t20, e20, h20⟩ := h19.mul h17
  obtain ⟨t21, e21, h21⟩ := h20.sq
  obtain ⟨t22, e22, h22⟩ := h21.sqn 99
  obtain ⟨t23, e23, h23⟩ := h22.mul h20
  obtain ⟨t24, e24, h24⟩ := h23.sqn 50
  obtain ⟨t25, e25, h25⟩ := h24.mul h17
  obtain ⟨t26, e26, h26⟩ := h25.sqn 5
  obtain ⟨t27, e27, h27⟩ := h26.mul h4
  refine ⟨t27, ?_, ?_⟩
  · rw [F10.invert, e0, ok_bind, e1, ok_bind, e2, ok_bind, e3, ok_bind, e4, ok_bind, e5, ok_bind, e6, ok_bind, e7, ok_bind, e8, ok_bind,
      e9, ok_bind, e10, ok_bind, e11, ok_bind, e12, ok_bind, e13, ok_bind, e14, ok_bind, e15, ok_bind, e16, ok_bind, e17, ok_bind, e18, ok_bind,
      e19, ok_bind, e20, ok_bind, e21, ok_bind, e22, ok_bind, e23, ok_bind, e24, ok_bind, e25, ok_bind, e26, ok_bind, e27]
  · have : ∀ {e : Nat}, t27.Pw x e → e = P - 2 → t27.Rep 1 (x ^ (P - 2)) := fun h he => by rw [← he]; exact h
    exact this h27 (by norm_num [P])

theorem P_pos : 0 < P := by decide

theorem cast_mod (a : Nat) : ((a % P : Nat) : Int) ≡ a [ZMOD P] := by
  rw [Int.natCast_mod]; exact Int.mod_modEq _ _

theorem cast_fmul (a b : Nat) : ((fmul a b : Nat) : Int) ≡ a * b [ZMOD P] := by
  have := cast_mod (a * b); rwa [Int.natCast_mul] at this

theorem cast_fadd (a b : Nat) : ((fadd a b : Nat) : Int) ≡ a + b [ZMOD P] := by
  have := cast_mod (a + b); rwa [Int.natCast_add] at this

theorem cast_fsub (a b : Nat) : ((fsub a b : Nat) : Int) ≡ a - b [ZMOD P] := by
  have h := cast_mod (a + (P - b % P))
  have l : b % P ≤ P := Nat.le_of_lt (Nat.mod_lt _ P_pos)
  rw [Int.natCast_add, Int.natCast_sub l] at h
  refine h.trans ?_
  have c := cast_mod b
  have : (a : Int) + ((P : Int) - ((b % P : Nat) : Int)) ≡ a + (P - b) [ZMOD P] := ((Int.ModEq.refl _).sub c).add_left _
  exact this.trans (Int.modEq_iff_dvd.mpr ⟨-1, by ring⟩)

/-- the four coordinates of the code stand for those of the specification -/
structure Vars.Rep (v : Vars F10) (s : Lad × Bool) : Prop where
  x2 : v.x2.Rep 1 s.1.x2
  z2 : v.z2.Rep 1 s.1.z2
  x3 : v.x3.Rep 1 s.1.x3
  z3 : v.z3.Rep 1 s.1.z3
  swap : v.swap = if s.2 then 1 else 0

theorem cSwap_rep {f g : F10} {a b : Int} (hf : f.Rep 1 a) (hg : g.Rep 1 b) (s : Bool) :
    f.cSwap g (if s then 1 else 0) = if s then (g, f) else (f, g) := by
  cases s
  · exact F10.cSwap_zero (hf.1.mono (by decide)) (hg.1.mono (by decide))
  · exact F10.cSwap_one (hf.1.mono (by decide)) (hg.1.mono (by decide))

theorem swap_xor (a b : Bool) : ((if a then 1 else 0 : BitVec 32) ^^^ (if b then 1 else 0)) = if a ^^ b then 1 else 0 := by
  cases a <;> cases b <;> rfl

theorem turn_ok {q : List Byte} {x1 : F10} {u k : Nat} {v : Vars F10} {s : Lad × Bool} {pos : Nat} (h1 : x1.Rep 1 u) (hv : v.Rep s)
    (hb : ∃ y, rd q (pos / 8) = .ok y ∧ (((y.setWidth 32 : BitVec 32) >>> (pos % 8)) &&& 1) = if k.testBit pos then 1 else 0) :
    ∃ w, turn32 q x1 pos v = .ok w ∧ w.Rep (Lad.turn k u pos s) := by
  obtain ⟨y, hy, hb⟩ := hb
  obtain ⟨r, sw⟩ := s
  have hs := hv.swap
  dsimp only at hs
  obtain ⟨c, hc⟩ : ∃ c, c = (sw ^^ k.testBit pos) := ⟨_, rfl⟩
  obtain ⟨a, ha⟩ : ∃ a : Lad, a = r.swap c := ⟨_, rfl⟩
  obtain ⟨x2, hx2⟩ : ∃ x, x = if c then v.x3 else v.x2 := ⟨_, rfl⟩
  obtain ⟨x3, hx3⟩ : ∃ x, x = if c then v.x2 else v.x3 := ⟨_, rfl⟩
  obtain ⟨z2, hz2⟩ : ∃ x, x = if c then v.z3 else v.z2 := ⟨_, rfl⟩
  obtain ⟨z3, hz3⟩ : ∃ x, x = if c then v.z2 else v.z3 := ⟨_, rfl⟩
  have e1 : v.x2.cSwap v.x3 (if c then 1 else 0) = (x2, x3) := by
    rw [cSwap_rep hv.x2 hv.x3, hx2, hx3]; cases c <;> rfl
  have e2 : v.z2.cSwap v.z3 (if c then 1 else 0) = (z2, z3) := by
    rw [cSwap_rep hv.z2 hv.z3, hz2, hz3]; cases c <;> rfl
  have p2 : x2.Rep 1 a.x2 := by rw [hx2, ha]; cases c <;> [exact hv.x2; exact hv.x3]
  have p3 : x3.Rep 1 a.x3 := by rw [hx3, ha]; cases c <;> [exact hv.x3; exact hv.x2]
  have q2 : z2.Rep 1 a.z2 := by rw [hz2, ha]; cases c <;> [exact hv.z2; exact hv.z3]
  have q3 : z3.Rep 1 a.z3 := by rw [hz3, ha]; cases c <;> [exact hv.z3; exact hv.z2]
  have ht : Lad.turn k u pos (r, sw) = (a.step u, k.testBit pos) := by rw [Lad.turn, ha, hc]
  rw [ht]
  clear hx2 hx3 hz2 hz3 ht ha
  obtain ⟨fa, g1, A⟩ := p2.add q2 (by decide)
  obtain ⟨fb, g2, B⟩ := p2.sub q2 (by decide)
  obtain ⟨faa, g3, AA⟩ := A.sq (by decide)
  obtain ⟨fbb, g4, BB⟩ := B.sq (by decide)
  obtain ⟨nx2, g5, X2⟩ := AA.mul BB (by decide) (by decide)
  obtain ⟨fe, g6, E⟩ := AA.sub BB (by decide)
  obtain ⟨d1, g7, D⟩ := p3.sub q3 (by decide)
  obtain ⟨da, g8, DA⟩ := D.mul A (by decide) (by decide)
  obtain ⟨c1, g9, C⟩ := p3.add q3 (by decide)
  obtain ⟨cb, g10, CB⟩ := C.mul B (by decide) (by decide)
  obtain ⟨s1, g11, S⟩ := DA.add CB (by decide)
  obtain ⟨nx3, g12, X3⟩ := S.sq (by decide)
  obtain ⟨s2, g13, T⟩ := DA.sub CB (by decide)
  obtain ⟨s3, g14, TT⟩ := T.sq (by decide)
  obtain ⟨nz3, g15, Z3⟩ := TT.mul h1 (by decide) (by decide)
  obtain ⟨m1, g16, M1⟩ := E.mul32 (by decide)
  obtain ⟨m2, g17, M2⟩ := M1.add BB (by decide)
  obtain ⟨nz2, g18, Z2⟩ := M2.mul E (by decide) (by decide)
  refine ⟨⟨nx2, nz2, nx3, nz3, if k.testBit pos then 1 else 0⟩, ?_, ?_⟩
  · rw [turn32, hy, ok_bind]
    dsimp only
    rw [hb, hs, swap_xor, ← hc, e1, e2]
    dsimp only
    rw [g1, ok_bind, g2, ok_bind, g3, ok_bind, g4, ok_bind, g5, ok_bind, g6, ok_bind, g7, ok_bind, g8, ok_bind, g9, ok_bind, g10, ok_bind,
      g11, ok_bind, g12, ok_bind, g13, ok_bind, g14, ok_bind, g15, ok_bind, g16, ok_bind, g17, ok_bind, g18, ok_bind]
    rfl
  · have kA := cast_fadd a.x2 a.z2
    have kB := cast_fsub a.x2 a.z2
    have kC := cast_fadd a.x3 a.z3
    have kD := cast_fsub a.x3 a.z3
    have kAA := (cast_fmul (fadd a.x2 a.z2) (fadd a.x2 a.z2)).trans (kA.mul kA)
    have kBB := (cast_fmul (fsub a.x2 a.z2) (fsub a.x2 a.z2)).trans (kB.mul kB)
    have kE := (cast_fsub (fmul (fadd a.x2 a.z2) (fadd a.x2 a.z2)) (fmul (fsub a.x2 a.z2) (fsub a.x2 a.z2))).trans (kAA.sub kBB)
    have kDA := (cast_fmul (fsub a.x3 a.z3) (fadd a.x2 a.z2)).trans (kD.mul kA)
    have kCB := (cast_fmul (fadd a.x3 a.z3) (fsub a.x2 a.z2)).trans (kC.mul kB)
    have kS := (cast_fadd (fmul (fsub a.x3 a.z3) (fadd a.x2 a.z2)) (fmul (fadd a.x3 a.z3) (fsub a.x2 a.z2))).trans (kDA.add kCB)
    have kT := (cast_fsub (fmul (fsub a.x3 a.z3) (fadd a.x2 a.z2)) (fmul (fadd a.x3 a.z3) (fsub a.x2 a.z2))).trans (kDA.sub kCB)
    refine ⟨X2.congr ?_, Z2.congr ?_, X3.congr ?_, Z3.congr ?_, rfl⟩
    · exact ((cast_fmul _ _).trans (kAA.mul kBB)).symm
    · have kM := (cast_fmul a24 (fsub (fmul (fadd a.x2 a.z2) (fadd a.x2 a.z2)) (fmul (fsub a.x2 a.z2) (fsub a.x2 a.z2)))).trans (kE.mul_left _)
      refine Int.ModEq.symm (((cast_fmul _ _).trans (kE.mul ((cast_fadd _ _).trans (kAA.add kM)))).trans ?_)
      rw [show ((a24 : Nat) : Int) = 121665 from rfl]
      exact congrArg (· % (P : Int)) (by ring)
    · exact ((cast_fmul _ _).trans (kS.mul kS)).symm
    · refine Int.ModEq.symm (((cast_fmul _ _).trans (((cast_fmul _ _).trans (kT.mul kT)).mul_left _)).trans ?_)
      exact congrArg (· % (P : Int)) (by ring)

theorem run_ok {q : List Byte} {x1 : F10} {u k : Nat} (h1 : x1.Rep 1 u)
    (hb : ∀ pos < 255, ∃ y, rd q (pos / 8) = .ok y ∧ (((y.setWidth 32 : BitVec 32) >>> (pos % 8)) &&& 1) = if k.testBit pos then 1 else 0)
    {v : Vars F10} {s : Lad × Bool} (hv : v.Rep s) :
    ∃ w, loopN 255 0 (fun j v => turn32 q x1 (254 - j) v) v = .ok w ∧ w.Rep (Lad.run k u 255 s) := by
  obtain ⟨w, e, t, ht, hw⟩ := loopN_inv (f := fun j v => turn32 q x1 (254 - j) v)
    (fun j (w : Vars F10) => ∃ t, Lad.run k u 255 s = Lad.run k u (255 - j) t ∧ w.Rep t) 255 0 v
    (fun j w _ hj ⟨t, ht, hw⟩ => by
      obtain ⟨w', e, hw'⟩ := turn_ok (pos := 254 - j) h1 hw (hb (254 - j) (by omega))
      refine ⟨w', e, _, ?_, hw'⟩
      rw [ht, show 255 - j = 254 - j + 1 from by omega, Lad.run, show 255 - (j + 1) = 254 - j from by omega])
    ⟨s, rfl, hv⟩
  exact ⟨w, e, by rw [ht]; exact hw⟩

end Cex.Ec25519
