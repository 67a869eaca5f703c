import Verif.Ed25519.Field

/-!
# The points of the code as points of the group
-/

namespace Cex.Ed25519

open WeierstrassCurve WeierstrassCurve.Affine Cex.Ec25519

theorem nat_eq {a b : Nat} (h : a % P = b % P) : (a : Fp) = (b : Fp) := (ZMod.natCast_eq_natCast_iff' a b P).mpr h

/-- `d = -121665 / 121666` -/
def dN : Nat := 37095705934669439343138083508754565189542113879843219016388785533085940283555
/-- a root of `-486664` -/
def cN : Nat := 51042569399160536130206135233146329284152202253034631822681833788666877215207
/-- a root of -1 -/
def iN : Nat := 19681161376707505956807079304988542015446066515923890162744021073123829784752
/-- the second coordinate of the base point of RFC 7748 -/
def vN : Nat := 14781619447589544791020593568409986887264606134616475288964881837755586237401
/-- the base point of RFC 8032 -/
def BxN : Nat := 15112221349535400772501151409588531511454012693041857206046113283949847762202
def ByN : Nat := 46316835694926478169428394003475163141307993866256225615783033603165251855960

theorem consts : Consts (486662 : Fp) (cN : Fp) (dN : Fp) (iN : Fp) := by
  have hc : (cN : Fp) ^ 2 = -(486662 + 2) := by
    have h : ((cN ^ 2 + 486664 : Nat) : Fp) = ((0 : Nat) : Fp) := nat_eq (by decide +kernel)
    push_cast at h
    linear_combination h
  refine ⟨k2, ?_, hc, ?_, ?_, ?_⟩
  · exact kne (by decide) (by decide)
  · have h : ((dN * cN ^ 2 : Nat) : Fp) = ((486660 : Nat) : Fp) := nat_eq (by decide +kernel)
    push_cast at h
    linear_combination h
  · have h : ((iN ^ 2 + 1 : Nat) : Fp) = ((0 : Nat) : Fp) := nat_eq (by decide +kernel)
    push_cast at h
    linear_combination h
  · intro s hs
    have s0 : s ≠ 0 := by
      rintro rfl
      refine kne (K := Fp) (n := dN) (by decide) (by decide) ?_
      rw [← hs]; ring
    have f1 := ZMod.pow_card_sub_one_eq_one s0
    have h : powMod P 255 dN ((P - 1) / 2) = P - 1 := by decide +kernel
    rw [powMod_ok P 255 dN _ (by decide)] at h
    have h' : ((dN ^ ((P - 1) / 2) : Nat) : Fp) = ((P - 1 : Nat) : Fp) := by rw [← kmod, h]
    rw [Nat.cast_pow, ← hs, ← pow_mul, show 2 * ((P - 1) / 2) = P - 1 by decide, f1, Nat.cast_sub P_pos, kP] at h'
    exact k2 (K := Fp) (by linear_combination h')

/-- the group -/
abbrev Pt := (C25519 Fp).Point

/-- the base point -/
def Bpt : Pt := Point.some ((9 : Nat) : Fp) (vN : Fp) (mont_nonsingular k2 kA (by
  have h : ((vN ^ 2 : Nat) : Fp) = ((9 ^ 3 + 486662 * 9 ^ 2 + 9 : Nat) : Fp) := nat_eq (by decide +kernel)
  push_cast at h ⊢
  linear_combination h))

/-- Edwards coordinates -/
abbrev EdP (S : Pt) (x y : Fp) : Prop := Ed (cN : Fp) S x y

theorem Bpt_ed : EdP Bpt (BxN : Fp) (ByN : Fp) := by
  refine .inr ⟨kne (by decide) (by decide), ?_, ?_⟩
  · have h : ((BxN * vN : Nat) : Fp) = ((cN * 9 : Nat) : Fp) := nat_eq (by decide +kernel)
    push_cast at h ⊢
    linear_combination h
  · have h : ((ByN * 10 : Nat) : Fp) = ((8 : Nat) : Fp) := nat_eq (by decide +kernel)
    push_cast at h ⊢
    linear_combination h

/-- every point has Edwards coordinates -/
theorem ed_exists (S : Pt) : ∃ x y, EdP S x y := by
  match S with
  | .zero => exact ⟨0, 1, rfl, rfl⟩
  | .some u v hn =>
    by_cases hu : u = 0
    · exact ⟨0, -1, .inl ⟨hu, rfl, rfl⟩⟩
    · have hq := mont_eqn.mp hn.1
      have := consts.v_ne hq hu
      have := consts.u1_ne hq
      exact ⟨cN * u / v, (u - 1) / (u + 1), .inr ⟨hu, by field_simp, by field_simp⟩⟩

theorem EdP.add {R S : Pt} {x1 y1 x2 y2 : Fp} (h1 : EdP R x1 y1) (h2 : EdP S x2 y2) :
    1 + (dN : Fp) * (x1 * x2 * y1 * y2) ≠ 0 ∧ 1 - (dN : Fp) * (x1 * x2 * y1 * y2) ≠ 0 ∧
    EdP (R + S) ((x1 * y2 + y1 * x2) / (1 + dN * (x1 * x2 * y1 * y2))) ((y1 * y2 + x1 * x2) / (1 - dN * (x1 * x2 * y1 * y2))) :=
  Ed.add consts h1 h2

/-- extended coordinates -/
def Ge3.Is (h : Ge3) (S : Pt) : Prop :=
  ∃ x y Z : Fp, EdP S x y ∧ Z ≠ 0 ∧ Ed25519.Is 1 h.x (x * Z) ∧ Ed25519.Is 1 h.y (y * Z) ∧ Ed25519.Is 1 h.z Z ∧ Ed25519.Is 1 h.t (x * y * Z)

/-- projective coordinates -/
def Ge2.Is (h : Ge2) (S : Pt) : Prop :=
  ∃ x y Z : Fp, EdP S x y ∧ Z ≠ 0 ∧ Ed25519.Is 1 h.x (x * Z) ∧ Ed25519.Is 1 h.y (y * Z) ∧ Ed25519.Is 1 h.z Z

/-- completed coordinates -/
def Ge11.Is (h : Ge11) (S : Pt) : Prop :=
  ∃ x y Z T : Fp, EdP S x y ∧ Z ≠ 0 ∧ T ≠ 0 ∧ Ed25519.Is 3 h.x (x * Z) ∧ Ed25519.Is 3 h.y (y * T) ∧ Ed25519.Is 3 h.z Z ∧ Ed25519.Is 3 h.t T

/-- an affine point prepared for additions -/
def Pre.Is (q : Pre) (S : Pt) : Prop :=
  ∃ x y : Fp, EdP S x y ∧ Ed25519.Is 1 q.yplusx (y + x) ∧ Ed25519.Is 1 q.yminusx (y - x) ∧ Ed25519.Is 1 q.xy2d (2 * dN * (x * y))

theorem Is.congr {k : Nat} {f : F10} {a b : Fp} (h : Is k f a) (e : a = b) : Is k f b := e ▸ h

theorem Ge3.zero_is : Ge3.zero.Is 0 :=
  ⟨0, 1, 1, ⟨rfl, rfl⟩, one_ne_zero, Ed25519.zero_is.congr (by ring), one_is.congr (by ring), one_is, Ed25519.zero_is.congr (by ring)⟩

theorem Pre.zero_is : Pre.zero.Is 0 := ⟨0, 1, ⟨rfl, rfl⟩, one_is.congr (by ring), one_is.congr (by ring), Ed25519.zero_is.congr (by ring)⟩

theorem Ge11.Is.toP3 {h : Ge11} {S : Pt} (H : h.Is S) : ∃ r, h.toP3 = .ok r ∧ r.Is S := by
  obtain ⟨x, y, Z, T, e, hZ, hT, hx, hy, hz, ht⟩ := H
  obtain ⟨a, ea, ha⟩ := hx.mul ht (by decide) (by decide)
  obtain ⟨b, eb, hb⟩ := hy.mul hz (by decide) (by decide)
  obtain ⟨c, ec, hc⟩ := hz.mul ht (by decide) (by decide)
  obtain ⟨d, ed, hd⟩ := hx.mul hy (by decide) (by decide)
  refine ⟨⟨a, b, c, d⟩, ?_, x, y, Z * T, e, mul_ne_zero hZ hT, ha.congr (by ring), hb.congr (by ring), hc, hd.congr (by ring)⟩
  rw [Ge11.toP3, ea, ok_bind, eb, ok_bind, ec, ok_bind, ed]
  rfl

theorem Ge11.Is.toP2 {h : Ge11} {S : Pt} (H : h.Is S) : ∃ r, h.toP2 = .ok r ∧ r.Is S := by
  obtain ⟨x, y, Z, T, e, hZ, hT, hx, hy, hz, ht⟩ := H
  obtain ⟨a, ea, ha⟩ := hx.mul ht (by decide) (by decide)
  obtain ⟨b, eb, hb⟩ := hy.mul hz (by decide) (by decide)
  obtain ⟨c, ec, hc⟩ := hz.mul ht (by decide) (by decide)
  refine ⟨⟨a, b, c⟩, ?_, x, y, Z * T, e, mul_ne_zero hZ hT, ha.congr (by ring), hb.congr (by ring), hc⟩
  rw [Ge11.toP2, ea, ok_bind, eb, ok_bind, ec]
  rfl

theorem Ge3.Is.toP2 {h : Ge3} {S : Pt} (H : h.Is S) : (⟨h.x, h.y, h.z⟩ : Ge2).Is S := by
  obtain ⟨x, y, Z, e, hZ, hx, hy, hz, _⟩ := H
  exact ⟨x, y, Z, e, hZ, hx, hy, hz⟩

theorem p2Dbl_ok {h : Ge2} {S : Pt} (H : h.Is S) : ∃ r, p2Dbl h = .ok r ∧ r.Is (S + S) := by
  obtain ⟨x, y, Z, e, hZ, hx, hy, hz⟩ := H
  obtain ⟨a, ea, ha⟩ := hx.sq (by decide)
  obtain ⟨b, eb, hb⟩ := hy.sq (by decide)
  obtain ⟨c, ec, hc⟩ := hz.sq2 (by decide)
  obtain ⟨f, ef, hf⟩ := hx.add hy (by decide)
  obtain ⟨g, eg, hg⟩ := hf.sq (by decide)
  obtain ⟨Y, eY, hY⟩ := hb.add ha (by decide)
  obtain ⟨Zr, eZ, hZr⟩ := hb.sub ha (by decide)
  obtain ⟨X, eX, hX⟩ := hg.sub hY (by decide)
  obtain ⟨T, eT, hT⟩ := hc.sub hZr (by decide)
  obtain ⟨n1, n2, hadd⟩ := e.add e
  have cv := e.curve consts
  refine ⟨⟨X, Y, Zr, T⟩, ?_, _, _, Z ^ 2 * (1 + dN * (x * x * y * y)), Z ^ 2 * (1 - dN * (x * x * y * y)), hadd, mul_ne_zero (pow_ne_zero _ hZ) n1,
    mul_ne_zero (pow_ne_zero _ hZ) n2, hX.congr ?_, (hY.mono (by decide)).congr ?_, (hZr.mono (by decide)).congr ?_, hT.congr ?_⟩
  · rw [p2Dbl, ea, ok_bind, eb, ok_bind, ec, ok_bind, ef, ok_bind, eg, ok_bind, eY, ok_bind, eZ, ok_bind, eX, ok_bind, eT]
    rfl
  · rw [div_mul_eq_mul_div, eq_div_iff n1]; ring
  · rw [div_mul_eq_mul_div, eq_div_iff n2]; ring
  · linear_combination Z ^ 2 * cv
  · linear_combination -Z ^ 2 * cv

theorem p3Dbl_ok {h : Ge3} {S : Pt} (H : h.Is S) : ∃ r, p3Dbl h = .ok r ∧ r.Is (S + S) := p2Dbl_ok H.toP2

theorem addPre_ok {h : Ge3} {q : Pre} {S R : Pt} (H : h.Is S) (Q : q.Is R) : ∃ r, addPre h q = .ok r ∧ r.Is (S + R) := by
  obtain ⟨x1, y1, Z, e1, hZ, hx, hy, hz, ht⟩ := H
  obtain ⟨x2, y2, e2, qp, qm, qt⟩ := Q
  obtain ⟨a, ea, ha⟩ := hy.add hx (by decide)
  obtain ⟨b, eb, hb⟩ := hy.sub hx (by decide)
  obtain ⟨f, ef, hf⟩ := ha.mul qp (by decide) (by decide)
  obtain ⟨g, eg, hg⟩ := hb.mul qm (by decide) (by decide)
  obtain ⟨t, et, hT⟩ := qt.mul ht (by decide) (by decide)
  obtain ⟨t0, e0, h0⟩ := hz.add hz (by decide)
  obtain ⟨X, eX, hX⟩ := hf.sub hg (by decide)
  obtain ⟨Y, eY, hY⟩ := hf.add hg (by decide)
  obtain ⟨Zr, eZ, hZr⟩ := h0.add hT (by decide)
  obtain ⟨Tr, eT, hTr⟩ := h0.sub hT (by decide)
  obtain ⟨n1, n2, hadd⟩ := e1.add e2
  have z2 : 2 * Z ≠ 0 := mul_ne_zero k2 hZ
  refine ⟨⟨X, Y, Zr, Tr⟩, ?_, _, _, 2 * Z * (1 + dN * (x1 * x2 * y1 * y2)), 2 * Z * (1 - dN * (x1 * x2 * y1 * y2)), hadd, mul_ne_zero z2 n1,
    mul_ne_zero z2 n2, (hX.mono (by decide)).congr ?_, (hY.mono (by decide)).congr ?_, hZr.congr ?_, hTr.congr ?_⟩
  · rw [addPre, ea, ok_bind, eb, ok_bind, ef, ok_bind, eg, ok_bind, et, ok_bind, e0, ok_bind, eX, ok_bind, eY, ok_bind, eZ, ok_bind, eT]
    rfl
  · rw [div_mul_eq_mul_div, eq_div_iff n1]; ring
  · rw [div_mul_eq_mul_div, eq_div_iff n2]; ring
  · ring
  · ring

theorem mul16_ok {h : Ge3} {S : Pt} (H : h.Is S) : ∃ r, mul16 h = .ok r ∧ r.Is ((16 : Int) • S) := by
  obtain ⟨a, ea, ha⟩ := p3Dbl_ok H
  obtain ⟨b, eb, hb⟩ := ha.toP2
  obtain ⟨c, ec, hc⟩ := p2Dbl_ok hb
  obtain ⟨d, ed, hd⟩ := hc.toP2
  obtain ⟨e, ee, he⟩ := p2Dbl_ok hd
  obtain ⟨f, ef, hf⟩ := he.toP2
  obtain ⟨g, eg, hg⟩ := p2Dbl_ok hf
  obtain ⟨r, er, hr⟩ := hg.toP3
  refine ⟨r, ?_, ?_⟩
  · rw [mul16, ea, ok_bind, eb, ok_bind, ec, ok_bind, ed, ok_bind, ee, ok_bind, ef, ok_bind, eg, ok_bind, er]
  · convert hr using 1
    abel

/-- the coordinate of X25519 -/
theorem toMont_ok {h : Ge3} {S : Pt} (H : h.Is S) : ∃ r, toMont h.y h.z = .ok r ∧ Is 1 r (xc S) := by
  obtain ⟨x, y, Z, e, hZ, hx, hy, hz, ht⟩ := H
  obtain ⟨a, ea, ha⟩ := hz.add hy (by decide)
  obtain ⟨b, eb, hb⟩ := hz.sub hy (by decide)
  obtain ⟨c, ec, hc⟩ := hb.invert (by decide)
  obtain ⟨r, er, hr⟩ := ha.mul hc (by decide) (by decide)
  refine ⟨r, by rw [toMont, ea, ok_bind, eb, ok_bind, ec, ok_bind, er], hr.congr ?_⟩
  match S, e with
  | .zero, e =>
    obtain ⟨rfl, rfl⟩ := e
    rw [show Z - 1 * Z = 0 by ring, inv_zero, mul_zero]; rfl
  | .some u v hn, .inl e =>
    obtain ⟨rfl, rfl, rfl⟩ := e
    rw [show Z + -1 * Z = 0 by ring, zero_mul]; rfl
  | .some u v hn, .inr e =>
    obtain ⟨hu, _, hy⟩ := e
    have h1 : 1 - y ≠ 0 := fun z => by
      have y1 : y = 1 := by linear_combination -z
      rw [y1] at hy
      exact k2 (K := Fp) (by linear_combination hy)
    have : Z - y * Z ≠ 0 := by rw [show Z - y * Z = Z * (1 - y) by ring]; exact mul_ne_zero hZ h1
    show _ = u
    rw [← div_eq_mul_inv, div_eq_iff this]
    linear_combination Z * hy

end Cex.Ed25519
