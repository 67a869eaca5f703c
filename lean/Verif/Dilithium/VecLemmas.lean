import Verif.Dilithium.SchemeModel
import Verif.Dilithium.SchemeSpec
import Verif.Dilithium.BallLemmas
import Verif.Dilithium.KeyLemmas

/-!
# Vectors of polynomials in Dilithium
-/

namespace Cex.Dilithium
open Cex Cex.Lattice Cex.Spec.Dilithium Finset

/-- `K` polynomials, each standing for `x i`. -/
def VRep (Q : Int → F → Prop) (K : Nat) (v : List (List Int)) (x : Nat → Nat → F) : Prop := Each (fun i p => Rep Q p (x i)) K v

theorem VRep.mono {Q Q' : Int → F → Prop} {K : Nat} {v : List (List Int)} {x x' : Nat → Nat → F} (h : VRep Q K v x) (hm : ∀ i k w, i < K → k < 256 → Q w (x i k) → Q' w (x' i k)) :
    VRep Q' K v x' := Each.mono h fun i _ hi hp => hp.mono fun w k hk hq => hm i k w hi hk hq

theorem VRep.shape {Q : Int → F → Prop} {K : Nat} {v : List (List Int)} {x : Nat → Nat → F} (h : VRep Q K v x) : Shape K v := Each.mono h fun _ _ _ hp => hp.1

theorem zeroVec_shape (K : Nat) : Shape K (zeroVec K) := each_replicate fun _ _ => List.length_replicate

theorem vrep_tabs {K : Nat} {x : Nat → Nat → Int} {Q : Int → F → Prop} {g : Nat → Nat → F} (h : ∀ i k, i < K → k < 256 → Q (x i k) (g i k)) : VRep Q K (tabs K x) g :=
  each_range fun i hi => rep_tab fun k hk => h i k hi hk

theorem tabs_of_vrep {K : Nat} {v : List (List Int)} {Q : Int → F → Prop} {g : Nat → Nat → F} {φ : F → Int} (h : VRep Q K v g) (hp : ∀ w x, Q w x → w = φ x) :
    v = tabs K fun i k => φ (g i k) := each_eq (g := fun i => tab fun k => φ (g i k)) (Each.mono h fun _ _ _ hr => tab_of_rep hr hp)

/-! ## The vector functions -/

theorem polyVecNtt_spec {B : Int} {K : Nat} {v : List (List Int)} {x : Nat → Nat → F} (hB : B + 67043328 ≤ 2147483647) (h : VRep (Is B) K v x) :
    ∃ v', polyVecNtt v = .ok v' ∧ VRep (Is (B + 67043328)) K v' (fun i => Spec.Dilithium.ntt (x i)) := by
  rw [polyVecNtt, h.1]
  exact vecLoop_spec (fun i p _ hp => ntt_rep hB hp) h

theorem polyVecReduce_spec {K : Nat} {v : List (List Int)} {x : Nat → Nat → F} (h : VRep (Is 2143289343) K v x) : ∃ v', polyVecReduce v = .ok v' ∧ VRep (Is 6283009) K v' x := by
  rw [polyVecReduce, h.1]
  exact vecLoop_spec (fun i p _ hp => polyReduce_spec hp) h

theorem polyVecCaddQ_spec {K : Nat} {v : List (List Int)} {x : Nat → Nat → F} (h : VRep (Is 8380416) K v x) : ∃ v', polyVecCaddQ v = .ok v' ∧ VRep Can K v' x := by
  rw [polyVecCaddQ, h.1]
  exact vecLoop_spec (fun i p _ hp => polyCaddQ_spec hp) h

/-- The inverse transform, for a vector in Montgomery form. -/
theorem invNtt_of {r : List Int} {g x : Nat → F} (h : Rep (Is 8380416) r g) (hg : ∀ k, k < 256 → g k = Spec.Dilithium.ntt x k * 8265825) :
    ∃ r', invNttToMont r = .ok r' ∧ Rep (Is 4211200) r' x := by
  obtain ⟨r', h1, h2⟩ := invNtt_rep h
  refine ⟨r', h1, h2.mono fun v i hi hv => ?_⟩
  have e : intt g i = 8265825 * x i := intt_ntt (f := fun i => 8265825 * x i) (fun k hk => by rw [ntt_smul, hg k hk, mul_comm]) hi
  rw [e, ← mul_assoc, r_inv, one_mul] at hv
  exact hv

theorem polyVecInvNtt_spec {K : Nat} {v : List (List Int)} {g x : Nat → Nat → F} (h : VRep (Is 8380416) K v g) (hg : ∀ i k, i < K → k < 256 → g i k = Spec.Dilithium.ntt (x i) k * 8265825) :
    ∃ v', polyVecInvNtt v = .ok v' ∧ VRep (Is 4211200) K v' x := by
  rw [polyVecInvNtt, h.1]
  exact vecLoop_spec (fun i p hi hp => invNtt_of hp (hg i · hi)) h

theorem polyVecAdd_spec {K : Nat} {w u v : List (List Int)} {x y : Nat → Nat → F} {A B C : Int} (hw : Shape K w) (hu : VRep (Is A) K u x) (hv : VRep (Is B) K v y) (h : A + B ≤ C) (hC : C ≤ 2147483647) :
    ∃ w', polyVecAdd w u v = .ok w' ∧ VRep (Is C) K w' (fun i k => x i k + y i k) := by
  rw [polyVecAdd, hw.1]
  refine vecLoop_spec (fun i p hi hp => ?_) hw
  obtain ⟨a, ea, ha⟩ := hu.get hi
  obtain ⟨b, eb, hb⟩ := hv.get hi
  rw [ea, ok_bind, eb, ok_bind]
  exact polyAdd_spec hp ha hb h hC

theorem polyVecSub_spec {K : Nat} {w u v : List (List Int)} {x y : Nat → Nat → F} {A B C : Int} (hw : Shape K w) (hu : VRep (Is A) K u x) (hv : VRep (Is B) K v y) (h : A + B ≤ C) (hC : C ≤ 2147483647) :
    ∃ w', polyVecSub w u v = .ok w' ∧ VRep (Is C) K w' (fun i k => x i k - y i k) := by
  rw [polyVecSub, hw.1]
  refine vecLoop_spec (fun i p hi hp => ?_) hw
  obtain ⟨a, ea, ha⟩ := hu.get hi
  obtain ⟨b, eb, hb⟩ := hv.get hi
  rw [ea, ok_bind, eb, ok_bind]
  exact polySub_spec hp ha hb h hC

theorem polyVecPointwise_spec {K : Nat} {c b : List (List Int)} {a : List Int} {x : Nat → F} {y : Nat → Nat → F} {A B : Int} (hc : Shape K c) (ha : Rep (Is A) a x) (hb : VRep (Is B) K b y)
    (hAB : A * B ≤ 17996804175953919) : ∃ c', polyVecPointwise c a b = .ok c' ∧ VRep (Is 8380416) K c' (fun i k => x k * y i k * 8265825) := by
  rw [polyVecPointwise, hc.1]
  refine vecLoop_spec (fun i p hi hp => ?_) hc
  obtain ⟨q, eq, hq⟩ := hb.get hi
  rw [eq, ok_bind]
  exact polyPointwise_spec hp ha hq hAB

theorem ntt_dot (L : Nat) (a : Nat → Nat → Nat → F) (v : Nat → Nat → F) (i k : Nat) :
    Spec.Dilithium.ntt (dot L a v i) k = ∑ j ∈ range L, Spec.Dilithium.ntt (a i j) k * Spec.Dilithium.ntt (v j) k := by
  have e : ∀ j, Spec.Dilithium.ntt (a i j) k * Spec.Dilithium.ntt (v j) k = Spec.Dilithium.ntt (mul (a i j) (v j)) k := fun j => (ntt_mul _ _ k).symm
  simp only [e]
  unfold Spec.Dilithium.ntt dot
  simp only [Finset.sum_mul]
  rw [Finset.sum_comm]

theorem polyVecMatrixPointwise_spec {L : Nat} {w : List Int} {u v : List (List Int)} {x y : Nat → Nat → F} {B : Int} (hL : 0 < L) (hL7 : L ≤ 7) (hw : w.length = 256) (hu : VRep (Is 8380416) L u x)
    (hv : VRep (Is B) L v y) (hB : 8380416 * B ≤ 17996804175953919) :
    ∃ w', polyVecMatrixPointwise w u v = .ok w' ∧ Rep (Is 58662912) w' (fun k => ∑ j ∈ range L, x j k * y j k * 8265825) := by
  obtain ⟨u0, eu, hu0⟩ := hu.get hL
  obtain ⟨v0, ev, hv0⟩ := hv.get hL
  obtain ⟨w0, ew, hw0⟩ := polyPointwise_spec hw hu0 hv0 hB
  have hle : ∀ j : Nat, j ≤ 7 → (8380416 : Int) * j ≤ 58662912 := fun j hj => by omega
  obtain ⟨⟨w', t'⟩, h1, h2, _⟩ := loopN_inv (f := fun i (s : List Int × List Int) => do
      let t ← polyPointwise s.2 (← rd u i) (← rd v i)
      let w ← polyAdd s.1 s.1 t
      return (w, t))
    (fun i s => Rep (Is (8380416 * (i : Int))) s.1 (fun k => ∑ j ∈ range i, x j k * y j k * 8265825) ∧ s.2.length = 256) (u.length - 1) 1 (w0, List.replicate 256 0)
    (by
      rintro i ⟨w, t⟩ h1i hlt ⟨hr, ht⟩
      have hu1 := hu.1
      have hi : i < L := by omega
      obtain ⟨ui, eu, hui⟩ := hu.get hi
      obtain ⟨vi, ev, hvi⟩ := hv.get hi
      obtain ⟨t', et, ht'⟩ := polyPointwise_spec ht hui hvi hB
      obtain ⟨w', ew, hw'⟩ := polyAdd_spec (C := 8380416 * ((i + 1 : Nat) : Int)) hr.1 hr ht' (by push_cast; omega) (by have := hle (i + 1) (by omega); omega)
      refine ⟨(w', t'), ?_, ?_, ht'.1⟩
      · simp only [eu, ev, ok_bind, et, ew]
        rfl
      · exact hw'.mono fun v k _ hv => by rw [sum_range_succ]; exact hv)
    ⟨by simpa using hw0, List.length_replicate⟩
  have hu1 := hu.1
  rw [show 1 + (u.length - 1) = L from by omega] at h2
  refine ⟨w', ?_, h2.mono fun v k _ hv => hv.mono (hle L hL7)⟩
  rw [polyVecMatrixPointwise, eu, ok_bind, ev, ok_bind, ew, ok_bind, h1, ok_bind]
  rfl

/-- The matrix in the transform domain. -/
def MatRep (K L : Nat) (mat : List (List (List Int))) (a : Nat → Nat → Nat → F) : Prop :=
  Each (fun i row => VRep (Is 8380416) L row (fun j => Spec.Dilithium.ntt (a i j))) K mat

theorem matrixLoop_spec {K L : Nat} {w : List (List Int)} {mat : List (List (List Int))} {a : Nat → Nat → Nat → F} {v : List (List Int)} {x : Nat → Nat → F} {B : Int} (hL : 0 < L) (hL7 : L ≤ 7)
    (hw : Shape K w) (hm : MatRep K L mat a) (hv : VRep (Is B) L v (fun j => Spec.Dilithium.ntt (x j))) (hB : 8380416 * B ≤ 17996804175953919) :
    ∃ w', matrixLoop w mat v = .ok w' ∧ VRep (Is 58662912) K w' (fun i k => Spec.Dilithium.ntt (dot L a x i) k * 8265825) := by
  rw [matrixLoop, hw.1]
  refine vecLoop_spec (fun i p hi hp => ?_) hw
  obtain ⟨row, er, hr⟩ := hm.get hi
  obtain ⟨w', ew, hw'⟩ := polyVecMatrixPointwise_spec hL hL7 hp hr hv hB
  rw [er, ok_bind]
  exact ⟨w', ew, hw'.mono fun v k _ hv => by simp only [ntt_dot, Finset.sum_mul]; exact hv⟩

/-- Matrix times vector, reduced and transformed back. -/
theorem product_loop {K L : Nat} {w : List (List Int)} {mat : List (List (List Int))} {a : Nat → Nat → Nat → F} {v : List (List Int)} {x : Nat → Nat → F} {B : Int} (hL : 0 < L) (hL7 : L ≤ 7)
    (hw : Shape K w) (hm : MatRep K L mat a) (hv : VRep (Is B) L v (fun j => Spec.Dilithium.ntt (x j))) (hB : 8380416 * B ≤ 17996804175953919) :
    ∃ w1 w2 w3, matrixLoop w mat v = .ok w1 ∧ polyVecReduce w1 = .ok w2 ∧ polyVecInvNtt w2 = .ok w3 ∧ VRep (Is 4211200) K w3 (dot L a x) := by
  obtain ⟨w1, e1, h1⟩ := matrixLoop_spec hL hL7 hw hm hv hB
  obtain ⟨w2, e2, h2⟩ := polyVecReduce_spec (h1.mono fun i k w _ _ h => h.mono (by norm_num))
  obtain ⟨w3, e3, h3⟩ := polyVecInvNtt_spec (x := dot L a x) (h2.mono fun i k w _ _ h => h.mono (by norm_num)) (fun i k _ _ => rfl)
  exact ⟨w1, w2, w3, e1, e2, e3, h3⟩

/-- Challenge times vector. -/
theorem challenge_loop {K : Nat} {c b : List (List Int)} {cp : List Int} {g : Nat → F} {y : Nat → Nat → F} {A B : Int} (hc : Shape K c) (ha : Rep (Is A) cp (Spec.Dilithium.ntt g))
    (hb : VRep (Is B) K b (fun i => Spec.Dilithium.ntt (y i))) (hAB : A * B ≤ 17996804175953919) :
    ∃ c1 c2, polyVecPointwise c cp b = .ok c1 ∧ polyVecInvNtt c1 = .ok c2 ∧ VRep (Is 4211200) K c2 (fun i => mul g (y i)) := by
  obtain ⟨c1, e1, h1⟩ := polyVecPointwise_spec hc ha hb hAB
  obtain ⟨c2, e2, h2⟩ := polyVecInvNtt_spec (x := fun i => mul g (y i)) h1 (fun i k _ _ => by rw [ntt_mul])
  exact ⟨c1, c2, e1, e2, h2⟩

theorem vecChk_spec {B : Int} (hB : B ≤ 1047552) : ∀ v : List (List Int), (∀ p ∈ v, ∃ g, Rep (Is 6283009) p g) →
    ∃ b, vecChk B v = .ok b ∧ (b = true ↔ ∃ p ∈ v, ∃ (k : Nat) (w : Int), p[k]? = some w ∧ B ≤ norm (w : F))
  | [], _ => ⟨false, rfl, by simp⟩
  | p :: t, h => by
    obtain ⟨g, hg⟩ := h p (by simp)
    obtain ⟨b, e, hb⟩ := polyChkNorm_spec hg hB
    obtain ⟨b', e', hb'⟩ := vecChk_spec hB t (fun p hp => h p (by simp [hp]))
    have hp : (∃ j, j < 256 ∧ B ≤ norm (g j)) ↔ ∃ (k : Nat) (w : Int), p[k]? = some w ∧ B ≤ norm (w : F) := by
      constructor
      · rintro ⟨j, hj, hn⟩
        obtain ⟨w, _, hw, hi⟩ := hg.get hj
        exact ⟨j, w, hw, by rw [hi.2]; exact hn⟩
      · rintro ⟨k, w, hw, hn⟩
        have hk : k < 256 := by rw [← hg.1]; exact (List.getElem?_eq_some_iff.mp hw).1
        exact ⟨k, hk, by rw [← (hg.2 k w hw).2]; exact hn⟩
    rw [hp] at hb
    rw [vecChk, e, ok_bind]
    cases b with
    | true => exact ⟨true, rfl, by simp only [true_iff]; exact ⟨p, by simp, hb.mp rfl⟩⟩
    | false =>
      refine ⟨b', by simpa using e', ?_⟩
      rw [hb']
      constructor
      · rintro ⟨p, hp, r⟩; exact ⟨p, by simp [hp], r⟩
      · rintro ⟨p', hp', r⟩
        rcases List.mem_cons.mp hp' with rfl | hp'
        · exact absurd (hb.mpr r) (by simp)
        · exact ⟨p', hp', r⟩

theorem polyVecChkNorm_spec {K : Nat} {v : List (List Int)} {x : Nat → Nat → F} (h : VRep (Is 6283009) K v x) {B : Nat} (hB : B ≤ 1047552) :
    ∃ b, polyVecChkNorm v B = .ok b ∧ (b = false ↔ ∀ i k, i < K → k < 256 → norm (x i k) < B) := by
  obtain ⟨b, e, hb⟩ := vecChk_spec (B := B) (by exact_mod_cast hB) v (fun p hp => by
    obtain ⟨i, hi, rfl⟩ := List.getElem_of_mem hp
    exact ⟨x i, h.2 i _ (List.getElem?_eq_getElem hi)⟩)
  refine ⟨b, e, ?_⟩
  rw [← Bool.not_eq_true, hb]
  constructor
  · intro hn i k hi hk
    obtain ⟨p, _, hp⟩ := h.get hi
    have hl : i < v.length := by rw [h.1]; exact hi
    obtain ⟨w, _, hw, his⟩ := (h.2 i _ (List.getElem?_eq_getElem hl)).get hk
    by_contra hc
    exact hn ⟨v[i], List.getElem_mem hl, k, w, hw, by rw [his.2]; exact_mod_cast Nat.le_of_not_lt hc⟩
  · rintro hn ⟨p, hp, k, w, hw, hge⟩
    obtain ⟨i, hi, rfl⟩ := List.getElem_of_mem hp
    have hr := h.2 i _ (List.getElem?_eq_getElem hi)
    have hk : k < 256 := by rw [← hr.1]; exact (List.getElem?_eq_some_iff.mp hw).1
    have := hn i k (by rw [← h.1]; exact hi) hk
    rw [(hr.2 k w hw).2] at hge
    have h2 : B ≤ norm (x i k) := by exact_mod_cast hge
    omega

theorem polyVecDecompose_spec {K g : Nat} (hg : Gamma g) {v1 v0 v : List (List Int)} {x : Nat → Nat → F} (h1 : Shape K v1) (h0 : Shape K v0) (h : VRep Can K v x) :
    polyVecDecompose v1 v0 v g = .ok (tabs K fun i k => (Spec.Dilithium.decompose g (x i k).val).1, tabs K fun i k => (Spec.Dilithium.decompose g (x i k).val).2) := by
  obtain ⟨r1, r0, e, k1, k0⟩ := vecLoop2_spec (K := K) (P := fun _ p => p.length = 256)
    (Q1 := fun i p => Rep (fun v x => v = (Spec.Dilithium.decompose g x.val).1) p (x i)) (Q0 := fun i p => Rep (fun v x => v = (Spec.Dilithium.decompose g x.val).2) p (x i))
    (op := fun i x1 x0 => do polyDecompose x1 x0 (← rd v i) g)
    (fun i x1 x0 hi l1 l0 => by
      obtain ⟨a, ea, ha⟩ := h.get hi
      obtain ⟨r1, r0, e, k1, k0⟩ := polyDecompose_spec hg l1 l0 ha
      exact ⟨(r1, r0), by rw [ea, ok_bind, e], k1, k0⟩) h1 h0
  rw [polyVecDecompose, h1.1, e, tabs_of_vrep (φ := fun x => (Spec.Dilithium.decompose g x.val).1) k1 (fun _ _ h => h),
    tabs_of_vrep (φ := fun x => (Spec.Dilithium.decompose g x.val).2) k0 (fun _ _ h => h)]

theorem polyVecPower2Round_spec {K : Nat} {v1 v0 v : List (List Int)} {x : Nat → Nat → F} (h1 : Shape K v1) (h0 : Shape K v0) (h : VRep Can K v x) :
    polyVecPower2Round v1 v0 v = .ok (tabs K fun i k => (Spec.Dilithium.power2Round (x i k).val).1, tabs K fun i k => (Spec.Dilithium.power2Round (x i k).val).2) := by
  obtain ⟨r1, r0, e, k1, k0⟩ := vecLoop2_spec (K := K) (P := fun _ p => p.length = 256)
    (Q1 := fun i p => Rep (fun v x => v = (Spec.Dilithium.power2Round x.val).1) p (x i)) (Q0 := fun i p => Rep (fun v x => v = (Spec.Dilithium.power2Round x.val).2) p (x i))
    (op := fun i x1 x0 => do polyPower2Round x1 x0 (← rd v i))
    (fun i x1 x0 hi l1 l0 => by
      obtain ⟨a, ea, ha⟩ := h.get hi
      obtain ⟨r1, r0, e, k1, k0⟩ := polyPower2Round_spec l1 l0 ha
      exact ⟨(r1, r0), by rw [ea, ok_bind, e], k1, k0⟩) h1 h0
  rw [polyVecPower2Round, h1.1, e, tabs_of_vrep (φ := fun x => (Spec.Dilithium.power2Round x.val).1) k1 (fun _ _ h => h),
    tabs_of_vrep (φ := fun x => (Spec.Dilithium.power2Round x.val).2) k0 (fun _ _ h => h)]

theorem polyVecUseHint_spec {K g : Nat} (hg : Gamma g) {b a h : List (List Int)} {x : Nat → Nat → F} {t : Nat → Nat → Bool} (hb : Shape K b) (ha : VRep Can K a x)
    (hh : Each (fun i y => Hints y (t i)) K h) : polyVecUseHint b a h g = .ok (tabs K fun i k => Spec.Dilithium.useHint g (t i k) (x i k).val) := by
  rw [polyVecUseHint, hb.1]
  refine vecLoop_tabs (fun i p hi hp => ?_) hb
  obtain ⟨ai, ea, hai⟩ := ha.get hi
  obtain ⟨hi', eh, hhi⟩ := hh.get hi
  obtain ⟨r, e, hl, hr⟩ := polyUseHint_spec hg hp hai hhi
  rw [ea, ok_bind, eh, ok_bind, e, eq_tab hl hr]

theorem shl13_spec {a : Int} {x : F} (h0 : 0 ≤ a) (h1 : a ≤ 1023) (hx : (a : F) = x) : ∃ t, shl13 a = .ok t ∧ Is 8380416 t (x * 8192) := by
  refine ⟨a * 8192, ?_, ?_, ?_⟩
  · rw [shl13, if_neg (by omega), i32_ok (by rw [abs_le]; omega)]
  · rw [abs_le]; omega
  · rw [← hx]; push_cast; ring

theorem polyVecShiftL_spec {K : Nat} {x : Nat → Nat → Int} (h : ∀ i k, i < K → k < 256 → 0 ≤ x i k ∧ x i k ≤ 1023) :
    ∃ v', polyVecShiftL (tabs K x) = .ok v' ∧ VRep (Is 8380416) K v' (fun i k => red (x i) k * 8192) := by
  rw [polyVecShiftL, tabs_length]
  refine vecLoop_spec (P := fun i p => Rep (fun (v : Int) (y : F) => (0 ≤ v ∧ v ≤ 1023) ∧ (v : F) = y) p (red (x i))) (fun i p hi hp => ?_) (vrep_tabs fun i k hi hk => ⟨h i k hi hk, rfl⟩)
  exact mapLoop_spec (fun k hk v hv => shl13_spec hv.1.1 hv.1.2 hv.2) hp

end Cex.Dilithium
