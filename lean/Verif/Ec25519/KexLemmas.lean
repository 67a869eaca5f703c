import Verif.Ec25519.LadderLemmas
import Verif.Buf

/-!
# The key exchange of the 32-bit path
-/

namespace Cex.Ec25519

theorem leVal_split {q : List Byte} {i : Nat} (h : i < q.length) :
    ∃ l r, leVal q = l + 256 ^ i * (q[i].toNat + 256 * r) ∧ l < 256 ^ i := by
  refine ⟨leVal (q.take i), leVal (q.drop (i + 1)), ?_, ?_⟩
  · conv_lhs => rw [← List.take_append_drop i q, leVal_append, List.length_take, Nat.min_eq_left (Nat.le_of_lt h), List.drop_eq_getElem_cons h]
    rw [leVal]
  · have := leVal_lt (q.take i)
    rwa [List.length_take, Nat.min_eq_left (Nat.le_of_lt h)] at this

theorem bit_ok {q : List Byte} {pos : Nat} (h : pos < 8 * q.length) :
    ∃ y, rd q (pos / 8) = .ok y ∧ (((y.setWidth 32 : BitVec 32) >>> (pos % 8)) &&& 1) = if (leVal q).testBit pos then 1 else 0 := by
  have hi : pos / 8 < q.length := by omega
  refine ⟨q[pos / 8], rd_ok hi, ?_⟩
  obtain ⟨l, r, hv, hl⟩ := leVal_split hi
  have e : leVal q / 2 ^ pos = (q[pos / 8].toNat + 256 * r) / 2 ^ (pos % 8) := by
    have p : (2 : Nat) ^ pos = 256 ^ (pos / 8) * 2 ^ (pos % 8) := by
      rw [show (256 : Nat) = 2 ^ 8 from rfl, ← Nat.pow_mul, ← Nat.pow_add, Nat.div_add_mod]
    have p0 : 0 < 256 ^ (pos / 8) := Nat.pow_pos (by decide)
    rw [p, ← Nat.div_div_eq_div_mul, hv, Nat.add_mul_div_left _ _ p0, Nat.div_eq_of_lt hl, Nat.zero_add]
  rw [Nat.testBit_eq_decide_div_mod_eq, e]
  generalize q[pos / 8] = y
  have hj : pos % 8 < 8 := Nat.mod_lt _ (by decide)
  generalize pos % 8 = j at *
  apply BitVec.eq_of_toNat_eq
  have hy := y.isLt
  have ey : (y.setWidth 32 : BitVec 32).toNat = y.toNat := by rw [BitVec.toNat_setWidth]; omega
  have e1 : (((y.setWidth 32 : BitVec 32) >>> j) &&& 1).toNat = y.toNat / 2 ^ j % 2 := by
    rw [BitVec.toNat_and, BitVec.toNat_ushiftRight, ey, Nat.shiftRight_eq_div_pow]
    exact Nat.and_one_is_mod _
  have e2 : (y.toNat + 256 * r) / 2 ^ j % 2 = y.toNat / 2 ^ j % 2 := by
    have : j = 0 ∨ j = 1 ∨ j = 2 ∨ j = 3 ∨ j = 4 ∨ j = 5 ∨ j = 6 ∨ j = 7 := by omega
    rcases this with rfl | rfl | rfl | rfl | rfl | rfl | rfl | rfl <;> simp only [Nat.reducePow] <;> omega
  rw [e1, e2]
  have : y.toNat / 2 ^ j % 2 < 2 := Nat.mod_lt _ (by decide)
  by_cases c : y.toNat / 2 ^ j % 2 = 1
  · rw [c]; rfl
  · rw [show y.toNat / 2 ^ j % 2 = 0 from by omega]; rfl

theorem and248 : ∀ b : Byte, (b &&& 248).toNat = b.toNat / 8 * 8 := by decide +kernel
theorem top31 : ∀ b : Byte, ((b &&& 127) ||| 64).toNat = b.toNat % 64 + 64 := by decide +kernel

theorem list32 {n : List Byte} (h : n.length = 32) : ∃ a m z, n = a :: (m ++ [z]) ∧ m.length = 30 := by
  match n, h with
  | a :: t, h =>
    have ht : t ≠ [] := by intro e; subst e; simp at h
    refine ⟨a, t.dropLast, t.getLast ht, ?_, ?_⟩
    · rw [List.dropLast_concat_getLast ht]
    · rw [List.length_dropLast]; simp at h; omega

theorem clamp_ok {n : List Byte} (h : n.length = 32) : ∃ q, clamp n = .ok q ∧ q.length = 32 ∧ leVal q = decodeScalar n := by
  obtain ⟨a, m, z, rfl, hm⟩ := list32 h
  have w31 : ∀ (b c : Byte) (y : Byte), wr (b :: (m ++ [y])) 31 c = .ok (b :: (m ++ [c])) := by
    intro b c y
    have := wr_ok (b := b :: (m ++ [y])) (i := 31) (v := c) (by simp [hm])
    rw [this]
    simp [hm]
  have r31 : ∀ (b y : Byte), rd (b :: (m ++ [y])) 31 = .ok y := by
    intro b y
    rw [rd_ok (by simp [hm])]
    simp [hm]
  refine ⟨(a &&& 248) :: (m ++ [(z &&& 127) ||| 64]), ?_, by simp [hm], ?_⟩
  · rw [clamp, rd_ok (by simp), ok_bind, wr_ok _ (by simp), ok_bind]
    simp only [List.set_cons_zero, List.getElem_cons_zero]
    rw [r31, ok_bind, w31, ok_bind, r31, ok_bind, w31]
  · have lm := leVal_lt m
    rw [hm] at lm
    have e : ∀ b c : Byte, leVal (b :: (m ++ [c])) = b.toNat + 256 * (leVal m + 256 ^ 30 * c.toNat) := by
      intro b c; rw [leVal, leVal_append, hm]; simp [leVal]
    rw [decodeScalar, e, e, and248, top31]
    have ha := a.isLt
    have hz := z.isLt
    generalize leVal m = v at *
    generalize a.toNat = x at *
    generalize z.toNat = y at *
    simp only [Nat.reducePow] at *
    omega

theorem copyLoop {n q : List Byte} (hn : 32 ≤ n.length) (hq : q.length = 32) :
    loopN 32 0 (fun i q => do wr q i (← rd n i)) q = .ok (n.take 32) := by
  obtain ⟨r, e, h, hl⟩ := loopN_inv (f := fun i q => (do wr q i (← rd n i) : M (List Byte)))
    (fun i (r : List Byte) => r = n.take i ++ q.drop i ∧ i ≤ 32) 32 0 q
    (fun i r _ hi hr => by
      obtain ⟨rfl, _⟩ := hr
      refine ⟨_, by rw [rd_ok (show i < n.length by omega), ok_bind, wr_ok _ (by simp; omega)], ?_, by omega⟩
      rw [List.set_append_right _ _ (by simp), List.length_take, Nat.min_eq_left (by omega), Nat.sub_self,
        List.drop_eq_getElem_cons (show i < q.length by omega), List.set_cons_zero, List.take_succ_eq_append_getElem (by omega), List.append_assoc]
      rfl) ⟨by simp, by decide⟩
  rw [e, h, show 0 + 32 = 32 from rfl, List.drop_eq_nil_of_le (by omega), List.append_nil]

theorem or_loop {q : List Byte} {m : Nat} (g : Nat → M Byte) (v : Nat → Byte) (hg : ∀ i < m, g i = .ok (v i)) :
    ∃ d, loopN m 0 (fun i d => do return d ||| (← g i)) (0 : Byte) = .ok d ∧ (d = 0 ↔ ∀ i < m, v i = 0) := by
  obtain ⟨d, e, h⟩ := loopN_inv (f := fun i d => (do return d ||| (← g i) : M Byte))
    (fun i (d : Byte) => d = 0 ↔ ∀ j < i, v j = 0) m 0 0
    (fun i d _ hi hd => by
      refine ⟨d ||| v i, by rw [hg i (by omega)]; rfl, ?_⟩
      rw [show d ||| v i = 0 ↔ d = 0 ∧ v i = 0 from BitVec.or_eq_zero_iff, hd]
      constructor
      · rintro ⟨a, b⟩ j hj
        rcases Nat.lt_or_eq_of_le (Nat.le_of_lt_succ hj) with h | rfl
        · exact a j h
        · exact b
      · intro a
        exact ⟨fun j hj => a j (by omega), a i (by omega)⟩)
    (by simp)
  rw [Nat.zero_add] at h
  exact ⟨d, e, h⟩

theorem bit8 : ∀ c : Byte, ((c.setWidth 32 : BitVec 32) - 1).getLsbD 8 = decide (c = 0) := by decide +kernel

theorem isZero_ok {q : List Byte} (h : q.length = 32) : isZero q = .ok (decide (leVal q = 0)) := by
  obtain ⟨d, e, hd⟩ := or_loop (q := q) (m := 32) (rd q) (fun i => (q[i]?).getD 0) (fun i hi => by
    rw [rd_ok (by omega), List.getElem?_eq_getElem (by omega)]; rfl)
  rw [isZero, e, ok_bind, bit8]
  have : (d = 0) ↔ (leVal q = 0) := by
    rw [hd]
    constructor
    · intro a
      have : q = List.replicate 32 0 := by
        apply List.ext_getElem (by simp [h])
        intro i h1 h2
        have := a i (by omega)
        rw [List.getElem?_eq_getElem h1] at this
        rw [List.getElem_replicate]
        exact this
      rw [this]; decide +kernel
    · intro a i hi
      obtain ⟨l, r, hv, _⟩ := leVal_split (q := q) (i := i) (by omega)
      rw [a] at hv
      have p0 : 0 < 256 ^ i := Nat.pow_pos (by decide)
      have : q[i].toNat = 0 := by
        rcases Nat.eq_zero_or_pos (q[i].toNat + 256 * r) with h | h
        · omega
        · have := Nat.mul_pos p0 h; omega
      rw [List.getElem?_eq_getElem (by omega)]
      exact BitVec.eq_of_toNat_eq this
  simp only [this]
  rfl

theorem and7f : ∀ b : Byte, (b &&& 0x7f = 0) ↔ b.toNat % 128 = 0 := by decide +kernel

theorem take32_split {p : List Byte} (h : 32 ≤ p.length) : leVal (p.take 32) = leVal (p.take 31) + 256 ^ 31 * (p[31]'(by omega)).toNat := by
  rw [List.take_succ_eq_append_getElem (show 31 < p.length by omega), leVal_append, List.length_take, Nat.min_eq_left (by omega)]
  simp [leVal]

theorem leVal_zero_iff {q : List Byte} : leVal q = 0 ↔ ∀ i < q.length, (q[i]?).getD 0 = 0 := by
  induction q with
  | nil => simp [leVal]
  | cons a q ih =>
    rw [leVal]
    constructor
    · intro h i hi
      cases i with
      | zero =>
        have : a.toNat = 0 := by omega
        simpa using BitVec.eq_of_toNat_eq (y := 0#8) this
      | succ i =>
        have := ih.mp (by omega) i (by simpa using hi)
        simpa using this
    · intro h
      have h0 := h 0 (by simp)
      have h1 := ih.mpr (fun i hi => by simpa using h (i + 1) (by simpa using hi))
      have : a = 0 := by simpa using h0
      rw [this, h1]; rfl

theorem smallOrder_ok {p : List Byte} (h : 32 ≤ p.length) : smallOrder p = .ok (decide (leVal (p.take 32) % 2 ^ 255 = 0)) := by
  have he : ∀ i < 31, rd (List.replicate 32 (0 : Byte)) i = .ok 0 := fun i hi => by
    rw [rd_ok (by simp; omega), List.getElem_replicate]
  obtain ⟨d, e, hd⟩ := or_loop (q := p) (m := 31) (fun j => do return (← rd p j) ^^^ (← rd (List.replicate 32 (0 : Byte)) j)) (fun i => (p[i]?).getD 0) (fun i hi => by
    rw [he i hi, rd_ok (by omega), List.getElem?_eq_getElem (by omega)]
    show Except.ok _ = Except.ok _
    simp)
  have hz : (d ||| ((p[31]'(by omega)) &&& 0x7f)) = 0 ↔ leVal (p.take 32) % 2 ^ 255 = 0 := by
    have hl := leVal_lt (p.take 31)
    rw [List.length_take, Nat.min_eq_left (by omega)] at hl
    have h31 : d = 0 ↔ leVal (p.take 31) = 0 := by
      rw [hd, leVal_zero_iff, List.length_take, Nat.min_eq_left (by omega)]
      refine forall_congr' fun i => forall_congr' fun hi => ?_
      rw [List.getElem?_take_of_lt hi]
    rw [show (d ||| ((p[31]'(by omega)) &&& 0x7f)) = 0 ↔ d = 0 ∧ ((p[31]'(by omega)) &&& 0x7f) = 0 from BitVec.or_eq_zero_iff, h31, and7f, take32_split h]
    generalize leVal (p.take 31) = v at *
    have hb := (p[31]'(by omega)).isLt
    generalize (p[31]'(by omega)).toNat = b at *
    simp only [Nat.reducePow] at *
    omega
  have hB : blockDiff p (List.replicate 32 0) = .ok (d ||| ((p[31]'(by omega)) &&& 0x7f)) := by
    have e' : loopN 31 0 (fun j c => do return c ||| ((← rd p j) ^^^ (← rd (List.replicate 32 (0 : Byte)) j))) (0 : Byte) = .ok d := by
      rw [← e]
      congr 1
      funext i c
      cases rd p i <;> [rfl; (cases rd (List.replicate 32 (0 : Byte)) i <;> rfl)]
    rw [blockDiff, e', ok_bind, rd_ok (by omega), ok_bind, rd_ok (by simp), ok_bind, List.getElem_replicate]
    simp [pure, Except.pure]
  have e1 : smallOrder p = .ok (((0 : BitVec 32) ||| (((d ||| ((p[31]'(by omega)) &&& 0x7f)).setWidth 32 : BitVec 32) - 1)).getLsbD 8) := by
    rw [smallOrder, show blockCount = 1 from rfl]
    simp only [loopN]
    rw [show rd blocklist 0 = .ok (List.replicate 32 0) from rfl, ok_bind, hB]
    rfl
  rw [e1, show ∀ x : BitVec 32, (0 : BitVec 32) ||| x = x from fun x => BitVec.zero_or, bit8]
  simp only [hz]

theorem fsub_self_of {a b : Nat} (h : a = b) (hb : b < P) : fsub a b = 0 := by
  subst h
  rw [fsub, Nat.mod_eq_of_lt hb, show a + (P - a) = P from by omega, Nat.mod_self]

theorem fmul_lt (a b : Nat) : fmul a b < P := Nat.mod_lt _ P_pos
theorem fmul_comm (a b : Nat) : fmul a b = fmul b a := by rw [fmul, fmul, Nat.mul_comm]
theorem fmul_zero (a : Nat) : fmul a 0 = 0 := by rw [fmul, Nat.mul_zero, Nat.zero_mod]
theorem zero_fmul (a : Nat) : fmul 0 a = 0 := by rw [fmul, Nat.zero_mul, Nat.zero_mod]

theorem eq_of_modEq {a b : Nat} (ha : a < P) (hb : b < P) (h : (a : Int) ≡ b [ZMOD P]) : a = b := by
  rw [Int.ModEq, Int.emod_eq_of_lt (by omega) (by omega), Int.emod_eq_of_lt (by omega) (by omega)] at h
  exact_mod_cast h

theorem sq_swap {a b : Nat} (h : a = 0 ∨ b = 0) : fmul (fadd a b) (fadd a b) = fmul (fsub a b) (fsub a b) := by
  refine eq_of_modEq (fmul_lt _ _) (fmul_lt _ _) ?_
  refine ((cast_fmul _ _).trans ((cast_fadd a b).mul (cast_fadd a b))).trans (Int.ModEq.symm
    (((cast_fmul _ _).trans ((cast_fsub a b).mul (cast_fsub a b))).trans ?_))
  exact congrArg (· % (P : Int)) (by rcases h with rfl | rfl <;> push_cast <;> ring)

/-- with the base point 0 both second coordinates are 0 after every step -/
theorem step_zero {s : Lad} (h : s.x2 = 0 ∨ s.z2 = 0) : (s.step 0).z2 = 0 ∧ (s.step 0).z3 = 0 := by
  refine ⟨?_, zero_fmul _⟩
  simp only [Lad.step]
  rw [fsub_self_of (sq_swap h) (fmul_lt _ _), zero_fmul]

theorem run_zero (k : Nat) : ∀ (n : Nat) (s : Lad × Bool), s.1.z2 = 0 ∧ s.1.z3 = 0 → (Lad.run k 0 n s).1.z2 = 0 ∧ (Lad.run k 0 n s).1.z3 = 0
  | 0, _, h => h
  | n + 1, s, h => by
    rw [Lad.run]
    refine run_zero k n _ ?_
    rw [Lad.turn]
    refine step_zero (Or.inr ?_)
    cases (s.2 ^^ k.testBit n)
    · exact h.1
    · exact h.2

theorem x25519Nat_zero (k : Nat) : x25519Nat k 0 = 0 := by
  have h : (ladder k 0).z2 = 0 := by
    have a : (Lad.run k 0 255 (⟨1, 0, 0, 1⟩, false)).1.z2 = 0 ∧ (Lad.run k 0 255 (⟨1, 0, 0, 1⟩, false)).1.z3 = 0 := by
      rw [Lad.run]
      refine run_zero k 254 _ ?_
      rw [Lad.turn]
      refine step_zero ?_
      cases k.testBit 254
      · exact Or.inr rfl
      · exact Or.inl rfl
    rw [ladder]
    generalize Lad.run k 0 255 (⟨1, 0, 0, 1⟩, false) = r at *
    obtain ⟨r, b⟩ := r
    cases b
    · exact a.1
    · exact a.2
  rw [x25519Nat]
  rw [h, Nat.zero_pow (by decide), Nat.zero_mod, fmul_zero]

theorem x25519Nat_lt (k u : Nat) : x25519Nat k u < P := fmul_lt _ _

theorem one_rep : F10.one.Rep 1 (1 : Nat) := ⟨⟨by decide, by decide, by decide, by decide, by decide, by decide, by decide, by decide, by decide, by decide⟩, by
  rw [show F10.one.val = 1 from by decide]; exact Int.ModEq.refl _⟩
theorem zero_rep : F10.zero.Rep 1 (0 : Nat) := ⟨⟨by decide, by decide, by decide, by decide, by decide, by decide, by decide, by decide, by decide, by decide⟩, by
  rw [show F10.zero.val = 0 from by decide]; exact Int.ModEq.refl _⟩

theorem ref10_ok {W : Nat} (hW : W = 32 ∨ W = 64) {q n p : List Byte} (hq : q.length = 32) (hn : 32 ≤ n.length) (hp : 32 ≤ p.length) :
    ref10x32 W q n p = .ok (if leVal (p.take 32) % 2 ^ 255 = 0 then (-1, q) else (0, x25519 (n.take 32) (p.take 32))) := by
  rw [ref10x32, smallOrder_ok hp, ok_bind]
  by_cases hz : leVal (p.take 32) % 2 ^ 255 = 0
  · rw [if_pos hz, if_pos (by simpa using hz)]; rfl
  rw [if_neg hz, if_neg (by simpa using hz)]
  obtain ⟨k, ek, hk, hkv⟩ := clamp_ok (n := n.take 32) (by rw [List.length_take]; omega)
  obtain ⟨x1, ex, hx, c, hxv⟩ := F10.fromBytes_ok hp
  have X1 : x1.Rep 1 (decodeU (p.take 32) : Nat) := ⟨hx, (modEq_of hxv).trans (cast_mod _).symm⟩
  obtain ⟨w, ew, hw⟩ := run_ok (q := k) (k := decodeScalar (n.take 32)) (v := ⟨F10.one, F10.zero, x1, F10.one, 0⟩)
    (s := (⟨1, 0, decodeU (p.take 32), 1⟩, false)) X1 (fun pos hpos => by
      obtain ⟨y, a, b⟩ := bit_ok (q := k) (pos := pos) (by omega)
      exact ⟨y, a, by rw [b, hkv]⟩) ⟨one_rep, zero_rep, X1, one_rep, rfl⟩
  obtain ⟨r, hr⟩ : ∃ r, r = Lad.run (decodeScalar (n.take 32)) (decodeU (p.take 32)) 255 (⟨1, 0, decodeU (p.take 32), 1⟩, false) := ⟨_, rfl⟩
  rw [← hr] at hw
  have hL : ladder (decodeScalar (n.take 32)) (decodeU (p.take 32)) = r.1.swap r.2 := by rw [ladder, hr]
  have a2 : (if r.2 then w.x3 else w.x2).Rep 1 (r.1.swap r.2).x2 := by
    cases r.2 <;> [exact hw.x2; exact hw.x3]
  have b2 : (if r.2 then w.z3 else w.z2).Rep 1 (r.1.swap r.2).z2 := by
    cases r.2 <;> [exact hw.z2; exact hw.z3]
  obtain ⟨iv, ei, hi⟩ := F10.invert_ok ⟨b2.1.mono (by decide), b2.2⟩
  obtain ⟨m, em, hm⟩ := a2.mul hi (by decide) (by decide)
  have hR : m.Rep 1 (x25519Nat (decodeScalar (n.take 32)) (decodeU (p.take 32)) : Nat) := by
    refine hm.congr ?_
    rw [x25519Nat, hL]
    refine Int.ModEq.symm ((cast_fmul _ _).trans (Int.ModEq.mul_left _ ?_))
    have := cast_mod ((r.1.swap r.2).z2 ^ (P - 2))
    rwa [Int.natCast_pow] at this
  rw [copyLoop hn hq, ok_bind, ek, ok_bind, ex, ok_bind, ew, ok_bind]
  dsimp only
  rw [hw.swap, cSwap_rep hw.x2 hw.x3, cSwap_rep hw.z2 hw.z3,
    show (if r.2 = true then (w.x3, w.x2) else (w.x2, w.x3)) = (if r.2 = true then w.x3 else w.x2, if r.2 = true then w.x2 else w.x3) from by cases r.2 <;> rfl,
    show (if r.2 = true then (w.z3, w.z2) else (w.z2, w.z3)) = (if r.2 = true then w.z3 else w.z2, if r.2 = true then w.z2 else w.z3) from by cases r.2 <;> rfl]
  dsimp only
  rw [ei, ok_bind, em, ok_bind, hR.toBytes hW (x25519Nat_lt _ _) hk, ok_bind]
  rfl

theorem x25519_length (k u : List Byte) : (x25519 k u).length = 32 := leEnc_length _ _

theorem leVal_x25519 (k u : List Byte) : leVal (x25519 k u) = x25519Nat (decodeScalar k) (decodeU u) := by
  rw [x25519, leVal_leEnc, Nat.mod_eq_of_lt ((x25519Nat_lt _ _).trans (by decide))]

theorem keyExchange_ok {W : Nat} (hW : W = 32 ∨ W = 64) {pub priv secret : List Byte} (hn : 32 ≤ priv.length) (hp : 32 ≤ pub.length) :
    keyExchange (ref10x32 W) [] pub priv secret =
      .ok (if x25519Nat (decodeScalar (priv.take 32)) (decodeU (pub.take 32)) = 0 then (false, secret)
        else (true, x25519 (priv.take 32) (pub.take 32))) := by
  rw [keyExchange, scalarMult, ref10_ok hW List.length_replicate hn hp, ok_bind]
  by_cases hz : leVal (pub.take 32) % 2 ^ 255 = 0
  · have hu : decodeU (pub.take 32) = 0 := by rw [decodeU, hz]; rfl
    rw [if_pos hz, hu, x25519Nat_zero, if_pos rfl]
    rfl
  rw [if_neg hz]
  dsimp only
  rw [if_neg (by decide), isZero_ok (x25519_length _ _), leVal_x25519]
  by_cases h0 : x25519Nat (decodeScalar (priv.take 32)) (decodeU (pub.take 32)) = 0
  · rw [if_pos h0, decide_eq_true h0]; rfl
  rw [if_neg h0, decide_eq_false h0, ok_bind]
  have hc : copy (x25519 (priv.take 32) (pub.take 32)) 0 (secret.take 32 ++ List.replicate (32 - secret.length) 0) 0 32 =
      .ok (x25519 (priv.take 32) (pub.take 32)) :=
    copy_whole (Holds.self _) (x25519_length _ _).symm (by rw [x25519_length]; simp; omega)
  show (do
    if (0 : Int) = 0 then
      if ([] : List Byte).length ≠ 0 then throw .ub
      let s ← copy (x25519 (priv.take 32) (pub.take 32)) 0 (secret.take (x25519 (priv.take 32) (pub.take 32)).length ++
        List.replicate ((x25519 (priv.take 32) (pub.take 32)).length - secret.length) 0) 0 (x25519 (priv.take 32) (pub.take 32)).length
      return (true, s)
    return (false, secret) : M (Bool × List Byte)) = _
  rw [if_pos rfl, if_neg (by simp), x25519_length, hc]
  rfl

end Cex.Ec25519
