import Verif.Ed25519.Order
import Verif.Ed25519.LPrime

/-!
# Keys, signatures and their verification
-/

namespace Cex.Ed25519

open Cex.Ec25519 Cex.IntTools

theorem loop_congr {σ : Type} {f g : Nat → σ → M σ} : ∀ (n i : Nat) (st : σ), (∀ j, i ≤ j → j < i + n → ∀ st, f j st = g j st) → loopN n i f st = loopN n i g st
  | 0, _, _, _ => rfl
  | n + 1, i, st, h => by
    rw [loopN, loopN, h i (Nat.le_refl _) (by omega) st]
    cases g i st with
    | error e => rfl
    | ok s => exact loop_congr n (i + 1) s fun j h1 h2 => h j (by omega) (by omega)

theorem rd_take {a : List Byte} {i n : Nat} (h : i < n) : rd a i = rd (a.take n) i := by rw [rd, rd, List.getElem?_take_of_lt h]

theorem scalarBase_take (a : List Byte) : scalarBase base a = scalarBase base (a.take 32) := by
  have : recode a = recode (a.take 32) := by
    rw [recode, recode, loop_congr 32 0 _ (g := fun i e => do
      let e ← wr e (2 * i) (((← rd (a.take 32) i) &&& 15).toNat : Int)
      wr e (2 * i + 1) ((((← rd (a.take 32) i) >>> 4) &&& 15).toNat : Int)) (fun j _ hj st => by rw [rd_take (by omega)])]
  rw [scalarBase, scalarBase, this]

/-- a multiple of the base point, as bytes -/
theorem basePoint_ok {W : Nat} (hW : W = 32 ∨ W = 64) {a s : List Byte} (ha : 32 ≤ a.length) (hv : leVal (a.take 32) < 2 ^ 255) (hs : 32 ≤ s.length) :
    ∃ h, scalarBase base a = .ok h ∧ geToBytes W s h.x h.y h.z = .ok (Rfc8032.encode (Rfc8032.mul (leVal (a.take 32)) Rfc8032.B) ++ s.drop 32) := by
  obtain ⟨h, e, H⟩ := scalarBase_ok (a := a.take 32) (by rw [List.length_take]; omega) hv
  have r := base_mul (leVal (a.take 32))
  refine ⟨h, by rw [scalarBase_take, e], ?_⟩
  rw [r.enc]
  exact H.toP2.toBytes hW r.2.2 hs

theorem encode_len (a : Nat × Nat) : (Rfc8032.encode a).length = 32 := leEnc_length _ _

/-- the digest of the object: `N` bounds the length of the input -/
structure Hash (digest : List Byte → M (List Byte)) (H : List Byte → List Byte) (N : Nat) : Prop where
  ok : ∀ s, s.length < N → digest s = .ok (H s)
  len : ∀ s, (H s).length = 64

/-- clamping the first half of a hash -/
theorem clamp64 {b : List Byte} (h : b.length = 64) : ∃ q, clamp b = .ok (q ++ b.drop 32) ∧ q.length = 32 ∧ leVal q = decodeScalar (b.take 32) := by
  have ht : (b.take 32).length = 32 := by rw [List.length_take]; omega
  obtain ⟨q, e, l, v⟩ := clamp_ok ht
  refine ⟨q, ?_, l, v⟩
  have := clamp_append ht e (b.drop 32)
  rwa [List.take_append_drop] at this

theorem copy_first {src dst : List Byte} (h1 : 32 ≤ src.length) (h2 : 32 ≤ dst.length) : copy src 0 dst 0 32 = .ok (src.take 32 ++ dst.drop 32) := by
  have := copy_at (src := src) (a := []) (b := dst.take 32) (c := dst.drop 32) (s := src.take 32) (so := 0) (off := 0) (n := 32) ⟨[], src.drop 32, by simp, rfl⟩ rfl
    (by rw [List.length_take]; omega) (by rw [List.length_take, List.length_take]; omega)
  simpa using this

theorem generate_ok {W : Nat} (hW : W = 32 ∨ W = 64) {digest : List Byte → M (List Byte)} {H : List Byte → List Byte} {N : Nat} (hH : Hash digest H N) (hN : 32 < N)
    {seed : List Byte} (hs : seed.length = 32) : genKeyPair W digest seed = .ok (Rfc8032.publicKey H seed, seed ++ Rfc8032.publicKey H seed) := by
  obtain ⟨q, e, l, v⟩ := clamp64 (hH.len seed)
  have hd : ((H seed).drop 32).length = 32 := by rw [List.length_drop, hH.len]
  have ht : (q ++ (H seed).drop 32).take 32 = q := by rw [← l, List.take_left]
  obtain ⟨h, e1, e2⟩ := basePoint_ok hW (a := q ++ (H seed).drop 32) (s := List.replicate 32 0) (by rw [List.length_append]; omega)
    (by rw [ht, v]; exact (decodeScalar_ok _).1) (by rw [List.length_replicate])
  rw [ht, v] at e2
  have e2 : geToBytes W (List.replicate 32 0) h.x h.y h.z = .ok (Rfc8032.publicKey H seed) := e2.trans (by
    rw [List.drop_eq_nil_of_le (by rw [List.length_replicate]), List.append_nil]; rfl)
  have pl : (Rfc8032.publicKey H seed).length = 32 := encode_len _
  generalize Rfc8032.publicKey H seed = pk at *
  rw [genKeyPair, hH.ok _ (by omega), ok_bind, e, ok_bind, e1, ok_bind, e2, ok_bind, copy_first (by omega) (by rw [List.length_append]; omega), ok_bind,
    List.take_of_length_le (by omega), ← l, List.drop_left, pl]
  have := copy_at (src := pk) (a := seed) (b := (H seed).drop 32) (c := []) (s := pk) (so := 0) (off := 32) (n := 32) (Holds.self pk) hs.symm pl.symm (by rw [hd, pl])
  rw [List.append_nil, List.append_nil] at this
  rw [l, this]
  rfl

/-- what `Sc25519Reduce` makes of a hash (C87) -/
def red (n : Nat) : Nat := (n + if Wraps n then 2 ^ 274 else 0) % L

theorem red_lt (n : Nat) : red n < L := Nat.mod_lt _ L_pos

theorem reduce_ok {b : List Byte} (hb : b.length = 64) : ∃ r, scReduce b = .ok r ∧ r.length = 64 ∧ leVal (r.take 32) = red (leVal b) := by
  refine ⟨_, C87_reduce hb, by rw [List.length_append, leEnc_length, List.length_drop]; omega, ?_⟩
  rw [List.take_left' (by rw [leEnc_length]), leVal_leEnc]
  exact Nat.mod_eq_of_lt (Nat.lt_trans (red_lt _) L_lt)

/-- the signature of the code -/
def codeSign (H : List Byte → List Byte) (seed pk msg : List Byte) : List Byte :=
  let r := red (leVal (H ((H seed).drop 32 ++ msg)))
  let R := Rfc8032.encode (Rfc8032.mul r Rfc8032.B)
  let k := red (leVal (H (R ++ pk ++ msg)))
  R ++ leEnc 32 ((k * Rfc8032.secret H seed + r) % L)

theorem codeSign_len (H : List Byte → List Byte) (seed pk msg : List Byte) : (codeSign H seed pk msg).length = 64 := by
  rw [codeSign, List.length_append, encode_len, leEnc_length]

theorem sign_ok {W : Nat} (hW : W = 32 ∨ W = 64) {digest : List Byte → M (List Byte)} {H : List Byte → List Byte} {N : Nat} (hH : Hash digest H N)
    {seed pk msg s0 : List Byte} (hs : seed.length = 32) (hp : pk.length = 32) (hm : msg.length + 64 < N) (h0 : s0.length = 64 + msg.length) :
    sign W digest s0 msg (seed ++ pk) = .ok (codeSign H seed pk msg ++ msg) := by
  have c0 : copy msg 0 s0 64 msg.length = .ok (s0.take 32 ++ (s0.drop 32).take 32 ++ msg) := by
    have := copy_at (src := msg) (a := s0.take 32 ++ (s0.drop 32).take 32) (b := s0.drop 64) (c := []) (s := msg) (so := 0) (off := 64) (n := msg.length) (Holds.self msg)
      (by rw [List.length_append, List.length_take, List.length_take, List.length_drop]; omega) rfl (by rw [List.length_drop]; omega)
    rw [List.append_nil, List.append_nil] at this
    rw [← this]
    congr 1
    rw [List.append_assoc, show s0.drop 64 = (s0.drop 32).drop 32 by rw [List.drop_drop], List.take_append_drop, List.take_append_drop]
  have tl : (s0.take 32).length = 32 := by rw [List.length_take]; omega
  have dl : ((s0.drop 32).take 32).length = 32 := by rw [List.length_take, List.length_drop]; omega
  have c1 : copy (seed ++ pk) 32 (s0.take 32 ++ (s0.drop 32).take 32 ++ msg) 32 32 = .ok (s0.take 32 ++ pk ++ msg) :=
    copy_at ⟨seed, [], by simp, hs⟩ tl.symm hp.symm (by rw [dl, hp])
  have sl : slice (seed ++ pk) 0 32 = .ok seed := slice_holds ⟨[], pk, rfl, rfl⟩ hs.symm
  obtain ⟨q, ec, lq, vq⟩ := clamp64 (hH.len seed)
  have hd : ((H seed).drop 32).length = 32 := by rw [List.length_drop, hH.len]
  have sl2 : slice (H seed) 32 32 = .ok ((H seed).drop 32) := by rw [slice_ok (by rw [hH.len]), List.take_of_length_le (by omega)]
  obtain ⟨n, en, ln, vn⟩ := reduce_ok (hH.len ((H seed).drop 32 ++ msg))
  have rl : leVal (n.take 32) < 2 ^ 255 := by
    rw [vn]; exact Nat.lt_trans (red_lt _) order_lt
  obtain ⟨R, e1, e2⟩ := basePoint_ok hW (a := n) (s := s0.take 32 ++ pk ++ msg) (by omega) rl (by rw [List.length_append, List.length_append]; omega)
  rw [sign, c0, ok_bind, edSign, sl, ok_bind, hH.ok _ (by omega), ok_bind, sl2, ok_bind, hH.ok _ (by rw [List.length_append]; omega), ok_bind, c1, ok_bind, en, ok_bind, e1, ok_bind, e2,
    ok_bind, vn, codeSign]
  generalize red (leVal (H ((H seed).drop 32 ++ msg))) = r at *
  have el := encode_len (Rfc8032.mul r Rfc8032.B)
  generalize Rfc8032.encode (Rfc8032.mul r Rfc8032.B) = E at *
  rw [show (s0.take 32 ++ pk ++ msg).drop 32 = pk ++ msg by rw [List.append_assoc]; exact List.drop_left' tl, ← List.append_assoc]
  have sl3 : slice (E ++ pk ++ msg) 0 64 = .ok (E ++ pk) := slice_holds ⟨[], msg, rfl, rfl⟩ (by rw [List.length_append]; omega)
  obtain ⟨k, ek, lk, vk⟩ := reduce_ok (hH.len (E ++ pk ++ msg))
  rw [sl3, ok_bind, hH.ok _ (by rw [List.length_append, List.length_append]; omega), ok_bind, ek, ok_bind, ec, ok_bind]
  have := C87_muladd (a := k) (b := q ++ (H seed).drop 32) (c := n) (pre := E) (old := pk) (post := msg) (by omega) (by rw [List.length_append]; omega) (by omega) hp
  rw [el, vk, vn, show (q ++ (H seed).drop 32).take 32 = q by rw [← lq, List.take_left], vq] at this
  exact this

/-! ### Verification -/

theorem y_unique {x x' y : Fp} (h : OnEd x y) (h' : OnEd x' y) : x' = x ∨ x' = -x := by
  rw [OnEd] at h h'
  have : (dN * y ^ 2 + 1) * ((x' - x) * (x' + x)) = 0 := by linear_combination h - h'
  rcases mul_eq_zero.mp ((mul_eq_zero.mp this).resolve_left (d_ne y)) with e | e
  · exact .inl (by linear_combination e)
  · exact .inr (by linear_combination e)

theorem x_unique {x x' y : Fp} {b : Nat} (h : OnEd x y) (h' : OnEd x' y) (hb : x = 0 ∨ x.val % 2 = b) (hb' : x' = 0 ∨ x'.val % 2 = b) : x' = x := by
  rcases y_unique h h' with e | e
  · exact e
  · by_cases h0 : x = 0
    · rw [e, h0, neg_zero]
    · have h1 : x' ≠ 0 := fun z => h0 (by rw [← neg_neg x, ← e, z, neg_zero])
      have a := hb.resolve_left h0
      have b := hb'.resolve_left h1
      rw [e, neg_parity h0] at b
      omega

/-- the scalar of a signature -/
def sigS (sig : List Byte) : Nat := leVal ((sig.drop 32).take 32)

/-- the signatures the code accepts, on the points of the specification -/
def Accepts (H : List Byte → List Byte) (pk msg sig : List Byte) : Prop :=
  sigS sig < L ∧ leVal (sig.take 32) % 2 ^ 255 ≠ 0 ∧ leVal pk % 2 ^ 255 ≠ 0 ∧
    ∃ R A, Rfc8032.OnCurve R ∧ Rfc8032.OnCurve A ∧ Rfc8032.encode R = sig.take 32 ∧
      A.2 = leVal pk % 2 ^ 255 ∧ (A.1 = 0 ∨ A.1 % 2 = leVal pk / 2 ^ 255) ∧
      Rfc8032.mul (sigS sig) Rfc8032.B = Rfc8032.add R (Rfc8032.mul (red (leVal (H (sig.take 32 ++ pk ++ msg)))) A)

theorem rep_onEd {a : Nat × Nat} (h : Rfc8032.OnCurve a) : OnEd (a.1 : Fp) (a.2 : Fp) := by
  obtain ⟨S, hS⟩ := Rep.exists h
  exact Ed.curve consts hS.2.2

theorem cast_zero_iff {n : Nat} (h : n < P) : (n : Fp) = 0 ↔ n = 0 := by
  constructor
  · intro e
    have := congrArg ZMod.val e
    rwa [nat_val h, ZMod.val_zero] at this
  · rintro rfl; exact Nat.cast_zero

theorem edCheck_ok {W : Nat} (hW : W = 32 ∨ W = 64) {digest : List Byte → M (List Byte)} {H : List Byte → List Byte} {N : Nat} (hH : Hash digest H N)
    {pk msg sig : List Byte} (hp : pk.length = 32) (hs : 64 ≤ sig.length) (hm : msg.length + 64 < N) (hS : sigS sig < L) {A : Ge3} {T : Pt} (hA : A.Is (-T)) {x y : Fp}
    (e : EdP (red (leVal (H (sig.take 32 ++ pk ++ msg))) • (-T) + sigS sig • Bpt) x y) :
    edCheck W digest sig msg pk A = .ok (decide (encPt x y = sig.take 32)) := by
  have sl : slice sig 0 32 = .ok (sig.take 32) := by rw [slice_ok (by omega), List.drop_zero]
  have sl2 : slice pk 0 32 = .ok pk := slice_holds (Holds.self pk) hp.symm
  have tl : (sig.take 32).length = 32 := by rw [List.length_take]; omega
  obtain ⟨h, eh, lh, vh⟩ := reduce_ok (hH.len (sig.take 32 ++ pk ++ msg))
  have L253 : L ≤ 2 ^ 253 := by decide
  obtain ⟨R, e1, hR⟩ := doubleScalar_ok (a := h) (b := sig) (off := 32) hA (by omega) (by omega) (by rw [vh]; exact Nat.le_trans (red_lt _).le L253) (Nat.le_trans hS.le L253)
  rw [vh] at hR
  have e2 : geToBytes W (List.replicate 32 0) R.x R.y R.z = .ok (encPt x y) := (hR.toBytes hW e (s := List.replicate 32 0) (by rw [List.length_replicate])).trans (by
    rw [List.drop_eq_nil_of_le (by rw [List.length_replicate]), List.append_nil])
  have el := encPt_len x y
  have sl3 : slice (encPt x y) 0 32 = .ok (encPt x y) := slice_holds (Holds.self _) el.symm
  rw [edCheck, sl, ok_bind, sl2, ok_bind, hH.ok _ (by rw [List.length_append, List.length_append]; omega), ok_bind, eh, ok_bind, e1, ok_bind, e2, ok_bind,
    scVerify_ok (by omega) (by omega), ok_bind, ok_bind, sl3, ok_bind, List.take_of_length_le (by omega)]
  rw [pure_eq_ok]
  congr 1
  by_cases c : encPt x y = sig.take 32
  · rw [decide_eq_true c, ← c, Bool.true_and, beq_self_eq_true]
  · rw [decide_eq_false c, Bool.false_and]

theorem edVerify_ok {W : Nat} (hW : W = 32 ∨ W = 64) {digest : List Byte → M (List Byte)} {H : List Byte → List Byte} {N : Nat} (hH : Hash digest H N)
    {pk msg sig : List Byte} (hp : pk.length = 32) (hs : 64 ≤ sig.length) (hm : msg.length + 64 < N) :
    ∃ b, edVerify W digest sig msg pk = .ok b ∧ (b = true ↔ Accepts H pk msg sig) := by
  rw [edVerify, badScalar_ok hs, ok_bind]
  by_cases c1 : L ≤ leVal ((sig.drop 32).take 32)
  · rw [if_pos (by rw [decide_eq_true c1])]
    exact ⟨false, rfl, fun h => (Bool.false_ne_true h).elim, fun h => absurd h.1 (Nat.not_lt.mpr c1)⟩
  rw [if_neg (by rw [decide_eq_false c1]; exact Bool.false_ne_true), geSmallOrder_ok (by omega), ok_bind]
  by_cases c2 : leVal (sig.take 32) % 2 ^ 255 = 0
  · rw [if_pos (by rw [decide_eq_true c2])]
    exact ⟨false, rfl, fun h => (Bool.false_ne_true h).elim, fun h => absurd c2 h.2.1⟩
  have hpt : pk.take 32 = pk := List.take_of_length_le (by omega)
  rw [if_neg (by rw [decide_eq_false c2]; exact Bool.false_ne_true), geIsCanonical_ok (by omega), ok_bind, hpt]
  by_cases c3 : leVal pk % 2 ^ 255 < P
  swap
  · rw [if_pos (by rw [decide_eq_false c3]; rfl)]
    exact ⟨false, rfl, fun h => (Bool.false_ne_true h).elim, fun h => by
      obtain ⟨_, _, _, R, A, _, hA, _, h2, _⟩ := h
      exact absurd (h2 ▸ hA.2.1) c3⟩
  rw [if_neg (by rw [decide_eq_true c3]; exact Bool.false_ne_true), geSmallOrder_ok (by omega), ok_bind, hpt]
  by_cases c4 : leVal pk % 2 ^ 255 = 0
  · rw [if_pos (by rw [decide_eq_true c4])]
    exact ⟨false, rfl, fun h => (Bool.false_ne_true h).elim, fun h => absurd c4 h.2.2.1⟩
  rw [if_neg (by rw [decide_eq_false c4]; exact Bool.false_ne_true)]
  have hh := geFromBytesNeg_ok hW (s := pk) (by omega)
  rw [hpt] at hh
  rcases hh with ⟨xA, S, A, e, hS, hA, hb⟩ | ⟨e, no⟩
  swap
  · rw [e, ok_bind]
    refine ⟨false, rfl, fun h => (Bool.false_ne_true h).elim, fun h => ?_⟩
    obtain ⟨_, _, _, R, A, _, hA, _, h2, _⟩ := h
    exact absurd (h2 ▸ rep_onEd hA) (no _)
  rw [e, ok_bind]
  dsimp only
  obtain ⟨x, y, eT⟩ := ed_exists (red (leVal (H (sig.take 32 ++ pk ++ msg))) • (-S) + sigS sig • Bpt)
  rw [edCheck_ok hW hH hp hs hm (Nat.not_le.mp c1) hA eT]
  refine ⟨_, rfl, ?_⟩
  rw [decide_eq_true_iff]
  have rA : Rep (xA.val, leVal pk % 2 ^ 255) S := ⟨ZMod.val_lt xA, c3, by
    show EdP S ((xA.val : Nat) : Fp) _
    rw [ZMod.natCast_zmod_val]; exact hS⟩
  constructor
  · intro hE
    have rR := Rep.of eT
    refine ⟨Nat.not_le.mp c1, c2, c4, _, _, rR.curve, rA.curve, ?_, rfl, ?_, ?_⟩
    · rw [rR.enc, ZMod.natCast_zmod_val, ZMod.natCast_zmod_val, hE]
    · rcases hb with h | h
      · exact .inl (by rw [h, ZMod.val_zero])
      · exact .inr h
    · have := rR.add (rA.mul (red (leVal (H (sig.take 32 ++ pk ++ msg)))))
      refine Rep.inj (base_mul (sigS sig)) ?_
      convert this using 1
      rw [neg_nsmul]
      abel
  · rintro ⟨-, -, -, R', A', oR, oA, eR, h2, h3, eq⟩
    obtain ⟨TR, rR⟩ := Rep.exists oR
    obtain ⟨TA, rA'⟩ := Rep.exists oA
    have ex : (A'.1 : Fp) = xA := by
      refine x_unique (y := ((leVal pk % 2 ^ 255 : Nat) : Fp)) (b := leVal pk / 2 ^ 255) (Ed.curve consts hS) (h2 ▸ rep_onEd oA) hb ?_
      rcases h3 with h | h
      · exact .inl (by rw [h, Nat.cast_zero])
      · exact .inr (by rw [nat_val oA.1, h])
    have eA : TA = S := by
      have := rA'.2.2
      rw [ex, h2] at this
      exact ed_unique this hS
    subst eA
    have u := base_mul (sigS sig)
    rw [eq] at u
    have := u.unique (rR.add (rA'.mul _))
    have eTR : TR = red (leVal (H (sig.take 32 ++ pk ++ msg))) • (-TA) + sigS sig • Bpt := by
      rw [this, neg_nsmul]
      abel
    rw [← eR, rR.enc]
    have := rR.2.2
    rw [eTR] at this
    obtain ⟨f1, f2⟩ := Ed.inj consts eT this
    rw [f1, f2]

theorem verify_ok {W : Nat} (hW : W = 32 ∨ W = 64) {digest : List Byte → M (List Byte)} {H : List Byte → List Byte} {N : Nat} (hH : Hash digest H N)
    {pk sig : List Byte} (message : List Byte) (hp : pk.length = 32) (hs : 64 ≤ sig.length) (hm : sig.length < N) :
    (Accepts H pk (sig.drop 64) sig ∧ verify W digest message sig pk = .ok (true, sig.drop 64)) ∨
    (¬ Accepts H pk (sig.drop 64) sig ∧ verify W digest message sig pk = .ok (false, List.replicate message.length 0)) := by
  have hl : (sig.drop 64).length = sig.length - 64 := List.length_drop
  have c : copy sig 64 (List.replicate (sig.length - 64) 0) 0 (sig.length - 64) = .ok (sig.drop 64) :=
    copy_whole ⟨sig.take 64, [], by simp, by rw [List.length_take]; omega⟩ hl.symm (by rw [List.length_replicate, hl])
  obtain ⟨b, e, hb⟩ := edVerify_ok hW hH (msg := sig.drop 64) hp hs (by omega)
  rw [verify, if_neg (by omega)]
  show ((Accepts H pk (sig.drop 64) sig ∧ (copy sig 64 (List.replicate (sig.length - 64) 0) 0 (sig.length - 64) >>= _) = _) ∨ (_ ∧ (copy sig 64 (List.replicate (sig.length - 64) 0) 0 (sig.length - 64) >>= _) = _))
  rw [c, ok_bind, e, ok_bind]
  cases b with
  | true => exact .inl ⟨hb.mp rfl, rfl⟩
  | false => exact .inr ⟨fun h => Bool.false_ne_true (hb.mpr h), rfl⟩

end Cex.Ed25519
