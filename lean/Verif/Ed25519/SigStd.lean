import Verif.Ed25519.SigLemmas

/-! # The signatures of the code and those of RFC 8032 -/

namespace Cex.Ed25519

open Cex.Ec25519 Cex.IntTools

theorem encode_inj {a b : Nat × Nat} {S T : Pt} (h : Rep a S) (h' : Rep b T) (e : Rfc8032.encode a = Rfc8032.encode b) : S = T := by
  rw [h.enc, h'.enc] at e
  obtain ⟨e1, e2⟩ := encPt_inj e
  have c1 := h.2.2
  have c2 := h'.2.2
  rw [← e1] at c2
  have := x_unique (b := ((a.1 : Nat) : Fp).val % 2) (Ed.curve consts c1) (Ed.curve consts c2) (.inr rfl) (.inr e2.symm)
  rw [this] at c2
  exact ed_unique c1 c2

theorem L_prime : Nat.Prime L := by
  have h : L = 7237005577332262213973186563042994240857116359379907606001950938285454250989 := by decide
  rw [h]
  exact prime_7237005577332262213973186563042994240857116359379907606001950938285454250989

theorem addOrder {n : Nat} (hn : n = L) : addOrderOf Bpt = n := by
  have h := addOrderOf_dvd_of_nsmul_eq_zero (order_ok hn)
  have hp : n.Prime := hn ▸ L_prime
  rcases (Nat.dvd_prime hp).mp h with e | e
  · exact absurd (AddMonoid.addOrderOf_eq_one_iff.mp e) Bpt_ne
  · exact e

theorem mul_inj {a b : Nat} : a • Bpt = b • Bpt ↔ a % L = b % L := by
  rw [nsmul_inj_mod, addOrder rfl]

theorem secret_mod (t : Nat) : (t * 8 + 2 ^ 254) % 8 = 0 := by
  rw [show t * 8 + 2 ^ 254 = 8 * (t + 2 ^ 251) by ring]
  exact Nat.mul_mod_right _ _

theorem secret_ne (k : List Byte) : ¬ L ∣ decodeScalar k := by
  rintro ⟨m, hm⟩
  have h1 := (decodeScalar_ok k).1
  have h2 : decodeScalar k % 8 = 0 ∧ 0 < decodeScalar k := by
    rw [decodeScalar]
    exact ⟨secret_mod _, Nat.lt_of_lt_of_le (Nat.two_pow_pos 254) (Nat.le_add_left _ _)⟩
  rw [hm] at h1 h2
  have hm8 : m < 8 := by
    by_contra c
    have c1 : L * 8 ≤ L * m := Nat.mul_le_mul_left _ (Nat.not_lt.mp c)
    have c2 : 2 ^ 255 < L * 8 := by decide
    exact Nat.lt_irrefl _ (Nat.lt_trans c2 (Nat.lt_of_le_of_lt c1 h1))
  have hd : 8 ∣ m := (show Nat.Coprime 8 L by decide).dvd_of_dvd_mul_left (Nat.dvd_of_mod_eq_zero h2.1)
  have h0 : m = 0 := Nat.eq_zero_of_dvd_of_lt hd hm8
  rw [h0, Nat.mul_zero] at h2
  exact Nat.lt_irrefl _ h2.2

theorem red_of {n : Nat} (h : ¬ Wraps n) : red n = n % L := by rw [red, if_neg h, Nat.add_zero]
theorem red_wrap {n : Nat} (h : Wraps n) : red n = (n + 2 ^ 274) % L := by rw [red, if_pos h]

theorem red_mul_ne {n : Nat} (h : Wraps n) : red n • Bpt ≠ n • Bpt := by
  rw [red_wrap h, mod_order, Ne, mul_inj]
  exact offset_ne n

theorem codeSign_iff {H : List Byte → List Byte} {seed msg : List Byte} :
    codeSign H seed (Rfc8032.publicKey H seed) msg = Rfc8032.sign H seed msg ↔
      ¬ Wraps (leVal (H ((H seed).drop 32 ++ msg))) ∧
      ¬ Wraps (leVal (H (Rfc8032.encode (Rfc8032.mul (leVal (H ((H seed).drop 32 ++ msg))) Rfc8032.B) ++ Rfc8032.publicKey H seed ++ msg))) := by
  rw [codeSign, Rfc8032.sign, L_eq]
  have hs : ¬ L ∣ Rfc8032.secret H seed := secret_ne _
  generalize Rfc8032.secret H seed = s at *
  generalize leVal (H ((H seed).drop 32 ++ msg)) = r at *
  generalize Rfc8032.publicKey H seed = pk at *
  have lt : ∀ n, n % L % 256 ^ 32 = n % L := fun n => Nat.mod_eq_of_lt (Nat.lt_trans (Nat.mod_lt _ L_pos) L_lt)
  constructor
  · intro h
    obtain ⟨h1, h2⟩ := List.append_inj h (by rw [encode_len, encode_len])
    have hw : ¬ Wraps r := fun w => red_mul_ne w (encode_inj (base_mul _) (base_mul _) h1)
    refine ⟨hw, fun w => ?_⟩
    rw [h1] at h2
    generalize leVal (H (Rfc8032.encode (Rfc8032.mul r Rfc8032.B) ++ pk ++ msg)) = k at *
    have h2 := congrArg leVal h2
    rw [leVal_leEnc, leVal_leEnc, lt, lt, red_of hw, red_wrap w, Nat.add_mod, Nat.mul_mod, Nat.mod_mod, Nat.mod_mod, ← Nat.mul_mod, ← Nat.add_mod,
      show (k + 2 ^ 274) * s + r = (r + k * s) + 2 ^ 274 * s by ring] at h2
    have h3 := Nat.sub_mod_eq_zero_of_mod_eq h2
    rw [Nat.add_sub_cancel_left] at h3
    have c : Nat.Coprime L (2 ^ 274) := Nat.Coprime.pow_right _ (by decide)
    exact hs (c.dvd_of_dvd_mul_left (Nat.dvd_of_mod_eq_zero h3))
  · rintro ⟨hw, hk⟩
    have e : Rfc8032.mul (red r) Rfc8032.B = Rfc8032.mul r Rfc8032.B := by
      refine Rep.inj (base_mul _) ?_
      rw [red_of hw, mod_order]
      exact base_mul _
    rw [e, red_of hw, red_of hk]
    congr 2
    rw [Nat.add_mod, Nat.mul_mod, Nat.mod_mod, Nat.mod_mod, ← Nat.mul_mod, ← Nat.add_mod, Nat.add_comm]

/-- the fields of the encoding of a point -/
theorem encode_fields {a : Nat × Nat} {S : Pt} (h : Rep a S) : leVal (Rfc8032.encode a) % 2 ^ 255 = a.2 ∧ leVal (Rfc8032.encode a) / 2 ^ 255 = a.1 % 2 := by
  have hv := h.2.1.trans P_lt
  rw [h.enc, encPt_val, nat_val h.1, nat_val h.2.1, Nat.add_mul_mod_self_left, Nat.mod_eq_of_lt hv, Nat.add_mul_div_left _ _ (by decide), Nat.div_eq_of_lt hv, Nat.zero_add]
  exact ⟨rfl, rfl⟩

theorem rep_y_ne {a : Nat × Nat} {S : Pt} (h : Rep a S) (h1 : L • S = 0) : a.2 ≠ 0 := fun z =>
  sub_y_ne h1 h.2.2 (by rw [z, Nat.cast_zero])

theorem accepts_own {H : List Byte → List Byte} {seed msg : List Byte} (post : List Byte) :
    Accepts H (Rfc8032.publicKey H seed) msg (codeSign H seed (Rfc8032.publicKey H seed) msg ++ post) := by
  have tk : ∀ {E s : List Byte}, E.length = 32 → s.length = 32 → (E ++ s ++ post).take 32 = E ∧ ((E ++ s ++ post).drop 32).take 32 = s := fun {E s} h1 h2 => by
    rw [List.append_assoc]
    exact ⟨List.take_left' h1, by rw [List.drop_left' h1, List.take_left' h2]⟩
  rw [codeSign]
  have rp : Rep (Rfc8032.mul (Rfc8032.secret H seed) Rfc8032.B) (Rfc8032.secret H seed • Bpt) := base_mul _
  have pe : Rfc8032.publicKey H seed = Rfc8032.encode (Rfc8032.mul (Rfc8032.secret H seed) Rfc8032.B) := rfl
  generalize red (leVal (H ((H seed).drop 32 ++ msg))) = r
  have rr := base_mul r
  obtain ⟨t1, t2⟩ := tk (E := Rfc8032.encode (Rfc8032.mul r Rfc8032.B)) (s := leEnc 32 ((red (leVal (H (Rfc8032.encode (Rfc8032.mul r Rfc8032.B) ++ Rfc8032.publicKey H seed ++ msg))) *
    Rfc8032.secret H seed + r) % L)) (encode_len _) (leEnc_length _ _)
  rw [Accepts, sigS, t1, t2]
  generalize red (leVal (H (Rfc8032.encode (Rfc8032.mul r Rfc8032.B) ++ Rfc8032.publicKey H seed ++ msg))) = k
  rw [leVal_leEnc, Nat.mod_eq_of_lt (Nat.lt_trans (Nat.mod_lt _ L_pos) L_lt)]
  obtain ⟨f1, f2⟩ := encode_fields rr
  rw [pe]
  generalize Rfc8032.secret H seed = s at *
  obtain ⟨g1, g2⟩ := encode_fields rp
  refine ⟨Nat.mod_lt _ L_pos, by rw [f1]; exact rep_y_ne rr (sub_mul _), by rw [g1]; exact rep_y_ne rp (sub_mul _), _, _, rr.curve, rp.curve, rfl, g1.symm, .inr g2.symm, ?_⟩
  refine Rep.inj (base_mul _) ?_
  rw [mod_order, add_smul, mul_smul, add_comm]
  exact rr.add (rp.mul k)

end Cex.Ed25519
