import Verif.Ec25519.Codec64
import Verif.Ec25519.Agreement

/-!
# Properties of the curve code (C83-C85)

`F10` is the field element of the path with ten 32-bit limbs, `F5` that of the path with 128-bit integers (selected where the compiler has
`__int128`). `.ok` as result says that no signed operation overflows. `W` is the width of `unsigned long`.
-/

namespace Cex.Ec25519

/-! ## C83: the field arithmetic -/

/-- C83: the operations of the 32-bit path compute modulo `2^255 - 19`, without overflow, on the limbs the curve code calls them with:
`Bd k` bounds the limbs by `k` times those of a carried element. -/
theorem C83_field32 :
    (∀ (f g : F10) (j k : Nat), f.Bd j → g.Bd k → j + k ≤ 3 → ∃ r, f.add g = .ok r ∧ r.Bd (j + k) ∧ r.val = f.val + g.val) ∧
    (∀ (f g : F10) (j k : Nat), f.Bd j → g.Bd k → j + k ≤ 3 → ∃ r, f.sub g = .ok r ∧ r.Bd (j + k) ∧ r.val = f.val - g.val) ∧
    (∀ f g : F10, f.Bd 3 → g.Bd 3 → ∃ r, f.mul g = .ok r ∧ r.Bd 1 ∧ r.val % P = f.val * g.val % P) ∧
    (∀ f : F10, f.Bd 3 → ∃ r, f.sq = .ok r ∧ r.Bd 1 ∧ r.val % P = f.val * f.val % P) ∧
    (∀ f : F10, f.Bd 2 → ∃ r, f.mul32 121666 = .ok r ∧ r.Bd 1 ∧ r.val % P = 121666 * f.val % P) ∧
    (∀ f : F10, f.Bd 3 → ∃ r, f.invert = .ok r ∧ r.Bd 1 ∧ r.val % P = f.val ^ (P - 2) % P) ∧
    (∀ f g : F10, f.Bd 3 → g.Bd 3 → f.cSwap g 0 = (f, g) ∧ f.cSwap g 1 = (g, f)) := by
  have M : ∀ {a b c : Int}, a = b - c * P → a % P = b % P := fun h => modEq_of h
  refine ⟨fun f g j k hf hg h => F10.add_ok hf hg h, fun f g j k hf hg h => F10.sub_ok hf hg h, fun f g hf hg => ?_, fun f hf => ?_, fun f hf => ?_, fun f hf => ?_,
    fun f g hf hg => ⟨F10.cSwap_zero hf hg, F10.cSwap_one hf hg⟩⟩
  · obtain ⟨r, e, b, c, h⟩ := F10.mul_ok hf hg
    exact ⟨r, e, b, M h⟩
  · obtain ⟨r, e, b, c, h⟩ := F10.sq_ok hf
    exact ⟨r, e, b, M h⟩
  · obtain ⟨r, e, b, c, h⟩ := F10.mul32_ok hf
    exact ⟨r, e, b, M h⟩
  · obtain ⟨r, e, h⟩ := F10.invert_ok (z := f) (x := f.val) ⟨hf, Int.ModEq.refl _⟩
    exact ⟨r, e, h.1, h.2⟩

/-- C83: decoding and encoding of the 32-bit path: the low 255 bits of the 32 bytes, and the canonical representative. -/
theorem C83_codec32 {W : Nat} (hW : W = 32 ∨ W = 64) :
    (∀ s : List Byte, 32 ≤ s.length → ∃ r, F10.fromBytes s = .ok r ∧ r.Bd 1 ∧ r.val % P = ((leVal (s.take 32) % 2 ^ 255 : Nat) : Int) % P) ∧
    (∀ (f : F10) (s : List Byte), f.Bd 1 → s.length = 32 → f.toBytes W s = .ok (leEnc 32 (f.val % P).toNat)) := by
  refine ⟨fun s hs => ?_, fun f s hf hs => ?_⟩
  · obtain ⟨r, e, b, c, h⟩ := F10.fromBytes_ok hs
    exact ⟨r, e, b, modEq_of h⟩
  · have h0 : 0 ≤ f.val % (P : Int) := Int.emod_nonneg _ (by decide)
    have h1 : f.val % (P : Int) < P := Int.emod_lt_of_pos _ (by decide)
    refine F10.Rep.toBytes hW ⟨hf, ?_⟩ (by omega) hs
    rw [Int.toNat_of_nonneg h0]
    exact (Int.mod_modEq _ _).symm

/-- the limbs of the product of a carried element and itself, as an instance of the bounds -/
example : (⟨1, 2, 3, 4, 5, 6, 7, 8, 9, 10⟩ : F10).Bd 1 := ⟨by decide, by decide, by decide, by decide, by decide, by decide, by decide, by decide, by decide, by decide⟩

/-- C83: the operations of the path with 128-bit integers compute modulo `2^255 - 19`; decoding and encoding as in C83_codec32. The full statement would add
that `cSwap` exchanges its operands for `B = 1` and that `copy` copies; both are refuted below. -/
theorem C83_field64_partial :
    (∀ f g : F5, f.Lt (2 ^ 52) → g.Lt (2 ^ 52) → (f.add g).Lt (2 ^ 53) ∧ (f.add g).val = f.val + g.val) ∧
    (∀ f g : F5, f.Lt (2 ^ 52) → g.Lt (2 ^ 52) → (f.sub g).Lt (2 ^ 53) ∧ ((f.sub g).val : Int) % P = (f.val - g.val) % P) ∧
    (∀ f g : F5, f.Lt (2 ^ 53) → g.Lt (2 ^ 53) → (f.mul g).Lt (2 ^ 51 + 1) ∧ (f.mul g).val % P = f.val * g.val % P) ∧
    (∀ f : F5, f.Lt (2 ^ 53) → f.sq.Lt (2 ^ 51 + 1) ∧ f.sq.val % P = f.val * f.val % P) ∧
    (∀ (f : F5) (n : Nat), f.Lt (2 ^ 53) → n < 2 ^ 32 → (f.mul32 n).Lt (2 ^ 52) ∧ (f.mul32 n).val % P = n * f.val % P) ∧
    (∀ s : List Byte, 32 ≤ s.length → ∃ r, F5.fromBytes s = .ok r ∧ r.Lt (2 ^ 51) ∧ r.val = leVal (s.take 32) % 2 ^ 255) ∧
    (∀ (f : F5) (s : List Byte), f.Lt (2 ^ 53) → s.length = 32 → f.toBytes s = .ok (leEnc 32 (f.val % P))) ∧
    (∀ f g : F5, f.cSwap g 0 = (f, g)) := by
  have M : ∀ {a b c : Int}, a = b - c * P → a % P = b % P := fun h => modEq_of h
  have Mn : ∀ {a b : Nat} {c : Int}, (a : Int) = (b : Int) - c * P → a % P = b % P := fun h => by exact_mod_cast M h
  refine ⟨fun f g hf hg => ?_, fun f g hf hg => ?_, fun f g hf hg => ?_, fun f hf => ?_, fun f n hf hn => ?_, fun s hs => ?_, fun f s hf hs => F5.toBytes_ok hf hs,
    fun f g => ?_⟩
  · exact F5.add_ok hf hg (by decide)
  · obtain ⟨b, c, h⟩ := F5.sub_ok hf hg
    exact ⟨b, M h⟩
  · obtain ⟨b, c, h⟩ := F5.mul_ok hf hg
    exact ⟨b, Mn (c := c) (by push_cast; exact h)⟩
  · obtain ⟨b, c, h⟩ := F5.sq_ok hf
    exact ⟨b, Mn (c := c) (by push_cast; exact h)⟩
  · obtain ⟨b, c, h⟩ := F5.mul32_ok hf hn
    exact ⟨b, Mn (c := c) (by push_cast; exact h)⟩
  · exact ⟨_, F5.fromBytes_ok hs, digits_lt _, digits_val _⟩
  · have z : (~~~(0 : BitVec 32) + 1).toNat = 0 := by decide
    simp only [F5.cSwap, swapLimb64, z, Nat.and_zero, Nat.xor_zero]

/-- C83 refuted for the conditional swap of the path with 128-bit integers (CEX/EC25519.cpp:304): the mask is a 32-bit negation, so the upper halves of the
limbs stay; no two elements whose limbs differ there are exchanged. -/
theorem C83_swap64_refuted (f g : F5) (h : f.a0 < 2 ^ 64 ∧ g.a0 < 2 ^ 64) (hd : f.a0 / 2 ^ 32 ≠ g.a0 / 2 ^ 32) : f.cSwap g 1 ≠ (g, f) := by
  intro e
  have e0 : (swapLimb64 1 f.a0 g.a0).1 = g.a0 := congrArg (fun x : F5 × F5 => x.1.a0) e
  apply hd
  have z : (~~~(1 : BitVec 32) + 1).toNat = 2 ^ 32 - 1 := by decide
  rw [swapLimb64, z] at e0
  dsimp only at e0
  rw [← e0]
  apply Nat.eq_of_testBit_eq
  intro i
  simp only [Nat.testBit_div_two_pow, Nat.testBit_xor, Nat.testBit_and, Nat.testBit_two_pow_sub_one]
  simp [show ¬ (32 + i < 32) from by omega, show ¬ (i + 32 < 32) from by omega]

example : (⟨2 ^ 40, 0, 0, 0, 0⟩ : F5).a0 / 2 ^ 32 ≠ F5.one.a0 / 2 ^ 32 := by decide

/-- C83 refuted for the copy of the path with 128-bit integers (CEX/EC25519.cpp:358-361): 20 of the 40 bytes are copied, so an element with a nonzero limb
above them does not arrive in a cleared one. -/
theorem C83_copy64_refuted (f : F5) (h : f.a3 ≠ 0 ∨ f.a4 ≠ 0 ∨ 2 ^ 32 ≤ f.a2) : F5.zero.copy f ≠ f := by
  intro e
  have e2 := congrArg F5.a2 e
  have e3 := congrArg F5.a3 e
  have e4 := congrArg F5.a4 e
  simp only [F5.copy, F5.zero] at e2 e3 e4
  omega

/-- C83 refuted for the reduction of the 32-bit path where `unsigned long` has 32 bits, in the range its comment allows (limbs of at most `1.1 * 2^26` and
`1.1 * 2^25` in absolute value, CEX/EC25519.cpp:1660): the shift of the quotient estimate is logical. The curve code only calls it with carried elements
(C83_codec32). -/
theorem C83_reduce32_refuted : ∃ f t : F10, f.a0 = -10 ∧ f.a9 = -2 ^ 25 ∧ f.a1 = 0 ∧ f.a2 = 0 ∧ f.a3 = 0 ∧ f.a4 = 0 ∧ f.a5 = 0 ∧ f.a6 = 0 ∧ f.a7 = 0 ∧ f.a8 = 0 ∧
    f.reduce 32 = .ok t ∧ t.val % P ≠ f.val % P := by
  refine ⟨⟨-10, 0, 0, 0, 0, 0, 0, 0, 0, -2 ^ 25⟩, _, rfl, rfl, rfl, rfl, rfl, rfl, rfl, rfl, rfl, rfl, rfl, ?_⟩
  decide +kernel

/-! ## C84: the key exchange -/

/-- C84: on the 32-bit path, with keys of at least 32 bytes and no domain key, `ECDH::KeyExchange` delivers X25519 of the keys, and answers false (leaving the
secret alone) exactly when that is zero. Missing: the path with 128-bit integers and domain keys, both refuted below. -/
theorem C84_kex_partial {W : Nat} (hW : W = 32 ∨ W = 64) {pub priv secret : List Byte} (hn : 32 ≤ priv.length) (hp : 32 ≤ pub.length) :
    keyExchange (ref10x32 W) [] pub priv secret =
      .ok (if x25519 (priv.take 32) (pub.take 32) = List.replicate 32 0 then (false, secret) else (true, x25519 (priv.take 32) (pub.take 32))) := by
  rw [keyExchange_ok hW hn hp]
  congr 1
  have e : x25519 (priv.take 32) (pub.take 32) = List.replicate 32 0 ↔ x25519Nat (decodeScalar (priv.take 32)) (decodeU (pub.take 32)) = 0 := by
    rw [← leVal_x25519]
    constructor
    · intro h; rw [h]; decide
    · intro h
      have : x25519 (priv.take 32) (pub.take 32) = leEnc 32 0 := eq_leEnc (x25519_length _ _) (by rw [h])
      rw [this]; decide
  by_cases h : x25519Nat (decodeScalar (priv.take 32)) (decodeU (pub.take 32)) = 0
  · rw [if_pos h, if_pos (e.mpr h)]
  · rw [if_neg h, if_neg (fun x => h (e.mp x))]

/-- C84: two parties whose public keys are X25519 of their private keys and any common point get the same answer and the same secret on the 32-bit path, even
where their `unsigned long` differs. Missing as in C84_kex_partial. -/
theorem C84_agreement_partial {W W' : Nat} (hW : W = 32 ∨ W = 64) (hW' : W' = 32 ∨ W' = 64) {a b base secret : List Byte} (ha : a.length = 32) (hb : b.length = 32) :
    keyExchange (ref10x32 W) [] (x25519 b base) a secret = keyExchange (ref10x32 W') [] (x25519 a base) b secret := by
  have t : ∀ {x : List Byte}, x.length = 32 → x.take 32 = x := fun h => List.take_of_length_le (by omega)
  rw [C84_kex_partial hW (by omega) (by rw [x25519_length]), C84_kex_partial hW' (by omega) (by rw [x25519_length]), t ha, t hb, t (x25519_length _ _),
    t (x25519_length _ _), x25519_comm]

/-- X25519 in a form the kernel evaluates -/
theorem x25519_eval {k u r : List Byte} (h : leEnc 32 (fmul (ladder (decodeScalar k) (decodeU u)).x2 (powMod P 255 (ladder (decodeScalar k) (decodeU u)).z2 (P - 2))) = r) :
    x25519 k u = r := by
  rw [powMod_ok _ _ _ _ (by decide)] at h
  exact h

/-- the scalar of the first test vector of RFC 7748, section 5.2 -/
def rfcK : List Byte := [0xa5, 0x46, 0xe3, 0x6b, 0xf0, 0x52, 0x7c, 0x9d, 0x3b, 0x16, 0x15, 0x4b, 0x82, 0x46, 0x5e, 0xdd, 0x62, 0x14, 0x4c, 0x0a, 0xc1, 0xfc, 0x5a, 0x18, 0x50, 0x6a,
  0x22, 0x44, 0xba, 0x44, 0x9a, 0xc4]
/-- the u-coordinate of that vector -/
def rfcU : List Byte := [0xe6, 0xdb, 0x68, 0x67, 0x58, 0x30, 0x30, 0xdb, 0x35, 0x94, 0xc1, 0xa4, 0x24, 0xb1, 0x5f, 0x7c, 0x72, 0x66, 0x24, 0xec, 0x26, 0xb3, 0x35, 0x3b, 0x10, 0xa9,
  0x03, 0xa6, 0xd0, 0xab, 0x1c, 0x4c]
/-- its result -/
def rfcR : List Byte := [0xc3, 0xda, 0x55, 0x37, 0x9d, 0xe9, 0xc6, 0x90, 0x8e, 0x94, 0xea, 0x4d, 0xf2, 0x8d, 0x08, 0x4f, 0x32, 0xec, 0xcf, 0x03, 0x49, 0x1c, 0x71, 0xf7, 0x54, 0xb4,
  0x07, 0x55, 0x77, 0xa2, 0x85, 0x52]

set_option maxRecDepth 100000 in
/-- the specification meets the test vector of the RFC -/
theorem rfc_vector : x25519 rfcK rfcU = rfcR := x25519_eval (by decide +kernel)

/-- and with C84 so does the 32-bit path -/
example : keyExchange (ref10x32 64) [] rfcU rfcK [] = .ok (true, rfcR) := by
  rw [C84_kex_partial (Or.inr rfl) (by decide) (by decide), show rfcK.take 32 = rfcK by decide, show rfcU.take 32 = rfcU by decide, rfc_vector,
    if_neg (by decide)]

set_option maxRecDepth 100000 in
theorem kex64_vector : keyExchange ref10x64 [] rfcU rfcK [] =
    .ok (true, [0x19, 0xa8, 0xb7, 0x24, 0xf8, 0x9f, 0xf4, 0x2b, 0xda, 0x5d, 0xf0, 0x5b, 0x68, 0xc0, 0x28, 0xe8, 0xd2, 0x86, 0x2c, 0xe6, 0xc4, 0x1e, 0x92, 0xeb, 0x60, 0x7b,
      0xbc, 0x8f, 0x7d, 0x5d, 0x08, 0x5a]) := by decide +kernel

/-- C84 refuted for the path with 128-bit integers (the one compiled on 64-bit GCC and Clang): on the test vector of RFC 7748 the secret is not X25519. -/
theorem C84_kex64_refuted : keyExchange ref10x64 [] rfcU rfcK [] ≠ .ok (true, x25519 rfcK rfcU) := by
  rw [kex64_vector, rfc_vector]
  decide

/-- a private key of the next theorem -/
def privA : List Byte := List.replicate 32 1
/-- the other one -/
def privB : List Byte := List.replicate 32 2
/-- the base point -/
def baseU : List Byte := 9 :: List.replicate 31 0
/-- the public key of `privA` -/
def pubA : List Byte := [0xa4, 0xe0, 0x92, 0x92, 0xb6, 0x51, 0xc2, 0x78, 0xb9, 0x77, 0x2c, 0x56, 0x9f, 0x5f, 0xa9, 0xbb, 0x13, 0xd9, 0x06, 0xb4, 0x6a, 0xb6, 0x8c, 0x9d, 0xf9, 0xdc,
  0x2b, 0x44, 0x09, 0xf8, 0xa2, 0x09]
/-- the public key of `privB` -/
def pubB : List Byte := [0xce, 0x8d, 0x3a, 0xd1, 0xcc, 0xb6, 0x33, 0xec, 0x7b, 0x70, 0xc1, 0x78, 0x14, 0xa5, 0xc7, 0x6e, 0xcd, 0x02, 0x96, 0x85, 0x05, 0x0d, 0x34, 0x47, 0x45, 0xba,
  0x05, 0x87, 0x0e, 0x58, 0x7d, 0x59]

set_option maxRecDepth 100000 in
theorem pub_keys : x25519 privA baseU = pubA ∧ x25519 privB baseU = pubB ∧ x25519 privA pubB = x25519 privB pubA :=
  ⟨x25519_eval (by decide +kernel), x25519_eval (by decide +kernel), (x25519_eval rfl).trans (x25519_eval (by decide +kernel)).symm⟩

set_option maxRecDepth 100000 in
/-- C84 refuted for the path with 128-bit integers: two parties with X25519 key pairs arrive at different secrets, and both calls answer true. -/
theorem C84_agreement64_refuted : ∃ a b sa sb : List Byte, a.length = 32 ∧ b.length = 32 ∧
    keyExchange ref10x64 [] (x25519 b baseU) a [] = .ok (true, sa) ∧ keyExchange ref10x64 [] (x25519 a baseU) b [] = .ok (true, sb) ∧ sa ≠ sb := by
  refine ⟨privA, privB, [0xa5, 0x78, 0x90, 0x2e, 0xcf, 0x15, 0xc3, 0xae, 0x3d, 0xb8, 0x14, 0x8e, 0x5e, 0x1c, 0x39, 0xc6, 0x78, 0x3f, 0xbc, 0xc8, 0x54, 0xf3, 0x97, 0xd7, 0x80, 0x4c, 0xbf, 0x62, 0xb8, 0xb6, 0xcd, 0x35],
    [0xc0, 0xf6, 0x5d, 0xf7, 0x40, 0xf8, 0x77, 0x33, 0x91, 0xd7, 0xe9, 0x84, 0x06, 0xe7, 0xf0, 0xc3, 0x9b, 0xa4, 0x72, 0x17, 0xa9, 0xe7, 0x8d, 0x8c, 0x06, 0x2f, 0xce, 0x3f, 0xe8, 0xc0, 0x66, 0x08], by decide, by decide, ?_, ?_, by decide⟩
  · rw [pub_keys.2.1]; decide +kernel
  · rw [pub_keys.1]; decide +kernel

/-- C84 refuted for domain keys, on either path: wherever the exchange succeeds without one, it is undefined with one (CEX/ECDH.cpp:218: a vector built from
iterators of two different temporaries). -/
theorem C84_domain_refuted {ref10 : List Byte → List Byte → List Byte → M (Int × List Byte)} {domain pub priv secret s : List Byte} (hd : domain ≠ [])
    (h : keyExchange ref10 [] pub priv secret = .ok (true, s)) : keyExchange ref10 domain pub priv secret = .error .ub := by
  rw [keyExchange] at h ⊢
  match hm : scalarMult ref10 (List.replicate 32 0) priv pub with
  | .error e => rw [hm] at h; exact absurd h (by simp [bind, Except.bind])
  | .ok (r, sec) =>
    rw [hm] at h
    rw [ok_bind] at h ⊢
    dsimp only at h ⊢
    by_cases hr : r = 0
    · rw [if_pos hr, if_pos (by simpa using hd)]; rfl
    · rw [if_neg hr] at h
      exact absurd h (by simp [pure, Except.pure])

/-- the hypothesis is met on the test vector of the RFC -/
example : keyExchange ref10x64 [1] rfcU rfcK [] = .error .ub := C84_domain_refuted (by decide) kex64_vector

/-! ## C85: points of small order -/

/-- C85: `Ed25519SmallOrder` answers true exactly for the encodings of 0; the full statement has all seven encodings of its list, with either top bit. -/
theorem C85_smallOrder_partial {p : List Byte} (h : 32 ≤ p.length) : smallOrder p = .ok (decide (leVal (p.take 32) % 2 ^ 255 = 0)) := smallOrder_ok h

/-- C85 refuted: of the seven encodings in the list of `Ed25519SmallOrder` only the first is recognised; the bound of the loops is the quotient of the sizes of
two vector objects, which is 1 (CEX/EC25519.cpp:5436). -/
theorem C85_smallOrder_refuted : ∀ i, 0 < i → i < 7 → ∃ e, blocklist[i]? = some e ∧ smallOrder e = .ok false := by
  intro i h0 h7
  have : ∀ i : Fin 7, 0 < i.val → ∃ e, blocklist[i.val]? = some e ∧ e.length = 32 ∧ leVal e % 2 ^ 255 ≠ 0 := by
    intro i hi
    match i with
    | ⟨1, _⟩ => exact ⟨_, rfl, by decide, by decide +kernel⟩
    | ⟨2, _⟩ => exact ⟨_, rfl, by decide, by decide +kernel⟩
    | ⟨3, _⟩ => exact ⟨_, rfl, by decide, by decide +kernel⟩
    | ⟨4, _⟩ => exact ⟨_, rfl, by decide, by decide +kernel⟩
    | ⟨5, _⟩ => exact ⟨_, rfl, by decide, by decide +kernel⟩
    | ⟨6, _⟩ => exact ⟨_, rfl, by decide, by decide +kernel⟩
  obtain ⟨e, he, hl, hv⟩ := this ⟨i, h7⟩ h0
  refine ⟨e, he, ?_⟩
  rw [smallOrder_ok (by omega), List.take_of_length_le (by omega), decide_eq_false hv]

/-- C85: nevertheless all seven, with either top bit, are refused by the key exchange on the 32-bit path: their multiples by clamped scalars are the neutral
element, and a zero result is refused. -/
theorem C85_rejected {W : Nat} (hW : W = 32 ∨ W = 64) {e pub priv secret : List Byte} (he : e ∈ blocklist) (hp : 32 ≤ pub.length) (hn : 32 ≤ priv.length)
    (hm : leVal (pub.take 32) % 2 ^ 255 = leVal e) : keyExchange (ref10x32 W) [] pub priv secret = .ok (false, secret) := by
  have hd : ∀ e ∈ blocklist, double8 (leVal e % P) = 0 := by decide +kernel
  rw [keyExchange_ok hW hn hp, if_pos]
  obtain ⟨h1, h2⟩ := decodeScalar_ok (priv.take 32)
  refine x25519Nat_small h1 h2 (Nat.mod_lt _ P_pos) ?_
  rw [decodeU, hm]
  exact hd e he

/-- the entry 1 with the top bit set -/
example : keyExchange (ref10x32 64) [] (1 :: List.replicate 30 0 ++ [0x80]) rfcK [] = .ok (false, []) :=
  C85_rejected (e := 1 :: List.replicate 31 0) (Or.inr rfl) (by decide) (by decide) (by decide) (by decide +kernel)

/-- C85: on the 32-bit path an all-zero secret is never delivered, whatever the public key. -/
theorem C85_zero_secret {W : Nat} (hW : W = 32 ∨ W = 64) {pub priv secret s : List Byte} (hn : 32 ≤ priv.length) (hp : 32 ≤ pub.length)
    (h : keyExchange (ref10x32 W) [] pub priv secret = .ok (true, s)) : s ≠ List.replicate 32 0 := by
  rw [C84_kex_partial hW hn hp] at h
  split at h
  · exact absurd h (by simp)
  · next hne =>
    have := congrArg (fun x : M (Bool × List Byte) => match x with | .ok y => y.2 | .error _ => []) h
    dsimp only at this
    rw [← this]
    exact hne

end Cex.Ec25519
