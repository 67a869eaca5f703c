import Verif.Dilithium.SampleSpec

/-!
# Dilithium, keys, signatures and verification (specification of round 3 of the NIST project, figure 4)

Polynomials are given by their coefficients; `mul` is the product in `Z_q[X] / (X ^ 256 + 1)`, `f` is the permutation of the sponge.
-/

namespace Cex.Spec.Dilithium
open Cex Finset

/-- A parameter set (table 2 of the specification); `β = τ η`. -/
structure Parameters where
  K : Nat
  L : Nat
  eta : Nat
  tau : Nat
  gamma1 : Nat
  gamma2 : Nat
  omega : Nat

/-- Security level 2. -/
def level2 : Parameters := ⟨4, 4, 2, 39, 131072, 95232, 80⟩

/-- Security level 3. -/
def level3 : Parameters := ⟨6, 5, 4, 49, 524288, 261888, 55⟩

/-- Security level 5. -/
def level5 : Parameters := ⟨8, 7, 2, 60, 524288, 261888, 75⟩

/-- `β`. -/
def Parameters.beta (s : Parameters) : Nat := s.tau * s.eta

/-- A polynomial with integer coefficients, modulo `q`. -/
def red (x : Nat → Int) (k : Nat) : F := (x k : F)

/-- `x mod± q`. -/
def centre (x : F) : Int := cmod x.val 8380417

/-- The matrix for `ρ`: the transform of each entry is what `SHAKE128` gives. -/
def IsMatrix (f : List Byte → List Byte) (K L : Nat) (ρ : List Byte) (a : Nat → Nat → Nat → F) : Prop :=
  ∀ i j, i < K → j < L → ∃ cs, IsUniform f ρ (256 * i + j) cs ∧ ∀ (k n : Nat), cs[k]? = some n → ntt (a i j) k = (n : F)

/-- Row `i` of the product of a matrix with `L` columns and a vector. -/
def dot (L : Nat) (a : Nat → Nat → Nat → F) (v : Nat → Nat → F) (i k : Nat) : F := ∑ j ∈ range L, Lattice.mul (a i j) (v j) k

/-- The encoding of the high bits of a commitment. -/
def encW1 (s : Parameters) (w1 : Nat → Nat → Int) : List Byte := (List.range s.K).flatMap fun i => packPlain (w1Bits s.gamma2) (w1 i)

/-- Entries of `n` polynomials lie between `lo` and `hi`. -/
def Between (n : Nat) (lo hi : Int) (x : Nat → Nat → Int) : Prop := ∀ i k, i < n → k < 256 → lo ≤ x i k ∧ x i k ≤ hi

/-- The parts of a secret key. -/
structure SecretKey where
  ρ : List Byte
  key : List Byte
  tr : List Byte
  s1 : Nat → Nat → Int
  s2 : Nat → Nat → Int
  t0 : Nat → Nat → Int

/-- The bytes of a secret key. -/
def SecretKey.bytes (x : SecretKey) (s : Parameters) : List Byte := encSk s.K s.L s.eta x.ρ x.key x.tr x.s1 x.s2 x.t0

/-- The parts have the lengths and ranges of a secret key. -/
structure SecretKey.Fits (x : SecretKey) (s : Parameters) : Prop where
  ρ : x.ρ.length = 32
  key : x.key.length = 32
  tr : x.tr.length = 48
  s1 : Between s.L (-s.eta) s.eta x.s1
  s2 : Between s.K (-s.eta) s.eta x.s2
  t0 : Between s.K (-4095) 4096 x.t0

/-- `pk` is the public key for a secret key: `t = A s₁ + s₂`, `(t₁, t₀) = Power2Round(t)`, `pk = (ρ, t₁)` and `tr = CRH(pk)`. -/
def IsPublic (f : List Byte → List Byte) (s : Parameters) (x : SecretKey) (pk : List Byte) : Prop :=
  ∃ a, IsMatrix f s.K s.L x.ρ a ∧ ∃ t1 : Nat → Nat → Int, pk = encPk s.K x.ρ t1 ∧ x.tr = Fips202.shake f 136 pk 48 ∧
    ∀ i k, i < s.K → k < 256 → (t1 i k, x.t0 i k) = power2Round (dot s.L a (fun j => red (x.s1 j)) i k + red (x.s2 i) k).val

/-- What a secret key and a message determine: the matrix, the secrets, `μ` and `ρ'`. -/
structure Signing where
  f : List Byte → List Byte
  s : Parameters
  a : Nat → Nat → Nat → F
  s1 : Nat → Nat → Int
  s2 : Nat → Nat → Int
  t0 : Nat → Nat → Int
  μ : List Byte
  ρ' : List Byte

namespace Signing
variable (X : Signing) (κ : Nat) (c : Nat → Int)

/-- The mask of attempt `κ`. -/
def y (i : Nat) : Nat → F := red (mask X.f X.s.gamma1 X.ρ' (X.s.L * κ + i))

/-- `w = A y`. -/
def w : Nat → Nat → F := dot X.s.L X.a (X.y κ)

/-- `c~ = H(μ, w₁)`, with `w₁ = HighBits(w)`. -/
def hash : List Byte := Fips202.shake X.f 136 (X.μ ++ encW1 X.s fun i k => highBits X.s.gamma2 (X.w κ i k).val) 32

/-- `z = y + c s₁`. -/
def z (i k : Nat) : F := X.y κ i k + Lattice.mul (red c) (red (X.s1 i)) k

/-- `w - c s₂`. -/
def r (i k : Nat) : F := X.w κ i k - Lattice.mul (red c) (red (X.s2 i)) k

/-- `c t₀`. -/
def ct0 (i k : Nat) : F := Lattice.mul (red c) (red (X.t0 i)) k

/-- `h = MakeHint(-c t₀, w - c s₂ + c t₀)`. -/
def h (i k : Nat) : Bool := makeHint X.s.gamma2 (-(X.ct0 c i k).val) (X.r κ c i k + X.ct0 c i k).val

/-- The conditions for a signature, with `r₀ = LowBits(w - c s₂)`. -/
structure Accepts : Prop where
  /-- `‖z‖ < γ₁ - β`. -/
  z : ∀ i k, i < X.s.L → k < 256 → norm (X.z κ c i k) < X.s.gamma1 - X.s.beta
  /-- `‖r₀‖ < γ₂ - β`. -/
  r0 : ∀ i k, i < X.s.K → k < 256 → |(decompose X.s.gamma2 (X.r κ c i k).val).2| < (X.s.gamma2 : Int) - X.s.beta
  /-- `‖c t₀‖ < γ₂`. -/
  t0 : ∀ i k, i < X.s.K → k < 256 → norm (X.ct0 c i k) < X.s.gamma2
  /-- At most `ω` hints. -/
  hints : (allIndices (X.h κ c) X.s.K).length ≤ X.s.omega

/-- The signature of attempt `κ`. -/
def sig : List Byte := encSig X.s.K X.s.L X.s.gamma1 X.s.omega (X.hash κ) (fun i k => centre (X.z κ c i k)) (X.h κ c)

end Signing

/-- `sig` is the signature for a secret key and `msg`: that of the first attempt which is accepted. -/
def IsSignature (f : List Byte → List Byte) (s : Parameters) (x : SecretKey) (msg sig : List Byte) : Prop :=
  ∃ a μ ρ' κ c, IsMatrix f s.K s.L x.ρ a ∧ μ = Fips202.shake f 136 (x.tr ++ msg) 48 ∧ ρ' = Fips202.shake f 136 (x.key ++ μ) 48 ∧
    ∃ X : Signing, X = ⟨f, s, a, x.s1, x.s2, x.t0, μ, ρ'⟩ ∧
      (∀ j, j < κ → ∃ d, IsChallenge f s.tau (X.hash j) d ∧ ¬ X.Accepts j d) ∧ IsChallenge f s.tau (X.hash κ) c ∧ X.Accepts κ c ∧ sig = X.sig κ c

/-- Verification. -/
def Valid (f : List Byte → List Byte) (s : Parameters) (pk msg sig : List Byte) : Prop :=
  ∃ (ρ : List Byte) (t1 : Nat → Nat → Int) (ct : List Byte) (z : Nat → Nat → Int) (h : Nat → Nat → Bool) (a : Nat → Nat → Nat → F) (c : Nat → Int), ρ.length = 32 ∧ Between s.K 0 1023 t1 ∧ pk = encPk s.K ρ t1 ∧
    ct.length = 32 ∧ (∀ i k, i < s.L → k < 256 → |z i k| < (s.gamma1 : Int) - s.beta) ∧ (allIndices h s.K).length ≤ s.omega ∧ sig = encSig s.K s.L s.gamma1 s.omega ct z h ∧
    IsMatrix f s.K s.L ρ a ∧ IsChallenge f s.tau ct c ∧
    ct = Fips202.shake f 136 (Fips202.shake f 136 (Fips202.shake f 136 pk 48 ++ msg) 48 ++
      encW1 s fun i k => useHint s.gamma2 (h i k) (dot s.L a (fun j => red (z j)) i k - Lattice.mul (red c) (fun k => red (t1 i) k * 8192) k).val) 32

end Cex.Spec.Dilithium
