import Verif.Ed25519.Scalar
import Verif.Ec25519.Props
import Verif.Digest.Sha2Props
import Verif.Keccak.Sha3Props

/-!
# C86: the key pairs of ECDH
-/

namespace Cex.Ed25519

open Cex.Ec25519

/-- the base point of RFC 7748 -/
def basePt : List Byte := 9 :: List.replicate 31 0

/-- C86: `ScalarmultCurve25519Ref10Base`, which multiplies on the Edwards curve with the table of 256 points, gives X25519 of the private key and the base point 9,
for every private key and any contents of the buffer of the public key, and no integer overflows on the way. -/
theorem C86_base {W : Nat} (hW : W = 32 ∨ W = 64) {q n : List Byte} (hq : q.length = 32) (hn : 32 ≤ n.length) :
    ref10Base base W q n = .ok (x25519 (n.take 32) basePt) := ref10Base_ok hW hq hn

/-- C86: for every seed of 32 bytes `ECDH::Generate` gives the first half of the digest of the seed as the private key and its X25519 public key; every other seed
is refused. -/
theorem C86_generate {W : Nat} (hW : W = 32 ∨ W = 64) {digest : List Byte → M (List Byte)} {H : List Byte → List Byte}
    (hd : ∀ s, s.length = 32 → digest s = .ok (H s)) (hH : ∀ s, (H s).length = 64) (seed : List Byte) :
    ecdhGenerate base W digest seed = if seed.length = 32 then .ok (x25519 ((H seed).take 32) basePt, (H seed).take 32) else throw (.throws .invalidParam) := by
  rw [ecdhGenerate]
  by_cases h : seed.length = 32
  · have hl : ((H seed).take 32).length = 32 := by rw [List.length_take, hH]; rfl
    have hc : copy (H seed) 0 (List.replicate 32 0) 0 32 = .ok ((H seed).take 32) :=
      copy_whole ⟨[], (H seed).drop 32, by simp, rfl⟩ hl.symm (by rw [hl, List.length_replicate])
    rw [if_pos h, if_neg (by omega)]
    show (digest seed >>= _) = _
    rw [hd _ h, ok_bind, hc, ok_bind, C86_base hW List.length_replicate (by omega), ok_bind, List.take_take]
    rfl
  · rw [if_neg h, if_pos h]; rfl

/-- C86: two generated key pairs agree on the secret (32-bit path, no domain key). -/
theorem C86_agreement {W W' : Nat} (hW : W = 32 ∨ W = 64) (hW' : W' = 32 ∨ W' = 64) {digest digest' : List Byte → M (List Byte)} {H H' : List Byte → List Byte}
    (hd : ∀ s, s.length = 32 → digest s = .ok (H s)) (hH : ∀ s, (H s).length = 64) (hd' : ∀ s, s.length = 32 → digest' s = .ok (H' s)) (hH' : ∀ s, (H' s).length = 64)
    {seed seed' secret : List Byte} (hs : seed.length = 32) (hs' : seed'.length = 32) :
    ∃ pk sk pk' sk', ecdhGenerate base W digest seed = .ok (pk, sk) ∧ ecdhGenerate base W' digest' seed' = .ok (pk', sk') ∧
      keyExchange (ref10x32 W) [] pk' sk secret = keyExchange (ref10x32 W') [] pk sk' secret := by
  refine ⟨_, _, _, _, by rw [C86_generate hW hd hH, if_pos hs], by rw [C86_generate hW' hd' hH', if_pos hs'], ?_⟩
  exact C84_agreement_partial hW hW' (by rw [List.length_take, hH]; rfl) (by rw [List.length_take, hH']; rfl)

/-! ### The two digests of ECDH -/

/-- `Compute` of a SHA2-512 object -/
def sha2Digest (o : Digest.Obj 64) (s : List Byte) : M (List Byte) := do
  return (← o.compute (Digest.core512 false) s (List.replicate 64 0)).2

/-- `Compute` of a SHA3-512 object -/
def sha3Digest (o : Keccak.Buffered) (s : List Byte) : M (List Byte) := do
  return (← Keccak.Sha3.compute Keccak.permute24U 72 64 o s (List.replicate 64 0)).2

theorem beEnc_len (n v : Nat) : (beEnc n v).length = n := by simp [beEnc]

theorem sha512_len (m : List Byte) : (Digest.Fips.sha512 m).length = 64 := by
  show (Digest.Fips.V8.bytes _).length = 64
  simp [Digest.Fips.V8.bytes, beEnc_len]

theorem sha2Digest_ok {o : Digest.Obj 64} (ho : Digest.Obj.Run (Digest.core512 false) o []) {s : List Byte} (hs : s.length = 32) : sha2Digest o s = .ok (Digest.Fips.sha512 s) := by
  obtain ⟨o1, h1⟩ := ((Digest.C36_sha512_partial false).2 o [] ho).1 ⟨s, 0, s.length, by omega, by omega⟩
  have r := Digest.Obj.Run.update _ ho h1
  obtain ⟨o2, h2⟩ := ((Digest.C36_sha512_partial false).2 o1 _ r).2.2 (Digest.C36_sha512_partial_range _ (by
    show (([] : List Byte) ++ (s.drop 0).take s.length).length < _
    simp [hs])) [] (List.replicate 64 0) [] (by simp) (by simp)
  simp only [List.nil_append, List.append_nil, List.length_nil] at h1 h2
  rw [sha2Digest, Digest.Obj.compute, if_neg (by simp), h1, ok_bind, h2, ok_bind]
  show pure (Digest.Fips.sha512 ((s.drop 0).take s.length)) = _
  simp [pure_eq_ok]

theorem sha3Digest_ok {o : Keccak.Buffered} (ho : Keccak.Sha3.Run Keccak.permute24U 72 64 o []) {s : List Byte} (hs : s.length = 32) :
    sha3Digest o s = .ok (Fips202.sha3 64 s) := by
  obtain ⟨o1, h1⟩ := (Keccak.Sha3.C45_sha3_512.2 o [] ho).2.2.2 s (List.replicate 64 0) (by omega) (by simp) (by simp)
  rw [sha3Digest, h1, ok_bind]
  simp [pure_eq_ok]

/-- C86 with SHA2-512 (parameter set S2) and SHA3-512 (parameter set S1), whatever the digest object did before its last reset. -/
theorem C86_generate_digests {W : Nat} (hW : W = 32 ∨ W = 64) {seed : List Byte} (hs : seed.length = 32) :
    (∀ o, Digest.Obj.Run (Digest.core512 false) o [] →
      ecdhGenerate base W (sha2Digest o) seed = .ok (x25519 ((Digest.Fips.sha512 seed).take 32) basePt, (Digest.Fips.sha512 seed).take 32)) ∧
    (∀ o, Keccak.Sha3.Run Keccak.permute24U 72 64 o [] →
      ecdhGenerate base W (sha3Digest o) seed = .ok (x25519 ((Fips202.sha3 64 seed).take 32) basePt, (Fips202.sha3 64 seed).take 32)) := by
  refine ⟨fun o ho => ?_, fun o ho => ?_⟩
  · rw [C86_generate hW (fun s h => sha2Digest_ok ho h) sha512_len, if_pos hs]
  · rw [C86_generate hW (fun s h => sha3Digest_ok ho h) (fun s => Keccak.Sha3.hashes_512.size s), if_pos hs]

/-- Alice's private key of RFC 7748, section 6.1 -/
def aliceK : List Byte := [0x77, 0x07, 0x6d, 0x0a, 0x73, 0x18, 0xa5, 0x7d, 0x3c, 0x16, 0xc1, 0x72, 0x51, 0xb2, 0x66, 0x45, 0xdf, 0x4c, 0x2f, 0x87, 0xeb, 0xc0, 0x99, 0x2a, 0xb1, 0x77,
  0xfb, 0xa5, 0x1d, 0xb9, 0x2c, 0x2a]
/-- Alice's public key there -/
def aliceP : List Byte := [0x85, 0x20, 0xf0, 0x09, 0x89, 0x30, 0xa7, 0x54, 0x74, 0x8b, 0x7d, 0xdc, 0xb4, 0x3e, 0xf7, 0x5a, 0x0d, 0xbf, 0x3a, 0x0d, 0x26, 0x38, 0x1a, 0xf4, 0xeb, 0xa4,
  0xa9, 0x8e, 0xaa, 0x9b, 0x4e, 0x6a]

/-- a concrete case of C86_base: the test vector of RFC 7748 -/
example : ref10Base base 64 (List.replicate 32 0) aliceK = .ok aliceP :=
  (C86_base (.inr rfl) rfl (by decide)).trans (congrArg _ (x25519_eval (k := aliceK) (u := basePt) (r := aliceP) (by decide +kernel)))

/-- fresh digest objects exist, so C86_generate_digests speaks of something -/
example : (∃ o, Digest.Obj.Run (Digest.core512 false) o []) ∧ (∃ o, Keccak.Sha3.Run Keccak.permute24U 72 64 o []) :=
  ⟨let ⟨o, h⟩ := (Digest.C36_sha512_partial false).1; ⟨o, .new h⟩, let ⟨o, h⟩ := Keccak.Sha3.C45_sha3_512.1; ⟨o, .new h⟩⟩

/-- two seeds -/
example : ∃ pk sk pk' sk', ecdhGenerate base 32 (fun s => .ok (s ++ s)) (List.replicate 32 7) = .ok (pk, sk) ∧
    ecdhGenerate base 64 (fun s => .ok (s ++ s)) (List.replicate 32 8) = .ok (pk', sk') ∧
    keyExchange (ref10x32 32) [] pk' sk [] = keyExchange (ref10x32 64) [] pk sk' [] :=
  have hd : ∀ s : List Byte, s.length = 32 → (.ok (s ++ s) : M (List Byte)) = .ok (if s.length = 32 then s ++ s else List.replicate 64 0) := fun s h => by rw [if_pos h]
  have hH : ∀ s : List Byte, (if s.length = 32 then s ++ s else List.replicate 64 0).length = 64 := fun s => by
    by_cases h : s.length = 32
    · rw [if_pos h, List.length_append, h]
    · rw [if_neg h, List.length_replicate]
  C86_agreement (.inl rfl) (.inr rfl) hd hH hd hH List.length_replicate List.length_replicate

end Cex.Ed25519
