import Verif.SCipher.AuthTags

/-!
# The authenticated stream ciphers: concrete cases (C52)
-/

namespace Cex.SCipher
open Cex Cex.IntTools Cex.Mac Cex.Modes Cex.Keccak SCipher.Spec

/-- A profile without parallel processing. -/
def oneTask : Prof := ⟨⟨false, 256, 1⟩, 256⟩

/-- A build without SIMD, not parallel. -/
def plain (st : Nat → BitVec 32) : Engine (BitVec 32 × BitVec 32) := process (chachaCore true .none st) .csx 0 oneTask []

theorem plain_ok (st : Nat → BitVec 32) (c : BitVec 32 × BitVec 32) (oo n : Nat) : ChachaOk st (plain st) c oo n :=
  ⟨true, .none, oneTask, [], rfl, (by intro h; cases h), (by intro h; cases h), (by intro h; cases h)⟩

/-- The hypotheses of `C52_chacha_partial` and `C52_chacha_tag_partial` are met: associated data and a
message with a two-task AVX build on one side. -/
example : ∃ st s0 s1, chachaAuthInit (Keccak.permute 24) (List.replicate 32 1) (List.replicate 8 2) [] = .ok (st, s0) ∧
    Auth.setAad chachaFmt s0 [1, 2, 3] 0 3 = .ok s1 ∧ Talk chachaFmt (ChachaOk st) s0 s1 s1 ∧
    ChachaOk st (process (chachaCore false .avx st) .csx 4 twoTasks (CStream.rr (turns 64 4 128))) s1.nonce 0 300 := by
  obtain ⟨st, s0, h1, h2⟩ := C52_chacha_partial perm24 (key := List.replicate 32 1) (nonce := List.replicate 8 2) (info := []) rfl rfl (Or.inl rfl)
  obtain ⟨⟨s1, h3⟩, _⟩ := (h2 s0 s0 .start).1 (Window.whole [1, 2, 3] (by decide))
  refine ⟨st, s0, s1, h1, h3, .aad _ _ .start rfl h3 h3, false, .avx, twoTasks, _, rfl, twoTasks_sound (by omega), ?_, fun _ => ⟨rfl, by decide⟩⟩
  exact fun _ _ => CStream.rr_covers _

/-- The cipher key derived from the key `01 … 01`. -/
def derived : List Byte := [0xc5, 0x46, 0x1b, 0xa3, 0x4e, 0x14, 0x50, 0x0d, 0x0a, 0x57, 0x3b, 0x5e, 0xdd, 0x14, 0x4f, 0x0f,
  0x56, 0xcb, 0x39, 0xca, 0x3a, 0x46, 0xbb, 0xb0, 0x17, 0x71, 0x03, 0x4e, 0x3f, 0x1e, 0xe2, 0x49]

theorem derived_eq : (subKeys (Fips202.keccakP 24) 136 32 (List.replicate 32 1) chachaName).1 = derived := by
  have h := (deriveKeys_ok perm24 (r := 136) (n := 32) (key := List.replicate 32 1) (by omega) (by omega) (by omega) (by omega) (by omega) (by decide) chacha_fits (by decide)).1
  have e : (do let k ← deriveKeys (Keccak.permute 24) 136 32 (List.replicate 32 1) chachaName; return k.1 : M (List Byte)) = .ok derived := by decide +kernel
  rw [h, ok_bind] at e
  exact Except.ok.inj e

/-- One byte under another nonce: `C52_nonce_false` is not about equal keystreams. -/
example : chachaStream (subKeys (Fips202.keccakP 24) 136 32 (List.replicate 32 1) chachaName).1 (List.replicate 8 2) [] 0 1 ≠
    chachaStream (subKeys (Fips202.keccakP 24) 136 32 (List.replicate 32 1) chachaName).1 (List.replicate 8 3) [] 0 1 := by
  rw [derived_eq]
  decide +kernel

/-- C52 is false after a rejected message. A forged tag is rejected; then the genuine message, which was
accepted before the forgery, is rejected as well: the counter and the MAC have moved on. -/
theorem C52_recover_false : ∃ st s0 s1 r0 r1 r2 out, chachaAuthInit (Keccak.permute 24) (List.replicate 32 1) (List.replicate 8 2) [] = .ok (st, s0) ∧
    Auth.encrypt chachaFmt (plain st) s0 [] 0 (List.replicate 32 0) 0 0 = .ok (s1, out) ∧
    Auth.decrypt chachaFmt (plain st) s0 out 0 [] 0 0 = .ok (r0, some []) ∧
    Auth.decrypt chachaFmt (plain st) s0 (List.replicate 32 0) 0 [] 0 0 = .ok (r1, none) ∧
    Auth.decrypt chachaFmt (plain st) r1 out 0 [] 0 0 = .ok (r2, none) := by
  have key : ((do
    let i ← chachaAuthInit (Keccak.permute 24) (List.replicate 32 1) (List.replicate 8 2) []
    let a ← Auth.encrypt chachaFmt (plain i.1) i.2 [] 0 (List.replicate 32 0) 0 0
    let b ← Auth.decrypt chachaFmt (plain i.1) i.2 a.2 0 [] 0 0
    let c ← Auth.decrypt chachaFmt (plain i.1) i.2 (List.replicate 32 0) 0 [] 0 0
    let d ← Auth.decrypt chachaFmt (plain i.1) c.1 a.2 0 [] 0 0
    return (b.2, c.2, d.2)) : M (Option (List Byte) × Option (List Byte) × Option (List Byte))) = .ok (some [], none, none) := by decide +kernel
  obtain ⟨i, e1, key⟩ := bind_ok key
  obtain ⟨a, e2, key⟩ := bind_ok key
  obtain ⟨b, e3, key⟩ := bind_ok key
  obtain ⟨c, e4, key⟩ := bind_ok key
  obtain ⟨d, e5, key⟩ := bind_ok key
  have hk := Except.ok.inj key
  obtain ⟨b1, b2⟩ := b
  obtain ⟨c1, c2⟩ := c
  obtain ⟨d1, d2⟩ := d
  simp only [Prod.mk.injEq] at hk
  obtain ⟨rfl, rfl, rfl⟩ := hk
  exact ⟨i.1, i.2, a.1, b1, c1, d1, a.2, e1, e2, e3, e4, e5⟩

end Cex.SCipher
