import Verif.Stream

/-!
# The digest interface (CEX/IDigest.h) as seen by its users

HMAC, HKDF, PBKDF2 and KDF2 hold an `IDigest*` and use `Update`, `Finalize`, `Reset`, `BlockSize` and `DigestSize`.
`DigestOps` has these functions for an arbitrary implementation; `DigestOps.Hashes` says that the implementation
is a streaming form of the function `H`.
-/

namespace Cex.Digest
open Cex Cex.Stream

/-- The virtual functions of `IDigest` used by the MACs and KDFs (IDigest.h:100-220). -/
structure DigestOps where
  σ : Type
  block : Nat
  size : Nat
  update : σ → List Byte → Nat → Nat → M σ
  finalize : σ → List Byte → Nat → M (σ × List Byte)
  reset : σ → M σ

/-- `Has s m`: the digest object `s` is ready to use and has received the bytes `m` since it was last fresh. -/
structure DigestOps.Hashes (D : DigestOps) (H : List Byte → List Byte) (ok : Nat → Prop) (Has : D.σ → List Byte → Prop) : Prop where
  size : ∀ m, (H m).length = D.size
  size_le : D.size ≤ D.block
  block_lt : D.block < 2 ^ 64
  update : ∀ {s m}, Has s m → ∀ x : Window, ∃ s', D.update s x.buf x.off x.len = .ok s' ∧ Has s' (m ++ x.bytes)
  reset : ∀ {s m}, Has s m → ∃ s', D.reset s = .ok s' ∧ Has s' []
  finalize : ∀ {s m}, Has s m → ok m.length → ∀ pre junk post, junk.length = D.size → (pre ++ junk ++ post).length < 2 ^ 64 →
    ∃ s', D.finalize s (pre ++ junk ++ post) pre.length = .ok (s', pre ++ H m ++ post) ∧ Has s' []

namespace DigestOps.Hashes
variable {D : DigestOps} {H : List Byte → List Byte} {ok : Nat → Prop} {Has : D.σ → List Byte → Prop}

/-- `Update(x, 0, x.size())`. -/
theorem update_all (g : D.Hashes H ok Has) {s : D.σ} {m : List Byte} (h : Has s m) (x : List Byte) (hx : x.length < 2 ^ 64) :
    ∃ s', D.update s x 0 x.length = .ok s' ∧ Has s' (m ++ x) := by
  obtain ⟨s', h1, h2⟩ := g.update h (Window.whole x hx)
  rw [Window.whole_bytes] at h2
  exact ⟨s', h1, h2⟩

/-- `Finalize` into a buffer of exactly the digest size. -/
theorem finalize_all (g : D.Hashes H ok Has) {s : D.σ} {m : List Byte} (h : Has s m) (hm : ok m.length) (out : List Byte) (ho : out.length = D.size) :
    ∃ s', D.finalize s out 0 = .ok (s', H m) ∧ Has s' [] := by
  obtain ⟨s', h1, h2⟩ := g.finalize h hm [] out [] ho (by have := g.size_le; have := g.block_lt; simp; omega)
  simp only [List.nil_append, List.append_nil, List.length_nil] at h1
  exact ⟨s', h1, h2⟩

end DigestOps.Hashes

/-- A digest object that just keeps the message and applies `H` at the end: every function with outputs of one size is the
function of some digest. Used for witnesses. -/
def idealOps (H : List Byte → List Byte) (block size : Nat) : DigestOps where
  σ := List Byte
  block := block
  size := size
  update m inp io len := do let b ← slice inp io len; return m ++ b
  finalize m out oo := do let out ← blit out oo (H m); return ([], out)
  reset _ := return []

theorem ideal_hashes {H : List Byte → List Byte} {block size : Nat} (h : ∀ m, (H m).length = size) (h1 : size ≤ block) (h2 : block < 2 ^ 64) :
    (idealOps H block size).Hashes H (fun _ => True) (fun s m => s = m) where
  size := h
  size_le := h1
  block_lt := h2
  update := by
    rintro (s : List Byte) _ rfl x
    refine ⟨s ++ x.bytes, ?_, rfl⟩
    show (slice x.buf x.off x.len >>= fun b => pure (s ++ b)) = _
    rw [slice_holds x.holds x.bytes_length.symm]
    rfl
  reset := by rintro s _ rfl; exact ⟨[], rfl, rfl⟩
  finalize := by
    rintro (s : List Byte) _ rfl _ pre junk post hj _
    refine ⟨[], ?_, rfl⟩
    show (blit (pre ++ junk ++ post) pre.length (H s) >>= fun out => pure (([] : List Byte), out)) = _
    rw [blit_at rfl ((h s).trans hj.symm)]
    rfl

end Cex.Digest
