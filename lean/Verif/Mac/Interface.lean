import Verif.Mac.HmacProps

/-!
# The MAC interface (CEX/IMac.h) as seen by its users

HBA and the authenticated stream ciphers hold an `IMac*`. `MacOps` has the functions they use for an arbitrary implementation;
`MacOps.Macs` says that the implementation is a streaming form of the keyed function `F`.
-/

namespace Cex.Mac
open Cex Cex.Digest Stream

/-- The virtual functions of `IMac` used by the cipher modes (IMac.h). `finalize` is the overload for `SecureVector`. -/
structure MacOps where
  σ : Type
  tag : Nat
  init : σ → List Byte → M σ
  update : σ → List Byte → Nat → Nat → M σ
  finalize : σ → List Byte → Nat → M (σ × List Byte)
  reset : σ → M σ

/-- `Has s x`: the object is in a proper state; if `x = some (k, m)` it is keyed with `k` and has received `m` since. -/
structure MacOps.Macs (A : MacOps) (F : List Byte → List Byte → List Byte) (ok keyOk : Nat → Prop) (Has : A.σ → Option (List Byte × List Byte) → Prop) : Prop where
  size : ∀ k m, (F k m).length = A.tag
  tag_lt : A.tag < 2 ^ 63
  init : ∀ {s x}, Has s x → ∀ k, keyOk k.length → ∃ s', A.init s k = .ok s' ∧ Has s' (some (k, []))
  update : ∀ {s k m}, Has s (some (k, m)) → ∀ w : Window, ∃ s', A.update s w.buf w.off w.len = .ok s' ∧ Has s' (some (k, m ++ w.bytes))
  finalize : ∀ {s k m}, Has s (some (k, m)) → ok m.length → ∀ pre junk post, junk.length = A.tag →
    ∃ s' x, A.finalize s (pre ++ junk ++ post) pre.length = .ok (s', pre ++ F k m ++ post) ∧ Has s' x
  reset : ∀ {s x}, Has s x → ∃ s' y, A.reset s = .ok s' ∧ Has s' y

namespace MacOps.Macs
variable {A : MacOps} {F : List Byte → List Byte → List Byte} {ok keyOk : Nat → Prop} {Has : A.σ → Option (List Byte × List Byte) → Prop}

/-- `Update(x, 0, x.size())`. -/
theorem update_all (g : A.Macs F ok keyOk Has) {s : A.σ} {k m : List Byte} (h : Has s (some (k, m))) (x : List Byte) (hx : x.length < 2 ^ 64) :
    ∃ s', A.update s x 0 x.length = .ok s' ∧ Has s' (some (k, m ++ x)) := by
  obtain ⟨s', h1, h2⟩ := g.update h (Window.whole x hx)
  rw [Window.whole_bytes] at h2
  exact ⟨s', h1, h2⟩

/-- `Update` with a window named by its content. -/
theorem update_at (g : A.Macs F ok keyOk Has) {s : A.σ} {k m : List Byte} (h : Has s (some (k, m))) (buf x : List Byte) (off : Nat) (hx : Holds buf off x)
    (hb : buf.length < 2 ^ 64) : ∃ s', A.update s buf off x.length = .ok s' ∧ Has s' (some (k, m ++ x)) := by
  obtain ⟨a, c, e1, e2⟩ := hx
  obtain ⟨s', h1, h2⟩ := g.update h ⟨buf, off, x.length, by rw [e1, ← e2]; simp, hb⟩
  have : Window.bytes ⟨buf, off, x.length, by rw [e1, ← e2]; simp, hb⟩ = x := by rw [Window.bytes]; simp [e1, ← e2]
  rw [this] at h2
  exact ⟨s', h1, h2⟩

end MacOps.Macs

/-- HMAC behind the interface. -/
def hmacOps (D : DigestOps) (keyOk : Nat → Bool) : MacOps :=
  ⟨Hmac D, D.size, fun s k => s.initialize keyOk k, fun s => s.update, fun s => s.finalizeSecure, fun s => s.reset⟩

theorem hmac_macs {D : DigestOps} {H : List Byte → List Byte} {ok : Nat → Prop} {Has : D.σ → List Byte → Prop} (g : D.Hashes H ok Has) (h2k : ok (D.block + D.size))
    (hsz : D.size < 2 ^ 63) (keyOk : Nat → Bool) :
    (hmacOps D keyOk).Macs (Rfc2104.hmac H D.block) (fun n => ok (D.block + n)) (fun n => n < 2 ^ 64 ∧ ok n ∧ keyOk n = true) (Hmac.Inv H Has) where
  size k m := hmac_length g k m
  tag_lt := hsz
  init h k hk := hmac_init_inv g h hk.1 hk.2.1 hk.2.2
  update h w := hmac_update_inv g h w
  finalize h hm pre junk post hj := by
    obtain ⟨s', e, i⟩ := hmac_secure_inv g h hm h2k pre junk post hj
    exact ⟨s', _, e, i⟩
  reset h := by
    obtain ⟨s', e, i⟩ := hmac_reset_inv g h
    exact ⟨s', _, e, i⟩

/-- A MAC object that keeps key and message: every keyed function with outputs of one size is the function of some MAC. Used for witnesses. -/
def idealMac (F : List Byte → List Byte → List Byte) (tag : Nat) : MacOps where
  σ := Option (List Byte × List Byte)
  tag := tag
  init _ k := return some (k, [])
  update s inp io len := match s with
    | none => throw (.throws .notInitialized)
    | some (k, m) => do let b ← slice inp io len; return some (k, m ++ b)
  finalize s out oo := match s with
    | none => throw (.throws .notInitialized)
    | some (k, m) => do let out ← blit out oo (F k m); return (some (k, []), out)
  reset _ := return none

theorem ideal_macs {F : List Byte → List Byte → List Byte} {tag : Nat} (h : ∀ k m, (F k m).length = tag) (ht : tag < 2 ^ 63) :
    (idealMac F tag).Macs F (fun _ => True) (fun _ => True) (fun s x => s = x) where
  size := h
  tag_lt := ht
  init _ k _ := ⟨some (k, []), rfl, rfl⟩
  update := by
    rintro _ k m rfl x
    refine ⟨some (k, m ++ x.bytes), ?_, rfl⟩
    show (slice x.buf x.off x.len >>= fun b => pure (some (k, m ++ b))) = _
    rw [slice_holds x.holds x.bytes_length.symm]
    rfl
  finalize := by
    rintro _ k m rfl _ pre junk post hj
    refine ⟨some (k, []), _, ?_, rfl⟩
    show (blit (pre ++ junk ++ post) pre.length (F k m) >>= fun out => pure (some (k, ([] : List Byte)), out)) = _
    rw [blit_at rfl ((h k m).trans hj.symm)]
    rfl
  reset _ := ⟨none, none, rfl, rfl⟩

end Cex.Mac
