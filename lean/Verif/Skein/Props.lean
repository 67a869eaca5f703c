import Verif.Skein.Lemmas
import Verif.Threefish.Props
import Verif.Digest.Interface

/-!
# C75 Sequential Skein-256, Skein-512 and Skein-1024

`Run C o m`: the sequential object `o` has come about by construction and any sequence of successful `Update`, `Reset` and `Finalize` calls,
and `m` is what was passed to `Update` since the last of the other calls.
-/

namespace Cex.Skein
open Cex Cex.IntTools Cex.Skein.Paper Cex.Stream

inductive Run (C : Core) : Obj → List Byte → Prop
  | new {o} (phys virt l1 : Nat) : 0 < phys → Obj.new C false phys virt l1 = .ok o → Run C o []
  | update {o o' m} (x : Window) : Run C o m → o.update C x.buf x.off x.len = .ok o' → Run C o' (m ++ x.bytes)
  | reset {o o' m} : Run C o m → o.reset = .ok o' → Run C o' []
  | final {o o' m out oo out'} : Run C o m → o.finalize C out oo = .ok (o', out') → Run C o' []

variable {C : Core} {E : Tbc C.n}

theorem Run.inv (g : C.Good E) {o : Obj} {m : List Byte} (h : Run C o m) : Inv E o m := by
  induction h with
  | new phys virt l1 hp h =>
    obtain ⟨o', h1, h2⟩ := new_ok g phys virt l1 hp
    rw [h] at h1; cases h1
    exact h2
  | update x _ h ih =>
    obtain ⟨o', h1, h2⟩ := update_inv g ih x
    rw [h] at h1; cases h1
    exact h2
  | reset _ h ih =>
    obtain ⟨o', h1, h2⟩ := reset_ok ih.ready
    rw [h] at h1; cases h1
    exact h2
  | final _ h ih =>
    obtain ⟨G, o1, _, h2, h3⟩ := finalSeq_eq g ih
    have hpar := ih.par
    rw [Obj.finalize] at h
    split at h
    · cases h
    · rw [if_neg (by rw [hpar]; decide), h3] at h
      obtain ⟨r, hr, h⟩ := bind_ok h
      obtain ⟨o2, h4, h⟩ := bind_ok h
      obtain ⟨x, _, hx⟩ := bind_ok hr
      cases hx
      obtain ⟨o', h5, h6⟩ := reset_ok h2
      cases h
      rw [h4] at h5; cases h5
      exact h6

/-- What C75 says of one class: construction succeeds on any machine; in any state a sequential object can be in, `Update` of any window and
`Reset` succeed, and `Finalize` into any place of any buffer writes the Skein hash of what was absorbed. -/
def Sequential (C : Core) (E : Tbc C.n) : Prop :=
  (∀ phys virt l1, 0 < phys → ∃ o, Obj.new C false phys virt l1 = .ok o) ∧
  ∀ o m, Run C o m →
    (∀ x : Window, ∃ o', o.update C x.buf x.off x.len = .ok o') ∧ (∃ o', o.reset = .ok o') ∧
    (m.length < 2 ^ 64 → ∀ pre junk post, junk.length = 8 * C.n → (pre ++ junk ++ post).length < 2 ^ 64 →
      ∃ o', o.finalize C (pre ++ junk ++ post) pre.length = .ok (o', pre ++ skein E m ++ post)) ∧
    (∀ (out : List Byte) (oo : Nat), oo ≤ out.length → out.length < oo + 8 * C.n → out.length < 2 ^ 64 → o.finalize C out oo = .error (.throws .invalidSize))

theorem sequential (g : C.Good E) : Sequential C E := by
  refine ⟨fun phys virt l1 hp => ?_, fun o m h => ⟨fun x => ?_, ?_, fun hl pre junk post hj hs => ?_, fun out oo h1 h2 h3 => ?_⟩⟩
  · obtain ⟨o, h, _⟩ := new_ok g phys virt l1 hp
    exact ⟨o, h⟩
  · obtain ⟨o', h1, _⟩ := update_inv g (h.inv g) x
    exact ⟨o', h1⟩
  · obtain ⟨o', h1, _⟩ := reset_ok (h.inv g).ready
    exact ⟨o', h1⟩
  · obtain ⟨o', h1, _⟩ := finalize_inv g (h.inv g) pre junk post hj hs
    rw [digest_eq E m hl] at h1
    exact ⟨o', h1⟩
  · rw [Obj.finalize, Mac.subU_le h1 h3, if_pos (by rw [Core.rate]; omega)]; rfl

theorem core256_good : core256.Good Threefish.threefish256 where
  pos := by decide
  small := by decide
  perm K P T := Threefish.C73_unrolled.1 K P T
  size := Or.inl rfl
  config := by decide +kernel

theorem core512_good : core512.Good Threefish.threefish512 where
  pos := by decide
  small := by decide
  perm K P T := Threefish.C73_unrolled.2.1 K P T
  size := Or.inr (Or.inl rfl)
  config := by decide +kernel

theorem core1024_good : core1024.Good Threefish.threefish1024 where
  pos := by decide
  small := by decide
  perm K P T := Threefish.C73_unrolled.2.2 K P T
  size := Or.inr (Or.inr rfl)
  config := by decide +kernel

/-- C75. Skein-256-256, Skein-512-512 and Skein-1024-1024 for messages of fewer than `2^64` bytes. -/
theorem C75_skein : Sequential core256 Threefish.threefish256 ∧ Sequential core512 Threefish.threefish512 ∧ Sequential core1024 Threefish.threefish1024 :=
  ⟨sequential core256_good, sequential core512_good, sequential core1024_good⟩

/-- A sequence of `Update` calls. -/
def Obj.updates (C : Core) (o : Obj) (ws : List Window) : M Obj := ws.foldlM (fun o x => o.update C x.buf x.off x.len) o

theorem updates_run (g : C.Good E) : ∀ (ws : List Window) (o : Obj) (m : List Byte), Run C o m →
    ∃ o', o.updates C ws = .ok o' ∧ Run C o' (m ++ (ws.map Window.bytes).flatten)
  | [], o, m, h => ⟨o, rfl, by simpa using h⟩
  | x :: ws, o, m, h => by
    obtain ⟨o1, h1⟩ := ((sequential g).2 o m h).1 x
    obtain ⟨o2, h2, h3⟩ := updates_run g ws o1 _ (.update x h h1)
    refine ⟨o2, ?_, by simpa [List.append_assoc] using h3⟩
    rw [Obj.updates, List.foldlM_cons, h1]
    exact h2

/-- Two ways to cut the same bytes give the same digest, whatever the length. -/
def Splits (C : Core) : Prop :=
  ∀ o m, Run C o m → ∀ ws vs : List Window, (ws.map Window.bytes).flatten = (vs.map Window.bytes).flatten → ∀ out : List Byte, out.length = 8 * C.n →
    ∃ a b a' b' d, o.updates C ws = .ok a ∧ o.updates C vs = .ok b ∧ a.finalize C out 0 = .ok (a', d) ∧ b.finalize C out 0 = .ok (b', d)

theorem splits (g : C.Good E) : Splits C := by
  intro o m h ws vs e out hl
  obtain ⟨a, h1, r1⟩ := updates_run g ws o m h
  obtain ⟨b, h2, r2⟩ := updates_run g vs o m h
  rw [← e] at r2
  have hw := g.small
  have hs : (([] : List Byte) ++ out ++ []).length < 2 ^ 64 := by simp [hl]; omega
  obtain ⟨a', f1, _⟩ := finalize_inv g (r1.inv g) [] out [] hl hs
  obtain ⟨b', f2, _⟩ := finalize_inv g (r2.inv g) [] out [] hl hs
  simp only [List.nil_append, List.append_nil, List.length_nil] at f1 f2
  exact ⟨a, b, a', b', _, h1, h2, f1, f2⟩

theorem C75_split : Splits core256 ∧ Splits core512 ∧ Splits core1024 := ⟨splits core256_good, splits core512_good, splits core1024_good⟩

/-! ## The object as an `IDigest` -/

/-- A sequential Skein object as the digest of a MAC or KDF. -/
def ops (C : Core) : Digest.DigestOps where
  σ := Obj
  block := C.rate
  size := C.rate
  update o := o.update C
  finalize o := o.finalize C
  reset o := o.reset

theorem hashes (g : C.Good E) : (ops C).Hashes (skein E) (fun n => n < 2 ^ 64) (fun o m => Run C o m) where
  size m := bytes_length _
  size_le := Nat.le_refl _
  block_lt := by show C.rate < 2 ^ 64; have := g.small; rw [Core.rate]; omega
  update h x := by
    obtain ⟨o', h1⟩ := ((sequential g).2 _ _ h).1 x
    exact ⟨o', h1, .update x h h1⟩
  reset h := by
    obtain ⟨o', h1⟩ := ((sequential g).2 _ _ h).2.1
    exact ⟨o', h1, .reset h h1⟩
  finalize h hm pre junk post hj hs := by
    obtain ⟨o', h1⟩ := ((sequential g).2 _ _ h).2.2.1 hm pre junk post hj hs
    exact ⟨o', h1, .final h h1⟩

/-- The theorems on HMAC, HKDF, PBKDF2, KDF2 and the generators apply to Skein. -/
theorem C75_digest_interface : (ops core256).Hashes skein256 (fun n => n < 2 ^ 64) (fun o m => Run core256 o m) ∧
    (ops core512).Hashes skein512 (fun n => n < 2 ^ 64) (fun o m => Run core512 o m) ∧
    (ops core1024).Hashes skein1024 (fun n => n < 2 ^ 64) (fun o m => Run core1024 o m) :=
  ⟨hashes core256_good, hashes core512_good, hashes core1024_good⟩

end Cex.Skein
