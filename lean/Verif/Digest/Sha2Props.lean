import Verif.Digest.Sha2Lemmas

/-!
# C36 Sequential SHA-2

`Run C o m`: the sequential object `o` has come about by construction and any sequence of successful `Update`, `Reset` and
`Finalize` calls, and `m` is what was passed to `Update` since the last construction, `Reset` or `Finalize`.
-/

namespace Cex.Digest
open Cex Cex.Digest.Fips Cex.IntTools Cex.Stream

variable {w : Nat}

inductive Obj.Run (C : Core w) : Obj w → List Byte → Prop
  | new {o} : Obj.seq0.reset C = .ok o → Run C o []
  | update {o o' m} (x : Window) : Run C o m → o.update C x.buf x.off x.len = .ok o' → Run C o' (m ++ x.bytes)
  | reset {o o' m} : Run C o m → o.reset C = .ok o' → Run C o' []
  | final {o o' m out oo out'} : Run C o m → o.finalize C out oo = .ok (o', out') → Run C o' []

/-- The invariant behind the property. -/
def Obj.Inv (C : Core w) (A : MD w) (T : Nat → Ctr) (o : Obj w) (m : List Byte) : Prop :=
  ∃ h r, eager (2 * w) A.compress A.H0 m = (h, r) ∧ Absorbed C A ⟨h, T (m.length - r.length)⟩ r o

variable {C : Core w} {A : MD w} {T : Nat → Ctr} {ok : Nat → Prop}

theorem reset_ok (g : C.Good A T ok) {o : Obj w} (hp : o.par = false) : ∃ o', o.reset C = .ok o' ∧ o'.Inv C A T [] ∧ o'.par = false := by
  have h0 := g.pos
  have h : o.reset C = .ok { o with dgt := [C.st0], buf := List.replicate (1 * (2 * w)) 0, len := 0 } := by
    rw [Obj.reset]
    simp only [hp, Bool.false_eq_true, if_false]
    rw [show List.range 1 = [0] from rfl, List.mapM_cons, List.mapM_nil, Obj.leaf0, hp]
    rfl
  refine ⟨_, h, ⟨A.H0, [], eager_short h0, hp, ?_, rfl, h0, ⟨List.replicate (1 * (2 * w)) 0, rfl⟩, by simp⟩, hp⟩
  simp only [Core.st0, g.iv, List.length_nil, Nat.sub_zero, g.T0]

theorem update_inv (g : C.Good A T ok) {o : Obj w} {m : List Byte} (h : o.Inv C A T m) (x : Window) :
    ∃ o', o.update C x.buf x.off x.len = .ok o' ∧ o'.Inv C A T (m ++ x.bytes) := by
  obtain ⟨hv, r, h1, h2⟩ := h
  have hm := (eager_state g m.length m A.H0 0 rfl)
  obtain ⟨o', h3, h4⟩ := update_ok g h2 x.holds
  rw [x.bytes_length] at h3
  refine ⟨o', h3, ?_⟩
  have hx := eager_state g _ (m ++ x.bytes) A.H0 0 rfl
  refine ⟨(eager (2 * w) A.compress A.H0 (m ++ x.bytes)).1, (eager (2 * w) A.compress A.H0 (m ++ x.bytes)).2, rfl, ?_⟩
  have e := eager_append (B := 2 * w) (step := C.step A) ⟨A.H0, T 0⟩ m x.bytes
  rw [hm.1, h1, Nat.zero_add] at e
  simp only at e
  rw [hx.1, Nat.zero_add] at e
  rw [← e] at h4
  exact h4

theorem finalize_inv (g : C.Good A T ok) {o : Obj w} {m : List Byte} (h : o.Inv C A T m) (hok : ok m.length) (pre junk post : List Byte)
    (hj : junk.length = w) (hsz : (pre ++ junk ++ post).length < 2 ^ 64) :
    ∃ o', o.finalize C (pre ++ junk ++ post) pre.length = .ok (o', pre ++ A.hash m ++ post) ∧ o'.Inv C A T [] ∧ o'.par = false := by
  obtain ⟨hv, r, h1, h2⟩ := h
  have hp := g.pos
  have hr : r.length = m.length % (2 * w) := by
    have := eager_rest_mod (step := A.compress) hp A.H0 m
    rwa [h1] at this
  obtain ⟨t, h3⟩ := finalSeq_ok g h1 (by rw [hr]; exact Nat.mod_le _ _) hr h2 hok
  obtain ⟨o', h4, h5, h6⟩ := reset_ok g (o := o) h2.par
  refine ⟨o', ?_, h5, h6⟩
  have hle : pre.length ≤ (pre ++ junk ++ post).length := by simp only [List.length_append]; omega
  rw [Obj.finalize, Mac.subU_le hle hsz, if_neg (by simp only [List.length_append]; omega), if_neg (by rw [h2.par]; simp), h3, ok_bind,
    put_ok g _ _ _ _ hj, ok_bind, h4]
  rfl

theorem Obj.Run.inv (g : C.Good A T ok) {o : Obj w} {m : List Byte} (h : Obj.Run C o m) : o.Inv C A T m ∧ o.par = false := by
  induction h with
  | new h =>
    obtain ⟨o', h1, h2, h3⟩ := reset_ok g (o := Obj.seq0) rfl
    rw [h] at h1; cases h1
    exact ⟨h2, h3⟩
  | update x _ h ih =>
    obtain ⟨o', h1, h2⟩ := update_inv g ih.1 x
    rw [h] at h1; cases h1
    obtain ⟨_, _, _, a⟩ := h2
    exact ⟨⟨_, _, ‹_›, a⟩, a.par⟩
  | reset _ h ih =>
    obtain ⟨o', h1, h2, h3⟩ := reset_ok g ih.2
    rw [h] at h1; cases h1
    exact ⟨h2, h3⟩
  | final _ h ih =>
    rw [Obj.finalize] at h
    split at h
    · cases h
    · obtain ⟨s, _, h⟩ := bind_ok h
      obtain ⟨out, _, h⟩ := bind_ok h
      obtain ⟨o', h4, h⟩ := bind_ok h
      cases h
      obtain ⟨o', h1, h2, h3⟩ := reset_ok g ih.2
      rw [h4] at h1; cases h1
      exact ⟨h2, h3⟩

/-- What C36 says of one class: in any state the object can be in, `Update` of any window succeeds, and `Finalize` into
any place of any buffer writes the standard hash of the bytes given since the last reset and leaves a fresh object. -/
def Sequential (C : Core w) (H : List Byte → List Byte) (ok : Nat → Prop) : Prop :=
  (∃ o, Obj.seq0.reset C = .ok o) ∧
  ∀ o m, Obj.Run C o m →
    (∀ x : Window, ∃ o', o.update C x.buf x.off x.len = .ok o') ∧ (∃ o', o.reset C = .ok o') ∧
    (ok m.length → ∀ pre junk post, junk.length = w → (pre ++ junk ++ post).length < 2 ^ 64 →
      ∃ o', o.finalize C (pre ++ junk ++ post) pre.length = .ok (o', pre ++ H m ++ post))

theorem sequential (g : C.Good A T ok) : Sequential C A.hash ok := by
  refine ⟨?_, fun o m h => ⟨fun x => ?_, ?_, fun hok pre junk post hj hs => ?_⟩⟩
  · obtain ⟨o, h, _⟩ := reset_ok g (o := Obj.seq0) rfl
    exact ⟨o, h⟩
  · obtain ⟨o', h1, _⟩ := update_inv g (h.inv g).1 x
    exact ⟨o', h1⟩
  · obtain ⟨o', h1, _⟩ := reset_ok g (h.inv g).2
    exact ⟨o', h1⟩
  · obtain ⟨o', h1, _⟩ := finalize_inv g (h.inv g).1 hok pre junk post hj hs
    exact ⟨o', h1⟩

/-- SHA2-256 with either compression function, any message length. -/
theorem C36_sha256 (compact : Bool) : Sequential (core256 compact) sha256 (fun _ => True) := sequential (core256_good compact)

/-- SHA2-512 with either compression function, for message lengths not within one block below a multiple of `2^61` bytes. -/
theorem C36_sha512_partial (compact : Bool) : Sequential (core512 compact) sha512 ok512 := sequential (core512_good compact)

/-- Every length below `2^61 - 128` bytes is covered. -/
theorem C36_sha512_partial_range (n : Nat) (h : n < 2 ^ 61 - 128) : ok512 n := by rw [ok512, Nat.mod_eq_of_lt (by omega)]; omega

/-- A sequence of `Update` calls. -/
def Obj.updates (C : Core w) (o : Obj w) (ws : List Window) : M (Obj w) := ws.foldlM (fun o x => o.update C x.buf x.off x.len) o

theorem updates_run (g : C.Good A T ok) : ∀ (ws : List Window) (o : Obj w) (m : List Byte), Obj.Run C o m →
    ∃ o', o.updates C ws = .ok o' ∧ Obj.Run C o' (m ++ (ws.map Window.bytes).flatten)
  | [], o, m, h => ⟨o, rfl, by simpa using h⟩
  | x :: ws, o, m, h => by
    obtain ⟨o1, h1⟩ := ((sequential g).2 o m h).1 x
    obtain ⟨o2, h2, h3⟩ := updates_run g ws o1 _ (.update x h h1)
    refine ⟨o2, ?_, by simpa [List.append_assoc] using h3⟩
    rw [Obj.updates, List.foldlM_cons, h1]
    exact h2

/-- Split independence spelled out: two ways to cut the same bytes give the same SHA2-256 digest. -/
theorem C36_split (compact : Bool) (o : Obj 32) (m : List Byte) (h : Obj.Run (core256 compact) o m) (ws vs : List Window)
    (e : (ws.map Window.bytes).flatten = (vs.map Window.bytes).flatten) (out : List Byte) (hl : out.length = 32) :
    ∃ a b a' b' d, o.updates (core256 compact) ws = .ok a ∧ o.updates (core256 compact) vs = .ok b ∧
      a.finalize (core256 compact) out 0 = .ok (a', d) ∧ b.finalize (core256 compact) out 0 = .ok (b', d) := by
  have g := core256_good compact
  obtain ⟨a, h1, r1⟩ := updates_run g ws o m h
  obtain ⟨b, h2, r2⟩ := updates_run g vs o m h
  rw [← e] at r2
  obtain ⟨a', f1⟩ := ((C36_sha256 compact).2 a _ r1).2.2 trivial [] out [] hl (by simp [hl])
  obtain ⟨b', f2⟩ := ((C36_sha256 compact).2 b _ r2).2.2 trivial [] out [] hl (by simp [hl])
  simp only [List.nil_append, List.append_nil, List.length_nil] at f1 f2
  exact ⟨a, b, a', b', _, h1, h2, f1, f2⟩

/-- The padded message "abc". -/
def abcBlock : List Byte := 0x61 :: 0x62 :: 0x63 :: 0x80 :: List.replicate 59 0 ++ [0x18]

/-- The code on that block, computed. -/
theorem abc_run : ((ops256.permuteC 8 abcBlock 0 iv256).map V8.bytes) = .ok
    [0xBA, 0x78, 0x16, 0xBF, 0x8F, 0x01, 0xCF, 0xEA, 0x41, 0x41, 0x40, 0xDE, 0x5D, 0xAE, 0x22, 0x23, 0xB0, 0x03, 0x61, 0xA3, 0x96, 0x17, 0x7A,
      0x9C, 0xB4, 0x10, 0xFF, 0x61, 0xF2, 0x00, 0x15, 0xAD] := by decide +kernel

/-- The specification gives the digest of "abc" printed in FIPS 180-4 examples. -/
theorem sha256_abc : sha256 [0x61, 0x62, 0x63] =
    [0xBA, 0x78, 0x16, 0xBF, 0x8F, 0x01, 0xCF, 0xEA, 0x41, 0x41, 0x40, 0xDE, 0x5D, 0xAE, 0x22, 0x23, 0xB0, 0x03, 0x61, 0xA3, 0x96, 0x17, 0x7A,
      0x9C, 0xB4, 0x10, 0xFF, 0x61, 0xF2, 0x00, 0x15, 0xAD] := by
  have hp : [0x61, 0x62, 0x63] ++ alg256.md.padding 3 = abcBlock := by decide +kernel
  have hr := abc_run
  rw [permuteC_ok ops256_good 8 len256 (by decide) (Holds.self _) (by decide), tables256.2.1] at hr
  rw [sha256, MD.hash, List.length_cons, List.length_cons, List.length_singleton, hp, blocks_eager _ (by decide) _ _ _ rfl,
    eager_one (by decide) (by decide)]
  exact Except.ok.inj hr

/-- A run that meets the hypotheses: an object that has hashed and finalised before, then gets "a", "bc". -/
example : ∃ o o', Obj.Run (core256 false) o [0x61, 0x62, 0x63] ∧ o.finalize (core256 false) (List.replicate 34 0) 1 =
    .ok (o', [0] ++ sha256 [0x61, 0x62, 0x63] ++ [0]) := by
  have g := core256_good false
  obtain ⟨o0, h0⟩ := (C36_sha256 false).1
  have r0 := Obj.Run.new h0
  obtain ⟨o1, h1, r1⟩ := updates_run g [Window.whole [1, 2, 3] (by decide)] o0 [] r0
  obtain ⟨o2, h2⟩ := ((C36_sha256 false).2 o1 _ r1).2.2 trivial [] (List.replicate 32 0) [] rfl (by decide)
  have r2 := Obj.Run.final r1 h2
  obtain ⟨o3, h3, r3⟩ := updates_run g [Window.whole [0x61] (by decide), ⟨[0, 0x62, 0x63], 1, 2, by decide, by decide⟩] o2 [] r2
  obtain ⟨o4, h4⟩ := ((C36_sha256 false).2 o3 _ r3).2.2 trivial [0] (List.replicate 32 0) [0] rfl (by decide)
  exact ⟨o3, o4, r3, h4⟩

end Cex.Digest
