import Verif.Keccak.ObjLemmas
import Verif.Mac.HmacProps

/-!
# C45 Sequential SHA3

`Run P r d s m`: the object `s` has come about by construction and any sequence of successful calls, and `m` is what was passed to
`Update` since the last construction, `Reset`, `Finalize` or `Compute`.
-/

namespace Cex.Keccak
open Cex Cex.IntTools Cex.Stream Cex.Mac Cex.Digest

variable {P : List Byte → M (List Byte)} {f : List Byte → List Byte} {r d : Nat}

namespace Sha3

inductive Run (P : List Byte → M (List Byte)) (r d : Nat) : Buffered → List Byte → Prop
  | new {s} : new r = .ok s → Run P r d s []
  | update {s s' m} (x : Window) : Run P r d s m → s.update P r x.buf x.off x.len = .ok s' → Run P r d s' (m ++ x.bytes)
  | reset {s s' m} : Run P r d s m → reset s = .ok s' → Run P r d s' []
  | final {s s' m out oo out'} : Run P r d s m → finalize P r d s out oo = .ok (s', out') → Run P r d s' []
  | compute {s s' m inp out out'} : inp.length < 2 ^ 64 → Run P r d s m → compute P r d s inp out = .ok (s', out') → Run P r d s' []

/-- The invariant. -/
abbrev Has (f : List Byte → List Byte) (r : Nat) (s : Buffered) (m : List Byte) : Prop := s.Got f r r (List.replicate 200 0) m

theorem reset_has (h0 : 0 < r) {s : Buffered} (hs : s.st.length = 200) (hb : s.buf.length = r) : ∃ s', reset s = .ok s' ∧ Has f r s' [] := by
  rw [reset, clear_all _ _ hb, ok_bind, clear_all _ _ hs, ok_bind]
  exact ⟨_, rfl, got_nil h0 List.length_replicate⟩

theorem has_st (p : Perm P f) (hr : r ≤ 200) {s : Buffered} {m : List Byte} (h : Has f r s m) : s.st.length = 200 := by
  rw [h.st]; exact eager_length p hr _ _ List.length_replicate

/-- The state after `HashFinal` is the absorption of the padded message. -/
theorem final_absorb (h0 : 0 < r) (dom : Byte) (s0 m : List Byte) :
    f (absorbed f r dom (eager r (Fips202.block f) s0 m).1 (eager r (Fips202.block f) s0 m).2) = Fips202.absorb f r s0 (m ++ Fips202.pad r dom m.length) := by
  rw [f_absorbed (f := f) h0, Fips202.absorb, Fips202.absorb, eager_append s0 m, eager_rest_mod h0]
  rw [Fips202.pad, Fips202.pad, Nat.mod_mod]

theorem finalize_has (p : Perm P f) (h0 : 0 < r) (hr : r ≤ 200) (hd : d ≤ r) {s : Buffered} {m : List Byte} (h : Has f r s m) (pre junk post : List Byte)
    (hj : junk.length = d) (hsz : (pre ++ junk ++ post).length < 2 ^ 64) :
    ∃ s', finalize P r d s (pre ++ junk ++ post) pre.length = .ok (s', pre ++ Fips202.sponge f r 0x06 m d ++ post) ∧ Has f r s' [] := by
  have hst := has_st p hr h
  have hto : (s.buf.take s.pos).length = s.pos := by rw [h.rest, h.pos]
  have hpr : s.pos < r := by rw [h.pos]; exact eager_rest_lt h0 _ _
  have hle : pre.length ≤ (pre ++ junk ++ post).length := by simp only [List.length_append]; omega
  have hh : Holds (s.buf.take s.pos ++ List.replicate (s.buf.length - s.pos) 0) 0 (s.buf.take s.pos) := ⟨[], _, rfl, rfl⟩
  have ha := absorb_eq p h0 hr (dom := 0x06) (len := s.pos) hh hto.symm hst
  have hl := absorbed_length p h0 hr (dom := 0x06) (m := s.buf.take s.pos) hst
  have hl2 := p.len _ hl
  obtain ⟨s', h1, h2⟩ := reset_has (f := f) (s := ⟨f (absorbed f r 0x06 s.st (s.buf.take s.pos)), s.buf.take s.pos ++ List.replicate (s.buf.length - s.pos) 0, s.pos⟩) h0 hl2
    (by rw [List.length_append, hto, List.length_replicate, h.buf]; omega)
  refine ⟨s', ?_, h2⟩
  have ht : ((f (absorbed f r 0x06 s.st (s.buf.take s.pos))).take d).length = d := by rw [List.length_take, hl2]; omega
  rw [finalize, subU_le hle hsz, if_neg (by simp only [List.length_append]; omega), clear_tail (by rw [h.buf]; omega), ok_bind, ha, ok_bind, p.run _ hl, ok_bind,
    copy_at (s := (f (absorbed f r 0x06 s.st (s.buf.take s.pos))).take d) (holds_take _ _) rfl ht.symm (by rw [ht, hj]), ok_bind, h1, ok_bind, pure_eq_ok]
  rw [h.rest, h.st, final_absorb (f := f) h0, Fips202.sponge, Fips202.squeeze, if_neg (by omega)]

theorem final_has (p : Perm P f) (h0 : 0 < r) (hr : r ≤ 200) {s s' : Buffered} {m out out' : List Byte} {oo : Nat} (h : Has f r s m)
    (hf : finalize P r d s out oo = .ok (s', out')) : Has f r s' [] := by
  have hst := has_st p hr h
  have hto : (s.buf.take s.pos).length = s.pos := by rw [h.rest, h.pos]
  have hpr : s.pos < r := by rw [h.pos]; exact eager_rest_lt h0 _ _
  have hh : Holds (s.buf.take s.pos ++ List.replicate (s.buf.length - s.pos) 0) 0 (s.buf.take s.pos) := ⟨[], _, rfl, rfl⟩
  have ha := absorb_eq p h0 hr (dom := 0x06) (len := s.pos) hh hto.symm hst
  have hl := absorbed_length p h0 hr (dom := 0x06) (m := s.buf.take s.pos) hst
  obtain ⟨s1, h1, h2⟩ := reset_has (f := f) (s := ⟨f (absorbed f r 0x06 s.st (s.buf.take s.pos)), s.buf.take s.pos ++ List.replicate (s.buf.length - s.pos) 0, s.pos⟩) h0 (p.len _ hl)
    (by rw [List.length_append, hto, List.length_replicate, h.buf]; omega)
  rw [finalize] at hf
  split at hf
  · cases hf
  · rw [clear_tail (by rw [h.buf]; omega), ok_bind, ha, ok_bind, p.run _ hl, ok_bind] at hf
    obtain ⟨_, _, hf⟩ := bind_ok hf
    rw [h1, ok_bind] at hf
    cases hf
    exact h2

theorem new_has (h0 : 0 < r) : ∃ s, new r = .ok s ∧ Has f r s [] := reset_has h0 List.length_replicate List.length_replicate

theorem Run.has (p : Perm P f) (h0 : 0 < r) (hr : r ≤ 200) {s : Buffered} {m : List Byte} (h : Run P r d s m) : Has f r s m := by
  induction h with
  | new h =>
    obtain ⟨s1, h1, h2⟩ := new_has (f := f) h0
    rw [h] at h1; cases h1; exact h2
  | update x _ h ih =>
    obtain ⟨s1, h1, h2⟩ := update_got p h0 hr (Nat.le_refl r) List.length_replicate ih x.holds
    rw [x.bytes_length, h] at h1; cases h1; exact h2
  | reset _ h ih =>
    obtain ⟨s1, h1, h2⟩ := reset_has (f := f) h0 (has_st p hr ih) ih.buf
    rw [h] at h1; cases h1; exact h2
  | final _ h ih => exact final_has p h0 hr ih h
  | @compute s s' m inp out out' hl _ h ih =>
    rw [Sha3.compute] at h
    split at h
    · cases h
    · obtain ⟨s1, h1, h2⟩ := update_got p h0 hr (Nat.le_refl r) List.length_replicate ih (⟨[], [], by simp, rfl⟩ : Holds inp 0 inp)
      rw [h1, ok_bind] at h
      exact final_has p h0 hr h2 h

/-- What C45 says of one class with rate `r` and digest size `d`: construction succeeds, and in any state the object can be in, `Update` of any window and `Reset`
succeed, `Finalize` into any place of any buffer writes `H` of the bytes given since the last reset and touches nothing else, and `Compute` writes `H` of those bytes
followed by its input. -/
def Sequential (P : List Byte → M (List Byte)) (r d : Nat) (H : List Byte → List Byte) : Prop :=
  (∃ s, new r = .ok s) ∧
  ∀ s m, Run P r d s m →
    (∀ x : Window, ∃ s', s.update P r x.buf x.off x.len = .ok s') ∧ (∃ s', reset s = .ok s') ∧
    (∀ pre junk post, junk.length = d → (pre ++ junk ++ post).length < 2 ^ 64 →
      ∃ s', finalize P r d s (pre ++ junk ++ post) pre.length = .ok (s', pre ++ H m ++ post)) ∧
    (∀ x out, x.length < 2 ^ 64 → out.length < 2 ^ 64 → d ≤ out.length → ∃ s', compute P r d s x out = .ok (s', H (m ++ x) ++ out.drop d))

theorem sequential (p : Perm P f) (h0 : 0 < r) (hr : r ≤ 200) (hd : d ≤ r) : Sequential P r d (fun m => Fips202.sponge f r 0x06 m d) := by
  refine ⟨?_, fun s m h => ⟨fun x => ?_, ?_, fun pre junk post hj hs => ?_, fun x out hx ho hdo => ?_⟩⟩
  · obtain ⟨s, h, _⟩ := new_has (f := f) h0
    exact ⟨s, h⟩
  · obtain ⟨s1, h1, h2⟩ := update_got p h0 hr (Nat.le_refl r) List.length_replicate (h.has p h0 hr) x.holds
    rw [x.bytes_length] at h1; exact ⟨s1, h1⟩
  · obtain ⟨s1, h1, _⟩ := reset_has (f := f) h0 (has_st p hr (h.has p h0 hr)) (h.has p h0 hr).buf
    exact ⟨s1, h1⟩
  · obtain ⟨s1, h1, _⟩ := finalize_has p h0 hr hd (h.has p h0 hr) pre junk post hj hs
    exact ⟨s1, h1⟩
  · obtain ⟨s1, h1, h2⟩ := update_got p h0 hr (Nat.le_refl r) List.length_replicate (h.has p h0 hr) (⟨[], [], by simp, rfl⟩ : Holds x 0 x)
    obtain ⟨s2, h3, _⟩ := finalize_has p h0 hr hd h2 [] (out.take d) (out.drop d) (by rw [List.length_take]; omega) (by simpa using ho)
    simp only [List.nil_append, List.take_append_drop, List.length_nil] at h3
    exact ⟨s2, by rw [compute, if_neg (by omega), h1, ok_bind, h3]⟩

/-- SHA3-256 (SHA3256.cpp) for any message, split into any updates: FIPS 202. `permute24U` is `PermuteR24P1600U`. -/
theorem C45_sha3_256 : Sequential permute24U 136 32 (Fips202.sha3 32) := sequential perm24U (by decide) (by decide) (by decide)

/-- SHA3-512 (SHA3512.cpp). -/
theorem C45_sha3_512 : Sequential permute24U 72 64 (Fips202.sha3 64) := sequential perm24U (by decide) (by decide) (by decide)

/-- The same with the loop permutation (`CEX_DIGEST_COMPACT`). -/
theorem C45_sha3_256_compact : Sequential (permute 24) 136 32 (Fips202.sha3 32) := sequential perm24 (by decide) (by decide) (by decide)

theorem C45_sha3_512_compact : Sequential (permute 24) 72 64 (Fips202.sha3 64) := sequential perm24 (by decide) (by decide) (by decide)

/-! ## SHA3 as the digest of HMAC, HKDF, PBKDF2 and KDF2 -/

def ops (P : List Byte → M (List Byte)) (r d : Nat) : DigestOps where
  σ := Buffered
  block := r
  size := d
  update s inp io len := s.update P r inp io len
  finalize s out oo := finalize P r d s out oo
  reset s := reset s

theorem hashes (p : Perm P f) (h0 : 0 < r) (hr : r ≤ 200) (hd : d ≤ r) :
    (ops P r d).Hashes (fun m => Fips202.sponge f r 0x06 m d) (fun _ => True) (Has f r) where
  size m := squeeze_length p h0 hr d _ (by
    show (Fips202.absorb _ _ _ _).length = 200
    rw [← f_absorbed (f := f) h0]; exact p.len _ (absorbed_length p h0 hr List.length_replicate))
  size_le := hd
  block_lt := by show r < 2 ^ 64; omega
  update h x := by
    obtain ⟨s1, h1, h2⟩ := update_got p h0 hr (Nat.le_refl r) List.length_replicate h x.holds
    rw [x.bytes_length] at h1; exact ⟨s1, h1, h2⟩
  reset h := reset_has h0 (has_st p hr h) h.buf
  finalize h _ pre junk post hj hs := finalize_has p h0 hr hd h pre junk post hj hs

theorem hashes_256 : (ops permute24U 136 32).Hashes (Fips202.sha3 32) (fun _ => True) (Has (Fips202.keccakP 24) 136) :=
  hashes perm24U (by decide) (by decide) (by decide)

theorem hashes_512 : (ops permute24U 72 64).Hashes (Fips202.sha3 64) (fun _ => True) (Has (Fips202.keccakP 24) 72) :=
  hashes perm24U (by decide) (by decide) (by decide)

/-- HMAC with SHA3-256 is the HMAC of RFC 2104 with FIPS 202 SHA3-256, in every state an HMAC object can be in. -/
theorem C29_hmac_sha3_256 (keyOk : Nat → Bool) (st : Hmac (ops permute24U 136 32)) (x)
    (h : Hmac.Run (ops permute24U 136 32) (Has (Fips202.keccakP 24) 136) (fun _ => True) keyOk st x) (k m : List Byte) (hx : x = some (k, m)) (pre junk post : List Byte)
    (hj : junk.length = 32) (hs : (pre ++ junk ++ post).length < 2 ^ 64) :
    ∃ st', st.finalize (pre ++ junk ++ post) pre.length = .ok (st', pre ++ Rfc2104.hmac (Fips202.sha3 32) 136 k m ++ post) :=
  (((C29_hmac hashes_256 trivial keyOk st x h).2 k m hx).2 trivial pre junk post hj).1 hs

/-- HMAC with SHA3-512 is the HMAC of RFC 2104 with FIPS 202 SHA3-512, in every state an HMAC object can be in. -/
theorem C29_hmac_sha3_512 (keyOk : Nat → Bool) (st : Hmac (ops permute24U 72 64)) (x)
    (h : Hmac.Run (ops permute24U 72 64) (Has (Fips202.keccakP 24) 72) (fun _ => True) keyOk st x) (k m : List Byte) (hx : x = some (k, m)) (pre junk post : List Byte)
    (hj : junk.length = 64) (hs : (pre ++ junk ++ post).length < 2 ^ 64) :
    ∃ st', st.finalize (pre ++ junk ++ post) pre.length = .ok (st', pre ++ Rfc2104.hmac (Fips202.sha3 64) 72 k m ++ post) :=
  (((C29_hmac hashes_512 trivial keyOk st x h).2 k m hx).2 trivial pre junk post hj).1 hs

/-- A concrete run: construction, one update of 3 bytes, `Finalize` writes the digest of "abc" printed in the FIPS 202 examples. -/
theorem sha3_256_abc : ((do
    let s ← new 136
    let s ← s.update permute24U 136 [0x61, 0x62, 0x63] 0 3
    let r ← finalize permute24U 136 32 s (List.replicate 32 0) 0
    return r.2) : M (List Byte)) = .ok
      [0x3A, 0x98, 0x5D, 0xA7, 0x4F, 0xE2, 0x25, 0xB2, 0x04, 0x5C, 0x17, 0x2D, 0x6B, 0xD3, 0x90, 0xBD, 0x85, 0x5F, 0x08, 0x6E, 0x3E, 0x9D, 0x52, 0x5B, 0x46,
        0xBF, 0xE2, 0x45, 0x11, 0x43, 0x15, 0x32] := by decide +kernel

end Sha3
end Cex.Keccak
