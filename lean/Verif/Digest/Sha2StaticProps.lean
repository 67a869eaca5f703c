import Verif.Digest.Sha2Static

/-!
# C79 The stateless SHA-2 functions compute SHA-256, SHA-384, SHA-512 and HMAC

The specifications are FIPS 180-4 and RFC 2104. A message is any window of any buffer, the output goes to any place of any buffer.
-/

namespace Cex.Digest
open Cex Cex.Digest.Fips Cex.IntTools Cex.Stream Cex.Mac

/-- `Compute256` writes the SHA-256 digest of the window, and nothing else. -/
theorem C79_compute256 (a m c pre win post : List Byte) (hw : win.length = 32) :
    Static.compute (core256 false) (a ++ m ++ c) a.length m.length (pre ++ win ++ post) pre.length = .ok (pre ++ sha256 m ++ post) :=
  compute_ok stateless256 ⟨a, c, rfl, rfl⟩ trivial pre win post hw

theorem md512 : (⟨iv512, alg512.compress⟩ : MD 64) = alg512.md := congrArg (fun v => MD.mk v alg512.compress) tables512.2.1

theorem sha512_md : sha512 = MD.hash ⟨iv512, alg512.compress⟩ := by
  funext m
  rw [sha512, md512]

theorem core512_md : ({ core512 false with iv := iv512 } : Core 64) = core512 false := rfl

/-- `Compute512`, for messages of less than `2^61` bytes: the upper half of the length field is always zero. -/
theorem C79_compute512_partial (a m c pre win post : List Byte) (hm : m.length < 2 ^ 61) (hw : win.length = 64) :
    Static.compute (core512 false) (a ++ m ++ c) a.length m.length (pre ++ win ++ post) pre.length = .ok (pre ++ sha512 m ++ post) := by
  have h := compute_ok (stateless512 iv512) ⟨a, c, rfl, rfl⟩ hm pre win post hw
  rw [core512_md, ← sha512_md] at h
  exact h

theorem put384 (v : V8 64) (pre win post : List Byte) (hw : win.length = 48) :
    (do
      let out ← be64ToBytes v.a (pre ++ win ++ post) pre.length
      let out ← be64ToBytes v.b out (pre.length + 8)
      let out ← be64ToBytes v.c out (pre.length + 16)
      let out ← be64ToBytes v.d out (pre.length + 24)
      let out ← be64ToBytes v.e out (pre.length + 32)
      be64ToBytes v.f out (pre.length + 40)) = .ok (pre ++ v.bytes.take 48 ++ post) := by
  have split : ∀ x : List Byte, 8 ≤ x.length → ∃ a b, x = a ++ b ∧ a.length = 8 ∧ b.length = x.length - 8 :=
    fun x h => ⟨x.take 8, x.drop 8, (List.take_append_drop 8 x).symm, by rw [List.length_take]; omega, List.length_drop⟩
  obtain ⟨x1, y1, rfl, a1, b1⟩ := split win (by omega)
  obtain ⟨x2, y2, rfl, a2, b2⟩ := split y1 (by omega)
  obtain ⟨x3, y3, rfl, a3, b3⟩ := split y2 (by omega)
  obtain ⟨x4, y4, rfl, a4, b4⟩ := split y3 (by omega)
  obtain ⟨x5, x6, rfl, a5, b5⟩ := split y4 (by omega)
  have a6 : x6.length = 8 := by omega
  have key : ∀ (u : BitVec 64) (p x y : List Byte) (off : Nat), x.length = 8 → off = p.length → be64ToBytes u (p ++ (x ++ y)) off = .ok ((p ++ beEnc 8 u.toNat) ++ y) := by
    intro u p x y off h ho
    rw [← List.append_assoc, ho]
    exact write_be64 u p x y h
  simp only [List.append_assoc]
  rw [key _ _ _ _ _ a1 rfl, ok_bind, key _ _ _ _ _ a2 (by simp only [List.length_append, beEnc_len]), ok_bind,
    key _ _ _ _ _ a3 (by simp only [List.length_append, beEnc_len]), ok_bind,
    key _ _ _ _ _ a4 (by simp only [List.length_append, beEnc_len]), ok_bind,
    key _ _ _ _ _ a5 (by simp only [List.length_append, beEnc_len]), ok_bind,
    key _ _ _ _ _ a6 (by simp only [List.length_append, beEnc_len])]
  have e : v.bytes = (beEnc 8 v.a.toNat ++ beEnc 8 v.b.toNat ++ beEnc 8 v.c.toNat ++ beEnc 8 v.d.toNat ++ beEnc 8 v.e.toNat ++ beEnc 8 v.f.toNat) ++ (beEnc 8 v.g.toNat ++ beEnc 8 v.h.toNat) := by
    rw [V8.bytes]; simp only [List.append_assoc]
  rw [e, List.take_append_of_le_length (by simp only [List.length_append, beEnc_len]; decide), List.take_of_length_le (by simp only [List.length_append, beEnc_len]; decide)]
  simp only [List.append_assoc]

/-- `Compute384`, for messages of less than `2^61` bytes. -/
theorem C79_compute384_partial (a m c pre win post : List Byte) (hm : m.length < 2 ^ 61) (hw : win.length = 48) :
    Static.compute384 (a ++ m ++ c) a.length m.length (pre ++ win ++ post) pre.length = .ok (pre ++ sha384 m ++ post) := by
  obtain ⟨io', len, t, h, buf, v, h1, h2, h3⟩ := state_ok (stateless512 iv384) (inp := a ++ m ++ c) (io := a.length) ⟨a, c, rfl, rfl⟩ hm
  rw [Static.compute384]
  dsimp only at h1 ⊢
  rw [h1, ok_bind]
  dsimp only
  rw [h2, ok_bind]
  dsimp only
  rw [put384 v pre win post hw, h3, sha384, iv384_eq]

/-- `MACR64P512` is HMAC-SHA-256 for keys of at most a block. -/
theorem C79_mac256_partial (key a m c pre win post : List Byte) (hk : key.length ≤ 64) (hw : win.length = 32) :
    Static.mac (core256 false) key (a ++ m ++ c) a.length m.length (pre ++ win ++ post) pre.length = .ok (pre ++ Rfc2104.hmac sha256 64 key m ++ post) :=
  mac_ok stateless256 hk ⟨a, c, rfl, rfl⟩ trivial trivial pre win post hw

/-- `MACR80P1024` is HMAC-SHA-512 for keys of at most a block. -/
theorem C79_mac512_partial (key a m c pre win post : List Byte) (hk : key.length ≤ 128) (hm : 128 + m.length < 2 ^ 61) (hw : win.length = 64) :
    Static.mac (core512 false) key (a ++ m ++ c) a.length m.length (pre ++ win ++ post) pre.length = .ok (pre ++ Rfc2104.hmac sha512 128 key m ++ post) := by
  have h := mac_ok (stateless512 iv512) hk ⟨a, c, rfl, rfl⟩ hm (by decide) pre win post hw
  rw [core512_md, ← sha512_md] at h
  exact h

/-- RFC 2104 for keys of any length. -/
def C79_mac256_full : Prop := ∀ key a m c pre win post : List Byte, win.length = 32 →
  Static.mac (core256 false) key (a ++ m ++ c) a.length m.length (pre ++ win ++ post) pre.length = .ok (pre ++ Rfc2104.hmac sha256 64 key m ++ post)

/-- Every key that is longer than a block is written past the end of the pad, in both functions. -/
theorem C79_mac_longkey {w : Nat} (C : Core w) (key inp : List Byte) (io len : Nat) (out : List Byte) (oo : Nat) (hk : 2 * w < key.length) :
    Static.mac C key inp io len out oo = .error .ub := by
  have h : copy key 0 (List.replicate (2 * w) 0) 0 key.length = .error .ub := by
    rw [copy, if_neg (by omega)]
    unfold slice blit
    simp
    omega
  rw [Static.mac, h]
  rfl

theorem C79_mac256_refuted : ¬ C79_mac256_full := by
  intro h
  have h1 := h (List.replicate 65 0) [] [] [] [] (List.replicate 32 0) [] (by simp)
  rw [C79_mac_longkey _ _ _ _ _ _ _ (by simp)] at h1
  cases h1

/-- A message in the middle of a buffer and an output in the middle of another. -/
example : Static.compute (core256 false) ([1, 2] ++ [0x61, 0x62, 0x63] ++ [3]) 2 3 ([7] ++ List.replicate 32 0 ++ [8, 9]) 1 = .ok ([7] ++ sha256 [0x61, 0x62, 0x63] ++ [8, 9]) :=
  C79_compute256 [1, 2] [0x61, 0x62, 0x63] [3] [7] (List.replicate 32 0) [8, 9] (by simp)

/-- A key of a full block. -/
example : Static.mac (core512 false) (List.replicate 128 0x0b) [0x48, 0x69] 0 2 (List.replicate 64 0) 0 = .ok (Rfc2104.hmac sha512 128 (List.replicate 128 0x0b) [0x48, 0x69]) := by
  have h := C79_mac512_partial (List.replicate 128 0x0b) [] [0x48, 0x69] [] [] (List.replicate 64 0) [] (by rw [List.length_replicate]; exact Nat.le_refl _) (by decide) (by rw [List.length_replicate])
  rw [List.nil_append, List.nil_append, List.nil_append, List.append_nil, List.append_nil, List.append_nil] at h
  exact h

end Cex.Digest
