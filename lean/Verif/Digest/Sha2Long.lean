import Verif.Digest.Sha2TreeProps

/-! # C36: the length field of SHA2-512 near `2^61` bytes -/

namespace Cex.Digest
open Cex Cex.Digest.Fips Cex.IntTools Cex.Stream

/-- A compression function that shows the upper half of the length field. -/
def showLen (_ : V8 64) (b : List Byte) : V8 64 := ⟨BitVec.ofNat 64 (beVal ((b.drop 112).take 8)), 0, 0, 0, 0, 0, 0, 0⟩

/-- C36 for SHA2-512 and all lengths, with the compression function left open. -/
def C36_sha512_full : Prop :=
  ∀ f : V8 64 → List Byte → V8 64, Sequential ((core512 false).withPerm f) (MD.hash ⟨alg512.H0, f⟩) (fun _ => True)

theorem putLen512 (v t1 : BitVec 64) (t0 : BitVec 64) (b win post : List Byte) (io : Nat) (f : V8 64 → List Byte → V8 64) (hb : b.length = io + 112) (hw : win.length = 16) :
    ((core512 false).withPerm f).putLen v (t0, t1) (b ++ win ++ post) io = .ok (b ++ (beEnc 8 t1.toNat ++ beEnc 8 v.toNat) ++ post) := by
  have h1 := write_be64 t1 b (win.take 8) (win.drop 8 ++ post) (by rw [List.length_take]; omega)
  have h2 := write_be64 v (b ++ beEnc 8 t1.toNat) (win.drop 8) post (by rw [List.length_drop]; omega)
  have e1 : b ++ win ++ post = b ++ win.take 8 ++ (win.drop 8 ++ post) := by
    rw [List.append_assoc, List.append_assoc, ← List.append_assoc (win.take 8), List.take_append_drop]
  show (be64ToBytes t1 (b ++ win ++ post) (io + 112) >>= fun b => be64ToBytes v b (io + 120)) = _
  rw [hb] at h1
  rw [List.length_append, beEnc_len, hb] at h2
  rw [e1, h1, ok_bind, ← List.append_assoc, show io + 120 = io + 112 + 8 from rfl, h2]
  simp only [List.append_assoc]

theorem some_length (n : Nat) : ∃ m : List Byte, m.length = n := ⟨List.replicate n 0, List.length_replicate⟩

/-- For a message of `2^61 - 1` bytes the code writes the length `2^64 + (2^64 - 8)` bits instead of `2^64 - 8`. -/
theorem C36_sha512_long_false : ¬ C36_sha512_full := by
  intro h
  have g := (core512_good false).withPerm showLen
  generalize hC : (core512 false).withPerm showLen = C at g h
  generalize hA : (⟨alg512.md.H0, showLen⟩ : MD 64) = A at g
  obtain ⟨m, hm⟩ := some_length (2 ^ 61 - 1)
  obtain ⟨o0, h0⟩ := (sequential g).1
  obtain ⟨o, _, hr⟩ := updates_run g [Window.whole m (by rw [hm]; decide)] o0 [] (.new h0)
  simp only [List.map_cons, List.map_nil, List.flatten_cons, List.flatten_nil, List.append_nil, List.nil_append, Window.whole_bytes] at hr
  have hs := (h showLen)
  rw [hC] at hs
  obtain ⟨o', hf⟩ := (hs.2 o m hr).2.2 trivial [] (List.replicate 64 0) [] (by simp) (by simp)
  simp only [List.nil_append, List.append_nil, List.length_nil] at hf
  -- what the code does
  obtain ⟨⟨hv, r, e, ab⟩, hpar⟩ := hr.inv g
  have hrl : r.length = 127 := by
    have := eager_rest_mod (B := 2 * 64) (step := A.compress) (by decide) A.H0 m
    rw [e, hm] at this
    exact this
  obtain ⟨t, ht⟩ := ab.buf
  have hsz := ab.size
  rw [ht, List.length_append, hrl] at hsz
  have hlen : o.len = 127 := ab.len.trans hrl
  have hT : C.inc (T512 (m.length - r.length)) 127 = T512 (2 ^ 61 - 1) := by
    rw [g.inc _ _ (by decide), hm, hrl]
  have hT2 : C.inc (T512 (2 ^ 61 - 1)) (2 * 64) = (127, 1) := by
    rw [g.inc _ _ (Nat.le_refl _)]; decide
  have hfin : ∃ s : St 64, o.finalSeq C = .ok s ∧ s.H = ⟨1, 0, 0, 0, 0, 0, 0, 0⟩ := by
    rw [Obj.finalSeq, ab.dgt, show rd [(⟨hv, T512 (m.length - r.length)⟩ : St 64)] 0 = .ok ⟨hv, T512 (m.length - r.length)⟩ from rfl, ok_bind, Core.hashFinal]
    simp only [hlen, hT]
    rw [Core.final1, if_neg (by decide)]
    simp only [pure_eq_ok, ok_bind]
    have f2 := final2_ok (r := r) (t := t) (n := 2 * 64) (by omega) (by omega)
    rw [hrl] at f2
    rw [ht, f2, ok_bind, Core.final3, if_pos (by decide)]
    have hb : (r ++ 0x80 :: List.replicate (2 * 64 - (127 + 1)) 0 : List Byte).length = 2 * 64 := by simp; omega
    have hcl : clear (r ++ 0x80 :: List.replicate (2 * 64 - (127 + 1)) 0) (C.clearAt 0) (2 * 64) = .ok (List.replicate (2 * 64) 0) := by
      have := clear_whole (r ++ 0x80 :: List.replicate (2 * 64 - (127 + 1)) 0)
      rw [hb] at this
      rw [g.clear0, this]
    rw [permute_ok g (Holds.self _) hb, ok_bind, hcl]
    simp only [Core.step, hT2, pure_eq_ok, ok_bind]
    have hpl := putLen512 ((T512 (2 ^ 61 - 1)).1 <<< 3) 1 127 (List.replicate 112 0) (List.replicate 16 0) [] 0 showLen (by decide) (by decide)
    rw [hC] at hpl
    simp only [List.append_nil, List.replicate_append_replicate] at hpl
    rw [show 2 * 64 = 112 + 16 from rfl, hpl, ok_bind,
      permute_ok g (b := List.replicate 112 (0 : Byte) ++ (beEnc 8 (1 : BitVec 64).toNat ++ beEnc 8 ((T512 (2 ^ 61 - 1)).1 <<< 3).toNat)) (Holds.self _)
        (by simp only [List.length_append, beEnc_len, List.length_replicate])]
    refine ⟨_, rfl, ?_⟩
    rw [← hA]
    simp only [Core.step, showLen]
    rw [List.drop_left' (by simp), List.take_left' (by simp)]
    decide +kernel
  obtain ⟨s, hs1, hs2⟩ := hfin
  have hbytes : ∃ o'', o.finalize C (List.replicate 64 0) 0 = .ok (o'', s.H.bytes) := by
    obtain ⟨o'', h4, _⟩ := reset_ok g (o := o) hpar
    refine ⟨o'', ?_⟩
    have hp := put_ok g s.H [] (List.replicate 64 0) [] (by simp)
    simp only [List.nil_append, List.append_nil, List.length_nil] at hp
    rw [Obj.finalize, if_neg (by decide), if_neg (by rw [hpar]; simp), hs1, ok_bind, hp, ok_bind, h4]
    rfl
  obtain ⟨o'', hb⟩ := hbytes
  rw [hf] at hb
  have hdig : MD.hash ⟨alg512.H0, showLen⟩ m = s.H.bytes := by
    have := Except.ok.inj hb
    exact (Prod.mk.inj this).2
  -- the standard
  have hp : (MD.padding (⟨alg512.H0, showLen⟩ : MD 64) m.length) =
      (0x80 :: List.replicate 0 0) ++ (List.replicate 112 0 ++ beEnc 16 (8 * (2 ^ 61 - 1))) := by
    have := (pad_len (Or.inr rfl) (⟨alg512.H0, showLen⟩ : MD 64) m.length).2
    rw [hm] at this ⊢
    exact this (by decide)
  rw [MD.hash, hp, blocks_eager _ (by decide) _ _ _ rfl, eager_append] at hdig
  have hA' : (⟨alg512.H0, showLen⟩ : MD 64) = A := hA
  rw [hA', e] at hdig
  simp only at hdig
  rw [← List.append_assoc, eager_cons (by decide) (by simp; omega), eager_one (by decide) (by simp)] at hdig
  rw [← hA, hs2] at hdig
  simp only [showLen] at hdig
  rw [List.drop_left' (by simp)] at hdig
  revert hdig
  decide +kernel

end Cex.Digest
