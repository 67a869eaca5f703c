import Verif.Blake.Props

/-!
# C65 Runs of the BLAKE2 objects: standard test vectors and the refutation
-/

namespace Cex.Blake
open Cex Cex.IntTools Cex.Blake.Rfc Cex.Stream

/-- A digest of the model: construct, initialise with the key unless it is empty, update, finalise. -/
def runDigest {w : Nat} (C : Core w) (key msg : List Byte) : M (Obj w × List Byte) := do
  let o ← Obj.newSeq C 64
  let o ← (if key = [] then pure o else o.initKey C key [] [])
  let o ← o.update C msg 0 msg.length
  o.finalize C (List.replicate w 0) 0

/-- The digest of "abc" in RFC 7693, appendix B. -/
def abc2s : List Byte :=
  [0x50, 0x8C, 0x5E, 0x8C, 0x32, 0x7C, 0x14, 0xE2, 0xE1, 0xA7, 0x2B, 0xA3, 0x4E, 0xEB, 0x45, 0x2F, 0x37, 0x45, 0x8B, 0x20, 0x9E, 0xD6, 0x3A, 0x29, 0x4D, 0x99, 0x9B, 0x4C,
    0x86, 0x67, 0x59, 0x82]

/-- RFC 7693, appendix A. -/
def abc2b : List Byte :=
  [0xBA, 0x80, 0xA5, 0x3F, 0x98, 0x1C, 0x4D, 0x0D, 0x6A, 0x27, 0x97, 0xB6, 0x9F, 0x12, 0xF6, 0xE9, 0x4C, 0x21, 0x2F, 0x14, 0x68, 0x5A, 0xC4, 0xB7, 0x4B, 0x12, 0xBB, 0x6F,
    0xDB, 0xFF, 0xA2, 0xD1, 0x7D, 0x87, 0xC5, 0x39, 0x2A, 0xAB, 0x79, 0x2D, 0xC2, 0x52, 0xD5, 0xDE, 0x45, 0x33, 0xCC, 0x95, 0x18, 0xD3, 0x8A, 0xA8, 0xDB, 0xF1, 0x92, 0x5A,
    0xB9, 0x23, 0x86, 0xED, 0xD4, 0x00, 0x99, 0x23]

/-- A digest of the model is one of the specification. -/
theorem runDigest_eq {w : Nat} {C : Core w} {A : Alg w} (g : C.Good A) {key msg : List Byte} (hk : key = [] ∨ C.minKey ≤ key.length ∧ key.length ≤ C.maxKey)
    (hm : 2 * w + msg.length < 2 ^ w) (hm2 : msg.length < 2 ^ 64) : ∃ o, runDigest C key msg = .ok (o, A.blake2 key msg) ∧
      Run C o (if key = [] then .plain else .stale key.length) [] := by
  obtain ⟨o, h1, _⟩ := new_ok g 64
  have r1 : Run C o .plain [] := .new 64 h1
  have : ∃ o2, (if key = [] then pure o else o.initKey C key [] [] : M (Obj w)) = .ok o2 ∧ Run C o2 (if key = [] then .plain else .keyed key) [] := by
    split
    · exact ⟨o, rfl, r1⟩
    · rename_i h
      obtain ⟨o2, h2⟩ := ((sequential g).2 _ _ _ r1).2.2.1 key [] [] (by tauto) (by tauto) (Or.inl rfl) (Or.inl rfl)
      exact ⟨o2, h2, .initKey key [] [] r1 h2⟩
  obtain ⟨o2, h2, r2⟩ := this
  obtain ⟨o3, h3⟩ := ((sequential g).2 _ _ _ r2).1 (Window.whole msg hm2)
  have r3 := Run.update _ r2 h3
  rw [Window.whole_bytes, List.nil_append] at r3
  have hw := g.small
  obtain ⟨o4, h4⟩ := ((sequential g).2 _ _ _ r3).2.2.2 (by split <;> simp only [Mode.total] <;> omega) [] (List.replicate w 0) [] (by simp)
    (by simp; omega)
  have r4 := Run.final r3 h4
  simp only [List.nil_append, List.append_nil, List.length_nil] at h4
  refine ⟨o4, ?_, ?_⟩
  · rw [runDigest, h1, ok_bind, h2, ok_bind]
    have h3' : o2.update C msg 0 msg.length = .ok o3 := h3
    rw [h3', ok_bind, h4]
    by_cases hke : key = []
    · subst hke; rfl
    · rw [if_neg hke]; rfl
  · by_cases hke : key = []
    · subst hke; exact r4
    · rw [if_neg hke] at r4 ⊢; exact r4

theorem abc2s_run : (do return decide ((← runDigest (core256 true) [] [0x61, 0x62, 0x63]).2 = abc2s) : M Bool) = .ok true := by decide +kernel

theorem abc2b_run : (do return decide ((← runDigest (core512 true) [] [0x61, 0x62, 0x63]).2 = abc2b) : M Bool) = .ok true := by decide +kernel

theorem value_of {w : Nat} {C : Core w} {A : Alg w} (g : C.Good A) {key msg : List Byte} (hk : key = [] ∨ C.minKey ≤ key.length ∧ key.length ≤ C.maxKey)
    (hm : 2 * w + msg.length < 2 ^ w) (hm2 : msg.length < 2 ^ 64) {v : List Byte} (h : (do return decide ((← runDigest C key msg).2 = v) : M Bool) = .ok true) :
    A.blake2 key msg = v := by
  obtain ⟨o, h1, _⟩ := runDigest_eq g hk hm hm2
  rw [h1] at h
  exact of_decide_eq_true (Except.ok.inj h)

/-- The specification gives the digests printed in the RFC. -/
theorem blake2_abc : alg2s.blake2 [] [0x61, 0x62, 0x63] = abc2s ∧ alg2b.blake2 [] [0x61, 0x62, 0x63] = abc2b :=
  ⟨value_of (core256_good true) (Or.inl rfl) (by decide) (by decide) abc2s_run, value_of (core512_good true) (Or.inl rfl) (by decide) (by decide) abc2b_run⟩

/-! ## A keyed object after `Finalize` -/

/-- Two digests of the empty message after one `Initialize`, the first with the key, the second the one that follows, and the digest
without key. -/
theorem twice_run : (do
    let r ← runDigest (core256 true) (List.replicate 32 1) []
    let s ← r.1.finalize (core256 true) (List.replicate 32 0) 0
    let p ← runDigest (core256 true) [] []
    return decide (r.2 ≠ s.2 ∧ p.2 ≠ s.2) : M Bool) = .ok true := by decide +kernel

theorem key_lost {w : Nat} {C : Core w} {A : Alg w} (g : C.Good A) {key : List Byte} (hk : C.minKey ≤ key.length ∧ key.length ≤ C.maxKey) (hm : 2 * w < 2 ^ w)
    (h : (do
      let r ← runDigest C key []
      let s ← r.1.finalize C (List.replicate w 0) 0
      let p ← runDigest C [] []
      return decide (r.2 ≠ s.2 ∧ p.2 ≠ s.2) : M Bool) = .ok true) :
    ∃ (o o' : Obj w) (out : List Byte), Run C o (.stale key.length) [] ∧ o.finalize C (List.replicate w 0) 0 = .ok (o', out) ∧ out ≠ A.blake2 key [] ∧ out ≠ A.blake2 [] [] := by
  have hne : key ≠ [] := by intro e; rw [e] at hk; have := g.keys; simp at hk; omega
  obtain ⟨o, h1, r1⟩ := runDigest_eq g (msg := []) (Or.inr hk) (by simpa using hm) (by decide)
  obtain ⟨p, h2, _⟩ := runDigest_eq g (key := []) (msg := []) (Or.inl rfl) (by simpa using hm) (by decide)
  rw [if_neg hne] at r1
  have hw := g.small
  obtain ⟨o', h3, _⟩ := finalize_inv g (r1.inv g) [] (List.replicate w 0) [] (by simp) (by simp; omega)
  simp only [List.nil_append, List.append_nil, List.length_nil] at h3
  rw [h1, ok_bind, h3, ok_bind, h2, ok_bind] at h
  have k := of_decide_eq_true (Except.ok.inj h)
  exact ⟨o, o', _, r1, h3, fun e => k.1 e.symm, fun e => k.2 e.symm⟩

/-- Keyed use is not repeatable: there is a reachable object, keyed once and finalised once, whose next digest of the empty message
is neither the digest with that key nor the digest without key. -/
theorem C65_key_lost : ∃ (o o' : Obj 32) (out : List Byte), Run (core256 true) o (.stale 32) [] ∧ o.finalize (core256 true) (List.replicate 32 0) 0 = .ok (o', out) ∧
    out ≠ alg2s.blake2 (List.replicate 32 1) [] ∧ out ≠ alg2s.blake2 [] [] := by
  have := key_lost (core256_good true) (key := List.replicate 32 1) ⟨by decide, by decide⟩ (by decide) twice_run
  rwa [List.length_replicate] at this

/-! ## Cases of the hypotheses -/

/-- A run with a key, an update, a second key with salt and info, and two further updates. -/
example : ∃ o o', Run (core512 false) o (.keyed (List.replicate 40 7)) [0x61, 0x62, 0x63] ∧
    o.finalize (core512 false) (List.replicate 66 0) 1 = .ok (o', [0] ++ alg2b.blake2 (List.replicate 40 7) [0x61, 0x62, 0x63] ++ [0]) := by
  have g := core512_good false
  obtain ⟨o0, _, r0⟩ := runDigest_eq g (key := List.replicate 64 1) (msg := [1, 2]) (Or.inr ⟨by decide, by decide⟩) (by decide) (by decide)
  obtain ⟨o1, h1⟩ := ((sequential g).2 _ _ _ r0).2.2.1 (List.replicate 40 7) (List.replicate 16 1) (List.replicate 16 2) (by decide) (by decide) (Or.inr rfl) (Or.inr rfl)
  have r1 := Run.initKey _ _ _ r0 h1
  obtain ⟨o2, _, r2⟩ := updates_run g [Window.whole [0x61] (by decide), ⟨[0, 0x62, 0x63], 1, 2, by decide, by decide⟩] o1 _ _ r1
  obtain ⟨o3, h3⟩ := ((sequential g).2 _ _ _ r2).2.2.2 (by decide) [0] (List.replicate 64 0) [0] rfl (by decide)
  exact ⟨o2, o3, r2, h3⟩

end Cex.Blake
