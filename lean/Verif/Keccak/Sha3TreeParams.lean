import Verif.Keccak.Sha3TreeFinal
import Verif.IntTools.Props

/-!
# C92 KeccakParams: the configuration block and the comparison

`ToBytes` and the constructor from an array are inverse to each other on parameters with a code of full length; `Equals` compares a sum.
-/

namespace Cex.Keccak
open Cex Cex.IntTools Cex.Mac

namespace KParams

/-- A field in the block is read back. -/
theorem reads {w n : Nat} (hw : 8 * n = w) {g : List Byte → Nat → M (BitVec w)} (h : ReadsAt leVal g n) (v : BitVec w) {l a c : List Byte} {k : Nat} (hl : l = a ++ leRep n v ++ c) (hk : k = a.length) : g l k = .ok v := by
  obtain ⟨u, h1, h2⟩ := h.1 a (leRep n v) c (leRep_length n v)
  rw [hl, hk, h1]
  congr 1
  apply BitVec.eq_of_toNat_eq
  rw [h2, leVal_leRep, show (256 : Nat) ^ n = 2 ^ w from by rw [← hw, Nat.pow_mul]]
  exact Nat.mod_eq_of_lt v.isLt

/-- The code as it stands in the block. -/
def padded (p : KParams) : KParams := { p with code := p.code ++ List.replicate (p.codeMax - p.code.length) 0 }

theorem fromBytes_eq (p : KParams) (c t : List Byte) (hc : c.length = p.codeMax) :
    fromBytes (leRep 4 p.node ++ leRep 2 p.ver ++ leRep 8 p.out ++ leRep 4 p.leaf ++ [p.depth] ++ [p.fan] ++ leRep 4 p.rsv ++ c ++ t) = .ok { p with code := c } := by
  generalize hb : leRep 4 p.node ++ leRep 2 p.ver ++ leRep 8 p.out ++ leRep 4 p.leaf ++ [p.depth] ++ [p.fan] ++ leRep 4 p.rsv ++ c ++ t = b
  have h1 : leBytesTo32 b 0 = .ok p.node := reads rfl C01_le32_read p.node (a := []) (c := leRep 2 p.ver ++ leRep 8 p.out ++ leRep 4 p.leaf ++ [p.depth] ++ [p.fan] ++ leRep 4 p.rsv ++ c ++ t)
    (by rw [← hb]; simp only [List.append_assoc, List.nil_append]) rfl
  have h2 : leBytesTo16 b 4 = .ok p.ver := reads rfl C01_le16_read p.ver (a := leRep 4 p.node) (c := leRep 8 p.out ++ leRep 4 p.leaf ++ [p.depth] ++ [p.fan] ++ leRep 4 p.rsv ++ c ++ t)
    (by rw [← hb]; simp only [List.append_assoc]) (by simp [leRep_length])
  have h3 : leBytesTo64 b 6 = .ok p.out := reads rfl C01_le64_read p.out (a := leRep 4 p.node ++ leRep 2 p.ver) (c := leRep 4 p.leaf ++ [p.depth] ++ [p.fan] ++ leRep 4 p.rsv ++ c ++ t)
    (by rw [← hb]; simp only [List.append_assoc]) (by simp [leRep_length])
  have h4 : leBytesTo32 b 14 = .ok p.leaf := reads rfl C01_le32_read p.leaf (a := leRep 4 p.node ++ leRep 2 p.ver ++ leRep 8 p.out) (c := [p.depth] ++ [p.fan] ++ leRep 4 p.rsv ++ c ++ t)
    (by rw [← hb]; simp only [List.append_assoc]) (by simp [leRep_length])
  have h5 : rd b 18 = .ok p.depth := by
    rw [← hb]
    have := rd_at (leRep 4 p.node ++ leRep 2 p.ver ++ leRep 8 p.out ++ leRep 4 p.leaf) ([p.fan] ++ leRep 4 p.rsv ++ c ++ t) p.depth 18 (by simp [leRep_length])
    simpa only [List.append_assoc, List.cons_append, List.nil_append] using this
  have h6 : rd b 19 = .ok p.fan := by
    rw [← hb]
    have := rd_at (leRep 4 p.node ++ leRep 2 p.ver ++ leRep 8 p.out ++ leRep 4 p.leaf ++ [p.depth]) (leRep 4 p.rsv ++ c ++ t) p.fan 19 (by simp [leRep_length])
    simpa only [List.append_assoc, List.cons_append, List.nil_append] using this
  have h7 : leBytesTo32 b 20 = .ok p.rsv := reads rfl C01_le32_read p.rsv (a := leRep 4 p.node ++ leRep 2 p.ver ++ leRep 8 p.out ++ leRep 4 p.leaf ++ [p.depth] ++ [p.fan]) (c := c ++ t)
    (by rw [← hb]; simp only [List.append_assoc]) (by simp [leRep_length])
  have h8 : copy b 24 (List.replicate (codeMaxOf p.out) 0) 0 (codeMaxOf p.out) = .ok c := by
    have hcm : c.length = codeMaxOf p.out := hc
    have hh : Holds b 24 c := ⟨leRep 4 p.node ++ leRep 2 p.ver ++ leRep 8 p.out ++ leRep 4 p.leaf ++ [p.depth] ++ [p.fan] ++ leRep 4 p.rsv, t, hb.symm, by simp [leRep_length]⟩
    have := copy_at (a := []) (b := List.replicate (codeMaxOf p.out) 0) (c := []) (off := 0) hh rfl hcm.symm (by rw [List.length_replicate, hcm])
    simpa only [List.nil_append, List.append_nil] using this
  rw [fromBytes, h1, ok_bind, h2, ok_bind, h3, ok_bind, h4, ok_bind, h5, ok_bind, h6, ok_bind, h7, ok_bind, h8, ok_bind]
  rfl

end KParams
open KParams

/-- **C92.** `ToBytes` gives `GetHeaderSize()` bytes, and the constructor from an array that begins with them gives the parameters back, the code filled with zeros to its full length. -/
theorem C92_roundtrip (p : KParams) (h : p.code.length ≤ p.codeMax) : ∃ b, p.toBytes = .ok b ∧ b.length = 24 + p.codeMax ∧ ∀ t, fromBytes (b ++ t) = .ok p.padded := by
  have hc : (p.code ++ List.replicate (p.codeMax - p.code.length) 0).length = p.codeMax := by rw [List.length_append, List.length_replicate]; omega
  refine ⟨_, by rw [toBytes, if_neg (by omega)]; rfl, ?_, fun t => fromBytes_eq p _ t hc⟩
  simp only [List.length_append, leRep_length, List.length_cons, List.length_nil, List.length_replicate]
  omega

/-- **C92.** `Clone` and `DeepCopy` of parameters that a constructor has made (their code has its full length) give the same parameters. -/
theorem C92_clone (p : KParams) (h : p.code.length = p.codeMax) : (do let b ← p.toBytes; fromBytes b) = .ok p := by
  obtain ⟨b, h1, _, h2⟩ := C92_roundtrip p (by omega)
  have := h2 []
  rw [List.append_nil] at this
  rw [h1, ok_bind, this, padded, h, Nat.sub_self, List.replicate_zero, List.append_nil]

/-- **C92.** Different parameters have different blocks, so the leaves of different trees begin with different blocks. -/
theorem C92_injective (p q : KParams) (hp : p.code.length = p.codeMax) (hq : q.code.length = q.codeMax) (h : p.toBytes = q.toBytes) : p = q := by
  have h1 := C92_clone p hp
  rw [h, C92_clone q hq] at h1
  exact (Except.ok.inj h1).symm

/-- The constructor from an array reads behind the end of one that is too short for its own output size. -/
theorem C92_short_ub (b : List Byte) (p : KParams) (h : fromBytes b = .ok p) : 24 + p.codeMax ≤ b.length ∧ p.code.length = p.codeMax := by
  rw [fromBytes] at h
  obtain ⟨x1, _, h⟩ := bind_ok h
  obtain ⟨x2, _, h⟩ := bind_ok h
  obtain ⟨x3, _, h⟩ := bind_ok h
  obtain ⟨x4, _, h⟩ := bind_ok h
  obtain ⟨x5, _, h⟩ := bind_ok h
  obtain ⟨x6, _, h⟩ := bind_ok h
  obtain ⟨x7, _, h⟩ := bind_ok h
  obtain ⟨x8, g, h⟩ := bind_ok h
  cases h
  show 24 + codeMaxOf x3 ≤ b.length ∧ x8.length = codeMaxOf x3
  have hpos : 0 < codeMaxOf x3 := by rw [codeMaxOf]; split <;> decide
  rw [copy, if_neg (by omega)] at g
  obtain ⟨s, g1, g⟩ := bind_ok g
  rw [slice] at g1
  split at g1
  · next hle =>
    refine ⟨hle, ?_⟩
    rw [blit] at g
    split at g
    · cases g
      cases g1
      simp only [List.length_append, List.length_take, List.length_drop, List.length_replicate]
      omega
    · cases g
  · cases g1

/-- Equal parameters compare equal, unless the sum overflows. -/
theorem C92_equals_refl (p : KParams) (h : BitVec 32) (hh : p.hashCode = .ok h) : p.equals p = .ok true := by
  rw [equals, hh, ok_bind, ok_bind, decide_eq_true rfl]; rfl

/-- **C92**, refuted: `Equals` holds for a fan-out of 4 in version 1 and a fan-out of 2 in version 3, and for different distribution codes. -/
theorem C92_equals_false : (KParams.equals ⟨0, 1, 32, 136, 0, 4, 0, List.replicate 112 0⟩ ⟨0, 3, 32, 136, 0, 2, 0, List.replicate 112 0⟩ = .ok true) ∧
    (KParams.equals ⟨0, 1, 32, 136, 0, 4, 0, [1, 2] ++ List.replicate 110 0⟩ ⟨0, 1, 32, 136, 0, 4, 0, [2, 1] ++ List.replicate 110 0⟩ = .ok true) := by decide +kernel

/-- **C92**, refuted: for every parameters there are others that compare equal, with the leaf size and the node offset changed, whatever the result is. -/
theorem C92_equals_refuted (p : KParams) : ∃ q : KParams, q ≠ p ∧ q.out = p.out ∧ q.fan = p.fan ∧ q.code = p.code ∧ q.hashCode = p.hashCode := by
  refine ⟨{ p with node := p.node + 1, leaf := p.leaf - 1 }, fun h => ?_, rfl, rfl, rfl, ?_⟩
  · have := congrArg KParams.node h
    simp at this
  · have e : BitVec.ofNat 32 (31 * p.ver.toNat) + 31 * (p.node + 1) + 31 * (p.leaf - 1) + (31 * p.out).setWidth 32 =
        BitVec.ofNat 32 (31 * p.ver.toNat) + 31 * p.node + 31 * p.leaf + (31 * p.out).setWidth 32 := by
      generalize BitVec.ofNat 32 (31 * p.ver.toNat) = a
      generalize BitVec.setWidth 32 (31 * p.out) = b
      have : ∀ x : BitVec 32, 31 * (x - 1) + 31 = 31 * x := fun x => by
        have h := BitVec.sub_add_cancel x 1
        calc 31 * (x - 1) + 31 = 31 * (x - 1) + 31 * 1 := rfl
          _ = 31 * (x - 1 + 1) := (BitVec.mul_add).symm
          _ = 31 * x := by rw [h]
      rw [BitVec.mul_add, ← this p.leaf]
      show a + (31 * p.node + 31) + 31 * (p.leaf - 1) + b = a + 31 * p.node + (31 * (p.leaf - 1) + 31) + b
      ac_rfl
    rw [hashCode, hashCode]
    dsimp only
    rw [e]

/-- **C92**, refuted: the sum overflows a signed integer for some distribution codes. -/
theorem C92_hash_ub : KParams.hashCode ⟨69273400, 1, 32, 136, 0, 4, 0, List.replicate 112 0⟩ ≠ .error .ub ∧ KParams.hashCode ⟨69273400, 1, 32, 136, 0, 4, 0, List.replicate 112 255⟩ = .error .ub := by decide +kernel

/-- parameters that a constructor makes -/
example : ∃ p, KParams.ofSizes 32 136 4 = .ok p ∧ (do let b ← p.toBytes; fromBytes b) = .ok p := ⟨_, rfl, C92_clone _ (by rw [List.length_replicate]; rfl)⟩

end Cex.Keccak
