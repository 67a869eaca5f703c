import Verif.Params.Model
import Verif.Keccak.Sha3TreeParams

/-!
# C96 SHA2Params, BlakeParams and SkeinParams: the configuration block and the comparison
-/

namespace Cex.Params
open Cex Cex.IntTools Cex.Keccak Cex.Mac

theorem copy_full {b pre c t : List Byte} {off n : Nat} (hb : b = pre ++ c ++ t) (ho : off = pre.length) (hn : n = c.length) : copy b off (List.replicate n 0) 0 n = .ok c := by
  have hh : Holds b off c := ⟨pre, t, hb, ho.symm⟩
  have := copy_at (a := []) (b := List.replicate n 0) (c := []) (off := 0) hh rfl hn (by rw [List.length_replicate, hn])
  simpa only [List.nil_append, List.append_nil] using this

theorem copy_short {b z : List Byte} {off n : Nat} (h0 : 0 < n) (h : b.length < off + n) : copy b off z 0 n = .error .ub := by
  rw [copy, if_neg (by omega), slice, if_neg (by omega)]; rfl

theorem rd_app {b pre t : List Byte} {x : Byte} {i : Nat} (hb : b = pre ++ [x] ++ t) (hi : i = pre.length) : rd b i = .ok x := by
  rw [hb, List.append_assoc]; exact Keccak.rd_at pre t x i hi

theorem rd_some (b : List Byte) {i : Nat} (h : i < b.length) : ∃ x, rd b i = .ok x := ⟨_, rd_ok h⟩

theorem split_at (b : List Byte) (k n : Nat) (h : k + n ≤ b.length) : ∃ x y z : List Byte, b = x ++ y ++ z ∧ x.length = k ∧ y.length = n :=
  ⟨b.take k, (b.drop k).take n, (b.drop k).drop n, by rw [List.append_assoc, List.take_append_drop, List.take_append_drop], by rw [List.length_take]; omega, by rw [List.length_take, List.length_drop]; omega⟩

theorem reads_some {w n : Nat} {g : List Byte → Nat → M (BitVec w)} (h : ReadsAt leVal g n) (b : List Byte) (k : Nat) (hk : k + n ≤ b.length) : ∃ v, g b k = .ok v := by
  obtain ⟨x, y, z, hb, hx, hy⟩ := split_at b k n hk
  obtain ⟨v, h1, _⟩ := h.1 x y z hy
  exact ⟨v, by rw [hb, ← hx]; exact h1⟩

/-! ## SHA2Params -/

/-- **C96.** `Clone` and `DeepCopy` of SHA2Params with a code of full length, as all constructors make it, give the same parameters. -/
theorem C96_sha2_clone (p : KParams) (h : p.code.length = p.codeMax) : sha2Clone p = .ok p := by
  obtain ⟨b, h1, h2, h3⟩ := C92_roundtrip p (by omega)
  have h4 := C92_clone p h
  rw [h1, ok_bind] at h4
  have : ¬ b.length < 24 + KParams.codeMaxOf 0 := by
    have e : KParams.codeMaxOf 0 = 48 := rfl
    have : 48 ≤ p.codeMax := by rw [KParams.codeMax, KParams.codeMaxOf]; split <;> decide
    omega
  rw [sha2Clone, sha2ToBytes, h1, ok_bind, sha2FromBytes, if_neg this, h4]

/-- **C96.** An array of less than 72 bytes is refused. -/
theorem C96_sha2_refused (b : List Byte) (h : b.length < 72) : sha2FromBytes b = .error (.throws .illegalOperation) := by
  rw [sha2FromBytes, if_pos (show b.length < 24 + KParams.codeMaxOf 0 from h)]; rfl

/-- **C96**, refuted: an array of 72 to 135 bytes that announces an output of 32 bytes passes the size test and is read behind its end. -/
theorem C96_sha2_short (b : List Byte) (h1 : 72 ≤ b.length) (h2 : b.length < 136) (h : leBytesTo64 b 6 = .ok 32) : sha2FromBytes b = .error .ub := by
  obtain ⟨v1, e1⟩ := reads_some C01_le32_read b 0 (by omega)
  obtain ⟨v2, e2⟩ := reads_some C01_le16_read b 4 (by omega)
  obtain ⟨v3, e3⟩ := reads_some C01_le32_read b 14 (by omega)
  obtain ⟨v4, e4⟩ := rd_some b (i := 18) (by omega)
  obtain ⟨v5, e5⟩ := rd_some b (i := 19) (by omega)
  obtain ⟨v6, e6⟩ := reads_some C01_le32_read b 20 (by omega)
  have e7 : copy b 24 (List.replicate (KParams.codeMaxOf 32) 0) 0 (KParams.codeMaxOf 32) = .error .ub := copy_short (by decide) (by have : KParams.codeMaxOf 32 = 112 := rfl; omega)
  rw [sha2FromBytes, if_neg (by have : KParams.codeMaxOf 0 = 48 := rfl; omega), KParams.fromBytes, e1, ok_bind, e2, ok_bind, h, ok_bind, e3, ok_bind, e4, ok_bind, e5, ok_bind, e6, ok_bind, e7]
  rfl

/-- parameters that a constructor makes, and a block of 32 bytes cut to 72 -/
example : ∃ p, sha2OfSizes 32 64 4 = .ok p ∧ sha2Clone p = .ok p := ⟨_, rfl, C96_sha2_clone _ (by rw [List.length_replicate]; rfl)⟩
example : sha2FromBytes (List.replicate 6 0 ++ [32] ++ List.replicate 65 0) = .error .ub := C96_sha2_short _ (by decide) (by decide) (by decide +kernel)

/-- **C96**, refuted: `Equals` of SHA2Params holds for different parameters, whatever the first are. -/
theorem C96_sha2_equals_refuted (p : KParams) (v : BitVec 32) (h : p.hashCode = .ok v) : ∃ q : KParams, q ≠ p ∧ sha2Equals p q = .ok true := by
  obtain ⟨q, h1, _, _, _, h2⟩ := C92_equals_refuted p
  refine ⟨q, h1, ?_⟩
  rw [sha2Equals, KParams.equals, h2, h, ok_bind, ok_bind, decide_eq_true rfl]; rfl

/-! ## BlakeParams -/

namespace BParams

theorem fromBytes_eq (p : BParams) (c t : List Byte) (hc : c.length = p.codeMax) (hl : 12 + c.length + t.length = 32 ∨ 12 + c.length + t.length = 64) :
    fromBytes ([p.out] ++ [p.key] ++ [p.fan] ++ [p.maxDepth] ++ leRep 4 p.leaf ++ [p.nodeOff] ++ [p.nodeDepth] ++ [p.inner] ++ [p.rsv] ++ c ++ t) = .ok { p with code := c } := by
  generalize hb : [p.out] ++ [p.key] ++ [p.fan] ++ [p.maxDepth] ++ leRep 4 p.leaf ++ [p.nodeOff] ++ [p.nodeDepth] ++ [p.inner] ++ [p.rsv] ++ c ++ t = b
  have hbl : b.length = 12 + c.length + t.length := by
    rw [← hb]; simp only [List.length_append, List.length_cons, List.length_nil, leRep_length]
  have h0 : rd b 0 = .ok p.out := rd_app (pre := []) (by rw [← hb]; simp only [List.append_assoc, List.nil_append]; rfl) rfl
  have h1 : rd b 1 = .ok p.key := rd_app (pre := [p.out]) (by rw [← hb]; simp only [List.append_assoc]; rfl) rfl
  have h2 : rd b 2 = .ok p.fan := rd_app (pre := [p.out] ++ [p.key]) (by rw [← hb]; simp only [List.append_assoc]; rfl) rfl
  have h3 : rd b 3 = .ok p.maxDepth := rd_app (pre := [p.out] ++ [p.key] ++ [p.fan]) (by rw [← hb]; simp only [List.append_assoc]; rfl) rfl
  have h4 : leBytesTo32 b 4 = .ok p.leaf := KParams.reads rfl C01_le32_read p.leaf (a := [p.out] ++ [p.key] ++ [p.fan] ++ [p.maxDepth]) (by rw [← hb]; simp only [List.append_assoc]; rfl) rfl
  have h5 : rd b 8 = .ok p.nodeOff := rd_app (pre := [p.out] ++ [p.key] ++ [p.fan] ++ [p.maxDepth] ++ leRep 4 p.leaf) (by rw [← hb]; simp only [List.append_assoc]; rfl) (by simp [leRep_length])
  have h6 : rd b 9 = .ok p.nodeDepth := rd_app (pre := [p.out] ++ [p.key] ++ [p.fan] ++ [p.maxDepth] ++ leRep 4 p.leaf ++ [p.nodeOff]) (by rw [← hb]; simp only [List.append_assoc]; rfl) (by simp [leRep_length])
  have h7 : rd b 10 = .ok p.inner := rd_app (pre := [p.out] ++ [p.key] ++ [p.fan] ++ [p.maxDepth] ++ leRep 4 p.leaf ++ [p.nodeOff] ++ [p.nodeDepth]) (by rw [← hb]; simp only [List.append_assoc]; rfl) (by simp [leRep_length])
  have h8 : rd b 11 = .ok p.rsv := rd_app (pre := [p.out] ++ [p.key] ++ [p.fan] ++ [p.maxDepth] ++ leRep 4 p.leaf ++ [p.nodeOff] ++ [p.nodeDepth] ++ [p.inner]) (by rw [← hb]; simp only [List.append_assoc]; rfl)
    (by simp [leRep_length])
  have h9 : copy b 12 (List.replicate (codeMaxOf p.out) 0) 0 (codeMaxOf p.out) = .ok c :=
    copy_full (pre := [p.out] ++ [p.key] ++ [p.fan] ++ [p.maxDepth] ++ leRep 4 p.leaf ++ [p.nodeOff] ++ [p.nodeDepth] ++ [p.inner] ++ [p.rsv]) hb.symm (by simp [leRep_length]) hc.symm
  rw [fromBytes, if_neg (by omega)]
  show (do let out ← rd b 0; _) = _
  rw [h0, ok_bind, h1, ok_bind, h2, ok_bind, h3, ok_bind, h4, ok_bind, h5, ok_bind, h6, ok_bind, h7, ok_bind, h8, ok_bind, h9, ok_bind]
  rfl

end BParams
open BParams

/-- **C96.** For BlakeParams of an output size of 32 or 64 bytes with a code of full length, `ToBytes` gives as many bytes and `Clone` and `DeepCopy` give the same parameters. -/
theorem C96_blake_clone (p : BParams) (ho : p.out = 32 ∨ p.out = 64) (h : p.code.length = p.codeMax) : (∃ b, p.toBytes = .ok b ∧ b.length = p.out.toNat) ∧ p.clone = .ok p := by
  have hm : (p.out.toNat = 32 ∧ p.code.length = 12) ∨ (p.out.toNat = 64 ∧ p.code.length = 40) := by
    rw [h, codeMax]
    rcases ho with e | e <;> rw [e]
    · exact .inl ⟨rfl, rfl⟩
    · exact .inr ⟨rfl, rfl⟩
  have ht : p.toBytes = .ok ([p.out] ++ [p.key] ++ [p.fan] ++ [p.maxDepth] ++ leRep 4 p.leaf ++ [p.nodeOff] ++ [p.nodeDepth] ++ [p.inner] ++ [p.rsv] ++ p.code ++
    List.replicate (p.out.toNat - (12 + p.code.length)) 0) := by rw [toBytes, if_neg (by omega)]; rfl
  refine ⟨⟨_, ht, ?_⟩, ?_⟩
  · simp only [List.length_append, List.length_cons, List.length_nil, leRep_length, List.length_replicate]; omega
  · rw [clone, ht, ok_bind, fromBytes_eq p p.code _ h (by rw [List.length_replicate]; omega)]

/-- **C96.** Different parameters have different blocks. -/
theorem C96_blake_injective (p q : BParams) (hp : p.out = 32 ∨ p.out = 64) (hq : q.out = 32 ∨ q.out = 64) (h1 : p.code.length = p.codeMax) (h2 : q.code.length = q.codeMax)
    (h : p.toBytes = q.toBytes) : p = q := by
  have e := (C96_blake_clone p hp h1).2
  have e' := (C96_blake_clone q hq h2).2
  rw [clone, h] at e
  rw [clone, e] at e'
  exact Except.ok.inj e'

/-- **C96.** The constructor from all members makes such parameters, whatever the code. -/
theorem C96_blake_members (out key fan maxDepth : Byte) (leaf : BitVec 32) (nodeOff nodeDepth inner : Byte) (code : List Byte) :
    (ofMembers out key fan maxDepth leaf nodeOff nodeDepth inner code).code.length = (ofMembers out key fan maxDepth leaf nodeOff nodeDepth inner code).codeMax := by
  simp only [ofMembers, codeMax, List.length_append, List.length_take, List.length_replicate]; omega

/-- **C96**, refuted: an array of 32 bytes that does not begin with 32 passes the size test and is read behind its end. -/
theorem C96_blake_short (b : List Byte) (x : Byte) (hb : b.length = 32) (h0 : b[0]? = some x) (hx : x ≠ 32) : fromBytes b = .error .ub := by
  have h0 : rd b 0 = .ok x := by rw [rd, h0]
  obtain ⟨v1, e1⟩ := rd_some b (i := 1) (by omega)
  obtain ⟨v2, e2⟩ := rd_some b (i := 2) (by omega)
  obtain ⟨v3, e3⟩ := rd_some b (i := 3) (by omega)
  obtain ⟨v4, e4⟩ := reads_some C01_le32_read b 4 (by omega)
  obtain ⟨v5, e5⟩ := rd_some b (i := 8) (by omega)
  obtain ⟨v6, e6⟩ := rd_some b (i := 9) (by omega)
  obtain ⟨v7, e7⟩ := rd_some b (i := 10) (by omega)
  obtain ⟨v8, e8⟩ := rd_some b (i := 11) (by omega)
  have hc : codeMaxOf x = 40 := if_neg hx
  have e9 : copy b 12 (List.replicate (codeMaxOf x) 0) 0 (codeMaxOf x) = .error .ub := copy_short (by omega) (by omega)
  rw [fromBytes, if_neg (by omega)]
  show (do let out ← rd b 0; _) = _
  rw [h0, ok_bind, e1, ok_bind, e2, ok_bind, e3, ok_bind, e4, ok_bind, e5, ok_bind, e6, ok_bind, e7, ok_bind, e8, ok_bind, e9]
  rfl

/-- **C96**, refuted: the constructor from all members takes every output size, and with one below 52 other than 32 `ToBytes` and `Clone` write behind the end of the block; so they do after `Reset`. -/
theorem C96_blake_small (p : BParams) (ho : p.out ≠ 32) (hs : p.out.toNat < 52) (h : p.code.length = p.codeMax) : p.toBytes = .error .ub ∧ p.clone = .error .ub := by
  have hc : p.code.length = 40 := by rw [h, codeMax, codeMaxOf, if_neg ho]
  have : p.toBytes = .error .ub := by rw [toBytes, if_pos (by omega)]; rfl
  exact ⟨this, by rw [clone, this]; rfl⟩

theorem C96_blake_reset (p : BParams) : p.reset.toBytes = .error .ub := by
  rw [toBytes, if_pos (by show (0 : Nat) < _; omega)]; rfl

/-- **C96**, refuted: `Equals` of BlakeParams does not see that the fan-out and the depth of the tree are exchanged. -/
theorem C96_blake_equals_refuted (p : BParams) (v : BitVec 32) (h : p.hashCode = .ok v) : p.equals { p with fan := p.maxDepth, maxDepth := p.fan } = .ok true := by
  have e : BParams.hashCode { p with fan := p.maxDepth, maxDepth := p.fan } = p.hashCode := by
    rw [hashCode, hashCode]
    dsimp only
    rw [Nat.add_right_comm]
  rw [equals, e, h, ok_bind, ok_bind, decide_eq_true rfl]; rfl

/-- Parameters of the tree of Blake2bp (64 bytes, depth 2, fan-out 4): the exchanged ones are different and compare equal. -/
example : ∃ p q, ofSizes 64 2 4 0 64 = .ok p ∧ p.clone = .ok p ∧ q ≠ p ∧ p.equals q = .ok true :=
  ⟨_, { out := 64, key := 0, fan := 2, maxDepth := 4, leaf := 0, nodeOff := 0, nodeDepth := 0, inner := 64, rsv := 0, code := List.replicate 40 0 }, rfl,
    (C96_blake_clone _ (.inr rfl) (by rw [List.length_replicate]; rfl)).2, by decide, C96_blake_equals_refuted _ 4154 (by decide +kernel) |>.trans (by rfl)⟩
example : fromBytes (64 :: List.replicate 31 0) = .error .ub := C96_blake_short _ 64 rfl rfl (by decide)

/-! ## SkeinParams -/

namespace SParams

theorem headerOf_eq (out : BitVec 64) : headerOf out = out.toNat := by
  rw [headerOf, BitVec.add_comm, BitVec.sub_add_cancel]

theorem codeMaxOf_eq {out : BitVec 64} (h : 24 ≤ out.toNat) : codeMaxOf out = out.toNat - 24 := by
  rw [codeMaxOf, BitVec.toNat_sub_of_le (by rw [BitVec.le_def]; exact h)]; rfl

theorem fromBytes_eq (p : SParams) (c t : List Byte) (hs : p.schema.length = 4) (hc : c.length = p.codeMax) (ho : p.codeMax < 2 ^ 63) :
    SParams.fromBytes (p.schema ++ leRep 2 p.ver ++ leRep 2 p.rsv1 ++ leRep 8 p.out ++ [p.leaf] ++ [p.depth] ++ [p.fan] ++ [p.rsv2] ++ leRep 4 p.rsv3 ++ c ++ t) = .ok { p with code := c } := by
  generalize hb : p.schema ++ leRep 2 p.ver ++ leRep 2 p.rsv1 ++ leRep 8 p.out ++ [p.leaf] ++ [p.depth] ++ [p.fan] ++ [p.rsv2] ++ leRep 4 p.rsv3 ++ c ++ t = b
  have h0 : copy b 0 (List.replicate 4 0) 0 4 = .ok p.schema := copy_full (pre := []) (by rw [← hb]; simp only [List.append_assoc, List.nil_append]; rfl) rfl hs.symm
  have h1 : leBytesTo16 b 4 = .ok p.ver := KParams.reads rfl C01_le16_read p.ver (a := p.schema) (by rw [← hb]; simp only [List.append_assoc]; rfl) hs.symm
  have h2 : leBytesTo16 b 6 = .ok p.rsv1 := KParams.reads rfl C01_le16_read p.rsv1 (a := p.schema ++ leRep 2 p.ver) (by rw [← hb]; simp only [List.append_assoc]; rfl) (by simp [leRep_length, hs])
  have h3 : leBytesTo64 b 8 = .ok p.out := KParams.reads rfl C01_le64_read p.out (a := p.schema ++ leRep 2 p.ver ++ leRep 2 p.rsv1) (by rw [← hb]; simp only [List.append_assoc]; rfl) (by simp [leRep_length, hs])
  have h4 : rd b 16 = .ok p.leaf := rd_app (pre := p.schema ++ leRep 2 p.ver ++ leRep 2 p.rsv1 ++ leRep 8 p.out) (by rw [← hb]; simp only [List.append_assoc]; rfl) (by simp [leRep_length, hs])
  have h5 : rd b 17 = .ok p.depth := rd_app (pre := p.schema ++ leRep 2 p.ver ++ leRep 2 p.rsv1 ++ leRep 8 p.out ++ [p.leaf]) (by rw [← hb]; simp only [List.append_assoc]; rfl) (by simp [leRep_length, hs])
  have h6 : rd b 18 = .ok p.fan := rd_app (pre := p.schema ++ leRep 2 p.ver ++ leRep 2 p.rsv1 ++ leRep 8 p.out ++ [p.leaf] ++ [p.depth]) (by rw [← hb]; simp only [List.append_assoc]; rfl) (by simp [leRep_length, hs])
  have h7 : rd b 19 = .ok p.rsv2 := rd_app (pre := p.schema ++ leRep 2 p.ver ++ leRep 2 p.rsv1 ++ leRep 8 p.out ++ [p.leaf] ++ [p.depth] ++ [p.fan]) (by rw [← hb]; simp only [List.append_assoc]; rfl)
    (by simp [leRep_length, hs])
  have h8 : leBytesTo32 b 20 = .ok p.rsv3 := KParams.reads rfl C01_le32_read p.rsv3 (a := p.schema ++ leRep 2 p.ver ++ leRep 2 p.rsv1 ++ leRep 8 p.out ++ [p.leaf] ++ [p.depth] ++ [p.fan] ++ [p.rsv2])
    (by rw [← hb]; simp only [List.append_assoc]; rfl) (by simp [leRep_length, hs])
  have hz : zeroed (codeMaxOf p.out) = .ok (List.replicate (codeMaxOf p.out) 0) := by rw [zeroed, if_neg (by show ¬ 2 ^ 63 ≤ p.codeMax; omega)]; rfl
  have h9 : copy b 24 (List.replicate (codeMaxOf p.out) 0) 0 (codeMaxOf p.out) = .ok c :=
    copy_full (pre := p.schema ++ leRep 2 p.ver ++ leRep 2 p.rsv1 ++ leRep 8 p.out ++ [p.leaf] ++ [p.depth] ++ [p.fan] ++ [p.rsv2] ++ leRep 4 p.rsv3) hb.symm (by simp [leRep_length, hs]) hc.symm
  rw [SParams.fromBytes, if_neg (by rw [headerOf_eq]; exact Nat.not_lt_zero _)]
  show (do let schema ← copy b 0 (List.replicate 4 0) 0 4; _) = _
  rw [h0, ok_bind, h1, ok_bind, h2, ok_bind, h3, ok_bind, h4, ok_bind, h5, ok_bind, h6, ok_bind, h7, ok_bind, h8, ok_bind, hz, ok_bind, h9, ok_bind]
  rfl

end SParams

/-- **C96.** For SkeinParams with a schema of four bytes, an output size from 24 bytes on and a code of full length, `ToBytes` gives as many bytes as the output size says and `Clone` and `DeepCopy` give the same parameters. -/
theorem C96_skein_clone (p : SParams) (hs : p.schema.length = 4) (ho : 24 ≤ p.out.toNat) (ho' : p.out.toNat < 2 ^ 63) (h : p.code.length = p.codeMax) :
    (∃ b, p.toBytes = .ok b ∧ b.length = p.out.toNat) ∧ p.clone = .ok p := by
  have hm : p.codeMax = p.out.toNat - 24 := SParams.codeMaxOf_eq ho
  have hh := SParams.headerOf_eq p.out
  have ht : p.toBytes = .ok (p.schema ++ leRep 2 p.ver ++ leRep 2 p.rsv1 ++ leRep 8 p.out ++ [p.leaf] ++ [p.depth] ++ [p.fan] ++ [p.rsv2] ++ leRep 4 p.rsv3 ++ p.code ++
      List.replicate (SParams.headerOf p.out - (24 + p.code.length)) 0) := by
    rw [SParams.toBytes, if_neg (by omega), if_neg (by omega), List.take_of_length_le (l := p.schema) (by omega)]; rfl
  refine ⟨⟨_, ht, ?_⟩, ?_⟩
  · simp only [List.length_append, List.length_cons, List.length_nil, leRep_length, List.length_replicate]; omega
  · rw [SParams.clone, ht, ok_bind, SParams.fromBytes_eq p p.code _ hs h (by omega)]

/-- **C96.** Different parameters have different blocks. -/
theorem C96_skein_injective (p q : SParams) (hp : p.schema.length = 4 ∧ 24 ≤ p.out.toNat ∧ p.out.toNat < 2 ^ 63 ∧ p.code.length = p.codeMax)
    (hq : q.schema.length = 4 ∧ 24 ≤ q.out.toNat ∧ q.out.toNat < 2 ^ 63 ∧ q.code.length = q.codeMax) (h : p.toBytes = q.toBytes) : p = q := by
  have e := (C96_skein_clone p hp.1 hp.2.1 hp.2.2.1 hp.2.2.2).2
  have e' := (C96_skein_clone q hq.1 hq.2.1 hq.2.2.1 hq.2.2.2).2
  rw [SParams.clone, h] at e
  rw [SParams.clone, e] at e'
  exact Except.ok.inj e'

/-- **C96**, refuted: the constructor from an array refuses none for its size; one that is shorter than the output size it announces is read behind its end. -/
theorem C96_skein_short (b : List Byte) (v : BitVec 64) (h : 24 ≤ b.length) (hv : leBytesTo64 b 8 = .ok v) (h1 : b.length < v.toNat) (h2 : v.toNat < 2 ^ 63) : SParams.fromBytes b = .error .ub := by
  obtain ⟨e0, v0⟩ : ∃ x, copy b 0 (List.replicate 4 0) 0 4 = .ok x := by
    obtain ⟨x, y, z, hb, hx, hy⟩ := split_at b 0 4 (by omega)
    exact ⟨y, copy_full hb hx.symm hy.symm⟩
  obtain ⟨v1, e1⟩ := reads_some C01_le16_read b 4 (by omega)
  obtain ⟨v2, e2⟩ := reads_some C01_le16_read b 6 (by omega)
  obtain ⟨v4, e4⟩ := rd_some b (i := 16) (by omega)
  obtain ⟨v5, e5⟩ := rd_some b (i := 17) (by omega)
  obtain ⟨v6, e6⟩ := rd_some b (i := 18) (by omega)
  obtain ⟨v7, e7⟩ := rd_some b (i := 19) (by omega)
  obtain ⟨v8, e8⟩ := reads_some C01_le32_read b 20 (by omega)
  have hc : SParams.codeMaxOf v = v.toNat - 24 := SParams.codeMaxOf_eq (by omega)
  have ez : SParams.zeroed (SParams.codeMaxOf v) = .ok (List.replicate (SParams.codeMaxOf v) 0) := by rw [SParams.zeroed, if_neg (by omega)]; rfl
  have e9 : copy b 24 (List.replicate (SParams.codeMaxOf v) 0) 0 (SParams.codeMaxOf v) = .error .ub := copy_short (by omega) (by omega)
  rw [SParams.fromBytes, if_neg (by rw [SParams.headerOf_eq]; exact Nat.not_lt_zero _)]
  show (do let schema ← copy b 0 (List.replicate 4 0) 0 4; _) = _
  rw [v0, ok_bind, e1, ok_bind, e2, ok_bind, hv, ok_bind, e4, ok_bind, e5, ok_bind, e6, ok_bind, e7, ok_bind, e8, ok_bind, ez, ok_bind, e9]
  rfl

/-- **C96**, refuted: even the empty array is read. -/
theorem C96_skein_empty : SParams.fromBytes [] = .error .ub := by decide +kernel

/-- **C96**, refuted: `Equals` of SkeinParams does not see that the version and the first reserved member are exchanged; nor the order of the schema and the code. -/
theorem C96_skein_equals_refuted (p : SParams) (v : BitVec 32) (h : p.hashCode = .ok v) : p.equals { p with ver := p.rsv1, rsv1 := p.ver } = .ok true := by
  have e : SParams.hashCode { p with ver := p.rsv1, rsv1 := p.ver } = p.hashCode := by
    rw [SParams.hashCode, SParams.hashCode]
    dsimp only
    rw [Nat.add_comm (31 * p.rsv1.toNat)]
  rw [SParams.equals, e, h, ok_bind, ok_bind, decide_eq_true rfl]; rfl

/-- **C96**, refuted: the leaf size given to the constructor from all members is cut to eight bits, so two trees with different leaf sizes have the same parameters. -/
theorem C96_skein_leaf (schema : List Byte) (out : BitVec 64) (ver : BitVec 16) (leaf : BitVec 32) (fan depth : Byte) (code : List Byte) :
    SParams.ofMembers schema out ver (leaf + 256) fan depth code = SParams.ofMembers schema out ver leaf fan depth code := by
  have : (leaf + 256).setWidth 8 = leaf.setWidth 8 := by
    rw [BitVec.setWidth_add _ _ (by decide)]
    exact BitVec.add_zero (leaf.setWidth 8)
  rw [SParams.ofMembers, SParams.ofMembers, this]

/-- parameters that a constructor makes -/
example : ∃ p, SParams.ofSizes 64 64 4 = .ok p ∧ p.clone = .ok p := ⟨_, rfl, (C96_skein_clone _ rfl (by decide) (by decide) rfl).2⟩
example : SParams.equals ⟨[83, 72, 65, 51], 1, 0, 32, 64, 0, 4, 0, 0, List.replicate 8 0⟩ ⟨[83, 72, 65, 51], 0, 1, 32, 64, 0, 4, 0, 0, List.replicate 8 0⟩ = .ok true := C96_skein_equals_refuted _ 11532 (by decide +kernel)

end Cex.Params
