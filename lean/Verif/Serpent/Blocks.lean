import Verif.Serpent.Lemmas
import Verif.Rijndael.Props

/-! # SHX: inverses, and the block functions on bytes -/

namespace Cex.Serpent
open Cex.IntTools
open Cex.Rijndael (BlockFn twice Maps MapsAll flatten_len mapsAll_one mapsAll_twice)
open Cex.Spec.Serpent (sbox invSbox onColumns column ofBits leWord ofBytes toBytes onBytes)

/-! ## Inverses -/

theorem column_nib (x : Quad Word) (i : Nat) : column x i = nib (x.a.getLsbD i) (x.b.getLsbD i) (x.c.getLsbD i) (x.d.getLsbD i) := rfl

theorem nib_unnib : ∀ x : BitVec 4, nib (x.getLsbD 0) (x.getLsbD 1) (x.getLsbD 2) (x.getLsbD 3) = x := by decide +kernel
theorem unnib_nib : ∀ a b c d : Bool, unnib (nib a b c d) = ⟨a, b, c, d⟩ := by decide +kernel

theorem column_onColumns (s : BitVec 4 → BitVec 4) (x : Quad Word) {i : Nat} (hi : i < 32) : column (onColumns s x) i = s (column x i) := by
  rw [column_nib, onColumns]
  simp only [ofBits_get, hi, decide_true, Bool.true_and]
  exact nib_unnib _

theorem eq_of_columns {x y : Quad Word} (h : ∀ i, i < 32 → column x i = column y i) : x = y := by
  have h' : ∀ i, i < 32 → x.a.getLsbD i = y.a.getLsbD i ∧ x.b.getLsbD i = y.b.getLsbD i ∧ x.c.getLsbD i = y.c.getLsbD i ∧ x.d.getLsbD i = y.d.getLsbD i := by
    intro i hi
    have := congrArg unnib (h i hi)
    rw [column_nib, column_nib, unnib_nib, unnib_nib, Quad.mk.injEq] at this
    exact this
  obtain ⟨a, b, c, d⟩ := x
  obtain ⟨a', b', c', d'⟩ := y
  rw [Quad.mk.injEq]
  exact ⟨BitVec.eq_of_getLsbD_eq fun i hi => (h' i hi).1, BitVec.eq_of_getLsbD_eq fun i hi => (h' i hi).2.1,
    BitVec.eq_of_getLsbD_eq fun i hi => (h' i hi).2.2.1, BitVec.eq_of_getLsbD_eq fun i hi => (h' i hi).2.2.2⟩

theorem onColumns_comp {s t : BitVec 4 → BitVec 4} (h : ∀ x, t (s x) = x) (x : Quad Word) : onColumns t (onColumns s x) = x := by
  apply eq_of_columns
  intro i hi
  rw [column_onColumns _ _ hi, column_onColumns _ _ hi, h]

theorem invSbox_sbox : ∀ (r : Fin 8) (x : BitVec 4), invSbox r (sbox r x) = x := by decide +kernel

theorem rotr_rotl (x : Word) {n : Nat} (h : n < 32) : (x.rotateLeft n).rotateRight n = x := by
  apply BitVec.eq_of_getLsbD_eq
  intro i hi
  rw [BitVec.getLsbD_rotateRight, Nat.mod_eq_of_lt h, BitVec.getLsbD_rotateLeft, BitVec.getLsbD_rotateLeft, Nat.mod_eq_of_lt h]
  by_cases hc : i < 32 - n
  · simp only [hc, decide_true, cond_true, show ¬ n + i < n from by omega, decide_false, cond_false, show n + i - n = i from by omega,
      show n + i < 32 from by omega, Bool.true_and]
  · simp only [hc, decide_false, cond_false, show i - (32 - n) < n from by omega, decide_true, cond_true,
      show 32 - n + (i - (32 - n)) = i from by omega, hi, Bool.true_and]

theorem xor_cancel (x y z : Word) : x ^^^ y ^^^ z ^^^ y ^^^ z = x := by
  rw [BitVec.xor_assoc x y z, BitVec.xor_assoc (x ^^^ (y ^^^ z)) y z, BitVec.xor_assoc, BitVec.xor_self, BitVec.xor_zero]

theorem invLinear_linear (x : Quad Word) : Spec.Serpent.invLinear (Spec.Serpent.linear x) = x := by
  obtain ⟨a, b, c, d⟩ := x
  rw [Spec.Serpent.linear, Spec.Serpent.invLinear]
  simp only [rotr_rotl _ (show 22 < 32 by decide), rotr_rotl _ (show 5 < 32 by decide), rotr_rotl _ (show 7 < 32 by decide),
    rotr_rotl _ (show 1 < 32 by decide), rotr_rotl _ (show 3 < 32 by decide), rotr_rotl _ (show 13 < 32 by decide), xor_cancel]

theorem xor_xor (x k : Quad Word) : Spec.Serpent.xor (Spec.Serpent.xor x k) k = x := by
  simp only [Spec.Serpent.xor, BitVec.xor_assoc, BitVec.xor_self, BitVec.xor_zero]

theorem invHalf_half (K : Nat → Quad Word) (i : Nat) (x : Quad Word) : Spec.Serpent.invHalf K i (Spec.Serpent.half K i x) = x := by
  rw [Spec.Serpent.invHalf, Spec.Serpent.half, onColumns_comp (invSbox_sbox _), xor_xor]

theorem invRounds_rounds (K : Nat → Quad Word) (n : Nat) (x : Quad Word) : Spec.Serpent.invRounds K n (Spec.Serpent.rounds K n x) = x := by
  induction n with
  | zero => rfl
  | succ n ih => rw [Spec.Serpent.rounds, Spec.Serpent.invRounds, Spec.Serpent.round, invLinear_linear, invHalf_half, ih]

theorem decrypt_encrypt (K : Nat → Quad Word) (n : Nat) (x : Quad Word) : Spec.Serpent.decrypt K n (Spec.Serpent.encrypt K n x) = x := by
  rw [Spec.Serpent.decrypt, Spec.Serpent.encrypt, xor_xor, invHalf_half, invRounds_rounds]

/-! ## Bytes -/

theorem leUnrep_eq {bs : List Byte} (h : bs.length ≤ 4) : leUnrep 32 bs = BitVec.ofNat 32 (leVal bs) := by
  apply BitVec.eq_of_toNat_eq
  have h1 := leUnrep_toNat 32 bs (by omega)
  rw [h1, BitVec.toNat_ofNat, ← h1, Nat.mod_eq_of_lt (leUnrep 32 bs).isLt]

theorem leRep_eq (v : Word) : leRep 4 v = leEnc 4 v.toNat := by
  apply eq_leEnc (leRep_length 4 v)
  exact leVal_leRep 4 v

theorem leWord_leEnc (v : Word) : BitVec.ofNat 32 (leVal (leEnc 4 v.toNat)) = v := by
  apply BitVec.eq_of_toNat_eq
  have := v.isLt
  rw [leVal_leEnc, BitVec.toNat_ofNat]
  omega

theorem toBytes_length (q : Quad Word) : (toBytes q).length = 16 := by
  simp only [toBytes, List.length_append, leEnc_length]

theorem take4_leEnc (v : Nat) (t : List Byte) : (leEnc 4 v ++ t).take 4 = leEnc 4 v := by
  rw [List.take_append_of_le_length (by rw [leEnc_length]), List.take_of_length_le (by rw [leEnc_length])]

theorem drop4_leEnc (v n : Nat) (t : List Byte) : (leEnc 4 v ++ t).drop (4 + n) = t.drop n := by
  rw [← List.drop_drop]
  congr 1

theorem ofBytes_toBytes (q : Quad Word) : ofBytes (toBytes q) = q := by
  obtain ⟨a, b, c, d⟩ := q
  have e : toBytes ⟨a, b, c, d⟩ = leEnc 4 a.toNat ++ (leEnc 4 b.toNat ++ (leEnc 4 c.toNat ++ (leEnc 4 d.toNat ++ []))) := by
    simp only [toBytes, List.append_assoc, List.append_nil]
  rw [ofBytes, e, Quad.mk.injEq]
  refine ⟨?_, ?_, ?_, ?_⟩
  · rw [leWord, show 4 * 0 = 0 from rfl, List.drop_zero, take4_leEnc, leWord_leEnc]
  · rw [leWord, show 4 * 1 = 4 + 0 from rfl, drop4_leEnc, List.drop_zero, take4_leEnc, leWord_leEnc]
  · rw [leWord, show 4 * 2 = 4 + (4 + 0) from rfl, drop4_leEnc, drop4_leEnc, List.drop_zero, take4_leEnc, leWord_leEnc]
  · rw [leWord, show 4 * 3 = 4 + (4 + (4 + 0)) from rfl, drop4_leEnc, drop4_leEnc, drop4_leEnc, List.drop_zero, take4_leEnc, leWord_leEnc]

theorem leEnc_leWord {b : List Byte} {i : Nat} (h : 4 * i + 4 ≤ b.length) : leEnc 4 (leWord b i).toNat = (b.drop (4 * i)).take 4 := by
  have hl : ((b.drop (4 * i)).take 4).length = 4 := by rw [List.length_take, List.length_drop]; omega
  rw [leWord, BitVec.toNat_ofNat, show 2 ^ 32 = 256 ^ 4 from by decide, leEnc_mod]
  have := leEnc_leVal ((b.drop (4 * i)).take 4)
  rwa [hl] at this

theorem toBytes_ofBytes {b : List Byte} (h : b.length = 16) : toBytes (ofBytes b) = b := by
  rw [toBytes, ofBytes]
  simp only []
  rw [leEnc_leWord (by omega), leEnc_leWord (by omega), leEnc_leWord (by omega), leEnc_leWord (by omega)]
  have e : ∀ n (l : List Byte), l = l.take n ++ l.drop n := fun n l => (List.take_append_drop n l).symm
  conv_rhs => rw [e 4 b, e 4 (b.drop 4), List.drop_drop, e 4 (b.drop (4 + 4)), List.drop_drop]
  rw [show 4 * 3 = 4 + 4 + 4 from rfl, show 4 * 2 = 4 + 4 from rfl, show 4 * 1 = 4 from rfl, show 4 * 0 = 0 from rfl, List.drop_zero,
    List.take_of_length_le (l := b.drop (4 + 4 + 4)) (by rw [List.length_drop]; omega)]
  simp only [List.append_assoc]

theorem onBytes_length (F : Quad Word → Quad Word) (b : List Byte) : (onBytes F b).length = 16 := toBytes_length _

theorem onBytes_comp {F G : Quad Word → Quad Word} (h : ∀ x, G (F x) = x) {b : List Byte} (hb : b.length = 16) : onBytes G (onBytes F b) = b := by
  rw [onBytes, onBytes, ofBytes_toBytes, h, toBytes_ofBytes hb]

/-! ## One block -/

theorem leBytesTo32_at {inp b : List Byte} {inOff i off : Nat} (h : Holds inp inOff b) (hi : 4 * i + 4 ≤ b.length) (ho : off = inOff + 4 * i) :
    leBytesTo32 inp off = .ok (leWord b i) := by
  subst ho
  have hs : Holds inp (inOff + 4 * i) ((b.drop (4 * i)).take 4) := (Holds.dropN h (by omega)).takeN 4
  have hl : ((b.drop (4 * i)).take 4).length = 4 := by rw [List.length_take, List.length_drop]; omega
  rw [leBytesTo32, slice_holds hs hl.symm, ok_bind, leUnrep_eq (by omega)]
  rfl

theorem block_maps {f : Quad Word → M (Quad Word)} {F : Quad Word → Quad Word} (h : ∀ q, f q = .ok (F q)) : Maps (block f) 16 (onBytes F) := by
  intro inp inOff b hin hb a junk c hj
  rw [block, leBytesTo32_at hin (i := 0) (by omega) (by omega), ok_bind, leBytesTo32_at hin (i := 1) (by omega) (by omega), ok_bind,
    leBytesTo32_at hin (i := 2) (by omega) (by omega), ok_bind, leBytesTo32_at hin (i := 3) (by omega) (by omega), ok_bind, h, ok_bind]
  show (do
    let out ← le32ToBytes (F (ofBytes b)).a (a ++ junk ++ c) a.length
    let out ← le32ToBytes (F (ofBytes b)).b out (a.length + 4)
    let out ← le32ToBytes (F (ofBytes b)).c out (a.length + 8)
    le32ToBytes (F (ofBytes b)).d out (a.length + 12)) = _
  rw [onBytes]
  generalize F (ofBytes b) = q
  have hs : junk = junk.take 4 ++ ((junk.drop 4).take 4 ++ ((junk.drop 8).take 4 ++ (junk.drop 12))) := by
    conv_lhs => rw [← List.take_append_drop 4 junk, ← List.take_append_drop 4 (junk.drop 4), List.drop_drop,
      ← List.take_append_drop 4 (junk.drop (4 + 4)), List.drop_drop]
  have l0 : (junk.take 4).length = 4 := by rw [List.length_take]; omega
  have l1 : ((junk.drop 4).take 4).length = 4 := by rw [List.length_take, List.length_drop]; omega
  have l2 : ((junk.drop 8).take 4).length = 4 := by rw [List.length_take, List.length_drop]; omega
  have l3 : (junk.drop 12).length = 4 := by rw [List.length_drop]; omega
  generalize junk.take 4 = j0 at hs l0
  generalize (junk.drop 4).take 4 = j1 at hs l1
  generalize (junk.drop 8).take 4 = j2 at hs l2
  generalize junk.drop 12 = j3 at hs l3
  subst hs
  have e : ∀ v : Word, (leRep 4 v).length = 4 := fun v => leRep_length 4 v
  have r0 : le32ToBytes q.a (a ++ (j0 ++ (j1 ++ (j2 ++ j3))) ++ c) a.length = .ok (a ++ leRep 4 q.a ++ (j1 ++ (j2 ++ j3) ++ c)) := by
    rw [show a ++ (j0 ++ (j1 ++ (j2 ++ j3))) ++ c = a ++ j0 ++ (j1 ++ (j2 ++ j3) ++ c) from by simp only [List.append_assoc]]
    exact blit_at rfl (by rw [e, l0])
  have r1 : le32ToBytes q.b (a ++ leRep 4 q.a ++ (j1 ++ (j2 ++ j3) ++ c)) (a.length + 4) = .ok (a ++ leRep 4 q.a ++ leRep 4 q.b ++ (j2 ++ j3 ++ c)) := by
    rw [show a ++ leRep 4 q.a ++ (j1 ++ (j2 ++ j3) ++ c) = (a ++ leRep 4 q.a) ++ j1 ++ (j2 ++ j3 ++ c) from by simp only [List.append_assoc]]
    exact blit_at (by rw [List.length_append, e]) (by rw [e, l1])
  have r2 : le32ToBytes q.c (a ++ leRep 4 q.a ++ leRep 4 q.b ++ (j2 ++ j3 ++ c)) (a.length + 8) = .ok (a ++ leRep 4 q.a ++ leRep 4 q.b ++ leRep 4 q.c ++ (j3 ++ c)) := by
    rw [show a ++ leRep 4 q.a ++ leRep 4 q.b ++ (j2 ++ j3 ++ c) = (a ++ leRep 4 q.a ++ leRep 4 q.b) ++ j2 ++ (j3 ++ c) from by simp only [List.append_assoc]]
    exact blit_at (by rw [List.length_append, List.length_append, e, e]) (by rw [e, l2])
  have r3 : le32ToBytes q.d (a ++ leRep 4 q.a ++ leRep 4 q.b ++ leRep 4 q.c ++ (j3 ++ c)) (a.length + 12) =
      .ok (a ++ leRep 4 q.a ++ leRep 4 q.b ++ leRep 4 q.c ++ leRep 4 q.d ++ c) := by
    rw [show a ++ leRep 4 q.a ++ leRep 4 q.b ++ leRep 4 q.c ++ (j3 ++ c) = (a ++ leRep 4 q.a ++ leRep 4 q.b ++ leRep 4 q.c) ++ j3 ++ c from by simp only [List.append_assoc]]
    exact blit_at (by rw [List.length_append, List.length_append, List.length_append, e, e, e]) (by rw [e, l3])
  rw [r0, ok_bind, r1, ok_bind, r2, ok_bind, r3, toBytes]
  simp only [leRep_eq, List.append_assoc]

/-! ## Wide blocks -/

theorem transpose_at (q : Quad Reg) (t : Nat) : at_ (transpose q) (4 * t) = ⟨q.a (4 * t), q.a (4 * t + 1), q.a (4 * t + 2), q.a (4 * t + 3)⟩ ∧
    at_ (transpose q) (4 * t + 1) = ⟨q.b (4 * t), q.b (4 * t + 1), q.b (4 * t + 2), q.b (4 * t + 3)⟩ ∧
    at_ (transpose q) (4 * t + 2) = ⟨q.c (4 * t), q.c (4 * t + 1), q.c (4 * t + 2), q.c (4 * t + 3)⟩ ∧
    at_ (transpose q) (4 * t + 3) = ⟨q.d (4 * t), q.d (4 * t + 1), q.d (4 * t + 2), q.d (4 * t + 3)⟩ := by
  have m0 : 4 * t % 4 = 0 := by omega
  have m1 : (4 * t + 1) % 4 = 1 := by omega
  have m2 : (4 * t + 2) % 4 = 2 := by omega
  have m3 : (4 * t + 3) % 4 = 3 := by omega
  have d0 : 4 * t / 4 * 4 = 4 * t := by omega
  have d1 : (4 * t + 1) / 4 * 4 = 4 * t := by omega
  have d2 : (4 * t + 2) / 4 * 4 = 4 * t := by omega
  have d3 : (4 * t + 3) / 4 * 4 = 4 * t := by omega
  refine ⟨?_, ?_, ?_, ?_⟩ <;>
    simp only [at_, Quad.map, transpose, unpacklo32, unpackhi32, unpacklo64, unpackhi64, m0, m1, m2, m3, d0, d1, d2, d3]

/-- `cs` gives the words of a register of `4 * cs.length` lanes. -/
theorem lane_blocks {cs : List (List Byte)} (hc : Blocks 16 cs) {t : Nat} {b : List Byte} (hb : cs[t]? = some b) :
    ofBytes b = ⟨lane cs.flatten (4 * t), lane cs.flatten (4 * t + 1), lane cs.flatten (4 * t + 2), lane cs.flatten (4 * t + 3)⟩ := by
  have hl : b.length = 16 := hc.get hb
  obtain ⟨u, v, e, hu⟩ := Holds.block hc (Holds.self cs.flatten) hb
  have key : ∀ j, j < 4 → leWord b j = lane cs.flatten (4 * t + j) := by
    intro j hj
    rw [leWord, lane, leUnrep_eq (by rw [List.length_take]; omega), e]
    congr 2
    rw [show 4 * (4 * t + j) = u.length + 4 * j from by omega, List.append_assoc, ← List.drop_drop, List.drop_left,
      List.drop_append_of_le_length (by omega), List.take_append_of_le_length (by rw [List.length_drop]; omega)]
  rw [ofBytes, key 0 (by omega), key 1 (by omega), key 2 (by omega), key 3 (by omega), Nat.add_zero]

theorem range_flatMap4 (x : Reg) (k : Nat) : (List.range (4 * k)).flatMap (fun i => leRep 4 (x i)) =
    (List.range k).flatMap (fun t => toBytes ⟨x (4 * t), x (4 * t + 1), x (4 * t + 2), x (4 * t + 3)⟩) := by
  induction k with
  | zero => rfl
  | succ k ih =>
    rw [show 4 * (k + 1) = 4 * k + 1 + 1 + 1 + 1 from by omega, List.range_succ, List.range_succ, List.range_succ, List.range_succ, List.range_succ (n := k)]
    rw [List.flatMap_append, List.flatMap_append, List.flatMap_append, List.flatMap_append, ih, List.flatMap_append]
    simp only [List.flatMap_cons, List.flatMap_nil, List.append_nil, toBytes, leRep_eq, List.append_assoc]

theorem flatMap_map {g : List Byte → List Byte} : ∀ (cs : List (List Byte)) (f : Nat → List Byte), (∀ t b, cs[t]? = some b → f t = g b) →
    (List.range cs.length).flatMap f = (cs.map g).flatten
  | [], _, _ => rfl
  | b :: cs, f, h => by
    rw [List.length_cons, List.range_succ_eq_map, List.flatMap_cons, List.flatMap_map, List.map_cons, List.flatten_cons, h 0 b rfl,
      flatMap_map cs (fun t => f (t + 1)) (fun t b' hb => h (t + 1) b' hb)]

theorem load_ok {inp : List Byte} {off n : Nat} {cs : List (List Byte)} (h : Holds inp off cs.flatten) (hc : Blocks 16 cs) (hn : n = 4 * cs.length) :
    load n inp off = .ok (lane cs.flatten) := by
  rw [load, slice_holds h (by rw [flatten_len _ hc]; omega), ok_bind]
  rfl

theorem store_ok {n : Nat} {x : Reg} {cs : List (List Byte)} {F : Quad Word → Quad Word} (hn : n = 4 * cs.length)
    (hx : ∀ t b, cs[t]? = some b → (⟨x (4 * t), x (4 * t + 1), x (4 * t + 2), x (4 * t + 3)⟩ : Quad Word) = F (ofBytes b))
    (a junk c : List Byte) (hj : junk.length = 4 * n) {off : Nat} (ho : off = a.length) :
    store n x (a ++ junk ++ c) off = .ok (a ++ (cs.map (onBytes F)).flatten ++ c) := by
  subst hn
  rw [store, range_flatMap4, flatMap_map (g := onBytes F) cs _ (fun t b hb => by rw [hx t b hb]; rfl)]
  apply blit_at ho
  rw [flatten_len (n := 16)]
  · rw [List.length_map]; omega
  · intro b hb
    obtain ⟨b', _, rfl⟩ := List.mem_map.mp hb
    exact onBytes_length F b'

theorem split_blocks (k : Nat) (bs : List (List Byte)) (hl : bs.length = 4 * k) (hb : Blocks 16 bs) :
    ∃ b0 b1 b2 b3 : List (List Byte), bs = b0 ++ b1 ++ b2 ++ b3 ∧ (b0.length = k ∧ b1.length = k ∧ b2.length = k ∧ b3.length = k) ∧
      Blocks 16 b0 ∧ Blocks 16 b1 ∧ Blocks 16 b2 ∧ Blocks 16 b3 := by
  refine ⟨bs.take k, (bs.drop k).take k, (bs.drop (k + k)).take k, bs.drop (k + k + k), ?_, ?_, hb.take k, (hb.drop k).take k, (hb.drop (k + k)).take k, hb.drop (k + k + k)⟩
  · conv_lhs => rw [← List.take_append_drop k bs, ← List.take_append_drop k (bs.drop k), List.drop_drop,
      ← List.take_append_drop k (bs.drop (k + k)), List.drop_drop]
    simp only [List.append_assoc]
  · simp only [List.length_take, List.length_drop]; omega

theorem split_bytes (n : Nat) (junk : List Byte) (hj : junk.length = 4 * n) : ∃ j0 j1 j2 j3 : List Byte, junk = j0 ++ j1 ++ j2 ++ j3 ∧
    j0.length = n ∧ j1.length = n ∧ j2.length = n ∧ j3.length = n := by
  refine ⟨junk.take n, (junk.drop n).take n, (junk.drop (n + n)).take n, junk.drop (n + n + n), ?_, ?_⟩
  · conv_lhs => rw [← List.take_append_drop n junk, ← List.take_append_drop n (junk.drop n), List.drop_drop,
      ← List.take_append_drop n (junk.drop (n + n)), List.drop_drop]
    simp only [List.append_assoc]
  · simp only [List.length_take, List.length_drop]; omega

theorem blockW_maps {f : Quad Reg → M (Quad Reg)} {F : Quad Word → Quad Word} (h : PerLane f F) (k : Nat) : MapsAll (blockW (4 * k) f) 16 (4 * k) (onBytes F) := by
  intro inp inOff bs hin hl hb a junk c hj
  obtain ⟨b0, b1, b2, b3, rfl, ⟨l0, l1, l2, l3⟩, c0, c1, c2, c3⟩ := split_blocks k bs hl hb
  obtain ⟨j0, j1, j2, j3, rfl, m0, m1, m2, m3⟩ := split_bytes (4 * (4 * k)) junk (by omega)
  have f0 := flatten_len _ c0
  have f1 := flatten_len _ c1
  have f2 := flatten_len _ c2
  have f3 := flatten_len _ c3
  have hin0 : Holds inp inOff b0.flatten := by
    obtain ⟨u, v, e, hu⟩ := hin
    exact ⟨u, b1.flatten ++ (b2.flatten ++ (b3.flatten ++ v)), by rw [e]; simp only [List.flatten_append, List.append_assoc], hu⟩
  have hin1 : Holds inp (inOff + 4 * (4 * k)) b1.flatten := by
    obtain ⟨u, v, e, hu⟩ := hin
    exact ⟨u ++ b0.flatten, b2.flatten ++ (b3.flatten ++ v), by rw [e]; simp only [List.flatten_append, List.append_assoc], by rw [List.length_append]; omega⟩
  have hin2 : Holds inp (inOff + 4 * (4 * k) * 2) b2.flatten := by
    obtain ⟨u, v, e, hu⟩ := hin
    exact ⟨u ++ b0.flatten ++ b1.flatten, b3.flatten ++ v, by rw [e]; simp only [List.flatten_append, List.append_assoc],
      by rw [List.length_append, List.length_append]; omega⟩
  have hin3 : Holds inp (inOff + 4 * (4 * k) * 3) b3.flatten := by
    obtain ⟨u, v, e, hu⟩ := hin
    exact ⟨u ++ b0.flatten ++ b1.flatten ++ b2.flatten, v, by rw [e]; simp only [List.flatten_append, List.append_assoc],
      by rw [List.length_append, List.length_append, List.length_append]; omega⟩
  rw [blockW, load_ok hin0 c0 (by omega), ok_bind, load_ok hin1 c1 (by omega), ok_bind, load_ok hin2 c2 (by omega), ok_bind, load_ok hin3 c3 (by omega), ok_bind]
  obtain ⟨q, hq, hat⟩ := h (transpose ⟨lane b0.flatten, lane b1.flatten, lane b2.flatten, lane b3.flatten⟩)
  rw [hq, ok_bind]
  simp only []
  have tr := transpose_at ⟨lane b0.flatten, lane b1.flatten, lane b2.flatten, lane b3.flatten⟩
  -- the registers written
  have x0 : ∀ t b, b0[t]? = some b → (⟨(transpose q).a (4 * t), (transpose q).a (4 * t + 1), (transpose q).a (4 * t + 2), (transpose q).a (4 * t + 3)⟩ : Quad Word) = F (ofBytes b) := by
    intro t b ht
    obtain ⟨y0, y1, y2, y3⟩ := transpose_at q t
    have z0 := congrArg Quad.a y0
    have z1 := congrArg Quad.a y1
    have z2 := congrArg Quad.a y2
    have z3 := congrArg Quad.a y3
    simp only [at_, Quad.map] at z0 z1 z2 z3
    rw [z0, z1, z2, z3, lane_blocks c0 ht, ← (tr t).1, ← hat]
    rfl
  have x1 : ∀ t b, b1[t]? = some b → (⟨(transpose q).b (4 * t), (transpose q).b (4 * t + 1), (transpose q).b (4 * t + 2), (transpose q).b (4 * t + 3)⟩ : Quad Word) = F (ofBytes b) := by
    intro t b ht
    obtain ⟨y0, y1, y2, y3⟩ := transpose_at q t
    have z0 := congrArg Quad.b y0
    have z1 := congrArg Quad.b y1
    have z2 := congrArg Quad.b y2
    have z3 := congrArg Quad.b y3
    simp only [at_, Quad.map] at z0 z1 z2 z3
    rw [z0, z1, z2, z3, lane_blocks c1 ht, ← (tr t).2.1, ← hat]
    rfl
  have x2 : ∀ t b, b2[t]? = some b → (⟨(transpose q).c (4 * t), (transpose q).c (4 * t + 1), (transpose q).c (4 * t + 2), (transpose q).c (4 * t + 3)⟩ : Quad Word) = F (ofBytes b) := by
    intro t b ht
    obtain ⟨y0, y1, y2, y3⟩ := transpose_at q t
    have z0 := congrArg Quad.c y0
    have z1 := congrArg Quad.c y1
    have z2 := congrArg Quad.c y2
    have z3 := congrArg Quad.c y3
    simp only [at_, Quad.map] at z0 z1 z2 z3
    rw [z0, z1, z2, z3, lane_blocks c2 ht, ← (tr t).2.2.1, ← hat]
    rfl
  have x3 : ∀ t b, b3[t]? = some b → (⟨(transpose q).d (4 * t), (transpose q).d (4 * t + 1), (transpose q).d (4 * t + 2), (transpose q).d (4 * t + 3)⟩ : Quad Word) = F (ofBytes b) := by
    intro t b ht
    obtain ⟨y0, y1, y2, y3⟩ := transpose_at q t
    have z0 := congrArg Quad.d y0
    have z1 := congrArg Quad.d y1
    have z2 := congrArg Quad.d y2
    have z3 := congrArg Quad.d y3
    simp only [at_, Quad.map] at z0 z1 z2 z3
    rw [z0, z1, z2, z3, lane_blocks c3 ht, ← (tr t).2.2.2, ← hat]
    rfl
  have ln : ∀ cs : List (List Byte), (cs.map (onBytes F)).flatten.length = cs.length * 16 := by
    intro cs
    rw [flatten_len (n := 16), List.length_map]
    intro b hb
    obtain ⟨b', _, rfl⟩ := List.mem_map.mp hb
    exact onBytes_length F b'
  rw [show a ++ (j0 ++ j1 ++ j2 ++ j3) ++ c = a ++ j0 ++ (j1 ++ j2 ++ j3 ++ c) from by simp only [List.append_assoc],
    store_ok (by omega) x0 a j0 _ m0 rfl, ok_bind,
    show a ++ (b0.map (onBytes F)).flatten ++ (j1 ++ j2 ++ j3 ++ c) = (a ++ (b0.map (onBytes F)).flatten) ++ j1 ++ (j2 ++ j3 ++ c) from by simp only [List.append_assoc],
    store_ok (by omega) x1 _ j1 _ m1 (by rw [List.length_append, ln]; omega), ok_bind,
    show a ++ (b0.map (onBytes F)).flatten ++ (b1.map (onBytes F)).flatten ++ (j2 ++ j3 ++ c) =
      (a ++ (b0.map (onBytes F)).flatten ++ (b1.map (onBytes F)).flatten) ++ j2 ++ (j3 ++ c) from by simp only [List.append_assoc],
    store_ok (by omega) x2 _ j2 _ m2 (by rw [List.length_append, List.length_append, ln, ln]; omega), ok_bind,
    show a ++ (b0.map (onBytes F)).flatten ++ (b1.map (onBytes F)).flatten ++ (b2.map (onBytes F)).flatten ++ (j3 ++ c) =
      (a ++ (b0.map (onBytes F)).flatten ++ (b1.map (onBytes F)).flatten ++ (b2.map (onBytes F)).flatten) ++ j3 ++ c from by simp only [List.append_assoc],
    store_ok (by omega) x3 _ j3 _ m3 (by rw [List.length_append, List.length_append, List.length_append, ln, ln, ln]; omega)]
  simp only [List.map_append, List.flatten_append, List.append_assoc]

end Cex.Serpent
