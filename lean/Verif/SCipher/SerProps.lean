import Verif.SCipher.Ser
import Verif.SCipher.AuthCases

/-!
# C53: a saved cipher is restored; C54: initialising again is like a new object
-/

namespace Cex.SCipher
open Cex Cex.IntTools Cex.Kdf Cex.Keccak

/-! ## Writing -/

theorem put_at {x d : List Byte} {k : Nat} (h : x.length ≤ k) :
    put x (d ++ List.replicate k 0, d.length) = .ok ((d ++ x) ++ List.replicate (k - x.length) 0, (d ++ x).length) := by
  have hk : List.replicate k (0 : Byte) = List.replicate x.length 0 ++ List.replicate (k - x.length) 0 := by
    rw [List.replicate_append_replicate]; congr 1; omega
  rw [put, hk]
  simp only []
  rw [← List.append_assoc, copy_at (Holds.self x) rfl rfl (by simp), ok_bind, pure_eq_ok, List.length_append]

/-- A vector behind its length. -/
def vec (x : List Byte) : List Byte := leEnc 2 x.length ++ x

theorem vec_length (x : List Byte) : (vec x).length = 2 + x.length := by rw [vec, List.length_append, leEnc_length]

theorem len16 (x : List Byte) (h : x.length < 2 ^ 16) : leRep 2 (BitVec.ofNat 16 x.length) = leEnc 2 x.length := by
  rw [leRep_eq, BitVec.toNat_ofNat, Nat.mod_eq_of_lt h]

theorem putVec_at {x d : List Byte} {k : Nat} (h : 2 + x.length ≤ k) (hx : x.length < 2 ^ 16) :
    putVec x (d ++ List.replicate k 0, d.length) = .ok ((d ++ vec x) ++ List.replicate (k - (vec x).length) 0, (d ++ vec x).length) := by
  rw [putVec, len16 x hx, put_at (by rw [leEnc_length]; omega), ok_bind, leEnc_length, put_at (by omega), vec_length, vec, Nat.sub_sub]
  simp only [List.append_assoc]

theorem putKeys_at {x d : List Byte} {k : Nat} (h : 2 + x.length ≤ k) (hx : x.length < 2 ^ 16) :
    putKeys x (d ++ List.replicate k 0, d.length) = .ok ((d ++ vec x) ++ List.replicate (k - (vec x).length) 0, (d ++ vec x).length) := by
  have e : (BitVec.ofNat 16 x.length).toNat = x.length := by rw [BitVec.toNat_ofNat, Nat.mod_eq_of_lt hx]
  have := putVec_at (d := d) h hx
  rw [putVec] at this
  rw [putKeys]
  simp only [e]
  exact this

/-! ## Reading -/

theorem get_at {inp x : List Byte} {off : Nat} (h : Holds inp off x) : get inp x.length off = .ok (x, off + x.length) := by
  rw [get, copy_whole h rfl (by simp), ok_bind, pure_eq_ok]

theorem getVec_at {inp x : List Byte} {off w : Nat} (h : Holds inp off (vec x)) (hx : x.length < 2 ^ 16) (hw : w ∣ x.length) :
    getVec inp w off = .ok (x, off + (vec x).length) := by
  obtain ⟨a, c, e, ha⟩ := h
  have h1 : Holds inp off (leEnc 2 x.length) := ⟨a, x ++ c, by rw [e, vec]; simp only [List.append_assoc], ha⟩
  have h2 : Holds inp (off + 2) x := ⟨a ++ leEnc 2 x.length, c, by rw [e, vec]; simp only [List.append_assoc], by rw [List.length_append, leEnc_length, ha]⟩
  have g := get_at h1
  rw [leEnc_length] at g
  have v : (leUnrep 16 (leEnc 2 x.length)).toNat = x.length := by
    rw [leUnrep_toNat _ _ (by rw [leEnc_length]), leVal_leEnc, Nat.mod_eq_of_lt (by omega)]
  rw [getVec, g, ok_bind]
  simp only [v]
  rw [copy_whole h2 rfl (by rw [List.length_replicate]; exact Nat.div_mul_cancel hw), ok_bind, pure_eq_ok, vec_length, Nat.add_assoc]

theorem getBool_at {inp : List Byte} {off : Nat} {b : Bool} (h : Holds inp off [boolByte b]) : getBool inp off = .ok (b, off + 1) := by
  have g := get_at h
  rw [getBool, show (1 : Nat) = [boolByte b].length from rfl, g, ok_bind]
  cases b <;> rfl

theorem Holds.split {x a b : List Byte} {off : Nat} (h : Holds x off (a ++ b)) : Holds x off a ∧ Holds x (off + a.length) b := by
  obtain ⟨p, q, e, hp⟩ := h
  exact ⟨⟨p, b ++ q, by rw [e]; simp only [List.append_assoc], hp⟩, ⟨p ++ a, q, by rw [e]; simp only [List.append_assoc], by rw [List.length_append, hp]⟩⟩

theorem leUnrep_leRep (k : Nat) (v : BitVec (8 * k)) : leUnrep (8 * k) (leRep k v) = v := by
  apply BitVec.eq_of_toNat_eq
  rw [leUnrep_toNat _ _ (by rw [leRep_length]), leVal_leRep, Nat.mod_eq_of_lt]
  have := v.isLt
  rwa [Nat.pow_mul] at this

namespace CsxState

/-- A state as the cipher has it. -/
structure Legal (n m : Nat) (s : CsxState) : Prop where
  st : s.state.length = n
  nonce : s.nonce.length = m
  custom : s.custom.length < 2 ^ 16
  key : s.macKey.length < 2 ^ 16
  tag : s.macTag.length < 2 ^ 16

/-- The layout of a saved state. -/
def layout (s : CsxState) : List Byte :=
  s.state ++ (vec s.custom ++ (vec s.macKey ++ (vec s.macTag ++ (s.nonce ++ (leEnc 8 s.counter.toNat ++ ([boolByte s.isAuthenticated] ++ ([boolByte s.isEncryption] ++ [boolByte s.isInitialized])))))))

theorem layout_length (s : CsxState) : s.layout.length = s.state.length + s.custom.length + s.macKey.length + s.macTag.length + s.nonce.length + 17 := by
  simp only [layout, List.length_append, vec_length, leEnc_length, List.length_singleton]; omega

theorem serialize_ok {n m : Nat} {s : CsxState} (h : s.Legal n m) : s.serialize = .ok s.layout := by
  rw [serialize]
  generalize hN : s.state.length + s.custom.length + s.macKey.length + s.macTag.length + s.nonce.length + 8 + 3 * 2 + 3 * 1 = N
  have hl : (leRep 8 s.counter).length = 8 := leRep_length _ _
  rw [show (List.replicate N (0 : Byte), 0) = (([] : List Byte) ++ List.replicate N 0, ([] : List Byte).length) from rfl]
  rw [put_at (by omega), ok_bind, putVec_at (by omega) h.custom, ok_bind, putVec_at (by rw [vec_length]; omega) h.key, ok_bind, putVec_at (by simp only [vec_length]; omega) h.tag, ok_bind,
    put_at (by simp only [vec_length]; omega), ok_bind, put_at (by simp only [vec_length]; omega), ok_bind, put_at (by simp only [vec_length, List.length_singleton]; omega), ok_bind,
    put_at (by simp only [vec_length, List.length_singleton]; omega), ok_bind, put_at (by simp only [vec_length, List.length_singleton]; omega), ok_bind, pure_eq_ok]
  have z : N - s.state.length - (vec s.custom).length - (vec s.macKey).length - (vec s.macTag).length - s.nonce.length - (leRep 8 s.counter).length - [boolByte s.isAuthenticated].length -
      [boolByte s.isEncryption].length - [boolByte s.isInitialized].length = 0 := by
    simp only [vec_length, List.length_singleton]; omega
  rw [z, layout, leRep_eq]
  simp only [List.replicate_zero, List.append_nil, List.nil_append, List.append_assoc]

theorem deserialize_ok {n m : Nat} {s : CsxState} (h : s.Legal n m) : deserialize n m s.layout = .ok s := by
  have h0 := Holds.self s.layout
  rw [layout] at h0
  rw [← layout] at h0
  obtain ⟨a0, h1⟩ := Holds.split (show Holds s.layout 0 (s.state ++ _) from h0)
  obtain ⟨a1, h2⟩ := Holds.split h1
  obtain ⟨a2, h3⟩ := Holds.split h2
  obtain ⟨a3, h4⟩ := Holds.split h3
  obtain ⟨a4, h5⟩ := Holds.split h4
  obtain ⟨a5, h6⟩ := Holds.split h5
  obtain ⟨a6, h7⟩ := Holds.split h6
  obtain ⟨a7, h8⟩ := Holds.split h7
  have e8 : (leEnc 8 s.counter.toNat).length = 8 := leEnc_length _ _
  have g0 := get_at a0
  have g4 := get_at a4
  have g5 := get_at a5
  rw [e8] at g5 a6 a7 h8
  rw [List.length_singleton] at a7 h8
  rw [List.length_singleton] at h8
  rw [h.st] at g0
  rw [h.nonce] at g4
  rw [h.st] at a1 a2 a3 g4 g5 a6 a7 h8
  rw [h.nonce] at g5 a6 a7 h8
  rw [deserialize, g0, ok_bind]
  simp only []
  rw [getVec_at a1 h.custom (one_dvd _), ok_bind]
  simp only []
  rw [getVec_at a2 h.key (one_dvd _), ok_bind]
  simp only []
  rw [getVec_at a3 h.tag (one_dvd _), ok_bind]
  simp only []
  rw [g4, ok_bind]
  simp only []
  rw [g5, ok_bind]
  simp only []
  rw [getBool_at a6, ok_bind]
  simp only []
  rw [getBool_at a7, ok_bind]
  simp only []
  rw [getBool_at h8, ok_bind, pure_eq_ok, ← leRep_eq, leUnrep_leRep 8]

end CsxState

namespace RcsState

/-- A state as the cipher has it; `w` is the size of an element of the round keys. -/
structure Legal (w : Nat) (s : RcsState) : Prop where
  keys : s.roundKeys.length < 2 ^ 16
  words : w ∣ s.roundKeys.length
  custom : s.custom.length < 2 ^ 16
  key : s.macKey.length < 2 ^ 16
  tag : s.macTag.length < 2 ^ 16
  name : s.name.length < 2 ^ 16
  nonce : s.nonce.length < 2 ^ 16

/-- The layout of a saved state, with two unused bytes. -/
def layout (s : RcsState) : List Byte :=
  vec s.roundKeys ++ (vec s.custom ++ (vec s.macKey ++ (vec s.macTag ++ (vec s.name ++ (vec s.nonce ++ (leEnc 8 s.counter.toNat ++ (leEnc 4 s.rounds.toNat ++
    ([s.authenticator] ++ ([s.mode] ++ ([boolByte s.isAuthenticated] ++ ([boolByte s.isEncryption] ++ ([boolByte s.isInitialized] ++ [0, 0]))))))))))))

theorem layout_length (s : RcsState) :
    s.layout.length = s.roundKeys.length + s.custom.length + s.macKey.length + s.macTag.length + s.name.length + s.nonce.length + 31 := by
  simp only [layout, List.length_append, vec_length, leEnc_length, List.length_cons, List.length_nil]; omega

theorem serialize_ok {w : Nat} {s : RcsState} (h : s.Legal w) : s.serialize = .ok s.layout := by
  rw [serialize]
  generalize hN : s.roundKeys.length + s.custom.length + s.macKey.length + s.macTag.length + s.name.length + s.nonce.length + 8 + 4 + 1 + 1 + 3 * 1 + 7 * 2 = N
  have hl : (leRep 8 s.counter).length = 8 := leRep_length _ _
  have hl' : (leRep 4 s.rounds).length = 4 := leRep_length _ _
  rw [show (List.replicate N (0 : Byte), 0) = (([] : List Byte) ++ List.replicate N 0, ([] : List Byte).length) from rfl]
  rw [putKeys_at (by omega) h.keys, ok_bind, putVec_at (by simp only [vec_length]; omega) h.custom, ok_bind, putVec_at (by simp only [vec_length]; omega) h.key, ok_bind,
    putVec_at (by simp only [vec_length]; omega) h.tag, ok_bind, putVec_at (by simp only [vec_length]; omega) h.name, ok_bind, putVec_at (by simp only [vec_length]; omega) h.nonce, ok_bind,
    put_at (by simp only [vec_length]; omega), ok_bind, put_at (by simp only [vec_length]; omega), ok_bind, put_at (by simp only [vec_length, List.length_singleton]; omega), ok_bind,
    put_at (by simp only [vec_length, List.length_singleton]; omega), ok_bind, put_at (by simp only [vec_length, List.length_singleton]; omega), ok_bind,
    put_at (by simp only [vec_length, List.length_singleton]; omega), ok_bind, put_at (by simp only [vec_length, List.length_singleton]; omega), ok_bind, pure_eq_ok]
  have z : N - (vec s.roundKeys).length - (vec s.custom).length - (vec s.macKey).length - (vec s.macTag).length - (vec s.name).length - (vec s.nonce).length - (leRep 8 s.counter).length -
      (leRep 4 s.rounds).length - [s.authenticator].length - [s.mode].length - [boolByte s.isAuthenticated].length -
      [boolByte s.isEncryption].length - [boolByte s.isInitialized].length = 2 := by
    simp only [vec_length, List.length_singleton]; omega
  rw [z, layout, leRep_eq, leRep_eq]
  simp only [List.replicate_succ, List.replicate_zero, List.nil_append, List.append_assoc]

theorem deserialize_ok {w : Nat} {s : RcsState} (h : s.Legal w) : deserialize w s.layout = .ok s := by
  have h0 := Holds.self s.layout
  obtain ⟨a0, h1⟩ := Holds.split (show Holds s.layout 0 (vec s.roundKeys ++ _) from h0)
  obtain ⟨a1, h2⟩ := Holds.split h1
  obtain ⟨a2, h3⟩ := Holds.split h2
  obtain ⟨a3, h4⟩ := Holds.split h3
  obtain ⟨a4, h5⟩ := Holds.split h4
  obtain ⟨a5, h6⟩ := Holds.split h5
  obtain ⟨a6, h7⟩ := Holds.split h6
  obtain ⟨a7, h8⟩ := Holds.split h7
  obtain ⟨a8, h9⟩ := Holds.split h8
  obtain ⟨a9, h10⟩ := Holds.split h9
  obtain ⟨a10, h11⟩ := Holds.split h10
  obtain ⟨a11, h12⟩ := Holds.split h11
  obtain ⟨a12, _⟩ := Holds.split h12
  have g6 := get_at a6
  have g7 := get_at a7
  have g8 := get_at a8
  have g9 := get_at a9
  simp only [leEnc_length, List.length_singleton] at g6 g7 g8 g9 a10 a11 a12
  rw [deserialize, getVec_at a0 h.keys h.words, ok_bind]
  simp only []
  rw [getVec_at a1 h.custom (one_dvd _), ok_bind]
  simp only []
  rw [getVec_at a2 h.key (one_dvd _), ok_bind]
  simp only []
  rw [getVec_at a3 h.tag (one_dvd _), ok_bind]
  simp only []
  rw [getVec_at a4 h.name (one_dvd _), ok_bind]
  simp only []
  rw [getVec_at a5 h.nonce (one_dvd _), ok_bind]
  simp only []
  rw [g6, ok_bind]
  simp only []
  rw [g7, ok_bind]
  simp only []
  rw [g8, ok_bind]
  simp only []
  rw [g9, ok_bind]
  simp only []
  rw [getBool_at a10, ok_bind]
  simp only []
  rw [getBool_at a11, ok_bind]
  simp only []
  rw [getBool_at a12, ok_bind, ← leRep_eq, ← leRep_eq, leUnrep_leRep 8, leUnrep_leRep 4]
  rfl

end RcsState

/-! ## C53 -/

/-- C53 for the member data of ChaChaP20 (`n = 56`, `m = 8`) and CSX512 (112, 16): saving succeeds and reading gives every member back. -/
theorem C53_csx_state {n m : Nat} {s : CsxState} (h : s.Legal n m) : ∃ x, s.serialize = .ok x ∧ CsxState.deserialize n m x = .ok s :=
  ⟨s.layout, CsxState.serialize_ok h, CsxState.deserialize_ok h⟩

/-- C53 for the member data of RCS and RWS. -/
theorem C53_rcs_state {w : Nat} {s : RcsState} (h : s.Legal w) : ∃ x, s.serialize = .ok x ∧ RcsState.deserialize w x = .ok s :=
  ⟨s.layout, RcsState.serialize_ok h, RcsState.deserialize_ok h⟩

example : (⟨List.replicate 56 1, List.replicate 16 2, [], [], List.replicate 8 3, 7, false, true, true⟩ : CsxState).Legal 56 8 := by constructor <;> decide +kernel

example : (⟨List.replicate 736 1, [], [], [], List.replicate 13 9, List.replicate 32 3, 7, 22, 0, 2, false, true, true⟩ : RcsState).Legal 4 := by constructor <;> decide +kernel

/-- C53 for RCS and RWS without authentication: the constructor takes every saved state, whose round keys alone exceed the threshold, and has all members as before. -/
theorem C53_rcs {P : List Byte → M (List Byte)} {w thr : Nat} {s : RcsState} (h : s.Legal w) (ha : s.authenticator = 0) (hk : thr ≤ s.roundKeys.length) :
    ∃ x, s.serialize = .ok x ∧ RcsState.restore P w thr x = .ok (s, none) := by
  refine ⟨s.layout, RcsState.serialize_ok h, ?_⟩
  rw [RcsState.restore, if_neg (by rw [RcsState.layout_length]; omega)]
  simp only []
  rw [RcsState.deserialize_ok h, ok_bind, if_neg (by rw [ha]; decide)]
  rfl

/-- C53 for RCS and RWS with authentication. All members are as before, and the authenticator is a new one under the saved key. Full property: the authenticator is as before as well; missing, because false
once it has been used (`C53_midway_false`). -/
theorem C53_rcs_auth_partial {P : List Byte → M (List Byte)} {w thr : Nat} {s : RcsState} (h : s.Legal w) (ha : s.authenticator ≠ 0#8) (hk : thr ≤ s.roundKeys.length) {k : Kmac}
    (hm : (RcsState.macOf s.authenticator).initialize P s.macKey [] [] = .ok k) : ∃ x, s.serialize = .ok x ∧ RcsState.restore P w thr x = .ok (s, some k) := by
  refine ⟨s.layout, RcsState.serialize_ok h, ?_⟩
  rw [RcsState.restore, if_neg (by rw [RcsState.layout_length]; omega)]
  simp only []
  rw [RcsState.deserialize_ok h, ok_bind, if_pos ha, hm]
  rfl

/-- C53 for authenticated ChaChaP20 and CSX512, likewise. -/
theorem C53_csx_auth_partial {P : List Byte → M (List Byte)} {n m thr rate tag : Nat} {s : CsxState} (h : s.Legal n m) (ha : s.isAuthenticated = true)
    (hl : thr ≤ n + s.custom.length + s.macKey.length + s.macTag.length + m + 17) {k : Kmac}
    (hm : (Kmac.fresh rate tag).initialize P s.macKey [] [] = .ok k) : ∃ x, s.serialize = .ok x ∧ CsxState.restore P n m thr rate tag x = .ok (s, some k) := by
  refine ⟨s.layout, CsxState.serialize_ok h, ?_⟩
  rw [CsxState.restore, if_neg (by rw [CsxState.layout_length, h.st, h.nonce]; omega)]
  simp only []
  rw [CsxState.deserialize_ok h, ok_bind, if_pos ha, hm]
  rfl

/-- C53 is false for ChaChaP20 without authentication: what `Serialize` returns has 97 bytes, and the constructor wants 155. -/
theorem C53_chacha_unauth_false {P : List Byte → M (List Byte)} {s : CsxState} (h : s.Legal 56 8) (hc : s.custom.length = 16) (hk : s.macKey = []) (ht : s.macTag = []) :
    ∃ x, s.serialize = .ok x ∧ CsxState.restoreChacha P x = .error (.throws .invalidKey) := by
  refine ⟨s.layout, CsxState.serialize_ok h, ?_⟩
  rw [CsxState.restoreChacha, CsxState.restore, if_pos (by rw [CsxState.layout_length, h.st, h.nonce, hc, hk, ht]; simp)]
  rfl

/-- C53 is false for CSX512 without authentication: 193 bytes instead of 243. -/
theorem C53_csx_unauth_false {P : List Byte → M (List Byte)} {s : CsxState} (h : s.Legal 112 16) (hc : s.custom.length = 48) (hk : s.macKey = []) (ht : s.macTag = []) :
    ∃ x, s.serialize = .ok x ∧ CsxState.restoreCsx P x = .error (.throws .invalidKey) := by
  refine ⟨s.layout, CsxState.serialize_ok h, ?_⟩
  rw [CsxState.restoreCsx, CsxState.restore, if_pos (by rw [CsxState.layout_length, h.st, h.nonce, hc, hk, ht]; simp)]
  rfl

/-- The member data of an authenticated ChaChaP20 (ChaChaP20.cpp:27-41) with the state words `st`. -/
def saved {A : Mac.MacOps} (st : Nat → BitVec 32) (a : Auth A (BitVec 32 × BitVec 32)) (custom macKey : List Byte) (enc : Bool) : CsxState :=
  ⟨(List.range 14).flatMap (fun i => leRep 4 (st i)), custom, macKey, a.macTag, leRep 4 a.nonce.1 ++ leRep 4 a.nonce.2, a.counter, true, enc, true⟩

theorem words_len (k : Nat) {w : Nat} (st : Nat → BitVec w) (l : List Nat) : (l.flatMap (fun i => leRep k (st i))).length = k * l.length := by
  induction l with
  | nil => rfl
  | cons x l ih => rw [List.flatMap_cons, List.length_append, leRep_length, ih, List.length_cons, Nat.mul_succ, Nat.add_comm]

/-- C53 for a ChaChaP20 just initialised with authentication: the restored object has the same members and the same authenticator. -/
theorem C53_fresh {P : List Byte → M (List Byte)} {f : List Byte → List Byte} (p : Perm P f) {key nonce info : List Byte} (hk : key.length = 32)
    (hn : nonce.length = 8) (hi : info = [] ∨ info.length = 16) {st : Nat → BitVec 32} {s0 : Auth (kmacOps P 32) (BitVec 32 × BitVec 32)} (h : chachaAuthInit P key nonce info = .ok (st, s0)) :
    ∃ custom keys, chachaCustom info = .ok custom ∧ deriveKeys P 136 32 key chachaName = .ok keys ∧
      ∀ enc, ∃ x, (saved st s0 custom keys.2 enc).serialize = .ok x ∧ CsxState.restoreChacha P x = .ok (saved st s0 custom keys.2 enc, some s0.mac) := by
  have hd := deriveKeys_ok p (r := 136) (n := 32) (by omega) (by omega) (by omega) (by omega) (by omega) (by omega : 4 ≤ key.length) chacha_fits (by decide)
  have hi' : ¬(0 < info.length ∧ info.length ≠ 16) := by
    rcases hi with h | h
    · rw [h]; simp
    · omega
  rw [chachaAuthInit, if_neg (by omega), if_neg (by omega), if_neg hi'] at h
  simp only [] at h
  obtain ⟨cu, e1, h⟩ := bind_ok h
  obtain ⟨ks, e2, h⟩ := bind_ok h
  obtain ⟨s, e3, h⟩ := bind_ok h
  obtain ⟨m, e4, h⟩ := bind_ok h
  cases h
  have hc : cu.length = 16 := by
    rw [chachaCustom] at e1
    rcases hi with rfl | hi
    · rw [if_neg (by simp), copy_whole (Holds.self sigmaInfo) (by decide) (by decide)] at e1
      cases e1
      decide
    · rw [if_pos (by omega), hi, copy_whole (Holds.self info) (by omega) (by simp [hi])] at e1
      cases e1
      exact hi
  rw [hd.1] at e2
  have hks : ks.2.length = 32 := by cases e2; exact hd.2.2
  refine ⟨cu, ks, e1, hd.1.trans e2, fun enc => ?_⟩
  refine C53_csx_auth_partial (s := saved st _ cu ks.2 enc) ⟨?_, ?_, ?_, ?_, ?_⟩ rfl ?_ e4
  · rw [saved]; simp only [words_len]; rfl
  · rw [saved]; simp only [List.length_append, leRep_length]
  · show cu.length < _; omega
  · show ks.2.length < _; omega
  · show (List.replicate 32 (0 : Byte)).length < _; decide
  · show 155 ≤ 56 + cu.length + ks.2.length + (List.replicate 32 (0 : Byte)).length + 8 + 17
    rw [hc, hks, List.length_replicate]
    omega

/-- C53 is false for an authenticated cipher in use. After associated data have been given, the saved and restored cipher produces another tag than the cipher itself: the state of the MAC is not saved. -/
theorem C53_midway_false : ∃ (st : Nat → BitVec 32) (s0 s1 s2 s3 : Auth (kmacOps (Keccak.permute 24) 32) (BitVec 32 × BitVec 32)) (custom : List Byte) (keys : List Byte × List Byte) (x : List Byte) (k : Kmac)
    (out out' : List Byte), chachaAuthInit (Keccak.permute 24) (List.replicate 32 1) (List.replicate 8 2) [] = .ok (st, s0) ∧
    chachaCustom [] = .ok custom ∧ deriveKeys (Keccak.permute 24) 136 32 (List.replicate 32 1) chachaName = .ok keys ∧
    Auth.setAad chachaFmt s0 [1] 0 1 = .ok s1 ∧ (saved st s1 custom keys.2 true).serialize = .ok x ∧
    CsxState.restoreChacha (Keccak.permute 24) x = .ok (saved st s1 custom keys.2 true, some k) ∧
    Auth.encrypt chachaFmt (plain st) s1 [] 0 (List.replicate 32 0) 0 0 = .ok (s2, out) ∧
    Auth.encrypt chachaFmt (plain st) (Auth.mk (A := kmacOps (Keccak.permute 24) 32) s1.nonce k s1.counter s1.macTag) [] 0 (List.replicate 32 0) 0 0 = .ok (s3, out') ∧ out ≠ out' := by
  have key : ((do
    let i ← chachaAuthInit (Keccak.permute 24) (List.replicate 32 1) (List.replicate 8 2) []
    let c ← chachaCustom []
    let ks ← deriveKeys (Keccak.permute 24) 136 32 (List.replicate 32 1) chachaName
    let s1 ← Auth.setAad chachaFmt i.2 [1] 0 1
    let x ← (saved i.1 s1 c ks.2 true).serialize
    let r ← CsxState.restoreChacha (Keccak.permute 24) x
    let a ← Auth.encrypt chachaFmt (plain i.1) s1 [] 0 (List.replicate 32 0) 0 0
    match r.2 with
    | none => return false
    | some k => do
      let b ← Auth.encrypt chachaFmt (plain i.1) (Auth.mk (A := kmacOps (Keccak.permute 24) 32) s1.nonce k s1.counter s1.macTag) [] 0 (List.replicate 32 0) 0 0
      return decide (r.1 = saved i.1 s1 c ks.2 true ∧ a.2 ≠ b.2)) : M Bool) = .ok true := by decide +kernel
  obtain ⟨i, e1, key⟩ := bind_ok key
  obtain ⟨c, e2, key⟩ := bind_ok key
  obtain ⟨ks, e3, key⟩ := bind_ok key
  obtain ⟨s1, e4, key⟩ := bind_ok key
  obtain ⟨x, e5, key⟩ := bind_ok key
  obtain ⟨r, e6, key⟩ := bind_ok key
  obtain ⟨a, e7, key⟩ := bind_ok key
  obtain ⟨r1, r2⟩ := r
  cases r2 with
  | none => cases key
  | some k =>
    obtain ⟨b, e8, key⟩ := bind_ok key
    have h := of_decide_eq_true (Except.ok.inj key)
    have hr : r1 = saved i.1 s1 c ks.2 true := h.1
    subst hr
    exact ⟨i.1, i.2, s1, a.1, b.1, c, ks, x, k, a.2, b.2, e1, e2, e3, e4, e5, e6, e7, e8, h.2⟩

/-- A length field that points behind the end is not refused: the read is out of range. -/
theorem C53_malformed_ub {P : List Byte → M (List Byte)} {n m thr rate tag : Nat} {st rest : List Byte} {len : Nat} (hs : st.length = n) (hl : len < 2 ^ 16)
    (hr : rest.length < len) (ht : thr ≤ n + 2 + rest.length) : CsxState.restore P n m thr rate tag (st ++ leEnc 2 len ++ rest) = .error .ub := by
  have g0 := get_at (inp := st ++ leEnc 2 len ++ rest) (x := st) (off := 0) ⟨[], leEnc 2 len ++ rest, by simp only [List.nil_append, List.append_assoc], rfl⟩
  have g1 := get_at (inp := st ++ leEnc 2 len ++ rest) (x := leEnc 2 len) (off := n) ⟨st, rest, rfl, hs⟩
  rw [leEnc_length] at g1
  rw [hs, Nat.zero_add] at g0
  have v : (leUnrep 16 (leEnc 2 len)).toNat = len := by
    rw [leUnrep_toNat _ _ (by rw [leEnc_length]), leVal_leEnc, Nat.mod_eq_of_lt (by omega)]
  have hlen : (st ++ leEnc 2 len ++ rest).length = n + 2 + rest.length := by simp only [List.length_append, leEnc_length, hs]
  rw [CsxState.restore, if_neg (by omega)]
  simp only []
  rw [CsxState.deserialize, g0, ok_bind]
  simp only []
  rw [getVec, g1, ok_bind]
  simp only [v]
  rw [copy, if_neg (by omega), slice, if_neg (by omega)]
  rfl

example : CsxState.restoreChacha (Keccak.permute 24) (List.replicate 56 0 ++ leEnc 2 65535 ++ List.replicate 97 0) = .error .ub :=
  C53_malformed_ub (len := 65535) (by simp) (by omega) (by simp) (by simp)

/-! ## C54 -/

theorem copy_over {src b s : List Byte} {n : Nat} (hs : s = src.take n) (hn : n ≤ src.length) (hb : b.length = n) : copy src 0 b 0 n = .ok s := by
  subst hs
  exact copy_whole ⟨[], src.drop n, by simp, rfl⟩ (by rw [List.length_take]; omega) (by rw [List.length_take]; omega)

/-- C54 for ChaChaP20: whatever the object was used for, `Initialize` gives the state of a new object. -/
theorem C54_chacha (old key nonce info : List Byte) : chachaReinit old key nonce info = chachaInit key nonce info := by
  rw [chachaReinit, chachaInit]
  split
  · rfl
  split
  · rfl
  split
  · rfl
  rename_i h
  have : chachaCustomFrom old info = chachaCustom info := by
    rw [chachaCustomFrom, chachaCustom]
    split
    · have : info.length = 16 := by omega
      rw [this, Nat.min_self, copy_over rfl (by omega) (resize_length _ _), copy_over rfl (by omega) (by simp)]
    · rw [copy_over rfl (by decide) (resize_length _ _), copy_over rfl (by decide) (by simp)]
  rw [this]

/-- C54 for CSX512 when the new distribution code is absent or fills the array. Full property: for every code; missing because false, `C54_csx_false`. -/
theorem C54_csx_partial (old key nonce : List Byte) {info : List Byte} (hi : info = [] ∨ 48 ≤ info.length) : csxReinit old key nonce info = csxInit key nonce info := by
  rw [csxReinit, csxInit]
  split
  · rfl
  split
  · rfl
  have : csxCustomFrom old info = csxCustom info := by
    rw [csxCustomFrom, csxCustom]
    split
    · have : min info.length 48 = 48 := by
        rcases hi with rfl | hi
        · simp at *
        · omega
      rw [this, copy_over rfl (by omega) (resize_length _ _), copy_over rfl (by omega) (by simp)]
    · rw [copy_over rfl (by decide) (resize_length _ _), copy_over rfl (by decide) (by simp)]
  rw [this]

theorem csxLoad_words {key nonce code : List Byte} (hk : key.length = 64) (hn : nonce.length = 16) (hc : code.length = 48) :
    csxLoad key nonce code = .ok (fun i => leUnrep 64 (((key ++ code).drop (8 * i)).take 8), (word 8 nonce 0, word 8 nonce 1)) := by
  have e1 : copy key 0 (List.replicate 112 0) 0 key.length = .ok (key ++ List.replicate 48 0) := by
    have := copy_at (a := []) (b := List.replicate 64 0) (c := List.replicate 48 0) (Holds.self key) (off := 0) rfl rfl (by simp [hk])
    simpa using this
  have e2 : copy code 0 (key ++ List.replicate 48 0) (8 * (key.length / 8)) code.length = .ok (key ++ code) := by
    have := copy_at (a := key) (b := List.replicate 48 0) (c := []) (Holds.self code) (off := 8 * (key.length / 8)) (by omega) rfl (by simp [hc])
    simpa using this
  have e3 : copy nonce 0 (List.replicate 16 0) 0 nonce.length = .ok nonce := copy_whole (Holds.self nonce) rfl (by simp [hn])
  rw [csxLoad, e1, ok_bind, e2, ok_bind, e3, ok_bind, ld64 nonce 0 0 rfl (by omega), ok_bind, ld64 nonce 8 1 rfl (by omega), ok_bind]
  rfl

/-- C54 is false for CSX512: used first without a code (so `Custom` is the standard text) and then with the code `[1]`, the object and a new one have different key schedules, for every key and nonce. -/
theorem C54_csx_false {key nonce : List Byte} (hk : key.length = 64) (hn : nonce.length = 16) :
    ∃ st st' c, csxReinit csxSigma key nonce [1] = .ok (st, c) ∧ csxInit key nonce [1] = .ok (st', c) ∧ st 8 ≠ st' 8 := by
  have c1 : csxCustomFrom csxSigma [1] = .ok (1 :: csxSigma.tail) := by decide +kernel
  have c2 : csxCustom [1] = .ok (1 :: List.replicate 47 0) := by decide +kernel
  have g : ∀ code : List Byte, ((key ++ code).drop (8 * 8)).take 8 = code.take 8 := fun code => by
    rw [show 8 * 8 = key.length by omega, List.drop_left]
  have r1 : csxReinit csxSigma key nonce [1] = csxLoad key nonce (1 :: csxSigma.tail) := by
    rw [csxReinit, if_neg (by omega), if_neg (by omega)]
    simp only []
    rw [c1, ok_bind]
  have r2 : csxInit key nonce [1] = csxLoad key nonce (1 :: List.replicate 47 0) := by
    rw [csxInit, if_neg (by omega), if_neg (by omega)]
    simp only []
    rw [c2, ok_bind]
  refine ⟨_, _, _, r1.trans (csxLoad_words hk hn (by decide)), r2.trans (csxLoad_words hk hn (by decide)), ?_⟩
  simp only [g]
  decide +kernel

/-- The keystream differs as well: the first block for the key and nonce of zeros. -/
theorem C54_csx_keystream_false : ∃ st st' c, csxReinit csxSigma (List.replicate 64 0) (List.replicate 16 0) [1] = .ok (st, c) ∧
    csxInit (List.replicate 64 0) (List.replicate 16 0) [1] = .ok (st', c) ∧ permuteP1024C 20 st c ≠ permuteP1024C 20 st' c := by
  have key : ((do
    let a ← csxReinit csxSigma (List.replicate 64 0) (List.replicate 16 0) [1]
    let b ← csxInit (List.replicate 64 0) (List.replicate 16 0) [1]
    return decide (a.2 = b.2 ∧ permuteP1024C 20 a.1 a.2 ≠ permuteP1024C 20 b.1 b.2)) : M Bool) = .ok true := by decide +kernel
  obtain ⟨a, e1, key⟩ := bind_ok key
  obtain ⟨b, e2, key⟩ := bind_ok key
  obtain ⟨h1, h2⟩ := of_decide_eq_true (Except.ok.inj key)
  exact ⟨a.1, b.1, a.2, e1, by rw [h1]; exact e2, by rw [← h1] at h2; exact h2⟩

/-- C54 for RCS when a distribution code is given, or none has been given before. Full property: always; missing because false, `C54_rcs_false`. -/
theorem C54_rcs_partial (P : List Byte → M (List Byte)) (key nonce name : List Byte) {old info : List Byte} (hi : info ≠ [] ∨ old = []) :
    rcsRoundKeys P old key nonce info name = rcsRoundKeys P [] key nonce info name := by
  have : rcsCustomFrom old info = rcsCustomFrom [] info := by
    rw [rcsCustomFrom, rcsCustomFrom]
    split
    · rw [copy_over rfl (Nat.le_refl _) (resize_length _ _), copy_over rfl (Nat.le_refl _) (resize_length _ _)]
    · rcases hi with hi | rfl
      · have := List.length_pos_iff.mpr hi
        omega
      · rfl
  rw [rcsRoundKeys, rcsRoundKeys, this]

/-- C54 is false for RCS: an object used with a 16-byte code and then without has other round keys than a new object for the same key and nonce. -/
theorem C54_rcs_false : ∃ k k', rcsRoundKeys (Keccak.permute 24) (List.replicate 16 7) (List.replicate 32 1) (List.replicate 32 2) [] rcsName = .ok k ∧
    rcsRoundKeys (Keccak.permute 24) [] (List.replicate 32 1) (List.replicate 32 2) [] rcsName = .ok k' ∧ k.take 32 ≠ k'.take 32 := by
  have key : ((do
    let a ← rcsRoundKeys (Keccak.permute 24) (List.replicate 16 7) (List.replicate 32 1) (List.replicate 32 2) [] rcsName
    let b ← rcsRoundKeys (Keccak.permute 24) [] (List.replicate 32 1) (List.replicate 32 2) [] rcsName
    return decide (a.take 32 ≠ b.take 32)) : M Bool) = .ok true := by decide +kernel
  obtain ⟨a, e1, key⟩ := bind_ok key
  obtain ⟨b, e2, key⟩ := bind_ok key
  exact ⟨a, b, e1, e2, of_decide_eq_true (Except.ok.inj key)⟩

end Cex.SCipher
