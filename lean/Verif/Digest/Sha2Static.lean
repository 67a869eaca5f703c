import Verif.Digest.Sha2Long
import Verif.Mac.HmacProps

/-!
# The stateless functions of SHA2.h

`Compute256`, `Compute384`, `Compute512`, `MACR64P512` and `MACR80P1024`. They all use the unrolled permutations.
-/

namespace Cex.Digest
open Cex Cex.Digest.Fips Cex.IntTools Cex.Stream Cex.Mac

variable {w : Nat}

/-- `SHA2384State` (SHA2.cpp:45-55). -/
def iv384 : V8 64 :=
  ⟨0xCBBB9D5DC1059ED8, 0x629A292A367CD507, 0x9159015A3070DD17, 0x152FECD8F70E5939, 0x67332667FFC00B31, 0x8EB44A8768581511, 0xDB0C2E0D64F98FA7, 0x47B5481DBEFA4FA4⟩

namespace Static

/-- The loop over whole blocks (SHA2.h:154-160, 223-229, 1033-1039, 1089-1095, 1158-1164): the state, `InOffset`, `InLength` and the counter. -/
def loop (C : Core w) (inp : List Byte) (io len : Nat) (h : V8 w) (t : BitVec 64) : M (V8 w × Nat × Nat × BitVec 64) :=
  if 0 < w ∧ 2 * w ≤ len then do
    let h ← C.perm inp io h
    loop C inp (io + 2 * w) (len - 2 * w) h (t + BitVec.ofNat 64 (2 * w))
  else return (h, io, len, t)
termination_by len

/-- The last blocks (SHA2.h:162-178, 232-246, 1041-1057, 1097-1113, 1167-1181): the buffer and the state. `t[1]` is zero. -/
def final (C : Core w) (inp : List Byte) (io len : Nat) (h : V8 w) (t : BitVec 64) : M (List Byte × V8 w) := do
  let bitlen := (t + BitVec.ofNat 64 len) <<< 3
  let buf ← copy inp io (List.replicate (2 * w) 0) 0 len
  let buf ← wr buf len 0x80
  let (buf, h) ← (if len + 1 > 2 * w - w / 4 then do
      let h ← C.perm buf 0 h
      let buf ← clear buf 0 (2 * w)
      return (buf, h)
    else return (buf, h) : M (List Byte × V8 w))
  let buf ← C.putLen bitlen (0, 0) buf 0
  let h ← C.perm buf 0 h
  return (buf, h)

/-- `Compute256` (SHA2.h:144-182), `Compute512` (SHA2.h:1080-1117). -/
def compute (C : Core w) (inp : List Byte) (io len : Nat) (out : List Byte) (oo : Nat) : M (List Byte) := do
  let (h, io, len, t) ← loop C inp io len C.iv 0
  let r ← final C inp io len h t
  C.put r.2 out oo

/-- `Compute384` (SHA2.h:1024-1066). -/
def compute384 (inp : List Byte) (io len : Nat) (out : List Byte) (oo : Nat) : M (List Byte) := do
  let C : Core 64 := { core512 false with iv := iv384 }
  let (h, io, len, t) ← loop C inp io len C.iv 0
  let r ← final C inp io len h t
  let out ← be64ToBytes r.2.a out oo
  let out ← be64ToBytes r.2.b out (oo + 8)
  let out ← be64ToBytes r.2.c out (oo + 16)
  let out ← be64ToBytes r.2.d out (oo + 24)
  let out ← be64ToBytes r.2.e out (oo + 32)
  be64ToBytes r.2.f out (oo + 40)

/-- `MACR64P512` (SHA2.h:196-266), `MACR80P1024` (SHA2.h:1131-1201); the assertion on the key size is not compiled in. -/
def mac (C : Core w) (key inp : List Byte) (io len : Nat) (out : List Byte) (oo : Nat) : M (List Byte) := do
  let ipad ← copy key 0 (List.replicate (2 * w) 0) 0 key.length
  let opad ← copy ipad 0 (List.replicate (2 * w) 0) 0 ipad.length
  let ipad := Hmac.xorPad ipad 0x36
  let opad := Hmac.xorPad opad 0x5C
  let h ← C.perm ipad 0 C.iv
  let (h, io, len, t) ← loop C inp io len h (BitVec.ofNat 64 (2 * w))
  let r ← final C inp io len h t
  let buf ← C.put r.2 r.1 0
  let buf ← clear buf w w
  let h ← C.perm opad 0 C.iv
  let buf ← wr buf w 0x80
  let buf ← C.putLen (BitVec.ofNat 64 (2 * w + w) <<< 3) (0, 0) buf 0
  let h ← C.perm buf 0 h
  C.put h out oo

end Static

/-! ## SHA-384 in the standard -/

/-- FIPS 180-4, 5.3.4: the initial value of SHA-384, from the ninth to the sixteenth prime. -/
def Fips.H0384 : V8 64 := ⟨fracRoot 64 2 23, fracRoot 64 2 29, fracRoot 64 2 31, fracRoot 64 2 37, fracRoot 64 2 41, fracRoot 64 2 43, fracRoot 64 2 47, fracRoot 64 2 53⟩

/-- FIPS 180-4, 6.5: SHA-384 is SHA-512 with another initial value, truncated. -/
def Fips.sha384 (m : List Byte) : List Byte := (MD.hash ⟨H0384, alg512.compress⟩ m).take 48

theorem iv384_eq : iv384 = Fips.H0384 := by decide +kernel

/-! ## Proofs -/

/-- What the proofs need of a class; `ok n` says that the length field is right for `n` bytes. -/
structure Core.Stateless (C : Core w) (A : MD w) (ok : Nat → Prop) : Prop where
  width : w = 32 ∨ w = 64
  iv : C.iv = A.H0
  perm : ∀ {inp b : List Byte} {io : Nat} (h : V8 w), Holds inp io b → b.length = 2 * w → C.perm inp io h = .ok (A.compress h b)
  putLen : ∀ (n : Nat) (b win : List Byte), ok n → b.length = 2 * w - w / 4 → win.length = w / 4 →
    C.putLen (BitVec.ofNat 64 n <<< 3) (0, 0) (b ++ win) 0 = .ok (b ++ beEnc (w / 4) (8 * n))
  put : ∀ (v : V8 w) (pre win post : List Byte), win.length = w → C.put v (pre ++ win ++ post) pre.length = .ok (pre ++ v.bytes ++ post)

theorem stateless256 : (core256 false).Stateless alg256.md (fun _ => True) where
  width := .inl rfl
  iv := (core256_good false).iv
  perm := (core256_good false).perm
  putLen n b win _ hb hw := by
    have := (core256_good false).putLen n n b win [] 0 trivial (.inl rfl) (by omega) hw
    rw [List.append_nil, List.append_nil] at this
    exact this
  put := put_ok (core256_good false)

theorem stateless512 (v : V8 64) : ({ core512 false with iv := v } : Core 64).Stateless ⟨v, alg512.compress⟩ (fun n => n < 2 ^ 61) where
  width := .inr rfl
  iv := rfl
  perm := (core512_good false).perm
  putLen n b win hn hb hw := by
    have h := putLen512 (BitVec.ofNat 64 n <<< 3) 0 0 b win [] 0 alg512.compress (by omega) (by omega)
    rw [List.append_nil, List.append_nil] at h
    refine Eq.trans h ?_
    rw [shl3, Nat.mod_eq_of_lt (by omega), show 64 / 4 = 8 + 8 from rfl, beEnc_add, Nat.div_eq_of_lt (by omega)]
    rfl
  put v' pre win post h := put_ok (core512_good false) v' pre win post h

variable {C : Core w} {A : MD w} {ok : Nat → Prop}

theorem Core.Stateless.pos (g : C.Stateless A ok) : 0 < 2 * w := by rcases g.width with h | h <;> omega

theorem loop_ok (g : C.Stateless A ok) {inp : List Byte} : ∀ (n io : Nat) (x : List Byte) (h : V8 w) (t : Nat),
    x.length = n → Holds inp io x →
    ∃ io', Static.loop C inp io n h (BitVec.ofNat 64 t) = .ok ((eager (2 * w) A.compress h x).1, io', (eager (2 * w) A.compress h x).2.length,
        BitVec.ofNat 64 (t + (n - (eager (2 * w) A.compress h x).2.length))) ∧
      Holds inp io' (eager (2 * w) A.compress h x).2 ∧ (eager (2 * w) A.compress h x).2.length ≤ n := by
  intro n
  induction n using Nat.strongRecOn with
  | ind n ih =>
    intro io x h t hn hx
    have hp := g.pos
    rw [Static.loop]
    by_cases hc : 2 * w ≤ n
    · have ht : (x.take (2 * w)).length = 2 * w := by rw [List.length_take]; omega
      have e : eager (2 * w) A.compress h x = eager (2 * w) A.compress (A.compress h (x.take (2 * w))) (x.drop (2 * w)) := by
        conv => lhs; rw [← List.take_append_drop (2 * w) x]
        exact eager_cons hp ht
      obtain ⟨io', h1, h2, h3⟩ := ih (n - 2 * w) (by omega) (io + 2 * w) (x.drop (2 * w)) (A.compress h (x.take (2 * w))) (t + 2 * w)
        (by rw [List.length_drop]; omega) (hx.dropN (by omega))
      refine ⟨io', ?_, by rw [e]; exact h2, by rw [e]; omega⟩
      rw [if_pos ⟨by omega, hc⟩, g.perm _ (hx.takeN _) ht, ok_bind, ← BitVec.ofNat_add, h1, e]
      congr 5
      omega
    · rw [if_neg (by omega), eager_short (by omega), hn]
      exact ⟨io, by simp, hx, Nat.le_refl _⟩

theorem final_ok (g : C.Stateless A ok) {inp r : List Byte} {io n t : Nat} (h : V8 w) (hr : Holds inp io r) (hlt : r.length < 2 * w) (hn : t + r.length = n) (hm : r.length = n % (2 * w)) (hok : ok n) :
    ∃ buf, Static.final C inp io r.length h (BitVec.ofNat 64 t) = .ok (buf, (eager (2 * w) A.compress h (r ++ A.padding n)).1) ∧ buf.length = 2 * w := by
  have hp := g.pos
  have hw8 := g.width
  obtain ⟨p1, p2⟩ := pad_len hw8 A n
  rw [← hm] at p1 p2
  rw [Static.final]
  dsimp only
  rw [← BitVec.ofNat_add, hn]
  have e0 : (List.replicate (2 * w) 0 : List Byte) = [] ++ List.replicate r.length 0 ++ List.replicate (2 * w - r.length) 0 := by
    rw [List.nil_append, List.replicate_append_replicate, show r.length + (2 * w - r.length) = 2 * w from by omega]
  rw [e0, copy_at (a := []) (off := 0) hr rfl rfl (by simp), ok_bind]
  have e1 : wr ([] ++ r ++ List.replicate (2 * w - r.length) 0) r.length (0x80 : Byte) = .ok (r ++ 0x80 :: List.replicate (2 * w - (r.length + 1)) 0) := by
    rw [List.nil_append, show 2 * w - r.length = (2 * w - (r.length + 1)) + 1 from by omega, List.replicate_succ, wr, if_pos (by simp)]
    simp
  rw [e1, ok_bind]
  have hb : (r ++ 0x80 :: List.replicate (2 * w - (r.length + 1)) 0 : List Byte).length = 2 * w := by simp; omega
  by_cases hc : r.length + 1 > 2 * w - w / 4
  · have hcl : clear (r ++ 0x80 :: List.replicate (2 * w - (r.length + 1)) 0) 0 (2 * w) = .ok (List.replicate (2 * w) 0) := by
      have := clear_whole (r ++ 0x80 :: List.replicate (2 * w - (r.length + 1)) 0)
      rw [hb] at this
      exact this
    rw [if_pos hc, g.perm _ (Holds.self _) hb, ok_bind, hcl]
    simp only [ok_bind, pure_eq_ok]
    have hpl := g.putLen n (List.replicate (2 * w - w / 4) 0) (List.replicate (w / 4) 0) hok (by simp) (by simp)
    rw [List.replicate_append_replicate, show 2 * w - w / 4 + w / 4 = 2 * w by omega] at hpl
    have hb2 : (List.replicate (2 * w - w / 4) 0 ++ beEnc (w / 4) (8 * n) : List Byte).length = 2 * w := by
      rw [List.length_append, List.length_replicate, beEnc_len]; omega
    rw [hpl, ok_bind, g.perm _ (Holds.self _) hb2, ok_bind, p2 (by omega), ← List.append_assoc, eager_cons hp hb, eager_one hp hb2]
    exact ⟨_, rfl, hb2⟩
  · rw [if_neg hc, p1 (by omega)]
    simp only [ok_bind, pure_eq_ok]
    have e : r ++ 0x80 :: List.replicate (2 * w - (r.length + 1)) 0 =
        r ++ 0x80 :: List.replicate (2 * w - w / 4 - (r.length + 1)) 0 ++ List.replicate (w / 4) (0 : Byte) := by
      rw [List.append_assoc, List.cons_append, List.replicate_append_replicate]
      congr 3
      omega
    have hpl := g.putLen n (r ++ 0x80 :: List.replicate (2 * w - w / 4 - (r.length + 1)) 0) (List.replicate (w / 4) 0) hok (by simp; omega) (by simp)
    rw [e, hpl, ok_bind]
    have hb2 : (r ++ 0x80 :: List.replicate (2 * w - w / 4 - (r.length + 1)) 0 ++ beEnc (w / 4) (8 * n) : List Byte).length = 2 * w := by
      rw [List.length_append, List.length_append, List.length_cons, List.length_replicate, beEnc_len]; omega
    rw [g.perm _ (Holds.self _) hb2, ok_bind, ← List.append_assoc, eager_one hp hb2]
    exact ⟨_, rfl, hb2⟩

/-- Loop and last blocks after `p` bytes, a multiple of the block size. -/
theorem absorb_ok (g : C.Stateless A ok) {inp x : List Byte} {io p : Nat} (h : V8 w) (hx : Holds inp io x) (hp : p % (2 * w) = 0) (hok : ok (p + x.length)) :
    ∃ io' len t buf, Static.loop C inp io x.length h (BitVec.ofNat 64 p) = .ok ((eager (2 * w) A.compress h x).1, io', len, t) ∧
      Static.final C inp io' len (eager (2 * w) A.compress h x).1 t = .ok (buf, (eager (2 * w) A.compress h (x ++ A.padding (p + x.length))).1) ∧ buf.length = 2 * w := by
  obtain ⟨io', h1, h2, h3⟩ := loop_ok g _ io x h p rfl hx
  have hm := eager_rest_mod (B := 2 * w) (step := A.compress) g.pos h x
  have hlt := eager_rest_lt (B := 2 * w) (step := A.compress) g.pos h x
  obtain ⟨buf, h4, h5⟩ := final_ok g (n := p + x.length) (t := p + (x.length - (eager (2 * w) A.compress h x).2.length)) (eager (2 * w) A.compress h x).1 h2 hlt
    (by omega) (by rw [hm, Nat.add_mod, hp, Nat.zero_add, Nat.mod_mod]) hok
  exact ⟨io', _, _, buf, h1, by rw [h4, eager_append _ x], h5⟩

theorem hash_eager (g : C.Stateless A ok) (m : List Byte) : A.hash m = (eager (2 * w) A.compress A.H0 (m ++ A.padding m.length)).1.bytes := by
  have := g.pos
  rw [MD.hash, blocks_eager A (by omega) _ _ _ rfl]

/-- The state that both functions of a class arrive at. -/
theorem state_ok (g : C.Stateless A ok) {inp x : List Byte} {io : Nat} (hx : Holds inp io x) (hok : ok x.length) :
    ∃ io' len t h buf v, Static.loop C inp io x.length C.iv 0 = .ok (h, io', len, t) ∧ Static.final C inp io' len h t = .ok (buf, v) ∧ v.bytes = A.hash x := by
  obtain ⟨io', len, t, buf, h1, h2, -⟩ := absorb_ok g (p := 0) A.H0 hx (Nat.zero_mod _) (by rw [Nat.zero_add]; exact hok)
  exact ⟨io', len, t, _, buf, _, by rw [g.iv]; exact h1, h2, by rw [hash_eager g, Nat.zero_add]⟩

theorem compute_ok (g : C.Stateless A ok) {inp x : List Byte} {io : Nat} (hx : Holds inp io x) (hok : ok x.length) (pre win post : List Byte) (hw : win.length = w) :
    Static.compute C inp io x.length (pre ++ win ++ post) pre.length = .ok (pre ++ A.hash x ++ post) := by
  obtain ⟨io', len, t, h, buf, v, h1, h2, h3⟩ := state_ok g hx hok
  rw [Static.compute, h1, ok_bind]
  dsimp only
  rw [h2, ok_bind, g.put v pre win post hw, h3]

theorem V8.bytes_len (hw : w = 32 ∨ w = 64) (v : V8 w) : v.bytes.length = w := by
  rw [V8.bytes]
  simp only [List.length_append, beEnc_len]
  omega

theorem mac_ok (g : C.Stateless A ok) {key inp x : List Byte} {io : Nat} (hk : key.length ≤ 2 * w) (hx : Holds inp io x) (hok : ok (2 * w + x.length)) (hok3 : ok (2 * w + w)) (pre win post : List Byte)
    (hw : win.length = w) :
    Static.mac C key inp io x.length (pre ++ win ++ post) pre.length = .ok (pre ++ Rfc2104.hmac A.hash (2 * w) key x ++ post) := by
  have hp := g.pos
  have hw8 := g.width
  have hkey : Rfc2104.key A.hash (2 * w) key = key ++ List.replicate (2 * w - key.length) 0 := by
    rw [Rfc2104.key]
    simp only [if_neg (show ¬ 2 * w < key.length by omega)]
  have hkl : (key ++ List.replicate (2 * w - key.length) 0 : List Byte).length = 2 * w := by simp; omega
  have e0 : (List.replicate (2 * w) 0 : List Byte) = [] ++ List.replicate key.length 0 ++ List.replicate (2 * w - key.length) 0 := by
    rw [List.nil_append, List.replicate_append_replicate, show key.length + (2 * w - key.length) = 2 * w from by omega]
  have c1 : copy key 0 (List.replicate (2 * w) 0) 0 key.length = .ok (key ++ List.replicate (2 * w - key.length) 0) := by
    rw [e0, copy_at (a := []) (off := 0) (Holds.self key) rfl rfl (by simp)]; rfl
  have c2 : copy (key ++ List.replicate (2 * w - key.length) 0) 0 (List.replicate (2 * w) 0) 0 (key ++ List.replicate (2 * w - key.length) 0 : List Byte).length
      = .ok (key ++ List.replicate (2 * w - key.length) 0) := copy_whole (Holds.self _) rfl (by rw [hkl]; simp)
  rw [Rfc2104.hmac]
  simp only [hkey]
  rw [Static.mac, c1, ok_bind, c2, ok_bind]
  dsimp only
  generalize hK : (key ++ List.replicate (2 * w - key.length) 0 : List Byte) = K at *
  have hi : (Hmac.xorPad K 0x36).length = 2 * w := by rw [Hmac.xorPad, List.length_map, hkl]
  have ho : (Hmac.xorPad K 0x5C).length = 2 * w := by rw [Hmac.xorPad, List.length_map, hkl]
  rw [show K.map (· ^^^ 0x36) = Hmac.xorPad K 0x36 from rfl, show K.map (· ^^^ 0x5C) = Hmac.xorPad K 0x5C from rfl]
  rw [g.perm _ (Holds.self _) hi, ok_bind, g.iv]
  obtain ⟨io', len, t, buf, h1, h2, h3⟩ := absorb_ok g (p := 2 * w) (A.compress A.H0 (Hmac.xorPad K 0x36)) hx (Nat.mod_self _) hok
  rw [h1, ok_bind]
  dsimp only
  rw [h2, ok_bind]
  dsimp only
  have hin : A.hash (Hmac.xorPad K 0x36 ++ x) = (eager (2 * w) A.compress (A.compress A.H0 (Hmac.xorPad K 0x36)) (x ++ A.padding (2 * w + x.length))).1.bytes := by
    rw [hash_eager g, List.append_assoc, eager_cons hp hi, List.length_append, hi]
  rw [hash_eager g (Hmac.xorPad K 0x5C ++ _), List.append_assoc (Hmac.xorPad K 0x5C), eager_cons hp ho, List.length_append, ho, hin]
  generalize (eager (2 * w) A.compress (A.compress A.H0 (Hmac.xorPad K 0x36)) (x ++ A.padding (2 * w + x.length))).1 = v
  have hv := V8.bytes_len hw8 v
  have p1 := g.put v [] (buf.take w) (buf.drop w) (by rw [List.length_take]; omega)
  rw [List.nil_append, List.take_append_drop, List.length_nil, List.nil_append] at p1
  rw [p1, ok_bind]
  have p2 : clear (v.bytes ++ buf.drop w) w w = .ok (v.bytes ++ List.replicate w 0) := by
    have hb := blit_at (a := v.bytes) (b := buf.drop w) (c := []) (s := List.replicate w 0) (off := w) hv.symm (by simp; omega)
    rw [List.append_nil, List.append_nil] at hb
    rw [clear, if_neg (by omega), hb]
  rw [p2, ok_bind, g.perm _ (Holds.self _) ho, ok_bind]
  have p3 : wr (v.bytes ++ List.replicate w 0) w (0x80 : Byte) = .ok (v.bytes ++ 0x80 :: List.replicate (w - 1) 0) := by
    have hws : List.replicate w (0 : Byte) = 0 :: List.replicate (w - 1) 0 := by
      rw [← List.replicate_succ, show w - 1 + 1 = w from by omega]
    rw [hws, wr, if_pos (by rw [List.length_append, hv, List.length_cons]; omega), List.set_append_right _ _ (by omega), hv, Nat.sub_self]
    rfl
  rw [p3, ok_bind, hv]
  obtain ⟨q1, -⟩ := pad_len hw8 A (2 * w + w)
  have hmod : (2 * w + w) % (2 * w) = w := by rw [Nat.add_mod_left, Nat.mod_eq_of_lt (by omega)]
  rw [hmod] at q1
  have e4 : v.bytes ++ 0x80 :: List.replicate (w - 1) 0 = (v.bytes ++ 0x80 :: List.replicate (2 * w - w / 4 - (w + 1)) 0) ++ List.replicate (w / 4) (0 : Byte) := by
    rw [List.append_assoc, List.cons_append, List.replicate_append_replicate]
    congr 3
    omega
  rw [e4, g.putLen (2 * w + w) _ _ hok3 (by simp [hv]; omega) (by simp), ok_bind]
  have hb2 : (v.bytes ++ 0x80 :: List.replicate (2 * w - w / 4 - (w + 1)) 0 ++ beEnc (w / 4) (8 * (2 * w + w)) : List Byte).length = 2 * w := by
    rw [List.length_append, List.length_append, List.length_cons, List.length_replicate, beEnc_len, hv]; omega
  rw [g.perm _ (Holds.self _) hb2, ok_bind, g.put _ pre win post hw, q1 (by omega), ← List.append_assoc v.bytes, eager_one hp hb2]

end Cex.Digest
