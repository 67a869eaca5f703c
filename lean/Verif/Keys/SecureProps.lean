import Verif.Keys.SecureModel
import Verif.Keys.Props

/-!
# C95 A key that is kept encrypted comes back as it was given
-/

namespace Cex.Keys
open Cex Cex.Kdf

/-- The length of the tag that the cipher appends. -/
def Eng.extra (c : Eng) : Nat := if c.auth then c.tag else 0

/-- What is asked of a stream cipher (C50, C52): sealing gives a string longer than the message by the tag, opening gives the message back and leaves the rest of the output alone, and an authenticated
cipher refuses everything that was not sealed. -/
structure Eng.Seals (c : Eng) (S : List Byte → List Byte → List Byte → List Byte) : Prop where
  size : ∀ k n m, (S k n m).length = m.length + c.extra
  enc : ∀ k n m, k.length = c.ksize → n.length = c.ivsize → c.transform true k n m 0 (List.replicate (m.length + c.extra) 0) 0 m.length = .ok (S k n m)
  dec : ∀ k n m, k.length = c.ksize → n.length = c.ivsize →
    c.transform false k n (S k n m) 0 (List.replicate (m.length + c.extra) 0) 0 m.length = .ok (m ++ List.replicate c.extra 0)
  refuse : c.auth = true → ∀ k n x, k.length = c.ksize → n.length = c.ivsize → c.tag ≤ x.length → (∀ m, x ≠ S k n m) →
    c.transform false k n x 0 (List.replicate x.length 0) 0 (x.length - c.tag) = .error (.throws .authenticationFailure)

/-- The ciphers seal, those with authentication have a tag, and SHAKE gives as many bytes as it is asked for. -/
structure World.Good (w : World) (S : Tsx → List Byte → List Byte → List Byte → List Byte) : Prop where
  seals : ∀ t, (w.eng t).Seals (S t)
  plain : ∀ t, t = .t256 ∨ t = .t512 ∨ t = .t1024 → (w.eng t).auth = false
  authd : ∀ t, t = .t256a ∨ t = .t512a ∨ t = .t1024a → (w.eng t).auth = true ∧ 0 < (w.eng t).tag
  kdf : ∀ p s n, (w.kdf p s n).length = n

/-- The policies with authentication. -/
def Policy.ae (p : Policy) : Prop := p = .spl256ae ∨ p = .spl512ae ∨ p = .spl1024ae

/-- A salt that SHAKE takes. -/
def SaltOk (s : List Byte) : Prop := s.length = 0 ∨ 4 ≤ s.length

variable {w : World} {S : Tsx → List Byte → List Byte → List Byte → List Byte}

theorem copy_out {src : List Byte} {off n : Nat} (h : off + n ≤ src.length) : copy src off (List.replicate n 0) 0 n = .ok ((src.drop off).take n) := by
  have := part_eq h
  rw [part] at this
  split at this
  · exact this
  · rename_i h0
    have : n = 0 := by omega
    subst this
    rw [copy, if_pos rfl]; simp

theorem keyNonce_ok (g : w.Good S) (t : Tsx) (p : Policy) {salt : List Byte} (hs : SaltOk salt) :
    ∃ k n, keyNonce w (w.eng t) p salt = .ok (k, n) ∧ k.length = (w.eng t).ksize ∧ n.length = (w.eng t).ivsize := by
  have hl := g.kdf p salt ((w.eng t).ksize + (w.eng t).ivsize)
  refine ⟨((w.kdf p salt ((w.eng t).ksize + (w.eng t).ivsize)).drop 0).take (w.eng t).ksize, ((w.kdf p salt ((w.eng t).ksize + (w.eng t).ivsize)).drop (w.eng t).ksize).take (w.eng t).ivsize, ?_, ?_, ?_⟩
  · rw [keyNonce, systemKey, if_neg (by rcases hs with h | h <;> omega)]
    simp only [pure_eq_ok, ok_bind]
    rw [copy_out (by omega), ok_bind, copy_out (by omega), ok_bind]
  · rw [List.length_take, List.length_drop]; omega
  · rw [List.length_take, List.length_drop]; omega

theorem encipher_ok (g : w.Good S) (t : Tsx) (p : Policy) {salt : List Byte} (hs : SaltOk salt) (m : List Byte) :
    ∃ k n, keyNonce w (w.eng t) p salt = .ok (k, n) ∧ k.length = (w.eng t).ksize ∧ n.length = (w.eng t).ivsize ∧ encipher w (w.eng t) p salt m = .ok (S t k n m) := by
  obtain ⟨k, n, h1, h2, h3⟩ := keyNonce_ok g t p hs
  refine ⟨k, n, h1, h2, h3, ?_⟩
  rw [encipher]
  simp only [h1, ok_bind]
  have : (if (w.eng t).auth = true then resize (List.replicate m.length (0 : Byte)) ((List.replicate m.length (0 : Byte)).length + (w.eng t).tag) else List.replicate m.length 0)
      = List.replicate (m.length + (w.eng t).extra) 0 := by
    rw [Eng.extra]
    split
    · rw [Nat.add_comm, resize_grow, ← List.replicate_add]
    · rfl
  rw [this]
  exact (g.seals t).enc k n m h2 h3

theorem extract_ok (g : w.Good S) (t : Tsx) (p : Policy) {salt : List Byte} {k n : List Byte} (hk : keyNonce w (w.eng t) p salt = .ok (k, n))
    (h2 : k.length = (w.eng t).ksize) (h3 : n.length = (w.eng t).ivsize) (m : List Byte) (off len : Nat) (h : off + len ≤ m.length + (w.eng t).extra) :
    extract w (w.eng t) p salt (S t k n m) off (List.replicate len 0) len = .ok (((m ++ List.replicate (w.eng t).extra 0).drop off).take len) := by
  rw [extract]
  simp only [hk, ok_bind]
  have hz := (g.seals t).size k n m
  have : (if (w.eng t).auth = true then (S t k n m).length - (w.eng t).tag else (S t k n m).length) = m.length := by
    rw [hz, Eng.extra]
    split <;> omega
  rw [this, hz, (g.seals t).dec k n m h2 h3, ok_bind, copy_out (by rw [List.length_append, List.length_replicate]; exact h)]

theorem joined_eq (a b c : List Byte) : joined a b c = .ok (a ++ b ++ c) := by
  rw [joined]
  have e : List.replicate (a.length + b.length + c.length) (0 : Byte) = List.replicate a.length 0 ++ List.replicate b.length 0 ++ List.replicate c.length 0 := by
    rw [← List.replicate_add, ← List.replicate_add]
  simp only [e]
  have h1 : copy a 0 (List.replicate a.length 0 ++ List.replicate b.length 0 ++ List.replicate c.length 0) 0 a.length = .ok (a ++ List.replicate b.length 0 ++ List.replicate c.length 0) := by
    rw [List.append_assoc, copy]
    split
    · rename_i h; rw [List.eq_nil_of_length_eq_zero h]; rfl
    · rw [slice_ok (by omega), ok_bind, blit_ok (by simp)]
      simp
  have h2 : copy b 0 (a ++ List.replicate b.length 0 ++ List.replicate c.length 0) a.length b.length = .ok (a ++ b ++ List.replicate c.length 0) := by
    rw [copy]
    split
    · rename_i h; rw [List.eq_nil_of_length_eq_zero h]; rfl
    · rw [slice_ok (by omega), ok_bind, blit_ok (by simp)]
      simp
  have h3 : copy c 0 (a ++ b ++ List.replicate c.length 0) (a.length + b.length) c.length = .ok (a ++ b ++ c) := by
    rw [copy]
    split
    · rename_i h; rw [List.eq_nil_of_length_eq_zero h]; rfl
    · rw [slice_ok (by omega), ok_bind, blit_ok (by simp; omega)]
      rw [show a.length + b.length = (a ++ b).length by simp, List.take_left, List.drop_of_length_le (l := (a ++ b) ++ _) (by simp [Nat.add_assoc])]
      simp
  rw [h1, ok_bind, h2, ok_bind, h3]

/-- What the three accessors give for a key in storage. -/
theorem parts (g : w.Good S) (p : Policy) {salt k n : List Byte} (hk : keyNonce w (w.eng (symTsx p)) p salt = .ok (k, n))
    (h2 : k.length = (w.eng (symTsx p)).ksize) (h3 : n.length = (w.eng (symTsx p)).ivsize) (key iv info : List Byte) :
    let s : SecKey := ⟨salt, S (symTsx p) k n (key ++ iv ++ info), key.length, iv.length, info.length, p⟩
    s.key w = .ok key ∧ s.iv w = .ok iv ∧ s.info w = .ok info := by
  refine ⟨?_, ?_, ?_⟩
  · show extract _ _ _ _ _ _ _ _ = _
    rw [extract_ok g _ _ hk h2 h3 _ _ _ (by simp only [List.length_append]; omega)]
    simp [List.append_assoc]
  · show extract _ _ _ _ _ _ _ _ = _
    rw [extract_ok g _ _ hk h2 h3 _ _ _ (by simp only [List.length_append]; omega)]
    simp [List.append_assoc]
  · show extract _ _ _ _ _ _ _ _ = _
    rw [extract_ok g _ _ hk h2 h3 _ _ _ (by simp only [List.length_append]; omega)]
    rw [List.append_assoc (key ++ iv), show key.length + iv.length = (key ++ iv).length by simp, List.drop_left, List.take_left]

/-- **C95.** A symmetric key with policy and salt gives back key, nonce and info, for every policy. -/
theorem C95_symmetric_salted (g : w.Good S) (key iv info : List Byte) (h : 0 < key.length + iv.length + info.length) (p : Policy) (hp : p ≠ .none) (salt : List Byte)
    (hs : 4 ≤ salt.length) :
    ∃ s, SecKey.newSalted w key iv info p salt = .ok s ∧ s.key w = .ok key ∧ s.iv w = .ok iv ∧ s.info w = .ok info := by
  obtain ⟨k, n, h1, h2, h3, h4⟩ := encipher_ok g (symTsx p) p (.inr hs) (key ++ iv ++ info)
  refine ⟨_, ?_, parts g p h1 h2 h3 key iv info⟩
  rw [SecKey.newSalted, if_pos ⟨by omega, by omega, hp⟩, joined_eq, ok_bind, h4]
  rfl

/-- **C95.** And so does a key without. -/
theorem C95_symmetric (g : w.Good S) (key iv info : List Byte) (h : 0 < key.length + iv.length + info.length) :
    ∃ s, SecKey.new w key iv info = .ok s ∧ s.key w = .ok key ∧ s.iv w = .ok iv ∧ s.info w = .ok info := by
  obtain ⟨k, n, h1, h2, h3, h4⟩ := encipher_ok g (symTsx .spl256) .spl256 (salt := []) (.inl rfl) (key ++ iv ++ info)
  refine ⟨_, ?_, parts g .spl256 h1 h2 h3 key iv info⟩
  rw [SecKey.new, if_pos (by omega), joined_eq, ok_bind, h4]
  rfl

/-- **C95.** A clone of a salted key holds the same: it is equal to the original. -/
theorem C95_clone_salted (g : w.Good S) (key iv info : List Byte) (h : 0 < key.length + iv.length + info.length) (p : Policy) (hp : p ≠ .none) (salt : List Byte)
    (hs : 4 ≤ salt.length) : ∃ s, SecKey.newSalted w key iv info p salt = .ok s ∧ s.clone w = .ok s := by
  obtain ⟨k, n, h1, h2, h3, h4⟩ := encipher_ok g (symTsx p) p (.inr hs) (key ++ iv ++ info)
  obtain ⟨e1, e2, e3⟩ := parts g p h1 h2 h3 key iv info
  have e0 : SecKey.newSalted w key iv info p salt = .ok ⟨salt, S (symTsx p) k n (key ++ iv ++ info), key.length, iv.length, info.length, p⟩ := by
    rw [SecKey.newSalted, if_pos ⟨by omega, by omega, hp⟩, joined_eq, ok_bind, h4]
    rfl
  refine ⟨_, e0, ?_⟩
  rw [SecKey.clone, e1, ok_bind, e2, ok_bind, e3, ok_bind]
  exact e0

/-- **C95, refuted for `Clone`.** A key made without a salt cannot be cloned: the constructor that `Clone` calls refuses the empty salt. -/
theorem C95_clone_false (g : w.Good S) (key iv info : List Byte) (h : 0 < key.length + iv.length + info.length) :
    ∃ s, SecKey.new w key iv info = .ok s ∧ s.clone w = .error (.throws .invalidParam) := by
  obtain ⟨k, n, h1, h2, h3, h4⟩ := encipher_ok g (symTsx .spl256) .spl256 (salt := []) (.inl rfl) (key ++ iv ++ info)
  obtain ⟨e1, e2, e3⟩ := parts g .spl256 h1 h2 h3 key iv info
  refine ⟨_, by rw [SecKey.new, if_pos (by omega), joined_eq, ok_bind, h4]; rfl, ?_⟩
  rw [SecKey.clone, e1, ok_bind, e2, ok_bind, e3, ok_bind, SecKey.newSalted, if_neg (by simp)]
  rfl

theorem symTsx_ae {p : Policy} (h : p.ae) : symTsx p = .t256a ∨ symTsx p = .t512a ∨ symTsx p = .t1024a := by
  rcases h with rfl | rfl | rfl <;> simp [symTsx]

theorem asymTsx_ae {p : Policy} (h : p.ae) : asymTsx p = .t256a ∨ asymTsx p = .t512a ∨ asymTsx p = .t1024a := by
  rcases h with rfl | rfl | rfl <;> simp [asymTsx]

/-- **C95.** Under a policy with authentication, every accessor refuses a stored state that is not the sealing of some key. -/
theorem C95_tampered (g : w.Good S) (s : SecKey) (hp : s.policy.ae) (hs : SaltOk s.salt)
    (hx : (w.eng (symTsx s.policy)).tag ≤ s.state.length) (k n : List Byte) (hk : keyNonce w (w.eng (symTsx s.policy)) s.policy s.salt = .ok (k, n))
    (hm : ∀ m, s.state ≠ S (symTsx s.policy) k n m) :
    s.key w = .error (.throws .authenticationFailure) ∧ s.iv w = .error (.throws .authenticationFailure) ∧ s.info w = .error (.throws .authenticationFailure) := by
  have ha := (g.authd _ (symTsx_ae hp)).1
  obtain ⟨k', n', h1, h2, h3⟩ := keyNonce_ok g (symTsx s.policy) s.policy hs
  rw [h1] at hk
  cases hk
  have key : ∀ off len, extract w (w.eng (symTsx s.policy)) s.policy s.salt s.state off (List.replicate len 0) len = .error (.throws .authenticationFailure) := by
    intro off len
    rw [extract]
    simp only [h1, ok_bind]
    rw [if_pos ha, (g.seals _).refuse ha _ _ _ h2 h3 hx hm]
    rfl
  exact ⟨key _ _, key _ _, key _ _⟩

/-- What `Polynomial` gives: the coefficients and as many zeros as the tag is long. -/
theorem C95_asymmetric_extra (g : w.Good S) (poly salt : List Byte) (prim cls par : Byte) (p : Policy) (hs : SaltOk salt)
    (h : poly.length ≠ 0 ∧ cls ≠ 0 ∧ prim ≠ 0 ∧ par ≠ 0 ∧ p ≠ .none) :
    ∃ a, AsymSecKey.new w poly salt prim cls par p = .ok a ∧ a.polynomial w = .ok (poly ++ List.replicate (w.eng (asymTsx p)).extra 0) ∧
      a.serialize w = .ok ([cls, par, prim] ++ (poly ++ List.replicate (w.eng (asymTsx p)).extra 0)) := by
  obtain ⟨k, n, h1, h2, h3, h4⟩ := encipher_ok g (asymTsx p) p hs poly
  have hz := (g.seals (asymTsx p)).size k n poly
  have hpoly : AsymSecKey.polynomial w ⟨S (asymTsx p) k n poly, salt, prim, cls, par, p⟩ = .ok (poly ++ List.replicate (w.eng (asymTsx p)).extra 0) := by
    show extract _ _ _ _ _ _ _ _ = _
    rw [extract_ok g _ _ h1 h2 h3 _ _ _ (by show 0 + (S _ _ _ _).length ≤ _; omega)]
    congr 1
    show List.take (S _ _ _ _).length _ = _
    rw [hz, List.drop_zero, List.take_of_length_le (by simp)]
  refine ⟨⟨S (asymTsx p) k n poly, salt, prim, cls, par, p⟩, ?_, hpoly, ?_⟩
  · rw [AsymSecKey.new, if_pos h, h4]; rfl
  · rw [AsymSecKey.serialize, appendByte_eq, ok_bind, appendByte_eq, ok_bind, appendByte_eq, ok_bind, hpoly, ok_bind, appendVector_eq]
    rfl

/-- **C95 (partial).** An asymmetric key gives back its coefficients, and its serialised form is read as the same key, if the policy is one without authentication. With it: `C95_asymmetric_false`. -/
theorem C95_asymmetric_partial (g : w.Good S) (poly salt : List Byte) (prim cls par : Byte) (p : Policy) (hs : SaltOk salt)
    (h : poly.length ≠ 0 ∧ cls ≠ 0 ∧ prim ≠ 0 ∧ par ≠ 0 ∧ p ≠ .none) (hp : ¬ p.ae) :
    ∃ a b, AsymSecKey.new w poly salt prim cls par p = .ok a ∧ a.polynomial w = .ok poly ∧ a.serialize w = .ok b ∧ AsymKey.deserialize b = .ok ⟨poly, prim, cls, par⟩ := by
  obtain ⟨a, h1, h2, h3⟩ := C95_asymmetric_extra g poly salt prim cls par p hs h
  have hq : asymTsx p = .t256 ∨ asymTsx p = .t512 ∨ asymTsx p = .t1024 := by
    cases p <;> simp_all [asymTsx, Policy.ae]
  rw [Eng.extra, g.plain _ hq] at h2 h3
  simp only [Bool.false_eq_true, if_false, List.replicate_zero, List.append_nil] at h2 h3
  refine ⟨a, _, h1, h2, h3, ?_⟩
  exact (C47_roundtrip ⟨poly, prim, cls, par⟩ (by intro e; simp only [] at e; subst e; simp at h) h.2.2.1 h.2.1 h.2.2.2.1).2

/-- **C95, refuted for asymmetric keys with authentication.** For every key and each of the three policies, `Polynomial` returns a longer key than was given, with zeros behind. -/
theorem C95_asymmetric_false (g : w.Good S) (poly salt : List Byte) (prim cls par : Byte) (p : Policy) (hs : SaltOk salt)
    (h : poly.length ≠ 0 ∧ cls ≠ 0 ∧ prim ≠ 0 ∧ par ≠ 0 ∧ p ≠ .none) (hp : p.ae) :
    ∃ a x, AsymSecKey.new w poly salt prim cls par p = .ok a ∧ a.polynomial w = .ok x ∧ poly.length < x.length ∧ x ≠ poly := by
  obtain ⟨a, h1, h2, _⟩ := C95_asymmetric_extra g poly salt prim cls par p hs h
  obtain ⟨ha, ht⟩ := g.authd _ (asymTsx_ae hp)
  have hl : poly.length < (poly ++ List.replicate (w.eng (asymTsx p)).extra 0).length := by
    rw [List.length_append, List.length_replicate, Eng.extra, if_pos ha]; omega
  exact ⟨a, _, h1, h2, hl, fun e => by rw [e] at hl; omega⟩

/-! ## A world -/

/-- A cipher that adds one to every byte and appends, if it authenticates, a tag of one byte, the constant 7. -/
def toyEng (a : Bool) : Eng where
  auth := a
  tag := 1
  ksize := 2
  ivsize := 1
  transform := fun e _ _ inp io out oo len =>
    if e then do
      let m ← slice inp io len
      let o ← blit out oo (m.map (· + 1))
      if a then blit o (oo + len) [7] else pure o
    else do
      let m ← slice inp io len
      if a then
        let t ← slice inp (io + len) 1
        if t = [7] then blit out oo (m.map (· - 1)) else throw (.throws .authenticationFailure)
      else blit out oo (m.map (· - 1))

def toyS (a : Bool) (m : List Byte) : List Byte := m.map (· + 1) ++ if a then [7] else []

def toyAuth : Tsx → Bool
  | .t256 => false | .t512 => false | .t1024 => false | _ => true

def toyWorld : World := ⟨fun t => toyEng (toyAuth t), fun _ _ n => List.replicate n 5⟩

theorem toy_seals (a : Bool) : (toyEng a).Seals (fun _ _ m => toyS a m) where
  size := by intro k n m; cases a <;> simp [toyS, Eng.extra, toyEng]
  enc := by
    intro k n m _ _
    cases a
    · simp only [toyEng, Eng.extra, toyS, if_true, Bool.false_eq_true, if_false, Nat.add_zero]
      rw [slice_ok (by omega), ok_bind, blit_ok (by simp)]
      simp
    · simp only [toyEng, Eng.extra, toyS, if_true]
      rw [slice_ok (by omega), ok_bind, blit_ok (by simp), ok_bind, blit_ok (by simp)]
      simp
  dec := by
    intro k n m _ _
    have hm : List.map (fun x : Byte => x - 1) (List.map (fun x => x + 1) m) = m := by
      rw [List.map_map, List.map_congr_left (g := id) (by intro x _; show x + 1 - 1 = x; bv_omega), List.map_id]
    cases a
    · simp only [toyEng, Eng.extra, toyS, Bool.false_eq_true, if_false, Nat.add_zero, List.append_nil]
      rw [slice_ok (by simp), ok_bind, List.drop_zero, List.take_of_length_le (by simp), hm, blit_ok (by simp)]
      simp
    · simp only [toyEng, Eng.extra, toyS, if_true, Bool.false_eq_true, if_false]
      rw [slice_ok (by simp), ok_bind, slice_ok (by simp), ok_bind, if_pos (by simp), List.drop_zero, List.take_append_of_le_length (by simp), List.take_of_length_le (by simp), hm,
        blit_ok (by simp)]
      simp
  refuse := by
    intro ha k n x _ _ hx hm
    simp only [toyEng] at ha hx
    subst ha
    simp only [toyEng, toyS, if_true, Bool.false_eq_true, if_false] at hm ⊢
    rw [slice_ok (by omega), ok_bind, slice_ok (by omega), ok_bind, if_neg]
    · rfl
    · intro h7
      refine hm ((x.take (x.length - 1)).map (· - 1)) ?_
      have : List.map (fun x : Byte => x + 1) (List.map (fun x => x - 1) (x.take (x.length - 1))) = x.take (x.length - 1) := by
        rw [List.map_map, List.map_congr_left (g := id) (by intro x _; show x - 1 + 1 = x; bv_omega), List.map_id]
      rw [this, ← h7, Nat.zero_add, List.take_of_length_le (l := x.drop _) (by rw [List.length_drop]; omega), List.take_append_drop]

theorem toy_good : toyWorld.Good (fun t _ _ m => toyS (toyAuth t) m) where
  seals := fun t => toy_seals (toyAuth t)
  plain := by intro t h; rcases h with rfl | rfl | rfl <;> rfl
  authd := by intro t h; rcases h with rfl | rfl | rfl <;> exact ⟨rfl, by decide⟩
  kdf := fun _ _ n => List.length_replicate

/-- A key, a nonce and no info come back under an authenticated policy. -/
example : ∃ s, SecKey.newSalted toyWorld [1, 2, 3] [4] [] .spl512ae [9, 9, 9, 9] = .ok s ∧ s.key toyWorld = .ok [1, 2, 3] ∧ s.iv toyWorld = .ok [4] ∧ s.info toyWorld = .ok [] :=
  C95_symmetric_salted toy_good _ _ _ (by decide) _ (by decide) _ (by decide)

/-- An asymmetric key comes back without authentication, and longer with it. -/
example : ∃ a b, AsymSecKey.new toyWorld [1, 2, 3] [] 4 5 6 .spl512 = .ok a ∧ a.polynomial toyWorld = .ok [1, 2, 3] ∧ a.serialize toyWorld = .ok b ∧ AsymKey.deserialize b = .ok ⟨[1, 2, 3], 4, 5, 6⟩ :=
  C95_asymmetric_partial toy_good _ _ _ _ _ _ (.inl rfl) (by decide) (by simp [Policy.ae])

example : ∃ a, AsymSecKey.new toyWorld [1, 2, 3] [] 4 5 6 .spl512ae = .ok a ∧ a.polynomial toyWorld = .ok [1, 2, 3, 0] := ⟨_, rfl, rfl⟩

/-- A changed state is refused. -/
example : SecKey.key toyWorld ⟨[], [2, 3, 8], 2, 0, 0, .spl256ae⟩ = .error (.throws .authenticationFailure) :=
  (C95_tampered toy_good ⟨[], [2, 3, 8], 2, 0, 0, .spl256ae⟩ (.inl rfl) (.inl rfl) (by decide) [5, 5] [5] rfl (by
    intro m h
    have := congrArg List.getLast? h
    simp [toyS, symTsx, toyAuth] at this)).1

end Cex.Keys
