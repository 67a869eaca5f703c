import Verif.Rijndael.NiLemmas
import Verif.Modes.Props
import Verif.SCipher.Props

/-!
# Properties C55 and C56: the block cipher RHX and the block functions of RCS and RWS

C55. `RHX` without a KDF is AES of FIPS 197, in the scalar build and with AES-NI: same expanded key, same blocks, and
decryption undoes encryption. With a KDF both builds give the same cipher for the same generated bytes.

C56. `RCS::Transform256` and `RWS::Transform512` are Rijndael with 256- and 512-bit blocks under the generated round keys,
with AES-NI too; they are injective, so that the keystream blocks of different counters differ.
-/

namespace Cex.Rijndael
open Cex.Aes (St Schedule bytes expand keyWords onBytes)

/-- The block function reads `n` bytes at its input offset, writes `g` of them at its output offset and changes nothing else,
wherever both lie. -/
def Maps (f : BlockFn) (n : Nat) (g : List Byte → List Byte) : Prop :=
  ∀ (inp : List Byte) (inOff : Nat) (b : List Byte), Holds inp inOff b → b.length = n → ∀ a junk c : List Byte, junk.length = n →
    f inp inOff (a ++ junk ++ c) a.length = .ok (a ++ g b ++ c)

/-- The same for `m` blocks of `n` bytes, one after another. -/
def MapsAll (f : BlockFn) (n m : Nat) (g : List Byte → List Byte) : Prop :=
  ∀ (inp : List Byte) (inOff : Nat) (bs : List (List Byte)), Holds inp inOff bs.flatten → bs.length = m → Blocks n bs →
    ∀ a junk c : List Byte, junk.length = m * n → f inp inOff (a ++ junk ++ c) a.length = .ok (a ++ (bs.map g).flatten ++ c)

theorem onBytes_bytes {nb : Nat} (F : St nb → St nb) (b : List Byte) (h : b.length = 4 * nb) :
    bytes (Aes.state b h) = b ∧ onBytes F b = bytes (F (Aes.state b h)) := ⟨bytes_state b h, by rw [onBytes, dif_pos h]⟩

theorem onBytes_length {nb : Nat} (F : St nb → St nb) {b : List Byte} (h : b.length = 4 * nb) : (onBytes F b).length = 4 * nb := by
  rw [(onBytes_bytes F b h).2, bytes_length]

theorem maps_of {nb n : Nat} (hn : n = 4 * nb) {f : BlockFn} {F : St nb → St nb}
    (h : ∀ (s : St nb) (inp : List Byte) (inOff : Nat), Holds inp inOff (bytes s) → ∀ a b c : List Byte, b.length = 4 * nb →
      f inp inOff (a ++ b ++ c) a.length = .ok (a ++ bytes (F s) ++ c)) : Maps f n (onBytes F) := by
  subst hn
  intro inp inOff b hb hl a junk c hj
  obtain ⟨e1, e2⟩ := onBytes_bytes F b hl
  rw [e2]
  exact h _ inp inOff (by rw [e1]; exact hb) a junk c hj

theorem state_bytes {nb : Nat} (s : St nb) (h : (bytes s).length = 4 * nb) : Aes.state (bytes s) h = s := by
  funext r c
  have := bytes_get s r c
  rw [List.getElem?_eq_some_iff] at this
  obtain ⟨_, e⟩ := this
  exact e

theorem onBytes_comp {nb : Nat} (F G : St nb → St nb) (h : ∀ s, G (F s) = s) {b : List Byte} (hl : b.length = 4 * nb) : onBytes G (onBytes F b) = b := by
  obtain ⟨e1, e2⟩ := onBytes_bytes F b hl
  rw [e2, (onBytes_bytes G _ (bytes_length _)).2, state_bytes, h, e1]

theorem aes_inv (key : List Byte) (s : St 4) : Aes.aesInv key (Aes.aes key s) = s :=
  Aes.invCipher_cipher (fun r => by show r.val ≤ 4; omega) _ _ s

theorem legal (key : List Byte) (hk : key.length = 16 ∨ key.length = 24 ∨ key.length = 32) (enc : Bool) :
    (∃ x, Rhx.init enc key = .ok x ∧ x.encryption = enc ∧ x.rounds = key.length / 4 + 6 ∧
      Sched x.rk (expand (key.length / 4) (keyWords key)) (4 * (x.rounds + 1))) := by
  obtain ⟨rk, h1, h2, h3⟩ := standardExpand_eq hk
  refine ⟨⟨enc, key.length / 4 + 6, rk⟩, ?_, rfl, rfl, h3⟩
  rw [Rhx.init, if_neg (by omega)]
  simp only []
  rw [h1]
  rfl

theorem niLegal (key : List Byte) (hk : key.length = 16 ∨ key.length = 24 ∨ key.length = 32) (enc : Bool) :
    (∃ x, NiRhx.init enc key = .ok x ∧ x.encryption = enc ∧ x.keys.length / 16 = key.length / 4 + 6 + 1 ∧
      Flat x.keys (if enc then expand (key.length / 4) (keyWords key) else invSched (key.length / 4 + 6) (expand (key.length / 4) (keyWords key)))
        (4 * (key.length / 4 + 6 + 1))) := by
  obtain ⟨k, h1, h2, h3⟩ := niStandardExpand_eq hk
  cases enc
  · have e : key.length / 4 + 6 = 2 * ((key.length / 4 + 6) / 2) := by omega
    obtain ⟨k', g1, g2, g3⟩ := niInvertKeys_eq (m := (key.length / 4 + 6) / 2) (by omega) (by rw [← e]; exact h2) (by rw [← e]; exact h3)
    rw [← e] at g1 g2 g3
    refine ⟨⟨false, k'⟩, ?_, rfl, by show k'.length / 16 = _; omega, g3⟩
    rw [NiRhx.init, if_neg (by omega)]
    simp only []
    rw [h1, ok_bind]
    simp only [show k.length / 16 = key.length / 4 + 6 + 1 from by omega]
    rw [g1]
    rfl
  · refine ⟨⟨true, k⟩, ?_, rfl, by show k.length / 16 = _; omega, h3⟩
    rw [NiRhx.init, if_neg (by omega)]
    simp only []
    rw [h1, ok_bind]
    rfl

/-- **C55**: initialised for encryption with any key of 16, 24 or 32 bytes, both builds replace every block by its AES encryption under that
key, as FIPS 197 defines it. -/
theorem C55_encrypt (key : List Byte) (hk : key.length = 16 ∨ key.length = 24 ∨ key.length = 32) :
    (∃ x, Rhx.init true key = .ok x ∧ Maps x.transform 16 (onBytes (Aes.aes key))) ∧
    ∃ y, NiRhx.init true key = .ok y ∧ Maps y.transform 16 (onBytes (Aes.aes key)) := by
  obtain ⟨x, h1, h2, h3, h4⟩ := legal key hk true
  obtain ⟨y, g1, g2, g3, g4⟩ := niLegal key hk true
  refine ⟨⟨x, h1, maps_of (nb := 4) rfl ?_⟩, ⟨y, g1, maps_of (nb := 4) rfl ?_⟩⟩
  · intro s inp inOff hin a b c hb
    rw [Rhx.transform, if_pos h2]
    have := forward_eq (nb := 4) (by omega) h4 shiftRows128_eq s hin (a := a) (c := c) hb
    rw [h3] at this
    rw [h3]
    exact this
  · intro s inp inOff hin a b c hb
    rw [NiRhx.transform, if_pos g2, g3]
    exact niEncrypt_eq (by omega) g4 s hin hb

/-- **C55**: initialised for decryption, both builds apply the inverse cipher of FIPS 197. -/
theorem C55_decrypt (key : List Byte) (hk : key.length = 16 ∨ key.length = 24 ∨ key.length = 32) :
    (∃ x, Rhx.init false key = .ok x ∧ Maps x.transform 16 (onBytes (Aes.aesInv key))) ∧
    ∃ y, NiRhx.init false key = .ok y ∧ Maps y.transform 16 (onBytes (Aes.aesInv key)) := by
  obtain ⟨x, h1, h2, h3, h4⟩ := legal key hk false
  obtain ⟨y, g1, g2, g3, g4⟩ := niLegal key hk false
  refine ⟨⟨x, h1, maps_of (nb := 4) rfl ?_⟩, ⟨y, g1, maps_of (nb := 4) rfl ?_⟩⟩
  · intro s inp inOff hin a b c hb
    rw [Rhx.transform, if_neg (by rw [h2]; simp), h3]
    rw [h3] at h4
    exact decrypt_eq (by omega) h4 s hin hb
  · intro s inp inOff hin a b c hb
    rw [NiRhx.transform, if_neg (by rw [g2]; simp), g3]
    exact niDecrypt_eq (by omega) g4 s hin hb

/-- **C55**: what one object encrypts, another one with the same key decrypts, whichever builds the two run on. -/
theorem C55_roundtrip (key : List Byte) (hk : key.length = 16 ∨ key.length = 24 ∨ key.length = 32) :
    ∃ x y x' y', Rhx.init true key = .ok x ∧ NiRhx.init true key = .ok y ∧ Rhx.init false key = .ok x' ∧ NiRhx.init false key = .ok y' ∧
    ∀ E ∈ [x.transform, y.transform], ∀ D ∈ [x'.transform, y'.transform],
    ∀ (inp : List Byte) (inOff : Nat) (b : List Byte), Holds inp inOff b → b.length = 16 →
    ∀ a junk c a' junk' c' : List Byte, junk.length = 16 → junk'.length = 16 →
    ∃ mid, E inp inOff (a ++ junk ++ c) a.length = .ok mid ∧ D mid a.length (a' ++ junk' ++ c') a'.length = .ok (a' ++ b ++ c') := by
  obtain ⟨⟨x, x1, x2⟩, ⟨y, y1, y2⟩⟩ := C55_encrypt key hk
  obtain ⟨⟨x', x1', x2'⟩, ⟨y', y1', y2'⟩⟩ := C55_decrypt key hk
  refine ⟨x, y, x', y', x1, y1, x1', y1', ?_⟩
  intro E hE D hD inp inOff b hb hl a junk c a' junk' c' hj hj'
  have hE' : Maps E 16 (onBytes (Aes.aes key)) := by
    simp only [List.mem_cons, List.not_mem_nil, or_false] at hE
    rcases hE with rfl | rfl
    · exact x2
    · exact y2
  have hD' : Maps D 16 (onBytes (Aes.aesInv key)) := by
    simp only [List.mem_cons, List.not_mem_nil, or_false] at hD
    rcases hD with rfl | rfl
    · exact x2'
    · exact y2'
  refine ⟨_, hE' inp inOff b hb hl a junk c hj, ?_⟩
  rw [hD' _ a.length _ ⟨a, c, rfl, rfl⟩ (onBytes_length (nb := 4) _ hl) a' junk' c' hj', onBytes_comp (nb := 4) _ _ (aes_inv key) hl]

/-- **C55**: any other key length is refused by both builds. -/
theorem C55_key_size (enc : Bool) (key : List Byte) (hk : ¬ (key.length = 16 ∨ key.length = 24 ∨ key.length = 32)) :
    Rhx.init enc key = .error (.throws .invalidKey) ∧ NiRhx.init enc key = .error (.throws .invalidKey) := by
  refine ⟨?_, ?_⟩
  · rw [Rhx.init, if_pos hk]; rfl
  · rw [NiRhx.init, if_pos hk]; rfl

/-! ## Wide blocks -/

theorem mapsAll_one {f : BlockFn} {n : Nat} {g : List Byte → List Byte} (h : Maps f n g) : MapsAll f n 1 g := by
  intro inp inOff bs hin hl hb a junk c hj
  match bs, hl with
  | [b], _ =>
    have hbl : b.length = n := hb b List.mem_cons_self
    simp only [List.flatten_cons, List.flatten_nil, List.append_nil, List.map_cons, List.map_nil] at hin ⊢
    exact h inp inOff b hin hbl a junk c (by omega)

theorem flatten_len {n : Nat} : ∀ bs : List (List Byte), Blocks n bs → bs.flatten.length = bs.length * n
  | [], _ => by simp
  | b :: bs, h => by
    rw [List.flatten_cons, List.length_append, flatten_len bs (fun x hx => h x (List.mem_cons_of_mem _ hx)), h b List.mem_cons_self, List.length_cons, Nat.succ_mul]
    omega

theorem mapsAll_twice {f : BlockFn} {n m : Nat} {g : List Byte → List Byte} (hg : ∀ b, b.length = n → (g b).length = n) (h : MapsAll f n m g) :
    MapsAll (twice (m * n) f) n (2 * m) g := by
  intro inp inOff bs hin hl hb a junk c hj
  have h1 : Blocks n (bs.take m) := fun b hm => hb b (List.mem_of_mem_take hm)
  have h2 : Blocks n (bs.drop m) := fun b hm => hb b (List.mem_of_mem_drop hm)
  have l1 : (bs.take m).length = m := by rw [List.length_take]; omega
  have l2 : (bs.drop m).length = m := by rw [List.length_drop]; omega
  have e : bs.flatten = (bs.take m).flatten ++ (bs.drop m).flatten := by rw [← List.flatten_append, List.take_append_drop]
  rw [e] at hin
  obtain ⟨u, v, hin, rfl⟩ := hin
  have i1 : Holds inp u.length (bs.take m).flatten := ⟨u, (bs.drop m).flatten ++ v, by rw [hin]; simp only [List.append_assoc], rfl⟩
  have i2 : Holds inp (u.length + m * n) (bs.drop m).flatten :=
    ⟨u ++ (bs.take m).flatten, v, by rw [hin]; simp only [List.append_assoc], by rw [List.length_append, flatten_len _ h1, l1]⟩
  have k1 : (junk.take (m * n)).length = m * n := by rw [List.length_take, hj, Nat.mul_assoc]; omega
  have k2 : (junk.drop (m * n)).length = m * n := by rw [List.length_drop, hj, Nat.mul_assoc]; omega
  have hm1 : Blocks n ((bs.take m).map g) := by
    intro b hm
    obtain ⟨b', m1, rfl⟩ := List.mem_map.mp hm
    exact hg b' (h1 b' m1)
  have hs : junk = junk.take (m * n) ++ junk.drop (m * n) := (List.take_append_drop _ _).symm
  rw [twice, show a ++ junk ++ c = a ++ junk.take (m * n) ++ (junk.drop (m * n) ++ c) from by
      rw [List.append_assoc, List.append_assoc, ← List.append_assoc (junk.take _), ← hs],
    h inp u.length _ i1 l1 h1 a _ _ k1, ok_bind]
  have key := h inp (u.length + m * n) _ i2 l2 h2 (a ++ ((bs.take m).map g).flatten) (junk.drop (m * n)) c k2
  rw [List.length_append, flatten_len _ hm1, List.length_map, l1] at key
  rw [← List.append_assoc, key, List.append_assoc a, ← List.flatten_append, ← List.map_append, List.take_append_drop]

/-- **C55**: `Transform2048` transforms its sixteen blocks one by one, in both directions. -/
theorem C55_wide (enc : Bool) (key : List Byte) (hk : key.length = 16 ∨ key.length = 24 ∨ key.length = 32) :
    ∃ x, Rhx.init enc key = .ok x ∧ MapsAll x.transform2048 16 16 (onBytes (if enc then Aes.aes key else Aes.aesInv key)) := by
  have lift : ∀ (f : BlockFn) (F : St 4 → St 4), Maps f 16 (onBytes F) → MapsAll (twice 128 (twice 64 (twice 32 (twice 16 f)))) 16 16 (onBytes F) := by
    intro f F h
    have hg : ∀ b : List Byte, b.length = 16 → (onBytes F b).length = 16 := fun b hb => onBytes_length (nb := 4) F hb
    exact mapsAll_twice hg (mapsAll_twice hg (mapsAll_twice hg (mapsAll_twice hg (mapsAll_one h))))
  cases enc
  · obtain ⟨⟨x, x1, x2⟩, _⟩ := C55_decrypt key hk
    obtain ⟨x', h1, h2, _⟩ := legal key hk false
    have e := Except.ok.inj (h1.symm.trans x1)
    subst e
    rw [Rhx.transform, if_neg (by rw [h2]; simp)] at x2
    refine ⟨_, x1, ?_⟩
    rw [Rhx.transform2048, if_neg (by rw [h2]; simp), decrypt2048]
    exact lift _ _ x2
  · obtain ⟨⟨x, x1, x2⟩, _⟩ := C55_encrypt key hk
    obtain ⟨x', h1, h2, _⟩ := legal key hk true
    have e := Except.ok.inj (h1.symm.trans x1)
    subst e
    rw [Rhx.transform, if_pos h2] at x2
    refine ⟨_, x1, ?_⟩
    rw [Rhx.transform2048, if_pos h2, encrypt2048]
    exact lift _ _ x2

/-! ## Round keys from a KDF -/

theorem secureRounds_even {n : Nat} (h : n = 32 ∨ n = 64 ∨ n = 128) : secureRounds n = 2 * (secureRounds n / 2) ∧ 2 ≤ secureRounds n := by
  rcases h with rfl | rfl | rfl <;> decide

/-- **C55**: with a KDF, the scalar build and AES-NI make the same cipher from the same generated bytes, and decryption inverts encryption. -/
theorem C55_extended (gen : List Byte → Nat → List Byte) (hg : ∀ k n, (gen k n).length = n) (key : List Byte)
    (hk : key.length = 32 ∨ key.length = 64 ∨ key.length = 128) :
    ∃ F G : St 4 → St 4, (∀ s, G (F s) = s) ∧
    (∃ x, Rhx.secureInit gen true key = .ok x ∧ Maps x.transform 16 (onBytes F)) ∧
    (∃ x, NiRhx.secureInit gen true key = .ok x ∧ Maps x.transform 16 (onBytes F)) ∧
    (∃ x, Rhx.secureInit gen false key = .ok x ∧ Maps x.transform 16 (onBytes G)) ∧
    ∃ x, NiRhx.secureInit gen false key = .ok x ∧ Maps x.transform 16 (onBytes G) := by
  obtain ⟨ev, ge⟩ := secureRounds_even hk
  generalize hr : secureRounds key.length = nr at ev ge
  have hn : 4 * (nr + 1) / 4 * 16 = 4 * (4 * (nr + 1)) := by omega
  have hl : (gen key (4 * (4 * (nr + 1)))).length = 4 * (4 * (nr + 1)) := hg _ _
  generalize ht : gen key (4 * (4 * (nr + 1))) = t at hl
  have hs := secureWords_sched t _ hl
  have hf := secureBytes_flat t _ hl
  have hbl := secureBytes_length t _ hl
  refine ⟨Aes.cipher Aes.aesShifts (revWords t) nr, Aes.invCipher Aes.aesShifts (revWords t) nr,
    Aes.invCipher_cipher (fun r => by show r.val ≤ 4; omega) _ _, ⟨⟨true, nr, secureWords t⟩, ?_, maps_of (nb := 4) rfl ?_⟩, ⟨⟨true, secureBytes t⟩, ?_, maps_of (nb := 4) rfl ?_⟩,
    ⟨⟨false, nr, secureWords t⟩, ?_, maps_of (nb := 4) rfl ?_⟩, ?_⟩
  · rw [Rhx.secureInit, if_neg (by omega)]
    simp only [hr, ht]
    rfl
  · intro s inp inOff hin a b c hb
    exact forward_eq (nb := 4) (by omega) hs shiftRows128_eq s hin hb
  · rw [NiRhx.secureInit, if_neg (by omega)]
    simp only [hr, hn, ht]
    rfl
  · intro s inp inOff hin a b c hb
    rw [NiRhx.transform, if_pos rfl, show (secureBytes t).length / 16 = nr + 1 from by omega]
    exact niEncrypt_eq (by omega) hf s hin hb
  · rw [Rhx.secureInit, if_neg (by omega)]
    simp only [hr, ht]
    rfl
  · intro s inp inOff hin a b c hb
    exact decrypt_eq (by omega) hs s hin hb
  · obtain ⟨k', g1, g2, g3⟩ := niInvertKeys_eq (m := nr / 2) (k := secureBytes t) (w := revWords t) (by omega) (by omega) (by rw [← ev]; exact hf)
    rw [← ev] at g1 g2 g3
    refine ⟨⟨false, k'⟩, ?_, maps_of (nb := 4) rfl ?_⟩
    · rw [NiRhx.secureInit, if_neg (by omega)]
      simp only [hr, hn, ht, show (secureBytes t).length / 16 = nr + 1 from by omega]
      rw [g1]
      rfl
    · intro s inp inOff hin a b c hb
      rw [NiRhx.transform, if_neg (by simp), show k'.length / 16 = nr + 1 from by omega]
      exact niDecrypt_eq (by omega) g3 s hin hb

/-! ## AES under the modes -/

/-- AES as the cipher of the modes (C11 to C18), of GCM and CMAC. -/
def aesCipher (key : List Byte) : Modes.Cipher := ⟨onBytes (Aes.aes key), onBytes (Aes.aesInv key)⟩

/-- **C55**: AES, as the code computes it, meets what the theorems about the modes ask of a cipher, for every key. -/
theorem C55_good (key : List Byte) : (aesCipher key).Good where
  enc_len := fun _ h => onBytes_length (nb := 4) _ h
  dec_len := fun _ h => onBytes_length (nb := 4) _ h
  inv := fun _ h => onBytes_comp (nb := 4) _ _ (aes_inv key) h

/-! ## RCS and RWS -/

theorem le256 (r : Fin 4) : shifts256 r ≤ 8 := by
  rcases fin4 r with rfl | rfl | rfl | rfl <;> decide

theorem le512 (r : Fin 4) : shifts512 r ≤ 16 := by
  rcases fin4 r with rfl | rfl | rfl | rfl <;> decide

/-- The block functions of RCS and RWS: Rijndael with 8 and 16 columns, row shifts 0 1 3 4 and 1 2 4 8, round keys `t`. -/
def rcs (t : List Byte) (nr : Nat) : List Byte → List Byte := onBytes (Aes.cipher (nb := 8) shifts256 (keyWords t) nr)
def rws (t : List Byte) (nr : Nat) : List Byte → List Byte := onBytes (Aes.cipher (nb := 16) shifts512 (keyWords t) nr)

/-- **C56**: for every number of rounds and all round-key bytes, `RCS::Transform256` computes `rcs` in the scalar build and with AES-NI. -/
theorem C56_rcs (nr : Nat) (h : 0 < nr) (t : List Byte) (ht : t.length = 4 * (8 * (nr + 1))) :
    Maps (transform256 (beWords t) nr) 32 (rcs t nr) ∧ Maps (niTransform256 (t.length / 16) t) 32 (rcs t nr) := by
  refine ⟨maps_of (nb := 8) rfl ?_, maps_of (nb := 8) rfl ?_⟩
  · intro s inp inOff hin a b c hb
    exact forward_eq (nb := 8) h (beWords_sched t _ ht) shiftRows256_eq s hin hb
  · intro s inp inOff hin a b c hb
    rw [show t.length / 16 = 2 * (nr + 1) from by omega]
    exact niTransform256_eq h (bytes_flat ht) s hin hb

/-- **C56**: `RWS::Transform512` computes `rws`. -/
theorem C56_rws (nr : Nat) (h : 0 < nr) (t : List Byte) (ht : t.length = 4 * (16 * (nr + 1))) : Maps (transform512 (beWords t) nr) 64 (rws t nr) := by
  refine maps_of (nb := 16) rfl ?_
  intro s inp inOff hin a b c hb
  exact forward_eq (nb := 16) h (beWords_sched t _ ht) shiftRows512_eq s hin hb

/-- **C56**: the four- and eight-block functions of RCS apply it to each block. -/
theorem C56_wide (f : BlockFn) (t : List Byte) (nr : Nat) (h : Maps f 32 (rcs t nr)) :
    MapsAll (twice 64 (twice 32 f)) 32 4 (rcs t nr) ∧ MapsAll (twice 128 (twice 64 (twice 32 f))) 32 8 (rcs t nr) := by
  have hg : ∀ b : List Byte, b.length = 32 → (rcs t nr b).length = 32 := fun b hb => onBytes_length (nb := 8) _ hb
  have h4 := mapsAll_twice hg (mapsAll_twice hg (mapsAll_one h))
  exact ⟨h4, mapsAll_twice hg h4⟩

/-- **C56**: both are injective on blocks, whatever the round keys. -/
theorem C56_injective (t : List Byte) (nr : Nat) :
    (∀ a b : List Byte, a.length = 32 → b.length = 32 → rcs t nr a = rcs t nr b → a = b) ∧
    ∀ a b : List Byte, a.length = 64 → b.length = 64 → rws t nr a = rws t nr b → a = b := by
  refine ⟨?_, ?_⟩
  · intro a b ha hb e
    have := congrArg (onBytes (Aes.invCipher (nb := 8) shifts256 (keyWords t) nr)) e
    rwa [rcs, onBytes_comp _ _ (Aes.invCipher_cipher le256 _ _) ha, onBytes_comp _ _ (Aes.invCipher_cipher le256 _ _) hb] at this
  · intro a b ha hb e
    have := congrArg (onBytes (Aes.invCipher (nb := 16) shifts512 (keyWords t) nr)) e
    rwa [rws, onBytes_comp _ _ (Aes.invCipher_cipher le512 _ _) ha, onBytes_comp _ _ (Aes.invCipher_cipher le512 _ _) hb] at this

open SCipher SCipher.Spec IntTools in
/-- **C56**: no two blocks of a keystream are equal before the 128-bit counter has gone through all its values. -/
theorem C56_keystream (t : List Byte) (nr : Nat) (c : List Byte) (i j : Nat) (hij : i < j) (hj : j - i < 2 ^ 128) :
    (c.length = 32 → rcs t nr (byteCnt c i) ≠ rcs t nr (byteCnt c j)) ∧ (c.length = 64 → rws t nr (byteCnt c i) ≠ rws t nr (byteCnt c j)) := by
  have hne : byteCnt c i ≠ byteCnt c j := by
    intro e
    rw [byteCnt, byteCnt] at e
    have e2 := (List.append_inj e (by rw [leEnc_length, leEnc_length])).1
    have e3 := congrArg leVal e2
    rw [leVal_leEnc, leVal_leEnc] at e3
    generalize leVal (c.take 16) = v at e3
    have e4 : (v + i) % 2 ^ 128 = (v + j) % 2 ^ 128 := e3
    omega
  refine ⟨fun hl e => hne ((C56_injective t nr).1 _ _ (byteCnt_length (by omega) hl i) (byteCnt_length (by omega) hl j) e),
    fun hl e => hne ((C56_injective t nr).2 _ _ (byteCnt_length (by omega) hl i) (byteCnt_length (by omega) hl j) e)⟩

/-! ## Concrete cases -/

/-- The vectors of FIPS 197 are in `Vectors.lean`. The hypotheses of C55_extended and C56 are met by constant generators and key bytes. -/
example : ∃ F G : St 4 → St 4, (∀ s, G (F s) = s) ∧ ∃ x, NiRhx.secureInit (fun _ n => List.replicate n 3) true (List.replicate 64 9) = .ok x ∧ Maps x.transform 16 (onBytes F) := by
  obtain ⟨F, G, h, _, h2, _⟩ := C55_extended (fun _ n => List.replicate n 3) (fun _ _ => List.length_replicate) (List.replicate 64 9) (by decide)
  exact ⟨F, G, h, h2⟩
example : Maps (transform256 (beWords (List.replicate 736 3)) 22) 32 (rcs (List.replicate 736 3) 22) :=
  (C56_rcs 22 (by decide) _ List.length_replicate).1
example : Maps (transform512 (beWords (List.replicate 2624 3)) 40) 64 (rws (List.replicate 2624 3) 40) :=
  C56_rws 40 (by decide) _ List.length_replicate

end Cex.Rijndael
