import Verif.Serpent.Schedule
import Verif.Serpent.Vectors
import Verif.Modes.Model

/-!
# C57: SHX and Serpent
-/

namespace Cex.Serpent
open Cex.Spec.Serpent
open Cex.Rijndael (Maps MapsAll mapsAll_one mapsAll_twice twice)

/-- The object maps every block with `g`, through each of its functions: one block, and 2, 4, 8 and 16 blocks at once. -/
def Computes (x : Shx) (g : List Byte → List Byte) : Prop :=
  Maps x.transform 16 g ∧ MapsAll x.transform256 16 2 g ∧ MapsAll x.transform512 16 4 g ∧ MapsAll x.transform1024 16 8 g ∧ MapsAll x.transform2048 16 16 g

theorem computes_of {x : Shx} {F : Quad Word → Quad Word} (h1 : Maps x.one 16 (onBytes F))
    (h4 : ∀ k, MapsAll (x.w (4 * k)) 16 (4 * k) (onBytes F)) : Computes x (onBytes F) := by
  have hg : ∀ b : List Byte, b.length = 16 → (onBytes F b).length = 16 := fun b _ => onBytes_length F b
  have m1 := mapsAll_one h1
  have m2 : MapsAll (twice 16 x.one) 16 2 (onBytes F) := mapsAll_twice hg m1
  have m4 : MapsAll (twice 32 (twice 16 x.one)) 16 4 (onBytes F) := mapsAll_twice hg m2
  have m8 : MapsAll (twice 64 (twice 32 (twice 16 x.one))) 16 8 (onBytes F) := mapsAll_twice hg m4
  have m16 : MapsAll (twice 128 (twice 64 (twice 32 (twice 16 x.one)))) 16 16 (onBytes F) := mapsAll_twice hg m8
  have w4 : MapsAll (x.w 4) 16 4 (onBytes F) := h4 1
  have w8 : MapsAll (x.w 8) 16 8 (onBytes F) := h4 2
  have w16 : MapsAll (x.w 16) 16 16 (onBytes F) := h4 4
  have v8 : MapsAll (twice 64 (x.w 4)) 16 8 (onBytes F) := mapsAll_twice hg w4
  have v16 : MapsAll (twice 128 (twice 64 (x.w 4))) 16 16 (onBytes F) := mapsAll_twice hg v8
  have u16 : MapsAll (twice 128 (x.w 8)) 16 16 (onBytes F) := mapsAll_twice hg w8
  refine ⟨h1, m2, ?_, ?_, ?_⟩
  · unfold Shx.transform512 wide512; split <;> assumption
  · unfold Shx.transform1024 wide1024; split <;> assumption
  · unfold Shx.transform2048 wide2048; split <;> assumption

theorem computes_enc {b : Build} {rk : List Word} {K : Nat → Quad Word} {m : Nat} (hm : 0 < m) (h : Sched rk K (8 * m + 1)) :
    Computes ⟨b, true, rk⟩ (onBytes (encrypt K (8 * m))) := by
  apply computes_of
  · exact block_maps (fun q => by rw [encRounds_eq hm h, encL_word])
  · exact blockW_maps (fun q => ⟨_, encRounds_eq hm h q, fun i => by rw [encL_lane, encL_word]⟩)

theorem computes_dec {b : Build} {rk : List Word} {K : Nat → Quad Word} {m : Nat} (hm : 0 < m) (h : Sched rk K (8 * m + 1)) :
    Computes ⟨b, false, rk⟩ (onBytes (decrypt K (8 * m))) := by
  apply computes_of
  · exact block_maps (fun q => by rw [decRounds_eq hm h, decL_word])
  · exact blockW_maps (fun q => ⟨_, decRounds_eq hm h q, fun i => by rw [decL_lane, decL_word]⟩)

/-! ## Without a KDF -/

/-- **C57** (the key sizes): a key of any other length than 16, 24 or 32 bytes is refused. -/
theorem C57_key_size (b : Build) (e : Bool) (key : List Byte) (h : ¬ (key.length = 16 ∨ key.length = 24 ∨ key.length = 32)) :
    Shx.init b e key = .error (.throws .invalidKey) := by
  rw [Shx.init, if_pos h]; rfl

theorem init_ok (b : Build) (e : Bool) {key : List Byte} (h : key.length = 16 ∨ key.length = 24 ∨ key.length = 32) :
    ∃ rk, Shx.init b e key = .ok ⟨b, e, rk⟩ ∧ Sched rk (roundKey key.reverse) (8 * 4 + 1) := by
  obtain ⟨rk, h1, h2⟩ := standardExpand_ok h
  refine ⟨rk, ?_, h2⟩
  rw [Shx.init, if_neg (not_not_intro h)]
  simp only []
  rw [h1]; rfl

/-- **C57** (encryption): in every build, for every legal key, every block function of SHX is Serpent's encryption – under the key with
its bytes reversed. `_partial`: under the key itself it is another function, `C57_not_serpent`. -/
theorem C57_encrypt_partial (b : Build) (key : List Byte) (h : key.length = 16 ∨ key.length = 24 ∨ key.length = 32) :
    ∃ x, Shx.init b true key = .ok x ∧ Computes x (serpent key.reverse) := by
  obtain ⟨rk, h1, h2⟩ := init_ok b true h
  exact ⟨_, h1, computes_enc (m := 4) (by decide) h2⟩

/-- **C57** (decryption): likewise for Serpent's decryption. -/
theorem C57_decrypt_partial (b : Build) (key : List Byte) (h : key.length = 16 ∨ key.length = 24 ∨ key.length = 32) :
    ∃ x, Shx.init b false key = .ok x ∧ Computes x (serpentInv key.reverse) := by
  obtain ⟨rk, h1, h2⟩ := init_ok b false h
  exact ⟨_, h1, computes_dec (m := 4) (by decide) h2⟩

theorem serpentInv_serpent (key : List Byte) {p : List Byte} (h : p.length = 16) : serpentInv key (serpent key p) = p :=
  onBytes_comp (decrypt_encrypt _ 32) h

/-- **C57** (round trip): what an encrypting object of one build writes, a decrypting object of any build with the same key takes back,
through functions of any width. -/
theorem C57_roundtrip (b b' : Build) (key : List Byte) (h : key.length = 16 ∨ key.length = 24 ∨ key.length = 32) :
    ∃ (x y : Shx) (g g' : List Byte → List Byte), Shx.init b true key = .ok x ∧ Shx.init b' false key = .ok y ∧
      Computes x g ∧ Computes y g' ∧ ∀ p : List Byte, p.length = 16 → (g p).length = 16 ∧ g' (g p) = p := by
  obtain ⟨x, h1, h2⟩ := C57_encrypt_partial b key h
  obtain ⟨y, h3, h4⟩ := C57_decrypt_partial b' key h
  exact ⟨x, y, _, _, h1, h3, h2, h4, fun p hp => ⟨onBytes_length _ _, serpentInv_serpent _ hp⟩⟩

/-- **C57, refuted**: SHX is not Serpent. Under the key `80 00 … 00` it encrypts the zero block, in every build, to something else than
Serpent does. Serpent gives `A223AA12 88463C0E 2BE38EBD 825616C0`, the first vector of NESSIE's set for 256-bit keys. -/
theorem C57_not_serpent (b : Build) :
    serpent Vectors.keyA (List.replicate 16 0) = [0xA2, 0x23, 0xAA, 0x12, 0x88, 0x46, 0x3C, 0x0E, 0x2B, 0xE3, 0x8E, 0xBD, 0x82, 0x56, 0x16, 0xC0] ∧
    ∃ x c, Shx.init b true Vectors.keyA = .ok x ∧ x.transform (List.replicate 16 0) 0 (List.replicate 16 0) 0 = .ok c ∧
      c = [0x19, 0x08, 0xEF, 0x82, 0x1A, 0xD2, 0xEB, 0xC0, 0xCB, 0x28, 0xBF, 0x66, 0xE7, 0x96, 0xED, 0xAB] ∧
      c ≠ serpent Vectors.keyA (List.replicate 16 0) := by
  refine ⟨Vectors.keyA_serpent, ?_⟩
  obtain ⟨x, h1, h2⟩ := C57_encrypt_partial b Vectors.keyA (by decide)
  have h3 := h2.1 (List.replicate 16 0) 0 (List.replicate 16 0) (Holds.self _) (by decide) [] (List.replicate 16 0) [] (by decide)
  rw [show Vectors.keyA.reverse = Vectors.keyB from by decide, Vectors.keyB_serpent] at h3
  refine ⟨x, _, h1, h3, rfl, ?_⟩
  rw [Vectors.keyA_serpent]
  decide

/-- Reversing the key before handing it over gives Serpent, as the library's own test does with NESSIE's keys (Test/SerpentTest.cpp:217-218). -/
theorem C57_reverse_first (b : Build) (key : List Byte) (h : key.length = 16 ∨ key.length = 24 ∨ key.length = 32) :
    ∃ x, Shx.init b true key.reverse = .ok x ∧ Computes x (serpent key) := by
  have := C57_encrypt_partial b key.reverse (by rwa [List.length_reverse])
  rwa [List.reverse_reverse] at this

/-- Non-trivial case: NESSIE's vector, from an AVX2 object with the key reversed. -/
example : ∃ x, Shx.init .avx2 true Vectors.keyB = .ok x ∧ x.transform (List.replicate 16 0) 0 (List.replicate 16 0) 0 =
    .ok [0xA2, 0x23, 0xAA, 0x12, 0x88, 0x46, 0x3C, 0x0E, 0x2B, 0xE3, 0x8E, 0xBD, 0x82, 0x56, 0x16, 0xC0] := by
  obtain ⟨x, h1, h2⟩ := C57_reverse_first .avx2 Vectors.keyA (by decide)
  have h3 := h2.1 (List.replicate 16 0) 0 (List.replicate 16 0) (Holds.self _) (by decide) [] (List.replicate 16 0) [] (by decide)
  rw [show Vectors.keyA.reverse = Vectors.keyB from by decide] at h1
  rw [Vectors.keyA_serpent] at h3
  exact ⟨x, h1, h3⟩

/-- The cipher as the modes see it. -/
def shxCipher (key : List Byte) : Modes.Cipher := ⟨serpent key.reverse, serpentInv key.reverse⟩

/-- **C57**: it meets what the theorems about the modes ask of a cipher, for every key. -/
theorem C57_good (key : List Byte) : (shxCipher key).Good where
  enc_len := fun _ _ => onBytes_length _ _
  dec_len := fun _ _ => onBytes_length _ _
  inv := fun _ h => serpentInv_serpent _ h

/-! ## With a KDF -/

/-- The rounds of the extended cipher, eight at a time. -/
theorem secureRounds_eq {key : List Byte} (h : key.length = 32 ∨ key.length = 64 ∨ key.length = 128) :
    ∃ m, 0 < m ∧ secureRounds key.length = 8 * m := by
  rcases h with h | h | h <;> rw [h]
  · exact ⟨5, by decide, by decide⟩
  · exact ⟨6, by decide, by decide⟩
  · exact ⟨8, by decide, by decide⟩

/-- **C57** (the extended cipher): with a KDF, SHX is Serpent's round function iterated 40, 48 or 64 times, with the generated bytes as
round keys, in every build and every width; and decryption undoes it. Keys of other sizes are refused. -/
theorem C57_extended (gen : List Byte → Nat → List Byte) (hgen : ∀ k n, (gen k n).length = n) (b : Build) (key : List Byte) :
    (¬ (key.length = 32 ∨ key.length = 64 ∨ key.length = 128) → ∀ e, Shx.secureInit gen b e key = .error (.throws .invalidKey)) ∧
    ∀ r, (key.length = 32 ∧ r = 40 ∨ key.length = 64 ∧ r = 48 ∨ key.length = 128 ∧ r = 64) →
      ∃ x y, Shx.secureInit gen b true key = .ok x ∧ Shx.secureInit gen b false key = .ok y ∧
        Computes x (onBytes (encrypt (quads (gen key (16 * (r + 1)))) r)) ∧ Computes y (onBytes (decrypt (quads (gen key (16 * (r + 1)))) r)) ∧
        ∀ p : List Byte, p.length = 16 → onBytes (decrypt (quads (gen key (16 * (r + 1)))) r) (onBytes (encrypt (quads (gen key (16 * (r + 1)))) r) p) = p := by
  refine ⟨fun h e => by rw [Shx.secureInit, if_pos h]; rfl, fun r hr => ?_⟩
  have hk : key.length = 32 ∨ key.length = 64 ∨ key.length = 128 := by omega
  obtain ⟨m, hm, he⟩ := secureRounds_eq hk
  have hr' : r = 8 * m := by
    rw [← he]
    rcases hr with ⟨h, rfl⟩ | ⟨h, rfl⟩ | ⟨h, rfl⟩ <;> rw [h] <;> rfl
  subst hr'
  have hs := leWords_sched (gen key (16 * (8 * m + 1))) (8 * m + 1) (hgen _ _)
  have e2 : ∀ e, Shx.secureInit gen b e key = .ok ⟨b, e, leWords (gen key (16 * (8 * m + 1)))⟩ := by
    intro e
    rw [Shx.secureInit, if_neg (not_not_intro hk)]
    simp only []
    rw [he, show 4 * (8 * m + 1) * 4 = 16 * (8 * m + 1) from by omega]
    rfl
  exact ⟨_, _, e2 true, e2 false, computes_enc hm hs, computes_dec hm hs, fun p hp => onBytes_comp (decrypt_encrypt _ _) hp⟩

/-- Non-trivial case: a generator of the asked length and a 64-byte key. -/
example : ∃ x, Shx.secureInit (fun k n => (List.range n).map (fun i => BitVec.ofNat 8 (i + k.length))) .avx512 true (List.replicate 64 7) = .ok x :=
  let ⟨x, _, h, _⟩ := (C57_extended _ (fun k n => by simp) .avx512 (List.replicate 64 7)).2 48 (by decide)
  ⟨x, h⟩

end Cex.Serpent
