import Verif.Serpent.Spec

/-!
# Two Serpent encryptions, step by step

Generated by script. The zero block under the key `80 00 … 00` (the first vector of NESSIE's set for 256-bit keys) and under the same key
with its bytes reversed. The kernel computes every step of the specification.
-/

namespace Cex.Spec.Serpent.Vectors
open Cex.Spec.Serpent

theorem w_next {k : Nat → Word} {i : Nat} {a b c d e : Word} (h0 : prekey k i = a) (h3 : prekey k (i + 3) = b) (h5 : prekey k (i + 5) = c) (h7 : prekey k (i + 7) = d)
    (he : (a ^^^ b ^^^ c ^^^ d ^^^ phi ^^^ BitVec.ofNat 32 i).rotateLeft 11 = e) : prekey k (i + 8) = e := by
  rw [prekey, if_neg (by omega), show i + 8 - 8 = i from by omega, show i + 8 - 5 = i + 3 from by omega, show i + 8 - 3 = i + 5 from by omega,
    show i + 8 - 1 = i + 7 from by omega, h0, h3, h5, h7, he]

theorem w_key {k : Nat → Word} {i : Nat} (h : i < 8) {v : Word} (hv : k i = v) : prekey k i = v := by rw [prekey, if_pos h, hv]

theorem k_of {key : List Byte} {i j : Nat} {a b c d : Word} {e : Quad Word} (hj : j = 8 + 4 * i) (ha : prekey (leWord (pad key)) j = a) (hb : prekey (leWord (pad key)) (j + 1) = b)
    (hc : prekey (leWord (pad key)) (j + 2) = c) (hd : prekey (leWord (pad key)) (j + 3) = d) (he : onColumns (sbox (3 - Fin.ofNat 8 i)) ⟨a, b, c, d⟩ = e) :
    roundKey key i = e := by
  subst hj
  rw [roundKey]
  simp only [Nat.add_zero]
  rw [ha, hb, hc, hd, he]

theorem r_next {K : Nat → Quad Word} {n : Nat} {x y k z : Quad Word} (h : rounds K n x = y) (hk : K n = k)
    (hz : linear (onColumns (sbox (Fin.ofNat 8 n)) (xor y k)) = z) : rounds K (n + 1) x = z := by
  rw [rounds, h, round, half, hk, hz]

theorem e_last {K : Nat → Quad Word} {n : Nat} {x y k k' z : Quad Word} (h : rounds K n x = y) (hk : K n = k) (hk' : K (n + 1) = k')
    (hz : xor (onColumns (sbox (Fin.ofNat 8 n)) (xor y k)) k' = z) : encrypt K (n + 1) x = z := by
  rw [encrypt, Nat.add_sub_cancel, h, half, hk, hk', hz]

/-- The key `80 00 … 00`. -/
def keyA : List Byte := [0x80, 0x00, 0x00, 0x00, 0x00, 0x00, 0x00, 0x00, 0x00, 0x00, 0x00, 0x00, 0x00, 0x00, 0x00, 0x00, 0x00, 0x00, 0x00, 0x00, 0x00, 0x00, 0x00, 0x00, 0x00, 0x00, 0x00, 0x00, 0x00, 0x00, 0x00, 0x00]

abbrev keyAW : Nat → Word := prekey (leWord (pad keyA))

theorem keyA_w0 : keyAW 0 = 0x00000080 := w_key (by decide) (by decide +kernel)
theorem keyA_w1 : keyAW 1 = 0x00000000 := w_key (by decide) (by decide +kernel)
theorem keyA_w2 : keyAW 2 = 0x00000000 := w_key (by decide) (by decide +kernel)
theorem keyA_w3 : keyAW 3 = 0x00000000 := w_key (by decide) (by decide +kernel)
theorem keyA_w4 : keyAW 4 = 0x00000000 := w_key (by decide) (by decide +kernel)
theorem keyA_w5 : keyAW 5 = 0x00000000 := w_key (by decide) (by decide +kernel)
theorem keyA_w6 : keyAW 6 = 0x00000000 := w_key (by decide) (by decide +kernel)
theorem keyA_w7 : keyAW 7 = 0x00000000 := w_key (by decide) (by decide +kernel)
theorem keyA_w8 : keyAW 8 = 0xBBC9CCF1 := w_next keyA_w0 keyA_w3 keyA_w5 keyA_w7 (by decide)
theorem keyA_w9 : keyAW 9 = 0xF5AA492F := w_next keyA_w1 keyA_w4 keyA_w6 keyA_w8 (by decide)
theorem keyA_w10 : keyAW 10 = 0xE984A35C := w_next keyA_w2 keyA_w5 keyA_w7 keyA_w9 (by decide)
theorem keyA_w11 : keyAW 11 = 0xD0B0BE63 := w_next keyA_w3 keyA_w6 keyA_w8 keyA_w10 (by decide)
theorem keyA_w12 : keyAW 12 = 0x6C778DD9 := w_next keyA_w4 keyA_w7 keyA_w9 keyA_w11 (by decide)
theorem keyA_w13 : keyAW 13 = 0x6CDE4500 := w_next keyA_w5 keyA_w8 keyA_w10 keyA_w12 (by decide)
theorem keyA_w14 : keyAW 14 = 0x9E5F9EBF := w_next keyA_w6 keyA_w9 keyA_w11 keyA_w13 (by decide)
theorem keyA_w15 : keyAW 15 = 0xDE4C242C := w_next keyA_w7 keyA_w10 keyA_w12 keyA_w14 (by decide)
theorem keyA_w16 : keyAW 16 = 0xE3507A3E := w_next keyA_w8 keyA_w11 keyA_w13 keyA_w15 (by decide)
theorem keyA_w17 : keyAW 17 = 0x2ACE3BD7 := w_next keyA_w9 keyA_w12 keyA_w14 keyA_w16 (by decide)
theorem keyA_w18 : keyAW 18 = 0x7C00A77F := w_next keyA_w10 keyA_w13 keyA_w15 keyA_w17 (by decide)
theorem keyA_w19 : keyAW 19 = 0x44217A7C := w_next keyA_w11 keyA_w14 keyA_w16 keyA_w18 (by decide)
theorem keyA_w20 : keyAW 20 = 0x1C8F5A17 := w_next keyA_w12 keyA_w15 keyA_w17 keyA_w19 (by decide)
theorem keyA_w21 : keyAW 21 = 0xB5DF1389 := w_next keyA_w13 keyA_w16 keyA_w18 keyA_w20 (by decide)
theorem keyA_w22 : keyAW 22 = 0xC5A956DA := w_next keyA_w14 keyA_w17 keyA_w19 keyA_w21 (by decide)
theorem keyA_w23 : keyAW 23 = 0xEFB1472A := w_next keyA_w15 keyA_w18 keyA_w20 keyA_w22 (by decide)
theorem keyA_w24 : keyAW 24 = 0x416A4319 := w_next keyA_w16 keyA_w19 keyA_w21 keyA_w23 (by decide)
theorem keyA_w25 : keyAW 25 = 0xA86D5965 := w_next keyA_w17 keyA_w20 keyA_w22 keyA_w24 (by decide)
theorem keyA_w26 : keyAW 26 = 0xA6989081 := w_next keyA_w18 keyA_w21 keyA_w23 keyA_w25 (by decide)
theorem keyA_w27 : keyAW 27 = 0x6C34A7C2 := w_next keyA_w19 keyA_w22 keyA_w24 keyA_w26 (by decide)
theorem keyA_w28 : keyAW 28 = 0x84D1BD4A := w_next keyA_w20 keyA_w23 keyA_w25 keyA_w27 (by decide)
theorem keyA_w29 : keyAW 29 = 0x5827BA46 := w_next keyA_w21 keyA_w24 keyA_w26 keyA_w28 (by decide)
theorem keyA_w30 : keyAW 30 = 0x035CA63F := w_next keyA_w22 keyA_w25 keyA_w27 keyA_w29 (by decide)
theorem keyA_w31 : keyAW 31 = 0x9DAB8284 := w_next keyA_w23 keyA_w26 keyA_w28 keyA_w30 (by decide)
theorem keyA_w32 : keyAW 32 = 0x2D2DC3B7 := w_next keyA_w24 keyA_w27 keyA_w29 keyA_w31 (by decide)
theorem keyA_w33 : keyAW 33 = 0xD7C03CE7 := w_next keyA_w25 keyA_w28 keyA_w30 keyA_w32 (by decide)
theorem keyA_w34 : keyAW 34 = 0x1F683957 := w_next keyA_w26 keyA_w29 keyA_w31 keyA_w33 (by decide)
theorem keyA_w35 : keyAW 35 = 0xD415FE18 := w_next keyA_w27 keyA_w30 keyA_w32 keyA_w34 (by decide)
theorem keyA_w36 : keyAW 36 = 0xC424A424 := w_next keyA_w28 keyA_w31 keyA_w33 keyA_w35 (by decide)
theorem keyA_w37 : keyAW 37 = 0x8CE93183 := w_next keyA_w29 keyA_w32 keyA_w34 keyA_w36 (by decide)
theorem keyA_w38 : keyAW 38 = 0xB9672092 := w_next keyA_w30 keyA_w33 keyA_w35 keyA_w37 (by decide)
theorem keyA_w39 : keyAW 39 = 0xBA361B0D := w_next keyA_w31 keyA_w34 keyA_w36 keyA_w38 (by decide)
theorem keyA_w40 : keyAW 40 = 0x8375C28E := w_next keyA_w32 keyA_w35 keyA_w37 keyA_w39 (by decide)
theorem keyA_w41 : keyAW 41 = 0x081A3DBE := w_next keyA_w33 keyA_w36 keyA_w38 keyA_w40 (by decide)
theorem keyA_w42 : keyAW 42 = 0xD2BFE5FC := w_next keyA_w34 keyA_w37 keyA_w39 keyA_w41 (by decide)
theorem keyA_w43 : keyAW 43 = 0x7C031514 := w_next keyA_w35 keyA_w38 keyA_w40 keyA_w42 (by decide)
theorem keyA_w44 : keyAW 44 = 0xE770F4A1 := w_next keyA_w36 keyA_w39 keyA_w41 keyA_w43 (by decide)
theorem keyA_w45 : keyAW 45 = 0x24DE6523 := w_next keyA_w37 keyA_w40 keyA_w42 keyA_w44 (by decide)
theorem keyA_w46 : keyAW 46 = 0xB8A423BC := w_next keyA_w38 keyA_w41 keyA_w43 keyA_w45 (by decide)
theorem keyA_w47 : keyAW 47 = 0x5283954B := w_next keyA_w39 keyA_w42 keyA_w44 keyA_w46 (by decide)
theorem keyA_w48 : keyAW 48 = 0xE2F318B8 := w_next keyA_w40 keyA_w43 keyA_w45 keyA_w47 (by decide)
theorem keyA_w49 : keyAW 49 = 0x545C5958 := w_next keyA_w41 keyA_w44 keyA_w46 keyA_w48 (by decide)
theorem keyA_w50 : keyAW 50 = 0x49AAFB74 := w_next keyA_w42 keyA_w45 keyA_w47 keyA_w49 (by decide)
theorem keyA_w51 : keyAW 51 = 0x4D67B78E := w_next keyA_w43 keyA_w46 keyA_w48 keyA_w50 (by decide)
theorem keyA_w52 : keyAW 52 = 0xFFB54997 := w_next keyA_w44 keyA_w47 keyA_w49 keyA_w51 (by decide)
theorem keyA_w53 : keyAW 53 = 0x2DB76770 := w_next keyA_w45 keyA_w48 keyA_w50 keyA_w52 (by decide)
theorem keyA_w54 : keyAW 54 = 0xFE9C6890 := w_next keyA_w46 keyA_w49 keyA_w51 keyA_w53 (by decide)
theorem keyA_w55 : keyAW 55 = 0xB9B57421 := w_next keyA_w47 keyA_w50 keyA_w52 keyA_w54 (by decide)
theorem keyA_w56 : keyAW 56 = 0x0E2F752D := w_next keyA_w48 keyA_w51 keyA_w53 keyA_w55 (by decide)
theorem keyA_w57 : keyAW 57 = 0x6BA7D62B := w_next keyA_w49 keyA_w52 keyA_w54 keyA_w56 (by decide)
theorem keyA_w58 : keyAW 58 = 0xC23C2941 := w_next keyA_w50 keyA_w53 keyA_w55 keyA_w57 (by decide)
theorem keyA_w59 : keyAW 59 = 0xFFD7C70E := w_next keyA_w51 keyA_w54 keyA_w56 keyA_w58 (by decide)
theorem keyA_w60 : keyAW 60 = 0x3AA8F262 := w_next keyA_w52 keyA_w55 keyA_w57 keyA_w59 (by decide)
theorem keyA_w61 : keyAW 61 = 0xDD879229 := w_next keyA_w53 keyA_w56 keyA_w58 keyA_w60 (by decide)
theorem keyA_w62 : keyAW 62 = 0xE490994A := w_next keyA_w54 keyA_w57 keyA_w59 keyA_w61 (by decide)
theorem keyA_w63 : keyAW 63 = 0x327E31DC := w_next keyA_w55 keyA_w58 keyA_w60 keyA_w62 (by decide)
theorem keyA_w64 : keyAW 64 = 0xB342BC01 := w_next keyA_w56 keyA_w59 keyA_w61 keyA_w63 (by decide)
theorem keyA_w65 : keyAW 65 = 0x53C414C7 := w_next keyA_w57 keyA_w60 keyA_w62 keyA_w64 (by decide)
theorem keyA_w66 : keyAW 66 = 0xB73F8701 := w_next keyA_w58 keyA_w61 keyA_w63 keyA_w65 (by decide)
theorem keyA_w67 : keyAW 67 = 0x68E63408 := w_next keyA_w59 keyA_w62 keyA_w64 keyA_w66 (by decide)
theorem keyA_w68 : keyAW 68 = 0x1CD7A56E := w_next keyA_w60 keyA_w63 keyA_w65 keyA_w67 (by decide)
theorem keyA_w69 : keyAW 69 = 0xD3AE1AD8 := w_next keyA_w61 keyA_w64 keyA_w66 keyA_w68 (by decide)
theorem keyA_w70 : keyAW 70 = 0x5ED6D491 := w_next keyA_w62 keyA_w65 keyA_w67 keyA_w69 (by decide)
theorem keyA_w71 : keyAW 71 = 0xBDF522CB := w_next keyA_w63 keyA_w66 keyA_w68 keyA_w70 (by decide)
theorem keyA_w72 : keyAW 72 = 0x464F195E := w_next keyA_w64 keyA_w67 keyA_w69 keyA_w71 (by decide)
theorem keyA_w73 : keyAW 73 = 0xE82CF64D := w_next keyA_w65 keyA_w68 keyA_w70 keyA_w72 (by decide)
theorem keyA_w74 : keyAW 74 = 0xF985257B := w_next keyA_w66 keyA_w69 keyA_w71 keyA_w73 (by decide)
theorem keyA_w75 : keyAW 75 = 0x6D2A30BE := w_next keyA_w67 keyA_w70 keyA_w72 keyA_w74 (by decide)
theorem keyA_w76 : keyAW 76 = 0x99C55DD0 := w_next keyA_w68 keyA_w71 keyA_w73 keyA_w75 (by decide)
theorem keyA_w77 : keyAW 77 = 0xB0168B5C := w_next keyA_w69 keyA_w72 keyA_w74 keyA_w76 (by decide)
theorem keyA_w78 : keyAW 78 = 0x8F060FAF := w_next keyA_w70 keyA_w73 keyA_w75 keyA_w77 (by decide)
theorem keyA_w79 : keyAW 79 = 0x21618E64 := w_next keyA_w71 keyA_w74 keyA_w76 keyA_w78 (by decide)
theorem keyA_w80 : keyAW 80 = 0x2AA94921 := w_next keyA_w72 keyA_w75 keyA_w77 keyA_w79 (by decide)
theorem keyA_w81 : keyAW 81 = 0x8CA71A53 := w_next keyA_w73 keyA_w76 keyA_w78 keyA_w80 (by decide)
theorem keyA_w82 : keyAW 82 = 0x121F1BD3 := w_next keyA_w74 keyA_w77 keyA_w79 keyA_w81 (by decide)
theorem keyA_w83 : keyAW 83 = 0x68A08A25 := w_next keyA_w75 keyA_w78 keyA_w80 keyA_w82 (by decide)
theorem keyA_w84 : keyAW 84 = 0xA1D1BE14 := w_next keyA_w76 keyA_w79 keyA_w81 keyA_w83 (by decide)
theorem keyA_w85 : keyAW 85 = 0x30F275BA := w_next keyA_w77 keyA_w80 keyA_w82 keyA_w84 (by decide)
theorem keyA_w86 : keyAW 86 = 0x249CA62E := w_next keyA_w78 keyA_w81 keyA_w83 keyA_w85 (by decide)
theorem keyA_w87 : keyAW 87 = 0x27A3D940 := w_next keyA_w79 keyA_w82 keyA_w84 keyA_w86 (by decide)
theorem keyA_w88 : keyAW 88 = 0x78B0BE5B := w_next keyA_w80 keyA_w83 keyA_w85 keyA_w87 (by decide)
theorem keyA_w89 : keyAW 89 = 0x6E2ED77B := w_next keyA_w81 keyA_w84 keyA_w86 keyA_w88 (by decide)
theorem keyA_w90 : keyAW 90 = 0xB8CDCFAA := w_next keyA_w82 keyA_w85 keyA_w87 keyA_w89 (by decide)
theorem keyA_w91 : keyAW 91 = 0xB1208093 := w_next keyA_w83 keyA_w86 keyA_w88 keyA_w90 (by decide)
theorem keyA_w92 : keyAW 92 = 0x5A4A8E3A := w_next keyA_w84 keyA_w87 keyA_w89 keyA_w91 (by decide)
theorem keyA_w93 : keyAW 93 = 0x979CE9A7 := w_next keyA_w85 keyA_w88 keyA_w90 keyA_w92 (by decide)
theorem keyA_w94 : keyAW 94 = 0xCB0C7791 := w_next keyA_w86 keyA_w89 keyA_w91 keyA_w93 (by decide)
theorem keyA_w95 : keyAW 95 = 0xFCB57C80 := w_next keyA_w87 keyA_w90 keyA_w92 keyA_w94 (by decide)
theorem keyA_w96 : keyAW 96 = 0x769071E4 := w_next keyA_w88 keyA_w91 keyA_w93 keyA_w95 (by decide)
theorem keyA_w97 : keyAW 97 = 0x7936A0BE := w_next keyA_w89 keyA_w92 keyA_w94 keyA_w96 (by decide)
theorem keyA_w98 : keyAW 98 = 0x2C1E81A7 := w_next keyA_w90 keyA_w93 keyA_w95 keyA_w97 (by decide)
theorem keyA_w99 : keyAW 99 = 0xABF51DF4 := w_next keyA_w91 keyA_w94 keyA_w96 keyA_w98 (by decide)
theorem keyA_w100 : keyAW 100 = 0x59B0AF50 := w_next keyA_w92 keyA_w95 keyA_w97 keyA_w99 (by decide)
theorem keyA_w101 : keyAW 101 = 0xAE7A8054 := w_next keyA_w93 keyA_w96 keyA_w98 keyA_w100 (by decide)
theorem keyA_w102 : keyAW 102 = 0x119B414C := w_next keyA_w94 keyA_w97 keyA_w99 keyA_w101 (by decide)
theorem keyA_w103 : keyAW 103 = 0xBB56E835 := w_next keyA_w95 keyA_w98 keyA_w100 keyA_w102 (by decide)
theorem keyA_w104 : keyAW 104 = 0xF3ED42B3 := w_next keyA_w96 keyA_w99 keyA_w101 keyA_w103 (by decide)
theorem keyA_w105 : keyAW 105 = 0x3BAE4AE6 := w_next keyA_w97 keyA_w100 keyA_w102 keyA_w104 (by decide)
theorem keyA_w106 : keyAW 106 = 0x5ED7DCE5 := w_next keyA_w98 keyA_w101 keyA_w103 keyA_w105 (by decide)
theorem keyA_w107 : keyAW 107 = 0x1DD9A44B := w_next keyA_w99 keyA_w102 keyA_w104 keyA_w106 (by decide)
theorem keyA_w108 : keyAW 108 = 0x3680AAD5 := w_next keyA_w100 keyA_w103 keyA_w105 keyA_w107 (by decide)
theorem keyA_w109 : keyAW 109 = 0xBE685D5F := w_next keyA_w101 keyA_w104 keyA_w106 keyA_w108 (by decide)
theorem keyA_w110 : keyAW 110 = 0x9C5B08BD := w_next keyA_w102 keyA_w105 keyA_w107 keyA_w109 (by decide)
theorem keyA_w111 : keyAW 111 = 0x6F7B368B := w_next keyA_w103 keyA_w106 keyA_w108 keyA_w110 (by decide)
theorem keyA_w112 : keyAW 112 = 0x87A7ED08 := w_next keyA_w104 keyA_w107 keyA_w109 keyA_w111 (by decide)
theorem keyA_w113 : keyAW 113 = 0x2BE2B447 := w_next keyA_w105 keyA_w108 keyA_w110 keyA_w112 (by decide)
theorem keyA_w114 : keyAW 114 = 0x8BD529D0 := w_next keyA_w106 keyA_w109 keyA_w111 keyA_w113 (by decide)
theorem keyA_w115 : keyAW 115 = 0x388FE09E := w_next keyA_w107 keyA_w110 keyA_w112 keyA_w114 (by decide)
theorem keyA_w116 : keyAW 116 = 0x0D8A96A5 := w_next keyA_w108 keyA_w111 keyA_w113 keyA_w115 (by decide)
theorem keyA_w117 : keyAW 117 = 0x3BB7B10D := w_next keyA_w109 keyA_w112 keyA_w114 keyA_w116 (by decide)
theorem keyA_w118 : keyAW 118 = 0xB4A5F155 := w_next keyA_w110 keyA_w113 keyA_w115 keyA_w117 (by decide)
theorem keyA_w119 : keyAW 119 = 0xB00BEE1D := w_next keyA_w111 keyA_w114 keyA_w116 keyA_w118 (by decide)
theorem keyA_w120 : keyAW 120 = 0x195A7D55 := w_next keyA_w112 keyA_w115 keyA_w117 keyA_w119 (by decide)
theorem keyA_w121 : keyAW 121 = 0x06B950AD := w_next keyA_w113 keyA_w116 keyA_w118 keyA_w120 (by decide)
theorem keyA_w122 : keyAW 122 = 0x3AFD34C7 := w_next keyA_w114 keyA_w117 keyA_w119 keyA_w121 (by decide)
theorem keyA_w123 : keyAW 123 = 0xD10C998D := w_next keyA_w115 keyA_w118 keyA_w120 keyA_w122 (by decide)
theorem keyA_w124 : keyAW 124 = 0x1E42AFA0 := w_next keyA_w116 keyA_w119 keyA_w121 keyA_w123 (by decide)
theorem keyA_w125 : keyAW 125 = 0x29779CC3 := w_next keyA_w117 keyA_w120 keyA_w122 keyA_w124 (by decide)
theorem keyA_w126 : keyAW 126 = 0x86EBCEA2 := w_next keyA_w118 keyA_w121 keyA_w123 keyA_w125 (by decide)
theorem keyA_w127 : keyAW 127 = 0x4610B463 := w_next keyA_w119 keyA_w122 keyA_w124 keyA_w126 (by decide)
theorem keyA_w128 : keyAW 128 = 0x35ADC9C8 := w_next keyA_w120 keyA_w123 keyA_w125 keyA_w127 (by decide)
theorem keyA_w129 : keyAW 129 = 0x540D39AC := w_next keyA_w121 keyA_w124 keyA_w126 keyA_w128 (by decide)
theorem keyA_w130 : keyAW 130 = 0x02E044FD := w_next keyA_w122 keyA_w125 keyA_w127 keyA_w129 (by decide)
theorem keyA_w131 : keyAW 131 = 0xED1EC7F4 := w_next keyA_w123 keyA_w126 keyA_w128 keyA_w130 (by decide)
theorem keyA_w132 : keyAW 132 = 0xB4E2F3FB := w_next keyA_w124 keyA_w127 keyA_w129 keyA_w131 (by decide)
theorem keyA_w133 : keyAW 133 = 0x7CDE49A7 := w_next keyA_w125 keyA_w128 keyA_w130 keyA_w132 (by decide)
theorem keyA_w134 : keyAW 134 = 0x8804D6E8 := w_next keyA_w126 keyA_w129 keyA_w131 keyA_w133 (by decide)
theorem keyA_w135 : keyAW 135 = 0x0D625F31 := w_next keyA_w127 keyA_w130 keyA_w132 keyA_w134 (by decide)
theorem keyA_w136 : keyAW 136 = 0xC30C99B9 := w_next keyA_w128 keyA_w131 keyA_w133 keyA_w135 (by decide)
theorem keyA_w137 : keyAW 137 = 0x87E1F1AE := w_next keyA_w129 keyA_w132 keyA_w134 keyA_w136 (by decide)
theorem keyA_w138 : keyAW 138 = 0x56D7F354 := w_next keyA_w130 keyA_w133 keyA_w135 keyA_w137 (by decide)
theorem keyA_w139 : keyAW 139 = 0xB0165B77 := w_next keyA_w131 keyA_w134 keyA_w136 keyA_w138 (by decide)
theorem keyA_k0 : roundKey keyA 0 = (⟨0x6F5394D0, 0xA7E3A3CE, 0xD2D599ED, 0x8EDF7290⟩ : Quad Word) := k_of (j := 8) (by decide) keyA_w8 keyA_w9 keyA_w10 keyA_w11 (by decide +kernel)
theorem keyA_k1 : roundKey keyA 1 = (⟨0x209A730A, 0x0CF6564A, 0x40BBE8D1, 0x2113A999⟩ : Quad Word) := k_of (j := 12) (by decide) keyA_w12 keyA_w13 keyA_w14 keyA_w15 (by decide +kernel)
theorem keyA_k2 : roundKey keyA 2 = (⟨0x5A61C569, 0x26CE40C2, 0xCF50233D, 0xF110DC2A⟩ : Quad Word) := k_of (j := 16) (by decide) keyA_w16 keyA_w17 keyA_w18 keyA_w19 (by decide +kernel)
theorem keyA_k3 : roundKey keyA 3 = (⟨0xD96EB489, 0x4268B470, 0x6EF107B0, 0x8FC91A6C⟩ : Quad Word) := k_of (j := 20) (by decide) keyA_w20 keyA_w21 keyA_w22 keyA_w23 (by decide +kernel)
theorem keyA_k4 : roundKey keyA 4 = (⟨0x351BACBF, 0x82A93D27, 0x6B872E7E, 0x0FBF89FD⟩ : Quad Word) := k_of (j := 24) (by decide) keyA_w24 keyA_w25 keyA_w26 keyA_w27 (by decide +kernel)
theorem keyA_k5 : roundKey keyA 5 = (⟨0xBDAB7842, 0x20056386, 0x615D5CC8, 0xC78922B7⟩ : Quad Word) := k_of (j := 28) (by decide) keyA_w28 keyA_w29 keyA_w30 keyA_w31 (by decide +kernel)
theorem keyA_k6 : roundKey keyA 6 = (⟨0x3647FAE0, 0xD8AFFFB0, 0xF1023C17, 0xCB6A05E7⟩ : Quad Word) := k_of (j := 32) (by decide) keyA_w32 keyA_w33 keyA_w34 keyA_w35 (by decide +kernel)
theorem keyA_k7 : roundKey keyA 7 = (⟨0xFC63C4E6, 0x4E55AEAA, 0xC924B535, 0xF1EF84B2⟩ : Quad Word) := k_of (j := 36) (by decide) keyA_w36 keyA_w37 keyA_w38 keyA_w39 (by decide +kernel)
theorem keyA_k8 : roundKey keyA 8 = (⟨0xA777CF98, 0x59593AAC, 0x25CB2774, 0xF7E4CA46⟩ : Quad Word) := k_of (j := 40) (by decide) keyA_w40 keyA_w41 keyA_w42 keyA_w43 (by decide +kernel)
theorem keyA_k9 : roundKey keyA 9 = (⟨0x6ED9F374, 0x290E2236, 0xA1AB25E3, 0xA47768E2⟩ : Quad Word) := k_of (j := 44) (by decide) keyA_w44 keyA_w45 keyA_w46 keyA_w47 (by decide +kernel)
theorem keyA_k10 : roundKey keyA 10 = (⟨0x003B45C3, 0x1D15AB95, 0xEF3EF245, 0xA6670899⟩ : Quad Word) := k_of (j := 48) (by decide) keyA_w48 keyA_w49 keyA_w50 keyA_w51 (by decide +kernel)
theorem keyA_k11 : roundKey keyA 11 = (⟨0x0442A359, 0x476B9AD8, 0x6A965EE1, 0x2C9E7257⟩ : Quad Word) := k_of (j := 52) (by decide) keyA_w52 keyA_w53 keyA_w54 keyA_w55 (by decide +kernel)
theorem keyA_k12 : roundKey keyA 12 = (⟨0xD0700191, 0x1A674D49, 0x77C48A46, 0xA9BBEE4B⟩ : Quad Word) := k_of (j := 56) (by decide) keyA_w56 keyA_w57 keyA_w58 keyA_w59 (by decide +kernel)
theorem keyA_k13 : roundKey keyA 13 = (⟨0x3ABEA760, 0xF4C0C4DC, 0xDD5107B7, 0x13F9A99D⟩ : Quad Word) := k_of (j := 60) (by decide) keyA_w60 keyA_w61 keyA_w62 keyA_w63 (by decide +kernel)
theorem keyA_k14 : roundKey keyA 14 = (⟨0x00246C30, 0xE086E0F6, 0x77BF4B31, 0xD3E0D031⟩ : Quad Word) := k_of (j := 64) (by decide) keyA_w64 keyA_w65 keyA_w66 keyA_w67 (by decide +kernel)
theorem keyA_k15 : roundKey keyA 15 = (⟨0x528531B7, 0x6E5211FC, 0x9DF763A6, 0x5EDC597D⟩ : Quad Word) := k_of (j := 68) (by decide) keyA_w68 keyA_w69 keyA_w70 keyA_w71 (by decide +kernel)
theorem keyA_k16 : roundKey keyA 16 = (⟨0x2E47EBD2, 0xC364CE7B, 0xFAC83C9F, 0x53C1CBA8⟩ : Quad Word) := k_of (j := 72) (by decide) keyA_w72 keyA_w73 keyA_w74 keyA_w75 (by decide +kernel)
theorem keyA_k17 : roundKey keyA 17 = (⟨0x97750717, 0xA796DD0B, 0xA8B4D3C4, 0xF92EA598⟩ : Quad Word) := k_of (j := 76) (by decide) keyA_w76 keyA_w77 keyA_w78 keyA_w79 (by decide +kernel)
theorem keyA_k18 : roundKey keyA 18 = (⟨0x7156B6FE, 0xA5412628, 0x01467C5B, 0x39F164A8⟩ : Quad Word) := k_of (j := 80) (by decide) keyA_w80 keyA_w81 keyA_w82 keyA_w83 (by decide +kernel)
theorem keyA_k19 : roundKey keyA 19 = (⟨0x5D512CBB, 0x5E1C36C5, 0x37A34BEE, 0xB39D2CC0⟩ : Quad Word) := k_of (j := 84) (by decide) keyA_w84 keyA_w85 keyA_w86 keyA_w87 (by decide +kernel)
theorem keyA_k20 : roundKey keyA 20 = (⟨0x9F12268C, 0x3F6FC73B, 0x2753A002, 0x8EF32E99⟩ : Quad Word) := k_of (j := 88) (by decide) keyA_w88 keyA_w89 keyA_w90 keyA_w91 (by decide +kernel)
theorem keyA_k21 : roundKey keyA 21 = (⟨0x5E989C62, 0xFB6F6DC9, 0x31219B77, 0xB22D7884⟩ : Quad Word) := k_of (j := 92) (by decide) keyA_w92 keyA_w93 keyA_w94 keyA_w95 (by decide +kernel)
theorem keyA_k22 : roundKey keyA 22 = (⟨0x7A96F2E6, 0x5FA43358, 0x092C4311, 0x5522A212⟩ : Quad Word) := k_of (j := 96) (by decide) keyA_w96 keyA_w97 keyA_w98 keyA_w99 (by decide +kernel)
theorem keyA_k23 : roundKey keyA 23 = (⟨0x403A7E86, 0x592E8675, 0xF3532E4C, 0x5D19C618⟩ : Quad Word) := k_of (j := 100) (by decide) keyA_w100 keyA_w101 keyA_w102 keyA_w103 (by decide +kernel)
theorem keyA_k24 : roundKey keyA 24 = (⟨0xCA4560F9, 0x96D7CCB5, 0x99CB385F, 0xF4B0B618⟩ : Quad Word) := k_of (j := 104) (by decide) keyA_w104 keyA_w105 keyA_w106 keyA_w107 (by decide +kernel)
theorem keyA_k25 : roundKey keyA 25 = (⟨0x59486BFC, 0x94A0DDB7, 0x7BE8DD1E, 0xD1241CD6⟩ : Quad Word) := k_of (j := 108) (by decide) keyA_w108 keyA_w109 keyA_w110 keyA_w111 (by decide +kernel)
theorem keyA_k26 : roundKey keyA 26 = (⟨0x587D4668, 0x6B2056BF, 0x64E526F6, 0x6717C22E⟩ : Quad Word) := k_of (j := 112) (by decide) keyA_w112 keyA_w113 keyA_w114 keyA_w115 (by decide +kernel)
theorem keyA_k27 : roundKey keyA 27 = (⟨0xFBFD7712, 0xC6D25852, 0x863CCF1D, 0x3299BEE5⟩ : Quad Word) := k_of (j := 116) (by decide) keyA_w116 keyA_w117 keyA_w118 keyA_w119 (by decide +kernel)
theorem keyA_k28 : roundKey keyA 28 = (⟨0xD41682B0, 0xF6B99027, 0xE50A99BF, 0x2C56247A⟩ : Quad Word) := k_of (j := 120) (by decide) keyA_w120 keyA_w121 keyA_w122 keyA_w123 (by decide +kernel)
theorem keyA_k29 : roundKey keyA 29 = (⟨0x0E5238FD, 0x566309BE, 0x6925021C, 0xE1CE6882⟩ : Quad Word) := k_of (j := 124) (by decide) keyA_w124 keyA_w125 keyA_w126 keyA_w127 (by decide +kernel)
theorem keyA_k30 : roundKey keyA 30 = (⟨0x31018CB6, 0x71A1F866, 0x4240447F, 0x54AD0D1A⟩ : Quad Word) := k_of (j := 128) (by decide) keyA_w128 keyA_w129 keyA_w130 keyA_w131 (by decide +kernel)
theorem keyA_k31 : roundKey keyA 31 = (⟨0x3AA56432, 0x3DC63383, 0x08207AB0, 0x445E7725⟩ : Quad Word) := k_of (j := 132) (by decide) keyA_w132 keyA_w133 keyA_w134 keyA_w135 (by decide +kernel)
theorem keyA_k32 : roundKey keyA 32 = (⟨0x622CC815, 0x16FFB352, 0xA4CD7134, 0x713A13C8⟩ : Quad Word) := k_of (j := 136) (by decide) keyA_w136 keyA_w137 keyA_w138 keyA_w139 (by decide +kernel)
theorem keyA_r0 : rounds (roundKey keyA) 0 ⟨0, 0, 0, 0⟩ = (⟨0x00000000, 0x00000000, 0x00000000, 0x00000000⟩ : Quad Word) := rfl
theorem keyA_r1 : rounds (roundKey keyA) 1 ⟨0, 0, 0, 0⟩ = (⟨0x1960DB7A, 0x2EDC034B, 0x7594D59A, 0x6E3CD0A4⟩ : Quad Word) := r_next keyA_r0 keyA_k0 (by decide +kernel)
theorem keyA_r2 : rounds (roundKey keyA) 2 ⟨0, 0, 0, 0⟩ = (⟨0xF897F9DC, 0x2C19BDBB, 0xA47FC294, 0xCC2BFB55⟩ : Quad Word) := r_next keyA_r1 keyA_k1 (by decide +kernel)
theorem keyA_r3 : rounds (roundKey keyA) 3 ⟨0, 0, 0, 0⟩ = (⟨0x3E52CC2C, 0x63DE22D3, 0x0EAFBD0B, 0xA14D7B6E⟩ : Quad Word) := r_next keyA_r2 keyA_k2 (by decide +kernel)
theorem keyA_r4 : rounds (roundKey keyA) 4 ⟨0, 0, 0, 0⟩ = (⟨0x5EF5C1F5, 0xDA2EAF27, 0xE78A83DC, 0x7F6DF8EB⟩ : Quad Word) := r_next keyA_r3 keyA_k3 (by decide +kernel)
theorem keyA_r5 : rounds (roundKey keyA) 5 ⟨0, 0, 0, 0⟩ = (⟨0xB69BEBA9, 0x113A14CF, 0xCAC0AB81, 0x6487EFFE⟩ : Quad Word) := r_next keyA_r4 keyA_k4 (by decide +kernel)
theorem keyA_r6 : rounds (roundKey keyA) 6 ⟨0, 0, 0, 0⟩ = (⟨0x38306FFB, 0xC84F1A1D, 0xBE2B12B7, 0xBD3165CF⟩ : Quad Word) := r_next keyA_r5 keyA_k5 (by decide +kernel)
theorem keyA_r7 : rounds (roundKey keyA) 7 ⟨0, 0, 0, 0⟩ = (⟨0x4844F166, 0x311000B5, 0x47AD6FD2, 0x7BFB1DF1⟩ : Quad Word) := r_next keyA_r6 keyA_k6 (by decide +kernel)
theorem keyA_r8 : rounds (roundKey keyA) 8 ⟨0, 0, 0, 0⟩ = (⟨0x0D1297D2, 0xD200C411, 0x06DBB5DA, 0x31632941⟩ : Quad Word) := r_next keyA_r7 keyA_k7 (by decide +kernel)
theorem keyA_r9 : rounds (roundKey keyA) 9 ⟨0, 0, 0, 0⟩ = (⟨0xABB6752A, 0xB75BF770, 0x9E7836D4, 0x71D1C7F2⟩ : Quad Word) := r_next keyA_r8 keyA_k8 (by decide +kernel)
theorem keyA_r10 : rounds (roundKey keyA) 10 ⟨0, 0, 0, 0⟩ = (⟨0xDA8F0EB6, 0xD69FF0C0, 0x44C50754, 0x2735A7D3⟩ : Quad Word) := r_next keyA_r9 keyA_k9 (by decide +kernel)
theorem keyA_r11 : rounds (roundKey keyA) 11 ⟨0, 0, 0, 0⟩ = (⟨0xBDCB35B7, 0x1F59DF36, 0xCC6EDA68, 0xCAB46BE9⟩ : Quad Word) := r_next keyA_r10 keyA_k10 (by decide +kernel)
theorem keyA_r12 : rounds (roundKey keyA) 12 ⟨0, 0, 0, 0⟩ = (⟨0x2FEBDA33, 0xAE220C81, 0xC6059454, 0x0C9F4665⟩ : Quad Word) := r_next keyA_r11 keyA_k11 (by decide +kernel)
theorem keyA_r13 : rounds (roundKey keyA) 13 ⟨0, 0, 0, 0⟩ = (⟨0x923730BC, 0xBF666A35, 0x6B1A02A5, 0x03C3EEFB⟩ : Quad Word) := r_next keyA_r12 keyA_k12 (by decide +kernel)
theorem keyA_r14 : rounds (roundKey keyA) 14 ⟨0, 0, 0, 0⟩ = (⟨0xB8963D9B, 0x30DDC7FA, 0x559C8EF0, 0xBF88B546⟩ : Quad Word) := r_next keyA_r13 keyA_k13 (by decide +kernel)
theorem keyA_r15 : rounds (roundKey keyA) 15 ⟨0, 0, 0, 0⟩ = (⟨0xF39E7785, 0x8005EBF4, 0xE8F23252, 0x6294E767⟩ : Quad Word) := r_next keyA_r14 keyA_k14 (by decide +kernel)
theorem keyA_r16 : rounds (roundKey keyA) 16 ⟨0, 0, 0, 0⟩ = (⟨0x81D4555A, 0x74851EE2, 0x7B6E90C0, 0x8A899E9C⟩ : Quad Word) := r_next keyA_r15 keyA_k15 (by decide +kernel)
theorem keyA_r17 : rounds (roundKey keyA) 17 ⟨0, 0, 0, 0⟩ = (⟨0xDFAE978D, 0x779CAB29, 0xFBCB1D29, 0x29727A41⟩ : Quad Word) := r_next keyA_r16 keyA_k16 (by decide +kernel)
theorem keyA_r18 : rounds (roundKey keyA) 18 ⟨0, 0, 0, 0⟩ = (⟨0x1588159B, 0x942BDFC5, 0x1609DEFF, 0x54705987⟩ : Quad Word) := r_next keyA_r17 keyA_k17 (by decide +kernel)
theorem keyA_r19 : rounds (roundKey keyA) 19 ⟨0, 0, 0, 0⟩ = (⟨0xF28DCC95, 0x0A089210, 0x742CAAD1, 0xFD14B589⟩ : Quad Word) := r_next keyA_r18 keyA_k18 (by decide +kernel)
theorem keyA_r20 : rounds (roundKey keyA) 20 ⟨0, 0, 0, 0⟩ = (⟨0xBFF32A09, 0x161934D4, 0x0CBBAF7E, 0xD47352FD⟩ : Quad Word) := r_next keyA_r19 keyA_k19 (by decide +kernel)
theorem keyA_r21 : rounds (roundKey keyA) 21 ⟨0, 0, 0, 0⟩ = (⟨0x245AA270, 0x3DAEBB50, 0x008339E5, 0x9CF1DFA3⟩ : Quad Word) := r_next keyA_r20 keyA_k20 (by decide +kernel)
theorem keyA_r22 : rounds (roundKey keyA) 22 ⟨0, 0, 0, 0⟩ = (⟨0x8D435CEB, 0x8CBD7785, 0x1AED0C79, 0xC38F6472⟩ : Quad Word) := r_next keyA_r21 keyA_k21 (by decide +kernel)
theorem keyA_r23 : rounds (roundKey keyA) 23 ⟨0, 0, 0, 0⟩ = (⟨0xE9F142FD, 0x70EE9C8E, 0x651E4E9B, 0x4DE4EF2A⟩ : Quad Word) := r_next keyA_r22 keyA_k22 (by decide +kernel)
theorem keyA_r24 : rounds (roundKey keyA) 24 ⟨0, 0, 0, 0⟩ = (⟨0xAFB5C0EB, 0x8306F281, 0xAC669E03, 0x2A937681⟩ : Quad Word) := r_next keyA_r23 keyA_k23 (by decide +kernel)
theorem keyA_r25 : rounds (roundKey keyA) 25 ⟨0, 0, 0, 0⟩ = (⟨0xFF3C0170, 0xF8F20C79, 0xC9D47EAB, 0x58EE6648⟩ : Quad Word) := r_next keyA_r24 keyA_k24 (by decide +kernel)
theorem keyA_r26 : rounds (roundKey keyA) 26 ⟨0, 0, 0, 0⟩ = (⟨0x215334FA, 0x734524AC, 0x43D55919, 0x97AB8FBB⟩ : Quad Word) := r_next keyA_r25 keyA_k25 (by decide +kernel)
theorem keyA_r27 : rounds (roundKey keyA) 27 ⟨0, 0, 0, 0⟩ = (⟨0x66853192, 0x1C0F3F5F, 0x05883015, 0xA9666B0A⟩ : Quad Word) := r_next keyA_r26 keyA_k26 (by decide +kernel)
theorem keyA_r28 : rounds (roundKey keyA) 28 ⟨0, 0, 0, 0⟩ = (⟨0x1F551466, 0xF57FAB4B, 0x721177A1, 0x05F84B1C⟩ : Quad Word) := r_next keyA_r27 keyA_k27 (by decide +kernel)
theorem keyA_r29 : rounds (roundKey keyA) 29 ⟨0, 0, 0, 0⟩ = (⟨0xED245C6F, 0xA301D1A3, 0xB6FBD83D, 0x93395A69⟩ : Quad Word) := r_next keyA_r28 keyA_k28 (by decide +kernel)
theorem keyA_r30 : rounds (roundKey keyA) 30 ⟨0, 0, 0, 0⟩ = (⟨0xAC9E8D83, 0x3201C497, 0x2BE924EA, 0x78935A63⟩ : Quad Word) := r_next keyA_r29 keyA_k29 (by decide +kernel)
theorem keyA_r31 : rounds (roundKey keyA) 31 ⟨0, 0, 0, 0⟩ = (⟨0xB45C11F2, 0x229764C4, 0xA0CD093D, 0x6D99C1F0⟩ : Quad Word) := r_next keyA_r30 keyA_k30 (by decide +kernel)
theorem keyA_e : encrypt (roundKey keyA) 32 ⟨0, 0, 0, 0⟩ = (⟨0x12AA23A2, 0x0E3C4688, 0xBD8EE32B, 0xC0165682⟩ : Quad Word) := e_last keyA_r31 keyA_k31 keyA_k32 (by decide +kernel)

/-- The ciphertext. -/
theorem keyA_serpent : serpent keyA (List.replicate 16 0) = [0xA2, 0x23, 0xAA, 0x12, 0x88, 0x46, 0x3C, 0x0E, 0x2B, 0xE3, 0x8E, 0xBD, 0x82, 0x56, 0x16, 0xC0] := by
  rw [serpent, onBytes, show ofBytes (List.replicate 16 0) = ⟨0, 0, 0, 0⟩ from by decide +kernel, keyA_e]
  decide +kernel

/-- The key `00 … 00 80`. -/
def keyB : List Byte := [0x00, 0x00, 0x00, 0x00, 0x00, 0x00, 0x00, 0x00, 0x00, 0x00, 0x00, 0x00, 0x00, 0x00, 0x00, 0x00, 0x00, 0x00, 0x00, 0x00, 0x00, 0x00, 0x00, 0x00, 0x00, 0x00, 0x00, 0x00, 0x00, 0x00, 0x00, 0x80]

abbrev keyBW : Nat → Word := prekey (leWord (pad keyB))

theorem keyB_w0 : keyBW 0 = 0x00000000 := w_key (by decide) (by decide +kernel)
theorem keyB_w1 : keyBW 1 = 0x00000000 := w_key (by decide) (by decide +kernel)
theorem keyB_w2 : keyBW 2 = 0x00000000 := w_key (by decide) (by decide +kernel)
theorem keyB_w3 : keyBW 3 = 0x00000000 := w_key (by decide) (by decide +kernel)
theorem keyB_w4 : keyBW 4 = 0x00000000 := w_key (by decide) (by decide +kernel)
theorem keyB_w5 : keyBW 5 = 0x00000000 := w_key (by decide) (by decide +kernel)
theorem keyB_w6 : keyBW 6 = 0x00000000 := w_key (by decide) (by decide +kernel)
theorem keyB_w7 : keyBW 7 = 0x80000000 := w_key (by decide) (by decide +kernel)
theorem keyB_w8 : keyBW 8 = 0xBBCDC8F1 := w_next keyB_w0 keyB_w3 keyB_w5 keyB_w7 (by decide)
theorem keyB_w9 : keyBW 9 = 0xD58A492F := w_next keyB_w1 keyB_w4 keyB_w6 keyB_w8 (by decide)
theorem keyB_w10 : keyBW 10 = 0xE984A65D := w_next keyB_w2 keyB_w5 keyB_w7 keyB_w9 (by decide)
theorem keyB_w11 : keyBW 11 = 0xF0B8B663 := w_next keyB_w3 keyB_w6 keyB_w8 keyB_w10 (by decide)
theorem keyB_w12 : keyBW 12 = 0x2C3789D8 := w_next keyB_w4 keyB_w7 keyB_w9 keyB_w11 (by decide)
theorem keyB_w13 : keyBW 13 = 0x4CF64702 := w_next keyB_w5 keyB_w8 keyB_w10 keyB_w12 (by decide)
theorem keyB_w14 : keyBW 14 = 0x9E0F8FBF := w_next keyB_w6 keyB_w9 keyB_w11 keyB_w13 (by decide)
theorem keyB_w15 : keyBW 15 = 0x5ECC222C := w_next keyB_w7 keyB_w10 keyB_w12 keyB_w14 (by decide)
theorem keyB_w16 : keyBW 16 = 0xC3106E3B := w_next keyB_w8 keyB_w11 keyB_w13 keyB_w15 (by decide)
theorem keyB_w17 : keyBW 17 = 0xAAC619D4 := w_next keyB_w9 keyB_w12 keyB_w14 keyB_w16 (by decide)
theorem keyB_w18 : keyBW 18 = 0x7D18A67A := w_next keyB_w10 keyB_w13 keyB_w15 keyB_w17 (by decide)
theorem keyB_w19 : keyBW 19 = 0x44417A74 := w_next keyB_w11 keyB_w14 keyB_w16 keyB_w18 (by decide)
theorem keyB_w20 : keyBW 20 = 0x5D8F0812 := w_next keyB_w12 keyB_w15 keyB_w17 keyB_w19 (by decide)
theorem keyB_w21 : keyBW 21 = 0x37F7298A := w_next keyB_w13 keyB_w16 keyB_w18 keyB_w20 (by decide)
theorem keyB_w22 : keyBW 22 = 0x45E116CA := w_next keyB_w14 keyB_w17 keyB_w19 keyB_w21 (by decide)
theorem keyB_w23 : keyBW 23 = 0x6F19C52C := w_next keyB_w15 keyB_w18 keyB_w20 keyB_w22 (by decide)
theorem keyB_w24 : keyBW 24 = 0x440A020C := w_next keyB_w16 keyB_w19 keyB_w21 keyB_w23 (by decide)
theorem keyB_w25 : keyBW 25 = 0xABE54344 := w_next keyB_w17 keyB_w20 keyB_w22 keyB_w24 (by decide)
theorem keyB_w26 : keyBW 26 = 0x23819881 := w_next keyB_w18 keyB_w21 keyB_w23 keyB_w25 (by decide)
theorem keyB_w27 : keyBW 27 = 0xE47CCFC0 := w_next keyB_w19 keyB_w22 keyB_w24 keyB_w26 (by decide)
theorem keyB_w28 : keyBW 28 = 0xC1C0BF19 := w_next keyB_w20 keyB_w23 keyB_w25 keyB_w27 (by decide)
theorem keyB_w29 : keyBW 29 = 0x5BAD907C := w_next keyB_w21 keyB_w24 keyB_w26 keyB_w28 (by decide)
theorem keyB_w30 : keyBW 30 = 0x139CEE7F := w_next keyB_w22 keyB_w25 keyB_w27 keyB_w29 (by decide)
theorem keyB_w31 : keyBW 31 = 0x9BAB2807 := w_next keyB_w23 keyB_w26 keyB_w28 keyB_w30 (by decide)
theorem keyB_w32 : keyBW 32 = 0x3860B7F2 := w_next keyB_w24 keyB_w27 keyB_w29 keyB_w31 (by decide)
theorem keyB_w33 : keyBW 33 = 0x76E386FF := w_next keyB_w25 keyB_w28 keyB_w30 keyB_w32 (by decide)
theorem keyB_w34 : keyBW 34 = 0x9EFD305A := w_next keyB_w26 keyB_w29 keyB_w31 keyB_w33 (by decide)
theorem keyB_w35 : keyBW 35 = 0x56FDAE7A := w_next keyB_w27 keyB_w30 keyB_w32 keyB_w34 (by decide)
theorem keyB_w36 : keyBW 36 = 0x1631F722 := w_next keyB_w28 keyB_w31 keyB_w33 keyB_w35 (by decide)
theorem keyB_w37 : keyBW 37 = 0xB4CA93A9 := w_next keyB_w29 keyB_w32 keyB_w34 keyB_w36 (by decide)
theorem keyB_w38 : keyBW 38 = 0xF967A0CB := w_next keyB_w30 keyB_w33 keyB_w35 keyB_w37 (by decide)
theorem keyB_w39 : keyBW 39 = 0xB9B093A1 := w_next keyB_w31 keyB_w34 keyB_w36 keyB_w38 (by decide)
theorem keyB_w40 : keyBW 40 = 0x8300CFEE := w_next keyB_w32 keyB_w35 keyB_w37 keyB_w39 (by decide)
theorem keyB_w41 : keyBW 41 = 0x133B0424 := w_next keyB_w33 keyB_w36 keyB_w38 keyB_w40 (by decide)
theorem keyB_w42 : keyBW 42 = 0x5A6F68F4 := w_next keyB_w34 keyB_w37 keyB_w39 keyB_w41 (by decide)
theorem keyB_w43 : keyBW 43 = 0x16818F46 := w_next keyB_w35 keyB_w38 keyB_w40 keyB_w42 (by decide)
theorem keyB_w44 : keyBW 44 = 0x64B3E1A0 := w_next keyB_w36 keyB_w39 keyB_w41 keyB_w43 (by decide)
theorem keyB_w45 : keyBW 45 = 0x0D647CB9 := w_next keyB_w37 keyB_w40 keyB_w42 keyB_w44 (by decide)
theorem keyB_w46 : keyBW 46 = 0x71747B7C := w_next keyB_w38 keyB_w41 keyB_w43 keyB_w45 (by decide)
theorem keyB_w47 : keyBW 47 = 0x78C0BB41 := w_next keyB_w39 keyB_w42 keyB_w44 keyB_w46 (by decide)
theorem keyB_w48 : keyBW 48 = 0x97F60BF0 := w_next keyB_w40 keyB_w43 keyB_w45 keyB_w47 (by decide)
theorem keyB_w49 : keyBW 49 = 0xEF64C079 := w_next keyB_w41 keyB_w44 keyB_w46 keyB_w48 (by decide)
theorem keyB_w50 : keyBW 50 = 0xC0B732F4 := w_next keyB_w42 keyB_w45 keyB_w47 keyB_w49 (by decide)
theorem keyB_w51 : keyBW 51 = 0x1DA56574 := w_next keyB_w43 keyB_w46 keyB_w48 keyB_w50 (by decide)
theorem keyB_w52 : keyBW 52 = 0x2C33CB84 := w_next keyB_w44 keyB_w47 keyB_w49 keyB_w51 (by decide)
theorem keyB_w53 : keyBW 53 = 0x0FBD6F41 := w_next keyB_w45 keyB_w48 keyB_w50 keyB_w52 (by decide)
theorem keyB_w54 : keyBW 54 = 0xFE453891 := w_next keyB_w46 keyB_w49 keyB_w51 keyB_w53 (by decide)
theorem keyB_w55 : keyBW 55 = 0xB019B7A1 := w_next keyB_w47 keyB_w50 keyB_w52 keyB_w54 (by decide)
theorem keyB_w56 : keyBW 56 = 0x067F6D5E := w_next keyB_w48 keyB_w51 keyB_w53 keyB_w55 (by decide)
theorem keyB_w57 : keyBW 57 = 0xD13DD52A := w_next keyB_w49 keyB_w52 keyB_w54 keyB_w56 (by decide)
theorem keyB_w58 : keyBW 58 = 0xCA35A980 := w_next keyB_w50 keyB_w53 keyB_w55 keyB_w57 (by decide)
theorem keyB_w59 : keyBW 59 = 0xEF058D8C := w_next keyB_w51 keyB_w54 keyB_w56 keyB_w58 (by decide)
theorem keyB_w60 : keyBW 60 = 0x2AE871E1 := w_next keyB_w52 keyB_w55 keyB_w57 keyB_w59 (by decide)
theorem keyB_w61 : keyBW 61 = 0x451F93B9 := w_next keyB_w53 keyB_w56 keyB_w58 keyB_w60 (by decide)
theorem keyB_w62 : keyBW 62 = 0xAC5008DA := w_next keyB_w54 keyB_w57 keyB_w59 keyB_w61 (by decide)
theorem keyB_w63 : keyBW 63 = 0x18F4A315 := w_next keyB_w55 keyB_w58 keyB_w60 keyB_w62 (by decide)
theorem keyB_w64 : keyBW 64 = 0x354FF955 := w_next keyB_w56 keyB_w59 keyB_w61 keyB_w63 (by decide)
theorem keyB_w65 : keyBW 65 = 0xE96627E7 := w_next keyB_w57 keyB_w60 keyB_w62 keyB_w64 (by decide)
theorem keyB_w66 : keyBW 66 = 0x7E3A4704 := w_next keyB_w58 keyB_w61 keyB_w63 keyB_w65 (by decide)
theorem keyB_w67 : keyBW 67 = 0xBA142CB0 := w_next keyB_w59 keyB_w62 keyB_w64 keyB_w66 (by decide)
theorem keyB_w68 : keyBW 68 = 0xCD0137FA := w_next keyB_w60 keyB_w63 keyB_w65 keyB_w67 (by decide)
theorem keyB_w69 : keyBW 69 = 0xE31CB2EA := w_next keyB_w61 keyB_w64 keyB_w66 keyB_w68 (by decide)
theorem keyB_w70 : keyBW 70 = 0x4E470410 := w_next keyB_w62 keyB_w65 keyB_w67 keyB_w69 (by decide)
theorem keyB_w71 : keyBW 71 = 0xFD73EBDD := w_next keyB_w63 keyB_w66 keyB_w68 keyB_w70 (by decide)
theorem keyB_w72 : keyBW 72 = 0x1FA95878 := w_next keyB_w64 keyB_w67 keyB_w69 keyB_w71 (by decide)
theorem keyB_w73 : keyBW 73 = 0xF1AC6F5D := w_next keyB_w65 keyB_w68 keyB_w70 keyB_w72 (by decide)
theorem keyB_w74 : keyBW 74 = 0x7044A87E := w_next keyB_w66 keyB_w69 keyB_w71 keyB_w73 (by decide)
theorem keyB_w75 : keyBW 75 = 0x4D0AE02C := w_next keyB_w67 keyB_w70 keyB_w72 keyB_w74 (by decide)
theorem keyB_w76 : keyBW 76 = 0x19555897 := w_next keyB_w68 keyB_w71 keyB_w73 keyB_w75 (by decide)
theorem keyB_w77 : keyBW 77 = 0x9B1C385C := w_next keyB_w69 keyB_w72 keyB_w74 keyB_w76 (by decide)
theorem keyB_w78 : keyBW 78 = 0x565617BE := w_next keyB_w70 keyB_w73 keyB_w75 keyB_w77 (by decide)
theorem keyB_w79 : keyBW 79 = 0x1BABA2E0 := w_next keyB_w71 keyB_w74 keyB_w76 keyB_w78 (by decide)
theorem keyB_w80 : keyBW 80 = 0x1AD8CA61 := w_next keyB_w72 keyB_w75 keyB_w77 keyB_w79 (by decide)
theorem keyB_w81 : keyBW 81 = 0x049F29D2 := w_next keyB_w73 keyB_w76 keyB_w78 keyB_w80 (by decide)
theorem keyB_w82 : keyBW 82 = 0xDB171B52 := w_next keyB_w74 keyB_w77 keyB_w79 keyB_w81 (by decide)
theorem keyB_w83 : keyBW 83 = 0x22FA9A25 := w_next keyB_w75 keyB_w78 keyB_w80 keyB_w82 (by decide)
theorem keyB_w84 : keyBW 84 = 0x6183ADD5 := w_next keyB_w76 keyB_w79 keyB_w81 keyB_w83 (by decide)
theorem keyB_w85 : keyBW 85 = 0x39EA752B := w_next keyB_w77 keyB_w80 keyB_w82 keyB_w84 (by decide)
theorem keyB_w86 : keyBW 86 = 0x7544AEBF := w_next keyB_w78 keyB_w81 keyB_w83 keyB_w85 (by decide)
theorem keyB_w87 : keyBW 87 = 0x66197252 := w_next keyB_w79 keyB_w82 keyB_w84 keyB_w86 (by decide)
theorem keyB_w88 : keyBW 88 = 0x3176A7CF := w_next keyB_w80 keyB_w83 keyB_w85 keyB_w87 (by decide)
theorem keyB_w89 : keyBW 89 = 0xCFA4FDF8 := w_next keyB_w81 keyB_w84 keyB_w86 keyB_w88 (by decide)
theorem keyB_w90 : keyBW 90 = 0xBCC1C6AB := w_next keyB_w82 keyB_w85 keyB_w87 keyB_w89 (by decide)
theorem keyB_w91 : keyBW 91 = 0xF160A221 := w_next keyB_w83 keyB_w86 keyB_w88 keyB_w90 (by decide)
theorem keyB_w92 : keyBW 92 = 0x4FCD9D3B := w_next keyB_w84 keyB_w87 keyB_w89 keyB_w91 (by decide)
theorem keyB_w93 : keyBW 93 = 0x3F84C32D := w_next keyB_w85 keyB_w88 keyB_w90 keyB_w92 (by decide)
theorem keyB_w94 : keyBW 94 = 0x9A5D2751 := w_next keyB_w86 keyB_w89 keyB_w91 keyB_w93 (by decide)
theorem keyB_w95 : keyBW 95 = 0xFBBBEC8B := w_next keyB_w87 keyB_w90 keyB_w92 keyB_w94 (by decide)
theorem keyB_w96 : keyBW 96 = 0xF29D4CD0 := w_next keyB_w88 keyB_w91 keyB_w93 keyB_w95 (by decide)
theorem keyB_w97 : keyBW 97 = 0xF39513B4 := w_next keyB_w89 keyB_w92 keyB_w94 keyB_w96 (by decide)
theorem keyB_w98 : keyBW 98 = 0xE41AD0AA := w_next keyB_w90 keyB_w93 keyB_w95 keyB_w97 (by decide)
theorem keyB_w99 : keyBW 99 = 0x6B07471C := w_next keyB_w91 keyB_w94 keyB_w96 keyB_w98 (by decide)
theorem keyB_w100 : keyBW 100 = 0x9AE7ED96 := w_next keyB_w92 keyB_w95 keyB_w97 keyB_w99 (by decide)
theorem keyB_w101 : keyBW 101 = 0x9E59296E := w_next keyB_w93 keyB_w96 keyB_w98 keyB_w100 (by decide)
theorem keyB_w102 : keyBW 102 = 0x091B8015 := w_next keyB_w94 keyB_w97 keyB_w99 keyB_w101 (by decide)
theorem keyB_w103 : keyBW 103 = 0x51422093 := w_next keyB_w95 keyB_w98 keyB_w100 keyB_w102 (by decide)
theorem keyB_w104 : keyBW 104 = 0xB3DF4645 := w_next keyB_w96 keyB_w99 keyB_w101 keyB_w103 (by decide)
theorem keyB_w105 : keyBW 105 = 0x0A0D526C := w_next keyB_w97 keyB_w100 keyB_w102 keyB_w104 (by decide)
theorem keyB_w106 : keyBW 106 = 0xDF9705F9 := w_next keyB_w98 keyB_w101 keyB_w103 keyB_w105 (by decide)
theorem keyB_w107 : keyBW 107 = 0x1FEB7C83 := w_next keyB_w99 keyB_w102 keyB_w104 keyB_w106 (by decide)
theorem keyB_w108 : keyBW 108 = 0xA4D1BA03 := w_next keyB_w100 keyB_w103 keyB_w105 keyB_w107 (by decide)
theorem keyB_w109 : keyBW 109 = 0xBD486E47 := w_next keyB_w101 keyB_w104 keyB_w106 keyB_w108 (by decide)
theorem keyB_w110 : keyBW 110 = 0x15CB11FC := w_next keyB_w102 keyB_w105 keyB_w107 keyB_w109 (by decide)
theorem keyB_w111 : keyBW 111 = 0xC7BA5D0F := w_next keyB_w103 keyB_w106 keyB_w108 keyB_w110 (by decide)
theorem keyB_w112 : keyBW 112 = 0x8B82FA47 := w_next keyB_w104 keyB_w107 keyB_w109 keyB_w111 (by decide)
theorem keyB_w113 : keyBW 113 = 0x13D02575 := w_next keyB_w105 keyB_w108 keyB_w110 keyB_w112 (by decide)
theorem keyB_w114 : keyBW 114 = 0x1350B944 := w_next keyB_w106 keyB_w109 keyB_w111 keyB_w113 (by decide)
theorem keyB_w115 : keyBW 115 = 0x2ABD7066 := w_next keyB_w107 keyB_w110 keyB_w112 keyB_w114 (by decide)
theorem keyB_w116 : keyBW 116 = 0x8E5E5621 := w_next keyB_w108 keyB_w111 keyB_w113 keyB_w115 (by decide)
theorem keyB_w117 : keyBW 117 = 0x981589AF := w_next keyB_w109 keyB_w112 keyB_w114 keyB_w116 (by decide)
theorem keyB_w118 : keyBW 118 = 0x25A4B954 := w_next keyB_w110 keyB_w113 keyB_w115 keyB_w117 (by decide)
theorem keyB_w119 : keyBW 119 = 0x3B974709 := w_next keyB_w111 keyB_w114 keyB_w116 keyB_w118 (by decide)
theorem keyB_w120 : keyBW 120 = 0x51EA74E4 := w_next keyB_w112 keyB_w115 keyB_w117 keyB_w119 (by decide)
theorem keyB_w121 : keyBW 121 = 0xBE3963BF := w_next keyB_w113 keyB_w116 keyB_w118 keyB_w120 (by decide)
theorem keyB_w122 : keyBW 122 = 0xE36CB486 := w_next keyB_w114 keyB_w117 keyB_w119 keyB_w121 (by decide)
theorem keyB_w123 : keyBW 123 = 0x4384D11D := w_next keyB_w115 keyB_w118 keyB_w120 keyB_w122 (by decide)
theorem keyB_w124 : keyBW 124 = 0x1ED23EB2 := w_next keyB_w116 keyB_w119 keyB_w121 keyB_w123 (by decide)
theorem keyB_w125 : keyBW 125 = 0xB0759D53 := w_next keyB_w117 keyB_w120 keyB_w122 keyB_w124 (by decide)
theorem keyB_w126 : keyBW 126 = 0xDF7B57B2 := w_next keyB_w118 keyB_w121 keyB_w123 keyB_w125 (by decide)
theorem keyB_w127 : keyBW 127 = 0x2F1A0C3B := w_next keyB_w119 keyB_w122 keyB_w124 keyB_w126 (by decide)
theorem keyB_w128 : keyBW 128 = 0xB26A8099 := w_next keyB_w120 keyB_w123 keyB_w125 keyB_w127 (by decide)
theorem keyB_w129 : keyBW 129 = 0x6F9F329E := w_next keyB_w121 keyB_w124 keyB_w126 keyB_w128 (by decide)
theorem keyB_w130 : keyBW 130 = 0x5B759C6D := w_next keyB_w122 keyB_w125 keyB_w127 keyB_w129 (by decide)
theorem keyB_w131 : keyBW 131 = 0xBF1CCF5E := w_next keyB_w123 keyB_w126 keyB_w128 keyB_w130 (by decide)
theorem keyB_w132 : keyBW 132 = 0xE5B463FB := w_next keyB_w124 keyB_w127 keyB_w129 keyB_w131 (by decide)
theorem keyB_w133 : keyBW 133 = 0x4CDCC117 := w_next keyB_w125 keyB_w128 keyB_w130 keyB_w132 (by decide)
theorem keyB_w134 : keyBW 134 = 0x989516E8 := w_next keyB_w126 keyB_w129 keyB_w131 keyB_w133 (by decide)
theorem keyB_w135 : keyBW 135 = 0xCCE41CBB := w_next keyB_w127 keyB_w130 keyB_w132 keyB_w134 (by decide)
theorem keyB_w136 : keyBW 136 = 0xCF5A909B := w_next keyB_w128 keyB_w131 keyB_w133 keyB_w135 (by decide)
theorem keyB_w137 : keyBW 137 = 0x9D71721E := w_next keyB_w129 keyB_w132 keyB_w134 keyB_w136 (by decide)
theorem keyB_w138 : keyBW 138 = 0x5A5726C0 := w_next keyB_w130 keyB_w133 keyB_w135 keyB_w137 (by decide)
theorem keyB_w139 : keyBW 139 = 0x98B6B965 := w_next keyB_w131 keyB_w134 keyB_w136 keyB_w138 (by decide)
theorem keyB_k0 : roundKey keyB 0 = (⟨0x6F7791D0, 0xA7C3A7CF, 0xF2F990ED, 0x8EF77F91⟩ : Quad Word) := k_of (j := 8) (by decide) keyB_w8 keyB_w9 keyB_w10 keyB_w11 (by decide +kernel)
theorem keyB_k1 : roundKey keyB 1 = (⟨0x80326309, 0xECC6454B, 0x60C3EBD0, 0x41F3BD9A⟩ : Quad Word) := k_of (j := 12) (by decide) keyB_w12 keyB_w13 keyB_w14 keyB_w15 (by decide +kernel)
theorem keyB_k2 : roundKey keyB 2 = (⟨0xFA29E260, 0x86E651C4, 0xEE603235, 0x5068FA25⟩ : Quad Word) := k_of (j := 16) (by decide) keyB_w16 keyB_w17 keyB_w18 keyB_w19 (by decide +kernel)
theorem keyB_k3 : roundKey keyB 3 = (⟨0x98EE2C8B, 0x8080F667, 0x2F79E5A4, 0x0D89F27E⟩ : Quad Word) := k_of (j := 20) (by decide) keyB_w20 keyB_w21 keyB_w22 keyB_w23 (by decide +kernel)
theorem keyB_k4 : roundKey keyB 4 = (⟨0x3812ACBA, 0x0B911601, 0xEC7E5549, 0x8866DBC9⟩ : Quad Word) := k_of (j := 24) (by decide) keyB_w24 keyB_w25 keyB_w26 keyB_w27 (by decide +kernel)
theorem keyB_k5 : roundKey keyB 5 = (⟨0xEC21B89B, 0x364EA9FD, 0x640616E2, 0x921AC01E⟩ : Quad Word) := k_of (j := 28) (by decide) keyB_w28 keyB_w29 keyB_w30 keyB_w31 (by decide +kernel)
theorem keyB_k6 : roundKey keyB 6 = (⟨0x37FD41DA, 0x6F83708D, 0xC79D6108, 0x691CD6A0⟩ : Quad Word) := k_of (j := 32) (by decide) keyB_w32 keyB_w33 keyB_w34 keyB_w35 (by decide +kernel)
theorem keyB_k7 : roundKey keyB 7 = (⟨0xBF52CC9D, 0xA66257A9, 0xF2B4C4C1, 0x5B6ED768⟩ : Quad Word) := k_of (j := 36) (by decide) keyB_w36 keyB_w37 keyB_w38 keyB_w39 (by decide +kernel)
theorem keyB_k8 : roundKey keyB 8 = (⟨0x9491CBEA, 0x823A086C, 0xDEEF2C5C, 0xCFD4609C⟩ : Quad Word) := k_of (j := 40) (by decide) keyB_w40 keyB_w41 keyB_w42 keyB_w43 (by decide +kernel)
theorem keyB_k9 : roundKey keyB 9 = (⟨0x64E0DDA4, 0x6927653D, 0x08735C21, 0xEF3C41BB⟩ : Quad Word) := k_of (j := 44) (by decide) keyB_w44 keyB_w45 keyB_w46 keyB_w47 (by decide +kernel)
theorem keyB_k10 : roundKey keyB 10 = (⟨0x52C81502, 0xBA49E10F, 0x4AED6876, 0x9D885902⟩ : Quad Word) := k_of (j := 48) (by decide) keyB_w48 keyB_w49 keyB_w50 keyB_w51 (by decide +kernel)
theorem keyB_k11 : roundKey keyB 11 = (⟨0x9FA4F84B, 0xDDD01B7A, 0x938D9460, 0x4DC3A875⟩ : Quad Word) := k_of (j := 52) (by decide) keyB_w52 keyB_w53 keyB_w54 keyB_w55 (by decide +kernel)
theorem keyB_k12 : roundKey keyB 12 = (⟨0xFAF29AF1, 0x32351D28, 0xF5479174, 0x197234F8⟩ : Quad Word) := k_of (j := 56) (by decide) keyB_w56 keyB_w57 keyB_w58 keyB_w59 (by decide +kernel)
theorem keyB_k13 : roundKey keyB 13 = (⟨0x08ECB7A1, 0x1E50459D, 0x750B156D, 0xD1B32997⟩ : Quad Word) := k_of (j := 60) (by decide) keyB_w60 keyB_w61 keyB_w62 keyB_w63 (by decide +kernel)
theorem keyB_k14 : roundKey keyB 14 = (⟨0x6BF19E59, 0x9DC84CFB, 0x9A9395AC, 0xC7FE63ED⟩ : Quad Word) := k_of (j := 64) (by decide) keyB_w64 keyB_w65 keyB_w66 keyB_w67 (by decide +kernel)
theorem keyB_k15 : roundKey keyB 15 = (⟨0x42C61122, 0x9F257AFF, 0x6C118110, 0xCF4F22D8⟩ : Quad Word) := k_of (j := 68) (by decide) keyB_w68 keyB_w69 keyB_w70 keyB_w71 (by decide +kernel)
theorem keyB_k16 : roundKey keyB 16 = (⟨0xDE033F75, 0xB2059F79, 0x634F702E, 0x82E3970B⟩ : Quad Word) := k_of (j := 72) (by decide) keyB_w72 keyB_w73 keyB_w74 keyB_w75 (by decide +kernel)
theorem keyB_k17 : roundKey keyB 17 = (⟨0xC6B59D94, 0xD41C75DD, 0x8BFCF057, 0x20FCB8DE⟩ : Quad Word) := k_of (j := 76) (by decide) keyB_w76 keyB_w77 keyB_w78 keyB_w79 (by decide +kernel)
theorem keyB_k18 : roundKey keyB 18 = (⟨0xE367873F, 0x0442B4E9, 0x02155F1A, 0xC3C8C669⟩ : Quad Word) := k_of (j := 80) (by decide) keyB_w80 keyB_w81 keyB_w82 keyB_w83 (by decide +kernel)
theorem keyB_k19 : roundKey keyB 19 = (⟨0x9DE3076B, 0x8F348E85, 0x3E79FAEC, 0x2B352443⟩ : Quad Word) := k_of (j := 84) (by decide) keyB_w84 keyB_w85 keyB_w86 keyB_w87 (by decide +kernel)
theorem keyB_k20 : roundKey keyB 20 = (⟨0xB25A1EBD, 0x3FE1FE99, 0xC2139834, 0x43333C9E⟩ : Quad Word) := k_of (j := 88) (by decide) keyB_w88 keyB_w89 keyB_w90 keyB_w91 (by decide +kernel)
theorem keyB_k21 : roundKey keyB 21 = (⟨0xE59DED2A, 0x11AF9788, 0x85F2A2BC, 0xD1B6A9CE⟩ : Quad Word) := k_of (j := 92) (by decide) keyB_w92 keyB_w93 keyB_w94 keyB_w95 (by decide +kernel)
theorem keyB_k22 : roundKey keyB 22 = (⟨0x70E23C69, 0x11E86705, 0x8572EBCF, 0x93FF33BD⟩ : Quad Word) := k_of (j := 96) (by decide) keyB_w96 keyB_w97 keyB_w98 keyB_w99 (by decide +kernel)
theorem keyB_k23 : roundKey keyB 23 = (⟨0xA3BC5F81, 0xDAFF6D16, 0x08A74494, 0x15FE647B⟩ : Quad Word) := k_of (j := 100) (by decide) keyB_w100 keyB_w101 keyB_w102 keyB_w103 (by decide +kernel)
theorem keyB_k24 : roundKey keyB 24 = (⟨0xB9F62C43, 0x378714E9, 0x7BAB6D3B, 0xE6312B96⟩ : Quad Word) := k_of (j := 104) (by decide) keyB_w104 keyB_w105 keyB_w106 keyB_w107 (by decide +kernel)
theorem keyB_k25 : roundKey keyB 25 = (⟨0x6BF832B4, 0x1CC0D4F0, 0xCB69CC07, 0x72E57640⟩ : Quad Word) := k_of (j := 108) (by decide) keyB_w108 keyB_w109 keyB_w110 keyB_w111 (by decide +kernel)
theorem keyB_k26 : roundKey keyB 26 = (⟨0x7C7D518B, 0x4D1044BB, 0xD64233ED, 0xCD8252AA⟩ : Quad Word) := k_of (j := 112) (by decide) keyB_w112 keyB_w113 keyB_w114 keyB_w115 (by decide +kernel)
theorem keyB_k27 : roundKey keyB 27 = (⟨0xE382CFA6, 0x6DB030D3, 0x3787DE8E, 0x026E67D2⟩ : Quad Word) := k_of (j := 116) (by decide) keyB_w116 keyB_w117 keyB_w118 keyB_w119 (by decide +kernel)
theorem keyB_k28 : roundKey keyB 28 = (⟨0x4F3FBAC0, 0xED397286, 0x0E93035D, 0x0C7FE7D9⟩ : Quad Word) := k_of (j := 120) (by decide) keyB_w120 keyB_w121 keyB_w122 keyB_w123 (by decide +kernel)
theorem keyB_k29 : roundKey keyB 29 = (⟨0x3F4A1825, 0x9EE3392C, 0x812D8BCC, 0x514CD848⟩ : Quad Word) := k_of (j := 124) (by decide) keyB_w124 keyB_w125 keyB_w126 keyB_w127 (by decide +kernel)
theorem keyB_k30 : roundKey keyB 30 = (⟨0xCB171CCC, 0x9DF6A287, 0x1D148E66, 0x646B1ED3⟩ : Quad Word) := k_of (j := 128) (by decide) keyB_w128 keyB_w129 keyB_w130 keyB_w131 (by decide +kernel)
theorem keyB_k31 : roundKey keyB 31 = (⟨0x2BA67500, 0xED1069BB, 0xB9F520A8, 0xF58DB4BF⟩ : Quad Word) := k_of (j := 132) (by decide) keyB_w132 keyB_w133 keyB_w134 keyB_w135 (by decide +kernel)
theorem keyB_k32 : roundKey keyB 32 = (⟨0x52CAE9A1, 0x087F4244, 0x989B3F20, 0x4F9C4DFA⟩ : Quad Word) := k_of (j := 136) (by decide) keyB_w136 keyB_w137 keyB_w138 keyB_w139 (by decide +kernel)
theorem keyB_r0 : rounds (roundKey keyB) 0 ⟨0, 0, 0, 0⟩ = (⟨0x00000000, 0x00000000, 0x00000000, 0x00000000⟩ : Quad Word) := rfl
theorem keyB_r1 : rounds (roundKey keyB) 1 ⟨0, 0, 0, 0⟩ = (⟨0x1AB498B4, 0x6C549141, 0x31893A45, 0x5C8AC0B4⟩ : Quad Word) := r_next keyB_r0 keyB_k0 (by decide +kernel)
theorem keyB_r2 : rounds (roundKey keyB) 2 ⟨0, 0, 0, 0⟩ = (⟨0x2E2E3E99, 0x24291386, 0x34D087E1, 0xC874FDE6⟩ : Quad Word) := r_next keyB_r1 keyB_k1 (by decide +kernel)
theorem keyB_r3 : rounds (roundKey keyB) 3 ⟨0, 0, 0, 0⟩ = (⟨0x36709CA5, 0xF038B263, 0x3662C99C, 0xB51B908A⟩ : Quad Word) := r_next keyB_r2 keyB_k2 (by decide +kernel)
theorem keyB_r4 : rounds (roundKey keyB) 4 ⟨0, 0, 0, 0⟩ = (⟨0xD70179B5, 0xC9BCB18C, 0x2D64EF34, 0xB159E184⟩ : Quad Word) := r_next keyB_r3 keyB_k3 (by decide +kernel)
theorem keyB_r5 : rounds (roundKey keyB) 5 ⟨0, 0, 0, 0⟩ = (⟨0xC220F237, 0x660B0649, 0x5FAE61D4, 0xD5F3E401⟩ : Quad Word) := r_next keyB_r4 keyB_k4 (by decide +kernel)
theorem keyB_r6 : rounds (roundKey keyB) 6 ⟨0, 0, 0, 0⟩ = (⟨0xFE85E43A, 0x68791BF3, 0x1CF65AAB, 0xFA36E665⟩ : Quad Word) := r_next keyB_r5 keyB_k5 (by decide +kernel)
theorem keyB_r7 : rounds (roundKey keyB) 7 ⟨0, 0, 0, 0⟩ = (⟨0x32932399, 0x89B1D667, 0x0ABF9406, 0xC219F971⟩ : Quad Word) := r_next keyB_r6 keyB_k6 (by decide +kernel)
theorem keyB_r8 : rounds (roundKey keyB) 8 ⟨0, 0, 0, 0⟩ = (⟨0xE76C2CAF, 0xF524A4A0, 0xD0E26CB5, 0x4A197781⟩ : Quad Word) := r_next keyB_r7 keyB_k7 (by decide +kernel)
theorem keyB_r9 : rounds (roundKey keyB) 9 ⟨0, 0, 0, 0⟩ = (⟨0xC6489349, 0xB0139C51, 0x85693918, 0xAB589611⟩ : Quad Word) := r_next keyB_r8 keyB_k8 (by decide +kernel)
theorem keyB_r10 : rounds (roundKey keyB) 10 ⟨0, 0, 0, 0⟩ = (⟨0x0CBC7D22, 0x9AA1731B, 0xCEF0CA0F, 0xEF3E51D8⟩ : Quad Word) := r_next keyB_r9 keyB_k9 (by decide +kernel)
theorem keyB_r11 : rounds (roundKey keyB) 11 ⟨0, 0, 0, 0⟩ = (⟨0x6A700352, 0x5D395BFC, 0x87753196, 0x2D7821AC⟩ : Quad Word) := r_next keyB_r10 keyB_k10 (by decide +kernel)
theorem keyB_r12 : rounds (roundKey keyB) 12 ⟨0, 0, 0, 0⟩ = (⟨0x810F45B2, 0xB6A40093, 0x086A8AE8, 0xF5DF5411⟩ : Quad Word) := r_next keyB_r11 keyB_k11 (by decide +kernel)
theorem keyB_r13 : rounds (roundKey keyB) 13 ⟨0, 0, 0, 0⟩ = (⟨0xCDB0B923, 0xCA12446D, 0x2275AA1A, 0xACE4916E⟩ : Quad Word) := r_next keyB_r12 keyB_k12 (by decide +kernel)
theorem keyB_r14 : rounds (roundKey keyB) 14 ⟨0, 0, 0, 0⟩ = (⟨0xAA243D5B, 0xA40F6E84, 0x17AF5C3D, 0x277075F6⟩ : Quad Word) := r_next keyB_r13 keyB_k13 (by decide +kernel)
theorem keyB_r15 : rounds (roundKey keyB) 15 ⟨0, 0, 0, 0⟩ = (⟨0x3B7723B4, 0x7219E2B4, 0xB81B6FF9, 0xB78307D0⟩ : Quad Word) := r_next keyB_r14 keyB_k14 (by decide +kernel)
theorem keyB_r16 : rounds (roundKey keyB) 16 ⟨0, 0, 0, 0⟩ = (⟨0x27791B25, 0xBD36C595, 0x19CB6D93, 0xB0AE8F05⟩ : Quad Word) := r_next keyB_r15 keyB_k15 (by decide +kernel)
theorem keyB_r17 : rounds (roundKey keyB) 17 ⟨0, 0, 0, 0⟩ = (⟨0xE372B132, 0x6B66E6DD, 0x6A6D8E6A, 0x2720F2BB⟩ : Quad Word) := r_next keyB_r16 keyB_k16 (by decide +kernel)
theorem keyB_r18 : rounds (roundKey keyB) 18 ⟨0, 0, 0, 0⟩ = (⟨0x01C5AFAF, 0xCA473C5F, 0xE313B298, 0x71068930⟩ : Quad Word) := r_next keyB_r17 keyB_k17 (by decide +kernel)
theorem keyB_r19 : rounds (roundKey keyB) 19 ⟨0, 0, 0, 0⟩ = (⟨0x63F7525E, 0xFC2E61EB, 0xAA82CD65, 0xEF6C74C0⟩ : Quad Word) := r_next keyB_r18 keyB_k18 (by decide +kernel)
theorem keyB_r20 : rounds (roundKey keyB) 20 ⟨0, 0, 0, 0⟩ = (⟨0xCE92741D, 0xD61C3968, 0x69F00B6F, 0xABC29969⟩ : Quad Word) := r_next keyB_r19 keyB_k19 (by decide +kernel)
theorem keyB_r21 : rounds (roundKey keyB) 21 ⟨0, 0, 0, 0⟩ = (⟨0xC727A0F0, 0x3F3C8D0A, 0x1F7B7D2E, 0x842FC7B0⟩ : Quad Word) := r_next keyB_r20 keyB_k20 (by decide +kernel)
theorem keyB_r22 : rounds (roundKey keyB) 22 ⟨0, 0, 0, 0⟩ = (⟨0x42F708B6, 0xE8D02992, 0xD1D8BD02, 0xB98EF6CB⟩ : Quad Word) := r_next keyB_r21 keyB_k21 (by decide +kernel)
theorem keyB_r23 : rounds (roundKey keyB) 23 ⟨0, 0, 0, 0⟩ = (⟨0xE97CFA0C, 0xB544BACC, 0x6256A321, 0xF2153A5E⟩ : Quad Word) := r_next keyB_r22 keyB_k22 (by decide +kernel)
theorem keyB_r24 : rounds (roundKey keyB) 24 ⟨0, 0, 0, 0⟩ = (⟨0xED858D3F, 0x9DED1198, 0x3A840BFD, 0xDBFDCAFD⟩ : Quad Word) := r_next keyB_r23 keyB_k23 (by decide +kernel)
theorem keyB_r25 : rounds (roundKey keyB) 25 ⟨0, 0, 0, 0⟩ = (⟨0x819968EA, 0xC8945679, 0x493C47B4, 0x471BCFDB⟩ : Quad Word) := r_next keyB_r24 keyB_k24 (by decide +kernel)
theorem keyB_r26 : rounds (roundKey keyB) 26 ⟨0, 0, 0, 0⟩ = (⟨0x8FBE89E3, 0x83412209, 0x10C28E75, 0x48AABA71⟩ : Quad Word) := r_next keyB_r25 keyB_k25 (by decide +kernel)
theorem keyB_r27 : rounds (roundKey keyB) 27 ⟨0, 0, 0, 0⟩ = (⟨0x741563A4, 0x757C64FC, 0x254A1083, 0x63A3E60E⟩ : Quad Word) := r_next keyB_r26 keyB_k26 (by decide +kernel)
theorem keyB_r28 : rounds (roundKey keyB) 28 ⟨0, 0, 0, 0⟩ = (⟨0xDF8AE344, 0x9BAEEA4B, 0x754ED9C6, 0xCAED22BA⟩ : Quad Word) := r_next keyB_r27 keyB_k27 (by decide +kernel)
theorem keyB_r29 : rounds (roundKey keyB) 29 ⟨0, 0, 0, 0⟩ = (⟨0x6D6250D4, 0x33F5FCEB, 0x4D606FEE, 0x84BF123B⟩ : Quad Word) := r_next keyB_r28 keyB_k28 (by decide +kernel)
theorem keyB_r30 : rounds (roundKey keyB) 30 ⟨0, 0, 0, 0⟩ = (⟨0xFFC74E7F, 0xE8689648, 0xA868B4D6, 0xAC05FFF7⟩ : Quad Word) := r_next keyB_r29 keyB_k29 (by decide +kernel)
theorem keyB_r31 : rounds (roundKey keyB) 31 ⟨0, 0, 0, 0⟩ = (⟨0x20DCF856, 0x108AEB44, 0xA134F85A, 0xCB98F258⟩ : Quad Word) := r_next keyB_r30 keyB_k30 (by decide +kernel)
theorem keyB_e : encrypt (roundKey keyB) 32 ⟨0, 0, 0, 0⟩ = (⟨0x82EF0819, 0xC0EBD21A, 0x66BF28CB, 0xABED96E7⟩ : Quad Word) := e_last keyB_r31 keyB_k31 keyB_k32 (by decide +kernel)

/-- The ciphertext. -/
theorem keyB_serpent : serpent keyB (List.replicate 16 0) = [0x19, 0x08, 0xEF, 0x82, 0x1A, 0xD2, 0xEB, 0xC0, 0xCB, 0x28, 0xBF, 0x66, 0xE7, 0x96, 0xED, 0xAB] := by
  rw [serpent, onBytes, show ofBytes (List.replicate 16 0) = ⟨0, 0, 0, 0⟩ from by decide +kernel, keyB_e]
  decide +kernel

end Cex.Spec.Serpent.Vectors
