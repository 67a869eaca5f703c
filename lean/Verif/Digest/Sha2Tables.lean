import Verif.Base
import Verif.Digest.Sha2Spec

/-!
# Tables of the SHA-2 code

Copied from the source text by script. The unrolled permutations are straight-line code in which every round is
the same three assignments with rotated variable names, preceded from round 16 on by an update of one of the
sixteen schedule variables; a `Step` records which names and constant a round uses.
-/

namespace Cex.Digest
open Cex Cex.Digest.Fips

/-- `W<dst> += Theta1(W<s1>) + W<add> + Theta0(W<s0>)`, e.g. SHA2.h:446. -/
structure Upd where
  dst : Nat
  s1 : Nat
  add : Nat
  s0 : Nat
deriving DecidableEq

/-- One unrolled round: how far the names A…H are rotated, the schedule update before it, the index of the
schedule variable and the constant. -/
structure Step (w : Nat) where
  rot : Nat
  upd : Option Upd
  wi : Nat
  k : BitVec w
deriving DecidableEq

/-- `SHA2256_RC64` (SHA2.cpp:7-17). -/
def rc256 : List (BitVec 32) := [
  0x428A2F98, 0x71374491, 0xB5C0FBCF, 0xE9B5DBA5, 0x3956C25B, 0x59F111F1, 0x923F82A4, 0xAB1C5ED5,
  0xD807AA98, 0x12835B01, 0x243185BE, 0x550C7DC3, 0x72BE5D74, 0x80DEB1FE, 0x9BDC06A7, 0xC19BF174,
  0xE49B69C1, 0xEFBE4786, 0x0FC19DC6, 0x240CA1CC, 0x2DE92C6F, 0x4A7484AA, 0x5CB0A9DC, 0x76F988DA,
  0x983E5152, 0xA831C66D, 0xB00327C8, 0xBF597FC7, 0xC6E00BF3, 0xD5A79147, 0x06CA6351, 0x14292967,
  0x27B70A85, 0x2E1B2138, 0x4D2C6DFC, 0x53380D13, 0x650A7354, 0x766A0ABB, 0x81C2C92E, 0x92722C85,
  0xA2BFE8A1, 0xA81A664B, 0xC24B8B70, 0xC76C51A3, 0xD192E819, 0xD6990624, 0xF40E3585, 0x106AA070,
  0x19A4C116, 0x1E376C08, 0x2748774C, 0x34B0BCB5, 0x391C0CB3, 0x4ED8AA4A, 0x5B9CCA4F, 0x682E6FF3,
  0x748F82EE, 0x78A5636F, 0x84C87814, 0x8CC70208, 0x90BEFFFA, 0xA4506CEB, 0xBEF9A3F7, 0xC67178F2]

/-- `SHA2512_RC80` (SHA2.cpp:19-31). -/
def rc512 : List (BitVec 64) := [
  0x428A2F98D728AE22, 0x7137449123EF65CD, 0xB5C0FBCFEC4D3B2F, 0xE9B5DBA58189DBBC,
  0x3956C25BF348B538, 0x59F111F1B605D019, 0x923F82A4AF194F9B, 0xAB1C5ED5DA6D8118,
  0xD807AA98A3030242, 0x12835B0145706FBE, 0x243185BE4EE4B28C, 0x550C7DC3D5FFB4E2,
  0x72BE5D74F27B896F, 0x80DEB1FE3B1696B1, 0x9BDC06A725C71235, 0xC19BF174CF692694,
  0xE49B69C19EF14AD2, 0xEFBE4786384F25E3, 0x0FC19DC68B8CD5B5, 0x240CA1CC77AC9C65,
  0x2DE92C6F592B0275, 0x4A7484AA6EA6E483, 0x5CB0A9DCBD41FBD4, 0x76F988DA831153B5,
  0x983E5152EE66DFAB, 0xA831C66D2DB43210, 0xB00327C898FB213F, 0xBF597FC7BEEF0EE4,
  0xC6E00BF33DA88FC2, 0xD5A79147930AA725, 0x06CA6351E003826F, 0x142929670A0E6E70,
  0x27B70A8546D22FFC, 0x2E1B21385C26C926, 0x4D2C6DFC5AC42AED, 0x53380D139D95B3DF,
  0x650A73548BAF63DE, 0x766A0ABB3C77B2A8, 0x81C2C92E47EDAEE6, 0x92722C851482353B,
  0xA2BFE8A14CF10364, 0xA81A664BBC423001, 0xC24B8B70D0F89791, 0xC76C51A30654BE30,
  0xD192E819D6EF5218, 0xD69906245565A910, 0xF40E35855771202A, 0x106AA07032BBD1B8,
  0x19A4C116B8D2D0C8, 0x1E376C085141AB53, 0x2748774CDF8EEB99, 0x34B0BCB5E19B48A8,
  0x391C0CB3C5C95A63, 0x4ED8AA4AE3418ACB, 0x5B9CCA4F7763E373, 0x682E6FF3D6B2B8A3,
  0x748F82EE5DEFB2FC, 0x78A5636F43172F60, 0x84C87814A1F0AB72, 0x8CC702081A6439EC,
  0x90BEFFFA23631E28, 0xA4506CEBDE82BDE9, 0xBEF9A3F7B2C67915, 0xC67178F2E372532B,
  0xCA273ECEEA26619C, 0xD186B8C721C0C207, 0xEADA7DD6CDE0EB1E, 0xF57D4F7FEE6ED178,
  0x06F067AA72176FBA, 0x0A637DC5A2C898A6, 0x113F9804BEF90DAE, 0x1B710B35131C471B,
  0x28DB77F523047D84, 0x32CAAB7B40C72493, 0x3C9EBE0A15C9BEBC, 0x431D67C49C100D4C,
  0x4CC5D4BECB3E42B6, 0x597F299CFC657E2A, 0x5FCB6FAB3AD6FAEC, 0x6C44198C4A475817]

/-- `SHA2256State` (SHA2.cpp:33-43). -/
def iv256 : V8 32 := ⟨0x6A09E667, 0xBB67AE85, 0x3C6EF372, 0xA54FF53A, 0x510E527F, 0x9B05688C, 0x1F83D9AB, 0x5BE0CD19⟩

/-- `SHA2512State` (SHA2.cpp:57-67). -/
def iv512 : V8 64 :=
  ⟨0x6A09E667F3BCC908, 0xBB67AE8584CAA73B, 0x3C6EF372FE94F82B, 0xA54FF53A5F1D36F1, 0x510E527FADE682D1, 0x9B05688C2B3E6C1F, 0x1F83D9ABFB41BD6B, 0x5BE0CD19137E2179⟩

/-- The rounds of `PermuteR64P512U` (SHA2.h:397-639). -/
def steps256 : List (Step 32) := [
  ⟨0, none, 0, 0x428A2F98⟩,
  ⟨1, none, 1, 0x71374491⟩,
  ⟨2, none, 2, 0xB5C0FBCF⟩,
  ⟨3, none, 3, 0xE9B5DBA5⟩,
  ⟨4, none, 4, 0x3956C25B⟩,
  ⟨5, none, 5, 0x59F111F1⟩,
  ⟨6, none, 6, 0x923F82A4⟩,
  ⟨7, none, 7, 0xAB1C5ED5⟩,
  ⟨0, none, 8, 0xD807AA98⟩,
  ⟨1, none, 9, 0x12835B01⟩,
  ⟨2, none, 10, 0x243185BE⟩,
  ⟨3, none, 11, 0x550C7DC3⟩,
  ⟨4, none, 12, 0x72BE5D74⟩,
  ⟨5, none, 13, 0x80DEB1FE⟩,
  ⟨6, none, 14, 0x9BDC06A7⟩,
  ⟨7, none, 15, 0xC19BF174⟩,
  ⟨0, some ⟨0, 14, 9, 1⟩, 0, 0xE49B69C1⟩,
  ⟨1, some ⟨1, 15, 10, 2⟩, 1, 0xEFBE4786⟩,
  ⟨2, some ⟨2, 0, 11, 3⟩, 2, 0x0FC19DC6⟩,
  ⟨3, some ⟨3, 1, 12, 4⟩, 3, 0x240CA1CC⟩,
  ⟨4, some ⟨4, 2, 13, 5⟩, 4, 0x2DE92C6F⟩,
  ⟨5, some ⟨5, 3, 14, 6⟩, 5, 0x4A7484AA⟩,
  ⟨6, some ⟨6, 4, 15, 7⟩, 6, 0x5CB0A9DC⟩,
  ⟨7, some ⟨7, 5, 0, 8⟩, 7, 0x76F988DA⟩,
  ⟨0, some ⟨8, 6, 1, 9⟩, 8, 0x983E5152⟩,
  ⟨1, some ⟨9, 7, 2, 10⟩, 9, 0xA831C66D⟩,
  ⟨2, some ⟨10, 8, 3, 11⟩, 10, 0xB00327C8⟩,
  ⟨3, some ⟨11, 9, 4, 12⟩, 11, 0xBF597FC7⟩,
  ⟨4, some ⟨12, 10, 5, 13⟩, 12, 0xC6E00BF3⟩,
  ⟨5, some ⟨13, 11, 6, 14⟩, 13, 0xD5A79147⟩,
  ⟨6, some ⟨14, 12, 7, 15⟩, 14, 0x06CA6351⟩,
  ⟨7, some ⟨15, 13, 8, 0⟩, 15, 0x14292967⟩,
  ⟨0, some ⟨0, 14, 9, 1⟩, 0, 0x27B70A85⟩,
  ⟨1, some ⟨1, 15, 10, 2⟩, 1, 0x2E1B2138⟩,
  ⟨2, some ⟨2, 0, 11, 3⟩, 2, 0x4D2C6DFC⟩,
  ⟨3, some ⟨3, 1, 12, 4⟩, 3, 0x53380D13⟩,
  ⟨4, some ⟨4, 2, 13, 5⟩, 4, 0x650A7354⟩,
  ⟨5, some ⟨5, 3, 14, 6⟩, 5, 0x766A0ABB⟩,
  ⟨6, some ⟨6, 4, 15, 7⟩, 6, 0x81C2C92E⟩,
  ⟨7, some ⟨7, 5, 0, 8⟩, 7, 0x92722C85⟩,
  ⟨0, some ⟨8, 6, 1, 9⟩, 8, 0xA2BFE8A1⟩,
  ⟨1, some ⟨9, 7, 2, 10⟩, 9, 0xA81A664B⟩,
  ⟨2, some ⟨10, 8, 3, 11⟩, 10, 0xC24B8B70⟩,
  ⟨3, some ⟨11, 9, 4, 12⟩, 11, 0xC76C51A3⟩,
  ⟨4, some ⟨12, 10, 5, 13⟩, 12, 0xD192E819⟩,
  ⟨5, some ⟨13, 11, 6, 14⟩, 13, 0xD6990624⟩,
  ⟨6, some ⟨14, 12, 7, 15⟩, 14, 0xF40E3585⟩,
  ⟨7, some ⟨15, 13, 8, 0⟩, 15, 0x106AA070⟩,
  ⟨0, some ⟨0, 14, 9, 1⟩, 0, 0x19A4C116⟩,
  ⟨1, some ⟨1, 15, 10, 2⟩, 1, 0x1E376C08⟩,
  ⟨2, some ⟨2, 0, 11, 3⟩, 2, 0x2748774C⟩,
  ⟨3, some ⟨3, 1, 12, 4⟩, 3, 0x34B0BCB5⟩,
  ⟨4, some ⟨4, 2, 13, 5⟩, 4, 0x391C0CB3⟩,
  ⟨5, some ⟨5, 3, 14, 6⟩, 5, 0x4ED8AA4A⟩,
  ⟨6, some ⟨6, 4, 15, 7⟩, 6, 0x5B9CCA4F⟩,
  ⟨7, some ⟨7, 5, 0, 8⟩, 7, 0x682E6FF3⟩,
  ⟨0, some ⟨8, 6, 1, 9⟩, 8, 0x748F82EE⟩,
  ⟨1, some ⟨9, 7, 2, 10⟩, 9, 0x78A5636F⟩,
  ⟨2, some ⟨10, 8, 3, 11⟩, 10, 0x84C87814⟩,
  ⟨3, some ⟨11, 9, 4, 12⟩, 11, 0x8CC70208⟩,
  ⟨4, some ⟨12, 10, 5, 13⟩, 12, 0x90BEFFFA⟩,
  ⟨5, some ⟨13, 11, 6, 14⟩, 13, 0xA4506CEB⟩,
  ⟨6, some ⟨14, 12, 7, 15⟩, 14, 0xBEF9A3F7⟩,
  ⟨7, some ⟨15, 13, 8, 0⟩, 15, 0xC67178F2⟩]

/-- The rounds of `PermuteR80P1024U` (SHA2.h:1331-1639). -/
def steps512 : List (Step 64) := [
  ⟨0, none, 0, 0x428A2F98D728AE22⟩,
  ⟨1, none, 1, 0x7137449123EF65CD⟩,
  ⟨2, none, 2, 0xB5C0FBCFEC4D3B2F⟩,
  ⟨3, none, 3, 0xE9B5DBA58189DBBC⟩,
  ⟨4, none, 4, 0x3956C25BF348B538⟩,
  ⟨5, none, 5, 0x59F111F1B605D019⟩,
  ⟨6, none, 6, 0x923F82A4AF194F9B⟩,
  ⟨7, none, 7, 0xAB1C5ED5DA6D8118⟩,
  ⟨0, none, 8, 0xD807AA98A3030242⟩,
  ⟨1, none, 9, 0x12835B0145706FBE⟩,
  ⟨2, none, 10, 0x243185BE4EE4B28C⟩,
  ⟨3, none, 11, 0x550C7DC3D5FFB4E2⟩,
  ⟨4, none, 12, 0x72BE5D74F27B896F⟩,
  ⟨5, none, 13, 0x80DEB1FE3B1696B1⟩,
  ⟨6, none, 14, 0x9BDC06A725C71235⟩,
  ⟨7, none, 15, 0xC19BF174CF692694⟩,
  ⟨0, some ⟨0, 14, 9, 1⟩, 0, 0xE49B69C19EF14AD2⟩,
  ⟨1, some ⟨1, 15, 10, 2⟩, 1, 0xEFBE4786384F25E3⟩,
  ⟨2, some ⟨2, 0, 11, 3⟩, 2, 0x0FC19DC68B8CD5B5⟩,
  ⟨3, some ⟨3, 1, 12, 4⟩, 3, 0x240CA1CC77AC9C65⟩,
  ⟨4, some ⟨4, 2, 13, 5⟩, 4, 0x2DE92C6F592B0275⟩,
  ⟨5, some ⟨5, 3, 14, 6⟩, 5, 0x4A7484AA6EA6E483⟩,
  ⟨6, some ⟨6, 4, 15, 7⟩, 6, 0x5CB0A9DCBD41FBD4⟩,
  ⟨7, some ⟨7, 5, 0, 8⟩, 7, 0x76F988DA831153B5⟩,
  ⟨0, some ⟨8, 6, 1, 9⟩, 8, 0x983E5152EE66DFAB⟩,
  ⟨1, some ⟨9, 7, 2, 10⟩, 9, 0xA831C66D2DB43210⟩,
  ⟨2, some ⟨10, 8, 3, 11⟩, 10, 0xB00327C898FB213F⟩,
  ⟨3, some ⟨11, 9, 4, 12⟩, 11, 0xBF597FC7BEEF0EE4⟩,
  ⟨4, some ⟨12, 10, 5, 13⟩, 12, 0xC6E00BF33DA88FC2⟩,
  ⟨5, some ⟨13, 11, 6, 14⟩, 13, 0xD5A79147930AA725⟩,
  ⟨6, some ⟨14, 12, 7, 15⟩, 14, 0x06CA6351E003826F⟩,
  ⟨7, some ⟨15, 13, 8, 0⟩, 15, 0x142929670A0E6E70⟩,
  ⟨0, some ⟨0, 14, 9, 1⟩, 0, 0x27B70A8546D22FFC⟩,
  ⟨1, some ⟨1, 15, 10, 2⟩, 1, 0x2E1B21385C26C926⟩,
  ⟨2, some ⟨2, 0, 11, 3⟩, 2, 0x4D2C6DFC5AC42AED⟩,
  ⟨3, some ⟨3, 1, 12, 4⟩, 3, 0x53380D139D95B3DF⟩,
  ⟨4, some ⟨4, 2, 13, 5⟩, 4, 0x650A73548BAF63DE⟩,
  ⟨5, some ⟨5, 3, 14, 6⟩, 5, 0x766A0ABB3C77B2A8⟩,
  ⟨6, some ⟨6, 4, 15, 7⟩, 6, 0x81C2C92E47EDAEE6⟩,
  ⟨7, some ⟨7, 5, 0, 8⟩, 7, 0x92722C851482353B⟩,
  ⟨0, some ⟨8, 6, 1, 9⟩, 8, 0xA2BFE8A14CF10364⟩,
  ⟨1, some ⟨9, 7, 2, 10⟩, 9, 0xA81A664BBC423001⟩,
  ⟨2, some ⟨10, 8, 3, 11⟩, 10, 0xC24B8B70D0F89791⟩,
  ⟨3, some ⟨11, 9, 4, 12⟩, 11, 0xC76C51A30654BE30⟩,
  ⟨4, some ⟨12, 10, 5, 13⟩, 12, 0xD192E819D6EF5218⟩,
  ⟨5, some ⟨13, 11, 6, 14⟩, 13, 0xD69906245565A910⟩,
  ⟨6, some ⟨14, 12, 7, 15⟩, 14, 0xF40E35855771202A⟩,
  ⟨7, some ⟨15, 13, 8, 0⟩, 15, 0x106AA07032BBD1B8⟩,
  ⟨0, some ⟨0, 14, 9, 1⟩, 0, 0x19A4C116B8D2D0C8⟩,
  ⟨1, some ⟨1, 15, 10, 2⟩, 1, 0x1E376C085141AB53⟩,
  ⟨2, some ⟨2, 0, 11, 3⟩, 2, 0x2748774CDF8EEB99⟩,
  ⟨3, some ⟨3, 1, 12, 4⟩, 3, 0x34B0BCB5E19B48A8⟩,
  ⟨4, some ⟨4, 2, 13, 5⟩, 4, 0x391C0CB3C5C95A63⟩,
  ⟨5, some ⟨5, 3, 14, 6⟩, 5, 0x4ED8AA4AE3418ACB⟩,
  ⟨6, some ⟨6, 4, 15, 7⟩, 6, 0x5B9CCA4F7763E373⟩,
  ⟨7, some ⟨7, 5, 0, 8⟩, 7, 0x682E6FF3D6B2B8A3⟩,
  ⟨0, some ⟨8, 6, 1, 9⟩, 8, 0x748F82EE5DEFB2FC⟩,
  ⟨1, some ⟨9, 7, 2, 10⟩, 9, 0x78A5636F43172F60⟩,
  ⟨2, some ⟨10, 8, 3, 11⟩, 10, 0x84C87814A1F0AB72⟩,
  ⟨3, some ⟨11, 9, 4, 12⟩, 11, 0x8CC702081A6439EC⟩,
  ⟨4, some ⟨12, 10, 5, 13⟩, 12, 0x90BEFFFA23631E28⟩,
  ⟨5, some ⟨13, 11, 6, 14⟩, 13, 0xA4506CEBDE82BDE9⟩,
  ⟨6, some ⟨14, 12, 7, 15⟩, 14, 0xBEF9A3F7B2C67915⟩,
  ⟨7, some ⟨15, 13, 8, 0⟩, 15, 0xC67178F2E372532B⟩,
  ⟨0, some ⟨0, 14, 9, 1⟩, 0, 0xCA273ECEEA26619C⟩,
  ⟨1, some ⟨1, 15, 10, 2⟩, 1, 0xD186B8C721C0C207⟩,
  ⟨2, some ⟨2, 0, 11, 3⟩, 2, 0xEADA7DD6CDE0EB1E⟩,
  ⟨3, some ⟨3, 1, 12, 4⟩, 3, 0xF57D4F7FEE6ED178⟩,
  ⟨4, some ⟨4, 2, 13, 5⟩, 4, 0x06F067AA72176FBA⟩,
  ⟨5, some ⟨5, 3, 14, 6⟩, 5, 0x0A637DC5A2C898A6⟩,
  ⟨6, some ⟨6, 4, 15, 7⟩, 6, 0x113F9804BEF90DAE⟩,
  ⟨7, some ⟨7, 5, 0, 8⟩, 7, 0x1B710B35131C471B⟩,
  ⟨0, some ⟨8, 6, 1, 9⟩, 8, 0x28DB77F523047D84⟩,
  ⟨1, some ⟨9, 7, 2, 10⟩, 9, 0x32CAAB7B40C72493⟩,
  ⟨2, some ⟨10, 8, 3, 11⟩, 10, 0x3C9EBE0A15C9BEBC⟩,
  ⟨3, some ⟨11, 9, 4, 12⟩, 11, 0x431D67C49C100D4C⟩,
  ⟨4, some ⟨12, 10, 5, 13⟩, 12, 0x4CC5D4BECB3E42B6⟩,
  ⟨5, some ⟨13, 11, 6, 14⟩, 13, 0x597F299CFC657E2A⟩,
  ⟨6, some ⟨14, 12, 7, 15⟩, 14, 0x5FCB6FAB3AD6FAEC⟩,
  ⟨7, some ⟨15, 13, 8, 0⟩, 15, 0x6C44198C4A475817⟩]

end Cex.Digest
