# Formal model of CEX in Lean 4

## Trusted base
* The Lean 4.33.0 kernel. Every theorem listed in MANIFEST.json depends at most on
  `propext`, `Classical.choice`, `Quot.sound` (checked by `#print axioms`/the gate).
  No own axioms, `sorry`, `native_decide` or `bv_decide`.
* The reading of the C++ source. The code is not executed here; the tie between model and
  code is the citation (`CEX/File.cpp:lines`) on each definition.
* Platform assumptions built in the model: little-endian target (`CEX_IS_LITTLE_ENDIAN`),
  64-bit `size_t`, `CEXASSERT` compiled out (release build), the scalar (non-AVX) code paths unless
  a definition says otherwise.

## Conventions
* Bytes are `BitVec 8`, words `BitVec 16/32/64`; C++ buffers are `List Byte`.
* Possibly failing code lives in `M α = Except Fault α` (`Verif/Base.lean`):
  `Fault.ub` is C++ undefined behaviour (out-of-range access, division by zero, ...);
  `Fault.throws c` is a C++ exception with its error code. A theorem that says `f x = .ok y`
  therefore also says that no UB occurs and no exception is thrown.
* `size_t` arithmetic that can wrap is modelled with explicit `% 2^64` where the wrap matters
  (for instance `Output.size() - OutOffset`), otherwise `Nat` with the bound stated.
* Block ciphers, hash compression functions and permutations inside modes/MACs/KDFs are parameters
  (arbitrary functions); the theorems hold for every instantiation.
* Layout: `Verif/<Area>/Model.lean` (definitions with citations), `.../Spec.lean`
  (independent specification where it needs its own file), `.../Lemmas.lean` (helpers),
  `.../Props.lean` (property theorems, counter-examples and non-vacuity examples).

## Per-property plan
(see MANIFEST.json for theorem names; the table is extended as the model grows)

| id | modelled | how proved |
|----|----------|-----------|
| C01 | byte writers/readers over buffers | positional value, list update lemmas |
| C02 | do/while increment loops | induction on carry chain; value = +1 mod 256^n |
| C03 | increase loops | exact characterisation of the carry; negation witness (carry lost), partial theorem |
| C04 | Compare/Verify loops | induction on length |
| C05 | mask helpers at each width | BitVec reasoning |
| C06-C10 | four padders, both overloads | loop invariants; negation witnesses for unchecked bytes |
| C11-C18 | six block modes, sequential and parallel engines, abstract block cipher | induction over blocks/segments |
| C19 | parallel profile | invariant over operation sequences |
| C20-C23, C28 | GCM/GHASH/CMUL/GMAC | state machine model; streaming refinement; GF(2^128) refinement |
| C24-C26 | HBA | two-party simulation, suffix decoding |
| C27, C29-C31 | CMAC/HMAC/KMAC/Poly1305 | streaming refinement, modular arithmetic |
| C32, C33 | serialisation, streams | round trip, refinement to abstract file |
| C34, C35 | KDFs | loop = specification stream |
| C36-C38 | SHA2, Keccak framing | streaming refinement; collision witnesses |

## What is modelled, area by area

* **Block cipher modes** (`Verif/Modes`): `Transform` of ECB, CBC, CFB, OFB, CTR, ICM with their sequential, SIMD-wide
  (width parameter `W`, blocks per group) and parallel paths. `ParallelFor` is modelled as interleavings: a task is a
  list of atomic actions on private state and the shared output array, a schedule is any list of task indices in which
  every task gets enough turns (`Fair`; this is the join in `ParallelFor`). Input and output are different arrays; the
  in-place use is not modelled for the modes. The wide cipher calls are modelled as the block function on each block
  (the SIMD cipher code itself is not modelled). Key setup and name strings are not modelled.
* **ParallelOptions** (`Verif/Options`): the three constructors, `Detect`, both `Calculate`, the setters and the write
  through `IsParallel()`; CPU feature detection results are parameters. `Reset` is not modelled.
* **CMAC** (`Verif/Mac/Cmac*`): `Initialize`, `Update`, `Finalize` (both), `Compute`, `Reset`, `DoubleLu`, `Pad`; the
  block cipher is an arbitrary length-preserving function, key-size checks are a Boolean parameter. Specification:
  RFC 4493 over a message (`CmacSpec`). Start states are all states reachable by any sequence of successful calls.
* **SHA-2** (`Verif/Digest/Sha2*`): both compression functions of SHA256Compress/SHA512Compress (compact and unrolled) are
  modelled and proved equal to FIPS 180-4 (`Sha2Spec`; `sha256_abc` pins the spec to the published digest). `SHA2256` and
  `SHA2512` share one model (`Core w` + `Obj w`), with their differences (counter update, length field, which offset is
  cleared) as fields read off each class. `Update`, `Reset`, `Finalize`, `Compute` in sequential and parallel mode; in
  parallel mode the leaves are run one after the other (each task touches only its own leaf state, so no interleaving is
  modelled). Parameter blocks of the leaves are arbitrary blocks. SIMD (AVX2/AVX512) leaf code is not modelled.
* **HMAC** (`Verif/Mac/Hmac*`, `Verif/Digest/Interface`): all public functions over an arbitrary digest object satisfying the
  streaming laws `DigestOps.Hashes`, which the sequential SHA-2 models are proved to satisfy. Specification: RFC 2104.
  The `SecureVector` overload does not check its bounds; the theorem is for buffers with room.
* **HKDF** (`Verif/Kdf/Hkdf*`): constructors, `Initialize`, `Extract`, `Expand`, the `Generate` overloads, `Reset`, over the HMAC
  model. Specification: RFC 5869 `T(i)`. Histories (`Hkdf.Run`) leave out `Extract` called by the user on a keyed instance and
  re-initialisation without info after one with info (C34_reinit_false).
* **KDF2, PBKDF2** (`Verif/Kdf/Kdf2Model`, `Kdf2Props`, `Pbkdf2Props`): all public functions over the digest interface and the
  HMAC model. Specifications: ISO 18033-2 KDF2 and RFC 8018 `F(P,S,c,i)`. Re-initialisation without salt after one with salt
  is left out of the histories (it is wrong, see below).
* **GHASH, GMAC** (`Verif/Gcm`): `CMUL::PermuteR128P128U/C` (one scalar model; the unrolled source was checked by script to repeat the
  compact round) and `PermuteR128P128V` at the level of the SSE/PCLMULQDQ intrinsics, whose meaning is defined in `CmulModel`; all
  functions of GHASH and GMAC except the `SecureVector` overload of `Finalize`. `Field` proves SP 800-38D Algorithm 1 equal to
  multiplication in GF(2)[x] mod x^128+x^7+x^2+x+1 (Mathlib polynomials); `CmulVec` proves the intrinsics version equal to it by
  linearity (the reduction is checked on the 256 unit vectors, which determines it). Specification: SP 800-38D (`GhashSpec`).
### GCM (C20, C21, C22, C42, C43)

- Model: `Verif/Gcm/GcmModel.lean`, all of `GCM::Initialize`, `SetAssociatedData`, `Transform`, `Finalize`, `Verify` (GCM.cpp:185-408) over the CTR model (any SIMD width, any valid parallel
  profile, any schedule) and the GHASH model. Exceptions return the state and output they leave. The block cipher is a parameter `cip key info`. Not modelled: locked memory, `Destroy`,
  overlapping input and output, the profile test inside the CTR object (taken to pass).
- Spec: `Verif/Gcm/GcmSpec.lean`: SP 800-38D Algorithm 4 (`Nist.seal`), and the same with a 128-bit counter and separate hash key (`sealed`).
- Reachable states: `Gcm.Reach`, any calls with any arguments including throwing ones. `Usable`: not initialised, or no pending AAD and a nonce that is not 12 bytes long.
- Theorems: `Verif/Gcm/GcmProps.lean`. The ones ending in `_false` are universal over the cipher except for the two witnesses `C22_stale_nonce_false`, `C42_counter_false` and
  the profile witness `C20_cross_profile_false`.
### HBA (C24, C25, C26)

- Model: `Verif/Hba/Model.lean`: `HBA::Initialize`, `SetAssociatedData`, `Transform`, `Encrypt128`, `Decrypt128`, `Finalize`, `Verify` (HBA.cpp:185-540) over the ICM model (`Verif/Modes`) and
  an abstract MAC (`Verif/Mac/Interface.lean`) and key derivation function (`Env.gen`). Exceptions of HBA itself return the state they leave; exceptions of the inner objects end the run
  without a state (simplification). Not modelled: locked memory, `Destroy`, overlapping arrays.
- Spec: `Verif/Hba/Spec.lean`: the text under the MAC.
- Reachable states: `Hba.Reach`, any calls with any arguments within the arrays, including calls that throw.
- Instances: `Verif/Hba/Instances.lean`: `hmacEnv` is HBA with HMAC over any digest that meets `DigestOps.Hashes` and HKDF over the SHA2 model; `toyEnv` carries the counterexamples.
  KMAC and Poly1305 authenticators: through the interface only.
### Keccak: permutation, sponge, SHA3, SHAKE, KMAC (C30, C38, C44, C45, C46)

- Model: `Verif/Keccak/PermModel.lean` (`Permute`, `PermuteR24P1600U`, `PermuteR48P1600U`: the assignments of one round in order; the unrolled functions repeat that text with other
  variable names, checked by reading), `Model.lean` (`Absorb`, `LeftEncode`, `RightEncode`, `Customize`, `Squeeze`, `CXOFP1600`, `XOFP1600`, `Compute`, `LoadKey`), `IncModel.lean`
  (`Incremental`, `SqueezePartial`, `MACP1600`), `Objects.lean` (classes SHA3256/SHA3512 in sequential mode, KMAC, SHAKE). The SHA3 tree is in C91. Not modelled: the SIMD permutations (P2x, P4x, P8x).
- Spec: `PermSpec.lean` (FIPS 202 chapter 3, with the shift register and the walk that generate constants and offsets), `Spec.lean` (sponge, SHA3, SHAKE, cSHAKE, KMAC).
- Reachable states: `Sha3.Run`, `Kmac.Run`, `Shake.Run`; sequences of `Incremental` calls: `Incs`.
- Theorems: `PermProps`, `SpongeProps`, `MacpProps`, `Sha3Props`, `KmacProps`, `KmacExamples`, `ShakeProps`. HMAC over SHA3 follows from C29 (`C29_hmac_sha3_256`, `C29_hmac_sha3_512`).
- NIST sample values are evaluated with the model of the code (`sha3_256_abc`, `kmac128_sample`, `cshake128_sample`, `shake128_empty`) to check the model.
### Poly1305 and Donna128 (C31)

- Model: `Verif/Poly/Model.lean`: `Donna128` (operators used by Poly1305, with the exchange of halves in `operator>>` and `CarryShift`), the limb arithmetic of `Absorb` and `Finalize` on
  64-bit words, and the class with its buffering. `CEX_NATIVE_UINT128` is defined nowhere, so the Donna128 branch is the one compiled. Modelled is the portable branch of `Mul64x64To128`; the
  `_umul128` and inline assembler branches (Donna128.h:328-336) are assumed to compute the same product.
- Spec: `Spec.lean`, RFC 8439 section 2.5 on natural numbers.
- Proof: `DonnaLemmas` (exact 128-bit arithmetic), `LimbLemmas` (one block: value modulo 2^130-5 and limb bounds; carry, selection, pad, clamping), `Lemmas` (buffering), `Props`
  (`Poly1305.Run`: reachable objects; theorems; instance of the MAC interface; RFC 8439 test vector for spec and code).
### Key containers (C32, C47)

- Model: `Verif/Keys/Model.lean`: `SymmetricKey` constructor, Serialize, DeSerialize (the text of `SymmetricSecureKey` is the same), `SymmetricKeySize`, `AsymmetricKey`. An array is its bytes;
  wiping on destruction is not modelled.
- Spec and proofs: `Props.lean`; the format is written out (`wire`), and `C32_deserialize` gives the outcome for every byte stream.
### Streams (C33)

- Model: `Verif/Streams/Model.lean`: `MemoryStream`, `StreamWriter`, `StreamReader` with 64-bit positions that wrap. Not modelled: `FileStream`; `StreamWriter::Write` for arrays of wider
  integers; `StreamReader::Read` (its body contains the expression `()` and cannot be instantiated); failure of allocation.
- Spec: `Spec.lean`: a byte list with a cursor, as a relation between requests and answers.
- Proof: `Props.lean`: simulation over all sequences of calls.
### Cipher stream (C39)

- Model: `Verif/CStream/Model.lean`: both versions of `BlockTransform` over an abstract mode and padding (a parallel mode is any engine with a parallel block size); a loop that misses its end is UB.
  `Engines.lean` puts in the modes of `Verif/Modes`, with a schedule per call. Not modelled: progress events, key set-up, ECB as engine.
- Proof: `Lemmas.lean` (loops), `Writes.lean` (what one `Write` does, per branch), `Props.lean`.
### Random generators (C48, C49)

- Model: `Verif/Random/Model.lean`: the buffering of `SecureRandom`, `BCR`, `CSR`, `HCR` over an abstract source, and the rejection loops over given samples. C48 takes the source as an arbitrary byte
  sequence (reseeding is part of it); C49 counts over all sequences of samples. That a sample is the little-endian value of the next 2, 4 or 8 bytes is a bijection and not modelled again. Not
  modelled: the DRBGs and providers themselves, `NextDouble`, failing sources. `Fill` for `SecureVector` of 32 and 64-bit numbers is declared but not defined in the code.
- Proof: `Lemmas.lean` (one call takes rising positions), `Props.lean` (sessions), `Count.lean` (counting), `Range.lean`.
### Stream ciphers (C50, C51)

- Model: `Verif/SCipher/Model.lean` (`Generate`, `Process`, `ProcessParallel`, `ProcessSequential` over an abstract block function and counter, with the three variants of the parallel split and tasks as
  interleaved programs over one output buffer), `ChaChaProg.lean` (the programs of ChaCha.h, transcribed by script), `ChaCha.lean` (the templates on 32/64-bit words and on SIMD lanes; `Initialize`/`Load`
  without authentication). TSX and RCS/RWS are proved for an arbitrary block function, of which only the length of the result is used.
- Spec: `Spec.lean` (keystream), `ChaChaSpec.lean` (quarter round, column and diagonal rounds, feed-forward).
- Proof: lane programs are homomorphic images of the word program, programs are compared symbolically; parallel processing by the commuting-task theorem of `Par.lean`.
- Not modelled: authentication (next section if present), intrinsics below the level of lane-wise operations, key schedules of RCS/RWS/TSX.
### Authenticated stream ciphers (C52)

- Model: `Verif/SCipher/Auth.lean`: key derivation with cSHAKE, `SetAssociatedData`, `Finalize`, `Transform` in both directions over an abstract engine (C50) and KMAC (C30).
- Spec: keystream of C51 under the derived key, `chachaText`/`csxText` (the authenticated encodings), KMAC of SP 800-185.
- Proof: `Talk` is the inductive set of pairs of objects in step; `C52_*_partial` hold for each of them. The first tag is KMAC over the encoding; injectivity of the encodings is `C52_chacha_text` and
  `C52_csx_text`.
- TSX and RCS/RWS have the same code shape (`tsxFmt`, `rcsFmt` are defined); their key schedules are not modelled.
### State objects of the stream ciphers (C53, C54)

- Model: `Verif/SCipher/Ser.lean`: `Serialize`, `DeSerialize` and the constructors from a state; `Custom` across `Reset` and `Initialize`; the round key bytes of RCS.
- Spec: the layout of a saved state, used only inside the proof; the statements are about the composition.
- Not modelled: `CEX_EXTENDED_AESNI`, in which the round keys of RCS are `__m256i` but saved, cleared and restored with `sizeof(__m128i)`, so that half of them is lost (RCS.cpp:44, 89, 117, 175, 193).
### Rijndael: RHX, RCS, RWS (C55, C56)

- Model: `Verif/Rijndael/Model.lean` and `Tables.lean`: the scalar rounds of Rijndael.h (lookup tables and row shifts extracted verbatim), `StandardExpand`, `Encrypt128`, `Decrypt128`, `Transform256`, `Transform512` and the wide functions.
  `Ni.lean`: the AES-NI code, over registers as 4 x 4 byte states, with the documented meaning of `aesenc`, `aesdec`, `aesimc`, `aeskeygenassist`, `pshufb`, `pblendvb` and the shifts; key expansion, key inversion, RCS with its masks.
- Spec: `Spec.lean`: FIPS 197 from the field GF(2^8): S-box as inversion and affine map, ShiftRows, MixColumns, the cipher and its inverse for any number of columns, key expansion by recursion.
- Theorems: `Props.lean`; the vectors of FIPS 197 appendix C in `Vectors.lean`.
- Lookup tables are compared with the algebraic S-box over all 256 entries.
- Not modelled: AVX-512 paths (the one in RCS.cpp names `m_acsState` and `ACS::` and does not compile), cache prefetching, in-place calls of the wide functions, the KDF behind `SecureExpand` (a parameter; C34, C44).
- `niInvertKeys` applies `aesimc` twice to the middle pair if the number of rounds is odd; all numbers of rounds in use (10 to 38) are even, which the proofs need and show.
### Serpent: SHX (C57)

- Model: `Verif/Serpent/Boxes.lean`: the sixteen S-box programs of Serpent.h, instruction by instruction, extracted by script; `Model.lean`: rounds over words and, with the same definitions, over vector registers of any number of lanes (`EncryptW`, `DecryptW`), `Transpose` from the unpack instructions, the key schedules, `Initialize`, `Transform` to `Transform2048` of the four builds.
- Spec: `Spec.lean`: Serpent with S-boxes as the tables of 16 nibbles, applied to the 32 columns; linear transformation; key schedule by recursion. `Vectors.lean` computes the first NESSIE vector from it in the kernel.
- Theorems: `Props.lean`. The programs are compared with the tables over all 16 inputs of one bit position and lifted to 32 columns and to all lanes by a homomorphism (`Lemmas.lean`).
- The KDF of `SecureExpand` is a parameter; in-place calls of the wide functions are not modelled. The branch of `StandardExpand` for 64-byte keys cannot be reached, since without a KDF no key is longer than 32 bytes.
### Kyber: arithmetic (C58)

- Model: `Verif/Kyber/ArithModel.lean`, with the loops over layers, blocks and butterflies in `Verif/Lattice/Loop.lean`. `int16_t` and `int32_t` are integers; narrowing wraps, overflow of `int` is undefined behaviour. Uninitialised `Poly` objects are arbitrary lists of 256 values in the theorems (zeros for the temporary of `PolyVecBaseMulAccMontgomery`, which is overwritten before use).
- Spec: `Verif/Kyber/Spec.lean` and `mul` in `Verif/Lattice/Ntt.lean`.
- Theorems: `ArithProps.lean`. The layers are related to the formula of the transform by splitting polynomials (`ev_layer`), the inverse by cancelling layers, products by evaluation in the rings F[X]/(X^2 - g) (Mathlib's `QuadraticAlgebra`).
### Kyber: encodings and sampling (C59, C60)

- Models: `Verif/Kyber/CodecModel.lean`, `Verif/Kyber/SampleModel.lean`; scalar build. Loops over groups of coefficients are `packLoop` and `unpackLoop` (`Verif/Lattice/Codec.lean`); the bodies are transcribed. The loop of `GenMatrix` that draws more bytes has no bound and takes fuel. The AVX2 variants are not modelled.
- Spec: `Verif/Kyber/SchemeSpec.lean`: numbers of `d` bits of a byte string, rounding as the nearest integer, `CBD`, `Parse` as a relation to the SHAKE-128 stream.
- Theorems: `CodecProps.lean`, `SampleProps.lean`; the concrete seeds in `SampleExamples.lean`.
### Kyber: the mechanism (C61)

- Model: `Verif/Kyber/KemModel.lean`, from the key pair down to the object. The draws of the generator are arguments. `Samples` says which coefficients the code draws for the matrix, `IsMatrix` which it should; C60 relates them.
- Spec: `Verif/Kyber/KemSpec.lean` writes the schemes with coefficient polynomials; the transform occurs only in the encodings. `NoFailure` is the condition under which decryption returns the message.
- Theorems: `Verif/Kyber/KemProps.lean`; `KemExamples.lean` meets all conditions for a permutation that ignores its argument (the theorems hold for any).
- Not modelled: the AVX2 variants (KyberBase.cpp:480-1344). Read, not proved: `Cbd3` reads 8 bytes past a buffer of 192 for K = 2, `PolyDecompressAvx2P160` 6 bytes past the ciphertext for K = 4, 5, `RejUniformAvx2` 2 bytes past 506.
### CSG (C62)

- Model: `Verif/Drbg/CsgModel.lean`; the provider's bytes are arguments of the calls that may read them. `Csg.Run` ranges over all histories.
- Spec: `Epoch` (sponge state after seeding, bytes served, calls of the permutation) and SP 800-185 of `Verif/Keccak`.
- Not modelled: destruction, the state after an exception, the SIMD Keccak.
### HCG (C63)

- Model: `Verif/Drbg/HcgModel.lean` over the HMAC model of C29 and an arbitrary digest. Spec: `Chain` in `HcgSpec.lean`; `HEpoch.pull` in `HcgLemmas.lean` is the machine the code really runs, with the zeroing.
- Theorems: `HcgProps.lean`, `HcgExamples.lean`.
- Not modelled: destruction, state after an exception.
### BCG (C64)

- Model: `Verif/Drbg/BcgModel.lean` over the SHAKE model of C44, the wide Rijndael model of C56 and the stream-cipher engine (`SCipher`). Tasks of `Process` run under an arbitrary schedule.
- Spec: `Tally` and `answer` in `BcgSpec.lean`, using cSHAKE and the wide Rijndael function only. Lemmas: `BcgLemmas.lean`. Theorems: `BcgProps.lean`, `BcgExamples.lean`.
- Not modelled: destruction and `IsDestroyed`, state after an exception, `CEX_ENFORCE_LEGALKEY`.
### BLAKE2, sequential (C65)

- Model: `Verif/Blake/Model.lean`, tables in `Tables.lean` extracted from Blake.h. Both permutations (rolled and unrolled) of both classes; one parametrised object for the two classes. The tree functions are in the model too.
- Spec: `Verif/Blake/Spec.lean`, written from RFC 7693. It gives the digests of "abc" printed in the RFC (`blake2_abc`).
- Lemmas: `PermLemmas.lean`, `Lemmas.lean`. Theorems: `Props.lean`, `Examples.lean`.
- `C65_digest_interface` makes the theorems on HMAC, HKDF, PBKDF2, KDF2 and HCG apply to BLAKE2.
- Not modelled: the AVX2/AVX512 permutations (Blake.h), destruction, `Blake2Params` copies.
- `LeIncreaseW` copies an array onto itself with `memcpy`; this is taken as a no-op.
### BLAKE2, tree mode (C66)

- Model: `Verif/Blake/Model.lean` (`largeTree`, `shiftTree`, `processLeaf`, `finalTree`), `TreeModel.lean` (constructor, `ParallelMaxDegree`). `ParallelFor` is a loop over the leaves, since a task writes only its own state.
- Theorems: `TreeProps.lean`, concrete runs in `TreeExamples.lean`. All are refutations; `C66_collision` holds for every fan-out and every message of sufficient length.
- Not proved: a positive characterisation of the tree digest.
### Dilithium, arithmetic (C67)

- Model: `Verif/Dilithium/ArithModel.lean` (scalar build; `int32_t` and `int64_t` operations fail on overflow, except the product in `MontReduce`, which wraps; `montReduceStrict` is the version without that exception).
- Specification: `Spec.lean` (transform, `Power2Round`, `Decompose`, `UseHint`, `MakeHint`, norm; round 3 specification, sections 2.2 to 2.4). `NttAlg.lean` proves the algebra of the transform, `NttLemmas.lean` and `RoundLemmas.lean` the loops.
- Theorems: `ArithProps.lean`.
- Not modelled: the AVX2 variants.
### Dilithium, encodings (C68)

- Model: `Verif/Dilithium/CodecModel.lean` (the bit expressions of each packing loop, `PackPk` to `UnpackSig`).
- Specification: `CodecSpec.lean` (numbers of `d` bits in little-endian order by `Spec.Lattice.encode`, positions and counts of the hints).
- Proofs: `PackLemmas.lean` (each bit expression against the little-endian number), `CodecLemmas.lean`, `HintLemmas.lean`, `KeyLemmas.lean`; loops over vectors in `Verif/Lattice/Vec.lean`. Theorems: `CodecProps.lean`.
- Simplified: loops that copy or clear byte by byte are one copy; the write of a cleared hint polynomial is one write.
### Dilithium, sampling (C69)

- Model: `Verif/Dilithium/SampleModel.lean`; loops without a known bound take fuel and end in `Fault.diverges`.
- Specification: `SampleSpec.lean` (residues and small coefficients as filters on byte strings, `SampleInBall` as an inductive relation on the infinite output of the sponge).
- Proofs: `Verif/Keccak/StreamLemmas.lean` (output of the sponge block by block), `SampleLemmas.lean`, `EtaLemmas.lean`, `BallLemmas.lean`. Theorems: `SampleProps.lean`.
- Not modelled: the AVX builds (`*x4` functions, DLTMPolyMath.cpp:1937-2058 and the parallel SHAKE).
### Dilithium, the scheme (C70-C72)

- Model: `Verif/Dilithium/SchemeModel.lean` (`DLTMBase.h` and the vector functions of `DLTMPolyMath.cpp`, scalar build, without `DILITHIUM_RANDOMIZED_SIGNING`), `ObjModel.lean` (the class). The generator is the 32 bytes it gives. `std::length_error` is the outcome `none` of `Obj.verify`. Lengths are natural numbers; sums that do not fit into `size_t` cannot occur for vectors in memory.
- Specification: `SchemeSpec.lean` follows figure 4 of the round 3 document with products in `Z_q[X] / (X^256 + 1)`; it uses neither transforms nor code. The code folds the tests on `w0` and the hints into other formulas; `SchemeAlg.lean` proves them equal.
- Proofs: `VecLemmas.lean`, `SchemeAlg.lean`, `SchemeCorrect.lean` (signatures of the specification are valid), `SchemeLemmas.lean`, `SignLemmas.lean`, `SignProof.lean`, `VerifyProof.lean`, `GenProof.lean`. Theorems: `SchemeProps.lean`.
- Sampling loops take fuel: every theorem says "or is still sampling", and `C71_accepts`, `C72_sign_found` say that enough fuel exists when the specification gives a result.
- Example: `SchemeExamples.lean` has a permutation for which all three sets generate, sign and verify every message (`toy_run`), so no hypothesis is vacuous.
- Not modelled: the AVX2 build, the constructors' exceptions, `AsymmetricKey` with a primitive other than Dilithium.
### Threefish permutations (C73, C74)

- Model: `Verif/Threefish/Lang.lean` is a language of straight-line programs (`Bi += ...`, `Bi = RotL64(Bi, r) ^ Bj`, final additions), `SkeinProgs.lean` and `ThreeProgs.lean` are the unrolled functions of `Skein.h` and `Threefish.h` in it, statement by statement. `Compact.lean` is a language of the loops with the moving indices `x` and `y`, over `uint64_t` or over SIMD words (lanewise operations); `LoopProgs.lean` has the three loops. The programs were transcribed by a script that stopped at any line it did not know.
- Specification: `Spec.lean`, from section 3.3 of the Skein paper, with functions on `Fin n`.
- Proof: `Lemmas.lean` writes a program from the tables of the paper and proves that it computes the rounds, for any tables; `CompactLemmas.lean` turns a loop into a program and a SIMD loop into its lanes; `Same.lean` compares statement lists by evaluation. Theorems: `Props.lean`.
- Not modelled: `PemuteR72P512V`; the intrinsics behind `ULong256`, `ULong512` are taken as lanewise operations.
### Skein digests (C75, C76)

- Model: `Verif/Skein/Model.lean`, one model for `Skein256.cpp`, `Skein512.cpp` and `Skein1024.cpp` (line numbers are those of Skein512.cpp) with the permutations of `Verif/Threefish`; `SkeinParams` (constructor from sizes, `GetConfig`) and `SkeinUbiTweak`; the parallel profile is the one of `Verif/Options`.
- Specification: `Spec.lean` from the Skein paper (UBI, configuration string, output function); `TreeSpec.lean` describes the tree of the library, which is not the one of section 3.5.6 of the paper: the root node starts from the encrypted sequential configuration without feed-forward and keeps the type Config, and all its blocks have the final flag; a lane without data in the last row contributes its chaining value without an output transform.
- Theorems: `Props.lean` (C75), `TreeProps.lean` (C76).
- Simplified: tasks of `ParallelFor` run on separate lanes and are modelled one after the other; `ProcessLeaf` with a length that is no multiple of the minimum size is undefined behaviour. The serialised form of `SkeinParams` and `SkeinParams::Equals` are in C96.
### SPHINCS+ (C77, C78)

- Model: `Verif/Sphincs/Model.lean`: the templates of `SPXBase.h` for the four parameter structures, the address functions of `SPXBase.cpp`, and Keccak through `Keccak.xof` of `Verif/Keccak`. `unsigned long` is a parameter, since `(~0UL) >> (32 - LEAFBITS)` depends on it.
- Specification: `Spec.lean`: trees by recursion (`node`, `path`, `climb`), WOTS+ chains, FORS, the layers, `sign` and `Valid`, with an abstract hash. `Correct.lean` proves there that every signature is valid (`sign_valid`), without the model.
- Theorems: `Props.lean`. The stack algorithm of `TreeHash` is `TreeLemmas.lean`: for a leaf index inside the tree it computes root and path; for one beyond, it leaves the path as it was.
- The hash functions follow the code: masks from the seed (robust variant) with the rate of the parameter set, secret values always with rate 136, and an unusual order of the bits of the FORS indices. No test vectors of the standard are claimed.
- The key generator is a parameter: `stmp` and `optrand` are arbitrary bytes. The object `SphincsPlus` (state flags, key objects) is not modelled; the sizes of the keys are hypotheses.
- The witnesses of `C77_refuted_*` use a private key whose root is zero: the root of a generated key costs 2^18 hashes. `C77_stale` is for all keys.
### Stateless SHA-2 (C79)

- Model: `Verif/Digest/Sha2Static.lean`: `Compute256/384/512`, `MACR64P512`, `MACR80P1024` of `SHA2.h` over the permutations of `Verif/Digest`. Specification: `Fips` (with `sha384` added, its initial value computed from the primes) and `Rfc2104`.
- Theorems: `Sha2StaticProps.lean`.
### XMSS (C80-C82)

- Model: `Verif/Xmss/Model.lean`: `XmssCore.cpp` and the tables of `XmssUtils.cpp`, function by function; text shared with the SPHINCS+ engine is taken from its model. Not modelled: the checks of the `XMSS` object (its state flags), the random generator.
- Specification: `Verif/Xmss/Spec.lean` (RFC 8391: WOTS+, L-trees, XMSS and XMSS-MT as one hyper-tree, keys with the pseudorandom key generation the reference code uses); `Correct.lean` proves that each one-time key makes valid signatures.
- Theorems: `Props.lean`; `Lemmas.lean`, `TreeLemmas.lean` (the stack of the tree hash and the path), `LayerLemmas.lean`, `CoreLemmas.lean` lead there. All hash functions enter through `Hashes`; its four instances come from C79 and C38.
### Curve25519 (C83-C85)

- Model: `Verif/Ec25519/Model32.lean` (field element of ten 32-bit limbs; every signed operation is checked for overflow), `Model64.lean` (five limbs with 128-bit products), the ladder, `ScalarMultCurve25519`, `Ed25519SmallOrder` and `ECDH::KeyExchange`. The Edwards points are C86; not modelled: the scalars modulo the group order (`Sc25519*`) and ECDSA.
- Specification: `Verif/Ec25519/Spec.lean`: X25519 of RFC 7748 on natural numbers; `rfc_vector` evaluates it on the test vector of the RFC.
- Theorems: `Props.lean`; `Lemmas32.lean`, `MulLemmas.lean`, `OpLemmas.lean`, `CodecLemmas.lean`, `ReduceLemmas.lean`, `BytesLemmas.lean`, `LadderLemmas.lean`, `KexLemmas.lean` for the 32-bit path, `Lemmas64.lean`, `Codec64.lean` for the other.
- `Prime.lean` proves that 2^255-19 is prime (Lucas' criterion down a tree of factors), `Group.lean` the doubling and differential addition in Mathlib's group of the curve, `Agreement.lean` that X25519 computes multiples of a point over the algebraic closure, hence commutes.
### Edwards points and ECDH key generation (C86)

- Model: `Verif/Ed25519/Ops.lean`: `Ge25519*` of the build with 32-bit limbs that key generation uses (additions of table entries, doublings, constant-time choice, recoding of the scalar), `ScalarmultCurve25519Ref10Base`, `ECDH::Generate`; `Table.lean` is the table of the source, number by number. Signed overflow is undefined. The digest is a parameter, instantiated with the models of SHA2-512 and SHA3-512.
- Proof: `Edwards.lean` maps Mathlib's group of the Montgomery curve to the twisted Edwards curve and proves that the addition formula never divides by zero and is the addition of the group; `Points.lean` proves the formulas of the code in all coordinate systems; `TableCheck.lean` checks every entry in the kernel; `Scalar.lean` proves the recoding and the two passes over the digits. The result is X25519 of the independent specification of C83-C85.
- Simplified: the eight conditional moves are a loop over the row; `Generate()` draws the seed and continues as `Generate(Seed)`.
- Not modelled: the same functions of the build with 128-bit integers.
### Scalars of Ed25519 (C87)

- Model: `Verif/Ed25519/ScModel.lean`: both functions are straight-line programs on 24 signed 64-bit variables; the sequence of statements is data (`Op`), executed by `run` with overflow undefined, unsigned wrapping where the source has `1ULL`, and arithmetic right shifts. The loads and stores are tables of byte, offset and shift.
- Proof: `ScLemmas.lean` proves once that a program accepted by an interval checker runs without overflow and keeps the value modulo L; the checker is run by the kernel on the programs. `ScBytes.lean` proves the loads and stores by bits, `ScReduce.lean` and `ScMulAdd.lean` the range of the result.
- Simplified: the sums of products are loops; the six statements of a fold are one `Op`.
### Ed25519 signatures (C88)

- Spec: `Verif/Ed25519/Rfc8032.lean`: points as pairs of residues, the affine addition law, `mul` by repeated addition, `encode`, `publicKey`, `sign`, `Valid` (the equation without the cofactor). It shares only the prime, the inverse and the byte encodings with `Ec25519/Spec.lean`.
- Model: `SigModel.lean`: `slide`, the tables of odd multiples, `DoubleScalarMultVartime`, the decoding with the square root, the canonicity tests, `edSign`, `edVerify`, and the object `Ecdsa` with its flags. Digests enter as a function; `sha2_hash` and `sha3_hash` connect the digest objects of C36 and C45.
- Proof: `Slide.lean` (the recoding has the value of the scalar), `DoubleMul.lean` (a A + b B in the group of C86), `Decode.lean` (square roots modulo p), `OrderEval.lean` and `Order.lean` (L B = 0, by kernel evaluation of the model of the base multiplication, proved right in C86, and the isomorphism with the points of the spec), `LPrime.lean` (L is prime, by a Pratt certificate), `SigLemmas.lean`, `SigStd.lean`.
- Hypothesis: `Hash digest H N`: the digest gives H for inputs shorter than N; met by both digests of the class (2^61 - 128 and 2^64 bytes).
- Not modelled: `Generate` without a seed (it draws the seed from a DRBG), the key containers.
### SCBKDF (C89)

- Spec: `Verif/Keccak/ScbSpec.lean`: the cycles as a fold over (state, cache) with the growth rule as a parameter: `described` (the cache below the memory cost) and `implemented`. Model: `ScbModel.lean`. Proof: `ScbProps.lean`, by an invariant over all call sequences (`Scb.Run`).
### KPA (C90)

- Spec: `Verif/Keccak/KpaSpec.lean`: eight sponges over the stripes of the message and a root sponge, written with the sponge of FIPS 202 and the encodings of SP 800-185. There is no publication of KPA, so the constants are those of the code.
- Model: `KpaModel.lean`, scalar build. Simplified: the pad of the key stage is taken fresh, squeezed blocks do not pass through `Buffer`.
- Proof: `KpaLemmas.lean` (a loop over the leaves is a map; eight-block absorption is absorption of stripes), `KpaProps.lean` (invariant over all call sequences, `Kpa.Run`).
- Hypotheses: message and output below 2^53 bytes; from there the two encoded lengths can exceed the 16 bytes of `prcb`.
### The SHA3 tree and KeccakParams (C91, C92)

- Model: `Verif/Keccak/Sha3TreeModel.lean`, one text for SHA3256.cpp and SHA3512.cpp (branches with `IsParallel()`), with the profile of `Verif/Options/Model.lean` and KeccakParams.cpp. Simplified: the tasks of `ParallelFor` work on different states and run one after the other; the SIMD branches are left out.
- Spec: `Sha3TreeSpec.lean`: columns of the message, parameter blocks, root, written with the sponge of FIPS 202. There is no publication of the tree, so it describes what the code does with all leaves in use.
- Proof: `Sha3TreeLemmas.lean` (a row is a step of an eager stream over the vector of leaves), `Sha3TreeFinal.lean` (Reset and Finalize), `Sha3TreeProps.lean` (all call sequences, `Tree.Run`), `Sha3TreeParams.lean`.
- Hypotheses: at least one processor, an L1 cache of at least 2048 bytes and eight blocks (64 with given parameters).
### DigestStream and MacStream (C93)

- Model: `Verif/Streams/HashModel.lean`: the loops over parallel blocks, blocks and the rest, for arrays and for the `MemoryStream` of C33; a loop whose counter misses its end is `diverges`. The events are not modelled, only where their argument is undefined. `MacOps.finalize` stands for the overload that is used.
- Proof: `Verif/Streams/HashProps.lean`, over the interfaces `DigestOps.Hashes` and `MacOps.Macs`. Not modelled: `FileStream`.
### SecureStream (C94)

- Model: `Verif/Streams/SecureModel.lean`, on the model of CTR (C16, C17): every `Transform` is a fresh CTR call with its own schedule. The digest of the system strings is a parameter.
- Specification: the file of C33. Proof: `Verif/Streams/SecureProps.lean`; AES from C55.
- Not modelled: `Destroy`, `CopyTo`, `SetLength`, the system strings, allocation failure.
### SymmetricSecureKey and AsymmetricSecureKey (C95)

- Model: `Verif/Keys/SecureModel.lean`: constructors, `Encipher`, `Extract`, the accessors, `Clone`, `Serialize`, the choice of the cipher. The stream cipher and SHAKE over the system strings are parameters.
- Proof: `Verif/Keys/SecureProps.lean`; the condition `Eng.Seals` is what C50 and C52 prove for the modelled stream ciphers; a small cipher meets it (`toy_good`). Not modelled: TSX256, TSX512 and TSX1024 as objects.
### SHA2Params, BlakeParams and SkeinParams (C96)

- Model: `Verif/Params/Model.lean`: the constructors, `ToBytes`, `Clone`, `Equals`, `GetHashCode`, `Reset` of BlakeParams. SHA2Params shares the type and the functions of KeccakParams (`Verif/Keccak/Sha3TreeModel.lean`), the statements being the same but for the size test. `ToBytes` is the concatenation of its adjacent writes; a `resize` above `max_size()` is an exception.
- Proof: `Verif/Params/Props.lean`. Not modelled: the references that the accessors return (a caller can give the distribution code any length; `C92_roundtrip` and `C96_blake_small` say what happens then).
### SymmetricKeyGenerator (C97)

- Model: `Verif/Keys/GenModel.lean`: the four public functions and the private `Generate`, over the SHAKE model of C44 and an arbitrary source of seeds. Proof: `Verif/Keys/GenProps.lean`.
- Not modelled: the providers themselves (ACP, CJP, CSP, ECP, RDP read the system state); a provider that throws makes the call throw.
### MemoryPool and LockingAllocator (C98, C99)

- Model: `Verif/Pool/Model.lean`: the whole of MemoryPool.cpp over a byte array at an address, with use of an iterator after erasure as undefined behaviour, and `allocate`/`deallocate` of LockingAllocator.cpp. Proof: `Verif/Pool/Props.lean`.
- The hypotheses of `C98_new` hold for the pool of LockingAllocator (pages are aligned to 16, the least block is 16 bytes). A least block of 0 bytes is not covered.
- Not modelled: SecureMemory (system calls), the fallback to `calloc`, threads.
### Factories (C100)

- Model: `Verif/Factory/Model.lean`: the switches of the five factories with their exception handlers, the generator that RHX and SHX make, `FromDescription`, `Enumeral` of all made classes, the two constructors of MacStream. Enumeration values are numbers; the exceptions have their own type, because the class of the exception decides which handler takes it. Proof: `Verif/Factory/Props.lean`; the tables of names are finite and decided by the kernel for all 256 values.
- Not modelled: the factories of paddings, modes, AEAD modes, providers, DRBGs and asymmetric ciphers; the overloads of `KdfFromName` for KdfDigests and of `MacFromName` for StreamAuthenticators.
### Names of enumerations (C101)

- Model: `Verif/Factory/NamesModel.lean`: the tables of `ToName` and `FromName` in the order of the source and the enumerators of the headers, transcribed by a script that counts the cases. Proof: `Verif/Factory/NamesProps.lean`; finite tables are decided by the kernel.
- Not modelled: the conversions that only call another one (BlockCiphers, StreamCiphers, KyberParameters and so on), ExceptionTypes, Kms.
### McEliece field arithmetic (C102)

- Model: `Verif/McEliece/Model.lean` (GfAdd, GfMultiply, GfSq2, GfSqMul, GfSq2Mul, GfFrac, GfInv, GfIsZero, SameMask, Eval, MinMax32, MinMax64 of MPKCUtils.cpp). Specification: `Verif/McEliece/Spec.lean` (multiplication by x modulo x^13+x^4+x^3+x+1, Horner).
- Proof: `Lemmas.lean` and `Square.lean` show that every function is additive over GF(2) in each argument, also the products by two-bit masks, which do not carry for 13-bit operands; additive functions that agree on the powers of x are equal (`Lin.ext`), and the 13, 169 or 2197 products of powers of x are evaluated by the kernel. x has order 8191 (a prime), so every element but 0 is a power of x, which gives the inverse and the exponent 8190 of `GfFrac`. Properties: `Props.lean`.
- Not modelled: the Benes network, the Berlekamp-Massey and transposition routines, and the MPKCN* encodings.
### McEliece error vectors and decapsulation (C103)

- Model: `Verif/McEliece/KemModel.lean` (LoadGf, GenE, Decrypt, CheckCPadding, Decapsulate and Encapsulate with and without the padding). The key-dependent syndrome and locator functions and XOFP1600 are parameters; the theorems hold for all of them, with syndromes of 2t elements below 2^13 (C102: the products are masked to 13 bits) and a hash of the requested length.
- The eight writes to one byte of E are one fold; the indices of E are in range because SYS_N is a multiple of 8. In MPKCN8192T128 every 13-bit index is below SYS_N, so `collect` keeps all of them; that set draws t instead of 2t indices, which the list of draws covers.
- Proof: `Verif/McEliece/KemProps.lean`. `C103_roundtrip` has the correctness of the decoder for the given error vector as its hypothesis (`Decodes`). Not modelled: SupportGen, ApplyBenes, Bm, PkGen, Generate; so no statement that the decoder of a generated key is correct.
### McEliece syndrome (C104)

- Model: `Verif/McEliece/SyndModel.lean`. The public key is given as the list of its rows; the eight writes to one byte of S are one fold; the shift of a row in place from the end is written as a function of the old bytes. Specification and proof: `Verif/McEliece/SyndProps.lean` (bits of strings, inner product, parity of a byte).
### McEliece Benes network and support (C105)

- Model: `Verif/McEliece/BenesModel.lean`. Strings of 1024 bytes are 128 little-endian words, control bits 25 blocks of 64 words; the arrays [2][64] are one array of 128 words (LayerEx goes through a pointer to the first row into the second, which the model takes as contiguous memory). The loops over disjoint pairs are written as functions of the old words. ControlBits (the computation of control bits of a given permutation) is not modelled.
- Proof: `Verif/McEliece/BenesProps.lean`: each stage of the transposition exchanges one bit of row and column index; each layer is an involution given by a permutation of positions; the order of the layers is a palindrome.
### McEliece decryption with the syndromes of the Goppa code (C106)

- Model: `Verif/McEliece/GoppaModel.lean` (Synd; the decoder Bm and Root stay an arbitrary function, so the theorems do not depend on it). Proof: `Verif/McEliece/GoppaProps.lean`: elimination of one term at a time (Vandermonde) in the field of C102; the supports have different elements by C105; joined with the check of Decrypt from C103.
- Not proved: that Bm and Root find every error vector of weight t (correctness of Berlekamp-Massey), so C103_roundtrip keeps the hypothesis that the decoder finds the vector.
### Scalar helpers of IntegerTools (C107)

- Model: `Verif/Scalar/Model.lean`: the rotations of the build without intrinsics (shifts by the width or more are undefined), Parity, IsPowerOf2, ModPowerOf2, Crop, IntToHex, HexToInt, ToHex of bytes, FromHex. `strtol` is modelled for strings of hexadecimal digits with a 64-bit `long`; blanks, sign and prefix are not modelled. Proof: `Verif/Scalar/Props.lean`.
### Word counters (C108)

- Model: `Verif/Scalar/CounterModel.lean` (LeIncrementW and both LeIncreaseW for any word width; the two arrays of the second LeIncreaseW are different, the call with one array for both is C65). Proof: `Verif/Scalar/CounterProps.lean`.
### BlockToBe and BeToBlock (C109)

- Model: `Verif/Scalar/BlockModel.lean` (little-endian machine; BlockToBe with offsets, BeToBlock per word). Proof: `Verif/Scalar/BlockProps.lean`.
<!-- areas end -->

## Findings (disagreements between code and property)

Each is proved as a theorem (`..._false` or a named witness) next to the partial result.

* C03: `BeIncrease8`/`LeIncrease8` lose a carry when a byte sum meets 0xFF plus carry.
* C05: `CMax`, `CMin`, 16-bit `DiffMask` do not compute what their names say for all inputs.
* C10: padding `GetPaddingLength` accepts malformed padding (unchecked bytes).
* C14: CFB silently ignores the last `Length % RegisterSize` bytes; registers below 8 bytes shift with an overlapping
  `memcpy`.
* C17: with more than 0xFF00 cipher blocks per parallel block, a task can start from a wrong counter block (C03), so
  parallel and sequential CTR/ICM disagree.
* C18: counter modes throw away the rest of the last keystream block of each call, so unaligned chunking changes the
  bytes.
* C19: `SetMaxDegree` accepts odd degrees and degrees above the processor count; the auto-configured block size can be
  zero with parallelism on; switching parallelism on through the `IsParallel()` reference can make every
  transformation divide by zero.
* C27: after `Finalize(vector)` the CMAC object keeps its buffer position, masked buffer and chaining value, so a second
  message on the same instance (including a second `Compute`) does not get its own tag unless `Initialize` is called.
* C36: `SHA2512::HashFinal` takes the low word of the bit length before, and the high word after, an extra padding block
  is compressed (which advances the counter); the field is
  wrong for lengths within a block below a multiple of 2^61 bytes (`C36_sha512_long_false`).
* C37: the root of the parallel SHA-2 tree hashes leaf slots at `RATE_SIZE` spacing but counts `DIGEST_SIZE` per leaf, so
  only the first half of the leaves enters the digest; messages that differ in the other half collide.
* C34: HKDF accepts a request of `255*TagSize + 1` bytes (and more); the counter byte then wraps and the next request repeats
  `T(1)` (`C34_repeat`). Re-initialising without info hashes as many zero bytes as the old info was long
  (`C34_reinit_false`). `Generate` into a `SecureVector` at a non-zero offset writes outside a temporary (`C34_secure_ub`).
* C35: KDF2 and PBKDF2 read past the nonce when both nonce and info are given (`C35_kdf2_info_ub`, `C35_pbkdf2_info_ub`); KDF2
  without nonce ignores the info of keys up to one block (`C35_kdf2_info_ignored`); a salt once given stays, zeroed, after
  re-initialisation without one (`C35_*_reinit_false`); `Generate` into a `SecureVector` at a non-zero offset writes outside a
  temporary (`C35_*_secure_ub`); PBKDF2 takes zero iterations as 2^64 (`C35_pbkdf2_zero`) and accepts keys of 4 to 7 bytes it
  can then not use (`C35_pbkdf2_short_key`).
- **GCM, nonce-only `Initialize`** (GCM.cpp:187-221): `m_macAuthenticator->Reset` zeroes the hash key and it is not restored. Tags do not depend on ciphertext or associated data
  (`C21_nonce_only_false`); nonces of other sizes than 12 are all mapped to the zero block (`C22_nonce_ignored_false`).
- **GCM, failed `Initialize`**: the hash key is cleared before the checks and `Initialized` stays true (`C21_failed_init_false`).
- **GCM, `Initialize` in the middle of a message**: bytes 12 to 14 of `Nonce` keep old keystream bytes (GCM.cpp:254-258, `C22_stale_nonce_false`); `AAD` is cleared but keeps its size,
  so `SetAssociatedData` throws (`C22_pending_aad_false`).
- **GCM counter**: 128-bit increment instead of `inc32` (`C42_counter_false`).
- **GCM info string**: used for the hash key only (`C43_info_ignored_false`).
- **GCM with parallel profiles above 16*0xFF00 bytes**: sealed data is opened to a different text by a sequential instance, with a valid tag (`C20_cross_profile_false`).
- Not stated as theorems: the nonce-repetition test compares with the buffer after it was cleared (GCM.cpp:190, 213); an encrypting `Transform` on an instance that is not initialised
  writes ciphertext before it throws; the legal key sizes of GCM contain 16, which extended ciphers then refuse.
- **HBA, rejected forgery** (HBA.cpp:398-420, 455-508): `Verify` calls `Finalize`, which replaces the MAC key and advances the counter before the comparison. After one forged
  message the opener stays initialised and rejects every genuine message (`C24_after_forgery_false`).
- **HBA, exception on a short output array**: the nonce is given to the MAC before the size test, so the next sealed message is rejected (`C24_after_exception_false`).
- **HBA::SetAssociatedData** tests `Length - Offset > Input.size()` (HBA.cpp:347): windows whose offset exceeds their length are refused (`C24_offset_refused_false`).
- **HBA MAC input**: empty items leave no trace, and the 32-bit length makes items beyond 2^32 - 4 bytes ambiguous (`C25_empty_item_false`, `C25_large_items_false`).
- Not stated as theorems: with an HMAC authenticator a key of 16, 24 or 128 bytes gives a 32-byte cipher key (HBA.cpp:287-296).
- **KMAC::Finalize** (KMAC.cpp:157-172) writes the encoded output length and the domain byte behind the buffered message without testing for the end of the block; what does not fit into
  the rate is lost. KMAC512: `m` and `m || 02 00` have the same tag when `|m|` is 69 modulo 72, for every key (`C30_collision`). KMAC256: the 32 byte tag is a prefix of the 33 byte tag
  when `|m|` is 135 modulo 136 (`C30_lengths`).
- **KMAC reuse**: after `Finalize` the object stays initialised but holds the squeezed state, so the next tag does not depend on the key as specified (`C30_reuse_false`).
- **Keccak::Customize** (Keccak.h:394-396): the length of the customization is encoded behind the name without a test; wrong state, and writes behind a 200 byte array
  (`C38_customize_false`, `C38_customize_overflow`, through KMAC: `C38_kmac_overflow`).
- **Keccak::Incremental** (Keccak.h:310-319): the word buffer keeps bytes from the first step (`C38_incremental_false`). The callers in Dilithium use aligned positions (`C38_incremental_two`).
- **Keccak::MACP1600** (Keccak.h:614-620): for a message whose length is a multiple of the rate, the last block still contains bytes of the padded key (`C38_mac_false`).
- **SHAKE::Generate**: a partly used block is dropped (`C44_split_false`); the counter is not advanced by whole blocks, so the limit does not hold (`C44_limit_false`).
- **Donna128::operator>> and operator<<** (Donna128.h:79-112) construct the result with `(high, low)` where the constructor takes `(Low, High)`: the halves are exchanged
  (`C31_donna_shr_not_shift`). `CarryShift` exchanges them once more, so Poly1305 is not affected.
- **SymmetricKey::Serialize** (SymmetricKey.cpp:242-273) writes lengths as 16 bits: a part of 65536 bytes or more never comes back (`C32_long_false`), and one of exactly 65536 bytes is lost
  without any sign (`C32_long_silent`). **DeSerialize** (210-240) does not compare the lengths with the stream: every truncated stream is read past its end (`C32_truncated_ub`);
  the same for streams under three bytes in `AsymmetricKey`.
- **SymmetricKeySize::Contains** treats a size of 0 as a wildcard (`C32_contains_false`).
- **MemoryStream::Read** (MemoryStream.cpp:130-133) compares `Offset + Length`, where `Offset` belongs to the caller's array, with the bytes left: asked for fewer bytes than are left, into a
  window not at the front, it may deliver all that are left, past the window and past the array (`C33_read_false`). After a seek beyond the end `Read`, `WriteByte` and `ReadByte`
  access memory outside of the stream (`C33_beyond_end`).
- **CipherStream** (CipherStream.cpp:173-343): a message of exactly one block is not processed, the output keeps what it held (`C39_one_block_false`, `C39_one_block_counter_false`). Messages of two
  or more whole blocks are encrypted without padding, but decryption always removes one: with PKCS#7 a message ending in 01 loses that byte (`C39_aligned_false`). With an output offset, encryption
  of the last block writes behind the resized output (`C39_offset_ub`). Decryption of less than a block reads behind the input (`C39_short_ub`).
- **CSR and HCR** (CSR.cpp:82-93, HCR.cpp:85-96): `Generate(std::vector, Offset, Length)` asks for `Output.size()` bytes into a temporary of `Length`: undefined whenever the range is not the whole
  vector (`C48_csr_part_ub`). An `Offset` behind the end wraps the check of all three (`C48_bcr_offset_ub`).
- **SecureRandom::NextInt*** (SecureRandom.cpp:235-280 and the 32 and 64-bit versions): negative samples that are multiples of the modulus are accepted as 0, so the lowest number of the range comes about
  twice as often; `NextInt16(2)` is 0 on 32767 samples and 1 on 16383 (`C49_bit`). Ranges of half the type or more overflow (`C49_signed_range_ub`); `NextInt16(32767, -32767)` always returns -32767
  (`C49_int16_constant`). `NextUInt*` over the full type divides by zero (`C49_unsigned_full_ub`).
- **ChaChaP20 and CSX512 parallel** (ChaChaP20.cpp:743-757, CSX512.cpp:681-695): the keystream of the unaligned tail is generated at the offset of the tail without `OutOffset`. With a non-zero output
  offset the tail of the ciphertext is the old content of the output XOR the plaintext, so it leaves in the clear in a zeroed buffer, and earlier output is overwritten (`C50_offset_leak`,
  `C50_chacha_leak`). ChaChaP20 cuts the block offset of a task to 32 bits: wrong from 2^38 bytes in one call.
- **RCS and RWS parallel** (RCS.cpp:846, RWS.cpp:779): tasks start at `LeIncrease8` over the whole nonce, which loses carries (C03) and does not wrap at 16 bytes as `LeIncrement` does; the output then
  differs from the sequential one exactly for the counters in `BadJump` (`C50_rcs_false`).
- **ChaChaP20 authentication** (ChaChaP20.cpp, Initialize and Finalize): the MAC key depends on the key only and the text does not contain nonce or code. A receiver with another nonce or code accepts the
  message and outputs the XOR with both keystreams (`C52_nonce_false`). CSX512 adds the nonce to the text, but not the code.
- **A refused message desynchronises the cipher**: counter, nonce and MAC have moved on when `Transform` throws, and the genuine message is then refused as well (`C52_recover_false`). An input that ends
  before the tag is read out of range instead of refused (`C52_short_ub`).
- **Length field of associated data** (CSX512, TSX, RCS, RWS): 32 bits, so one string of 2^32 + n bytes can collide with two strings (`C52_aad_collision`).
- **Serialised ChaChaP20 and CSX512 without authentication** (ChaChaP20.h:139, CSX512.h:140): a saved state has 97 and 193 bytes, the constructor demands 155 and 243, so no such cipher can be restored
  (`C53_chacha_unauth_false`, `C53_csx_unauth_false`). With authentication the MAC starts anew under its key: associated data given before saving and the chain over earlier messages are lost
  (`C53_midway_false`). Length fields in the array are trusted (`C53_malformed_ub`).
- **Repeated Initialize** (CSX512.cpp:108-116, 335-346; RCS.cpp:445-451; RWS.cpp:411-416): CSX512 does not clear `Custom`, so a code shorter than 48 bytes is followed by the rest of the old one; RCS and
  RWS clear `Custom` but keep its size, so that a key without a code is expanded with a customization string of zeros. In both cases the keystream differs from that of a new object with the same key
  (`C54_csx_false`, `C54_csx_keystream_false`, `C54_rcs_false`).
- **C57, SHX reads keys backwards**: `StandardExpand` (CEX/SHX.cpp:349-359) takes the words of the key from its end, big-endian, so `SHX` with a key is Serpent with that key's bytes reversed (`C57_encrypt_partial`). Under the key `80 00 … 00` the zero block goes to `1908EF82…` and not to `A223AA12…`, the NESSIE vector (`C57_not_serpent`). The library's test reverses the keys of the vectors before use (Test/SerpentTest.cpp:217-218). Data encrypted by SHX cannot be read by another Serpent implementation unless the key is reversed first (`C57_reverse_first`).
- C60 (KyberBase.cpp:1503): when 504 bytes of the SHAKE-128 stream do not hold 256 residues, the scalar `GenMatrix` squeezes a block with `KECCAK1024_RATE_SIZE` (32 bytes) and then reads 168 bytes of the buffer, so 136 of them are bytes of the first block used before. The matrix differs from the one of the specification (and of the AVX2 code, which squeezes 168 bytes) when more than about 17 residues are missing; `C60_matrix_refuted` gives a seed. Two builds that meet such a seed cannot exchange keys.
- C59 (KyberBase.cpp:163-175): `PolyFromBytes` does not check that the 12-bit numbers are below q; different public key strings stand for the same key (`C59_not_canonical`; the hash of the string enters the shared secret, so they are not interchangeable).
- C61 (Kyber.cpp:256, KyberBase.h `Decapsulate`): the length of the ciphertext is not checked. Shorter ones are read past their end (`C61_empty_refuted`); longer ones are compared with a zero-filled buffer, so an honest ciphertext followed by zero bytes is accepted, with a different secret (`C61_appended`).
- C61 (Kyber.cpp:446): `CXOF` builds a vector from `Name().begin()` and `Name().end()`, iterators of two temporary strings; every exchange with a domain key is undefined (`C61_domain_refuted`).
- C61 (KyberBase.h `Decapsulate`): the implicit rejection does not replace the key: the condition of the conditional move is the accumulated difference byte, not 0 or 1, so bits are mixed with mask `-d` (scalar), or only by the lowest bit when the AVX2 comparison returns -1. `Kyber::Decapsulate` returns false and discards the value, so it is not visible there; a caller of the base class would see it.
- C61 (Kyber.cpp:417-442): `Initialize` takes the parameter set of the last key and keeps the other key; after a public key of one set and a private key of another, `Encapsulate` uses the first with the second's parameters. `Encapsulate` and `Decapsulate` do not check that the key they need was given (null pointer).
- C62 (CSG.cpp:354-391): `Update` without provider absorbs the key by XOR before the permutation has run on the state; directly after `Initialize` with the same key the two cancel and the output does not depend on the key (`C62_update_refuted`).
- C62 (CSG.cpp:127-171): `CSG(SHAKE512, IProvider*)` computes a rate of 1 byte (and legal key sizes of 1); the output is not SHAKE512 (`C62_ctor_refuted`), and 197 bytes of info overrun a local array (`C62_ctor_overrun_refuted`). Also: `SecurityStrength` is in bytes; `Update` works on an object never initialised.
- C63 (HCG.cpp:398-403): `Expand` zeroes the used part of the buffer, which is the chaining value of the next block. The output depends on how requests are split (`C63_split_refuted`), and part of the chaining value is known.
- C63 (HCG.cpp:105-131): `HCG(IDigest*, …)` rejects SHA2-512 and accepts every other digest (`==` / `!=` mixed up, line 125); with SHA3-256 the buffer is 68 bytes of which HMAC fills 32, so 36 of every 68 output bytes are zero (`C63_zero_refuted`). The object is named "BCG-…" (109).
- C63 (HCG.cpp:297): the size test of `Update` is `(Key.size() < SecurityStrength() / 8) * 2`: the factor is applied to the truth value, so half the intended length is accepted. `Initialize` reports a short key as an invalid nonce (256).
- C64 (BCG.cpp:555-571): the counters of the tasks are advanced with `BeIncrease8` over all 32 bytes, the blocks with `LeIncrement(…, 16)`. With two or more tasks the output differs from the sequential output for every key and nonce (`C64_parallel_refuted`).
- C64 (BCG.cpp:213-238): the automatic reseed uses a 32-byte key. Generators with 512- and 1024-bit keys drop to 256 bits and 22 rounds (`C64_strength_refuted`). `Reseed` is counted twice, in `Generate` and in `Update`, and `Initialize`/`Reset` do not clear it: at the limit, re-initialization as the exception asks for does not help (`C64_reinit_refuted`).
- C64 (BCG.cpp:107, 127, 334-379): the constructor argument `Parallel` is ignored; `Update` works before `Initialize` with a zero nonce; the customization string grows by `BCG_INFO` at each `Update`; `Update` accepts any key of 16 bytes or more in its test, counts the reseed, and then fails in `Initialize`. `BCG(IProvider*)` sets `IsDestroyed` to true, so the caller's provider is deleted; `Reset` sets it to false, so an own provider leaks.
- C65 (Blake256.cpp:299-322, BlakeParams.h:185-201): salt and info given to `Initialize` are written into the configuration array, which `GetConfig` then overwrites. They have no effect (`C65_salt_ignored`).
- C65 (Blake256.cpp:275-290, 377-400): `Finalize` and `Reset` drop the key block but keep the key length in the parameter block. The next digest of a keyed object is neither the keyed nor the plain digest (`C65_key_lost`).
- C65 (IntegerTools.h:2161-2174): `LeIncreaseW` is called with the same array as input and output, so the carry into the high counter word never happens. BLAKE2s is wrong from 4 GB on (`C65_counter`).
- C66 (Blake256.cpp:437-479, same lines of Blake512.cpp): one call of `Update` with a long message fills a buffer of two blocks per leaf, compresses the first block of each leaf, and drops the second. Messages that differ only there collide (`C66_collision`).
- C66 (Blake512.cpp:273): tree mode writes the digest to offset 0, whatever offset `Finalize` is given (`C66_offset_ignored`).
- C67 (DLTMPolyMath.cpp:1950): `(int32_t)A * DILITHIUM_QINV` is a product of two `int32_t` and overflows on nearly every input; undefined behaviour by the standard (`C67_signed_overflow`). The reference code multiplies as `int64_t` first and truncates.
- **Dilithium `RejEta` ignores its offset** (DLTMPolyMath.cpp:1715, 1722, 1730, 1736 write `A[ctr]`, not `A[AOffset + ctr]`). When the first SHAKE128 blocks give fewer than 256 accepted values, the second call overwrites coefficients from index 0 and the last coefficients stay zero. The chance is negligible (thirteen standard deviations for `eta = 2`), but the result is not the specified secret (`C69_secret_stale`, `C69_secret_refuted`).
- **Dilithium `Verify` throws on short signatures** (Dilithium.cpp:348, 355, 362): `Message.resize(Signature.size() - SIGNATURE_SIZE)` runs before the length test in `DLTMBase::Verify`, the difference wraps and `resize` throws `std::length_error`, so a peer can raise an exception of the standard library where `false` is documented (`C71_short_refuted`).
- **`Dilithium::Enumeral` returns `SphincsPlus`** (Dilithium.cpp:92; `C72_enumeral_refuted`).
- **TSX512 and TSX1024 are not Threefish** (Threefish.h:1935-1942, 4771-4786, and the compact and wide forms; the unused `PemuteR96P512U` and `PemuteR120P1024U` of Skein.h too): the number of rounds was raised to 96 and 120, but the last subkey still has the key words of subkeys 18 and 20 (only the counter word was adapted), so the cipher is not Threefish with more rounds, against TSX512.h:93 (`C74_refuted`). All forms agree, so no test of one form against another shows it.
- **Parallel Skein drops input on machines with fewer processors than lanes** (Skein512.cpp:49-64 with ParallelOptions.cpp:342-373, same in 256 and 1024): the object has 8 lanes and a buffer of 8 blocks, but the degree of the profile is cut down to the processor count. When the buffer is full only that many blocks of it are processed; the rest is forgotten. With four processors, messages of eight blocks that agree in the first four collide (`C76_collision`). With fewer processors the digest also depends on the machine.
- **`ParallelMaxDegree` after `Update` forgets the buffered bytes but not their number** (Skein512.cpp:214-229): one-byte messages all get the digest of a zero byte (`C76_degree_false`). On a sequential object it replaces the configuration, and the digest is no Skein digest any more.
- **Skein512 and Skein1024 from tree parameters write past the message buffer** (Skein512.cpp:66-77, 186-191): the buffer has one block, `Finalize` stores one block per lane (`C76_params_false`). Skein256 has the right size.
- **SPHINCS+ S1P128 and S3P192 sign with leaves that do not exist when `unsigned long` has 64 bits** (SPXBase.h:436): `LeafIndex &= (~0UL) >> (32 - LEAFBITS)` keeps 41 bits of a 16-bit number, so the leaf index is below 65536 instead of 512. For an index of 512 or more (127 of 128 messages) `TreeHash` never meets the leaf, the authentication path of the first layer is never written, and these 144 or 216 bytes of the signature are what the caller's vector held: the signature depends on stale memory (`C77_stale`) and does not lead to the root. With 32-bit `unsigned long` (Windows) and for the sets with tree height 8 the mask is right.
- **SPHINCS+ signs zeros instead of messages of 2^32 bytes** (SPXBase.h:817): the size is cut to 32 bits for the copy but not for the hash (`C77_long_refuted`).
- **SPHINCS+ `Verify` throws on vectors shorter than a signature** (SPXBase.h:864, 944): the message length wraps around and `resize` throws `std::length_error` instead of the answer false (`C78_short_refuted`).
- **`SHA2::MACR64P512` and `MACR80P1024` write keys longer than a block past the end of the pad** (SHA2.h:196-210, 1131-1145): the check is an assertion that release builds do not contain; RFC 2104 hashes such keys (`C79_mac_longkey`).
- **`XMSSCore::Sign` reuses one-time keys** (XmssCore.cpp:1454-1478): the private key is copied and only the copy's index is advanced, so every message signed with a key uses the same one-time key; two signatures suffice to forge (`C82_reuse_refuted`).
- **`XmssMtCoreSign` reads the index from the output vector** (XmssCore.cpp:1322), before the index of the key is copied there (1323): a vector that is not fresh selects another one-time key, and a key with a nonzero index is signed with one-time key 0 while the signature names the index of the key (`C82_vector_refuted`, `C82_key_refuted`).
- **`XmssMtCoreSignOpen` does not check the length of the signature** (XmssCore.cpp:1085-1166): `MsgLength` wraps round for short vectors and memory behind them is read and overwritten (`C81_short_refuted`).
- **X25519 is wrong in the build with 128-bit integers** (64-bit GCC and Clang): the mask of `Fe25519cSwap` is negated in 32 bits (EC25519.cpp:304), so the upper halves of the limbs are never exchanged, and `Fe25519Copy` copies `5 * sizeof(5)` = 20 of 40 bytes (EC25519.cpp:358-361). The test vector of RFC 7748 fails and two parties derive different secrets (`C83_swap64_refuted`, `C83_copy64_refuted`, `C84_kex64_refuted`, `C84_agreement64_refuted`).
- **`ECDH::KeyExchange` with a domain key is undefined** (ECDH.cpp:218): begin and end of two different temporary strings (`C84_domain_refuted`).
- **`Ed25519SmallOrder` compares one of its seven entries** (EC25519.cpp:5436): `sizeof` of two vector objects is divided (`C85_smallOrder_refuted`).
- **`Fe25519Reduce` shifts the quotient estimate logically** (EC25519.cpp:1699): wrong for negative top limbs in part of its documented range where `unsigned long` has 32 bits; the curve code does not reach that part (`C83_reduce32_refuted`, `C83_codec32`).
**`Sc25519Reduce` is wrong for about one input in seven** (C87). Line 6070 of EC25519.cpp reads `carry = (s10 + (1ULL << 20)) >> 21;` where all other carries use `1LL`. The sum becomes unsigned, so a negative `s10` is shifted logically and the carry is too large by 2^43: the function returns (x + 2^274) mod L instead of x mod L (`C87_reduce`, `C87_reduce_wrong`). Signer and verifier of this library make the same error, so its own signatures verify; but they are not the signatures of RFC 8032, and other implementations reject those whose hash of R, A and the message is one of these numbers.
**`ECDSA` signatures are not Ed25519 for about a quarter of all messages** (C88). Sign reduces two hashes with the function of C87; the signature equals that of RFC 8032 if and only if neither makes the limb negative (`codeSign_iff`); seed 00…00 and message 04 is a witness with SHA2-512 (`C88_sign_refuted`).
**Small-order public keys are accepted: universal forgery** (C88). `Ge25519HasSmallOrder` divides `sizeof` of a vector by `sizeof` of a row, so that its loop compares with the first entry of the list (y = 0) alone. Under the key 01 00 … 00 the signature 01 00 … 00 ‖ 0^32 is accepted for every message and digest (`C88_forgery`).
**A public key that encodes no point is accepted** (C88). The decoding does not refuse x = 0 with the sign bit set (RFC 8032, 5.1.3, step 4): `C88_bad_key`.
**`ECDSA::Sign` throws for ECDSAS1P25519K always** (C88), with the text for an empty message, though the constructor, `Generate` and `Verify` accept the parameter set (`C88_sign_k_refused`).
**`ECDSABase::Verify` with fewer than 64 bytes** (C88): the length of the message wraps and the vector throws std::length_error instead of returning false (`C88_verify_short`). `ECDSA::Initialize` checks no key length and keeps the digest of the constructor when the key names the other parameter set; `Enumeral()` returns SphincsPlus.
**`SCBKDF` ignores its memory cost** (C89). `Expand` compares `State.size()`, the 25 words of the array, with MemoryCost * 1000000 instead of the size of the cache: any cost of at least 1 lets the cache grow to (CpuCost + 1) * rate bytes (`C89_memory`, `C89_memory_refuted`), and two costs give the same output (`C89_memory_ignored`). The header calls it the maximum amount of memory.
**The first cycle of `SCBKDF` cancels its own input** (C89): the cache is a copy of the rate part of the state, so absorbing it makes that part zero; only the capacity part of the keyed state enters the derivation (`C89_first_cycle`). The last padded block of each cycle is added without a permutation before the next cycle.
**The output of `SCBKDF` depends on how it is requested** (C89): the cycles run again for every Generate (`C89_split`). The constructor refuses the SHAKE1024 mode.
**`KPA512` has a tag size of 1** (C90). The last branch of the conditional in the constructor is the comparison `KbaModeType == KpaModes::KPA512` without a value, which converts to 1: `TagSize()` is 1 and one-byte tags are accepted (`C90_tag_size_refuted`).
**The mode of `KPA` decides nothing but the tag size** (C90): the rate is chosen by the size of the key, so a KPA512 object with a 16-byte key is KPA128 (`C90_mode_ignored`), while `BlockSize()` keeps the rate of the mode. The 128-bit rate takes 64 bytes of each leaf (KPA_LEAF_HASH512), not KPA_LEAF_HASH128.
**`KPA::Finalize` for a SecureVector ignores OutOffset** (C90): it writes from the first byte and overwrites what is before the offset (`C90_offset_refuted`, `C90_offset_witness`).
**`KPA::Finalize` neither resets nor closes the object** (C90): a second message is absorbed by leaves that already hold the first one (`C90_next_partial`), so it gets the tag for those leaves and not the one it has after `Initialize`.
**`KPA::Reset` and the destructor clear 25 bytes of each 200-byte leaf state** (C90): the length is the number of words (`C90_reset_refuted`). In AVX2 builds `KpaLoadState` reads `ULong256(tmp, 4)` behind an array of four words (not modelled).
**The parallel SHA3 digests drop parts of the message** (C91). The object has eight states and a buffer of eight blocks, but `ParallelMaxDegree()` is the number of processors if that is smaller. When the buffer is filled by a second Update, only the blocks of the leaves in use are absorbed and the rest is lost: messages that differ there have the same digest (`C91_dropped`, for every permutation), and the digest depends on the calls and on the machine (`C91_full_collides`, `C91_false`).
**`ParallelMaxDegree(n)` of the SHA3 digests accepts more than the eight states they have** (C91): the next Update of n blocks works on states that do not exist (`C91_degree_ub`).
**SHA3-256 with KeccakParams for another output size reads behind the parameter block** (C91): the block has 72 bytes, `FastAbsorb` reads 136 (`C91_params_ub`). Leaves without bytes in the last row are not padded, as in C37; the root does take the leaf values at the right places.
**`KeccakParams::Equals` compares a sum of the fields** (C92): for every parameters there are different ones that compare equal (`C92_equals_refuted`, `C92_equals_false`), and the sum can overflow an `int32_t` (`C92_hash_ub`). The constructor from an array reads behind an array that is too short (`C92_short_ub`; only an assertion guards it).
**`DigestStream` and `MacStream` on empty input** (C93): the progress is 100.0 * (0.0 / 0.0), and the conversion of the NaN to `int32_t` is undefined (`C93_empty_ub`). An assertion excludes empty input in debug builds only.
**`DigestStream(IDigest*)` and `MacStream(IMac*)` delete an object that they do not own** (not modelled): the pointer goes into a `unique_ptr`; the flag `Destroy` only decides whether it is reset earlier. With a parallel SHA3 engine on less than eight processors the single blocks that `Process` passes at the end fill the buffer and lose data as in C91.
**`SecureStream` shows its keystream** (C94): `Write` beyond the end grows the *encrypted* array with zeros, which decrypt to keystream. A program that seeks to n, writes one byte and calls `ToArray` gets the first n bytes of the keystream (`C94_gap`, `C94_gap_false`, for every seed). The keystream depends on machine, user, process and salt only, so it is that of every other stream with this salt, and of every earlier content of the same stream (`C94_same_keystream`).
**`SecureStream(…, KeySalt)` allocates `KeySalt` bytes** (by reading, SecureStream.cpp:46, 62): `m_keySalt(KeySalt)` is a vector of that length before it is cut to 8, so a random 64-bit salt throws `std::length_error` or `std::bad_alloc`. `Close` and `Reset` release the data without erasing it, and `WriteByte` beyond the end writes outside the array, as in C33.
**`AsymmetricSecureKey` lengthens the key** (C95, AsymmetricSecureKey.cpp:133-148): under SPL256AE, SPL512AE and SPL1024AE the stored polynomial includes the tag, and `Polynomial`, `SecurePolynomial` and `Serialize` return as many bytes, the key followed by zeros (`C95_asymmetric_extra`, `C95_asymmetric_false`).
**`SymmetricSecureKey::Clone` throws for every key made without a salt** (C95, SymmetricSecureKey.cpp:396-399): it calls the constructor that refuses an empty salt (`C95_clone_false`). By reading: all keys of a process with the same policy and salt, which by default is empty, are encrypted under the same key and nonce, and the cipher instances are never deleted.
**The constructors of the tree parameters read behind the end of short arrays** (C96): the size test of SHA2Params (SHA2Params.cpp:58) and SkeinParams (SkeinParams.cpp:68) uses the output size before it is read, so it asks for 72 and for 0 bytes; BlakeParams (BlakeParams.cpp:61) does not compare the size with the output size in the array (`C96_sha2_short`, `C96_skein_short`, `C96_skein_empty`, `C96_blake_short`).
**`Equals` of the tree parameters compares a sum** (C96): the fan-out and the depth of BlakeParams, or the version and a reserved member of SkeinParams, can be exchanged (`C96_blake_equals_refuted`, `C96_skein_equals_refuted`, `C96_sha2_equals_refuted`). The leaf size of SkeinParams is cut to eight bits (`C96_skein_leaf`).
**The strongest security policies generate the weakest keys** (C97, SymmetricKeyGenerator.cpp:162-183): SPL1024 and SPL1024AE fall into the `default` of the switch, a seed of 32 bytes and SHAKE256 (`C97_strength_false`).
**`SymmetricKeyGenerator` ignores the info size when the nonce size is zero, and its size test wraps** (C97, SymmetricKeyGenerator.cpp:45-77, 132): `C97_info_dropped`, `C97_offset_ub`. By reading: the provider made in 186 is never deleted; `GetSecureKey` (82-124) ignores the policy of the generator for the key object; the POSIX branch of CSP.cpp (215) lacks the semicolon of its `do` loop.
**`MemoryPool::Allocate` uses an invalid iterator after a perfect fit** (C98, MemoryPool.cpp:80-103): the entry is erased and the loop goes on without `break` (`C98_allocate_perfect_ub`, `C98_reuse_false`).
**`MemoryPool::Reset` does not clear the free list** (C98, MemoryPool.cpp:132-136): overlapping blocks follow (`C98_reset_false`). By reading: the mutexes of lines 70 and 142 are local, so the pool is not protected between threads.
**`LockingAllocator` never uses its locked pages** (C99, LockingAllocator.cpp:60, 74): the overflow test is inverted (`C99_never_locked`), and on overflow it gives out a block that is too short (`C99_short_block`).
**Who asks the factory for CSX512 gets ChaCha20** (C100, StreamCipherFromName.cpp:43-52): a cipher of 256 bits in place of 512 (`C100_stream_false`).
**The generator HCRS512 is the one with SHA2-256** (C100, PrngFromName.cpp:48-52): `C100_prng_false`.
**Objects report the wrong name** (C100): TSX512.cpp:110 and TSX1024.cpp:110 name TSX256 without authentication (`C100_stream_name_false`), CMAC.cpp:53 and GMAC.cpp:64 ignore the extension (`C100_mac_false`), so `MacStream` takes an extended GMAC by name and refuses it as an object (`C100_macStream_gmac_false`).
**The factories hide their own error code** (C100): `throw CryptoException(..., InvalidParam)` stands inside a `try` whose last handler catches `std::exception`, the base of `CryptoException`; the caller sees `UnKnown` (`C100_code_false`).
**The name "AES" is not known** (C101, SymmetricCiphers.cpp:12, 104): `ToName` gives "AES", `FromName` only knows "Rijndael" and "RHX"; BlockCipherConvert uses the same table. **XMSSSHA2256H10 is converted to XMSSSHA2256H16** (AsymmetricParameters.cpp:274-277), and seven further enumerators have no name (`C101_names_partial`, `C101_names_false`).
**MinMax64 (and so Sort64) does not sort `uint64_t`** (C102, MPKCUtils.cpp:783-793): the comparison is the top bit of `B - A`, so the sorted pair (0, 2^63) is swapped (`C102_minMax64_false`); the key generation only sorts values below 2^63, where it is proved. **MinMax32 overflows an `int32_t`** for (-1, 2^31 - 1) (`C102_minMax32_ub`).
**MPKCN6960T119::Decapsulate accepts invalid ciphertexts** (C103, MPKCN6960T119.cpp:673): the return value is `(ret_decrypt + ret_confirm + padding_ok) == 0` with `padding_ok = -1` for a bad padding, so a bad padding cancels a failed `Decrypt` (1) or a confirmation that differs in the lowest bit (1). The call returns true and the shared secret is the constant 32 bytes 0xFF, which `McEliece::Decapsulate` passes on (`C103_6960_false`: for every key and every syndrome with a padding bit set). Neither the size of the ciphertext is checked (reads past its end, `decaps` gives `ub`).
**Hexadecimal strings and rotations** (C107, IntegerTools.h:229-246, 383-396, 2794-2844): `IntegerTools::HexToInt<uint64_t>` uses `strtol` and returns 2^63-1 for every value from 2^63 on (`C107_hex64_false`); `FromHex` converts half of the bytes asked for, its length counts characters (`C107_fromHex_false`); `RotL32/64`, `RotR32/64` with shift 0 shift by the full width, undefined behaviour (`C107_rot_zero_false`).
**LeIncreaseW loses the high part of the amount** (C108, IntegerTools.h:2139-2174): with 32-bit words an amount of 2^32 or more is cut; 2^33 is added as 2^32 in place and as 0 into another array. LeIncrementW of a counter of one word writes behind it when the word overflows (`C108_increase_false`).
**BlockToBe ors into its output** (C109, IntegerTools.h:512): the destination word is not cleared, so a buffer that is used again gets the union of the old and the new bits (`C109_blockToBe_false`). BlockToLe has the same form in the big-endian build.
