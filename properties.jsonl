{"id": "C01", "title": "Integer/byte conversions are exact positional codecs", "statement": "Writing a 16/32/64-bit integer with the little- or big-endian byte writers at any in-bounds offset and reading it back with the matching reader at that offset returns the same integer; the bytes written are the base-256 digits in the documented order; bytes outside the written window are untouched; reading then writing restores the window.", "quantifier": "every integer of each width, every buffer, every in-bounds offset", "why_tests_cant": "2^64 values times unbounded buffers/offsets; endian bugs typically hide in one digit position.", "anchors": ["CEX/IntegerTools.h: Be16ToBytes, Be32ToBytes, Be64ToBytes, BeBytesTo16/32/64, Le16ToBytes, Le32ToBytes, Le64ToBytes, LeBytesTo16/32/64"]}
{"id": "C02", "title": "Byte-counter increment adds one modulo 256^n", "statement": "Incrementing an n-byte big-endian (or little-endian) counter inside a buffer yields exactly the counter value plus one modulo 256^n, and leaves every byte outside the counter window unchanged.", "quantifier": "every counter length n>=1, every counter content, every surrounding buffer", "why_tests_cant": "carry chains of every length including the full wrap; n unbounded.", "anchors": ["CEX/IntegerTools.h: BeIncrement8, LeIncrement8"]}
{"id": "C03", "title": "Byte-counter increase adds an arbitrary amount modulo 256^n", "statement": "Increasing an n-byte counter by a 32-bit or 64-bit amount yields (counter + amount) modulo 256^n.", "quantifier": "every counter length, content and amount", "why_tests_cant": "a carry that is lost for one specific byte/carry combination is invisible to sampled vectors.", "anchors": ["CEX/IntegerTools.h: BeIncrease8, LeIncrease8"]}
{"id": "C04", "title": "Constant-time comparison is equality", "statement": "The constant-time comparison and verification helpers report 'equal' exactly when the two byte ranges are equal, for every length.", "quantifier": "every pair of byte ranges of every length", "why_tests_cant": "a mismatch at one position/bit that is masked out would need the exact forged input.", "anchors": ["CEX/IntegerTools.h: Compare, Verify", "CEX/MemoryTools.h: Compare"]}
{"id": "C05", "title": "Branch-free mask and select helpers compute the documented predicate", "statement": "ExpandMask/IsZero/IsEqual/IsLess/IsLte/Select/CMov/ConditionalCopy... return all-ones/zero masks (or the selected operand) exactly for the documented predicate, at each unsigned width.", "quantifier": "all operand values at widths 8, 16, 32, 64", "why_tests_cant": "2^128 operand pairs; the usual failure is a single boundary pair.", "anchors": ["CEX/IntegerTools.h: ExpandMask, ExpandTopBit, IsZero, IsEqual, IsLess, IsLte, Select, ConditionalCopy, ConditionalZeroMem, CMov"]}
{"id": "C06", "title": "PKCS7 padding round-trips", "statement": "After padding a block from position k, asking for the message length of the padded block returns k, and the first k bytes are unchanged; no memory outside the block is read or written.", "quantifier": "every block length up to 255, every message content and every k inside the block", "why_tests_cant": "quantifies over all contents and all (length, position) pairs, including content that mimics padding.", "anchors": ["CEX/PKCS7.cpp: AddPadding, GetBlockLength"]}
{"id": "C07", "title": "X9.23 padding round-trips", "statement": "After padding a block from position k, asking for the message length returns k, and the first k bytes are unchanged.", "quantifier": "every block length up to 255, every content and k", "why_tests_cant": "as above", "anchors": ["CEX/X923.cpp: AddPadding, GetBlockLength"]}
{"id": "C08", "title": "ESP padding round-trips", "statement": "After padding a block from position k, asking for the message length returns k, and the first k bytes are unchanged.", "quantifier": "every block length up to 255, every content and k", "why_tests_cant": "as above", "anchors": ["CEX/ESP.cpp: AddPadding, GetBlockLength"]}
{"id": "C09", "title": "ISO 7816 (ZeroOne) padding round-trips", "statement": "After padding a block from position k, asking for the message length returns k, and the first k bytes are unchanged.", "quantifier": "every block length, every content and k", "why_tests_cant": "as above", "anchors": ["CEX/ZeroOne.cpp: AddPadding, GetBlockLength"]}
{"id": "C10", "title": "Malformed padding is rejected", "statement": "If a block is not of the form produced by the padder for any message length, the padding reader reports 'no padding' (returns the whole block length).", "quantifier": "every block content and length", "why_tests_cant": "the set of malformed blocks is astronomically large; padding-oracle bugs live in one unchecked byte.", "anchors": ["CEX/PKCS7.cpp, CEX/X923.cpp, CEX/ESP.cpp, CEX/ZeroOne.cpp: GetBlockLength"]}
{"id": "C11", "title": "ECB decryption inverts encryption and parallel equals sequential", "statement": "For any block cipher whose decryption inverts its encryption under a key, transforming any whole number of blocks and transforming the result with the decrypting instance restores the input; the parallel engine produces the same bytes as the sequential one for any valid parallel profile and length.", "quantifier": "every block cipher, message, offset, parallel degree and block size", "why_tests_cant": "profiles x lengths x contents is unbounded; boundary between parallel and sequential tails is where bugs hide.", "anchors": ["CEX/ECB.cpp: Transform, ProcessParallel, ProcessSequential, Generate"]}
{"id": "C12", "title": "CBC decryption inverts encryption", "statement": "Decrypting with the same key and IV what the mode encrypted (any whole number of blocks, over any number of calls) restores the plaintext.", "quantifier": "every block cipher, IV, message and split of the message into calls", "why_tests_cant": "chaining state must be right for every history of calls", "anchors": ["CEX/CBC.cpp: Initialize, Transform, Process, Encrypt128, Decrypt128"]}
{"id": "C13", "title": "CBC parallel decryption equals sequential decryption", "statement": "With parallel processing enabled, CBC decryption produces exactly the bytes (and the same chaining state afterwards) that sequential decryption produces.", "quantifier": "every cipher, IV, message length, degree and parallel block size satisfying the profile invariant", "why_tests_cant": "segment boundaries and SIMD strides multiply with lengths", "anchors": ["CEX/CBC.cpp: Process, DecryptParallel, DecryptSegment, DecryptSequential"]}
{"id": "C14", "title": "CFB decryption inverts encryption", "statement": "Decrypting with the same key, IV and register size what CFB encrypted restores the plaintext over any number of calls, for every register size from 1 to the block size and lengths that are multiples of it; bytes beyond the last whole register are never silently lost.", "quantifier": "every cipher, IV, register size, message, call split", "why_tests_cant": "shift register contents depend on the entire history", "anchors": ["CEX/CFB.cpp: Initialize, Process, Encrypt128, Decrypt128, DecryptParallel, DecryptSegment"]}
{"id": "C15", "title": "OFB is an involution with message-independent keystream", "statement": "OFB applied twice with the same key and IV restores the input; the keystream depends only on key and IV.", "quantifier": "every cipher, IV, message", "why_tests_cant": "history-dependent state", "anchors": ["CEX/OFB.cpp: Initialize, Transform, Encrypt128"]}
{"id": "C16", "title": "CTR output is the textbook counter-mode keystream", "statement": "Sequential CTR/ICM transformation XORs the input with E(nonce), E(nonce+1), ... (big-endian for CTR, little-endian for ICM, modulo 2^128), truncated to the length; the nonce afterwards has advanced by the number of blocks used; hence transforming twice with the same nonce is the identity.", "quantifier": "every cipher, nonce, message and length (also not block aligned)", "why_tests_cant": "counter wrap and partial blocks over unbounded lengths", "anchors": ["CEX/CTR.cpp: Transform, Generate, ProcessSequential", "CEX/ICM.cpp: Transform, Generate, ProcessSequential"]}
{"id": "C17", "title": "Parallel counter modes equal sequential counter modes", "statement": "With parallel processing on, CTR and ICM produce exactly the bytes and final nonce of the sequential engine.", "quantifier": "every cipher, nonce, message, degree and parallel block size satisfying the profile invariant", "why_tests_cant": "nonce x offset carry interactions are a 2^128-size space; only specific nonces fail", "anchors": ["CEX/CTR.cpp: ProcessParallel", "CEX/ICM.cpp: ProcessParallel", "CEX/IntegerTools.h: BeIncrease8, LeIncrease8"]}
{"id": "C18", "title": "Chunked calls equal one call", "statement": "Transforming a message in several consecutive calls of whole blocks gives the same bytes as one call over the concatenation, for every mode (ECB, CBC, CFB, OFB, CTR, ICM).", "quantifier": "every mode, cipher, message and block-aligned split", "why_tests_cant": "all ways of splitting an unbounded message", "anchors": ["CEX/ECB.cpp, CEX/CBC.cpp, CEX/CFB.cpp, CEX/OFB.cpp, CEX/CTR.cpp, CEX/ICM.cpp: Transform"]}
{"id": "C19", "title": "Parallel profile invariants", "statement": "After any sequence of profile operations, when parallelism is reported enabled, the parallel block size is a whole multiple of the minimum size, the minimum size is a multiple of degree x block size, the degree does not exceed the processor count and is even or one; otherwise the setters throw.", "quantifier": "every sequence of constructor/Calculate/SetBlockSize/SetMaxDegree calls", "why_tests_cant": "history-dependent configuration", "anchors": ["CEX/ParallelOptions.cpp: Calculate, SetBlockSize, SetMaxDegree, Detect"]}
{"id": "C20", "title": "GCM open inverts seal", "statement": "Decrypting with the same key, nonce and associated data a message sealed by GCM succeeds and returns the plaintext.", "quantifier": "every key, nonce of admissible size, associated data, plaintext", "why_tests_cant": "unbounded lengths for AAD and text", "anchors": ["CEX/GCM.cpp: Initialize, SetAssociatedData, Transform, Finalize, Verify", "CEX/GHASH.cpp"]}
{"id": "C21", "title": "GCM never releases unauthenticated plaintext", "statement": "If the tag presented to a decrypting GCM instance differs from the tag the sealer would produce for that key, nonce, associated data and ciphertext, the call throws and the output buffer is unchanged.", "quantifier": "every ciphertext, tag, associated data", "why_tests_cant": "all forgeries", "anchors": ["CEX/GCM.cpp: Transform, Verify"]}
{"id": "C22", "title": "GCM result depends only on the parameters of the last Initialize", "statement": "Sealing after Initialize(key, nonce) gives the same result whatever was done with the instance before (earlier initialisations, associated data, transforms), including nonce-only re-initialisation under the retained key.", "quantifier": "every previous history of calls on the instance", "why_tests_cant": "the history space is unbounded", "anchors": ["CEX/GCM.cpp: Initialize, Reset, SetAssociatedData", "CEX/GHASH.cpp: Reset"]}
{"id": "C23", "title": "GHASH is the GF(2^128) polynomial hash and independent of update splits", "statement": "Feeding data in any sequence of updates and finalising computes the NIST GHASH of the zero-padded data with the length block; the field multiplication is multiplication of polynomials modulo x^128+x^7+x^2+x+1.", "quantifier": "every hash key, message, sequence of updates", "why_tests_cant": "128-bit operands, unbounded splits", "anchors": ["CEX/GHASH.cpp: Update, Multiply, Permute, Finalize", "CEX/CMUL.cpp: PermuteR128P128C, PermuteR128P128U"]}
{"id": "C24", "title": "HBA open inverts seal across message sequences", "statement": "With the same key, nonce, info and associated data, a decrypting HBA instance accepts and restores each message of any sequence sealed by an encrypting instance, and the ratcheted MAC keys of both sides stay equal.", "quantifier": "every sequence of messages and associated data", "why_tests_cant": "both sides must agree after every history", "anchors": ["CEX/HBA.cpp: Initialize, SetAssociatedData, Transform, Finalize, Verify"]}
{"id": "C25", "title": "HBA MAC input encoding is injective", "statement": "Two different (associated-data list, ciphertext) pairs processed from the same instance state feed different byte strings to the MAC.", "quantifier": "all pairs of associated-data lists and ciphertexts (each associated-data item shorter than 2^32)", "why_tests_cant": "quantifies over pairs of unbounded inputs", "anchors": ["CEX/HBA.cpp: SetAssociatedData, Transform, Finalize"]}
{"id": "C26", "title": "HBA rejects without releasing plaintext", "statement": "If the presented tag differs from the computed one, HBA decryption throws and leaves the output buffer unchanged.", "quantifier": "every ciphertext and tag", "why_tests_cant": "all forgeries", "anchors": ["CEX/HBA.cpp: Transform, Verify"]}
{"id": "C27", "title": "CMAC is RFC 4493 and independent of update splits", "statement": "The tag depends only on the concatenation of the updates and equals the RFC 4493 construction over the block cipher; computing a second message on the same instance gives that message's own tag.", "quantifier": "every block cipher, key, message, sequence of updates and messages", "why_tests_cant": "unbounded splits, full/partial last block cases", "anchors": ["CEX/CMAC.cpp: Update, Finalize, Initialize, DoubleLu, Pad"]}
{"id": "C28", "title": "GMAC equals GCM authentication of associated data and is split independent", "statement": "The GMAC tag depends only on the concatenation of updates and is the GHASH of the data masked with E(J0).", "quantifier": "every key, nonce, message and update split", "why_tests_cant": "unbounded", "anchors": ["CEX/GMAC.cpp: Initialize, Update, Absorb, Finalize, PreCompute, Multiply"]}
{"id": "C29", "title": "HMAC is RFC 2104 and reusable", "statement": "HMAC over any streaming digest computes H((K xor opad) || H((K xor ipad) || m)) with K hashed when longer than a block; the tag is independent of update splits, and an instance can be used for any number of messages after one initialisation.", "quantifier": "every key length, message, split, sequence of messages", "why_tests_cant": "unbounded", "anchors": ["CEX/HMAC.cpp: Initialize, Update, Finalize, Compute"]}
{"id": "C30", "title": "KMAC output matches the SP 800-185 encoding", "statement": "KMAC absorbs bytepad(encode(key)) then message || right_encode(output bits) with cSHAKE padding, for every message length, and distinct output lengths are domain separated.", "quantifier": "every message length, key and output length", "why_tests_cant": "only lengths within a few bytes of a rate boundary fail", "anchors": ["CEX/KMAC.cpp: Finalize, LoadKey, Update", "CEX/Keccak.h: RightEncode, LeftEncode, Customize"]}
{"id": "C31", "title": "Poly1305 computes the polynomial MAC modulo 2^130-5", "statement": "For any 32-byte key and message (any update split) the tag is ((sum of 17-byte-encoded blocks times powers of clamped r) mod 2^130-5 + s) mod 2^128, with no intermediate overflow.", "quantifier": "every key, message, split", "why_tests_cant": "limb-carry bugs occur with probability ~2^-60 on random data", "anchors": ["CEX/Poly1305.cpp: Initialize, Update, Absorb, Finalize", "CEX/Donna128.h"]}
{"id": "C32", "title": "Symmetric key containers serialise losslessly", "statement": "Deserialising a serialised symmetric key returns the same key, nonce and info; deserialisation never reads outside the stream.", "quantifier": "every key/nonce/info lengths and contents, every byte stream", "why_tests_cant": "length fields are 16-bit: only sizes >= 65536 or truncated streams fail", "anchors": ["CEX/SymmetricKey.cpp: Serialize, DeSerialize", "CEX/SymmetricKeySize.cpp"]}
{"id": "C33", "title": "Memory stream behaves like a byte array with a cursor", "statement": "Any sequence of reads, writes and in-range seeks on a memory stream returns what an abstract (byte list, cursor) file would return, and never touches memory outside the caller's buffer.", "quantifier": "every operation sequence", "why_tests_cant": "history", "anchors": ["CEX/MemoryStream.cpp: Read, Write, ReadByte, WriteByte, Seek, Reset", "CEX/StreamWriter.h: Write", "CEX/StreamReader.h: ReadInt"]}
{"id": "C34", "title": "HKDF expand is RFC 5869 and never repeats output", "statement": "The bytes generated are T(1)||T(2)||... with T(i)=HMAC(prk, T(i-1)||info||i); requests beyond 255 blocks are refused, so no output block is ever repeated.", "quantifier": "every key, info and sequence of Generate requests", "why_tests_cant": "only long histories reach the counter limit", "anchors": ["CEX/HKDF.cpp: Generate, Expand, Initialize"]}
{"id": "C35", "title": "KDF2 and PBKDF2 derive the standard stream", "statement": "KDF2 output is H(key||counter||salt) for consecutive big-endian counters; PBKDF2 output is the XOR of the iterated HMAC chain for consecutive block indices; both are prefix-consistent within one request and write only inside the requested window.", "quantifier": "every key, salt, info, iteration count, request length and offset", "why_tests_cant": "unbounded lengths; salt/info combinations", "anchors": ["CEX/KDF2.cpp: Initialize, Generate, Expand", "CEX/PBKDF2.cpp: Initialize, Generate, Expand"]}
{"id": "C36", "title": "SHA2 sequential digests are split independent and padded per FIPS 180", "statement": "The SHA2-256/512 sequential digest of a message depends only on its bytes, not on how updates were split, and equals iterating the compression function over the FIPS 180-4 padded message.", "quantifier": "every message and sequence of updates", "why_tests_cant": "every residue of the length and every split", "anchors": ["CEX/SHA2256.cpp: Update, HashFinal, Finalize", "CEX/SHA2512.cpp"]}
{"id": "C37", "title": "SHA2 parallel (tree) digest depends on every message block", "statement": "In parallel mode, every leaf's state enters the root hash, so changing any message block changes the root hash input.", "quantifier": "every message and degree", "why_tests_cant": "test vectors only confirm self-consistency, not that each input byte is covered", "anchors": ["CEX/SHA2256.cpp: Finalize, Update, Reset", "CEX/SHA2512.cpp: Finalize"]}
{"id": "C38", "title": "Keccak sponge absorption matches the padded-message sponge", "statement": "Absorbing with any split into incremental calls gives the same state as absorbing the concatenation; the padding is domain||0*||0x80; customisation strings are absorbed as bytepad(encode_string(name)||encode_string(custom)).", "quantifier": "every message, split, customisation and name length", "why_tests_cant": "boundary lengths within a few bytes of the rate", "anchors": ["CEX/Keccak.h: Absorb, Incremental, Customize, FastAbsorb, LeftEncode, RightEncode"]}
{"id": "C42", "title": "GCM equals NIST SP 800-38D", "statement": "For every key, nonce of admissible size, associated data and message within the limits of the standard, the ciphertext and tag written by GCM are those of Algorithm 4 (GCM-AE) of SP 800-38D.", "quantifier": "every key, nonce, associated data and message", "why_tests_cant": "known-answer tests use short messages and nonces whose counter does not wrap", "anchors": ["CEX/GCM.cpp: Initialize, Transform", "CEX/CTR.cpp: Generate", "CEX/GHASH.cpp"]}
{"id": "C43", "title": "The info string takes part in GCM encryption", "statement": "The info (tweak) string of the key passed to GCM::Initialize customises the block cipher used for encryption, as it does when the same key is given to the CTR mode or to the cipher itself.", "quantifier": "every key, info string, nonce and message", "why_tests_cant": "needs a relation between executions with different info strings", "anchors": ["CEX/GCM.cpp:222-270", "CEX/CTR.cpp: Initialize"]}
{"id": "C44", "title": "SHAKE key derivation is a stream of cSHAKE output", "statement": "After Initialize with key, customization and information, Generate returns the bytes of SHAKE/cSHAKE (SP 800-185) for these inputs, whatever was done with the object before; consecutive calls return consecutive bytes of that stream, and the number of blocks per key is limited.", "quantifier": "every key, customization, information, output size and sequence of calls", "why_tests_cant": "tests compare single calls of a few sizes; continuation at sizes that are no multiple of the rate and the limit are not exercised", "anchors": ["CEX/SHAKE.cpp: Initialize, Generate, Expand", "CEX/Keccak.h: Absorb, Customize, Squeeze"]}
{"id": "C45", "title": "SHA3 digests equal FIPS 202", "statement": "SHA3256 and SHA3512 in sequential mode give the digest of FIPS 202 for every message and every way of splitting it into Update calls, and the object can be reused after Finalize, Compute or Reset.", "quantifier": "every message, split and history of the object", "why_tests_cant": "known-answer tests use few lengths and single updates", "anchors": ["CEX/SHA3256.cpp", "CEX/SHA3512.cpp", "CEX/Keccak.h"]}
{"id": "C46", "title": "The Keccak permutations equal Keccak-p of FIPS 202", "statement": "The compact permutation and the unrolled 24 and 48 round permutations compute Keccak-p[1600,n] with the round constants and offsets of the standard, for every state, and therefore agree with each other.", "quantifier": "every 200-byte state", "why_tests_cant": "a finite number of states is tested", "anchors": ["CEX/Keccak.h: Permute, PermuteR24P1600U, PermuteR48P1600U", "CEX/Keccak.cpp"]}
{"id": "C47", "title": "Asymmetric key containers serialise losslessly", "statement": "Deserialising a serialised asymmetric key returns the same class, parameters, primitive and key bytes, for every key; a stream is accepted exactly if it is such a serialisation.", "quantifier": "every key container and every byte stream", "why_tests_cant": "tests serialise the keys of the implemented primitives and never a stream that is not one", "anchors": ["CEX/AsymmetricKey.cpp: Serialize, DeSerialize"]}
{"id": "C39", "title": "A cipher stream gives back what was written through it", "statement": "Writing data through an encrypting CipherStream and the result through a decrypting one with the same key and nonce gives back exactly the data, for the array and the stream version, every mode, padding and parallel setting.", "quantifier": "every message, cipher, mode, padding, parallel profile and schedule, contents of the output", "why_tests_cant": "tests use a few lengths; the failing ones are exactly the multiples of the block size", "anchors": ["CEX/CipherStream.cpp: Write, BlockTransform"]}
{"id": "C48", "title": "Random bytes are delivered once and only where asked", "statement": "Every Generate(Output, Offset, Length) and Fill of SecureRandom, BCR, CSR and HCR on a range inside the output fills exactly that range, and over the whole life of the generator, including Reset, no byte produced by the source is delivered twice.", "quantifier": "every sequence of calls, length, offset, buffer content and source output", "why_tests_cant": "tests look at single outputs; reuse of a buffered byte or an overrun depends on the fill level left by earlier calls", "anchors": ["CEX/SecureRandom.cpp: Generate, Fill", "CEX/BCR.cpp: Generate, Reset", "CEX/CSR.cpp: Generate, Reset", "CEX/HCR.cpp: Generate, Reset"]}
{"id": "C49", "title": "Random numbers in a range are uniform", "statement": "If the samples are uniform, NextInt/NextUInt 16/32/64 with a maximum, or a maximum and a minimum, return every number of the range equally often and no other number.", "quantifier": "every width, maximum and minimum, and every number of samples", "why_tests_cant": "a test sees a few draws; bias of the rejection loop and the extreme ranges are not visible", "anchors": ["CEX/SecureRandom.cpp: NextInt16, NextUInt16, NextInt32, NextUInt32, NextInt64, NextUInt64"]}
{"id": "C50", "title": "A stream cipher XORs the message with its keystream however it is processed", "statement": "A Transform of ChaChaP20, CSX512, TSX256/512/1024, RCS or RWS writes the input range XOR the keystream blocks from the current counter on into the output range, changes nothing else and moves the counter behind the blocks used, whatever the offsets, the vector unit, the parallel profile and the schedule of the tasks; encrypting and decrypting give back the message.", "quantifier": "every message, key, counter, pair of offsets, buffer content, build, parallel profile and task schedule", "why_tests_cant": "the output depends on the schedule, offsets and the counter at the border of the tasks; tests use offset 0 and fresh counters", "anchors": ["CEX/ChaChaP20.cpp: Generate, Process", "CEX/CSX512.cpp: Generate, Process", "CEX/TSX256.cpp: Generate, Process", "CEX/TSX512.cpp: Generate, Process", "CEX/TSX1024.cpp: Generate, Process", "CEX/RCS.cpp: Process, ProcessParallel", "CEX/RWS.cpp: Process, ProcessParallel"]}
{"id": "C51", "title": "ChaChaP20 and CSX512 compute the ChaCha blocks", "statement": "After an unauthenticated Initialize, block n of ChaChaP20 is the ChaCha20 block of RFC 8439 with the 64-bit counter and nonce of the original design (with the info string in place of the constant if given), and block n of CSX512 is the same construction on 64-bit words with its rotations and 40 or 80 rounds; compact, unrolled, SSE, AVX2 and AVX512 code agree.", "quantifier": "every key, nonce, info and block number", "why_tests_cant": "tests have some vectors; the SIMD code paths are only compared on random samples", "anchors": ["CEX/ChaCha.h", "CEX/ChaChaP20.cpp: Initialize, Load", "CEX/CSX512.cpp: Initialize, Load"]}
{"id": "C52", "title": "Authenticated stream ciphers return the message or refuse", "statement": "Two ChaChaP20 or CSX512 objects with authentication and the same key, nonce and code stay in step: each message with its associated data is encrypted to message XOR keystream and a tag, and the other end gives back exactly the message; the tag is KMAC over an injective encoding of associated data, nonce and ciphertext, a changed tag is refused, and a refused message does not spoil the next.", "quantifier": "every key, nonce, code, sequence of associated data and messages, offsets, build, parallel profile and schedule", "why_tests_cant": "depends on unbounded histories of two objects and on all pairs of texts that could share a tag", "anchors": ["CEX/ChaChaP20.cpp: Initialize, SetAssociatedData, Transform, Finalize", "CEX/CSX512.cpp: Initialize, SetAssociatedData, Transform, Finalize"]}
{"id": "C53", "title": "A serialised stream cipher is restored", "statement": "Constructing a ChaChaP20, CSX512, RCS or RWS from the array returned by Serialize gives a cipher with the same members and authenticator, so it goes on exactly as the saved one; an array that is not a saved state is refused.", "quantifier": "every state of the cipher, with and without authentication, at any point of its use", "why_tests_cant": "tests serialise one state each; the size threshold, the length fields and the unsaved MAC state depend on configuration and history", "anchors": ["CEX/ChaChaP20.cpp: Serialize, DeSerialize, constructor", "CEX/CSX512.cpp: Serialize, DeSerialize, constructor", "CEX/RCS.cpp: Serialize, DeSerialize, constructor", "CEX/RWS.cpp: Serialize, DeSerialize, constructor"]}
{"id": "C54", "title": "Initialising a stream cipher again is like using a new one", "statement": "Initialize on an object used before, with any key, nonce and distribution code, gives the same keystream as Initialize on a new object.", "quantifier": "every earlier use and every new key, nonce and code", "why_tests_cant": "needs pairs of initialisations with codes of different sizes; tests use one object per vector", "anchors": ["CEX/ChaChaP20.cpp: Initialize, Reset", "CEX/CSX512.cpp: Initialize, Reset", "CEX/RCS.cpp: Initialize, Reset", "CEX/RWS.cpp: Initialize, Reset"]}
{"id": "C55", "title": "RHX is AES in every build", "statement": "RHX without a KDF, initialised with a 16-, 24- or 32-byte key, replaces each block by its AES encryption (or decryption) as FIPS 197 defines it, in the scalar build and with AES-NI, block by block also in Transform2048; other key sizes are refused; with a KDF both builds make the same invertible cipher from the same generated bytes.", "quantifier": "every key, block, offset, array content and generator output", "why_tests_cant": "test vectors cover a few keys and blocks per build; they cannot show that two builds agree on all inputs or that decryption inverts encryption for every key", "anchors": ["CEX/RHX.cpp: Initialize, StandardExpand, SecureExpand, Encrypt128, Decrypt128, Transform2048", "CEX/Rijndael.h: KeyAddition, MixColumns, InvMixColumns, ShiftRows, Substitution, SubWord"]}
{"id": "C56", "title": "The block functions of RCS and RWS are wide Rijndael, in every build, and injective", "statement": "RCS::Transform256 (scalar and AES-NI) and RWS::Transform512 compute Rijndael with 256- and 512-bit blocks under the generated round keys; different counters give different keystream blocks.", "quantifier": "every round-key array, number of rounds, block and counter", "why_tests_cant": "the AES-NI code emulates the wide row shifts by blending and byte shuffling; agreement on vectors says nothing about all bytes, and injectivity is not testable on 256-bit blocks", "anchors": ["CEX/RCS.cpp: Initialize, Transform256, Transform1024, Transform2048", "CEX/RWS.cpp: Initialize, Transform512", "CEX/Rijndael.h: ShiftRows256, ShiftRows512"]}
{"id": "C57", "title": "SHX is Serpent in every build", "statement": "SHX without a KDF, initialised with a 16-, 24- or 32-byte key, replaces each block by its Serpent encryption (or decryption) under that key, in the scalar, AVX, AVX2 and AVX-512 builds and in every width from one to 16 blocks; other key sizes are refused; decryption by any build undoes encryption by any other; with a KDF it is the Serpent round function iterated 40, 48 or 64 times over the generated bytes.", "quantifier": "every key, block, offset, array content, build and generator output", "why_tests_cant": "the S-boxes are bit-sliced programs over 32-bit words and over vector registers; test vectors try a few keys in one build and the library's own test reverses every key before comparing", "anchors": ["CEX/SHX.cpp: Initialize, StandardExpand, SecureExpand, Encrypt128, Decrypt128, Encrypt512, Encrypt1024, Encrypt2048", "CEX/Serpent.h: EncryptW, DecryptW, Sb0-Sb7, Ib0-Ib7, LinearTransform, InverseTransform", "Test/SerpentTest.cpp:217-218"]}
{"id": "C58", "title": "The polynomial arithmetic of Kyber is exact", "statement": "Ntt, InvNtt, PolyBaseMulMontgomery, PolyVecBaseMulAccMontgomery and the reductions never overflow on the values the scheme gives them and compute, modulo 3329, the number theoretic transform of the specification, its inverse, and products and scalar products modulo X^256+1.", "quantifier": "every polynomial with coefficients up to 9471 (transforms up to 16383, operands of products up to 4095), every vector length up to 5", "why_tests_cant": "overflow or a wrong factor shows only for rare coefficient patterns; the ring has 3329^256 elements", "anchors": ["CEX/KyberBase.cpp: Zetas, MontgomeryReduce, BarrettReduce, FqMul, Ntt, InvNtt, BaseMul, PolyReduce, PolyNttv2, PolyBaseMulMontgomery, PolyVecBaseMulAccMontgomery"]}
{"id": "C59", "title": "Kyber keys and ciphertexts are encoded and decoded as specified", "statement": "PolyToBytes/PolyFromBytes and their vector forms write and read 12-bit numbers, PolyCompress/PolyVecCompress write the rounded coefficients of the specification in 4, 5, 10 or 11 bits, the decompressions invert them up to the rounding error, and a message survives noise below q/4. Nothing outside the destination is written.", "quantifier": "every polynomial with coefficients up to q-1 in absolute value, every byte string, every place in a buffer, every vector length", "why_tests_cant": "rounding errors of multiplications by reciprocals hit single residues at single positions; buffers and polynomials have 2^3072 values", "anchors": ["CEX/KyberBase.cpp: PolyToBytes, PolyFromBytes, PolyToMsg, PolyFromMsg, PolyCompress, PolyDecompress, PolyVecCompress, PolyVecDecompress, PolyVecToBytes, PolyVecFromBytes"]}
{"id": "C60", "title": "Kyber samples noise and the public matrix as specified", "statement": "Cbd2, Cbd3 and the noise functions give the centred binomial distribution of SHAKE-256 of seed and nonce; RejUniform takes exactly the residues among the 12-bit numbers; GenMatrix gives the matrix of the specification for the seed.", "quantifier": "every seed, nonce, place of the seed, K, and byte string to sample from", "why_tests_cant": "the branch of GenMatrix that draws more than 504 bytes is taken for one polynomial in a hundred, and gives a wrong result for one in a million", "anchors": ["CEX/KyberBase.cpp: Cbd2, Cbd3, PolyGetNoiseEta1, PolyGetNoiseEta2, RejUniform, GenMatrix"]}
{"id": "C61", "title": "Kyber: what is encapsulated to a generated key is decapsulated to the same secret", "statement": "Generate returns the keys of the specification; Encapsulate returns the ciphertext and secret of the specification for the draw; Decapsulate returns true and the secret exactly for a ciphertext that is the encryption of its decryption, and otherwise returns false and leaves the secret alone; with a generated pair both sides end with the same 32 bytes unless decryption fails by noise.", "quantifier": "every parameter set, every draw of the generator, every key and ciphertext of the right layout, every old content of the outputs", "why_tests_cant": "tests try a few keys; acceptance of a ciphertext is a statement about all 2^6144 and more strings, and agreement about all seeds", "anchors": ["CEX/Kyber.cpp: Generate, Initialize, Encapsulate, Decapsulate, CXOF", "CEX/KyberBase.h: Generate, Encapsulate, Decapsulate", "CEX/KyberBase.cpp: PkeKeyPair, PkeEnc, PkeDec, PackCiphertext, UnpackCiphertext, PackPk, UnpackPk"]}
{"id": "C62", "title": "CSG: the generator returns SHAKE or cSHAKE of its seed, however the requests are split", "statement": "After Initialize(key, nonce, info) the bytes returned by any sequence of Generate calls are, concatenated, SHAKE(key) or cSHAKE(key, info, nonce) until a reseed; a reseed happens exactly when a provider is present and the counted bytes reach the threshold; Update absorbs the new key into the state; limits on request size and number of reseeds are enforced; nothing outside the requested window is written.", "quantifier": "every history of calls, every key, nonce, info, every splitting of requests, every answer of the entropy provider, SHAKE-128/256/512", "why_tests_cant": "known-answer tests use one request; the property relates all splittings and all histories", "anchors": ["CEX/CSG.cpp: Initialize, Update, Generate, Customize, Absorb, Derive, Expand, Fill, Reset, constructors"]}
{"id": "C63", "title": "HCG: the generator returns the chained HMAC blocks of its seed", "statement": "After Initialize(key, nonce, info) the bytes returned by Generate are the blocks V(i+1) = HMAC(key, V(i) || code || counter(i+1)) with the counter growing by the block size; Generate, Update and the automatic reseed follow one state machine for every history; limits are enforced; nothing outside the requested window is written.", "quantifier": "every history of calls, every key, nonce, info, request sizes, provider answers, SHA2-256 and SHA2-512 and any digest whose block is twice its size", "why_tests_cant": "tests make single requests of one size; the dependence on splitting and the state after a reseed are invisible there", "anchors": ["CEX/HCG.cpp: Initialize, Update, Generate, Derive, Expand, Fill, constructors"]}
{"id": "C64", "title": "BCG: the generator returns counter-mode output under its key, independently of threads", "statement": "After Initialize(key, nonce, info) the bytes returned by Generate are counter mode of the 256-bit-block Rijndael function under round keys taken from cSHAKE-256; Update and the automatic reseed follow one state machine for every history; the result does not depend on the number of threads, on the schedule or on how requests are split; limits are enforced; nothing outside the requested window is written; the security strength reported stays that of the key.", "quantifier": "every history of calls, key, nonce, info, request size, provider answer, thread schedule, SIMD width and fair parallel profile", "why_tests_cant": "tests use one profile and one request; output under another number of threads, after a reseed or under another splitting is not compared", "anchors": ["CEX/BCG.cpp: Initialize, Update, Generate, Derive, Process, Transform, Transform256"]}
{"id": "C65", "title": "BLAKE2s and BLAKE2b (sequential): digest and keyed digest are RFC 7693, independent of splitting and of what came before", "statement": "A sequential Blake256/Blake512 object, after any history of Initialize, Update, Reset and Finalize, writes with Finalize the RFC 7693 digest of the bytes passed to Update since the object was last fresh: with the key if Initialize was called, without if not. The result does not depend on how the message is cut into Update calls nor on the compression function selected at compile time; salt and info distinguish digests; wrong key, salt, info and output sizes are refused with the documented error.", "quantifier": "every history of calls, message, cutting, key, salt, info, output buffer and offset; both builds", "why_tests_cant": "known-answer tests use a few short messages on fresh objects, without salt and info, and never a second digest after a keyed one", "anchors": ["CEX/Blake256.cpp: Initialize, Update, Finalize, Reset, LoadState, Permute", "CEX/Blake512.cpp: same", "CEX/Blake.h: PermuteR10P512C/U, PermuteR12P1024C/U", "CEX/BlakeParams.h: GetConfig", "CEX/IntegerTools.h: LeIncreaseW"]}
{"id": "C66", "title": "BLAKE2 tree mode: every byte of the message enters the digest, independent of splitting, output at the offset asked for", "statement": "A tree-hashing Blake256/Blake512 object (parallel mode) computes a digest in which every byte of the message takes part: two different messages are treated differently. The digest does not depend on how the message is cut into Update calls. Finalize writes the digest at the offset it is given.", "quantifier": "every fan-out, message, cutting, output offset; both classes and builds", "why_tests_cant": "a test compares digests of single messages with stored values produced by the same code; that a part of long messages is never read shows only when two long messages differ exactly there", "anchors": ["CEX/Blake256.cpp:437-506", "CEX/Blake512.cpp:273", "CEX/Blake256.cpp:579-588"]}
{"id": "C67", "title": "Dilithium arithmetic: transforms, products, rounding, hints and norms are those of the specification, no overflow", "statement": "For all coefficients in the ranges the scheme uses, no operation of the polynomial arithmetic of Dilithium overflows. Ntt, pointwise product and InvNttToMont together give the product modulo X^256+1 and q = 8380417. Decompose, Power2Round, UseHint and MakeHint are the functions of the specification for both values of gamma2. A verifier who applies UseHint recovers the high bits of the signer from the hint. PolyChkNorm decides the infinity norm modulo q.", "quantifier": "all polynomials within the stated bounds, all residues, both gamma2, all high and low parts", "why_tests_cant": "vectors touch a few thousand of the 2^23 residues per coefficient; overflow, a wrong carry at q-1, or a hint that fails at the edge of a rounding interval show only for special values", "anchors": ["CEX/DLTMPolyMath.cpp:985-1044", "CEX/DLTMPolyMath.cpp:1391-1407", "CEX/DLTMPolyMath.cpp:1939-2056", "CEX/DLTMPolyMath.cpp:823-946"]}
{"id": "C68", "title": "Dilithium keys and signatures encode and decode without loss, and the encoding of a signature is unique", "statement": "PackPk, PackSk, PackSig and PolyVecPackW1 write exactly the encodings of the specification and nothing else, and UnpackPk, UnpackSk and UnpackSig recover what was packed. Every byte string of the length of a public key is the encoding of what UnpackPk reads. UnpackSig never reads or writes outside its buffers, and accepts a signature exactly if it is the encoding of a challenge, a response and at most omega hints; what it returns encodes to that same string, so no second string is accepted for the same parts.", "quantifier": "all keys, challenges, responses, hints, all buffers and all three parameter sets", "why_tests_cant": "a wrong shift shows only for coefficients with certain bits set, and a second accepted encoding of the hints (which would make signatures malleable) is never produced by the packing side that tests use", "anchors": ["CEX/DLTMPolyMath.cpp:948-979", "CEX/DLTMPolyMath.cpp:1048-1261", "CEX/DLTMPolyMath.cpp:1311-1379", "CEX/DLTMPolyMath.cpp:1409-1519", "CEX/DLTMPolyMath.cpp:1583-1677"]}
{"id": "C69", "title": "Dilithium samples matrix, masks, challenge and secrets as specified", "statement": "For every seed: ExpandMat produces the matrix of the specification (the first 256 residues below q of each SHAKE128 stream, however many blocks that takes), PolyVecUniformGamma1M1 produces the mask of the specification with coefficients in (-gamma1, gamma1], PolyChallenge produces the polynomial of SampleInBall with exactly tau coefficients 1 or -1, and PolyUniformEta produces the first 256 accepted small coefficients of its SHAKE128 stream. None of them reads or writes outside its buffers.", "quantifier": "all seeds, nonces, parameter sets, numbers of rejected bytes, and every permutation in the sponge", "why_tests_cant": "the paths that draw more blocks are taken with negligible probability for the seeds a test can try, and the wrong write in PolyUniformEta is only on such a path", "anchors": ["CEX/DLTMPolyMath.cpp:1265-1309", "CEX/DLTMPolyMath.cpp:1521-1581", "CEX/DLTMPolyMath.cpp:1679-1772", "CEX/DLTMPolyMath.cpp:1921-1927", "CEX/DLTMPolyMath.cpp:2060-2072"]}
{"id": "C70", "title": "Dilithium keys, signatures and verification fit together", "statement": "For every parameter set, seed and non-empty message: keys made by Generate have the documented lengths and are a private key and the public key that belongs to it; an object initialised with the private key signs the message; an object initialised with the public key accepts the result and gives exactly the message back, whatever state the objects were in and whatever the output vectors held before. Signing and verification never fail on such keys, they can only still be sampling.", "quantifier": "all seeds of 32 bytes, parameter sets, messages, earlier object states and buffer contents, numbers of sampling steps, and every permutation in the sponge", "why_tests_cant": "rejected attempts, carries in the hints, overflow of the 32-bit arithmetic and stale buffers depend on values that few seeds and messages reach", "anchors": ["CEX/Dilithium.cpp:209-375", "CEX/DLTMBase.h:211-277", "CEX/DLTMBase.h:476-622", "CEX/DLTMBase.h:766-849"]}
{"id": "C71", "title": "Dilithium verification accepts exactly the valid signatures", "statement": "For every public key of the right length and every byte string given as a signature, Verify returns true with the embedded message if the signature is valid under the specification (norm of z, number and encoding of hints, recomputed challenge) and returns false otherwise; it reads and writes only inside its buffers, and after false the output vector holds nothing from the rejected signature.", "quantifier": "all public keys of the right length, all byte strings as signatures, all messages and buffer contents, every permutation in the sponge", "why_tests_cant": "forged and malformed signatures form an unbounded space; a single missing test accepts some of them and random corruption hardly ever finds those", "anchors": ["CEX/Dilithium.cpp:331-375", "CEX/DLTMBase.h:766-849", "CEX/DLTMBase.h:640-760"]}
{"id": "C72", "title": "Dilithium signing gives the deterministic signature of the specification", "statement": "For every private key of the right length and every non-empty message, Sign gives the signature of the first attempt that passes the four tests of the specification, followed by the message; two runs that end give the same bytes, whatever the output vector held. It has defined behaviour for arbitrary key bytes, and after any sequence of calls on an object Sign and Verify either give a result or leave with the documented error.", "quantifier": "all private keys of the right length (also malformed ones), messages, call sequences, buffer contents, and every permutation in the sponge", "why_tests_cant": "which attempt is accepted depends on key and message; keys with coefficients out of range and unusual call sequences are not in known-answer files", "anchors": ["CEX/Dilithium.cpp:253-329", "CEX/DLTMBase.h:476-622", "CEX/DLTMPolyMath.cpp:1776-1935"]}
{"id": "C73", "title": "The permutations of Skein.h are Threefish", "statement": "For every key, tweak and block, PemuteR72P256U, PemuteR72P512U and PemuteR80P1024U give Threefish-256, -512 and -1024 of the Skein paper, and the compact forms PemuteP256C, PemuteP512C and PemuteP1024C, which other build settings select, give the same.", "quantifier": "all keys, tweaks and blocks", "why_tests_cant": "thousands of hand-unrolled statements in several variants; a wrong constant or index that known answers miss, or a difference between two builds, shows only on some inputs", "anchors": ["CEX/Skein.h:64-142", "CEX/Skein.h:154-523", "CEX/Skein.h:538-664", "CEX/Skein.h:676-1389", "CEX/Skein.h:2991-3213", "CEX/Skein.h:3225-4772"]}
{"id": "C74", "title": "The key stream blocks of TSX are Threefish blocks and do not depend on the build", "statement": "For every key, tweak and counter, the block function of TSX256, TSX512 and TSX1024 is Threefish with 72, 96 and 120 rounds of the block made of the counter and ones. Under one key and tweak different counters give different blocks. The compact functions and the wide AVX2 and AVX-512 functions give the same blocks, in the order of the counters.", "quantifier": "all keys, tweaks, counters, and any number of lanes", "why_tests_cant": "the unrolled, compact and SIMD forms are separate code and one machine runs one of them; interoperability needs equality on every input", "anchors": ["CEX/Threefish.h:191-268", "CEX/Threefish.h:281-650", "CEX/Threefish.h:666-852", "CEX/Threefish.h:871-1943", "CEX/Threefish.h:1959-2261", "CEX/Threefish.h:2280-4787", "CEX/Threefish.h:4803-5329"]}
{"id": "C75", "title": "Skein256, Skein512 and Skein1024 compute Skein, however the message is cut", "statement": "A sequential Skein object, constructed on any machine and used with any sequence of Update, Reset and Finalize calls, writes the Skein hash (of the paper, with the full output size) of the bytes passed since the last Reset or Finalize, at the given place of the output and nowhere else. Two ways to cut the same bytes give the same digest. The object is a digest in the sense the MAC and KDF theorems ask for.", "quantifier": "all machines, all histories of calls, all windows of input, all messages below 2^64 bytes, all outputs", "why_tests_cant": "vectors cover a few messages and one way to cut them; the delayed last block, the tweak flags and the position counter go wrong only for some cuts", "anchors": ["CEX/Skein512.cpp:49-64", "CEX/Skein512.cpp:136-212", "CEX/Skein512.cpp:231-472", "CEX/Skein256.cpp", "CEX/Skein1024.cpp", "CEX/SkeinParams.cpp:27-53", "CEX/SkeinParams.cpp:161-186", "CEX/SkeinUbiTweak.h"]}
{"id": "C76", "title": "The tree digest of Skein depends on the message and the degree alone", "statement": "A parallel Skein object gives a digest that is a function of the bytes passed to Update and of the number of lanes: not of the way the bytes were cut, of the number of processors or the cache size of the machine, or of earlier messages; every byte has its place in the tree.", "quantifier": "all machines, all degrees, all histories of calls, all messages", "why_tests_cant": "the result depends on the machine the test runs on; a test machine with eight or more processors never shows what happens on a smaller one", "anchors": ["CEX/Skein512.cpp:49-77", "CEX/Skein512.cpp:157-198", "CEX/Skein512.cpp:214-229", "CEX/Skein512.cpp:267-323", "CEX/Skein512.cpp:386-427", "CEX/Skein512.cpp:462-472", "CEX/Skein256.cpp", "CEX/Skein1024.cpp"]}
{"id": "C77", "title": "SPHINCS+ signs what it is given: Generate, Sign and Verify belong together", "statement": "For all seeds and all random bytes: Generate delivers the public key of the SPHINCS+ specification (simple recursive definition of the trees), Sign delivers the signature of the specification followed by the message, a function of key, message and random bytes alone, and Verify with the public key of Generate accepts it and returns the message.", "quantifier": "all four parameter sets, all seeds, all messages, all random bytes, whatever the output vectors held before", "why_tests_cant": "a signature takes thousands of hashes and each message uses one of 2^63 or 2^64 leaves; tests that sign into fresh vectors and verify with the same code do not see which parts of a signature were never written", "anchors": ["CEX/SPXBase.h:158-948", "CEX/SPXBase.cpp", "CEX/SphincsPlus.cpp:254-410"]}
{"id": "C78", "title": "SPHINCS+ Verify accepts exactly the valid signatures and answers every input", "statement": "Verify returns true exactly if the signature leads to the root of the public key by the equations of the specification, and then delivers the message; in every other case, also for vectors too short to hold a signature, it returns false and delivers no byte of the message.", "quantifier": "all public keys, all signature vectors of any length, all messages", "why_tests_cant": "no test can try all wrong signatures; that acceptance is equivalent to the equation of the specification is a statement about all of them", "anchors": ["CEX/SPXBase.h:309-347", "CEX/SPXBase.h:411-437", "CEX/SPXBase.h:618-633", "CEX/SPXBase.h:860-948", "CEX/SphincsPlus.cpp:362-410"]}
{"id": "C79", "title": "The stateless SHA-2 functions compute SHA-256, SHA-384, SHA-512 and HMAC", "statement": "SHA2::Compute256, Compute384 and Compute512 write the FIPS 180-4 digest of the window they are given, MACR64P512 and MACR80P1024 write the RFC 2104 code for every key, and nothing outside the output window changes.", "quantifier": "all messages, all positions of message and output, all keys of any length", "why_tests_cant": "the test vectors cover a few lengths, offset zero and short keys; the padding splits at every block boundary and long keys are a separate rule of RFC 2104", "anchors": ["CEX/SHA2.h:144-266", "CEX/SHA2.h:1024-1201", "CEX/SHA2.cpp:45-55"]}
{"id": "C80", "title": "XMSS key generation produces RFC 8391 key pairs", "statement": "For each of the 44 parameter sets XMSS::Generate delivers a public key of object identifier, root of the top tree and public seed, and a private key of the identifier, index 0, the two secret seeds, the root and the public seed, all computed from the random bytes as in RFC 8391 with the RFC 8391 identifiers; the reported sizes are those of the keys and signatures.", "quantifier": "all 44 parameter sets, all seeds", "why_tests_cant": "a tree has up to 2^20 leaves, key generation takes minutes to hours for the large sets, and the tests compare no root with a reference", "anchors": ["CEX/XmssCore.cpp:1430-1452", "CEX/XmssCore.cpp:1258-1288", "CEX/XMSS.cpp:232-243"]}
{"id": "C81", "title": "XMSS verification accepts exactly the valid signatures", "statement": "XMSS::Verify answers true, and delivers the message, exactly when the first bytes are a valid RFC 8391 signature of the rest under the public key, and otherwise answers false and delivers an empty message.", "quantifier": "all parameter sets, all public keys, all byte vectors", "why_tests_cant": "tests sample a few altered signatures; acceptance is a condition on every byte and on every length", "anchors": ["CEX/XmssCore.cpp:1480-1511", "CEX/XmssCore.cpp:1085-1166", "CEX/XMSS.cpp:296-313"]}
{"id": "C82", "title": "XMSS signing produces RFC 8391 signatures, each with a fresh one-time key", "statement": "XMSS::Sign delivers the RFC 8391 signature with the one-time key the private key is at, followed by the message; Verify accepts it; and the private key moves on, so no two signatures use the same one-time key.", "quantifier": "all parameter sets, all keys and their indices, all messages, all contents of the output vector, all sequences of calls", "why_tests_cant": "the tests sign with fresh keys into fresh vectors, where the index read from the wrong buffer happens to be right; reuse of a one-time key is invisible to a round trip", "anchors": ["CEX/XmssCore.cpp:1454-1478", "CEX/XmssCore.cpp:1290-1362", "CEX/XMSS.cpp:272-294"]}
{"id": "C83", "title": "The Curve25519 field arithmetic computes modulo 2^255-19", "statement": "The field operations of EC25519 (add, subtract, multiply, square, multiply by the curve constant, invert, conditional swap, copy, decode, encode) compute the operation modulo 2^255-19 without integer overflow on all limbs the curve code passes, in the build with 32-bit limbs and in the build with 128-bit integers, and for both widths of unsigned long.", "quantifier": "all field elements within the limb bounds, both builds, both widths of unsigned long", "why_tests_cant": "carries and overflows depend on limb patterns that random test vectors do not reach", "anchors": ["CEX/EC25519.cpp:119-767", "CEX/EC25519.cpp:769-1870", "CEX/EC25519.cpp:1871-1947"]}
{"id": "C84", "title": "ECDH key exchange is X25519", "statement": "ECDH::KeyExchange delivers X25519 of RFC 7748 of the private and the public key and answers false exactly when that value is zero; two parties arrive at the same secret.", "quantifier": "all public and private keys of 32 or more bytes, all contents of the secret vector, all domain keys, both builds", "why_tests_cant": "2^510 pairs of keys, and the test program runs one build only", "anchors": ["CEX/EC25519.cpp:5283-5376", "CEX/ECDH.cpp:160-181", "CEX/ECDHBase.cpp:8-15"]}
{"id": "C85", "title": "Public keys of small order are recognised", "statement": "Ed25519SmallOrder recognises all seven encodings of points of small order in its list, with either top bit, and no other; KeyExchange never delivers an all-zero secret.", "quantifier": "all 32-byte encodings", "why_tests_cant": "tests with honest keys never meet the small-order points, and a loop bound of 1 is invisible to the test with the first entry", "anchors": ["CEX/EC25519.cpp:5378-5455", "CEX/EC25519.cpp:5358-5376"]}
{"id": "C86", "title": "ECDH key generation gives X25519 public keys", "statement": "In the build with 32-bit limbs ECDH::Generate(seed) gives as private key the first 32 bytes of the 64-byte digest of the seed and as public key X25519 of that private key and the base point 9, although it multiplies on the Edwards curve with a table of 256 points; no signed integer overflows on the way; seeds of another length are refused; any two generated key pairs arrive at the same secret.", "quantifier": "all seeds, all private keys, both digests, both widths of unsigned long", "why_tests_cant": "2^256 seeds; one wrong limb among the 7680 of the table shows up only for the keys whose digits select that entry", "anchors": ["CEX/ECDH.cpp:183-214", "CEX/ECDHBase.cpp:17-24", "CEX/EC25519.cpp:5253-5281", "CEX/EC25519.cpp:4780-4834", "CEX/EC25519.cpp:3377-4723", "CEX/EC25519.cpp:1949-2025", "CEX/EC25519.cpp:4725-4778"]}
{"id": "C87", "title": "Scalars of Ed25519 are reduced modulo the order of the base point", "statement": "Sc25519Reduce replaces the number in a 64-byte buffer by its residue modulo the order L of the base point in the first 32 bytes, and Sc25519MulAdd writes (a b + c) mod L at the given offset and nothing else; no signed integer overflows in either.", "quantifier": "all 64-byte buffers; all scalars a, b, c, all offsets and output buffers", "why_tests_cant": "2^512 inputs; the unsigned constant in one of sixty carries changes the result only when that limb is negative, and signing and verifying repeat the same error, so a round trip never shows it", "anchors": ["CEX/EC25519.cpp:5969-6298", "CEX/EC25519.cpp:6070", "CEX/EC25519.cpp:5492-5967", "CEX/EC25519.cpp:25-46"]}
{"id": "C88", "title": "ECDSA makes and checks Ed25519 signatures", "statement": "Generate derives the key pair of RFC 8032 from its 32-byte seed; Sign writes the signature of RFC 8032 followed by the message; Verify returns the message exactly when the 64 bytes are a valid signature of it and otherwise clears the output; what is signed is accepted; an accepted scalar cannot be altered.", "quantifier": "all seeds, messages, public keys, signed messages and old contents of the vectors; both digests of the class", "why_tests_cant": "needs the group law, the order of the base point and every scalar recoding; a round trip repeats the error of the reduction on both sides; forgeries and malformed keys are single values of 2^256", "anchors": ["CEX/ECDSA.cpp:162-290", "CEX/ECDSABase.cpp:13-153", "CEX/EC25519.cpp:4868-5221", "CEX/EC25519.cpp:58-117"]}
{"id": "C89", "title": "SCBKDF derives what its cost parameters describe", "statement": "After Initialize the derived bytes depend on the key, salt and information string alone, not on earlier use of the object; Generate writes exactly the requested window; the CPU cost is the number of cycles, and the memory cost bounds the size of the cache in megabytes.", "quantifier": "all keys of at least 16 bytes, salts, information strings, costs, requests and histories; the three modes", "why_tests_cant": "the memory bound shows only after thousands of cycles; independence of history ranges over all call sequences", "anchors": ["CEX/SCBKDF.cpp:11-243", "CEX/SCBKDF.h:47-118"]}
{"id": "C90", "title": "KPA computes its tree MAC for every split of the message", "statement": "After Initialize, whatever the object did before, the message may be given in any parts and Finalize writes its tag behind the offset, of the length of the remaining output; TagSize is the digest size of the mode; the mode decides the rate; Reset erases the key material; the object can be used for the next message.", "quantifier": "all keys of at least 16 bytes, customizations, messages, splits, outputs, offsets and histories; the three modes", "why_tests_cant": "the interplay of the eight leaves, the buffer of eight blocks and the byte counter ranges over all message lengths and splits", "anchors": ["CEX/KPA.cpp:24-272", "CEX/KPA.cpp:274-509", "CEX/KPA.cpp:563-683", "CEX/KPA.h:43-95"]}
{"id": "C91", "title": "SHA3-256 and SHA3-512 in parallel mode hash every byte of the message, however it is passed", "statement": "An object made with Parallel = true gives the tree digest of the bytes it has received since construction, Reset or Finalize, independent of how Update was called; a degree that ParallelMaxDegree accepts and parameters that the constructor accepts keep the object within its arrays.", "quantifier": "all messages, splits, histories, outputs and offsets, machines (processor counts, cache sizes), degrees and parameters; both digests", "why_tests_cant": "the digest goes wrong only on machines with less than eight processors and only for some splits; test vectors are computed on one machine with one call", "anchors": ["CEX/SHA3256.cpp:37-66", "CEX/SHA3256.cpp:122-241", "CEX/SHA3256.cpp:263-384", "CEX/SHA3512.cpp", "CEX/KeccakParams.cpp", "CEX/ParallelOptions.cpp:211-338"]}
{"id": "C92", "title": "KeccakParams are copied without loss and compared correctly", "statement": "ToBytes gives GetHeaderSize bytes; the constructor from an array, Clone and DeepCopy give the same parameters back; different parameters have different blocks; Equals holds for equal parameters only.", "quantifier": "all parameters and arrays", "why_tests_cant": "the comparison is by a sum, and a test compares a few parameters", "anchors": ["CEX/KeccakParams.cpp:24-82", "CEX/KeccakParams.cpp:92-106", "CEX/KeccakParams.cpp:143-213"]}
{"id": "C93", "title": "DigestStream and MacStream give the digest and the tag of their input", "statement": "DigestStream::Compute gives the digest of the window of the array, or of the bytes from the position to the end of the stream, independent of earlier use of the digest, of the block sizes and of the parallel setting, and leaves the stream at its end; MacStream::Compute gives the tag in the same way.", "quantifier": "all inputs, offsets, lengths and positions; any digest or MAC behind the interface that is split independent; all block and parallel block sizes", "why_tests_cant": "the cutting into parallel blocks, blocks and a rest ranges over all lengths; a test takes a few", "anchors": ["CEX/DigestStream.cpp:84-278", "CEX/MacStream.cpp:75-247", "CEX/MemoryStream.cpp:128-142"]}
{"id": "C94", "title": "SecureStream behaves like a byte array with a cursor and stores it encrypted", "statement": "Every sequence of calls on a SecureStream answers as the same calls on a plain file would, and between the calls the stream holds the content only under the AES counter-mode keystream; a gap left by seeking beyond the end reads as zeros; the stored bytes of one stream say nothing about another.", "quantifier": "all contents, all sequences of reads, writes, seeks, resets and accessors, all seeds, parallel profiles and schedules", "why_tests_cant": "the stream encrypts again at every call and at every new length; a test sees a few sequences", "anchors": ["CEX/SecureStream.cpp:18-303", "CEX/CTR.cpp:221-251"]}
{"id": "C95", "title": "A key that is kept encrypted comes back as it was given", "statement": "SymmetricSecureKey and AsymmetricSecureKey return exactly the key, nonce, info and polynomial they were made from, for every security policy; a clone holds the same; with an authenticated policy a changed state is refused; the serialised form is read as the same key.", "quantifier": "all keys, nonces, infos, polynomials, salts and policies; every stream cipher and key derivation behind the interface", "why_tests_cant": "the accessor that gives too many bytes returns a valid-looking vector; a comparison of two such vectors does not notice; lengths and policies are many", "anchors": ["CEX/SymmetricSecureKey.cpp:26-532", "CEX/AsymmetricSecureKey.cpp:31-255", "CEX/SHAKE.cpp:224-241"]}
{"id": "C96", "title": "The tree parameters of SHA2, Blake2 and Skein survive their serialised form", "statement": "For SHA2Params, BlakeParams and SkeinParams, Clone, DeepCopy and the constructor from the array that ToBytes gives return the same parameters; different parameters give different arrays; an array that is too short is refused; Equals holds only for equal parameters.", "quantifier": "all parameters, distribution codes and arrays", "why_tests_cant": "the size test is made before the output size is known, so it is wrong for arrays that a test does not try; a sum compares equal for few of the pairs a test would form", "anchors": ["CEX/SHA2Params.cpp:24-221", "CEX/BlakeParams.cpp:23-226", "CEX/SkeinParams.cpp:27-261"]}
{"id": "C97", "title": "Generated keys have the asked sizes and the strength of the policy", "statement": "SymmetricKeyGenerator fills exactly the asked window with cSHAKE of a new seed of the entropy provider; a generated key has key, nonce and info of the asked sizes, each from a seed of its own; the seed and the generator have at least the strength that the security policy names.", "quantifier": "all policies, sizes, offsets, buffers and answers of the provider", "why_tests_cant": "the output looks random whatever the seed length is; a test sees the sizes but not the strength, and offsets near the end of the address range are not tried", "anchors": ["CEX/SymmetricKeyGenerator.cpp:36-202", "CEX/SecurityPolicy.h:12-41", "CEX/SymmetricKeySize.cpp:32-38"]}
{"id": "C98", "title": "The memory pool gives out disjoint, aligned, zeroed blocks and loses none", "statement": "For any order of calls, a block that MemoryPool::Allocate gives out lies inside the pool, is aligned and zero, and shares no byte with a block that is still in use; Deallocate zeroes the block, touches no other byte and makes it free again; when all blocks were given back the whole pool is one free entry; Reset makes a new pool.", "quantifier": "all pools, all histories of calls (through an invariant that every call keeps), all lengths", "why_tests_cant": "overlap and loss depend on the order of the calls and on fragmentation; the iterator that erasure invalidates often still reads plausible memory", "anchors": ["CEX/MemoryPool.cpp:66-220"]}
{"id": "C99", "title": "Secure memory comes from the locked pool", "statement": "LockingAllocator gives memory of the locked pool when the request is within its limits, refuses a request whose size in bytes does not fit size_t, and returns a block of the pool to the pool.", "quantifier": "all pools, element counts and element sizes", "why_tests_cant": "the memory from calloc behaves the same in every test, except that it can be written to the swap file", "anchors": ["CEX/LockingAllocator.cpp:53-81"]}
{"id": "C100", "title": "The factories make the algorithm that is asked for, and objects report their own name", "statement": "For every value of the enumerations, BlockCipherFromName, KdfFromName, MacFromName, PrngFromName and StreamCipherFromName make the named algorithm with the named digest, mode and authentication, or throw InvalidParam if there is none; Enumeral() of the made object is the value asked for; MacStream refuses every GMAC.", "quantifier": "all 256 values of each enumeration", "why_tests_cant": "the tests build the classes directly; a factory that makes another cipher still encrypts and decrypts with itself", "anchors": ["CEX/StreamCipherFromName.cpp:22-124", "CEX/PrngFromName.cpp:19-71", "CEX/MacFromName.cpp:24-143", "CEX/KdfFromName.cpp:20-159", "CEX/BlockCipherFromName.cpp:13-92", "CEX/StreamCiphers.cpp:10-104", "CEX/TSX512.cpp:102-113", "CEX/MacStream.cpp:39-53"]}
{"id": "C101", "title": "Names and values of the enumerations convert into each other", "statement": "For every enumerator, ToName gives its identifier and FromName converts the identifier back to it; two enumerators never share a name; an unknown name is converted to None.", "quantifier": "all enumerators of twelve enumerations, all strings", "why_tests_cant": "the conversions are not tested at all; a wrong entry in a table of sixty shows only when that algorithm is chosen by name", "anchors": ["CEX/SymmetricCiphers.cpp:5-233", "CEX/AsymmetricParameters.cpp:5-455", "CEX/Kdfs.cpp:5-100", "CEX/Macs.cpp:5-155"]}
{"id": "C102", "title": "The field arithmetic of McEliece is GF(2^13)", "statement": "GfAdd, GfMultiply, GfSq2, GfSqMul and GfSq2Mul compute a+b, ab, a^4, a^2 b and a^4 b modulo x^13+x^4+x^3+x+1; GfFrac and GfInv divide by every element but 0; Eval is the value of the polynomial; GfIsZero and SameMask are the masks of a = 0 and x = y; MinMax32 and MinMax64 put the smaller of two values first.", "quantifier": "all field elements, all polynomials, all integers", "why_tests_cant": "the key and decoding tests reach these functions only through random keys; 2^26 pairs of arguments and the reduction masks of six lengths are not enumerated, and a wrong mask shows up only for rare operands", "anchors": ["CEX/MPKCUtils.cpp:490-668", "CEX/MPKCUtils.cpp:769-816"]}
{"id": "C103", "title": "McEliece accepts only valid ciphertexts", "statement": "GenE gives an error vector of weight exactly t; Decrypt reports success exactly when the vector found has weight t and the syndromes of the ciphertext; Decapsulate returns true exactly when Decrypt succeeds and the confirmation hash matches, the secret is then H(1, e, C), and H(0, s, C) for every other ciphertext.", "quantifier": "all private keys and decoders, all hash functions, all ciphertexts, all outputs of the generator", "why_tests_cant": "the tests decapsulate honest ciphertexts and random corruptions; the accepted invalid ciphertexts need a padding bit and a chosen confirmation, which random corruption does not hit", "anchors": ["CEX/MPKCN6960T119.cpp:89-297", "CEX/MPKCN6960T119.cpp:615-674", "CEX/MPKCN4608T96.cpp:92-150", "CEX/MPKCN4608T96.cpp:562-608", "CEX/MPKCN6688T128.cpp:562-608", "CEX/MPKCN8192T128.cpp:537-583"]}
{"id": "C104", "title": "The McEliece syndrome is the product of (I | T) with the error vector", "statement": "Bit i of Syndrome(pk, e) is the inner product over GF(2) of row i of the matrix (I | T) with e, where T is the public key; the bits after the last row are zero. For MPKCN6960T119, with rows that do not end at a byte, the row is shifted into place and the padding of the ciphertext is zero.", "quantifier": "all public keys, all error vectors", "why_tests_cant": "the tests only compare encapsulation with decapsulation for a few keys; a wrong bit of the shifted row only shows with an error at that position", "anchors": ["CEX/MPKCN6960T119.cpp:237-282", "CEX/MPKCN4608T96.cpp:238-278", "CEX/MPKCN8192T128.cpp:211-252"]}
{"id": "C105", "title": "The McEliece support is a permutation of the field", "statement": "For all control bits ApplyBenes permutes the 8192 bits of its argument by a permutation that depends on the control bits only, and ApplyBenes with Reverse is the inverse permutation. So SupportGen yields field elements below 2^13, no two of them equal, and over 8192 positions every field element. Transpose64x64 transposes, BitReverse reverses the 13 bits.", "quantifier": "all control bits, all strings, all positions", "why_tests_cant": "there are 2^102400 settings of the control bits; a repeated support element only shows as a rare decoding failure of some keys", "anchors": ["CEX/MPKCUtils.cpp:13-132", "CEX/MPKCUtils.cpp:702-758", "CEX/MPKCUtils.cpp:947-993", "CEX/MPKCN6960T119.cpp:51-87"]}
{"id": "C106", "title": "McEliece decryption never accepts a wrong error vector", "statement": "Synd yields for j < 2t the sums of a^j/g(a)^2 over the support elements a at the positions set in the word. Two words of weight at most t with the same 2t syndromes are equal. So when Decrypt returns 0 it has written the only vector of weight t with the syndromes of the ciphertext, whatever the decoder computes, and when there is no such vector it returns 1.", "quantifier": "all Goppa polynomials without a zero in the support, all supports of different elements (all control bits), all ciphertexts, any decoder", "why_tests_cant": "the uniqueness is a statement about all pairs of vectors of weight t", "anchors": ["CEX/MPKCUtils.cpp:920-945", "CEX/MPKCUtils.cpp:490-510", "CEX/MPKCN6960T119.cpp:89-146", "CEX/MPKCN4608T96.cpp:91-150"]}
{"id": "C107", "title": "Rotations, parity, powers of two and hexadecimal strings", "statement": "RotL/RotR rotate the bits and undo each other for every shift, also 0; Parity is the sum of the bits modulo 2; IsPowerOf2 holds exactly for powers of two, ModPowerOf2 is the remainder, Crop keeps the low bits; HexToInt reads what IntToHex wrote for every integer type, and FromHex gives back the given number of bytes of ToHex.", "quantifier": "all values, all shifts, all byte strings, all positions in a longer string", "why_tests_cant": "the values from 2^63 on and the shift 0 are the ones that fail and are not among the test values; undefined behaviour may look right in one build", "anchors": ["CEX/IntegerTools.h:2734-2844", "CEX/IntegerTools.h:312-322", "CEX/IntegerTools.h:256-275", "CEX/IntegerTools.h:164-178", "CEX/IntegerTools.h:383-423", "CEX/IntegerTools.h:229-246", "CEX/IntegerTools.h:340-355"]}
{"id": "C108", "title": "The word counters add modulo 2^(2w)", "statement": "LeIncrementW adds one, LeIncreaseW the given number to the little-endian number in the first two words of the counter, modulo 2^(2w), and leave the other words.", "quantifier": "all word widths, all counters, all amounts", "why_tests_cant": "a carry happens once in 2^32 or 2^64 values and wrong carries repeat key stream blocks only then", "anchors": ["CEX/IntegerTools.h:2118-2129", "CEX/IntegerTools.h:2139-2151", "CEX/IntegerTools.h:2161-2174"]}
{"id": "C109", "title": "Blocks of bytes convert to big-endian words and back", "statement": "BlockToBe writes the big-endian number of each group of bytes to the output words and changes nothing else; BeToBlock writes the bytes of a word back.", "quantifier": "all word sizes, all byte strings, all offsets, all previous contents of the output", "why_tests_cant": "a result that depends on the previous contents of the output only shows when a buffer is used again", "anchors": ["CEX/IntegerTools.h:494-516", "CEX/IntegerTools.h:527-549"]}
