/-!
# Model of the name conversions `ToName` and `FromName` (CEX/*.cpp of the enumerations)

`ToName` is a switch with the default "None"; `FromName` is a chain of comparisons that ends in `None`, which is 0. The tables list the cases in the order of the source. The lists `decl` are the enumerators of
the headers with their values, without `None`.
-/

namespace Cex.Factory.Names

/-- The enumerators of a header, the cases of `ToName` and the comparisons of `FromName`. -/
structure Conv where
  decl : List (String × Nat)
  to : List (Nat × String)
  from' : List (String × Nat)

/-- `ToName`. -/
def Conv.toName (c : Conv) (n : Nat) : String :=
  match c.to.find? (·.1 == n) with
  | some e => e.2
  | none => "None"

/-- `FromName`. -/
def Conv.fromName (c : Conv) (s : String) : Nat :=
  match c.from'.find? (·.1 == s) with
  | some e => e.2
  | none => 0

/-- AsymmetricParameters (AsymmetricParameters.h; AsymmetricParameters.cpp:5-200, 202-455). -/
def asymmetricParameters : Conv where
  decl := [
    ("DLTMS1P2544", 1), ("DLTMS3P4016", 2), ("DLTMS5P4880", 3), ("ECDHS1P25519K", 5), ("ECDHS2P25519S", 6), ("ECDSAS1P25519K", 7), ("ECDSAS2P25519S", 8), ("KYBERS1P1632", 9),
    ("KYBERS3P2400", 10), ("KYBERS5P3168", 11), ("KYBERS6P3936", 12), ("MPKCS3N4608T96", 13), ("MPKCS3N6960T119", 14), ("MPKCS4N6688T128", 15), ("MPKCS5N8192T128", 16),
    ("SPXPS1S128SHAKE", 17), ("SPXPS3S192SHAKE", 18), ("SPXPS5S256SHAKE", 19), ("SPXPS6S512SHAKE", 20), ("XMSSSHA2256H10", 21), ("XMSSSHA2256H16", 22), ("XMSSSHA2256H20", 23),
    ("XMSSSHA2512H10", 24), ("XMSSSHA2512H16", 25), ("XMSSSHA2512H20", 26), ("XMSSSHAKE256H10", 27), ("XMSSSHAKE256H16", 28), ("XMSSSHAKE256H20", 29), ("XMSSSHAKE512H10", 30),
    ("XMSSSHAKE512H16", 31), ("XMSSSHAKE512H20", 32), ("XMSSMTSHA2256H20D2", 33), ("XMSSMTSHA2256H20D4", 34), ("XMSSMTSHA2256H40D2", 35), ("XMSSMTSHA2256H40D4", 36),
    ("XMSSMTSHA2256H40D8", 37), ("XMSSMTSHA2256H60D3", 38), ("XMSSMTSHA2256H60D6", 39), ("XMSSMTSHA2256H60D12", 40), ("XMSSMTSHA2512H20D2", 41), ("XMSSMTSHA2512H20D4", 42),
    ("XMSSMTSHA2512H40D2", 43), ("XMSSMTSHA2512H40D4", 44), ("XMSSMTSHA2512H40D8", 45), ("XMSSMTSHA2512H60D3", 46), ("XMSSMTSHA2512H60D6", 47), ("XMSSMTSHA2512H60D12", 48),
    ("XMSSMTSHAKE256H20D2", 49), ("XMSSMTSHAKE256H20D4", 50), ("XMSSMTSHAKE256H40D2", 51), ("XMSSMTSHAKE256H40D4", 52), ("XMSSMTSHAKE256H40D8", 53), ("XMSSMTSHAKE256H60D3", 54),
    ("XMSSMTSHAKE256H60D6", 55), ("XMSSMTSHAKE256H60D12", 56), ("XMSSMTSHAKE512H20D2", 57), ("XMSSMTSHAKE512H20D4", 58), ("XMSSMTSHAKE512H40D2", 59), ("XMSSMTSHAKE512H40D4", 60),
    ("XMSSMTSHAKE512H40D8", 61), ("XMSSMTSHAKE512H60D3", 62), ("XMSSMTSHAKE512H60D6", 63), ("XMSSMTSHAKE512H60D12", 64)]
  to := [
    (1, "DLTMS1P2544"), (2, "DLTMS3P4016"), (3, "DLTMS5P4880"), (5, "ECDHS1P25519K"), (6, "ECDHS2P25519S"), (7, "ECDSAS1P25519K"), (8, "ECDSAS2P25519S"), (10, "KYBERS3P2400"),
    (11, "KYBERS5P3168"), (12, "KYBERS6P3936"), (13, "MPKCS3N4608T96"), (14, "MPKCS3N6960T119"), (15, "MPKCS4N6688T128"), (16, "MPKCS5N8192T128"), (17, "SPXPS1S128SHAKE"),
    (18, "SPXPS3S192SHAKE"), (19, "SPXPS5S256SHAKE"), (21, "XMSSSHA2256H10"), (22, "XMSSSHA2256H16"), (23, "XMSSSHA2256H20"), (24, "XMSSSHA2512H10"), (25, "XMSSSHA2512H16"),
    (26, "XMSSSHA2512H20"), (27, "XMSSSHAKE256H10"), (28, "XMSSSHAKE256H16"), (29, "XMSSSHAKE256H20"), (30, "XMSSSHAKE512H10"), (31, "XMSSSHAKE512H16"), (32, "XMSSSHAKE512H20"),
    (33, "XMSSMTSHA2256H20D2"), (35, "XMSSMTSHA2256H40D2"), (34, "XMSSMTSHA2256H20D4"), (36, "XMSSMTSHA2256H40D4"), (37, "XMSSMTSHA2256H40D8"), (38, "XMSSMTSHA2256H60D3"),
    (39, "XMSSMTSHA2256H60D6"), (40, "XMSSMTSHA2256H60D12"), (41, "XMSSMTSHA2512H20D2"), (42, "XMSSMTSHA2512H20D4"), (43, "XMSSMTSHA2512H40D2"), (44, "XMSSMTSHA2512H40D4"),
    (45, "XMSSMTSHA2512H40D8"), (46, "XMSSMTSHA2512H60D3"), (47, "XMSSMTSHA2512H60D6"), (48, "XMSSMTSHA2512H60D12"), (49, "XMSSMTSHAKE256H20D2"), (50, "XMSSMTSHAKE256H20D4"),
    (51, "XMSSMTSHAKE256H40D2"), (52, "XMSSMTSHAKE256H40D4"), (53, "XMSSMTSHAKE256H40D8"), (54, "XMSSMTSHAKE256H60D3"), (55, "XMSSMTSHAKE256H60D6"), (56, "XMSSMTSHAKE256H60D12"),
    (57, "XMSSMTSHAKE512H20D2"), (58, "XMSSMTSHAKE512H20D4"), (59, "XMSSMTSHAKE512H40D2"), (60, "XMSSMTSHAKE512H40D4"), (61, "XMSSMTSHAKE512H40D8"), (62, "XMSSMTSHAKE512H60D3"),
    (63, "XMSSMTSHAKE512H60D6"), (64, "XMSSMTSHAKE512H60D12")]
  from' := [
    ("DLTMS1P2544", 1), ("DLTMS3P4016", 2), ("DLTMS5P4880", 3), ("ECDHS1P25519K", 5), ("ECDHS2P25519S", 6), ("ECDSAS1P25519K", 7), ("ECDSAS2P25519S", 8), ("KYBERS3P2400", 10),
    ("KYBERS5P3168", 11), ("KYBERS6P3936", 12), ("MPKCS3N4608T96", 13), ("MPKCS3N6960T119", 14), ("MPKCS4N6688T128", 15), ("MPKCS5N8192T128", 16), ("SPXPS1S128SHAKE", 17),
    ("SPXPS3S192SHAKE", 18), ("SPXPS5S256SHAKE", 19), ("XMSSSHA2256H10", 22), ("XMSSSHA2256H16", 22), ("XMSSSHA2256H20", 23), ("XMSSSHA2512H10", 24), ("XMSSSHA2512H16", 25),
    ("XMSSSHA2512H20", 26), ("XMSSSHAKE256H10", 27), ("XMSSSHAKE256H16", 28), ("XMSSSHAKE256H20", 29), ("XMSSSHAKE512H10", 30), ("XMSSSHAKE512H16", 31), ("XMSSSHAKE512H20", 32),
    ("XMSSMTSHA2256H20D2", 33), ("XMSSMTSHA2256H20D4", 34), ("XMSSMTSHA2256H40D2", 35), ("XMSSMTSHA2256H40D4", 36), ("XMSSMTSHA2256H40D8", 37), ("XMSSMTSHA2256H60D3", 38),
    ("XMSSMTSHA2256H60D6", 39), ("XMSSMTSHA2256H60D12", 40), ("XMSSMTSHA2512H20D2", 41), ("XMSSMTSHA2512H20D4", 42), ("XMSSMTSHA2512H40D2", 43), ("XMSSMTSHA2512H40D4", 44),
    ("XMSSMTSHA2512H40D8", 45), ("XMSSMTSHA2512H60D3", 46), ("XMSSMTSHA2512H60D6", 47), ("XMSSMTSHA2512H60D12", 48), ("XMSSMTSHAKE256H20D2", 49), ("XMSSMTSHAKE256H20D4", 50),
    ("XMSSMTSHAKE256H40D2", 51), ("XMSSMTSHAKE256H40D4", 52), ("XMSSMTSHAKE256H40D8", 53), ("XMSSMTSHAKE256H60D3", 54), ("XMSSMTSHAKE256H60D6", 55), ("XMSSMTSHAKE256H60D12", 56),
    ("XMSSMTSHAKE512H20D2", 57), ("XMSSMTSHAKE512H20D4", 58), ("XMSSMTSHAKE512H40D2", 59), ("XMSSMTSHAKE512H40D4", 60), ("XMSSMTSHAKE512H40D8", 61), ("XMSSMTSHAKE512H60D3", 62),
    ("XMSSMTSHAKE512H60D6", 63), ("XMSSMTSHAKE512H60D12", 64)]

/-- AsymmetricPrimitives (AsymmetricPrimitives.h; AsymmetricPrimitives.cpp:5-41, 43-84). -/
def asymmetricPrimitives : Conv where
  decl := [
    ("ECDH", 1), ("Kyber", 2), ("McEliece", 3), ("Dilithium", 5), ("ECDSA", 6), ("SphincsPlus", 9), ("XMSS", 10), ("XMSSMT", 11)]
  to := [
    (5, "Dilithium"), (1, "ECDH"), (6, "ECDSA"), (2, "Kyber"), (3, "McEliece"), (9, "SphincsPlus"), (10, "XMSS"), (11, "XMSSMT")]
  from' := [
    ("Dilithium", 5), ("ECDH", 1), ("ECDSA", 6), ("Kyber", 2), ("McEliece", 3), ("SphincsPlus", 9), ("XMSS", 10), ("XMSSMT", 11)]

/-- CipherModes (CipherModes.h; CipherModes.cpp:5-56, 58-119). -/
def cipherModes : Conv where
  decl := [
    ("ACM", 1), ("CBC", 2), ("CFB", 3), ("CTR", 4), ("ECB", 5), ("GCM", 6), ("HBA", 7), ("HBAH256", 8), ("HBAH512", 9), ("HBAS256", 10), ("HBAS512", 11), ("ICM", 12), ("OFB", 13)]
  to := [
    (1, "ACM"), (2, "CBC"), (3, "CFB"), (4, "CTR"), (5, "ECB"), (6, "GCM"), (7, "HBA"), (8, "HBAH256"), (9, "HBAH512"), (10, "HBAS256"), (11, "HBAS512"), (12, "ICM"), (13, "OFB")]
  from' := [
    ("ACM", 1), ("CBC", 2), ("CFB", 3), ("CTR", 4), ("ECB", 5), ("GCM", 6), ("HBA", 7), ("HBAH256", 8), ("HBAH512", 9), ("HBAS256", 10), ("HBAS512", 11), ("ICM", 12), ("OFB", 13)]

/-- Digests (Digests.h; Digests.cpp:5-53, 55-112). -/
def digests : Conv where
  decl := [
    ("Blake256", 1), ("Blake512", 2), ("SHA3256", 3), ("SHA3512", 4), ("SHA2256", 5), ("SHA2512", 6), ("SHAKE128", 8), ("SHAKE256", 9), ("SHAKE512", 10), ("Skein256", 13), ("Skein512", 14),
    ("Skein1024", 15)]
  to := [
    (1, "Blake256"), (2, "Blake512"), (3, "SHA3256"), (4, "SHA3512"), (5, "SHA2256"), (6, "SHA2512"), (8, "SHAKE128"), (9, "SHAKE256"), (10, "SHAKE512"), (13, "Skein256"), (14, "Skein512"),
    (15, "Skein1024")]
  from' := [
    ("Blake256", 1), ("Blake512", 2), ("SHA3256", 3), ("SHA3512", 4), ("SHA2256", 5), ("SHA2512", 6), ("SHAKE128", 8), ("SHAKE256", 9), ("SHAKE512", 10), ("Skein256", 13), ("Skein512", 14),
    ("Skein1024", 15)]

/-- Drbgs (Drbgs.h; Drbgs.cpp:5-26, 28-49). -/
def drbgs : Conv where
  decl := [
    ("BCG", 1), ("CSG", 2), ("HCG", 3)]
  to := [
    (1, "BCG"), (2, "CSG"), (3, "HCG")]
  from' := [
    ("BCG", 1), ("CSG", 2), ("HCG", 3)]

/-- Kdfs (Kdfs.h; Kdfs.cpp:5-47, 49-98). -/
def kdfs : Conv where
  decl := [
    ("HKDS512", 1), ("HKDF256", 2), ("HKDF512", 3), ("KDF2256", 4), ("KDF2512", 5), ("PBKDF2256", 6), ("PBKDF2512", 7), ("SHAKE128", 8), ("SHAKE256", 9), ("SHAKE512", 10),
    ("SCBKDF128", 13), ("SCBKDF256", 14), ("SCBKDF512", 15), ("SCBKDF1024", 16), ("HKDS128", 20), ("HKDS256", 21)]
  to := [
    (2, "HKDF256"), (3, "HKDF512"), (4, "KDF2256"), (5, "KDF2512"), (6, "PBKDF2256"), (7, "PBKDF2512"), (13, "SCBKDF128"), (14, "SCBKDF256"), (15, "SCBKDF512"), (16, "SCBKDF1024")]
  from' := [
    ("HKDF256", 2), ("HKDF512", 3), ("KDF2256", 4), ("KDF2512", 5), ("PBKDF2256", 6), ("PBKDF2512", 7), ("SCBKDF128", 13), ("SCBKDF256", 14), ("SCBKDF512", 15), ("SCBKDF1024", 16)]

/-- Macs (Macs.h; Macs.cpp:5-74, 76-161). -/
def macs : Conv where
  decl := [
    ("CMAC", 1), ("CMACRHXH256", 2), ("CMACRHXH512", 3), ("CMACRHXS256", 4), ("CMACRHXS512", 5), ("GMAC", 6), ("GMACRHXH256", 7), ("GMACRHXH512", 8), ("GMACRHXS256", 9),
    ("GMACRHXS512", 10), ("HMACSHA2256", 11), ("HMACSHA2512", 12), ("KPA128", 13), ("KPA256", 14), ("KPA512", 15), ("KMAC128", 16), ("KMAC256", 17), ("KMAC512", 18), ("Poly1305", 19)]
  to := [
    (1, "CMAC"), (2, "CMACRHXH256"), (3, "CMACRHXH512"), (4, "CMACRHXS256"), (5, "CMACRHXS512"), (6, "GMAC"), (7, "GMACRHXH256"), (8, "GMACRHXH512"), (9, "GMACRHXS256"),
    (10, "GMACRHXS512"), (11, "HMACSHA2256"), (12, "HMACSHA2512"), (13, "KPA128"), (14, "KPA256"), (15, "KPA512"), (16, "KMAC128"), (17, "KMAC256"), (18, "KMAC512"), (19, "Poly1305")]
  from' := [
    ("CMAC", 1), ("CMACRHXH256", 2), ("CMACRHXH512", 3), ("CMACRHXS256", 4), ("CMACRHXS512", 5), ("GMAC", 6), ("GMACRHXH256", 7), ("GMACRHXH512", 8), ("GMACRHXS256", 9),
    ("GMACRHXS512", 10), ("HMACSHA2256", 11), ("HMACSHA2512", 12), ("KPA128", 13), ("KPA256", 14), ("KPA512", 15), ("KMAC128", 16), ("KMAC256", 17), ("KMAC512", 18), ("Poly1305", 19)]

/-- PaddingModes (PaddingModes.h; PaddingModes.cpp:5-29, 31-56). -/
def paddingModes : Conv where
  decl := [
    ("ESP", 1), ("PKCS7", 2), ("X923", 3), ("ZeroOne", 4)]
  to := [
    (1, "ESP"), (2, "PKCS7"), (3, "X923"), (4, "ZeroOne")]
  from' := [
    ("ESP", 1), ("PKCS7", 2), ("X923", 3), ("ZeroOne", 4)]

/-- Prngs (Prngs.h; Prngs.cpp:5-35, 37-70). -/
def prngs : Conv where
  decl := [
    ("BCR", 1), ("CSR", 6), ("CSRC512", 7), ("CSRC1024", 8), ("HCR", 9), ("HCRS512", 10)]
  to := [
    (1, "BCR"), (6, "CSR"), (7, "CSRC512"), (8, "CSRC1024"), (9, "HCR"), (10, "HCRS512")]
  from' := [
    ("BCR", 1), ("CSR", 6), ("CSRC512", 7), ("CSRC1024", 8), ("HCR", 9), ("HCRS512", 10)]

/-- Providers (Providers.h; Providers.cpp:5-32, 34-63). -/
def providers : Conv where
  decl := [
    ("ACP", 1), ("CJP", 2), ("CSP", 3), ("ECP", 4), ("RDP", 5)]
  to := [
    (1, "ACP"), (2, "CJP"), (3, "CSP"), (4, "ECP"), (5, "RDP")]
  from' := [
    ("ACP", 1), ("CJP", 2), ("CSP", 3), ("ECP", 4), ("RDP", 5)]

/-- SecurityPolicy (SecurityPolicy.h; SecurityPolicy.cpp:5-35, 37-70). -/
def securityPolicy : Conv where
  decl := [
    ("SPL256", 1), ("SPL256AE", 2), ("SPL512", 3), ("SPL512AE", 4), ("SPL1024", 5), ("SPL1024AE", 6)]
  to := [
    (1, "SPL256"), (2, "SPL256AE"), (3, "SPL512"), (4, "SPL512AE"), (5, "SPL1024"), (6, "SPL1024AE")]
  from' := [
    ("SPL256", 1), ("SPL256AE", 2), ("SPL512", 3), ("SPL512AE", 4), ("SPL1024", 5), ("SPL1024AE", 6)]

/-- SymmetricCiphers (SymmetricCiphers.h; SymmetricCiphers.cpp:5-98, 100-233). -/
def symmetricCiphers : Conv where
  decl := [
    ("AES", 1), ("Serpent", 2), ("RHXH256", 39), ("RHXH512", 40), ("RHXS256", 41), ("RHXS512", 42), ("SHXH256", 45), ("SHXH512", 46), ("SHXS256", 47), ("SHXS512", 48), ("ChaChaP20", 96),
    ("CSXR20K256", 97), ("CSX512", 98), ("CSXR80K512", 99), ("RCS", 160), ("RCSK256", 161), ("RCSK512", 162), ("RCSK1024", 163), ("RWS", 170), ("RWSK256", 171), ("RWSK512", 172),
    ("RWSK1024", 173), ("TSX256", 128), ("TSXR72K256", 129), ("TSX512", 130), ("TSXR96K512", 131), ("TSX1024", 132), ("TSXR120K512", 133)]
  to := [
    (1, "AES"), (2, "Serpent"), (41, "RHXS256"), (42, "RHXS512"), (39, "RHXH256"), (40, "RHXH512"), (45, "SHXH256"), (46, "SHXH512"), (47, "SHXS256"), (48, "SHXS512"), (96, "ChaChaP20"),
    (97, "CSXR20K256"), (98, "CSX512"), (99, "CSXR80K512"), (160, "RCS"), (161, "RCSK256"), (162, "RCSK512"), (163, "RCSK1024"), (170, "RWS"), (171, "RWSK256"), (172, "RWSK512"),
    (173, "RWSK1024"), (128, "TSX256"), (129, "TSXR72K256"), (130, "TSX512"), (132, "TSX1024"), (133, "TSXR120K512")]
  from' := [
    ("Rijndael", 1), ("Serpent", 2), ("RHXS256", 41), ("RHXS512", 42), ("RHX", 1), ("RHXH256", 39), ("RHXH512", 40), ("RHXS256", 41), ("RHXS512", 42), ("SHXH256", 45), ("SHXH512", 46),
    ("SHXS256", 47), ("SHXS512", 48), ("ChaChaP20", 96), ("CSXR20K256", 97), ("CSX512", 98), ("CSXR80K512", 99), ("RCS", 160), ("RCSK256", 161), ("RCSK512", 162), ("RCSK1024", 163),
    ("RWS", 170), ("RWSK256", 171), ("RWSK512", 172), ("RWSK1024", 173), ("TSX256", 128), ("TSXR72K256", 129), ("TSX512", 130), ("TSXR96K512", 131), ("TSX1024", 132), ("TSXR120K512", 133)]

end Cex.Factory.Names
