/-!
# Model of the factories and of `Enumeral` (CEX/*FromName.cpp)

An enumeration with the underlying type `uint8_t` may hold any value below 256, so it is a number here. An object is described by its class and the arguments of its constructor.
-/

namespace Cex.Factory

/-- The codes that appear here (ErrorCodes.h). -/
inductive Code
  | invalidParam | illegalOperation | unknown
  deriving DecidableEq

/-- An exception: a `CryptoException` itself, or one of its derived classes (CryptoKdfException.h:16 and the like). `CryptoException` is derived from `std::exception` (CryptoException.h:17). -/
inductive Exc
  | plain (c : Code)
  | derived (c : Code)
  deriving DecidableEq

abbrev R := Except Exc

instance {α : Type} [DecidableEq α] : DecidableEq (R α)
  | .ok a, .ok b => if h : a = b then isTrue (by rw [h]) else isFalse (by intro e; cases e; exact h rfl)
  | .error a, .error b => if h : a = b then isTrue (by rw [h]) else isFalse (by intro e; cases e; exact h rfl)
  | .ok _, .error _ => isFalse (by intro e; cases e)
  | .error _, .ok _ => isFalse (by intro e; cases e)

/-- The handlers of the factories (for instance KdfFromName.cpp:99-106): the derived exception is thrown again as `CryptoException` with its code, any other `std::exception` with the code `UnKnown`. -/
def handled {α : Type} : R α → R α
  | .ok a => .ok a
  | .error (.derived c) => .error (.plain c)
  | .error (.plain _) => .error (.plain .unknown)

/-! ## Names of the values -/

namespace SC
/-- `SymmetricCiphers`, `BlockCiphers` and `StreamCiphers` (SymmetricCiphers.h, BlockCiphers.h, StreamCiphers.h). -/
@[match_pattern] abbrev AES : Nat := 1
@[match_pattern] abbrev Serpent : Nat := 2
@[match_pattern] abbrev RHXH256 : Nat := 39
@[match_pattern] abbrev RHXH512 : Nat := 40
@[match_pattern] abbrev RHXS256 : Nat := 41
@[match_pattern] abbrev RHXS512 : Nat := 42
@[match_pattern] abbrev SHXH256 : Nat := 45
@[match_pattern] abbrev SHXH512 : Nat := 46
@[match_pattern] abbrev SHXS256 : Nat := 47
@[match_pattern] abbrev SHXS512 : Nat := 48
@[match_pattern] abbrev ChaChaP20 : Nat := 96
@[match_pattern] abbrev CSXR20K256 : Nat := 97
@[match_pattern] abbrev CSX512 : Nat := 98
@[match_pattern] abbrev CSXR80K512 : Nat := 99
@[match_pattern] abbrev TSX256 : Nat := 128
@[match_pattern] abbrev TSXR72K256 : Nat := 129
@[match_pattern] abbrev TSX512 : Nat := 130
@[match_pattern] abbrev TSXR96K512 : Nat := 131
@[match_pattern] abbrev TSX1024 : Nat := 132
@[match_pattern] abbrev TSXR120K512 : Nat := 133
@[match_pattern] abbrev RCS : Nat := 160
@[match_pattern] abbrev RCSK256 : Nat := 161
@[match_pattern] abbrev RCSK512 : Nat := 162
@[match_pattern] abbrev RCSK1024 : Nat := 163
@[match_pattern] abbrev RWS : Nat := 170
@[match_pattern] abbrev RWSK256 : Nat := 171
@[match_pattern] abbrev RWSK512 : Nat := 172
@[match_pattern] abbrev RWSK1024 : Nat := 173
end SC

namespace DG
/-- `Digests`, `SHA2Digests` and `ShakeModes` (Digests.h, SHA2Digests.h, ShakeModes.h). -/
@[match_pattern] abbrev SHA2256 : Nat := 5
@[match_pattern] abbrev SHA2512 : Nat := 6
@[match_pattern] abbrev SHAKE128 : Nat := 8
@[match_pattern] abbrev SHAKE256 : Nat := 9
@[match_pattern] abbrev SHAKE512 : Nat := 10
end DG

namespace MC
/-- `Macs`, `KmacModes` and `KpaModes` (Macs.h, KmacModes.h, KpaModes.h). -/
@[match_pattern] abbrev CMAC : Nat := 1
@[match_pattern] abbrev CMACRHXH256 : Nat := 2
@[match_pattern] abbrev CMACRHXH512 : Nat := 3
@[match_pattern] abbrev CMACRHXS256 : Nat := 4
@[match_pattern] abbrev CMACRHXS512 : Nat := 5
@[match_pattern] abbrev GMAC : Nat := 6
@[match_pattern] abbrev GMACRHXH256 : Nat := 7
@[match_pattern] abbrev GMACRHXH512 : Nat := 8
@[match_pattern] abbrev GMACRHXS256 : Nat := 9
@[match_pattern] abbrev GMACRHXS512 : Nat := 10
@[match_pattern] abbrev HMACSHA2256 : Nat := 11
@[match_pattern] abbrev HMACSHA2512 : Nat := 12
@[match_pattern] abbrev KPA128 : Nat := 13
@[match_pattern] abbrev KPA256 : Nat := 14
@[match_pattern] abbrev KPA512 : Nat := 15
@[match_pattern] abbrev KMAC128 : Nat := 16
@[match_pattern] abbrev KMAC256 : Nat := 17
@[match_pattern] abbrev KMAC512 : Nat := 18
@[match_pattern] abbrev Poly1305 : Nat := 19
end MC

namespace KD
/-- `Kdfs` and `BlockCipherExtensions` (Kdfs.h, BlockCipherExtensions.h). -/
@[match_pattern] abbrev HKDS512 : Nat := 1
@[match_pattern] abbrev HKDF256 : Nat := 2
@[match_pattern] abbrev HKDF512 : Nat := 3
@[match_pattern] abbrev KDF2256 : Nat := 4
@[match_pattern] abbrev KDF2512 : Nat := 5
@[match_pattern] abbrev PBKDF2256 : Nat := 6
@[match_pattern] abbrev PBKDF2512 : Nat := 7
@[match_pattern] abbrev SHAKE128 : Nat := 8
@[match_pattern] abbrev SHAKE256 : Nat := 9
@[match_pattern] abbrev SHAKE512 : Nat := 10
@[match_pattern] abbrev SCBKDF128 : Nat := 13
@[match_pattern] abbrev SCBKDF256 : Nat := 14
@[match_pattern] abbrev SCBKDF512 : Nat := 15
@[match_pattern] abbrev SCBKDF1024 : Nat := 16
@[match_pattern] abbrev HKDS128 : Nat := 20
@[match_pattern] abbrev HKDS256 : Nat := 21
end KD

namespace PR
/-- `Prngs` (Prngs.h). -/
@[match_pattern] abbrev BCR : Nat := 1
@[match_pattern] abbrev CSR : Nat := 6
@[match_pattern] abbrev CSRC512 : Nat := 7
@[match_pattern] abbrev CSRC1024 : Nat := 8
@[match_pattern] abbrev HCR : Nat := 9
@[match_pattern] abbrev HCRS512 : Nat := 10
end PR

/-! ## Key derivation functions -/

/-- The classes with their arguments; `PBKDF2` and `SCBKDF` take their default costs. -/
inductive Kdf
  | hkdf (digest : Nat)
  | kdf2 (digest : Nat)
  | pbkdf2 (digest : Nat)
  | scbkdf (mode : Nat)
  | shake (mode : Nat)
  deriving DecidableEq

/-- The switch of `KdfFromName::GetInstance(Kdfs)` (KdfFromName.cpp:19-108). -/
def kdfSwitch : Nat → R Kdf
  | KD.HKDF256 => .ok (.hkdf DG.SHA2256)
  | KD.HKDF512 => .ok (.hkdf DG.SHA2512)
  | KD.KDF2256 => .ok (.kdf2 DG.SHA2256)
  | KD.KDF2512 => .ok (.kdf2 DG.SHA2512)
  | KD.PBKDF2256 => .ok (.pbkdf2 DG.SHA2256)
  | KD.PBKDF2512 => .ok (.pbkdf2 DG.SHA2512)
  | KD.SCBKDF128 => .ok (.scbkdf DG.SHAKE128)
  | KD.SCBKDF256 => .ok (.scbkdf DG.SHAKE256)
  | KD.SCBKDF512 => .ok (.scbkdf DG.SHAKE512)
  | KD.SHAKE128 => .ok (.shake DG.SHAKE128)
  | KD.SHAKE256 => .ok (.shake DG.SHAKE256)
  | KD.SHAKE512 => .ok (.shake DG.SHAKE512)
  | _ => .error (.plain .invalidParam)

/-- `KdfFromName::GetInstance(Kdfs)` (KdfFromName.cpp:20-109). -/
def kdfGet (n : Nat) : R Kdf := handled (kdfSwitch n)

/-- The switch of `KdfFromName::GetInstance(BlockCipherExtensions)` (KdfFromName.cpp:110-158). -/
def kdfSwitchExt : Nat → R Kdf
  | KD.HKDF256 => .ok (.hkdf DG.SHA2256)
  | KD.HKDF512 => .ok (.hkdf DG.SHA2512)
  | KD.SHAKE256 => .ok (.shake DG.SHAKE256)
  | KD.SHAKE512 => .ok (.shake DG.SHAKE512)
  | _ => .error (.plain .invalidParam)

/-- `KdfFromName::GetInstance(BlockCipherExtensions)` (KdfFromName.cpp:111-159). -/
def kdfGetExt (n : Nat) : R Kdf := handled (kdfSwitchExt n)

/-- `Enumeral` (KdfBase.cpp:31-34) with the values that the constructors give (HKDF.cpp:47, KDF2.cpp:55, PBKDF2.cpp:59, SCBKDF.cpp:65-67, SHAKE.cpp:53), for the digests and modes of the factory. -/
def Kdf.enumeral : Kdf → Nat
  | .hkdf d => if d = DG.SHA2256 then KD.HKDF256 else KD.HKDF512
  | .kdf2 d => if d = DG.SHA2256 then KD.KDF2256 else KD.KDF2512
  | .pbkdf2 d => if d = DG.SHA2256 then KD.PBKDF2256 else KD.PBKDF2512
  | .scbkdf m => if m = DG.SHAKE128 then KD.SCBKDF128 else if m = DG.SHAKE256 then KD.SCBKDF256 else KD.SCBKDF512
  | .shake m => m

/-! ## Block ciphers -/

/-- `RHX` and `SHX` with their generator. -/
inductive Block
  | rhx (kdf : Option Kdf)
  | shx (kdf : Option Kdf)
  deriving DecidableEq

/-- The constructors `RHX(BlockCipherExtensions)` and `SHX(BlockCipherExtensions)` (RHX.cpp:71-78, SHX.cpp:68-75): the generator. -/
def extKdf (ext : Nat) : R (Option Kdf) := if ext = 0 then .ok none else (kdfGetExt ext).map some

/-- The switch of `BlockCipherFromName::GetInstance` (BlockCipherFromName.cpp:13-92). -/
def blockSwitch : Nat → R Block
  | SC.AES => Block.rhx <$> extKdf 0
  | SC.RHXH256 => Block.rhx <$> extKdf KD.HKDF256
  | SC.RHXH512 => Block.rhx <$> extKdf KD.HKDF512
  | SC.RHXS256 => Block.rhx <$> extKdf KD.SHAKE256
  | SC.RHXS512 => Block.rhx <$> extKdf KD.SHAKE512
  | SC.Serpent => Block.shx <$> extKdf 0
  | SC.SHXH256 => Block.shx <$> extKdf KD.HKDF256
  | SC.SHXH512 => Block.shx <$> extKdf KD.HKDF512
  | SC.SHXS256 => Block.shx <$> extKdf KD.SHAKE256
  | SC.SHXS512 => Block.shx <$> extKdf KD.SHAKE512
  | _ => .error (.plain .invalidParam)

/-- `BlockCipherFromName::GetInstance` (BlockCipherFromName.cpp:13-92). -/
def blockGet (n : Nat) : R Block := handled (blockSwitch n)

/-- `RHX::Enumeral` and `SHX::Enumeral` (RHX.cpp:107-144, SHX.cpp:105-142). -/
def Block.enumeral : Block → Nat
  | .rhx k => match k.map Kdf.enumeral with
    | some KD.HKDF256 => SC.RHXH256
    | some KD.HKDF512 => SC.RHXH512
    | some KD.SHAKE256 => SC.RHXS256
    | some KD.SHAKE512 => SC.RHXS512
    | _ => SC.AES
  | .shx k => match k.map Kdf.enumeral with
    | some KD.HKDF256 => SC.SHXH256
    | some KD.HKDF512 => SC.SHXH512
    | some KD.SHAKE256 => SC.SHXS256
    | some KD.SHAKE512 => SC.SHXS512
    | _ => SC.Serpent

/-! ## Message authentication codes -/

inductive Mac
  | cmac (cipher : Nat)
  | gmac (cipher : Nat)
  | hmac (digest : Nat)
  | kmac (mode : Nat)
  | kpa (mode : Nat)
  | poly1305
  deriving DecidableEq

/-- The switch of `MacFromName::GetInstance(Macs)` (MacFromName.cpp:22-140). -/
def macSwitch : Nat → R Mac
  | MC.CMAC => .ok (.cmac SC.AES)
  | MC.CMACRHXH256 => .ok (.cmac SC.RHXH256)
  | MC.CMACRHXH512 => .ok (.cmac SC.RHXH512)
  | MC.CMACRHXS256 => .ok (.cmac SC.RHXS256)
  | MC.CMACRHXS512 => .ok (.cmac SC.RHXS512)
  | MC.GMAC => .ok (.gmac SC.AES)
  | MC.GMACRHXH256 => .ok (.gmac SC.RHXH256)
  | MC.GMACRHXH512 => .ok (.gmac SC.RHXH512)
  | MC.GMACRHXS256 => .ok (.gmac SC.RHXS256)
  | MC.GMACRHXS512 => .ok (.gmac SC.RHXS512)
  | MC.HMACSHA2256 => .ok (.hmac DG.SHA2256)
  | MC.HMACSHA2512 => .ok (.hmac DG.SHA2512)
  | MC.KMAC256 => .ok (.kmac MC.KMAC256)
  | MC.KMAC512 => .ok (.kmac MC.KMAC512)
  | MC.KPA128 => .ok (.kpa MC.KPA128)
  | MC.KPA256 => .ok (.kpa MC.KPA256)
  | MC.KPA512 => .ok (.kpa MC.KPA512)
  | MC.Poly1305 => .ok .poly1305
  | _ => .error (.plain .invalidParam)

/-- `MacFromName::GetInstance(Macs)` (MacFromName.cpp:24-143). -/
def macGet (n : Nat) : R Mac := handled (macSwitch n)

/-- `Enumeral` (MacBase.cpp:37-40) with the values that the constructors give (CMAC.cpp:53, GMAC.cpp:64, HMAC.cpp:61, KMAC.cpp:62, KPA.cpp:110, Poly1305.cpp:49). -/
def Mac.enumeral : Mac → Nat
  | .cmac _ => MC.CMAC
  | .gmac _ => MC.GMAC
  | .hmac d => if d = DG.SHA2256 then MC.HMACSHA2256 else if d = DG.SHA2512 then MC.HMACSHA2512 else 0
  | .kmac m => m
  | .kpa m => m
  | .poly1305 => MC.Poly1305

/-- The constructor `MacStream(Macs)` (MacStream.cpp:39-45). -/
def macStreamNew (n : Nat) : R Mac := if n ≠ 0 ∧ n ≠ MC.GMAC then macGet n else .error (.derived .invalidParam)

/-- The constructor `MacStream(IMac*)` (MacStream.cpp:47-53) for a pointer that is not null. -/
def macStreamOf (m : Mac) : R Mac := if m.enumeral ≠ MC.GMAC then .ok m else .error (.derived .illegalOperation)

/-! ## Random generators -/

inductive Prng
  | bcr
  | csr (mode : Nat)
  | hcr (digest : Nat)
  deriving DecidableEq

/-- The switch of `PrngFromName::GetInstance` (PrngFromName.cpp:18-71) for a provider that is not `None`. -/
def prngSwitch : Nat → R Prng
  | PR.BCR => .ok .bcr
  | PR.CSR => .ok (.csr DG.SHAKE256)
  | PR.CSRC512 => .ok (.csr DG.SHAKE512)
  | PR.HCR => .ok (.hcr DG.SHA2256)
  | PR.HCRS512 => .ok (.hcr DG.SHA2256)
  | _ => .error (.plain .invalidParam)

/-- `PrngFromName::GetInstance` (PrngFromName.cpp:19-71). -/
def prngGet (n : Nat) : R Prng := handled (prngSwitch n)

/-- `Enumeral` (PrngBase.cpp:25-28) with the values that the constructors give (BCR.cpp:47, CSR.cpp:50, HCR.cpp:51). -/
def Prng.enumeral : Prng → Nat
  | .bcr => PR.BCR
  | .csr _ => PR.CSR
  | .hcr _ => PR.HCR

/-! ## Stream ciphers -/

inductive Family
  | chacha | csx512 | rcs | rws | tsx256 | tsx512 | tsx1024
  deriving DecidableEq

/-- A stream cipher: its class, its argument `Authenticate`, and `Enumeral()` of the object `m_macAuthenticator`, which is null before `Initialize`. -/
structure Strm where
  family : Family
  auth : Bool
  mac : Option Nat
  deriving DecidableEq

/-- The switch of `StreamCipherFromName::GetInstance` (StreamCipherFromName.cpp:22-124). -/
def streamSwitch : Nat → R Strm
  | SC.ChaChaP20 => .ok ⟨.chacha, false, none⟩
  | SC.CSXR20K256 => .ok ⟨.chacha, true, none⟩
  | SC.CSX512 => .ok ⟨.chacha, false, none⟩
  | SC.CSXR80K512 => .ok ⟨.chacha, true, none⟩
  | SC.RCS => .ok ⟨.rcs, false, none⟩
  | SC.RCSK256 => .ok ⟨.rcs, true, none⟩
  | SC.RCSK512 => .ok ⟨.rcs, true, none⟩
  | SC.RCSK1024 => .ok ⟨.rcs, true, none⟩
  | SC.RWS => .ok ⟨.rws, false, none⟩
  | SC.RWSK256 => .ok ⟨.rws, true, none⟩
  | SC.RWSK512 => .ok ⟨.rws, true, none⟩
  | SC.RWSK1024 => .ok ⟨.rws, true, none⟩
  | SC.TSX256 => .ok ⟨.tsx256, false, none⟩
  | SC.TSXR72K256 => .ok ⟨.tsx256, true, none⟩
  | SC.TSX512 => .ok ⟨.tsx512, false, none⟩
  | SC.TSXR96K512 => .ok ⟨.tsx512, true, none⟩
  | SC.TSX1024 => .ok ⟨.tsx1024, false, none⟩
  | SC.TSXR120K512 => .ok ⟨.tsx1024, true, none⟩
  | _ => .error (.plain .invalidParam)

/-- `StreamCipherFromName::GetInstance` (StreamCipherFromName.cpp:22-124). -/
def streamGet (n : Nat) : R Strm := handled (streamSwitch n)

/-- `StreamCipherConvert::FromDescription` (StreamCiphers.cpp:10-104). -/
def fromDescription (cipher auth : Nat) : Nat :=
  match cipher with
  | SC.ChaChaP20 => if auth = MC.KMAC256 then SC.CSXR20K256 else SC.ChaChaP20
  | SC.CSX512 => if auth = MC.KMAC512 then SC.CSXR80K512 else SC.CSX512
  | SC.RCS => if auth = MC.KMAC256 then SC.RCSK256 else if auth = MC.KMAC512 then SC.RCSK512 else SC.RCS
  | SC.RWS => if auth = MC.KMAC256 then SC.RWSK256 else if auth = MC.KMAC512 then SC.RWSK512 else SC.RWS
  | SC.TSX256 => if auth = MC.KMAC256 then SC.TSXR72K256 else SC.TSX256
  | SC.TSX512 => if auth = MC.KMAC512 then SC.TSXR96K512 else SC.TSX512
  | SC.TSX1024 => if auth = MC.KMAC512 then SC.TSXR120K512 else SC.TSX1024
  | _ => 0

/-- `Enumeral` (ChaChaP20.cpp:219-228, CSX512.cpp:211-220, RCS.cpp:298-310, RWS.cpp:256-268, TSX256.cpp:103-114, TSX512.cpp:102-113, TSX1024.cpp:102-113). -/
def Strm.enumeral (s : Strm) : Nat :=
  match s.family with
  | .chacha => fromDescription SC.ChaChaP20 (if s.auth then MC.KMAC256 else 0)
  | .csx512 => fromDescription SC.CSX512 (if s.auth then MC.KMAC512 else 0)
  | .rcs => fromDescription SC.RCS (match s.auth, s.mac with | true, some m => m | _, _ => 0)
  | .rws => fromDescription SC.RWS (match s.auth, s.mac with | true, some m => m | _, _ => 0)
  | .tsx256 => fromDescription SC.TSX256 (if s.auth then MC.KMAC256 else 0)
  | .tsx512 => fromDescription SC.TSX256 (if s.auth then MC.KMAC512 else 0)
  | .tsx1024 => fromDescription SC.TSX256 (if s.auth then MC.KMAC512 else 0)

end Cex.Factory
