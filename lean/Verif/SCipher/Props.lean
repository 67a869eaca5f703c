import Verif.SCipher.ChaChaLemmas
import Verif.IntTools.Props
import Verif.CStream.Props
import Mathlib.Tactic.NormNum

/-!
# The stream ciphers: property theorems (C50, C51)
-/

namespace Cex.SCipher
open Cex Cex.Par Cex.IntTools Cex.Modes Cex.SCipher.Spec

/-! ## C51: the blocks are the published ones -/

theorem pairCnt_zero_eq (w n : Nat) : pairCnt (0, 0) n = pairOf w n := by simp [pairCnt, pairVal]

theorem leEnc_pairOf {k : Nat} (n : Nat) : leEnc (2 * k) (pairVal (pairOf (8 * k) n)) = leEnc (2 * k) n := by
  have e : 256 ^ k = 2 ^ (8 * k) := by rw [Nat.pow_mul]
  have e2 : 256 ^ (2 * k) = 2 ^ (8 * k) * 2 ^ (8 * k) := by rw [Nat.two_mul, Nat.pow_add, e]
  rw [pairVal_of, ← e2, leEnc_mod]

/-- ChaChaP20 without authentication, initialised with a legal key: block number `n` is the ChaCha20 block
with number `n`, in the compact and the unrolled build, and the SIMD functions of every vector unit give
the same blocks in the order of their counters. -/
theorem C51_chacha20 {key nonce info : List Byte} (hk : key.length = 32) (hn : nonce.length = 8) (hi : info = [] ∨ info.length = 16) :
    ∃ st, chachaInit key nonce info = .ok (st, pairOf 32 0) ∧ ∀ (compact : Bool) (u : Simd),
      (∀ n, (chachaCore compact u st).block (pairOf 32 n) =
        if info = [] then chacha20 key nonce n else chacha20With info key nonce n) ∧
      ∀ cs, (chachaCore compact u st).wide cs = (cs.map (chachaCore compact u st).block).flatten := by
  obtain ⟨st, h1, h2⟩ := chachaInit_ok hk hn hi
  refine ⟨st, h1, fun compact u => ⟨fun n => ?_, fun cs => (chachaLaws compact u st).wide cs (fun _ _ => trivial)⟩⟩
  have e : (chachaCore compact u st).block (pairOf 32 n) =
      storeWords 4 (specWords chachaRots 10 (start st (pairOf 32 n).1 (pairOf 32 n).2)) := chachaCore_block compact st _
  rw [e, store_spec (k := 4) chachaRots 10 _ _ (h2 (pairOf 32 n))]
  have e8 : leEnc 8 (pairVal (pairOf 32 n)) = leEnc 8 n := leEnc_pairOf (k := 4) n
  rw [e8, codeOf]
  split <;> rfl

/-- The specification on the test vector of RFC 8439, 2.3.2, whose 96-bit nonce and 32-bit counter are
read as a 64-bit nonce and a 64-bit counter. -/
example : chacha20 ((List.range 32).map (BitVec.ofNat 8)) [0, 0, 0, 0x4a, 0, 0, 0, 0] (1 + 2 ^ 32 * 0x09000000) =
    [0x10, 0xf1, 0xe7, 0xe4, 0xd1, 0x3b, 0x59, 0x15, 0x50, 0x0f, 0xdd, 0x1f, 0xa3, 0x20, 0x71, 0xc4,
     0xc7, 0xd1, 0xf4, 0xc7, 0x33, 0xc0, 0x68, 0x03, 0x04, 0x22, 0xaa, 0x9a, 0xc3, 0xd4, 0x6c, 0x4e,
     0xd2, 0x82, 0x64, 0x46, 0x07, 0x9f, 0xaa, 0x09, 0x14, 0xc2, 0xd7, 0x05, 0xd9, 0x8b, 0x02, 0xa2,
     0xb5, 0x12, 0x9c, 0xd1, 0xde, 0x16, 0x4e, 0xb9, 0xcb, 0xd0, 0x83, 0xe8, 0xa2, 0x50, 0x3c, 0x4e] := by decide +kernel

/-- A key meeting the hypotheses. -/
example : ∃ st, chachaInit ((List.range 32).map (BitVec.ofNat 8)) [0, 0, 0, 0x4a, 0, 0, 0, 0] [] = .ok (st, pairOf 32 0) :=
  (C51_chacha20 (by decide) rfl (Or.inl rfl)).imp fun _ h => h.1

/-- CSX512 without authentication, 40 or 80 rounds: block number `j` after initialisation is the CSX-512
block with number `j`, and the SIMD functions give the same blocks. -/
theorem C51_csx512 (n : Nat) {key nonce : List Byte} (info : List Byte) (hk : key.length = 64) (hn : nonce.length = 16) :
    ∃ st c, csxInit key nonce info = .ok (st, c) ∧ ∀ u : Simd,
      (∀ j, (csxCore n u st).block (pairCnt c j) = csx512 n (csxCodeOf info) key nonce j) ∧
      ∀ cs, (csxCore n u st).wide cs = (cs.map (csxCore n u st).block).flatten := by
  obtain ⟨st, c, h1, h2, h3⟩ := csxInit_ok info hk hn
  refine ⟨st, c, h1, fun u => ⟨fun j => ?_, fun cs => (csxLaws n u st).wide cs (fun _ _ => trivial)⟩⟩
  have e : (csxCore n u st).block (pairCnt c j) =
      storeWords 8 (specWords csxRots n (start st (pairCnt c j).1 (pairCnt c j).2)) := p1024C_spec n st _
  rw [e, store_spec (k := 8) csxRots n _ _ (h3 (pairCnt c j)), csx512]
  have e8 : leEnc 16 (pairVal (pairCnt c j)) = leEnc 16 (leVal nonce + j) := by
    rw [pairCnt, h2]; exact leEnc_pairOf (k := 8) _
  rw [e8]

/-- A key meeting the hypotheses. -/
example : ∃ st c, csxInit (List.replicate 64 1) (List.replicate 16 2) [3] = .ok (st, c) := by
  obtain ⟨st, c, h, _⟩ := C51_csx512 20 (key := List.replicate 64 1) (nonce := List.replicate 16 2) [3] rfl rfl
  exact ⟨st, c, h⟩

/-! ## C50: the message is XORed with the keystream -/

variable {C : Core} {Valid : C.κ → Prop} {cnt : C.κ → Nat → C.κ} {fits : C.κ → Nat → Prop}

theorem prcLen_eq {inp msg pre junk post : List Byte} {io oo : Nat} (hin : Holds inp io msg) (hp : pre.length = oo)
    (hj : junk.length = msg.length) : prcLen inp io (pre ++ junk ++ post) oo msg.length = msg.length := by
  have h1 := hin.le
  have h2 : (pre ++ junk ++ post).length = oo + msg.length + post.length := by
    rw [List.length_append, List.length_append, hp, hj]
  rw [prcLen, wsub_le (by omega), wsub_le (by omega), h2]
  split <;> omega

theorem process_csx (C : Core) (W : Nat) (p : Prof) (sched : List Nat) (nonce : C.κ) (inp : List Byte) (io : Nat) (out : List Byte) (oo len : Nat) :
    process C .csx W p sched nonce inp io out oo len = processWhole C .csx W p sched nonce inp io out oo (prcLen inp io out oo len) := rfl

/-- `Process` of ChaChaP20 and CSX512 where it is right. -/
theorem process_csx_ok (L : Laws C Valid cnt fits) (W : Nat) (p : Prof) (hs : p.Sound C.B) {nonce : C.κ} (hv : Valid nonce)
    (inp msg : List Byte) (io oo : Nat) (hin : Holds inp io msg) (pre junk post : List Byte) (hp : pre.length = oo)
    (hj : junk.length = msg.length) (sched : List Nat) (hsc : WholeFair p C.B W msg.length sched)
    (h : p.isParallel = true → oo = 0 ∧ WholeFits C fits p nonce msg.length) :
    process C .csx W p sched nonce inp io (pre ++ junk ++ post) oo msg.length =
      .ok (cnt nonce (blocksFor C.B msg.length),
        pre ++ xorBytes (keystream (fun j => C.block (cnt nonce j)) C.B msg.length) msg ++ post) := by
  rw [process_csx, prcLen_eq hin hp hj]
  cases hpar : p.isParallel with
  | true =>
    obtain ⟨h1, h2⟩ := h hpar
    exact processWhole_gen L .csx W p hs hv inp msg io oo hin pre junk post hp hj h2 sched hsc (Or.inr h1)
  | false =>
    rw [processWhole, if_pos (Or.inl hpar)]
    exact sequential_ok L W hv inp msg io oo hin pre junk post hp hj

/-- The tasks' offsets stay below the number of blocks. -/
theorem whole_fits {C : Core} {k : Nat} {p : Prof} {c : C.κ} {len : Nat} (h : len / C.B < k) : WholeFits C (fun _ n => n < k) p c len := by
  intro _ _ i hi
  have h1 : len / C.B / p.degree * i ≤ len / C.B / p.degree * p.degree := Nat.mul_le_mul_left _ (by omega)
  have h2 := Nat.div_mul_le_self (len / C.B) p.degree
  omega

/-- ChaChaP20: at block `n` of the stream a call turns the message at `InOffset` into the message XOR the
ChaCha20 keystream from block `n` on, at `OutOffset`, and nothing else changes. For every build, parallel
profile and fair schedule. Full property: any `OutOffset` and any length. Missing, because false: parallel
processing with a non-zero offset (`C50_offset_leak`); `2^38` bytes and more in one parallel call, where
`LeIncreaseW` cuts the block offset to 32 bits. -/
theorem C50_chacha_partial {key nonce info : List Byte} (hk : key.length = 32) (hn : nonce.length = 8) (hi : info = [] ∨ info.length = 16) :
    ∃ st, chachaInit key nonce info = .ok (st, pairOf 32 0) ∧
    ∀ (compact : Bool) (u : Simd) (p : Prof) (_ : p.Sound 64) (n : Nat) (inp msg : List Byte) (io oo : Nat) (_ : Holds inp io msg)
      (pre junk post : List Byte) (_ : pre.length = oo) (_ : junk.length = msg.length)
      (_ : p.isParallel = true → oo = 0 ∧ msg.length / 64 < 2 ^ 32)
      (sched : List Nat) (_ : WholeFair p 64 u.w32 msg.length sched),
    process (chachaCore compact u st) .csx u.w32 p sched (pairOf 32 n) inp io (pre ++ junk ++ post) oo msg.length =
      .ok (pairOf 32 (n + blocksFor 64 msg.length),
        pre ++ xorBytes (keystream (fun j => if info = [] then chacha20 key nonce (n + j) else chacha20With info key nonce (n + j)) 64 msg.length) msg
          ++ post) := by
  obtain ⟨st, h1, h2⟩ := C51_chacha20 hk hn hi
  refine ⟨st, h1, ?_⟩
  intro compact u p hs n inp msg io oo hin pre junk post hp hj hpar sched hsc
  have hcnt : ∀ j, pairCnt (pairOf 32 n) j = pairOf 32 (n + j) := fun j => by
    rw [← pairCnt_zero_eq, pairCnt_add, pairCnt_zero_eq]
  have hks : keystream (fun j => (chachaCore compact u st).block (pairCnt (pairOf 32 n) j)) 64 msg.length =
      keystream (fun j => if info = [] then chacha20 key nonce (n + j) else chacha20With info key nonce (n + j)) 64 msg.length := by
    refine congrArg (fun f => keystream f 64 msg.length) (funext fun j => ?_)
    rw [hcnt]; exact (h2 compact u).1 (n + j)
  rw [← hks, ← hcnt]
  exact process_csx_ok (chachaLaws compact u st) u.w32 p hs trivial inp msg io oo hin pre junk post hp hj sched hsc
    (fun h => ⟨(hpar h).1, whole_fits (C := chachaCore compact u st) (hpar h).2⟩)

/-- CSX512, likewise. -/
theorem C50_csx_partial (r : Nat) {key nonce : List Byte} (info : List Byte) (hk : key.length = 64) (hn : nonce.length = 16) :
    ∃ st c, csxInit key nonce info = .ok (st, pairCnt c 0) ∧
    ∀ (u : Simd) (p : Prof) (_ : p.Sound 128) (n : Nat) (inp msg : List Byte) (io oo : Nat) (_ : Holds inp io msg)
      (pre junk post : List Byte) (_ : pre.length = oo) (_ : junk.length = msg.length)
      (_ : p.isParallel = true → oo = 0 ∧ msg.length / 128 < 2 ^ 64)
      (sched : List Nat) (_ : WholeFair p 128 u.w64 msg.length sched),
    process (csxCore r u st) .csx u.w64 p sched (pairCnt c n) inp io (pre ++ junk ++ post) oo msg.length =
      .ok (pairCnt c (n + blocksFor 128 msg.length),
        pre ++ xorBytes (keystream (fun j => csx512 r (csxCodeOf info) key nonce (n + j)) 128 msg.length) msg ++ post) := by
  obtain ⟨st, c, h1, h2⟩ := C51_csx512 r info hk hn
  refine ⟨st, c, by rw [pairCnt_zero]; exact h1, ?_⟩
  intro u p hs n inp msg io oo hin pre junk post hp hj hpar sched hsc
  have hks : keystream (fun j => (csxCore r u st).block (pairCnt (pairCnt c n) j)) 128 msg.length =
      keystream (fun j => csx512 r (csxCodeOf info) key nonce (n + j)) 128 msg.length := by
    refine congrArg (fun f => keystream f 128 msg.length) (funext fun j => ?_)
    rw [pairCnt_add]; exact (h2 u).1 (n + j)
  rw [← hks, ← pairCnt_add]
  exact process_csx_ok (csxLaws r u st) u.w64 p hs trivial inp msg io oo hin pre junk post hp hj sched hsc
    (fun h => ⟨(hpar h).1, whole_fits (C := csxCore r u st) (hpar h).2⟩)

/-- TSX256, TSX512 and TSX1024 for every block function of the right output size: any `OutOffset`. -/
theorem C50_tsx {B : Nat} (hB : 0 < B) (block : BitVec 64 × BitVec 64 → List Byte) (wide : List (BitVec 64 × BitVec 64) → List Byte)
    (hl : ∀ c, (block c).length = B) (hw : ∀ cs, wide cs = (cs.map block).flatten)
    (W : Nat) (p : Prof) (hs : p.Sound B) (c : BitVec 64 × BitVec 64) (inp msg : List Byte) (io oo : Nat) (hin : Holds inp io msg)
    (pre junk post : List Byte) (hp : pre.length = oo) (hj : junk.length = msg.length) (hlen : msg.length / B < 2 ^ 64)
    (sched : List Nat) (hsc : WholeFair p B W msg.length sched) :
    process (pairCore 64 B block wide) .tsx W p sched c inp io (pre ++ junk ++ post) oo msg.length =
      .ok (pairCnt c (blocksFor B msg.length), pre ++ xorBytes (keystream (fun j => block (pairCnt c j)) B msg.length) msg ++ post) :=
  processWhole_gen (pairLaws (by omega) hB block wide hl hw) .tsx W p hs trivial inp msg io oo hin pre junk post hp hj
    (whole_fits (C := pairCore 64 B block wide) hlen) sched hsc (Or.inl rfl)

/-- RCS (`B = 32`) and RWS (`B = 64`) for every block function of the right output size. Full property: for
every counter. Missing, because false (`C50_rcs_false`): counters at which the tasks' offset computation is
wrong. -/
theorem C50_rcs_partial {B : Nat} (hB : 16 ≤ B) (block : List Byte → List Byte) (wide : List (List Byte) → List Byte)
    (hl : ∀ c, c.length = B → (block c).length = B) (hw : ∀ cs, (∀ c ∈ cs, c.length = B) → wide cs = (cs.map block).flatten)
    (W : Nat) (p : Prof) (hc : p.Cuts B) {c : List Byte} (hv : c.length = B) (inp msg : List Byte) (io oo : Nat) (hin : Holds inp io msg)
    (pre junk post : List Byte) (hp : pre.length = oo) (hj : junk.length = msg.length)
    (hf : BlocksFits (byteCore B block wide) (byteFits B) byteCnt p c msg.length)
    (scheds : Nat → List Nat) (hsc : BlocksFair p B W msg.length scheds) :
    processBlocks (byteCore B block wide) W p scheds c inp io (pre ++ junk ++ post) oo msg.length =
      .ok (byteCnt c (blocksFor B msg.length), pre ++ xorBytes (keystream (fun j => block (byteCnt c j)) B msg.length) msg ++ post) :=
  processBlocks_ok (byteLaws hB block wide hl hw) W p hc hv inp msg io oo hin pre junk post hp hj hf scheds hsc

/-- Decrypting with another build, profile and schedule gives the message back and leaves both ends at the
same block. -/
theorem C50_roundtrip_partial {key nonce info : List Byte} (hk : key.length = 32) (hn : nonce.length = 8) (hi : info = [] ∨ info.length = 16) :
    ∃ st, chachaInit key nonce info = .ok (st, pairOf 32 0) ∧
    ∀ (compact compact' : Bool) (u u' : Simd) (p p' : Prof) (_ : p.Sound 64) (_ : p'.Sound 64) (n : Nat) (msg junk junk' : List Byte)
      (_ : junk.length = msg.length) (_ : junk'.length = msg.length) (_ : msg.length / 64 < 2 ^ 32)
      (sched sched' : List Nat) (_ : WholeFair p 64 u.w32 msg.length sched) (_ : WholeFair p' 64 u'.w32 msg.length sched'),
    ∃ c' ct, process (chachaCore compact u st) .csx u.w32 p sched (pairOf 32 n) msg 0 junk 0 msg.length = .ok (c', ct) ∧
      ct.length = msg.length ∧
      process (chachaCore compact' u' st) .csx u'.w32 p' sched' (pairOf 32 n) ct 0 junk' 0 msg.length = .ok (c', msg) := by
  obtain ⟨st, h1, h2⟩ := C50_chacha_partial hk hn hi
  refine ⟨st, h1, ?_⟩
  intro compact compact' u u' p p' hs hs' n msg junk junk' hj hj' hlen sched sched' hsc hsc'
  have e1 := h2 compact u p hs n msg msg 0 0 (Holds.self msg) [] junk [] rfl hj (fun _ => ⟨rfl, hlen⟩) sched hsc
  simp only [List.nil_append, List.append_nil] at e1
  generalize hks : keystream (fun j => if info = [] then chacha20 key nonce (n + j) else chacha20With info key nonce (n + j)) 64 msg.length = ks at *
  have hkl : ks.length = msg.length := by
    obtain ⟨st', h1', h3⟩ := C51_chacha20 hk hn hi
    have hst : st' = st := by rw [h1] at h1'; exact (congrArg Prod.fst (Except.ok.inj h1')).symm
    rw [← hks]
    have := keystream_length (chachaLaws compact u st') (c := pairOf 32 n) trivial msg.length
    have e : (fun j => (chachaCore compact u st').block (pairCnt (pairOf 32 n) j)) =
        (fun j => if info = [] then chacha20 key nonce (n + j) else chacha20With info key nonce (n + j)) := funext fun j => by
      have : pairCnt (pairOf 32 n) j = pairOf 32 (n + j) := by rw [← pairCnt_zero_eq, pairCnt_add, pairCnt_zero_eq]
      rw [this]; exact (h3 compact u).1 (n + j)
    exact e ▸ this
  have hcl : (xorBytes ks msg).length = msg.length := by rw [xorBytes_length, hkl]; exact Nat.min_self _
  refine ⟨_, _, e1, hcl, ?_⟩
  have e2 := h2 compact' u' p' hs' n (xorBytes ks msg) (xorBytes ks msg) 0 0 (Holds.self _) [] junk' [] rfl (by omega)
    (fun _ => ⟨rfl, by omega⟩) sched' (by rw [hcl]; exact hsc')
  simp only [List.nil_append, List.append_nil, hcl, hks] at e2
  rw [e2, xorBytes_cancel hkl]

/-- Processing a message in pieces, all but the last of whole blocks, is the same as processing it at once:
`a` and then `b` give what `a ++ b` gives. -/
theorem C50_pieces_partial {key nonce info : List Byte} (hk : key.length = 32) (hn : nonce.length = 8) (hi : info = [] ∨ info.length = 16) :
    ∃ st, chachaInit key nonce info = .ok (st, pairOf 32 0) ∧
    ∀ (compact : Bool) (u : Simd) (p : Prof) (_ : p.Sound 64) (n : Nat) (a b ja jb : List Byte) (_ : 64 ∣ a.length)
      (_ : ja.length = a.length) (_ : jb.length = b.length) (_ : (a ++ b).length / 64 < 2 ^ 32) (sa sb sc : List Nat)
      (_ : WholeFair p 64 u.w32 a.length sa) (_ : WholeFair p 64 u.w32 b.length sb) (_ : WholeFair p 64 u.w32 (a ++ b).length sc),
    ∃ c1 c2 x y, process (chachaCore compact u st) .csx u.w32 p sa (pairOf 32 n) a 0 ja 0 a.length = .ok (c1, x) ∧
      process (chachaCore compact u st) .csx u.w32 p sb c1 b 0 jb 0 b.length = .ok (c2, y) ∧
      process (chachaCore compact u st) .csx u.w32 p sc (pairOf 32 n) (a ++ b) 0 (ja ++ jb) 0 (a ++ b).length = .ok (c2, x ++ y) := by
  obtain ⟨st, h1, h2⟩ := C50_chacha_partial hk hn hi
  refine ⟨st, h1, ?_⟩
  intro compact u p hs n a b ja jb hd hja hjb hlen sa sb sc hsa hsb hsc
  rw [List.length_append] at hlen
  have e1 := h2 compact u p hs n a a 0 0 (Holds.self a) [] ja [] rfl hja (fun _ => ⟨rfl, by omega⟩) sa hsa
  have e2 := h2 compact u p hs (n + blocksFor 64 a.length) b b 0 0 (Holds.self b) [] jb [] rfl hjb (fun _ => ⟨rfl, by omega⟩) sb hsb
  have e3 := h2 compact u p hs n (a ++ b) (a ++ b) 0 0 (Holds.self _) [] (ja ++ jb) [] rfl (by rw [List.length_append, List.length_append]; omega)
    (fun _ => ⟨rfl, by rw [List.length_append]; exact hlen⟩) sc hsc
  simp only [List.nil_append, List.append_nil] at e1 e2 e3
  refine ⟨_, _, _, _, e1, e2, ?_⟩
  rw [e3]
  obtain ⟨k, hk'⟩ := hd
  have hk' : a.length = k * 64 := by omega
  obtain ⟨st', h1', h3⟩ := C51_chacha20 hk hn hi
  have hcnt : ∀ n j, pairCnt (pairOf 32 n) j = pairOf 32 (n + j) := fun n j => by rw [← pairCnt_zero_eq, pairCnt_add, pairCnt_zero_eq]
  have hf : ∀ n, (fun j => if info = [] then chacha20 key nonce (n + j) else chacha20With info key nonce (n + j)) =
      (fun j => (chachaCore compact u st').block (pairCnt (pairOf 32 n) j)) := fun n => funext fun j => by
    rw [hcnt]; exact ((h3 compact u).1 (n + j)).symm
  have hsum : n + blocksFor 64 (a ++ b).length = n + blocksFor 64 a.length + blocksFor 64 b.length := by
    rw [List.length_append, hk', blocksFor_add (by omega), blocksFor_mul (by omega), Nat.add_assoc]
  have hks := ks_append (chachaLaws compact u st') (nonce := pairOf 32 n) trivial (a ++ b) k (by show k * 64 ≤ _; rw [List.length_append]; omega)
  have hbl : blocksFor 64 a.length = k := by rw [hk', blocksFor_mul (by omega)]
  rw [hsum, hf n, hf (n + blocksFor 64 a.length), hbl, ← hcnt n k]
  refine congrArg (fun z => Except.ok (_, z)) (hks.trans ?_)
  have t1 : (a ++ b).take (k * 64) = a := by rw [← hk', List.take_left]
  have t2 : (a ++ b).drop (k * 64) = b := by rw [← hk', List.drop_left]
  have t3 : (a ++ b).length - k * 64 = b.length := by rw [List.length_append]; omega
  show xorBytes (keystream _ 64 (k * 64)) ((a ++ b).take (k * 64)) ++ xorBytes (keystream _ 64 ((a ++ b).length - k * 64)) ((a ++ b).drop (k * 64)) = _
  rw [t1, t2, t3, hk']

/-- A profile as C19 admits for two tasks. -/
def twoTasks : Prof := ⟨⟨true, 256, 2⟩, 256⟩

theorem twoTasks_sound {B : Nat} (h : B ≤ 128) : twoTasks.Sound B := fun _ => ⟨by decide, by show 2 * B ≤ 256; omega⟩

/-- 300 bytes in two tasks under ChaChaP20, in an AVX build. -/
example : ∃ st, chachaInit (List.replicate 32 1) (List.replicate 8 2) [] = .ok (st, pairOf 32 0) ∧
    ∃ c ct, process (chachaCore false .avx st) .csx 4 twoTasks (CStream.rr (turns 64 4 128)) (pairOf 32 0) (List.replicate 300 7) 0 (List.replicate 300 0) 0 300 = .ok (c, ct) := by
  obtain ⟨st, h1, h2⟩ := C50_chacha_partial (key := List.replicate 32 1) (nonce := List.replicate 8 2) (info := []) rfl rfl (Or.inl rfl)
  have := h2 false .avx twoTasks (twoTasks_sound (by omega)) 0 (List.replicate 300 7) (List.replicate 300 7) 0 0 (Holds.self _) [] (List.replicate 300 0) [] rfl
    (by rw [List.length_replicate, List.length_replicate]) (fun _ => ⟨rfl, by rw [List.length_replicate]; decide⟩) (CStream.rr (turns 64 4 128))
    (fun _ _ => by rw [List.length_replicate]; exact CStream.rr_covers _)
  rw [List.nil_append, List.append_nil, List.length_replicate] at this
  exact ⟨st, h1, _, _, this⟩

/-- RCS with two tasks of four blocks each: a counter starting at 5. -/
example : BlocksFits (byteCore 32 id List.flatten) (byteFits 32) byteCnt twoTasks (5 :: List.replicate 31 0) 600 ∧ twoTasks.Cuts 32 ∧
    BlocksFair twoTasks 32 0 600 (fun _ => CStream.rr (turns 32 0 128)) := by
  refine ⟨?_, fun _ => ⟨by decide, by decide, by decide⟩, fun _ _ _ => CStream.rr_covers _⟩
  intro _ t i ht hi
  have ht : t < 2 := ht
  have hi : i < 2 := hi
  refine ⟨?_, ?_, C03_small ?_⟩ <;> rcases t with _ | _ | t <;> rcases i with _ | _ | i <;> first | omega | decide +kernel

/-! ## Where the property fails -/

/-- ChaChaP20 and CSX512 in parallel with an `OutOffset` at least as large as the rest that is left over
after the tasks: this rest is not encrypted. What the output array held there before is XORed with the
plaintext; for a fresh array that is the plaintext itself. Whatever the key. -/
theorem C50_offset_leak (L : Laws C Valid cnt fits) (W : Nat) (p : Prof) (hs : p.Sound C.B) {nonce : C.κ} (hv : Valid nonce)
    (inp msg : List Byte) (io oo : Nat) (hin : Holds inp io msg) (pre junk post : List Byte) (hp : pre.length = oo)
    (hj : junk.length = msg.length) (hf : WholeFits C fits p nonce msg.length) (sched : List Nat) (hsc : WholeFair p C.B W msg.length sched)
    (hpar : p.isParallel = true) (hmin : p.minSize ≤ msg.length) {aln : Nat} (haln : aln = msg.length / C.B / p.degree * C.B * p.degree)
    (hoo : msg.length - aln ≤ oo) :
    ∃ c out, process C .csx W p sched nonce inp io (pre ++ junk ++ post) oo msg.length = .ok (c, out) ∧
      (out.drop (oo + aln)).take (msg.length - aln) = xorBytes (junk.drop aln) (msg.drop aln) := by
  rw [process_csx, prcLen_eq hin hp hj, processWhole, if_neg (by rw [hpar]; intro h; rcases h with h | h; cases h; omega)]
  obtain ⟨hd, hdB⟩ := hs hpar
  have hB := L.pos
  have hfit := hf hpar hmin
  have hcov := hsc hpar hmin
  generalize hm : msg.length / C.B / p.degree = m at *
  have hdp : 0 < p.degree := by omega
  have h1 : m * p.degree ≤ msg.length / C.B := by rw [← hm]; exact Nat.div_mul_le_self _ _
  have h2 : m * p.degree * C.B ≤ msg.length := (Nat.le_div_iff_mul_le hB).mp h1
  have e0 : m * C.B * p.degree = p.degree * (m * C.B) := Nat.mul_comm _ _
  have e1 : m * C.B * p.degree = m * p.degree * C.B := by rw [Nat.mul_assoc, Nat.mul_comm C.B, ← Nat.mul_assoc]
  have hmp : 1 ≤ m := by
    rw [← hm, Nat.le_div_iff_mul_le hdp, Nat.le_div_iff_mul_le hB, Nat.one_mul]; omega
  have hlt : msg.length < m * C.B * p.degree + p.degree * C.B := by
    have a1 : msg.length / C.B < (m + 1) * p.degree := by
      rw [← Nat.div_lt_iff_lt_mul hdp, hm]; omega
    have a2 : msg.length < (m + 1) * p.degree * C.B := by rw [← Nat.div_lt_iff_lt_mul hB]; exact a1
    rw [Nat.succ_mul, Nat.add_mul] at a2
    omega
  have hge : p.degree * C.B ≤ m * C.B * p.degree := by
    rw [e1]; exact Nat.mul_le_mul_right _ (Nat.le_mul_of_pos_left _ hmp)
  rw [← haln] at e0 e1 hlt hge
  obtain ⟨ts, t1, t2⟩ := tasks_ok L W p.degree m hd hv inp (msg.take aln) io (holds_take hin aln)
    (by rw [List.length_take]; omega) pre (junk.take aln) (junk.drop aln ++ post) oo hp
    (by rw [List.length_take, List.length_take]; omega) hfit sched hcov
  have hsplit : pre ++ junk ++ post = pre ++ junk.take aln ++ (junk.drop aln ++ post) := by
    simp only [List.append_assoc]; rw [← List.append_assoc (junk.take aln), List.take_append_drop]
  simp only [if_neg hd, ← haln]
  rw [hsplit, t1]
  simp only [ok_bind]
  rw [t2]
  generalize hct : xorBytes (keystream (fun j => C.block (cnt nonce j)) C.B (msg.take aln).length) (msg.take aln) = ct
  have hcl : ct.length = aln := by
    rw [← hct, xorBytes_length, keystream_length L hv, Nat.min_self, List.length_take]; omega
  have hv2 := L.valid hv (blocksFor C.B (msg.take aln).length)
  generalize cnt nonce (blocksFor C.B (msg.take aln).length) = c2 at hv2
  have hjd : (junk.drop aln).length = (msg.drop aln).length := by rw [List.length_drop, List.length_drop, hj]
  have hdl : (msg.drop aln).length = msg.length - aln := List.length_drop
  rw [remainder]
  by_cases hr : aln < msg.length
  · rw [if_pos hr]
    simp only [if_neg (show ¬ aln = 0 by omega)]
    have er : msg.length % aln = msg.length - aln := by
      rw [Nat.mod_eq_sub_mod (by omega), Nat.mod_eq_of_lt (by omega)]
    -- the generator writes at `aln`, in front of the window of the rest
    have hpc : (pre ++ ct).length = oo + aln := by rw [List.length_append, hp, hcl]
    have es : pre ++ ct ++ (junk.drop aln ++ post) =
        (pre ++ ct).take aln ++ ((pre ++ ct).drop aln).take (msg.length - aln) ++
          (((pre ++ ct).drop aln).drop (msg.length - aln) ++ (junk.drop aln ++ post)) := by
      have a1 := List.take_append_drop aln (pre ++ ct)
      have a2 := List.take_append_drop (msg.length - aln) ((pre ++ ct).drop aln)
      generalize (pre ++ ct).take aln = x at a1 ⊢
      generalize (pre ++ ct).drop aln = y at a1 a2 ⊢
      generalize y.take (msg.length - aln) = z at a2 ⊢
      generalize y.drop (msg.length - aln) = v at a2 ⊢
      rw [← a1, ← a2]
      simp only [List.append_assoc]
    have hg := (gen_runs L W aln (msg.length - aln) hv2 (((pre ++ ct).drop aln).take (msg.length - aln))
      (by rw [List.length_take, List.length_drop]; omega)).run ((pre ++ ct).take aln)
      (((pre ++ ct).drop aln).drop (msg.length - aln) ++ (junk.drop aln ++ post)) (by rw [List.length_take]; omega)
    rw [er, es, hg]
    simp only [pure_eq_ok, ok_bind]
    generalize hks : keystream (fun j => C.block (cnt c2 j)) C.B (msg.length - aln) = ks
    have hkl : ks.length = msg.length - aln := by rw [← hks]; exact keystream_length L hv2 _
    generalize hA : (pre ++ ct).take aln ++ ks ++ ((pre ++ ct).drop aln).drop (msg.length - aln) = A
    have hAl : A.length = oo + aln := by
      rw [← hA, List.length_append, List.length_append, List.length_take, List.length_drop, List.length_drop]; omega
    have eA : (pre ++ ct).take aln ++ ks ++ (((pre ++ ct).drop aln).drop (msg.length - aln) ++ (junk.drop aln ++ post)) =
        A ++ junk.drop aln ++ post := by rw [← hA]; simp only [List.append_assoc]
    have hx := xorLoop_at inp (io + aln) (oo + aln) (msg.drop aln) (junk.drop aln) A post 0 (holds_drop hin (by omega) : Holds inp (io + aln) _) hjd
      (by rw [hAl]; omega)
    rw [hdl] at hx
    rw [eA, hx]
    refine ⟨_, _, rfl, ?_⟩
    have hxl : (xorBytes (junk.drop aln) (msg.drop aln)).length = msg.length - aln := by
      rw [xorBytes_length, hjd, Nat.min_self, hdl]
    rw [List.append_assoc, ← hAl, List.drop_left, ← hxl, List.take_left]
  · rw [if_neg hr]
    refine ⟨_, _, rfl, ?_⟩
    have z : msg.drop aln = [] := List.drop_eq_nil_of_le (by omega)
    rw [z, show msg.length - aln = 0 by omega]
    simp [xorBytes]

/-- Instance for ChaChaP20: 300 zero-initialised bytes, `OutOffset = 50`, message of 261 bytes: the last 5
bytes of the ciphertext are the last 5 bytes of the plaintext, for every key. -/
theorem C50_chacha_leak (compact : Bool) (u : Simd) (st : Nat → BitVec 32) (c : BitVec 32 × BitVec 32) (msg : List Byte)
    (hm : msg.length = 261) (sched : List Nat) (hsc : WholeFair twoTasks 64 u.w32 261 sched) :
    ∃ c' out, process (chachaCore compact u st) .csx u.w32 twoTasks sched c msg 0 (List.replicate 311 0) 50 261 = .ok (c', out) ∧
      (out.drop 306).take 5 = msg.drop 256 := by
  have h := C50_offset_leak (chachaLaws compact u st) u.w32 twoTasks (twoTasks_sound (by show 64 ≤ 128; omega)) (nonce := c) trivial msg msg 0 50 (Holds.self msg)
    (List.replicate 50 0) (List.replicate 261 0) [] List.length_replicate (by rw [List.length_replicate, hm])
    (whole_fits (C := chachaCore compact u st) (by rw [hm]; show 261 / 64 < 2 ^ 32; decide)) sched (by rw [hm]; exact hsc) rfl (by rw [hm]; decide)
    (aln := 256) (by rw [hm]; show 256 = 261 / 64 / 2 * 64 * 2; decide) (by rw [hm]; decide)
  obtain ⟨c', out, h1, h2⟩ := h
  refine ⟨c', out, ?_, ?_⟩
  · rw [hm] at h1
    have e : List.replicate 50 (0 : Byte) ++ List.replicate 261 0 ++ [] = List.replicate 311 0 := by
      rw [List.append_nil, List.replicate_append_replicate]
    rw [e] at h1
    exact h1
  · rw [hm] at h2
    have hz : ∀ l : List Byte, xorBytes (List.replicate l.length 0) l = l := by
      intro l
      induction l with
      | nil => rfl
      | cons a t ih => rw [List.length_cons, List.replicate_succ]; simp only [xorBytes, List.zipWith_cons_cons] at ih ⊢; rw [ih, show (0 : Byte) = 0#8 from rfl, BitVec.zero_xor]
    have e : (List.replicate 261 (0 : Byte)).drop 256 = List.replicate (msg.drop 256).length 0 := by
      rw [List.drop_replicate, List.length_drop, hm]
    rw [e, hz] at h2
    exact h2

/-- Schedules of the kind asked for exist. -/
example : WholeFair twoTasks 64 4 261 (CStream.rr (turns 64 4 128)) := fun _ _ => CStream.rr_covers _

/-! ### RCS and RWS -/

/-- What the code does to find a task's counter is wrong: exactly one of the two defects is met. Either the
sum leaves the 16 bytes that `LeIncrement(Counter, 16)` counts in, or `LeIncrease8` loses a carry (C03). -/
def BadJump (B : Nat) (c : List Byte) (n : Nat) : Prop :=
  n < 2 ^ 32 ∧ ((256 ^ 16 ≤ leVal (c.take 16) + n ∧ ¬ CarryMeetsFF B (leVal c) n) ∨
    (leVal (c.take 16) + n < 256 ^ 16 ∧ CarryMeetsFF B (leVal c) n))

theorem wrap_differs {Q P lo n hi : Nat} (hP : 2 ≤ P) (hlo : lo < Q) (hn : n < Q) (hhi : hi < P) (g : Q ≤ lo + n) :
    (lo + n) % Q + Q * hi ≠ (lo + Q * hi + n) % (Q * P) := by
  intro h4
  have h6 : lo + n - Q < Q := by omega
  have hQ : 0 < Q := by omega
  have e1 : (lo + n) % Q = lo + n - Q := by rw [Nat.mod_eq_sub_mod g, Nat.mod_eq_of_lt h6]
  have e2 : lo + Q * hi + n = (lo + n - Q) + Q * (hi + 1) := by rw [Nat.mul_succ]; omega
  rw [e1, e2] at h4
  generalize lo + n - Q = q at *
  rw [Nat.mod_mul, Nat.add_mul_mod_self_left, Nat.mod_eq_of_lt h6, Nat.add_mul_div_left _ _ hQ, Nat.div_eq_of_lt h6, Nat.zero_add] at h4
  have h7 : hi = (hi + 1) % P := Nat.eq_of_mul_eq_mul_left hQ (Nat.add_left_cancel h4)
  rcases Nat.lt_or_ge (hi + 1) P with h8 | h8
  · rw [Nat.mod_eq_of_lt h8] at h7; omega
  · rw [show hi + 1 = P by omega, Nat.mod_self] at h7; omega

theorem no_wrap {Q P lo n hi : Nat} (hhi : hi < P) (g : lo + n < Q) : (lo + n) % Q + Q * hi = (lo + Q * hi + n) % (Q * P) := by
  rw [Nat.mod_eq_of_lt g, show lo + Q * hi + n = lo + n + Q * hi by omega, Nat.mod_eq_of_lt]
  have := Nat.mul_le_mul_left Q (show hi + 1 ≤ P by omega)
  rw [Nat.mul_succ] at this
  omega

theorem processBlocks_one {C : Core} {W : Nat} {p : Prof} {scheds : Nat → List Nat} {nonce : C.κ} {inp : List Byte} {out : List Byte} {len : Nat}
    {r : C.κ × List Byte} (hpar : p.isParallel = true) (hb : p.blockSize ≠ 0) (hl : len = p.blockSize)
    (h : parallelBlock C W p (scheds 0) nonce inp 0 out 0 p.blockSize = .ok r) :
    processBlocks C W p scheds nonce inp 0 out 0 len = .ok r := by
  have e1 : len / p.blockSize = 1 := by rw [hl]; exact Nat.div_self (by omega)
  rw [processBlocks, if_pos ⟨hpar, by omega⟩]
  simp only [if_neg hb, e1, loopN, Nat.zero_mul, Nat.add_zero, Nat.mul_one, ok_bind, pure_eq_ok]
  rw [h]
  simp only [ok_bind]
  rw [if_neg (by omega)]

theorem processBlocks_seq {C : Core} {W : Nat} {p : Prof} {scheds : Nat → List Nat} {nonce : C.κ} {inp : List Byte} {out : List Byte} {io oo len : Nat}
    (hpar : p.isParallel = false) :
    processBlocks C W p scheds nonce inp io out oo len = sequential C W nonce inp io out oo len := by
  rw [processBlocks, if_neg (by rw [hpar]; rintro ⟨h, _⟩; cases h)]

theorem bad_jump {B : Nat} (hB : 16 < B) {c : List Byte} (h : c.length = B) {n : Nat} (hn : n < 2 ^ 32) :
    ∃ x, leIncrease8 4 c (List.replicate B 0) 0 (BitVec.ofNat 32 n) = .ok x ∧ x.length = B ∧ (BadJump B c n → x ≠ byteCnt c n) := by
  have hn' : (BitVec.ofNat 32 n).toNat = n := by rw [BitVec.toNat_ofNat, Nat.mod_eq_of_lt hn]
  obtain ⟨x, h1, h2, h3⟩ := C03_le_increase_partial 4 (Nat.le_refl 32) (BitVec.ofNat 32 n) c [] (List.replicate B 0) [] (by simp [h])
  simp only [List.nil_append, List.append_nil, List.length_nil] at h1
  rw [hn', h] at h3
  rw [h] at h2
  refine ⟨x, h1, h2, ?_⟩
  rintro ⟨_, hb⟩ rfl
  have h16 : (c.take 16).length = 16 := by rw [List.length_take]; omega
  have hd : (c.drop 16).length = B - 16 := by rw [List.length_drop, h]
  have hv : leVal (byteCnt c n) = (leVal (c.take 16) + n) % 256 ^ 16 + 256 ^ 16 * leVal (c.drop 16) := by
    rw [byteCnt, leVal_append, leVal_leEnc, leEnc_length]
  have hc : leVal c = leVal (c.take 16) + 256 ^ 16 * leVal (c.drop 16) := by
    have := leVal_split c
    rwa [h16] at this
  have hlt := leVal_lt (c.take 16)
  have hlt2 := leVal_lt (c.drop 16)
  rw [h16] at hlt
  rw [hd] at hlt2
  have hpow : 256 ^ B = 256 ^ 16 * 256 ^ (B - 16) := by
    rw [← Nat.pow_add, show 16 + (B - 16) = B by omega]
  have hbig : 2 ≤ 256 ^ (B - 16) := Nat.le_trans (by omega : 2 ≤ 256) (Nat.le_self_pow (by omega) 256)
  rw [hv, hc, hpow] at h3
  rw [hc] at hb
  have hnq : n < 256 ^ 16 := Nat.lt_of_lt_of_le hn (by norm_num)
  rcases hb with ⟨g1, g2⟩ | ⟨g1, g2⟩
  · exact wrap_differs hbig hlt hnq hlt2 g1 (h3.mpr g2)
  · exact h3.mp (no_wrap hlt2 g1) g2

theorem flatW_inj {f g : Nat → List Byte} {seg : Nat} : ∀ {n : Nat}, (∀ i, i < n → (f i).length = seg) → (∀ i, i < n → (g i).length = seg) →
    flatW f n = flatW g n → ∀ i, i < n → f i = g i := by
  intro n
  induction n with
  | zero => intro _ _ _ i hi; omega
  | succ n ih =>
    intro hf hg h i hi
    rw [flatW_succ, flatW_succ] at h
    have hl : (flatW f n).length = (flatW g n).length := by
      rw [flatW_length f seg n (fun i hi => hf i (by omega)), flatW_length g seg n (fun i hi => hg i (by omega))]
    obtain ⟨h1, h2⟩ := List.append_inj h hl
    by_cases e : i = n
    · subst e; exact h2
    · exact ih (fun i hi => hf i (by omega)) (fun i hi => hg i (by omega)) h1 i (by omega)

/-- One parallel block of RCS or RWS whose tasks meet a wrong counter is not what the sequential
instance with the same key makes of the same message, for every block function that does not
send two counters to the same block. So a message encrypted by one is not decrypted by the other. -/
theorem C50_rcs_false {B : Nat} (hB : 16 < B) (block : List Byte → List Byte) (wide : List (List Byte) → List Byte)
    (hl : ∀ c, c.length = B → (block c).length = B) (hw : ∀ cs, (∀ c ∈ cs, c.length = B) → wide cs = (cs.map block).flatten)
    (hinj : ∀ c c', c.length = B → c'.length = B → block c = block c' → c = c')
    (W : Nat) (p : Prof) (m : Nat) (hm0 : 0 < m) (hpar : p.isParallel = true) (hd : p.degree ≠ 0) (hbs : p.blockSize = p.degree * (m * B))
    {c : List Byte} (hv : c.length = B) (msg : List Byte) (hm : msg.length = p.blockSize) (hsmall : m * p.degree < 2 ^ 32)
    (hbad : ∃ i, i < p.degree ∧ BadJump B c (m * i))
    (scheds : Nat → List Nat) (hsc : Covers p.degree (turns B W (m * B)) (scheds 0)) :
    ∃ c1 c2 x y, processBlocks (byteCore B block wide) W p scheds c msg 0 (List.replicate msg.length 0) 0 msg.length = .ok (c1, x) ∧
      processBlocks (byteCore B block wide) W { p with isParallel := false } scheds c msg 0 (List.replicate msg.length 0) 0 msg.length = .ok (c2, y) ∧
      x ≠ y := by
  have L := byteLaws (by omega : 16 ≤ B) block wide hl hw
  have hB0 : 0 < B := by omega
  have hcs : p.blockSize / p.degree = m * B := by rw [hbs, Nat.mul_comm, Nat.mul_div_cancel _ (by omega)]
  have hbp : p.blockSize ≠ 0 := by
    rw [hbs]; exact Nat.ne_of_gt (Nat.mul_pos (by omega) (Nat.mul_pos hm0 hB0))
  -- the tasks' counters
  have hJ0 : ∀ i, ∃ x, x.length = B ∧ (i < p.degree → leIncrease8 4 c (List.replicate B 0) 0 (BitVec.ofNat 32 (m * i)) = .ok x ∧
      (BadJump B c (m * i) → x ≠ byteCnt c (m * i))) := by
    intro i
    by_cases hi : i < p.degree
    · have : m * i < 2 ^ 32 := Nat.lt_of_le_of_lt (Nat.mul_le_mul_left _ (by omega)) hsmall
      obtain ⟨x, h1, h2, h3⟩ := bad_jump hB hv this
      exact ⟨x, h2, fun _ => ⟨h1, h3⟩⟩
    · exact ⟨c, hv, fun h => absurd h hi⟩
  let J : Nat → List Byte := fun i => (hJ0 i).choose
  have hJl : ∀ i, (J i).length = B := fun i => (hJ0 i).choose_spec.1
  have hJe : ∀ i, i < p.degree → leIncrease8 4 c (List.replicate B 0) 0 (BitVec.ofNat 32 (m * i)) = .ok (J i) :=
    fun i hi => ((hJ0 i).choose_spec.2 hi).1
  have hJb : ∀ i, i < p.degree → BadJump B c (m * i) → J i ≠ byteCnt c (m * i) := fun i hi => ((hJ0 i).choose_spec.2 hi).2
  obtain ⟨ts, t1, t2⟩ := tasks_gen L W p.degree m c msg msg 0 (Holds.self msg) (by show p.degree * (m * B) ≤ _; omega) []
    (List.replicate msg.length 0) [] 0 rfl (by show _ = p.degree * (m * B); rw [List.length_replicate]; omega) J hJe (fun i _ => hJl i) (scheds 0) hsc
  simp only [List.nil_append, List.append_nil] at t1
  -- the sequential side
  have hs := sequential_ok L W (nonce := c) hv msg msg 0 0 (Holds.self msg) [] (List.replicate msg.length 0) [] rfl (by simp)
  simp only [List.nil_append, List.append_nil] at hs
  -- the parallel side
  have hol : ¬ m * B * p.degree < (if wsub (List.replicate msg.length (0 : Byte)).length 0 < p.blockSize then wsub (List.replicate msg.length (0 : Byte)).length 0
      else p.blockSize) := by
    have e : m * B * p.degree = p.blockSize := by rw [hbs, Nat.mul_comm]
    rw [wsub_le (by omega), List.length_replicate, e]
    split <;> omega
  have t1' : runSched (scheds 0) (thread (byteCore B block wide) W c msg 0 0 (m * B)) (List.replicate msg.length 0) = .ok (ts, _) := t1
  have hpb : parallelBlock (byteCore B block wide) W p (scheds 0) c msg 0 (List.replicate msg.length 0) 0 p.blockSize =
      .ok ((ts (p.degree - 1)).loc, flatW (fun i => xorBytes (ksb (byteCore B block wide) byteCnt (J i) m) ((msg.drop (i * (m * B))).take (m * B))) p.degree) := by
    simp only [parallelBlock, if_neg hd, hcs]
    rw [t1']
    simp only [ok_bind, remainder]
    rw [if_neg hol]
    rfl
  have h1 : processBlocks (byteCore B block wide) W p scheds c msg 0 (List.replicate msg.length 0) 0 msg.length =
      .ok ((ts (p.degree - 1)).loc, flatW (fun i => xorBytes (ksb (byteCore B block wide) byteCnt (J i) m) ((msg.drop (i * (m * B))).take (m * B))) p.degree) := by
    exact processBlocks_one hpar hbp hm hpb
  have h2 : processBlocks (byteCore B block wide) W { p with isParallel := false } scheds c msg 0 (List.replicate msg.length 0) 0 msg.length =
      .ok (byteCnt c (blocksFor B msg.length), xorBytes (keystream (fun j => block (byteCnt c j)) B msg.length) msg) :=
    (processBlocks_seq rfl).trans hs
  refine ⟨_, _, _, _, h1, h2, ?_⟩
  · intro he
    have e : msg.length = p.degree * m * B := by rw [hm, hbs, Nat.mul_assoc]
    have hks : xorBytes (keystream (fun j => block (byteCnt c j)) B msg.length) msg =
        flatW (fun i => xorBytes (ksb (byteCore B block wide) byteCnt (byteCnt c (m * i)) m) ((msg.drop (i * (m * B))).take (m * B))) p.degree := by
      have h5 := flatW_ks L (nonce := c) hv msg m p.degree (by show p.degree * (m * B) ≤ _; omega)
      have h6 := keystream_blocks L (c := c) hv (p.degree * m)
      have h7 : p.degree * (m * B) = msg.length := by omega
      have h5' : flatW (fun i => xorBytes (ksb (byteCore B block wide) byteCnt (byteCnt c (m * i)) m) ((msg.drop (i * (m * B))).take (m * B))) p.degree =
          xorBytes (ksb (byteCore B block wide) byteCnt c (p.degree * m)) (msg.take (p.degree * (m * B))) := h5
      have h6' : keystream (fun j => block (byteCnt c j)) B (p.degree * m * B) = ksb (byteCore B block wide) byteCnt c (p.degree * m) := h6
      rw [h5', h7, List.take_length, e, h6']
    rw [hks] at he
    obtain ⟨i, hi, hb⟩ := hbad
    have hml : ((msg.drop (i * (m * B))).take (m * B)).length = m * B := by
      have h3 := mul_le_of_lt hi (Nat.le_refl (p.degree * (m * B)))
      rw [Nat.succ_mul i] at h3
      rw [List.length_take, List.length_drop]; omega
    have hkl : ∀ x : List Byte, x.length = B → (ksb (byteCore B block wide) byteCnt x m).length = m * B := fun x hx => ksb_length L hx m
    have hwl : ∀ (f : Nat → List Byte), (∀ i, (f i).length = B) → ∀ i, i < p.degree →
        (xorBytes (ksb (byteCore B block wide) byteCnt (f i) m) ((msg.drop (i * (m * B))).take (m * B))).length = m * B := by
      intro f hf i hi
      have h3 := mul_le_of_lt hi (Nat.le_refl (p.degree * (m * B)))
      rw [Nat.succ_mul i] at h3
      rw [xorBytes_length, hkl _ (hf i), List.length_take, List.length_drop]; omega
    have hw2 := flatW_inj (hwl J hJl) (hwl (fun i => byteCnt c (m * i)) (fun i => byteCnt_length (by omega) hv _)) he i hi
    have hx : ksb (byteCore B block wide) byteCnt (J i) m = ksb (byteCore B block wide) byteCnt (byteCnt c (m * i)) m := by
      have := congrArg (fun z => xorBytes z ((msg.drop (i * (m * B))).take (m * B))) hw2
      rwa [xorBytes_cancel' (by rw [hkl _ (hJl i), hml]), xorBytes_cancel' (by rw [hkl _ (byteCnt_length (by omega) hv _), hml])] at this
    have hfirst : ∀ x : List Byte, x.length = B → (ksb (byteCore B block wide) byteCnt x m).take B = block x := by
      intro x hx
      have h1 := ksb_add L (c := x) hx 1 (m - 1)
      rw [show 1 + (m - 1) = m by omega] at h1
      have h2 : ksb (byteCore B block wide) byteCnt x 1 = block x := by
        have : ksb (byteCore B block wide) byteCnt x 1 = block (byteCnt x 0) := by simp [ksb, byteCore]
        rw [this, byteCnt_zero (by omega) hx]
      rw [h1, h2, List.take_append_of_le_length (by rw [hl x hx]), List.take_of_length_le (by rw [hl x hx])]
    have hblk := congrArg (List.take B) hx
    rw [hfirst _ (hJl i), hfirst _ (byteCnt_length (by omega) hv _)] at hblk
    exact hJb i hi hb (hinj _ _ (hJl i) (byteCnt_length (by omega) hv _) hblk)

/-- Such counters exist: all ones in the first 16 bytes, two tasks of one block. -/
example : BadJump 32 (List.replicate 16 0xFF ++ List.replicate 16 0) 1 := by
  refine ⟨by decide, Or.inl ⟨by decide +kernel, C03_small (by decide)⟩⟩

/-- And counters with nothing unusual about them, for a task offset of 65288 blocks. -/
example : BadJump 32 (0xF8 :: List.replicate 31 0) 0xFF08 := by
  refine ⟨by decide, Or.inr ⟨by decide +kernel, ⟨1, by decide, by decide +kernel, by decide +kernel⟩⟩⟩

end Cex.SCipher
