import Verif.Sphincs.LayerLemmas
import Verif.Sphincs.SchemeLemmas
import Verif.Digest.Sha2StaticProps
import Verif.Xmss.Correct
import Verif.Xmss.Model

/-!
# Hashing and one-time signatures in the XMSS engine
-/

namespace Cex.Xmss
open Cex Cex.IntTools
open Cex.Keccak hiding wr_at rd_at
open Cex.Spec.Sphincs (chunks piece node sibling path climb lengths hexDigits checksum chunks_len chunks_congr chunks_split chunks_at piece_chunks node_len path_len climb_stored lengths_le)
open Cex.Spec.Xmss hiding prf wotsSign wotsPkFromSig
open Cex.Sphincs (Addr ullToBytes bytesToUll baseW resize be4 be4_eq fill loopN_last take_split wr_at rd_at rd_get xor_loop hexDigits_len baseW_ok checksum_take checksum_le lengths_len rd_lengths piece_len piece_holds chunks_piece climb_len)

/-- `ch` computes the hash `H` of `n` bytes, wherever input and output are. -/
structure Hashes (ch : HashFn) (H : List Byte → List Byte) (n : Nat) : Prop where
  len : ∀ x, (H x).length = n
  ok : ∀ {inp x pre junk post : List Byte} {io oo len : Nat}, Holds inp io x → len = x.length → inp.length < 2 ^ 61 → oo = pre.length → junk.length = n →
    ch inp io len (pre ++ junk ++ post) oo = .ok (pre ++ H x ++ post)

/-- The constants of the code are those of the specification, and everything fits. -/
structure Facts (pr : Params) (s : Parameters) : Prop where
  n : pr.n = s.n
  h : pr.treeHeight = s.h
  full : pr.fullHeight = s.h * s.d
  d : pr.d = s.d
  ib : pr.indexSize = s.ib
  n0 : 32 ≤ s.n
  nSmall : s.n ≤ 64
  h0 : 0 < s.h
  hSmall : s.h ≤ 20
  d0 : 0 < s.d
  dSmall : s.d ≤ 12
  ib0 : 0 < s.ib
  ibSmall : s.ib ≤ 8

variable {ch : HashFn} {pr : Params} {s : Parameters}

theorem Facts.wlen (F : Facts pr s) : pr.wotsLen = wlen s := by
  rw [Params.wotsLen, Params.wotsLen1, Spec.Xmss.wlen, F.n]; omega

theorem Facts.wlen1 (F : Facts pr s) : pr.wotsLen1 = 2 * s.n := by
  rw [Params.wotsLen1, F.n]; omega

theorem Facts.size (F : Facts pr s) : pr.sigSize = sigBytes s := by
  rw [Params.sigSize, Params.wotsBytes, F.wlen, F.ib, F.n, F.full, F.d, sigBytes, layerBytes]
  ring

theorem Hashes.good (H : Hashes ch s.H s.n) : s.Good := H.len

/-! ## Numbers and addresses -/

theorem beEnc_succ (n v : Nat) : beEnc (n + 1) v = beEnc n (v / 256) ++ [BitVec.ofNat 8 v] := by
  rw [beEnc, leEnc, List.reverse_cons, beEnc]

theorem ullToBytes_ok : ∀ (len : Nat) {pre junk post : List Byte} {off : Nat} (v : BitVec 64), off = pre.length → junk.length = len →
    ullToBytes (pre ++ junk ++ post) off v len = .ok (pre ++ beEnc len v.toNat ++ post)
  | 0, pre, junk, post, off, v, _, hj => by
    have : junk = [] := List.length_eq_zero_iff.mp hj
    subst this; rfl
  | len + 1, pre, junk, post, off, v, ho, hj => by
    subst ho
    have hne : junk ≠ [] := by rintro rfl; simp at hj
    obtain ⟨j, x, rfl⟩ : ∃ j x, junk = j ++ [x] := ⟨junk.dropLast, junk.getLast hne, (List.dropLast_concat_getLast hne).symm⟩
    have hj' : j.length = len := by simpa using hj
    rw [ullToBytes, show pre ++ (j ++ [x]) ++ post = (pre ++ j) ++ x :: post from by simp, wr_at _ _ _ _ (by simp [hj']), ok_bind, ullToBytes_ok len (v >>> 8) rfl hj', beEnc_succ,
      BitVec.toNat_ushiftRight, Nat.shiftRight_eq_div_pow]
    simp only [List.append_assoc, List.cons_append, List.nil_append]
    rfl

/-- The address with these fields. -/
def mk (layer : Nat) (tree : BitVec 64) (type a b c k : Nat) : Addr :=
  ⟨BitVec.ofNat 32 layer, (tree >>> 32).setWidth 32, tree.setWidth 32, BitVec.ofNat 32 type, BitVec.ofNat 32 a, BitVec.ofNat 32 b, BitVec.ofNat 32 c, BitVec.ofNat 32 k⟩

theorem zero_mk : ({} : Addr) = mk 0 0 0 0 0 0 0 := rfl

theorem be8 (t : BitVec 64) : be4 ((t >>> 32).setWidth 32) ++ be4 (t.setWidth 32) = beEnc 8 t.toNat := by
  have e1 : (t >>> 32).setWidth 32 = BitVec.ofNat 32 (t.toNat / 2 ^ 32) := by
    apply BitVec.eq_of_toNat_eq
    rw [BitVec.toNat_setWidth, BitVec.toNat_ushiftRight, BitVec.toNat_ofNat, Nat.shiftRight_eq_div_pow]
  have e2 : t.setWidth 32 = BitVec.ofNat 32 t.toNat := rfl
  rw [e1, e2, be4_eq, be4_eq]
  generalize t.toNat = x at *
  simp only [beEnc, leEnc, List.reverse_cons, List.reverse_nil, List.nil_append, List.cons_append]
  rw [show x / 2 ^ 32 = x / 256 / 256 / 256 / 256 from by omega]

theorem mk_bytes (layer : Nat) (tree : BitVec 64) (type a b c k : Nat) : (mk layer tree type a b c k).bytes = adrs layer tree.toNat type a b c k := by
  rw [Sphincs.Addr.bytes, mk, adrs, ← be8]
  simp only [be4_eq, List.append_assoc]

theorem addressToBytes_ok (a : Addr) : addressToBytes a = .ok a.bytes := by
  obtain ⟨_, _, h⟩ := fill (σ := List Byte) (τ := Unit) (fun x _ => x) (fun _ _ => True) (fun i => match a.words[i]? with | some w => be4 w | none => []) 4
    (fun i out => do
      let w ← rd a.words i
      ullToBytes out (i * 4) (w.setWidth 64) 4) [] [] 8
    (fun i hi => by
      have : i < a.words.length := hi
      rw [List.getElem?_eq_getElem this]; rfl)
    (fun i hi pre' junk' post' t _ hp hj' => by
      have : i < a.words.length := hi
      refine ⟨(), trivial, ?_⟩
      rw [rd_ok this, ok_bind, List.getElem?_eq_getElem this]
      rw [ullToBytes_ok 4 _ (by simpa using hp.symm) hj', BitVec.toNat_setWidth, Nat.mod_eq_of_lt (Nat.lt_trans (a.words[i]).isLt (by decide)), ← be4_eq, BitVec.ofNat_toNat, BitVec.setWidth_eq])
    (List.replicate 32 0) () trivial (by simp)
  rw [List.nil_append, List.append_nil] at h
  rw [addressToBytes, h]
  simp [chunks, Addr.words, Sphincs.Addr.bytes]

theorem adrs_len (layer tree type a b c k : Nat) : (adrs layer tree type a b c k).length = 32 := by simp [adrs]

/-! ## Hashing -/

section
variable (H : Hashes ch s.H s.n) (F : Facts pr s)
include H F

theorem prf_ok {key kd inp x pre junk post : List Byte} {ko off : Nat} (hk : Holds key ko kd) (hkd : kd.length = s.n) (hx : Holds inp 0 x) (hxl : x.length = 32) (ho : off = pre.length) (hj : junk.length = s.n) :
    prf ch pr (pre ++ junk ++ post) off inp key ko = .ok (pre ++ Spec.Xmss.prf s kd x ++ post) := by
  have hn := F.n
  have hsm := F.nSmall
  have e : List.replicate (pr.n * 2 + 32) (0 : Byte) = [] ++ List.replicate pr.n 0 ++ (List.replicate pr.n 0 ++ List.replicate 32 0) := by
    rw [List.nil_append, List.replicate_append_replicate, List.replicate_append_replicate]; congr 1; omega
  have h2 := copy_at (a := beEnc pr.n 3) (b := List.replicate pr.n (0 : Byte)) (c := List.replicate 32 0) hk (off := pr.n) (n := pr.n) (by simp) (by omega) (by rw [List.length_replicate]; omega)
  have h3 := copy_at (a := beEnc pr.n 3 ++ kd) (b := List.replicate 32 (0 : Byte)) (c := []) hx (off := 2 * pr.n) (n := 32) (by rw [List.length_append, beEnc_length]; omega) hxl.symm (by rw [List.length_replicate]; omega)
  rw [List.append_nil, List.append_nil] at h3
  have hl : (beEnc pr.n 3 ++ kd ++ x).length = pr.n * 2 + 32 := by rw [List.length_append, List.length_append, beEnc_length]; omega
  rw [prf, e, ullToBytes_ok pr.n (off := 0) (pre := []) 3 rfl (by simp), ok_bind, List.nil_append, ← List.append_assoc]
  rw [show (3 : BitVec 64).toNat = 3 from rfl, h2, ok_bind, h3, ok_bind, H.ok (Holds.self _) hl.symm (by omega) ho hj, hn]
  rfl

theorem thashH_ok {inp m seed sd pre junk post : List Byte} {io oo : Nat} (hm : Holds inp io m) (hl : m.length = 2 * s.n) (hs : Holds seed 0 sd) (hsd : sd.length = s.n) (l : Nat) (t : BitVec 64) (ty a b c k : Nat)
    (ho : oo = pre.length) (hj : junk.length = s.n) :
    thashH ch pr (pre ++ junk ++ post) oo inp io seed (mk l t ty a b c k) = .ok (pre ++ randHash s sd (adrs l t.toNat ty a b c) m ++ post, mk l t ty a b c 2) := by
  have hn := F.n
  have hsm := F.nSmall
  have g := H.good
  have e : List.replicate (pr.n * 4) (0 : Byte) = [] ++ List.replicate pr.n 0 ++ (List.replicate pr.n 0 ++ List.replicate (pr.n * 2) 0) := by
    rw [List.nil_append, List.replicate_append_replicate, List.replicate_append_replicate]; congr 1; omega
  have e2 : List.replicate (pr.n * 2) (0 : Byte) = [] ++ List.replicate pr.n 0 ++ List.replicate pr.n 0 := by
    rw [List.nil_append, List.replicate_append_replicate]; congr 1; omega
  have hp : ∀ k, (adrs l t.toNat ty a b c k).length = 32 := fun k => adrs_len _ _ _ _ _ _ _
  have hpl : ∀ k, (Spec.Xmss.prf s sd (adrs l t.toNat ty a b c k)).length = s.n := fun k => prf_len g _ _
  have q0 := prf_ok H F (pre := beEnc pr.n 1) (junk := List.replicate pr.n 0) (post := List.replicate (pr.n * 2) 0) (off := pr.n) hs hsd (Holds.self (adrs l t.toNat ty a b c 0)) (hp 0) (by simp) (by simp [hn])
  have q1 := prf_ok H F (pre := []) (junk := List.replicate pr.n 0) (post := List.replicate pr.n 0) (off := 0) hs hsd (Holds.self (adrs l t.toNat ty a b c 1)) (hp 1) rfl (by simp [hn])
  have q2 := prf_ok H F (pre := Spec.Xmss.prf s sd (adrs l t.toNat ty a b c 1)) (junk := List.replicate pr.n 0) (post := []) (off := pr.n) hs hsd (Holds.self (adrs l t.toNat ty a b c 2)) (hp 2) (by rw [hpl, hn]) (by simp [hn])
  rw [List.append_nil, List.append_nil] at q2
  rw [← e2, List.nil_append] at q1
  have hx := xor_loop (hd := beEnc pr.n 1 ++ Spec.Xmss.prf s sd (adrs l t.toNat ty a b c 0)) (off := pr.n * 2) (k := pr.n * 2) (junk := List.replicate (pr.n * 2) 0) hm (by omega)
    (Holds.self (Spec.Xmss.prf s sd (adrs l t.toNat ty a b c 1) ++ Spec.Xmss.prf s sd (adrs l t.toNat ty a b c 2))) (by rw [List.length_append, hpl, hpl]; omega)
    (by rw [List.length_append, beEnc_length, hpl]; omega) (by simp)
  have hzl : (beEnc pr.n 1 ++ Spec.Xmss.prf s sd (adrs l t.toNat ty a b c 0)
      ++ List.zipWith (· ^^^ ·) m (Spec.Xmss.prf s sd (adrs l t.toNat ty a b c 1) ++ Spec.Xmss.prf s sd (adrs l t.toNat ty a b c 2))).length = 4 * pr.n := by
    rw [List.length_append, List.length_append, beEnc_length, List.length_zipWith, List.length_append, hpl, hpl, hpl, hl]; omega
  rw [thashH, e, ullToBytes_ok pr.n (off := 0) (pre := []) 1 rfl (by simp), ok_bind]
  dsimp only
  rw [addressToBytes_ok, ok_bind, show setMask (mk l t ty a b c k) 0 = mk l t ty a b c 0 from rfl, mk_bytes, List.nil_append, ← List.append_assoc, show (1 : BitVec 64).toNat = 1 from rfl, q0, ok_bind]
  rw [addressToBytes_ok, ok_bind, show setMask (mk l t ty a b c 0) 1 = mk l t ty a b c 1 from rfl, mk_bytes, q1, ok_bind]
  rw [addressToBytes_ok, ok_bind, show setMask (mk l t ty a b c 1) 2 = mk l t ty a b c 2 from rfl, mk_bytes, q2, ok_bind, hx, ok_bind]
  rw [H.ok (Holds.self _) hzl.symm (by omega) ho hj, ok_bind, pure_eq_ok, hn]
  rfl

theorem thashF_ok {inp m seed sd pre junk post : List Byte} {io oo : Nat} (hm : Holds inp io m) (hl : m.length = s.n) (hs : Holds seed 0 sd) (hsd : sd.length = s.n) (l : Nat) (t : BitVec 64) (ty a b c k : Nat)
    (ho : oo = pre.length) (hj : junk.length = s.n) :
    thashF ch pr (pre ++ junk ++ post) oo inp io seed (mk l t ty a b c k) = .ok (pre ++ stepF s sd (adrs l t.toNat ty a b c) m ++ post, mk l t ty a b c 1) := by
  have hn := F.n
  have hsm := F.nSmall
  have g := H.good
  have e : List.replicate (pr.n * 3) (0 : Byte) = [] ++ List.replicate pr.n 0 ++ (List.replicate pr.n 0 ++ List.replicate pr.n 0) := by
    rw [List.nil_append, List.replicate_append_replicate, List.replicate_append_replicate]; congr 1; omega
  have hp : ∀ k, (adrs l t.toNat ty a b c k).length = 32 := fun k => adrs_len _ _ _ _ _ _ _
  have hpl : ∀ k, (Spec.Xmss.prf s sd (adrs l t.toNat ty a b c k)).length = s.n := fun k => prf_len g _ _
  have q0 := prf_ok H F (pre := beEnc pr.n 0) (junk := List.replicate pr.n 0) (post := List.replicate pr.n 0) (off := pr.n) hs hsd (Holds.self (adrs l t.toNat ty a b c 0)) (hp 0) (by simp) (by simp [hn])
  have q1 := prf_ok H F (pre := []) (junk := List.replicate pr.n 0) (post := []) (off := 0) hs hsd (Holds.self (adrs l t.toNat ty a b c 1)) (hp 1) rfl (by simp [hn])
  rw [List.nil_append, List.append_nil, List.nil_append, List.append_nil] at q1
  have hx := xor_loop (hd := beEnc pr.n 0 ++ Spec.Xmss.prf s sd (adrs l t.toNat ty a b c 0)) (off := pr.n * 2) (k := pr.n) (junk := List.replicate pr.n 0) hm (by omega)
    (Holds.self (Spec.Xmss.prf s sd (adrs l t.toNat ty a b c 1))) (by rw [hpl]; omega)
    (by rw [List.length_append, beEnc_length, hpl]; omega) (by simp)
  have hzl : (beEnc pr.n 0 ++ Spec.Xmss.prf s sd (adrs l t.toNat ty a b c 0)
      ++ List.zipWith (· ^^^ ·) m (Spec.Xmss.prf s sd (adrs l t.toNat ty a b c 1))).length = 3 * pr.n := by
    rw [List.length_append, List.length_append, beEnc_length, List.length_zipWith, hpl, hpl, hl]; omega
  rw [thashF, e, ullToBytes_ok pr.n (off := 0) (pre := []) 0 rfl (by simp), ok_bind]
  dsimp only
  rw [addressToBytes_ok, ok_bind, show setMask (mk l t ty a b c k) 0 = mk l t ty a b c 0 from rfl, mk_bytes, List.nil_append, ← List.append_assoc, show (0 : BitVec 64).toNat = 0 from rfl, q0, ok_bind]
  rw [addressToBytes_ok, ok_bind, show setMask (mk l t ty a b c 0) 1 = mk l t ty a b c 1 from rfl, mk_bytes, q1, ok_bind, hx, ok_bind]
  rw [H.ok (Holds.self _) hzl.symm (by omega) ho hj, ok_bind, pure_eq_ok, hn]
  rfl

end

/-! ## Digits -/

theorem chainLengths_ok (F : Facts pr s) {msg : List Byte} (hm : msg.length = s.n) : ∃ junk, chainLengths pr msg = .ok (lengths msg ++ junk) := by
  have hn := F.n
  have hsm := F.nSmall
  have hd := hexDigits_len msg
  have h84 := F.wlen1
  have e : List.replicate (pr.wotsLen * 4) 0 = [] ++ List.replicate (2 * s.n) 0 ++ (List.replicate 3 0 ++ List.replicate (pr.wotsLen * 3) 0) := by
    rw [List.nil_append, List.replicate_append_replicate, List.replicate_append_replicate, Params.wotsLen, h84]; congr 1; omega
  refine ⟨List.replicate (pr.wotsLen * 3) 0, ?_⟩
  rw [chainLengths, h84, e, baseW_ok [] _ _ (off := 0) rfl (by simp) (by omega), ok_bind, List.nil_append, List.take_of_length_le (by omega), wotsChecksum, h84]
  obtain ⟨c, h1, h2⟩ := loopN_inv (P := fun j c => c = checksum ((hexDigits msg).take j)) (f := fun i c => do
    let d ← rd (hexDigits msg ++ (List.replicate 3 0 ++ List.replicate (pr.wotsLen * 3) 0)) i
    return c + (16 - d - 1)) (2 * s.n) 0 0
    (by
      rintro j c _ hlt rfl
      have hj : j < (hexDigits msg).length := by omega
      refine ⟨_, ?_, (checksum_take _ j hj).symm⟩
      rw [rd_ok (by rw [List.length_append]; omega), ok_bind, pure_eq_ok, List.getElem_append_left hj, show 16 - (hexDigits msg)[j] - 1 = 15 - (hexDigits msg)[j] from by omega]) (by simp [checksum])
  rw [Nat.zero_add, List.take_of_length_le (by omega)] at h2
  rw [h1, ok_bind, h2]
  have hc := checksum_le (hexDigits msg)
  generalize hcs : checksum (hexDigits msg) = cs at *
  have hcs' : cs ≤ 1920 := by omega
  have hv : (BitVec.ofNat 64 cs <<< (8 - 3 * 4 % 8)).toNat = cs * 16 := by
    rw [BitVec.toNat_shiftLeft, BitVec.toNat_ofNat, Nat.shiftLeft_eq, show 8 - 3 * 4 % 8 = 4 from rfl, Nat.mod_eq_of_lt (by omega : cs < 2 ^ 64)]
    omega
  have hu : ullToBytes (List.replicate ((3 * 4 + 7) / 8) 0) 0 (BitVec.ofNat 64 cs <<< (8 - 3 * 4 % 8)) ((3 * 4 + 7) / 8)
      = .ok [((BitVec.ofNat 64 cs <<< (8 - 3 * 4 % 8)) >>> 8).setWidth 8, (BitVec.ofNat 64 cs <<< (8 - 3 * 4 % 8)).setWidth 8] := rfl
  rw [hu, ok_bind]
  rw [← List.append_assoc, baseW_ok _ _ _ (by omega) (by simp) (by simp), lengths, hcs]
  congr 3
  simp only [hexDigits, List.flatMap_cons, List.flatMap_nil, List.cons_append, List.nil_append, List.take_succ_cons, List.take_zero, BitVec.toNat_setWidth, BitVec.toNat_ushiftRight, hv, Nat.shiftRight_eq_div_pow]
  refine congrArg₂ _ ?_ (congrArg₂ _ ?_ (congrArg₂ _ ?_ rfl)) <;> omega

theorem loopN_congr {σ : Type} {f g : Nat → σ → M σ} : ∀ (n i : Nat) (st : σ), (∀ j, i ≤ j → j < i + n → ∀ st, f j st = g j st) → loopN n i f st = loopN n i g st
  | 0, _, _, _ => rfl
  | n + 1, i, st, h => by
    rw [loopN, loopN, h i (Nat.le_refl _) (by omega) st]
    refine congrArg _ (funext fun t => loopN_congr n (i + 1) t fun j h1 h2 => h j (by omega) (by omega))

theorem rd_lengths' {m : List Byte} {junk : List Nat} {i : Nat} (h : i < 2 * m.length + 3) : rd (lengths m ++ junk) i = .ok ((lengths m).getD i 0) := by
  have hl : i < (lengths m).length := by rw [lengths_len]; exact h
  rw [rd_ok (by rw [List.length_append]; omega), List.getElem_append_left hl, List.getD_eq_getElem?_getD, List.getElem?_eq_getElem hl, Option.getD_some]

/-! ## Chains -/

section
variable (H : Hashes ch s.H s.n) (F : Facts pr s) {seed sd : List Byte} (hs : Holds seed 0 sd) (hsd : sd.length = s.n)
include H F hs hsd

theorem genChain_ok {inp x pre junk post : List Byte} {io oo start steps : Nat} (hx : Holds inp io x) (hxl : x.length = s.n) (hst : start + steps ≤ 16) (l : Nat) (t : BitVec 64) (kp c z k : Nat)
    (ho : oo = pre.length) (hj : junk.length = s.n) :
    ∃ z' k', genChain ch pr (pre ++ junk ++ post) oo inp io start steps seed (mk l t 0 kp c z k)
      = .ok (pre ++ chain s sd (wotsAdrs l t.toNat kp c) start x steps ++ post, mk l t 0 kp c z' k') := by
  have hn := F.n
  have key : ∀ j, j ≤ steps → ∃ z' k', loopN j start (fun idx (st : List Byte × Addr) => do
      let a := setHash st.2 idx
      thashF ch pr st.1 oo st.1 oo seed a) (pre ++ x ++ post, mk l t 0 kp c z k)
      = .ok (pre ++ chain s sd (wotsAdrs l t.toNat kp c) start x j ++ post, mk l t 0 kp c z' k') := by
    intro j
    induction j with
    | zero => exact fun _ => ⟨z, k, rfl⟩
    | succ j ih =>
      intro hk
      obtain ⟨z1, k1, h1⟩ := ih (by omega)
      refine ⟨start + j, 1, ?_⟩
      have hcl := chain_len (s := s) H.good (seed := sd) (ad := wotsAdrs l t.toNat kp c) (start := start) hxl j
      rw [loopN_last, h1, ok_bind]
      dsimp only
      rw [show setHash (mk l t 0 kp c z1 k1) (start + j) = mk l t 0 kp c (start + j) k1 from rfl]
      rw [thashF_ok H F ⟨pre, post, rfl, ho.symm⟩ hcl hs hsd l t 0 kp c (start + j) k1 ho hcl, chain]
      rfl
  obtain ⟨z', k', h⟩ := key steps (Nat.le_refl _)
  refine ⟨z', k', ?_⟩
  rw [genChain, copy_at hx ho (by omega) (by omega), ok_bind, show min (start + steps) 16 - start = steps from by omega, h]

omit hs hsd in
/-- The secret values of a one-time key. -/
theorem expandSeed_ok {sec sv pre junk post : List Byte} {off : Nat} (hv : Holds sec 0 sv) (hvl : sv.length = s.n) (ho : off = pre.length) (hj : junk.length = wlen s * s.n) :
    expandSeed ch pr (pre ++ junk ++ post) off sec = .ok (pre ++ chunks (fun i => Spec.Xmss.prf s sv (beEnc 32 i)) (wlen s) ++ post) := by
  obtain ⟨_, _, h⟩ := fill (σ := List Byte) (τ := Unit) (fun x _ => x) (fun _ _ => True) (fun i => Spec.Xmss.prf s sv (beEnc 32 i)) s.n
    (fun i out => do
      let ctr ← ullToBytes (List.replicate 32 0) 0 (BitVec.ofNat 64 i) 32
      prf ch pr out (off + pr.n * i) ctr sec 0) pre post (wlen s)
    (fun i _ => prf_len H.good _ _)
    (fun i hi pre' junk' post' t _ hp hj' => by
      refine ⟨(), trivial, ?_⟩
      have hsm := F.nSmall
      have hi' : i < 2 ^ 64 := by rw [wlen] at hi; omega
      have hu := ullToBytes_ok 32 (pre := []) (junk := List.replicate 32 0) (post := []) (off := 0) (BitVec.ofNat 64 i) rfl (by simp)
      rw [List.nil_append, List.append_nil, List.nil_append, List.append_nil, BitVec.toNat_ofNat, Nat.mod_eq_of_lt hi'] at hu
      rw [hu, ok_bind, prf_ok H F hv hvl (Holds.self _) (by simp) (by rw [hp, ho, F.n, Nat.mul_comm]) hj']) junk () trivial hj
  rw [expandSeed, F.wlen, h]

/-- Chains from values that are in place. -/
theorem chains_ok (x : Nat → List Byte) (hx : ∀ i, i < wlen s → (x i).length = s.n) (len : Nat → Nat) (hlen : ∀ i, i < wlen s → len i ≤ 16) {pre post : List Byte} {off : Nat} (ho : off = pre.length) (l : Nat) (t : BitVec 64) (kp y z k : Nat) :
    ∃ y' z' k', loopN (wlen s) 0 (fun i (st : List Byte × Addr) => do
        let a := setChain st.2 i
        genChain ch pr st.1 (off + pr.n * i) st.1 (off + pr.n * i) 0 (len i) seed a) (pre ++ chunks x (wlen s) ++ post, mk l t 0 kp y z k)
      = .ok (pre ++ chunks (fun i => chain s sd (wotsAdrs l t.toNat kp i) 0 (x i) (len i)) (wlen s) ++ post, mk l t 0 kp y' z' k') := by
  have key : ∀ j, j ≤ wlen s → ∃ y' z' k', loopN j 0 (fun i (st : List Byte × Addr) => do
        let a := setChain st.2 i
        genChain ch pr st.1 (off + pr.n * i) st.1 (off + pr.n * i) 0 (len i) seed a) (pre ++ chunks x (wlen s) ++ post, mk l t 0 kp y z k)
      = .ok (pre ++ chunks (fun i => if i < j then chain s sd (wotsAdrs l t.toNat kp i) 0 (x i) (len i) else x i) (wlen s) ++ post, mk l t 0 kp y' z' k') := by
    intro j
    induction j with
    | zero => exact fun _ => ⟨y, z, k, rfl⟩
    | succ j ih =>
      intro hj
      obtain ⟨y1, z1, k1, h1⟩ := ih (by omega)
      have hgl : ∀ i, i < wlen s → ((fun i => if i < j then chain s sd (wotsAdrs l t.toNat kp i) 0 (x i) (len i) else x i) i).length = s.n := fun i hi => by
        dsimp only
        split
        · exact chain_len H.good (hx i hi) _
        · exact hx i hi
      have hpl : (chunks (fun i => if i < j then chain s sd (wotsAdrs l t.toNat kp i) 0 (x i) (len i) else x i) j).length = j * s.n := chunks_len j fun i hi => hgl i (by omega)
      have hxj := hx j (by omega)
      rw [loopN_last, h1, ok_bind, chunks_at (k := wlen s) (i := j) (by omega), chunks_at (k := wlen s) (i := j) (by omega), if_neg (by omega), if_pos (by omega)]
      rw [show ∀ a b c d e : List Byte, a ++ (b ++ c ++ d) ++ e = a ++ b ++ c ++ (d ++ e) from fun a b c d e => by simp, show ∀ a b c d e : List Byte, a ++ (b ++ c ++ d) ++ e = a ++ b ++ c ++ (d ++ e) from fun a b c d e => by simp]
      dsimp only
      have ho' : off + pr.n * (0 + j) = (pre ++ chunks (fun i => if i < j then chain s sd (wotsAdrs l t.toNat kp i) 0 (x i) (len i) else x i) j).length := by
        rw [List.length_append, hpl, ho, F.n, Nat.zero_add, Nat.mul_comm]
      obtain ⟨z2, k2, h2⟩ := genChain_ok H F hs hsd (start := 0) (steps := len (0 + j)) ⟨_, _, rfl, ho'.symm⟩ hxj (by rw [Nat.zero_add, Nat.zero_add]; exact hlen j (by omega)) l t kp (0 + j) z1 k1 ho' hxj
      refine ⟨0 + j, z2, k2, ?_⟩
      rw [show setChain (mk l t 0 kp y1 z1 k1) (0 + j) = mk l t 0 kp (0 + j) z1 k1 from rfl, h2, Nat.zero_add]
      congr 2
      congr 1
      · congr 2
        exact chunks_congr _ fun i hi => by rw [if_pos hi, if_pos (by omega)]
      · congr 1
        exact chunks_congr _ fun i hi => by rw [if_neg (by omega), if_neg (by omega)]
  obtain ⟨y', z', k', h⟩ := key (wlen s) (Nat.le_refl _)
  refine ⟨y', z', k', ?_⟩
  rw [h]
  congr 4
  exact chunks_congr _ fun i hi => if_pos hi

/-- `sec` is the seed of the one-time key. -/
theorem wotsPkGen_ok {sks sec junk : List Byte} (l : Nat) (t : BitVec 64) (kp y z k : Nat) (hsec : Holds sec 0 (wotsSeed s sks l t.toNat kp)) (hj : junk.length = wlen s * s.n) :
    ∃ y' z' k', wotsPkGen ch pr junk sec seed (mk l t 0 kp y z k) = .ok (wotsPk s sks sd l t.toNat kp, mk l t 0 kp y' z' k') := by
  have he := expandSeed_ok H F (pre := []) (junk := junk) (post := []) (off := 0) hsec (prf_len H.good _ _) rfl hj
  rw [List.nil_append, List.append_nil] at he
  obtain ⟨y', z', k', h⟩ := chains_ok H F hs hsd (fun i => Spec.Xmss.prf s (wotsSeed s sks l t.toNat kp) (beEnc 32 i)) (fun i _ => prf_len H.good _ _) (fun _ => 15) (fun _ _ => by omega) (pre := []) (post := []) (off := 0) rfl l t kp y z k
  refine ⟨y', z', k', ?_⟩
  rw [wotsPkGen, he, ok_bind, F.wlen]
  simp only [Nat.zero_add] at h
  rw [h, List.nil_append, List.append_nil]
  rfl

theorem wotsSign_ok {sks sec msg pre junk post : List Byte} {off : Nat} (hm : msg.length = s.n) (l : Nat) (t : BitVec 64) (kp y z k : Nat) (hsec : Holds sec 0 (wotsSeed s sks l t.toNat kp)) (ho : off = pre.length)
    (hj : junk.length = wlen s * s.n) :
    ∃ y' z' k', wotsSign ch pr (pre ++ junk ++ post) off msg sec seed (mk l t 0 kp y z k)
      = .ok (pre ++ Spec.Xmss.wotsSign s sks sd l t.toNat kp msg ++ post, mk l t 0 kp y' z' k') := by
  obtain ⟨jl, hl⟩ := chainLengths_ok F hm
  obtain ⟨y', z', k', h⟩ := chains_ok H F hs hsd (fun i => Spec.Xmss.prf s (wotsSeed s sks l t.toNat kp) (beEnc 32 i)) (fun i _ => prf_len H.good _ _) (fun i => (lengths msg).getD i 0)
    (fun i _ => by have := lengths_le msg i; omega) (pre := pre) (post := post) (off := off) ho l t kp y z k
  refine ⟨y', z', k', ?_⟩
  rw [wotsSign, hl, ok_bind, expandSeed_ok H F hsec (prf_len H.good _ _) ho hj, ok_bind, F.wlen]
  refine Eq.trans ?_ h
  refine loopN_congr _ _ _ fun i _ hi st => ?_
  have hi' : i < 2 * msg.length + 3 := by rw [hm]; rw [Spec.Xmss.wlen] at hi; omega
  dsimp only
  rw [rd_lengths' hi', ok_bind]

theorem wotsPkFromSig_ok {sig sg msg junk : List Byte} {off : Nat} (hsig : Holds sig off sg) (hsg : sg.length = wlen s * s.n) (hm : msg.length = s.n) (l : Nat) (t : BitVec 64) (kp y z k : Nat)
    (hj : junk.length = wlen s * s.n) :
    ∃ y' z' k', wotsPkFromSig ch pr junk sig off msg seed (mk l t 0 kp y z k)
      = .ok (Spec.Xmss.wotsPkFromSig s sd l t.toNat kp sg msg, mk l t 0 kp y' z' k') := by
  obtain ⟨jl, hl⟩ := chainLengths_ok F hm
  obtain ⟨a', ⟨y', z', k', rfl⟩, h⟩ := fill (σ := List Byte × Addr) (τ := Addr) (fun x a => (x, a)) (fun _ a => ∃ y z k, a = mk l t 0 kp y z k)
    (fun i => chain s sd (wotsAdrs l t.toNat kp i) ((lengths msg).getD i 0) (piece s.n sg i) (15 - (lengths msg).getD i 0)) s.n
    (fun i st => do
      let a := setChain st.2 i
      let l ← rd (lengths msg ++ jl) i
      genChain ch pr st.1 (pr.n * i) sig (off + pr.n * i) l (16 - l - 1) seed a) [] [] (wlen s)
    (fun i hi => chain_len H.good (piece_len hsg hi) _)
    (by
      rintro i hi pre' junk' post' _ ⟨y, z, k, rfl⟩ hp hj'
      have hle := lengths_le msg i
      have hh : Holds sig (off + pr.n * i) (piece s.n sg i) := by
        rw [F.n, Nat.mul_comm]; exact piece_holds hsig hsg hi
      obtain ⟨z', k', h⟩ := genChain_ok H F hs hsd (pre := pre') (junk := junk') (post := post') (oo := pr.n * i) (start := (lengths msg).getD i 0) (steps := 15 - (lengths msg).getD i 0) hh (piece_len hsg hi)
        (by omega) l t kp i z k (by rw [F.n, hp, Nat.mul_comm]; simp) hj'
      refine ⟨mk l t 0 kp i z' k', ⟨i, z', k', rfl⟩, ?_⟩
      have hi' : i < 2 * msg.length + 3 := by rw [hm]; exact hi
      simp only [rd_lengths' hi', ok_bind]
      rw [show 16 - (lengths msg).getD i 0 - 1 = 15 - (lengths msg).getD i 0 from by omega]
      exact h) junk (mk l t 0 kp y z k) ⟨y, z, k, rfl⟩ hj
  refine ⟨y', z', k', ?_⟩
  simp only [List.nil_append, List.append_nil] at h
  rw [wotsPkFromSig, hl, ok_bind, F.wlen]
  exact h

end

end Cex.Xmss
