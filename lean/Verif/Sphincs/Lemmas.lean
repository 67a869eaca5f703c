import Verif.Keccak.SpongeProps
import Verif.Keccak.StreamLemmas
import Verif.Sphincs.Correct
import Verif.Sphincs.Model

/-!
# Hashing and one-time signatures in the SPHINCS+ engine
-/

namespace Cex.Sphincs
open Cex Cex.IntTools Cex.Keccak Cex.Spec.Sphincs

variable {P : List Byte → M (List Byte)} {f : List Byte → List Byte} {pr : Params} {s : Parameters}

/-- The constants of the code are those of the specification, and everything fits. -/
structure Facts (pr : Params) (s : Parameters) : Prop where
  n : pr.n = s.n
  h : pr.treeHeight = s.h
  full : pr.fullHeight = s.h * s.d
  d : pr.d = s.d
  a : pr.forsHeight = s.a
  k : pr.forsTrees = s.k
  n0 : 0 < s.n
  nSmall : s.n ≤ 64
  h0 : 0 < s.h
  d2 : 2 ≤ s.d
  a0 : 0 < s.a
  ha : s.h ≤ s.a
  aSmall : s.a ≤ 16
  kSmall : s.k ≤ 64
  rate0 : 0 < pr.rate
  rate : pr.rate ≤ 192
  rate8 : pr.rate % 8 = 0
  treeSmall : treeBytes s ≤ 8
  leafSmall : leafBytes s ≤ 2
  treeBits : s.h * (s.d - 1) ≤ 64
  size : pr.sigSize = sigBytes s
  bytes : pr.bytes = sigBytes s
  room : 3 * s.n ≤ sigBytes s
  small : sigBytes s < 2 ^ 32

/-- The parameter sets. -/
inductive Same : Params → Parameters → Prop
  | p128 : Same s1p128 s128
  | p192 : Same s3p192 s192
  | p256 : Same s5p256 s256
  | p512 : Same s6p512 s512

theorem Same.facts {pr : Params} {s : Parameters} (h : Same pr s) : Facts pr s := by
  cases h <;> exact ⟨by decide, by decide, by decide, by decide, by decide, by decide, by decide, by decide, by decide, by decide, by decide, by decide, by decide, by decide,
    by decide, by decide, by decide, by decide, by decide, by decide, by decide, by decide, by decide, by decide⟩

theorem Facts.wlen (F : Facts pr s) : pr.wotsLen = wlen s := by
  rw [Params.wotsLen, Spec.Sphincs.wlen, F.n]; omega

theorem good (p : Perm P f) (F : Facts pr s) : (shakeHash f pr.rate).Good :=
  ⟨fun _ _ => shake_len p F.rate0 (by have := F.rate; omega) _, fun _ _ => shake_len p (by decide) (by decide) _⟩

/-! ## Loops that fill an array piece by piece -/

theorem loopN_last {σ : Type} {f : Nat → σ → M σ} : ∀ n i s, loopN (n + 1) i f s = (loopN n i f s >>= fun t => f (i + n) t)
  | 0, i, s => by
    rw [loopN, loopN, ok_bind, Nat.add_zero]
    cases f i s <;> rfl
  | n + 1, i, s => by
    rw [loopN]
    cases h : f i s with
    | error e => rw [loopN, h]; rfl
    | ok t =>
      rw [ok_bind, loopN_last n (i + 1) t, loopN, h, ok_bind, show i + 1 + n = i + (n + 1) from by omega]

theorem take_split (x : List Byte) (n : Nat) : x = x.take n ++ x.drop n := (List.take_append_drop n x).symm

/-- Each step writes its piece; the rest of the state satisfies `I`. -/
theorem fill {σ τ : Type} (mk : List Byte → τ → σ) (I : Nat → τ → Prop) (g : Nat → List Byte) (n : Nat) (f : Nat → σ → M σ) (pre post : List Byte) :
    ∀ k, (∀ i, i < k → (g i).length = n) →
      (∀ i, i < k → ∀ pre' junk post' t, I i t → pre'.length = pre.length + i * n → junk.length = n → ∃ t', I (i + 1) t' ∧ f i (mk (pre' ++ junk ++ post') t) = .ok (mk (pre' ++ g i ++ post') t')) →
      ∀ junk t, I 0 t → junk.length = k * n → ∃ t', I k t' ∧ loopN k 0 f (mk (pre ++ junk ++ post) t) = .ok (mk (pre ++ chunks g k ++ post) t')
  | 0, _, _, junk, t, h0, hj => by
    have : junk = [] := List.length_eq_zero_iff.mp (by simpa using hj)
    subst this
    exact ⟨t, h0, rfl⟩
  | k + 1, hg, hf, junk, t, h0, hj => by
    rw [Nat.add_one_mul k] at hj
    have e := take_split junk (k * n)
    have hl : (junk.take (k * n)).length = k * n := by rw [List.length_take]; omega
    have hr : (junk.drop (k * n)).length = n := by rw [List.length_drop]; omega
    generalize junk.take (k * n) = j1 at e hl
    generalize junk.drop (k * n) = j2 at e hr
    subst e
    obtain ⟨t1, i1, e1⟩ := fill mk I g n f pre (j2 ++ post) k (fun i hi => hg i (by omega)) (fun i hi => hf i (by omega)) j1 t h0 hl
    obtain ⟨t2, i2, e2⟩ := hf k (by omega) (pre ++ chunks g k) j2 post t1 i1 (by rw [List.length_append, chunks_len k fun i hi => hg i (by omega)]) hr
    refine ⟨t2, i2, ?_⟩
    rw [loopN_last, show pre ++ (j1 ++ j2) ++ post = pre ++ j1 ++ (j2 ++ post) from by simp, e1, ok_bind, Nat.zero_add, chunks]
    rw [show pre ++ chunks g k ++ (j2 ++ post) = pre ++ chunks g k ++ j2 ++ post from by simp, e2]
    simp

theorem wr_at {α : Type} (a c : List α) (x v : α) {i : Nat} (hi : i = a.length) : wr (a ++ x :: c) i v = .ok (a ++ v :: c) := by
  subst hi
  rw [wr_ok v (by simp), List.set_append_right (s := a) a.length v (Nat.le_refl _), Nat.sub_self, List.set_cons_zero]

theorem rd_at {α : Type} (a c : List α) (x : α) {i : Nat} (hi : i = a.length) : rd (a ++ x :: c) i = .ok x := by
  subst hi; rw [rd_ok (by simp)]; simp

theorem rd_get {α : Type} {l : List α} {i : Nat} {v : α} (h : l[i]? = some v) : rd l i = .ok v := by rw [rd, h]

/-! ## Addresses -/

/-- The four bytes of a word, most significant first. -/
def be4 (v : BitVec 32) : List Byte := [(v >>> 24).setWidth 8, (v >>> 16).setWidth 8, (v >>> 8).setWidth 8, v.setWidth 8]

theorem be32_at (v : BitVec 32) {pre junk post : List Byte} {off : Nat} (ho : off = pre.length) (hj : junk.length = 4) :
    be32ToBytes v (pre ++ junk ++ post) off = .ok (pre ++ be4 v ++ post) := by
  subst ho
  match junk, hj with
  | [a, b, c, d], _ =>
    rw [be32ToBytes, show pre ++ [a, b, c, d] ++ post = (pre ++ [a, b, c]) ++ d :: post from by simp, wr_at _ _ _ _ (by simp), ok_bind]
    rw [show (pre ++ [a, b, c]) ++ v.setWidth 8 :: post = (pre ++ [a, b]) ++ c :: v.setWidth 8 :: post from by simp, wr_at _ _ _ _ (by simp), ok_bind]
    rw [show (pre ++ [a, b]) ++ (v >>> 8).setWidth 8 :: v.setWidth 8 :: post = (pre ++ [a]) ++ b :: (v >>> 8).setWidth 8 :: v.setWidth 8 :: post from by simp, wr_at _ _ _ _ (by simp), ok_bind]
    rw [show (pre ++ [a]) ++ (v >>> 16).setWidth 8 :: (v >>> 8).setWidth 8 :: v.setWidth 8 :: post = pre ++ a :: (v >>> 16).setWidth 8 :: (v >>> 8).setWidth 8 :: v.setWidth 8 :: post from by simp,
      wr_at _ _ _ _ rfl, be4]
    simp

theorem be4_eq (v : Nat) : be4 (BitVec.ofNat 32 v) = beEnc 4 v := by
  have h : ∀ k : Nat, (BitVec.ofNat 32 v >>> (8 * k)).setWidth 8 = BitVec.ofNat 8 (v % 2 ^ 32 / 2 ^ (8 * k)) := fun k => by
    apply BitVec.eq_of_toNat_eq
    rw [BitVec.toNat_setWidth, BitVec.toNat_ushiftRight, BitVec.toNat_ofNat, BitVec.toNat_ofNat, Nat.shiftRight_eq_div_pow]
  have h0 := h 0; have h1 := h 1; have h2 := h 2; have h3 := h 3
  simp only [Nat.mul_zero, Nat.mul_one, show 8 * 2 = 16 from rfl, show 8 * 3 = 24 from rfl, BitVec.ushiftRight_zero] at h0 h1 h2 h3
  rw [be4, h0, h1, h2, h3]
  simp only [beEnc, leEnc, List.reverse_cons, List.reverse_nil, List.nil_append, List.cons_append]
  refine congrArg₂ _ ?_ (congrArg₂ _ ?_ (congrArg₂ _ ?_ (congrArg₂ _ ?_ rfl))) <;> apply BitVec.eq_of_toNat_eq <;>
    simp only [BitVec.toNat_ofNat] <;> omega

/-- The bytes of an address. -/
def Addr.bytes (a : Addr) : List Byte := be4 a.w0 ++ be4 a.w1 ++ be4 a.w2 ++ be4 a.w3 ++ be4 a.w4 ++ be4 a.w5 ++ be4 a.w6 ++ be4 a.w7

theorem Addr.bytes_len (a : Addr) : a.bytes.length = 32 := rfl

theorem addressToBytes_ok (a : Addr) {pre junk post : List Byte} {off : Nat} (ho : off = pre.length) (hj : junk.length = 32) :
    addressToBytes (pre ++ junk ++ post) off a = .ok (pre ++ a.bytes ++ post) := by
  subst ho
  obtain ⟨_, _, h⟩ := fill (σ := List Byte) (τ := Unit) (fun x _ => x) (fun _ _ => True) (fun i => match a.words[i]? with | some w => be4 w | none => []) 4
    (fun i out => do
      let w ← rd a.words i
      be32ToBytes w out (pre.length + i * 4)) pre post 8
    (fun i hi => by
      have : i < a.words.length := hi
      rw [List.getElem?_eq_getElem this]; rfl)
    (fun i hi pre' junk' post' t _ hp hj' => by
      have : i < a.words.length := hi
      refine ⟨(), trivial, ?_⟩
      rw [rd_ok this, ok_bind, List.getElem?_eq_getElem this]
      exact be32_at _ hp.symm hj') junk () trivial hj
  rw [addressToBytes, h]
  simp [chunks, Addr.words, Addr.bytes]

/-- The address with these fields. -/
def mk (layer : Nat) (tree : BitVec 64) (type a b c : Nat) : Addr :=
  ⟨BitVec.ofNat 32 layer, 0, (tree >>> 32).setWidth 32, tree.setWidth 32, BitVec.ofNat 32 type, BitVec.ofNat 32 a, BitVec.ofNat 32 b, BitVec.ofNat 32 c⟩

theorem zero_mk : ({} : Addr) = mk 0 0 0 0 0 0 := rfl

theorem be12 (t : BitVec 64) : be4 0 ++ be4 ((t >>> 32).setWidth 32) ++ be4 (t.setWidth 32) = beEnc 12 t.toNat := by
  have e1 : (t >>> 32).setWidth 32 = BitVec.ofNat 32 (t.toNat / 2 ^ 32) := by
    apply BitVec.eq_of_toNat_eq
    rw [BitVec.toNat_setWidth, BitVec.toNat_ushiftRight, BitVec.toNat_ofNat, Nat.shiftRight_eq_div_pow]
  have e2 : t.setWidth 32 = BitVec.ofNat 32 t.toNat := rfl
  have e3 : be4 0 = be4 (BitVec.ofNat 32 0) := rfl
  rw [e1, e2, e3, be4_eq, be4_eq, be4_eq]
  have := t.isLt
  generalize t.toNat = x at *
  simp only [beEnc, leEnc, List.reverse_cons, List.reverse_nil, List.nil_append, List.cons_append, Nat.zero_div]
  have h8 : x / 256 / 256 / 256 / 256 / 256 / 256 / 256 / 256 = 0 := by omega
  rw [show x / 2 ^ 32 = x / 256 / 256 / 256 / 256 from by omega]
  simp [h8]

theorem mk_bytes (layer : Nat) (tree : BitVec 64) (type a b c : Nat) : (mk layer tree type a b c).bytes = adrs layer tree.toNat type a b c := by
  rw [Addr.bytes, mk, adrs, ← be12]
  simp only [be4_eq, List.append_assoc]

/-! ## Hashing -/

/-- `XOFP1600` on the first bytes of a buffer. -/
theorem xof_at (p : Perm P f) {r : Nat} (h0 : 0 < r) (hr : r ≤ 192) (h8 : r % 8 = 0) {x w pre junk post : List Byte} {len oo n : Nat} (hx : Holds x 0 w) (hl : len = w.length) (hs : x.length < 2 ^ 64)
    (ho : oo = pre.length) (hn : n = junk.length) : xof P x 0 len (pre ++ junk ++ post) oo n r = .ok (pre ++ Fips202.shake f r w n ++ post) := by
  have hle := hx.le
  obtain ⟨a, c, rfl, ha⟩ := hx
  have : a = [] := List.length_eq_zero_iff.mp ha
  subst this hl ho hn
  have h := C38_xof p h0 hr h8 ⟨[] ++ w ++ c, 0, w.length, by simp, hs⟩ pre junk post
  rwa [show (Window.bytes ⟨[] ++ w ++ c, 0, w.length, by simp, hs⟩) = w from by simp [Window.bytes]] at h

theorem prfAddress_ok (p : Perm P f) (F : Facts pr s) {key kd pre junk post : List Byte} {off : Nat} (hk : Holds key 0 kd) (hkd : kd.length = s.n) (a : Addr) (ho : off = pre.length) (hj : junk.length = s.n) :
    prfAddress P pr (pre ++ junk ++ post) off key a = .ok (pre ++ prf (shakeHash f pr.rate) s kd a.bytes ++ post) := by
  have hn := F.n
  have hsm := F.nSmall
  have e : List.replicate (pr.n + 32) (0 : Byte) = [] ++ List.replicate pr.n 0 ++ List.replicate 32 0 := by rw [List.nil_append, List.replicate_append_replicate]
  have e2 : kd ++ List.replicate 32 (0 : Byte) = kd ++ List.replicate 32 0 ++ [] := by simp
  rw [prfAddress, e, copy_at hk (off := 0) (a := []) rfl (by omega) (by rw [List.length_replicate]; omega), ok_bind, List.nil_append, e2, addressToBytes_ok a (by omega) (by simp), ok_bind, List.append_nil]
  have hl : (kd ++ a.bytes).length = s.n + 32 := by rw [List.length_append, Addr.bytes_len, hkd]
  rw [xof_at p (by decide) (by decide) (by decide) (Holds.self _) rfl (by omega) ho (by omega), hn]
  rfl

theorem xor_loop {inp mask hd m mk : List Byte} {io off k : Nat} (hm : Holds inp io m) (hml : m.length = k) (hk : Holds mask 0 mk) (hmk : mk.length = k) (ho : off = hd.length) {junk : List Byte} (hj : junk.length = k) :
    loopN k 0 (fun i buf => do
      let x ← rd inp (io + i)
      let y ← rd mask i
      wr buf (off + i) (x ^^^ y)) (hd ++ junk) = .ok (hd ++ List.zipWith (· ^^^ ·) m mk) := by
  subst ho
  have key : ∀ j, j ≤ k → loopN j 0 (fun i buf => do
      let x ← rd inp (io + i)
      let y ← rd mask i
      wr buf (hd.length + i) (x ^^^ y)) (hd ++ junk) = .ok (hd ++ (List.zipWith (· ^^^ ·) m mk).take j ++ junk.drop j) := by
    intro j
    induction j with
    | zero => intro _; simp [loopN]
    | succ j ih =>
      intro hj'
      have hz : (List.zipWith (· ^^^ ·) m mk).length = k := by rw [List.length_zipWith]; omega
      have h1 : j < m.length := by omega
      have h2 : j < mk.length := by omega
      have r1 : rd inp (io + j) = .ok m[j] := by
        obtain ⟨a, c, rfl, rfl⟩ := hm
        rw [rd_ok (by simp; omega)]
        congr 1
        rw [List.getElem_append_left (by simp; omega), List.getElem_append_right (by omega)]
        simp
      have r2 : rd mask j = .ok mk[j] := by
        obtain ⟨a, c, rfl, ha⟩ := hk
        have : a = [] := List.length_eq_zero_iff.mp ha
        subst this
        rw [rd_ok (by simp; omega)]
        congr 1
        rw [List.getElem_append_left (by simp; omega)]
        simp
      rw [loopN_last, ih (by omega), ok_bind, Nat.zero_add, r1, ok_bind, r2, ok_bind, List.drop_eq_getElem_cons (by omega : j < junk.length),
        wr_at _ _ _ _ (by rw [List.length_append, List.length_take]; omega), List.take_add_one, List.getElem?_eq_getElem (by omega), List.getElem_zipWith]
      simp
  rw [key k (Nat.le_refl _), List.take_of_length_le (by rw [List.length_zipWith]; omega), List.drop_eq_nil_of_le (by omega), List.append_nil]

theorem thash_ok (p : Perm P f) (F : Facts pr s) {inp m seed sd pre junk post : List Byte} {io oo blocks bufLen maskLen : Nat} (hm : Holds inp io m) (hl : m.length = blocks * s.n)
    (hs : Holds seed 0 sd) (hsd : sd.length = s.n) (a : Addr) (hb : bufLen = pr.n + 32 + blocks * pr.n) (hk : maskLen = blocks * pr.n) (hsz : blocks ≤ 2 ^ 20) (ho : oo = pre.length) (hj : junk.length = s.n) :
    thash P pr (pre ++ junk ++ post) oo inp io blocks seed a bufLen maskLen = .ok (pre ++ T (shakeHash f pr.rate) s sd a.bytes m ++ post) := by
  have hn := F.n
  have hsm := F.nSmall
  rw [← hn] at hl hsd hj hsm
  subst hb hk
  have hbs : blocks * pr.n ≤ 2 ^ 20 * 64 := Nat.mul_le_mul hsz (by omega)
  have e : List.replicate (pr.n + 32 + blocks * pr.n) (0 : Byte) = [] ++ List.replicate pr.n 0 ++ (List.replicate 32 0 ++ List.replicate (blocks * pr.n) 0) := by
    rw [List.nil_append, List.replicate_append_replicate, List.replicate_append_replicate, Nat.add_assoc]
  rw [thash, e, copy_at hs (off := 0) (a := []) rfl hsd.symm (by rw [List.length_replicate]; omega), ok_bind, List.nil_append, ← List.append_assoc, addressToBytes_ok a hsd.symm (by simp), ok_bind]
  have hkey : (sd ++ a.bytes).length = pr.n + 32 := by rw [List.length_append, Addr.bytes_len, hsd]
  have hm2 := xof_at p F.rate0 F.rate F.rate8 (x := sd ++ a.bytes ++ List.replicate (blocks * pr.n) 0) (w := sd ++ a.bytes) (pre := []) (junk := List.replicate (blocks * pr.n) 0) (post := [])
    ⟨[], List.replicate (blocks * pr.n) 0, by rw [List.nil_append], rfl⟩ hkey.symm (by rw [List.length_append, hkey, List.length_replicate]; omega) (oo := 0) (n := blocks * pr.n) rfl (by simp)
  rw [List.nil_append, List.append_nil, List.nil_append, List.append_nil] at hm2
  rw [hm2, ok_bind]
  have hml : (Fips202.shake f pr.rate (sd ++ a.bytes) (blocks * pr.n)).length = blocks * pr.n := (good p F).xof _ _
  rw [xor_loop hm hl (Holds.self _) hml hkey.symm (List.length_replicate), ok_bind]
  have hxl : (sd ++ a.bytes ++ List.zipWith (· ^^^ ·) m (Fips202.shake f pr.rate (sd ++ a.bytes) (blocks * pr.n))).length = pr.n + 32 + blocks * pr.n := by
    rw [List.length_append, hkey, List.length_zipWith, hml, hl, Nat.min_self]
  rw [xof_at p F.rate0 F.rate F.rate8 (Holds.self _) hxl.symm (by omega) ho hj.symm, T, hl, hn]
  rfl

end Cex.Sphincs
