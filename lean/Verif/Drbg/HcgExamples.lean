import Verif.Drbg.HcgProps
import Verif.Keccak.ShakeProps
import Verif.Keccak.KmacProps

/-! # C63: what does not hold, and cases that meet the hypotheses -/

namespace Cex.Drbg
open Cex Cex.Digest Cex.Mac Cex.IntTools Stream

/-- SHA2-256 meets the assumptions. -/
theorem two256 (compact : Bool) : Two (sha2Ops (core256 compact)) Fips.sha256 (fun _ => True) (Obj.Run (core256 compact)) :=
  ⟨sha2_hashes (core256_good compact) (by decide), fun _ _ => trivial, rfl, by show 0 < 32; decide, by show 2 * 32 < 0xFF00; decide, by show 8 ≤ 2 * 32; decide⟩

/-- SHA2-512 meets the assumptions. -/
theorem two512 (compact : Bool) : Two (sha2Ops (core512 compact)) Fips.sha512 ok512 (Obj.Run (core512 compact)) :=
  ⟨sha2_hashes (core512_good compact) (by decide), fun n h => C36_sha512_partial_range n (by omega), rfl, by show 0 < 64; decide, by show 2 * 64 < 0xFF00; decide, by show 8 ≤ 2 * 64; decide⟩

/-- The key 00 01 … 0F. -/
def hcgKey : List Byte := (List.range 16).map (BitVec.ofNat 8)

/-- "HCG-SHA2256". -/
def hcgName : List Byte := [0x48, 0x43, 0x47, 0x2D, 0x53, 0x48, 0x41, 0x32, 0x32, 0x35, 0x36]

/-- The output depends on how the requests are split: 64 bytes at once are not 1 byte and then 63 bytes. -/
theorem C63_split_refuted : ∃ (o : Obj 32) (s sa sb sc : Hcg (sha2Ops (core256 true))) (a b c : List Byte), Obj.Run (core256 true) o [] ∧
    (Hcg.new (D := sha2Ops (core256 true)) o hcgName false).initKey hcgKey [] [] = .ok s ∧
    s.generate (List.replicate 64 0) 0 64 (List.replicate 32 0) = .ok (sa, a) ∧
    s.generate [0] 0 1 (List.replicate 32 0) = .ok (sb, b) ∧ sb.generate (List.replicate 63 0) 0 63 (List.replicate 32 0) = .ok (sc, c) ∧ a ≠ b ++ c := by
  have key : ((do
      let o ← Obj.seq0.reset (core256 true)
      let s ← (Hcg.new (D := sha2Ops (core256 true)) o hcgName false).initKey hcgKey [] []
      let a ← s.generate (List.replicate 64 0) 0 64 (List.replicate 32 0)
      let b ← s.generate [0] 0 1 (List.replicate 32 0)
      let c ← b.1.generate (List.replicate 63 0) 0 63 (List.replicate 32 0)
      return decide (a.2 ≠ b.2 ++ c.2)) : M Bool) = .ok true := by decide +kernel
  obtain ⟨o, e0, key⟩ := bind_ok key
  obtain ⟨s, e1, key⟩ := bind_ok key
  obtain ⟨a, e2, key⟩ := bind_ok key
  obtain ⟨b, e3, key⟩ := bind_ok key
  obtain ⟨c, e4, key⟩ := bind_ok key
  exact ⟨o, s, a.1, b.1, c.1, a.2, b.2, c.2, .new e0, e1, e2, e3, e4, by simpa using Except.ok.inj key⟩

/-- With a digest of fewer bytes than half its block (SHA3, which `HCG(IDigest*)` accepts) every block of output ends in zeros. -/
theorem C63_zero_refuted {D : DigestOps} {H : List Byte → List Byte} {ok : Nat → Prop} {Has : D.σ → List Byte → Prop} (g : D.Hashes H ok Has) (hok : ∀ n, n < 2 ^ 60 → ok n)
    (hz : D.size < D.block / 2) (hb : D.block < 0xFF00) (dg : D.σ) (hd : Has dg []) (name key info ent : List Byte) (hk : 16 ≤ key.length) (hk2 : key.length < 2 ^ 59)
    (hc : (Hcg.codeOf D name info).length < 0xFF00) :
    ∃ s s' x, (Hcg.new dg name false).initKey key [] info = .ok s ∧
      s.generate (List.replicate (D.block / 2) 0) 0 (D.block / 2) ent = .ok (s', x ++ List.replicate (D.block / 2 - D.size) 0) ∧ x.length = D.size := by
  have fin : ∀ {st : Hmac D} {k m : List Byte}, st.Inv H Has (some (k, m)) → m.length < 2 ^ 59 → ∀ junk post : List Byte, junk.length = D.size → (junk ++ post).length < 2 ^ 64 →
      ∃ st', st.finalize (junk ++ post) 0 = .ok (st', Rfc2104.hmac H D.block k m ++ post) ∧ st'.Inv H Has (some (k, [])) := by
    intro st k m h hm junk post hj hs
    obtain ⟨st', e, i⟩ := hmac_final_inv g h (hok _ (by omega)) (hok _ (by omega)) [] junk post hj (by simpa using hs)
    simp only [List.nil_append, List.length_nil] at e
    exact ⟨st', e, i⟩
  have i0 : (Hmac.fresh (D := D) dg).Inv H Has none := ⟨by simp [Hmac.fresh], by simp [Hmac.fresh], (fun _ => ⟨rfl, hd⟩), (fun _ _ e => by cases e)⟩
  obtain ⟨c, hcd⟩ : ∃ c, c = (0 + (Hcg.codeOf D name info).length) % 2 ^ 64 := ⟨_, rfl⟩
  have hn : beIncrease8InPlace 4 (List.replicate 8 0) (BitVec.ofNat 32 (Hcg.codeOf D name info).length) = .ok (beEnc 8 c) := by
    rw [show (List.replicate 8 0 : List Byte) = beEnc 8 0 from by decide, Hcg.nonce_eq _ _ hc, hcd]
  have hsp : (List.replicate (D.block / 2) 0 : List Byte) = List.replicate D.size 0 ++ List.replicate (D.block / 2 - D.size) 0 := by rw [← List.replicate_add]; congr 1; omega
  obtain ⟨m1, e1, i1⟩ := hmac_init_inv g (keyOk := macKeyOk) i0 (k := key) (by omega) (hok _ (by omega)) (decide_eq_true (by omega))
  obtain ⟨m2, e2, i2⟩ := Hcg.mac_update g i1 (Hcg.codeOf D name info) (by omega)
  obtain ⟨m3, e3, i3⟩ := Hcg.mac_update g i2 (beEnc 8 c) (by rw [beEnc_length]; omega)
  obtain ⟨m4, e4, i4⟩ := fin i3 (by simp only [List.length_append, List.length_nil, beEnc_length]; omega) (List.replicate D.size 0) (List.replicate (D.block / 2 - D.size) 0) List.length_replicate
    (by simp only [List.length_append, List.length_replicate]; omega)
  rw [← hsp] at e4
  obtain ⟨v, hv⟩ : ∃ v, v = Rfc2104.hmac H D.block key ([] ++ Hcg.codeOf D name info ++ beEnc 8 c) := ⟨_, rfl⟩
  have hvl : v.length = D.size := by rw [hv]; exact hmac_length g _ _
  rw [← hv] at e4
  have hbl : (v ++ List.replicate (D.block / 2 - D.size) (0 : Byte)).length = D.block / 2 := by rw [List.length_append, List.length_replicate]; omega
  obtain ⟨m5, e5, i5⟩ := Hcg.mac_update g i4 (v ++ List.replicate (D.block / 2 - D.size) 0) (by omega)
  obtain ⟨m6, e6, i6⟩ := Hcg.mac_update g i5 (Hcg.codeOf D name info) (by omega)
  obtain ⟨m7, e7, i7⟩ := Hcg.mac_update g i6 (beEnc 8 ((c + D.block) % 2 ^ 64)) (by rw [beEnc_length]; omega)
  obtain ⟨m8, e8, i8⟩ := fin i7 (by rw [List.length_append, List.length_append, List.nil_append, hbl, beEnc_length]; omega) v (List.replicate (D.block / 2 - D.size) 0) hvl (by omega)
  obtain ⟨x, hx⟩ : ∃ x, x = Rfc2104.hmac H D.block key ([] ++ (v ++ List.replicate (D.block / 2 - D.size) 0) ++ Hcg.codeOf D name info ++ beEnc 8 ((c + D.block) % 2 ^ 64)) := ⟨_, rfl⟩
  have hxl : x.length = D.size := by rw [hx]; exact hmac_length g _ _
  rw [← hx] at e8
  have hbl2 : (x ++ List.replicate (D.block / 2 - D.size) (0 : Byte)).length = D.block / 2 := by rw [List.length_append, List.length_replicate]; omega
  have init : (Hcg.new dg name false).initKey key [] info =
      .ok ⟨m4, v ++ List.replicate (D.block / 2 - D.size) 0, Hcg.codeOf D name info, beEnc 8 c, 0, 0, 0, 102400000, true, false, name⟩ := by
    rw [Hcg.initKey, if_neg (by omega)]
    simp only [Hcg.new]
    rw [Keccak.clear_all _ _ rfl, ok_bind, Keccak.clear_all _ _ rfl, ok_bind]
    simp only [List.length_replicate, List.length_nil, ne_eq, not_true_eq_false, if_false]
    show (do
      let mac ← Hmac.initialize macKeyOk (Hmac.fresh dg) key
      _) = _
    rw [e1, ok_bind, hn, ok_bind, e2, ok_bind, e3, ok_bind, e4, ok_bind]
    rfl
  obtain ⟨n, hn2⟩ : ∃ n, D.block / 2 = n + 1 := ⟨D.block / 2 - 1, by omega⟩
  have hfill : Hcg.fill ⟨m4, v ++ List.replicate (D.block / 2 - D.size) 0, Hcg.codeOf D name info, beEnc 8 c, 0, 0, 0, 102400000, true, false, name⟩ =
      .ok ⟨m8, x ++ List.replicate (D.block / 2 - D.size) 0, Hcg.codeOf D name info, beEnc 8 ((c + D.block) % 2 ^ 64), D.block / 2, 0, 0, 102400000, true, false, name⟩ := by
    rw [Hcg.fill]
    simp only []
    rw [e5, ok_bind, e6, ok_bind, Hcg.nonce_eq _ _ hb, ok_bind, e7, ok_bind, e8, ok_bind]
    simp only [hbl2]
    rfl
  have hloop : Hcg.fillLoop (n + 1) ⟨m4, v ++ List.replicate (D.block / 2 - D.size) 0, Hcg.codeOf D name info, beEnc 8 c, 0, 0, 0, 102400000, true, false, name⟩ (List.replicate (D.block / 2) 0) 0 (n + 1) =
      .ok (⟨m8, x ++ List.replicate (D.block / 2 - D.size) 0, Hcg.codeOf D name info, beEnc 8 ((c + D.block) % 2 ^ 64), 0, 0, 0, 102400000, true, false, name⟩, x ++ List.replicate (D.block / 2 - D.size) 0) := by
    have hcp : copy (x ++ List.replicate (D.block / 2 - D.size) 0) 0 (List.replicate (D.block / 2) 0) 0 (n + 1) = .ok (x ++ List.replicate (D.block / 2 - D.size) 0) := by
      have := copy_at (a := []) (b := List.replicate (D.block / 2) (0 : Byte)) (c := []) (off := 0) (n := n + 1) (Holds.self (x ++ List.replicate (D.block / 2 - D.size) (0 : Byte))) rfl (by omega) (by rw [List.length_replicate]; omega)
      simpa using this
    rw [Hcg.fillLoop, hfill, ok_bind]
    simp only [hbl2]
    rw [show min (D.block / 2) (n + 1) = n + 1 by omega, hcp, ok_bind, show n + 1 - (n + 1) = 0 by omega, Hcg.fillLoop, show D.block / 2 - (n + 1) = 0 by omega]
    rfl
  refine ⟨_, ⟨m8, x ++ List.replicate (D.block / 2 - D.size) 0, Hcg.codeOf D name info, beEnc 8 ((c + D.block) % 2 ^ 64), 0, 0, 0, 102400000, true, false, name⟩, x, init, ?_, hxl⟩
  rw [Hcg.generate, if_neg (by simp), subU_le (Nat.zero_le _) (by rw [List.length_replicate]; omega), List.length_replicate, if_neg (by omega), if_neg (by omega), Hcg.expand, if_pos (by show 0 < _; omega)]
  simp only [ne_eq, not_true_eq_false, if_false]
  rw [show D.block / 2 - 0 = n + 1 by omega]
  rw [pure_bind, show 0 + 0 = 0 from rfl, hloop]
  rfl

/-- For example SHA3-256: 36 of 68 bytes are zero. -/
example (key : List Byte) (hk : 16 ≤ key.length) (hk2 : key.length < 2 ^ 59) :
    ∃ s s' x, (Hcg.new (D := idealOps (Fips202.sha3 32) 136 32) [] hcgName false).initKey key [] [] = .ok s ∧ s.generate (List.replicate 68 0) 0 68 [] = .ok (s', x ++ List.replicate 36 0) ∧ x.length = 32 :=
  C63_zero_refuted (D := idealOps (Fips202.sha3 32) 136 32)
    (ideal_hashes (fun m => Keccak.squeeze_length Keccak.perm24 (by decide) (by decide) _ _ (Keccak.absorb_len Keccak.perm24 (by decide) List.length_replicate)) (by decide) (by decide)) (fun _ _ => trivial) (by show 32 < 136 / 2; decide) (by show 136 < 0xFF00; decide) [] rfl hcgName key [] [] hk hk2
    (by show (cexPrefix ++ hcgName ++ le16 (136 / 4 * 8) ++ []).length < 0xFF00; decide)

/-- A reachable case, for any digest of the kind: three blocks, then a part, on a generator with nonce and info. -/
theorem hcg_case {D : DigestOps} {H : List Byte → List Byte} {ok : Nat → Prop} {Has : D.σ → List Byte → Prop} (t : Two D H ok Has) (o : D.σ) (h0 : Has o []) (key : List Byte) (hk : 16 ≤ key.length) (hk2 : key.length < 2 ^ 59)
    (n : Nat) (hn : n < 2 ^ 20) (ent : List Byte) (he : ent.length = D.size) : ∃ s s1 s2 a b,
    Hcg.Run H Has s (some (.first H D.block key (Chain.codeString D.block hcgName [7]) [1, 2, 3])) ∧
    s.generate (List.replicate (3 * D.size) 0) 0 (3 * D.size) ent = .ok (s1, a) ∧ s1.generate (List.replicate n 0) 0 n ent = .ok (s2, b) ∧
    a ++ b = (Chain.seed H D.block key (Chain.codeString D.block hcgName [7]) [1, 2, 3]).stream H D.block (3 * D.size + n) := by
  have hsm := t.small
  have hha := t.half
  have r0 : Hcg.Run H Has (Hcg.new o hcgName false) none := .new h0
  obtain ⟨s, e, hrun, hp, _⟩ := C63_initialize t _ _ r0 key [1, 2, 3] [7] hk hk2 (by decide) (by simp [Chain.codeString, Hcg.new, hcgName])
  have hp : s.prov = false := hp
  obtain ⟨⟨s1, e1, r1, p1, _⟩, _⟩ := C63_generate t s _ hrun [] (List.replicate (3 * D.size) 0) [] ent (by simp; omega) (by simp; omega) he (by intro h; rw [hp] at h; cases h)
  rw [hp] at p1
  obtain ⟨⟨s2, e2, _⟩, _⟩ := C63_generate t s1 _ r1 [] (List.replicate n 0) [] ent (by simp; omega) (by simp; omega) he (by intro h; rw [p1] at h; cases h)
  simp only [List.nil_append, List.append_nil, List.length_replicate, List.length_nil] at e1 e2
  refine ⟨s, s1, s2, _, _, hrun, e1, e2, ?_⟩
  have i0 := ((hrun.inv t).keyed _ rfl).2.1
  have i1 := ((r1.inv t).keyed _ rfl).2.1
  have l1 := Hcg.pull_len t i0.vlen i0.left (3 * D.size)
  have l2 := Hcg.pull_len t i1.vlen i1.left n
  have h := C63_stream_partial t s s2 _ hrun rfl [_, _] (.cons (buf := List.replicate (3 * D.size) 0) (ent := ent) (by simp; omega) he (by rw [List.length_replicate]; exact e1)
      (.cons (buf := List.replicate n 0) (ent := ent) (by simp; omega) he (by rw [List.length_replicate]; exact e2) .nil))
    (by intro o ho; simp only [List.dropLast_cons_cons, List.dropLast_singleton, List.mem_singleton] at ho; subst ho; exact ⟨3, by rw [l1, Nat.mul_comm]⟩) (Or.inl hp)
  simp only [List.flatten_cons, List.flatten_nil, List.append_nil, List.length_append] at h
  simp only [List.length_replicate] at l2
  rw [l1, l2] at h
  exact h

/-- The digests of the two enumerated types can be created, so the case above is met by both. -/
example (compact : Bool) : (∃ o, Obj.Run (core256 compact) o []) ∧ ∃ o, Obj.Run (core512 compact) o [] := by
  obtain ⟨o, h⟩ := (C36_sha256 compact).1
  obtain ⟨o2, h2⟩ := (C36_sha512_partial compact).1
  exact ⟨⟨o, .new h⟩, ⟨o2, .new h2⟩⟩

end Cex.Drbg
