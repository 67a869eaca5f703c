import Verif.Keccak.SpongeProps

/-! # C38 `MACP1600`, and cases where the sponge functions are wrong -/

namespace Cex.Keccak
open Cex Cex.IntTools Stream Cex.Mac

variable {P : List Byte → M (List Byte)} {f : List Byte → List Byte} {r : Nat}

/-- The key phase of `MACP1600` gives the state of `LoadKey`. -/
theorem macKey_eq (p : Perm P f) (hr : r < 200) (h20 : 20 ≤ r) (h8 : r % 8 = 0) {s : List Byte} (hs : s.length = 200) (key : List Byte) (hn : 8 * key.length < 2 ^ 64) :
    ∃ pad, macKey P key r s = .ok (pad, Fips202.absorb f r s (Sp800185.bytepad (Sp800185.encodeString key) r)) ∧ pad.length = 200 := by
  have h := loadKey_eq p hr h20 h8 hs key hn
  obtain ⟨a, b, h1, h2, h3⟩ := start_feed (f := f) hr h20 s key.length hn
  obtain ⟨q, h4, h5⟩ := feed_eq p (by omega) hr hs key _ _ h3
  rw [loadKey, h1, ok_bind, h2, ok_bind, h4, ok_bind, flush] at h
  obtain ⟨pd, h6, h⟩ := bind_ok h
  obtain ⟨st, h7, h⟩ := bind_ok h
  refine ⟨pd, ?_, by rw [clear_len h6, h5.padLen]⟩
  rw [macKey, h1, ok_bind, h2, ok_bind, h4, ok_bind, h6, ok_bind, h7, ok_bind, h, ok_bind]
  rfl

/-- The last block of `MACP1600` when message bytes are left. -/
theorem macLast_eq (h0 : 0 < r) (hr : r ≤ 168) {msg rest pad st : List Byte} {io n : Nat} (hh : Holds msg io rest) (hl : rest.length < r) (hz : rest ≠ []) (hp : pad.length = 200)
    (hs : st.length = 200) (hn : 8 * n < 2 ^ 64) :
    macLast msg io rest.length r n pad st = .ok (xorBytes st (lastBlock r rest (Sp800185.rightEncode (8 * n)) ++ List.replicate (200 - r) 0)) := by
  have hv : (BitVec.ofNat 64 (n * 8)).toNat = 8 * n := by rw [ofNat_toNat64 (by omega)]; omega
  have hbl : Sp800185.byteLen (8 * n) ≤ 8 := byteLen_le (by omega) (by decide)
  have hel := rightEncode_length (8 * n)
  have hne : rest.length ≠ 0 := by intro e; exact hz (List.eq_nil_of_length_eq_zero e)
  have ep : pad = [] ++ pad.take rest.length ++ pad.drop rest.length := by rw [List.nil_append, List.take_append_drop]
  have hc : copy msg io pad 0 rest.length = .ok (rest ++ pad.drop rest.length) := by
    conv => lhs; rw [ep]
    rw [copy_at (a := []) (off := 0) hh rfl rfl (by rw [List.length_take]; omega), List.nil_append]
  have hcl : clear (rest ++ pad.drop rest.length) rest.length (200 - rest.length) = .ok (rest ++ List.replicate (200 - rest.length) 0) := by
    rw [clear, if_neg (by omega)]
    conv => lhs; rw [← List.append_nil (rest ++ pad.drop rest.length)]
    rw [blit_at rfl (by rw [List.length_replicate, List.length_drop]; omega), List.append_nil]
  rw [macLast, if_pos hne, hc, ok_bind, hcl, ok_bind]
  have e1 : rest ++ List.replicate (200 - rest.length) (0 : Byte) = rest ++ List.replicate (Sp800185.byteLen (8 * n) + 1) 0 ++ (0 :: List.replicate (198 - rest.length - Sp800185.byteLen (8 * n)) 0) := by
    rw [← List.replicate_succ, List.append_assoc, ← List.replicate_add]; congr 2; omega
  rw [e1, rightEncode_eq _ _ _ _ (by rw [hv, List.length_replicate]) rfl, ok_bind, hv]
  simp only []
  generalize hre : Sp800185.rightEncode (8 * n) = re at *
  rw [wr_at _ _ _ _ _ (by rw [List.length_append]), ok_bind]
  have hz := lastBlock_zeros (k := 198 - rest.length - Sp800185.byteLen (8 * n)) h0 rest re (by simp only [List.length_append, List.length_singleton]; omega)
  have e2 : rest ++ re ++ 0x04 :: List.replicate (198 - rest.length - Sp800185.byteLen (8 * n)) (0 : Byte) = rest ++ re ++ [0x04] ++ List.replicate (198 - rest.length - Sp800185.byteLen (8 * n)) 0 := by simp
  have hL : (rest ++ re ++ [0x04] ++ List.replicate (198 - rest.length - Sp800185.byteLen (8 * n)) (0 : Byte)).length = 200 := by simp; omega
  rw [e2]
  generalize rest ++ re ++ [0x04] ++ List.replicate (198 - rest.length - Sp800185.byteLen (8 * n)) (0 : Byte) = L at *
  have hlt : r - 1 < L.length := by omega
  obtain ⟨A, x, C, hLe, hA⟩ : ∃ A x C, L = A ++ x :: C ∧ r - 1 = A.length :=
    ⟨L.take (r - 1), L[r - 1], L.drop (r - 1 + 1), by rw [← List.drop_eq_getElem_cons hlt, List.take_append_drop], by rw [List.length_take]; omega⟩
  subst hLe
  rw [rd_at _ _ _ _ hA, ok_bind, wr_at _ _ _ _ _ hA]
  rw [hA, List.take_left, List.drop_left] at hz
  have hlb := lastBlock_len h0 rest re
  have hb : Holds (A ++ (x ||| 128) :: C) 0 (lastBlock r rest re) := ⟨[], C, by rw [hz]; simp, rfl⟩
  rw [ok_bind, fastAbsorb_eq hb hlb.symm hs (by omega), hlb]

/-- `MACP1600` is KMAC if the message length is not a multiple of the rate and leaves room for the encoded output length. For the empty message it is false (`C38_mac_false`); without room it is false as for the KMAC object. -/
theorem C38_mac_partial (p : Perm P f) (h20 : 20 ≤ r) (hr : r ≤ 168) (h8 : r % 8 = 0) (key cust : List Byte) (x : Window) (out : List Byte)
    (hk : 8 * key.length < 2 ^ 64) (hc : 8 * cust.length < 2 ^ 64) (ho : 8 * out.length < 2 ^ 64)
    (hx : x.len % r ≠ 0) (hroom : x.len % r + (Sp800185.rightEncode (8 * out.length)).length < r) :
    macp P key cust x.buf x.off x.len out r = .ok (Sp800185.kmac f r key x.bytes out.length cust) := by
  have h0 : 0 < r := by omega
  have hr2 : r ≤ 200 := by omega
  have hfit := fits_default h20 hr cust hc
  have hcz := customize_eq p (by omega) h20 h8 zeros200 cust kmacName hc (by decide) hfit
  have hl := absorb_len (m := Sp800185.bytepad (Sp800185.encodeString kmacName ++ Sp800185.encodeString cust) r) p hr2 zeros200
  obtain ⟨pad, hmk, hpl⟩ := macKey_eq p (by omega) h20 h8 hl key hk
  have hks : Fips202.absorb f r (Fips202.absorb f r (List.replicate 200 0) (Sp800185.bytepad (Sp800185.encodeString kmacName ++ Sp800185.encodeString cust) r))
      (Sp800185.bytepad (Sp800185.encodeString key) r) = keyState f r key cust [] := rfl
  have hkl := keyState_len p hr2 key cust []
  have hE := eager_length p hr2 (keyState f r key cust []) x.bytes hkl
  have hrest := eager_rest_mod (step := Fips202.block f) h0 (keyState f r key cust []) x.bytes
  have hh : Holds x.buf (x.off + r * (x.bytes.length / r)) (eager r (Fips202.block f) (keyState f r key cust []) x.bytes).2 := by
    rw [eager_rest h0]; exact x.holds.dropN (by have := Nat.div_add_mod x.bytes.length r; omega)
  have hlen : x.len = x.bytes.length := x.bytes_length.symm
  rw [hlen] at hx hroom
  have hm := Nat.mod_lt x.bytes.length h0
  have hlast := macLast_eq (pad := pad) (n := out.length) h0 hr hh (by rw [hrest]; exact hm) (by intro e; rw [e] at hrest; simp at hrest; omega) hpl hE ho
  rw [hrest] at hlast
  have hlb := lastBlock_len h0 (eager r (Fips202.block f) (keyState f r key cust []) x.bytes).2 (Sp800185.rightEncode (8 * out.length))
  have hxl := xorBytes_state (b := lastBlock r (eager r (Fips202.block f) (keyState f r key cust []) x.bytes).2 (Sp800185.rightEncode (8 * out.length))) hE (by rw [hlb]; omega)
  rw [hlb] at hxl
  have hex := expand_eq p h0 hr2 out.length _ [] out [] hxl rfl
  rw [List.nil_append, List.append_nil, List.append_nil, List.nil_append] at hex
  rw [macp, hlen, hcz, ok_bind, hmk, ok_bind]
  simp only []
  rw [hks, absorbLoop_eq p h0 hr2 x.buf _ x.off x.bytes _ x.holds rfl hkl, ok_bind, hlast, ok_bind]
  rw [show expand P r _ out 0 out.length = _ from hex, ok_bind]
  have := codeTag_spec (f := f) h0 key cust [] x.bytes out.length hroom
  rw [codeTag, Fips202.block, hlb] at this
  rw [Sp800185.kmac, show Sp800185.kmacName = nameOf [] from rfl, ← this]
  rfl

/-! ## Where the code is wrong -/

/-- The tag of the KMAC object, where it is that of SP 800-185. -/
theorem kmac_value (hm : Mode 168 16) (key m t : List Byte) (hk : 16 ≤ key.length) (hkl : key.length < 2 ^ 61) (hml : m.length < 2 ^ 64)
    (hroom : m.length % 168 + 4 < 168)
    (h : ((do
      let s ← (Kmac.fresh 168 16).initialize (permute 24) key [] []
      let s ← s.update (permute 24) m 0 m.length
      let r ← s.finalize (permute 24) (List.replicate 16 0) 0
      return r.2) : M (List Byte)) = .ok t) : Sp800185.kmac (Fips202.keccakP 24) 168 key m 16 [] = t := by
  obtain ⟨s, h1, r1⟩ := C30_initialize perm24 hm _ _ .new key [] hk (Or.inl rfl) hkl (by decide)
  have i := r1.inv perm24 (by decide) (by decide) (by decide)
  obtain ⟨s2, h2, _⟩ := Kmac.update_inv perm24 (by decide) (by decide) i (i.keyed _ rfl).1 (Window.whole m hml)
  have r2 := Kmac.Run.update _ r1 h2
  rw [Window.whole_bytes] at r2
  obtain ⟨⟨s3, h3⟩, _⟩ := C30_kmac_partial perm24 hm s2 key [] m r2 [] (List.replicate 16 0) (by decide) (by decide)
    (by rw [List.length_replicate, show (Sp800185.rightEncode (8 * 16)).length = 2 from by decide +kernel]; omega)
  rw [h1, ok_bind, show s.update (permute 24) m 0 m.length = .ok s2 from h2, ok_bind, show s2.finalize (permute 24) (List.replicate 16 0) 0 = _ from h3, ok_bind] at h
  cases h
  rfl

/-- `MACP1600` of the empty message is not KMAC: bytes of the padded key stay in the last block. -/
theorem C38_mac_false : ∃ t, macp (permute 24) (List.replicate 16 1) [] [] 0 0 (List.replicate 16 0) 168 = .ok t ∧
    t ≠ Sp800185.kmac (Fips202.keccakP 24) 168 (List.replicate 16 1) [] 16 [] := by
  have h : ((do
      let a ← macp (permute 24) (List.replicate 16 1) [] [] 0 0 (List.replicate 16 0) 168
      let s ← (Kmac.fresh 168 16).initialize (permute 24) (List.replicate 16 1) [] []
      let s ← s.update (permute 24) [] 0 0
      let r ← s.finalize (permute 24) (List.replicate 16 0) 0
      return decide (a = r.2)) : M Bool) = .ok false := by decide +kernel
  obtain ⟨a, h1, h⟩ := bind_ok h
  obtain ⟨s, h2, h⟩ := bind_ok h
  obtain ⟨s2, h3, h⟩ := bind_ok h
  obtain ⟨q, h4, h⟩ := bind_ok h
  have hv := kmac_value (by simp [Mode]) (List.replicate 16 1) [] q.2 (by decide) (by decide) (by decide) (by decide)
    (by rw [h2, ok_bind, show s.update (permute 24) [] 0 ([] : List Byte).length = .ok s2 from h3, ok_bind, h4, ok_bind]; rfl)
  refine ⟨a, h1, ?_⟩
  rw [hv]
  intro e
  rw [e] at h
  simp at h

/-- A call that completes a word and leaves an incomplete one XORs bytes of the first word again: 7 bytes, then 2 bytes. -/
theorem C38_incremental_false : ∃ st q, incremental (permute 24) (List.replicate 7 1) 0 7 0 136 0x1F (List.replicate 200 0) false = .ok (st, 7) ∧
    incremental (permute 24) [2, 3] 0 2 7 136 0x1F st true = .ok q ∧
    permute 24 q.1 ≠ .ok (Fips202.absorb (Fips202.keccakP 24) 136 (List.replicate 200 0) (List.replicate 7 1 ++ [2, 3] ++ Fips202.pad 136 0x1F 9)) := by
  have h : ((do
      let a ← incremental (permute 24) (List.replicate 7 1) 0 7 0 136 0x1F (List.replicate 200 0) false
      let q ← incremental (permute 24) [2, 3] 0 2 7 136 0x1F a.1 true
      let x ← permute 24 q.1
      let s ← absorb (permute 24) (List.replicate 7 1 ++ [2, 3]) 0 9 136 0x1F (List.replicate 200 0)
      let y ← permute 24 s
      return decide (a.2 = 7 ∧ x ≠ y)) : M Bool) = .ok true := by decide +kernel
  have ha := C38_absorb (r := 136) perm24 (by decide) (by decide) 0x1F (Window.whole (List.replicate 7 1 ++ [2, 3]) (by decide)) (List.replicate 200 0) zeros200
  obtain ⟨a, h1, h⟩ := bind_ok h
  obtain ⟨q, h2, h⟩ := bind_ok h
  obtain ⟨x, h3, h⟩ := bind_ok h
  obtain ⟨s, h4, h⟩ := bind_ok h
  obtain ⟨y, h5, h⟩ := bind_ok h
  have hd : a.2 = 7 ∧ x ≠ y := by simpa using h
  rw [Window.whole_bytes] at ha
  change (do let s ← absorb (permute 24) (List.replicate 7 1 ++ [2, 3]) 0 9 136 0x1F (List.replicate 200 0); permute 24 s) =
    .ok (Fips202.absorb (Fips202.keccakP 24) 136 (List.replicate 200 0) (List.replicate 7 1 ++ [2, 3] ++ Fips202.pad 136 0x1F 9)) at ha
  rw [h4, ok_bind, h5] at ha
  refine ⟨a.1, q, by rw [h1, ← hd.1], h2, ?_⟩
  rw [h3]
  intro e
  exact hd.2 (Except.ok.inj (e.trans ha.symm))

/-- `Customize` with a name that fills the block writes the length of the customization behind the rate, and the customization too: the state is not that of SP 800-185. -/
theorem C38_customize_false : ∃ st, customize (permute 24) [1, 2, 3, 4] (List.replicate 67 5) 72 (List.replicate 200 0) = .ok st ∧
    st ≠ Fips202.absorb (Fips202.keccakP 24) 72 (List.replicate 200 0) (Sp800185.bytepad (Sp800185.encodeString (List.replicate 67 5) ++ Sp800185.encodeString [1, 2, 3, 4]) 72) := by
  have hb : Sp800185.bytepad (Sp800185.encodeString (List.replicate 67 5) ++ Sp800185.encodeString [1, 2, 3, 4]) 72 =
    [1, 72, 2, 2, 24] ++ List.replicate 67 5 ++ [1, 32, 1, 2, 3, 4] ++ List.replicate 66 0 := by decide +kernel
  rw [hb]
  have h : ((do
      let a ← customize (permute 24) [1, 2, 3, 4] (List.replicate 67 5) 72 (List.replicate 200 0)
      let b ← absorbLoop (permute 24) ([1, 72, 2, 2, 24] ++ List.replicate 67 5 ++ [1, 32, 1, 2, 3, 4] ++ List.replicate 66 0) 72 2 0 (List.replicate 200 0)
      return decide (a ≠ b)) : M Bool) = .ok true := by decide +kernel
  obtain ⟨a, h1, h⟩ := bind_ok h
  obtain ⟨b, h2, h⟩ := bind_ok h
  have hl := absorbLoop_eq perm24 (r := 72) (by decide) (by decide) ([1, 72, 2, 2, 24] ++ List.replicate 67 5 ++ [1, 32, 1, 2, 3, 4] ++ List.replicate 66 0) 2 0 _ (List.replicate 200 0)
    (Holds.self _) (by simp only [List.length_append, List.length_replicate, List.length_cons, List.length_nil]) zeros200
  rw [h2] at hl
  refine ⟨a, h1, ?_⟩
  rw [Fips202.absorb, ← Except.ok.inj hl]
  simpa using h

/-- With a longer customization it writes behind the array. -/
theorem C38_customize_overflow : customize (permute 24) (List.replicate 126 1) (List.replicate 67 5) 72 (List.replicate 200 0) = .error .ub := by decide +kernel

/-- The same through `KMAC::Initialize`: KMAC512 with a 67 byte name and a 126 byte customization. -/
theorem C38_kmac_overflow : (Kmac.fresh 72 64).initialize (permute 24) (List.replicate 64 1) (List.replicate 126 1) (List.replicate 67 5) = .error .ub := by
  have gen : ∀ (key iv info : List Byte), 16 ≤ key.length → 4 ≤ iv.length → 0 < info.length → customize (permute 24) iv info 72 (List.replicate 200 0) = .error .ub →
      (Kmac.fresh 72 64).initialize (permute 24) key iv info = .error .ub := by
    intro key iv info h1 h2 h3 h
    rw [Kmac.initialize, if_neg (by omega), if_neg (by omega)]
    simp only [Kmac.fresh, Bool.false_eq_true, if_false, if_pos h3, pure_eq_ok, ok_bind, h]
    rfl
  exact gen _ _ _ (by decide) (by decide) (by decide) C38_customize_overflow

/-! ## Known answers -/

/-- `XOFP1600` of the empty string, SHAKE128 (FIPS 202 example values), with the model of the code. -/
theorem shake128_empty : xof (permute 24) [] 0 0 (List.replicate 16 0) 0 16 168 =
    .ok [0x7F, 0x9C, 0x2B, 0xA4, 0xE8, 0x8F, 0x82, 0x7D, 0x61, 0x60, 0x45, 0x50, 0x76, 0x05, 0x85, 0x3E] := by decide +kernel

/-- cSHAKE128 sample 1 of the NIST examples: data `00 01 02 03`, customization "Email Signature". -/
theorem cshake128_sample : cxof (permute 24) [0, 1, 2, 3] [0x45, 0x6D, 0x61, 0x69, 0x6C, 0x20, 0x53, 0x69, 0x67, 0x6E, 0x61, 0x74, 0x75, 0x72, 0x65] [] (List.replicate 32 0) 0 32 168 =
    .ok [0xC1, 0xC3, 0x69, 0x25, 0xB6, 0x40, 0x9A, 0x04, 0xF1, 0xB5, 0x04, 0xFC, 0xBC, 0xA9, 0xD8, 0x2B, 0x40, 0x17, 0x27, 0x7C, 0xB5, 0xED, 0x2B, 0x20, 0x65, 0xFC, 0x1D, 0x38, 0x14,
      0xD5, 0xAA, 0xF5] := by decide +kernel

end Cex.Keccak
