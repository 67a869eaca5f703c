import Verif.Padding.Lemmas

/-!
# Properties C06–C10: block paddings

`msg` is the kept prefix, `junk` the bytes the padder overwrites, `rest` bytes of the array beyond `Length`.
-/

namespace Cex.Padding
open Cex Cex.IntTools

/-- A padder is correct for the pad string `pad`: it overwrites exactly `[Offset, Length)` with
`pad (Length - Offset)` and refuses a `Length` beyond the array. -/
def PadsWith (add : List Byte → Nat → Nat → M (List Byte)) (pad : Nat → List Byte) : Prop :=
  (∀ msg junk rest, junk ≠ [] →
    add (msg ++ junk ++ rest) msg.length (msg.length + junk.length) = .ok (msg ++ pad junk.length ++ rest)) ∧
  (∀ inp off len, inp.length < len → add inp off len = .error (.throws .invalidSize))

theorem replicate_eq_map_range {α : Type} (n : Nat) (v : α) : List.replicate n v = (List.range n).map (fun _ => v) := by
  rw [List.map_const', List.length_range]

theorem C06_pkcs7_add : PadsWith pkcs7Add pkcs7Pad := by
  constructor
  · intro msg junk rest _
    rw [pkcs7Add, if_neg (by simp <;> omega)]
    simp only [Nat.add_sub_cancel_left]
    rw [fill_loop' (fun _ => BitVec.ofNat 8 junk.length) msg junk rest, pkcs7Pad, replicate_eq_map_range]
  · intro inp off len h; simp [pkcs7Add, h]

theorem C07_x923_add : PadsWith x923Add x923Pad := by
  constructor
  · intro msg junk rest hj
    obtain ⟨init, last, rfl⟩ : ∃ i l, junk = i ++ [l] := ⟨_, _, (List.dropLast_concat_getLast hj).symm⟩
    rw [x923Add, if_neg (by simp <;> omega), if_neg (by simp)]
    have e : msg.length + (init ++ [last]).length - 1 - msg.length = init.length := by simp
    rw [e]
    have hf := fill_loop' (fun _ => 0#8) msg init ([last] ++ rest)
    have e2 : msg ++ (init ++ [last]) ++ rest = msg ++ init ++ ([last] ++ rest) := by simp
    rw [e2]
    have hf' : loopN init.length msg.length (fun i b => wr b i 0) (msg ++ init ++ ([last] ++ rest)) =
        .ok (msg ++ (List.range init.length).map (fun _ => 0#8) ++ ([last] ++ rest)) := hf
    rw [hf', ok_bind, ← replicate_eq_map_range]
    have hw : wr ([last] ++ rest) 0 (BitVec.ofNat 8 (msg.length + (init ++ [last]).length - msg.length)) =
      .ok ([BitVec.ofNat 8 (msg.length + (init ++ [last]).length - msg.length)] ++ rest) := rfl
    have := wr_append_right (msg ++ List.replicate init.length 0#8) _ _ 0 _ hw
    simp only [List.length_append, List.length_replicate, Nat.add_zero] at this
    simp only [List.length_singleton] at this
    simp only [List.length_append, List.length_singleton]
    rw [show msg.length + (init.length + 1) - 1 = msg.length + init.length by omega, this]
    simp [x923Pad]
  · intro inp off len h; simp [x923Add, h]

theorem C08_esp_add : PadsWith espAdd espPad := by
  constructor
  · intro msg junk rest _
    rw [espAdd, if_neg (by simp <;> omega), Nat.add_sub_cancel_left]
    have aux : ∀ (n : Nat) (done win : List Byte), win.length = n → ∃ p,
        loopN n (msg.length + done.length) (fun i (s : List Byte × Byte) => do
            let b ← wr s.1 i s.2
            return (b, s.2 + 1)) (msg ++ done ++ win ++ rest, BitVec.ofNat 8 (done.length + 1)) =
          .ok (msg ++ done ++ (List.range n).map (fun i => BitVec.ofNat 8 (done.length + i + 1)) ++ rest, p) := by
      intro n
      induction n with
      | zero =>
        intro done win h
        have : win = [] := by simpa using h
        subst this; exact ⟨_, by simp [loopN]; rfl⟩
      | succ n ih =>
        intro done win h
        cases win with
        | nil => simp at h
        | cons x win =>
          have hw : ∀ v, wr (msg ++ done ++ (x :: win) ++ rest) (msg.length + done.length) v =
              .ok (msg ++ (done ++ [v]) ++ win ++ rest) := by
            intro v
            have : wr ([x] ++ win ++ rest) 0 v = .ok ([v] ++ win ++ rest) := rfl
            have := wr_append_right (msg ++ done) _ _ 0 v this
            simpa using this
          obtain ⟨p, hp⟩ := ih (done ++ [BitVec.ofNat 8 (done.length + 1)]) win (by simpa using h)
          refine ⟨p, ?_⟩
          simp only [loopN, hw, ok_bind, pure_eq_ok]
          rw [List.length_append, List.length_singleton, ← Nat.add_assoc] at hp
          have e1 : BitVec.ofNat 8 (done.length + 1) + 1 = BitVec.ofNat 8 (done.length + 1 + 1) := by
            rw [BitVec.ofNat_add (done.length + 1)]; rfl
          simp only [pure_eq_ok] at hp
          rw [e1, hp, List.range_succ_eq_map]
          simp [Nat.add_assoc, Nat.add_comm 1]
    obtain ⟨p, hp⟩ := aux junk.length [] junk rfl
    simp only [List.length_nil, Nat.add_zero, Nat.zero_add, List.append_nil] at hp
    have e0 : BitVec.ofNat 8 1 = (1 : Byte) := rfl
    rw [e0] at hp
    rw [hp]
    simp [espPad]
  · intro inp off len h; simp [espAdd, h]

theorem C09_zeroOne_add : PadsWith zeroOneAdd zeroOnePad := by
  constructor
  · intro msg junk rest hj
    cases junk with
    | nil => exact absurd rfl hj
    | cons x junk =>
      rw [zeroOneAdd, if_neg (by simp <;> omega)]
      have hw : wr (msg ++ (x :: junk) ++ rest) msg.length 0x80 = .ok (msg ++ [0x80] ++ junk ++ rest) := by
        have : wr ([x] ++ junk ++ rest) 0 0x80 = .ok ([0x80] ++ junk ++ rest) := rfl
        have := wr_append_right msg _ _ 0 0x80 this
        simpa using this
      rw [hw, ok_bind]
      simp only [List.length_cons, if_neg (show ¬ msg.length + (junk.length + 1) = 0 by omega)]
      have hcnt : (if (msg.length + 1) % (msg.length + (junk.length + 1)) = 0 then 0
          else msg.length + (junk.length + 1) - (msg.length + 1) % (msg.length + (junk.length + 1))) = junk.length := by
        by_cases h0 : junk.length = 0
        · rw [h0]; simp
        · rw [Nat.mod_eq_of_lt (by omega), if_neg (by omega)]; omega
      rw [hcnt]
      have hf := fill_loop' (fun _ => 0#8) (msg ++ [0x80]) junk rest
      rw [List.length_append, List.length_singleton] at hf
      have hf' : loopN junk.length (msg.length + 1) (fun i b => wr b i 0) (msg ++ [0x80] ++ junk ++ rest) =
        .ok (msg ++ [0x80] ++ (List.range junk.length).map (fun _ => 0#8) ++ rest) := hf
      show (loopN junk.length (msg.length + 1) (fun i b => wr b i 0) (msg ++ [0x80] ++ junk ++ rest) : M _) = _
      rw [hf', ← replicate_eq_map_range]
      simp [zeroOnePad]
  · intro inp off len h; simp [zeroOneAdd, h]

/-! ## Round trips -/

theorem ofNat8_toNat {n : Nat} (h : n ≤ 255) : (BitVec.ofNat 8 n).toNat = n := by
  rw [BitVec.toNat_ofNat, Nat.mod_eq_of_lt (by omega)]

/-- C06: a PKCS7-padded array gives back the message length, for the whole-array reader and the
`(Input, Offset, Length)` reader. Needs a padded length of at least 2 and at most 255 pad bytes. -/
theorem C06_pkcs7_roundtrip (msg rest : List Byte) (n off : Nat) (h1 : 1 ≤ n) (h255 : n ≤ 255)
    (h2 : 2 ≤ msg.length + n) (h64 : msg.length + n < 2 ^ 64) (hoff : off ≤ msg.length + n - 2) :
    pkcs7GetAt (msg ++ pkcs7Pad n ++ rest) off (msg.length + n) = .ok (BitVec.ofNat 64 msg.length) ∧
    pkcs7Get (msg ++ pkcs7Pad n) = .ok (BitVec.ofNat 64 msg.length) := by
  have key : ∀ rest off, off ≤ msg.length + n - 2 →
      pkcs7Core (msg ++ pkcs7Pad n ++ rest) off (msg.length + n) = .ok (BitVec.ofNat 64 msg.length) := by
    intro rest off hoff
    have hel : ∀ c, msg.length ≤ c → c < msg.length + n → (msg ++ pkcs7Pad n ++ rest)[c]? = some (BitVec.ofNat 8 n) := by
      intro c hc1 hc2
      rw [List.append_assoc, List.getElem?_append_right hc1, List.getElem?_append_left (by simp [pkcs7Pad] <;> omega)]
      simp [pkcs7Pad, List.getElem?_replicate] <;> omega
    obtain ⟨r, g1, g2⟩ := pkcs7Core_eq (msg ++ pkcs7Pad n ++ rest) off (msg.length + n) h2
      (by simp [pkcs7Pad] <;> omega) hoff h64 (BitVec.ofNat 8 n) (hel _ (by omega) (by omega))
    rw [ofNat8_toNat h255] at g2
    rcases g2 with ⟨_, _, h⟩ | ⟨h, _⟩
    · rw [g1, h]; congr 2; omega
    · exact absurd ⟨by omega, fun c _ hc2 hc3 => hel c (by omega) (by omega)⟩ h
  constructor
  · rw [pkcs7GetAt, if_neg (by simp [pkcs7Pad] <;> omega), key rest off hoff]
  · have := key [] 0 (by omega)
    rw [List.append_nil] at this
    rw [pkcs7Get, List.length_append, show (pkcs7Pad n).length = n by simp [pkcs7Pad], this]

theorem C07_x923_roundtrip (msg rest : List Byte) (n off : Nat) (h1 : 1 ≤ n) (h255 : n ≤ 255)
    (h2 : 2 ≤ msg.length + n) (h64 : msg.length + n < 2 ^ 64) (hoff : off ≤ msg.length + n - 2) :
    x923GetAt (msg ++ x923Pad n ++ rest) off (msg.length + n) = .ok (BitVec.ofNat 64 msg.length) ∧
    x923Get (msg ++ x923Pad n) = .ok (BitVec.ofNat 64 msg.length) := by
  have hpl : (x923Pad n).length = n := by simp [x923Pad]; omega
  have key : ∀ rest off, off ≤ msg.length + n - 2 →
      x923Core (msg ++ x923Pad n ++ rest) off (msg.length + n) = .ok (BitVec.ofNat 64 msg.length) := by
    intro rest off hoff
    have hel : ∀ c, msg.length ≤ c → c < msg.length + n - 1 → (msg ++ x923Pad n ++ rest)[c]? = some 0 := by
      intro c hc1 hc2
      rw [List.append_assoc, List.getElem?_append_right hc1, List.getElem?_append_left (by omega), x923Pad,
        List.getElem?_append_left (by simp <;> omega)]
      simp [List.getElem?_replicate] <;> omega
    have hlast : (msg ++ x923Pad n ++ rest)[msg.length + n - 1]? = some (BitVec.ofNat 8 n) := by
      rw [List.append_assoc, List.getElem?_append_right (by omega), List.getElem?_append_left (by omega), x923Pad,
        List.getElem?_append_right (by simp <;> omega)]
      simp [show msg.length + n - 1 - msg.length - (n - 1) = 0 by omega]
    obtain ⟨r, g1, g2⟩ := x923Core_eq (msg ++ x923Pad n ++ rest) off (msg.length + n) h2
      (by simp [hpl] <;> omega) hoff h64 (BitVec.ofNat 8 n) hlast
    rw [ofNat8_toNat h255] at g2
    rcases g2 with ⟨_, _, h⟩ | ⟨h, _⟩
    · rw [g1, h]; congr 2; omega
    · exact absurd ⟨by omega, fun c _ hc2 hc3 => hel c (by omega) (by omega)⟩ h
  constructor
  · rw [x923GetAt, if_neg (by simp [hpl] <;> omega), key rest off hoff]
  · have := key [] 0 (by omega)
    rw [List.append_nil] at this
    rw [x923Get, List.length_append, hpl, this]

theorem espPad_getElem? {n i : Nat} (h : i < n) : (espPad n)[i]? = some (BitVec.ofNat 8 (i + 1)) := by
  simp [espPad, h]

theorem C08_esp_roundtrip (msg rest : List Byte) (n off : Nat) (h1 : 1 ≤ n) (h255 : n ≤ 255)
    (h64 : msg.length + n < 2 ^ 64) (hoff : off ≤ msg.length + n - 1) :
    espGetAt (msg ++ espPad n ++ rest) off (msg.length + n) = .ok (BitVec.ofNat 64 msg.length) ∧
    espGet (msg ++ espPad n) = .ok (BitVec.ofNat 64 msg.length) := by
  have hpl : (espPad n).length = n := by simp [espPad]
  have key : ∀ rest off, off ≤ msg.length + n - 1 →
      espCore (msg ++ espPad n ++ rest) off (msg.length + n) = .ok (BitVec.ofNat 64 msg.length) := by
    intro rest off hoff
    have hel : ∀ c, msg.length ≤ c → c < msg.length + n →
        (msg ++ espPad n ++ rest)[c]? = some (BitVec.ofNat 8 (c - msg.length + 1)) := by
      intro c hc1 hc2
      rw [List.append_assoc, List.getElem?_append_right hc1, List.getElem?_append_left (by omega),
        espPad_getElem? (by omega)]
    obtain ⟨r, g1, g2⟩ := espCore_eq (msg ++ espPad n ++ rest) off (msg.length + n) (by omega)
      (by simp [hpl] <;> omega) hoff h64 (BitVec.ofNat 8 n)
      (by rw [hel _ (by omega) (by omega)]; congr 2; omega)
    rw [ofNat8_toNat h255] at g2
    rcases g2 with ⟨_, _, h⟩ | ⟨h, _⟩
    · rw [g1, h]; congr 2; omega
    · refine absurd ⟨by omega, fun c _ hc2 hc3 => ?_⟩ h
      rw [hel c (by omega) (by omega), hel (c - 1) (by omega) (by omega)]
      simp only [Option.map_some, Option.some.injEq]
      rw [show c - msg.length + 1 = (c - 1 - msg.length + 1) + 1 by omega, BitVec.ofNat_add (c - 1 - msg.length + 1)]
      exact (BitVec.add_sub_cancel _ _).symm
  constructor
  · rw [espGetAt, if_neg (by simp [hpl] <;> omega), key rest off hoff]
  · have := key [] 0 (by omega)
    rw [List.append_nil] at this
    rw [espGet, List.length_append, hpl, this]

/-- C09: no bound on the number of pad bytes. -/
theorem C09_zeroOne_roundtrip (msg rest : List Byte) (n off : Nat) (h1 : 1 ≤ n) (hoff : off ≤ msg.length) :
    zeroOneGetAt (msg ++ zeroOnePad n ++ rest) off (msg.length + n) = .ok (BitVec.ofNat 64 msg.length) ∧
    zeroOneGet (msg ++ zeroOnePad n) = .ok (BitVec.ofNat 64 msg.length) := by
  have hpl : (zeroOnePad n).length = n := by simp [zeroOnePad]; omega
  have key : ∀ rest off, off ≤ msg.length →
      zeroOneCore (msg ++ zeroOnePad n ++ rest) off (msg.length + n) = .ok (BitVec.ofNat 64 msg.length) := by
    intro rest off hoff
    have hel : ∀ c, msg.length < c → c < msg.length + n → (msg ++ zeroOnePad n ++ rest)[c]? = some 0 := by
      intro c hc1 hc2
      rw [List.append_assoc, List.getElem?_append_right (by omega), List.getElem?_append_left (by omega), zeroOnePad,
        show c - msg.length = (c - msg.length - 1) + 1 by omega, List.getElem?_cons_succ]
      simp [List.getElem?_replicate] <;> omega
    have hm : (msg ++ zeroOnePad n ++ rest)[msg.length]? = some 0x80 := by
      simp [zeroOnePad]
    have hmark : MarkerAt (msg ++ zeroOnePad n ++ rest) (msg.length + n) msg.length := ⟨by omega, hm, hel⟩
    obtain ⟨r, g1, g2⟩ := zeroOneCore_eq (msg ++ zeroOnePad n ++ rest) off (msg.length + n) (by omega)
      (by simp [hpl] <;> omega)
    rcases g2 with ⟨i, _, hi, hr⟩ | ⟨h, _⟩
    · have : i = msg.length := by
        rcases Nat.lt_trichotomy i msg.length with h | h | h
        · have := hi.2.2 msg.length h (by omega); rw [hm] at this; cases this
        · exact h
        · have := hel i h hi.1; rw [hi.2.1] at this; cases this
      rw [g1, hr, this]
    · exact absurd ⟨_, hoff, hmark⟩ h
  constructor
  · rw [zeroOneGetAt, if_neg (by simp [hpl] <;> omega), key rest off hoff]
  · have := key [] 0 (by omega)
    rw [List.append_nil] at this
    rw [zeroOneGet, List.length_append, hpl, this]

/-! End-to-end forms: pad, then ask for the length. -/

theorem C06_pkcs7_end_to_end (msg junk : List Byte) (h1 : junk ≠ []) (h255 : junk.length ≤ 255)
    (h2 : 2 ≤ msg.length + junk.length) (h64 : msg.length + junk.length < 2 ^ 64) :
    ∃ p, pkcs7Add (msg ++ junk) msg.length (msg ++ junk).length = .ok p ∧ p.length = (msg ++ junk).length ∧
      p.take msg.length = msg ∧ pkcs7Get p = .ok (BitVec.ofNat 64 msg.length) := by
  have h := C06_pkcs7_add.1 msg junk [] h1
  have hl := List.length_pos_iff.mpr h1
  refine ⟨msg ++ pkcs7Pad junk.length, by simpa using h, by simp [pkcs7Pad], by simp, ?_⟩
  exact (C06_pkcs7_roundtrip msg [] junk.length 0 hl h255 h2 h64 (by omega)).2

theorem C07_x923_end_to_end (msg junk : List Byte) (h1 : junk ≠ []) (h255 : junk.length ≤ 255)
    (h2 : 2 ≤ msg.length + junk.length) (h64 : msg.length + junk.length < 2 ^ 64) :
    ∃ p, x923Add (msg ++ junk) msg.length (msg ++ junk).length = .ok p ∧ p.length = (msg ++ junk).length ∧
      p.take msg.length = msg ∧ x923Get p = .ok (BitVec.ofNat 64 msg.length) := by
  have h := C07_x923_add.1 msg junk [] h1
  have hl := List.length_pos_iff.mpr h1
  refine ⟨msg ++ x923Pad junk.length, by simpa using h, by simp [x923Pad]; omega, by simp, ?_⟩
  exact (C07_x923_roundtrip msg [] junk.length 0 hl h255 h2 h64 (by omega)).2

theorem C08_esp_end_to_end (msg junk : List Byte) (h1 : junk ≠ []) (h255 : junk.length ≤ 255)
    (h64 : msg.length + junk.length < 2 ^ 64) :
    ∃ p, espAdd (msg ++ junk) msg.length (msg ++ junk).length = .ok p ∧ p.length = (msg ++ junk).length ∧
      p.take msg.length = msg ∧ espGet p = .ok (BitVec.ofNat 64 msg.length) := by
  have h := C08_esp_add.1 msg junk [] h1
  have hl := List.length_pos_iff.mpr h1
  refine ⟨msg ++ espPad junk.length, by simpa using h, by simp [espPad], by simp, ?_⟩
  exact (C08_esp_roundtrip msg [] junk.length 0 hl h255 h64 (by omega)).2

theorem C09_zeroOne_end_to_end (msg junk : List Byte) (h1 : junk ≠ []) :
    ∃ p, zeroOneAdd (msg ++ junk) msg.length (msg ++ junk).length = .ok p ∧ p.length = (msg ++ junk).length ∧
      p.take msg.length = msg ∧ zeroOneGet p = .ok (BitVec.ofNat 64 msg.length) := by
  have h := C09_zeroOne_add.1 msg junk [] h1
  have hl := List.length_pos_iff.mpr h1
  refine ⟨msg ++ zeroOnePad junk.length, by simpa using h, by simp [zeroOnePad]; omega, by simp, ?_⟩
  exact (C09_zeroOne_roundtrip msg [] junk.length 0 hl (by omega)).2

example : pkcs7Add [1, 2, 9, 9] 2 4 = .ok [1, 2, 2, 2] ∧ pkcs7Get [1, 2, 2, 2] = .ok 2 := by decide
example : x923Add [1, 2, 9, 9] 1 4 = .ok [1, 0, 0, 3] ∧ x923Get [1, 0, 0, 3] = .ok 1 := by decide
example : espAdd [1, 2, 9, 9] 1 4 = .ok [1, 1, 2, 3] ∧ espGet [1, 1, 2, 3] = .ok 1 := by decide
example : zeroOneAdd [0x80, 2, 9, 9] 1 4 = .ok [0x80, 0x80, 0, 0] ∧ zeroOneGet [0x80, 0x80, 0, 0] = .ok 1 := by decide

/-- 256 pad bytes (possible with a 256-byte or larger block) do not round-trip under PKCS7: the pad
byte is 0 and the reader reports the whole block. -/
theorem C06_pkcs7_256_false (junk : List Byte) (hj : junk.length = 256) :
    ∃ p, pkcs7Add junk 0 256 = .ok p ∧ pkcs7Get p = .ok 256 := by
  have hl : ∀ n, (pkcs7Pad n).length = n := fun n => by simp only [pkcs7Pad, List.length_replicate]
  refine ⟨pkcs7Pad junk.length, ?_, ?_⟩
  · have := C06_pkcs7_add.1 [] junk [] (by intro h; rw [h] at hj; cases hj)
    simp only [List.nil_append, List.append_nil, List.length_nil, Nat.zero_add] at this
    rw [← this, hj]
  · have h : (pkcs7Pad junk.length)[junk.length - 1]? = some 0 := by
      rw [pkcs7Pad, List.getElem?_replicate, if_pos (by omega), hj]; rfl
    obtain ⟨r, g1, g2⟩ := pkcs7Core_eq (pkcs7Pad junk.length) 0 junk.length (by omega) (by rw [hl]; exact Nat.le_refl _)
      (by omega) (by omega) 0 h
    rw [pkcs7Get, hl, g1]
    have h0 : (0 : Byte).toNat = 0 := rfl
    rcases g2 with ⟨_, _, h⟩ | ⟨_, h⟩
    · rw [h, h0, Nat.sub_zero, hj]; rfl
    · rw [h, hj]; rfl

/-! ## C10: malformed padding -/

/-- ESP: anything that is not `message ++ pad` is reported as unpadded (the whole length). -/
theorem C10_esp_rejects (blk : List Byte) (hne : blk ≠ []) (h64 : blk.length < 2 ^ 64) :
    ∃ k : Nat, espGet blk = .ok (BitVec.ofNat 64 k) ∧
      ((k = blk.length ∧ ¬ ∃ msg n, 1 ≤ n ∧ n ≤ 255 ∧ blk = msg ++ espPad n) ∨
       (k < blk.length ∧ ∃ msg n, 1 ≤ n ∧ n ≤ 255 ∧ blk = msg ++ espPad n ∧ k = msg.length)) := by
  have hpos := List.length_pos_iff.mpr hne
  obtain ⟨fnl, hf⟩ : ∃ f, blk[blk.length - 1]? = some f := ⟨_, List.getElem?_eq_getElem (by omega)⟩
  obtain ⟨r, g1, g2⟩ := espCore_eq blk 0 blk.length (by omega) (Nat.le_refl _) (by omega) h64 fnl hf
  have hfl : fnl.toNat < 256 := fnl.isLt
  by_cases hform : ∃ msg n, 1 ≤ n ∧ n ≤ 255 ∧ blk = msg ++ espPad n
  · obtain ⟨msg, n, h1, h2, rfl⟩ := hform
    have hl : (msg ++ espPad n).length = msg.length + n := by simp [espPad]
    refine ⟨msg.length, (C08_esp_roundtrip msg [] n 0 h1 h2 (by omega) (by omega)).2, Or.inr ⟨by omega, msg, n, h1, h2, rfl, rfl⟩⟩
  · refine ⟨blk.length, ?_, Or.inl ⟨rfl, hform⟩⟩
    rw [espGet, g1]
    rcases g2 with ⟨hle, hall, hr⟩ | ⟨_, hr⟩
    · by_cases hz : fnl.toNat = 0
      · rw [hr, hz, Nat.sub_zero]
      · exfalso
        apply hform
        refine ⟨blk.take (blk.length - fnl.toNat), fnl.toNat, by omega, by omega, ?_⟩
        -- from the end: blk[len-1-j] = fnl - j
        have hback : ∀ j, j < fnl.toNat → blk[blk.length - 1 - j]? = some (BitVec.ofNat 8 (fnl.toNat - j)) := by
          intro j
          induction j with
          | zero => intro _; rw [Nat.sub_zero, hf, Nat.sub_zero, BitVec.ofNat_toNat]; simp
          | succ j ih =>
            intro hj
            have := hall (blk.length - 1 - j) (by omega) (by omega) (by omega)
            rw [show blk.length - 1 - j - 1 = blk.length - 1 - (j + 1) by omega, ih (by omega)] at this
            rw [this]
            simp only [Option.map_some, Option.some.injEq]
            rw [show fnl.toNat - j = (fnl.toNat - (j + 1)) + 1 by omega, BitVec.ofNat_add]
            exact BitVec.add_sub_cancel _ _
        apply List.ext_getElem?
        intro i
        by_cases h1 : i < blk.length - fnl.toNat
        · rw [List.getElem?_append_left (by simp <;> omega), List.getElem?_take_of_lt h1]
        · rw [List.getElem?_append_right (by simp <;> omega)]
          simp only [List.length_take]
          rw [Nat.min_eq_left (by omega)]
          by_cases h2 : i < blk.length
          · rw [espPad_getElem? (by omega)]
            have := hback (blk.length - 1 - i) (by omega)
            rw [show blk.length - 1 - (blk.length - 1 - i) = i by omega] at this
            rw [this]; congr 2; omega
          · rw [List.getElem?_eq_none (by omega), List.getElem?_eq_none (by simp [espPad] <;> omega)]
    · rw [hr]

/-- ISO 7816-4: exact, for every array (even empty). -/
theorem C10_zeroOne_rejects (blk : List Byte) :
    ∃ k : Nat, zeroOneGet blk = .ok (BitVec.ofNat 64 k) ∧
      ((k = blk.length ∧ ¬ ∃ msg n, 1 ≤ n ∧ blk = msg ++ zeroOnePad n) ∨
       (k < blk.length ∧ ∃ msg n, 1 ≤ n ∧ blk = msg ++ zeroOnePad n ∧ k = msg.length)) := by
  obtain ⟨r, g1, g2⟩ := zeroOneCore_eq blk 0 blk.length (by omega) (Nat.le_refl _)
  rcases g2 with ⟨i, _, hi, hr⟩ | ⟨h, hr⟩
  · refine ⟨i, by rw [zeroOneGet, g1, hr], Or.inr ⟨hi.1, blk.take i, blk.length - i, by have := hi.1; omega, ?_, ?_⟩⟩
    · have hlt := hi.1
      apply List.ext_getElem?
      intro j
      by_cases h1 : j < i
      · rw [List.getElem?_append_left (by simp <;> omega), List.getElem?_take_of_lt h1]
      · rw [List.getElem?_append_right (by simp <;> omega)]
        simp only [List.length_take]
        rw [Nat.min_eq_left (by omega)]
        by_cases h2 : j = i
        · subst h2; rw [hi.2.1]; simp [zeroOnePad]
        · by_cases h3 : j < blk.length
          · rw [hi.2.2 j (by omega) h3, zeroOnePad, show j - i = (j - i - 1) + 1 by omega, List.getElem?_cons_succ]
            simp [List.getElem?_replicate] <;> omega
          · rw [List.getElem?_eq_none (by omega), List.getElem?_eq_none (by simp [zeroOnePad] <;> omega)]
    · have := hi.1
      simp; omega
  · refine ⟨blk.length, by rw [zeroOneGet, g1, hr], Or.inl ⟨rfl, ?_⟩⟩
    rintro ⟨msg, n, h1, rfl⟩
    apply h
    refine ⟨msg.length, by omega, by simp [zeroOnePad], by simp [zeroOnePad], ?_⟩
    intro j h2 h3
    simp [zeroOnePad] at h3
    rw [List.getElem?_append_right (by omega), zeroOnePad, show j - msg.length = (j - msg.length - 1) + 1 by omega,
      List.getElem?_cons_succ]
    simp [List.getElem?_replicate] <;> omega

/-- PKCS7: the reader always answers with some length; whenever the answer is a proper non-empty
message length, the array really is `message ++ pad`. Missing for the full property: the answer 0
(whole array is padding) is given without looking at byte 0, see `C10_pkcs7_false`. -/
theorem C10_pkcs7_rejects_partial (blk : List Byte) (h2 : 2 ≤ blk.length) (h64 : blk.length < 2 ^ 64) :
    ∃ k : Nat, pkcs7Get blk = .ok (BitVec.ofNat 64 k) ∧ k ≤ blk.length ∧
      (0 < k → k < blk.length → ∃ msg n, 1 ≤ n ∧ n ≤ 255 ∧ blk = msg ++ pkcs7Pad n ∧ k = msg.length) ∧
      (k = 0 → ∃ b, blk = b :: (pkcs7Pad blk.length).tail ∧ blk.length ≤ 255) := by
  obtain ⟨fnl, hf⟩ : ∃ f, blk[blk.length - 1]? = some f := ⟨_, List.getElem?_eq_getElem (by omega)⟩
  obtain ⟨r, g1, g2⟩ := pkcs7Core_eq blk 0 blk.length h2 (Nat.le_refl _) (by omega) h64 fnl hf
  have hfl : fnl.toNat < 256 := fnl.isLt
  have hof : BitVec.ofNat 8 fnl.toNat = fnl := by simp
  rcases g2 with ⟨hle, hall, hr⟩ | ⟨_, hr⟩
  · have hel : ∀ c, 0 < c → blk.length - fnl.toNat ≤ c → c < blk.length → blk[c]? = some fnl := by
      intro c h0 h1 h3
      by_cases hc : c = blk.length - 1
      · rw [hc, hf]
      · exact hall c h0 (by omega) h1
    refine ⟨blk.length - fnl.toNat, by rw [pkcs7Get, g1, hr], by omega, ?_, ?_⟩
    · intro hk hlt
      refine ⟨blk.take (blk.length - fnl.toNat), fnl.toNat, by omega, by omega, ?_, by simp⟩
      apply List.ext_getElem?
      intro i
      by_cases h1 : i < blk.length - fnl.toNat
      · rw [List.getElem?_append_left (by simp <;> omega), List.getElem?_take_of_lt h1]
      · rw [List.getElem?_append_right (by simp <;> omega)]
        simp only [List.length_take, pkcs7Pad, List.getElem?_replicate]
        by_cases h3 : i < blk.length
        · rw [hel i (by omega) (by omega) h3, hof, if_pos (by omega)]
        · rw [List.getElem?_eq_none (by omega), if_neg (by omega)]
    · intro hk
      have hlen : fnl.toNat = blk.length := by omega
      cases blk with
      | nil => simp at h2
      | cons b t =>
        refine ⟨b, ?_, by omega⟩
        congr 1
        apply List.ext_getElem?
        intro i
        have e : (pkcs7Pad (b :: t).length).tail = List.replicate t.length fnl := by
          simp only [pkcs7Pad, List.length_cons, List.replicate_succ, List.tail_cons]
          rw [← hof, hlen]; rfl
        rw [e, List.getElem?_replicate]
        by_cases hi : i < t.length
        · have := hel (i + 1) (by omega) (by omega) (by simp <;> omega)
          rw [List.getElem?_cons_succ] at this
          rw [this, if_pos hi]
        · rw [List.getElem?_eq_none (by omega), if_neg hi]
  · exact ⟨blk.length, by rw [pkcs7Get, g1, hr], Nat.le_refl _, fun _ h => absurd h (by omega), fun h => by omega⟩

/-- The full rejection property fails for PKCS7: `[9, 2]` is not a padded block but is read as an
empty message. -/
theorem C10_pkcs7_false :
    ∃ blk : List Byte, pkcs7Get blk = .ok 0 ∧ ¬ ∃ msg n, 1 ≤ n ∧ blk = msg ++ pkcs7Pad n ∧ msg.length = 0 := by
  refine ⟨[9, 2], by decide, ?_⟩
  rintro ⟨msg, n, h1, h2, h3⟩
  have hm : msg = [] := List.length_eq_zero_iff.mp h3
  subst hm
  have hl := congrArg List.length h2
  simp [pkcs7Pad] at hl
  subst hl
  exact absurd h2 (by decide)

theorem C10_x923_rejects_partial (blk : List Byte) (h2 : 2 ≤ blk.length) (h64 : blk.length < 2 ^ 64) :
    ∃ k : Nat, x923Get blk = .ok (BitVec.ofNat 64 k) ∧ k ≤ blk.length ∧
      (0 < k → k < blk.length → ∃ msg n, 1 ≤ n ∧ n ≤ 255 ∧ blk = msg ++ x923Pad n ∧ k = msg.length) ∧
      (k = 0 → ∃ b, blk = b :: (x923Pad blk.length).tail ∧ blk.length ≤ 255) := by
  obtain ⟨fnl, hf⟩ : ∃ f, blk[blk.length - 1]? = some f := ⟨_, List.getElem?_eq_getElem (by omega)⟩
  obtain ⟨r, g1, g2⟩ := x923Core_eq blk 0 blk.length h2 (Nat.le_refl _) (by omega) h64 fnl hf
  have hfl : fnl.toNat < 256 := fnl.isLt
  have hof : BitVec.ofNat 8 fnl.toNat = fnl := by simp
  rcases g2 with ⟨hle, hall, hr⟩ | ⟨_, hr⟩
  · refine ⟨blk.length - fnl.toNat, by rw [x923Get, g1, hr], by omega, ?_, ?_⟩
    · intro hk hlt
      refine ⟨blk.take (blk.length - fnl.toNat), fnl.toNat, by omega, by omega, ?_, by simp⟩
      apply List.ext_getElem?
      intro i
      by_cases h1 : i < blk.length - fnl.toNat
      · rw [List.getElem?_append_left (by simp <;> omega), List.getElem?_take_of_lt h1]
      · rw [List.getElem?_append_right (by simp <;> omega)]
        simp only [List.length_take]
        rw [Nat.min_eq_left (by omega), x923Pad]
        by_cases h3 : i < blk.length - 1
        · rw [hall i (by omega) (by omega) (by omega), List.getElem?_append_left (by simp <;> omega), List.getElem?_replicate,
            if_pos (by omega)]
        · by_cases h4 : i = blk.length - 1
          · rw [h4, hf, List.getElem?_append_right (by simp <;> omega), hof]
            simp [show blk.length - 1 - (blk.length - fnl.toNat) - (fnl.toNat - 1) = 0 by omega]
          · rw [List.getElem?_eq_none (by omega), List.getElem?_eq_none (by simp <;> omega)]
    · intro hk
      have hlen : fnl.toNat = blk.length := by omega
      cases blk with
      | nil => simp at h2
      | cons b t =>
        refine ⟨b, ?_, by omega⟩
        congr 1
        apply List.ext_getElem?
        intro i
        have ht : 1 ≤ t.length := by simp at h2; omega
        have e : (x923Pad (b :: t).length).tail = List.replicate (t.length - 1) 0 ++ [fnl] := by
          simp only [x923Pad, List.length_cons, Nat.add_sub_cancel]
          rw [List.length_cons] at hlen
          rw [← hlen, hof]
          obtain ⟨m, hm⟩ : ∃ m, t.length = m + 1 := ⟨t.length - 1, by omega⟩
          rw [hm, List.replicate_succ]; simp
        rw [e]
        by_cases hi : i < t.length - 1
        · have := hall (i + 1) (by omega) (by simp <;> omega) (by omega)
          rw [List.getElem?_cons_succ] at this
          rw [this, List.getElem?_append_left (by simp <;> omega), List.getElem?_replicate, if_pos hi]
        · by_cases hi2 : i = t.length - 1
          · have hf' := hf
            rw [show (b :: t).length - 1 = (t.length - 1) + 1 by simp; omega, List.getElem?_cons_succ] at hf'
            rw [hi2, hf', List.getElem?_append_right (by simp)]
            simp
          · rw [List.getElem?_eq_none (by omega), List.getElem?_eq_none (by simp <;> omega)]
  · exact ⟨blk.length, by rw [x923Get, g1, hr], Nat.le_refl _, fun _ h => absurd h (by omega), fun h => by omega⟩

theorem C10_x923_false :
    ∃ blk : List Byte, x923Get blk = .ok 0 ∧ ¬ ∃ msg n, 1 ≤ n ∧ blk = msg ++ x923Pad n ∧ msg.length = 0 := by
  refine ⟨[9, 2], by decide, ?_⟩
  rintro ⟨msg, n, h1, h2, h3⟩
  have hm : msg = [] := List.length_eq_zero_iff.mp h3
  subst hm
  have hl := congrArg List.length h2
  simp [x923Pad] at hl
  have : n = 2 := by omega
  subst this
  exact absurd h2 (by decide)

/-- Arrays shorter than two bytes make the PKCS7 and X9.23 readers run out of range. -/
theorem C10_short_ub (b : Byte) :
    pkcs7Get [] = .error .ub ∧ pkcs7Get [b] = .error .ub ∧ x923Get [] = .error .ub ∧ x923Get [b] = .error .ub ∧
    espGet [] = .error .ub := by
  refine ⟨rfl, rfl, rfl, rfl, rfl⟩

end Cex.Padding
