import Mathlib.Tactic.Ring
import Verif.Stream
import Verif.IntTools.Enc

/-!
# Packing numbers of `d` bits into bytes

The specification (`encode`, `decode`), the loops that pack and unpack group by group, shared by the models of Kyber and Dilithium,
and what they do when one group is handled correctly.
-/

namespace Cex.Spec.Lattice
open Cex

/-- The number with digits `cs` to base `2 ^ d`, least significant first. -/
def digits (d : Nat) : List Nat → Nat
  | [] => 0
  | c :: cs => c + 2 ^ d * digits d cs

/-- The `d`-bit numbers `cs`, one after another, in bytes. -/
def encode (d : Nat) (cs : List Nat) : List Byte := leEnc (d * cs.length / 8) (digits d cs)

/-- The first `n` numbers of `d` bits in a byte string. -/
def decode (d n : Nat) (bs : List Byte) : List Nat := (List.range n).map fun i => leVal bs / 2 ^ (d * i) % 2 ^ d

end Cex.Spec.Lattice

namespace Cex.Lattice
open Cex Cex.Spec.Lattice

theorem digits_append (d : Nat) (a b : List Nat) : digits d (a ++ b) = digits d a + 2 ^ (d * a.length) * digits d b := by
  induction a with
  | nil => simp [digits]
  | cons c a ih => rw [List.cons_append, digits, digits, ih, List.length_cons]; ring

theorem digits_lt {d : Nat} : ∀ {a : List Nat}, (∀ c ∈ a, c < 2 ^ d) → digits d a < 2 ^ (d * a.length)
  | [], _ => by simp [digits]
  | c :: a, h => by
    have h1 := h c (by simp)
    have h2 := digits_lt (a := a) fun c hc => h c (by simp [hc])
    rw [digits, List.length_cons, Nat.mul_add, Nat.pow_add, Nat.mul_one, Nat.mul_comm (2 ^ (d * a.length))]
    calc c + 2 ^ d * digits d a < 2 ^ d + 2 ^ d * digits d a := by omega
      _ = 2 ^ d * (digits d a + 1) := by ring
      _ ≤ 2 ^ d * 2 ^ (d * a.length) := Nat.mul_le_mul_left _ h2

theorem digits_get {d : Nat} : ∀ {a : List Nat} {i c : Nat}, (∀ c ∈ a, c < 2 ^ d) → a[i]? = some c → digits d a / 2 ^ (d * i) % 2 ^ d = c
  | [], _, _, _, h => by simp at h
  | x :: a, 0, c, hb, h => by
    simp only [List.getElem?_cons_zero, Option.some.injEq] at h
    subst h
    rw [digits, Nat.mul_zero, Nat.pow_zero, Nat.div_one, Nat.add_mul_mod_self_left, Nat.mod_eq_of_lt (hb x (by simp))]
  | x :: a, i + 1, c, hb, h => by
    rw [List.getElem?_cons_succ] at h
    rw [digits, Nat.mul_add, Nat.mul_one, Nat.add_comm (d * i), Nat.pow_add, ← Nat.div_div_eq_div_mul, Nat.add_mul_div_left _ _ (Nat.two_pow_pos d),
      Nat.div_eq_of_lt (hb x (by simp)), Nat.zero_add]
    exact digits_get (fun c hc => hb c (by simp [hc])) h

theorem decode_length (d n : Nat) (bs : List Byte) : (decode d n bs).length = n := by simp [decode]

theorem decode_lt {d n c : Nat} {bs : List Byte} (h : c ∈ decode d n bs) : c < 2 ^ d := by
  simp only [decode, List.mem_map] at h
  obtain ⟨i, _, rfl⟩ := h
  exact Nat.mod_lt _ (Nat.two_pow_pos d)

/-- Decoding is determined by the value of the bytes. -/
theorem decode_eq {d n : Nat} {bs : List Byte} {cs : List Nat} (hl : cs.length = n) (hb : ∀ c ∈ cs, c < 2 ^ d) {x : Nat} (h : leVal bs = digits d cs + 2 ^ (d * n) * x) : decode d n bs = cs := by
  subst hl
  apply List.ext_getElem?
  intro i
  by_cases hi : i < cs.length
  · have e := digits_get hb (List.getElem?_eq_getElem hi)
    rw [List.getElem?_eq_getElem hi, decode, List.getElem?_map, List.getElem?_range hi, Option.map_some, h]
    congr 1
    have hp : cs.length = i + (cs.length - i) := by omega
    have hq : cs.length - i = 1 + (cs.length - i - 1) := by omega
    conv_lhs => rw [hp, Nat.mul_add, Nat.pow_add, Nat.mul_assoc, Nat.add_mul_div_left _ _ (Nat.two_pow_pos _), hq, Nat.mul_add, Nat.pow_add, Nat.mul_one, Nat.mul_assoc, Nat.add_mul_mod_self_left]
    exact e
  · rw [List.getElem?_eq_none (by simpa [decode] using hi), List.getElem?_eq_none (by omega)]

theorem digits_decode (d n : Nat) (bs : List Byte) : digits d (decode d n bs) = leVal bs % 2 ^ (d * n) := by
  induction n with
  | zero => simp [decode, digits, Nat.mod_one]
  | succ n ih =>
    have e : decode d (n + 1) bs = decode d n bs ++ [leVal bs / 2 ^ (d * n) % 2 ^ d] := by simp [decode, List.range_succ]
    rw [e, digits_append, ih, decode_length, digits, digits, Nat.mul_zero, Nat.add_zero, Nat.mul_add, Nat.pow_add, Nat.mul_one, Nat.mod_mul]

/-- Decoding the encoding gives the numbers back. -/
theorem decode_encode {d : Nat} {cs : List Nat} (h8 : d * cs.length % 8 = 0) (hb : ∀ c ∈ cs, c < 2 ^ d) : decode d cs.length (encode d cs) = cs := by
  refine decode_eq rfl hb (x := 0) ?_
  have hp : (256 : Nat) ^ (d * cs.length / 8) = 2 ^ (d * cs.length) := by
    rw [show (256 : Nat) = 2 ^ 8 from rfl, ← Nat.pow_mul]; congr 1; omega
  rw [encode, leVal_leEnc, hp, Nat.mod_eq_of_lt (digits_lt hb)]
  rfl

/-- Encoding what was decoded gives the bytes back. -/
theorem encode_decode {d n : Nat} {bs : List Byte} (h : d * n = 8 * bs.length) : encode d (decode d n bs) = bs := by
  have hp : (256 : Nat) ^ bs.length = 2 ^ (d * n) := by
    rw [show (256 : Nat) = 2 ^ 8 from rfl, ← Nat.pow_mul, h]
  have hl : d * n / 8 = bs.length := by omega
  rw [encode, digits_decode, decode_length, ← hp, hl, leEnc_mod, leEnc_leVal]

theorem leEnc_append {a b x y : Nat} (hx : x < 256 ^ a) : leEnc (a + b) (x + 256 ^ a * y) = leEnc a x ++ leEnc b y := by
  symm
  apply eq_leEnc (by simp)
  rw [leVal_append, leVal_leEnc, leVal_leEnc, leEnc_length, Nat.mod_eq_of_lt hx, Nat.pow_add, Nat.mod_mul, Nat.add_mul_mod_self_left, Nat.mod_eq_of_lt hx,
    Nat.add_mul_div_left _ _ (Nat.pow_pos (by decide)), Nat.div_eq_of_lt hx, Nat.zero_add]

/-! ## The loops -/

/-- A loop that packs `G` groups of `m` values into `g` bytes each; `val` prepares a value. -/
def packLoop (G m g : Nat) (val : Int → Nat) (pk : List Nat → List Byte) (a : List Int) (r : List Byte) (off : Nat) : M (List Byte) :=
  loopN G 0 (fun i r => do
    let c ← slice a (m * i) m
    blit r (off + g * i) (pk (c.map val))) r

/-- A loop that unpacks `G` groups of `g` bytes into `m` values each; `out` finishes a value. -/
def unpackLoop (G m g : Nat) (un : List Byte → List Nat) (out : Nat → Int) (bs : List Byte) (off : Nat) (r : List Int) : M (List Int) :=
  loopN G 0 (fun i r => do
    let w ← slice bs (off + g * i) g
    blit r (m * i) ((un w).map out)) r

/-- `pk` packs `m` numbers of `d` bits into `g` bytes. -/
def Packs (d m g : Nat) (pk : List Nat → List Byte) : Prop :=
  d * m = 8 * g ∧ ∀ cs, cs.length = m → (∀ c ∈ cs, c < 2 ^ d) → (pk cs).length = g ∧ leVal (pk cs) = digits d cs

/-- `un` unpacks them. -/
def Unpacks (d m g : Nat) (un : List Byte → List Nat) : Prop :=
  d * m = 8 * g ∧ ∀ w, w.length = g → (un w).length = m ∧ (∀ c ∈ un w, c < 2 ^ d) ∧ digits d (un w) = leVal w

theorem packLoop_spec {d G m g : Nat} {val : Int → Nat} {pk : List Nat → List Byte} (hp : Packs d m g pk) {a : List Int} (ha : a.length = m * G)
    (hv : ∀ v ∈ a, val v < 2 ^ d) (pre junk post : List Byte) (hj : junk.length = g * G) :
    packLoop G m g val pk a (pre ++ junk ++ post) pre.length = .ok (pre ++ encode d (a.map val) ++ post) := by
  have h256 : ∀ i, (256 : Nat) ^ (g * i) = 2 ^ (d * (m * i)) := by
    intro i
    rw [show (256 : Nat) = 2 ^ 8 from rfl, ← Nat.pow_mul, ← Nat.mul_assoc, ← Nat.mul_assoc, ← hp.1]
  have hlt : ∀ n, digits d ((a.map val).take n) < 2 ^ (d * ((a.map val).take n).length) := fun n => digits_lt fun c hc => by
    obtain ⟨v, hv', rfl⟩ := List.mem_map.mp (List.mem_of_mem_take hc)
    exact hv v hv'
  obtain ⟨r', h1, h2⟩ := loopN_inv
    (f := fun i r => do
      let c ← slice a (m * i) m
      blit r (pre.length + g * i) (pk (c.map val)))
    (fun i r => ∃ rest, r = pre ++ leEnc (g * i) (digits d ((a.map val).take (m * i))) ++ (rest ++ post) ∧ rest.length = g * (G - i)) G 0 (pre ++ junk ++ post)
    (by
      rintro i r _ hi ⟨rest, rfl, hr⟩
      have hi : i < G := by omega
      have hmi : m * (i + 1) ≤ m * G := Nat.mul_le_mul_left _ hi
      rw [Nat.mul_add, Nat.mul_one] at hmi
      have hcl : (((a.drop (m * i)).take m).map val).length = m := by rw [List.length_map, List.length_take, List.length_drop]; omega
      obtain ⟨p1, p2⟩ := hp.2 (((a.drop (m * i)).take m).map val) hcl (by
        intro c hc
        obtain ⟨v, hv', rfl⟩ := List.mem_map.mp hc
        exact hv v (List.mem_of_mem_drop (List.mem_of_mem_take hv')))
      have hgr : g * (G - i) = g + g * (G - (i + 1)) := by rw [show G - i = 1 + (G - (i + 1)) from by omega, Nat.mul_add, Nat.mul_one]
      refine ⟨pre ++ leEnc (g * (i + 1)) (digits d ((a.map val).take (m * (i + 1)))) ++ (rest.drop g ++ post), ?_, rest.drop g, rfl, by rw [List.length_drop]; omega⟩
      rw [slice_ok (by omega), ok_bind]
      have hsplit : pre ++ leEnc (g * i) (digits d ((a.map val).take (m * i))) ++ (rest ++ post)
          = (pre ++ leEnc (g * i) (digits d ((a.map val).take (m * i)))) ++ rest.take g ++ (rest.drop g ++ post) := by
        conv_lhs => rw [← List.take_append_drop g rest]
        simp only [List.append_assoc]
      rw [hsplit, blit_at (by rw [List.length_append, leEnc_length]) (by rw [p1, List.length_take]; omega)]
      congr 1
      have htl : ((a.map val).take (m * i)).length = m * i := by rw [List.length_take, List.length_map]; omega
      have e : (a.map val).take (m * (i + 1)) = (a.map val).take (m * i) ++ ((a.drop (m * i)).take m).map val := by
        rw [Nat.mul_add, Nat.mul_one, List.take_add, List.map_take, List.map_drop]
      have hlt' := hlt (m * i)
      rw [htl, ← h256] at hlt'
      rw [e, digits_append, htl, ← h256, Nat.mul_add, Nat.mul_one, leEnc_append hlt', eq_leEnc p1 (v := digits d (((a.drop (m * i)).take m).map val))]
      · simp only [List.append_assoc]
      · rw [p2, Nat.mod_eq_of_lt]
        rw [← p2, ← p1]
        exact leVal_lt _)
    ⟨junk, by simp [leEnc, digits, List.append_assoc], by simpa using hj⟩
  obtain ⟨rest, rfl, hr⟩ := h2
  rw [packLoop, h1]
  have hr0 : rest = [] := by
    apply List.eq_nil_of_length_eq_zero; rw [hr]; simp
  rw [hr0, Nat.zero_add, List.take_of_length_le (by rw [List.length_map]; omega), encode, List.length_map, ha, List.nil_append]
  congr 4
  rw [← Nat.mul_assoc, hp.1, Nat.mul_assoc, Nat.mul_div_cancel_left _ (by decide)]

theorem unpackLoop_spec {d G m g : Nat} {out : Nat → Int} {un : List Byte → List Nat} (hu : Unpacks d m g un) {w : List Byte} (hw : w.length = g * G) {bs : List Byte} {off : Nat}
    (hb : Holds bs off w) {r : List Int} (hr : r.length = m * G) :
    unpackLoop G m g un out bs off r = .ok ((decode d (m * G) w).map out) := by
  obtain ⟨pre, post, rfl, rfl⟩ := hb
  have h256 : ∀ i, (256 : Nat) ^ (g * i) = 2 ^ (d * (m * i)) := by
    intro i
    rw [show (256 : Nat) = 2 ^ 8 from rfl, ← Nat.pow_mul, ← Nat.mul_assoc, ← Nat.mul_assoc, ← hu.1]
  obtain ⟨r', h1, h2⟩ := loopN_inv
    (f := fun i r => do
      let w ← slice (pre ++ w ++ post) (pre.length + g * i) g
      blit r (m * i) ((un w).map out))
    (fun i r => ∃ cs rest, r = cs.map out ++ rest ∧ cs.length = m * i ∧ rest.length = m * (G - i) ∧ (∀ c ∈ cs, c < 2 ^ d) ∧ digits d cs = leVal (w.take (g * i))) G 0 r
    (by
      rintro i r _ hi ⟨cs, rest, rfl, hc, hr, hlt, hd⟩
      have hi : i < G := by omega
      have hgi : g * (i + 1) ≤ g * G := Nat.mul_le_mul_left _ hi
      rw [Nat.mul_add, Nat.mul_one] at hgi
      have hwl : ((w.drop (g * i)).take g).length = g := by rw [List.length_take, List.length_drop]; omega
      obtain ⟨u1, u2, u3⟩ := hu.2 ((w.drop (g * i)).take g) hwl
      have hmr : m * (G - i) = m + m * (G - (i + 1)) := by rw [show G - i = 1 + (G - (i + 1)) from by omega, Nat.mul_add, Nat.mul_one]
      have hs : slice (pre ++ w ++ post) (pre.length + g * i) g = .ok ((w.drop (g * i)).take g) := by
        refine slice_holds ⟨pre ++ w.take (g * i), w.drop (g * i + g) ++ post, ?_, by rw [List.length_append, List.length_take]; omega⟩ hwl.symm
        have : w = w.take (g * i) ++ ((w.drop (g * i)).take g ++ w.drop (g * i + g)) := by
          conv_lhs => rw [← List.take_append_drop (g * i) w, ← List.take_append_drop g (w.drop (g * i)), List.drop_drop]
        conv_lhs => rw [this]
        simp only [List.append_assoc]
      refine ⟨(cs ++ un ((w.drop (g * i)).take g)).map out ++ rest.drop m, ?_, _, _, rfl, ?_, ?_, ?_, ?_⟩
      · simp only [hs, ok_bind]
        have hsp : cs.map out ++ rest = cs.map out ++ rest.take m ++ rest.drop m := by rw [List.append_assoc, List.take_append_drop]
        have hl : (cs.map out).length = m * i := by rw [List.length_map, hc]
        rw [hsp, ← hl, blit_append _ _ _ _ (by rw [List.length_map, u1, List.length_take]; omega), List.map_append]
      · rw [List.length_append, hc, u1, Nat.mul_add, Nat.mul_one]
      · rw [List.length_drop]; omega
      · intro c hc'
        rcases List.mem_append.mp hc' with h | h
        · exact hlt c h
        · exact u2 c h
      · rw [digits_append, hd, u3, hc, ← h256, Nat.mul_add, Nat.mul_one, List.take_add, leVal_append, List.length_take, Nat.min_eq_left (by omega)])
    ⟨[], r, by simp, by simp, by simpa using hr, by simp, by simp [digits, leVal]⟩
  obtain ⟨cs, rest, rfl, hc, hr', hlt, hd⟩ := h2
  rw [unpackLoop, h1]
  have hr0 : rest = [] := by apply List.eq_nil_of_length_eq_zero; rw [hr']; simp
  rw [hr0, List.append_nil]
  rw [Nat.zero_add] at hc hd
  rw [decode_eq hc hlt (x := 0) (by rw [hd, List.take_of_length_le (by omega), Nat.mul_zero, Nat.add_zero])]

theorem or_shl {a b k : Nat} (h : a < 2 ^ k) : a ||| (b <<< k) = a + 2 ^ k * b := by
  rw [Nat.or_comm, ← Nat.shiftLeft_add_eq_or_of_lt h, Nat.shiftLeft_eq, Nat.mul_comm b, Nat.add_comm]

end Cex.Lattice
