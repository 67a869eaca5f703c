import Verif.Rijndael.Model
import Verif.Rijndael.Field
import Verif.Buf

/-! # The code's steps on the bytes of a state are the steps of the standard -/

namespace Cex.Rijndael
open Cex.Aes (St Schedule bytes col)

/-! ## Loops over blocks of a buffer -/

/-- A loop that rewrites block `i` in step `i`. -/
theorem loop_blocks {B : Nat} {body : Nat → List Byte → M (List Byte)} : ∀ (xs ys : List (List Byte)) (k : Nat) (pre post : List Byte),
    xs.length = ys.length → Blocks B xs → Blocks B ys → pre.length = B * k →
    (∀ i x y pre post, xs[i]? = some x → ys[i]? = some y → pre.length = B * (k + i) → body (k + i) (pre ++ x ++ post) = .ok (pre ++ y ++ post)) →
    loopN xs.length k body (pre ++ xs.flatten ++ post) = .ok (pre ++ ys.flatten ++ post)
  | [], [], k, pre, post, _, _, _, _, _ => rfl
  | x :: xs, y :: ys, k, pre, post, hl, hx, hy, hp, hb => by
    have h0 := hb 0 x y pre (xs.flatten ++ post) rfl rfl (by simpa using hp)
    have hy1 : y.length = B := hy y (by simp)
    have ih := loop_blocks (B := B) (body := body) xs ys (k + 1) (pre ++ y) post (by simpa using hl) hx.cons.2 hy.cons.2
      (by rw [List.length_append, hp, hy1, Nat.mul_add, Nat.mul_one])
      (fun i x y pre post h1 h2 h3 => by
        have := hb (i + 1) x y pre post (by simpa using h1) (by simpa using h2) (by rw [h3]; congr 1; omega)
        rwa [show k + (i + 1) = k + 1 + i from by omega] at this)
    rw [List.length_cons, loopN]
    rw [show pre ++ (x :: xs).flatten ++ post = pre ++ x ++ (xs.flatten ++ post) from by simp, show k = k + 0 from rfl, h0, ok_bind]
    rw [show pre ++ y ++ (xs.flatten ++ post) = pre ++ y ++ xs.flatten ++ post from by simp, Nat.add_zero, ih]
    simp
  | [], _ :: _, _, _, _, hl, _, _, _, _ => by simp at hl
  | _ :: _, [], _, _, _, hl, _, _, _, _ => by simp at hl

theorem bytes_length {α : Type} {nb : Nat} (s : Fin 4 → Fin nb → α) : (bytes s).length = 4 * nb := by
  unfold bytes
  rw [List.length_flatten, List.map_ofFn]
  have : (List.length ∘ fun c => col (fun r => s r c)) = fun _ : Fin nb => 4 := by funext c; rfl
  rw [this, show (List.ofFn fun _ : Fin nb => 4) = List.replicate nb 4 from
    List.eq_replicate_iff.mpr ⟨List.length_ofFn, fun b hb => by obtain ⟨_, rfl⟩ := List.mem_ofFn.mp hb; rfl⟩, List.sum_replicate_nat]
  exact Nat.mul_comm _ _

theorem bytes_map {α β : Type} {nb : Nat} (g : α → β) (s : Fin 4 → Fin nb → α) : (bytes s).map g = bytes (fun r c => g (s r c)) := by
  unfold bytes
  rw [List.map_flatten, List.map_ofFn]
  rfl

/-- Every block is the bytes of its state. -/
theorem bytes_state {nb : Nat} (b : List Byte) (h : b.length = 4 * nb) : bytes (Aes.state b h) = b := by
  induction nb generalizing b with
  | zero =>
    have : b = [] := List.length_eq_zero_iff.mp (by omega)
    subst this; rfl
  | succ nb ih =>
    match b, h with
    | b0 :: b1 :: b2 :: b3 :: t, h =>
      have ht : t.length = 4 * nb := by simp at h; omega
      have e := ih t ht
      rw [bytes, List.ofFn_succ, List.flatten_cons]
      have : (fun i : Fin nb => col fun r => Aes.state (b0 :: b1 :: b2 :: b3 :: t) h r i.succ) = fun i => col fun r => Aes.state t ht r i := by
        funext i
        congr 1
        funext r
        simp only [Aes.state, Fin.val_succ]
        have : 4 * (i.val + 1) + r.val = 4 * i.val + r.val + 1 + 1 + 1 + 1 := by omega
        simp only [this, List.getElem_cons_succ]
      rw [this]
      show [b0, b1, b2, b3] ++ bytes (Aes.state t ht) = _
      rw [e]; rfl
    | [], h => simp at h
    | [_], h => simp at h; omega
    | [_, _], h => simp at h; omega
    | [_, _, _], h => simp at h; omega

/-- A loop over the columns. -/
theorem loop_cols {nb : Nat} {body : Nat → List Byte → M (List Byte)} (s t : St nb)
    (hb : ∀ (c : Fin nb) (pre post : List Byte), pre.length = 4 * c.val →
      body c.val (pre ++ col (fun r => s r c) ++ post) = .ok (pre ++ col (fun r => t r c) ++ post)) :
    loopN (((bytes s).length + 3) / 4) 0 body (bytes s) = .ok (bytes t) := by
  have hl : ((bytes s).length + 3) / 4 = (List.ofFn fun c => col (fun r => s r c)).length := by
    rw [bytes_length, List.length_ofFn]; omega
  have blk : ∀ s : St nb, Blocks 4 (List.ofFn fun c => col (fun r => s r c)) := by
    intro s x hx
    obtain ⟨c, rfl⟩ := List.mem_ofFn.mp hx
    rfl
  have := loop_blocks (B := 4) (body := body) (List.ofFn fun c => col (fun r => s r c)) (List.ofFn fun c => col (fun r => t r c)) 0 [] []
    (by rw [List.length_ofFn, List.length_ofFn]) (blk s) (blk t) rfl
    (fun i x y pre post h1 h2 h3 => by
      rw [List.getElem?_ofFn] at h1 h2
      split at h1
      · rename_i hi
        rw [dif_pos hi] at h2
        rw [← Option.some.inj h1, ← Option.some.inj h2, Nat.zero_add]
        exact hb ⟨i, hi⟩ pre post (by rw [h3, Nat.zero_add])
      · cases h1)
  rw [hl]
  simpa [bytes] using this

/-- A loop over the bytes. -/
theorem loop_each {body : Nat → List Byte → M (List Byte)} (f : Byte → Byte) (s : List Byte)
    (hb : ∀ (b : Byte) (pre post : List Byte), body pre.length (pre ++ [b] ++ post) = .ok (pre ++ [f b] ++ post)) :
    loopN s.length 0 body s = .ok (s.map f) := by
  have blk : ∀ s : List Byte, Blocks 1 (s.map fun b => [b]) := by
    intro s x hx
    obtain ⟨c, _, rfl⟩ := List.mem_map.mp hx
    rfl
  have flat : ∀ s : List Byte, (s.map fun b => [b]).flatten = s := by
    intro s
    induction s with
    | nil => rfl
    | cons a s ih => simp only [List.map_cons, List.flatten_cons, ih]; rfl
  have := loop_blocks (B := 1) (body := body) (s.map fun b => [b]) ((s.map f).map fun b => [b]) 0 [] []
    (by simp) (blk _) (blk _) rfl
    (fun i x y pre post h1 h2 h3 => by
      simp only [List.getElem?_map] at h1 h2
      cases hs : s[i]? with
      | none => rw [hs] at h1; cases h1
      | some b =>
        rw [hs] at h1 h2
        cases h1; cases h2
        rw [show 0 + i = pre.length from by omega]
        exact hb b pre post)
  rw [flat, flat, List.length_map] at this
  simpa using this

/-! ## Reading and writing inside a column -/

section Col
variable {pre post : List Byte} {a b c d v : Byte} {n : Nat}

theorem rd_pre {α : Type} {pre y : List α} {n j : Nat} (h : pre.length = n) : rd (pre ++ y) (n + j) = rd y j := by
  subst h
  rw [rd, rd, List.getElem?_append_right (by omega), Nat.add_sub_cancel_left]

theorem wr_pre {pre y : List Byte} {n j : Nat} (h : pre.length = n) {v : Byte} {y' : List Byte} (hw : wr y j v = .ok y') :
    wr (pre ++ y) (n + j) v = .ok (pre ++ y') := by
  subst h
  unfold wr at hw ⊢
  split at hw
  · rename_i hj
    rw [if_pos (by rw [List.length_append]; omega), List.set_append_right _ _ (by omega), ← Except.ok.inj hw]
    simp
  · cases hw

theorem wr_c0 : wr ([a, b, c, d] ++ post) 0 v = .ok ([v, b, c, d] ++ post) := by simp [wr]
theorem wr_c1 : wr ([a, b, c, d] ++ post) 1 v = .ok ([a, v, c, d] ++ post) := by simp [wr]
theorem wr_c2 : wr ([a, b, c, d] ++ post) 2 v = .ok ([a, b, v, d] ++ post) := by simp [wr]
theorem wr_c3 : wr ([a, b, c, d] ++ post) 3 v = .ok ([a, b, c, v] ++ post) := by simp [wr]

theorem rd_c0 : rd ([a, b, c, d] ++ post) 0 = .ok a := rfl
theorem rd_c1 : rd ([a, b, c, d] ++ post) 1 = .ok b := rfl
theorem rd_c2 : rd ([a, b, c, d] ++ post) 2 = .ok c := rfl
theorem rd_c3 : rd ([a, b, c, d] ++ post) 3 = .ok d := rfl

theorem column_at (h : pre.length = n) :
    column (pre ++ ([a, b, c, d] ++ post)) n = .ok (a.setWidth 32, b.setWidth 32, c.setWidth 32, d.setWidth 32) := by
  rw [column, show rd (pre ++ ([a, b, c, d] ++ post)) n = .ok a from rd_pre (j := 0) h, rd_pre h, rd_pre h, rd_pre h]
  rfl

/-- Writing the four bytes of a column one after another. -/
theorem write_col (h : pre.length = n) (w x y z : Byte) :
    (do
      let s ← wr (pre ++ ([a, b, c, d] ++ post)) n w
      let s ← wr s (n + 1) x
      let s ← wr s (n + 2) y
      wr s (n + 3) z) = (.ok (pre ++ ([w, x, y, z] ++ post)) : M (List Byte)) := by
  rw [show wr (pre ++ ([a, b, c, d] ++ post)) n w = .ok (pre ++ ([w, b, c, d] ++ post)) from wr_pre (j := 0) h wr_c0, ok_bind,
    wr_pre h wr_c1, ok_bind, wr_pre h wr_c2, ok_bind, wr_pre h wr_c3]

theorem xorAt_pre {pre y : List Byte} {n j : Nat} (h : pre.length = n) {v b : Byte} {y' : List Byte} (hr : rd y j = .ok b)
    (hw : wr y j (b ^^^ v) = .ok y') : xorAt (pre ++ y) (n + j) v = .ok (pre ++ y') := by
  rw [xorAt, rd_pre h, hr, ok_bind, wr_pre h hw]

theorem xor_col (h : pre.length = n) (w x y z : Byte) :
    (do
      let s ← xorAt (pre ++ ([a, b, c, d] ++ post)) n w
      let s ← xorAt s (n + 1) x
      let s ← xorAt s (n + 2) y
      xorAt s (n + 3) z) = (.ok (pre ++ ([a ^^^ w, b ^^^ x, c ^^^ y, d ^^^ z] ++ post)) : M (List Byte)) := by
  rw [show xorAt (pre ++ ([a, b, c, d] ++ post)) n w = .ok (pre ++ ([a ^^^ w, b, c, d] ++ post)) from xorAt_pre (j := 0) h rd_c0 wr_c0, ok_bind,
    xorAt_pre h rd_c1 wr_c1, ok_bind, xorAt_pre h rd_c2 wr_c2, ok_bind, xorAt_pre h rd_c3 wr_c3]

end Col

/-! ## Round keys -/

/-- The bytes of a word, most significant first. -/
def wordByte (k : Word) (r : Fin 4) : Byte := (k >>> (24 - 8 * r.val)).setWidth 8

/-- The first `n` words of `rk` are the schedule `w`. -/
def Sched (rk : List Word) (w : Schedule) (n : Nat) : Prop := ∀ i, i < n → ∃ k, rk[i]? = some k ∧ ∀ r, wordByte k r = w i r

theorem and_ff (b : Byte) : b &&& 0xFF#8 = b := by
  rw [show (0xFF#8 : Byte) = BitVec.allOnes 8 from rfl, BitVec.and_allOnes]

theorem keyAddition_eq {nb : Nat} {rk : List Word} {w : Schedule} {n k : Nat} (hs : Sched rk w n) (hk : nb * (k + 1) ≤ n) (s : St nb) :
    keyAddition rk (k * nb) (bytes s) = .ok (bytes (Aes.addRoundKey w k s)) := by
  unfold keyAddition
  apply loop_cols s
  intro c pre post hp
  obtain ⟨v, hv, hb⟩ := hs (nb * k + c.val) (by rw [Nat.mul_add] at hk; have := c.isLt; omega)
  simp only [col, List.append_assoc]
  rw [show rd rk (k * nb + c.val) = .ok v from by rw [Nat.mul_comm]; simp [rd, hv], ok_bind, xor_col hp]
  have h0 := hb 0; have h1 := hb 1; have h2 := hb 2; have h3 := hb 3
  simp only [Aes.addRoundKey, ← h0, ← h1, ← h2, ← h3, wordByte, and_ff]
  rfl

/-! ## Tables -/

theorem rd_sbox : ∀ b : Byte, rd sbox b.toNat = .ok (Aes.sbox b) := by decide +kernel

theorem rd_isbox : ∀ b : Byte, rd isbox b.toNat = .ok (Aes.invSbox b) := by decide +kernel

theorem lookup_eq {tab : List Byte} {f : Byte → Byte} (h : ∀ b : Byte, rd tab b.toNat = .ok (f b)) (s : List Byte) :
    lookupAll tab s = .ok (s.map f) := by
  unfold lookupAll
  apply loop_each f
  intro b pre post
  rw [show rd (pre ++ [b] ++ post) pre.length = .ok b from by simp [rd], ok_bind, h b, ok_bind, wr_ok _ (by simp)]
  simp

theorem substitution_eq {nb : Nat} (s : St nb) : substitution (bytes s) = .ok (bytes (Aes.subBytes s)) := by
  rw [substitution, lookup_eq rd_sbox, bytes_map]; rfl

theorem invSubBytes_eq {nb : Nat} (s : St nb) : invSubBytes (bytes s) = .ok (bytes (Aes.invSubBytes s)) := by
  rw [invSubBytes, lookup_eq rd_isbox, bytes_map]; rfl

/-! ## Column mixing -/

theorem setWidth_xor32 (a b : Byte) : (a ^^^ b).setWidth 32 = a.setWidth 32 ^^^ b.setWidth 32 := BitVec.setWidth_xor

theorem mul_one : ∀ b : Byte, Aes.mul 0x01 b = b := by decide +kernel
theorem mul_two : ∀ b : Byte, Aes.mul 0x02 b = Aes.xtime b := by decide +kernel
theorem mul_three : ∀ b : Byte, Aes.mul 0x03 b = Aes.xtime b ^^^ b := by decide +kernel

/-- The conditional reduction of a doubled byte. -/
theorem mixReduce_double : ∀ b : Byte, mixReduce (b.setWidth 32 <<< 1) = Aes.xtime b := by decide +kernel

theorem shr8_byte (e : Byte) : e.setWidth 32 >>> 8 = 0#32 := by
  apply BitVec.eq_of_toNat_eq
  rw [BitVec.toNat_ushiftRight, BitVec.toNat_setWidth, Nat.shiftRight_eq_div_pow, Nat.mod_eq_of_lt (by have := e.isLt; omega)]
  have := e.isLt
  exact Nat.div_eq_of_lt (by omega)

theorem mixReduce_split (b e : Byte) : mixReduce ((b.setWidth 32 <<< 1) ^^^ e.setWidth 32) = Aes.xtime b ^^^ e := by
  rw [← mixReduce_double b]
  unfold mixReduce
  rw [BitVec.ushiftRight_xor_distrib, shr8_byte, BitVec.xor_zero]
  generalize (~~~(b.setWidth 32 <<< 1 >>> 8) + 1) &&& 0x0000011B#32 = m
  rw [show ∀ x y z : Word, x ^^^ y ^^^ z = x ^^^ z ^^^ y from fun x y z => by ac_rfl, BitVec.setWidth_xor]
  congr 1
  simp

theorem mix_row (p q x y : Byte) {t : Word}
    (h : t = ((p.setWidth 32 <<< 1) ^^^ (q.setWidth 32 <<< 1)) ^^^ (q.setWidth 32 ^^^ x.setWidth 32 ^^^ y.setWidth 32)) :
    mixReduce t = Aes.mul 0x02 p ^^^ Aes.mul 0x03 q ^^^ Aes.mul 0x01 x ^^^ Aes.mul 0x01 y := by
  rw [h, ← BitVec.shiftLeft_xor_distrib, ← setWidth_xor32, ← setWidth_xor32, ← setWidth_xor32, mixReduce_split, Aes.xtime_xor,
    mul_two, mul_three, mul_one, mul_one]
  ac_rfl

theorem mixColumns_eq {nb : Nat} (s : St nb) : mixColumns (bytes s) = .ok (bytes (Aes.mixColumns s)) := by
  unfold mixColumns
  apply loop_cols s
  intro c pre post hp
  simp only [col, List.append_assoc]
  rw [column_at hp, ok_bind]
  simp only []
  rw [write_col hp]
  simp only [Aes.mixColumns, Aes.circ]
  rw [mix_row (s 0 c) (s 1 c) (s 2 c) (s 3 c) (by ac_rfl), mix_row (s 1 c) (s 2 c) (s 3 c) (s 0 c) (by ac_rfl),
    mix_row (s 2 c) (s 3 c) (s 0 c) (s 1 c) (by ac_rfl), mix_row (s 3 c) (s 0 c) (s 1 c) (s 2 c) (by ac_rfl)]
  rfl

theorem xor_and (a b m : Word) : (a ^^^ b) &&& m = (a &&& m) ^^^ (b &&& m) := by
  ext i
  simp only [BitVec.getElem_and, BitVec.getElem_xor]
  cases a[i] <;> cases b[i] <;> cases m[i] <;> rfl

theorem gf256_xor (x y : Word) : gf256Reduce (x ^^^ y) = gf256Reduce x ^^^ gf256Reduce y := by
  unfold gf256Reduce
  simp only []
  rw [← BitVec.setWidth_xor, ← xor_and]
  congr 2
  simp only [BitVec.ushiftRight_xor_distrib, BitVec.shiftLeft_xor_distrib]
  ac_rfl

theorem gf256_byte : ∀ b : Byte, gf256Reduce (b.setWidth 32) = b ∧ gf256Reduce (b.setWidth 32 <<< 1) = Aes.xpow 1 b ∧
    gf256Reduce (b.setWidth 32 <<< 2) = Aes.xpow 2 b ∧ gf256Reduce (b.setWidth 32 <<< 3) = Aes.xpow 3 b := by decide +kernel

theorem mul_consts : ∀ b : Byte, Aes.mul 0x0E b = Aes.xpow 1 b ^^^ Aes.xpow 2 b ^^^ Aes.xpow 3 b ∧
    Aes.mul 0x0B b = b ^^^ Aes.xpow 1 b ^^^ Aes.xpow 3 b ∧ Aes.mul 0x0D b = b ^^^ Aes.xpow 2 b ^^^ Aes.xpow 3 b ∧
    Aes.mul 0x09 b = b ^^^ Aes.xpow 3 b := by decide +kernel

theorem inv_row (p q x y : Byte) {t : Word}
    (h : t = (p.setWidth 32 <<< 1) ^^^ (p.setWidth 32 <<< 2) ^^^ (p.setWidth 32 <<< 3) ^^^ (q.setWidth 32 ^^^ (q.setWidth 32 <<< 1) ^^^ (q.setWidth 32 <<< 3)) ^^^
      (x.setWidth 32 ^^^ (x.setWidth 32 <<< 2) ^^^ (x.setWidth 32 <<< 3)) ^^^ (y.setWidth 32 ^^^ (y.setWidth 32 <<< 3))) :
    gf256Reduce t = Aes.mul 0x0E p ^^^ Aes.mul 0x0B q ^^^ Aes.mul 0x0D x ^^^ Aes.mul 0x09 y := by
  rw [h]
  simp only [gf256_xor, gf256_byte, mul_consts]

theorem invMixColumns_eq {nb : Nat} (s : St nb) : invMixColumns (bytes s) = .ok (bytes (Aes.invMixColumns s)) := by
  unfold invMixColumns
  apply loop_cols s
  intro c pre post hp
  simp only [col, List.append_assoc]
  rw [column_at hp, ok_bind]
  simp only []
  rw [write_col hp]
  simp only [Aes.invMixColumns, Aes.circ]
  rw [inv_row (s 0 c) (s 1 c) (s 2 c) (s 3 c) (by ac_rfl), inv_row (s 1 c) (s 2 c) (s 3 c) (s 0 c) (by ac_rfl),
    inv_row (s 2 c) (s 3 c) (s 0 c) (s 1 c) (by ac_rfl), inv_row (s 3 c) (s 0 c) (s 1 c) (s 2 c) (by ac_rfl)]
  rfl

/-! ## Row shifting -/

/-- The moves do not look at the bytes. -/
theorem runOps_map {α β : Type} (g : α → β) : ∀ (ops : List Op) (tmp : Option α) (s : List α),
    runOps ops (tmp.map g) (s.map g) = (runOps ops tmp s).map (List.map g)
  | [], _, _ => rfl
  | .save i :: ops, tmp, s => by
    simp only [runOps, rd, List.getElem?_map]
    cases s[i]? with
    | none => rfl
    | some v => exact runOps_map g ops (some v) s
  | .mv d i :: ops, tmp, s => by
    simp only [runOps, rd, List.getElem?_map]
    cases s[i]? with
    | none => rfl
    | some v =>
      simp only [Option.map_some, ok_bind, wr, List.length_map]
      split
      · simp only [ok_bind]
        rw [← List.map_set]
        exact runOps_map g ops tmp (s.set d v)
      · rfl
  | .put d :: ops, tmp, s => by
    cases tmp with
    | none => rfl
    | some v =>
      simp only [runOps, Option.map_some, wr, List.length_map]
      split
      · simp only [ok_bind]
        rw [← List.map_set]
        exact runOps_map g ops (some v) (s.set d v)
      · rfl

/-- The positions `4c + r`. -/
def position (nb : Nat) : Fin 4 → Fin nb → Nat := fun r c => 4 * c.val + r.val

/-- A row shift acts on every state as on the positions. -/
theorem runOps_state {nb : Nat} {ops : List Op} {p : Fin 4 → Fin nb → Fin nb}
    (h : runOps ops none (bytes (position nb)) = .ok (bytes (fun r c => position nb r (p r c)))) (s : St nb) :
    runOps ops none (bytes s) = .ok (bytes (fun r c => s r (p r c))) := by
  by_cases hn : nb = 0
  · subst hn
    have e : ∀ t u : St 0, t = u := fun t u => by funext r c; exact c.elim0
    have h2 := runOps_map (fun _ => (0 : Byte)) ops none (bytes (position 0))
    rw [h] at h2
    exact h2
  · let g : Nat → Byte := fun k => s ⟨k % 4, by omega⟩ ⟨k / 4 % nb, Nat.mod_lt _ (by omega)⟩
    have hg : ∀ r c, g (position nb r c) = s r c := by
      intro r c
      simp only [g, position]
      have h1 : (4 * c.val + r.val) % 4 = r.val := by omega
      have h2 : (4 * c.val + r.val) / 4 % nb = c.val := by
        rw [show (4 * c.val + r.val) / 4 = c.val from by omega, Nat.mod_eq_of_lt c.isLt]
      rw [show (⟨(4 * c.val + r.val) % 4, by omega⟩ : Fin 4) = r from Fin.ext h1, show (⟨(4 * c.val + r.val) / 4 % nb, Nat.mod_lt _ (by omega)⟩ : Fin nb) = c from Fin.ext h2]
    have h2 := runOps_map g ops none (bytes (position nb))
    rw [h] at h2
    simp only [Option.map_none, Except.map, bytes_map, hg] at h2
    exact h2

theorem shiftRows128_eq (s : St 4) : runOps shiftRows128Ops none (bytes s) = .ok (bytes (Aes.shiftRows Aes.aesShifts s)) :=
  runOps_state (p := fun r c => ⟨(c.val + Aes.aesShifts r) % 4, Nat.mod_lt _ (by omega)⟩) (by decide +kernel) s

theorem invShiftRows_eq (s : St 4) : runOps invShiftRowsOps none (bytes s) = .ok (bytes (Aes.invShiftRows Aes.aesShifts s)) :=
  runOps_state (p := fun r c => ⟨(c.val + (4 - Aes.aesShifts r)) % 4, Nat.mod_lt _ (by omega)⟩) (by decide +kernel) s

/-- Row shifts of Rijndael with 256-bit blocks: 0, 1, 3, 4. -/
def shifts256 : Fin 4 → Nat := fun r => [0, 1, 3, 4][r]

/-- Row shifts of RWS' 512-bit blocks: 1, 2, 4, 8. -/
def shifts512 : Fin 4 → Nat := fun r => [1, 2, 4, 8][r]

theorem shiftRows256_eq (s : St 8) : runOps shiftRows256Ops none (bytes s) = .ok (bytes (Aes.shiftRows shifts256 s)) :=
  runOps_state (p := fun r c => ⟨(c.val + shifts256 r) % 8, Nat.mod_lt _ (by omega)⟩) (by decide +kernel) s

theorem shiftRows512_eq (s : St 16) : runOps shiftRows512Ops none (bytes s) = .ok (bytes (Aes.shiftRows shifts512 s)) :=
  runOps_state (p := fun r c => ⟨(c.val + shifts512 r) % 16, Nat.mod_lt _ (by omega)⟩) (by decide +kernel) s

/-! ## The block functions -/

/-- The rounds of `forward`. -/
theorem forward_rounds {nb : Nat} {ops : List Op} {sh : Fin 4 → Nat} {rk : List Word} {w : Schedule} {n : Nat} (hs : Sched rk w n)
    (hsh : ∀ s : St nb, runOps ops none (bytes s) = .ok (bytes (Aes.shiftRows sh s))) :
    ∀ (m k : Nat) (s : St nb), nb * (k + m) ≤ n →
      loopN m k (fun i s => do
        let s ← substitution s
        let s ← runOps ops none s
        let s ← mixColumns s
        keyAddition rk (i * nb) s) (bytes s) = .ok (bytes (Aes.rounds sh w m k s))
  | 0, _, _, _ => rfl
  | m + 1, k, s, hk => by
    rw [loopN, substitution_eq, ok_bind, hsh, ok_bind, mixColumns_eq, ok_bind,
      keyAddition_eq hs (Nat.le_trans (Nat.mul_le_mul_left nb (show k + 1 ≤ k + (m + 1) by omega)) hk), ok_bind,
      forward_rounds hs hsh m (k + 1) _ (by rw [show k + 1 + m = k + (m + 1) from by omega]; exact hk), Aes.rounds]

/-- `forward` computes the cipher with the round keys it is given. -/
theorem forward_eq {nb : Nat} {ops : List Op} {sh : Fin 4 → Nat} {rk : List Word} {w : Schedule} {nr : Nat} (hnr : 0 < nr)
    (hs : Sched rk w (nb * (nr + 1))) (hsh : ∀ s : St nb, runOps ops none (bytes s) = .ok (bytes (Aes.shiftRows sh s)))
    (s : St nb) {inp : List Byte} {inOff : Nat} (hin : Holds inp inOff (bytes s)) {a b c : List Byte} (hb : b.length = 4 * nb) :
    forward (4 * nb) ops rk nr inp inOff (a ++ b ++ c) a.length = .ok (a ++ bytes (Aes.cipher sh w nr s) ++ c) := by
  have h4 : 4 * nb / 4 = nb := by omega
  have l1 : 4 * nb = (bytes s).length := (bytes_length s).symm
  rw [forward, copy_whole hin l1 (by rw [List.length_replicate]; exact l1), ok_bind]
  simp only [h4]
  rw [show (0 : Nat) = 0 * nb from (Nat.zero_mul _).symm,
    keyAddition_eq hs (Nat.mul_le_mul_left nb (by omega)), ok_bind,
    forward_rounds hs hsh (nr - 1) 1 _ (Nat.mul_le_mul_left nb (by omega)), ok_bind, substitution_eq, ok_bind, hsh, ok_bind,
    keyAddition_eq hs (Nat.le_refl _), ok_bind, Nat.zero_mul]
  rw [copy_at (Holds.self _) rfl (bytes_length _).symm (by rw [bytes_length]; exact hb)]
  rfl

theorem decrypt_rounds {rk : List Word} {w : Schedule} {n : Nat} (hs : Sched rk w n) :
    ∀ (m j0 : Nat) (s : St 4), 4 * (m + 1) ≤ n →
      loopN m j0 (fun j s => do
        let s ← runOps invShiftRowsOps none s
        let s ← invSubBytes s
        let s ← keyAddition rk ((m + j0 - j) * 4) s
        invMixColumns s) (bytes s) = .ok (bytes (Aes.invRounds Aes.aesShifts w m s))
  | 0, _, _, _ => rfl
  | m + 1, j0, s, hk => by
    rw [loopN, invShiftRows_eq, ok_bind, invSubBytes_eq, ok_bind, show m + 1 + j0 - j0 = m + 1 from by omega,
      keyAddition_eq hs (by omega), ok_bind, invMixColumns_eq, ok_bind]
    have := decrypt_rounds hs m (j0 + 1) (Aes.invMixColumns (Aes.addRoundKey w (m + 1) (Aes.invSubBytes (Aes.invShiftRows Aes.aesShifts s)))) (by omega)
    rw [show m + (j0 + 1) = m + 1 + j0 from by omega] at this
    rw [this, Aes.invRounds]

/-- `Decrypt128` computes the inverse cipher. -/
theorem decrypt_eq {rk : List Word} {w : Schedule} {nr : Nat} (hnr : 0 < nr) (hs : Sched rk w (4 * (nr + 1)))
    (s : St 4) {inp : List Byte} {inOff : Nat} (hin : Holds inp inOff (bytes s)) {a b c : List Byte} (hb : b.length = 16) :
    decrypt128 rk nr inp inOff (a ++ b ++ c) a.length = .ok (a ++ bytes (Aes.invCipher Aes.aesShifts w nr s) ++ c) := by
  have l1 : 16 = (bytes s).length := (bytes_length s).symm
  rw [decrypt128, copy_whole hin l1 (by rw [List.length_replicate]; exact l1), ok_bind,
    keyAddition_eq hs (by omega), ok_bind, if_neg (by omega)]
  simp only []
  have h1 := decrypt_rounds hs (nr - 1) 0 (Aes.addRoundKey w nr s) (by omega)
  simp only [Nat.add_zero] at h1
  have h0 := keyAddition_eq (k := 0) hs (by omega) (Aes.invSubBytes (Aes.invShiftRows Aes.aesShifts (Aes.invRounds Aes.aesShifts w (nr - 1) (Aes.addRoundKey w nr s))))
  rw [Nat.zero_mul] at h0
  rw [h1, ok_bind, invShiftRows_eq, ok_bind, invSubBytes_eq, ok_bind, h0, ok_bind,
    copy_at (Holds.self _) rfl (bytes_length _).symm (by rw [bytes_length]; exact hb)]
  rfl

end Cex.Rijndael
