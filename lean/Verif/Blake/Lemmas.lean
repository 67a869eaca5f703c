import Verif.Blake.PermLemmas
import Verif.Keccak.ObjLemmas
import Verif.Mac.CmacModel

/-!
# The sequential BLAKE2 objects
-/

namespace Cex.Blake
open Cex Cex.IntTools Cex.Blake.Rfc Cex.Stream

variable {w : Nat}

/-- The word of a finalisation flag. -/
def fl (b : Bool) : BitVec w := if b then BitVec.allOnes w else 0

/-- What the proofs need to know of a class. -/
structure Core.Good (C : Core w) (A : Alg w) : Prop where
  h8 : w % 8 = 0
  pos : 0 < w
  small : w < 256
  iv : C.iv = List.ofFn (IV w)
  perm : PermOk A C.perm
  get : GetOk C.getw
  put : ∀ (x : BitVec w) (pre junk post : List Byte) (o : Nat), o = pre.length → junk.length = w / 8 →
    C.putw x (pre ++ junk ++ post) o = .ok (pre ++ leEnc (w / 8) x.toNat ++ post)
  config : ∀ (kk : Nat) (cfg : List (BitVec w)), kk < 256 → cfg.length = 8 → cfg[3]? = some 0 →
    C.config ⟨BitVec.ofNat 8 w, BitVec.ofNat 8 kk, 1, 1, 0, 0, 0, 0, 0, List.replicate (codeMax (BitVec.ofNat 8 w)) 0⟩ cfg =
      .ok (List.ofFn fun i : Fin 8 => if i = 0 then BitVec.ofNat w 0x01010000 ^^^ BitVec.ofNat w (kk * 256) ^^^ BitVec.ofNat w w else 0)
  keys : 0 < C.minKey ∧ C.maxKey ≤ w
  salt : C.salt = 2 * (w / 8)
  size : BitVec.ofNat 8 w = 32 ∨ BitVec.ofNat 8 w = 64

variable {C : Core w} {A : Alg w}

theorem mod8 (n : Nat) : (BitVec.ofNat 8 n).toNat = n % 256 := by simp

theorem put_ofFn (x : BitVec w) (i : Nat) (hi : i < 8) (v : Fin 8 → BitVec w) :
    Core.xorAt (List.ofFn v) i x = .ok (List.ofFn (Rfc.put v ⟨i, hi⟩ (v ⟨i, hi⟩ ^^^ x))) := by
  rw [Core.xorAt, rd_ofFn _ _ hi, ok_bind, wr_ofFn _ _ hi]

theorem start_eq (h : Fin 8 → BitVec w) (t0 t1 : BitVec w) (f0 f1 : Bool) :
    List.ofFn h ++ List.ofFn (Rfc.put (Rfc.put (Rfc.put (Rfc.put (IV w) 4 (IV w 4 ^^^ t0)) 5 (IV w 5 ^^^ t1)) 6 (IV w 6 ^^^ fl f0)) 7 (IV w 7 ^^^ fl f1)) =
      List.ofFn (start h t0 t1 f0 f1) := by
  refine List.ext_getElem (by simp) fun k h1 h2 => ?_
  have hk : k < 16 := by simpa using h2
  rw [List.getElem_ofFn, start]
  by_cases h8 : k < 8
  · rw [List.getElem_append_left (by simpa using h8), List.getElem_ofFn, dif_pos h8]
  · rw [List.getElem_append_right (by simpa using h8), List.getElem_ofFn, dif_neg h8]
    simp only [List.length_ofFn]
    have hx : ∀ x : BitVec w, x ^^^ BitVec.allOnes w = ~~~x := fun x => BitVec.xor_allOnes
    obtain rfl | rfl | rfl | rfl | rfl | rfl | rfl | rfl : k = 8 ∨ k = 9 ∨ k = 10 ∨ k = 11 ∨ k = 12 ∨ k = 13 ∨ k = 14 ∨ k = 15 := by omega
    all_goals cases f0 <;> cases f1 <;> simp [Rfc.put, fl, hx]

/-- `Permute` is the compression function. -/
theorem permute_ok (g : C.Good A) {inp b : List Byte} {io : Nat} (hb : Holds inp io b) (hl : b.length = 2 * w) (h : Fin 8 → BitVec w) (t : BitVec w × BitVec w) (f0 f1 : Bool) :
    C.permute inp io ⟨(fl f0, fl f1), List.ofFn h, t⟩ = .ok ⟨(fl f0, fl f1), List.ofFn (A.F h (words w b) t.1 t.2 f0 f1), t⟩ := by
  rw [Core.permute, g.iv]
  simp only
  rw [put_ofFn _ 4 (by decide), ok_bind, put_ofFn _ 5 (by decide), ok_bind, put_ofFn _ 6 (by decide), ok_bind, put_ofFn _ 7 (by decide), ok_bind]
  exact congrArg (fun x : M (List (BitVec w)) => x >>= fun h' => Except.ok (⟨(fl f0, fl f1), h', t⟩ : St w)) (g.perm hb hl h _ _ (start_eq h t.1 t.2 f0 f1))

/-- The counter of the code: the low word only. -/
def cnt0 (w t : Nat) : BitVec w × BitVec w := (BitVec.ofNat w t, 0)

/-- The state of the object: chaining value and number of bytes compressed. -/
abbrev Ghost (w : Nat) := (Fin 8 → BitVec w) × Nat

def conc (g : Ghost w) : St w := ⟨(0, 0), List.ofFn g.1, cnt0 w g.2⟩

/-- Compression of one block that is not the last. -/
def step (A : Alg w) (s : Ghost w) (b : List Byte) : Ghost w :=
  (A.F s.1 (words w b) (cnt0 w (s.2 + 2 * w)).1 (cnt0 w (s.2 + 2 * w)).2 false false, s.2 + 2 * w)

theorem incr_eq (t n : Nat) : incr (cnt0 w t) n = cnt0 w (t + n) := by
  rw [incr, cnt0]
  simp only
  rw [if_neg (BitVec.lt_irrefl _), cnt0]
  refine Prod.ext ?_ rfl
  simp only
  rw [BitVec.ofNat_add]

theorem absorb_ok (g : C.Good A) {inp b : List Byte} {io : Nat} (hb : Holds inp io b) (hl : b.length = 2 * w) (s : Ghost w) :
    C.absorb inp io (conc s) = .ok (conc (step A s b)) := by
  rw [Core.absorb, conc]
  simp only [incr_eq]
  exact permute_ok g hb hl s.1 _ false false

theorem blocks_lazy (A : Alg w) (h0 : 0 < w) (f1 : Bool) : ∀ (d : List Byte) (s : Ghost w),
    A.blocks (cnt0 w) f1 s.1 s.2 d =
      let x := lazy (2 * w) (step A) s d
      A.F x.1.1 (words w (pad w x.2)) (cnt0 w (x.1.2 + x.2.length)).1 (cnt0 w (x.1.2 + x.2.length)).2 true f1 := by
  intro d
  induction hn : d.length using Nat.strongRecOn generalizing d with
  | ind n ih =>
    intro s
    by_cases h : 2 * w < d.length
    · rw [Alg.blocks, if_pos ⟨h0, h⟩, lazy, if_pos ⟨by omega, h⟩]
      exact ih (d.drop (2 * w)).length (by rw [List.length_drop]; omega) (d.drop (2 * w)) rfl (step A s (d.take (2 * w)))
    · rw [Alg.blocks, if_neg (by omega), lazy_short (by omega)]

/-- The object has compressed up to the ghost state and holds the rest `r` in its buffer. -/
structure Absorbed (s : Ghost w) (r : List Byte) (o : Obj w) : Prop where
  fan : o.par.fanOut = 1
  dgt : o.dgt = [conc s]
  len : o.len = r.length
  le : r.length ≤ 2 * w
  buf : ∃ q, o.buf = r ++ q
  size : o.buf.length = 2 * w

theorem loopSeq_ok (g : C.Good A) {inp : List Byte} : ∀ (n : Nat) (x : List Byte) (io : Nat) (s : Ghost w) (o : Obj w), x.length = n → Holds inp io x → o.dgt = [conc s] →
    ∃ io', o.loopSeq C inp io x.length = .ok ({ o with dgt := [conc (lazy (2 * w) (step A) s x).1] }, io', (lazy (2 * w) (step A) s x).2.length) ∧
      Holds inp io' (lazy (2 * w) (step A) s x).2 := by
  intro n
  have h0 := g.pos
  induction n using Nat.strongRecOn with
  | ind n ih =>
    intro x io s o hn hx hd
    by_cases h : 2 * w < x.length
    · have ht : (x.take (2 * w)).length = 2 * w := by rw [List.length_take]; omega
      rw [Obj.loopSeq, if_pos ⟨h0, h⟩, hd]
      have e1 : rd [conc s] 0 = .ok (conc s) := rfl
      rw [e1, ok_bind, absorb_ok g (hx.takeN (2 * w)) ht, ok_bind]
      have e2 : wr [conc s] 0 (conc (step A s (x.take (2 * w)))) = .ok [conc (step A s (x.take (2 * w)))] := rfl
      rw [e2, ok_bind]
      have hl : x.length - 2 * w = (x.drop (2 * w)).length := by rw [List.length_drop]
      rw [hl]
      obtain ⟨io', h1, h2⟩ := ih (x.drop (2 * w)).length (by rw [List.length_drop]; omega) (x.drop (2 * w)) (io + 2 * w) (step A s (x.take (2 * w)))
        { o with dgt := [conc (step A s (x.take (2 * w)))] } rfl (hx.dropN (by omega)) rfl
      refine ⟨io', ?_, ?_⟩
      · rw [h1, lazy.eq_def _ _ s x, if_pos ⟨by omega, h⟩]
      · rw [lazy.eq_def _ _ s x, if_pos ⟨by omega, h⟩]; exact h2
    · refine ⟨io, ?_, ?_⟩
      · rw [Obj.loopSeq, if_neg (by omega), lazy_short (by omega), ← hd]
        rfl
      · rw [lazy_short (by omega)]; exact hx

theorem store_ok {inp x r : List Byte} {io : Nat} {s : Ghost w} {o : Obj w} (h : Absorbed s r o) (hx : Holds inp io x) (hl : r.length + x.length ≤ 2 * w) :
    ∃ o', Obj.store inp (o, io, x.length) = .ok o' ∧ Absorbed s (r ++ x) o' ∧ o'.par = o.par ∧ o'.min = o.min := by
  obtain ⟨q, hq⟩ := h.buf
  have hs := h.size
  rw [hq, List.length_append] at hs
  by_cases h0 : x.length = 0
  · have : x = [] := List.length_eq_zero_iff.mp h0
    subst this
    refine ⟨o, rfl, ?_, rfl, rfl⟩
    rw [List.append_nil]; exact h
  · rw [Obj.store, if_pos h0]
    simp only
    have e : o.buf = r ++ q.take x.length ++ q.drop x.length := by rw [hq, List.append_assoc, List.take_append_drop]
    rw [e, copy_at hx h.len rfl (by rw [List.length_take]; omega), ok_bind]
    refine ⟨_, rfl, ⟨h.fan, h.dgt, ?_, ?_, ⟨q.drop x.length, by simp only [List.append_assoc]⟩, ?_⟩, rfl, rfl⟩
    · show o.len + x.length = _
      rw [h.len, List.length_append]
    · rw [List.length_append]; exact hl
    · show (r ++ x ++ q.drop x.length).length = _
      simp only [List.length_append, List.length_drop]; omega

/-- `Update` absorbs its input lazily. -/
theorem update_ok (g : C.Good A) {inp x r : List Byte} {io : Nat} {s : Ghost w} {o : Obj w} (h : Absorbed s r o) (hx : Holds inp io x) (hx64 : x.length < 2 ^ 64) :
    ∃ o', o.update C inp io x.length = .ok o' ∧ Absorbed (lazy (2 * w) (step A) s (r ++ x)).1 (lazy (2 * w) (step A) s (r ++ x)).2 o' ∧ o'.par = o.par ∧ o'.min = o.min := by
  have h0 := g.pos
  have hsm := g.small
  have hfan : ¬ o.fan > 1 := by rw [Obj.fan, h.fan]; decide
  by_cases hz : x.length = 0
  · have : x = [] := List.length_eq_zero_iff.mp hz
    subst this
    refine ⟨o, rfl, ?_, rfl, rfl⟩
    rw [List.append_nil, lazy_short h.le]; exact h
  · rw [Obj.update, if_pos hz, if_neg hfan]
    by_cases hb : r.length + x.length > 2 * w
    · obtain ⟨q, hq⟩ := h.buf
      have hs := h.size
      rw [hq, List.length_append] at hs
      have hle := h.le
      have hrm : Mac.subU (2 * w) o.len = 2 * w - r.length := by rw [h.len, Mac.subU_le h.le (by omega)]
      have hln : Mac.subU x.length (2 * w - r.length) = (x.drop (2 * w - r.length)).length := by rw [Mac.subU_le (by omega) hx64, List.length_drop]
      have ht : (x.take (2 * w - r.length)).length = 2 * w - r.length := by rw [List.length_take]; omega
      have hcp : (if 2 * w - r.length ≠ 0 then copy inp io o.buf o.len (2 * w - r.length) else pure o.buf : M (List Byte)) = .ok (r ++ x.take (2 * w - r.length)) := by
        split
        · rw [hq, show r ++ q = r ++ q ++ [] from by simp, copy_at (hx.takeN (2 * w - r.length)) h.len ht.symm (by omega), List.append_nil]
        · rename_i hn
          have hn : 2 * w - r.length = 0 := by omega
          have : q = [] := List.length_eq_zero_iff.mp (by omega)
          rw [hn, hq, this, List.take_zero]; rfl
      have hbl : (r ++ x.take (2 * w - r.length)).length = 2 * w := by rw [List.length_append]; omega
      have hf : o.fillSeq C inp io x.length =
          .ok ({ o with buf := r ++ x.take (2 * w - r.length), dgt := [conc (step A s (r ++ x.take (2 * w - r.length)))], len := 0 }, io + (2 * w - r.length),
            (x.drop (2 * w - r.length)).length) := by
        rw [Obj.fillSeq, if_pos (by rw [h.len]; exact hb)]
        simp only [hrm, hln]
        rw [hcp, ok_bind, h.dgt]
        have e1 : rd [conc s] 0 = .ok (conc s) := rfl
        rw [e1, ok_bind, absorb_ok g (Holds.self _) hbl, ok_bind]
        rfl
      rw [hf, ok_bind]
      simp only
      obtain ⟨io', h1, h2⟩ := loopSeq_ok g _ (x.drop (2 * w - r.length)) (io + (2 * w - r.length)) (step A s (r ++ x.take (2 * w - r.length)))
        { o with buf := r ++ x.take (2 * w - r.length), dgt := [conc (step A s (r ++ x.take (2 * w - r.length)))], len := 0 } rfl (hx.dropN (by omega)) rfl
      rw [h1, ok_bind]
      have hlz : lazy (2 * w) (step A) s (r ++ x) = lazy (2 * w) (step A) (step A s (r ++ x.take (2 * w - r.length))) (x.drop (2 * w - r.length)) := by
        conv_lhs => rw [← List.take_append_drop (2 * w - r.length) x, ← List.append_assoc]
        exact lazy_cons (by omega) hbl (by intro e; have := congrArg List.length e; rw [List.length_drop] at this; simp at this; omega)
      rw [hlz]
      obtain ⟨o', h3, h4, h5, h6⟩ := store_ok (s := (lazy (2 * w) (step A) (step A s (r ++ x.take (2 * w - r.length))) (x.drop (2 * w - r.length))).1) (r := [])
        (o := { o with buf := r ++ x.take (2 * w - r.length), dgt := [conc (lazy (2 * w) (step A) (step A s (r ++ x.take (2 * w - r.length))) (x.drop (2 * w - r.length))).1], len := 0 })
        ⟨h.fan, rfl, rfl, by simp, ⟨_, rfl⟩, hbl⟩ h2 (by simpa using lazy_rest_le (by omega) _ _)
      exact ⟨o', h3, by simpa using h4, h5, h6⟩
    · have hf : o.fillSeq C inp io x.length = .ok (o, io, x.length) := by rw [Obj.fillSeq, if_neg (by rw [h.len]; exact hb)]; rfl
      have hl : o.loopSeq C inp io x.length = .ok (o, io, x.length) := by rw [Obj.loopSeq, if_neg (by omega)]; rfl
      rw [hf, ok_bind, hl, ok_bind, lazy_short (by rw [List.length_append]; omega)]
      exact store_ok h hx (by omega)

/-! ## Output -/

theorem put8_ok (g : C.Good A) (h : Fin 8 → BitVec w) (pre junk post : List Byte) (hj : junk.length = w) :
    C.put (List.ofFn h) (pre ++ junk ++ post) pre.length = .ok (pre ++ bytes h ++ post) := by
  have h8 := g.h8
  have hlen : ∀ j, ((((List.ofFn h).take j)).flatMap fun x => leEnc (w / 8) x.toNat).length = min j 8 * (w / 8) := by
    intro j
    have : ∀ l : List (BitVec w), (l.flatMap fun x => leEnc (w / 8) x.toNat).length = l.length * (w / 8) := by
      intro l
      induction l with
      | nil => simp
      | cons a l ih => rw [List.flatMap_cons, List.length_append, ih, leEnc_length, List.length_cons, Nat.add_mul, Nat.one_mul, Nat.add_comm]
    rw [this, List.length_take, List.length_ofFn]
  obtain ⟨o, h1, q, h2, h3⟩ := loopN_inv (f := fun i out => do C.putw (← rd (List.ofFn h) i) out (pre.length + i * (w / 8)))
    (fun j out => ∃ q, out = pre ++ (((List.ofFn h).take j).flatMap fun x => leEnc (w / 8) x.toNat) ++ q ++ post ∧ q.length = (8 - j) * (w / 8)) 8 0 (pre ++ junk ++ post)
    (by
      rintro j s _ hj8 ⟨q, rfl, hq⟩
      have hj8 : j < 8 := by omega
      have hm : (8 - j) * (w / 8) = w / 8 + (8 - (j + 1)) * (w / 8) := by
        obtain rfl | rfl | rfl | rfl | rfl | rfl | rfl | rfl : j = 0 ∨ j = 1 ∨ j = 2 ∨ j = 3 ∨ j = 4 ∨ j = 5 ∨ j = 6 ∨ j = 7 := by omega
        all_goals omega
      rw [rd_ofFn _ _ hj8, ok_bind]
      have e : pre ++ (((List.ofFn h).take j).flatMap fun x => leEnc (w / 8) x.toNat) ++ q ++ post =
          (pre ++ (((List.ofFn h).take j).flatMap fun x => leEnc (w / 8) x.toNat)) ++ q.take (w / 8) ++ (q.drop (w / 8) ++ post) := by
        simp only [List.append_assoc]
        rw [← List.append_assoc (q.take (w / 8)), List.take_append_drop]
      rw [e, g.put _ _ _ _ _ (by rw [List.length_append, hlen, Nat.min_eq_left (by omega)]) (by rw [List.length_take]; omega)]
      refine ⟨_, rfl, q.drop (w / 8), ?_, by rw [List.length_drop]; omega⟩
      have ht : (List.ofFn h).take (j + 1) = (List.ofFn h).take j ++ [h ⟨j, hj8⟩] := by
        rw [List.take_add_one, List.getElem?_eq_getElem (by simpa using hj8), List.getElem_ofFn]; rfl
      rw [ht, List.flatMap_append]
      simp only [List.flatMap_cons, List.flatMap_nil, List.append_nil, List.append_assoc])
    ⟨junk, by simp, by omega⟩
  have hq : q = [] := List.length_eq_zero_iff.mp (by rw [h3]; simp)
  rw [Core.put, h1, h2, hq, bytes, List.append_nil, List.take_of_length_le (by simp)]

/-- The key-dependent part of the parameters of a sequential object. -/
def seqParams (w kk : Nat) : Params :=
  ⟨BitVec.ofNat 8 w, BitVec.ofNat 8 kk, 1, 1, 0, 0, 0, 0, 0, List.replicate (codeMax (BitVec.ofNat 8 w)) 0⟩

theorem loadState_ok (g : C.Good A) {kk : Nat} (hk : kk < 256) {cfg : List (BitVec w)} (h8 : cfg.length = 8) (h3 : cfg[3]? = some 0) :
    ∃ cfg', C.loadState (seqParams w kk) cfg = .ok (cfg', conc (init w kk w, 0)) := by
  have hc := g.config kk cfg hk h8 h3
  refine ⟨List.ofFn fun i : Fin 8 => if i = 0 then BitVec.ofNat w 0x01010000 ^^^ BitVec.ofNat w (kk * 256) ^^^ BitVec.ofNat w w else 0, ?_⟩
  · rw [Core.loadState, seqParams, hc, ok_bind, g.iv, Core.xorConfig, mapM_range 8 _ (init w kk w), ok_bind]
    · rfl
    · intro i hi
      rw [rd_ofFn _ _ hi, ok_bind, rd_ofFn _ _ hi, ok_bind, pure_eq_ok, init]
      by_cases h0 : i = 0
      · subst h0
        simp only [show (⟨0, hi⟩ : Fin 8) = 0 from rfl, if_true, BitVec.xor_assoc]
      · have : (⟨i, hi⟩ : Fin 8) ≠ 0 := by intro e; exact h0 (congrArg Fin.val e)
        rw [if_neg this, if_neg this]
        exact congrArg _ BitVec.xor_zero

/-! ## The functions of the class on a sequential object -/

/-- The object is sequential with key length field `kk` and has absorbed `d`. -/
def Inv (A : Alg w) (o : Obj w) (kk : Nat) (d : List Byte) : Prop :=
  o.par = seqParams w kk ∧ kk < 256 ∧
    Absorbed (lazy (2 * w) (step A) (init w kk w, 0) d).1 (lazy (2 * w) (step A) (init w kk w, 0) d).2 o

theorem cfg0_ok : (Obj.cfg0 : List (BitVec w)).length = 8 ∧ (Obj.cfg0 : List (BitVec w))[3]? = some 0 := ⟨rfl, rfl⟩

theorem reset_ok (g : C.Good A) {o : Obj w} {kk : Nat} (hk : kk < 256) (hp : o.par = seqParams w kk) (x : St w) (hd : o.dgt = [x]) (hb : o.buf.length = 2 * w) :
    ∃ o', o.reset C = .ok o' ∧ Inv A o' kk [] ∧ o'.min = o.min := by
  have hfan : ¬ o.fan > 1 := by rw [Obj.fan, hp]; exact (by decide : ¬ (1 : Byte).toNat > 1)
  obtain ⟨cfg, h1⟩ := loadState_ok g hk cfg0_ok.1 cfg0_ok.2
  have hp0 : ({ o.par with nodeOffset := 0 } : Params) = seqParams w kk := by rw [hp]; rfl
  refine ⟨⟨[conc (init w kk w, 0)], List.replicate (2 * w) 0, 0, seqParams w kk, o.min⟩, ?_, ⟨rfl, hk, ?_⟩, rfl⟩
  · rw [Obj.reset, if_neg hfan]
    simp only [hp0, h1, hd, ok_bind]
    have e : wr [x] 0 (conc (init w kk w, 0)) = .ok [conc (init w kk w, 0)] := rfl
    rw [e, ok_bind, pure_eq_ok, ok_bind]
    simp only
    rw [Keccak.clear_all o.buf (2 * w) hb]
    rfl
  · rw [lazy_short (by simp)]
    exact ⟨rfl, rfl, rfl, by simp, ⟨List.replicate (2 * w) 0, rfl⟩, by simp⟩

theorem new_ok (g : C.Good A) (min : Nat) : ∃ o, Obj.newSeq C min = .ok o ∧ Inv A o 0 [] := by
  have hn : Params.new (BitVec.ofNat 8 w) 1 1 0 0 = .ok (seqParams w 0) := by
    rw [Params.new, if_neg (by rcases g.size with h | h <;> simp [h]), if_neg (by decide)]; rfl
  obtain ⟨o', h1, h2, _⟩ := reset_ok g (o := ⟨[⟨(0, 0), List.replicate 8 0, (0, 0)⟩], List.replicate (2 * w) 0, 0, seqParams w 0, min⟩) (kk := 0) (by decide) rfl _ rfl (by simp)
  refine ⟨o', ?_, h2⟩
  rw [Obj.newSeq, hn, ok_bind]
  exact h1

theorem update_inv (g : C.Good A) {o : Obj w} {kk : Nat} {d : List Byte} (h : Inv A o kk d) (x : Window) :
    ∃ o', o.update C x.buf x.off x.len = .ok o' ∧ Inv A o' kk (d ++ x.bytes) := by
  have hb : x.bytes.length = x.len := x.bytes_length
  have hl : x.bytes.length < 2 ^ 64 := by have := x.holds.le; have := x.size; omega
  obtain ⟨o', h1, h2, h3, _⟩ := update_ok g h.2.2 x.holds hl
  rw [hb] at h1
  refine ⟨o', h1, h3.trans h.1, h.2.1, ?_⟩
  rw [lazy_append]
  exact h2

/-- `Finalize` writes the digest of the absorbed data, with a counter that loses its high word, and resets the object. -/
theorem finalize_inv (g : C.Good A) {o : Obj w} {kk : Nat} {d : List Byte} (h : Inv A o kk d) (pre junk post : List Byte) (hj : junk.length = w)
    (hsz : (pre ++ junk ++ post).length < 2 ^ 64) :
    ∃ o', o.finalize C (pre ++ junk ++ post) pre.length = .ok (o', pre ++ A.digest (cnt0 w) kk d ++ post) ∧ Inv A o' kk [] := by
  obtain ⟨hp, hk, ha⟩ := h
  obtain ⟨q, hq⟩ := ha.buf
  have hsm := g.small
  have hs := ha.size
  have hfan : ¬ o.fan > 1 := by rw [Obj.fan, hp]; exact (by decide : ¬ (1 : Byte).toNat > 1)
  have hle : pre.length ≤ (pre ++ junk ++ post).length := by simp only [List.length_append]; omega
  have hdg := blocks_lazy A g.pos false d (init w kk w, 0)
  obtain ⟨s, hse⟩ : ∃ s, s = (lazy (2 * w) (step A) (init w kk w, 0) d).1 := ⟨_, rfl⟩
  obtain ⟨r, hre⟩ : ∃ r, r = (lazy (2 * w) (step A) (init w kk w, 0) d).2 := ⟨_, rfl⟩
  simp only at hdg
  rw [← hse, ← hre] at ha hdg
  rw [← hre] at hq
  rw [hq, List.length_append] at hs
  have hlr := ha.le
  have hpad : (if Mac.subU o.buf.length o.len > 0 then clear o.buf o.len (Mac.subU o.buf.length o.len) else pure o.buf : M (List Byte)) = .ok (pad w r) := by
    rw [ha.len, Mac.subU_le (by rw [ha.size]; exact hlr) (by rw [ha.size]; omega), ha.size, hq, pad]
    split
    · rw [clear, if_neg (by omega), show r ++ q = r ++ q ++ [] from by simp, blit_at rfl (by simp; omega)]
      simp
    · have : q = [] := List.length_eq_zero_iff.mp (by omega)
      rw [this, show 2 * w - r.length = 0 from by omega]; rfl
  have hpl : (pad w r).length = 2 * w := by rw [pad, List.length_append, List.length_replicate]; omega
  have hperm := permute_ok g (Holds.self (pad w r)) hpl s.1 (cnt0 w (s.2 + r.length)) true false
  have hfin : o.finalSeq C (pre ++ junk ++ post) pre.length =
      .ok ({ o with buf := pad w r, dgt := [⟨(Obj.flag, 0), List.ofFn (A.blocks (cnt0 w) false (init w kk w) 0 d), cnt0 w (s.2 + r.length)⟩] }, pre ++ A.digest (cnt0 w) kk d ++ post) := by
    rw [Obj.finalSeq, hpad, ok_bind, ha.dgt]
    have e1 : rd [conc s] 0 = .ok (conc s) := rfl
    rw [e1, ok_bind]
    simp only [conc, incr_eq, ha.len]
    have e2 : C.permute (pad w r) 0 ⟨(Obj.flag, 0), List.ofFn s.1, cnt0 w (s.2 + r.length)⟩ =
        .ok ⟨(Obj.flag, 0), List.ofFn (A.blocks (cnt0 w) false (init w kk w) 0 d), cnt0 w (s.2 + r.length)⟩ := by rw [hdg]; exact hperm
    rw [e2, ok_bind]
    have e3 : ∀ x y : St w, wr [x] 0 y = .ok [y] := fun _ _ => rfl
    rw [e3, ok_bind, put8_ok g _ _ _ _ hj]
    rfl
  obtain ⟨o', h4, h5, _⟩ := reset_ok g (o := { o with buf := pad w r, dgt := [⟨(Obj.flag, 0), List.ofFn (A.blocks (cnt0 w) false (init w kk w) 0 d), cnt0 w (s.2 + r.length)⟩] })
    hk hp _ rfl hpl
  refine ⟨o', ?_, h5⟩
  rw [Obj.finalize, Mac.subU_le hle hsz, if_neg (by simp only [List.length_append]; omega), if_neg hfan, hfin, ok_bind, h4]
  rfl

/-- The salt and info words that `Initialize` puts into the configuration. -/
theorem saltConfig_ok (g : C.Good A) {iv info : List Byte} (h1 : iv.length = 0 ∨ iv.length = C.salt) (h2 : info.length = 0 ∨ info.length = C.salt) :
    ∃ cfg, Obj.saltConfig C iv info = .ok cfg ∧ cfg.length = 8 ∧ cfg[3]? = some 0 := by
  have hs := g.salt
  have hget : ∀ (x : List Byte) (n : Nat), x.length = 2 * (w / 8) → (n = 0 ∨ n = w / 8) → ∃ v, C.getw x n = .ok v := by
    intro x n hx hn
    refine ⟨_, g.get (s := (x.drop n).take (w / 8)) ?_ ?_⟩
    · have := ((Holds.self x).dropN (n := n) (by omega)).takeN (w / 8)
      rwa [Nat.zero_add] at this
    · rw [List.length_take, List.length_drop]; omega
  have hiv : ∃ cfg : List (BitVec w), (if iv.length ≠ 0 then
      if iv.length ≠ C.salt then throw (.throws .invalidNonce)
      else do
        let c ← wr Obj.cfg0 4 (← C.getw iv 0)
        wr c 5 (← C.getw iv (w / 8))
    else pure Obj.cfg0 : M (List (BitVec w))) = .ok cfg ∧ cfg.length = 8 ∧ cfg[3]? = some 0 := by
    by_cases h0 : iv.length = 0
    · exact ⟨Obj.cfg0, by rw [if_neg (by omega)]; rfl, rfl, rfl⟩
    · have hi : iv.length = C.salt := by omega
      obtain ⟨a, ha⟩ := hget iv 0 (by omega) (Or.inl rfl)
      obtain ⟨b, hb⟩ := hget iv (w / 8) (by omega) (Or.inr rfl)
      refine ⟨[0, 0, 0, 0, a, b, 0, 0], ?_, rfl, rfl⟩
      rw [if_pos h0, if_neg (by omega), ha, ok_bind, hb]; rfl
  obtain ⟨cfg, e, hl, h3⟩ := hiv
  rw [Obj.saltConfig]
  simp only [e, ok_bind]
  by_cases h0 : info.length = 0
  · exact ⟨cfg, by rw [if_neg (by omega)]; rfl, hl, h3⟩
  · have hi : info.length = C.salt := by omega
    obtain ⟨a, ha⟩ := hget info 0 (by omega) (Or.inl rfl)
    obtain ⟨b, hb⟩ := hget info (w / 8) (by omega) (Or.inr rfl)
    refine ⟨(cfg.set 6 a).set 7 b, ?_, by simp [hl], by simp [h3]⟩
    rw [if_pos h0, if_neg (by omega), ha, ok_bind, wr_ok _ (by omega), ok_bind, hb, ok_bind, wr_ok _ (by simp [hl])]

/-- `Initialize` starts a keyed hash: the state of a fresh object with the key length set that has absorbed the padded key. -/
theorem initKey_inv (g : C.Good A) {o : Obj w} {kk : Nat} {d : List Byte} (h : Inv A o kk d) {key iv info : List Byte} (hk : C.minKey ≤ key.length) (hk2 : key.length ≤ C.maxKey)
    (h1 : iv.length = 0 ∨ iv.length = C.salt) (h2 : info.length = 0 ∨ info.length = C.salt) :
    o.initKey C key iv info = .ok ⟨[conc (init w key.length w, 0)], pad w key, 2 * w, seqParams w key.length, o.min⟩ := by
  obtain ⟨hp, _, ha⟩ := h
  have hkk := g.keys
  have hsm := g.small
  have hfan : ¬ o.fan > 1 := by rw [Obj.fan, hp]; exact (by decide : ¬ (1 : Byte).toNat > 1)
  obtain ⟨cfg, e1, e2, e3⟩ := saltConfig_ok g h1 h2
  obtain ⟨cfg', e4⟩ := loadState_ok g (kk := key.length) (by omega) e2 e3
  have hmin : Nat.min key.length (2 * w) = key.length := Nat.min_eq_left (by omega)
  have hr : (List.replicate (2 * w) 0 : List Byte) = [] ++ List.replicate key.length 0 ++ List.replicate (2 * w - key.length) 0 := by
    rw [List.nil_append, ← List.replicate_add]; congr 1; omega
  have hm : copy key 0 (List.replicate (2 * w) 0) 0 (Nat.min key.length (2 * w)) = .ok (pad w key) := by
    rw [hmin, hr, copy_at (a := []) (off := 0) (Holds.self key) rfl rfl (by simp)]; rfl
  have hpl : (pad w key).length = 2 * w := by rw [pad, List.length_append, List.length_replicate]; omega
  have hp2 : ({ o.par with keyLen := BitVec.ofNat 8 key.length } : Params) = seqParams w key.length := by rw [hp]; rfl
  have hb : copy (pad w key) 0 o.buf 0 (pad w key).length = .ok (pad w key) := copy_whole (Holds.self _) rfl (by rw [ha.size, hpl])
  rw [Obj.initKey, if_neg (by omega), e1, ok_bind, hm, ok_bind]
  simp only [hp2]
  rw [if_neg (show ¬ (⟨o.dgt, o.buf, o.len, seqParams w key.length, o.min⟩ : Obj w).fan > 1 from (by decide : ¬ (1 : Byte).toNat > 1)), hb, ok_bind, e4, ok_bind, ha.dgt]
  rfl

theorem keyed_inv (g : C.Good A) {key : List Byte} (hk2 : key.length ≤ C.maxKey) (min : Nat) :
    Inv A ⟨[conc (init w key.length w, 0)], pad w key, 2 * w, seqParams w key.length, min⟩ key.length (pad w key) := by
  have hkk := g.keys
  have hsm := g.small
  have hpl : (pad w key).length = 2 * w := by rw [pad, List.length_append, List.length_replicate]; omega
  refine ⟨rfl, by omega, ?_⟩
  rw [lazy_short (by omega)]
  exact ⟨rfl, rfl, hpl.symm, le_of_eq hpl, ⟨[], by simp⟩, hpl⟩

/-! ## The counter -/

/-- The blocks depend on the counter only up to the length of the data. -/
theorem blocks_cnt (A : Alg w) (h0 : 0 < w) (f1 : Bool) {c1 c2 : Nat → BitVec w × BitVec w} : ∀ (d : List Byte) (h : Fin 8 → BitVec w) (t : Nat), (∀ u ≤ t + d.length, c1 u = c2 u) →
    A.blocks c1 f1 h t d = A.blocks c2 f1 h t d := by
  intro d
  induction hn : d.length using Nat.strongRecOn generalizing d with
  | ind n ih =>
    intro h t hc
    by_cases hl : 2 * w < d.length
    · rw [Alg.blocks, if_pos ⟨h0, hl⟩, Alg.blocks.eq_def _ c2, if_pos ⟨h0, hl⟩, hc (t + 2 * w) (by omega)]
      exact ih (d.drop (2 * w)).length (by rw [List.length_drop]; omega) _ rfl _ _ (fun u hu => hc u (by rw [List.length_drop] at hu; omega))
    · rw [Alg.blocks, if_neg (by omega), Alg.blocks.eq_def _ c2, if_neg (by omega), hc _ (by omega)]

theorem digest_cnt (A : Alg w) (h0 : 0 < w) (kk : Nat) (d : List Byte) (hd : d.length < 2 ^ w) : A.digest (cnt0 w) kk d = A.digest (counter w) kk d := by
  rw [Alg.digest, Alg.digest, blocks_cnt A h0 false d (init w kk w) 0]
  intro u hu
  rw [cnt0, counter, Nat.div_eq_of_lt (by omega)]; rfl

/-! ## The two classes -/

theorem config32_ok (kk : Nat) (hk : kk < 256) (cfg : List (BitVec 32)) (h8 : cfg.length = 8) (h3 : cfg[3]? = some 0) :
    getConfig32 ⟨32, BitVec.ofNat 8 kk, 1, 1, 0, 0, 0, 0, 0, List.replicate 12 0⟩ cfg =
      .ok (List.ofFn fun i : Fin 8 => if i = 0 then BitVec.ofNat 32 0x01010000 ^^^ BitVec.ofNat 32 (kk * 256) ^^^ BitVec.ofNat 32 32 else 0) := by
  match cfg, h8 with
  | [a, b, c, d, e, f, x, y], _ =>
    have hd : d = 0 := by simpa using h3
    subst hd
    have key : ∀ kk < 256, ((32 : Byte).setWidth 32 ||| ((BitVec.ofNat 8 kk).setWidth 32 <<< 8) ||| ((1 : Byte).setWidth 32 <<< 16) ||| ((1 : Byte).setWidth 32 <<< 24) : BitVec 32) =
        BitVec.ofNat 32 0x01010000 ^^^ BitVec.ofNat 32 (kk * 256) ^^^ BitVec.ofNat 32 32 := by decide +kernel
    rw [getConfig32]
    simp only [key kk hk]
    rfl

theorem config64_ok (kk : Nat) (hk : kk < 256) (cfg : List (BitVec 64)) (h8 : cfg.length = 8) :
    getConfig64 ⟨64, BitVec.ofNat 8 kk, 1, 1, 0, 0, 0, 0, 0, List.replicate 40 0⟩ cfg =
      .ok (List.ofFn fun i : Fin 8 => if i = 0 then BitVec.ofNat 64 0x01010000 ^^^ BitVec.ofNat 64 (kk * 256) ^^^ BitVec.ofNat 64 64 else 0) := by
  match cfg, h8 with
  | [a, b, c, d, e, f, x, y], _ =>
    have key : ∀ kk < 256, ((64 : Byte).setWidth 64 ||| ((BitVec.ofNat 8 kk).setWidth 64 <<< 8) ||| ((1 : Byte).setWidth 64 <<< 16) ||| ((1 : Byte).setWidth 64 <<< 24) |||
          ((0 : BitVec 32).setWidth 64 <<< 32) : BitVec 64) =
        BitVec.ofNat 64 0x01010000 ^^^ BitVec.ofNat 64 (kk * 256) ^^^ BitVec.ofNat 64 64 := by decide +kernel
    rw [getConfig64]
    simp only [key kk hk]
    rfl

theorem rep_enc (n : Nat) (v : BitVec w) : leRep n v = leEnc n v.toNat := eq_leEnc (leRep_length n v) (leVal_leRep n v)

theorem iv256_eq : iv256 = List.ofFn (IV 32) := by decide +kernel
theorem iv512_eq : iv512 = List.ofFn (IV 64) := by decide +kernel

theorem core256_good (compact : Bool) : (core256 compact).Good alg2s where
  h8 := rfl
  pos := by decide
  small := by decide
  iv := iv256_eq
  perm := perm256_ok compact
  get := get32_ok
  put x pre junk post o ho hj := by
    show blit (pre ++ junk ++ post) o (leRep 4 x) = _
    rw [rep_enc, blit_at ho (by rw [leEnc_length]; exact hj.symm)]
  config kk cfg hk h8 h3 := config32_ok kk hk cfg h8 h3
  keys := ⟨Nat.succ_pos _, le_refl _⟩
  salt := rfl
  size := Or.inl rfl

theorem core512_good (compact : Bool) : (core512 compact).Good alg2b where
  h8 := rfl
  pos := by decide
  small := by decide
  iv := iv512_eq
  perm := perm512_ok compact
  get := get64_ok
  put x pre junk post o ho hj := by
    show blit (pre ++ junk ++ post) o (leRep 8 x) = _
    rw [rep_enc, blit_at ho (by rw [leEnc_length]; exact hj.symm)]
  config kk cfg hk h8 _ := config64_ok kk hk cfg h8
  keys := ⟨Nat.succ_pos _, le_refl _⟩
  salt := rfl
  size := Or.inr rfl

end Cex.Blake
