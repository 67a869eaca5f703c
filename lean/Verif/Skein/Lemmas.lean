import Verif.Skein.Model
import Verif.Skein.Spec
import Verif.Blake.Lemmas

/-!
# The sequential Skein objects
-/

namespace Cex.Skein
open Cex Cex.IntTools Cex.Skein.Paper Cex.Stream

/-- What the proofs need to know of a class. -/
structure Core.Good (C : Core) (E : Tbc C.n) : Prop where
  pos : 0 < C.n
  small : C.n ≤ 16
  perm : ∀ K P T, C.perm (List.ofFn K) T (List.ofFn P) = .ok (List.ofFn (E K T P))
  size : C.rate = 32 ∨ C.rate = 64 ∨ C.rate = 128
  config : (Params.new C.rate 0 0 >>= C.config) = .ok (List.ofFn (words C.n (pad C.n (Paper.config (64 * C.n) 0 0 0))))

/-! ## Tweaks -/

/-- The tweak of the code: the position is taken modulo `2^64`. -/
def mtw (type pos : Nat) (first final : Bool) : W × W :=
  (BitVec.ofNat 64 pos, BitVec.ofNat 64 (type * 2 ^ 56 + (if first then 2 ^ 62 else 0) + (if final then 2 ^ 63 else 0)))

theorem startNew_eq {ty : Nat} (h : ty < 64) : startNew ty = mtw ty 0 true false := by
  have : ∀ ty : Fin 64, startNew ty.val = mtw ty.val 0 true false := by decide +kernel
  exact this ⟨ty, h⟩

theorem setFinal_eq {ty : Nat} (h : ty < 64) (t : Nat) (f l : Bool) : setFinal (mtw ty t f l) = mtw ty t f true := by
  have : ∀ ty : Fin 64, ∀ f l : Bool, (setFinal (mtw ty.val 0 f l)).2 = (mtw ty.val 0 f true).2 := by decide +kernel
  exact Prod.ext rfl (this ⟨ty, h⟩ f l)

theorem clearFirst_eq {ty : Nat} (h : ty < 64) (t : Nat) (f l : Bool) :
    (if isFirst (mtw ty t f l) then setFirst (mtw ty t f l) false else mtw ty t f l) = mtw ty t false l := by
  have : ∀ ty : Fin 64, ∀ f l : Bool, (if isFirst (mtw ty.val 0 f l) then (setFirst (mtw ty.val 0 f l) false).2 else (mtw ty.val 0 f l).2) = (mtw ty.val 0 false l).2 := by
    decide +kernel
  have h2 := this ⟨ty, h⟩ f l
  have hf : isFirst (mtw ty t f l) = isFirst (mtw ty 0 f l) := rfl
  rw [hf]
  by_cases hb : isFirst (mtw ty 0 f l) = true
  · rw [if_pos hb] at h2 ⊢
    exact Prod.ext rfl h2
  · rw [if_neg hb] at h2 ⊢
    exact Prod.ext rfl h2

theorem increase_eq (ty t n : Nat) (f l : Bool) : Core.increase (mtw ty t f l) n = mtw ty (t + n) f l := by
  refine Prod.ext ?_ rfl
  exact (BitVec.ofNat_add ..).symm

theorem tweak_eq {ty pos : Nat} (h : pos < 2 ^ 64) (f l : Bool) : tweak ty pos f l = mtw ty pos f l := by
  refine Prod.ext ?_ ?_
  · apply BitVec.eq_of_toNat_eq
    simp only [tweak, mtw, BitVec.toNat_ofNat]
    cases f <;> cases l <;> simp <;> omega
  · simp only [tweak, mtw]
    refine congrArg (BitVec.ofNat 64) ?_
    cases f <;> cases l <;> simp <;> omega

variable {C : Core} {E : Tbc C.n}

/-! ## Words and bytes -/

theorem load_ok {inp b : List Byte} {io : Nat} (hb : Holds inp io b) (hl : b.length = 8 * C.n) : C.load inp io = .ok (List.ofFn (words C.n b)) := by
  refine Blake.mapM_range _ _ _ fun i hi => ?_
  refine (Blake.core512_good false).get (s := (b.drop (i * 8)).take 8) ?_ ?_
  · exact (hb.dropN (by omega)).takeN 8
  · rw [List.length_take, List.length_drop]; omega

theorem xorW_ok (a b : Fin C.n → W) : C.xorW (List.ofFn a) (List.ofFn b) = .ok (List.ofFn fun i => b i ^^^ a i) := by
  refine Blake.mapM_range _ _ _ fun i hi => ?_
  rw [Blake.rd_ofFn _ _ hi, ok_bind, Blake.rd_ofFn _ _ hi]
  rfl

theorem flat_length (l : List W) : (l.flatMap fun x => leEnc 8 x.toNat).length = l.length * 8 := by
  induction l with
  | nil => simp
  | cons a l ih => rw [List.flatMap_cons, List.length_append, ih, leEnc_length, List.length_cons]; omega

theorem bytes_length {n : Nat} (h : Fin n → W) : (bytes h).length = 8 * n := by
  rw [bytes, flat_length, List.length_ofFn, Nat.mul_comm]

theorem put_ok (h : Fin C.n → W) (pre junk post : List Byte) (hj : junk.length = 8 * C.n) :
    C.put (List.ofFn h) (pre ++ junk ++ post) pre.length = .ok (pre ++ bytes h ++ post) := by
  obtain ⟨o, h1, q, h2, h3⟩ := loopN_inv (f := fun i out => do le64ToBytes (← rd (List.ofFn h) i) out (pre.length + i * 8))
    (fun j out => ∃ q, out = pre ++ (((List.ofFn h).take j).flatMap fun x => leEnc 8 x.toNat) ++ q ++ post ∧ q.length = (C.n - j) * 8) C.n 0 (pre ++ junk ++ post)
    (by
      rintro j s _ hj8 ⟨q, rfl, hq⟩
      have hj8 : j < C.n := by omega
      rw [Blake.rd_ofFn _ _ hj8, ok_bind]
      have e : pre ++ (((List.ofFn h).take j).flatMap fun x => leEnc 8 x.toNat) ++ q ++ post =
          (pre ++ (((List.ofFn h).take j).flatMap fun x => leEnc 8 x.toNat)) ++ q.take 8 ++ (q.drop 8 ++ post) := by
        simp only [List.append_assoc]
        rw [← List.append_assoc (q.take 8), List.take_append_drop]
      have hput := (Blake.core512_good false).put (h ⟨j, hj8⟩) (pre ++ (((List.ofFn h).take j).flatMap fun x => leEnc 8 x.toNat)) (q.take 8) (q.drop 8 ++ post) (pre.length + j * 8)
        (by rw [List.length_append, flat_length, List.length_take, List.length_ofFn, Nat.min_eq_left (by omega)]) (by rw [List.length_take]; omega)
      rw [e]
      refine ⟨_, hput, q.drop 8, ?_, by rw [List.length_drop]; omega⟩
      have ht : (List.ofFn h).take (j + 1) = (List.ofFn h).take j ++ [h ⟨j, hj8⟩] := by
        rw [List.take_add_one, List.getElem?_eq_getElem (by simpa using hj8), List.getElem_ofFn]; rfl
      rw [ht, List.flatMap_append]
      simp only [List.flatMap_cons, List.flatMap_nil, List.append_nil, List.append_assoc])
    ⟨junk, by simp, by omega⟩
  have hq : q = [] := List.length_eq_zero_iff.mp (by rw [h3]; simp)
  rw [Core.put, h1, h2, hq, bytes, List.append_nil, List.take_of_length_le (by simp)]

/-! ## Blocks -/

theorem permute_ok (g : C.Good E) (m h : Fin C.n → W) (V : List W) (T : W × W) : C.permute (List.ofFn m) ⟨List.ofFn h, V, T⟩ = .ok ⟨List.ofFn (E h T m), V, T⟩ := by
  rw [Core.permute, g.perm]; rfl

/-- `ProcessBlock` is one block of UBI. -/
theorem processBlock_ok (g : C.Good E) {inp b : List Byte} {io : Nat} (hb : Holds inp io b) (hl : b.length = 8 * C.n) (len : Nat) (h : Fin C.n → W) (V : List W)
    {ty : Nat} (hty : ty < 64) (t : Nat) (f l : Bool) :
    C.processBlock inp io len ⟨List.ofFn h, V, mtw ty t f l⟩ = .ok ⟨List.ofFn (block E h (mtw ty (t + len) f l) (words C.n b)), V, mtw ty (t + len) false l⟩ := by
  rw [Core.processBlock]
  dsimp only
  rw [load_ok hb hl, ok_bind, increase_eq, permute_ok g, ok_bind]
  dsimp only
  rw [xorW_ok, ok_bind, clearFirst_eq hty]
  rfl

/-- Chaining value and number of bytes processed. -/
abbrev Ghost (n : Nat) := (Fin n → W) × Nat

/-- A state in the middle of a message. -/
def conc {n : Nat} (V : List W) (g : Ghost n) : St := ⟨List.ofFn g.1, V, mtw tMsg g.2 (g.2 = 0) false⟩

/-- One block that is not the last. -/
def step {n : Nat} (E : Tbc n) (s : Ghost n) (b : List Byte) : Ghost n := (block E s.1 (mtw tMsg (s.2 + 8 * n) (s.2 = 0) false) (words n b), s.2 + 8 * n)

theorem absorb_ok (g : C.Good E) {inp b : List Byte} {io : Nat} (hb : Holds inp io b) (hl : b.length = 8 * C.n) (V : List W) (s : Ghost C.n) :
    C.processBlock inp io C.rate (conc V s) = .ok (conc V (step E s b)) := by
  have h0 := g.pos
  rw [conc, processBlock_ok g hb hl _ _ _ (by decide), conc, step]
  have : decide (s.2 + 8 * C.n = 0) = false := decide_eq_false (by omega)
  simp only [this]
  rfl

/-- The last block. -/
def last {n : Nat} (E : Tbc n) (s : Ghost n) (r : List Byte) : Fin n → W := block E s.1 (mtw tMsg (s.2 + r.length) (s.2 = 0) true) (words n (pad n r))

theorem ubi_lazy {n : Nat} (E : Tbc n) (h0 : 0 < n) : ∀ (d : List Byte) (s : Ghost n),
    ubiFrom E (mtw tMsg) s.1 s.2 d = last E (lazy (8 * n) (step E) s d).1 (lazy (8 * n) (step E) s d).2 := by
  intro d
  induction hn : d.length using Nat.strongRecOn generalizing d with
  | ind k ih =>
    intro s
    by_cases h : 8 * n < d.length
    · rw [ubiFrom, if_pos ⟨h0, h⟩, lazy, if_pos ⟨by omega, h⟩]
      exact ih (d.drop (8 * n)).length (by rw [List.length_drop]; omega) (d.drop (8 * n)) rfl (step E s (d.take (8 * n)))
    · rw [ubiFrom, if_neg (by omega), lazy_short (by omega)]
      rfl

theorem pad_length {n : Nat} {r : List Byte} (h : r.length ≤ 8 * n) : (pad n r).length = 8 * n := by
  rw [pad, List.length_append, List.length_replicate]; omega

theorem output_eq (h0 : 0 < C.n) (G : Fin C.n → W) : output E G = block E G (mtw tOut 8 true true) (words C.n (List.replicate (8 * C.n) 0)) := by
  rw [output, ubi, ubiFrom, if_neg (by rw [leEnc_length]; omega), leEnc_length, tweak_eq (by decide), pad, leEnc_length]
  have : leEnc 8 0 ++ List.replicate (8 * C.n - 8) 0 = List.replicate (8 * C.n) (0 : Byte) := by
    have e : leEnc 8 0 = List.replicate 8 (0 : Byte) := by decide
    rw [e, ← List.replicate_add]; congr 1; omega
  rw [this]
  rfl

/-- The output function, as `HashFinal` does it. -/
theorem out_ok (g : C.Good E) (G : Fin C.n → W) (V : List W) :
    C.processBlock (List.replicate C.rate 0) 0 8 ⟨List.ofFn G, V, setFinal (startNew ubiOut)⟩ = .ok ⟨List.ofFn (output E G), V, mtw tOut 8 false true⟩ := by
  rw [startNew_eq (by decide), setFinal_eq (by decide), processBlock_ok g (Holds.self _) (by rw [List.length_replicate]; rfl) 8 G V (by decide), output_eq g.pos]
  rfl

/-- `HashFinal` on at most one block. -/
theorem hashFinal_ok (g : C.Good E) {inp r : List Byte} {io : Nat} (hb : Holds inp io (pad C.n r)) (hl : r.length ≤ 8 * C.n) (V : List W) (s : Ghost C.n) :
    C.hashFinal inp io r.length (conc V s) = .ok ⟨List.ofFn (output E (last E s r)), V, mtw tOut 8 false true⟩ := by
  have h0 := g.pos
  have hp := processBlock_ok g hb (pad_length hl) r.length s.1 V (ty := tMsg) (by decide) s.2 (s.2 = 0) true
  have hb1 : (if r.length ≠ 0 then C.finalBlocks inp io r.length ⟨List.ofFn s.1, V, mtw tMsg s.2 (s.2 = 0) true⟩
      else C.processBlock inp io 0 ⟨List.ofFn s.1, V, mtw tMsg s.2 (s.2 = 0) true⟩) =
      C.processBlock inp io r.length ⟨List.ofFn s.1, V, mtw tMsg s.2 (s.2 = 0) true⟩ := by
    split
    · rename_i hn
      have hm : C.chunk r.length = r.length := by
        rw [Core.chunk]
        split
        · rename_i h; rw [Core.rate] at h ⊢; omega
        · rfl
      rw [Core.finalBlocks, if_pos ⟨hn, h0⟩]
      simp only [hm]
      rw [hp, ok_bind, Core.finalBlocks, if_neg (by omega)]
      rfl
    · rename_i hn
      rw [show r.length = 0 from by omega]
  rw [Core.hashFinal, conc]
  dsimp only
  rw [setFinal_eq (by decide), hb1, hp, ok_bind]
  dsimp only
  exact out_ok g _ V

/-- The tweak of the code is that of the paper as long as the position fits into 64 bits. -/
theorem ubiFrom_tweak {n : Nat} (E : Tbc n) : ∀ (d : List Byte) (G : Fin n → W) (pos : Nat), pos + d.length < 2 ^ 64 →
    ubiFrom E (mtw tMsg) G pos d = ubiFrom E (tweak tMsg) G pos d := by
  intro d
  induction hn : d.length using Nat.strongRecOn generalizing d with
  | ind k ih =>
    intro G pos hl
    rw [ubiFrom, ubiFrom.eq_def _ (tweak tMsg)]
    by_cases h : 0 < n ∧ 8 * n < d.length
    · rw [if_pos h, if_pos h, tweak_eq (by omega)]
      exact ih (d.drop (8 * n)).length (by rw [List.length_drop]; omega) (d.drop (8 * n)) rfl _ _ (by rw [List.length_drop]; omega)
    · rw [if_neg h, if_neg h, tweak_eq (by omega)]

/-! ## Sequential objects -/

/-- The object is sequential, has processed up to the ghost state and holds the rest `r` in its buffer. -/
structure Absorbed (V : List W) (s : Ghost C.n) (r : List Byte) (o : Obj) : Prop where
  par : o.prof.isParallel = false
  dgt : o.dgt = [conc V s]
  len : o.len = r.length
  le : r.length ≤ 8 * C.n
  buf : ∃ q, o.buf = r ++ q
  size : o.buf.length = 8 * C.n

theorem loopSeq_ok (g : C.Good E) (V : List W) {inp : List Byte} : ∀ (k : Nat) (x : List Byte) (io : Nat) (s : Ghost C.n) (o : Obj), x.length = k → Holds inp io x → o.dgt = [conc V s] →
    ∃ io', o.loopSeq C inp io x.length = .ok ({ o with dgt := [conc V (lazy (8 * C.n) (step E) s x).1] }, io', (lazy (8 * C.n) (step E) s x).2.length) ∧
      Holds inp io' (lazy (8 * C.n) (step E) s x).2 := by
  intro k
  have h0 := g.pos
  induction k using Nat.strongRecOn with
  | ind k ih =>
    intro x io s o hn hx hd
    by_cases h : 8 * C.n < x.length
    · have ht : (x.take (8 * C.n)).length = 8 * C.n := by rw [List.length_take]; omega
      rw [Obj.loopSeq, if_pos ⟨h0, h⟩, hd]
      have e1 : rd [conc V s] 0 = .ok (conc V s) := rfl
      rw [e1, ok_bind, absorb_ok g (hx.takeN (8 * C.n)) ht, ok_bind]
      have e2 : wr [conc V s] 0 (conc V (step E s (x.take (8 * C.n)))) = .ok [conc V (step E s (x.take (8 * C.n)))] := rfl
      rw [e2, ok_bind]
      have hl : x.length - C.rate = (x.drop (8 * C.n)).length := by rw [List.length_drop]; rfl
      rw [hl]
      obtain ⟨io', h1, h2⟩ := ih (x.drop (8 * C.n)).length (by rw [List.length_drop]; omega) (x.drop (8 * C.n)) (io + 8 * C.n) (step E s (x.take (8 * C.n)))
        { o with dgt := [conc V (step E s (x.take (8 * C.n)))] } rfl (hx.dropN (by omega)) rfl
      refine ⟨io', ?_, ?_⟩
      · rw [lazy.eq_def _ _ s x, if_pos ⟨by omega, h⟩]; exact h1
      · rw [lazy.eq_def _ _ s x, if_pos ⟨by omega, h⟩]; exact h2
    · refine ⟨io, ?_, ?_⟩
      · rw [Obj.loopSeq, if_neg (by rw [Core.rate]; omega), lazy_short (by omega), ← hd]
        rfl
      · rw [lazy_short (by omega)]; exact hx

theorem store_ok {V : List W} {inp x r : List Byte} {io : Nat} {s : Ghost C.n} {o : Obj} (h : Absorbed V s r o) (hx : Holds inp io x) (hl : r.length + x.length ≤ 8 * C.n) :
    ∃ o', Obj.store inp (o, io, x.length) = .ok o' ∧ Absorbed V s (r ++ x) o' := by
  obtain ⟨q, hq⟩ := h.buf
  have hs := h.size
  rw [hq, List.length_append] at hs
  by_cases h0 : x.length = 0
  · have : x = [] := List.length_eq_zero_iff.mp h0
    subst this
    refine ⟨o, rfl, ?_⟩
    rw [List.append_nil]; exact h
  · rw [Obj.store, if_pos h0]
    simp only
    have e : o.buf = r ++ q.take x.length ++ q.drop x.length := by rw [hq, List.append_assoc, List.take_append_drop]
    rw [e, copy_at hx h.len rfl (by rw [List.length_take]; omega), ok_bind]
    refine ⟨_, rfl, ⟨h.par, h.dgt, ?_, ?_, ⟨q.drop x.length, by simp only [List.append_assoc]⟩, ?_⟩⟩
    · show o.len + x.length = _
      rw [h.len, List.length_append]
    · rw [List.length_append]; exact hl
    · show (r ++ x ++ q.drop x.length).length = _
      simp only [List.length_append, List.length_drop]; omega

/-- `Update` absorbs its input lazily. -/
theorem update_ok (g : C.Good E) {V : List W} {inp x r : List Byte} {io : Nat} {s : Ghost C.n} {o : Obj} (h : Absorbed V s r o) (hx : Holds inp io x) (hx64 : x.length < 2 ^ 64) :
    ∃ o', o.update C inp io x.length = .ok o' ∧ Absorbed V (lazy (8 * C.n) (step E) s (r ++ x)).1 (lazy (8 * C.n) (step E) s (r ++ x)).2 o' := by
  have h0 := g.pos
  have hsm := g.small
  have hpar : ¬ o.prof.isParallel = true := by rw [h.par]; decide
  by_cases hz : x.length = 0
  · have : x = [] := List.length_eq_zero_iff.mp hz
    subst this
    refine ⟨o, rfl, ?_⟩
    rw [List.append_nil, lazy_short h.le]; exact h
  · rw [Obj.update, if_pos hz, if_neg hpar]
    by_cases hb : r.length ≠ 0 ∧ r.length + x.length > 8 * C.n
    · obtain ⟨q, hq⟩ := h.buf
      have hs := h.size
      rw [hq, List.length_append] at hs
      have hle := h.le
      have hrm : Mac.subU C.rate o.len = 8 * C.n - r.length := by rw [h.len]; exact Mac.subU_le h.le (by rw [Core.rate]; omega)
      have hln : Mac.subU x.length (8 * C.n - r.length) = (x.drop (8 * C.n - r.length)).length := by rw [Mac.subU_le (by omega) hx64, List.length_drop]
      have ht : (x.take (8 * C.n - r.length)).length = 8 * C.n - r.length := by rw [List.length_take]; omega
      have hcp : (if 8 * C.n - r.length ≠ 0 then copy inp io o.buf o.len (8 * C.n - r.length) else pure o.buf : M (List Byte)) = .ok (r ++ x.take (8 * C.n - r.length)) := by
        split
        · rw [hq, show r ++ q = r ++ q ++ [] from by simp, copy_at (hx.takeN (8 * C.n - r.length)) h.len ht.symm (by omega), List.append_nil]
        · rename_i hn
          have hn : 8 * C.n - r.length = 0 := by omega
          have : q = [] := List.length_eq_zero_iff.mp (by omega)
          rw [hn, hq, this, List.take_zero]; rfl
      have hbl : (r ++ x.take (8 * C.n - r.length)).length = 8 * C.n := by rw [List.length_append]; omega
      have hf : o.fillSeq C inp io x.length =
          .ok ({ o with buf := r ++ x.take (8 * C.n - r.length), dgt := [conc V (step E s (r ++ x.take (8 * C.n - r.length)))], len := 0 }, io + (8 * C.n - r.length),
            (x.drop (8 * C.n - r.length)).length) := by
        rw [Obj.fillSeq, if_pos (by rw [h.len]; exact hb)]
        simp only [hrm, hln]
        rw [hcp, ok_bind, h.dgt]
        have e1 : rd [conc V s] 0 = .ok (conc V s) := rfl
        rw [e1, ok_bind, absorb_ok g (Holds.self _) hbl, ok_bind]
        rfl
      rw [hf, ok_bind]
      simp only
      obtain ⟨io', h1, h2⟩ := loopSeq_ok g V _ (x.drop (8 * C.n - r.length)) (io + (8 * C.n - r.length)) (step E s (r ++ x.take (8 * C.n - r.length)))
        { o with buf := r ++ x.take (8 * C.n - r.length), dgt := [conc V (step E s (r ++ x.take (8 * C.n - r.length)))], len := 0 } rfl (hx.dropN (by omega)) rfl
      rw [h1, ok_bind]
      have hlz : lazy (8 * C.n) (step E) s (r ++ x) = lazy (8 * C.n) (step E) (step E s (r ++ x.take (8 * C.n - r.length))) (x.drop (8 * C.n - r.length)) := by
        conv_lhs => rw [← List.take_append_drop (8 * C.n - r.length) x, ← List.append_assoc]
        exact lazy_cons (by omega) hbl (by intro e; have := congrArg List.length e; rw [List.length_drop] at this; simp at this; omega)
      rw [hlz]
      obtain ⟨o', h3, h4⟩ := store_ok (V := V) (s := (lazy (8 * C.n) (step E) (step E s (r ++ x.take (8 * C.n - r.length))) (x.drop (8 * C.n - r.length))).1) (r := [])
        (o := { o with buf := r ++ x.take (8 * C.n - r.length), dgt := [conc V (lazy (8 * C.n) (step E) (step E s (r ++ x.take (8 * C.n - r.length))) (x.drop (8 * C.n - r.length))).1], len := 0 })
        ⟨h.par, rfl, rfl, by simp, ⟨_, rfl⟩, hbl⟩ h2 (by simpa using lazy_rest_le (by omega) _ _)
      exact ⟨o', h3, by simpa using h4⟩
    · have hf : o.fillSeq C inp io x.length = .ok (o, io, x.length) := by rw [Obj.fillSeq, if_neg (by rw [h.len]; exact hb)]; rfl
      rw [hf, ok_bind]
      simp only
      by_cases hr : r.length = 0
      · have hr : r = [] := List.length_eq_zero_iff.mp hr
        subst hr
        rw [List.nil_append]
        obtain ⟨io', h1, h2⟩ := loopSeq_ok g V _ x io s o rfl hx h.dgt
        rw [h1, ok_bind]
        obtain ⟨o', h3, h4⟩ := store_ok (V := V) (s := (lazy (8 * C.n) (step E) s x).1) (r := []) (o := { o with dgt := [conc V (lazy (8 * C.n) (step E) s x).1] })
          ⟨h.par, rfl, h.len, by simp, ⟨_, rfl⟩, h.size⟩ h2 (by simpa using lazy_rest_le (by omega) _ _)
        exact ⟨o', h3, by simpa using h4⟩
      · have hl : o.loopSeq C inp io x.length = .ok (o, io, x.length) := by rw [Obj.loopSeq, if_neg (by rw [Core.rate]; omega)]; rfl
        rw [hl, ok_bind, lazy_short (by rw [List.length_append]; omega)]
        exact store_ok h hx (by omega)

/-! ## Construction -/

theorem iv_eq (h0 : 4 ≤ C.n) : Paper.iv E = block E (fun _ => 0) (mtw tCfg 32 true true) (words C.n (pad C.n (config (64 * C.n) 0 0 0))) := by
  have hl : (config (64 * C.n) 0 0 0).length = 32 := by simp [config, leEnc_length]
  rw [Paper.iv, ubi, ubiFrom, if_neg (by omega), hl, tweak_eq (by decide)]
  rfl

theorem cfgTweak_eq : Core.cfgTweak = mtw tCfg 32 true true := by decide

theorem zeros_ofFn (n : Nat) : (List.replicate n 0 : List W) = List.ofFn (fun _ : Fin n => 0) := by
  rw [List.ofFn_const]

theorem loadState_ok (g : C.Good E) (c h V : Fin C.n → W) (T : W × W) :
    C.loadState (List.ofFn c) ⟨List.ofFn h, List.ofFn V, T⟩ = .ok ⟨List.ofFn (E h (mtw tCfg 32 true true) c), List.ofFn (block E h (mtw tCfg 32 true true) c), mtw tCfg 32 true true⟩ := by
  rw [Core.loadState]
  dsimp only
  rw [cfgTweak_eq, permute_ok g, ok_bind]
  dsimp only
  rw [xorW_ok, ok_bind]
  rfl

theorem Core.Good.four (g : C.Good E) : 4 ≤ C.n := by
  have := g.size
  rw [Core.rate] at this
  omega

theorem restart_eq (S : List W) (V : Fin C.n → W) (T : W × W) : Core.restart ⟨S, List.ofFn V, T⟩ = conc (List.ofFn V) (V, 0) := by
  rw [Core.restart, startNew_eq (by decide), conc]
  rfl

theorem init_ok (g : C.Good E) : (Params.new C.rate 0 0 >>= C.init [C.st0]) = .ok [conc (List.ofFn (Paper.iv E)) (Paper.iv E, 0)] := by
  have hc := g.config
  cases hp : Params.new C.rate 0 0 with
  | error e => rw [hp] at hc; cases hc
  | ok p =>
    rw [hp, ok_bind] at hc
    rw [ok_bind, Core.init, hc, ok_bind]
    have e1 : rd [C.st0] 0 = .ok C.st0 := rfl
    rw [e1, ok_bind, Core.st0, zeros_ofFn, loadState_ok g, ok_bind, ← iv_eq g.four]
    have e2 : ∀ (a b : St), wr [a] 0 b = .ok [b] := fun _ _ => rfl
    rw [e2, ok_bind]
    have e3 : ∀ (f : Nat → List St → M (List St)) (s : List St), loopN 0 1 f s = .ok s := fun _ _ => rfl
    have hz : ∀ (x : St), [x].length - 1 = 0 := fun _ => rfl
    rw [hz, e3, ok_bind]
    simp only [List.map_cons, List.map_nil, restart_eq]
    rfl

/-- The object is sequential and has absorbed `d`. -/
def Inv (E : Tbc C.n) (o : Obj) (d : List Byte) : Prop :=
  Absorbed (List.ofFn (Paper.iv E)) (lazy (8 * C.n) (step E) (Paper.iv E, 0) d).1 (lazy (8 * C.n) (step E) (Paper.iv E, 0) d).2 o

/-- A sequential object with any message state; what `Reset` needs. -/
structure Ready (E : Tbc C.n) (o : Obj) : Prop where
  par : o.prof.isParallel = false
  dgt : ∃ S T, o.dgt = [⟨S, List.ofFn (Paper.iv E), T⟩]
  size : o.buf.length = 8 * C.n

theorem Inv.ready {o : Obj} {d : List Byte} (h : Inv E o d) : Ready E o := ⟨h.par, ⟨_, _, h.dgt⟩, h.size⟩

theorem inv_nil {o : Obj} (hp : o.prof.isParallel = false) (hd : o.dgt = [conc (List.ofFn (Paper.iv E)) (Paper.iv E, 0)]) (hl : o.len = 0) (hs : o.buf.length = 8 * C.n) : Inv E o [] := by
  rw [Inv, lazy_short (by simp)]
  exact ⟨hp, hd, hl, by simp, ⟨o.buf, rfl⟩, hs⟩

theorem reset_ok {o : Obj} (h : Ready E o) : ∃ o', o.reset = .ok o' ∧ Inv E o' [] := by
  obtain ⟨S, T, hd⟩ := h.dgt
  refine ⟨{ o with dgt := [conc (List.ofFn (Paper.iv E)) (Paper.iv E, 0)], buf := List.replicate (8 * C.n) 0, len := 0 }, ?_, inv_nil h.par rfl rfl (by simp)⟩
  rw [Obj.reset, Keccak.clear_all o.buf (8 * C.n) h.size, ok_bind, hd]
  simp only [List.map_cons, List.map_nil, restart_eq]
  rfl

/-- The profile of a new object. The constructor fails only on a machine without processors. -/
theorem construct_ok {bs deg : Nat} (hb : bs ≠ 0) (hb2 : bs % 2 = 0) (hb3 : bs * deg < 2 ^ 64) (hd : deg ≠ 0) (phys virt l1 : Nat) (hph : 0 < phys) (par : Bool) :
    ∃ o, Options.construct 1 bs false 2048 false deg phys virt l1 (some par) = .ok o ∧ o.isParallel = par := by
  have hpr : ∀ procs : Nat, 0 < procs → 0 < (if procs > 1 ∧ procs % 2 ≠ 0 then procs - 1 else procs) := by
    intro procs h; split <;> omega
  have h1 : 0 < (if virt > phys then virt else phys) := by split <;> omega
  have h2 := hpr _ h1
  rw [Options.construct, if_neg (by omega)]
  simp only [Options.calculate, Options.detect, Options.calcDegree, Options.calcMin, Options.calcSize, Options.roundSize]
  obtain ⟨procs, hp⟩ : ∃ p, p = (if (if virt > phys then virt else phys) > 1 ∧ (if virt > phys then virt else phys) % 2 ≠ 0 then (if virt > phys then virt else phys) - 1 else
    (if virt > phys then virt else phys)) := ⟨_, rfl⟩
  rw [← hp] at h2 ⊢
  have hdg : ∀ x, x = (if deg > procs then procs else deg) → 0 < x ∧ x ≤ deg := by
    intro x hx; rw [hx]; split <;> omega
  obtain ⟨dg, hdge⟩ : ∃ x, x = (if deg > procs then procs else deg) := ⟨_, rfl⟩
  have hdg := hdg dg hdge
  rw [← hdge]
  have hle : dg ≤ procs := by rw [hdge]; split <;> omega
  have e1 : (if (dg > procs ∧ True) ∨ dg = 0 then procs else dg) = dg := if_neg (by omega)
  have hm : Options.w64 (dg * bs) ≠ 0 := by
    have hmul : dg * bs ≤ deg * bs := Nat.mul_le_mul_right _ hdg.2
    have : 0 < dg * bs := Nat.mul_pos hdg.1 (by omega)
    rw [Nat.mul_comm] at hb3
    rw [Options.w64, Nat.mod_eq_of_lt (by omega)]
    omega
  simp only [e1, if_true, if_false, Bool.false_eq_true]
  by_cases hz : Options.w64 (l1 + (2 ^ 64 - 2048)) = 0
  · rw [if_pos hz]
    exact ⟨_, rfl, rfl⟩
  · rw [if_neg hz, if_neg hm]
    exact ⟨_, rfl, rfl⟩

theorem new_ok (g : C.Good E) (phys virt l1 : Nat) (hph : 0 < phys) : ∃ o, Obj.new C false phys virt l1 = .ok o ∧ Inv E o [] := by
  have h4 := Core.Good.four g
  have hsm := g.small
  obtain ⟨prof, h1, h2⟩ := construct_ok (bs := C.rate) (deg := 8) (by rw [Core.rate]; omega) (by rw [Core.rate]; omega) (by rw [Core.rate]; omega) (by decide) phys virt l1 hph false
  have hi := init_ok g
  cases hp : Params.new C.rate 0 0 with
  | error e => rw [hp] at hi; cases hi
  | ok p =>
    rw [hp, ok_bind] at hi
    refine ⟨⟨[conc (List.ofFn (Paper.iv E)) (Paper.iv E, 0)], List.replicate (1 * C.rate) 0, 0, prof, p⟩, ?_, inv_nil h2 rfl rfl (by simp [Core.rate])⟩
    rw [Obj.new, h1, ok_bind, if_neg (by decide), hp, ok_bind]
    simp only [Bool.false_eq_true, if_false, List.replicate_one]
    rw [hi, ok_bind]
    rfl

theorem update_inv (g : C.Good E) {o : Obj} {d : List Byte} (h : Inv E o d) (x : Window) : ∃ o', o.update C x.buf x.off x.len = .ok o' ∧ Inv E o' (d ++ x.bytes) := by
  have hb : x.bytes.length = x.len := x.bytes_length
  have hl : x.bytes.length < 2 ^ 64 := by have := x.holds.le; have := x.size; omega
  obtain ⟨o', h1, h2⟩ := update_ok g h x.holds hl
  rw [hb] at h1
  refine ⟨o', h1, ?_⟩
  rw [Inv, lazy_append]
  exact h2

/-- The digest with the tweak of the code. -/
def digest {n : Nat} (E : Tbc n) (d : List Byte) : List Byte := bytes (output E (ubiFrom E (mtw tMsg) (Paper.iv E) 0 d))

theorem digest_eq {n : Nat} (E : Tbc n) (d : List Byte) (h : d.length < 2 ^ 64) : digest E d = skein E d := by
  rw [digest, ubiFrom_tweak E d _ _ (by omega)]
  rfl

/-- The sequential part of `Finalize`: the digest is stored, and the object is one that `Reset` can handle. -/
theorem finalSeq_eq (g : C.Good E) {o : Obj} {d : List Byte} (h : Inv E o d) :
    ∃ (G : Fin C.n → W) (o' : Obj), bytes G = digest E d ∧ Ready E o' ∧ ∀ (out : List Byte) (oo : Nat), o.finalSeq C out oo = (do let out ← C.put (List.ofFn G) out oo; return (o', out)) := by
  have hsm := g.small
  have hub := ubi_lazy E g.pos d (Paper.iv E, 0)
  rw [Inv] at h
  obtain ⟨s, hse⟩ : ∃ s, s = (lazy (8 * C.n) (step E) (Paper.iv E, 0) d).1 := ⟨_, rfl⟩
  obtain ⟨r, hre⟩ : ∃ r, r = (lazy (8 * C.n) (step E) (Paper.iv E, 0) d).2 := ⟨_, rfl⟩
  rw [← hse, ← hre] at h hub
  obtain ⟨q, hq⟩ := h.buf
  have hs := h.size
  have hlr := h.le
  rw [hq, List.length_append] at hs
  have hpad : clear o.buf o.len (Mac.subU o.buf.length o.len) = .ok (pad C.n r) := by
    rw [h.len, Mac.subU_le (by rw [h.size]; exact hlr) (by rw [h.size]; omega), h.size, hq, pad, clear]
    split
    · have : q = [] := List.length_eq_zero_iff.mp (by omega)
      rw [this, show 8 * C.n - r.length = 0 from by omega]; rfl
    · rw [show r ++ q = r ++ q ++ [] from by simp, blit_at rfl (by simp; omega)]
      simp
  refine ⟨output E (last E s r), { o with buf := pad C.n r, dgt := [⟨List.ofFn (output E (last E s r)), List.ofFn (Paper.iv E), mtw tOut 8 false true⟩] }, ?_,
    ⟨h.par, ⟨_, _, rfl⟩, pad_length hlr⟩, fun out oo => ?_⟩
  · rw [digest, hub]
  · rw [Obj.finalSeq, hpad, ok_bind, h.dgt]
    have e1 : rd [conc (List.ofFn (Paper.iv E)) s] 0 = .ok (conc (List.ofFn (Paper.iv E)) s) := rfl
    rw [e1, ok_bind, h.len, hashFinal_ok g (Holds.self _) hlr, ok_bind]
    have e3 : ∀ x y : St, wr [x] 0 y = .ok [y] := fun _ _ => rfl
    rw [e3, ok_bind]

theorem finalSeq_ok (g : C.Good E) {o : Obj} {d : List Byte} (h : Inv E o d) (pre junk post : List Byte) (hj : junk.length = 8 * C.n) :
    ∃ o', o.finalSeq C (pre ++ junk ++ post) pre.length = .ok (o', pre ++ digest E d ++ post) ∧ Ready E o' := by
  obtain ⟨G, o', h1, h2, h3⟩ := finalSeq_eq g h
  refine ⟨o', ?_, h2⟩
  rw [h3, put_ok _ _ _ _ hj, ok_bind, h1]
  rfl

/-- `Finalize` writes the digest of the absorbed data and resets the object. -/
theorem finalize_inv (g : C.Good E) {o : Obj} {d : List Byte} (h : Inv E o d) (pre junk post : List Byte) (hj : junk.length = 8 * C.n) (hsz : (pre ++ junk ++ post).length < 2 ^ 64) :
    ∃ o', o.finalize C (pre ++ junk ++ post) pre.length = .ok (o', pre ++ digest E d ++ post) ∧ Inv E o' [] := by
  have hle : pre.length ≤ (pre ++ junk ++ post).length := by simp only [List.length_append]; omega
  have hpar : ¬ o.prof.isParallel = true := by rw [h.par]; decide
  obtain ⟨o1, h1, h2⟩ := finalSeq_ok g h pre junk post hj
  obtain ⟨o2, h3, h4⟩ := reset_ok h2
  refine ⟨o2, ?_, h4⟩
  rw [Obj.finalize, Mac.subU_le hle hsz, if_neg (by simp only [List.length_append, Core.rate]; omega), if_neg hpar, h1, ok_bind]
  dsimp only
  rw [h3, ok_bind]
  rfl

end Cex.Skein
