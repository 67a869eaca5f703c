import Verif.Keccak.KpaLemmas

/-! # C90 KPA -/

namespace Cex.Keccak
open Cex Cex.IntTools Stream Cex.Mac

variable {P : List Byte → M (List Byte)} {f : List Byte → List Byte} {r : Nat}

namespace Kpa

/-- what an initialized object has been given: the rate, the leaves before the message, the message -/
structure G where
  rate : Nat
  start : List (List Byte)
  msg : List Byte

/-- `Run P f s g`: `s` is reachable; `g` tells what it was given since `Initialize` or the last `Finalize`, or is `none` before the first `Initialize` and after `Reset`. -/
inductive Run (P : List Byte → M (List Byte)) (f : List Byte → List Byte) : Kpa → Option G → Prop
  | new {k} : Run P f (Kpa.new k) none
  | reset {s s' g} : Run P f s g → s.reset = .ok s' → Run P f s' none
  | init {s s' g key iv} : Run P f s g → 8 * key.length < 2 ^ 64 → 8 * iv.length < 2 ^ 64 → s.initialize P key iv = .ok s' →
      Run P f s' (some ⟨KpaSpec.rate key, KpaSpec.leaves f (KpaSpec.rate key) key iv, []⟩)
  | update {s s' r l m inp io len} : Run P f s (some ⟨r, l, m⟩) → inp.length < 2 ^ 64 → io ≤ inp.length → s.update P inp io len = .ok s' →
      Run P f s' (some ⟨r, l, m ++ (inp.drop io).take len⟩)
  | final {s s' r l m out oo out'} : Run P f s (some ⟨r, l, m⟩) → 8 * m.length < 2 ^ 56 → 8 * out.length < 2 ^ 56 → oo ≤ out.length → s.finalize P out oo = .ok (s', out') →
      Run P f s' (some ⟨r, KpaSpec.after f r l m, []⟩)

/-- what holds of an initialized object -/
structure Keyed (f : List Byte → List Byte) (s : Kpa) (g : G) : Prop where
  init : s.init = true
  rate : s.rate = g.rate
  mode : g.rate = 168 ∨ g.rate = 136 ∨ g.rate = 72
  start : Eight g.start
  st : s.st = (eager (g.rate * 8) (step f g.rate) g.start g.msg).1
  pos : s.pos = (eager (g.rate * 8) (step f g.rate) g.start g.msg).2.length
  rest : s.buf.take s.pos = (eager (g.rate * 8) (step f g.rate) g.start g.msg).2
  proc : s.proc = BitVec.ofNat 64 (g.rate * 8 * (g.msg.length / (g.rate * 8)))

/-- what holds in every reachable state -/
structure Inv (f : List Byte → List Byte) (s : Kpa) (g : Option G) : Prop where
  eight : Eight s.st
  buf : s.buf.length = 1600
  keyed : ∀ x, g = some x → s.Keyed f x
  none : g = none → s.init = false
  tag : s.tag ≤ 32

theorem new_inv (k : Kind) : (new k).Inv f .none := by
  refine ⟨⟨rfl, ?_⟩, List.length_replicate, (fun _ e => by cases e), fun _ => rfl, by cases k <;> decide⟩
  intro x hx
  rw [List.eq_of_mem_replicate hx, List.length_replicate]

theorem clear25 {x : List Byte} (h : x.length = 200) : clear x 0 25 = .ok (List.replicate 25 0 ++ x.drop 25) := by
  have e : x = [] ++ x.take 25 ++ x.drop 25 := by simp
  rw [clear, if_neg (by decide)]
  conv => lhs; rw [e]
  rw [blit_at (off := 0) rfl (by rw [List.length_replicate, List.length_take]; omega)]
  rfl

theorem reset_inv {s : Kpa} {g} (h : s.Inv f g) : ∃ s', s.reset = .ok s' ∧ s'.Inv f .none ∧ s'.tag = s.tag ∧ s'.st = s.st.map fun x => List.replicate 25 0 ++ x.drop 25 := by
  rw [reset, each_eq (h := fun _ x => List.replicate 25 0 ++ x.drop 25) h.eight.len (fun i x _ hx => clear25 (h.eight.each x hx)), ok_bind, clear_all _ _ h.buf, ok_bind]
  refine ⟨_, rfl, ⟨h.eight.mapIdx ?_, List.length_replicate, (fun _ e => by cases e), fun _ => rfl, h.tag⟩, rfl, ?_⟩
  · intro i x hx
    rw [List.length_append, List.length_replicate, List.length_drop, hx]
  · exact List.mapIdx_eq_zipIdx_map ▸ (by
      rw [show (fun (p : List Byte × Nat) => List.replicate 25 (0 : Byte) ++ List.drop 25 p.1) = (fun x => List.replicate 25 0 ++ List.drop 25 x) ∘ Prod.fst from rfl, ← List.map_map, List.zipIdx_map_fst])

theorem name_len (i : Nat) : (KpaSpec.name i).length = 8 := rfl

theorem init_inv (p : Perm P f) {s : Kpa} {g} (h : s.Inv f g) {key iv : List Byte} (hk : 16 ≤ key.length) (hkl : 8 * key.length < 2 ^ 64) (hil : 8 * iv.length < 2 ^ 64) :
    ∃ s', s.initialize P key iv = .ok s' ∧ s'.Inv f (some ⟨KpaSpec.rate key, KpaSpec.leaves f (KpaSpec.rate key) key iv, []⟩) ∧ s'.tag = s.tag := by
  obtain ⟨s1, e1, i1, t1⟩ : ∃ s1, (if s.init then s.reset else pure s) = .ok s1 ∧ s1.Inv f .none ∧ s1.tag = s.tag := by
    by_cases hi : s.init = true
    · rw [if_pos hi]; obtain ⟨s1, a, b, c, _⟩ := reset_inv h; exact ⟨s1, a, b, c⟩
    · rw [if_neg hi]
      exact ⟨s, rfl, ⟨h.eight, h.buf, (fun _ e => by cases e), fun _ => by simpa using hi, h.tag⟩, rfl⟩
  have hrc : KpaSpec.rate key = 168 ∨ KpaSpec.rate key = 136 ∨ KpaSpec.rate key = 72 := rate_cases key.length
  have hre : rateOf key.length = KpaSpec.rate key := rfl
  rw [Kpa.«initialize», if_neg (by omega), e1, ok_bind, hre]
  generalize KpaSpec.rate key = r at *
  have hr : r < 200 := by omega
  have h20 : 20 ≤ r := by omega
  have h8 : r % 8 = 0 := by omega
  have h0 : 0 < r := by omega
  have k1 : (if iv.length ≠ 0 then stage P r iv (List.replicate 200 0) else pure (List.replicate 200 0)) =
      .ok (if iv = [] then List.replicate 200 0 else Fips202.absorb f r (List.replicate 200 0) (Sp800185.bytepad (Sp800185.encodeString iv) r)) := by
    by_cases hn : iv = []
    · subst hn; rw [if_neg (by simp), if_pos rfl]; rfl
    · rw [if_pos (by simpa using hn), if_neg hn, stage_eq p hr h20 h8 zeros200 iv hil]
  have hz : (if iv = [] then List.replicate 200 0 else Fips202.absorb f r (List.replicate 200 0) (Sp800185.bytepad (Sp800185.encodeString iv) r)).length = 200 := by
    split
    · exact zeros200
    · exact eager_length p (by omega) _ _ zeros200
  dsimp only
  rw [k1, ok_bind, stage_eq p hr h20 h8 hz key hkl, ok_bind]
  have hb : (KpaSpec.base f r key iv).length = 200 := eager_length p (by omega) _ _ hz
  rw [show Fips202.absorb f r (if iv = [] then List.replicate 200 0 else Fips202.absorb f r (List.replicate 200 0) (Sp800185.bytepad (Sp800185.encodeString iv) r))
    (Sp800185.bytepad (Sp800185.encodeString key) r) = KpaSpec.base f r key iv from rfl]
  generalize hbase : KpaSpec.base f r key iv = base at *
  have k2 : each (fun i x => do
      let y ← copy base 0 x 0 200
      xorInto (algn i) 0 y 0 8) s1.st = .ok (s1.st.mapIdx fun i _ => xorBytes base (KpaSpec.name i ++ List.replicate 192 0)) := by
    refine each_eq i1.eight.len (fun i x _ hx => ?_)
    rw [copy_whole (Holds.self base) hb.symm ((i1.eight.each x hx).trans hb.symm), ok_bind, algn_eq]
    exact fastAbsorb_eq (Holds.self (KpaSpec.name i)) (n := 8) rfl hb (by rw [name_len]; decide)
  have e2 : Eight (s1.st.mapIdx fun i _ => xorBytes base (KpaSpec.name i ++ List.replicate 192 0)) := by
    refine i1.eight.mapIdx (fun i x _ => ?_)
    rw [xorBytes_length, hb, List.length_append, name_len, List.length_replicate]; decide
  rw [k2, ok_bind, each_eq (h := fun _ x => f x) e2.len (fun i x _ hx => p.run _ (e2.each x hx)), ok_bind]
  have hst : List.mapIdx (fun _ x => f x) (s1.st.mapIdx fun i _ => xorBytes base (KpaSpec.name i ++ List.replicate 192 0)) = KpaSpec.leaves f r key iv := by
    rw [List.mapIdx_mapIdx, KpaSpec.leaves, hbase]
    apply List.ext_getElem (by simp [i1.eight.len])
    intro i h1 h2
    rw [List.getElem_mapIdx, List.getElem_map, List.getElem_range]
    rfl
  rw [hst]
  have e3 : Eight (KpaSpec.leaves f r key iv) := by rw [← hst]; exact e2.mapIdx (fun i x hx => p.len _ hx)
  have es : eager (r * 8) (step f r) (KpaSpec.leaves f r key iv) [] = (KpaSpec.leaves f r key iv, []) := eager_short (by simp; omega)
  refine ⟨_, rfl, ⟨e3, i1.buf, ?_, (by intro e; cases e), i1.tag⟩, t1⟩
  intro x e
  cases e
  exact ⟨rfl, rfl, hrc, e3, by rw [es], by rw [es]; rfl, by rw [es]; rfl, by simp⟩

theorem rest_inv (p : Perm P f) {s : Kpa} {r l m} (hI : s.Inv f (some ⟨r, l, m⟩)) {inp x : List Byte} {io : Nat} (hx : Holds inp io x) (hc : s.pos = 0 ∨ s.pos + x.length < r * 8) :
    ∃ s', Kpa.rest P inp (s, io, x.length) = .ok s' ∧ s'.Inv f (some ⟨r, l, m ++ x⟩) ∧ s'.tag = s.tag := by
  have h := hI.keyed _ rfl
  have hm := h.mode
  have hB : 0 < r * 8 := by simp only [] at hm; omega
  have h0 : 0 < r := by omega
  have hr : r ≤ 200 := by simp only [] at hm; omega
  have hto : (s.buf.take s.pos).length = s.pos := by rw [h.rest, h.pos]
  have hmod := eager_rest_mod (step := step f r) hB s.st x
  have hlt := Nat.mod_lt x.length hB
  have hstart : Eight l := h.start
  have hp : s.pos = m.length % (r * 8) := by rw [h.pos]; exact eager_rest_mod hB _ _
  have key : eager (r * 8) (step f r) l (m ++ x) = ((eager (r * 8) (step f r) s.st x).1, s.buf.take s.pos ++ (eager (r * 8) (step f r) s.st x).2) := by
    rw [eager_append, ← h.st, ← h.rest]
    rcases hc with hz | hz
    · rw [hz, List.take_zero, List.nil_append, List.nil_append]
    · rw [eager_short (by rw [List.length_append, hto]; exact hz), eager_short (s := s.st) (m := x) (by omega)]
  have hpr : s.proc + BitVec.ofNat 64 (r * 8 * (x.length / (r * 8))) = BitVec.ofNat 64 (r * 8 * ((m ++ x).length / (r * 8))) := by
    rw [h.proc, ← BitVec.ofNat_add, List.length_append]
    congr 1
    show r * 8 * (m.length / (r * 8)) + _ = _
    rw [← Nat.mul_add]
    congr 1
    rcases hc with hz | hz
    · rw [hz] at hp
      obtain ⟨q, hq⟩ := Nat.dvd_of_mod_eq_zero hp.symm
      rw [hq, Nat.mul_div_cancel_left _ hB, Nat.mul_add_div hB]
    · have hx0 : x.length / (r * 8) = 0 := Nat.div_eq_of_lt (by omega)
      have := Nat.div_add_mod m.length (r * 8)
      conv_rhs => rw [← this, Nat.add_assoc, Nat.mul_add_div hB, Nat.div_eq_of_lt (a := m.length % (r * 8) + x.length) (by omega)]
      omega
  rw [Kpa.rest]
  dsimp only
  rw [h.rate]
  dsimp only
  rw [loop8_eq p h0 hr inp _ io x s.st s.proc hx rfl hI.eight, ok_bind]
  by_cases hz : x.length % (r * 8) = 0
  · rw [if_pos hz]
    have hn : (eager (r * 8) (step f r) s.st x).2 = [] := List.eq_nil_of_length_eq_zero (hmod.trans hz)
    rw [hn, List.append_nil] at key
    refine ⟨_, rfl, ⟨eager_eight p hr _ _ _ hI.eight, hI.buf, ?_, (by intro e; cases e), hI.tag⟩, rfl⟩
    intro y e
    cases e
    exact ⟨h.init, rfl, h.mode, h.start, by rw [key], by rw [key, hto], by rw [key], hpr⟩
  · rw [if_neg hz]
    have hhold : Holds inp (io + r * 8 * (x.length / (r * 8))) (eager (r * 8) (step f r) s.st x).2 := by
      rw [eager_rest hB]; exact hx.dropN (by have := Nat.div_add_mod x.length (r * 8); omega)
    have hfit : s.pos + x.length % (r * 8) ≤ 1600 := by
      rcases hc with hz | hz
      · omega
      · rw [Nat.mod_eq_of_lt (by omega)]; omega
    dsimp only
    rw [copy_front hhold s.pos hmod.symm (by rw [hI.buf]; exact hfit), ok_bind]
    refine ⟨_, rfl, ⟨eager_eight p hr _ _ _ hI.eight, ?_, ?_, (by intro e; cases e), hI.tag⟩, rfl⟩
    · simp only [List.length_append, hto, hmod, List.length_drop, hI.buf]; omega
    · intro y e
      cases e
      refine ⟨h.init, rfl, h.mode, h.start, by rw [key], ?_, ?_, hpr⟩
      · rw [key]; simp only [List.length_append, hto, hmod]
      · rw [key]; simp only []; rw [take_front _ _ _ _ (by rw [hto, hmod])]

theorem update_inv (p : Perm P f) {s : Kpa} {r l m} (hI : s.Inv f (some ⟨r, l, m⟩)) {inp x : List Byte} {io : Nat} (hx : Holds inp io x) (hl : inp.length < 2 ^ 64) :
    ∃ s', s.update P inp io x.length = .ok s' ∧ s'.Inv f (some ⟨r, l, m ++ x⟩) ∧ s'.tag = s.tag := by
  have h := hI.keyed _ rfl
  have hm := h.mode
  have hB : 0 < r * 8 := by simp only [] at hm; omega
  have h0 : 0 < r := by omega
  have hr : r ≤ 200 := by simp only [] at hm; omega
  have hto : (s.buf.take s.pos).length = s.pos := by rw [h.rest, h.pos]
  have hposr : s.pos < r * 8 := by rw [h.pos]; exact eager_rest_lt hB _ _
  have hsub : ¬ subU inp.length io < x.length := by
    obtain ⟨a, q, e, ha⟩ := hx
    have : inp.length = a.length + x.length + q.length := by rw [e]; simp only [List.length_append]
    rw [subU_le (by omega) hl]; omega
  rw [Kpa.update, if_neg (by simp [h.init]), if_neg hsub]
  by_cases hz : x.length = 0
  · rw [if_pos hz]
    have : x = [] := List.eq_nil_of_length_eq_zero hz
    subst this
    exact ⟨s, rfl, by rw [List.append_nil]; exact hI, rfl⟩
  · rw [if_neg hz, Kpa.first, h.rate]
    dsimp only
    by_cases hc : s.pos ≠ 0 ∧ s.pos + x.length ≥ r * 8
    · have hl : (x.take (r * 8 - s.pos)).length = r * 8 - s.pos := by rw [List.length_take]; omega
      have hh : Holds (s.buf.take s.pos ++ x.take (r * 8 - s.pos) ++ s.buf.drop (s.pos + (r * 8 - s.pos))) 0 (s.buf.take s.pos ++ x.take (r * 8 - s.pos)) := ⟨[], _, rfl, rfl⟩
      have hbl : (s.buf.take s.pos ++ x.take (r * 8 - s.pos)).length = r * 8 := by rw [List.length_append, hto, hl]; omega
      rw [if_pos hc, copy_front (hx.takeN (r * 8 - s.pos)) s.pos hl.symm (by rw [hI.buf]; omega), ok_bind,
        absorb8_eq p hr hh hbl hI.eight, ok_bind, pure_eq_ok, ok_bind]
      have hg : Inv f ⟨step f r s.st (s.buf.take s.pos ++ x.take (r * 8 - s.pos)), s.buf.take s.pos ++ x.take (r * 8 - s.pos) ++ s.buf.drop (s.pos + (r * 8 - s.pos)), 0,
          s.proc + BitVec.ofNat 64 (r * 8), r, s.init, s.tag⟩
          (some ⟨r, l, m ++ x.take (r * 8 - s.pos)⟩) := by
        have e : eager (r * 8) (step f r) l (m ++ x.take (r * 8 - s.pos)) = (step f r s.st (s.buf.take s.pos ++ x.take (r * 8 - s.pos)), []) := by
          rw [eager_append, ← h.st, ← h.rest, eager_one hB hbl]
        refine ⟨step_eight p hr hI.eight _, ?_, ?_, (by intro e; cases e), hI.tag⟩
        · simp only [List.length_append, hto, hl, List.length_drop, hI.buf]; omega
        · intro y ey
          cases ey
          refine ⟨h.init, rfl, h.mode, h.start, by rw [e], by rw [e]; rfl, by rw [e]; rfl, ?_⟩
          have hp : s.pos = m.length % (r * 8) := by rw [h.pos]; exact eager_rest_mod hB _ _
          have hdm := Nat.div_add_mod m.length (r * 8)
          show s.proc + _ = _
          rw [h.proc, ← BitVec.ofNat_add, List.length_append, hl]
          congr 1
          show r * 8 * (m.length / (r * 8)) + r * 8 = r * 8 * ((m.length + (r * 8 - s.pos)) / (r * 8))
          rw [show m.length + (r * 8 - s.pos) = r * 8 * (m.length / (r * 8) + 1) from by rw [Nat.mul_add]; omega, Nat.mul_div_cancel_left _ hB, Nat.mul_add]; omega
      obtain ⟨s', h1, h2, h3⟩ := rest_inv p hg (hx.dropN (n := r * 8 - s.pos) (by omega)) (Or.inl rfl)
      rw [List.length_drop] at h1
      refine ⟨s', ?_, ?_, h3⟩
      · exact h1
      · rw [List.append_assoc, List.take_append_drop] at h2; exact h2
    · rw [if_neg hc, pure_eq_ok, ok_bind]
      exact rest_inv p hI hx (by omega)

theorem absorbLeaves_eq (p : Perm P f) (h0 : 0 < r) (hr : r ≤ 200) {inp x : List Byte} (hx : Holds inp 0 x) {st : List Byte} (hs : st.length = 200) :
    absorbLeaves P inp r x.length st = .ok (Fips202.absorb f r st (x ++ Sp800185.fill r x.length)) := by
  have hmod := eager_rest_mod (step := Fips202.block f) h0 st x
  have hlt := Nat.mod_lt x.length h0
  rw [absorbLeaves, absorbLoop_eq p h0 hr inp _ 0 x st hx rfl hs, ok_bind, Fips202.absorb, eager_append]
  by_cases hz : x.length % r = 0
  · have hn : (eager r (Fips202.block f) st x).2 = [] := List.eq_nil_of_length_eq_zero (hmod.trans hz)
    rw [if_neg (by omega), hn, Sp800185.fill, hz, Nat.sub_zero, Nat.mod_self, List.replicate_zero, List.append_nil, eager_short (m := []) (by simpa using h0)]
    rfl
  · have hf : Sp800185.fill r x.length = List.replicate (r - x.length % r) 0 := by rw [Sp800185.fill, Nat.mod_eq_of_lt (a := r - x.length % r) (by omega)]
    have hh : Holds inp (r * (x.length / r)) (eager r (Fips202.block f) st x).2 := by
      have := hx.dropN (n := r * (x.length / r)) (by have := Nat.div_add_mod x.length r; omega)
      rw [Nat.zero_add] at this
      rw [eager_rest h0]; exact this
    have hl : ((eager r (Fips202.block f) st x).2 ++ List.replicate (r - x.length % r) 0).length = r := by rw [List.length_append, hmod, List.length_replicate]; omega
    rw [if_pos hz, absorbOne_eq p hh hmod.symm (eager_length p hr _ _ hs) (by omega), hf, eager_one h0 hl]
    simp only [Fips202.block, hl]
    rw [hmod, List.append_assoc, List.replicate_append_replicate, show r - x.length % r + (200 - r) = 200 - x.length % r from by omega]

theorem encLen {x : Nat} (h : 8 * x < 2 ^ 56) : (Sp800185.rightEncode (8 * x)).length ≤ 8 := by
  rw [rightEncode_length]; have := byteLen_le (x := 8 * x) (k := 7) (by omega) (by omega); omega

theorem lastBuf_eq (hr : 72 ≤ r) (hr2 : r ≤ 168) {n k : Nat} (hn : 8 * n < 2 ^ 56) (hk : 8 * k < 2 ^ 56) {re : List Byte} (hre : re = Sp800185.rightEncode (8 * n) ++ Sp800185.rightEncode (8 * k)) :
    ∃ b, lastBuf (List.replicate 1600 0) r n (BitVec.ofNat 64 k) = .ok b ∧ b.length = 1600 ∧ Holds b 0 (re ++ Fips202.pad r 0x41 re.length) ∧ re.length ≤ 16 := by
  have v : ∀ x, 8 * x < 2 ^ 56 → (8 * BitVec.ofNat 64 x).toNat = 8 * x := fun x hx => by
    rw [BitVec.toNat_mul, ofNat_toNat64 (by omega)]
    show 8 * x % 2 ^ 64 = _
    rw [Nat.mod_eq_of_lt (by omega)]
  have l1 := encLen hn
  have l2 := encLen hk
  have hrl : re.length = (Sp800185.rightEncode (8 * n)).length + (Sp800185.rightEncode (8 * k)).length := by rw [hre, List.length_append]
  have a1 : rightEncode (List.replicate 16 0) 0 (8 * BitVec.ofNat 64 n) =
      .ok (Sp800185.rightEncode (8 * n) ++ List.replicate (16 - (Sp800185.rightEncode (8 * n)).length) 0, (Sp800185.rightEncode (8 * n)).length) := by
    have e : List.replicate 16 (0 : Byte) = [] ++ List.replicate (Sp800185.byteLen (8 * n) + 1) 0 ++ List.replicate (16 - (Sp800185.rightEncode (8 * n)).length) 0 := by
      rw [List.nil_append, ← List.replicate_add, rightEncode_length]; rw [rightEncode_length] at l1; congr 1; omega
    rw [e, rightEncode_eq (off := 0) _ [] _ _ (by rw [v n hn, List.length_replicate]) rfl, v n hn]; rfl
  have a2 : rightEncode (Sp800185.rightEncode (8 * n) ++ List.replicate (16 - (Sp800185.rightEncode (8 * n)).length) 0) (Sp800185.rightEncode (8 * n)).length (8 * BitVec.ofNat 64 k) =
      .ok (re ++ List.replicate (16 - re.length) 0, (Sp800185.rightEncode (8 * k)).length) := by
    have e : Sp800185.rightEncode (8 * n) ++ List.replicate (16 - (Sp800185.rightEncode (8 * n)).length) (0 : Byte) =
        Sp800185.rightEncode (8 * n) ++ List.replicate (Sp800185.byteLen (8 * k) + 1) 0 ++ List.replicate (16 - re.length) 0 := by
      rw [List.append_assoc, ← List.replicate_add, hrl, rightEncode_length (8 * k)]; rw [rightEncode_length (8 * k)] at l2; congr 2; omega
    rw [e, rightEncode_eq _ _ _ _ (by rw [v k hk, List.length_replicate]) rfl, v k hk, hre]
  have a3 : copy (re ++ List.replicate (16 - re.length) 0) 0 (List.replicate 1600 0) 0 re.length = .ok (re ++ 0 :: List.replicate (1599 - re.length) 0) := by
    have e : List.replicate 1600 (0 : Byte) = [] ++ List.replicate re.length 0 ++ (0 :: List.replicate (1599 - re.length) 0) := by
      rw [← List.replicate_succ, List.nil_append, ← List.replicate_add]; congr 1; omega
    rw [e, copy_at (a := []) (s := re) (off := 0) (so := 0) (show Holds (re ++ List.replicate (16 - re.length) 0) 0 re from ⟨[], _, rfl, rfl⟩) rfl rfl List.length_replicate]; rfl
  have a4 : re ++ 0x41 :: List.replicate (1599 - re.length) (0 : Byte) = (re ++ 0x41 :: List.replicate (r - re.length - 2) 0) ++ 0 :: List.replicate (1600 - r) 0 := by
    rw [← List.replicate_succ, List.append_assoc, List.cons_append, ← List.replicate_add]; congr 3; omega
  have hA : r - 1 = (re ++ 0x41 :: List.replicate (r - re.length - 2) (0 : Byte)).length := by simp; omega
  rw [lastBuf, a1, ok_bind]
  dsimp only
  rw [a2, ok_bind]
  dsimp only
  rw [← hrl, a3, ok_bind, wr_at _ _ _ _ _ rfl, ok_bind, a4, rd_at _ _ _ _ hA, ok_bind, wr_at _ _ _ _ _ hA]
  refine ⟨_, rfl, ?_, ⟨[], List.replicate (1600 - r) 0, ?_, rfl⟩, by omega⟩
  · simp only [List.length_append, List.length_cons, List.length_replicate]; omega
  · rw [Fips202.pad, Nat.mod_eq_of_lt (by omega), if_neg (by omega)]
    simp

theorem collect_eq {h : Nat} (hh : h ≤ 64) {st : List (List Byte)} (e : Eight st) :
    ∃ fb, loopN 8 0 (fun i fb => do let x ← rd st i; copy x 0 fb (i * h) h) (List.replicate 512 0) = .ok fb ∧ Holds fb 0 (st.map (List.take h)).flatten ∧
      (st.map (List.take h)).flatten.length = 8 * h := by
  have hlen : ∀ j, j ≤ 8 → ((st.take j).map (List.take h)).flatten.length = j * h := fun j hj => by
    rw [List.length_flatten, List.map_map]
    have : (List.map (List.length ∘ List.take h) (st.take j)) = List.replicate j h := by
      rw [List.eq_replicate_iff]
      refine ⟨by rw [List.length_map, List.length_take, e.len]; omega, fun x hx => ?_⟩
      obtain ⟨y, hy, rfl⟩ := List.mem_map.mp hx
      have := e.each y (List.mem_of_mem_take hy)
      simp only [Function.comp, List.length_take]; omega
    rw [this, List.sum_replicate_nat]
  obtain ⟨fb, e1, e2⟩ := loopN_inv (f := fun i fb => do let x ← rd st i; copy x 0 fb (i * h) h)
    (fun j fb => fb = ((st.take j).map (List.take h)).flatten ++ List.replicate (512 - j * h) 0) 8 0 (List.replicate 512 0) (by
      rintro j s - hj rfl
      have hj8 : j < 8 := by omega
      have hs : j < st.length := by rw [e.len]; exact hj8
      have hx := e.each _ (List.getElem_mem hs)
      have hjh : (j + 1) * h ≤ 8 * h := Nat.mul_le_mul_right h (by omega)
      rw [Nat.add_mul, Nat.one_mul] at hjh
      have ez : ((st.take j).map (List.take h)).flatten ++ List.replicate (512 - j * h) (0 : Byte) =
          ((st.take j).map (List.take h)).flatten ++ List.replicate h 0 ++ List.replicate (512 - (j + 1) * h) 0 := by
        rw [List.append_assoc, ← List.replicate_add, Nat.add_mul, Nat.one_mul]; congr 2; omega
      have hl : (st[j].take h).length = h := by rw [List.length_take]; omega
      refine ⟨_, ?_, rfl⟩
      rw [rd_ok hs, ok_bind, ez, copy_at (s := st[j].take h) (holds_take _ _) (hlen j (by omega)).symm hl.symm (by rw [hl, List.length_replicate])]
      congr 2
      rw [List.take_succ_eq_append_getElem hs, List.map_append, List.flatten_append]
      simp) (by rw [Nat.zero_mul, List.take_zero]; rfl)
  have ht : st.take 8 = st := List.take_of_length_le (by rw [e.len])
  have hl := hlen 8 (by omega)
  rw [ht] at hl
  refine ⟨fb, e1, ?_, hl⟩
  rw [e2, Nat.zero_add, ht]
  exact ⟨[], _, rfl, rfl⟩

theorem hashLen_eq (h : r = 168 ∨ r = 136 ∨ r = 72) : hashLen r = KpaSpec.hashLen r := by rcases h with rfl | rfl | rfl <;> rfl

theorem final_inv (p : Perm P f) {s : Kpa} {r l m} (hI : s.Inv f (some ⟨r, l, m⟩)) (hm : 8 * m.length < 2 ^ 56) {out : List Byte} {oo : Nat} (ho : 8 * out.length < 2 ^ 56) (hoo : oo ≤ out.length)
    (ht : s.tag ≤ out.length - oo) :
    ∃ s', s.finalize P out oo = .ok (s', KpaSpec.tag f r l m out.length) ∧ s'.Inv f (some ⟨r, KpaSpec.after f r l m, []⟩) ∧ s'.tag = s.tag := by
  have h := hI.keyed _ rfl
  have hmode : r = 168 ∨ r = 136 ∨ r = 72 := h.mode
  have hB : 0 < r * 8 := by omega
  have h0 : 0 < r := by omega
  have hr : r ≤ 200 := by omega
  have hstart : Eight l := h.start
  have hpm : s.pos = m.length % (r * 8) := by rw [h.pos]; exact eager_rest_mod hB _ _
  have hplt : s.pos < r * 8 := by rw [hpm]; exact Nat.mod_lt _ hB
  have hto : (s.buf.take s.pos).length = s.pos := by rw [h.rest, h.pos]
  have hdm := Nat.div_add_mod m.length (r * 8)
  -- the leaves
  have kst : (if s.pos ≠ 0 then absorb8 P (s.buf.take s.pos ++ List.replicate (1600 - s.pos) 0) 0 r s.st else pure s.st) = .ok (KpaSpec.after f r l m) := by
    have hs : s.st = (eager (r * 8) (step f r) l m).1 := h.st
    have hrest : s.buf.take s.pos = (eager (r * 8) (step f r) l m).2 := h.rest
    have hfl : Sp800185.fill (8 * r) m.length = List.replicate ((r * 8 - s.pos) % (r * 8)) 0 := by rw [Sp800185.fill, Nat.mul_comm 8 r, hpm]
    by_cases hz : s.pos = 0
    · have hf : Sp800185.fill (8 * r) m.length = [] := by rw [hfl, hz, Nat.sub_zero, Nat.mod_self]; rfl
      rw [if_neg (by simpa using hz), hs, KpaSpec.after, hf, List.append_nil, eager_stripes h0 l hstart.len (m.length / (r * 8)) m l hstart.len (by rw [Nat.mul_comm 8 r]; omega)]
      rfl
    · have hf : Sp800185.fill (8 * r) m.length = List.replicate (r * 8 - s.pos) 0 := by rw [hfl, Nat.mod_eq_of_lt (by omega)]
      have hb : (s.buf.take s.pos ++ List.replicate (r * 8 - s.pos) (0 : Byte)).length = r * 8 := by rw [List.length_append, hto, List.length_replicate]; omega
      rw [if_pos hz, absorb8_eq p hr (io := 0) (b := s.buf.take s.pos ++ List.replicate (r * 8 - s.pos) 0) ⟨[], List.replicate (1600 - r * 8) 0, by
        rw [List.nil_append, List.append_assoc, List.replicate_append_replicate, show r * 8 - s.pos + (1600 - r * 8) = 1600 - s.pos from by omega], rfl⟩ hb hI.eight]
      rw [KpaSpec.after, ← eager_stripes h0 l hstart.len (m.length / (r * 8) + 1) (m ++ Sp800185.fill (8 * r) m.length) l hstart.len (by
        rw [hf, List.length_append, List.length_replicate, Nat.mul_comm 8 r, Nat.mul_add]; omega), eager_append, ← hs, ← hrest, hf, eager_one hB hb]
  have hae : Eight (KpaSpec.after f r l m) := hstart.mapIdx fun i x hx => eager_length p hr _ _ hx
  have hproc : s.proc + BitVec.ofNat 64 s.pos = BitVec.ofNat 64 m.length := by
    rw [h.proc, ← BitVec.ofNat_add]
    congr 1
    show r * 8 * (m.length / (r * 8)) + s.pos = _
    omega
  have hhl : KpaSpec.hashLen r ≤ 64 := by rw [KpaSpec.hashLen]; split <;> omega
  obtain ⟨fb, c1, c2, c3⟩ := collect_eq hhl hae
  have hroot : (Fips202.absorb f r (List.replicate 200 0) (((KpaSpec.after f r l m).map (List.take (KpaSpec.hashLen r))).flatten ++
      Sp800185.fill r ((KpaSpec.after f r l m).map (List.take (KpaSpec.hashLen r))).flatten.length)).length = 200 := eager_length p hr _ _ zeros200
  obtain ⟨lb, b1, b2, b3, b4⟩ := lastBuf_eq (r := r) (by omega) (by omega) ho hm rfl
  have hpl : (Sp800185.rightEncode (8 * out.length) ++ Sp800185.rightEncode (8 * m.length) ++
      Fips202.pad r 0x41 (Sp800185.rightEncode (8 * out.length) ++ Sp800185.rightEncode (8 * m.length)).length).length = r := by
    rw [List.length_append, Fips202.pad, Nat.mod_eq_of_lt (a := (Sp800185.rightEncode (8 * out.length) ++ Sp800185.rightEncode (8 * m.length)).length) (by omega), if_neg (by omega)]
    simp only [List.length_cons, List.length_append, List.length_replicate, List.length_nil] at b4 ⊢
    omega
  rw [Kpa.finalize, if_neg (by simp [h.init]), if_neg (by rw [subU_le hoo (by omega)]; omega), clear_tail (by rw [hI.buf]; omega), ok_bind, hI.buf, h.rate]
  dsimp only
  rw [kst, ok_bind, hashLen_eq hmode, c1, ok_bind, hproc, ← c3, absorbLeaves_eq p h0 hr c2 zeros200, ok_bind, clear_all _ 1600 (by
    rw [List.length_append, hto, List.length_replicate]; omega), ok_bind, b1, ok_bind, fastAbsorb_eq b3 hpl.symm hroot (by omega), ok_bind]
  have ex := expand_eq p h0 hr out.length _ [] out [] (xorBytes_state hroot (b := Sp800185.rightEncode (8 * out.length) ++ Sp800185.rightEncode (8 * m.length) ++
      Fips202.pad r 0x41 (Sp800185.rightEncode (8 * out.length) ++ Sp800185.rightEncode (8 * m.length)).length) (by omega)) rfl
  simp only [List.nil_append, List.append_nil, List.length_nil] at ex
  rw [ex, ok_bind, clear_all _ _ b2, ok_bind]
  have htag : Fips202.squeeze f r (f (xorBytes (Fips202.absorb f r (List.replicate 200 0) (((KpaSpec.after f r l m).map (List.take (KpaSpec.hashLen r))).flatten ++
      Sp800185.fill r ((KpaSpec.after f r l m).map (List.take (KpaSpec.hashLen r))).flatten.length)) (Sp800185.rightEncode (8 * out.length) ++ Sp800185.rightEncode (8 * m.length) ++
      Fips202.pad r 0x41 (Sp800185.rightEncode (8 * out.length) ++ Sp800185.rightEncode (8 * m.length)).length ++
      List.replicate (200 - (Sp800185.rightEncode (8 * out.length) ++ Sp800185.rightEncode (8 * m.length) ++
      Fips202.pad r 0x41 (Sp800185.rightEncode (8 * out.length) ++ Sp800185.rightEncode (8 * m.length)).length).length) 0))) out.length = KpaSpec.tag f r l m out.length := by
    rw [KpaSpec.tag]
    generalize ((KpaSpec.after f r l m).map (List.take (KpaSpec.hashLen r))).flatten = H at *
    generalize Sp800185.rightEncode (8 * out.length) ++ Sp800185.rightEncode (8 * m.length) = R at *
    have hHm : (H ++ Sp800185.fill r H.length).length % r = 0 := by
      rw [List.length_append, Sp800185.fill, List.length_replicate]
      by_cases hz : H.length % r = 0
      · rw [hz, Nat.sub_zero, Nat.mod_self, Nat.add_zero, hz]
      · have := Nat.mod_lt H.length h0
        rw [Nat.mod_eq_of_lt (a := r - H.length % r) (by omega), Nat.add_mod, Nat.mod_eq_of_lt (a := r - H.length % r) (by omega), show H.length % r + (r - H.length % r) = r from by omega, Nat.mod_self]
    generalize H ++ Sp800185.fill r H.length = H2 at *
    have hpad : Fips202.pad r 0x41 (H2 ++ R).length = Fips202.pad r 0x41 R.length := by
      rw [Fips202.pad, Fips202.pad, List.length_append, Nat.add_mod, hHm, Nat.zero_add, Nat.mod_mod]
    have hnil : (eager r (Fips202.block f) (List.replicate 200 0) H2).2 = [] := List.eq_nil_of_length_eq_zero ((eager_rest_mod h0 _ _).trans hHm)
    rw [Fips202.sponge, hpad, Fips202.absorb, Fips202.absorb, List.append_assoc H2 R, eager_append _ H2, hnil, List.nil_append, eager_one h0 hpl, Fips202.block]
  rw [htag]
  have es : eager (r * 8) (step f r) (KpaSpec.after f r l m) [] = (KpaSpec.after f r l m, []) := eager_short (by simp; omega)
  refine ⟨_, rfl, ⟨hae, List.length_replicate, ?_, (by intro e; cases e), hI.tag⟩, rfl⟩
  intro x e
  cases e
  exact ⟨h.init, rfl, h.mode, hae, by rw [es], by rw [es]; rfl, by rw [es]; rfl, by simp⟩

theorem Run.inv (p : Perm P f) {s : Kpa} {g} (h : Run P f s g) : s.Inv f g := by
  induction h with
  | new => exact new_inv _
  | reset _ e ih =>
    obtain ⟨s1, e1, i1, _⟩ := reset_inv ih
    rw [e] at e1; cases e1; exact i1
  | @init s s' g key iv _ h1 h2 e ih =>
    have hk : 16 ≤ key.length := by
      rw [Kpa.«initialize»] at e
      split at e
      · cases e
      · rename_i h; exact Nat.not_lt.mp h
    obtain ⟨s1, e1, i1, _⟩ := init_inv p ih hk h1 h2
    rw [e] at e1; cases e1; exact i1
  | @update s s' r l m inp io len _ h1 h2 e ih =>
    have hb : io + len ≤ inp.length := by
      rw [Kpa.update] at e
      split at e
      · cases e
      · split at e
        · cases e
        · rename_i hs
          rw [subU_le h2 h1] at hs
          omega
    have hl : ((inp.drop io).take len).length = len := by rw [List.length_take, List.length_drop]; omega
    have hh : Holds inp io ((inp.drop io).take len) := by
      have := ((Holds.self inp).dropN h2).takeN len
      rwa [Nat.zero_add] at this
    obtain ⟨s1, e1, i1, _⟩ := update_inv p ih hh h1
    rw [hl, e] at e1; cases e1; exact i1
  | @final s s' r l m out oo out' _ h1 h2 h3 e ih =>
    have ht : s.tag ≤ out.length - oo := by
      rw [Kpa.finalize] at e
      split at e
      · cases e
      · split at e
        · cases e
        · rename_i hs
          rw [subU_le h3 (by omega)] at hs
          omega
    obtain ⟨s1, e1, i1, _⟩ := final_inv p ih h1 h2 h3 ht
    rw [e] at e1; cases e1; exact i1

/-- `Update` with each of the parts -/
def updates (P : List Byte → M (List Byte)) : List (List Byte) → Kpa → M Kpa
  | [], s => .ok s
  | x :: xs, s => do
    let s ← s.update P x 0 x.length
    updates P xs s

theorem updates_inv (p : Perm P f) : ∀ (xs : List (List Byte)) {s : Kpa} {r l m}, s.Inv f (some ⟨r, l, m⟩) → (∀ x ∈ xs, x.length < 2 ^ 64) →
    ∃ s', updates P xs s = .ok s' ∧ s'.Inv f (some ⟨r, l, m ++ xs.flatten⟩) ∧ s'.tag = s.tag
  | [], s, r, l, m, h, _ => ⟨s, rfl, by simpa using h, rfl⟩
  | x :: xs, s, r, l, m, h, hx => by
    obtain ⟨s1, e1, i1, t1⟩ := update_inv p h (Holds.self x) (hx x (by simp))
    obtain ⟨s2, e2, i2, t2⟩ := updates_inv p xs i1 (fun y hy => hx y (by simp [hy]))
    refine ⟨s2, by rw [updates, e1, ok_bind, e2], ?_, t2.trans t1⟩
    rw [List.flatten_cons, ← List.append_assoc]; exact i2

theorem finalAt_inv (p : Perm P f) {s : Kpa} {r l m} (hI : s.Inv f (some ⟨r, l, m⟩)) (hm : 8 * m.length < 2 ^ 56) (pre junk : List Byte) (ho : 8 * junk.length < 2 ^ 56) (ht : s.tag ≤ junk.length) :
    ∃ s', s.finalizeAt P (pre ++ junk) pre.length = .ok (s', pre ++ KpaSpec.tag f r l m junk.length) ∧ s'.Inv f (some ⟨r, KpaSpec.after f r l m, []⟩) ∧ s'.tag = s.tag ∧
      (KpaSpec.tag f r l m junk.length).length = junk.length ∧ s.finalize P (List.replicate junk.length 0) 0 = .ok (s', KpaSpec.tag f r l m junk.length) := by
  obtain ⟨s1, e1, i1, t1⟩ := final_inv p hI hm (out := List.replicate junk.length 0) (oo := 0) (by rw [List.length_replicate]; exact ho) (Nat.zero_le _) (by rw [List.length_replicate]; exact ht)
  rw [List.length_replicate] at e1
  have hmode : r = 168 ∨ r = 136 ∨ r = 72 := (hI.keyed _ rfl).mode
  have hl : (KpaSpec.tag f r l m junk.length).length = junk.length := by
    rw [KpaSpec.tag, Fips202.sponge]
    exact squeeze_length p (by omega) (by omega) _ _ (eager_length p (by omega) _ _ zeros200)
  have hc := copy_at (a := pre) (b := junk) (c := []) (s := KpaSpec.tag f r l m junk.length) (Holds.self _) rfl hl.symm hl.symm
  simp only [List.append_nil] at hc
  refine ⟨s1, ?_, i1, t1, hl, e1⟩
  rw [finalizeAt, show (pre ++ junk).length - pre.length = junk.length from by rw [List.length_append]; omega, e1, ok_bind, hc, ok_bind]
  rfl

theorem perm12 : Perm (permute 12) (Fips202.keccakP 12) := ⟨fun _ h => permute_eq (n := 6) (by decide) h, fun _ _ => keccakP_length _ _⟩

end Kpa

open Kpa (Run perm12 init_inv update_inv updates_inv final_inv finalAt_inv reset_inv new_inv)

/-- **C90.** Whatever the object did before: after `Initialize` with a key of at least 16 bytes, the message may come in any parts, and `Finalize` writes its KPA tag behind the offset, in the
length that the output leaves, and nothing else. -/
theorem C90_mac (s : Kpa) (g) (h : Run (permute 12) (Fips202.keccakP 12) s g) (key iv : List Byte) (hk : 16 ≤ key.length) (hkl : 8 * key.length < 2 ^ 64) (hil : 8 * iv.length < 2 ^ 64)
    (parts : List (List Byte)) (hm : 8 * parts.flatten.length < 2 ^ 56) (pre junk : List Byte) (ho : 8 * junk.length < 2 ^ 56) (ht : s.tag ≤ junk.length) :
    ∃ s1 s2 s3, s.initialize (permute 12) key iv = .ok s1 ∧ Kpa.updates (permute 12) parts s1 = .ok s2 ∧
      s2.finalizeAt (permute 12) (pre ++ junk) pre.length = .ok (s3, pre ++ KpaSpec.kpa key iv parts.flatten junk.length) ∧
      (KpaSpec.kpa key iv parts.flatten junk.length).length = junk.length := by
  obtain ⟨s1, e1, i1, t1⟩ := init_inv perm12 (h.inv perm12) hk hkl hil
  have hparts : ∀ x ∈ parts, x.length < 2 ^ 64 := fun x hx => by
    have : x.length ≤ parts.flatten.length := by
      exact (List.sublist_flatten_of_mem hx).length_le
    omega
  obtain ⟨s2, e2, i2, t2⟩ := updates_inv perm12 parts i1 hparts
  rw [List.nil_append] at i2
  obtain ⟨s3, e3, i3, t3, l3, _⟩ := finalAt_inv perm12 i2 hm pre junk ho (by rw [t2, t1]; exact ht)
  exact ⟨s1, s2, s3, e1, e2, e3, l3⟩

/-- **C90.** `Compute` on an object that has just been initialized. -/
theorem C90_compute (s : Kpa) (g) (h : Run (permute 12) (Fips202.keccakP 12) s g) (key iv : List Byte) (hk : 16 ≤ key.length) (hkl : 8 * key.length < 2 ^ 64) (hil : 8 * iv.length < 2 ^ 64)
    (msg : List Byte) (hm : 8 * msg.length < 2 ^ 56) (out : List Byte) (ho : 8 * out.length < 2 ^ 56) (ht : s.tag ≤ out.length) :
    ∃ s1 s2, s.initialize (permute 12) key iv = .ok s1 ∧ s1.compute (permute 12) msg out = .ok (s2, KpaSpec.kpa key iv msg out.length) := by
  obtain ⟨s1, e1, i1, t1⟩ := init_inv perm12 (h.inv perm12) hk hkl hil
  obtain ⟨s2, e2, i2, t2⟩ := update_inv perm12 i1 (Holds.self msg) (by omega)
  rw [List.nil_append] at i2
  obtain ⟨s3, e3, i3, t3, l3, _⟩ := finalAt_inv perm12 i2 hm [] out ho (by rw [t2, t1]; exact ht)
  refine ⟨s1, s3, e1, ?_⟩
  rw [Kpa.compute, if_neg (by simp [(i1.keyed _ rfl).init]), if_neg (by rw [t1]; omega), e2, ok_bind]
  exact e3

/-- **C90**, what a second message without `Initialize` gets: the tag for leaves that have absorbed the first one. -/
theorem C90_next_partial (s : Kpa) (r l m) (h : Run (permute 12) (Fips202.keccakP 12) s (some ⟨r, l, m⟩)) (hm : 8 * m.length < 2 ^ 56) (out : List Byte) (oo : Nat) (ho : 8 * out.length < 2 ^ 56)
    (hoo : oo ≤ out.length) (ht : s.tag ≤ out.length - oo) :
    ∃ s', s.finalize (permute 12) out oo = .ok (s', KpaSpec.tag (Fips202.keccakP 12) r l m out.length) ∧ s'.init = true ∧
      Run (permute 12) (Fips202.keccakP 12) s' (some ⟨r, KpaSpec.after (Fips202.keccakP 12) r l m, []⟩) := by
  obtain ⟨s1, e1, i1, t1⟩ := final_inv perm12 (h.inv perm12) hm ho hoo ht
  exact ⟨s1, e1, (i1.keyed _ rfl).init, .final h hm ho hoo e1⟩

/-- **C90**, refuted for the tag size: `TagSize` of KPA512 is 1, and `Compute` accepts an output of one byte. -/
theorem C90_tag_size_refuted : (Kpa.new .k512).tag = 1 ∧ ∀ key iv msg : List Byte, 16 ≤ key.length → 8 * key.length < 2 ^ 64 → 8 * iv.length < 2 ^ 64 → 8 * msg.length < 2 ^ 56 →
    ∃ s1 s2, (Kpa.new .k512).initialize (permute 12) key iv = .ok s1 ∧ s1.compute (permute 12) msg [0] = .ok (s2, KpaSpec.kpa key iv msg 1) :=
  ⟨rfl, fun key iv msg hk hkl hil hm => C90_compute _ _ .new key iv hk hkl hil msg hm [0] (by decide) (by decide)⟩

/-- The other two modes have the documented tag sizes. -/
theorem C90_tag_size : (Kpa.new .k128).tag = 16 ∧ (Kpa.new .k256).tag = 32 := ⟨rfl, rfl⟩

/-- **C90**, refuted for the mode: the rate is chosen by the key, not by the mode; initialized objects of any two modes differ in the tag size alone. -/
theorem C90_mode_ignored (k k' : Kpa.Kind) (key iv : List Byte) (hk : 16 ≤ key.length) (hkl : 8 * key.length < 2 ^ 64) (hil : 8 * iv.length < 2 ^ 64) :
    ∃ s, (Kpa.new k).initialize (permute 12) key iv = .ok s ∧ (Kpa.new k').initialize (permute 12) key iv = .ok { s with tag := k'.tagSize } ∧ s.rate = KpaSpec.rate key := by
  obtain ⟨s, e, i, t⟩ := init_inv perm12 (new_inv (f := Fips202.keccakP 12) k) hk hkl hil
  refine ⟨s, e, ?_, (i.keyed _ rfl).rate⟩
  rw [Kpa.«initialize», if_neg (by omega)] at e ⊢
  obtain ⟨s0, e0, e⟩ := bind_ok e
  have : s0 = Kpa.new k := (Except.ok.inj e0).symm
  subst this
  rw [show (if (Kpa.new k').init = true then (Kpa.new k').reset else pure (Kpa.new k')) = .ok (Kpa.new k') from rfl, ok_bind]
  obtain ⟨t0, f0, e⟩ := bind_ok e
  obtain ⟨t1, f1, e⟩ := bind_ok e
  obtain ⟨t2, f2, e⟩ := bind_ok e
  obtain ⟨t3, f3, e⟩ := bind_ok e
  have f2' : Kpa.each (fun i x => do
      let y ← copy t1 0 x 0 200
      xorInto (Kpa.algn i) 0 y 0 8) (Kpa.new k').st = .ok t2 := f2
  dsimp only
  rw [f0, ok_bind, f1, ok_bind, f2', ok_bind, f3, ok_bind]
  cases e
  rfl

/-- **C90**, refuted for the offset: `Finalize` on a SecureVector overwrites the bytes before the offset; its output does not depend on the offset. -/
theorem C90_offset_refuted (s : Kpa) (out : List Byte) (oo : Nat) (ho : out.length < 2 ^ 64)
    (hoo : oo ≤ out.length) (ht : s.tag ≤ out.length - oo) : s.finalize (permute 12) out oo = s.finalize (permute 12) out 0 := by
  rw [Kpa.finalize, Kpa.finalize, if_neg (show ¬ subU out.length oo < s.tag by rw [subU_le hoo (by omega)]; omega),
    if_neg (show ¬ subU out.length 0 < s.tag by rw [subU_le (Nat.zero_le _) (by omega)]; omega)]

theorem take_ne {n : Nat} {l : List Byte} (h : 0 < l.length) : ¬ l.take (n + 1) = (l.take (n + 1)).map (· + 1) := by
  cases l with
  | nil => cases h
  | cons x l =>
    intro h
    have hx : x = x + 1 := (List.cons.inj h).1
    have := congrArg BitVec.toNat hx
    rw [BitVec.toNat_add] at this
    have := x.isLt
    have h1 : (1 : Byte).toNat = 1 := rfl
    omega

/-- a case with an offset: bytes before it are lost -/
theorem C90_offset_witness : ∃ pre s s1 out, pre.length = 4 ∧ (Kpa.new .k128).initialize (permute 12) (List.replicate 16 7) [] = .ok s ∧
    s.finalize (permute 12) (pre ++ List.replicate 16 0) 4 = .ok (s1, out) ∧ out.take 4 ≠ pre := by
  obtain ⟨s, e, i, t⟩ := init_inv perm12 (new_inv (f := Fips202.keccakP 12) .k128) (key := List.replicate 16 7) (iv := []) (by decide) (by decide) (by decide)
  have ht : s.tag = 16 := t
  obtain ⟨_, _, _, _, hl, _⟩ := finalAt_inv perm12 i (by decide) [] (List.replicate 20 0) (by decide) (by rw [ht]; decide)
  rw [List.length_replicate] at hl
  generalize htag : KpaSpec.tag (Fips202.keccakP 12) _ _ _ 20 = tag at hl
  have hp : ((tag.take 4).map (· + 1)).length = 4 := by rw [List.length_map, List.length_take]; omega
  have ho : ((tag.take 4).map (· + 1) ++ List.replicate 16 0).length = 20 := by rw [List.length_append, hp]; rfl
  obtain ⟨s1, e1, _⟩ := final_inv perm12 i (by decide) (out := (tag.take 4).map (· + 1) ++ List.replicate 16 0) (oo := 4) (by rw [ho]; decide) (by rw [ho]; decide) (by rw [ho, ht])
  rw [ho, htag] at e1
  refine ⟨_, s, s1, tag, hp, e, e1, fun h => ?_⟩
  exact take_ne (by omega) h

/-- **C90**, refuted for `Reset`: of each keyed leaf state only the first 25 bytes are cleared, 175 bytes stay. -/
theorem C90_reset_refuted (s : Kpa) (g) (h : Run (permute 12) (Fips202.keccakP 12) s g) :
    ∃ s', s.reset = .ok s' ∧ s'.init = false ∧ s'.st = s.st.map (fun x => List.replicate 25 0 ++ x.drop 25) ∧ s'.buf = List.replicate 1600 0 := by
  have hb := (h.inv perm12).buf
  obtain ⟨s1, e1, i1, t1, st1⟩ := reset_inv (h.inv perm12)
  refine ⟨s1, e1, i1.none rfl, st1, ?_⟩
  rw [Kpa.reset] at e1
  obtain ⟨a, f1, e1⟩ := bind_ok e1
  rw [clear_all _ _ hb, ok_bind] at e1
  cases e1
  rfl

/-- An object without a key refuses everything. -/
theorem C90_not_keyed (s : Kpa) (h : Run (permute 12) (Fips202.keccakP 12) s none) (inp out : List Byte) (a b : Nat) :
    s.update (permute 12) inp a b = .error (.throws .notInitialized) ∧ s.finalize (permute 12) out a = .error (.throws .notInitialized) ∧
      s.compute (permute 12) inp out = .error (.throws .notInitialized) := by
  have hi := (h.inv perm12).none rfl
  refine ⟨?_, ?_, ?_⟩
  · rw [Kpa.update, if_pos (by simp [hi])]; rfl
  · rw [Kpa.finalize, if_pos (by simp [hi])]; rfl
  · rw [Kpa.compute, if_pos (by simp [hi])]; rfl

/-- a case that meets the hypotheses of C90_mac: a KPA256 object, a 32-byte key, a customization, three parts that fill more than a block of the leaves, and an offset -/
example : ∃ s1 s2 s3, (Kpa.new .k256).initialize (permute 12) (List.replicate 32 9) [1, 2] = .ok s1 ∧
    Kpa.updates (permute 12) [List.replicate 500 1, List.replicate 700 2, []] s1 = .ok s2 ∧
    s2.finalizeAt (permute 12) ([5, 5] ++ List.replicate 32 0) 2 =
      .ok (s3, [5, 5] ++ KpaSpec.kpa (List.replicate 32 9) [1, 2] (List.replicate 500 1 ++ (List.replicate 700 2 ++ ([] ++ []))) 32) := by
  have hf : [List.replicate 500 (1 : Byte), List.replicate 700 2, []].flatten = List.replicate 500 1 ++ (List.replicate 700 2 ++ ([] ++ [])) := rfl
  obtain ⟨s1, s2, s3, e1, e2, e3, _⟩ := C90_mac _ _ (.new (k := .k256)) (List.replicate 32 9) [1, 2] (by decide) (by decide) (by decide) [List.replicate 500 1, List.replicate 700 2, []]
    (by rw [hf]; simp only [List.length_append, List.length_replicate]; decide) [5, 5] (List.replicate 32 0) (by decide) (by decide)
  exact ⟨s1, s2, s3, e1, e2, e3⟩

end Cex.Keccak
