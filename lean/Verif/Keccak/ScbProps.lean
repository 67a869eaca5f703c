import Verif.Keccak.ScbModel
import Verif.Keccak.ScbSpec
import Verif.Keccak.ShakeProps

/-! # C89 SCBKDF -/

namespace Cex.Keccak
open Cex Cex.IntTools Stream Cex.Mac

variable {P : List Byte → M (List Byte)} {f : List Byte → List Byte} {r : Nat}

namespace Scb

/-- the rates of the three modes -/
def Mode (r : Nat) : Prop := r = 168 ∨ r = 136 ∨ r = 72

/-- `Run P r s g`: `s` is reachable with rate `r`; `g` are the state and the cache of the specification since the last `Initialize`, or `none` before the first and after
`Reset`. -/
inductive Run (P : List Byte → M (List Byte)) (f : List Byte → List Byte) (r : Nat) : Scb → Option ScbSpec.St → Prop
  | new {s cpu mem} : new r cpu mem = .ok s → Run P f r s none
  | reset {s s' g} : Run P f r s g → s.reset = .ok s' → Run P f r s' none
  | cost {s g cpu mem} : Run P f r s g → Run P f r (s.setCost cpu mem) g
  | init {s s' g key iv info} : Run P f r s g → 8 * iv.length < 2 ^ 64 → 8 * info.length < 2 ^ 64 → Shake.Fits r iv info → s.initialize P key iv info = .ok s' →
      Run P f r s' (some (ScbSpec.start f r key iv info))
  | gen {s s' x out oo len out'} : Run P f r s (some x) → out.length < 2 ^ 64 → oo ≤ out.length → s.generateAt P out oo len = .ok (s', out') →
      Run P f r s' (some (ScbSpec.request f r (ScbSpec.implemented s.mem) s.cpu len x).2)

/-- what holds in every reachable state -/
structure Inv (r : Nat) (s : Scb) (g : Option ScbSpec.St) : Prop where
  rate : s.rate = r
  len : s.st.length = 200
  zero : s.init = false → s.st = List.replicate 200 0 ∧ s.cache = []
  keyed : ∀ x, g = some x → s.init = true ∧ s.st = x.1 ∧ s.cache = x.2
  none : g = none → s.init = false

theorem soak_eq (h0 : 0 < r) (st m : List Byte) : ScbSpec.soak f r st m = absorbed f r 0x24 st m := by
  rw [ScbSpec.soak, absorbed, Fips202.absorb, eager_rest h0]

theorem custom_eq (iv info : List Byte) : ScbSpec.custom f r iv info = Shake.base f r iv info := rfl

theorem reset_inv {s : Scb} {g} (h : s.Inv r g) : ∃ s', s.reset = .ok s' ∧ s'.Inv r .none ∧ s'.cpu = s.cpu ∧ s'.mem = s.mem := by
  rw [reset, clear_all _ _ h.len, ok_bind, clear_all _ _ rfl, ok_bind]
  exact ⟨_, rfl, ⟨h.rate, List.length_replicate, fun _ => ⟨rfl, rfl⟩, (fun _ e => by cases e), fun _ => rfl⟩, rfl, rfl⟩

theorem new_inv {cpu mem : Nat} (m : Mode r) : ∃ s, new r cpu mem = .ok s ∧ s.Inv r .none ∧ s.cpu = cpu ∧ s.mem = mem := by
  rw [new, if_neg (by rcases m with h | h | h <;> omega)]
  exact ⟨_, rfl, ⟨rfl, List.length_replicate, fun _ => ⟨rfl, rfl⟩, (fun _ e => by cases e), fun _ => rfl⟩, rfl, rfl⟩

theorem init_inv (p : Perm P f) (m : Mode r) {s : Scb} {g} (h : s.Inv r g) {key iv info : List Byte} (hk : 16 ≤ key.length) (hcl : 8 * iv.length < 2 ^ 64)
    (hil : 8 * info.length < 2 ^ 64) (hf : Shake.Fits r iv info) :
    ∃ s', s.initialize P key iv info = .ok s' ∧ s'.Inv r (some (ScbSpec.start f r key iv info)) ∧ s'.cpu = s.cpu ∧ s'.mem = s.mem := by
  have hr : r < 200 := by rcases m with h | h | h <;> omega
  have h20 : 20 ≤ r := by rcases m with h | h | h <;> omega
  have h8 : r % 8 = 0 := by rcases m with h | h | h <;> omega
  have h0 : 0 < r := by omega
  have hr2 : r ≤ 200 := by omega
  rw [Scb.«initialize», if_neg (by omega)]
  obtain ⟨s1, e1, i1, c1, m1⟩ : ∃ s1, (if s.init then s.reset else pure s) = .ok s1 ∧ s1.Inv r .none ∧ s1.cpu = s.cpu ∧ s1.mem = s.mem := by
    by_cases hi : s.init = true
    · rw [if_pos hi]; exact reset_inv h
    · rw [if_neg hi]
      exact ⟨s, rfl, ⟨h.rate, h.len, h.zero, (fun _ e => by cases e), fun _ => by simpa using hi⟩, rfl, rfl⟩
  rw [e1, ok_bind]
  obtain ⟨hz, hc⟩ := i1.zero (i1.none rfl)
  have key2 : (if iv.length ≠ 0 ∨ info.length ≠ 0 then customize P iv info s1.rate s1.st else pure s1.st) = .ok (ScbSpec.custom f r iv info) := by
    by_cases hn : iv = [] ∧ info = []
    · rw [if_neg (by rw [hn.1, hn.2]; simp), ScbSpec.custom, if_pos hn, hz]; rfl
    · rw [if_pos (by rcases iv with _ | _ <;> rcases info with _ | _ <;> simp_all), i1.rate, hz,
        customize_eq p hr h20 h8 zeros200 iv info hcl hil (hf.resolve_left hn), ScbSpec.custom, if_neg hn]
  have hb := Shake.base_len p hr2 iv info
  rw [key2, ok_bind, i1.rate, custom_eq, absorb_eq p h0 hr2 _ (Holds.self key) rfl hb, ok_bind, ← soak_eq h0]
  have hl : (ScbSpec.soak f r (Shake.base f r iv info) key).length = 200 := by rw [soak_eq h0]; exact absorbed_length p h0 hr2 hb
  rw [p.run _ hl, ok_bind]
  have hl2 := p.len _ hl
  dsimp only
  rw [copy_whole (holds_take _ r) (by rw [List.length_take]; omega) (by
    rw [hc, List.length_append, List.length_replicate, List.length_take, List.length_take]; simp; omega), ok_bind]
  refine ⟨_, rfl, ⟨rfl, hl2, (by intro e; cases e), ?_, (by intro e; cases e)⟩, c1, m1⟩
  intro x e
  cases e
  exact ⟨rfl, rfl, rfl⟩

theorem turn_inv (p : Perm P f) (h0 : 0 < r) (hr : r ≤ 200) {s : Scb} {x} (h : s.Inv r (some x)) :
    ∃ s', s.turn P = .ok s' ∧ s'.Inv r (some (ScbSpec.turn f r (ScbSpec.implemented s.mem) x)) ∧ s'.cpu = s.cpu ∧ s'.mem = s.mem := by
  obtain ⟨a, b, c⟩ := h.keyed x rfl
  have hl : (ScbSpec.soak f r x.1 x.2).length = 200 := by rw [soak_eq h0]; exact absorbed_length p h0 hr (b ▸ h.len)
  rw [turn, h.rate, b, c, absorb_eq p h0 hr _ (Holds.self x.2) rfl (b ▸ h.len), ok_bind, ← soak_eq h0]
  by_cases hg : 25 < s.mem * 1000000 % 2 ^ 64
  · have hy : ScbSpec.turn f r (ScbSpec.implemented s.mem) x = (ScbSpec.soak f r x.1 x.2, x.2 ++ (ScbSpec.soak f r x.1 x.2).take r) := by
      rw [ScbSpec.turn, ScbSpec.implemented, decide_eq_true hg]; rfl
    have := copy_at (a := x.2) (b := List.replicate r 0) (c := []) (holds_take (ScbSpec.soak f r x.1 x.2) r) rfl (n := r) (by rw [List.length_take]; omega)
      (by rw [List.length_take, List.length_replicate]; omega)
    simp only [List.append_nil] at this
    rw [if_pos hg, this, ok_bind, hy]
    refine ⟨_, rfl, ⟨rfl, hl, (by intro e; rw [a] at e; cases e), ?_, (by intro e; cases e)⟩, rfl, rfl⟩
    intro y e
    cases e
    exact ⟨a, rfl, rfl⟩
  · have hy : ScbSpec.turn f r (ScbSpec.implemented s.mem) x = (ScbSpec.soak f r x.1 x.2, x.2) := by
      rw [ScbSpec.turn, ScbSpec.implemented, decide_eq_false hg]; rfl
    rw [if_neg hg, hy]
    refine ⟨_, rfl, ⟨rfl, hl, (by intro e; rw [a] at e; cases e), ?_, (by intro e; cases e)⟩, rfl, rfl⟩
    intro y e
    cases e
    exact ⟨a, rfl, rfl⟩

theorem loop_inv (p : Perm P f) (h0 : 0 < r) (hr : r ≤ 200) : ∀ (n k : Nat) {s : Scb} {x}, s.Inv r (some x) →
    ∃ s', loopN n k (fun _ s => turn P s) s = .ok s' ∧ s'.Inv r (some (ScbSpec.turns f r (ScbSpec.implemented s.mem) n x)) ∧ s'.cpu = s.cpu ∧ s'.mem = s.mem
  | 0, k, s, x, h => ⟨s, rfl, h, rfl, rfl⟩
  | n + 1, k, s, x, h => by
    obtain ⟨s1, e1, i1, c1, m1⟩ := turn_inv p h0 hr h
    obtain ⟨s2, e2, i2, c2, m2⟩ := loop_inv p h0 hr n (k + 1) i1
    refine ⟨s2, by rw [loopN, e1, ok_bind, e2], ?_, c2.trans c1, m2.trans m1⟩
    rw [m1] at i2
    have e : ∀ (n : Nat) (y : ScbSpec.St) (g : ScbSpec.St → ScbSpec.St), Nat.repeat g n (g y) = Nat.repeat g (n + 1) y := fun n y g => by
      induction n with
      | zero => rfl
      | succ n ih => rw [Nat.repeat, ih]; rfl
    rw [ScbSpec.turns, ← e]
    exact i2

theorem gen_inv (p : Perm P f) (h0 : 0 < r) (hr : r ≤ 200) {s : Scb} {x} (h : s.Inv r (some x)) (pre junk post : List Byte) (hl : (pre ++ junk ++ post).length < 2 ^ 64) :
    ∃ s', s.generateAt P (pre ++ junk ++ post) pre.length junk.length =
        .ok (s', pre ++ (ScbSpec.request f r (ScbSpec.implemented s.mem) s.cpu junk.length x).1 ++ post) ∧
      s'.Inv r (some (ScbSpec.request f r (ScbSpec.implemented s.mem) s.cpu junk.length x).2) ∧ s'.cpu = s.cpu ∧ s'.mem = s.mem := by
  have hi := (h.keyed x rfl).1
  have hsub : subU (pre ++ junk ++ post).length pre.length = junk.length + post.length := by
    rw [subU_le (by simp only [List.length_append]; omega) (by omega)]; simp only [List.length_append]; omega
  obtain ⟨s1, e1, i1, c1, m1⟩ := loop_inv p h0 hr s.cpu 0 h
  obtain ⟨a, b, c⟩ := i1.keyed _ rfl
  rw [generateAt, if_neg (by simp [hi]), if_neg (by omega), turns, e1, ok_bind, i1.rate, expand_eq p h0 hr _ _ pre junk post i1.len rfl, ok_bind, b]
  refine ⟨_, rfl, ⟨rfl, ?_, (by intro e; rw [a] at e; cases e), ?_, (by intro e; cases e)⟩, c1, m1⟩
  · exact repeat_len p _ (b ▸ i1.len)
  · intro y e
    cases e
    exact ⟨a, rfl, c⟩

theorem init_ok {s s' : Scb} {key iv info : List Byte} (h : s.initialize P key iv info = .ok s') : 16 ≤ key.length := by
  rw [Scb.«initialize»] at h
  split at h
  · cases h
  · omega

theorem Run.inv (p : Perm P f) (m : Mode r) {s : Scb} {g} (h : Run P f r s g) : s.Inv r g := by
  have h0 : 0 < r := by rcases m with h | h | h <;> omega
  have hr : r ≤ 200 := by rcases m with h | h | h <;> omega
  induction h with
  | @new s cpu mem e =>
    obtain ⟨s1, e1, i1, _, _⟩ := new_inv (cpu := cpu) (mem := mem) m
    rw [e] at e1; cases e1; exact i1
  | reset _ e ih =>
    obtain ⟨s1, e1, i1, _⟩ := reset_inv ih
    rw [e] at e1; cases e1; exact i1
  | cost _ ih => exact ⟨ih.rate, ih.len, ih.zero, ih.keyed, ih.none⟩
  | init _ h1 h2 h3 e ih =>
    obtain ⟨s1, e1, i1, _⟩ := init_inv p m ih (init_ok e) h1 h2 h3
    rw [e] at e1; cases e1; exact i1
  | @gen s s' x out oo len out' _ h1 h2 e ih =>
    have hb : oo + len ≤ out.length := by
      rw [generateAt] at e
      split at e
      · cases e
      · split at e
        · cases e
        · rename_i hs
          rw [subU_le h2 h1] at hs
          omega
    obtain ⟨pre, junk, post, rfl, rfl, rfl⟩ := Shake.split3 hb
    obtain ⟨s1, e1, i1, _⟩ := gen_inv p h0 hr ih pre junk post h1
    rw [e] at e1; cases e1; exact i1

end Scb

open Scb (Run new_inv init_inv gen_inv soak_eq)

/-- **C89.** Initialisation succeeds from every reachable state, with every key of at least 16 bytes, and its result does not depend on what the object did before. -/
theorem C89_initialize (m : Scb.Mode r) (s : Scb) (g) (h : Run (permute 24) (Fips202.keccakP 24) r s g) (key iv info : List Byte) (hk : 16 ≤ key.length) (hcl : 8 * iv.length < 2 ^ 64)
    (hil : 8 * info.length < 2 ^ 64) (hf : Shake.Fits r iv info) :
    ∃ s', s.initialize (permute 24) key iv info = .ok s' ∧ Run (permute 24) (Fips202.keccakP 24) r s' (some (ScbSpec.start (Fips202.keccakP 24) r key iv info)) ∧
      s'.cpu = s.cpu ∧ s'.mem = s.mem := by
  obtain ⟨s1, e1, _, c, d⟩ := init_inv perm24 m (h.inv perm24 m) hk hcl hil hf
  exact ⟨s1, e1, .init h hcl hil hf e1, c, d⟩

/-- **C89.** A request writes the derived bytes to its place in the output and nothing else, in every reachable state. The cache grows as implemented, not as described. -/
theorem C89_generate_partial (m : Scb.Mode r) (s : Scb) (x) (h : Run (permute 24) (Fips202.keccakP 24) r s (some x)) (pre junk post : List Byte) (hl : (pre ++ junk ++ post).length < 2 ^ 64) :
    ∃ s', s.generateAt (permute 24) (pre ++ junk ++ post) pre.length junk.length =
        .ok (s', pre ++ (ScbSpec.request (Fips202.keccakP 24) r (ScbSpec.implemented s.mem) s.cpu junk.length x).1 ++ post) ∧
      Run (permute 24) (Fips202.keccakP 24) r s' (some (ScbSpec.request (Fips202.keccakP 24) r (ScbSpec.implemented s.mem) s.cpu junk.length x).2) ∧ s'.cpu = s.cpu ∧ s'.mem = s.mem := by
  obtain ⟨s1, e1, _, c, d⟩ := gen_inv perm24 (by rcases m with h | h | h <;> omega) (by rcases m with h | h | h <;> omega) (h.inv perm24 m) pre junk post hl
  exact ⟨s1, e1, .gen h hl (by simp only [List.length_append]; omega) e1, c, d⟩

/-- Without a memory cost, the default, the code does what is described. -/
theorem C89_no_memory : ScbSpec.implemented 0 = ScbSpec.described 0 := by
  funext n
  simp [ScbSpec.implemented, ScbSpec.described]

/-- the cache after `n` turns -/
theorem cache_turns (p : Perm P f) (h0 : 0 < r) (hr : r ≤ 200) {mem : Nat} (hg : ∀ k, ScbSpec.implemented mem k = true) (n : Nat) {x : ScbSpec.St} (hx : x.1.length = 200) :
    (ScbSpec.turns f r (ScbSpec.implemented mem) n x).2.length = x.2.length + n * r ∧ (ScbSpec.turns f r (ScbSpec.implemented mem) n x).1.length = 200 := by
  induction n with
  | zero => exact ⟨by simp [ScbSpec.turns, Nat.repeat], hx⟩
  | succ n ih =>
    have hs : (ScbSpec.soak f r (ScbSpec.turns f r (ScbSpec.implemented mem) n x).1 (ScbSpec.turns f r (ScbSpec.implemented mem) n x).2).length = 200 := by
      rw [soak_eq h0]; exact absorbed_length p h0 hr ih.2
    rw [show ScbSpec.turns f r (ScbSpec.implemented mem) (n + 1) x = ScbSpec.turn f r (ScbSpec.implemented mem) (ScbSpec.turns f r (ScbSpec.implemented mem) n x) from rfl,
      ScbSpec.turn, hg, if_pos rfl]
    refine ⟨?_, hs⟩
    dsimp only
    rw [List.length_append, ih.1, List.length_take, hs, Nat.add_mul]
    omega

/-- **C89**, refuted for the memory cost: after any first request the cache has `(CpuCost + 1) * rate` bytes, for every memory cost from 1 to 2^44 megabytes. -/
theorem C89_memory (m : Scb.Mode r) (s : Scb) (g) (h : Run (permute 24) (Fips202.keccakP 24) r s g) (key iv info : List Byte) (hk : 16 ≤ key.length) (hcl : 8 * iv.length < 2 ^ 64)
    (hil : 8 * info.length < 2 ^ 64) (hf : Shake.Fits r iv info) (hm : 1 ≤ s.mem ∧ s.mem < 2 ^ 44) (out : List Byte) (ho : out.length < 2 ^ 64) :
    ∃ s1 s2 out', s.initialize (permute 24) key iv info = .ok s1 ∧ s1.generateAt (permute 24) out 0 out.length = .ok (s2, out') ∧ s2.cache.length = (s.cpu + 1) * r := by
  have h0 : 0 < r := by rcases m with h | h | h <;> omega
  have hr : r ≤ 200 := by rcases m with h | h | h <;> omega
  obtain ⟨s1, e1, r1, c1, m1⟩ := C89_initialize m s g h key iv info hk hcl hil hf
  obtain ⟨s2, e2, r2, _, _⟩ := C89_generate_partial m s1 _ r1 [] out [] (by simpa using ho)
  simp only [List.nil_append, List.append_nil, List.length_nil] at e2
  refine ⟨s1, s2, _, e1, e2, ?_⟩
  rw [((r2.inv perm24 m).keyed _ rfl).2.2, m1, c1]
  have hg : ∀ k, ScbSpec.implemented s.mem k = true := fun k => by
    rw [ScbSpec.implemented, decide_eq_true_eq, Nat.mod_eq_of_lt (by omega)]
    omega
  have hx : (ScbSpec.start (Fips202.keccakP 24) r key iv info).1.length = 200 := by
    have := (r1.inv perm24 m)
    rw [← (this.keyed _ rfl).2.1]; exact this.len
  have := (cache_turns perm24 h0 hr hg s.cpu hx).1
  rw [show (ScbSpec.request (Fips202.keccakP 24) r (ScbSpec.implemented s.mem) s.cpu out.length (ScbSpec.start (Fips202.keccakP 24) r key iv info)).2.2 =
    (ScbSpec.turns (Fips202.keccakP 24) r (ScbSpec.implemented s.mem) s.cpu (ScbSpec.start (Fips202.keccakP 24) r key iv info)).2 from rfl, this]
  have : (ScbSpec.start (Fips202.keccakP 24) r key iv info).2.length = r := by
    show ((ScbSpec.start (Fips202.keccakP 24) r key iv info).1.take r).length = r
    rw [List.length_take, hx]; omega
  rw [this, Nat.add_mul]; omega

/-- **C89**, refuted by a witness: SHAKE128, one megabyte, 10000 cycles (the default): the cache takes 1680168 bytes. -/
theorem C89_memory_refuted : ∃ s s1 s2 out', Scb.new 168 10000 1 = .ok s ∧ s.initialize (permute 24) (List.replicate 16 7) [] [] = .ok s1 ∧
    s1.generateAt (permute 24) (List.replicate 32 0) 0 32 = .ok (s2, out') ∧ s2.mem * 1000000 < s2.cache.length := by
  obtain ⟨s, e, i, c, d⟩ := new_inv (r := 168) (cpu := 10000) (mem := 1) (.inl rfl)
  obtain ⟨s1, e1, r1, c1, d1⟩ := C89_initialize (.inl rfl) s _ (.new e) (List.replicate 16 7) [] [] (by decide) (by decide) (by decide) (.inl ⟨rfl, rfl⟩)
  obtain ⟨s1', s2, out', e1', e2, h⟩ := C89_memory (.inl rfl) s _ (.new e) (List.replicate 16 7) [] [] (by decide) (by decide) (by decide) (.inl ⟨rfl, rfl⟩) (by omega) (List.replicate 32 0) (by decide)
  rw [e1] at e1'; cases e1'
  obtain ⟨s2', e2', r2, _, d2⟩ := C89_generate_partial (.inl rfl) s1 _ r1 [] (List.replicate 32 0) [] (by simp)
  simp only [List.nil_append, List.append_nil, List.length_nil] at e2'
  rw [e2] at e2'
  obtain ⟨rfl, -⟩ := Prod.mk.inj (Except.ok.inj e2')
  refine ⟨s, s1, s2, out', e, e1, e2, ?_⟩
  rw [h, d2, d1, d, c]
  decide

/-- **C89**: the memory cost has no influence on the derived bytes but by being zero or not: two costs from 1 to 2^44 give the same. -/
theorem C89_memory_ignored {mem mem' : Nat} (h : 1 ≤ mem ∧ mem < 2 ^ 44) (h' : 1 ≤ mem' ∧ mem' < 2 ^ 44) (cpu n : Nat) (x : ScbSpec.St) :
    ScbSpec.request f r (ScbSpec.implemented mem) cpu n x = ScbSpec.request f r (ScbSpec.implemented mem') cpu n x := by
  have : ScbSpec.implemented mem = ScbSpec.implemented mem' := by
    funext k
    rw [ScbSpec.implemented, ScbSpec.implemented, decide_eq_true (by rw [Nat.mod_eq_of_lt (by omega)]; omega), decide_eq_true (by rw [Nat.mod_eq_of_lt (by omega)]; omega)]
  rw [this]

/-- **C89**, the first cycle: the cache is the first part of the state, so adding it makes that part zero. Of what `Initialize` derived from the key only the last `200 - r`
bytes remain in the state: two keys that agree there give the same first cycle. -/
theorem C89_first_cycle (h0 : 0 < r) (hr : r ≤ 200) {st : List Byte} (hs : st.length = 200) :
    ScbSpec.soak f r st (st.take r) = xorBytes (f (List.replicate r 0 ++ st.drop r)) (Fips202.pad r 0x24 r ++ List.replicate (200 - r) 0) := by
  have hl : (st.take r).length = r := by rw [List.length_take]; omega
  have hx : ∀ a : List Byte, xorBytes a a = List.replicate a.length 0 := fun a => by
    induction a with
    | nil => rfl
    | cons b a ih => simp only [xorBytes, List.zipWith_cons_cons, BitVec.xor_self, List.length_cons, List.replicate_succ] at ih ⊢; rw [ih]; rfl
  rw [ScbSpec.soak, Fips202.absorb, eager_one h0 hl, hl, Nat.div_self h0, Nat.mul_one, List.drop_eq_nil_of_le (by omega), List.nil_append, Fips202.block, hl]
  congr 2
  conv_lhs => rw [← List.take_append_drop r st]
  rw [List.take_append_of_le_length (by omega), List.take_take, Nat.min_self, xorBytes_append (by simp), hx, hl, xor_zeros (by rw [List.length_drop]; omega)]

/-- The output depends on how it is requested: 168 bytes twice are not 336 bytes at once (one cycle for each request). -/
theorem C89_split : ∃ s s1 sa sb sc a b c, Scb.new 168 1 0 = .ok s ∧ s.initialize (permute 24) (List.replicate 16 7) [] [] = .ok s1 ∧
    s1.generateAt (permute 24) (List.replicate 336 0) 0 336 = .ok (sa, a) ∧ s1.generateAt (permute 24) (List.replicate 168 0) 0 168 = .ok (sb, b) ∧
    sb.generateAt (permute 24) (List.replicate 168 0) 0 168 = .ok (sc, c) ∧ a ≠ b ++ c := by
  have key : ((do
      let s ← Scb.new 168 1 0
      let s1 ← s.initialize (permute 24) (List.replicate 16 7) [] []
      let a ← s1.generateAt (permute 24) (List.replicate 336 0) 0 336
      let b ← s1.generateAt (permute 24) (List.replicate 168 0) 0 168
      let c ← b.1.generateAt (permute 24) (List.replicate 168 0) 0 168
      return decide (a.2 ≠ b.2 ++ c.2)) : M Bool) = .ok true := by decide +kernel
  obtain ⟨s, e0, key⟩ := bind_ok key
  obtain ⟨s1, e1, key⟩ := bind_ok key
  obtain ⟨a, e2, key⟩ := bind_ok key
  obtain ⟨b, e3, key⟩ := bind_ok key
  obtain ⟨c, e4, key⟩ := bind_ok key
  exact ⟨s, s1, a.1, b.1, c.1, a.2, b.2, c.2, e0, e1, e2, e3, e4, of_decide_eq_true (Except.ok.inj key)⟩

/-- a case that meets the hypotheses of C89_generate_partial, with a salt and an information string -/
example : ∃ s s1, Scb.new 136 5 3 = .ok s ∧ s.initialize (permute 24) (List.replicate 32 7) [1, 2, 3, 4] [5, 6] = .ok s1 ∧
    Run (permute 24) (Fips202.keccakP 24) 136 s1 (some (ScbSpec.start (Fips202.keccakP 24) 136 (List.replicate 32 7) [1, 2, 3, 4] [5, 6])) := by
  obtain ⟨s, e, i, c, d⟩ := new_inv (r := 136) (cpu := 5) (mem := 3) (.inr (.inl rfl))
  obtain ⟨s1, e1, r1, _⟩ := C89_initialize (.inr (.inl rfl)) s _ (.new e) (List.replicate 32 7) [1, 2, 3, 4] [5, 6] (by decide) (by decide) (by decide)
    (Shake.fits_short (by decide) (by decide) (by decide) (by decide))
  exact ⟨s, s1, e, e1, r1⟩

end Cex.Keccak
