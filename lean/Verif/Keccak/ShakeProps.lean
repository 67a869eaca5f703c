import Verif.Keccak.MacpProps

/-! # C44 SHAKE as a key derivation function -/

namespace Cex.Keccak
open Cex Cex.IntTools Stream Cex.Mac

variable {P : List Byte → M (List Byte)} {f : List Byte → List Byte} {r : Nat}

namespace Shake

/-- The encoded length of the customization fits behind the name (see `C38_fit_short`); only relevant when one of them is given. -/
def Fits (r : Nat) (cust info : List Byte) : Prop := (cust = [] ∧ info = []) ∨ nameEnd r info.length + (Sp800185.leftEncode (8 * cust.length)).length ≤ r

/-- Key, customization, information and the number of blocks produced since `Initialize`. -/
abbrev Args := List Byte × List Byte × List Byte × Nat

/-- `Run P r s g`: `s` is reachable with rate `r`; `g` are the arguments of the last `Initialize` and the blocks used since, or `none` before the first and after `Reset`. -/
inductive Run (P : List Byte → M (List Byte)) (r : Nat) : Shake → Option Args → Prop
  | new {s} : new r = .ok s → Run P r s none
  | reset {s s' g} : Run P r s g → s.reset = .ok s' → Run P r s' none
  | initKey {s s' g key} : Run P r s g → s.initKey P key = .ok s' → Run P r s' (some (key, [], [], 0))
  | initCust {s s' g key cust} : Run P r s g → 8 * cust.length < 2 ^ 64 → s.initCust P key cust = .ok s' → Run P r s' (some (key, cust, [], 0))
  | initAll {s s' g key cust info} : Run P r s g → 8 * cust.length < 2 ^ 64 → 8 * info.length < 2 ^ 64 → Fits r cust info → s.initAll P key cust info = .ok s' →
      Run P r s' (some (key, cust, info, 0))
  | generate {s s' key cust info k out out'} : Run P r s (some (key, cust, info, k)) → s.generate P out = .ok (s', out') → Run P r s' (some (key, cust, info, k + blocks r out.length))
  | generateAt {s s' key cust info k out oo len out'} : Run P r s (some (key, cust, info, k)) → out.length < 2 ^ 64 → oo ≤ out.length → s.generateAt P out oo len = .ok (s', out') →
      Run P r s' (some (key, cust, info, k + blocks r len))
  | generateVec {s s' key cust info k out oo len out'} : Run P r s (some (key, cust, info, k)) → out.length < 2 ^ 64 → oo ≤ out.length → s.generateVec P out oo len = .ok (s', out') →
      Run P r s' (some (key, cust, info, k + blocks r len))

/-- The padded input after the name and customization block. -/
def base (f : List Byte → List Byte) (r : Nat) (cust info : List Byte) : List Byte :=
  if cust = [] ∧ info = [] then List.replicate 200 0 else Fips202.absorb f r (List.replicate 200 0) (Sp800185.bytepad (Sp800185.encodeString info ++ Sp800185.encodeString cust) r)

def domain (cust info : List Byte) : Byte := if cust = [] ∧ info = [] then 0x1F else 0x04

/-- The state before the first output block. -/
def start (f : List Byte → List Byte) (r : Nat) (key cust info : List Byte) : List Byte := absorbed f r (domain cust info) (base f r cust info) key

/-- What holds in every reachable state. -/
structure Inv (f : List Byte → List Byte) (r : Nat) (s : Shake) (g : Option Args) : Prop where
  rate : s.rate = r
  len : s.st.length = 200
  zero : s.init = false → s.st = List.replicate 200 0 ∧ s.dom = 0x1F
  keyed : ∀ key cust info k, g = some (key, cust, info, k) → s.init = true ∧ s.st = Nat.repeat f k (start f r key cust info)

theorem base_len (p : Perm P f) (hr : r ≤ 200) (cust info : List Byte) : (base f r cust info).length = 200 := by
  rw [base]; split
  · exact List.length_replicate
  · exact absorb_len p hr zeros200

theorem start_len (p : Perm P f) (h0 : 0 < r) (hr : r ≤ 200) (key cust info : List Byte) : (start f r key cust info).length = 200 := absorbed_length p h0 hr (base_len p hr _ _)

theorem reset_inv {s : Shake} {g} (h : s.Inv f r g) : ∃ s', s.reset = .ok s' ∧ s'.Inv f r none ∧ s'.init = false := by
  rw [reset, clear_all _ _ h.len, ok_bind]
  exact ⟨_, rfl, ⟨h.rate, List.length_replicate, fun _ => ⟨rfl, rfl⟩, by intro _ _ _ _ e; cases e⟩, rfl⟩

theorem new_inv : ∃ s, new r = .ok s ∧ s.Inv f r none := by
  rw [new, reset, clear_all _ _ List.length_replicate, ok_bind]
  exact ⟨_, rfl, rfl, List.length_replicate, fun _ => ⟨rfl, rfl⟩, by intro _ _ _ _ e; cases e⟩

theorem initAll_inv (p : Perm P f) (hr : r < 200) (h20 : 20 ≤ r) (h8 : r % 8 = 0) {s : Shake} {g} (h : s.Inv f r g) {key cust info : List Byte} (hk : 4 ≤ key.length)
    (hc : cust.length = 0 ∨ 4 ≤ cust.length) (hcl : 8 * cust.length < 2 ^ 64) (hil : 8 * info.length < 2 ^ 64) (hf : Fits r cust info) :
    ∃ s', s.initAll P key cust info = .ok s' ∧ s'.Inv f r (some (key, cust, info, 0)) := by
  have h0 : 0 < r := by omega
  have hr2 : r ≤ 200 := by omega
  rw [initAll, if_neg (by omega), if_neg (by omega)]
  obtain ⟨s1, e1, i1, z1⟩ : ∃ s1, (if s.init then s.reset else pure s) = .ok s1 ∧ s1.Inv f r none ∧ s1.init = false := by
    by_cases hi : s.init = true
    · rw [if_pos hi]; exact reset_inv h
    · rw [if_neg hi]; exact ⟨s, rfl, ⟨h.rate, h.len, h.zero, by intro _ _ _ _ e; cases e⟩, by simpa using hi⟩
  rw [e1, ok_bind]
  obtain ⟨hz, hd⟩ := i1.zero z1
  have key2 : ∃ s2, (if cust.length ≠ 0 ∨ info.length ≠ 0 then s1.custom P cust info else pure s1) = .ok s2 ∧ s2.rate = r ∧ s2.st = base f r cust info ∧ s2.dom = domain cust info := by
    by_cases hn : cust = [] ∧ info = []
    · rw [if_neg (by rw [hn.1, hn.2]; simp)]
      refine ⟨s1, rfl, i1.rate, ?_, ?_⟩
      · rw [base, if_pos hn, hz]
      · rw [domain, if_pos hn, hd]
    · rw [if_pos (by rcases cust with _ | _ <;> rcases info with _ | _ <;> simp_all)]
      have hfit : nameEnd r info.length + (Sp800185.leftEncode (8 * cust.length)).length ≤ r := hf.resolve_left hn
      rw [custom, i1.rate, hz, customize_eq p hr h20 h8 zeros200 cust info hcl hil hfit, ok_bind]
      exact ⟨_, rfl, rfl, by rw [base, if_neg hn], by rw [domain, if_neg hn]⟩
  obtain ⟨s2, e2, hrt, hst, hdm⟩ := key2
  rw [e2, ok_bind, hrt, hst, hdm, absorb_eq p h0 hr2 _ (Holds.self key) rfl (base_len p hr2 _ _), ok_bind]
  refine ⟨_, rfl, rfl, start_len p h0 hr2 key cust info, (by intro e; cases e), ?_⟩
  intro key' cust' info' k e
  cases e
  exact ⟨rfl, rfl⟩

theorem initKey_all (s : Shake) (key : List Byte) : s.initKey P key = s.initAll P key [] [] := by
  rw [initKey, initAll]
  simp

theorem initCust_all (s : Shake) (key cust : List Byte) : s.initCust P key cust = s.initAll P key cust [] := by
  rw [initCust, initAll]
  simp

theorem fits_short {cust info : List Byte} (h20 : 20 ≤ r) (hr : r < 200) (hi : info.length ≤ 7) (hc : 8 * cust.length < 2 ^ 64) : Fits r cust info := Or.inr (C38_fit_short h20 hr _ _ hi hc)

/-- Arguments that a successful `Initialize` has passed. -/
theorem initAll_ok {s s' : Shake} {key cust info : List Byte} (h : s.initAll P key cust info = .ok s') : 4 ≤ key.length ∧ (cust.length = 0 ∨ 4 ≤ cust.length) := by
  rw [initAll] at h
  split at h
  · cases h
  · split at h
    · cases h
    · omega

theorem initAll_ok_inv (p : Perm P f) (hr : r < 200) (h20 : 20 ≤ r) (h8 : r % 8 = 0) {s s' : Shake} {g} (h : s.Inv f r g) {key cust info : List Byte}
    (hcl : 8 * cust.length < 2 ^ 64) (hil : 8 * info.length < 2 ^ 64) (hf : Fits r cust info) (e : s.initAll P key cust info = .ok s') : s'.Inv f r (some (key, cust, info, 0)) := by
  have := initAll_ok e
  obtain ⟨s1, h1, h2⟩ := initAll_inv p hr h20 h8 h this.1 this.2 hcl hil hf
  rw [e] at h1; cases h1; exact h2

/-- The output from block `k` on. -/
theorem squeeze_drop (p : Perm P f) (h0 : 0 < r) (hr : r ≤ 200) (n : Nat) : ∀ (k : Nat) (s : List Byte), s.length = 200 → (Fips202.squeeze f r s (k * r + n)).drop (k * r) = Fips202.squeeze f r (Nat.repeat f k s) n
  | 0, s, _ => by simp [Nat.repeat]
  | k + 1, s, hs => by
    have hl : (s.take r).length = r := by rw [List.length_take]; omega
    rw [squeeze_ge h0 (by rw [Nat.add_mul]; omega), show (k + 1) * r + n - r = k * r + n from by rw [Nat.add_mul]; omega, show (k + 1) * r = r + k * r from by rw [Nat.add_mul]; omega,
      ← List.drop_drop, List.drop_append_of_le_length (by omega), List.drop_of_length_le (l := s.take r) (by omega), List.nil_append, squeeze_drop p h0 hr n k _ (p.len _ hs), repeat_shift]

theorem squeeze_take (p : Perm P f) (h0 : 0 < r) (hr : r ≤ 200) (n : Nat) : ∀ (k : Nat) (s : List Byte), s.length = 200 → (Fips202.squeeze f r s (k + n)).take k = Fips202.squeeze f r s k := by
  intro k
  induction k using Nat.strongRecOn with
  | ind k ih =>
    intro s hs
    have hl : (s.take r).length = r := by rw [List.length_take]; omega
    by_cases hk : k < r
    · rw [squeeze_lt hk]
      by_cases hn : k + n < r
      · rw [squeeze_lt hn, List.take_take]; congr 1; omega
      · rw [squeeze_ge h0 (by omega), List.take_append_of_le_length (by omega), List.take_take]; congr 1; omega
    · rw [squeeze_ge h0 (by omega), squeeze_ge h0 (show r ≤ k by omega), show k + n - r = (k - r) + n from by omega,
        List.take_append, List.take_of_length_le (by omega), hl, ih (k - r) (by omega) _ (p.len _ hs)]

theorem repeat_f (k : Nat) (s : List Byte) : f (Nat.repeat f k s) = Nat.repeat f k (f s) := by rw [← repeat_shift]; rfl

theorem repeat_add (a b : Nat) (s : List Byte) : Nat.repeat f a (Nat.repeat f b s) = Nat.repeat f (b + a) s := by
  induction a with
  | zero => rfl
  | succ a ih => rw [Nat.repeat, ih]; rfl

/-- The specification's output. -/
theorem cshake_eq (h0 : 0 < r) (key cust info : List Byte) (n : Nat) : Sp800185.cshake f r key n info cust = Fips202.squeeze f r (f (start f r key cust info)) n := by
  rw [start, f_absorbed (f := f) h0, Sp800185.cshake, domain, base]
  by_cases hn : cust = [] ∧ info = []
  · rw [if_pos ⟨hn.2, hn.1⟩, if_pos hn, if_pos hn]; rfl
  · rw [if_neg (fun e => hn ⟨e.2, e.1⟩), if_neg hn, if_neg hn, Fips202.sponge]
    have hB := bytepad_mod h0 (Sp800185.encodeString info ++ Sp800185.encodeString cust)
    have hpad : Fips202.pad r 0x04 (Sp800185.bytepad (Sp800185.encodeString info ++ Sp800185.encodeString cust) r ++ key).length = Fips202.pad r 0x04 key.length := by
      rw [Fips202.pad, Fips202.pad, List.length_append, Nat.add_mod, hB, Nat.zero_add, Nat.mod_mod]
    rw [hpad, List.append_assoc (Sp800185.bytepad _ _), absorb_append h0 _ _ _ hB]

/-- The bytes of the stream for key, customization and information that a call for `n` bytes returns after `k` blocks. -/
def part (f : List Byte → List Byte) (r : Nat) (key cust info : List Byte) (k n : Nat) : List Byte := (Sp800185.cshake f r key (k * r + n) info cust).drop (k * r)

theorem part_eq (p : Perm P f) (h0 : 0 < r) (hr : r ≤ 200) (key cust info : List Byte) (k n : Nat) :
    part f r key cust info k n = Fips202.squeeze f r (f (Nat.repeat f k (start f r key cust info))) n := by
  rw [part, cshake_eq h0, squeeze_drop p h0 hr n k _ (p.len _ (start_len p h0 hr key cust info)), repeat_f (f := f)]

theorem part_len (p : Perm P f) (h0 : 0 < r) (hr : r ≤ 200) (key cust info : List Byte) (k n : Nat) : (part f r key cust info k n).length = n := by
  rw [part_eq p h0 hr, squeeze_length p h0 hr n _ (p.len _ (repeat_len p k (start_len p h0 hr key cust info)))]

theorem generateAt_inv (p : Perm P f) (h0 : 0 < r) (hr : r ≤ 200) {s : Shake} {key cust info : List Byte} {k : Nat} (h : s.Inv f r (some (key, cust, info, k))) (pre junk post : List Byte)
    (hl : (pre ++ junk ++ post).length < 2 ^ 64) (hc : s.ctr + junk.length / r ≤ 1024000) :
    ∃ s', s.generateAt P (pre ++ junk ++ post) pre.length junk.length = .ok (s', pre ++ part f r key cust info k junk.length ++ post) ∧
      s'.Inv f r (some (key, cust, info, k + blocks r junk.length)) ∧ s'.ctr = s.ctr + (if junk.length % r = 0 then 0 else 1) := by
  obtain ⟨hi, hs⟩ := h.keyed _ _ _ _ rfl
  have hst := start_len p h0 hr key cust info
  have hsub : subU (pre ++ junk ++ post).length pre.length = junk.length + post.length := by
    rw [subU_le (by simp only [List.length_append]; omega) (by omega)]; simp only [List.length_append]; omega
  rw [generateAt, if_neg (by simp [hi]), if_neg (by omega), if_neg (by rw [h.rate]; omega), h.rate, expand_eq p h0 hr _ _ pre junk post h.len rfl, ok_bind, part_eq p h0 hr, ← hs]
  refine ⟨_, rfl, ⟨rfl, repeat_len p _ h.len, (by intro e; rw [hi] at e; cases e), ?_⟩, ?_⟩
  · intro key' cust' info' k' e
    cases e
    exact ⟨hi, by rw [hs, repeat_add]⟩
  · simp only []
    split <;> rfl

theorem generate_at (s : Shake) (out : List Byte) (ho : out.length < 2 ^ 64) : s.generate P out = s.generateAt P out 0 out.length := by
  rw [generate, generateAt, subU_le (by omega) ho]
  simp

/-- A call that succeeded stayed in the output and below the limit. -/
theorem generateAt_ok {s : Shake} {out : List Byte} {oo len : Nat} {q} (h : s.generateAt P out oo len = .ok q) (ho : oo ≤ out.length) (hl : out.length < 2 ^ 64) :
    oo + len ≤ out.length ∧ s.ctr + len / s.rate ≤ 1024000 := by
  rw [generateAt] at h
  split at h
  · cases h
  · split at h
    · cases h
    · rename_i h1
      rw [subU_le ho hl] at h1
      split at h
      · cases h
      · omega

theorem split3 {out : List Byte} {oo len : Nat} (h : oo + len ≤ out.length) : ∃ pre junk post, out = pre ++ junk ++ post ∧ pre.length = oo ∧ junk.length = len :=
  ⟨out.take oo, (out.drop oo).take len, out.drop (oo + len), by rw [List.append_assoc, ← List.drop_drop, List.take_append_drop, List.take_append_drop], by rw [List.length_take]; omega,
    by rw [List.length_take, List.length_drop]; omega⟩

theorem generateAt_ok_inv (p : Perm P f) (h0 : 0 < r) (hr : r ≤ 200) {s s' : Shake} {key cust info out out' : List Byte} {k oo len : Nat} (h : s.Inv f r (some (key, cust, info, k)))
    (hl : out.length < 2 ^ 64) (ho : oo ≤ out.length) (e : s.generateAt P out oo len = .ok (s', out')) : s'.Inv f r (some (key, cust, info, k + blocks r len)) := by
  obtain ⟨h1, h2⟩ := generateAt_ok e ho hl
  obtain ⟨pre, junk, post, rfl, rfl, rfl⟩ := split3 h1
  obtain ⟨s1, e1, i1, _⟩ := generateAt_inv p h0 hr h pre junk post hl (by rw [h.rate] at h2; exact h2)
  rw [e] at e1; cases e1; exact i1

/-- `Generate(vector)`. -/
theorem generateVec_inv (p : Perm P f) (h0 : 0 < r) (hr : r ≤ 200) {s : Shake} {key cust info : List Byte} {k : Nat} (h : s.Inv f r (some (key, cust, info, k))) (pre junk post : List Byte)
    (hl : (pre ++ junk ++ post).length < 2 ^ 64) (hc : s.ctr + junk.length / r ≤ 1024000) :
    ∃ s', s.generateVec P (pre ++ junk ++ post) pre.length junk.length = .ok (s', pre ++ part f r key cust info k junk.length ++ post) ∧
      s'.Inv f r (some (key, cust, info, k + blocks r junk.length)) := by
  have hjl : junk.length < 2 ^ 64 := by simp only [List.length_append] at hl; omega
  obtain ⟨s1, e1, i1, _⟩ := generateAt_inv p h0 hr h [] (List.replicate junk.length 0) [] (by simpa using hjl) (by simpa using hc)
  simp only [List.nil_append, List.append_nil, List.length_replicate, List.length_nil] at e1 i1
  have hpl := part_len p h0 hr key cust info k junk.length
  rw [generateVec, subU_le (by simp only [List.length_append]; omega) hl, if_neg (by simp only [List.length_append]; omega), e1, ok_bind]
  simp only []
  rw [copy_at (Holds.self _) rfl rfl hpl.symm, ok_bind]
  exact ⟨s1, rfl, i1⟩

theorem generateVec_ok_inv (p : Perm P f) (h0 : 0 < r) (hr : r ≤ 200) {s s' : Shake} {key cust info out out' : List Byte} {k oo len : Nat} (h : s.Inv f r (some (key, cust, info, k)))
    (hl : out.length < 2 ^ 64) (ho : oo ≤ out.length) (e : s.generateVec P out oo len = .ok (s', out')) : s'.Inv f r (some (key, cust, info, k + blocks r len)) := by
  rw [generateVec, subU_le ho hl] at e
  split at e
  · cases e
  · obtain ⟨q, e1, e⟩ := bind_ok e
    obtain ⟨o, _, e⟩ := bind_ok e
    cases e
    exact generateAt_ok_inv (s' := q.1) (out' := q.2) p h0 hr h (by rw [List.length_replicate]; omega) (by omega) e1

theorem Run.inv (p : Perm P f) (hr : r < 200) (h20 : 20 ≤ r) (h8 : r % 8 = 0) {s : Shake} {g} (h : Run P r s g) : s.Inv f r g := by
  have h0 : 0 < r := by omega
  have hr2 : r ≤ 200 := by omega
  induction h with
  | new e => obtain ⟨s1, e1, i1⟩ := new_inv (f := f) (r := r); rw [e] at e1; cases e1; exact i1
  | reset _ e ih => obtain ⟨s1, e1, i1, _⟩ := reset_inv ih; rw [e] at e1; cases e1; exact i1
  | initKey _ e ih => rw [initKey_all] at e; exact initAll_ok_inv p hr h20 h8 ih (by decide) (by decide) (Or.inl ⟨rfl, rfl⟩) e
  | initCust _ hc e ih => rw [initCust_all] at e; exact initAll_ok_inv p hr h20 h8 ih hc (by decide) (fits_short h20 hr (by decide) hc) e
  | initAll _ hc hi hf e ih => exact initAll_ok_inv p hr h20 h8 ih hc hi hf e
  | @generate s s' key cust info k out out' _ e ih =>
    obtain ⟨hi, hs⟩ := ih.keyed _ _ _ _ rfl
    rw [Shake.generate, if_neg (by simp [hi])] at e
    split at e
    · cases e
    · obtain ⟨q, e1, e⟩ := bind_ok e
      have he := expand_eq p h0 hr2 out.length s.st [] out [] ih.len rfl
      rw [List.nil_append, List.append_nil] at he
      rw [ih.rate, show expand P r s.st out 0 out.length = _ from he] at e1
      cases e1
      cases e
      refine ⟨ih.rate, repeat_len p _ ih.len, (by intro e; rw [hi] at e; cases e), ?_⟩
      intro key' cust' info' k' e
      cases e
      exact ⟨hi, by rw [hs, repeat_add]⟩
  | generateAt _ hl ho e ih => exact generateAt_ok_inv p h0 hr2 ih hl ho e
  | generateVec _ hl ho e ih => exact generateVec_ok_inv p h0 hr2 ih hl ho e

end Shake

open Shake

/-- The rates of SHAKE128, SHAKE256, SHAKE512 and SHAKE1024. -/
def ShakeRate (r : Nat) : Prop := r ∈ [168, 136, 72, 32]

theorem ShakeRate.facts (h : ShakeRate r) : 20 ≤ r ∧ r < 200 ∧ r % 8 = 0 := by
  simp only [ShakeRate, List.mem_cons, List.not_mem_nil, or_false] at h
  rcases h with rfl | rfl | rfl | rfl <;> decide

/-- Whatever happened before, `Initialize` with an admissible key, customization and information starts a new stream. -/
theorem C44_initialize (p : Perm P f) (hm : ShakeRate r) (s : Shake) (g) (h : Shake.Run P r s g) (key cust info : List Byte) (hk : 4 ≤ key.length)
    (hc : cust.length = 0 ∨ 4 ≤ cust.length) (hcl : 8 * cust.length < 2 ^ 64) (hil : 8 * info.length < 2 ^ 64) (hf : Shake.Fits r cust info) :
    ∃ s', s.initAll P key cust info = .ok s' ∧ Shake.Run P r s' (some (key, cust, info, 0)) := by
  obtain ⟨h20, hr, h8⟩ := hm.facts
  obtain ⟨s', e, _⟩ := Shake.initAll_inv p hr h20 h8 (h.inv p hr h20 h8) hk hc hcl hil hf
  exact ⟨s', e, .initAll h hcl hil hf e⟩

/-- A call for `n` bytes after `k` blocks returns bytes `k * r` to `k * r + n` of cSHAKE (SHAKE without customization and information) and writes nothing else.
A partly used block is not continued: the next call starts with a new block. -/
theorem C44_generate (p : Perm P f) (hm : ShakeRate r) (s : Shake) (key cust info : List Byte) (k : Nat) (h : Shake.Run P r s (some (key, cust, info, k))) (pre junk post : List Byte)
    (hl : (pre ++ junk ++ post).length < 2 ^ 64) (hc : s.ctr + junk.length / r ≤ 1024000) :
    (∃ s', s.generateAt P (pre ++ junk ++ post) pre.length junk.length =
      .ok (s', pre ++ (Sp800185.cshake f r key (k * r + junk.length) info cust).drop (k * r) ++ post) ∧
      Shake.Run P r s' (some (key, cust, info, k + blocks r junk.length))) ∧
    (∃ s', s.generateVec P (pre ++ junk ++ post) pre.length junk.length =
      .ok (s', pre ++ (Sp800185.cshake f r key (k * r + junk.length) info cust).drop (k * r) ++ post) ∧
      Shake.Run P r s' (some (key, cust, info, k + blocks r junk.length))) := by
  obtain ⟨h20, hr, h8⟩ := hm.facts
  have i := h.inv p hr h20 h8
  obtain ⟨s1, e1, _⟩ := generateAt_inv p (by omega) (by omega) i pre junk post hl hc
  obtain ⟨s2, e2, _⟩ := generateVec_inv p (by omega) (by omega) i pre junk post hl hc
  exact ⟨⟨s1, e1, .generateAt h hl (by simp only [List.length_append]; omega) e1⟩, ⟨s2, e2, .generateVec h hl (by simp only [List.length_append]; omega) e2⟩⟩

/-- The first call after `Initialize` is cSHAKE. -/
theorem C44_first (p : Perm P f) (hm : ShakeRate r) (s : Shake) (key cust info : List Byte) (h : Shake.Run P r s (some (key, cust, info, 0))) (out : List Byte)
    (hl : out.length < 2 ^ 64) (hc : s.ctr + out.length / r ≤ 1024000) :
    ∃ s', s.generate P out = .ok (s', Sp800185.cshake f r key out.length info cust) := by
  obtain ⟨⟨s', e, _⟩, _⟩ := C44_generate p hm s key cust info 0 h [] out [] (by simpa using hl) hc
  refine ⟨s', ?_⟩
  rw [Shake.generate_at s out hl]
  simpa using e

/-- `Gens P s outs s'`: consecutive calls of `Generate` that returned `outs`. -/
inductive Gens (P : List Byte → M (List Byte)) : Shake → List (List Byte) → Shake → Prop
  | nil {s} : Gens P s [] s
  | cons {s s' s'' buf o os} : buf.length < 2 ^ 64 → s.generate P buf = .ok (s', o) → Gens P s' os s'' → Gens P s (o :: os) s''

/-- Consecutive calls continue the stream if every call but the last asks for whole blocks. Without this condition it is false (`C44_split_false`). -/
theorem C44_stream_partial (p : Perm P f) (hm : ShakeRate r) (s s' : Shake) (key cust info : List Byte) (h : Shake.Run P r s (some (key, cust, info, 0))) (outs : List (List Byte))
    (hg : Gens P s outs s') (hw : ∀ o ∈ outs.dropLast, o.length % r = 0) : outs.flatten = Sp800185.cshake f r key outs.flatten.length info cust := by
  obtain ⟨h20, hr, h8⟩ := hm.facts
  have h0 : 0 < r := by omega
  have hr2 : r ≤ 200 := by omega
  have gen : ∀ (s s' : Shake) (outs : List (List Byte)), Gens P s outs s' → ∀ k, Shake.Run P r s (some (key, cust, info, k)) → (∀ o ∈ outs.dropLast, o.length % r = 0) →
      outs.flatten = Shake.part f r key cust info k outs.flatten.length := by
    intro s s' outs hg
    induction hg with
    | nil =>
      intro k _ _
      have := part_len p h0 hr2 key cust info k 0
      exact (List.eq_nil_of_length_eq_zero this).symm
    | @cons s s1 s2 buf o os hb e hg ih =>
      intro k hrun hw
      have hrun1 := Shake.Run.generate hrun e
      have i := hrun.inv p hr h20 h8
      rw [Shake.generate_at s buf hb] at e
      have hok := generateAt_ok e (Nat.zero_le _) hb
      rw [i.rate] at hok
      obtain ⟨s3, e3, _⟩ := generateAt_inv p h0 hr2 i [] buf [] (by simpa using hb) hok.2
      simp only [List.nil_append, List.append_nil, List.length_nil] at e3
      rw [e] at e3
      cases e3
      cases hos : os with
      | nil =>
        simp only [List.flatten_cons, List.flatten_nil, List.append_nil]
        rw [part_len p h0 hr2]
      | cons o2 os2 =>
        rw [← hos]
        have hbl : buf.length % r = 0 := by
          have := hw (Shake.part f r key cust info k buf.length) (by rw [hos]; simp)
          rwa [part_len p h0 hr2] at this
        have ih2 := ih _ hrun1 (fun o ho => hw o (by
          rw [List.dropLast_cons_of_ne_nil (by rw [hos]; simp)]; exact List.mem_cons_of_mem _ ho))
        have hbk : blocks r buf.length * r = buf.length := by
          have hd := Nat.div_add_mod buf.length r
          rw [hbl, Nat.add_zero] at hd
          rw [blocks]
          conv => lhs; rw [← hd]
          rw [show r * (buf.length / r) + r - 1 = (r - 1) + r * (buf.length / r) from by omega, Nat.add_mul_div_left _ _ h0, Nat.div_eq_of_lt (by omega), Nat.zero_add, Nat.mul_comm, hd]
        rw [List.flatten_cons, List.length_append, part_len p h0 hr2]
        conv => lhs; rw [ih2]
        rw [Shake.part, Shake.part, Shake.part, cshake_eq h0, cshake_eq h0, cshake_eq h0]
        generalize os.flatten.length = n
        have hs := p.len _ (start_len p h0 hr2 key cust info)
        rw [Nat.add_mul, hbk]
        rw [← List.take_append_drop buf.length (List.drop (k * r) (Fips202.squeeze f r (f (start f r key cust info)) (k * r + (buf.length + n)))), ← List.drop_drop,
          show k * r + buf.length + n = k * r + (buf.length + n) from by omega]
        congr 1
        rw [← squeeze_take p h0 hr2 n (k * r + buf.length) _ hs, show k * r + buf.length + n = k * r + (buf.length + n) from by omega, List.drop_take]
        congr 1; omega
  have := gen s s' outs hg 0 h hw
  rw [Shake.part] at this
  simpa using this

/-- C44 is false in general: two calls for one byte each do not give the first two bytes of SHAKE. -/
theorem C44_split_false : ∃ s s1 s2 s3 a b c, (do let s ← Shake.new 168; s.initKey (permute 24) [1, 2, 3, 4]) = .ok s ∧ s.generate (permute 24) [0] = .ok (s1, a) ∧
    s1.generate (permute 24) [0] = .ok (s2, b) ∧ s.generate (permute 24) [0, 0] = .ok (s3, c) ∧ a ++ b ≠ c := by
  have h : ((do
      let s0 ← Shake.new 168
      let s ← s0.initKey (permute 24) [1, 2, 3, 4]
      let a ← s.generate (permute 24) [0]
      let b ← a.1.generate (permute 24) [0]
      let c ← s.generate (permute 24) [0, 0]
      return decide (a.2 ++ b.2 ≠ c.2)) : M Bool) = .ok true := by decide +kernel
  obtain ⟨s0, h0, h⟩ := bind_ok h
  obtain ⟨s, h1, h⟩ := bind_ok h
  obtain ⟨a, h2, h⟩ := bind_ok h
  obtain ⟨b, h3, h⟩ := bind_ok h
  obtain ⟨c, h4, h⟩ := bind_ok h
  exact ⟨s, a.1, b.1, c.1, a.2, b.2, c.2, by rw [h0, ok_bind, h1], h2, h3, h4, by simpa using h⟩

/-- The limit of 1024000 blocks per key holds for one call only: any number of calls for one whole block each is served. -/
theorem C44_limit_false (p : Perm P f) (hm : ShakeRate r) (s : Shake) (key cust info : List Byte) (k : Nat) (h : Shake.Run P r s (some (key, cust, info, k))) (hc : s.ctr < 1024000) (N : Nat) :
    ∃ outs s', Gens P s outs s' ∧ outs.length = N ∧ ∀ o ∈ outs, o.length = r := by
  obtain ⟨h20, hr, h8⟩ := hm.facts
  induction N generalizing s k with
  | zero => exact ⟨[], s, .nil, rfl, by simp⟩
  | succ N ih =>
    have i := h.inv p hr h20 h8
    obtain ⟨s1, e, _, hctr⟩ := generateAt_inv p (by omega) (by omega) i [] (List.replicate r 0) [] (by simp; omega) (by rw [List.length_replicate, Nat.div_self (by omega)]; omega)
    simp only [List.nil_append, List.append_nil, List.length_replicate, List.length_nil, Nat.mod_self, if_true, Nat.add_zero] at e hctr
    have hl : (List.replicate r (0 : Byte)).length < 2 ^ 64 := by rw [List.length_replicate]; omega
    have e2 := Shake.generate_at (P := P) s (List.replicate r 0) hl
    rw [List.length_replicate, e] at e2
    obtain ⟨outs, s', hg, hn, ho⟩ := ih s1 _ (.generate h e2) (by omega)
    refine ⟨_ :: outs, s', .cons hl e2 hg, by rw [List.length_cons, hn], ?_⟩
    intro o hmem
    rcases List.mem_cons.mp hmem with rfl | hmem
    · exact part_len p (by omega) (by omega) key cust info k r
    · exact ho o hmem

/-- A reachable case: SHAKE128 with a four byte key gives the first bytes of SHAKE128 of the key. -/
example : ∃ s s', Shake.Run (permute 24) 168 s (some ([1, 2, 3, 4], [], [], 0)) ∧
    s.generate (permute 24) (List.replicate 500 0) = .ok (s', Fips202.shake (Fips202.keccakP 24) 168 [1, 2, 3, 4] 500) := by
  have hm : ShakeRate 168 := by simp [ShakeRate]
  obtain ⟨s0, e0, i0⟩ := Shake.new_inv (f := Fips202.keccakP 24) (r := 168)
  obtain ⟨s, e, hr⟩ := C44_initialize perm24 hm s0 none (.new e0) [1, 2, 3, 4] [] [] (by decide) (Or.inl rfl) (by decide) (by decide) (Or.inl ⟨rfl, rfl⟩)
  have hc : s.ctr = 0 := by
    have h2 : ((do let s0 ← Shake.new 168; let s ← s0.initAll (permute 24) [1, 2, 3, 4] [] []; return s.ctr) : M Nat) = .ok 0 := by decide +kernel
    rw [e0, ok_bind, e, ok_bind] at h2
    exact Except.ok.inj h2
  obtain ⟨s', h⟩ := C44_first perm24 hm s _ _ _ hr (List.replicate 500 0) (by rw [List.length_replicate]; decide) (by rw [hc, List.length_replicate]; decide)
  refine ⟨s, s', hr, ?_⟩
  rw [List.length_replicate, Sp800185.cshake, if_pos ⟨rfl, rfl⟩] at h
  exact h

end Cex.Keccak
