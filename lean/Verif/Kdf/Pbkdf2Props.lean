import Verif.Kdf.Kdf2Props

/-!
# C35 PBKDF2

Specification: RFC 8018 section 5.2, for an arbitrary pseudo-random function.
-/

namespace Cex.Kdf
open Cex Cex.Digest Cex.Stream Cex.Mac Cex.IntTools

/-- `U_(j+1)`. -/
def Rfc8018.U (prf : List Byte → List Byte → List Byte) (p s : List Byte) (i : Nat) : Nat → List Byte
  | 0 => prf p (s ++ beEnc 4 i)
  | j + 1 => prf p (Rfc8018.U prf p s i j)

/-- `U_1 xor … xor U_(n+1)`. -/
def Rfc8018.X (prf : List Byte → List Byte → List Byte) (p s : List Byte) (i : Nat) : Nat → List Byte
  | 0 => Rfc8018.U prf p s i 0
  | n + 1 => xorBytes (Rfc8018.X prf p s i n) (Rfc8018.U prf p s i (n + 1))

/-- `F(P, S, c, i)`, for `c > 0`. -/
def Rfc8018.F (prf : List Byte → List Byte → List Byte) (p s : List Byte) (c i : Nat) : List Byte := Rfc8018.X prf p s i (c - 1)

/-- `n` blocks from index `i`. -/
def Rfc8018.blocks (prf : List Byte → List Byte → List Byte) (p s : List Byte) (c i n : Nat) : List Byte := ((List.range n).map (fun j => Rfc8018.F prf p s c (i + j))).flatten

variable {D : DigestOps} {H : List Byte → List Byte} {ok : Nat → Prop} {Has : D.σ → List Byte → Prop}

theorem U_length (g : D.Hashes H ok Has) (p s : List Byte) (i j : Nat) : (Rfc8018.U (Rfc2104.hmac H D.block) p s i j).length = D.size := by
  cases j <;> exact hmac_length g _ _

theorem X_length (g : D.Hashes H ok Has) (p s : List Byte) (i : Nat) : ∀ n, (Rfc8018.X (Rfc2104.hmac H D.block) p s i n).length = D.size
  | 0 => U_length g _ _ _ _
  | n + 1 => by rw [Rfc8018.X, xorBytes_length, X_length g p s i n, U_length g]; omega

theorem xorBytes_take (a b : List Byte) (n : Nat) : (xorBytes a b).take n = xorBytes (a.take n) (b.take n) := by
  rw [xorBytes, xorBytes, List.take_zipWith]

/-- Number of turns of the iteration loop, plus one. -/
def Pbkdf2.count (c : Nat) : Nat := (2 ^ 64 + c - 1) % 2 ^ 64 + 1

theorem count_pos {c : Nat} (h : 0 < c) (h2 : c < 2 ^ 64) : Pbkdf2.count c = c := by
  rw [Pbkdf2.count]; omega

theorem count_zero : Pbkdf2.count 0 = 2 ^ 64 := by decide

theorem pbkdf2_iter (g : D.Hashes H ok Has) {N : Nat} (hN : ∀ n, n < N → ok n) (hN2 : N ≤ 2 ^ 64) {macOk : Nat → Bool} {p s : List Byte} {i j n off : Nat} {a win c : List Byte} {mac : Hmac D} {x}
    (hp : p.length < N) (hmk : macOk p.length = true) (hb : D.block + D.size < N) (hm : mac.Inv H Has x) (ha : off = a.length) (hn : n ≤ D.size)
    (hw : win.length = n) :
    ∃ mac', Pbkdf2.iter macOk p off n (mac, Rfc8018.U (Rfc2104.hmac H D.block) p s i j, a ++ win ++ c) =
      .ok (mac', Rfc8018.U (Rfc2104.hmac H D.block) p s i (j + 1), a ++ xorBytes win ((Rfc8018.U (Rfc2104.hmac H D.block) p s i (j + 1)).take n) ++ c) ∧ mac'.Inv H Has (some (p, [])) := by
  have hul := U_length g p s i j
  have hul' := U_length g p s i (j + 1)
  obtain ⟨m1, e1, i1⟩ := hmac_init_inv g hm (by omega) (hN _ hp) hmk
  have hus : (Rfc8018.U (Rfc2104.hmac H D.block) p s i j).length < 2 ^ 64 := by omega
  obtain ⟨m2, e2, i2⟩ := hmac_update_inv g i1 (Window.whole _ hus)
  rw [List.nil_append, Window.whole_bytes] at i2
  obtain ⟨m3, e3, i3⟩ := hmac_final_inv g i2 (hN _ (by omega)) (hN _ hb) [] (Rfc8018.U (Rfc2104.hmac H D.block) p s i j) [] hul (by simp; omega)
  simp only [List.nil_append, List.append_nil, List.length_nil] at e3
  simp only [Window.whole] at e2
  refine ⟨m3, ?_, i3⟩
  rw [Pbkdf2.iter]
  simp only [e1, ok_bind, e2, e3]
  rw [show Rfc2104.hmac H D.block p (Rfc8018.U (Rfc2104.hmac H D.block) p s i j) = Rfc8018.U (Rfc2104.hmac H D.block) p s i (j + 1) from rfl,
    xorInto_at (s := (Rfc8018.U (Rfc2104.hmac H D.block) p s i (j + 1)).take n) (Holds.takeN _ (Holds.self _)) ha (by rw [List.length_take]; omega) (by rw [List.length_take]; omega)]
  rfl

theorem pbkdf2_pass (g : D.Hashes H ok Has) {N : Nat} (hN : ∀ n, n < N → ok n) (hN2 : N ≤ 2 ^ 64) {macOk : Nat → Bool} {st : Pbkdf2 D} {p s : List Byte} {i len oo k : Nat}
    {a win c : List Byte} {x} (hp : p.length < N) (hmk : macOk p.length = true) (hb : D.block + D.size + s.length + 4 < N) (hinit : st.init = true) (hm : st.mac.Inv H Has x)
    (hst : st.state = p) (hsa : st.salt = s) (hct : st.counter = beEnc 4 i) (ha : a.length = oo + k * D.size) (hw : win.length = min D.size (len - k * D.size)) :
    ∃ st', Pbkdf2.pass macOk len oo k (st, a ++ win ++ c) =
        .ok (st', a ++ (Rfc8018.F (Rfc2104.hmac H D.block) p s (Pbkdf2.count st.iterations) i).take (min D.size (len - k * D.size)) ++ c) ∧
      st'.init = true ∧ st'.mac.Inv H Has (some (p, [])) ∧ st'.state = p ∧ st'.salt = s ∧ st'.counter = beEnc 4 (i + 1) ∧ st'.iterations = st.iterations := by
  obtain ⟨m1, e1, i1⟩ := hmac_init_inv g hm (by omega) (hN _ hp) hmk
  obtain ⟨m2, e2, i2⟩ := hmac_update_inv g i1 (Window.whole s (by omega))
  rw [List.nil_append, Window.whole_bytes] at i2
  obtain ⟨m3, e3, i3⟩ := hmac_update_inv g i2 (Window.whole (beEnc 4 i) (by rw [beEnc_length]; decide))
  rw [Window.whole_bytes] at i3
  have hlt := g.block_lt
  have hsl := g.size_le
  obtain ⟨m4, e4, i4⟩ := hmac_final_inv g i3 (hN _ (by rw [List.length_append, beEnc_length]; omega)) (hN _ (by omega)) [] (List.replicate D.size 0) [] (by simp) (by simp; omega)
  simp only [List.nil_append, List.append_nil, List.length_nil] at e4
  rw [show Rfc2104.hmac H D.block p (s ++ beEnc 4 i) = Rfc8018.U (Rfc2104.hmac H D.block) p s i 0 from rfl] at e4
  simp only [Window.whole] at e2 e3
  rw [beEnc_length] at e3
  have hul := U_length g p s i 0
  obtain ⟨n, hn⟩ : ∃ n, min D.size (len - k * D.size) = n := ⟨_, rfl⟩
  rw [hn] at hw
  rw [hn]
  have hns : n ≤ D.size := by omega
  obtain ⟨⟨m5, u5, o5⟩, e5, ⟨i5, hu5, ho5⟩⟩ := loopN_inv (f := fun _ => Pbkdf2.iter macOk p (oo + k * D.size) n)
    (P := fun j q => q.1.Inv H Has (some (p, [])) ∧ q.2.1 = Rfc8018.U (Rfc2104.hmac H D.block) p s i (j - 1) ∧ q.2.2 = a ++ (Rfc8018.X (Rfc2104.hmac H D.block) p s i (j - 1)).take n ++ c)
    ((2 ^ 64 + st.iterations - 1) % 2 ^ 64) 1 (m4, Rfc8018.U (Rfc2104.hmac H D.block) p s i 0, a ++ (Rfc8018.U (Rfc2104.hmac H D.block) p s i 0).take n ++ c) (by
      rintro j ⟨m, u, o⟩ hj _ ⟨j1, j2, j3⟩
      simp only at j1 j2 j3
      subst j2 j3
      obtain ⟨m', e, im⟩ := pbkdf2_iter g hN hN2 (i := i) (s := s) (j := j - 1) (a := a) (c := c) (win := (Rfc8018.X (Rfc2104.hmac H D.block) p s i (j - 1)).take n) hp hmk (by omega) j1 ha.symm hns (by
        rw [List.length_take, X_length g]; omega)
      refine ⟨_, e, im, ?_, ?_⟩
      · simp only []; rw [show j - 1 + 1 = j + 1 - 1 by omega]
      · simp only []; rw [show j + 1 - 1 = j - 1 + 1 by omega, Rfc8018.X, xorBytes_take]) ⟨i4, rfl, rfl⟩
  simp only at i5 hu5 ho5
  subst ho5
  refine ⟨{ st with mac := m5, counter := beEnc 4 (i + 1) }, ?_, hinit, i5, hst, hsa, rfl, rfl⟩
  rw [Pbkdf2.pass]
  simp only [hst, hsa, hct, e1, ok_bind, e2, e3, e4, hn]
  rw [copy_at (s := (Rfc8018.U (Rfc2104.hmac H D.block) p s i 0).take n) (Holds.takeN _ (Holds.self _)) ha.symm (by rw [List.length_take]; omega) (by rw [List.length_take]; omega),
    ok_bind, e5, ok_bind, inc4, ok_bind, Rfc8018.F, Pbkdf2.count, Nat.add_sub_cancel, Nat.add_sub_cancel_left]
  rfl

/-- Histories of one PBKDF2 object. -/
inductive Pbkdf2.Run (D : DigestOps) (Has : D.σ → List Byte → Prop) (keyOk macOk : Nat → Bool) (N : Nat) : Pbkdf2 D → Option (List Byte × List Byte × Nat) → Prop
  | new {s it} : Has s [] → it < 2 ^ 32 → Run D Has keyOk macOk N (.fresh s it) none
  | iters {st x it} : Run D Has keyOk macOk N st x → it < 2 ^ 32 → Run D Has keyOk macOk N (st.setIterations it) x
  | init {st st' x key iv info} : Run D Has keyOk macOk N st x → key.length < N → D.block + D.size + iv.length + info.length + 4 < N → (iv ≠ [] ∨ info ≠ [] ∨ st.salt = []) →
      st.initialize keyOk key iv info = .ok st' → Run D Has keyOk macOk N st' (some (key, iv ++ info, 1))
  | gen {st st' p s i out oo len out'} : Run D Has keyOk macOk N st (some (p, s, i)) → oo ≤ out.length → out.length < 2 ^ 64 →
      st.generate macOk out oo len = .ok (st', out') → Run D Has keyOk macOk N st' (some (p, s, i + passesFor D.size len))

structure Pbkdf2.Keyed (H : List Byte → List Byte) (Has : D.σ → List Byte → Prop) (N : Nat) (st : Pbkdf2 D) (p s : List Byte) (i : Nat) : Prop where
  init : st.init = true
  mac : ∃ x, st.mac.Inv H Has x
  state : st.state = p
  salt : st.salt = s
  counter : st.counter = beEnc 4 i
  le : i ≤ 1024001
  key : p.length < N
  bound : D.block + D.size + s.length + 4 < N

theorem pbkdf2_expand (g : D.Hashes H ok Has) {N : Nat} (hN : ∀ n, n < N → ok n) (hN2 : N ≤ 2 ^ 64) (hs : 0 < D.size) {macOk : Nat → Bool} {st : Pbkdf2 D} {p s : List Byte} {i : Nat}
    (h : st.Keyed H Has N p s i) (hmk : macOk p.length = true) (pre junk post : List Byte) (hc : i + passesFor D.size junk.length ≤ 1024001) :
    ∃ st', st.expand macOk (pre ++ junk ++ post) pre.length junk.length =
        .ok (st', pre ++ (Rfc8018.blocks (Rfc2104.hmac H D.block) p s (Pbkdf2.count st.iterations) i (passesFor D.size junk.length)).take junk.length ++ post) ∧
      st'.Keyed H Has N p s (i + passesFor D.size junk.length) ∧ st'.iterations = st.iterations := by
  obtain ⟨st', e, r1, r2, r3, r4, r5, r6⟩ := fill_ok (f := Pbkdf2.pass macOk junk.length pre.length) (B := D.size) (n := passesFor D.size junk.length) (pre := pre) (junk := junk) (post := post)
    (R := fun k (t : Pbkdf2 D) => t.init = true ∧ (∃ x, t.mac.Inv H Has x) ∧ t.state = p ∧ t.salt = s ∧ t.counter = beEnc 4 (i + k) ∧ t.iterations = st.iterations)
    (fun j => Rfc8018.F (Rfc2104.hmac H D.block) p s (Pbkdf2.count st.iterations) (i + j))
    (fun k _ => X_length g _ _ _ _) (fun k hk => passes_lt hs hk) (passes_ge hs _) (by
      rintro k t a win c hk ⟨r1, ⟨x, r2⟩, r3, r4, r5, r6⟩ ha hw
      obtain ⟨st', e, q1, q2, q3, q4, q5, q6⟩ := pbkdf2_pass g hN hN2 (c := c) h.key hmk h.bound r1 r2 r3 r4 r5 ha hw
      rw [r6] at e q6
      exact ⟨st', e, q1, ⟨_, q2⟩, q3, q4, q5, q6⟩) (s := st) ⟨h.init, h.mac, h.state, h.salt, h.counter, rfl⟩
  exact ⟨st', e, ⟨r1, r2, r3, r4, r5, hc, h.key, h.bound⟩, r6⟩

theorem pbkdf2_generate (g : D.Hashes H ok Has) {N : Nat} (hN : ∀ n, n < N → ok n) (hN2 : N ≤ 2 ^ 64) (hs : 0 < D.size) {macOk : Nat → Bool} {st : Pbkdf2 D} {p s : List Byte} {i : Nat}
    (h : st.Keyed H Has N p s i) (hmk : macOk p.length = true) (pre junk post : List Byte) (hsz : (pre ++ junk ++ post).length < 2 ^ 64) (hc : i + junk.length / D.size ≤ 1024000) :
    ∃ st', st.generate macOk (pre ++ junk ++ post) pre.length junk.length =
        .ok (st', pre ++ (Rfc8018.blocks (Rfc2104.hmac H D.block) p s (Pbkdf2.count st.iterations) i (passesFor D.size junk.length)).take junk.length ++ post) ∧
      st'.Keyed H Has N p s (i + passesFor D.size junk.length) := by
  have hb := blocksFor_le D.size junk.length
  have hp : i + passesFor D.size junk.length ≤ 1024001 := by
    rw [passesFor]
    generalize junk.length / D.size = q at hb hc
    omega
  have hi : i ≤ 1024000 := Nat.le_trans (Nat.le_add_right _ _) hc
  obtain ⟨st', e, k, _⟩ := pbkdf2_expand g hN hN2 hs h hmk pre junk post hp
  obtain ⟨v, e2, hv⟩ := rd4 i (by omega)
  refine ⟨st', ?_, k⟩
  rw [Pbkdf2.generate, if_neg (by rw [h.init]; decide), subU_le (by simp only [List.length_append]; omega) hsz, if_neg (by simp only [List.length_append]; omega),
    if_neg (by omega), h.counter, e2, ok_bind, if_neg (by rw [hv]; omega)]
  exact e

/-- What holds of the instance before `Initialize`. -/
structure Pbkdf2.Ready (H : List Byte → List Byte) (Has : D.σ → List Byte → Prop) (st : Pbkdf2 D) : Prop where
  mac : ∃ x, st.mac.Inv H Has x
  clen : st.counter.length = 4
  zero : st.init = false → st.counter = beEnc 4 1 ∧ st.salt = []

theorem pbkdf2_cleared (g : D.Hashes H ok Has) {st : Pbkdf2 D} (hr : st.Ready H Has) :
    ∃ s : Pbkdf2 D, (if st.init then st.reset else pure st) = .ok s ∧ (∃ x, s.mac.Inv H Has x) ∧ s.counter = beEnc 4 1 ∧ s.salt = List.replicate st.salt.length 0 := by
  by_cases hb : st.init = true
  · obtain ⟨m, hm⟩ := hr.mac
    obtain ⟨mac, e, i⟩ := hmac_reset_inv g hm
    refine ⟨⟨mac, beEnc 4 1, List.replicate st.salt.length 0, List.replicate st.state.length 0, st.iterations, false⟩, ?_, ⟨_, i⟩, rfl, rfl⟩
    obtain ⟨c1, e1, e2⟩ := bind_ok (reset4 st.counter hr.clen)
    rw [if_pos hb, Pbkdf2.reset, e, ok_bind, e1, ok_bind, e2, ok_bind, clear_whole, ok_bind, clear_whole]
    rfl
  · obtain ⟨h1, h2⟩ := hr.zero (by simpa using hb)
    rw [if_neg hb]
    exact ⟨st, rfl, hr.mac, h1, by rw [h2]; rfl⟩

theorem pbkdf2_init (g : D.Hashes H ok Has) {keyOk : Nat → Bool} {N : Nat} {st : Pbkdf2 D} (hr : st.Ready H Has)
    (key iv info : List Byte) (hl : key.length < N) (hl2 : D.block + D.size + iv.length + info.length + 4 < N) (hk : keyOk key.length = true)
    (h1 : iv = [] ∨ info = []) (h2 : iv ++ info ≠ [] → 4 ≤ iv.length + info.length) (hi : iv ≠ [] ∨ info ≠ [] ∨ st.salt = []) :
    ∃ st', st.initialize keyOk key iv info = .ok st' ∧ st'.Keyed H Has N key (iv ++ info) 1 := by
  obtain ⟨s, e, i, e1, e2⟩ := pbkdf2_cleared g hr
  have c1 : copy key 0 (resize s.state key.length) 0 key.length = .ok key :=
    copy_whole (Holds.self _) rfl (by rw [resize_length])
  have c2 : s.loadSalt iv info = .ok (iv ++ info) := by
    rw [Pbkdf2.loadSalt]
    by_cases h0 : iv ++ info = []
    · obtain ⟨h3, h4⟩ := List.append_eq_nil_iff.mp h0
      subst h3 h4
      rw [if_neg (by simp)]
      rcases hi with hi | hi | hi
      · exact absurd rfl hi
      · exact absurd rfl hi
      · rw [e2, hi]; rfl
    · have h4 := h2 h0
      rw [if_pos (by omega), if_neg (by omega)]
      rcases h1 with h1 | h1
      · subst h1
        simp only [List.length_nil, ne_eq, not_true_eq_false, if_false, List.nil_append, Nat.zero_add]
        rw [pure_eq_ok, ok_bind, if_pos (by simp at h4; omega)]
        exact copy_whole (Holds.self _) rfl (by rw [resize_length])
      · subst h1
        simp only [List.length_nil, List.append_nil, Nat.add_zero, gt_iff_lt, Nat.lt_irrefl, if_false]
        rw [if_pos (by simp at h4; omega), copy_whole (Holds.self _) rfl (by rw [resize_length]), ok_bind]
        rfl
  refine ⟨{ s with state := key, salt := iv ++ info, init := true }, ?_, ?_⟩
  · rw [Pbkdf2.initialize, if_neg (by rw [hk]; decide), e, ok_bind, c1, ok_bind, c2]
    rfl
  · exact ⟨rfl, i, rfl, rfl, e1, by decide, hl, by rw [List.length_append]; omega⟩

theorem pbkdf2_info_ub (g : D.Hashes H ok Has) {keyOk : Nat → Bool} {st : Pbkdf2 D} (hr : st.Ready H Has) (key iv info : List Byte) (hk : keyOk key.length = true)
    (hiv : iv ≠ []) (hinf : info ≠ []) (h4 : 4 ≤ iv.length + info.length) : st.initialize keyOk key iv info = .error .ub := by
  obtain ⟨s, e, i, e1, e2⟩ := pbkdf2_cleared g hr
  have c1 : copy key 0 (resize s.state key.length) 0 key.length = .ok key :=
    copy_whole (Holds.self _) rfl (by rw [resize_length])
  have hp := List.length_pos_iff.mpr hinf
  have c2 : copy iv 0 (resize s.salt (iv.length + info.length)) 0 (iv.length + info.length) = .error .ub := by
    rw [copy, if_neg (by omega), slice, if_neg (by omega)]; rfl
  rw [Pbkdf2.initialize, if_neg (by rw [hk]; decide), e, ok_bind, c1, ok_bind, Pbkdf2.loadSalt, if_pos (by omega), if_neg (by omega)]
  simp only []
  rw [if_pos (by simpa using hiv), c2]
  rfl

theorem pbkdf2_keyed_ready {N : Nat} {st : Pbkdf2 D} {z s : List Byte} {i : Nat} (h : st.Keyed H Has N z s i) : st.Ready H Has :=
  ⟨h.mac, by rw [h.counter, beEnc_length], fun hf => by rw [h.init] at hf; cases hf⟩

/-- With a key the HMAC refuses, the first `Generate` throws. -/
theorem pbkdf2_short (hs : 0 < D.size) {macOk : Nat → Bool} {N : Nat} {st : Pbkdf2 D} {p s : List Byte} {i : Nat} (h : st.Keyed H Has N p s i) (hmk : macOk p.length = false)
    (out : List Byte) (oo len : Nat) : ∀ r, st.generate macOk out oo len ≠ .ok r := by
  intro r e
  have hle := h.le
  obtain ⟨v, e2, hv⟩ := rd4 i (by omega)
  have hp : ∀ n m s', loopN (n + 1) m (Pbkdf2.pass macOk len oo) (st, out) ≠ .ok s' := by
    intro n m s' e
    obtain ⟨_, e, _⟩ := bind_ok e
    rw [Pbkdf2.pass] at e
    simp only [h.state, Hmac.initialize, hmk, if_true] at e
    cases e
  rw [Pbkdf2.generate, if_neg (by rw [h.init]; decide)] at e
  split at e
  · cases e
  · rw [if_neg (by omega), h.counter, e2, ok_bind] at e
    split at e
    · cases e
    · rw [Pbkdf2.expand] at e
      obtain ⟨n, hn⟩ : ∃ n, passesFor D.size len = n + 1 := ⟨passesFor D.size len - 1, by rw [passesFor]; omega⟩
      rw [hn] at e
      exact hp _ _ _ e

theorem Pbkdf2.Run.inv (g : D.Hashes H ok Has) {keyOk macOk : Nat → Bool} {N : Nat} (hN : ∀ n, n < N → ok n) (hN2 : N ≤ 2 ^ 64) (hs : 0 < D.size) {st : Pbkdf2 D} {x}
    (h : Pbkdf2.Run D Has keyOk macOk N st x) : st.iterations < 2 ^ 32 ∧ st.Ready H Has ∧ ∀ z s i, x = some (z, s, i) → st.Keyed H Has N z s i := by
  induction h with
  | new h hit => exact ⟨hit, ⟨⟨none, by simp [Pbkdf2.fresh, Hmac.fresh], by simp [Pbkdf2.fresh, Hmac.fresh], fun _ => ⟨rfl, h⟩, fun _ _ e => by cases e⟩, rfl, fun _ => ⟨rfl, rfl⟩⟩, fun _ _ _ e => by cases e⟩
  | iters _ hit ih =>
    obtain ⟨_, r, k⟩ := ih
    exact ⟨hit, ⟨r.mac, r.clen, r.zero⟩, fun z s i e => let k := k z s i e; ⟨k.init, k.mac, k.state, k.salt, k.counter, k.le, k.key, k.bound⟩⟩
  | @init st st' x key iv info _ hl hl2 hi e ih =>
    obtain ⟨hit, r, _⟩ := ih
    have hk : keyOk key.length = true := by
      by_cases hk : keyOk key.length = true
      · exact hk
      · rw [Pbkdf2.initialize, if_pos (by simpa using hk)] at e; cases e
    have hit' : st'.iterations < 2 ^ 32 := by
      have e' := e
      rw [Pbkdf2.initialize, if_neg (by rw [hk]; decide)] at e'
      obtain ⟨s, e0, e'⟩ := bind_ok e'
      obtain ⟨_, _, e'⟩ := bind_ok e'
      obtain ⟨_, _, e'⟩ := bind_ok e'
      cases e'
      simp only
      split at e0
      · rw [Pbkdf2.reset] at e0
        obtain ⟨_, _, e0⟩ := bind_ok e0
        obtain ⟨_, _, e0⟩ := bind_ok e0
        obtain ⟨_, _, e0⟩ := bind_ok e0
        obtain ⟨_, _, e0⟩ := bind_ok e0
        obtain ⟨_, _, e0⟩ := bind_ok e0
        cases e0; exact hit
      · cases e0; exact hit
    have h2 : iv ++ info ≠ [] → 4 ≤ iv.length + info.length := by
      intro hne
      have hpos := List.length_pos_iff.mpr hne
      rw [List.length_append] at hpos
      rw [Pbkdf2.initialize, if_neg (by rw [hk]; decide)] at e
      obtain ⟨s, _, e⟩ := bind_ok e
      obtain ⟨_, _, e⟩ := bind_ok e
      obtain ⟨_, e, _⟩ := bind_ok e
      rw [Pbkdf2.loadSalt, if_pos (by omega)] at e
      split at e
      · cases e
      · omega
    have h1 : iv = [] ∨ info = [] := by
      apply Classical.byContradiction
      intro hne
      have hiv : iv ≠ [] := fun h => hne (.inl h)
      have hinf : info ≠ [] := fun h => hne (.inr h)
      rw [pbkdf2_info_ub g r key iv info hk hiv hinf (h2 (by simp [hiv]))] at e
      cases e
    obtain ⟨s, e1, k⟩ := pbkdf2_init g (N := N) r key iv info hl hl2 hk h1 h2 hi
    rw [e] at e1; cases e1
    exact ⟨hit', pbkdf2_keyed_ready k, fun _ _ _ e => by cases e; exact k⟩
  | @gen st st' z s i out oo len out' _ ho hsz e ih =>
    obtain ⟨hit, r, k⟩ := ih
    have k := k _ _ _ rfl
    have hle := k.le
    have hmk : macOk z.length = true := by
      by_cases hmk : macOk z.length = true
      · exact hmk
      · exact absurd e (pbkdf2_short hs k (by simpa using hmk) out oo len _)
    obtain ⟨v, e2, hv⟩ := rd4 i (by omega)
    have hsub : i + len / D.size ≤ 1024000 ∧ oo + len ≤ out.length := by
      rw [Pbkdf2.generate, if_neg (by rw [k.init]; decide), subU_le ho hsz] at e
      split at e
      · cases e
      · rw [if_neg (by omega), k.counter, e2, ok_bind, hv] at e
        split at e
        · cases e
        · omega
    obtain ⟨e1, e2, e3⟩ := generate_split hsub.2
    have hb := blocksFor_le D.size len
    obtain ⟨s5, e4, k4⟩ := pbkdf2_generate g hN hN2 hs k hmk (out.take oo) ((out.drop oo).take len) ((out.drop oo).drop len) (by rw [← e1]; exact hsz) (by rw [e3]; exact hsub.1)
    have hc : i + passesFor D.size len ≤ 1024001 := by
      have := hsub.1
      rw [passesFor]
      generalize len / D.size = q at hb this
      omega
    obtain ⟨s6, e6, _, k6⟩ := pbkdf2_expand g hN hN2 hs k hmk (out.take oo) ((out.drop oo).take len) ((out.drop oo).drop len) (by rw [e3]; exact hc)
    rw [← e1, e2, e3] at e4 e6
    have hst : st.generate macOk out oo len = st.expand macOk out oo len := by
      rw [Pbkdf2.generate, if_neg (by rw [k.init]; decide), subU_le ho hsz, if_neg (by omega), if_neg (by omega), k.counter]
      obtain ⟨v, e2, hv⟩ := rd4 i (by omega)
      rw [e2, ok_bind, if_neg (by omega)]
    rw [e] at e4; cases e4
    rw [hst, e6] at e; cases e
    rw [e3] at k4
    exact ⟨by rw [k6]; exact hit, pbkdf2_keyed_ready k4, fun _ _ _ e => by cases e; exact k4⟩

/-- C35 for PBKDF2: after any history, a keyed instance fills exactly the requested window with the next PBKDF2 blocks, cut to
length, and goes on with the next index. Requests past the limit are refused. -/
theorem C35_pbkdf2_partial (g : D.Hashes H ok Has) (keyOk macOk : Nat → Bool) (N : Nat) (hN : ∀ n, n < N → ok n) (hN2 : N ≤ 2 ^ 64) (hs : 0 < D.size) (st : Pbkdf2 D)
    (p s : List Byte) (i : Nat) (h : Pbkdf2.Run D Has keyOk macOk N st (some (p, s, i))) (hmk : macOk p.length = true) (pre junk post : List Byte)
    (hsz : (pre ++ junk ++ post).length < 2 ^ 64) :
    (0 < st.iterations → i + junk.length / D.size ≤ 1024000 → ∃ st', st.generate macOk (pre ++ junk ++ post) pre.length junk.length =
        .ok (st', pre ++ (Rfc8018.blocks (Rfc2104.hmac H D.block) p s st.iterations i (passesFor D.size junk.length)).take junk.length ++ post) ∧
      Pbkdf2.Run D Has keyOk macOk N st' (some (p, s, i + passesFor D.size junk.length))) ∧
    (1024000 < i + junk.length / D.size → st.generate macOk (pre ++ junk ++ post) pre.length junk.length = .error (.throws .maxExceeded)) := by
  obtain ⟨hit, _, k⟩ := h.inv g hN hN2 hs
  have k := k _ _ _ rfl
  constructor
  · intro hc0 hc
    obtain ⟨st', e, _⟩ := pbkdf2_generate g hN hN2 hs k hmk pre junk post hsz hc
    rw [count_pos hc0 (by omega)] at e
    exact ⟨st', e, .gen h (by simp only [List.length_append]; omega) hsz e⟩
  · intro hc
    have hle := k.le
    obtain ⟨v, e2, hv⟩ := rd4 i (by omega)
    rw [Pbkdf2.generate, if_neg (by rw [k.init]; decide), subU_le (by simp only [List.length_append]; omega) hsz, if_neg (by simp only [List.length_append]; omega),
      if_neg (by omega), k.counter, e2, ok_bind, if_pos (by rw [hv]; omega)]
    rfl

/-- An iteration count of zero is taken as `2^64`. -/
theorem C35_pbkdf2_zero (g : D.Hashes H ok Has) (keyOk macOk : Nat → Bool) (N : Nat) (hN : ∀ n, n < N → ok n) (hN2 : N ≤ 2 ^ 64) (hs : 0 < D.size) (st : Pbkdf2 D)
    (p s : List Byte) (i : Nat) (h : Pbkdf2.Run D Has keyOk macOk N st (some (p, s, i))) (hmk : macOk p.length = true) (pre junk post : List Byte)
    (hsz : (pre ++ junk ++ post).length < 2 ^ 64) (h0 : st.iterations = 0) (hc : i + junk.length / D.size ≤ 1024000) :
    ∃ st', st.generate macOk (pre ++ junk ++ post) pre.length junk.length =
        .ok (st', pre ++ (Rfc8018.blocks (Rfc2104.hmac H D.block) p s (2 ^ 64) i (passesFor D.size junk.length)).take junk.length ++ post) := by
  obtain ⟨hit, _, k⟩ := h.inv g hN hN2 hs
  obtain ⟨st', e, _⟩ := pbkdf2_generate g hN hN2 hs (k _ _ _ rfl) hmk pre junk post hsz hc
  rw [h0, count_zero] at e
  exact ⟨st', e⟩

/-- Keys that pass `Initialize` but are too short for the HMAC: nothing can be generated. -/
theorem C35_pbkdf2_short_key (g : D.Hashes H ok Has) (keyOk macOk : Nat → Bool) (N : Nat) (hN : ∀ n, n < N → ok n) (hN2 : N ≤ 2 ^ 64) (hs : 0 < D.size) (st : Pbkdf2 D)
    (p s : List Byte) (i : Nat) (h : Pbkdf2.Run D Has keyOk macOk N st (some (p, s, i))) (hmk : macOk p.length = false) (out : List Byte) (oo len : Nat) :
    ∀ r, st.generate macOk out oo len ≠ .ok r :=
  pbkdf2_short hs ((h.inv g hN hN2 hs).2.2 _ _ _ rfl) hmk out oo len

/-- `Initialize` with both a nonce and an info is undefined behaviour. -/
theorem C35_pbkdf2_info_ub (g : D.Hashes H ok Has) (keyOk macOk : Nat → Bool) (N : Nat) (hN : ∀ n, n < N → ok n) (hN2 : N ≤ 2 ^ 64) (hs : 0 < D.size) (st : Pbkdf2 D) (x)
    (h : Pbkdf2.Run D Has keyOk macOk N st x) (key iv info : List Byte) (hk : keyOk key.length = true) (hiv : iv ≠ []) (hinf : info ≠ []) (h4 : 4 ≤ iv.length + info.length) :
    st.initialize keyOk key iv info = .error .ub := pbkdf2_info_ub g (h.inv g hN hN2 hs).2.1 key iv info hk hiv hinf h4

/-- Prefix consistency. -/
theorem C35_pbkdf2_prefix (g : D.Hashes H ok Has) (p s : List Byte) (c i : Nat) (a b : Nat) (hB : 0 < D.size) (hab : a ≤ b) :
    (Rfc8018.blocks (Rfc2104.hmac H D.block) p s c i (passesFor D.size a)).take a = ((Rfc8018.blocks (Rfc2104.hmac H D.block) p s c i (passesFor D.size b)).take b).take a := by
  have hp : passesFor D.size a ≤ passesFor D.size b := by
    rw [passesFor, passesFor]
    have : blocksFor D.size a ≤ blocksFor D.size b := by rw [blocksFor, blocksFor]; exact Nat.div_le_div_right (by omega)
    omega
  have hx : ∀ n m, n ≤ m → Rfc8018.blocks (Rfc2104.hmac H D.block) p s c i m = Rfc8018.blocks (Rfc2104.hmac H D.block) p s c i n ++
      ((List.range' n (m - n)).map (fun j => Rfc8018.F (Rfc2104.hmac H D.block) p s c (i + j))).flatten := by
    intro n m hnm
    rw [Rfc8018.blocks, Rfc8018.blocks, ← List.flatten_append, ← List.map_append, List.range_eq_range', List.range_eq_range']
    have := List.range'_append_1 (s := 0) (m := n) (n := m - n)
    rw [Nat.zero_add] at this
    rw [this, show n + (m - n) = m by omega]
  have hlen : (Rfc8018.blocks (Rfc2104.hmac H D.block) p s c i (passesFor D.size a)).length = passesFor D.size a * D.size := by
    have hbl : Blocks D.size ((List.range (passesFor D.size a)).map (fun j => Rfc8018.F (Rfc2104.hmac H D.block) p s c (i + j))) := by
      intro b hb
      obtain ⟨j, _, rfl⟩ := List.mem_map.mp hb
      exact X_length g _ _ _ _
    rw [Rfc8018.blocks, hbl.length]; simp
  have hge := passes_ge hB a
  rw [List.take_take, Nat.min_eq_left hab, hx _ _ hp, List.take_append_of_le_length (by omega)]

/-- Filling a `SecureVector` away from its start writes past the end of a temporary. -/
theorem C35_pbkdf2_secure_ub (g : D.Hashes H ok Has) (keyOk macOk : Nat → Bool) (N : Nat) (hN : ∀ n, n < N → ok n) (hN2 : N ≤ 2 ^ 64) (hs : 0 < D.size) (st : Pbkdf2 D)
    (p s : List Byte) (i : Nat) (h : Pbkdf2.Run D Has keyOk macOk N st (some (p, s, i))) (hmk : macOk p.length = true) (out : List Byte) (oo len : Nat) (ho : 0 < oo)
    (hl : 0 < len) (hl2 : len ≤ D.size) (hsz : oo + len ≤ out.length) (hsz2 : out.length < 2 ^ 64) (hi : i < 1024000) : st.generateSecure macOk out oo len = .error .ub := by
  have k := (h.inv g hN hN2 hs).2.2 _ _ _ rfl
  have hdiv : len / D.size ≤ 1 := by
    rw [Nat.div_le_iff_le_mul_add_pred (by omega)]; omega
  have hb : passesFor D.size len = 1 := by
    rw [passesFor, blocksFor, show len + D.size - 1 = D.size * 1 + (len - 1) by omega, Nat.mul_add_div (by omega), Nat.div_eq_of_lt (by omega)]; rfl
  obtain ⟨v, e2, hv⟩ := rd4 i (by omega)
  rw [Pbkdf2.generateSecure, if_neg (by rw [k.init]; decide), subU_le (by omega) hsz2, if_neg (by omega), if_neg (by omega), k.counter, e2, ok_bind, if_neg (by omega),
    Pbkdf2.expand, hb]
  have hp : Pbkdf2.pass macOk len oo 0 (st, List.replicate len 0) = .error .ub := by
    obtain ⟨x, hm⟩ := k.mac
    obtain ⟨m1, e1, i1⟩ := hmac_init_inv g hm (by have := k.key; omega) (hN _ k.key) hmk
    have hbd := k.bound
    obtain ⟨m2, e2, i2⟩ := hmac_update_inv g i1 (Window.whole s (by omega))
    rw [List.nil_append, Window.whole_bytes] at i2
    obtain ⟨m3, e3, i3⟩ := hmac_update_inv g i2 (Window.whole (beEnc 4 i) (by rw [beEnc_length]; decide))
    rw [Window.whole_bytes] at i3
    have hlt := g.block_lt
    have hsl := g.size_le
    obtain ⟨m4, e4, i4⟩ := hmac_final_inv g i3 (hN _ (by rw [List.length_append, beEnc_length]; omega)) (hN _ (by omega)) [] (List.replicate D.size 0) [] (by simp) (by simp; omega)
    simp only [List.nil_append, List.append_nil, List.length_nil] at e4
    simp only [Window.whole] at e2 e3
    rw [beEnc_length] at e3
    rw [Pbkdf2.pass]
    simp only [k.state, k.salt, k.counter, e1, ok_bind, e2, e3, e4]
    rw [copy_oob (by omega) (by simp; omega)]
    rfl
  simp only [loopN, hp]
  rfl

/-- The full claim on re-initialisation. -/
def C35_pbkdf2_reinit_full : Prop :=
  ∀ (H : List Byte → List Byte) (D : DigestOps) (Has : D.σ → List Byte → Prop), D.Hashes H (fun _ => True) Has → ∀ (s : D.σ), Has s [] →
    ∀ (key iv key' out : List Byte) (a b c : Pbkdf2 D) (out' : List Byte), out.length = D.size →
      (Pbkdf2.fresh s 1).initialize (fun n => decide (4 ≤ n)) key iv [] = .ok a → a.initialize (fun n => decide (4 ≤ n)) key' [] [] = .ok b →
      b.generate (fun n => decide (8 ≤ n)) out 0 D.size = .ok (c, out') → out' = Rfc8018.F (Rfc2104.hmac H D.block) key' [] 1 1

/-- A salt given once stays, zeroed but with its length, when the instance is initialised again without one. -/
theorem C35_pbkdf2_reinit_false : ¬ C35_pbkdf2_reinit_full := by
  intro h
  have g := ideal_hashes (H := lenHash) (block := 20) (size := 2) (fun _ => rfl) (by decide) (by decide)
  have hr : ∃ a b c out', (Pbkdf2.fresh (D := idealOps lenHash 20 2) [] 1).initialize (fun n => decide (4 ≤ n)) (List.replicate 16 1) [1, 2, 3, 4] [] = .ok a ∧
      a.initialize (fun n => decide (4 ≤ n)) (List.replicate 16 1) [] [] = .ok b ∧ b.generate (fun n => decide (8 ≤ n)) [0, 0] 0 2 = .ok (c, out') ∧
      out' ≠ Rfc8018.F (Rfc2104.hmac lenHash 20) (List.replicate 16 1) [] 1 1 := by
    refine ⟨_, _, _, _, rfl, rfl, rfl, by decide +kernel⟩
  obtain ⟨a, b, c, out', e1, e2, e3, hne⟩ := hr
  exact hne (h lenHash _ _ g [] rfl _ _ _ _ a b c out' rfl e1 e2 e3)

/-- From a fresh object and a key with salt, a run exists. -/
theorem pbkdf2_start (g : D.Hashes H ok Has) (keyOk macOk : Nat → Bool) (N : Nat) {s : D.σ} (h0 : Has s []) (key salt : List Byte) (it : Nat) (hit : it < 2 ^ 32)
    (hk : keyOk key.length = true) (hl : key.length < N) (hl2 : D.block + D.size + salt.length + 4 < N) (h4 : 4 ≤ salt.length) :
    ∃ st, Pbkdf2.Run D Has keyOk macOk N st (some (key, salt, 1)) ∧ st.iterations = it := by
  have r0 : Pbkdf2.Run D Has keyOk macOk N (.fresh s it) none := .new h0 hit
  have hr : (Pbkdf2.fresh s it : Pbkdf2 D).Ready H Has :=
    ⟨⟨none, by simp [Pbkdf2.fresh, Hmac.fresh], by simp [Pbkdf2.fresh, Hmac.fresh], fun _ => ⟨rfl, h0⟩, fun _ _ e => by cases e⟩, rfl, fun _ => ⟨rfl, rfl⟩⟩
  have hne : salt ≠ [] := by intro h; rw [h] at h4; simp at h4
  obtain ⟨st, e, _⟩ := pbkdf2_init g (keyOk := keyOk) hr key salt [] hl (by simpa using hl2) hk (.inr rfl) (fun _ => by simpa using h4) (.inl hne)
  have r1 := Pbkdf2.Run.init r0 hl (by simpa using hl2) (.inl hne) e
  rw [List.append_nil] at r1
  refine ⟨st.setIterations it, .iters r1 hit, rfl⟩

/-- PBKDF2-HMAC-SHA2-256 with 3 iterations, two requests: 50 bytes, then 33 bytes into the middle of a buffer. -/
example : ∃ (st st' : Pbkdf2 (sha2Ops (core256 true))), st.generate (fun n => decide (8 ≤ n)) (List.replicate 4 0 ++ List.replicate 33 0 ++ List.replicate 3 0) 4 33 =
    .ok (st', List.replicate 4 0 ++ (Rfc8018.blocks (Rfc2104.hmac Fips.sha256 64) (List.replicate 20 3) [1, 2, 3, 4] 3 3 2).take 33 ++ List.replicate 3 0) := by
  have g := sha2_hashes (core256_good true) (by decide)
  obtain ⟨o, h0⟩ := (C36_sha256 true).1
  obtain ⟨s0, r0, i0⟩ := pbkdf2_start g (fun n => decide (4 ≤ n)) (fun n => decide (8 ≤ n)) (2 ^ 40) (s := o) (.new h0) (List.replicate 20 3) [1, 2, 3, 4] 3 (by decide) (by simp) (by simp) (by simp [sha2Ops]) (by decide)
  obtain ⟨s1, e1, r1⟩ := (C35_pbkdf2_partial g _ _ (2 ^ 40) (fun _ _ => trivial) (by decide) (by decide) s0 _ _ _ r0 (by simp) [] (List.replicate 50 0) [] (by simp)).1 (by omega) (by simp [sha2Ops])
  have r1' := r1.iters (it := 3) (by decide)
  obtain ⟨s2, e2, r2⟩ := (C35_pbkdf2_partial g _ _ (2 ^ 40) (fun _ _ => trivial) (by decide) (by decide) _ _ _ _ r1' (by simp) (List.replicate 4 0) (List.replicate 33 0) (List.replicate 3 0) (by simp)).1
    (by simp [Pbkdf2.setIterations]) (by simp [passesFor, blocksFor, sha2Ops])
  exact ⟨_, s2, e2⟩

end Cex.Kdf
