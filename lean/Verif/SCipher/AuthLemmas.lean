import Verif.SCipher.Auth
import Verif.SCipher.Props
import Verif.Keccak.KmacExamples
import Verif.Keccak.ShakeProps

/-!
# Authenticated mode: one call
-/

namespace Cex.SCipher
open Cex Cex.IntTools Cex.Mac Cex.Modes Stream

/-- A MAC object seen from outside: it takes bytes and gives tags, over several messages. `τ` are the
abstract states, `put` takes bytes, `fin` ends a message. -/
structure Chain (A : MacOps) where
  τ : Type
  put : τ → List Byte → τ
  fin : τ → τ × List Byte
  Rep : A.σ → τ → Prop

/-- The object does what the abstract states say. -/
structure Chain.Good {A : MacOps} (K : Chain A) : Prop where
  nil : ∀ t, K.put t [] = t
  append : ∀ t a b, K.put (K.put t a) b = K.put t (a ++ b)
  size : ∀ {s t}, K.Rep s t → (K.fin t).2.length = A.tag
  tag_lt : A.tag < 2 ^ 61
  update : ∀ {s t}, K.Rep s t → ∀ w : Window, ∃ s', A.update s w.buf w.off w.len = .ok s' ∧ K.Rep s' (K.put t w.bytes)
  finalize : ∀ {s t}, K.Rep s t → ∀ junk, junk.length = A.tag → ∃ s', A.finalize s junk 0 = .ok (s', (K.fin t).2) ∧ K.Rep s' (K.fin t).1

namespace Chain.Good
variable {A : MacOps} {K : Chain A}

theorem update_at (g : K.Good) {s : A.σ} {t : K.τ} (h : K.Rep s t) (buf x : List Byte) (off n : Nat) (hx : Holds buf off x) (hn : n = x.length)
    (hb : buf.length < 2 ^ 64) : ∃ s', A.update s buf off n = .ok s' ∧ K.Rep s' (K.put t x) := by
  subst hn
  obtain ⟨a, c, e1, e2⟩ := hx
  obtain ⟨s', h1, h2⟩ := g.update h ⟨buf, off, x.length, by rw [e1, ← e2]; simp, hb⟩
  have : Window.bytes ⟨buf, off, x.length, by rw [e1, ← e2]; simp, hb⟩ = x := by rw [Window.bytes]; simp [e1, ← e2]
  rw [this] at h2
  exact ⟨s', h1, h2⟩

theorem updates (g : K.Good) : ∀ (xs : List (List Byte)) {s : A.σ} {t : K.τ}, K.Rep s t → (∀ x ∈ xs, x.length < 2 ^ 64) →
    ∃ s', Auth.updates s xs = .ok s' ∧ K.Rep s' (K.put t xs.flatten)
  | [], s, t, h, _ => ⟨s, rfl, by rw [List.flatten_nil, g.nil]; exact h⟩
  | x :: xs, s, t, h, hl => by
    obtain ⟨s1, h1, h2⟩ := g.update_at h x x 0 x.length (Holds.self x) rfl (hl x List.mem_cons_self)
    obtain ⟨s2, h3, h4⟩ := updates g xs h2 (fun y hy => hl y (List.mem_cons_of_mem _ hy))
    rw [g.append] at h4
    exact ⟨s2, by rw [Auth.updates, h1, ok_bind, h3], by rw [List.flatten_cons]; exact h4⟩

end Chain.Good

/-- The engine, called at counter `c` with output offset `oo` and `n` bytes, XORs `ks` and leaves the
counter `c'`. -/
def Does {κ : Type} (E : Engine κ) (c : κ) (oo n : Nat) (ks : List Byte) (c' : κ) : Prop :=
  ks.length = n ∧ ∀ (inp msg : List Byte) (io : Nat) (pre junk post : List Byte), Holds inp io msg → msg.length = n → pre.length = oo → junk.length = n →
    E c inp io (pre ++ junk ++ post) oo n = .ok (c', pre ++ xorBytes ks msg ++ post)

/-- Strings of ordinary size. -/
def Fmt.Fits {κ : Type} (F : Fmt κ) : Prop := (∀ c, ∀ x ∈ F.pos c, x.length < 2 ^ 64) ∧ ∀ n, (F.fin n).length < 2 ^ 64

namespace Auth
variable {A : MacOps} {κ : Type} {F : Fmt κ} {K : Chain A}

/-- The state holds counter `c`, MAC state `t` and byte count `n`. -/
structure Is (K : Chain A) (s : Auth A κ) (c : κ) (t : K.τ) (n : BitVec 64) : Prop where
  nonce : s.nonce = c
  mac : K.Rep s.mac t
  counter : s.counter = n
  tag : s.macTag.length = A.tag

/-- The MAC state after the data of a message. -/
def fed (F : Fmt κ) (K : Chain A) (t : K.τ) (c : κ) (n : BitVec 64) (ct : List Byte) : K.τ :=
  K.put t ((F.pos c).flatten ++ ct ++ F.fin (n + BitVec.ofNat 64 ct.length))

/-- The tag of a message. -/
def tagOf (F : Fmt κ) (K : Chain A) (t : K.τ) (c : κ) (n : BitVec 64) (ct : List Byte) : List Byte := (K.fin (fed F K t c n ct)).2

/-- The MAC state after a message. -/
def after (F : Fmt κ) (K : Chain A) (t : K.τ) (c : κ) (n : BitVec 64) (ct : List Byte) : K.τ := (K.fin (fed F K t c n ct)).1

theorem finish_ok (g : K.Good) (hF : F.Fits) {s : Auth A κ} {c : κ} {t : K.τ} {n : BitVec 64} (h : Is K s c t n) :
    ∃ s', finish F s = .ok s' ∧ Is K s' c (K.fin (K.put t (F.fin n))).1 n ∧ s'.macTag = (K.fin (K.put t (F.fin n))).2 ∧ s'.macTag.length = A.tag := by
  obtain ⟨m1, h1, h2⟩ := g.update_at h.mac (F.fin n) (F.fin n) 0 _ (Holds.self _) rfl (hF.2 n)
  obtain ⟨m2, h3, h4⟩ := g.finalize h2 s.macTag h.tag
  refine ⟨{ s with mac := m2, macTag := (K.fin (K.put t (F.fin n))).2 }, ?_, ⟨h.nonce, h4, h.counter, g.size h2⟩, rfl, g.size h2⟩
  rw [finish, h.counter, h1, ok_bind, h3, ok_bind]
  rfl

theorem setAad_ok (g : K.Good) {s : Auth A κ} {c : κ} {t : K.τ} {n : BitVec 64} (h : Is K s c t n) (w : Window) (hw : F.coded = true → w.len ≠ 0) :
    ∃ s', setAad F s w.buf w.off w.len = .ok s' ∧
      Is K s' c (K.put t (w.bytes ++ if F.coded then leRep 4 (BitVec.ofNat 32 w.len) else [])) n := by
  obtain ⟨m1, h1, h2⟩ := g.update h.mac w
  rw [setAad, if_neg (by intro e; exact hw e.1 e.2)]
  simp only []
  rw [h1, ok_bind]
  cases hc : F.coded with
  | false =>
    refine ⟨_, rfl, h.nonce, ?_, h.counter, h.tag⟩
    simpa using h2
  | true =>
    obtain ⟨m2, h3, h4⟩ := g.update_at h2 (leRep 4 (BitVec.ofNat 32 w.len)) _ 0 4 (Holds.self _) (leRep_length 4 _).symm (by rw [leRep_length]; omega)
    rw [g.append] at h4
    refine ⟨{ s with mac := m2 }, ?_, h.nonce, by simpa using h4, h.counter, h.tag⟩
    rw [if_pos rfl, h3]
    rfl

/-- Encryption of one message. -/
theorem encrypt_ok (g : K.Good) (hF : F.Fits) {E : Engine κ} {s : Auth A κ} {c c' : κ} {t : K.τ} {n : BitVec 64} (h : Is K s c t n)
    {inp msg : List Byte} {io oo : Nat} {ks : List Byte} (hE : Does E c oo msg.length ks c') (hin : Holds inp io msg) (pre junk tjunk post : List Byte)
    (hp : pre.length = oo) (hj : junk.length = msg.length) (ht : tjunk.length = A.tag) (hl : (pre ++ junk ++ tjunk ++ post).length < 2 ^ 64) :
    ∃ s', encrypt F E s inp io (pre ++ junk ++ tjunk ++ post) oo msg.length =
        .ok (s', pre ++ xorBytes ks msg ++ tagOf F K t c n (xorBytes ks msg) ++ post) ∧
      Is K s' c' (after F K t c n (xorBytes ks msg)) (n + BitVec.ofNat 64 msg.length) := by
  have hct : (xorBytes ks msg).length = msg.length := by rw [xorBytes_length, hE.1, Nat.min_self]
  have hlen : (pre ++ junk ++ tjunk ++ post).length = oo + msg.length + A.tag + post.length := by
    simp only [List.length_append]; omega
  obtain ⟨m1, h1, h2⟩ := g.updates (F.pos s.nonce) h.mac (by rw [h.nonce]; exact hF.1 c)
  have h3 := hE.2 inp msg io pre junk (tjunk ++ post) hin rfl hp hj
  generalize hC : xorBytes ks msg = ct at *
  obtain ⟨m2, h4, h5⟩ := g.update_at h2 (pre ++ ct ++ (tjunk ++ post)) ct oo msg.length ⟨pre, tjunk ++ post, rfl, hp⟩ hct.symm
    (by simp only [List.length_append] at hl ⊢; omega)
  rw [g.append, h.nonce] at h5
  obtain ⟨s', h6, h7, h8, h9⟩ := finish_ok (F := F) (K := K) g hF (s := ⟨c', m2, s.counter + BitVec.ofNat 64 msg.length, s.macTag⟩) (c := c')
    (n := n + BitVec.ofNat 64 msg.length) ⟨rfl, h5, by rw [h.counter], h.tag⟩
  rw [g.append] at h7 h8
  have e1 : K.put t ((F.pos c).flatten ++ ct ++ F.fin (n + BitVec.ofNat 64 msg.length)) = fed F K t c n ct := by rw [fed, hct]
  rw [e1] at h7 h8
  refine ⟨s', ?_, h7⟩
  rw [encrypt, if_neg (by rw [Nat.mod_eq_of_lt (by omega)]; omega)]
  simp only []
  rw [h1, ok_bind, h.nonce, List.append_assoc _ tjunk, h3, ok_bind]
  simp only []
  rw [h4, ok_bind, h6, ok_bind]
  have := copy_at (src := s'.macTag) (so := 0) (a := pre ++ ct) (b := tjunk) (c := post) (off := oo + msg.length) (Holds.self s'.macTag)
    (by rw [List.length_append]; omega) rfl (by omega)
  rw [← List.append_assoc (pre ++ ct), this, ok_bind, h8]
  rfl

theorem decrypt_ok (g : K.Good) (hF : F.Fits) {E : Engine κ} {s : Auth A κ} {c : κ} {t : K.τ} {n : BitVec 64} (h : Is K s c t n)
    {inp ct tg : List Byte} {io : Nat} (hin : Holds inp io (ct ++ tg)) (htg : tg.length = A.tag) (hl : inp.length < 2 ^ 64) (out : List Byte) (oo : Nat) :
    (tg ≠ tagOf F K t c n ct → ∃ s', decrypt F E s inp io out oo ct.length = .ok (s', none) ∧ Is K s' c (after F K t c n ct) (n + BitVec.ofNat 64 ct.length)) ∧
    (tg = tagOf F K t c n ct → ∀ ks c', Does E c oo ct.length ks c' → ∀ pre junk post, out = pre ++ junk ++ post → pre.length = oo → junk.length = ct.length →
      ∃ s', decrypt F E s inp io out oo ct.length = .ok (s', some (pre ++ xorBytes ks ct ++ post)) ∧
        Is K s' c' (after F K t c n ct) (n + BitVec.ofNat 64 ct.length)) := by
  obtain ⟨m1, h1, h2⟩ := g.updates (F.pos s.nonce) h.mac (by rw [h.nonce]; exact hF.1 c)
  have hc : Holds inp io ct := by
    have := hin.takeN ct.length
    rwa [List.take_left] at this
  obtain ⟨m2, h4, h5⟩ := g.update_at h2 inp ct io ct.length hc rfl hl
  rw [g.append, h.nonce] at h5
  obtain ⟨s', h6, h7, h8, h9⟩ := finish_ok (F := F) (K := K) g hF (s := ⟨c, m2, s.counter + BitVec.ofNat 64 ct.length, s.macTag⟩) (c := c)
    (n := n + BitVec.ofNat 64 ct.length) ⟨rfl, h5, by rw [h.counter], h.tag⟩
  rw [g.append] at h7 h8
  have hwin : (inp.drop (io + ct.length)).take s'.macTag.length = tg := by
    obtain ⟨a, d, e, ea⟩ := hin
    rw [e, ← ea, h9, ← htg]
    simp [← List.append_assoc, List.drop_append]
  have hcmp : compare inp (io + ct.length) s'.macTag 0 s'.macTag.length = .ok (decide (tg = s'.macTag)) := by
    have := hin.le
    rw [List.length_append] at this
    rw [C04_compare _ _ _ _ _ (by omega) (by omega), hwin, List.drop_zero, List.take_length]
  have hstart : decrypt F E s inp io out oo ct.length =
      (if decide (tg = s'.macTag) = true then (do let p ← E s'.nonce inp io out oo ct.length; return ({ s' with nonce := p.1 }, some p.2)) else return (s', none)) := by
    rw [decrypt, h1, ok_bind, h4, ok_bind, h.nonce, h6, ok_bind, hcmp, ok_bind]
  refine ⟨fun hne => ?_, ?_⟩
  · refine ⟨s', ?_, h7⟩
    rw [hstart, if_neg]
    · rfl
    · rw [decide_eq_true_iff, h8]; exact hne
  · rintro heq ks c' hE pre junk post rfl hp hj
    refine ⟨{ s' with nonce := c' }, ?_, ⟨rfl, h7.mac, h7.counter, h7.tag⟩⟩
    rw [hstart, if_pos (by rw [decide_eq_true_iff, h8]; exact heq), h7.nonce, hE.2 inp ct io pre junk post hc rfl hp hj, ok_bind]
    rfl

/-- An input without room for a tag is read out of range. -/
theorem decrypt_short (g : K.Good) (hF : F.Fits) {E : Engine κ} {s : Auth A κ} {c : κ} {t : K.τ} {n : BitVec 64} (h : Is K s c t n)
    {inp ct : List Byte} {io : Nat} (hin : Holds inp io ct) (hl : inp.length < 2 ^ 64) (h0 : 0 < A.tag) (hs : inp.length < io + ct.length + A.tag)
    (out : List Byte) (oo : Nat) : decrypt F E s inp io out oo ct.length = .error .ub := by
  obtain ⟨m1, h1, h2⟩ := g.updates (F.pos s.nonce) h.mac (by rw [h.nonce]; exact hF.1 c)
  obtain ⟨m2, h4, h5⟩ := g.update_at h2 inp ct io ct.length hin rfl hl
  rw [g.append, h.nonce] at h5
  obtain ⟨s', h6, h7, h8, h9⟩ := finish_ok (F := F) (K := K) g hF (s := ⟨c, m2, s.counter + BitVec.ofNat 64 ct.length, s.macTag⟩) (c := c)
    (n := n + BitVec.ofNat 64 ct.length) ⟨rfl, h5, by rw [h.counter], h.tag⟩
  rw [decrypt, h1, ok_bind, h4, ok_bind, h.nonce, h6, ok_bind, C04_out_of_range _ _ _ _ _ (by omega) (Or.inl (by omega))]
  rfl

end Auth
end Cex.SCipher
