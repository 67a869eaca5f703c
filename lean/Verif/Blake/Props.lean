import Verif.Blake.Lemmas
import Verif.Digest.Interface

/-!
# C65 Sequential BLAKE2s-256 and BLAKE2b-512

`Run C o s m`: the sequential object `o` has come about by construction and any sequence of successful `Initialize`, `Update`,
`Reset` and `Finalize` calls, and `m` is what was passed to `Update` since the last of the other calls. The mode `s` says
whether a key is in force.
-/

namespace Cex.Blake
open Cex Cex.IntTools Cex.Blake.Rfc Cex.Stream

variable {w : Nat}

/-- What a user knows of the keying of the object: never keyed; keyed and not finalised since; keyed at some time with a key of the
given length, and finalised or reset since. -/
inductive Mode
  | plain
  | keyed (key : List Byte)
  | stale (n : Nat)

/-- The mode after `Reset` or `Finalize`. -/
def Mode.next : Mode → Mode
  | plain => plain
  | keyed key => stale key.length
  | stale n => stale n

inductive Run (C : Core w) : Obj w → Mode → List Byte → Prop
  | new {o} (min : Nat) : Obj.newSeq C min = .ok o → Run C o .plain []
  | initKey {o o' s m} (key iv info : List Byte) : Run C o s m → o.initKey C key iv info = .ok o' → Run C o' (.keyed key) []
  | update {o o' s m} (x : Window) : Run C o s m → o.update C x.buf x.off x.len = .ok o' → Run C o' s (m ++ x.bytes)
  | reset {o o' s m} : Run C o s m → o.reset C = .ok o' → Run C o' s.next []
  | final {o o' s m out oo out'} : Run C o s m → o.finalize C out oo = .ok (o', out') → Run C o' s.next []

/-- The key length byte of the parameter block in force. -/
def Mode.kk : Mode → Nat
  | plain => 0
  | keyed key => key.length
  | stale n => n

/-- The key block in front of the message. -/
def Mode.front (w : Nat) : Mode → List Byte
  | keyed key => pad w key
  | _ => []

variable {C : Core w} {A : Alg w}

theorem initKey_sizes {o o' : Obj w} {key iv info : List Byte} (h : o.initKey C key iv info = .ok o') :
    C.minKey ≤ key.length ∧ key.length ≤ C.maxKey ∧ (iv.length = 0 ∨ iv.length = C.salt) ∧ (info.length = 0 ∨ info.length = C.salt) := by
  rw [Obj.initKey] at h
  split at h
  · cases h
  · rename_i hk
    obtain ⟨cfg, h1, _⟩ := bind_ok h
    refine ⟨by omega, by omega, ?_⟩
    rw [Obj.saltConfig] at h1
    obtain ⟨c, h2, h3⟩ := bind_ok h1
    refine ⟨Classical.byContradiction fun e => ?_, Classical.byContradiction fun e => ?_⟩
    · rw [if_pos (by omega), if_pos (by omega)] at h2; cases h2
    · rw [if_pos (by omega), if_pos (by omega)] at h3; cases h3

theorem finalSeq_state {o : Obj w} {out : List Byte} {oo : Nat} {r : Obj w × List Byte} (h : o.finalSeq C out oo = .ok r) {x : St w} (hd : o.dgt = [x]) (hs : o.buf.length = 2 * w)
    (hl : o.len ≤ 2 * w) (hw : w < 256) : (∃ y, r.1.dgt = [y]) ∧ r.1.buf.length = 2 * w ∧ r.1.par = o.par := by
  rw [Obj.finalSeq] at h
  obtain ⟨buf, h1, h⟩ := bind_ok h
  obtain ⟨s, h2, h⟩ := bind_ok h
  obtain ⟨s', h3, h⟩ := bind_ok h
  obtain ⟨dgt, h4, h⟩ := bind_ok h
  obtain ⟨out', h5, h⟩ := bind_ok h
  cases h
  rw [hd] at h4
  refine ⟨⟨s', ?_⟩, ?_, rfl⟩
  · cases h4; rfl
  · simp only
    rw [hs, Mac.subU_le hl (by omega)] at h1
    split at h1
    · rw [clear] at h1
      split at h1
      · cases h1; exact hs
      · rw [blit_len h1]; exact hs
    · cases h1; exact hs

theorem Run.inv (g : C.Good A) {o : Obj w} {s : Mode} {m : List Byte} (h : Run C o s m) : Inv A o s.kk (s.front w ++ m) := by
  have hnk : ∀ s : Mode, s.next.kk = s.kk := by intro s; cases s <;> rfl
  have hnf : ∀ s : Mode, s.next.front w = [] := by intro s; cases s <;> rfl
  induction h with
  | new min h =>
    obtain ⟨o', h1, h2⟩ := new_ok g min
    rw [h] at h1; cases h1
    exact h2
  | initKey key iv info _ h ih =>
    obtain ⟨a, b, c, d⟩ := initKey_sizes h
    rw [initKey_inv g ih a b c d] at h
    cases h
    rw [Mode.front, List.append_nil]
    exact keyed_inv g b _
  | update x _ h ih =>
    obtain ⟨o', h1, h2⟩ := update_inv g ih x
    rw [h] at h1; cases h1
    rwa [List.append_assoc] at h2
  | reset _ h ih =>
    obtain ⟨hp, hk, ha⟩ := ih
    obtain ⟨o', h1, h2, _⟩ := reset_ok g hk hp _ ha.dgt ha.size
    rw [h] at h1; cases h1
    rw [hnk, hnf]; exact h2
  | final _ h ih =>
    obtain ⟨hp, hk, ha⟩ := ih
    have hfan : ¬ Obj.fan _ > 1 := fun e => absurd (by rw [Obj.fan, hp] at e; exact e) (by decide : ¬ (1 : Byte).toNat > 1)
    rw [Obj.finalize] at h
    split at h
    · cases h
    · obtain ⟨r, hr, h⟩ := bind_ok h
      obtain ⟨o', h4, h⟩ := bind_ok h
      cases h
      obtain ⟨⟨y, e1⟩, e2, e3⟩ := finalSeq_state hr ha.dgt ha.size (ha.len.trans_le ha.le) g.small
      obtain ⟨o', h1, h2, _⟩ := reset_ok g hk (e3.trans hp) y e1 e2
      rw [h4] at h1; cases h1
      rw [hnk, hnf]; exact h2

/-- The digest of the message in the given mode: BLAKE2 without and with key. In the third case the digest is that of the message
without the key block, but with the length of the old key in the parameter block; RFC 7693 has no such hash. -/
def Mode.answer (A : Alg w) : Mode → List Byte → List Byte
  | plain, m => A.blake2 [] m
  | keyed key, m => A.blake2 key m
  | stale n, m => A.digest (counter w) n m

/-- The bytes that run through the compression function. -/
def Mode.total (w : Nat) : Mode → Nat → Nat
  | keyed _, n => 2 * w + n
  | _, n => n

theorem Run.keyed_length (g : C.Good A) {o : Obj w} {s : Mode} {m : List Byte} (h : Run C o s m) : ∀ key, s = .keyed key → 0 < key.length ∧ key.length ≤ w := by
  have hk := g.keys
  have hn : ∀ (s : Mode) key, s.next ≠ .keyed key := by intro s key; cases s <;> (intro e; cases e)
  induction h with
  | new => intro key e; cases e
  | initKey key iv info _ h _ =>
    intro k e; cases e
    obtain ⟨a, b, _⟩ := initKey_sizes h
    omega
  | update x _ h ih => exact ih
  | reset => exact fun key e => absurd e (hn _ _)
  | final => exact fun key e => absurd e (hn _ _)

theorem Run.answer_eq (g : C.Good A) {o : Obj w} {s : Mode} {m : List Byte} (h : Run C o s m) (hl : s.total w m.length < 2 ^ w) :
    A.digest (cnt0 w) s.kk (s.front w ++ m) = s.answer A m := by
  have h0 := g.pos
  cases s with
  | plain => exact digest_cnt A h0 0 m hl
  | stale n => exact digest_cnt A h0 n m hl
  | keyed key =>
    have hk := h.keyed_length g key rfl
    have hne : key ≠ [] := by intro e; rw [e] at hk; exact absurd hk.1 (by decide)
    rw [Mode.answer, Alg.blake2, if_neg hne]
    refine digest_cnt A h0 _ _ ?_
    rw [List.length_append, Mode.front, pad, List.length_append, List.length_replicate]
    rw [Mode.total] at hl
    omega

/-- What C65 says of one class: construction succeeds; in any state a sequential object can be in, `Update` of any window and `Reset`
succeed, `Initialize` succeeds for legal key, nonce and info sizes, and `Finalize` into any place of any buffer writes the digest for the
present mode. -/
def Sequential (C : Core w) (A : Alg w) : Prop :=
  (∀ min, ∃ o, Obj.newSeq C min = .ok o) ∧
  ∀ o s m, Run C o s m →
    (∀ x : Window, ∃ o', o.update C x.buf x.off x.len = .ok o') ∧ (∃ o', o.reset C = .ok o') ∧
    (∀ key iv info : List Byte, C.minKey ≤ key.length → key.length ≤ C.maxKey → (iv.length = 0 ∨ iv.length = C.salt) → (info.length = 0 ∨ info.length = C.salt) →
      ∃ o', o.initKey C key iv info = .ok o') ∧
    (s.total w m.length < 2 ^ w → ∀ pre junk post, junk.length = w → (pre ++ junk ++ post).length < 2 ^ 64 →
      ∃ o', o.finalize C (pre ++ junk ++ post) pre.length = .ok (o', pre ++ s.answer A m ++ post))

theorem sequential (g : C.Good A) : Sequential C A := by
  refine ⟨fun min => ?_, fun o s m h => ⟨fun x => ?_, ?_, fun key iv info a b c d => ⟨_, initKey_inv g (h.inv g) a b c d⟩, fun hl pre junk post hj hs => ?_⟩⟩
  · obtain ⟨o, h, _⟩ := new_ok g min
    exact ⟨o, h⟩
  · obtain ⟨o', h1, _⟩ := update_inv g (h.inv g) x
    exact ⟨o', h1⟩
  · obtain ⟨hp, hk, ha⟩ := h.inv g
    obtain ⟨o', h1, _⟩ := reset_ok g hk hp _ ha.dgt ha.size
    exact ⟨o', h1⟩
  · obtain ⟨o', h1, _⟩ := finalize_inv g (h.inv g) pre junk post hj hs
    rw [h.answer_eq g hl] at h1
    exact ⟨o', h1⟩

/-- BLAKE2s-256 with either compression function, for fewer than `2^32` bytes. The full claim has no such bound; beyond it
`C65_counter` holds instead. -/
theorem C65_blake2s_partial (compact : Bool) : Sequential (core256 compact) alg2s := sequential (core256_good compact)

/-- BLAKE2b-512 with either compression function, for fewer than `2^64` bytes. -/
theorem C65_blake2b_partial (compact : Bool) : Sequential (core512 compact) alg2b := sequential (core512_good compact)

/-- For every length: the digest is computed with a byte counter whose high word is always zero. RFC 7693 has `t / 2^w` there. -/
def ShortCounter (C : Core w) (A : Alg w) : Prop :=
  ∀ o s m, Run C o s m → ∀ pre junk post, junk.length = w → (pre ++ junk ++ post).length < 2 ^ 64 →
    ∃ o', o.finalize C (pre ++ junk ++ post) pre.length =
      .ok (o', pre ++ A.digest (fun t => (BitVec.ofNat w t, 0)) s.kk (s.front w ++ m) ++ post)

theorem C65_counter : (∀ compact, ShortCounter (core256 compact) alg2s) ∧ (∀ compact, ShortCounter (core512 compact) alg2b) := by
  refine ⟨fun compact o s m h pre junk post hj hs => ?_, fun compact o s m h pre junk post hj hs => ?_⟩
  · obtain ⟨o', h1, _⟩ := finalize_inv (core256_good compact) (h.inv (core256_good compact)) pre junk post hj hs
    exact ⟨o', h1⟩
  · obtain ⟨o', h1, _⟩ := finalize_inv (core512_good compact) (h.inv (core512_good compact)) pre junk post hj hs
    exact ⟨o', h1⟩

/-- The sizes that are refused, with the exception code. -/
def Limits (C : Core w) (lo hi sz : Nat) : Prop :=
  ∀ o s m, Run C o s m →
    (∀ key iv info : List Byte, key.length < lo ∨ hi < key.length → o.initKey C key iv info = .error (.throws .invalidKey)) ∧
    (∀ key iv info : List Byte, lo ≤ key.length → key.length ≤ hi → iv.length ≠ 0 → iv.length ≠ sz → o.initKey C key iv info = .error (.throws .invalidNonce)) ∧
    (∀ key iv info : List Byte, lo ≤ key.length → key.length ≤ hi → iv.length = 0 ∨ iv.length = sz → info.length ≠ 0 → info.length ≠ sz →
      o.initKey C key iv info = .error (.throws .invalidInfo)) ∧
    (∀ (out : List Byte) (oo : Nat), oo ≤ out.length → out.length < oo + w → out.length < 2 ^ 64 → o.finalize C out oo = .error (.throws .invalidSize))

theorem limits (g : C.Good A) : Limits C C.minKey C.maxKey C.salt := by
  intro o s m h
  refine ⟨fun key iv info hk => ?_, fun key iv info h1 h2 h3 h4 => ?_, fun key iv info h1 h2 h3 h4 h5 => ?_, fun out oo h1 h2 h3 => ?_⟩
  · rw [Obj.initKey, if_pos (by omega)]; rfl
  · rw [Obj.initKey, if_neg (by omega), Obj.saltConfig, if_pos h3, if_pos h4]; rfl
  · obtain ⟨cfg, e, _⟩ := saltConfig_ok g h3 (info := []) (Or.inl rfl)
    rw [Obj.saltConfig] at e
    obtain ⟨c, e1, _⟩ := bind_ok e
    rw [Obj.initKey, if_neg (by omega), Obj.saltConfig, e1, ok_bind, if_pos h4, if_pos h5]; rfl
  · rw [Obj.finalize, Mac.subU_le h1 h3, if_pos (by omega)]; rfl

/-- Key sizes 16 to 32, salt and info 8 bytes for BLAKE2s; 32 to 64 and 16 bytes for BLAKE2b. -/
theorem C65_limits : (∀ compact, Limits (core256 compact) 16 32 8) ∧ (∀ compact, Limits (core512 compact) 32 64 16) :=
  ⟨fun compact => limits (core256_good compact), fun compact => limits (core512_good compact)⟩

/-- Salt and personalisation do nothing: `Initialize` of an object with a key and any legal salt and info leaves exactly
the object that it leaves without them. RFC 7693 section 2.8 (and the BLAKE2 paper, 2.8) put both into the parameter block. -/
theorem C65_salt_ignored : (∀ compact o s m, Run (core256 compact) o s m → ∀ key iv info : List Byte, 16 ≤ key.length → key.length ≤ 32 → iv.length = 8 → info.length = 8 →
      o.initKey (core256 compact) key iv info = o.initKey (core256 compact) key [] []) ∧
    (∀ compact o s m, Run (core512 compact) o s m → ∀ key iv info : List Byte, 32 ≤ key.length → key.length ≤ 64 → iv.length = 16 → info.length = 16 →
      o.initKey (core512 compact) key iv info = o.initKey (core512 compact) key [] []) := by
  refine ⟨fun compact o s m h key iv info a b c d => ?_, fun compact o s m h key iv info a b c d => ?_⟩
  · rw [initKey_inv (core256_good compact) (h.inv (core256_good compact)) a b (Or.inr c) (Or.inr d),
      initKey_inv (core256_good compact) (h.inv (core256_good compact)) a b (Or.inl rfl) (Or.inl rfl)]
  · rw [initKey_inv (core512_good compact) (h.inv (core512_good compact)) a b (Or.inr c) (Or.inr d),
      initKey_inv (core512_good compact) (h.inv (core512_good compact)) a b (Or.inl rfl) (Or.inl rfl)]

/-- A sequence of `Update` calls. -/
def Obj.updates (C : Core w) (o : Obj w) (ws : List Window) : M (Obj w) := ws.foldlM (fun o x => o.update C x.buf x.off x.len) o

theorem updates_run (g : C.Good A) : ∀ (ws : List Window) (o : Obj w) (s : Mode) (m : List Byte), Run C o s m →
    ∃ o', o.updates C ws = .ok o' ∧ Run C o' s (m ++ (ws.map Window.bytes).flatten)
  | [], o, s, m, h => ⟨o, rfl, by simpa using h⟩
  | x :: ws, o, s, m, h => by
    obtain ⟨o1, h1⟩ := ((sequential g).2 o s m h).1 x
    obtain ⟨o2, h2, h3⟩ := updates_run g ws o1 s _ (.update x h h1)
    refine ⟨o2, ?_, by simpa [List.append_assoc] using h3⟩
    rw [Obj.updates, List.foldlM_cons, h1]
    exact h2

/-- Two ways to cut the same bytes give the same digest, whatever the length and the mode. -/
def Splits (C : Core w) : Prop :=
  ∀ o s m, Run C o s m → ∀ ws vs : List Window, (ws.map Window.bytes).flatten = (vs.map Window.bytes).flatten → ∀ out : List Byte, out.length = w →
    ∃ a b a' b' d, o.updates C ws = .ok a ∧ o.updates C vs = .ok b ∧ a.finalize C out 0 = .ok (a', d) ∧ b.finalize C out 0 = .ok (b', d)

theorem splits (g : C.Good A) : Splits C := by
  intro o s m h ws vs e out hl
  obtain ⟨a, h1, r1⟩ := updates_run g ws o s m h
  obtain ⟨b, h2, r2⟩ := updates_run g vs o s m h
  rw [← e] at r2
  have hw := g.small
  have hs : (([] : List Byte) ++ out ++ []).length < 2 ^ 64 := by simp [hl]; omega
  obtain ⟨a', f1, _⟩ := finalize_inv g (r1.inv g) [] out [] hl hs
  obtain ⟨b', f2, _⟩ := finalize_inv g (r2.inv g) [] out [] hl hs
  simp only [List.nil_append, List.append_nil, List.length_nil] at f1 f2
  exact ⟨a, b, a', b', _, h1, h2, f1, f2⟩

theorem C65_split : (∀ compact, Splits (core256 compact)) ∧ (∀ compact, Splits (core512 compact)) :=
  ⟨fun compact => splits (core256_good compact), fun compact => splits (core512_good compact)⟩

/-! ## The object as an `IDigest` -/

/-- A sequential BLAKE2 object as the digest of a MAC or KDF. -/
def ops (C : Core w) : Digest.DigestOps where
  σ := Obj w
  block := 2 * w
  size := w
  update o := o.update C
  finalize o := o.finalize C
  reset o := o.reset C

theorem digest_length (g : C.Good A) (cnt : Nat → BitVec w × BitVec w) (kk : Nat) (d : List Byte) : (A.digest cnt kk d).length = w := by
  have h8 := g.h8
  rw [Alg.digest, bytes, List.length_flatMap]
  have : ∀ l : List (BitVec w), (l.map fun x => (leEnc (w / 8) x.toNat).length).sum = l.length * (w / 8) := by
    intro l
    induction l with
    | nil => simp
    | cons a l ih => rw [List.map_cons, List.sum_cons, ih, leEnc_length, List.length_cons, Nat.succ_mul, Nat.add_comm]
  rw [this, List.length_ofFn]
  omega

/-- An object that was never keyed is a streaming form of BLAKE2, so the theorems on HMAC, HKDF, PBKDF2, KDF2 and the generators
apply to it. -/
theorem hashes (g : C.Good A) : (ops C).Hashes (A.blake2 []) (fun n => n < 2 ^ w) (fun o m => Run C o .plain m) where
  size m := digest_length g _ _ _
  size_le := by show w ≤ 2 * w; omega
  block_lt := by show 2 * w < 2 ^ 64; have := g.small; omega
  update h x := by
    obtain ⟨o', h1⟩ := ((sequential g).2 _ _ _ h).1 x
    exact ⟨o', h1, .update x h h1⟩
  reset h := by
    obtain ⟨o', h1⟩ := ((sequential g).2 _ _ _ h).2.1
    exact ⟨o', h1, .reset h h1⟩
  finalize h hm pre junk post hj hs := by
    obtain ⟨o', h1⟩ := ((sequential g).2 _ _ _ h).2.2.2 hm pre junk post hj hs
    exact ⟨o', h1, .final h h1⟩

theorem C65_digest_interface : (∀ compact, (ops (core256 compact)).Hashes (alg2s.blake2 []) (fun n => n < 2 ^ 32) (fun o m => Run (core256 compact) o .plain m)) ∧
    (∀ compact, (ops (core512 compact)).Hashes (alg2b.blake2 []) (fun n => n < 2 ^ 64) (fun o m => Run (core512 compact) o .plain m)) :=
  ⟨fun compact => hashes (core256_good compact), fun compact => hashes (core512_good compact)⟩

end Cex.Blake
