import Verif.SCipher.AuthMac

/-!
# The authenticated stream ciphers: property theorems (C52)
-/

namespace Cex.SCipher
open Cex Cex.IntTools Cex.Mac Cex.Modes Cex.Keccak Stream SCipher.Spec

variable {P : List Byte → M (List Byte)} {f : List Byte → List Byte} {A : MacOps} {κ : Type}

/-! ## Two ends -/

/-- Sender and receiver after the same associated data and messages, each message received as it was sent.
Both start in `s0`. `Ok E c oo n` are the calls of the keystream engine considered: builds, profiles,
schedules. The two ends may differ in these, in the arrays and in the offsets. -/
inductive Talk (F : Fmt κ) (Ok : Engine κ → κ → Nat → Nat → Prop) (s0 : Auth A κ) : Auth A κ → Auth A κ → Prop
  | start : Talk F Ok s0 s0 s0
  | aad {s r s' r'} (w v : Window) : Talk F Ok s0 s r → w.bytes = v.bytes → Auth.setAad F s w.buf w.off w.len = .ok s' →
      Auth.setAad F r v.buf v.off v.len = .ok r' → Talk F Ok s0 s' r'
  | msg {s r s' r' E D inp msg io oo pre junk tjunk post ct tg inp' io' oo' out' res} : Talk F Ok s0 s r →
      Holds inp io msg → Ok E s.nonce oo msg.length → pre.length = oo → junk.length = msg.length → tjunk.length = A.tag →
      (pre ++ junk ++ tjunk ++ post).length < 2 ^ 64 → ct.length = msg.length →
      Auth.encrypt F E s inp io (pre ++ junk ++ tjunk ++ post) oo msg.length = .ok (s', pre ++ ct ++ tg ++ post) →
      Holds inp' io' (ct ++ tg) → inp'.length < 2 ^ 64 → Ok D r.nonce oo' msg.length → oo' + msg.length ≤ out'.length →
      Auth.decrypt F D r inp' io' out' oo' msg.length = .ok (r', some res) → Talk F Ok s0 s' r'

theorem append_inj3 {a b c d x y z w : List Byte} (h : a ++ b ++ c ++ d = x ++ y ++ z ++ w) (h1 : a.length = x.length) (h2 : b.length = y.length)
    (h3 : c.length = z.length) : b = y ∧ c = z := by
  simp only [List.append_assoc] at h
  obtain ⟨_, h⟩ := List.append_inj h h1
  obtain ⟨hb, h⟩ := List.append_inj h h2
  exact ⟨hb, (List.append_inj h h3).1⟩

section Generic
variable {F : Fmt κ} {K : Chain A} {Ok : Engine κ → κ → Nat → Nat → Prop} {ks : κ → Nat → List Byte} {next : κ → Nat → κ}

theorem Auth.tagOf_len (g : K.Good) (hF : F.Fits) {s : Auth A κ} {c : κ} {t : K.τ} {n : BitVec 64} (i : Auth.Is K s c t n) (ct : List Byte) (hl : ct.length < 2 ^ 64) :
    (Auth.tagOf F K t c n ct).length = A.tag := by
  obtain ⟨m1, _, k1⟩ := g.updates (F.pos c) i.mac (hF.1 c)
  obtain ⟨m2, _, k2⟩ := g.update_at k1 _ ct 0 _ (Holds.self _) rfl hl
  obtain ⟨m3, _, k3⟩ := g.update_at k2 _ (F.fin (n + BitVec.ofNat 64 ct.length)) 0 _ (Holds.self _) rfl (hF.2 _)
  rw [g.append, g.append, ← List.append_assoc] at k3
  exact g.size k3

/-- The two ends agree. -/
theorem Talk.agree (g : K.Good) (hF : F.Fits) (hOk : ∀ E c oo n, Ok E c oo n → Does E c oo n (ks c n) (next c n)) {s0 : Auth A κ}
    {c0 : κ} {t0 : K.τ} {n0 : BitVec 64} (h0 : Auth.Is K s0 c0 t0 n0) {s r : Auth A κ} (h : Talk F Ok s0 s r) :
    ∃ c t n, Auth.Is K s c t n ∧ Auth.Is K r c t n := by
  induction h with
  | start => exact ⟨_, _, _, h0, h0⟩
  | @aad s r s' r' w v _ hb e1 e2 ih =>
    obtain ⟨c, t, n, i1, i2⟩ := ih
    have hl : w.len = v.len := by rw [← w.bytes_length, ← v.bytes_length, hb]
    have hw : F.coded = true → w.len ≠ 0 := by
      intro hc hz
      rw [Auth.setAad, if_pos ⟨hc, hz⟩] at e1
      cases e1
    obtain ⟨s1, g1, j1⟩ := Auth.setAad_ok (F := F) g i1 w hw
    obtain ⟨r1, g2, j2⟩ := Auth.setAad_ok (F := F) g i2 v (by rw [← hl]; exact hw)
    rw [e1] at g1; cases g1
    rw [e2] at g2; cases g2
    rw [← hb, ← hl] at j2
    exact ⟨_, _, _, j1, j2⟩
  | @msg s r s' r' E D inp msg io oo pre junk tjunk post ct tg inp' io' oo' out' res _ hin hE hp hj ht hl hct e1 hin' hl' hD ho e2 ih =>
    obtain ⟨c, t, n, i1, i2⟩ := ih
    rw [i1.nonce] at hE
    rw [i2.nonce] at hD
    have dE := hOk _ _ _ _ hE
    have dD := hOk _ _ _ _ hD
    obtain ⟨s1, g1, j1⟩ := Auth.encrypt_ok g hF i1 dE hin pre junk tjunk post hp hj ht hl
    rw [e1] at g1
    have hcl : (xorBytes (ks c msg.length) msg).length = msg.length := by rw [xorBytes_length, dE.1, Nat.min_self]
    have htl := Auth.tagOf_len g hF i1 (xorBytes (ks c msg.length) msg) (by rw [hcl]; simp only [List.length_append] at hl; omega)
    have hpair := Except.ok.inj g1
    have hs' : s' = s1 := congrArg Prod.fst hpair
    have hout : pre ++ ct ++ tg ++ post = _ := congrArg Prod.snd hpair
    subst hs'
    have htgl : tg.length = A.tag := by
      have := congrArg List.length hout
      simp only [List.length_append, hcl, htl, hct] at this
      omega
    obtain ⟨rfl, rfl⟩ := append_inj3 hout rfl (by omega) (by omega)
    obtain ⟨d1, d2⟩ := Auth.decrypt_ok (E := D) g hF i2 hin' htl hl' out' oo'
    rw [hcl] at d2
    obtain ⟨r1, g2, j2⟩ := d2 rfl _ _ dD (out'.take oo') ((out'.drop oo').take msg.length) (out'.drop (oo' + msg.length))
      (by rw [List.append_assoc, ← List.drop_drop, List.take_append_drop, List.take_append_drop]) (by rw [List.length_take]; omega)
      (by rw [List.length_take, List.length_drop]; omega)
    rw [e2] at g2
    have hr' : r' = r1 := congrArg Prod.fst (Except.ok.inj g2)
    subst hr'
    exact ⟨_, _, _, j1, j2⟩

/-- What holds after every such exchange: associated data are taken, a message is encrypted, and the
receiver gets it back from any array that holds the ciphertext and its tag. -/
theorem Talk.serves (g : K.Good) (hF : F.Fits) (hOk : ∀ E c oo n, Ok E c oo n → Does E c oo n (ks c n) (next c n)) {s0 : Auth A κ}
    {c0 : κ} {t0 : K.τ} {n0 : BitVec 64} (h0 : Auth.Is K s0 c0 t0 n0) {s r : Auth A κ} (h : Talk F Ok s0 s r) :
    (∀ w : Window, (F.coded = true → w.len ≠ 0) → (∃ s', Auth.setAad F s w.buf w.off w.len = .ok s') ∧ ∃ r', Auth.setAad F r w.buf w.off w.len = .ok r') ∧
    s.nonce = r.nonce ∧
    ∀ (E : Engine κ) (inp msg : List Byte) (io oo : Nat) (pre junk tjunk post : List Byte), Ok E s.nonce oo msg.length → Holds inp io msg →
      pre.length = oo → junk.length = msg.length → tjunk.length = A.tag → (pre ++ junk ++ tjunk ++ post).length < 2 ^ 64 →
    ∃ s' tg, tg.length = A.tag ∧
      Auth.encrypt F E s inp io (pre ++ junk ++ tjunk ++ post) oo msg.length = .ok (s', pre ++ xorBytes (ks s.nonce msg.length) msg ++ tg ++ post) ∧
    ∀ (D : Engine κ) (inp' : List Byte) (io' oo' : Nat) (pre' junk' post' : List Byte), Ok D r.nonce oo' msg.length →
      Holds inp' io' (xorBytes (ks s.nonce msg.length) msg ++ tg) → inp'.length < 2 ^ 64 → pre'.length = oo' → junk'.length = msg.length →
    ∃ r', Auth.decrypt F D r inp' io' (pre' ++ junk' ++ post') oo' msg.length = .ok (r', some (pre' ++ msg ++ post')) := by
  obtain ⟨c, t, n, i1, i2⟩ := h.agree g hF hOk h0
  refine ⟨fun w hw => ?_, by rw [i1.nonce, i2.nonce], ?_⟩
  · obtain ⟨s1, g1, _⟩ := Auth.setAad_ok (F := F) g i1 w hw
    obtain ⟨r1, g2, _⟩ := Auth.setAad_ok (F := F) g i2 w hw
    exact ⟨⟨s1, g1⟩, r1, g2⟩
  · intro E inp msg io oo pre junk tjunk post hE hin hp hj ht hl
    rw [i1.nonce] at hE
    have dE := hOk _ _ _ _ hE
    obtain ⟨s1, g1, _⟩ := Auth.encrypt_ok g hF i1 dE hin pre junk tjunk post hp hj ht hl
    have hcl : (xorBytes (ks c msg.length) msg).length = msg.length := by rw [xorBytes_length, dE.1, Nat.min_self]
    have htl := Auth.tagOf_len g hF i1 (xorBytes (ks c msg.length) msg) (by rw [hcl]; simp only [List.length_append] at hl; omega)
    refine ⟨s1, _, htl, by rw [i1.nonce]; exact g1, ?_⟩
    intro D inp' io' oo' pre' junk' post' hD hin' hl' hp' hj'
    rw [i2.nonce] at hD
    have dD := hOk _ _ _ _ hD
    rw [i1.nonce] at hin'
    obtain ⟨_, d2⟩ := Auth.decrypt_ok (E := D) g hF i2 hin' htl hl' (pre' ++ junk' ++ post') oo'
    rw [hcl] at d2
    obtain ⟨r1, g2, _⟩ := d2 rfl _ _ dD pre' junk' post' rfl hp' hj'
    rw [xorBytes_cancel dD.1] at g2
    exact ⟨r1, g2⟩

end Generic

/-! ## ChaChaP20 and CSX512 -/

/-- The ChaCha20 keystream from block `n` on; `info` replaces the constant. -/
def chachaStream (key nonce info : List Byte) (n len : Nat) : List Byte :=
  keystream (fun j => if info = [] then chacha20 key nonce (n + j) else chacha20With info key nonce (n + j)) 64 len

/-- The CSX512 keystream for the nonce with value `n`. -/
def csxStream (r : Nat) (key info : List Byte) (n len : Nat) : List Byte :=
  keystream (fun j => csx512 r (csxCodeOf info) key (leEnc 16 n) j) 128 len

/-- Calls of ChaChaP20's `Process` for every build, sound profile and fair schedule; in parallel only with
offset 0 (`C50_offset_leak`) and less than `2^38` bytes. -/
def ChachaOk (st : Nat → BitVec 32) (E : Engine (BitVec 32 × BitVec 32)) (_ : BitVec 32 × BitVec 32) (oo n : Nat) : Prop :=
  ∃ (compact : Bool) (u : Simd) (p : Prof) (sched : List Nat), E = process (chachaCore compact u st) .csx u.w32 p sched ∧ p.Sound 64 ∧
    WholeFair p 64 u.w32 n sched ∧ (p.isParallel = true → oo = 0 ∧ n / 64 < 2 ^ 32)

/-- Likewise for CSX512. -/
def CsxOk (r : Nat) (st : Nat → BitVec 64) (E : Engine (BitVec 64 × BitVec 64)) (_ : BitVec 64 × BitVec 64) (oo n : Nat) : Prop :=
  ∃ (u : Simd) (p : Prof) (sched : List Nat), E = process (csxCore r u st) .csx u.w64 p sched ∧ p.Sound 128 ∧
    WholeFair p 128 u.w64 n sched ∧ (p.isParallel = true → oo = 0 ∧ n / 128 < 2 ^ 64)

theorem chacha_does {key nonce info : List Byte} (hk : key.length = 32) (hn : nonce.length = 8) (hi : info = [] ∨ info.length = 16)
    {st : Nat → BitVec 32} {c0} (h : chachaInit key nonce info = .ok (st, c0)) (E c oo n) (hE : ChachaOk st E c oo n) :
    Does E c oo n (chachaStream key nonce info (pairVal c) n) (pairCnt c (blocksFor 64 n)) := by
  obtain ⟨compact, u, p, sched, rfl, hs, hf, hp⟩ := hE
  obtain ⟨st', h1, h3⟩ := C51_chacha20 hk hn hi
  rw [h] at h1
  cases h1
  have hks : keystream (fun j => (chachaCore compact u st).block (pairCnt c j)) 64 n = chachaStream key nonce info (pairVal c) n := by
    rw [chachaStream]
    exact congrArg (fun f => keystream f 64 n) (funext fun j => (h3 compact u).1 (pairVal c + j))
  refine ⟨?_, ?_⟩
  · rw [← hks]; exact keystream_length (chachaLaws compact u st) trivial n
  · rintro inp msg io pre junk post hin rfl hpl hj
    rw [← hks]
    exact process_csx_ok (chachaLaws compact u st) u.w32 p hs trivial inp msg io oo hin pre junk post hpl hj sched hf
      (fun h => ⟨(hp h).1, whole_fits (C := chachaCore compact u st) (hp h).2⟩)

theorem leEnc_shift (k v j : Nat) : leEnc k (leVal (leEnc k v) + j) = leEnc k (v + j) := by
  rw [leVal_leEnc, ← leEnc_mod, Nat.mod_add_mod, leEnc_mod]

theorem csx_does (r : Nat) {key nonce info : List Byte} (hk : key.length = 64) (hn : nonce.length = 16)
    {st : Nat → BitVec 64} {c0} (h : csxInit key nonce info = .ok (st, c0)) (E c oo n) (hE : CsxOk r st E c oo n) :
    Does E c oo n (csxStream r key info (pairVal c) n) (pairCnt c (blocksFor 128 n)) := by
  obtain ⟨u, p, sched, rfl, hs, hf, hp⟩ := hE
  obtain ⟨st', c', h1, h2, h3⟩ := csxInit_ok info hk hn
  rw [h] at h1
  cases h1
  have hb : ∀ j, (csxCore r u st).block (pairCnt c j) = csx512 r (csxCodeOf info) key (leEnc 16 (pairVal c)) j := fun j => by
    have e : (csxCore r u st).block (pairCnt c j) =
      storeWords 8 (specWords csxRots r (start st (pairCnt c j).1 (pairCnt c j).2)) := p1024C_spec r st _
    rw [e, store_spec (k := 8) csxRots r _ _ (h3 (pairCnt c j)), csx512, leEnc_shift]
    have e8 : leEnc 16 (pairVal (pairCnt c j)) = leEnc 16 (pairVal c + j) := leEnc_pairOf (k := 8) _
    rw [e8]
  have hks : keystream (fun j => (csxCore r u st).block (pairCnt c j)) 128 n = csxStream r key info (pairVal c) n := by
    rw [csxStream]
    exact congrArg (fun f => keystream f 128 n) (funext hb)
  refine ⟨?_, ?_⟩
  · rw [← hks]; exact keystream_length (csxLaws r u st) trivial n
  · rintro inp msg io pre junk post hin rfl hpl hj
    rw [← hks]
    exact process_csx_ok (csxLaws r u st) u.w64 p hs trivial inp msg io oo hin pre junk post hpl hj sched hf
      (fun h => ⟨(hp h).1, whole_fits (C := csxCore r u st) (hp h).2⟩)

theorem leRep_lt (k : Nat) {w : Nat} (x : BitVec w) (hk : k < 2 ^ 64) : (leRep k x).length < 2 ^ 64 := by rw [leRep_length]; exact hk

theorem chachaFmt_fits : chachaFmt.Fits := by
  refine ⟨fun c x hx => ?_, fun n => leRep_lt 8 n (by decide)⟩
  simp only [chachaFmt, List.mem_cons, List.not_mem_nil, or_false] at hx
  rcases hx with rfl | rfl <;> exact leRep_lt 4 _ (by decide)

theorem csxFmt_fits : csxFmt.Fits := by
  refine ⟨fun c x hx => ?_, fun n => leRep_lt 8 n (by decide)⟩
  simp only [csxFmt, List.mem_cons, List.not_mem_nil, or_false] at hx
  rcases hx with rfl | rfl <;> exact leRep_lt 8 _ (by decide)

theorem kmacOps_tag {tag : Nat} : (kmacOps P tag).tag = tag := rfl

/-- C52 for ChaChaP20 with KMAC256: after every exchange in step, associated data are accepted, a message is
encrypted to the message XOR the ChaCha20 keystream (of the derived key, at the current block) and a 32-byte
tag, and the other end gets exactly the message back. For every key, nonce, code, build, parallel profile and
schedule, which may differ on the two ends. Full property: for every `OutOffset`. Missing, because false:
parallel processing at a non-zero offset (`C50_offset_leak`) and `2^38` bytes in one parallel call. -/
theorem C52_chacha_partial (p : Perm P f) {key nonce info : List Byte} (hk : key.length = 32) (hn : nonce.length = 8) (hi : info = [] ∨ info.length = 16) :
    ∃ st s0, chachaAuthInit P key nonce info = .ok (st, s0) ∧ ∀ s r, Talk chachaFmt (ChachaOk st) s0 s r →
    (∀ w : Window, (∃ s', Auth.setAad chachaFmt s w.buf w.off w.len = .ok s') ∧ ∃ r', Auth.setAad chachaFmt r w.buf w.off w.len = .ok r') ∧
    s.nonce = r.nonce ∧
    ∀ (E : Engine (BitVec 32 × BitVec 32)) (inp msg : List Byte) (io oo : Nat) (pre junk tjunk post : List Byte), ChachaOk st E s.nonce oo msg.length → Holds inp io msg →
      pre.length = oo → junk.length = msg.length → tjunk.length = 32 → (pre ++ junk ++ tjunk ++ post).length < 2 ^ 64 →
    ∃ s' ct tg, ct = xorBytes (chachaStream (subKeys f 136 32 key chachaName).1 nonce info (pairVal s.nonce) msg.length) msg ∧ tg.length = 32 ∧
      Auth.encrypt chachaFmt E s inp io (pre ++ junk ++ tjunk ++ post) oo msg.length = .ok (s', pre ++ ct ++ tg ++ post) ∧
    ∀ (D : Engine (BitVec 32 × BitVec 32)) (inp' : List Byte) (io' oo' : Nat) (pre' junk' post' : List Byte), ChachaOk st D r.nonce oo' msg.length →
      Holds inp' io' (ct ++ tg) → inp'.length < 2 ^ 64 → pre'.length = oo' → junk'.length = msg.length →
    ∃ r', Auth.decrypt chachaFmt D r inp' io' (pre' ++ junk' ++ post') oo' msg.length = .ok (r', some (pre' ++ msg ++ post')) := by
  obtain ⟨st, s0, h1, h2, h3⟩ := chachaAuthInit_ok p hk hn hi
  have hl := (deriveKeys_ok p (r := 136) (n := 32) (by omega) (by omega) (by omega) (by omega) (by omega) (by omega : 4 ≤ key.length) chacha_fits (by decide)).2.1
  refine ⟨st, s0, h1, fun s r ht => ?_⟩
  obtain ⟨g1, g2, g3⟩ := ht.serves (kmacChain_good p (show Mode 136 32 by simp [Mode])) chachaFmt_fits (chacha_does hl hn hi h2) h3
  refine ⟨fun w => g1 w (by intro e; cases e), g2, ?_⟩
  intro E inp msg io oo pre junk tjunk post a1 a2 a3 a4 a5 a6
  obtain ⟨s', tg, b1, b2, b3⟩ := g3 E inp msg io oo pre junk tjunk post a1 a2 a3 a4 a5 a6
  exact ⟨s', _, tg, rfl, b1, b2, b3⟩

/-- C52 for CSX512 with KMAC512, likewise; `r` is half the number of rounds. Empty associated data are
refused. -/
theorem C52_csx_partial (p : Perm P f) (rd : Nat) {key nonce info : List Byte} (hk : key.length = 64) (hn : nonce.length = 16) :
    ∃ st s0, csxAuthInit P key nonce info = .ok (st, s0) ∧ ∀ s r, Talk csxFmt (CsxOk rd st) s0 s r →
    (∀ w : Window, w.len ≠ 0 → (∃ s', Auth.setAad csxFmt s w.buf w.off w.len = .ok s') ∧ ∃ r', Auth.setAad csxFmt r w.buf w.off w.len = .ok r') ∧
    s.nonce = r.nonce ∧
    ∀ (E : Engine (BitVec 64 × BitVec 64)) (inp msg : List Byte) (io oo : Nat) (pre junk tjunk post : List Byte), CsxOk rd st E s.nonce oo msg.length → Holds inp io msg →
      pre.length = oo → junk.length = msg.length → tjunk.length = 64 → (pre ++ junk ++ tjunk ++ post).length < 2 ^ 64 →
    ∃ s' ct tg, ct = xorBytes (csxStream rd (subKeys f 72 64 key csxName).1 info (pairVal s.nonce) msg.length) msg ∧ tg.length = 64 ∧
      Auth.encrypt csxFmt E s inp io (pre ++ junk ++ tjunk ++ post) oo msg.length = .ok (s', pre ++ ct ++ tg ++ post) ∧
    ∀ (D : Engine (BitVec 64 × BitVec 64)) (inp' : List Byte) (io' oo' : Nat) (pre' junk' post' : List Byte), CsxOk rd st D r.nonce oo' msg.length →
      Holds inp' io' (ct ++ tg) → inp'.length < 2 ^ 64 → pre'.length = oo' → junk'.length = msg.length →
    ∃ r', Auth.decrypt csxFmt D r inp' io' (pre' ++ junk' ++ post') oo' msg.length = .ok (r', some (pre' ++ msg ++ post')) := by
  obtain ⟨st, c0, s0, h1, h2, h3⟩ := csxAuthInit_ok p (info := info) hk hn
  have hl := (deriveKeys_ok p (r := 72) (n := 64) (by omega) (by omega) (by omega) (by omega) (by omega) (by omega : 4 ≤ key.length) csx_fits (by decide)).2.1
  refine ⟨st, s0, h1, fun s r ht => ?_⟩
  obtain ⟨g1, g2, g3⟩ := ht.serves (kmacChain_good p (show Mode 72 64 by simp [Mode])) csxFmt_fits (csx_does rd hl hn h2) h3
  refine ⟨fun w hw => g1 w (fun _ => hw), g2, ?_⟩
  intro E inp msg io oo pre junk tjunk post a1 a2 a3 a4 a5 a6
  obtain ⟨s', tg, b1, b2, b3⟩ := g3 E inp msg io oo pre junk tjunk post a1 a2 a3 a4 a5 a6
  exact ⟨s', _, tg, rfl, b1, b2, b3⟩

end Cex.SCipher
