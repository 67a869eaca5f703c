import Verif.SCipher.Model
import Verif.SCipher.Spec
import Verif.Modes.Counter

/-! # The keystream engine computes the keystream -/

namespace Cex.SCipher
open Cex Cex.Par Cex.IntTools Cex.Modes Cex.SCipher.Spec

/-- What the engine needs to know about a cipher: `cnt c j` is the counter `j` blocks after `c`; `fits c n`
says that the offset computation of a task is right. -/
structure Laws (C : Core) (Valid : C.κ → Prop) (cnt : C.κ → Nat → C.κ) (fits : C.κ → Nat → Prop) : Prop where
  pos : 0 < C.B
  valid : ∀ {c}, Valid c → ∀ j, Valid (cnt c j)
  zero : ∀ {c}, Valid c → cnt c 0 = c
  add : ∀ {c}, Valid c → ∀ i j, cnt (cnt c i) j = cnt c (i + j)
  inc : ∀ {c}, Valid c → C.inc c = .ok (cnt c 1)
  jump : ∀ {c n}, Valid c → fits c n → C.jump c n = .ok (cnt c n)
  len : ∀ {c}, Valid c → (C.block c).length = C.B
  wide : ∀ cs, (∀ c ∈ cs, Valid c) → C.wide cs = (cs.map C.block).flatten

theorem blocksFor_mul {B : Nat} (hB : 0 < B) (n : Nat) : blocksFor B (n * B) = n := by
  rw [blocksFor, Nat.add_comm, Nat.add_mul_div_right _ _ hB, Nat.div_eq_of_lt (by omega), Nat.zero_add]

theorem blocksFor_add {B : Nat} (hB : 0 < B) (n r : Nat) : blocksFor B (n * B + r) = n + blocksFor B r := by
  rw [blocksFor, blocksFor, Nat.add_assoc, Nat.add_comm, Nat.add_mul_div_right _ _ hB, Nat.add_comm]

theorem blocksFor_small {B r : Nat} (hr : r ≠ 0) (h : r < B) : blocksFor B r = 1 := by
  rw [blocksFor, Nat.div_eq_of_lt_le (k := 1) (by omega) (by omega)]

theorem le_blocksFor {B : Nat} (hB : 0 < B) (len : Nat) : len ≤ blocksFor B len * B := by
  have h1 := Nat.div_add_mod (len + (B - 1)) B
  have h2 := Nat.mod_lt (len + (B - 1)) hB
  rw [blocksFor, Nat.mul_comm]
  omega

variable {C : Core} {Valid : C.κ → Prop} {cnt : C.κ → Nat → C.κ} {fits : C.κ → Nat → Prop}

theorem gather_ok (L : Laws C Valid cnt fits) (W : Nat) {c : C.κ} (h : Valid c) :
    gather C W c = .ok (cnt c W, (List.range W).map (cnt c)) := by
  obtain ⟨s, h1, h2⟩ := loopN_inv (f := fun _ (s : C.κ × List C.κ) => do
      let c ← C.inc s.1
      return (c, s.2 ++ [s.1]))
    (fun j s => s = (cnt c j, (List.range j).map (cnt c))) W 0 (c, [])
    (by
      rintro j s _ hj rfl
      exact ⟨(cnt (cnt c j) 1, (List.range j).map (cnt c) ++ [cnt c j]), by simp only [L.inc (L.valid h j), ok_bind, pure_eq_ok],
        by simp [L.add h, List.range_succ]⟩)
    (by simp [L.zero h])
  rw [gather, h1, h2, Nat.zero_add]

/-- Keystream of whole blocks. -/
def ksb (C : Core) (cnt : C.κ → Nat → C.κ) (c : C.κ) (n : Nat) : List Byte :=
  ((List.range n).map (fun j => C.block (cnt c j))).flatten

theorem ksb_length (L : Laws C Valid cnt fits) {c : C.κ} (h : Valid c) (n : Nat) : (ksb C cnt c n).length = n * C.B := by
  have hb : Blocks C.B ((List.range n).map (fun j => C.block (cnt c j))) := by
    intro x hx; obtain ⟨i, _, rfl⟩ := List.mem_map.mp hx; exact L.len (L.valid h i)
  rw [ksb, hb.length]; simp

theorem ksb_add (L : Laws C Valid cnt fits) {c : C.κ} (h : Valid c) (a b : Nat) :
    ksb C cnt c (a + b) = ksb C cnt c a ++ ksb C cnt (cnt c a) b := by
  simp only [ksb, L.add h, List.range_add, List.map_append, List.flatten_append, List.map_map]
  rfl

theorem keystream_eq (c : C.κ) (len : Nat) :
    keystream (fun j => C.block (cnt c j)) C.B len = (ksb C cnt c (blocksFor C.B len)).take len := by
  simp [keystream, ksb, List.flatMap]

theorem keystream_blocks (L : Laws C Valid cnt fits) {c : C.κ} (h : Valid c) (n : Nat) :
    keystream (fun j => C.block (cnt c j)) C.B (n * C.B) = ksb C cnt c n := by
  rw [keystream_eq, blocksFor_mul L.pos]
  exact List.take_of_length_le (by rw [ksb_length L h]; exact Nat.le_refl _)

theorem keystream_split (L : Laws C Valid cnt fits) {c : C.κ} (h : Valid c) (n r : Nat) :
    keystream (fun j => C.block (cnt c j)) C.B (n * C.B + r) =
      ksb C cnt c n ++ keystream (fun j => C.block (cnt (cnt c n) j)) C.B r := by
  have hl := ksb_length L h n
  rw [keystream_eq, keystream_eq, blocksFor_add L.pos, ksb_add L h, List.take_append, hl, List.take_of_length_le (by omega)]
  congr 2
  omega

theorem keystream_length (L : Laws C Valid cnt fits) {c : C.κ} (h : Valid c) (len : Nat) :
    (keystream (fun j => C.block (cnt c j)) C.B len).length = len := by
  rw [keystream_eq, List.length_take, ksb_length L h]
  have := le_blocksFor L.pos len
  omega

theorem ksb_run (L : Laws C Valid cnt fits) (M : Nat) {c : C.κ} (h : Valid c) :
    ∀ n, runBlocks (fun c (_ : Unit) => (cnt c M, ksb C cnt c M)) c (List.replicate n ()) =
      (cnt c (n * M), (List.range n).map (fun j => ksb C cnt (cnt c (j * M)) M)) := by
  intro n
  induction n with
  | zero => simp [runBlocks, L.zero h]
  | succ n ih =>
    rw [List.replicate_succ', runBlocks_append, ih]
    simp only [runBlocks, L.add h, List.range_succ, List.map_append, List.map_cons, List.map_nil, Nat.succ_mul]

theorem ksb_flat (L : Laws C Valid cnt fits) (M : Nat) {c : C.κ} (h : Valid c) (n : Nat) :
    ((List.range n).map (fun j => ksb C cnt (cnt c (j * M)) M)).flatten = ksb C cnt c (n * M) := by
  induction n with
  | zero => simp [ksb]
  | succ n ih => rw [List.range_succ, List.map_append, List.flatten_append, ih, Nat.succ_mul, ksb_add L h]; simp

theorem gen_runs (L : Laws C Valid cnt fits) (W oo len : Nat) {c : C.κ} (hc : Valid c) (w : List Byte) (hw : w.length = len) :
    Runs oo (genActs C W oo len) c w (cnt c (blocksFor C.B len)) (keystream (fun j => C.block (cnt c j)) C.B len) := by
  rw [genActs]
  generalize hg : (if W ≠ 0 ∧ C.B * W ≤ len then len / (C.B * W) else 0) = g
  have hB := L.pos
  have hcomm : g * (C.B * W) = g * W * C.B := by rw [Nat.mul_assoc, Nat.mul_comm W]
  have hgW : g * (C.B * W) ≤ len := by
    rw [← hg]; split
    · exact Nat.div_mul_le_self _ _
    · simp
  have hgW' : g * W * C.B ≤ len := by rw [← hcomm]; exact hgW
  have hn : g * W ≤ len / C.B := by rw [Nat.le_div_iff_mul_le hB]; exact hgW'
  have hdm : len / C.B * C.B + len % C.B = len := by rw [Nat.mul_comm]; exact Nat.div_add_mod len C.B
  have hml := Nat.mod_lt len hB
  -- wide groups
  have hl1 : (w.take (g * (C.B * W))).length = g * (C.B * W) := by rw [List.length_take, hw]; omega
  have r1 := (blockRuns0 (fun c (_ : Unit) => (cnt c W, ksb C cnt c W)) Valid (C.B * W) oo
    (fun j ctr out => do
      let s ← gather C W ctr
      let out ← blit out (oo + j * (C.B * W)) (C.wide s.2)
      return (s.1, out)) (List.replicate g ()) c (w.take (g * (C.B * W))) (by rw [hl1]; simp) hc
    (fun j b l _ hl => by
      refine ⟨L.valid hl W, by rw [ksb_length L hl, Nat.mul_comm], ?_⟩
      intro a old q ha hold
      have hwd : C.wide ((List.range W).map (cnt l)) = ksb C cnt l W := by
        rw [L.wide _ (by intro x hx; obtain ⟨i, _, rfl⟩ := List.mem_map.mp hx; exact L.valid hl i), ksb, List.map_map]
        rfl
      simp only [gather_ok L W hl, ok_bind, hwd]
      rw [blit_at ha.symm (by rw [hold, ksb_length L hl, Nat.mul_comm])]
      rfl)).1
  rw [List.length_replicate, ksb_run L W hc] at r1
  simp only [ksb_flat L W hc] at r1
  have r1' := r1.widen [] (w.drop (g * (C.B * W))) oo rfl
  simp only [List.nil_append, List.take_append_drop] at r1'
  -- single blocks
  have hl2 : ((w.drop (g * (C.B * W))).take ((len / C.B - g * W) * C.B)).length = (len / C.B - g * W) * C.B := by
    rw [List.length_take, List.length_drop, hw, Nat.sub_mul, hcomm]; omega
  have hc1 : Valid (cnt c (g * W)) := L.valid hc _
  have r2 := (blockRuns (fun c (_ : Unit) => (cnt c 1, ksb C cnt c 1)) Valid C.B oo
    (fun j ctr out => do
      let out ← blit out (oo + j * C.B) (C.block ctr)
      let ctr ← C.inc ctr
      return (ctr, out)) (List.replicate (len / C.B - g * W) ()) (g * W) (cnt c (g * W)) (ksb C cnt c (g * W))
      ((w.drop (g * (C.B * W))).take ((len / C.B - g * W) * C.B)) (ksb_length L hc _) (by rw [hl2]; simp) hc1
    (fun j b l _ hl => by
      refine ⟨L.valid hl 1, by rw [ksb_length L hl, Nat.one_mul], ?_⟩
      intro a old q ha hold
      have hk1 : ksb C cnt l 1 = C.block l := by simp [ksb, L.zero hl]
      rw [hk1, blit_at ha.symm (by rw [hold, L.len hl])]
      simp only [ok_bind, L.inc hl, pure_eq_ok])).1
  rw [List.length_replicate, ksb_run L 1 hc1] at r2
  simp only [ksb_flat L 1 hc1] at r2
  rw [← ksb_add L hc, Nat.mul_one, L.add hc, Nat.add_sub_cancel' hn] at r2
  have r2' := r2.widen [] ((w.drop (g * (C.B * W))).drop ((len / C.B - g * W) * C.B)) oo rfl
  simp only [List.nil_append, List.append_assoc, List.take_append_drop] at r2'
  have hrest : (w.drop (g * (C.B * W))).drop ((len / C.B - g * W) * C.B) = w.drop (len - len % C.B) := by
    rw [List.drop_drop]
    congr 1
    rw [Nat.sub_mul, hcomm]
    have hn' : g * W * C.B ≤ len / C.B * C.B := Nat.mul_le_mul_right _ hn
    generalize len / C.B * C.B = x at *
    generalize g * W * C.B = y at *
    omega
  rw [hrest] at r2'
  refine (r1'.append r2').append ?_
  split
  · rename_i h0
    have e : w.drop (len - len % C.B) = [] := List.drop_of_length_le (by rw [hw]; omega)
    have hq : len = len / C.B * C.B := by rw [h0] at hdm; exact hdm.symm
    rw [e, List.append_nil]
    have e1 : blocksFor C.B len = len / C.B := by
      have := blocksFor_mul hB (len / C.B); rw [← hq] at this; exact this
    have e2 : keystream (fun j => C.block (cnt c j)) C.B len = ksb C cnt c (len / C.B) := by
      have := keystream_blocks L hc (len / C.B); rw [← hq] at this; exact this
    rw [e1, e2]
    exact Runs.nil _ _
  · rename_i h0
    have hcl := L.valid hc (len / C.B)
    have hx := L.len hcl
    have htl : (w.drop (len - len % C.B)).length = len % C.B := by rw [List.length_drop, hw]; omega
    have hbf : blocksFor C.B len = len / C.B + 1 := by
      have := blocksFor_add hB (len / C.B) (len % C.B)
      rw [hdm, blocksFor_small h0 hml] at this
      exact this
    have hst : keystream (fun j => C.block (cnt c j)) C.B len =
        ksb C cnt c (len / C.B) ++ (C.block (cnt c (len / C.B))).take (len % C.B) := by
      have := keystream_split L hc (len / C.B) (len % C.B)
      rw [hdm] at this
      rw [this, keystream_eq, blocksFor_small h0 hml]
      simp [ksb, L.zero hcl]
    rw [hst, hbf]
    have htk : ((C.block (cnt c (len / C.B))).take (len % C.B)).length = len % C.B := by rw [List.length_take, hx]; omega
    refine Runs.cons (l1 := cnt c (len / C.B + 1)) ?_ ?_ (Runs.nil _ _)
    · intro pre post hp
      have hks := ksb_length L hc (len / C.B)
      have hcp := copy_at (a := pre ++ ksb C cnt c (len / C.B)) (b := w.drop (len - len % C.B)) (c := post)
        (src := C.block (cnt c (len / C.B))) (so := 0) (s := (C.block (cnt c (len / C.B))).take (len % C.B))
        (off := oo + (len - len % C.B)) (n := len % C.B)
        ⟨[], (C.block (cnt c (len / C.B))).drop (len % C.B), by simp, rfl⟩
        (by rw [List.length_append, hp, hks]; omega) htk.symm (by rw [htl, htk])
      have hbl : blit (List.replicate C.B (0 : Byte)) 0 (C.block (cnt c (len / C.B))) = .ok (C.block (cnt c (len / C.B))) := by
        have := blit_at (a := []) (b := List.replicate C.B (0 : Byte)) (c := []) (s := C.block (cnt c (len / C.B))) (off := 0) rfl
          (by rw [hx]; simp)
        simpa using this
      simp only [List.append_assoc] at hcp ⊢
      simp only [hbl, ok_bind, L.inc hcl, hcp, L.add hc, pure_eq_ok]
    · rw [List.length_append, List.length_append, htl, htk]

/-- The sequential branch XORs the keystream onto the message and advances the counter. -/
theorem sequential_ok (L : Laws C Valid cnt fits) (W : Nat) {nonce : C.κ} (hn : Valid nonce) (inp msg : List Byte) (io oo : Nat)
    (hin : Holds inp io msg) (pre junk post : List Byte) (hp : pre.length = oo) (hj : junk.length = msg.length) :
    sequential C W nonce inp io (pre ++ junk ++ post) oo msg.length =
      .ok (cnt nonce (blocksFor C.B msg.length),
        pre ++ xorBytes (keystream (fun j => C.block (cnt nonce j)) C.B msg.length) msg ++ post) := by
  have h := (gen_runs L W oo msg.length hn junk hj).run pre post hp
  generalize hst : keystream (fun j => C.block (cnt nonce j)) C.B msg.length = st at *
  have hsl : st.length = msg.length := by rw [← hst]; exact keystream_length L hn _
  generalize haln : msg.length - msg.length % C.B = aln at *
  have hale : aln ≤ msg.length := by omega
  have hm1 : (msg.take aln).length = aln := by rw [List.length_take]; omega
  have hs1 : (st.take aln).length = aln := by rw [List.length_take]; omega
  have hin1 : Holds inp io (msg.take aln) := by
    obtain ⟨a, q, e, ha⟩ := hin
    exact ⟨a, msg.drop aln ++ q, by rw [e]; simp only [List.append_assoc]; rw [← List.append_assoc (msg.take aln), List.take_append_drop], ha⟩
  have hin2 : Holds inp (io + aln) (msg.drop aln) := by
    obtain ⟨a, q, e, ha⟩ := hin
    exact ⟨a ++ msg.take aln, q, by rw [e]; simp only [List.append_assoc]; rw [← List.append_assoc (msg.take aln), List.take_append_drop],
      by rw [List.length_append, ha, hm1]⟩
  have hsp : pre ++ st ++ post = pre ++ st.take aln ++ (st.drop aln ++ post) := by
    simp only [List.append_assoc]; rw [← List.append_assoc (st.take aln), List.take_append_drop]
  have hx1 : (if aln ≠ 0 then xorInto inp io (pre ++ st ++ post) oo aln else pure (pre ++ st ++ post)) =
      .ok (pre ++ xorBytes (st.take aln) (msg.take aln) ++ (st.drop aln ++ post)) := by
    split
    · rw [hsp]; exact xorInto_at hin1 hp.symm hm1.symm (by omega)
    · rename_i h0
      have : aln = 0 := by omega
      subst this
      simp [xorBytes]
  have hfin : xorBytes st msg = xorBytes (st.take aln) (msg.take aln) ++ xorBytes (st.drop aln) (msg.drop aln) := by
    rw [← xorBytes_append (by omega), List.take_append_drop, List.take_append_drop]
  have hxl : (xorBytes (st.take aln) (msg.take aln)).length = aln := by rw [xorBytes_length]; omega
  simp only [pure_eq_ok] at hx1
  simp only [sequential, h, ok_bind, haln, hx1, pure_eq_ok]
  rw [hfin]
  by_cases h0 : aln = msg.length
  · rw [if_neg (fun hh => hh h0)]
    have e1 : st.drop aln = [] := List.drop_of_length_le (by omega)
    have e2 : msg.drop aln = [] := List.drop_of_length_le (by omega)
    simp [e1, e2, xorBytes]
  · rw [if_pos h0]
    have := xorLoop_at inp io oo (msg.drop aln) (st.drop aln) (pre ++ xorBytes (st.take aln) (msg.take aln)) post aln hin2
      (by rw [List.length_drop, List.length_drop, hsl]) (by rw [List.length_append, hp, hxl])
    rw [List.length_drop] at this
    simp only [List.append_assoc] at this ⊢
    rw [this]; rfl

/-! ## Tasks -/

/-- Turns a task over a chunk of `len` bytes needs. -/
def turns (B W len : Nat) : Nat := (genActs ⟨Unit, B, .ok, fun _ _ => .ok (), (), fun _ => [], fun _ => []⟩ W 0 len).length + 2

theorem gen_turns (C : Core) (W oo len : Nat) : (genActs C W oo len).length + 2 = turns C.B W len := by
  simp only [turns, genActs, List.length_append, forActs_length]
  by_cases h : len % C.B = 0 <;> simp [h]

/-- The tasks over `d` chunks of `m` blocks, for arbitrary results `J i` of their counter computations. -/
theorem tasks_gen (L : Laws C Valid cnt fits) (W d m : Nat) (nonce : C.κ) (inp msg : List Byte) (io : Nat)
    (hin : Holds inp io msg) (hm : d * (m * C.B) ≤ msg.length) (pre junk post : List Byte) (oo : Nat) (hp : pre.length = oo)
    (hj : junk.length = d * (m * C.B)) (J : Nat → C.κ) (hJ : ∀ i, i < d → C.jump nonce (m * i) = .ok (J i))
    (hJv : ∀ i, i < d → Valid (J i)) (sched : List Nat) (hsc : Covers d (turns C.B W (m * C.B)) sched) :
    ∃ ts, runSched sched (thread C W nonce inp io oo (m * C.B)) (pre ++ junk ++ post) =
      .ok (ts, pre ++ flatW (fun i => xorBytes (ksb C cnt (J i) m) ((msg.drop (i * (m * C.B))).take (m * C.B))) d ++ post) ∧
      ∀ i, i < d → (ts i).loc = cnt (J i) m := by
  have hmm : m * C.B / C.B = m := Nat.mul_div_cancel _ L.pos
  have hw : ∀ i, i < d → (winOf junk (m * C.B) i).length = m * C.B := fun i hi => winOf_length _ _ d i hj hi
  obtain ⟨ts', h1, h2⟩ := interleave d (m * C.B) oo (fun i => cnt (J i) m)
    (fun i => xorBytes (ksb C cnt (J i) m) ((msg.drop (i * (m * C.B))).take (m * C.B))) sched
    (thread C W nonce inp io oo (m * C.B)) (winOf junk (m * C.B)) pre post hp hw (by
      intro i hi
      have h3 := mul_le_of_lt hi (Nat.le_refl (d * (m * C.B)))
      rw [Nat.succ_mul i] at h3
      have hml : ((msg.drop (i * (m * C.B))).take (m * C.B)).length = m * C.B := by
        rw [List.length_take, List.length_drop]; omega
      have hr := gen_runs L W (oo + i * (m * C.B)) (m * C.B) (hJv i hi) _ (hw i hi)
      rw [keystream_blocks L (hJv i hi), blocksFor_mul L.pos] at hr
      simp only [thread, hmm]
      refine Runs.cons (l1 := J i) (w1 := winOf junk (m * C.B) i) ?_ rfl (hr.append (Runs.cons (l1 := cnt (J i) m) ?_ ?_ (Runs.nil _ _)))
      · intro a q _
        rw [hJ i hi]; rfl
      · intro a q ha
        have hin1 : Holds inp (io + i * (m * C.B)) ((msg.drop (i * (m * C.B))).take (m * C.B)) := by
          obtain ⟨x, y, e, hx⟩ := hin
          refine ⟨x ++ msg.take (i * (m * C.B)), (msg.drop (i * (m * C.B))).drop (m * C.B) ++ y, ?_, ?_⟩
          · rw [e]; simp only [List.append_assoc]
            rw [← List.append_assoc ((msg.drop (i * (m * C.B))).take (m * C.B)), List.take_append_drop,
              ← List.append_assoc (msg.take _), List.take_append_drop]
          · rw [List.length_append, hx, List.length_take]; omega
        rw [xorInto_at hin1 ha.symm hml.symm (by rw [ksb_length L (hJv i hi), hml])]
        rfl
      · rw [xorBytes_length, hml, ksb_length L (hJv i hi)]; exact Nat.min_self _)
    hsc.1 (fun i hi => by
      simp only [thread, hmm, List.length_append, List.length_cons, List.length_nil]
      have := gen_turns C W (oo + i * (m * C.B)) (m * C.B)
      have h5 := hsc.2 i hi
      omega)
  rw [flatW_winOf, show d * (m * C.B) = junk.length from hj.symm, List.take_length] at h1
  exact ⟨ts', h1, fun i hi => (h2 i hi).2⟩

theorem flatW_ks (L : Laws C Valid cnt fits) {nonce : C.κ} (hv : Valid nonce) (msg : List Byte) (m n : Nat)
    (hm : n * (m * C.B) ≤ msg.length) :
    flatW (fun i => xorBytes (ksb C cnt (cnt nonce (m * i)) m) ((msg.drop (i * (m * C.B))).take (m * C.B))) n =
      xorBytes (ksb C cnt nonce (n * m)) (msg.take (n * (m * C.B))) := by
  induction n with
  | zero => simp [flatW, ksb, xorBytes]
  | succ n ih =>
    rw [Nat.succ_mul n] at hm
    rw [flatW_succ, ih (by omega), Nat.succ_mul, ksb_add L hv, Nat.succ_mul, List.take_add, xorBytes_append, Nat.mul_comm n m]
    rw [ksb_length L hv, List.length_take, Nat.mul_assoc]; omega

/-- The tasks compute the keystream XOR the message when every offset computation is right. -/
theorem tasks_ok (L : Laws C Valid cnt fits) (W d m : Nat) (hd : d ≠ 0) {nonce : C.κ} (hv : Valid nonce) (inp msg : List Byte) (io : Nat)
    (hin : Holds inp io msg) (hm : msg.length = d * (m * C.B)) (pre junk post : List Byte) (oo : Nat) (hp : pre.length = oo)
    (hj : junk.length = msg.length) (hf : ∀ i, i < d → fits nonce (m * i))
    (sched : List Nat) (hsc : Covers d (turns C.B W (m * C.B)) sched) :
    ∃ ts, runSched sched (thread C W nonce inp io oo (m * C.B)) (pre ++ junk ++ post) =
      .ok (ts, pre ++ xorBytes (keystream (fun j => C.block (cnt nonce j)) C.B msg.length) msg ++ post) ∧
      (ts (d - 1)).loc = cnt nonce (blocksFor C.B msg.length) := by
  obtain ⟨ts, h1, h2⟩ := tasks_gen L W d m nonce inp msg io hin (by omega) pre junk post oo hp (by omega) (fun i => cnt nonce (m * i))
    (fun i hi => L.jump hv (hf i hi)) (fun i _ => L.valid hv _) sched hsc
  have e : msg.length = d * m * C.B := by rw [hm, Nat.mul_assoc]
  refine ⟨ts, ?_, ?_⟩
  · rw [h1, flatW_ks L hv msg m d (by omega), e, keystream_blocks L hv, ← hm, List.take_length]
  · rw [h2 (d - 1) (by omega), L.add hv, e, blocksFor_mul L.pos]
    congr 1
    have : d = d - 1 + 1 := by omega
    rw [Nat.mul_comm d, this, Nat.mul_succ, Nat.add_sub_cancel]

/-! ## Whole messages -/

theorem holds_take {inp msg : List Byte} {io : Nat} (h : Holds inp io msg) (n : Nat) : Holds inp io (msg.take n) := by
  obtain ⟨a, q, e, ha⟩ := h
  exact ⟨a, msg.drop n ++ q, by rw [e]; simp only [List.append_assoc]; rw [← List.append_assoc (msg.take n), List.take_append_drop], ha⟩

theorem holds_drop {inp msg : List Byte} {io n : Nat} (h : Holds inp io msg) (hn : n ≤ msg.length) :
    Holds inp (io + n) (msg.drop n) := by
  obtain ⟨a, q, e, ha⟩ := h
  exact ⟨a ++ msg.take n, q, by rw [e]; simp only [List.append_assoc]; rw [← List.append_assoc (msg.take n), List.take_append_drop],
    by rw [List.length_append, ha, List.length_take]; omega⟩

/-- Keystream XOR message splits at a block boundary. -/
theorem ks_append (L : Laws C Valid cnt fits) {nonce : C.κ} (hv : Valid nonce) (msg : List Byte) (n : Nat) (h : n * C.B ≤ msg.length) :
    xorBytes (keystream (fun j => C.block (cnt nonce j)) C.B msg.length) msg =
      xorBytes (keystream (fun j => C.block (cnt nonce j)) C.B (n * C.B)) (msg.take (n * C.B)) ++
      xorBytes (keystream (fun j => C.block (cnt (cnt nonce n) j)) C.B (msg.length - n * C.B)) (msg.drop (n * C.B)) := by
  rw [← xorBytes_append (by rw [keystream_length L hv, List.length_take]; omega), List.take_append_drop, keystream_blocks L hv,
    ← keystream_split L hv, Nat.add_sub_cancel' h]

/-- The remainder with the offset moved (TSX, RCS, RWS). -/
theorem remainder_tsx_ok (L : Laws C Valid cnt fits) (W : Nat) {nonce : C.κ} (hv : Valid nonce) (inp msg : List Byte) (io oo : Nat)
    (aln : Nat) (hin : Holds inp (io + aln) msg) (pre junk post : List Byte) (hp : pre.length = oo + aln) (hj : junk.length = msg.length) :
    remainder C .tsx W nonce inp io (pre ++ junk ++ post) oo (aln + msg.length) aln =
      .ok (cnt nonce (blocksFor C.B msg.length),
        pre ++ xorBytes (keystream (fun j => C.block (cnt nonce j)) C.B msg.length) msg ++ post) := by
  rw [remainder]
  split
  · rw [Nat.add_sub_cancel_left]
    have h := (gen_runs L W (oo + aln) msg.length hv junk hj).run pre post hp
    have hx := xorLoop_at inp (io + aln) (oo + aln) msg (keystream (fun j => C.block (cnt nonce j)) C.B msg.length) pre post 0 hin
      (keystream_length L hv _) hp
    simp only [h, ok_bind, hx, pure_eq_ok]
  · rename_i h0
    have : msg = [] := List.length_eq_zero_iff.mp (by omega)
    subst this
    have hj0 : junk = [] := List.length_eq_zero_iff.mp (by simpa using hj)
    have e : blocksFor C.B 0 = 0 := by
      have := blocksFor_mul L.pos 0; rwa [Nat.zero_mul] at this
    simp [hj0, e, L.zero hv, keystream, xorBytes, pure_eq_ok]

/-- The same with ChaChaP20's and CSX512's remainder when the output offset is zero. -/
theorem remainder_csx_ok (L : Laws C Valid cnt fits) (W : Nat) {nonce : C.κ} (hv : Valid nonce) (inp msg : List Byte) (io : Nat)
    (aln : Nat) (hlt : msg.length < aln) (hin : Holds inp (io + aln) msg) (pre junk post : List Byte) (hp : pre.length = aln)
    (hj : junk.length = msg.length) :
    remainder C .csx W nonce inp io (pre ++ junk ++ post) 0 (aln + msg.length) aln =
      .ok (cnt nonce (blocksFor C.B msg.length),
        pre ++ xorBytes (keystream (fun j => C.block (cnt nonce j)) C.B msg.length) msg ++ post) := by
  rw [remainder]
  split
  · have e : (aln + msg.length) % aln = msg.length := by rw [Nat.add_mod_left, Nat.mod_eq_of_lt hlt]
    have h := (gen_runs L W aln msg.length hv junk hj).run pre post hp
    have hx := xorLoop_at inp (io + aln) (0 + aln) msg (keystream (fun j => C.block (cnt nonce j)) C.B msg.length) pre post 0 hin
      (keystream_length L hv _) (by rw [hp]; omega)
    simp only [if_neg (show ¬ aln = 0 by omega), e, h, ok_bind, hx, pure_eq_ok]
  · rename_i h0
    have : msg = [] := List.length_eq_zero_iff.mp (by omega)
    subst this
    have hj0 : junk = [] := List.length_eq_zero_iff.mp (by simpa using hj)
    have e : blocksFor C.B 0 = 0 := by
      have := blocksFor_mul L.pos 0; rwa [Nat.zero_mul] at this
    simp [hj0, e, L.zero hv, keystream, xorBytes, pure_eq_ok]

/-- The message is large enough for every task to get at least one block: what `ParallelMinimumSize` is
for. -/
def Prof.Sound (p : Prof) (B : Nat) : Prop := p.isParallel = true → p.degree ≠ 0 ∧ p.degree * B ≤ p.minSize

/-- Enough turns for every task when the message is processed in parallel. -/
def WholeFair (p : Prof) (B W len : Nat) (sched : List Nat) : Prop :=
  p.isParallel = true → p.minSize ≤ len → Covers p.degree (turns B W (len / B / p.degree * B)) sched

/-- All offset computations of a message of `len` bytes are right. -/
def WholeFits (C : Core) (fits : C.κ → Nat → Prop) (p : Prof) (nonce : C.κ) (len : Nat) : Prop :=
  p.isParallel = true → p.minSize ≤ len → ∀ i, i < p.degree → fits nonce (len / C.B / p.degree * i)

theorem processWhole_gen (L : Laws C Valid cnt fits) (k : Whole) (W : Nat) (p : Prof) (hs : p.Sound C.B) {nonce : C.κ} (hv : Valid nonce)
    (inp msg : List Byte) (io oo : Nat) (hin : Holds inp io msg) (pre junk post : List Byte) (hp : pre.length = oo)
    (hj : junk.length = msg.length) (hf : WholeFits C fits p nonce msg.length) (sched : List Nat) (hsc : WholeFair p C.B W msg.length sched)
    (hk : k = .tsx ∨ oo = 0) :
    processWhole C k W p sched nonce inp io (pre ++ junk ++ post) oo msg.length =
      .ok (cnt nonce (blocksFor C.B msg.length),
        pre ++ xorBytes (keystream (fun j => C.block (cnt nonce j)) C.B msg.length) msg ++ post) := by
  rw [processWhole]
  split
  · exact sequential_ok L W hv inp msg io oo hin pre junk post hp hj
  · rename_i hc
    have hpar : p.isParallel = true := by
      cases h : p.isParallel with
      | true => rfl
      | false => exact absurd (Or.inl h) hc
    have hmin : p.minSize ≤ msg.length := by
      have : ¬ msg.length < p.minSize := fun h => hc (Or.inr h)
      omega
    obtain ⟨hd, hdB⟩ := hs hpar
    have hB := L.pos
    have hfit := hf hpar hmin
    have hcov := hsc hpar hmin
    generalize hm : msg.length / C.B / p.degree = m at *
    have hdp : 0 < p.degree := by omega
    have h1 : m * p.degree ≤ msg.length / C.B := by rw [← hm]; exact Nat.div_mul_le_self _ _
    have h2 : m * p.degree * C.B ≤ msg.length := (Nat.le_div_iff_mul_le hB).mp h1
    have e0 : m * C.B * p.degree = p.degree * (m * C.B) := Nat.mul_comm _ _
    have e1 : m * C.B * p.degree = m * p.degree * C.B := by rw [Nat.mul_assoc, Nat.mul_comm C.B, ← Nat.mul_assoc]
    have hmp : 1 ≤ m := by
      rw [← hm, Nat.le_div_iff_mul_le hdp, Nat.le_div_iff_mul_le hB, Nat.one_mul]; omega
    have hlt : msg.length < m * C.B * p.degree + p.degree * C.B := by
      have a1 : msg.length / C.B < (m + 1) * p.degree := by
        rw [← Nat.div_lt_iff_lt_mul hdp, hm]; omega
      have a2 : msg.length < (m + 1) * p.degree * C.B := by rw [← Nat.div_lt_iff_lt_mul hB]; exact a1
      rw [Nat.succ_mul, Nat.add_mul] at a2
      omega
    have hge : p.degree * C.B ≤ m * C.B * p.degree := by
      rw [e1]; exact Nat.mul_le_mul_right _ (Nat.le_mul_of_pos_left _ hmp)
    generalize haln : m * C.B * p.degree = aln at *
    obtain ⟨ts, t1, t2⟩ := tasks_ok L W p.degree m hd hv inp (msg.take aln) io (holds_take hin aln)
      (by rw [List.length_take]; omega) pre (junk.take aln) (junk.drop aln ++ post) oo hp
      (by rw [List.length_take, List.length_take]; omega) hfit sched hcov
    have hta : (msg.take aln).length = m * p.degree * C.B := by rw [List.length_take]; omega
    have hsplit : pre ++ junk ++ post = pre ++ junk.take aln ++ (junk.drop aln ++ post) := by
      simp only [List.append_assoc]; rw [← List.append_assoc (junk.take aln), List.take_append_drop]
    simp only [if_neg hd, haln]
    rw [hsplit, t1]
    simp only [ok_bind]
    rw [t2, hta, blocksFor_mul hB]
    have hv2 := L.valid hv (m * p.degree)
    have hdl : (msg.drop aln).length = msg.length - aln := List.length_drop
    have hjd : (junk.drop aln).length = (msg.drop aln).length := by rw [List.length_drop, List.length_drop, hj]
    have hpl : (pre ++ xorBytes (keystream (fun j => C.block (cnt nonce j)) C.B (m * p.degree * C.B)) (msg.take aln)).length = oo + aln := by
      rw [List.length_append, xorBytes_length, keystream_length L hv, hta, hp]; omega
    have hlen : msg.length = aln + (msg.drop aln).length := by omega
    have hks := ks_append L hv msg (m * p.degree) (by omega)
    rw [show m * p.degree * C.B = aln by omega] at hks
    have hfin : cnt (cnt nonce (m * p.degree)) (blocksFor C.B (msg.drop aln).length) = cnt nonce (blocksFor C.B msg.length) := by
      rw [L.add hv, ← blocksFor_add hB, ← e1, ← hlen]
    rw [hks, ← hdl, ← hfin]
    rw [show m * p.degree * C.B = aln by omega] at hpl ⊢
    rcases hk with rfl | rfl
    · have hr := remainder_tsx_ok L W hv2 inp (msg.drop aln) io oo aln (holds_drop hin (by omega)) _ (junk.drop aln) post hpl hjd
      rw [← hlen] at hr
      simp only [List.append_assoc] at hr ⊢
      exact hr
    · cases k with
      | tsx =>
        have hr := remainder_tsx_ok L W hv2 inp (msg.drop aln) io 0 aln (holds_drop hin (by omega)) _ (junk.drop aln) post hpl hjd
        rw [← hlen] at hr
        simp only [List.append_assoc] at hr ⊢
        exact hr
      | csx =>
        have hr := remainder_csx_ok L W hv2 inp (msg.drop aln) io aln (by omega) (holds_drop hin (by omega)) _ (junk.drop aln) post
          (by rw [hpl, Nat.zero_add]) hjd
        rw [← hlen] at hr
        simp only [List.append_assoc] at hr ⊢
        exact hr

end Cex.SCipher
