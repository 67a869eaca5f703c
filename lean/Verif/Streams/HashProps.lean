import Verif.Streams.HashModel
import Verif.Streams.Props
import Verif.Digest.Sha2Props
import Verif.Keccak.Sha3Props

/-!
# C93 DigestStream and MacStream

Whatever the size of the blocks, the result is the digest (the tag) of the window of the array or of the rest of the stream.
-/

namespace Cex.Streams
open Cex Cex.Digest Cex.Mac Cex.Kdf Cex.Stream

/-- `Has s m`: the engine has received `m`. -/
def Sink.Takes (E : Sink) (Has : E.σ → List Byte → Prop) : Prop := ∀ {s m}, Has s m → ∀ x : Window, ∃ s', E.update s x.buf x.off x.len = .ok s' ∧ Has s' (m ++ x.bytes)

variable {E : Sink} {Has : E.σ → List Byte → Prop}

theorem progress_ok {len : Nat} (h : 0 < len) (k : Nat) : progress len k = .ok () := by rw [progress, if_neg (by omega)]; rfl

theorem arrLoop_ok (g : E.Takes Has) {len B : Nat} (hl : 0 < len) (hB : 0 < B) {inp : List Byte} (hi : inp.length < 2 ^ 64) : ∀ (k n : Nat) {s : E.σ} {m : List Byte} {io pl : Nat}, Has s m → k ≤ n →
    io + k * B ≤ inp.length → ∃ s', arrLoop E len B (pl + k * B) inp n (s, io, pl) = .ok (s', io + k * B, pl + k * B) ∧ Has s' (m ++ (inp.drop io).take (k * B))
  | 0, n, s, m, io, pl, h, _, _ => by
    refine ⟨s, ?_, by rw [Nat.zero_mul, List.take_zero, List.append_nil]; exact h⟩
    rw [Nat.zero_mul, Nat.add_zero, Nat.add_zero]
    cases n with
    | zero => rw [arrLoop, if_pos rfl]; rfl
    | succ n => rw [arrLoop, if_pos rfl]; rfl
  | k + 1, 0, _, _, _, _, _, hn, _ => absurd hn (by omega)
  | k + 1, n + 1, s, m, io, pl, h, hn, hio => by
    rw [Nat.succ_mul] at hio ⊢
    obtain ⟨s1, h1, h2⟩ := g h ⟨inp, io, B, by omega, hi⟩
    obtain ⟨s2, h3, h4⟩ := arrLoop_ok g hl hB hi k n (pl := pl + B) h2 (by omega) (show io + B + k * B ≤ inp.length by omega)
    refine ⟨s2, ?_, ?_⟩
    · rw [arrLoop, if_neg (by show ¬ pl = _; omega)]
      simp only [h1, ok_bind, progress_ok hl]
      rw [show pl + (k * B + B) = pl + B + k * B by omega, h3, show io + (k * B + B) = io + B + k * B by omega]
    · rw [List.append_assoc] at h4
      have e : (inp.drop io).take (k * B + B) = (inp.drop io).take B ++ (inp.drop (io + B)).take (k * B) := by
        rw [Nat.add_comm (k * B), List.take_add, List.drop_drop]
      rw [e]; exact h4

theorem read_ok {st : MemStream} {out : List Byte} {B : Nat} (hd : st.data.length < 2 ^ 63) (hB : 0 < B) (hp : st.pos + B ≤ st.data.length) (ho : B ≤ out.length) :
    st.read out 0 B = .ok ((st.data.drop st.pos).take B ++ out.drop B, B, ⟨st.data, st.pos + B⟩) := by
  have hl : ((st.data.drop st.pos).take B).length = B := by rw [List.length_take, List.length_drop]; omega
  have e : (if sub64 st.data.length st.pos < add64 0 B then sub64 st.data.length st.pos else B) = B := by rw [sub64_le (by omega) (by omega), add64_lt (by omega), if_neg (by omega)]
  rw [MemStream.read]
  simp only [e]
  rw [if_pos hB, copy_splice hp (by omega), ok_bind, add64_lt (by omega), splice_in (by omega), List.take_zero, List.nil_append, hl, Nat.zero_add]
  rfl

theorem strLoop_ok (g : E.Takes Has) {len B : Nat} (hl : 0 < len) (hB : 0 < B) (hB2 : B < 2 ^ 63) : ∀ (k n : Nat) {s : E.σ} {m : List Byte} {st : MemStream} {inp : List Byte} {pl : Nat}, Has s m → k ≤ n →
    st.data.length < 2 ^ 63 → st.pos + k * B ≤ st.data.length → inp.length = B →
    ∃ s' inp', strLoop E len B (pl + k * B) n (s, st, inp, pl) = .ok (s', ⟨st.data, st.pos + k * B⟩, inp', pl + k * B) ∧ Has s' (m ++ (st.data.drop st.pos).take (k * B)) ∧ inp'.length = B
  | 0, n, s, m, st, inp, pl, h, _, _, _, hi => by
    refine ⟨s, inp, ?_, by rw [Nat.zero_mul, List.take_zero, List.append_nil]; exact h, hi⟩
    rw [Nat.zero_mul, Nat.add_zero, Nat.add_zero]
    cases n with
    | zero => rw [strLoop, if_pos rfl]; rfl
    | succ n => rw [strLoop, if_pos rfl]; rfl
  | k + 1, 0, _, _, _, _, _, _, hn, _, _, _ => absurd hn (by omega)
  | k + 1, n + 1, s, m, st, inp, pl, h, hn, hd, hp, hi => by
    rw [Nat.succ_mul] at hp ⊢
    have hr := read_ok (out := inp) hd hB (by omega) (by omega)
    have hlt : ((st.data.drop st.pos).take B).length = B := by rw [List.length_take, List.length_drop]; omega
    have hnew : ((st.data.drop st.pos).take B ++ inp.drop B).length = B := by rw [List.length_append, hlt, List.length_drop]; omega
    obtain ⟨s1, h1, h2⟩ := g h ⟨(st.data.drop st.pos).take B ++ inp.drop B, 0, B, by omega, by omega⟩
    have e0 : Window.bytes ⟨(st.data.drop st.pos).take B ++ inp.drop B, 0, B, by omega, by omega⟩ = (st.data.drop st.pos).take B := by
      rw [Window.bytes]
      show ((((st.data.drop st.pos).take B ++ inp.drop B)).drop 0).take B = _
      rw [List.drop_zero, List.take_left' hlt]
    rw [e0] at h2
    obtain ⟨s2, inp2, h3, h4, h5⟩ := strLoop_ok g hl hB hB2 k n (pl := pl + B) (st := ⟨st.data, st.pos + B⟩) h2 (by omega) hd (show st.pos + B + k * B ≤ st.data.length by omega) hnew
    refine ⟨s2, inp2, ?_, ?_, h5⟩
    · rw [strLoop, if_neg (by show ¬ pl = _; omega)]
      simp only [hr, ok_bind, h1, progress_ok hl]
      rw [show pl + (k * B + B) = pl + B + k * B by omega, h3, show st.pos + (k * B + B) = st.pos + B + k * B by omega]
    · rw [List.append_assoc] at h4
      have e : (st.data.drop st.pos).take (k * B + B) = (st.data.drop st.pos).take B ++ (st.data.drop (st.pos + B)).take (k * B) := by
        rw [Nat.add_comm (k * B), List.take_add, List.drop_drop]
      rw [e]; exact h4

/-- The sizes that an engine reports: blocks that are not empty, and a parallel block of whole blocks. -/
structure Sizes (B : Nat) (par : Bool) (pb : Nat) : Prop where
  block : 0 < B
  prl : par = true → ∃ k, 0 < k ∧ pb = k * B

/-- The part of `Process` before `Finalize`: after whole parallel blocks `a`, whole blocks follow up to `b`, and the rest. -/
theorem cut {block prl len : Nat} {par : Bool} (z : Sizes block par prl) (hp : par = true ∧ len > prl) : ∃ k, len / block * block = len / prl * prl + k * block := by
  obtain ⟨k, hk, e⟩ := z.prl hp.1
  have h0 := z.block
  have h1 : len / prl * prl = (len / prl * k) * block := by rw [Nat.mul_assoc, ← e]
  have h2 : len / prl * k ≤ len / block := by
    rw [Nat.le_div_iff_mul_le h0, ← h1]
    exact Nat.div_mul_le_self _ _
  refine ⟨len / block - len / prl * k, ?_⟩
  rw [h1, ← Nat.add_mul]
  congr 1
  omega

theorem processArr_ok (g : E.Takes Has) {par : Bool} {prl : Nat} (z : Sizes E.block par prl) {s : E.σ} {m : List Byte} (h : Has s m) (x : Window) (hx : 0 < x.len) :
    ∃ s', Has s' (m ++ x.bytes) ∧ processArr E par prl s x.buf x.off x.len = (do let (s, out) ← E.finalize s' (List.replicate E.size 0) 0; return (s, out)) := by
  have hle := x.le
  have h0 := z.block
  -- the parallel part
  obtain ⟨s1, a, ha, hb, e1, i1⟩ : ∃ s1 a, a ≤ x.len ∧ (∃ k, x.len / E.block * E.block = a + k * E.block) ∧
      (if par ∧ x.len > prl then (if prl = 0 then throw .ub else arrLoop E x.len prl (x.len / prl * prl) x.buf (x.len / prl * prl + 1) (s, x.off, 0)) else return (s, x.off, 0)) = .ok (s1, x.off + a, a) ∧
      Has s1 (m ++ (x.buf.drop x.off).take a) := by
    by_cases hc : par = true ∧ x.len > prl
    · obtain ⟨k, hk, e⟩ := z.prl hc.1
      have hprl : 0 < prl := by rw [e]; exact Nat.mul_pos hk h0
      have hdm := Nat.div_mul_le_self x.len prl
      obtain ⟨s1, h1, h2⟩ := arrLoop_ok g hx hprl x.size (x.len / prl) (x.len / prl * prl + 1) (io := x.off) (pl := 0) h (by
        have := Nat.le_mul_of_pos_right (x.len / prl) hprl
        omega) (by omega)
      rw [Nat.zero_add] at h1
      exact ⟨s1, _, hdm, cut z hc, by rw [if_pos hc, if_neg (by omega), h1], h2⟩
    · exact ⟨s, 0, Nat.zero_le _, ⟨x.len / E.block, by rw [Nat.zero_add]⟩, by rw [if_neg hc]; rfl, by rw [List.take_zero, List.append_nil]; exact h⟩
  obtain ⟨k, hk⟩ := hb
  have hdm := Nat.div_mul_le_self x.len E.block
  obtain ⟨s2, e2, i2⟩ := arrLoop_ok g hx h0 x.size k (x.len / E.block * E.block + 1) (io := x.off + a) (pl := a) i1 (by
    have := Nat.le_mul_of_pos_right k h0
    omega) (by omega)
  rw [← hk, show x.off + a + k * E.block = x.off + x.len / E.block * E.block by omega] at e2
  rw [List.append_assoc, ← List.drop_drop, ← List.take_add, ← hk] at i2
  generalize hcg : x.len / E.block * E.block = c at *
  obtain ⟨s3, e3, i3⟩ : ∃ s3, (if c < x.len then E.update s2 x.buf (x.off + c) (x.len - c) else return s2) = .ok s3 ∧ Has s3 (m ++ x.bytes) := by
    by_cases hc : c < x.len
    · obtain ⟨s3, h1, h2⟩ := g i2 ⟨x.buf, x.off + c, x.len - c, by omega, x.size⟩
      refine ⟨s3, by rw [if_pos hc, h1], ?_⟩
      have e : (m ++ (x.buf.drop x.off).take c) ++ Window.bytes ⟨x.buf, x.off + c, x.len - c, by omega, x.size⟩ = m ++ x.bytes := by
        rw [Window.bytes, Window.bytes, List.append_assoc]
        show m ++ ((x.buf.drop x.off).take c ++ (x.buf.drop (x.off + c)).take (x.len - c)) = _
        rw [← List.drop_drop, ← List.take_add, show c + (x.len - c) = x.len by omega]
      rw [e] at h2; exact h2
    · exact ⟨s2, by rw [if_neg hc]; rfl, by rw [Window.bytes, show x.len = c by omega]; exact i2⟩
  refine ⟨s3, i3, ?_⟩
  rw [processArr, if_neg (by omega)]
  simp only [pure_eq_ok, ok_bind] at e1 e3 ⊢
  rw [e1, ok_bind, hcg, e2, ok_bind]
  dsimp only
  rw [e3, ok_bind]
  simp only [progress_ok hx, ok_bind]

theorem processStr_ok (g : E.Takes Has) {par : Bool} {prl : Nat} (z : Sizes E.block par prl) (hz : E.block < 2 ^ 63) {s : E.σ} {m : List Byte} (h : Has s m) {st : MemStream} (hd : st.data.length < 2 ^ 63) (hx : st.pos < st.data.length) :
    ∃ s', Has s' (m ++ st.data.drop st.pos) ∧ processStr E par prl s st (st.data.length - st.pos) = (do let (s, out) ← E.finalize s' (List.replicate E.size 0) 0; return (s, ⟨st.data, st.data.length⟩, out)) := by
  have h0 := z.block
  obtain ⟨len, hlen⟩ : ∃ len, st.data.length - st.pos = len := ⟨_, rfl⟩
  rw [hlen]
  have hl0 : 0 < len := by omega
  obtain ⟨s1, a, inp1, ha, hb, e1, i1⟩ : ∃ s1 a inp1, a ≤ len ∧ (∃ k, len / E.block * E.block = a + k * E.block) ∧
      (if par ∧ len > prl then (if prl = 0 then throw .ub else strLoop E len prl (len / prl * prl) (len / prl * prl + 1) (s, st, List.replicate prl 0, 0)) else return (s, st, [], 0)) = .ok (s1, ⟨st.data, st.pos + a⟩, inp1, a) ∧
      Has s1 (m ++ (st.data.drop st.pos).take a) := by
    by_cases hc : par = true ∧ len > prl
    · obtain ⟨k, hk, e⟩ := z.prl hc.1
      have hprl : 0 < prl := by rw [e]; exact Nat.mul_pos hk h0
      have hdm := Nat.div_mul_le_self len prl
      obtain ⟨s1, inp1, h1, h2, _⟩ := strLoop_ok g hl0 hprl (by omega) (len / prl) (len / prl * prl + 1) (st := st) (inp := List.replicate prl 0) (pl := 0) h (by
        have := Nat.le_mul_of_pos_right (len / prl) hprl
        omega) hd (by omega) List.length_replicate
      rw [Nat.zero_add] at h1
      exact ⟨s1, _, inp1, hdm, cut z hc, by rw [if_pos hc, if_neg (by omega), h1], h2⟩
    · exact ⟨s, 0, [], Nat.zero_le _, ⟨len / E.block, by rw [Nat.zero_add]⟩, by rw [if_neg hc]; rfl, by rw [List.take_zero, List.append_nil]; exact h⟩
  obtain ⟨k, hk⟩ := hb
  have hdm := Nat.div_mul_le_self len E.block
  obtain ⟨s2, inp2, e2, i2, _⟩ := strLoop_ok g hl0 h0 hz k (len / E.block * E.block + 1) (st := ⟨st.data, st.pos + a⟩) (inp := resize inp1 E.block) (pl := a) i1 (by
    have := Nat.le_mul_of_pos_right k h0
    omega) hd (show st.pos + a + k * E.block ≤ st.data.length by omega) (resize_length _ _)
  rw [← hk] at e2
  dsimp only at e2 i2
  rw [show st.pos + a + k * E.block = st.pos + len / E.block * E.block by omega] at e2
  rw [List.append_assoc, ← List.drop_drop, ← List.take_add, ← hk] at i2
  generalize hcg : len / E.block * E.block = c at *
  obtain ⟨s3, e3, i3⟩ : ∃ s3, (if c < len then do
      let (inp, b, st') ← MemStream.read ⟨st.data, st.pos + c⟩ (resize inp2 (len - c)) 0 (len - c)
      let s ← E.update s2 inp 0 b
      return (s, st', c + b)
    else return (s2, ⟨st.data, st.pos + c⟩, c)) = (.ok (s3, ⟨st.data, st.data.length⟩, len) : M (E.σ × MemStream × Nat)) ∧ Has s3 (m ++ st.data.drop st.pos) := by
    by_cases hc : c < len
    · have hrl : (resize inp2 (len - c)).length = len - c := resize_length _ _
      have hr := read_ok (st := ⟨st.data, st.pos + c⟩) (out := resize inp2 (len - c)) (B := len - c) hd (by omega) (by show st.pos + c + (len - c) ≤ st.data.length; omega) (by omega)
      dsimp only at hr
      rw [List.drop_of_length_le (l := resize inp2 (len - c)) (by omega), List.append_nil, List.take_of_length_le (by rw [List.length_drop]; omega)] at hr
      have hll : (st.data.drop (st.pos + c)).length = len - c := by rw [List.length_drop]; omega
      obtain ⟨s3, h1, h2⟩ := g i2 ⟨st.data.drop (st.pos + c), 0, len - c, by omega, by omega⟩
      refine ⟨s3, by
        rw [if_pos hc, hr, ok_bind]
        dsimp only at h1 ⊢
        rw [h1, ok_bind, show st.pos + c + (len - c) = st.data.length by omega, show c + (len - c) = len by omega]; rfl, ?_⟩
      have e : (m ++ (st.data.drop st.pos).take c) ++ Window.bytes ⟨st.data.drop (st.pos + c), 0, len - c, by omega, by omega⟩ = m ++ st.data.drop st.pos := by
        rw [Window.bytes, List.append_assoc]
        show m ++ ((st.data.drop st.pos).take c ++ ((st.data.drop (st.pos + c)).drop 0).take (len - c)) = _
        rw [List.drop_zero, List.take_of_length_le (l := st.data.drop (st.pos + c)) (by omega), ← List.drop_drop, List.take_append_drop]
      rw [e] at h2; exact h2
    · have ec : c = len := by omega
      refine ⟨s2, by rw [if_neg hc, ec, show st.pos + len = st.data.length by omega]; rfl, ?_⟩
      rw [List.take_of_length_le (by rw [List.length_drop]; omega)] at i2
      exact i2
  refine ⟨s3, i3, ?_⟩
  rw [processStr, if_neg (by omega)]
  simp only [pure_eq_ok, ok_bind] at e1 e3 ⊢
  rw [e1, ok_bind]
  dsimp only
  rw [hcg, e2, ok_bind]
  dsimp only
  rw [e3, ok_bind]
  simp only [progress_ok hl0, ok_bind]

theorem interval_ok {len : Nat} (h : 0 < E.block) : interval E len = .ok () := by rw [interval, if_neg (by omega)]; rfl

/-- **C93.** `DigestStream::Compute` on a window of an array gives its digest, whatever the engine was used for before, sequential or parallel. -/
theorem C93_digest_array {D : DigestOps} {H : List Byte → List Byte} {ok : Nat → Prop} {Has : D.σ → List Byte → Prop} (g : D.Hashes H ok Has) {par : Bool} {prl : Nat} (z : Sizes D.block par prl)
    {s : D.σ} {m : List Byte} (h : Has s m) (x : Window) (hx : 0 < x.len) (hok : ok x.len) :
    ∃ s', digestArr D par prl s x.buf x.off x.len = .ok (s', H x.bytes) ∧ Has s' [] := by
  obtain ⟨s1, h1, h2⟩ := g.reset h
  obtain ⟨s2, h3, h4⟩ := processArr_ok (E := ofDigest D) (Has := Has) (fun h x => g.update h x) z h2 x hx
  rw [List.nil_append] at h3
  obtain ⟨s3, h5, h6⟩ := g.finalize_all h3 (by rw [x.bytes_length]; exact hok) (List.replicate D.size 0) List.length_replicate
  refine ⟨s3, ?_, h6⟩
  rw [digestArr, interval_ok z.block, ok_bind, h1, ok_bind, h4]
  show (D.finalize s2 (List.replicate D.size 0) 0 >>= _) = _
  rw [h5]; rfl

/-- **C93.** On a memory stream: the digest of what is left, and the stream is at its end. -/
theorem C93_digest_stream {D : DigestOps} {H : List Byte → List Byte} {ok : Nat → Prop} {Has : D.σ → List Byte → Prop} (g : D.Hashes H ok Has) {par : Bool} {prl : Nat} (z : Sizes D.block par prl) (hb : D.block < 2 ^ 63)
    {s : D.σ} {m : List Byte} (h : Has s m) (st : MemStream) (hd : st.data.length < 2 ^ 63) (hp : st.pos < st.data.length) (hok : ok (st.data.length - st.pos)) :
    ∃ s', digestStr D par prl s st = .ok (s', ⟨st.data, st.data.length⟩, H (st.data.drop st.pos)) ∧ Has s' [] := by
  obtain ⟨s1, h1, h2⟩ := g.reset h
  obtain ⟨s2, h3, h4⟩ := processStr_ok (E := ofDigest D) (Has := Has) (fun h x => g.update h x) z hb h2 hd hp
  rw [List.nil_append] at h3
  obtain ⟨s3, h5, h6⟩ := g.finalize_all h3 (by rw [List.length_drop]; exact hok) (List.replicate D.size 0) List.length_replicate
  refine ⟨s3, ?_, h6⟩
  rw [digestStr, interval_ok z.block, ok_bind, h1, ok_bind, sub64_le (by omega) (by omega), h4]
  show (D.finalize s2 (List.replicate D.size 0) 0 >>= _) = _
  rw [h5]; rfl

/-- **C93.** `MacStream::Compute` with an engine that is keyed and has received nothing: the tag of the window. -/
theorem C93_mac_array {A : MacOps} {F : List Byte → List Byte → List Byte} {ok keyOk : Nat → Prop} {Has : A.σ → Option (List Byte × List Byte) → Prop} (g : A.Macs F ok keyOk Has) {block : Nat} (hb : 0 < block)
    {s : A.σ} {k m : List Byte} (h : Has s (some (k, m))) (x : Window) (hx : 0 < x.len) (hok : ok (m.length + x.len)) :
    ∃ s' y, macArr A block s x.buf x.off x.len = .ok (s', F k (m ++ x.bytes)) ∧ Has s' y := by
  obtain ⟨s2, h3, h4⟩ := processArr_ok (E := ofMac A block) (Has := fun s m => Has s (some (k, m))) (fun h x => g.update h x) (par := false) (prl := 0) ⟨hb, fun h => by cases h⟩ h x hx
  obtain ⟨s3, y, h5, h6⟩ := g.finalize h3 (by rw [List.length_append, x.bytes_length]; exact hok) [] (List.replicate A.tag 0) [] List.length_replicate
  simp only [List.nil_append, List.append_nil, List.length_nil] at h5
  refine ⟨s3, y, ?_, h6⟩
  rw [macArr, interval_ok hb, ok_bind, h4]
  show (A.finalize s2 (List.replicate A.tag 0) 0 >>= _) = _
  rw [h5]; rfl

/-- **C93.** On a memory stream. -/
theorem C93_mac_stream {A : MacOps} {F : List Byte → List Byte → List Byte} {ok keyOk : Nat → Prop} {Has : A.σ → Option (List Byte × List Byte) → Prop} (g : A.Macs F ok keyOk Has) {block : Nat} (hb : 0 < block) (hb2 : block < 2 ^ 63)
    {s : A.σ} {k m : List Byte} (h : Has s (some (k, m))) (st : MemStream) (hd : st.data.length < 2 ^ 63) (hp : st.pos < st.data.length) (hok : ok (m.length + (st.data.length - st.pos))) :
    ∃ s' y, macStr A block s st = .ok (s', ⟨st.data, st.data.length⟩, F k (m ++ st.data.drop st.pos)) ∧ Has s' y := by
  obtain ⟨s2, h3, h4⟩ := processStr_ok (E := ofMac A block) (Has := fun s m => Has s (some (k, m))) (fun h x => g.update h x) (par := false) (prl := 0) ⟨hb, fun h => by cases h⟩ hb2 h hd hp
  obtain ⟨s3, y, h5, h6⟩ := g.finalize h3 (by rw [List.length_append, List.length_drop]; exact hok) [] (List.replicate A.tag 0) [] List.length_replicate
  simp only [List.nil_append, List.append_nil, List.length_nil] at h5
  refine ⟨s3, y, ?_, h6⟩
  rw [macStr, interval_ok hb, ok_bind, sub64_le (by omega) (by omega), h4]
  show (A.finalize s2 (List.replicate A.tag 0) 0 >>= _) = _
  rw [h5]; rfl

/-- **C93**, refuted for empty input: the percentage is undefined. -/
theorem C93_empty_ub {D : DigestOps} {H : List Byte → List Byte} {ok : Nat → Prop} {Has : D.σ → List Byte → Prop} (g : D.Hashes H ok Has) (hb : 0 < D.block) {s : D.σ} {m : List Byte} (h : Has s m) (hok : ok 0) (par : Bool) (prl : Nat)
    (inp : List Byte) (io : Nat) : digestArr D par prl s inp io 0 = .error .ub := by
  obtain ⟨s1, h1, h2⟩ := g.reset h
  obtain ⟨s3, h5, h6⟩ := g.finalize_all h2 hok (List.replicate D.size 0) List.length_replicate
  have hbs : (ofDigest D).block = D.block := rfl
  have hp : processArr (ofDigest D) par prl s1 inp io 0 = .error .ub := by
    unfold processArr
    rw [if_neg (by rw [hbs]; omega)]
    simp only [pure_eq_ok]
    rw [if_neg (by omega), ok_bind, Nat.zero_div, Nat.zero_mul, arrLoop, if_pos rfl, pure_eq_ok, ok_bind]
    dsimp only
    rw [if_neg (by omega)]
    show (D.finalize s1 (List.replicate D.size 0) 0 >>= _) = _
    rw [h5]
    rfl
  rw [digestArr, interval_ok (by rw [hbs]; exact hb), ok_bind, h1, ok_bind]
  exact hp

/-- SHA3-256 of a window of 1000 bytes behind an offset of 10, after the object has received other bytes -/
example : ∃ s0 s s', Keccak.Sha3.new 136 = .ok s0 ∧ (Keccak.Sha3.ops Keccak.permute24U 136 32).update s0 [7, 7, 7] 0 3 = .ok s ∧
    digestArr (Keccak.Sha3.ops Keccak.permute24U 136 32) false 0 s (List.replicate 2000 1) 10 1000 = .ok (s', Fips202.sha3 32 (((List.replicate 2000 1).drop 10).take 1000)) := by
  have hw : (List.replicate 2000 (1 : Byte)).length = 2000 := List.length_replicate
  obtain ⟨s0, h0, i0⟩ := Keccak.Sha3.new_has (f := Fips202.keccakP 24) (r := 136) (by decide)
  obtain ⟨s, h1, h2⟩ := Keccak.Sha3.hashes_256.update i0 ⟨[7, 7, 7], 0, 3, by decide, by decide⟩
  obtain ⟨s', h3, _⟩ := C93_digest_array Keccak.Sha3.hashes_256 (par := false) (prl := 0) ⟨by decide, fun h => by cases h⟩ h2 ⟨List.replicate 2000 1, 10, 1000, by omega, by omega⟩ (by show 0 < 1000; decide) trivial
  exact ⟨s0, s, s', h0, h1, h3⟩

/-- HMAC over SHA3-256 behind `MacStream`, on a stream that has been read up to byte 100 -/
example (keyOk : Nat → Bool) (hk : keyOk 32 = true) (s : Hmac (Keccak.Sha3.ops Keccak.permute24U 136 32)) (x)
    (h : Hmac.Inv (Fips202.sha3 32) (Keccak.Sha3.Has (Fips202.keccakP 24) 136) s x) :
    ∃ s1 s2, s.initialize keyOk (List.replicate 32 9) = .ok s1 ∧ macStr (hmacOps (Keccak.Sha3.ops Keccak.permute24U 136 32) keyOk) 136 s1 ⟨List.replicate 1000 5, 100⟩ =
      .ok (s2, ⟨List.replicate 1000 5, 1000⟩, Rfc2104.hmac (Fips202.sha3 32) 136 (List.replicate 32 9) ((List.replicate 1000 5).drop 100)) := by
  have g := hmac_macs Keccak.Sha3.hashes_256 trivial (by decide) keyOk
  have hw : (List.replicate 1000 (5 : Byte)).length = 1000 := List.length_replicate
  obtain ⟨s1, h1, h2⟩ := g.init h (List.replicate 32 9) ⟨by decide, trivial, by rw [List.length_replicate]; exact hk⟩
  obtain ⟨s2, y, h3, _⟩ := C93_mac_stream g (block := 136) (by decide) (by decide) h2 ⟨List.replicate 1000 5, 100⟩ (by dsimp only; omega) (by dsimp only; omega) trivial
  refine ⟨s1, s2, h1, ?_⟩
  simp only [hw, List.nil_append] at h3
  exact h3

end Cex.Streams
