import Verif.Keccak.KpaModel
import Verif.Keccak.KpaSpec
import Verif.Keccak.KmacLemmas
import Verif.Keccak.ShakeProps

/-! # KPA: lemmas -/

namespace Cex.Keccak
open Cex Cex.IntTools Stream Cex.Mac

variable {P : List Byte → M (List Byte)} {f : List Byte → List Byte} {r : Nat}

namespace Kpa

/-- eight states -/
structure Eight (l : List (List Byte)) : Prop where
  len : l.length = 8
  each : ∀ x ∈ l, x.length = 200

theorem each_eq {g : Nat → List Byte → M (List Byte)} {h : Nat → List Byte → List Byte} {l : List (List Byte)} (hl : l.length = 8)
    (H : ∀ i x, i < 8 → x ∈ l → g i x = .ok (h i x)) : each g l = .ok (l.mapIdx h) := by
  obtain ⟨s', e, h1, h2⟩ := loopN_inv (f := fun i l => do let x ← rd l i; let y ← g i x; wr l i y)
    (fun j s => s.length = 8 ∧ ∀ i, s[i]? = if i < j then (l[i]?).map (h i) else l[i]?) 8 0 l (by
      rintro j s - hj ⟨hs, hq⟩
      have hj8 : j < 8 := by omega
      have hlj : j < l.length := by omega
      have hsj : j < s.length := by omega
      have e : s[j] = l[j] := by
        have := hq j
        rw [if_neg (by omega), List.getElem?_eq_getElem hsj, List.getElem?_eq_getElem hlj] at this
        exact Option.some.inj this
      rw [rd_ok hsj, ok_bind, e, H j _ hj8 (List.getElem_mem hlj), ok_bind, wr_ok _ hsj]
      refine ⟨_, rfl, by rw [List.length_set, hs], fun i => ?_⟩
      rw [List.getElem?_set]
      by_cases hij : j = i
      · subst hij
        rw [if_pos rfl, if_pos hsj, if_pos (by omega), List.getElem?_eq_getElem hlj]; rfl
      · rw [if_neg hij, hq i]
        by_cases hlt : i < j
        · rw [if_pos hlt, if_pos (by omega)]
        · rw [if_neg hlt, if_neg (by omega)]) ⟨hl, fun i => by rw [if_neg (by omega)]⟩
  rw [each, e]
  congr 1
  apply List.ext_getElem?
  intro i
  rw [h2 i, List.getElem?_mapIdx]
  by_cases hi : i < 8
  · rw [if_pos (by omega)]
  · rw [if_neg (by omega), List.getElem?_eq_none (by omega)]; rfl

theorem Eight.mapIdx {l : List (List Byte)} (e : Eight l) {h : Nat → List Byte → List Byte} (H : ∀ i x, x.length = 200 → (h i x).length = 200) : Eight (l.mapIdx h) := by
  refine ⟨by rw [List.length_mapIdx, e.len], fun x hx => ?_⟩
  obtain ⟨i, hi, rfl⟩ := List.mem_mapIdx.mp hx
  exact H _ _ (e.each _ (List.getElem_mem hi))

/-- one block of `8 r` bytes to the leaves -/
def step (f : List Byte → List Byte) (r : Nat) (l : List (List Byte)) (b : List Byte) : List (List Byte) :=
  l.mapIdx fun i s => Fips202.block f s ((b.drop (i * r)).take r)

theorem lane_len {b : List Byte} (hb : b.length = r * 8) {i : Nat} (hi : i < 8) : ((b.drop (i * r)).take r).length = r := by
  rw [List.length_take, List.length_drop, hb]
  have : (i + 1) * r ≤ 8 * r := Nat.mul_le_mul_right r hi
  rw [Nat.add_mul] at this
  omega

theorem absorb8_eq (p : Perm P f) (hr : r ≤ 200) {inp b : List Byte} {io : Nat} (hi : Holds inp io b) (hb : b.length = r * 8) {l : List (List Byte)} (e : Eight l) :
    absorb8 P inp io r l = .ok (step f r l b) := by
  have h1 : each (fun i st => xorInto inp (io + i * r) st 0 r) l = .ok (l.mapIdx fun i s => xorBytes s ((b.drop (i * r)).take r ++ List.replicate (200 - r) 0)) := by
    refine each_eq e.len (fun i x hi8 hx => ?_)
    have hl := lane_len hb hi8
    have hle : i * r ≤ b.length := by rw [hb, Nat.mul_comm r 8]; exact Nat.mul_le_mul_right r (by omega)
    have := fastAbsorb_eq (n := r) ((hi.dropN hle).takeN r) hl.symm (e.each x hx) (by omega)
    rw [fastAbsorb, hl] at this
    exact this
  have e2 : Eight (l.mapIdx fun i s => xorBytes s ((b.drop (i * r)).take r ++ List.replicate (200 - r) 0)) := by
    refine ⟨by rw [List.length_mapIdx, e.len], fun x hx => ?_⟩
    obtain ⟨i, hi, rfl⟩ := List.mem_mapIdx.mp hx
    rw [xorBytes_length, e.each _ (List.getElem_mem hi), List.length_append, List.length_replicate, lane_len hb (by rw [← e.len]; exact hi)]
    omega
  rw [absorb8, h1, ok_bind, each_eq (h := fun _ s => f s) e2.len (fun i x _ hx => p.run _ (e2.each x hx)), List.mapIdx_mapIdx, step]
  congr 1
  apply List.ext_getElem (by simp)
  intro i hi1 hi2
  rw [List.getElem_mapIdx, List.getElem_mapIdx]
  simp only [Function.comp, Fips202.block]
  rw [lane_len hb (by rw [List.length_mapIdx, e.len] at hi1; exact hi1)]

theorem step_eight (p : Perm P f) (hr : r ≤ 200) {l : List (List Byte)} (e : Eight l) (b : List Byte) : Eight (step f r l b) :=
  e.mapIdx fun _ _ h => block_length p h (by rw [List.length_take]; omega)

theorem eager_eight (p : Perm P f) (hr : r ≤ 200) (B : Nat) (l : List (List Byte)) (m : List Byte) (e : Eight l) : Eight (eager B (step f r) l m).1 := by
  induction l, m using eager.induct B (step f r) with
  | case1 s m h ih => rw [eager, if_pos h]; exact ih (step_eight p hr e _)
  | case2 s m h => rw [eager, if_neg h]; exact e

theorem loop8_eq (p : Perm P f) (h0 : 0 < r) (hr : r ≤ 200) (inp : List Byte) : ∀ (n io : Nat) (m : List Byte) (l : List (List Byte)) (c : BitVec 64),
    Holds inp io m → m.length / (r * 8) = n → Eight l →
    loop8 P inp r n io (l, c) = .ok ((eager (r * 8) (step f r) l m).1, c + BitVec.ofNat 64 (r * 8 * n))
  | 0, io, m, l, c, _, hn, _ => by
    have : m.length < r * 8 := by rcases Nat.div_eq_zero_iff.mp hn with h | h <;> omega
    rw [eager_short this]; simp [loop8]
  | n + 1, io, m, l, c, hi, hn, e => by
    have hm : r * 8 ≤ m.length := by
      rcases Nat.lt_or_ge m.length (r * 8) with h | h
      · rw [Nat.div_eq_of_lt h] at hn; omega
      · exact h
    have hd : (m.drop (r * 8)).length / (r * 8) = n := by
      rw [List.length_drop]
      have := Nat.div_eq_sub_div (show 0 < r * 8 by omega) hm
      omega
    rw [loop8, absorb8_eq p hr (hi.takeN (r * 8)) (by rw [List.length_take]; omega) e, ok_bind,
      loop8_eq p h0 hr inp n (io + r * 8) _ _ _ (hi.dropN hm) hd (step_eight p hr e _)]
    conv_rhs => rw [eager, if_pos ⟨by omega, hm⟩]
    congr 2
    rw [BitVec.add_assoc, ← BitVec.ofNat_add]
    congr 2
    rw [Nat.mul_add]; omega

/-! ## The leaves see stripes -/

theorem stripe_cons (h0 : 0 < r) {b m : List Byte} (hb : b.length = 8 * r) (i : Nat) (hi : i < 8) : KpaSpec.stripe r i (b ++ m) = (b.drop (i * r)).take r ++ KpaSpec.stripe r i m := by
  have hB : 0 < 8 * r := by omega
  have hd : (b ++ m).length / (8 * r) = m.length / (8 * r) + 1 := by rw [List.length_append, hb, Nat.add_div_left _ hB]
  have hir : i * r + r ≤ b.length := by rw [hb]; have : (i + 1) * r ≤ 8 * r := Nat.mul_le_mul_right r hi; rw [Nat.add_mul] at this; omega
  rw [KpaSpec.stripe, KpaSpec.stripe, hd, List.range_succ_eq_map, List.flatMap_cons, List.flatMap_map]
  congr 1
  · rw [Nat.zero_mul, Nat.zero_add, List.drop_append_of_le_length (by omega), List.take_append_of_le_length (by rw [List.length_drop]; omega)]
  · congr 1
    funext j
    rw [show (j + 1) * (8 * r) + i * r = b.length + (j * (8 * r) + i * r) from by rw [hb, Nat.add_mul]; omega, ← List.drop_drop, List.drop_left]

theorem eager_stripes (h0 : 0 < r) (l : List (List Byte)) (hl : l.length = 8) : ∀ (k : Nat) (m : List Byte) (l : List (List Byte)), l.length = 8 → m.length = 8 * r * k →
    (eager (r * 8) (step f r) l m).1 = l.mapIdx fun i s => Fips202.absorb f r s (KpaSpec.stripe r i m)
  | 0, m, l, hl, hm => by
    have : m = [] := List.eq_nil_of_length_eq_zero (by omega)
    subst this
    rw [eager_short (by simp; omega)]
    apply List.ext_getElem (by simp)
    intro i h1 h2
    rw [List.getElem_mapIdx, KpaSpec.stripe, List.length_nil, Nat.zero_div, List.range_zero, List.flatMap_nil, Fips202.absorb, eager_short (by simpa using h0)]
  | k + 1, m, l, hl, hm => by
    have hge : 8 * r ≤ m.length := by rw [hm, Nat.mul_add]; omega
    have hb : (m.take (8 * r)).length = 8 * r := by rw [List.length_take]; omega
    have e : m = m.take (8 * r) ++ m.drop (8 * r) := (List.take_append_drop _ _).symm
    rw [eager, if_pos ⟨by omega, by omega⟩, eager_stripes h0 l hl k _ _ (by rw [step, List.length_mapIdx, hl]) (by rw [List.length_drop, hm, Nat.mul_add]; omega), step, List.mapIdx_mapIdx]
    apply List.ext_getElem (by simp)
    intro i h1 h2
    have hi : i < 8 := by rw [List.length_mapIdx, hl] at h1; exact h1
    rw [List.getElem_mapIdx, List.getElem_mapIdx]
    have es : KpaSpec.stripe r i m = ((m.take (r * 8)).drop (i * r)).take r ++ KpaSpec.stripe r i (m.drop (r * 8)) := by
      rw [Nat.mul_comm r 8, ← stripe_cons h0 hb i hi, List.take_append_drop]
    rw [es, Fips202.absorb, eager_cons h0 (lane_len (by rw [List.length_take]; omega) hi)]
    rfl

/-! ## Initialisation -/

theorem flushRate_eq (h8 : r % 8 = 0) (hr : r < 200) {q : Feed} (hp : q.pad.length = 200) (ho : q.off ≤ r) (hs : q.st.length = 200) : flushRate P r q = flush P q := by
  have hto : (q.pad.take q.off).length = q.off := by rw [List.length_take]; omega
  have hw := wordUp_le ho h8
  have hw2 := le_wordUp q.off
  have hc : ∀ n, q.off + n ≤ 200 → clear q.pad q.off n = .ok (q.pad.take q.off ++ List.replicate n 0 ++ q.pad.drop (q.off + n)) := fun n hn => by
    have e : q.pad = q.pad.take q.off ++ (q.pad.drop q.off).take n ++ q.pad.drop (q.off + n) := by
      rw [List.append_assoc, ← List.drop_drop, List.take_append_drop, List.take_append_drop]
    rw [clear]
    split
    · rename_i h; subst h; simp
    · conv => lhs; rw [e]
      rw [blit_at hto.symm (by rw [List.length_replicate, List.length_take, List.length_drop]; omega)]
  rw [flushRate, hc _ (by omega), ok_bind, flush, hc _ (by omega), ok_bind, absorbOne]
  have a1 := fastAbsorb_eq (inp := q.pad.take q.off ++ List.replicate (r - q.off) 0 ++ q.pad.drop (q.off + (r - q.off))) (b := q.pad.take q.off ++ List.replicate (r - q.off) 0) (io := 0) (n := r)
    (st := q.st) ⟨[], _, rfl, rfl⟩ (by rw [List.length_append, hto, List.length_replicate]; omega) hs (by rw [List.length_append, hto, List.length_replicate]; omega)
  have a2 := fastAbsorb_eq (inp := q.pad.take q.off ++ List.replicate (200 - q.off) 0 ++ q.pad.drop (q.off + (200 - q.off))) (b := q.pad.take q.off ++ List.replicate (wordUp q.off - q.off) 0)
    (io := 0) (n := wordUp q.off) (st := q.st)
    ⟨[], List.replicate (200 - wordUp q.off) 0 ++ q.pad.drop (q.off + (200 - q.off)), by
      rw [List.nil_append, ← List.append_assoc, List.append_assoc (q.pad.take q.off) (List.replicate (wordUp q.off - q.off) 0), List.replicate_append_replicate,
        show wordUp q.off - q.off + (200 - wordUp q.off) = 200 - q.off from by omega], rfl⟩
    (by rw [List.length_append, hto, List.length_replicate]; omega) hs (by rw [List.length_append, hto, List.length_replicate]; omega)
  rw [a1, ok_bind]
  rw [fastAbsorb] at a2
  rw [a2, ok_bind]
  congr 2
  simp only [List.length_append, hto, List.length_replicate, List.append_assoc, List.replicate_append_replicate]
  rw [show r - q.off + (200 - (q.off + (r - q.off))) = wordUp q.off - q.off + (200 - (q.off + (wordUp q.off - q.off))) from by omega]

theorem stage_eq (p : Perm P f) (hr : r < 200) (h20 : 20 ≤ r) (h8 : r % 8 = 0) {s : List Byte} (hs : s.length = 200) (x : List Byte) (hn : 8 * x.length < 2 ^ 64) :
    stage P r x s = .ok (Fips202.absorb f r s (Sp800185.bytepad (Sp800185.encodeString x) r)) := by
  have h0 : 0 < r := by omega
  obtain ⟨a, b, h1, h2, h3⟩ := start_feed (f := f) hr h20 s x.length hn
  rw [stage, h1, ok_bind, h2, ok_bind]
  obtain ⟨q, h4, h5⟩ := feed_eq p h0 hr hs x _ _ h3
  rw [h4, ok_bind]
  rw [List.append_assoc] at h5
  rw [flushRate_eq h8 hr h5.padLen (by rw [h5.off]; exact lazy_rest_le h0 _ _) (by rw [h5.st]; exact lazy_length p (Nat.le_of_lt hr) _ _ hs),
    flush_eq p h0 hr h8 hs _ (by simp [Sp800185.leftEncode]) q h5]
  rfl

theorem rate_cases (n : Nat) : rateOf n = 168 ∨ rateOf n = 136 ∨ rateOf n = 72 := by
  rw [rateOf]; split <;> [exact .inl rfl; (split <;> [exact .inr (.inl rfl); exact .inr (.inr rfl)])]

theorem algn_eq (i : Nat) : algn i = KpaSpec.name i := rfl

end Kpa

end Cex.Keccak
