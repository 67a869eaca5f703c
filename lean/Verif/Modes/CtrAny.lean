import Verif.Modes.Session
import Verif.Stream

/-!
# CTR with any parallel block size

Beyond 1 MB of parallel block the task counters can be wrong (C17). Whatever they are, the output is still the input XOR a string that
depends only on cipher, profile, nonce and length.
-/

namespace Cex.Modes
open Cex Cex.Par Cex.IntTools Cex.Modes.Spec

theorem jump_total (k : Kind) {n : List Byte} (h : n.length = 16) (a : Nat) : ∃ J, k.jump n a = .ok J ∧ J.length = 16 := by
  cases k
  · obtain ⟨w, h1, h2, _⟩ := C03_be_increase_partial 4 (Nat.le_refl 32) (BitVec.ofNat 32 a) n [] (List.replicate 16 0) [] (by simp [h])
    simp only [List.nil_append, List.append_nil, List.length_nil] at h1
    exact ⟨w, h1, h2.trans h⟩
  · obtain ⟨w, h1, h2, _⟩ := C03_le_increase_partial 8 (Nat.le_refl 64) (BitVec.ofNat 64 a) n [] (List.replicate 16 0) [] (by simp [h])
    simp only [List.nil_append, List.append_nil, List.length_nil] at h1
    exact ⟨w, h1, h2.trans h⟩

theorem flatW_xor_any (K : Nat → List Byte) (L : Nat) (hK : ∀ i, (K i).length = L) (msg : List Byte) (n : Nat) (hm : n * L ≤ msg.length) :
    flatW (fun i => xorBytes (K i) ((msg.drop (i * L)).take L)) n = xorBytes (flatW K n) (msg.take (n * L)) ∧ (flatW K n).length = n * L := by
  induction n with
  | zero => simp [flatW, xorBytes]
  | succ n ih =>
    rw [Nat.succ_mul] at hm ⊢
    obtain ⟨h1, h2⟩ := ih (by omega)
    refine ⟨?_, ?_⟩
    · rw [flatW_succ, h1, flatW_succ, List.take_add, xorBytes_append]
      rw [h2, List.length_take]; omega
    · rw [flatW_succ, List.length_append, h2, hK]

/-- One parallel block: a keystream and a next counter that do not depend on message, SIMD width or schedule. -/
theorem ctrParallel_any (k : Kind) (c : Cipher) (hE : ∀ b, b.length = 16 → (c.enc b).length = 16) (p : Profile) (hv : p.Valid) (hp : p.isParallel = true)
    (nonce : List Byte) (hn : nonce.length = 16) :
    ∃ ks n', ks.length = p.blockSize ∧ n'.length = 16 ∧ ∀ (W : Nat) (sched : List Nat), Covers p.degree (ctrTurns W (p.blockSize / p.degree)) sched →
      ∀ (inp msg : List Byte) (io : Nat), Holds inp io msg → msg.length = p.blockSize → ∀ (pre junk post : List Byte) (oo : Nat), pre.length = oo → junk.length = msg.length →
      ctrParallel k W c p sched nonce inp io (pre ++ junk ++ post) oo p.blockSize = .ok (n', pre ++ xorBytes ks msg ++ post) := by
  obtain ⟨m, hm, hd, hs, hb⟩ := hv.split hp
  have hj : ∀ i, ∃ J, k.jump nonce (m * i) = .ok J ∧ J.length = 16 := fun i => jump_total k hn _
  obtain ⟨J, hJJ⟩ := Classical.axiomOfChoice hj
  have hJ := fun i => (hJJ i).1
  have hJl := fun i => (hJJ i).2
  have hbm : p.degree * (m * 16) = p.blockSize := by rw [hb, Nat.mul_assoc]
  refine ⟨flatW (fun i => ksBlocks c.enc k (J i) m) p.degree, k.cnt (J (p.degree - 1)) m, ?_, cnt_length _ _ _, ?_⟩
  · have := (flatW_xor_any (fun i => ksBlocks c.enc k (J i) m) (m * 16) (fun i => ksBlocks_length c.enc hE k _ _) (List.replicate p.blockSize 0) p.degree
      (by rw [List.length_replicate, hbm]; exact Nat.le_refl _)).2
    rw [this, hbm]
  · intro W sched hsc inp msg io hin hml pre junk post oo hpl hjl
    rw [hs] at hsc
    have := ctrParallel_gen k W c hE p m hd hs hb nonce inp msg io hn hin hml pre junk post oo hpl hjl J (fun i _ => hJ i) (fun i _ => hJl i) sched hsc
    rw [this, (flatW_xor_any (fun i => ksBlocks c.enc k (J i) m) (m * 16) (fun i => ksBlocks_length c.enc hE k _ _) msg p.degree (by rw [hml, hbm]; exact Nat.le_refl _)).1,
      hbm, List.take_of_length_le (Nat.le_of_eq hml)]

/-- Several parallel blocks. -/
theorem ctrLoop_any (k : Kind) (c : Cipher) (hE : ∀ b, b.length = 16 → (c.enc b).length = 16) (p : Profile) (hv : p.Valid) (hp : p.isParallel = true) :
    ∀ (cnt : Nat) (nonce : List Byte), nonce.length = 16 →
    ∃ ks n', ks.length = cnt * p.blockSize ∧ n'.length = 16 ∧ ∀ (W : Nat) (scheds : Nat → List Nat) (st : Nat),
      (∀ i, st ≤ i → i < st + cnt → Covers p.degree (ctrTurns W (p.blockSize / p.degree)) (scheds i)) →
      ∀ (inp msg : List Byte) (io : Nat), Holds inp (io + st * p.blockSize) msg → msg.length = cnt * p.blockSize → ∀ (pre junk post : List Byte) (oo : Nat),
      pre.length = oo + st * p.blockSize → junk.length = msg.length →
      loopN cnt st (fun i (s : List Byte × List Byte) =>
        ctrParallel k W c p (scheds i) s.1 inp (io + i * p.blockSize) s.2 (oo + i * p.blockSize) p.blockSize) (nonce, pre ++ junk ++ post) =
        .ok (n', pre ++ xorBytes ks msg ++ post)
  | 0, nonce, hn => ⟨[], nonce, by simp, hn, by
      intro W scheds st _ inp msg io _ hm pre junk post oo _ hj
      rw [Nat.zero_mul] at hm
      have e1 := List.eq_nil_of_length_eq_zero hm
      subst e1
      have e2 := List.eq_nil_of_length_eq_zero hj
      subst e2
      simp [loopN, xorBytes]⟩
  | cnt + 1, nonce, hn => by
    obtain ⟨k1, n1, hk1, hn1, f1⟩ := ctrParallel_any k c hE p hv hp nonce hn
    obtain ⟨k2, n2, hk2, hn2, f2⟩ := ctrLoop_any k c hE p hv hp cnt n1 hn1
    refine ⟨k1 ++ k2, n2, by rw [List.length_append, hk1, hk2, Nat.succ_mul, Nat.add_comm], hn2, ?_⟩
    intro W scheds st hsc inp msg io hin hm pre junk post oo hpl hjl
    rw [Nat.succ_mul] at hm
    have hm1 : (msg.take p.blockSize).length = p.blockSize := by rw [List.length_take]; omega
    have hm2 : (msg.drop p.blockSize).length = cnt * p.blockSize := by rw [List.length_drop]; omega
    have hj1 : (junk.take p.blockSize).length = p.blockSize := by rw [List.length_take]; omega
    have hj2 : (junk.drop p.blockSize).length = cnt * p.blockSize := by rw [List.length_drop]; omega
    have e : pre ++ junk ++ post = pre ++ junk.take p.blockSize ++ (junk.drop p.blockSize ++ post) := by
      simp only [List.append_assoc, List.append_cancel_left_eq]
      rw [← List.append_assoc, List.take_append_drop]
    have r1 := f1 W (scheds st) (hsc st (Nat.le_refl _) (by omega)) inp (msg.take p.blockSize) (io + st * p.blockSize) (hin.takeN _) hm1 pre (junk.take p.blockSize)
      (junk.drop p.blockSize ++ post) (oo + st * p.blockSize) hpl (by rw [hj1, hm1])
    have hin2 : Holds inp (io + (st + 1) * p.blockSize) (msg.drop p.blockSize) := by
      have := hin.dropN (n := p.blockSize) (by omega)
      rw [Nat.succ_mul, ← Nat.add_assoc]; exact this
    have hx : (xorBytes k1 (msg.take p.blockSize)).length = p.blockSize := by rw [xorBytes_length, hk1, hm1]; exact Nat.min_self _
    have r2 := f2 W scheds (st + 1) (fun i h1 h2 => hsc i (by omega) (by omega)) inp (msg.drop p.blockSize) io hin2 hm2 (pre ++ xorBytes k1 (msg.take p.blockSize))
      (junk.drop p.blockSize) post oo (by rw [List.length_append, hx, hpl, Nat.succ_mul]; omega) (by rw [hj2, hm2])
    rw [loopN, e]
    simp only [r1, ok_bind]
    rw [← List.append_assoc, r2]
    conv => rhs; rw [← List.take_append_drop p.blockSize msg, xorBytes_append (by rw [hk1, hm1])]
    simp only [List.append_assoc]

/-- **Any valid profile.** The call XORs onto the message a string that depends only on cipher, profile, nonce and message length. -/
theorem ctr_any (k : Kind) (c : Cipher) (hE : ∀ b, b.length = 16 → (c.enc b).length = 16) (p : Profile) (hv : p.Valid) (nonce : List Byte) (hn : nonce.length = 16) (len : Nat) :
    ∃ ks n', ks.length = len ∧ n'.length = 16 ∧ ∀ (W : Nat) (msg : List Byte), msg.length = len →
      Maps p (ctrTurns W (p.blockSize / p.degree)) (ctrCall c k W p nonce) msg n' (xorBytes ks msg) := by
  by_cases hc : p.isParallel = true ∧ p.blockSize ≤ len
  · obtain ⟨hp, hle⟩ := hc
    have hb0 : p.blockSize ≠ 0 := (hv hp).2.1
    have hcl : len / p.blockSize * p.blockSize ≤ len := Nat.div_mul_le_self _ _
    obtain ⟨k1, n1, hk1, hn1, f1⟩ := ctrLoop_any k c hE p hv hp (len / p.blockSize) nonce hn
    refine ⟨k1 ++ ctrStream c.enc (k.cnt n1) (len - len / p.blockSize * p.blockSize), k.cnt n1 ((len - len / p.blockSize * p.blockSize + 15) / 16), ?_, cnt_length _ _ _, ?_⟩
    · rw [List.length_append, hk1, ctrStream_length c.enc hE]; omega
    · rintro W msg rfl scheds inp io pre junk post hf hin hj
      rw [ctrCall, ctrTransform, if_pos ⟨hp, hle⟩, if_neg hb0]
      generalize hcnt : msg.length / p.blockSize = cnt at *
      have hm1 : (msg.take (cnt * p.blockSize)).length = cnt * p.blockSize := by rw [List.length_take]; omega
      have hm2 : (msg.drop (cnt * p.blockSize)).length = msg.length - cnt * p.blockSize := List.length_drop
      have hj1 : (junk.take (cnt * p.blockSize)).length = cnt * p.blockSize := by rw [List.length_take]; omega
      have e : pre ++ junk ++ post = pre ++ junk.take (cnt * p.blockSize) ++ (junk.drop (cnt * p.blockSize) ++ post) := by
        simp only [List.append_assoc, List.append_cancel_left_eq]
        rw [← List.append_assoc, List.take_append_drop]
      have r1 := f1 W scheds 0 (fun i _ h2 => hf hp i (by omega)) inp (msg.take (cnt * p.blockSize)) io (by rw [Nat.zero_mul]; exact hin.takeN _) hm1 pre
        (junk.take (cnt * p.blockSize)) (junk.drop (cnt * p.blockSize) ++ post) pre.length (by omega) (by rw [hj1, hm1])
      rw [e]
      simp only [r1, ok_bind]
      have hx : (xorBytes k1 (msg.take (cnt * p.blockSize))).length = cnt * p.blockSize := by rw [xorBytes_length, hk1, hm1]; exact Nat.min_self _
      have hfin : xorBytes (k1 ++ ctrStream c.enc (k.cnt n1) (msg.length - cnt * p.blockSize)) msg =
          xorBytes k1 (msg.take (cnt * p.blockSize)) ++ xorBytes (ctrStream c.enc (k.cnt n1) (msg.length - cnt * p.blockSize)) (msg.drop (cnt * p.blockSize)) := by
        conv => lhs; rw [← List.take_append_drop (cnt * p.blockSize) msg, xorBytes_append (by rw [hk1, hm1])]
        simp
      rw [hfin, Nat.mul_comm p.blockSize cnt]
      split
      · have := ctrSequential_ok k W c hE n1 inp (msg.drop (cnt * p.blockSize)) (io + cnt * p.blockSize) (pre.length + cnt * p.blockSize) hn1 (hin.dropN (by omega))
          (pre ++ xorBytes k1 (msg.take (cnt * p.blockSize))) (junk.drop (cnt * p.blockSize)) post (by rw [List.length_append, hx]) (by rw [hm2, List.length_drop, hj])
        rw [hm2] at this
        simp only [List.append_assoc] at this ⊢
        exact this
      · have h0 : msg.length - cnt * p.blockSize = 0 := by omega
        have e1 : msg.drop (cnt * p.blockSize) = [] := List.drop_of_length_le (by omega)
        have e2 : junk.drop (cnt * p.blockSize) = [] := List.drop_of_length_le (by omega)
        rw [h0, e1, e2, cnt_zero k hn1]
        simp [xorBytes]
  · refine ⟨ctrStream c.enc (k.cnt nonce) len, k.cnt nonce ((len + 15) / 16), ctrStream_length c.enc hE _ _ _, cnt_length _ _ _, ?_⟩
    rintro W msg rfl scheds inp io pre junk post hf hin hj
    rw [ctrCall, ctrTransform, if_neg hc]
    exact ctrSequential_ok k W c hE nonce inp msg io pre.length hn hin pre junk post rfl hj

end Cex.Modes
