import Verif.Modes.Lemmas

/-! # ECB and CBC engines: sequential and parallel code compute the block functions -/

namespace Cex.Modes
open Cex Cex.Par Cex.IntTools Cex.Modes.Spec

theorem div_mul_assoc16 {len bsz : Nat} {m n : Nat} (h : bsz = n * m * 16) : len / bsz * (n * m) ≤ len / 16 := by
  rw [Nat.le_div_iff_mul_le (by omega), Nat.mul_assoc, ← h]
  exact Nat.div_mul_le_self _ _

/-- `ecbSequential` on blocks. -/
theorem ecbSequential_ok (f : List Byte → List Byte) (hf : ∀ b, b.length = 16 → (f b).length = 16) (inp : List Byte) (io : Nat)
    (bs : List (List Byte)) (hbs : Blocks 16 bs) (hin : Holds inp io bs.flatten) (pre junk post : List Byte) (oo : Nat)
    (hp : pre.length = oo) (hj : junk.length = bs.length * 16) (len : Nat) (hlen : len / 16 = bs.length) :
    ecbSequential f inp io (pre ++ junk ++ post) oo len = .ok (pre ++ (bs.map f).flatten ++ post) := by
  have h := runActs_blocks (ecbStep f) (fun _ => True) 16 oo
    (fun k _ out => (cipherBlock f inp (io + k * 16) out (oo + k * 16)).map (fun x => ((), x)))
    bs () pre junk post hp hj trivial (by
      intro k b l hk _
      have hb := hbs.get hk
      refine ⟨trivial, hf b hb, ?_⟩
      intro a old c ha hold
      rw [cipherBlock_at (Cex.Holds.block hbs hin hk) hb (hf b hb) ha.symm hold]
      rfl)
  rw [ecbStep_run] at h
  have e : ∀ (n s : Nat) (out : List Byte),
      runActs (forActs s n (fun k _ out => (cipherBlock f inp (io + k * 16) out (oo + k * 16)).map (fun x => ((), x)))) () out =
      (loopN n s (fun i out => cipherBlock f inp (io + i * 16) out (oo + i * 16)) out).map (fun x => ((), x)) := by
    intro n
    induction n with
    | zero => intro s out; rfl
    | succ n ih =>
      intro s out
      rw [forActs, List.range'_succ, List.map_cons, runActs, loopN]
      cases hc : cipherBlock f inp (io + s * 16) out (oo + s * 16) with
      | error e => rfl
      | ok x => exact ih (s + 1) x
  rw [e] at h
  rw [ecbSequential, hlen]
  cases hc : loopN bs.length 0 (fun i out => cipherBlock f inp (io + i * 16) out (oo + i * 16)) (pre ++ junk ++ post) with
  | error e => rw [hc] at h; cases h
  | ok x => rw [hc] at h; simp only [Except.map] at h; injection h with h; injection h with _ h; rw [h]

/-- `ecbParallel` on one parallel block, any schedule. -/
theorem ecbParallel_ok (W thr : Nat) (p : Profile) (m : Nat) (hd : p.degree ≠ 0) (hs : p.blockSize / p.degree = m * 16)
    (f : List Byte → List Byte) (hf : ∀ b, b.length = 16 → (f b).length = 16) (inp : List Byte) (io : Nat)
    (bs : List (List Byte)) (hbs : Blocks 16 bs) (hn : bs.length = p.degree * m) (hin : Holds inp io bs.flatten)
    (pre junk post : List Byte) (oo : Nat) (hp : pre.length = oo) (hj : junk.length = p.degree * (m * 16))
    (sched : List Nat) (hsc : Covers p.degree (ecbTurns W thr m) sched) :
    ecbParallel W thr p f sched inp io (pre ++ junk ++ post) oo = .ok (pre ++ (bs.map f).flatten ++ post) := by
  have hm : m * 16 / 16 = m := Nat.mul_div_cancel _ (by omega)
  have h := par_blocks (K := Unit) (ecbStep f) 16 m p.degree oo bs hn ()
    (fun i => ⟨ecbGenActs W thr f inp (io + i * (m * 16)) (oo + i * (m * 16)) m, ()⟩) (fun _ _ => True) pre junk post hp hj
    sched (by
      intro i hi w hw
      have h3 := mul_le_of_lt hi (Nat.le_of_eq hn.symm)
      rw [Nat.succ_mul] at h3
      have hg : ((bs.drop (i * m)).take m).length = m := by rw [List.length_take, List.length_drop]; omega
      have hh := Holds.group hbs hin (i * m) m (by omega)
      rw [Nat.mul_assoc] at hh
      have := ecbGen_runs W thr f hf inp _ (oo + i * (m * 16)) _ ((hbs.drop (i * m)).take m) hh w (by rw [hg, hw])
      rw [hg] at this
      rw [ecbStep_run]
      exact ⟨(), trivial, this⟩)
    hsc.1 (fun i hi => by simp only [ecbGen_turns]; exact hsc.2 i hi)
  obtain ⟨ts', h1, _⟩ := h
  rw [ecbStep_run] at h1
  simp only [ecbParallel, if_neg hd, hs, hm, h1, pure_eq_ok, ok_bind]

/-- `ECB::Transform` is the blockwise map, sequential or parallel under any schedule. -/
theorem ecbTransform_ok (W thr : Nat) (p : Profile) (hv : p.Valid) (f : List Byte → List Byte)
    (hf : ∀ b, b.length = 16 → (f b).length = 16) (inp : List Byte) (io : Nat) (bs : List (List Byte)) (hbs : Blocks 16 bs)
    (hin : Holds inp io bs.flatten) (pre junk post : List Byte) (oo : Nat) (hp : pre.length = oo)
    (hj : junk.length = bs.length * 16) (len : Nat) (hlen : len / 16 = bs.length) (scheds : Nat → List Nat)
    (hsc : p.isParallel = true → ∀ i, i < len / p.blockSize →
      Covers p.degree (ecbTurns W thr (p.blockSize / p.degree / 16)) (scheds i)) :
    ecbTransform W thr p f scheds inp io (pre ++ junk ++ post) oo len = .ok (pre ++ (bs.map f).flatten ++ post) := by
  rw [ecbTransform]
  split
  · rename_i hc
    obtain ⟨m, hm, hd, hs, hb⟩ := hv.split hc.1
    have hmm : m * 16 / 16 = m := Nat.mul_div_cancel _ (by omega)
    have hsc := hsc hc.1
    rw [hs, hmm] at hsc
    have hb0 : p.blockSize ≠ 0 := (hv hc.1).2.1
    generalize hcnt : len / p.blockSize = cnt at *
    have hle : cnt * (p.degree * m) ≤ bs.length := by rw [← hcnt, ← hlen]; exact div_mul_assoc16 hb
    have hbs16 : p.degree * m * 16 = p.blockSize := hb.symm
    have hcb : cnt * (p.degree * m * 16) = cnt * (p.degree * m) * 16 := by rw [Nat.mul_assoc cnt]
    have hle16 : cnt * (p.degree * m) * 16 ≤ bs.length * 16 := Nat.mul_le_mul_right _ hle
    have e0 : pre ++ junk ++ post =
        pre ++ junk.take (cnt * (p.degree * m * 16)) ++ (junk.drop (cnt * (p.degree * m * 16)) ++ post) := by
      simp only [List.append_assoc, List.append_cancel_left_eq]
      rw [← List.append_assoc, List.take_append_drop]
    have hl1 : (junk.take (cnt * (p.degree * m * 16))).length = cnt * (p.degree * m * 16) := by
      rw [List.length_take, hj, hcb]; omega
    have h := outer_blocks (ecbStep f) (fun _ => True) 16 oo (p.degree * m) cnt
      (fun i _ out => (ecbParallel W thr p f (scheds i) inp (io + i * p.blockSize) out (oo + i * p.blockSize)).map (fun x => ((), x)))
      bs hle () pre (junk.take (cnt * (p.degree * m * 16))) (junk.drop (cnt * (p.degree * m * 16)) ++ post) hp hl1 trivial (by
        intro k g l hk hg hgl _
        have hg16 : Blocks 16 g := hg ▸ (hbs.drop _).take _
        have h3 := mul_le_of_lt hk hle
        rw [Nat.succ_mul] at h3
        have hh : Holds inp (io + k * (p.degree * m) * 16) g.flatten := hg ▸ Holds.group hbs hin (k * (p.degree * m)) _ (by omega)
        rw [Nat.mul_assoc, hbs16] at hh
        refine ⟨trivial, by rw [ecbStep_run, (map_length16 hf hg16).length, List.length_map, hgl], ?_⟩
        intro a old c ha hold
        rw [hbs16] at ha
        rw [ecbParallel_ok W thr p m hd hs f hf inp _ g hg16 hgl hh a old c _ ha
          (by rw [hold, Nat.mul_assoc]) (scheds k) (hsc k hk), ecbStep_run]
        rfl)
    rw [ecbStep_run] at h
    have e : ∀ (n s : Nat) (out : List Byte),
        runActs (forActs s n (fun i _ out => (ecbParallel W thr p f (scheds i) inp (io + i * p.blockSize) out (oo + i * p.blockSize)).map (fun x => ((), x)))) () out =
        (loopN n s (fun i out => ecbParallel W thr p f (scheds i) inp (io + i * p.blockSize) out (oo + i * p.blockSize)) out).map (fun x => ((), x)) := by
      intro n
      induction n with
      | zero => intro s out; rfl
      | succ n ih =>
        intro s out
        rw [forActs, List.range'_succ, List.map_cons, runActs, loopN]
        cases hc : ecbParallel W thr p f (scheds s) inp (io + s * p.blockSize) out (oo + s * p.blockSize) with
        | error e => rfl
        | ok x => exact ih (s + 1) x
    rw [e] at h
    have hloop : loopN cnt 0 (fun i out => ecbParallel W thr p f (scheds i) inp (io + i * p.blockSize) out (oo + i * p.blockSize))
        (pre ++ junk ++ post) = .ok (pre ++ ((bs.take (cnt * (p.degree * m))).map f).flatten ++
          (junk.drop (cnt * (p.degree * m * 16)) ++ post)) := by
      rw [e0]
      cases hc : loopN cnt 0 (fun i out => ecbParallel W thr p f (scheds i) inp (io + i * p.blockSize) out (oo + i * p.blockSize))
          (pre ++ junk.take (cnt * (p.degree * m * 16)) ++ (junk.drop (cnt * (p.degree * m * 16)) ++ post)) with
      | error e => rw [hc] at h; cases h
      | ok x => rw [hc] at h; simp only [Except.map] at h; injection h with h; injection h with _ h; rw [h]
    simp only [if_neg hb0, hloop, ok_bind]
    have hpos : p.blockSize * cnt = cnt * (p.degree * m) * 16 := by rw [Nat.mul_comm, ← hbs16, ← Nat.mul_assoc]
    have hT : ((bs.take (cnt * (p.degree * m))).map f).flatten.length = cnt * (p.degree * m) * 16 := by
      rw [(map_length16 hf (hbs.take _)).length, List.length_map, List.length_take, Nat.min_eq_left hle]
    have hrest : (bs.drop (cnt * (p.degree * m))).length = bs.length - cnt * (p.degree * m) := List.length_drop
    have hd2 : (len - p.blockSize * cnt) / 16 = (bs.drop (cnt * (p.degree * m))).length := by
      rw [hrest, hpos]; omega
    have hfin : (bs.map f).flatten = ((bs.take (cnt * (p.degree * m))).map f).flatten ++
        ((bs.drop (cnt * (p.degree * m))).map f).flatten := by
      rw [← List.flatten_append, ← List.map_append, List.take_append_drop]
    have hin2 := Cex.Holds.drop hbs hin (cnt * (p.degree * m)) hle
    split
    · have := ecbSequential_ok f hf inp (io + p.blockSize * cnt) (bs.drop (cnt * (p.degree * m))) (hbs.drop _)
        (by rw [hpos]; exact hin2) (pre ++ ((bs.take (cnt * (p.degree * m))).map f).flatten)
        (junk.drop (cnt * (p.degree * m * 16))) post (oo + p.blockSize * cnt)
        (by rw [List.length_append, hp, hT, hpos])
        (by rw [List.length_drop, hj, hcb, hrest, Nat.sub_mul]) (len - p.blockSize * cnt) hd2
      rw [hfin]
      simp only [List.append_assoc] at this ⊢
      exact this
    · rename_i hr
      have h0 : len - p.blockSize * cnt = 0 := by omega
      have h1 : bs.drop (cnt * (p.degree * m)) = [] := by
        rw [h0] at hd2; exact List.length_eq_zero_iff.mp (by simpa using hd2.symm)
      have h2 : junk.drop (cnt * (p.degree * m * 16)) = [] := by
        apply List.length_eq_zero_iff.mp
        rw [List.length_drop, hj, hcb]
        rw [h1] at hrest; simp at hrest; omega
      rw [hfin, h1, h2]
      simp
  · exact ecbSequential_ok f hf inp io bs hbs hin pre junk post oo hp hj len hlen

/-! ## CBC -/

theorem cbcEnc_blocks (E : List Byte → List Byte) (hE : ∀ b, b.length = 16 → (E b).length = 16) :
    ∀ (g : List (List Byte)) (iv : List Byte), Blocks 16 g → iv.length = 16 → Blocks 16 (cbcEnc E iv g)
  | [], _, _, _ => by intro x hx; simp [cbcEnc] at hx
  | b :: g, iv, hb, hiv => by
    obtain ⟨h1, h2⟩ := hb.cons
    have hx16 : (E (xorBytes iv b)).length = 16 := hE _ (by rw [xorBytes_length, h1, hiv]; rfl)
    intro x hx
    rw [cbcEnc, List.mem_cons] at hx
    rcases hx with rfl | hx
    · exact hx16
    · exact cbcEnc_blocks E hE g _ h2 hx16 x hx

/-- The scalar decryption loop, from any block position. -/
theorem cbcDecLoop_ok (c : Cipher) (hD : ∀ b, b.length = 16 → (c.dec b).length = 16) (inp : List Byte) (io oo prc : Nat)
    (bs : List (List Byte)) (hbs : Blocks 16 bs) (hin : Holds inp (io + prc * 16) bs.flatten) (iv pre junk post : List Byte)
    (hiv : iv.length = 16) (hp : pre.length = oo + prc * 16) (hj : junk.length = bs.length * 16) :
    runActs (forActs 0 bs.length (fun i => cbcDecBlock c inp ((i + prc) * 16 + io) ((i + prc) * 16 + oo))) iv (pre ++ junk ++ post) =
      .ok (lastOr iv bs, pre ++ (cbcDec c.dec iv bs).flatten ++ post) := by
  have h := runActs_blocks (cbcDecStep c.dec) (fun l => l.length = 16) 16 (oo + prc * 16)
    (fun i => cbcDecBlock c inp ((i + prc) * 16 + io) ((i + prc) * 16 + oo)) bs iv pre junk post hp hj hiv (by
      intro k b l hk hl
      have hb := hbs.get hk
      refine ⟨hb, by simp only [cbcDecStep, xorBytes_length, hD b hb]; rw [hl]; rfl, ?_⟩
      intro a old q ha hold
      have hh := Cex.Holds.block hbs hin hk
      rw [show io + prc * 16 + k * 16 = (k + prc) * 16 + io by omega] at hh
      exact cbcDecBlock_at c hD hh hb hl (by rw [ha]; omega) hold)
  rw [cbcDecStep_run] at h
  exact h

theorem cbcParallel_ok (c : Cipher) (hD : ∀ b, b.length = 16 → (c.dec b).length = 16) (W : Nat) (p : Profile) (m : Nat)
    (hm : m ≠ 0) (hd : p.degree ≠ 0) (hs : p.blockSize / p.degree = m * 16) (inp : List Byte) (io : Nat)
    (bs : List (List Byte)) (hbs : Blocks 16 bs) (hn : bs.length = p.degree * m) (hin : Holds inp io bs.flatten)
    (iv pre junk post : List Byte) (hiv : iv.length = 16) (oo : Nat) (hp : pre.length = oo)
    (hj : junk.length = p.degree * (m * 16)) (sched : List Nat) (hsc : Covers p.degree (cbcTurns W m) sched) :
    cbcParallel c W p sched inp io oo iv (pre ++ junk ++ post) =
      .ok (lastOr iv bs, pre ++ (cbcDec c.dec iv bs).flatten ++ post) := by
  have hmm : m * 16 / 16 = m := Nat.mul_div_cancel _ (by omega)
  have h := par_blocks (cbcDecStep c.dec) 16 m p.degree oo bs hn iv
    (cbcThread c W inp io oo (m * 16) iv) (fun i s => s.iv = lastOr iv (bs.take ((i + 1) * m))) pre junk post hp hj
    sched (by
      intro i hi w hw
      have h3 := mul_le_of_lt hi (Nat.le_of_eq hn.symm)
      rw [Nat.succ_mul] at h3
      have hg : ((bs.drop (i * m)).take m).length = m := by rw [List.length_take, List.length_drop]; omega
      have hh := Holds.group hbs hin (i * m) m (by omega)
      rw [Nat.mul_assoc] at hh
      have hch : (lastOr iv (bs.take (i * m))).length = 16 := lastOr_length (hbs.take _) hiv
      obtain ⟨s', hs', hr⟩ := cbcSeg_runs c hD W inp _ (oo + i * (m * 16)) _ ((hbs.drop (i * m)).take m) hh
        ⟨lastOr iv (bs.take (i * m)), [], []⟩ hch w (by rw [hg, hw])
      rw [hg] at hr
      rw [cbcDecStep_run, cbcDecStep_run]
      refine ⟨s', ?_, ?_⟩
      · rw [hs', take_drop_group, lastOr_append]
      · simp only [cbcThread, hmm]
        refine Runs.cons (l1 := ⟨lastOr iv (bs.take (i * m)), [], []⟩) ?_ rfl hr
        intro a q _
        by_cases hi0 : i = 0
        · subst hi0
          simp only [ne_eq, not_true_eq_false, if_false, Nat.zero_mul, List.take_zero, lastOr]
          rw [copy_whole (Holds.self iv) hiv.symm (by simp [hiv])]; rfl
        · obtain ⟨V, rfl⟩ : ∃ V, i = V + 1 := ⟨i - 1, by omega⟩
          obtain ⟨b, hb1, hb2⟩ := lastOr_group (iv := iv) (bs := bs) (k := V) hm (by omega)
          have hb16 := hbs.get hb1
          have hblk := Cex.Holds.block hbs hin hb1
          have e : io + (V * m + (m - 1)) * 16 = io + (V + 1) * (m * 16) - 16 := by
            rw [Nat.succ_mul V, ← Nat.mul_assoc]; omega
          rw [e] at hblk
          simp only [ne_eq, hi0, not_false_eq_true, if_true, hb2]
          rw [copy_whole hblk hb16.symm (by simp [hb16])]; rfl)
    hsc.1 (fun i hi => by
      simp only [cbcThread, List.length_cons, cbcSeg_length, hmm]; exact hsc.2 i hi)
  obtain ⟨ts', h1, h2⟩ := h
  have h3 := h2 (p.degree - 1) (by omega)
  rw [show p.degree - 1 + 1 = p.degree by omega, ← hn, List.take_length] at h3
  have h4 : (lastOr iv bs).length = 16 := lastOr_length hbs hiv
  rw [cbcDecStep_run] at h1
  simp only [cbcParallel, if_neg hd, hs, h1, ok_bind, h3, pure_eq_ok]
  rw [copy_whole (Holds.self (lastOr iv bs)) h4.symm (by omega)]
  rfl

theorem cbcEncProcess_ok (c : Cipher) (hE : ∀ b, b.length = 16 → (c.enc b).length = 16) (W : Nat) (p : Profile)
    (scheds : Nat → List Nat) (inp : List Byte) (io oo : Nat)
    (bs : List (List Byte)) (hbs : Blocks 16 bs) (hin : Holds inp io bs.flatten) (iv pre junk post : List Byte)
    (hiv : iv.length = 16) (hp : pre.length = oo) (hj : junk.length = bs.length * 16) (len : Nat) (hlen : len / 16 = bs.length) :
    cbcProcess c W p scheds true iv inp io (pre ++ junk ++ post) oo len =
      .ok (lastOr iv (cbcEnc c.enc iv bs), pre ++ (cbcEnc c.enc iv bs).flatten ++ post) := by
  have h := runActs_blocks (cbcEncStep c.enc) (fun l => l.length = 16) 16 oo
    (fun i => cbcEncBlock c inp (i * 16 + io) (i * 16 + oo)) bs iv pre junk post hp hj hiv (by
      intro k b l hk hl
      have hb := hbs.get hk
      have hx : (c.enc (xorBytes l b)).length = 16 := hE _ (by rw [xorBytes_length, hb, hl]; rfl)
      refine ⟨hx, hx, ?_⟩
      intro a old q ha hold
      have hh := Cex.Holds.block hbs hin hk
      rw [Nat.add_comm] at hh
      exact cbcEncBlock_at c hE hh hb hl (by rw [ha]; omega) hold)
  rw [cbcEncStep_run] at h
  simp only [cbcProcess, if_true, hlen]
  exact h

theorem cbcDecProcess_ok (c : Cipher) (hD : ∀ b, b.length = 16 → (c.dec b).length = 16) (W : Nat) (p : Profile) (hv : p.Valid)
    (scheds : Nat → List Nat) (inp : List Byte) (io oo : Nat)
    (bs : List (List Byte)) (hbs : Blocks 16 bs) (hin : Holds inp io bs.flatten) (iv pre junk post : List Byte)
    (hiv : iv.length = 16) (hp : pre.length = oo) (hj : junk.length = bs.length * 16) (len : Nat) (hlen : len / 16 = bs.length)
    (hsc : p.isParallel = true → ∀ i, i < len / p.blockSize →
      Covers p.degree (cbcTurns W (p.blockSize / p.degree / 16)) (scheds i)) :
    cbcProcess c W p scheds false iv inp io (pre ++ junk ++ post) oo len =
      .ok (lastOr iv bs, pre ++ (cbcDec c.dec iv bs).flatten ++ post) := by
  simp only [cbcProcess, Bool.false_eq_true, if_false]
  split
  · rename_i hc
    obtain ⟨m, hm, hd, hs, hb⟩ := hv.split hc.1
    have hmm : m * 16 / 16 = m := Nat.mul_div_cancel _ (by omega)
    have hsc := hsc hc.1
    rw [hs, hmm] at hsc
    have hb0 : p.blockSize ≠ 0 := (hv hc.1).2.1
    rw [if_neg hb0]
    generalize hcnt : len / p.blockSize = cnt at *
    generalize hM : p.degree * m = M at *
    have hle : cnt * M ≤ bs.length := by rw [← hcnt, ← hlen]; subst hM; exact div_mul_assoc16 hb
    have hcb : cnt * (M * 16) = cnt * M * 16 := by rw [Nat.mul_assoc cnt]
    have hle16 : cnt * M * 16 ≤ bs.length * 16 := Nat.mul_le_mul_right _ hle
    have e0 : pre ++ junk ++ post =
        pre ++ junk.take (cnt * (M * 16)) ++ (junk.drop (cnt * (M * 16)) ++ post) := by
      simp only [List.append_assoc, List.append_cancel_left_eq]
      rw [← List.append_assoc, List.take_append_drop]
    have hl1 : (junk.take (cnt * (M * 16))).length = cnt * (M * 16) := by
      rw [List.length_take, hj, hcb]; omega
    have h := outer_blocks (cbcDecStep c.dec) (fun l => l.length = 16) 16 oo M cnt
      (fun i iv out => cbcParallel c W p (scheds i) inp (i * p.blockSize + io) (i * p.blockSize + oo) iv out)
      bs hle iv pre (junk.take (cnt * (M * 16))) (junk.drop (cnt * (M * 16)) ++ post) hp hl1 hiv (by
        intro k g l hk hg hgl hl
        have hg16 : Blocks 16 g := hg ▸ (hbs.drop _).take _
        have h3 := mul_le_of_lt hk hle
        rw [Nat.succ_mul] at h3
        have hh : Holds inp (io + k * M * 16) g.flatten := hg ▸ Holds.group hbs hin (k * M) _ (by omega)
        rw [Nat.mul_assoc, ← hb, Nat.add_comm] at hh
        rw [cbcDecStep_run]
        refine ⟨lastOr_length hg16 hl, ?_, ?_⟩
        · have := runBlocks_length (cbcDecStep c.dec) l g
          rw [cbcDecStep_run] at this
          rw [(cbcDec_blocks c.dec hD g l hg16 hl).length, this, hgl]
        · intro a old q ha hold
          rw [← hb, Nat.add_comm] at ha
          exact cbcParallel_ok c hD W p m hm hd hs inp _ g hg16 (by rw [hgl, hM]) hh l a old q hl _ ha
            (by rw [hold, ← hM, Nat.mul_assoc]) (scheds k) (hsc k hk))
    rw [cbcDecStep_run, ← loopN_eq_runActs, ← e0] at h
    have hT : (cbcDec c.dec iv (bs.take (cnt * M))).flatten.length = cnt * M * 16 := by
      rw [(cbcDec_blocks c.dec hD _ iv (hbs.take _) hiv).length]
      have := runBlocks_length (cbcDecStep c.dec) iv (bs.take (cnt * M))
      rw [cbcDecStep_run] at this
      rw [this, List.length_take, Nat.min_eq_left hle]
    have hrest : (bs.drop (cnt * M)).length = bs.length - cnt * M := List.length_drop
    have hprc : p.blockSize / 16 * cnt = cnt * M := by
      rw [hb, Nat.mul_div_cancel _ (by omega), Nat.mul_comm]
    have hin2 := Cex.Holds.drop hbs hin (cnt * M) hle
    have := cbcDecLoop_ok c hD inp io oo (cnt * M) (bs.drop (cnt * M)) (hbs.drop _) hin2 (lastOr iv (bs.take (cnt * M)))
      (pre ++ (cbcDec c.dec iv (bs.take (cnt * M))).flatten) (junk.drop (cnt * (M * 16))) post
      (lastOr_length (hbs.take _) hiv) (by rw [List.length_append, hp, hT])
      (by rw [List.length_drop, hj, hcb, hrest, Nat.sub_mul])
    simp only [h, ok_bind, hprc, hlen, ← hrest]
    rw [← List.append_assoc, this, ← lastOr_append, List.take_append_drop, List.append_assoc pre, ← List.flatten_append,
      ← cbcDec_append, List.take_append_drop]
  · have := cbcDecLoop_ok c hD inp io oo 0 bs hbs (by simpa using hin) iv pre junk post hiv (by simpa using hp) hj
    simpa [hlen] using this

end Cex.Modes
