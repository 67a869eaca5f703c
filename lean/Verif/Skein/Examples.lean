import Verif.Skein.TreeProps

/-!
# Concrete cases for C75 and C76
-/

namespace Cex.Skein
open Cex Cex.Skein.Paper

/-- The test vector of Skein-512-512 for the empty message. -/
def empty512 : List Byte :=
  [0xBC, 0x5B, 0x4C, 0x50, 0x92, 0x55, 0x19, 0xC2, 0x90, 0xCC, 0x63, 0x42, 0x77, 0xAE, 0x3D, 0x62, 0x57, 0x21, 0x23, 0x95, 0xCB, 0xA7, 0x33, 0xBB, 0xAD, 0x37, 0xA4, 0xAF, 0x0F, 0xA0, 0x6A, 0xF4,
   0x1F, 0xCA, 0x79, 0x03, 0xD0, 0x65, 0x64, 0xFE, 0xA7, 0xA2, 0xD3, 0x73, 0x0D, 0xBD, 0xB8, 0x0C, 0x1F, 0x85, 0x56, 0x2D, 0xFC, 0xC0, 0x70, 0x33, 0x4E, 0xA4, 0xD1, 0xD9, 0xE7, 0x2C, 0xBA, 0x7A]

/-- The state after the constructor, after the message block and after the output block. -/
def st1 : St := ⟨[5261240102383538638, 978932832955457283, 10363226125605772238, 11107378794354519217, 6752626034097301424, 16915020251879818228, 11029617608758768931, 12544957130904423475], [5261240102383538638, 978932832955457283, 10363226125605772238, 11107378794354519217, 6752626034097301424, 16915020251879818228, 11029617608758768931, 12544957130904423475], (0, 8070450532247928832)⟩
def st2 : St := ⟨[607283801692095765, 6377921686099260359, 5224857131746093299, 11541069756862312041, 11356398828852184093, 5906630710909049165, 5402044192370005063, 4951282490352543561], [5261240102383538638, 978932832955457283, 10363226125605772238, 11107378794354519217, 6752626034097301424, 16915020251879818228, 11029617608758768931, 12544957130904423475], (0, 12682136550675316736)⟩
def st3 : St := ⟨[13986304204676553660, 7079006016534465680, 13489309801727074647, 17612065282017474477, 18330888327390677535, 916690389645370023, 3706674682650854687, 8843430192598852686], [5261240102383538638, 978932832955457283, 10363226125605772238, 11107378794354519217, 6752626034097301424, 16915020251879818228, 11029617608758768931, 12544957130904423475], (8, 13763000461244235776)⟩

theorem run1 : (do core512.init [core512.st0] (← Params.new core512.rate 0 0)) = .ok [st1] := by decide +kernel
theorem run2 : core512.processBlock (List.replicate 64 0) 0 0 { st1 with T := setFinal st1.T } = .ok st2 := by decide +kernel
theorem run3 : core512.processBlock (List.replicate 64 0) 0 8 { st2 with T := setFinal (startNew ubiOut) } = .ok st3 := by decide +kernel
theorem run4 : core512.put st3.S (List.replicate 64 0) 0 = .ok empty512 := by decide +kernel

theorem run512 : (do let o ← Obj.new core512 false 4 4 32768; let r ← o.finalize core512 (List.replicate 64 0) 0; return r.2) = (.ok empty512 : M (List Byte)) := by
  obtain ⟨prof, h1, h2⟩ := construct_ok (bs := core512.rate) (deg := 8) (by decide) (by decide) (by decide) (by decide) 4 4 32768 (by decide) false
  have hi := run1
  obtain ⟨p, hp, hi⟩ := bind_ok hi
  rw [Obj.new, h1, ok_bind, if_neg (by decide), hp, ok_bind]
  simp only [Bool.false_eq_true, if_false, List.replicate_one]
  rw [hi, ok_bind, pure_eq_ok, ok_bind, Obj.finalize, if_neg (by decide +kernel), if_neg (by rw [h2]; decide), Obj.finalSeq]
  dsimp only
  rw [show clear (List.replicate (1 * core512.rate) 0) 0 (Mac.subU (List.replicate (1 * core512.rate) (0 : Byte)).length 0) = .ok (List.replicate 64 0) from by decide +kernel, ok_bind]
  rw [show rd [st1] 0 = .ok st1 from rfl, ok_bind, Core.hashFinal]
  rw [if_neg (by decide), run2, ok_bind, show core512.rate = 64 from rfl, run3, ok_bind, show wr [st1] 0 st3 = .ok [st3] from rfl, ok_bind, run4]
  rfl

theorem skein_of_run {C : Core} {E : Tbc C.n} (g : C.Good E) {e : List Byte}
    (hr : (do let o ← Obj.new C false 4 4 32768; let r ← o.finalize C (List.replicate (8 * C.n) 0) 0; return r.2) = (.ok e : M (List Byte))) : skein E [] = e := by
  have hs := g.small
  obtain ⟨o, h⟩ := (sequential g).1 4 4 32768 (by decide)
  obtain ⟨o', h'⟩ := ((sequential g).2 o [] (.new 4 4 32768 (by decide) h)).2.2.1 (by simp) [] (List.replicate (8 * C.n) 0) [] (by simp) (by simp; omega)
  rw [h, ok_bind] at hr
  simp only [List.nil_append, List.append_nil, List.length_nil] at h'
  rw [h', ok_bind, pure_eq_ok] at hr
  exact Except.ok.inj hr

/-- Hence the specification gives the test vector. -/
example : skein (n := core512.n) Threefish.threefish512 [] = empty512 := skein_of_run core512_good run512

/-- A history that `C76_tree_partial` speaks of: eight processors, two updates. -/
example : ∃ o, TRun core256 o 8 ([1, 2, 3] ++ [4, 5]) := by
  obtain ⟨o, h⟩ := new_tree_ok core256_good cfg256 8 16 32768 (by decide)
  have r := TRun.new (C := core256) 8 16 32768 (by decide) (by decide) (by decide) h
  obtain ⟨o1, h1⟩ := (C76_tree_partial.1.2 o 8 [] r).1 (Window.whole [1, 2, 3] (by decide))
  have r1 := r.update _ h1
  obtain ⟨o2, h2⟩ := (C76_tree_partial.1.2 o1 8 _ r1).1 (Window.whole [4, 5] (by decide))
  exact ⟨o2, r1.update _ h2⟩

/-- A history with `ParallelMaxDegree` on a machine with one processor. -/
example : ∃ o, TRun core1024 o 6 [] := by
  obtain ⟨o, o', h, h'⟩ := C76_tree_partial.2.2.1 1 1 32768 6 (by decide) (by decide) (by decide) (by decide)
  exact ⟨o', .degree 1 1 32768 h h'⟩

/-- Two messages that `C76_collision` speaks of. -/
example : ∃ m m' : List Byte, m ≠ m' ∧ (5 :: m).length = 8 * (8 * core256.n) ∧ (5 :: m').length = 8 * (8 * core256.n) ∧ (5 :: m).take (4 * (8 * core256.n)) = (5 :: m').take (4 * (8 * core256.n)) :=
  ⟨List.replicate 127 1 ++ List.replicate 128 2, List.replicate 127 1 ++ List.replicate 128 3, by decide +kernel, by decide +kernel, by decide +kernel, by decide +kernel⟩

end Cex.Skein
