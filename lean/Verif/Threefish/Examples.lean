import Verif.Threefish.Props

/-!
# Values
-/

namespace Cex.Threefish
open Cex Cex.IntTools

/-- The published result of Threefish-256 on zeros. -/
example : skein256.run [0, 0, 0, 0] (0, 0) [0, 0, 0, 0] = .ok [0x94EEEA8B1F2ADA84, 0xADF103313EAE6670, 0x952419A1F4B16D53, 0xD83F13E63C9F6B11] := by
  decide +kernel

/-- The published result of Threefish-512 on zeros. -/
example : skein512.run (List.replicate 8 0) (0, 0) (List.replicate 8 0) =
    .ok [0xBC2560EFC6BBA2B1, 0xE3361F162238EB40, 0xFB8631EE0ABBD175, 0x7B9479D4C5479ED1, 0xCFF0356E58F8C27B, 0xB1B7B08430F0E7F7, 0xE9A380A56139ABF1, 0xBE7B6D4AA11EB47E] := by
  decide +kernel

/-- The program of TSX256 and the compact loop, on a counter. -/
example : loop256.run scalar 72 [1, 2, 3, 4] (5, 6) [7, 8, 0xFFFFFFFFFFFFFFFF, 0xFFFFFFFFFFFFFFFF] =
    three256.run [1, 2, 3, 4] (5, 6) [7, 8, 0xFFFFFFFFFFFFFFFF, 0xFFFFFFFFFFFFFFFF] := by decide +kernel

/-- Different counters exist, for `C74_distinct`. -/
example : ((0, 0) : W × W) ≠ (1, 0) := by decide

/-- Four lanes with four counters, for `C74_wide`. -/
example (K : Fin 4 → W) (T : W × W) : ∃ S, wide loop256 72 4 4 K T (fun j => (BitVec.ofNat 64 j.val, 0)) = .ok S := by
  obtain ⟨S, _, h⟩ := (C74_wide 4 (by decide) T fun j => (BitVec.ofNat 64 j.val, 0)).1 K
  exact ⟨_, h⟩

end Cex.Threefish
