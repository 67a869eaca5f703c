import Verif.Ec25519.Lemmas32

/-!
# Multiplication and squaring of the 32-bit path
-/

namespace Cex.Ec25519

local infixl:65 " +! " => addC
local infixl:70 " *! " => mulC

section
attribute [local irreducible] addC mulC lit

/-- bounds of a checked expression, bottom up -/
local syntax "okt" : tactic
local macro_rules
  | `(tactic| okt) => `(tactic| first
      | (apply Ok.add; okt; okt; decide)
      | (apply Ok.mul; okt; okt; decide)
      | assumption
      | exact Ok.lit (by decide))

theorem mul_h0 {f g : F10} (hf : f.Bd 3) (hg : g.Bd 3) :
    Ok (( (lit f.a0) *! (lit g.a0) ) +! ( (lit 2 *! (lit f.a1)) *! (lit 19 *! (lit g.a9)) ) +! ( (lit f.a2) *! (lit 19 *! (lit g.a8)) ) +! ( (lit 2 *! (lit f.a3)) *! (lit 19 *! (lit g.a7)) ) +! ( (lit f.a4) *! (lit 19 *! (lit g.a6)) ) +! ( (lit 2 *! (lit f.a5)) *! (lit 19 *! (lit g.a5)) ) +! ( (lit f.a6) *! (lit 19 *! (lit g.a4)) ) +! ( (lit 2 *! (lit f.a7)) *! (lit 19 *! (lit g.a3)) ) +! ( (lit f.a8) *! (lit 19 *! (lit g.a2)) ) +! ( (lit 2 *! (lit f.a9)) *! (lit 19 *! (lit g.a1)) ))
      (( f.a0 * g.a0 ) + ( (2 * f.a1) * (19 * g.a9) ) + ( f.a2 * (19 * g.a8) ) + ( (2 * f.a3) * (19 * g.a7) ) + ( f.a4 * (19 * g.a6) ) + ( (2 * f.a5) * (19 * g.a5) ) + ( f.a6 * (19 * g.a4) ) + ( (2 * f.a7) * (19 * g.a3) ) + ( f.a8 * (19 * g.a2) ) + ( (2 * f.a9) * (19 * g.a1) ))
      (( ((3 * U)) * ((3 * U)) ) + ( (2 * ((3 * V))) * (19 * ((3 * V))) ) + ( ((3 * U)) * (19 * ((3 * U))) ) + ( (2 * ((3 * V))) * (19 * ((3 * V))) ) + ( ((3 * U)) * (19 * ((3 * U))) ) + ( (2 * ((3 * V))) * (19 * ((3 * V))) ) + ( ((3 * U)) * (19 * ((3 * U))) ) + ( (2 * ((3 * V))) * (19 * ((3 * V))) ) + ( ((3 * U)) * (19 * ((3 * U))) ) + ( (2 * ((3 * V))) * (19 * ((3 * V))) )) := by
  have F0 : Ok (lit f.a0) f.a0 (3 * U) := Ok.lit hf.b0
  have F1 : Ok (lit f.a1) f.a1 (3 * V) := Ok.lit hf.b1
  have F2 : Ok (lit f.a2) f.a2 (3 * U) := Ok.lit hf.b2
  have F3 : Ok (lit f.a3) f.a3 (3 * V) := Ok.lit hf.b3
  have F4 : Ok (lit f.a4) f.a4 (3 * U) := Ok.lit hf.b4
  have F5 : Ok (lit f.a5) f.a5 (3 * V) := Ok.lit hf.b5
  have F6 : Ok (lit f.a6) f.a6 (3 * U) := Ok.lit hf.b6
  have F7 : Ok (lit f.a7) f.a7 (3 * V) := Ok.lit hf.b7
  have F8 : Ok (lit f.a8) f.a8 (3 * U) := Ok.lit hf.b8
  have F9 : Ok (lit f.a9) f.a9 (3 * V) := Ok.lit hf.b9
  have G0 : Ok (lit g.a0) g.a0 (3 * U) := Ok.lit hg.b0
  have G1 : Ok (lit g.a1) g.a1 (3 * V) := Ok.lit hg.b1
  have G2 : Ok (lit g.a2) g.a2 (3 * U) := Ok.lit hg.b2
  have G3 : Ok (lit g.a3) g.a3 (3 * V) := Ok.lit hg.b3
  have G4 : Ok (lit g.a4) g.a4 (3 * U) := Ok.lit hg.b4
  have G5 : Ok (lit g.a5) g.a5 (3 * V) := Ok.lit hg.b5
  have G6 : Ok (lit g.a6) g.a6 (3 * U) := Ok.lit hg.b6
  have G7 : Ok (lit g.a7) g.a7 (3 * V) := Ok.lit hg.b7
  have G8 : Ok (lit g.a8) g.a8 (3 * U) := Ok.lit hg.b8
  have G9 : Ok (lit g.a9) g.a9 (3 * V) := Ok.lit hg.b9
  okt

theorem mul_h1 {f g : F10} (hf : f.Bd 3) (hg : g.Bd 3) :
    Ok (( (lit f.a0) *! (lit g.a1) ) +! ( (lit f.a1) *! (lit g.a0) ) +! ( (lit f.a2) *! (lit 19 *! (lit g.a9)) ) +! ( (lit f.a3) *! (lit 19 *! (lit g.a8)) ) +! ( (lit f.a4) *! (lit 19 *! (lit g.a7)) ) +! ( (lit f.a5) *! (lit 19 *! (lit g.a6)) ) +! ( (lit f.a6) *! (lit 19 *! (lit g.a5)) ) +! ( (lit f.a7) *! (lit 19 *! (lit g.a4)) ) +! ( (lit f.a8) *! (lit 19 *! (lit g.a3)) ) +! ( (lit f.a9) *! (lit 19 *! (lit g.a2)) ))
      (( f.a0 * g.a1 ) + ( f.a1 * g.a0 ) + ( f.a2 * (19 * g.a9) ) + ( f.a3 * (19 * g.a8) ) + ( f.a4 * (19 * g.a7) ) + ( f.a5 * (19 * g.a6) ) + ( f.a6 * (19 * g.a5) ) + ( f.a7 * (19 * g.a4) ) + ( f.a8 * (19 * g.a3) ) + ( f.a9 * (19 * g.a2) ))
      (( ((3 * U)) * ((3 * V)) ) + ( ((3 * V)) * ((3 * U)) ) + ( ((3 * U)) * (19 * ((3 * V))) ) + ( ((3 * V)) * (19 * ((3 * U))) ) + ( ((3 * U)) * (19 * ((3 * V))) ) + ( ((3 * V)) * (19 * ((3 * U))) ) + ( ((3 * U)) * (19 * ((3 * V))) ) + ( ((3 * V)) * (19 * ((3 * U))) ) + ( ((3 * U)) * (19 * ((3 * V))) ) + ( ((3 * V)) * (19 * ((3 * U))) )) := by
  have F0 : Ok (lit f.a0) f.a0 (3 * U) := Ok.lit hf.b0
  have F1 : Ok (lit f.a1) f.a1 (3 * V) := Ok.lit hf.b1
  have F2 : Ok (lit f.a2) f.a2 (3 * U) := Ok.lit hf.b2
  have F3 : Ok (lit f.a3) f.a3 (3 * V) := Ok.lit hf.b3
  have F4 : Ok (lit f.a4) f.a4 (3 * U) := Ok.lit hf.b4
  have F5 : Ok (lit f.a5) f.a5 (3 * V) := Ok.lit hf.b5
  have F6 : Ok (lit f.a6) f.a6 (3 * U) := Ok.lit hf.b6
  have F7 : Ok (lit f.a7) f.a7 (3 * V) := Ok.lit hf.b7
  have F8 : Ok (lit f.a8) f.a8 (3 * U) := Ok.lit hf.b8
  have F9 : Ok (lit f.a9) f.a9 (3 * V) := Ok.lit hf.b9
  have G0 : Ok (lit g.a0) g.a0 (3 * U) := Ok.lit hg.b0
  have G1 : Ok (lit g.a1) g.a1 (3 * V) := Ok.lit hg.b1
  have G2 : Ok (lit g.a2) g.a2 (3 * U) := Ok.lit hg.b2
  have G3 : Ok (lit g.a3) g.a3 (3 * V) := Ok.lit hg.b3
  have G4 : Ok (lit g.a4) g.a4 (3 * U) := Ok.lit hg.b4
  have G5 : Ok (lit g.a5) g.a5 (3 * V) := Ok.lit hg.b5
  have G6 : Ok (lit g.a6) g.a6 (3 * U) := Ok.lit hg.b6
  have G7 : Ok (lit g.a7) g.a7 (3 * V) := Ok.lit hg.b7
  have G8 : Ok (lit g.a8) g.a8 (3 * U) := Ok.lit hg.b8
  have G9 : Ok (lit g.a9) g.a9 (3 * V) := Ok.lit hg.b9
  okt

theorem mul_h2 {f g : F10} (hf : f.Bd 3) (hg : g.Bd 3) :
    Ok (( (lit f.a0) *! (lit g.a2) ) +! ( (lit 2 *! (lit f.a1)) *! (lit g.a1) ) +! ( (lit f.a2) *! (lit g.a0) ) +! ( (lit 2 *! (lit f.a3)) *! (lit 19 *! (lit g.a9)) ) +! ( (lit f.a4) *! (lit 19 *! (lit g.a8)) ) +! ( (lit 2 *! (lit f.a5)) *! (lit 19 *! (lit g.a7)) ) +! ( (lit f.a6) *! (lit 19 *! (lit g.a6)) ) +! ( (lit 2 *! (lit f.a7)) *! (lit 19 *! (lit g.a5)) ) +! ( (lit f.a8) *! (lit 19 *! (lit g.a4)) ) +! ( (lit 2 *! (lit f.a9)) *! (lit 19 *! (lit g.a3)) ))
      (( f.a0 * g.a2 ) + ( (2 * f.a1) * g.a1 ) + ( f.a2 * g.a0 ) + ( (2 * f.a3) * (19 * g.a9) ) + ( f.a4 * (19 * g.a8) ) + ( (2 * f.a5) * (19 * g.a7) ) + ( f.a6 * (19 * g.a6) ) + ( (2 * f.a7) * (19 * g.a5) ) + ( f.a8 * (19 * g.a4) ) + ( (2 * f.a9) * (19 * g.a3) ))
      (( ((3 * U)) * ((3 * U)) ) + ( (2 * ((3 * V))) * ((3 * V)) ) + ( ((3 * U)) * ((3 * U)) ) + ( (2 * ((3 * V))) * (19 * ((3 * V))) ) + ( ((3 * U)) * (19 * ((3 * U))) ) + ( (2 * ((3 * V))) * (19 * ((3 * V))) ) + ( ((3 * U)) * (19 * ((3 * U))) ) + ( (2 * ((3 * V))) * (19 * ((3 * V))) ) + ( ((3 * U)) * (19 * ((3 * U))) ) + ( (2 * ((3 * V))) * (19 * ((3 * V))) )) := by
  have F0 : Ok (lit f.a0) f.a0 (3 * U) := Ok.lit hf.b0
  have F1 : Ok (lit f.a1) f.a1 (3 * V) := Ok.lit hf.b1
  have F2 : Ok (lit f.a2) f.a2 (3 * U) := Ok.lit hf.b2
  have F3 : Ok (lit f.a3) f.a3 (3 * V) := Ok.lit hf.b3
  have F4 : Ok (lit f.a4) f.a4 (3 * U) := Ok.lit hf.b4
  have F5 : Ok (lit f.a5) f.a5 (3 * V) := Ok.lit hf.b5
  have F6 : Ok (lit f.a6) f.a6 (3 * U) := Ok.lit hf.b6
  have F7 : Ok (lit f.a7) f.a7 (3 * V) := Ok.lit hf.b7
  have F8 : Ok (lit f.a8) f.a8 (3 * U) := Ok.lit hf.b8
  have F9 : Ok (lit f.a9) f.a9 (3 * V) := Ok.lit hf.b9
  have G0 : Ok (lit g.a0) g.a0 (3 * U) := Ok.lit hg.b0
  have G1 : Ok (lit g.a1) g.a1 (3 * V) := Ok.lit hg.b1
  have G2 : Ok (lit g.a2) g.a2 (3 * U) := Ok.lit hg.b2
  have G3 : Ok (lit g.a3) g.a3 (3 * V) := Ok.lit hg.b3
  have G4 : Ok (lit g.a4) g.a4 (3 * U) := Ok.lit hg.b4
  have G5 : Ok (lit g.a5) g.a5 (3 * V) := Ok.lit hg.b5
  have G6 : Ok (lit g.a6) g.a6 (3 * U) := Ok.lit hg.b6
  have G7 : Ok (lit g.a7) g.a7 (3 * V) := Ok.lit hg.b7
  have G8 : Ok (lit g.a8) g.a8 (3 * U) := Ok.lit hg.b8
  have G9 : Ok (lit g.a9) g.a9 (3 * V) := Ok.lit hg.b9
  okt

theorem mul_h3 {f g : F10} (hf : f.Bd 3) (hg : g.Bd 3) :
    Ok (( (lit f.a0) *! (lit g.a3) ) +! ( (lit f.a1) *! (lit g.a2) ) +! ( (lit f.a2) *! (lit g.a1) ) +! ( (lit f.a3) *! (lit g.a0) ) +! ( (lit f.a4) *! (lit 19 *! (lit g.a9)) ) +! ( (lit f.a5) *! (lit 19 *! (lit g.a8)) ) +! ( (lit f.a6) *! (lit 19 *! (lit g.a7)) ) +! ( (lit f.a7) *! (lit 19 *! (lit g.a6)) ) +! ( (lit f.a8) *! (lit 19 *! (lit g.a5)) ) +! ( (lit f.a9) *! (lit 19 *! (lit g.a4)) ))
      (( f.a0 * g.a3 ) + ( f.a1 * g.a2 ) + ( f.a2 * g.a1 ) + ( f.a3 * g.a0 ) + ( f.a4 * (19 * g.a9) ) + ( f.a5 * (19 * g.a8) ) + ( f.a6 * (19 * g.a7) ) + ( f.a7 * (19 * g.a6) ) + ( f.a8 * (19 * g.a5) ) + ( f.a9 * (19 * g.a4) ))
      (( ((3 * U)) * ((3 * V)) ) + ( ((3 * V)) * ((3 * U)) ) + ( ((3 * U)) * ((3 * V)) ) + ( ((3 * V)) * ((3 * U)) ) + ( ((3 * U)) * (19 * ((3 * V))) ) + ( ((3 * V)) * (19 * ((3 * U))) ) + ( ((3 * U)) * (19 * ((3 * V))) ) + ( ((3 * V)) * (19 * ((3 * U))) ) + ( ((3 * U)) * (19 * ((3 * V))) ) + ( ((3 * V)) * (19 * ((3 * U))) )) := by
  have F0 : Ok (lit f.a0) f.a0 (3 * U) := Ok.lit hf.b0
  have F1 : Ok (lit f.a1) f.a1 (3 * V) := Ok.lit hf.b1
  have F2 : Ok (lit f.a2) f.a2 (3 * U) := Ok.lit hf.b2
  have F3 : Ok (lit f.a3) f.a3 (3 * V) := Ok.lit hf.b3
  have F4 : Ok (lit f.a4) f.a4 (3 * U) := Ok.lit hf.b4
  have F5 : Ok (lit f.a5) f.a5 (3 * V) := Ok.lit hf.b5
  have F6 : Ok (lit f.a6) f.a6 (3 * U) := Ok.lit hf.b6
  have F7 : Ok (lit f.a7) f.a7 (3 * V) := Ok.lit hf.b7
  have F8 : Ok (lit f.a8) f.a8 (3 * U) := Ok.lit hf.b8
  have F9 : Ok (lit f.a9) f.a9 (3 * V) := Ok.lit hf.b9
  have G0 : Ok (lit g.a0) g.a0 (3 * U) := Ok.lit hg.b0
  have G1 : Ok (lit g.a1) g.a1 (3 * V) := Ok.lit hg.b1
  have G2 : Ok (lit g.a2) g.a2 (3 * U) := Ok.lit hg.b2
  have G3 : Ok (lit g.a3) g.a3 (3 * V) := Ok.lit hg.b3
  have G4 : Ok (lit g.a4) g.a4 (3 * U) := Ok.lit hg.b4
  have G5 : Ok (lit g.a5) g.a5 (3 * V) := Ok.lit hg.b5
  have G6 : Ok (lit g.a6) g.a6 (3 * U) := Ok.lit hg.b6
  have G7 : Ok (lit g.a7) g.a7 (3 * V) := Ok.lit hg.b7
  have G8 : Ok (lit g.a8) g.a8 (3 * U) := Ok.lit hg.b8
  have G9 : Ok (lit g.a9) g.a9 (3 * V) := Ok.lit hg.b9
  okt

theorem mul_h4 {f g : F10} (hf : f.Bd 3) (hg : g.Bd 3) :
    Ok (( (lit f.a0) *! (lit g.a4) ) +! ( (lit 2 *! (lit f.a1)) *! (lit g.a3) ) +! ( (lit f.a2) *! (lit g.a2) ) +! ( (lit 2 *! (lit f.a3)) *! (lit g.a1) ) +! ( (lit f.a4) *! (lit g.a0) ) +! ( (lit 2 *! (lit f.a5)) *! (lit 19 *! (lit g.a9)) ) +! ( (lit f.a6) *! (lit 19 *! (lit g.a8)) ) +! ( (lit 2 *! (lit f.a7)) *! (lit 19 *! (lit g.a7)) ) +! ( (lit f.a8) *! (lit 19 *! (lit g.a6)) ) +! ( (lit 2 *! (lit f.a9)) *! (lit 19 *! (lit g.a5)) ))
      (( f.a0 * g.a4 ) + ( (2 * f.a1) * g.a3 ) + ( f.a2 * g.a2 ) + ( (2 * f.a3) * g.a1 ) + ( f.a4 * g.a0 ) + ( (2 * f.a5) * (19 * g.a9) ) + ( f.a6 * (19 * g.a8) ) + ( (2 * f.a7) * (19 * g.a7) ) + ( f.a8 * (19 * g.a6) ) + ( (2 * f.a9) * (19 * g.a5) ))
      (( ((3 * U)) * ((3 * U)) ) + ( (2 * ((3 * V))) * ((3 * V)) ) + ( ((3 * U)) * ((3 * U)) ) + ( (2 * ((3 * V))) * ((3 * V)) ) + ( ((3 * U)) * ((3 * U)) ) + ( (2 * ((3 * V))) * (19 * ((3 * V))) ) + ( ((3 * U)) * (19 * ((3 * U))) ) + ( (2 * ((3 * V))) * (19 * ((3 * V))) ) + ( ((3 * U)) * (19 * ((3 * U))) ) + ( (2 * ((3 * V))) * (19 * ((3 * V))) )) := by
  have F0 : Ok (lit f.a0) f.a0 (3 * U) := Ok.lit hf.b0
  have F1 : Ok (lit f.a1) f.a1 (3 * V) := Ok.lit hf.b1
  have F2 : Ok (lit f.a2) f.a2 (3 * U) := Ok.lit hf.b2
  have F3 : Ok (lit f.a3) f.a3 (3 * V) := Ok.lit hf.b3
  have F4 : Ok (lit f.a4) f.a4 (3 * U) := Ok.lit hf.b4
  have F5 : Ok (lit f.a5) f.a5 (3 * V) := Ok.lit hf.b5
  have F6 : Ok (lit f.a6) f.a6 (3 * U) := Ok.lit hf.b6
  have F7 : Ok (lit f.a7) f.a7 (3 * V) := Ok.lit hf.b7
  have F8 : Ok (lit f.a8) f.a8 (3 * U) := Ok.lit hf.b8
  have F9 : Ok (lit f.a9) f.a9 (3 * V) := Ok.lit hf.b9
  have G0 : Ok (lit g.a0) g.a0 (3 * U) := Ok.lit hg.b0
  have G1 : Ok (lit g.a1) g.a1 (3 * V) := Ok.lit hg.b1
  have G2 : Ok (lit g.a2) g.a2 (3 * U) := Ok.lit hg.b2
  have G3 : Ok (lit g.a3) g.a3 (3 * V) := Ok.lit hg.b3
  have G4 : Ok (lit g.a4) g.a4 (3 * U) := Ok.lit hg.b4
  have G5 : Ok (lit g.a5) g.a5 (3 * V) := Ok.lit hg.b5
  have G6 : Ok (lit g.a6) g.a6 (3 * U) := Ok.lit hg.b6
  have G7 : Ok (lit g.a7) g.a7 (3 * V) := Ok.lit hg.b7
  have G8 : Ok (lit g.a8) g.a8 (3 * U) := Ok.lit hg.b8
  have G9 : Ok (lit g.a9) g.a9 (3 * V) := Ok.lit hg.b9
  okt

theorem mul_h5 {f g : F10} (hf : f.Bd 3) (hg : g.Bd 3) :
    Ok (( (lit f.a0) *! (lit g.a5) ) +! ( (lit f.a1) *! (lit g.a4) ) +! ( (lit f.a2) *! (lit g.a3) ) +! ( (lit f.a3) *! (lit g.a2) ) +! ( (lit f.a4) *! (lit g.a1) ) +! ( (lit f.a5) *! (lit g.a0) ) +! ( (lit f.a6) *! (lit 19 *! (lit g.a9)) ) +! ( (lit f.a7) *! (lit 19 *! (lit g.a8)) ) +! ( (lit f.a8) *! (lit 19 *! (lit g.a7)) ) +! ( (lit f.a9) *! (lit 19 *! (lit g.a6)) ))
      (( f.a0 * g.a5 ) + ( f.a1 * g.a4 ) + ( f.a2 * g.a3 ) + ( f.a3 * g.a2 ) + ( f.a4 * g.a1 ) + ( f.a5 * g.a0 ) + ( f.a6 * (19 * g.a9) ) + ( f.a7 * (19 * g.a8) ) + ( f.a8 * (19 * g.a7) ) + ( f.a9 * (19 * g.a6) ))
      (( ((3 * U)) * ((3 * V)) ) + ( ((3 * V)) * ((3 * U)) ) + ( ((3 * U)) * ((3 * V)) ) + ( ((3 * V)) * ((3 * U)) ) + ( ((3 * U)) * ((3 * V)) ) + ( ((3 * V)) * ((3 * U)) ) + ( ((3 * U)) * (19 * ((3 * V))) ) + ( ((3 * V)) * (19 * ((3 * U))) ) + ( ((3 * U)) * (19 * ((3 * V))) ) + ( ((3 * V)) * (19 * ((3 * U))) )) := by
  have F0 : Ok (lit f.a0) f.a0 (3 * U) := Ok.lit hf.b0
  have F1 : Ok (lit f.a1) f.a1 (3 * V) := Ok.lit hf.b1
  have F2 : Ok (lit f.a2) f.a2 (3 * U) := Ok.lit hf.b2
  have F3 : Ok (lit f.a3) f.a3 (3 * V) := Ok.lit hf.b3
  have F4 : Ok (lit f.a4) f.a4 (3 * U) := Ok.lit hf.b4
  have F5 : Ok (lit f.a5) f.a5 (3 * V) := Ok.lit hf.b5
  have F6 : Ok (lit f.a6) f.a6 (3 * U) := Ok.lit hf.b6
  have F7 : Ok (lit f.a7) f.a7 (3 * V) := Ok.lit hf.b7
  have F8 : Ok (lit f.a8) f.a8 (3 * U) := Ok.lit hf.b8
  have F9 : Ok (lit f.a9) f.a9 (3 * V) := Ok.lit hf.b9
  have G0 : Ok (lit g.a0) g.a0 (3 * U) := Ok.lit hg.b0
  have G1 : Ok (lit g.a1) g.a1 (3 * V) := Ok.lit hg.b1
  have G2 : Ok (lit g.a2) g.a2 (3 * U) := Ok.lit hg.b2
  have G3 : Ok (lit g.a3) g.a3 (3 * V) := Ok.lit hg.b3
  have G4 : Ok (lit g.a4) g.a4 (3 * U) := Ok.lit hg.b4
  have G5 : Ok (lit g.a5) g.a5 (3 * V) := Ok.lit hg.b5
  have G6 : Ok (lit g.a6) g.a6 (3 * U) := Ok.lit hg.b6
  have G7 : Ok (lit g.a7) g.a7 (3 * V) := Ok.lit hg.b7
  have G8 : Ok (lit g.a8) g.a8 (3 * U) := Ok.lit hg.b8
  have G9 : Ok (lit g.a9) g.a9 (3 * V) := Ok.lit hg.b9
  okt

theorem mul_h6 {f g : F10} (hf : f.Bd 3) (hg : g.Bd 3) :
    Ok (( (lit f.a0) *! (lit g.a6) ) +! ( (lit 2 *! (lit f.a1)) *! (lit g.a5) ) +! ( (lit f.a2) *! (lit g.a4) ) +! ( (lit 2 *! (lit f.a3)) *! (lit g.a3) ) +! ( (lit f.a4) *! (lit g.a2) ) +! ( (lit 2 *! (lit f.a5)) *! (lit g.a1) ) +! ( (lit f.a6) *! (lit g.a0) ) +! ( (lit 2 *! (lit f.a7)) *! (lit 19 *! (lit g.a9)) ) +! ( (lit f.a8) *! (lit 19 *! (lit g.a8)) ) +! ( (lit 2 *! (lit f.a9)) *! (lit 19 *! (lit g.a7)) ))
      (( f.a0 * g.a6 ) + ( (2 * f.a1) * g.a5 ) + ( f.a2 * g.a4 ) + ( (2 * f.a3) * g.a3 ) + ( f.a4 * g.a2 ) + ( (2 * f.a5) * g.a1 ) + ( f.a6 * g.a0 ) + ( (2 * f.a7) * (19 * g.a9) ) + ( f.a8 * (19 * g.a8) ) + ( (2 * f.a9) * (19 * g.a7) ))
      (( ((3 * U)) * ((3 * U)) ) + ( (2 * ((3 * V))) * ((3 * V)) ) + ( ((3 * U)) * ((3 * U)) ) + ( (2 * ((3 * V))) * ((3 * V)) ) + ( ((3 * U)) * ((3 * U)) ) + ( (2 * ((3 * V))) * ((3 * V)) ) + ( ((3 * U)) * ((3 * U)) ) + ( (2 * ((3 * V))) * (19 * ((3 * V))) ) + ( ((3 * U)) * (19 * ((3 * U))) ) + ( (2 * ((3 * V))) * (19 * ((3 * V))) )) := by
  have F0 : Ok (lit f.a0) f.a0 (3 * U) := Ok.lit hf.b0
  have F1 : Ok (lit f.a1) f.a1 (3 * V) := Ok.lit hf.b1
  have F2 : Ok (lit f.a2) f.a2 (3 * U) := Ok.lit hf.b2
  have F3 : Ok (lit f.a3) f.a3 (3 * V) := Ok.lit hf.b3
  have F4 : Ok (lit f.a4) f.a4 (3 * U) := Ok.lit hf.b4
  have F5 : Ok (lit f.a5) f.a5 (3 * V) := Ok.lit hf.b5
  have F6 : Ok (lit f.a6) f.a6 (3 * U) := Ok.lit hf.b6
  have F7 : Ok (lit f.a7) f.a7 (3 * V) := Ok.lit hf.b7
  have F8 : Ok (lit f.a8) f.a8 (3 * U) := Ok.lit hf.b8
  have F9 : Ok (lit f.a9) f.a9 (3 * V) := Ok.lit hf.b9
  have G0 : Ok (lit g.a0) g.a0 (3 * U) := Ok.lit hg.b0
  have G1 : Ok (lit g.a1) g.a1 (3 * V) := Ok.lit hg.b1
  have G2 : Ok (lit g.a2) g.a2 (3 * U) := Ok.lit hg.b2
  have G3 : Ok (lit g.a3) g.a3 (3 * V) := Ok.lit hg.b3
  have G4 : Ok (lit g.a4) g.a4 (3 * U) := Ok.lit hg.b4
  have G5 : Ok (lit g.a5) g.a5 (3 * V) := Ok.lit hg.b5
  have G6 : Ok (lit g.a6) g.a6 (3 * U) := Ok.lit hg.b6
  have G7 : Ok (lit g.a7) g.a7 (3 * V) := Ok.lit hg.b7
  have G8 : Ok (lit g.a8) g.a8 (3 * U) := Ok.lit hg.b8
  have G9 : Ok (lit g.a9) g.a9 (3 * V) := Ok.lit hg.b9
  okt

theorem mul_h7 {f g : F10} (hf : f.Bd 3) (hg : g.Bd 3) :
    Ok (( (lit f.a0) *! (lit g.a7) ) +! ( (lit f.a1) *! (lit g.a6) ) +! ( (lit f.a2) *! (lit g.a5) ) +! ( (lit f.a3) *! (lit g.a4) ) +! ( (lit f.a4) *! (lit g.a3) ) +! ( (lit f.a5) *! (lit g.a2) ) +! ( (lit f.a6) *! (lit g.a1) ) +! ( (lit f.a7) *! (lit g.a0) ) +! ( (lit f.a8) *! (lit 19 *! (lit g.a9)) ) +! ( (lit f.a9) *! (lit 19 *! (lit g.a8)) ))
      (( f.a0 * g.a7 ) + ( f.a1 * g.a6 ) + ( f.a2 * g.a5 ) + ( f.a3 * g.a4 ) + ( f.a4 * g.a3 ) + ( f.a5 * g.a2 ) + ( f.a6 * g.a1 ) + ( f.a7 * g.a0 ) + ( f.a8 * (19 * g.a9) ) + ( f.a9 * (19 * g.a8) ))
      (( ((3 * U)) * ((3 * V)) ) + ( ((3 * V)) * ((3 * U)) ) + ( ((3 * U)) * ((3 * V)) ) + ( ((3 * V)) * ((3 * U)) ) + ( ((3 * U)) * ((3 * V)) ) + ( ((3 * V)) * ((3 * U)) ) + ( ((3 * U)) * ((3 * V)) ) + ( ((3 * V)) * ((3 * U)) ) + ( ((3 * U)) * (19 * ((3 * V))) ) + ( ((3 * V)) * (19 * ((3 * U))) )) := by
  have F0 : Ok (lit f.a0) f.a0 (3 * U) := Ok.lit hf.b0
  have F1 : Ok (lit f.a1) f.a1 (3 * V) := Ok.lit hf.b1
  have F2 : Ok (lit f.a2) f.a2 (3 * U) := Ok.lit hf.b2
  have F3 : Ok (lit f.a3) f.a3 (3 * V) := Ok.lit hf.b3
  have F4 : Ok (lit f.a4) f.a4 (3 * U) := Ok.lit hf.b4
  have F5 : Ok (lit f.a5) f.a5 (3 * V) := Ok.lit hf.b5
  have F6 : Ok (lit f.a6) f.a6 (3 * U) := Ok.lit hf.b6
  have F7 : Ok (lit f.a7) f.a7 (3 * V) := Ok.lit hf.b7
  have F8 : Ok (lit f.a8) f.a8 (3 * U) := Ok.lit hf.b8
  have F9 : Ok (lit f.a9) f.a9 (3 * V) := Ok.lit hf.b9
  have G0 : Ok (lit g.a0) g.a0 (3 * U) := Ok.lit hg.b0
  have G1 : Ok (lit g.a1) g.a1 (3 * V) := Ok.lit hg.b1
  have G2 : Ok (lit g.a2) g.a2 (3 * U) := Ok.lit hg.b2
  have G3 : Ok (lit g.a3) g.a3 (3 * V) := Ok.lit hg.b3
  have G4 : Ok (lit g.a4) g.a4 (3 * U) := Ok.lit hg.b4
  have G5 : Ok (lit g.a5) g.a5 (3 * V) := Ok.lit hg.b5
  have G6 : Ok (lit g.a6) g.a6 (3 * U) := Ok.lit hg.b6
  have G7 : Ok (lit g.a7) g.a7 (3 * V) := Ok.lit hg.b7
  have G8 : Ok (lit g.a8) g.a8 (3 * U) := Ok.lit hg.b8
  have G9 : Ok (lit g.a9) g.a9 (3 * V) := Ok.lit hg.b9
  okt

theorem mul_h8 {f g : F10} (hf : f.Bd 3) (hg : g.Bd 3) :
    Ok (( (lit f.a0) *! (lit g.a8) ) +! ( (lit 2 *! (lit f.a1)) *! (lit g.a7) ) +! ( (lit f.a2) *! (lit g.a6) ) +! ( (lit 2 *! (lit f.a3)) *! (lit g.a5) ) +! ( (lit f.a4) *! (lit g.a4) ) +! ( (lit 2 *! (lit f.a5)) *! (lit g.a3) ) +! ( (lit f.a6) *! (lit g.a2) ) +! ( (lit 2 *! (lit f.a7)) *! (lit g.a1) ) +! ( (lit f.a8) *! (lit g.a0) ) +! ( (lit 2 *! (lit f.a9)) *! (lit 19 *! (lit g.a9)) ))
      (( f.a0 * g.a8 ) + ( (2 * f.a1) * g.a7 ) + ( f.a2 * g.a6 ) + ( (2 * f.a3) * g.a5 ) + ( f.a4 * g.a4 ) + ( (2 * f.a5) * g.a3 ) + ( f.a6 * g.a2 ) + ( (2 * f.a7) * g.a1 ) + ( f.a8 * g.a0 ) + ( (2 * f.a9) * (19 * g.a9) ))
      (( ((3 * U)) * ((3 * U)) ) + ( (2 * ((3 * V))) * ((3 * V)) ) + ( ((3 * U)) * ((3 * U)) ) + ( (2 * ((3 * V))) * ((3 * V)) ) + ( ((3 * U)) * ((3 * U)) ) + ( (2 * ((3 * V))) * ((3 * V)) ) + ( ((3 * U)) * ((3 * U)) ) + ( (2 * ((3 * V))) * ((3 * V)) ) + ( ((3 * U)) * ((3 * U)) ) + ( (2 * ((3 * V))) * (19 * ((3 * V))) )) := by
  have F0 : Ok (lit f.a0) f.a0 (3 * U) := Ok.lit hf.b0
  have F1 : Ok (lit f.a1) f.a1 (3 * V) := Ok.lit hf.b1
  have F2 : Ok (lit f.a2) f.a2 (3 * U) := Ok.lit hf.b2
  have F3 : Ok (lit f.a3) f.a3 (3 * V) := Ok.lit hf.b3
  have F4 : Ok (lit f.a4) f.a4 (3 * U) := Ok.lit hf.b4
  have F5 : Ok (lit f.a5) f.a5 (3 * V) := Ok.lit hf.b5
  have F6 : Ok (lit f.a6) f.a6 (3 * U) := Ok.lit hf.b6
  have F7 : Ok (lit f.a7) f.a7 (3 * V) := Ok.lit hf.b7
  have F8 : Ok (lit f.a8) f.a8 (3 * U) := Ok.lit hf.b8
  have F9 : Ok (lit f.a9) f.a9 (3 * V) := Ok.lit hf.b9
  have G0 : Ok (lit g.a0) g.a0 (3 * U) := Ok.lit hg.b0
  have G1 : Ok (lit g.a1) g.a1 (3 * V) := Ok.lit hg.b1
  have G2 : Ok (lit g.a2) g.a2 (3 * U) := Ok.lit hg.b2
  have G3 : Ok (lit g.a3) g.a3 (3 * V) := Ok.lit hg.b3
  have G4 : Ok (lit g.a4) g.a4 (3 * U) := Ok.lit hg.b4
  have G5 : Ok (lit g.a5) g.a5 (3 * V) := Ok.lit hg.b5
  have G6 : Ok (lit g.a6) g.a6 (3 * U) := Ok.lit hg.b6
  have G7 : Ok (lit g.a7) g.a7 (3 * V) := Ok.lit hg.b7
  have G8 : Ok (lit g.a8) g.a8 (3 * U) := Ok.lit hg.b8
  have G9 : Ok (lit g.a9) g.a9 (3 * V) := Ok.lit hg.b9
  okt

theorem mul_h9 {f g : F10} (hf : f.Bd 3) (hg : g.Bd 3) :
    Ok (( (lit f.a0) *! (lit g.a9) ) +! ( (lit f.a1) *! (lit g.a8) ) +! ( (lit f.a2) *! (lit g.a7) ) +! ( (lit f.a3) *! (lit g.a6) ) +! ( (lit f.a4) *! (lit g.a5) ) +! ( (lit f.a5) *! (lit g.a4) ) +! ( (lit f.a6) *! (lit g.a3) ) +! ( (lit f.a7) *! (lit g.a2) ) +! ( (lit f.a8) *! (lit g.a1) ) +! ( (lit f.a9) *! (lit g.a0) ))
      (( f.a0 * g.a9 ) + ( f.a1 * g.a8 ) + ( f.a2 * g.a7 ) + ( f.a3 * g.a6 ) + ( f.a4 * g.a5 ) + ( f.a5 * g.a4 ) + ( f.a6 * g.a3 ) + ( f.a7 * g.a2 ) + ( f.a8 * g.a1 ) + ( f.a9 * g.a0 ))
      (( ((3 * U)) * ((3 * V)) ) + ( ((3 * V)) * ((3 * U)) ) + ( ((3 * U)) * ((3 * V)) ) + ( ((3 * V)) * ((3 * U)) ) + ( ((3 * U)) * ((3 * V)) ) + ( ((3 * V)) * ((3 * U)) ) + ( ((3 * U)) * ((3 * V)) ) + ( ((3 * V)) * ((3 * U)) ) + ( ((3 * U)) * ((3 * V)) ) + ( ((3 * V)) * ((3 * U)) )) := by
  have F0 : Ok (lit f.a0) f.a0 (3 * U) := Ok.lit hf.b0
  have F1 : Ok (lit f.a1) f.a1 (3 * V) := Ok.lit hf.b1
  have F2 : Ok (lit f.a2) f.a2 (3 * U) := Ok.lit hf.b2
  have F3 : Ok (lit f.a3) f.a3 (3 * V) := Ok.lit hf.b3
  have F4 : Ok (lit f.a4) f.a4 (3 * U) := Ok.lit hf.b4
  have F5 : Ok (lit f.a5) f.a5 (3 * V) := Ok.lit hf.b5
  have F6 : Ok (lit f.a6) f.a6 (3 * U) := Ok.lit hf.b6
  have F7 : Ok (lit f.a7) f.a7 (3 * V) := Ok.lit hf.b7
  have F8 : Ok (lit f.a8) f.a8 (3 * U) := Ok.lit hf.b8
  have F9 : Ok (lit f.a9) f.a9 (3 * V) := Ok.lit hf.b9
  have G0 : Ok (lit g.a0) g.a0 (3 * U) := Ok.lit hg.b0
  have G1 : Ok (lit g.a1) g.a1 (3 * V) := Ok.lit hg.b1
  have G2 : Ok (lit g.a2) g.a2 (3 * U) := Ok.lit hg.b2
  have G3 : Ok (lit g.a3) g.a3 (3 * V) := Ok.lit hg.b3
  have G4 : Ok (lit g.a4) g.a4 (3 * U) := Ok.lit hg.b4
  have G5 : Ok (lit g.a5) g.a5 (3 * V) := Ok.lit hg.b5
  have G6 : Ok (lit g.a6) g.a6 (3 * U) := Ok.lit hg.b6
  have G7 : Ok (lit g.a7) g.a7 (3 * V) := Ok.lit hg.b7
  have G8 : Ok (lit g.a8) g.a8 (3 * U) := Ok.lit hg.b8
  have G9 : Ok (lit g.a9) g.a9 (3 * V) := Ok.lit hg.b9
  okt

theorem F10.mul_ok {f g : F10} (hf : f.Bd 3) (hg : g.Bd 3) :
    ∃ r, f.mul g = .ok r ∧ r.Bd 1 ∧ ∃ c : Int, r.val = f.val * g.val - c * P := by
  obtain ⟨e0, b0⟩ := mul_h0 hf hg
  obtain ⟨e1, b1⟩ := mul_h1 hf hg
  obtain ⟨e2, b2⟩ := mul_h2 hf hg
  obtain ⟨e3, b3⟩ := mul_h3 hf hg
  obtain ⟨e4, b4⟩ := mul_h4 hf hg
  obtain ⟨e5, b5⟩ := mul_h5 hf hg
  obtain ⟨e6, b6⟩ := mul_h6 hf hg
  obtain ⟨e7, b7⟩ := mul_h7 hf hg
  obtain ⟨e8, b8⟩ := mul_h8 hf hg
  obtain ⟨e9, b9⟩ := mul_h9 hf hg
  obtain ⟨r, er, br, c, hc⟩ := carryMul_ok (b0.trans (by decide)) (b1.trans (by decide)) (b2.trans (by decide)) (b3.trans (by decide)) (b4.trans (by decide)) (b5.trans (by decide)) (b6.trans (by decide)) (b7.trans (by decide)) (b8.trans (by decide)) (b9.trans (by decide))
  refine ⟨r, ?_, br, c + (2 ^ 1 * (f.a1 * g.a9) + 2 ^ 0 * (f.a2 * g.a8) + 2 ^ 26 * (f.a2 * g.a9) + 2 ^ 1 * (f.a3 * g.a7) + 2 ^ 26 * (f.a3 * g.a8) + 2 ^ 52 * (f.a3 * g.a9) + 2 ^ 0 * (f.a4 * g.a6) + 2 ^ 26 * (f.a4 * g.a7) + 2 ^ 51 * (f.a4 * g.a8) + 2 ^ 77 * (f.a4 * g.a9) + 2 ^ 1 * (f.a5 * g.a5) + 2 ^ 26 * (f.a5 * g.a6) + 2 ^ 52 * (f.a5 * g.a7) + 2 ^ 77 * (f.a5 * g.a8) + 2 ^ 103 * (f.a5 * g.a9) + 2 ^ 0 * (f.a6 * g.a4) + 2 ^ 26 * (f.a6 * g.a5) + 2 ^ 51 * (f.a6 * g.a6) + 2 ^ 77 * (f.a6 * g.a7) + 2 ^ 102 * (f.a6 * g.a8) + 2 ^ 128 * (f.a6 * g.a9) + 2 ^ 1 * (f.a7 * g.a3) + 2 ^ 26 * (f.a7 * g.a4) + 2 ^ 52 * (f.a7 * g.a5) + 2 ^ 77 * (f.a7 * g.a6) + 2 ^ 103 * (f.a7 * g.a7) + 2 ^ 128 * (f.a7 * g.a8) + 2 ^ 154 * (f.a7 * g.a9) + 2 ^ 0 * (f.a8 * g.a2) + 2 ^ 26 * (f.a8 * g.a3) + 2 ^ 51 * (f.a8 * g.a4) + 2 ^ 77 * (f.a8 * g.a5) + 2 ^ 102 * (f.a8 * g.a6) + 2 ^ 128 * (f.a8 * g.a7) + 2 ^ 153 * (f.a8 * g.a8) + 2 ^ 179 * (f.a8 * g.a9) + 2 ^ 1 * (f.a9 * g.a1) + 2 ^ 26 * (f.a9 * g.a2) + 2 ^ 52 * (f.a9 * g.a3) + 2 ^ 77 * (f.a9 * g.a4) + 2 ^ 103 * (f.a9 * g.a5) + 2 ^ 128 * (f.a9 * g.a6) + 2 ^ 154 * (f.a9 * g.a7) + 2 ^ 179 * (f.a9 * g.a8) + 2 ^ 205 * (f.a9 * g.a9)), ?_⟩
  · unfold F10.mul
    dsimp only
    rw [e0, ok_bind, e1, ok_bind, e2, ok_bind, e3, ok_bind, e4, ok_bind, e5, ok_bind, e6, ok_bind, e7, ok_bind, e8, ok_bind, e9, ok_bind]
    exact er
  · rw [hc]
    simp only [F10.val, P]
    push_cast
    ring

theorem sq_h0 {f : F10} (hf : f.Bd 3) :
    Ok (((lit f.a0) *! (lit f.a0)) +! ((lit 2 *! (lit f.a1)) *! (lit 38 *! (lit f.a9))) +! ( (lit 2 *! (lit f.a2)) *! (lit 19 *! (lit f.a8)) ) +! ( (lit 2 *! (lit f.a3)) *! (lit 38 *! (lit f.a7)) ) +! ( (lit 2 *! (lit f.a4)) *! (lit 19 *! (lit f.a6)) ) +! ( (lit f.a5) *! (lit 38 *! (lit f.a5)) ))
      ((f.a0 * f.a0) + ((2 * f.a1) * (38 * f.a9)) + ( (2 * f.a2) * (19 * f.a8) ) + ( (2 * f.a3) * (38 * f.a7) ) + ( (2 * f.a4) * (19 * f.a6) ) + ( f.a5 * (38 * f.a5) ))
      ((((3 * U)) * ((3 * U))) + ((2 * ((3 * V))) * (38 * ((3 * V)))) + ( (2 * ((3 * U))) * (19 * ((3 * U))) ) + ( (2 * ((3 * V))) * (38 * ((3 * V))) ) + ( (2 * ((3 * U))) * (19 * ((3 * U))) ) + ( ((3 * V)) * (38 * ((3 * V))) )) := by
  have F0 : Ok (lit f.a0) f.a0 (3 * U) := Ok.lit hf.b0
  have F1 : Ok (lit f.a1) f.a1 (3 * V) := Ok.lit hf.b1
  have F2 : Ok (lit f.a2) f.a2 (3 * U) := Ok.lit hf.b2
  have F3 : Ok (lit f.a3) f.a3 (3 * V) := Ok.lit hf.b3
  have F4 : Ok (lit f.a4) f.a4 (3 * U) := Ok.lit hf.b4
  have F5 : Ok (lit f.a5) f.a5 (3 * V) := Ok.lit hf.b5
  have F6 : Ok (lit f.a6) f.a6 (3 * U) := Ok.lit hf.b6
  have F7 : Ok (lit f.a7) f.a7 (3 * V) := Ok.lit hf.b7
  have F8 : Ok (lit f.a8) f.a8 (3 * U) := Ok.lit hf.b8
  have F9 : Ok (lit f.a9) f.a9 (3 * V) := Ok.lit hf.b9
  okt

theorem sq_h1 {f : F10} (hf : f.Bd 3) :
    Ok (((lit 2 *! (lit f.a0)) *! (lit f.a1)) +! ( (lit f.a2) *! (lit 38 *! (lit f.a9)) ) +! ( (lit 2 *! (lit f.a3)) *! (lit 19 *! (lit f.a8)) ) +! ( (lit f.a4) *! (lit 38 *! (lit f.a7)) ) +! ( (lit 2 *! (lit f.a5)) *! (lit 19 *! (lit f.a6)) ))
      (((2 * f.a0) * f.a1) + ( f.a2 * (38 * f.a9) ) + ( (2 * f.a3) * (19 * f.a8) ) + ( f.a4 * (38 * f.a7) ) + ( (2 * f.a5) * (19 * f.a6) ))
      (((2 * ((3 * U))) * ((3 * V))) + ( ((3 * U)) * (38 * ((3 * V))) ) + ( (2 * ((3 * V))) * (19 * ((3 * U))) ) + ( ((3 * U)) * (38 * ((3 * V))) ) + ( (2 * ((3 * V))) * (19 * ((3 * U))) )) := by
  have F0 : Ok (lit f.a0) f.a0 (3 * U) := Ok.lit hf.b0
  have F1 : Ok (lit f.a1) f.a1 (3 * V) := Ok.lit hf.b1
  have F2 : Ok (lit f.a2) f.a2 (3 * U) := Ok.lit hf.b2
  have F3 : Ok (lit f.a3) f.a3 (3 * V) := Ok.lit hf.b3
  have F4 : Ok (lit f.a4) f.a4 (3 * U) := Ok.lit hf.b4
  have F5 : Ok (lit f.a5) f.a5 (3 * V) := Ok.lit hf.b5
  have F6 : Ok (lit f.a6) f.a6 (3 * U) := Ok.lit hf.b6
  have F7 : Ok (lit f.a7) f.a7 (3 * V) := Ok.lit hf.b7
  have F8 : Ok (lit f.a8) f.a8 (3 * U) := Ok.lit hf.b8
  have F9 : Ok (lit f.a9) f.a9 (3 * V) := Ok.lit hf.b9
  okt

theorem sq_h2 {f : F10} (hf : f.Bd 3) :
    Ok (((lit 2 *! (lit f.a0)) *! (lit f.a2)) +! ((lit 2 *! (lit f.a1)) *! (lit f.a1)) +! ( (lit 2 *! (lit f.a3)) *! (lit 38 *! (lit f.a9)) ) +! ( (lit 2 *! (lit f.a4)) *! (lit 19 *! (lit f.a8)) ) +! ( (lit 2 *! (lit f.a5)) *! (lit 38 *! (lit f.a7)) ) +! ( (lit f.a6) *! (lit 19 *! (lit f.a6)) ))
      (((2 * f.a0) * f.a2) + ((2 * f.a1) * f.a1) + ( (2 * f.a3) * (38 * f.a9) ) + ( (2 * f.a4) * (19 * f.a8) ) + ( (2 * f.a5) * (38 * f.a7) ) + ( f.a6 * (19 * f.a6) ))
      (((2 * ((3 * U))) * ((3 * U))) + ((2 * ((3 * V))) * ((3 * V))) + ( (2 * ((3 * V))) * (38 * ((3 * V))) ) + ( (2 * ((3 * U))) * (19 * ((3 * U))) ) + ( (2 * ((3 * V))) * (38 * ((3 * V))) ) + ( ((3 * U)) * (19 * ((3 * U))) )) := by
  have F0 : Ok (lit f.a0) f.a0 (3 * U) := Ok.lit hf.b0
  have F1 : Ok (lit f.a1) f.a1 (3 * V) := Ok.lit hf.b1
  have F2 : Ok (lit f.a2) f.a2 (3 * U) := Ok.lit hf.b2
  have F3 : Ok (lit f.a3) f.a3 (3 * V) := Ok.lit hf.b3
  have F4 : Ok (lit f.a4) f.a4 (3 * U) := Ok.lit hf.b4
  have F5 : Ok (lit f.a5) f.a5 (3 * V) := Ok.lit hf.b5
  have F6 : Ok (lit f.a6) f.a6 (3 * U) := Ok.lit hf.b6
  have F7 : Ok (lit f.a7) f.a7 (3 * V) := Ok.lit hf.b7
  have F8 : Ok (lit f.a8) f.a8 (3 * U) := Ok.lit hf.b8
  have F9 : Ok (lit f.a9) f.a9 (3 * V) := Ok.lit hf.b9
  okt

theorem sq_h3 {f : F10} (hf : f.Bd 3) :
    Ok (((lit 2 *! (lit f.a0)) *! (lit f.a3)) +! ((lit 2 *! (lit f.a1)) *! (lit f.a2)) +! ( (lit f.a4) *! (lit 38 *! (lit f.a9)) ) +! ( (lit 2 *! (lit f.a5)) *! (lit 19 *! (lit f.a8)) ) +! ( (lit f.a6) *! (lit 38 *! (lit f.a7)) ))
      (((2 * f.a0) * f.a3) + ((2 * f.a1) * f.a2) + ( f.a4 * (38 * f.a9) ) + ( (2 * f.a5) * (19 * f.a8) ) + ( f.a6 * (38 * f.a7) ))
      (((2 * ((3 * U))) * ((3 * V))) + ((2 * ((3 * V))) * ((3 * U))) + ( ((3 * U)) * (38 * ((3 * V))) ) + ( (2 * ((3 * V))) * (19 * ((3 * U))) ) + ( ((3 * U)) * (38 * ((3 * V))) )) := by
  have F0 : Ok (lit f.a0) f.a0 (3 * U) := Ok.lit hf.b0
  have F1 : Ok (lit f.a1) f.a1 (3 * V) := Ok.lit hf.b1
  have F2 : Ok (lit f.a2) f.a2 (3 * U) := Ok.lit hf.b2
  have F3 : Ok (lit f.a3) f.a3 (3 * V) := Ok.lit hf.b3
  have F4 : Ok (lit f.a4) f.a4 (3 * U) := Ok.lit hf.b4
  have F5 : Ok (lit f.a5) f.a5 (3 * V) := Ok.lit hf.b5
  have F6 : Ok (lit f.a6) f.a6 (3 * U) := Ok.lit hf.b6
  have F7 : Ok (lit f.a7) f.a7 (3 * V) := Ok.lit hf.b7
  have F8 : Ok (lit f.a8) f.a8 (3 * U) := Ok.lit hf.b8
  have F9 : Ok (lit f.a9) f.a9 (3 * V) := Ok.lit hf.b9
  okt

theorem sq_h4 {f : F10} (hf : f.Bd 3) :
    Ok (((lit 2 *! (lit f.a0)) *! (lit f.a4)) +! ((lit 2 *! (lit f.a1)) *! (lit 2 *! (lit f.a3))) +! ( (lit f.a2) *! (lit f.a2) ) +! ( (lit 2 *! (lit f.a5)) *! (lit 38 *! (lit f.a9)) ) +! ( (lit 2 *! (lit f.a6)) *! (lit 19 *! (lit f.a8)) ) +! ( (lit f.a7) *! (lit 38 *! (lit f.a7)) ))
      (((2 * f.a0) * f.a4) + ((2 * f.a1) * (2 * f.a3)) + ( f.a2 * f.a2 ) + ( (2 * f.a5) * (38 * f.a9) ) + ( (2 * f.a6) * (19 * f.a8) ) + ( f.a7 * (38 * f.a7) ))
      (((2 * ((3 * U))) * ((3 * U))) + ((2 * ((3 * V))) * (2 * ((3 * V)))) + ( ((3 * U)) * ((3 * U)) ) + ( (2 * ((3 * V))) * (38 * ((3 * V))) ) + ( (2 * ((3 * U))) * (19 * ((3 * U))) ) + ( ((3 * V)) * (38 * ((3 * V))) )) := by
  have F0 : Ok (lit f.a0) f.a0 (3 * U) := Ok.lit hf.b0
  have F1 : Ok (lit f.a1) f.a1 (3 * V) := Ok.lit hf.b1
  have F2 : Ok (lit f.a2) f.a2 (3 * U) := Ok.lit hf.b2
  have F3 : Ok (lit f.a3) f.a3 (3 * V) := Ok.lit hf.b3
  have F4 : Ok (lit f.a4) f.a4 (3 * U) := Ok.lit hf.b4
  have F5 : Ok (lit f.a5) f.a5 (3 * V) := Ok.lit hf.b5
  have F6 : Ok (lit f.a6) f.a6 (3 * U) := Ok.lit hf.b6
  have F7 : Ok (lit f.a7) f.a7 (3 * V) := Ok.lit hf.b7
  have F8 : Ok (lit f.a8) f.a8 (3 * U) := Ok.lit hf.b8
  have F9 : Ok (lit f.a9) f.a9 (3 * V) := Ok.lit hf.b9
  okt

theorem sq_h5 {f : F10} (hf : f.Bd 3) :
    Ok (((lit 2 *! (lit f.a0)) *! (lit f.a5)) +! ((lit 2 *! (lit f.a1)) *! (lit f.a4)) +! ( (lit 2 *! (lit f.a2)) *! (lit f.a3) ) +! ( (lit f.a6) *! (lit 38 *! (lit f.a9)) ) +! ( (lit 2 *! (lit f.a7)) *! (lit 19 *! (lit f.a8)) ))
      (((2 * f.a0) * f.a5) + ((2 * f.a1) * f.a4) + ( (2 * f.a2) * f.a3 ) + ( f.a6 * (38 * f.a9) ) + ( (2 * f.a7) * (19 * f.a8) ))
      (((2 * ((3 * U))) * ((3 * V))) + ((2 * ((3 * V))) * ((3 * U))) + ( (2 * ((3 * U))) * ((3 * V)) ) + ( ((3 * U)) * (38 * ((3 * V))) ) + ( (2 * ((3 * V))) * (19 * ((3 * U))) )) := by
  have F0 : Ok (lit f.a0) f.a0 (3 * U) := Ok.lit hf.b0
  have F1 : Ok (lit f.a1) f.a1 (3 * V) := Ok.lit hf.b1
  have F2 : Ok (lit f.a2) f.a2 (3 * U) := Ok.lit hf.b2
  have F3 : Ok (lit f.a3) f.a3 (3 * V) := Ok.lit hf.b3
  have F4 : Ok (lit f.a4) f.a4 (3 * U) := Ok.lit hf.b4
  have F5 : Ok (lit f.a5) f.a5 (3 * V) := Ok.lit hf.b5
  have F6 : Ok (lit f.a6) f.a6 (3 * U) := Ok.lit hf.b6
  have F7 : Ok (lit f.a7) f.a7 (3 * V) := Ok.lit hf.b7
  have F8 : Ok (lit f.a8) f.a8 (3 * U) := Ok.lit hf.b8
  have F9 : Ok (lit f.a9) f.a9 (3 * V) := Ok.lit hf.b9
  okt

theorem sq_h6 {f : F10} (hf : f.Bd 3) :
    Ok (((lit 2 *! (lit f.a0)) *! (lit f.a6)) +! ((lit 2 *! (lit f.a1)) *! (lit 2 *! (lit f.a5))) +! ( (lit 2 *! (lit f.a2)) *! (lit f.a4) ) +! ( (lit 2 *! (lit f.a3)) *! (lit f.a3) ) +! ( (lit 2 *! (lit f.a7)) *! (lit 38 *! (lit f.a9)) ) +! ( (lit f.a8) *! (lit 19 *! (lit f.a8)) ))
      (((2 * f.a0) * f.a6) + ((2 * f.a1) * (2 * f.a5)) + ( (2 * f.a2) * f.a4 ) + ( (2 * f.a3) * f.a3 ) + ( (2 * f.a7) * (38 * f.a9) ) + ( f.a8 * (19 * f.a8) ))
      (((2 * ((3 * U))) * ((3 * U))) + ((2 * ((3 * V))) * (2 * ((3 * V)))) + ( (2 * ((3 * U))) * ((3 * U)) ) + ( (2 * ((3 * V))) * ((3 * V)) ) + ( (2 * ((3 * V))) * (38 * ((3 * V))) ) + ( ((3 * U)) * (19 * ((3 * U))) )) := by
  have F0 : Ok (lit f.a0) f.a0 (3 * U) := Ok.lit hf.b0
  have F1 : Ok (lit f.a1) f.a1 (3 * V) := Ok.lit hf.b1
  have F2 : Ok (lit f.a2) f.a2 (3 * U) := Ok.lit hf.b2
  have F3 : Ok (lit f.a3) f.a3 (3 * V) := Ok.lit hf.b3
  have F4 : Ok (lit f.a4) f.a4 (3 * U) := Ok.lit hf.b4
  have F5 : Ok (lit f.a5) f.a5 (3 * V) := Ok.lit hf.b5
  have F6 : Ok (lit f.a6) f.a6 (3 * U) := Ok.lit hf.b6
  have F7 : Ok (lit f.a7) f.a7 (3 * V) := Ok.lit hf.b7
  have F8 : Ok (lit f.a8) f.a8 (3 * U) := Ok.lit hf.b8
  have F9 : Ok (lit f.a9) f.a9 (3 * V) := Ok.lit hf.b9
  okt

theorem sq_h7 {f : F10} (hf : f.Bd 3) :
    Ok (((lit 2 *! (lit f.a0)) *! (lit f.a7)) +! ((lit 2 *! (lit f.a1)) *! (lit f.a6)) +! ( (lit 2 *! (lit f.a2)) *! (lit f.a5) ) +! ( (lit 2 *! (lit f.a3)) *! (lit f.a4) ) +! ( (lit f.a8) *! (lit 38 *! (lit f.a9)) ))
      (((2 * f.a0) * f.a7) + ((2 * f.a1) * f.a6) + ( (2 * f.a2) * f.a5 ) + ( (2 * f.a3) * f.a4 ) + ( f.a8 * (38 * f.a9) ))
      (((2 * ((3 * U))) * ((3 * V))) + ((2 * ((3 * V))) * ((3 * U))) + ( (2 * ((3 * U))) * ((3 * V)) ) + ( (2 * ((3 * V))) * ((3 * U)) ) + ( ((3 * U)) * (38 * ((3 * V))) )) := by
  have F0 : Ok (lit f.a0) f.a0 (3 * U) := Ok.lit hf.b0
  have F1 : Ok (lit f.a1) f.a1 (3 * V) := Ok.lit hf.b1
  have F2 : Ok (lit f.a2) f.a2 (3 * U) := Ok.lit hf.b2
  have F3 : Ok (lit f.a3) f.a3 (3 * V) := Ok.lit hf.b3
  have F4 : Ok (lit f.a4) f.a4 (3 * U) := Ok.lit hf.b4
  have F5 : Ok (lit f.a5) f.a5 (3 * V) := Ok.lit hf.b5
  have F6 : Ok (lit f.a6) f.a6 (3 * U) := Ok.lit hf.b6
  have F7 : Ok (lit f.a7) f.a7 (3 * V) := Ok.lit hf.b7
  have F8 : Ok (lit f.a8) f.a8 (3 * U) := Ok.lit hf.b8
  have F9 : Ok (lit f.a9) f.a9 (3 * V) := Ok.lit hf.b9
  okt

theorem sq_h8 {f : F10} (hf : f.Bd 3) :
    Ok (((lit 2 *! (lit f.a0)) *! (lit f.a8)) +! ((lit 2 *! (lit f.a1)) *! (lit 2 *! (lit f.a7))) +! ( (lit 2 *! (lit f.a2)) *! (lit f.a6) ) +! ( (lit 2 *! (lit f.a3)) *! (lit 2 *! (lit f.a5)) ) +! ( (lit f.a4) *! (lit f.a4) ) +! ( (lit f.a9) *! (lit 38 *! (lit f.a9)) ))
      (((2 * f.a0) * f.a8) + ((2 * f.a1) * (2 * f.a7)) + ( (2 * f.a2) * f.a6 ) + ( (2 * f.a3) * (2 * f.a5) ) + ( f.a4 * f.a4 ) + ( f.a9 * (38 * f.a9) ))
      (((2 * ((3 * U))) * ((3 * U))) + ((2 * ((3 * V))) * (2 * ((3 * V)))) + ( (2 * ((3 * U))) * ((3 * U)) ) + ( (2 * ((3 * V))) * (2 * ((3 * V))) ) + ( ((3 * U)) * ((3 * U)) ) + ( ((3 * V)) * (38 * ((3 * V))) )) := by
  have F0 : Ok (lit f.a0) f.a0 (3 * U) := Ok.lit hf.b0
  have F1 : Ok (lit f.a1) f.a1 (3 * V) := Ok.lit hf.b1
  have F2 : Ok (lit f.a2) f.a2 (3 * U) := Ok.lit hf.b2
  have F3 : Ok (lit f.a3) f.a3 (3 * V) := Ok.lit hf.b3
  have F4 : Ok (lit f.a4) f.a4 (3 * U) := Ok.lit hf.b4
  have F5 : Ok (lit f.a5) f.a5 (3 * V) := Ok.lit hf.b5
  have F6 : Ok (lit f.a6) f.a6 (3 * U) := Ok.lit hf.b6
  have F7 : Ok (lit f.a7) f.a7 (3 * V) := Ok.lit hf.b7
  have F8 : Ok (lit f.a8) f.a8 (3 * U) := Ok.lit hf.b8
  have F9 : Ok (lit f.a9) f.a9 (3 * V) := Ok.lit hf.b9
  okt

theorem sq_h9 {f : F10} (hf : f.Bd 3) :
    Ok (((lit 2 *! (lit f.a0)) *! (lit f.a9)) +! ((lit 2 *! (lit f.a1)) *! (lit f.a8)) +! ( (lit 2 *! (lit f.a2)) *! (lit f.a7) ) +! ( (lit 2 *! (lit f.a3)) *! (lit f.a6) ) +! ( (lit 2 *! (lit f.a4)) *! (lit f.a5) ))
      (((2 * f.a0) * f.a9) + ((2 * f.a1) * f.a8) + ( (2 * f.a2) * f.a7 ) + ( (2 * f.a3) * f.a6 ) + ( (2 * f.a4) * f.a5 ))
      (((2 * ((3 * U))) * ((3 * V))) + ((2 * ((3 * V))) * ((3 * U))) + ( (2 * ((3 * U))) * ((3 * V)) ) + ( (2 * ((3 * V))) * ((3 * U)) ) + ( (2 * ((3 * U))) * ((3 * V)) )) := by
  have F0 : Ok (lit f.a0) f.a0 (3 * U) := Ok.lit hf.b0
  have F1 : Ok (lit f.a1) f.a1 (3 * V) := Ok.lit hf.b1
  have F2 : Ok (lit f.a2) f.a2 (3 * U) := Ok.lit hf.b2
  have F3 : Ok (lit f.a3) f.a3 (3 * V) := Ok.lit hf.b3
  have F4 : Ok (lit f.a4) f.a4 (3 * U) := Ok.lit hf.b4
  have F5 : Ok (lit f.a5) f.a5 (3 * V) := Ok.lit hf.b5
  have F6 : Ok (lit f.a6) f.a6 (3 * U) := Ok.lit hf.b6
  have F7 : Ok (lit f.a7) f.a7 (3 * V) := Ok.lit hf.b7
  have F8 : Ok (lit f.a8) f.a8 (3 * U) := Ok.lit hf.b8
  have F9 : Ok (lit f.a9) f.a9 (3 * V) := Ok.lit hf.b9
  okt

theorem F10.sq_ok {f : F10} (hf : f.Bd 3) :
    ∃ r, f.sq = .ok r ∧ r.Bd 1 ∧ ∃ c : Int, r.val = f.val * f.val - c * P := by
  obtain ⟨e0, b0⟩ := sq_h0 hf
  obtain ⟨e1, b1⟩ := sq_h1 hf
  obtain ⟨e2, b2⟩ := sq_h2 hf
  obtain ⟨e3, b3⟩ := sq_h3 hf
  obtain ⟨e4, b4⟩ := sq_h4 hf
  obtain ⟨e5, b5⟩ := sq_h5 hf
  obtain ⟨e6, b6⟩ := sq_h6 hf
  obtain ⟨e7, b7⟩ := sq_h7 hf
  obtain ⟨e8, b8⟩ := sq_h8 hf
  obtain ⟨e9, b9⟩ := sq_h9 hf
  obtain ⟨r, er, br, c, hc⟩ := carryMul_ok (b0.trans (by decide)) (b1.trans (by decide)) (b2.trans (by decide)) (b3.trans (by decide)) (b4.trans (by decide)) (b5.trans (by decide)) (b6.trans (by decide)) (b7.trans (by decide)) (b8.trans (by decide)) (b9.trans (by decide))
  refine ⟨r, ?_, br, c + (2 ^ 1 * (f.a1 * f.a9) + 2 ^ 0 * (f.a2 * f.a8) + 2 ^ 26 * (f.a2 * f.a9) + 2 ^ 1 * (f.a3 * f.a7) + 2 ^ 26 * (f.a3 * f.a8) + 2 ^ 52 * (f.a3 * f.a9) + 2 ^ 0 * (f.a4 * f.a6) + 2 ^ 26 * (f.a4 * f.a7) + 2 ^ 51 * (f.a4 * f.a8) + 2 ^ 77 * (f.a4 * f.a9) + 2 ^ 1 * (f.a5 * f.a5) + 2 ^ 26 * (f.a5 * f.a6) + 2 ^ 52 * (f.a5 * f.a7) + 2 ^ 77 * (f.a5 * f.a8) + 2 ^ 103 * (f.a5 * f.a9) + 2 ^ 0 * (f.a6 * f.a4) + 2 ^ 26 * (f.a6 * f.a5) + 2 ^ 51 * (f.a6 * f.a6) + 2 ^ 77 * (f.a6 * f.a7) + 2 ^ 102 * (f.a6 * f.a8) + 2 ^ 128 * (f.a6 * f.a9) + 2 ^ 1 * (f.a7 * f.a3) + 2 ^ 26 * (f.a7 * f.a4) + 2 ^ 52 * (f.a7 * f.a5) + 2 ^ 77 * (f.a7 * f.a6) + 2 ^ 103 * (f.a7 * f.a7) + 2 ^ 128 * (f.a7 * f.a8) + 2 ^ 154 * (f.a7 * f.a9) + 2 ^ 0 * (f.a8 * f.a2) + 2 ^ 26 * (f.a8 * f.a3) + 2 ^ 51 * (f.a8 * f.a4) + 2 ^ 77 * (f.a8 * f.a5) + 2 ^ 102 * (f.a8 * f.a6) + 2 ^ 128 * (f.a8 * f.a7) + 2 ^ 153 * (f.a8 * f.a8) + 2 ^ 179 * (f.a8 * f.a9) + 2 ^ 1 * (f.a9 * f.a1) + 2 ^ 26 * (f.a9 * f.a2) + 2 ^ 52 * (f.a9 * f.a3) + 2 ^ 77 * (f.a9 * f.a4) + 2 ^ 103 * (f.a9 * f.a5) + 2 ^ 128 * (f.a9 * f.a6) + 2 ^ 154 * (f.a9 * f.a7) + 2 ^ 179 * (f.a9 * f.a8) + 2 ^ 205 * (f.a9 * f.a9)), ?_⟩
  · unfold F10.sq
    dsimp only
    rw [e0, ok_bind, e1, ok_bind, e2, ok_bind, e3, ok_bind, e4, ok_bind, e5, ok_bind, e6, ok_bind, e7, ok_bind, e8, ok_bind, e9, ok_bind]
    exact er
  · rw [hc]
    simp only [F10.val, P]
    push_cast
    ring

end

end Cex.Ec25519
