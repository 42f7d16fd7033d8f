import Verif.Moment.Spec

/-! # Sextupoles cut between their slices: the terms of C103

Nothing here mentions functions of the model, only settings. -/

namespace Flame.Sext.Spec

open Flame.Linear (LCfg)
open Flame.Moment.Spec (numOr)

/-- The number of slices of a sextupole is `n`: the setting `step` without its fraction, or one. -/
def Steps (c : LCfg) (n : ℕ) : Prop := (n : ℝ) ≤ numOr c "step" 1 ∧ numOr c "step" 1 < n + 1

/-- The settings `a` and `b` are those of the first and of the remaining slices of a sextupole with the settings `c`, which is not
inclined.  The parts have the settings of the whole apart from the name, the length and the number of slices. -/
structure Parts (c a b : LCfg) : Prop where
  same : ∀ k, k ≠ "L" → k ≠ "step" → k ≠ "name" → a k = c k ∧ b k = c k
  slices : ∃ (m n : ℕ) (x : ℝ), 0 < m ∧ 0 < n ∧ Steps c (m + n) ∧ Steps a m ∧ Steps b n ∧
    c "L" = some (.num ((m + n) * x)) ∧ a "L" = some (.num (m * x)) ∧ b "L" = some (.num (n * x))
  upright : numOr c "pitch" 0 = 0 ∧ numOr c "yaw" 0 = 0

/-- The slices are treated as thin lenses between drifts. -/
def Thin (c : LCfg) : Prop := numOr c "thinlens" 0 = 1

/-- The element is where it should be. -/
def Straight (c : LCfg) : Prop := numOr c "dx" 0 = 0 ∧ numOr c "dy" 0 = 0 ∧ numOr c "roll" 0 = 0

end Flame.Sext.Spec
