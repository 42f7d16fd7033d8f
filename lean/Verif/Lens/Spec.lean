import Verif.Util.TableSpec

/-!
# What a file of thin lenses consists of
-/

namespace Flame.Lens

open Flame.Util

/-- A character of a word. -/
def Visible (c : Char) : Prop := c ∉ [' ', '\t', '\n', '\r', Char.ofNat 11, Char.ofNat 12]

/-- A text that consists of these words, with blanks between them and possibly before and after them. -/
inductive Words : Str → List Str → Prop
  | none {s} (h : ∀ c ∈ s, Space c) : Words s []
  | last {g w} (hg : ∀ c ∈ g, Space c) (hw : w ≠ []) (hc : ∀ c ∈ w, Visible c) : Words (g ++ w) [w]
  | cons {g w c s ws} (hg : ∀ c ∈ g, Space c) (hw : w ≠ []) (hc : ∀ c ∈ w, Visible c) (hb : Space c) (h : Words s ws) :
      Words (g ++ (w ++ c :: s)) (w :: ws)

/-- A piece of a cavity. -/
structure Piece (N : Type) where
  type : Str
  name : Str
  length : N
  aperture : N
  strength : N

/-- Pieces without a strength of their own. -/
def Plain (ty : Str) : Prop := ty = "drift".toList ∨ ty = "AccGap".toList

/-- The words of a line describe a piece: its type and name, its length, its aperture and, unless it is a drift or a gap,
its strength.  Further words have no meaning. -/
def Describes {N : Type} (num : Str → Option N) (zero : N) (ws : List Str) (p : Piece N) : Prop :=
  ∃ a b more, ws = p.type :: p.name :: a :: b :: more ∧ Numeral a ∧ num a = some p.length ∧
    Numeral b ∧ num b = some p.aperture ∧
    (Plain p.type → p.strength = zero) ∧
    (¬ Plain p.type → ∃ e more', more = e :: more' ∧ Numeral e ∧ num e = some p.strength)

/-- The lines of a file: blank, a comment or a piece. -/
inductive IsLine {N : Type} (num : Str → Option N) (zero : N) : Str → Option (Piece N) → Prop
  | blank {s} (h : ∀ c ∈ s, c = ' ' ∨ c = '\t') : IsLine num zero s none
  | comment {g s} (h : ∀ c ∈ g, c = ' ' ∨ c = '\t') (hs : '\n' ∉ s) : IsLine num zero (g ++ '%' :: s) none
  | piece {s ws p} (h : Words s ws) (hp : p.type.head? ≠ some '%') (hd : Describes num zero ws p) :
      IsLine num zero s (some p)

end Flame.Lens
