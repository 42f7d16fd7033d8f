import Mathlib.Data.Nat.Digits.Defs

/-!
# Link strings of the records of the virtual accelerator

What `boost::regex_match` accepts for the patterns in /repo/vaccel, group by group.  Which of several ways to match is taken
does not matter, see C76.  Character classes are those of the C locale.
-/

namespace Flame.Vaccel

/-- Text. -/
abbrev Text := List Char

/-- The class `\s`. -/
def blank (c : Char) : Prop := c ∈ [' ', '\t', '\n', '\x0b', '\x0c', '\r']

/-- The class `\d`. -/
def digit (c : Char) : Prop := c ∈ ['0', '1', '2', '3', '4', '5', '6', '7', '8', '9']

/-- `\S+`. -/
def Solid (g : Text) : Prop := g ≠ [] ∧ ∀ c ∈ g, ¬ blank c

/-- `[^\s\[]+`. -/
def Word (g : Text) : Prop := g ≠ [] ∧ ∀ c ∈ g, ¬ blank c ∧ c ≠ '['

/-- `\d+`. -/
def Digits (g : Text) : Prop := g ≠ [] ∧ ∀ c ∈ g, digit c

/-- `(?:\[(\d+)\])?` matching `s`; `none`: the group has not taken part. -/
def OneIndex (g : Option Text) (s : Text) : Prop :=
  match g with
  | none => s = []
  | some d => Digits d ∧ s = '[' :: d ++ [']']

/-- `(?:\[(\d+)(?:,(\d+))?\])?` matching `s`. -/
def TwoIndices (g h : Option Text) (s : Text) : Prop :=
  match g, h with
  | none, none => s = []
  | none, some _ => False
  | some d, none => Digits d ∧ s = '[' :: d ++ [']']
  | some d, some e => Digits d ∧ Digits e ∧ s = '[' :: d ++ ',' :: e ++ [']']

/-- The groups of a link of a measurement. -/
structure MeasGroups where
  sim : Text
  elem : Text
  inst : Option Text
  param : Text
  dim0 : Option Text
  dim1 : Option Text
  deriving DecidableEq

/-- `(\S+) ([^\s\[]+)(?:\[(\d+)\])? ([^\s\[]+)(?:\[(\d+)(?:,(\d+))?\])?` (/repo/vaccel/flamemeasure.cpp:42). -/
def MeasLink (s : Text) (g : MeasGroups) : Prop :=
  ∃ t u, Solid g.sim ∧ Word g.elem ∧ OneIndex g.inst t ∧ Word g.param ∧ TwoIndices g.dim0 g.dim1 u ∧
    s = g.sim ++ ' ' :: (g.elem ++ t ++ ' ' :: (g.param ++ u))

/-- The groups of a link of an orbit. -/
structure OrbitGroups where
  sim : Text
  type : Text
  param : Text
  dim0 : Option Text
  dim1 : Option Text
  deriving DecidableEq

/-- `(\S+) ([^\s\[]+) ([^\s\[]+)(?:\[(\d+)(?:,(\d+))?\])?` (/repo/vaccel/flameorbit.cpp:31). -/
def OrbitLink (s : Text) (g : OrbitGroups) : Prop :=
  ∃ u, Solid g.sim ∧ Word g.type ∧ Word g.param ∧ TwoIndices g.dim0 g.dim1 u ∧
    s = g.sim ++ ' ' :: (g.type ++ ' ' :: (g.param ++ u))

/-- The groups of a link of a setting. -/
structure SetGroups where
  sim : Text
  elem : Text
  inst : Option Text
  param : Text
  deriving DecidableEq

/-- `(\S+) ([^\s\[]+)(?:\[(\d+)\])? (\S+)` (/repo/vaccel/flameset.cpp:19). -/
def SetLink (s : Text) (g : SetGroups) : Prop :=
  ∃ t, Solid g.sim ∧ Word g.elem ∧ OneIndex g.inst t ∧ Solid g.param ∧
    s = g.sim ++ ' ' :: (g.elem ++ t ++ ' ' :: g.param)

/-- The groups of a link of an element index. -/
structure ElemGroups where
  sim : Text
  elem : Text
  inst : Option Text
  deriving DecidableEq

/-- `(\S+) ([^\s\[]+)(?:\[(\d+)\])?` (/repo/vaccel/flameelem.cpp:17). -/
def ElemLink (s : Text) (g : ElemGroups) : Prop :=
  ∃ t, Solid g.sim ∧ Word g.elem ∧ OneIndex g.inst t ∧ s = g.sim ++ ' ' :: (g.elem ++ t)

/-- The number of a digit. -/
def digitVal (c : Char) : Nat := c.toNat - '0'.toNat

/-- `boost::lexical_cast<size_t>` of a group of digits (/repo/vaccel/flamemeasure.cpp:56, 61, 65): `none` is
`bad_lexical_cast` if the number does not fit. -/
def sizeOfText (g : Text) : Option Nat :=
  let n := g.foldl (fun n c => 10 * n + digitVal c) 0
  if n < 2 ^ 64 then some n else none

/-- The instance number, 0 if there is none (/repo/vaccel/flamemeasure.cpp:54-56). -/
def instOf : Option Text → Option Nat
  | none => some 0
  | some d => sizeOfText d

/-- `dim` (/repo/vaccel/flamemeasure.cpp:58-66): its length is `ndim`. -/
def dimsOf : Option Text → Option Text → Option (List Nat)
  | none, none => some []
  | none, some e => (sizeOfText e).map (fun j => [j])
  | some d, none => (sizeOfText d).map (fun i => [i])
  | some d, some e =>
    match sizeOfText d, sizeOfText e with
    | some i, some j => some [i, j]
    | _, _ => none

end Flame.Vaccel
