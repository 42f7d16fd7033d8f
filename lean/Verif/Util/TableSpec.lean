import Verif.Util.Table

/-!
# What a table file consists of
-/

namespace Flame.Util

variable {N : Type}

/-- A nonempty string of decimal digits. -/
def Digs (s : Str) : Prop := s ≠ [] ∧ ∀ c ∈ s, c ∈ ['0', '1', '2', '3', '4', '5', '6', '7', '8', '9']

/-- Optional sign. -/
def OptSign (s : Str) : Prop := s = [] ∨ s = ['+'] ∨ s = ['-']

/-- Decimal numerals: sign, digits with an optional decimal point somewhere, exponent. -/
def Numeral (w : Str) : Prop :=
  ∃ s a b e, w = s ++ (a ++ (b ++ e)) ∧ OptSign s ∧
    ((Digs a ∧ (b = [] ∨ ∃ d, b = '.' :: d ∧ (d = [] ∨ Digs d))) ∨ (a = [] ∧ ∃ d, b = '.' :: d ∧ Digs d)) ∧
    (e = [] ∨ ∃ l t d, e = l :: (t ++ d) ∧ (l = 'e' ∨ l = 'E') ∧ OptSign t ∧ Digs d)

/-- Blanks between entries. -/
def Space (c : Char) : Prop := c = ' ' ∨ c = '\t' ∨ c = '\r'

/-- A data line: numerals separated by blanks, possibly with blanks before and after. -/
inductive Entries (num : Str → Option N) : Str → List N → Prop
  | none {s} (h : ∀ c ∈ s, Space c) : Entries num s []
  | last {g w x} (hg : ∀ c ∈ g, Space c) (hw : Numeral w) (hx : num w = some x) : Entries num (g ++ w) [x]
  | cons {g w c s x xs} (hg : ∀ c ∈ g, Space c) (hw : Numeral w) (hx : num w = some x) (hc : Space c)
      (h : Entries num s xs) : Entries num (g ++ (w ++ c :: s)) (x :: xs)

/-- Column names separated by blanks or tabs. -/
inductive Names : Str → List Str → Prop
  | none {s} (h : ∀ c ∈ s, c = ' ' ∨ c = '\t') : Names s []
  | last {g w} (hg : ∀ c ∈ g, c = ' ' ∨ c = '\t') (hw : w ≠ []) (hc : ∀ c ∈ w, c ∉ [' ', '\t', '\r', '\n']) :
      Names (g ++ w) [w]
  | cons {g w c s ws} (hg : ∀ c ∈ g, c = ' ' ∨ c = '\t') (hw : w ≠ []) (hc : ∀ c ∈ w, c ∉ [' ', '\t', '\r', '\n'])
      (hb : c = ' ' ∨ c = '\t') (h : Names s ws) : Names (g ++ (w ++ c :: s)) (w :: ws)

/-- What a line says. -/
inductive Item (N : Type)
  | blank
  | header (names : List Str)
  | data (xs : List N)

/-- The lines of a well formed table (without the line feed). -/
inductive IsLine (num : Str → Option N) : Str → Item N → Prop
  | blank {s} (h : ∀ c ∈ s, c = ' ' ∨ c = '\t') : IsLine num s .blank
  | header {s ns r} (h : Names s ns) (hr : r = [] ∨ r = ['\r']) : IsLine num ('%' :: (s ++ r)) (.header ns)
  | data {s xs} (h : Entries num s xs) (hn : xs ≠ []) : IsLine num s (.data xs)

/-- The text made of these lines; the line feed at the end of the last line is optional. -/
def IsText (lines : List Str) (text : Str) : Prop :=
  text = lines.flatMap (· ++ ['\n']) ∨ ∃ ls l, lines = ls ++ [l] ∧ text = ls.flatMap (· ++ ['\n']) ++ l

/-- The data rows. -/
def dataRows : List (Item N) → List (List N)
  | [] => []
  | .data xs :: is => xs :: dataRows is
  | _ :: is => dataRows is

/-- The names of the last header, none without a header. -/
def lastHeader : List (Item N) → Option (List Str)
  | [] => none
  | .header ns :: is => (lastHeader is).orElse (fun _ => some ns)
  | _ :: is => lastHeader is

/-- `i` is the last position of `n`. -/
def LastPos (ns : List Str) (n : Str) (i : Nat) : Prop := ns[i]? = some n ∧ ∀ j, i < j → ns[j]? ≠ some n

/-- A character that cannot occur in a data line. -/
def Foreign (c : Char) : Prop :=
  c ∉ ['0', '1', '2', '3', '4', '5', '6', '7', '8', '9', '+', '-', '.', 'e', 'E', ' ', '\t', '\n', '\r',
    Char.ofNat 11, Char.ofNat 12]

end Flame.Util
