import Verif.Glps.Lex

/-!
# What a lattice text consists of

The lexical forms, written down independently of the scanning functions: a text is a sequence of
pieces, each a keyword, a number, a string, a punctuation character or something to be ignored.
-/

namespace Flame.Glps

/-- Kinds of pieces. -/
inductive PieceKind | kw | num | str | sym | blank
  deriving DecidableEq, Repr

/-- ASCII letters, by code: A-Z are 65-90, a-z are 97-122. -/
def Letter (c : Char) : Prop := 65 ≤ c.toNat ∧ c.toNat ≤ 90 ∨ 97 ≤ c.toNat ∧ c.toNat ≤ 122

/-- ASCII digits: 48-57. -/
def Digit (c : Char) : Prop := 48 ≤ c.toNat ∧ c.toNat ≤ 57

instance (c : Char) : Decidable (Letter c) := by unfold Letter; infer_instance

instance (c : Char) : Decidable (Digit c) := by unfold Digit; infer_instance

/-- Keywords: a letter, then letters, digits, `_` and `:`, not ending in `:`. -/
def IsKw (p : Name) : Prop :=
  ∃ c r, p = c :: r ∧ Letter c ∧ (∀ x ∈ r, Letter x ∨ Digit x ∨ x = '_' ∨ x = ':') ∧ p.getLast? ≠ some ':'

/-- A digit string. -/
def Digits (p : Name) : Prop := ∀ x ∈ p, Digit x

/-- Optional fraction. -/
def IsFrac (p : Name) : Prop := p = [] ∨ ∃ d, p = '.' :: d ∧ Digits d

/-- Optional exponent: letter, optional sign, at least one digit. -/
def IsExpo (p : Name) : Prop :=
  p = [] ∨ ∃ e sg d, p = e :: (sg ++ d) ∧ (e = 'e' ∨ e = 'E') ∧ (sg = [] ∨ sg = ['+'] ∨ sg = ['-']) ∧
    d ≠ [] ∧ Digits d

/-- Numbers: digits, optional fraction, optional exponent. -/
def IsNum (p : Name) : Prop :=
  ∃ a b c, p = a ++ (b ++ c) ∧ a ≠ [] ∧ Digits a ∧ IsFrac b ∧ IsExpo c

/-- Characters allowed between quotes. -/
def StrOk (s : Name) : Prop := ∀ c ∈ s, c ≠ '"' ∧ c ≠ '\n' ∧ c ≠ '\r'

/-- The lexical forms. -/
inductive Form : PieceKind → Name → Prop
  | kw {p} (h : IsKw p) : Form .kw p
  | num {p} (h : IsNum p) : Form .num p
  | str {s} (h : StrOk s) : Form .str ('"' :: (s ++ ['"']))
  | sym {c} (h : c ∈ ['=', ':', ';', '(', ')', '[', ']', ',', '+', '*', '/', '-']) : Form .sym [c]
  | blank {c} (h : c ∈ [' ', '\t', '\n']) : Form .blank [c]
  | comment {s} (h : '\n' ∉ s) : Form .blank ('#' :: (s ++ ['\n']))

/-- The token a piece stands for: `none` when a number is out of range, `some none` when the piece
is ignored. -/
def meaning {N : Type} (strtod : Name → Option N) : PieceKind → Name → Option (Option (Tok N))
  | .kw, p => some (some (.kw p))
  | .num, p => (strtod p).map (fun x => some (.num x))
  | .str, p => some (some (.str (p.tail.dropLast)))
  | .sym, p => some (p.head?.map .sym)
  | .blank, _ => some none

/-- `p` is the longest piece at the start of `s`. -/
def Longest (k : PieceKind) (p s : Name) : Prop :=
  Form k p ∧ p <+: s ∧ ∀ k' q, Form k' q → q <+: s → q.length < p.length ∨ (q = p ∧ k' = k)

/-- Reading a text piece by piece, always taking the longest one: the tokens and the final outcome
(`true`: the whole text was read; `false`: the text goes on with something that is no piece, or with
a number out of range). -/
inductive Reads {N : Type} (strtod : Name → Option N) : Name → List (Tok N) → Bool → Prop
  | done : Reads strtod [] [] true
  | tok {k p s t ts b} (hl : Longest k p (p ++ s)) (hm : meaning strtod k p = some (some t))
      (h : Reads strtod s ts b) : Reads strtod (p ++ s) (t :: ts) b
  | skip {k p s ts b} (hl : Longest k p (p ++ s)) (hm : meaning strtod k p = some none)
      (h : Reads strtod s ts b) : Reads strtod (p ++ s) ts b
  | range {k p s} (hl : Longest k p (p ++ s)) (hm : meaning strtod k p = none) :
      Reads strtod (p ++ s) [] false
  | stuck {s} (hs : s ≠ []) (h : ∀ k p, Form k p → ¬ p <+: s) : Reads strtod s [] false

end Flame.Glps
