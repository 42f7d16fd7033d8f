import Mathlib.Data.List.Lex
import Verif.Base.SMap

/-!
# The scanner of lattice files

Model of /repo/src/glps.l.  A text is a list of characters; a byte of the file is the character
with the same code (0-255).  flex takes the longest match of the listed patterns; here the match is
computed directly per pattern.  Line numbers and message texts are not modelled.
-/

namespace Flame.Glps

/-- Names, labels and string values (`std::string`); lists of characters, ordered
lexicographically like `std::string`. -/
abbrev Name := List Char

/-- Tokens (/repo/src/glps.y:25, 30; single characters /repo/src/glps.l:45). -/
inductive Tok (N : Type)
  | kw (s : Name)
  | str (s : Name)
  | num (x : N)
  | sym (c : Char)
  deriving DecidableEq, Repr

/-- `[A-Za-z]` (/repo/src/glps.l:21). -/
def isLetter (c : Char) : Bool := ('A' ≤ c && c ≤ 'Z') || ('a' ≤ c && c ≤ 'z')

/-- `[0-9]` (/repo/src/glps.l:32). -/
def isDig (c : Char) : Bool := '0' ≤ c && c ≤ '9'

/-- `[A-Za-z0-9_]` (/repo/src/glps.l:21). -/
def isWord (c : Char) : Bool := isLetter c || isDig c || c == '_'

/-- `[A-Za-z0-9_:]` (/repo/src/glps.l:21). -/
def isKwChar (c : Char) : Bool := isWord c || c == ':'

/-- One of the characters = : ; ( ) [ ] , + * / and minus (/repo/src/glps.l:45). -/
def isPunct (c : Char) : Bool :=
  c == '=' || c == ':' || c == ';' || c == '(' || c == ')' || c == '[' || c == ']' || c == ',' ||
    c == '+' || c == '*' || c == '/' || c == '-'

/-- Remove trailing colons: the longest prefix of a run of `[A-Za-z0-9_:]` that ends in
`[A-Za-z0-9_]` (/repo/src/glps.l:21). -/
def stripColons (s : Name) : Name := (s.reverse.dropWhile (· == ':')).reverse

/-- The keyword at the start of a text whose first character is a letter: longest match of
`[A-Za-z]([A-Za-z0-9_:]*[A-Za-z0-9_])?` (/repo/src/glps.l:21). -/
def kwMatch (s : Name) : Name := stripColons (s.takeWhile isKwChar)

/-- Length of the match of `(\.[0-9]*)?` at the start of a text (/repo/src/glps.l:32). -/
def fracLen : Name → Nat
  | '.' :: r => 1 + (r.takeWhile isDig).length
  | _ => 0

/-- Length of the match of `[+-]?[0-9]+` at the start of a text, 0 if there is none
(/repo/src/glps.l:32). -/
def signedLen : Name → Nat
  | [] => 0
  | c :: r =>
    if c == '+' || c == '-' then
      (if (r.takeWhile isDig).length = 0 then 0 else 1 + (r.takeWhile isDig).length)
    else ((c :: r).takeWhile isDig).length

/-- Length of the match of `([eE][+-]?[0-9]+)?` (/repo/src/glps.l:32). -/
def expLen : Name → Nat
  | [] => 0
  | c :: r =>
    if c == 'e' || c == 'E' then (if signedLen r = 0 then 0 else 1 + signedLen r) else 0

/-- Length of the number at the start of a text whose first character is a digit: longest match of
`[0-9]+(\.[0-9]*)?([eE][+-]?[0-9]+)?` (/repo/src/glps.l:32). -/
def numLen (s : Name) : Nat :=
  let a := (s.takeWhile isDig).length
  let b := a + fracLen (s.drop a)
  b + expLen (s.drop b)

/-- Result of asking for the next token: end of text, an error, a token, or text to be ignored;
with the remaining text. -/
inductive Scan (N : Type)
  | eof
  | bad
  | tok (t : Tok N) (rest : Name)
  | skip (rest : Name)
  deriving DecidableEq, Repr

/-- One match of the scanner (/repo/src/glps.l:21-75).  `strtod` turns the text of a number into its
value or reports a range error (lines 33-39).  The quoted string (lines 51-67) is read at once:
it ends at the next quote, and a line break or the end of the text before that is an error. -/
def scan1 {N : Type} (strtod : Name → Option N) : Name → Scan N
  | [] => .eof
  | c :: r =>
    if isLetter c then
      .tok (.kw (kwMatch (c :: r))) ((c :: r).drop (kwMatch (c :: r)).length)
    else if isDig c then
      match strtod ((c :: r).take (numLen (c :: r))) with
      | none => .bad
      | some x => .tok (.num x) ((c :: r).drop (numLen (c :: r)))
    else if c == '#' then
      match r.dropWhile (· != '\n') with
      | [] => .bad
      | _ :: rest => .skip rest
    else if isPunct c then .tok (.sym c) r
    else if c == ' ' || c == '\t' || c == '\n' then .skip r
    else if c == '"' then
      match r.dropWhile (fun x => x != '"' && x != '\n' && x != '\r') with
      | [] => .bad
      | q :: rest =>
        if q == '"' then .tok (.str (r.takeWhile (fun x => x != '"' && x != '\n' && x != '\r'))) rest
        else .bad
    else .bad

/-- All tokens of a text and whether the end of the text was reached (`true`) or the scanner
stopped with an error (`false`).  `fuel` bounds the number of matches; `lexAll` supplies enough. -/
def lexN {N : Type} (strtod : Name → Option N) : Nat → Name → List (Tok N) × Bool
  | 0, _ => ([], false)
  | fuel + 1, s =>
    match scan1 strtod s with
    | .eof => ([], true)
    | .bad => ([], false)
    | .skip rest => lexN strtod fuel rest
    | .tok t rest =>
      let r := lexN strtod fuel rest
      (t :: r.1, r.2)

/-- The token sequence of a whole text (the scanner driven by `glps_parse`,
/repo/src/glps_parser.cpp:524-557).  Every match consumes at least one character
(`Verif.Glps.LexLemmas.scan1_lt`), so the fuel is sufficient. -/
def lexAll {N : Type} (strtod : Name → Option N) (s : Name) : List (Tok N) × Bool :=
  lexN strtod (s.length + 1) s

end Flame.Glps
