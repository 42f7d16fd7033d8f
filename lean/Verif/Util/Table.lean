import Mathlib.Data.List.Lex
import Verif.Base.SMap

/-!
# Reading numeric tables

Model of `numeric_table` (/repo/src/util.cpp:13-110).  Text is a list of characters; numbers are of an
abstract type `N`.
-/

namespace Flame.Util

/-- Strings. -/
abbrev Str := List Char

/-- The lines that successive calls of `std::getline` deliver (/repo/src/util.cpp:36), with the part of
the current line read so far in reverse. -/
def linesAux : Str → Str → List Str
  | acc, [] => if acc.isEmpty then [] else [acc.reverse]
  | acc, c :: r => if c = '\n' then acc.reverse :: linesAux [] r else linesAux (c :: acc) r

/-- Blank of the table format (/repo/src/util.cpp:40, 50, 56, 61). -/
def isBl (c : Char) : Bool := c == ' ' || c == '\t'

/-- Removal of the line end (/repo/src/util.cpp:44-46): nothing happens to a line of only such
characters. -/
def stripEnd (l : Str) : Str :=
  if l.all (fun c => c == '\r' || c == '\n') then l
  else (l.reverse.dropWhile (fun c => c == '\r' || c == '\n')).reverse

/-- The words of a header (/repo/src/util.cpp:50-62), with the part of the current word in reverse. -/
def wordsAux : Str → Str → List Str
  | acc, [] => if acc.isEmpty then [] else [acc.reverse]
  | acc, c :: r =>
    if isBl c then (if acc.isEmpty then wordsAux [] r else acc.reverse :: wordsAux [] r)
    else wordsAux (c :: acc) r

/-- `cols[ent] = col++` (/repo/src/util.cpp:59). -/
def colsAux : List Str → Nat → SMap Str Nat → SMap Str Nat
  | [], _, m => m
  | w :: ws, n, m => colsAux ws (n + 1) (m.insert w n)

/-- `isspace` in the C locale, skipped by `>>` (/repo/src/util.cpp:73). -/
def isSp (c : Char) : Bool :=
  c == ' ' || c == '\t' || c == '\n' || c == '\r' || c == Char.ofNat 11 || c == Char.ofNat 12

/-- Decimal digit. -/
def isDg (c : Char) : Bool := '0' ≤ c && c ≤ '9'

/-- The part of `num_get` after the letter of the exponent: optional sign and digits. -/
def accExp : Str → Str × Str
  | [] => ([], [])
  | s :: r =>
    if s = '+' ∨ s = '-' then (s :: r.takeWhile isDg, r.dropWhile isDg)
    else ((s :: r).takeWhile isDg, (s :: r).dropWhile isDg)

/-- The characters that `>>` takes for a `double` after the sign (/repo/src/util.cpp:73; the standard
library's `num_get` as in libstdc++): digits with at most one decimal point, and after at least one digit
an exponent with optional sign.  Result: taken text and rest. -/
def accMant : Bool → Bool → Str → Str × Str
  | _, _, [] => ([], [])
  | dec, found, c :: r =>
    if isDg c then (c :: (accMant dec true r).1, (accMant dec true r).2)
    else if c = '.' ∧ dec = false then (c :: (accMant true found r).1, (accMant true found r).2)
    else if (c = 'e' ∨ c = 'E') ∧ found = true then
      (c :: (accExp r).1, (accExp r).2)
    else ([], c :: r)

/-- The text that `>>` takes for a `double`. -/
def accum : Str → Str × Str
  | [] => ([], [])
  | c :: r =>
    if c = '+' ∨ c = '-' then (c :: (accMant false false r).1, (accMant false false r).2)
    else accMant false false (c :: r)

/-- The numbers of a data line (/repo/src/util.cpp:69-79), `none` for the exception of line 79.  `num`
converts a whole text (`strtod`), `none` if it is not a number or out of range; then the stream fails, which
is an error only if the end of the line was not reached.  `fuel` bounds the number of rounds, every round
but the last takes a character. -/
def rowN {N : Type} (num : Str → Option N) : Nat → Str → Option (List N)
  | 0, _ => none
  | fuel + 1, s =>
    let s' := s.dropWhile isSp
    if s'.isEmpty then some []
    else
      match (if (accum s').1.isEmpty then none else num (accum s').1) with
      | none => if (accum s').2.isEmpty then some [] else none
      | some x =>
        if (accum s').2.isEmpty then some [x]
        else
          match rowN num fuel (accum s').2 with
          | none => none
          | some xs => some (x :: xs)

/-- The numbers of a data line. -/
def row {N : Type} (num : Str → Option N) (s : Str) : Option (List N) := rowN num (s.length + 1) s

/-- `numeric_table` (/repo/src/flame/util.h:72-84); the matrix as list of rows. -/
structure Tbl (N : Type) where
  colnames : SMap Str Nat
  rows : List (List N)

/-- The loop over the lines (/repo/src/util.cpp:35-88): column names and rows so far. -/
def readLines {N : Type} (num : Str → Option N) : List Str → SMap Str Nat → List (List N) →
    Option (SMap Str Nat × List (List N))
  | [], cols, rows => some (cols, rows)
  | l :: ls, cols, rows =>
    if l.all isBl then readLines num ls cols rows
    else if (stripEnd l).head? = some '%' then
      readLines num ls (colsAux (wordsAux [] (stripEnd l).tail) 0 []) rows
    else
      match row num (stripEnd l) with
      | none => none
      | some xs =>
        match rows.getLast? with
        | none => readLines num ls cols (rows ++ [xs])
        | some r => if r.length ≠ xs.length then none else readLines num ls cols (rows ++ [xs])

/-- `numeric_table::read` (/repo/src/util.cpp:25-110).  `none` is an exception; `opened` tells whether the
stream is usable (line 91).  If there is no data row the old matrix is kept with all entries zero
(`matrix::clear`, line 94). -/
def Tbl.read {N : Type} (num : Str → Option N) (zero : N) (opened : Bool) (old : Tbl N) (text : Str) :
    Option (Tbl N) :=
  if opened then
    match readLines num (linesAux [] text) old.colnames [] with
    | none => none
    | some (cols, []) => some ⟨cols, old.rows.map (fun r => r.map (fun _ => zero))⟩
    | some (cols, rows) => some ⟨cols, rows⟩
  else none

/-- `numeric_table::readvec` (/repo/src/util.cpp:13-23): the matrix as function of row and column, `none`
for undefined behaviour (division by zero, or an entry stored outside of the matrix).  The entries not
stored keep the arbitrary value `junk`. -/
def readvec {N : Type} (vec : List N) (numcol : Nat) (junk : N) : Option (Nat × Nat × (Nat → Nat → N)) :=
  if numcol = 0 then none
  else if vec.length = vec.length / numcol * numcol then
    some (vec.length / numcol, numcol, fun r c =>
      (vec.zipIdx.foldl (fun (m : Nat → Nat → N) p => fun r c =>
        if r = (p.2 - p.2 % numcol) / numcol ∧ c = p.2 % numcol then p.1 else m r c) (fun _ _ => junk)) r c)
  else none

end Flame.Util
