import Verif.Util.Table

/-!
# Files of thin lenses

Model of the part of `ElementRFCavity::LoadCavityFile` that reads "thinlenlon_*.txt" (/repo/src/rf_cavity.cpp:769-803).
Text is a list of characters; numbers are of an abstract type `N`.
-/

namespace Flame.Lens

open Flame.Util

/-- `std::istringstream lstrm` (/repo/src/rf_cavity.cpp:785): what is left, `eofbit` and `failbit`. -/
structure Stream where
  rest : Str
  eof : Bool
  fail : Bool

/-- `lstrm >> params.type` (/repo/src/rf_cavity.cpp:787; `operator>>` of the standard library for strings).  `none` if the
string is left as it is, which is empty. -/
def getWord (s : Stream) : Option Str × Stream :=
  if s.eof || s.fail then (none, { s with fail := true })
  else
    let r := s.rest.dropWhile isSp
    if r.isEmpty then (none, ⟨[], true, true⟩)
    else
      let t := r.dropWhile (fun c => !isSp c)
      (some (r.takeWhile (fun c => !isSp c)), ⟨t, t.isEmpty, false⟩)

/-- `lstrm >> params.length` (/repo/src/rf_cavity.cpp:787, 790; `operator>>` of the standard library for numbers as in
libstdc++).  `none` if no number is read: then the variable keeps the indeterminate value it had, or is set to zero or to
the largest number.  `num` converts a whole text (`strtod`). -/
def getDouble {N : Type} (num : Str → Option N) (s : Stream) : Option N × Stream :=
  if s.eof || s.fail then (none, { s with fail := true })
  else
    let r := s.rest.dropWhile isSp
    if r.isEmpty then (none, ⟨[], true, true⟩)
    else
      match (if (accum r).1.isEmpty then none else num (accum r).1) with
      | none => (none, ⟨(accum r).2, (accum r).2.isEmpty, true⟩)
      | some x => (some x, ⟨(accum r).2, (accum r).2.isEmpty, false⟩)

/-- `RawParams` (/repo/src/flame/rf_cavity.h:56-61) as filled from a line; `none` is a value that was not read. -/
structure Raw (N : Type) where
  type : Str
  name : Str
  length : Option N
  aperture : Option N
  E0 : Option N
deriving DecidableEq

/-- One line (/repo/src/rf_cavity.cpp:785-798), `none` for the exception of line 796. -/
def readLine {N : Type} (num : Str → Option N) (zero : N) (l : Str) : Option (Raw N) :=
  let (ty, s) := getWord ⟨l, false, false⟩
  let (nm, s) := getWord s
  let (len, s) := getDouble num s
  let (ap, s) := getDouble num s
  let needE0 := ty.getD [] ≠ "drift".toList ∧ ty.getD [] ≠ "AccGap".toList
  let (E0, s) := if needE0 then getDouble num s else (some zero, s)
  if s.fail && !s.eof then none else some ⟨ty.getD [], nm.getD [], len, ap, E0⟩

/-- The loop over the lines (/repo/src/rf_cavity.cpp:774-799). -/
def readAll {N : Type} (num : Str → Option N) (zero : N) : List Str → Option (List (Raw N))
  | [] => some []
  | l :: ls =>
    let r := l.dropWhile isBl
    if r.isEmpty || r.head? == some '%' then readAll num zero ls
    else
      match readLine num zero (stripEnd l) with
      | none => none
      | some p =>
        match readAll num zero ls with
        | none => none
        | some ps => some (p :: ps)

/-- The whole file (/repo/src/rf_cavity.cpp:769-803); `opened` tells whether the stream is usable (line 801). -/
def read {N : Type} (num : Str → Option N) (zero : N) (opened : Bool) (text : Str) : Option (List (Raw N)) :=
  if opened then readAll num zero (linesAux [] text) else none

end Flame.Lens
