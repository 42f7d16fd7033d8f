import Verif.Tools.H5Spec
import Verif.Glps.Eval

/-!
# Command line arguments

Model of parts of /repo/tools/cli.cpp.
-/

namespace Flame.Tools

/-- `tokenize` (/repo/tools/cli.cpp:31-48), with the characters between `pos` and the current one in reverse. -/
def tokAux : Str → Str → List Str
  | acc, [] => [acc.reverse]
  | acc, c :: r =>
    if c = ',' then (if acc.isEmpty then tokAux [] r else acc.reverse :: tokAux [] r) else tokAux (c :: acc) r

/-- `tokenize` (/repo/tools/cli.cpp:31-48). -/
def tokenize (s : Str) : List Str := tokAux [] s

/-- Why a definition is refused (/repo/tools/cli.cpp:415-437); `badNumber` is the exception of `lexical_cast`. -/
inductive DefErr
  | noEqual | noColon | noName | badType | badNumber
  deriving DecidableEq, Repr

/-- A definition `-D` (/repo/tools/cli.cpp:411-439): name and value for `setVar`.  `num` is `lexical_cast<double>`. -/
def parseDef {N : Type} (num : Str → Option N) (d : Str) : Except DefErr (Str × Glps.CV N) :=
  match d.dropWhile (· != '=') with
  | [] => .error .noEqual
  | _ :: r =>
    match r.dropWhile (· != ':') with
    | [] => .error .noColon
    | _ :: value =>
      if (d.takeWhile (· != '=')).isEmpty then .error .noName
      else if r.takeWhile (· != ':') = "double".toList ∨ r.takeWhile (· != ':') = "D".toList then
        match num value with
        | none => .error .badNumber
        | some x => .ok (d.takeWhile (· != '='), .num x)
      else if r.takeWhile (· != ':') = "str".toList ∨ r.takeWhile (· != ':') = "S".toList then
        .ok (d.takeWhile (· != '='), .str value)
      else .error .badType

/-- All definitions in order (/repo/tools/cli.cpp:408-440): the variables of the parser, or the first error. -/
def parseDefs {N : Type} (num : Str → Option N) : List Str → SMap Glps.Name (Glps.CV N) →
    Except DefErr (SMap Glps.Name (Glps.CV N))
  | [], m => .ok m
  | d :: ds, m =>
    match parseDef num d with
    | .error e => .error e
    | .ok (n, v) => parseDefs num ds (Glps.setVar m n v)

end Flame.Tools
