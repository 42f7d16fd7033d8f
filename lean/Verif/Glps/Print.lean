import Verif.Glps.Eval

/-!
# Printing a configuration as a lattice file

Model of `GLPSPrint` (/repo/src/config.cpp:424-573).  The output stream's formatting of a number is
the parameter `fmt`.  Stream failures are not modelled.
-/

namespace Flame.Glps

variable {N : Type}

/-- The numbers of a vector separated by a comma and a blank
(/repo/src/config.cpp:445-450, 478-483). -/
def showNums (fmt : N → Name) : List N → Name
  | [] => []
  | [x] => fmt x
  | x :: xs => fmt x ++ (", ".toList ++ showNums fmt xs)

/-- A value; nothing for nested configurations (the common part of `glps_show_props` and `glps_show`,
/repo/src/config.cpp:426-496). -/
def showVal (fmt : N → Name) : CV N → Name
  | .num x => fmt x
  | .str s => '"' :: (s ++ ['"'])
  | .vec xs => '[' :: (showNums fmt xs ++ [']'])
  | .cfgs _ => []

/-- `glps_show_props` (/repo/src/config.cpp:426-458): one property of an element. -/
def showProp (fmt : N → Name) (k : Name) : CV N → Name
  | .cfgs _ => []
  | v => ", ".toList ++ (k ++ (" = ".toList ++ showVal fmt v))

/-- `glps_show` (/repo/src/config.cpp:460-496): one variable. -/
def showVar (fmt : N → Name) (k : Name) : CV N → Name
  | .cfgs _ => if k = "elements".toList then [] else "# ".toList ++ (k ++ " = [... skipped ...];\n".toList)
  | v => k ++ (" = ".toList ++ (showVal fmt v ++ ";\n".toList))

/-- The variables (/repo/src/config.cpp:501-506): the configuration's own values in key order. -/
def showVars (fmt : N → Name) : SMap Name (CV N) → Name
  | [] => []
  | (k, v) :: m => showVar fmt k v ++ showVars fmt m

/-- The properties of one element except name and type (/repo/src/config.cpp:546-552). -/
def showProps (fmt : N → Name) : SMap Name (CV N) → Name
  | [] => []
  | (k, v) :: m =>
    (if k = "name".toList ∨ k = "type".toList then [] else showProp fmt k v) ++ showProps fmt m

/-- `conf.get<std::string>(k)` (/repo/src/flame/config.h:121-129): `none` if missing or of another
type. -/
def Cf.getStr (c : Cf N) (k : Name) : Option Name :=
  match c.look k with
  | some (.str s) => some s
  | _ => none

/-- The loop over the elements (/repo/src/config.cpp:524-555) with the names shown so far: the text
and the names of the line, or the exception of line 533. -/
def showElems (fmt : N → Name) : List (Cf N) → List Name → Option (Name × List Name)
  | [], _ => some ([], [])
  | e :: es, shown =>
    match e.getStr "name".toList, e.getStr "type".toList with
    | some n, some t =>
      if n.isEmpty || t.isEmpty then none
      else if n ∈ shown then
        match showElems fmt es shown with
        | none => none
        | some (w, l) => some (w, n :: l)
      else
        match showElems fmt es (n :: shown) with
        | none => none
        | some (w, l) => some (n ++ (": ".toList ++ (t ++ (showProps fmt e.own ++ (";\n".toList ++ w)))), n :: l)
    | _, _ =>
      match showElems fmt es shown with
      | none => none
      | some (w, l) => some ("# <malformed element>".toList ++ (showProps fmt e.own ++ (";\n".toList ++ w)), l)

/-- The members of the line (/repo/src/config.cpp:560-569). -/
def showNames : List Name → Name
  | [] => []
  | [n] => n
  | n :: ns => n ++ (", ".toList ++ showNames ns)

/-- `GLPSPrint` (/repo/src/config.cpp:499-573): the text, or an exception.  `get` reports a wrong type as
`key_error` (/repo/src/flame/config.h:121-129), so lines 514-517 are never reached. -/
def glpsPrint (fmt : N → Name) (c : Cf N) : Option Name :=
  match c.look "elements".toList with
  | none => some (showVars fmt c.own ++ "# Missing beamline element list\n".toList)
  | some (.cfgs es) =>
    match showElems fmt es [] with
    | none => none
    | some (w, l) =>
      let lname := (c.getStr "name".toList).getD "default".toList
      some (showVars fmt c.own ++ (w ++ (lname ++ (": LINE = (".toList ++ (showNames l ++
        (");\nUSE: ".toList ++ (lname ++ ";\n".toList)))))))
  | some _ => some (showVars fmt c.own ++ "# Missing beamline element list\n".toList)

end Flame.Glps
