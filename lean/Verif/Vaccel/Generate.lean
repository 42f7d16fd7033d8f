import Verif.Vaccel.Measure

/-!
# The generator of databases for the virtual accelerator

Model of `Generator.emit_subst` (/repo/python/flame/ioc.py:26-109): which records are made for which element and how they
refer to it.  Elements come from the parser as name and type.  Not modelled: copying of files, the text of `st.cmd`
besides the number of markers, the expansion of `$(PREF)` and of macros in the templates.
-/

namespace Flame.Vaccel

/-- An element of the lattice as far as the generator looks at it (/repo/python/flame/ioc.py:39-41). -/
structure El where
  name : Text
  type : Text
  deriving DecidableEq

/-- `default_mangler` (/repo/python/flame/ioc.py:12-13). -/
def defaultMangler (e : El) : Text := "$(PREF)".toList ++ e.name ++ ":".toList

/-- `'%d' % n` for `n` not negative (/repo/python/flame/ioc.py:49, 51, 52). -/
def fmtD (n : Nat) : Text :=
  if n < 10 then [Char.ofNat (48 + n)] else fmtD (n / 10) ++ [Char.ofNat (48 + n % 10)]

/-- `while '%s%d'%(rname,N) in outnames: N += 1` (/repo/python/flame/ioc.py:48-50).  The loop ends after at most as many turns
as there are names (`freeFrom_free`), so this number of turns is used as bound. -/
def freeFrom (out : List Text) (r : Text) : Nat → Nat → Nat
  | 0, n => n
  | turns + 1, n => if r ++ fmtD n ∈ out then freeFrom out r turns (n + 1) else n

/-- What is written for an element: `P` and `ELEM` (/repo/python/flame/ioc.py:64, 69). -/
structure Row where
  elem : El
  ename : Text
  rname : Text
  deriving DecidableEq

/-- The local variables of the loop: `outnames`, `nmarkers`, `eall`, `eout` with its entries in order of their creation
(/repo/python/flame/ioc.py:28-34). -/
structure Gen where
  out : List Text
  nmarkers : Nat
  eall : List Row
  eout : List (Text × List Row)

/-- `eout[etype].append(row)` of a `defaultdict(list)` (/repo/python/flame/ioc.py:29, 69). -/
def addTo (t : Text) (r : Row) : List (Text × List Row) → List (Text × List Row)
  | [] => [(t, [r])]
  | (t', rs) :: l => if t' = t then (t', rs ++ [r]) :: l else (t', rs) :: addTo t r l

/-- The names for an element (/repo/python/flame/ioc.py:41-42, 47-52). -/
def rowFor (mangle : El → Text) (out : List Text) (e : El) : Row :=
  let r := mangle e
  if r ∈ out then
    let n := freeFrom out r out.length 1
    { elem := e, ename := e.name ++ "[".toList ++ fmtD n ++ "]".toList, rname := r ++ fmtD n }
  else { elem := e, ename := e.name, rname := r }

/-- One turn of the loop (/repo/python/flame/ioc.py:39-69); `has` tells whether there is a template for the type. -/
def genStep (mangle : El → Text) (has : Text → Bool) (g : Gen) (e : El) : Gen :=
  let row := rowFor mangle g.out e
  let g := { g with
    nmarkers := if e.type = "marker".toList then g.nmarkers + 1 else g.nmarkers
    out := g.out ++ [row.rname] }
  if has e.type then { g with eall := g.eall ++ [row], eout := addTo e.type row g.eout } else g

/-- The loop over the elements (/repo/python/flame/ioc.py:39-69). -/
def genAll (mangle : El → Text) (has : Text → Bool) (els : List El) : Gen :=
  els.foldl (genStep mangle has) ⟨[], 0, [], []⟩

/-- The file of substitutions: for every template the pairs of `P` and `ELEM` (/repo/python/flame/ioc.py:83-97); `none` if
there are none at all (`RuntimeError`, lines 71-72). -/
def substitutions (mangle : El → Text) (has : Text → Bool) (els : List El) : Option (List (Text × List (Text × Text))) :=
  let g := genAll mangle has els
  if g.eout = [] then none
  else some (("common.template".toList, g.eall.map (fun r => (r.rname, r.ename))) ::
    g.eout.map (fun p => (p.1 ++ ".template".toList, p.2.map (fun r => (r.rname, r.ename)))))

/-- Device support of a record (`DTYP`, /repo/vaccel/flameSupport.dbd:8-16); `constant` has none and shows its field `VAL`. -/
inductive Dev
  | index
  | state
  | setting
  | constant
  deriving DecidableEq

/-- A record of a template: what follows `$(P)` in its name, its device support, and what follows `$(ELEM)` in its link. -/
structure RecT where
  suffix : Text
  dev : Dev
  tail : Text
  deriving DecidableEq

/-- Short form (/repo/python/flame/data/*.template). -/
def recT (s : String) (d : Dev) (l : String) : RecT := ⟨s.toList, d, l.toList⟩

/-- The records of the templates (/repo/python/flame/data, all files `*.template`), with the default values of their
macros. -/
def templates : List (Text × List RecT) :=
  [("common.template".toList, [recT "IDX-I" .index "", recT "Name-I" .constant "", recT "S-I" .state " pos"]),
   ("bpm.template".toList, [recT "X-I" .state " moment0_env[0]", recT "PX-I" .state " moment0_env[1]", recT "Y-I" .state " moment0_env[2]",
     recT "PY-I" .state " moment0_env[3]", recT "Z-I" .state " moment0_env[4]", recT "PZ-I" .state " moment0_env[5]", recT "EK-I" .state " IonEk[0]"]),
   ("drift.template".toList, []),
   ("edipole.template".toList, [recT "Angle-SP" .setting " phi", recT "Angle-RB" .setting " phi"]),
   ("equad.template".toList, [recT "V-SP" .setting " V", recT "V-RB" .setting " V"]),
   ("marker.template".toList, [recT "X-I" .state " moment0_env[0]", recT "PX-I" .state " moment0_env[1]", recT "Y-I" .state " moment0_env[2]",
     recT "PY-I" .state " moment0_env[3]", recT "Z-I" .state " moment0_env[4]", recT "PZ-I" .state " moment0_env[5]",
     recT "X_RMS-I" .state " moment0_rms[0]", recT "PX_RMS-I" .state " moment0_rms[1]", recT "Y_RMS-I" .state " moment0_rms[2]",
     recT "PY_RMS-I" .state " moment0_rms[3]", recT "Z_RMS-I" .state " moment0_rms[4]", recT "PZ_RMS-I" .state " moment0_rms[5]",
     recT "EK-I" .state " IonEk[0]"]),
   ("orbtrim.template".toList, []),
   ("quadrupole.template".toList, [recT "B-SP" .setting " B2", recT "B-RB" .setting " B2"]),
   ("rfcavity.template".toList, [recT "Phas-SP" .setting " phi", recT "Phas-RB" .setting " phi", recT "Scle-SP" .setting " scl_fac",
     recT "Scle-RB" .setting " scl_fac"]),
   ("sbend.template".toList, [recT "Angle-SP" .setting " phi", recT "Angle-RB" .setting " phi"]),
   ("sextupole.template".toList, [recT "B-SP" .setting " B3", recT "B-RB" .setting " B3"]),
   ("solenoid.template".toList, [recT "B-SP" .setting " B", recT "B-RB" .setting " B"]),
   ("source.template".toList, [recT "X-I" .state " moment0_env[0]", recT "PX-I" .state " moment0_env[1]", recT "Y-I" .state " moment0_env[2]",
     recT "PY-I" .state " moment0_env[3]", recT "Z-I" .state " moment0_env[4]", recT "PZ-I" .state " moment0_env[5]"]),
   ("stripper.template".toList, [])]

/-- The records of one file (/repo/python/flame/data/*.template). -/
def recordsOf (file : Text) : List RecT := ((templates.find? (fun p => p.1 = file)).map (·.2)).getD []

/-- `os.path.isfile` of the template of a type (/repo/python/flame/ioc.py:57-58). -/
def hasTemplate (t : Text) : Bool := templates.any (fun p => p.1 = t ++ ".template".toList)

/-- A record of the database: its name, its device support and its link, for `constant` the field `VAL`. -/
structure DbRec where
  name : Text
  dev : Dev
  text : Text
  deriving DecidableEq

/-- A template filled in: `$(P)`, `$(ELEM)` and `$(SIM)` replaced (/repo/python/flame/data/*.template); the `@` in front of
links, which the database removes, is left out, and `$(PREF)` is kept. -/
def fill (sim p elem : Text) (t : RecT) : DbRec :=
  ⟨p ++ t.suffix, t.dev, if t.dev = .constant then elem else sim ++ " ".toList ++ elem ++ t.tail⟩

/-- The records made by `dbLoadTemplate` (/repo/python/flame/data/st.cmd:12) from the file of substitutions. -/
def database (sim : Text) (subst : List (Text × List (Text × Text))) : List DbRec :=
  subst.flatMap (fun b => b.2.flatMap (fun r => (recordsOf b.1).map (fill sim r.1 r.2)))

/-- What follows `$(P)` in the names of the records about the whole simulation (/repo/python/flame/data/core.db,
/repo/python/flame/data/orbit.db); `$(P)` is `$(PREF)` of the others (/repo/python/flame/data/st.cmd:10-12). -/
def globalSuffixes : List Text := ["Msg-I", "Run-Cmd", "Time-I", "RunCnt-I", "IDX-I", "S-I", "X-I", "PX-I", "Y-I", "PY-I", "Z-I", "PZ-I", "Ek-I", "EkRef-I", "Phas-I", "PhasRef-I"].map String.toList

open Flame.Mach in
/-- The body of `elem_init_common` (/repo/vaccel/flameelem.cpp:23-36) after the pattern has matched: `element_index`. -/
def elemInit {C X S : Type} (q : Sim C X S) (g : ElemGroups) : Res Nat :=
  if String.ofList g.sim ≠ q.name then .thrown
  else
    match instOf g.inst with
    | none => .thrown
    | some inst =>
      match q.m.find (String.ofList g.elem) inst with
      | none => .thrown
      | some pos =>
        match q.m.elems[pos]? with
        | none => .broken
        | some e => .ok e.index

end Flame.Vaccel
