import Verif.Glps.Eval

/-!
# Lattice files that use other files

Model of `unary_parse`, `unary_file` (/repo/src/glps_ops.cpp:140-169) and of `GLPSParser::parse_file` (/repo/src/config.cpp:363-404) on a
file system.  Simplifications: nothing changes the file system during a parse; `boost::filesystem::canonical` is a function of the base and
the name, or an exception if there is no such file; what nested files print is left out.  A call that asks for another file is nested in the
call for the first one, without any limit but the stack: `none` stands for a parse that goes deeper than the number of calls given.
-/

namespace Flame.Glps

variable {N : Type}

/-- The file system and the standard input: `canonical(name, base)`, `parent_path`, the contents of a file, or nothing if it cannot be opened,
the current directory, the standard input, and what `unary_h5file` (/repo/src/glps_ops.cpp:172-203) finds from a directory. -/
structure Files where
  canon : Name → Name → Option Name
  parent : Name → Name
  text : Name → Option Name
  cwd : Name
  stdin : Name
  h5 : Name → Name → Option (Option Name)

/-- The directory for further names, and the text (/repo/src/config.cpp:364-383): the name is resolved even if it stands for the standard
input; `none` is an exception. -/
def Files.source (fs : Files) : Option Name → Option (Name × Name)
  | none => some (fs.cwd, fs.stdin)
  | some n =>
    match fs.canon fs.cwd n with
    | none => none
    | some p =>
      if n = "-".toList then some (fs.parent p, fs.stdin)
      else
        match fs.text p with
        | none => none
        | some t => some (fs.parent p, t)

/-- Operations in a file of the directory `dir` (/repo/src/glps_ops.cpp:144-149, 157-168): names are relative to it.  The test for existence in
line 160 comes too late, `canonical` has thrown before. -/
def within (a : Arith N) (fs : Files) (dir : Name) (sub : Name → Option (Cf N)) : Arith N :=
  { a with
    parse := fun s => match fs.canon dir s with | none => none | some q => sub q
    file := fun s => match fs.canon dir s with | none => none | some q => some (some q)
    h5file := fs.h5 dir }

/-- The operations that look at files. -/
def fileOps : List Name := ["parse".toList, "file".toList, "dir".toList, "h5file".toList]

/-- What an operation asks for. -/
def askedOp (name : Name) : List (TV N) → List (Name × Name)
  | [⟨.string, .str s⟩] => if name ∈ fileOps then [(name, s)] else []
  | _ => []

mutual
/-- The files an expression asks for, in order, up to the first failure (see `evalE`). -/
def asksE (a : Arith N) (c : Ctx N) : Exp N → List (Name × Name)
  | .bin _ l r => asksE a c l ++ match evalE a c l with | .error _ => [] | .ok _ => asksE a c r
  | .neg e => asksE a c e
  | .call f e => asksE a c e ++ match evalE a c e with | .error _ => [] | .ok x => askedOp f [x]
  | .vec es => asksEs a c es
  | _ => []
/-- The files a list of expressions asks for. -/
def asksEs (a : Arith N) (c : Ctx N) : Exps N → List (Name × Name)
  | .nil => []
  | .cons e es => asksE a c e ++ match evalE a c e with | .error _ => [] | .ok _ => asksEs a c es
end

/-- The same for the members of a line. -/
def asksList (a : Arith N) (c : Ctx N) : List (Exp N) → List (Name × Name)
  | [] => []
  | e :: es => asksE a c e ++ match evalE a c e with | .error _ => [] | .ok _ => asksList a c es

/-- The files a statement asks for (see `exec`). -/
def asksStmt (a : Arith N) (c : Ctx N) : Stmt N → List (Name × Name)
  | .assign _ e => asksE a c e
  | .element _ _ ps => asksList a c (ps.map Prod.snd)
  | .line _ _ es => asksList a c es
  | .func _ e => asksE a c e
  | .command _ => []

/-- The files the statements ask for, up to the first one that makes the parser give up (see `execAll`). -/
def asksAll (a : Arith N) : Ctx N → List (Stmt N) → List (Name × Name)
  | _, [] => []
  | c, s :: ss => asksStmt a c s ++ match exec a c s with | (c', true) => asksAll a c' ss | (_, false) => []

/-- The files a text asks for while it is parsed (see `parseText`). -/
def asksText (a : Arith N) (strtod : Name → Option N) (vars : SMap Name (CV N)) (text : Name) : List (Name × Name) :=
  asksAll a (fillVars Ctx.empty vars) (pAll (lexAll strtod text).1).1

/-- Result of `parse_file`: the file cannot be found or opened, or what parsing it gives. -/
inductive Loaded (N : Type)
  | fileError
  | done (o : Outcome N)

/-- What the nested `parse_file` hands back (/repo/src/glps_ops.cpp:149-150): anything but a configuration is an exception. -/
def handed : Option (Loaded N) → Option (Cf N)
  | some (.done (.ok c)) => some c
  | _ => none

/-- `GLPSParser::parse_file` (/repo/src/config.cpp:363-404) with at most so many calls within each other.  Nested calls use a new parser without
variables (/repo/src/glps_ops.cpp:146-149) and need a beamline (the default of /repo/src/flame/config.h:265). -/
def load (a : Arith N) (strtod : Name → Option N) (fs : Files) : Nat → SMap Name (CV N) → Option Name → Bool → Option (Loaded N)
  | 0, _, _, _ => none
  | n + 1, vars, fname, lattice =>
    match fs.source fname with
    | none => some .fileError
    | some (dir, text) =>
      let w := within a fs dir (fun q => handed (load a strtod fs n [] (some q) true))
      if (asksText w strtod vars text).any (fun p => p.1 = "parse".toList &&
          match fs.canon dir p.2 with | none => false | some q => (load a strtod fs n [] (some q) true).isNone) then none
      else some (.done (parseText w strtod vars text lattice))

end Flame.Glps
