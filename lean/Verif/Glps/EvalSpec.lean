import Verif.Glps.Eval

/-!
# What a lattice file means

The meaning of a file is described without the parser's context, indices and reversed lists: an
expression means a value, a statement extends the list of definitions, and a configuration is a
set of answers to lookups.  `Arith`, `Val` and the syntax trees are shared with the model.
-/

namespace Flame.Glps

variable {N : Type}

/-- The definitions of a file in the order they were written, and the printed values. -/
structure File (N : Type) where
  vars : List (Name × Val N)
  elems : List (Name × Name × List (Name × Val N))
  lines : List (Name × List Name)
  printed : List (Val N)

/-- The file without statements. -/
def File.empty : File N := ⟨[], [], [], []⟩

/-- The functions from numbers to numbers. -/
def numFuns (a : Arith N) : List (Name × (N → N)) :=
  [("sin".toList, a.sin), ("cos".toList, a.cos), ("tan".toList, a.tan),
   ("asin".toList, a.asin), ("acos".toList, a.acos), ("atan".toList, a.atan),
   ("arcsin".toList, a.asin), ("arccos".toList, a.acos), ("arctan".toList, a.atan),
   ("deg2rad".toList, fun x => a.mul x a.degToRad), ("rad2deg".toList, fun x => a.mul x a.radToDeg)]

/-- What a name stands for: a variable, an element (the beamline of that one element), a beamline, or
the number pi. -/
def File.env (a : Arith N) (f : File N) (n : Name) : Option (Val N) :=
  match f.vars.lookup n with
  | some v => some v
  | none =>
    if n ∈ f.elems.map (·.1) then some (.line [n])
    else
      match f.lines.lookup n with
      | some l => some (.line l)
      | none => if n = "pi".toList then some (.num a.pi) else none

mutual
/-- `Means a ρ e v`: expression `e` has the value `v` when names mean `ρ`. -/
inductive Means (a : Arith N) (ρ : Name → Option (Val N)) : Exp N → Val N → Prop
  | num (x : N) : Means a ρ (.num x) (.num x)
  | str (s : Name) : Means a ρ (.str s) (.str s)
  | var {n : Name} {v : Val N} (h : ρ n = some v) : Means a ρ (.var n) v
  | neg {e : Exp N} {x : N} (h : Means a ρ e (.num x)) : Means a ρ (.neg e) (.num (a.neg x))
  | rev {e : Exp N} {l : List Name} (h : Means a ρ e (.line l)) : Means a ρ (.neg e) (.line l.reverse)
  | add {e e' : Exp N} {x y : N} (h : Means a ρ e (.num x)) (h' : Means a ρ e' (.num y)) :
      Means a ρ (.bin '+' e e') (.num (a.add x y))
  | sub {e e' : Exp N} {x y : N} (h : Means a ρ e (.num x)) (h' : Means a ρ e' (.num y)) :
      Means a ρ (.bin '-' e e') (.num (a.sub x y))
  | mul {e e' : Exp N} {x y : N} (h : Means a ρ e (.num x)) (h' : Means a ρ e' (.num y)) :
      Means a ρ (.bin '*' e e') (.num (a.mul x y))
  | div {e e' : Exp N} {x y : N} (h : Means a ρ e (.num x)) (h' : Means a ρ e' (.num y))
      (hf : a.finite (a.div x y) = true) : Means a ρ (.bin '/' e e') (.num (a.div x y))
  | timesL {e e' : Exp N} {x : N} {l : List Name} (h : Means a ρ e (.num x))
      (h' : Means a ρ e' (.line l)) (hf : a.badFactor x = false) :
      Means a ρ (.bin '*' e e') (.line (List.replicate (a.trunc x) l).flatten)
  | timesR {e e' : Exp N} {x : N} {l : List Name} (h : Means a ρ e (.line l))
      (h' : Means a ρ e' (.num x)) (hf : a.badFactor x = false) :
      Means a ρ (.bin '*' e e') (.line (List.replicate (a.trunc x) l).flatten)
  | fn {f : Name} {g : N → N} {e : Exp N} {x : N} (hf : (f, g) ∈ numFuns a) (h : Means a ρ e (.num x)) :
      Means a ρ (.call f e) (.num (g x))
  | parse {e : Exp N} {s : Name} {c : Cf N} (h : Means a ρ e (.str s)) (hc : a.parse s = some c) :
      Means a ρ (.call "parse".toList e) (.conf c)
  | file {f : Name} {e : Exp N} {s p : Name} (hn : f = "file".toList ∨ f = "dir".toList)
      (h : Means a ρ e (.str s)) (hp : a.file s = some (some p)) : Means a ρ (.call f e) (.str p)
  | h5file {e : Exp N} {s p : Name} (h : Means a ρ e (.str s)) (hp : a.h5file s = some (some p)) :
      Means a ρ (.call "h5file".toList e) (.str p)
  | vec {es : Exps N} {xs : List N} (h : MeansL a ρ es xs) : Means a ρ (.vec es) (.vec xs)
  /-- Cannot be written, since `-` is not a name; the syntax tree does not exclude it. -/
  | dash {e : Exp N} {v : Val N} (h : Means a ρ (.neg e) v) : Means a ρ (.call ['-'] e) v
/-- The items of a vector. -/
inductive MeansL (a : Arith N) (ρ : Name → Option (Val N)) : Exps N → List N → Prop
  | nil : MeansL a ρ .nil []
  | cons {e : Exp N} {es : Exps N} {x : N} {xs : List N} (h : Means a ρ e (.num x))
      (h' : MeansL a ρ es xs) : MeansL a ρ (.cons e es) (x :: xs)
end

/-- `Does a f s f'`: statement `s` is correct after the definitions `f` and yields `f'`. -/
inductive Does (a : Arith N) (f : File N) : Stmt N → File N → Prop
  | assign {n : Name} {e : Exp N} {v : Val N} (hv : Means a (f.env a) e v) (hl : ∀ l, v ≠ .line l)
      (hn : n ∉ f.vars.map (·.1)) : Does a f (.assign n e) { f with vars := f.vars ++ [(n, v)] }
  | element {l t : Name} {ps : List (Name × Exp N)} {qs : List (Name × Val N)} (hl : l ≠ []) (ht : t ≠ [])
      (hn : l ∉ f.elems.map (·.1))
      (hp : List.Forall₂ (fun p q => p.1 = q.1 ∧ Means a (f.env a) p.2 q.2) ps qs) :
      Does a f (.element l t ps) { f with elems := f.elems ++ [(l, t, qs)] }
  | line {l t : Name} {es : List (Exp N)} {ms : List (List Name)} (ht : lower t = "line".toList)
      (hn : l ∉ f.lines.map (·.1))
      (he : List.Forall₂ (fun e m => Means a (f.env a) e (.line m)) es ms) :
      Does a f (.line l t es) { f with lines := f.lines ++ [(l, ms.flatten)] }
  | print {e : Exp N} {v : Val N} (hv : Means a (f.env a) e v) :
      Does a f (.func "print".toList e) { f with printed := f.printed ++ [v] }
  | fin : Does a f (.command "END".toList) f

/-- All statements in turn. -/
inductive Runs (a : Arith N) : File N → List (Stmt N) → File N → Prop
  | nil (f : File N) : Runs a f [] f
  | cons {f f' f'' : File N} {s : Stmt N} {ss : List (Stmt N)} (h : Does a f s f')
      (h' : Runs a f' ss f'') : Runs a f (s :: ss) f''

/-- The configuration value of an expression value; a beamline has none. -/
def Val.toCV : Val N → Option (CV N)
  | .num x => some (.num x)
  | .vec xs => some (.vec xs)
  | .str s => some (.str s)
  | .conf c => some (.cfgs [c])
  | .line _ => none

/-- A map whose lookups are given by a function.  There is only one such map. -/
def IsMap (m : SMap Name (CV N)) (g : Name → Option (CV N)) : Prop :=
  SMap.Sorted m ∧ ∀ k, m.find k = g k

/-- The variables of a file. -/
def File.var (f : File N) (k : Name) : Option (CV N) := (f.vars.lookup k).bind Val.toCV

/-- The beamline that is used, with its label. -/
inductive Selected (f : File N) : Name → List Name → Prop
  | use {t : Name} {qs : List (Name × Val N)} {ns : List Name} (h : ("USE".toList, t, qs) ∈ f.elems)
      (hl : (t, ns) ∈ f.lines) : Selected f t ns
  | last {t : Name} {ns : List Name} (h : "USE".toList ∉ f.elems.map (·.1))
      (hl : f.lines.getLast? = some (t, ns)) : Selected f t ns

/-- The configuration of a member of the beamline: type, name, and the leftmost value of each
property, none of which is a beamline; the variables are inherited. -/
def IsElem (f : File N) (n : Name) (cf : Cf N) : Prop :=
  IsMap cf.inh f.var ∧
  ∃ t qs, (n, t, qs) ∈ f.elems ∧
    (∀ k v, List.lookup k qs = some v → v.toCV ≠ none) ∧
    IsMap cf.own (fun k =>
      if k = "name".toList then some (.str n)
      else if k = "type".toList then some (.str t)
      else (List.lookup k qs).bind Val.toCV)

/-- The configuration described by a file, as a lattice or as variables only. -/
inductive Result (f : File N) : Bool → Cf N → Prop
  | vars {own : SMap Name (CV N)} (h : IsMap own f.var) : Result f false (.mk own [])
  | lattice {own : SMap Name (CV N)} {label : Name} {ns : List Name} {es : List (Cf N)}
      (hs : Selected f label ns) (hn : ns ≠ []) (he : List.Forall₂ (IsElem f) ns es)
      (h : IsMap own (fun k =>
        if k = "elements".toList then some (.cfgs es)
        else if k = "name".toList then some (.str label)
        else f.var k)) : Result f true (.mk own [])

/-- The variables given before parsing; nested configurations are ignored. -/
def File.ofVars (m : SMap Name (CV N)) : File N :=
  { File.empty with
    vars := m.filterMap fun p =>
      match p.2 with
      | .num x => some (p.1, .num x)
      | .vec xs => some (p.1, .vec xs)
      | .str s => some (p.1, .str s)
      | .cfgs _ => none }

end Flame.Glps
