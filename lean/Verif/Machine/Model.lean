import Mathlib.Data.Prod.Lex
import Verif.Base.SMap

/-!
# Machine, elements, states and the registry

Model of /repo/src/base.cpp and /repo/src/flame/base.h.

Parameters: `C` configurations (read through `CView`), `X` the fields of an element subclass,
`S` the fields of a state subclass.  An element class (`Cls`) is an arbitrary constructor, `assign`
method and `advance` method, so every theorem holds for every possible element class.
Not modelled: log and trace output, error message texts, memory exhaustion.
-/

namespace Flame.Mach

/-- `2^64`, the number of values of `size_t` (next_elem, /repo/src/flame/base.h:35). -/
def sizeMod : Nat := 2 ^ 64

/-- The C++ exception types thrown by /repo/src/base.cpp: `key_error`, `boost::bad_any_cast`
(std::exception subclasses thrown by constructors), `runtime_error`, `logic_error`,
`invalid_argument`.  Message texts are not modelled. -/
inductive Err | keyError | badCast | runtime | logic | invalidArg
  deriving DecidableEq, Repr

/-- Result of a call: normal return, exception, or undefined behaviour (use of a deleted
object, signed overflow). -/
inductive Out (α : Type) | ok (a : α) | err (e : Err) | ub
  deriving DecidableEq, Repr

/-- How the Machine reads a Config: `get<std::string>(key)` and
`get<std::vector<Config>>("elements")` (/repo/src/base.cpp:88, 104, 115, 205).
The Config itself is modelled in Verif/Config. -/
structure CView (C : Type) where
  str : C → String → Except Err String
  elems : C → Except Err (List C)

/-- `StateBase` (/repo/src/flame/base.h:29-39, fields `next_elem`, `pos`, `retreat`) plus the
fields of the subclass.  `pos` is an abstract additive quantity kept inside the payload type
`S` by the subclass models; here only control fields are separate. -/
structure St (S : Type) where
  nextElem : Nat
  retreat : Bool
  payload : S
  deriving DecidableEq, Repr

/-- `StateBase::StateBase(const StateBase&, clone_tag)` (/repo/src/base.cpp:25-30) with the
member-wise copy of the subclasses (/repo/src/moment.cpp:235-246, /repo/src/linear.cpp:40-43, 90-93):
`next_elem` and `retreat` are reset. -/
def St.clone {S : Type} (s : St S) : St S := { nextElem := 0, retreat := false, payload := s.payload }

/-- `StateBase::assign` (/repo/src/base.cpp:32-35) with the member-wise assignment of the
subclasses (/repo/src/moment.cpp:248-263, /repo/src/linear.cpp:45-52, 95-102):
`next_elem` and `retreat` of the target are kept. -/
def St.assign {S : Type} (s o : St S) : St S := { s with payload := o.payload }

/-- An element class: the template instance `element_builder_impl<Element>` and the virtual
methods of `Element` (/repo/src/flame/base.h:404-423, 188-216).  `id` is the C++ dynamic type.
`build` is the subclass part of the constructor, `assign old new` the subclass fields after
`old.assign(new)`, `advance` may change the element's own fields (caches) and the state, and may
throw after having changed them. -/
structure Cls (C X S : Type) where
  id : Nat
  typeName : String
  build : C → Except Err X
  assign : X → X → X
  advance : X → St S → X × St S × Option Err

/-- An element instance, `ElementVoid` (/repo/src/flame/base.h:169-225).  `obs` is the
`p_observe` pointer (an observer identity). -/
structure Elem (C X S : Type) where
  cls : Cls C X S
  name : String
  index : Nat
  conf : C
  obs : Option Nat
  dat : X

variable {C X S : Type}

/-- `builder->build(c)`, i.e. `new Element(c)` (/repo/src/flame/base.h:412-413) with the base
class constructor `ElementVoid::ElementVoid` (/repo/src/base.cpp:56-62) running first. -/
def Cls.new (cv : CView C) (k : Cls C X S) (c : C) : Except Err (Elem C X S) :=
  match cv.str c "name" with
  | .error e => .error e
  | .ok nm =>
    match k.build c with
    | .error e => .error e
    | .ok x => .ok { cls := k, name := nm, index := 0, conf := c, obs := none, dat := x }

/-- `state_info` (/repo/src/flame/base.h:425-430): the state builder is a function pointer
(an identity here), the element builders are pointers into the heap of builder objects. -/
structure Info where
  name : String
  builder : Nat
  elements : SMap String Nat
  deriving DecidableEq, Repr

/-- The process-wide registry `Machine::p_state_infos` (/repo/src/flame/base.h:435) and the heap
of builder objects; a deleted builder is `none`. -/
structure World (C X S : Type) where
  heap : List (Option (Cls C X S))
  infos : SMap String Info

/-- The registry at program start (/repo/src/base.cpp:216). -/
def World.empty : World C X S := { heap := [], infos := [] }

/-- Dereference of a builder pointer. -/
def World.deref (w : World C X S) (p : Nat) : Option (Cls C X S) := (w.heap[p]?).join

/-- `Machine::p_registerState` (/repo/src/base.cpp:218-230). -/
def registerState (w : World C X S) (name : String) (b : Nat) : World C X S × Option Err :=
  match w.infos.find name with
  | some _ => (w, some .logic)
  | none => ({ w with infos := w.infos.insert name { name := name, builder := b, elements := [] } }, none)

/-- `Machine::registerElement<E>` (/repo/src/flame/base.h:477-487) calling
`Machine::p_registerElement` (/repo/src/base.cpp:232-249).  The builder object is allocated by the
caller first and leaks when the registration is refused. -/
def registerElement (w : World C X S) (sname ename : String) (k : Cls C X S) :
    World C X S × Option Err :=
  let p := w.heap.length
  let w := { w with heap := w.heap ++ [some k] }
  match w.infos.find sname with
  | none => (w, some .logic)
  | some i =>
    match i.elements.find ename with
    | some _ => (w, some .logic)
    | none =>
      ({ w with infos := w.infos.insert sname { i with elements := i.elements.insert ename p } }, none)

/-- `Machine::registeryCleanup` (/repo/src/base.cpp:251-265): deletes every registered builder
and clears the registry. -/
def registeryCleanup (w : World C X S) : World C X S :=
  let dead : List Nat := w.infos.flatMap (fun q => q.2.elements.map Prod.snd)
  { heap := w.heap.zipIdx.map (fun q => if q.2 ∈ dead then none else q.1), infos := [] }

/-- Key of the lookup maps, `LookupKey` with its `operator<` (/repo/src/flame/base.h:306-316):
ordered by name, then by index. -/
abbrev Key := String ×ₗ Nat

/-- `Machine` (/repo/src/flame/base.h:304-432).  Elements are never reallocated, so the pointers
stored in the lookup maps are element positions. -/
structure Machine (C X S : Type) where
  info : Info
  conf : C
  simtype : String
  elems : List (Elem C X S)
  byName : SMap Key Nat
  byType : SMap Key Nat

/-- One turn of the construction loop (/repo/src/base.cpp:111-150): the element for configuration
`ec` at index `idx`. -/
def buildAt (cv : CView C) (w : World C X S) (info : Info) (idx : Nat) (ec : C) : Out (Elem C X S × String) :=
  match cv.str ec "type" with
  | .error e => .err e
  | .ok etype =>
    match info.elements.find etype with
    | none => .err .keyError
    | some p =>
      match w.deref p with
      | none => .ub
      | some k =>
        match k.new cv ec with
        | .error .keyError => .err .keyError
        | .error _ => .err .runtime
        | .ok e => if e.cls.typeName ≠ etype then .err .logic else .ok ({ e with index := idx }, etype)

/-- The local variables of the construction loop (/repo/src/base.cpp:106-110). -/
structure Acc (C X S : Type) where
  elems : List (Elem C X S)
  byName : SMap Key Nat
  byType : SMap Key Nat

/-- The construction loop (/repo/src/base.cpp:110-150). -/
def buildAll (cv : CView C) (w : World C X S) (info : Info) : Nat → Acc C X S → List C → Out (Acc C X S)
  | _, a, [] => .ok a
  | idx, a, ec :: rest =>
    match buildAt cv w info idx ec with
    | .err e => .err e
    | .ub => .ub
    | .ok (e, etype) =>
      buildAll cv w info (idx + 1)
        { elems := a.elems ++ [e]
          byName := a.byName.insertNew (toLex (e.name, e.index)) a.elems.length
          byType := a.byType.insertNew (toLex (etype, e.index)) a.elems.length } rest

/-- `Machine::Machine(const Config&)` (/repo/src/base.cpp:82-158).  On an exception no machine
exists (the already built elements leak). -/
def Machine.new (cv : CView C) (w : World C X S) (c : C) : Out (Machine C X S) :=
  match cv.str c "sim_type" with
  | .error e => .err e
  | .ok ty =>
    match w.infos.find ty with
    | none => .err .keyError
    | some info =>
      match cv.elems c with
      | .error e => .err e
      | .ok es =>
        match buildAll cv w info 0 ⟨[], [], []⟩ es with
        | .err e => .err e
        | .ub => .ub
        | .ok a => .ok { info := info, conf := c, simtype := ty, elems := a.elems,
                         byName := a.byName, byType := a.byType }

/-- The half open iterator range `[lower_bound(name,0), upper_bound(name,SIZE_MAX))` of a lookup
map (/repo/src/flame/base.h:353-354, 374-375, 383-384). -/
def nameRange (m : SMap Key Nat) (name : String) : SMap Key Nat :=
  (m.dropWhile (fun q => q.1 < toLex (name, 0))).takeWhile
    (fun q => ¬ (toLex (name, sizeMod - 1) < q.1))

/-- The loop of `Machine::find` (/repo/src/flame/base.h:355-360): advance until the counter
equals `nth`. -/
def findLoop (nth : Nat) : Nat → SMap Key Nat → Option Nat
  | _, [] => none
  | i, q :: r => if i = nth then some q.2 else findLoop nth (i + 1) r

/-- `Machine::find` (/repo/src/flame/base.h:352-361); the result is an element position. -/
def Machine.find (m : Machine C X S) (name : String) (nth : Nat) : Option Nat :=
  findLoop nth 0 (nameRange m.byName name)

/-- `Machine::equal_range` (/repo/src/flame/base.h:373-378): positions in iteration order. -/
def Machine.equalRange (m : Machine C X S) (name : String) : List Nat :=
  (nameRange m.byName name).map Prod.snd

/-- `Machine::equal_range_type` (/repo/src/flame/base.h:382-387). -/
def Machine.equalRangeType (m : Machine C X S) (ty : String) : List Nat :=
  (nameRange m.byType ty).map Prod.snd

/-- `Machine::all_range` (/repo/src/flame/base.h:366-369). -/
def Machine.allRange (m : Machine C X S) : List Nat := m.byName.map Prod.snd

/-- `PyMachine_find` (/repo/python/flame/modmachine.cpp:221-255): the `index` fields of the
elements in the range; giving both criteria is an error. -/
def Machine.pyFind (m : Machine C X S) (name type : Option String) : Except Err (List Nat) :=
  let range : Option (List Nat) :=
    match name, type with
    | some _, some _ => none
    | some n, none => some (m.equalRange n)
    | none, some t => some (m.equalRangeType t)
    | none, none => some m.allRange
  match range with
  | none => .error .invalidArg
  | some ps => .ok (ps.filterMap (fun p => (m.elems[p]?).map Elem.index))

/-- `element_builder_impl<Element>::rebuild` (/repo/src/flame/base.h:414-422): build a new
element, `dynamic_cast` the old one to the builder's class, `assign`, restore the index.
`ElementVoid::assign` (/repo/src/base.cpp:74-80) copies conf, name and index, not the observer.
The dynamic cast is modelled as equality of classes (no registered class derives from another). -/
def rebuild (cv : CView C) (k : Cls C X S) (o : Elem C X S) (c : C) (idx : Nat) :
    Elem C X S × Option Err :=
  match k.new cv c with
  | .error e => (o, some e)
  | .ok n =>
    if o.cls.id ≠ k.id then (o, some .runtime)
    else ({ o with dat := o.cls.assign o.dat n.dat, conf := n.conf, name := n.name, index := idx }, none)

/-- `Machine::reconfigure` (/repo/src/base.cpp:200-214).  The lookup maps are not touched. -/
def Machine.reconfigure (cv : CView C) (w : World C X S) (m : Machine C X S) (idx : Nat) (c : C) :
    Machine C X S × Out Unit :=
  match m.elems[idx]? with
  | none => (m, .err .invalidArg)
  | some o =>
    match cv.str c "type" with
    | .error e => (m, .err e)
    | .ok etype =>
      match m.info.elements.find etype with
      | none => (m, .err .keyError)
      | some p =>
        match w.deref p with
        | none => (m, .ub)
        | some k =>
          match rebuild cv k o c idx with
          | (o', none) => ({ m with elems := m.elems.set idx o' }, .ok ())
          | (o', some e) => ({ m with elems := m.elems.set idx o' }, .err e)

/-- What happens during a propagation, in order: an element was passed, an observer was called
with the element's index and a view of the state. -/
inductive Event (S : Type) | visit (n : Nat) | view (o : Nat) (idx : Nat) (s : St S)
  deriving DecidableEq, Repr

/-- Result of a propagation: elements (their caches may have changed), state, events in order and
the exception that ended it, if any. -/
structure Run (C X S : Type) where
  elems : List (Elem C X S)
  st : St S
  trace : List (Event S)
  err : Option Err

/-- `next_elem++` / `next_elem--` on `size_t` (/repo/src/base.cpp:180-184). -/
def stepNext (s : St S) : St S :=
  if s.retreat then { s with nextElem := (s.nextElem + (sizeMod - 1)) % sizeMod }
  else { s with nextElem := (s.nextElem + 1) % sizeMod }

/-- The call of the observer, if one is installed (/repo/src/base.cpp:187-188). -/
def viewEvents (e : Elem C X S) (s : St S) : List (Event S) :=
  match e.obs with
  | none => []
  | some o => [.view o e.index s]

/-- One turn of the propagate loop body (/repo/src/base.cpp:178-190) at element `e` = number `n`. -/
def passElem (els : List (Elem C X S)) (n : Nat) (e : Elem C X S) (s : St S) : Run C X S :=
  let r := e.cls.advance e.dat (stepNext s)
  let els' := els.set n { e with dat := r.1 }
  match r.2.2 with
  | some x => { elems := els', st := r.2.1, trace := [.visit n], err := some x }
  | none =>
    { elems := els', st := r.2.1, err := none,
      trace := .visit n :: viewEvents e r.2.1 }

/-- The loop `for(int i=0; next_elem<nelem && i<abs(max); i++)` (/repo/src/base.cpp:176-191).
`bound` is `abs(max)`. -/
def loop (bound i : Nat) (els : List (Elem C X S)) (s : St S) : Run C X S :=
  if _h : i < bound then
    match els[s.nextElem]? with
    | none => { elems := els, st := s, trace := [], err := none }
    | some e =>
      let r := passElem els s.nextElem e s
      match r.err with
      | some _ => r
      | none =>
        let q := loop bound (i + 1) r.elems r.st
        { q with trace := r.trace ++ q.trace }
  else { elems := els, st := s, trace := [], err := none }
termination_by bound - i

/-- `abs(int)`: undefined for `INT_MIN`. -/
def cAbs (m : Int) : Option Nat := if m = -2 ^ 31 then none else some m.natAbs

/-- `Machine::propagate` (/repo/src/base.cpp:168-192) on the element list.  `none`: undefined
behaviour (`abs(INT_MIN)`). -/
def propagate (els : List (Elem C X S)) (s : St S) (start : Nat) (max : Int) : Option (Run C X S) :=
  (cAbs max).map (fun b => loop b 0 els { s with nextElem := start, retreat := decide (max < 0) })

/-- `PyScopedObserver::observe` for every listed index (/repo/python/flame/modmachine.cpp:146-152,
175-181); an index out of range throws. -/
def installObs (o : Nat) : List (Elem C X S) → List Nat → List (Elem C X S) × Option Err
  | els, [] => (els, none)
  | els, i :: is =>
    match els[i]? with
    | none => (els, some .runtime)
    | some e => installObs o (els.set i { e with obs := some o }) is

/-- `~PyScopedObserver` (/repo/python/flame/modmachine.cpp:141-145). -/
def clearObs (els : List (Elem C X S)) : List (Elem C X S) := els.map (fun e => { e with obs := none })

/-- `PyStoreObserver::view` (/repo/python/flame/modmachine.cpp:122-133) collected over a run: a
list of (element index, clone of the state) for the views delivered to observer `o`. -/
def stored (o : Nat) : List (Event S) → List (Nat × St S)
  | [] => []
  | .visit _ :: t => stored o t
  | .view o' i s :: t => if o' = o then (i, s.clone) :: stored o t else stored o t

/-- Result of the Python `Machine.propagate`. -/
structure PyRun (C X S : Type) where
  elems : List (Elem C X S)
  st : St S
  result : Except Err (List (Nat × St S))

/-- `PyMachine_propagate` (/repo/python/flame/modmachine.cpp:155-192).  `o` is the identity of the
freshly created store observer.  Simplification: `max` has already been truncated to `int`. -/
def pyPropagate (o : Nat) (els : List (Elem C X S)) (s : St S) (start : Nat) (max : Int)
    (observe : List Nat) : Option (PyRun C X S) :=
  match installObs o els observe with
  | (els', some e) => some { elems := clearObs els', st := s, result := .error e }
  | (els', none) =>
    (propagate els' s start max).map (fun r =>
      { elems := clearObs r.elems, st := r.st,
        result := match r.err with
          | some e => .error e
          | none => .ok (stored o r.trace) })

end Flame.Mach
