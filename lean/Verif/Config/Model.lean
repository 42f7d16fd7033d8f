import Verif.Base.SMap

/-!
# `Config`: reference counted parameter maps with copy-on-write

Model of /repo/src/flame/config.h and /repo/src/config.cpp:11-124.

A program is a sequence of calls on `Config` objects and `Config::value_t` variables.  The maps
live in a heap and are referred to by address, exactly as `boost::shared_ptr<values_t>` does, so
sharing, copy-on-write and writes through a shared pointer are all visible in the model.

Simplifications: numbers are an abstract type `N`; memory is never re-used (addresses are fresh
forever); calls on objects that do not exist are ignored (in C++ such programs do not compile or
are undefined); exceptions from the allocator are not modelled.
-/

namespace Flame.Conf

variable {N : Type}

/-- Address of a heap-allocated `values_t` (the pointee of a `shared_ptr`,
/repo/src/flame/config.h:81-82). -/
abbrev Addr := Nat

/-- A `Config` object: `values` and the possibly null `implicit_values`
(/repo/src/flame/config.h:84-85). -/
structure Cfg where
  own : Addr
  imp : Option Addr
deriving DecidableEq, Repr

/-- `Config::value_t` (/repo/src/flame/config.h:70-75). -/
inductive Val (N : Type) where
  | num (x : N)
  | vec (xs : List N)
  | str (s : String)
  | cfgs (l : List Cfg)
deriving DecidableEq, Repr

/-- `Config::values_t` (/repo/src/flame/config.h:79). -/
abbrev VMap (N : Type) := SMap String (Val N)

/-- Program state: the heap of maps, the next unused address, the live `Config` objects and the
`value_t` variables of the calling program. -/
structure St (N : Type) where
  heap : Addr → VMap N
  next : Addr
  objs : Nat → Option Cfg
  vals : Nat → Val N

/-- Update of a function at one point. -/
def upd {α : Type} {β : Type} [DecidableEq α] (f : α → β) (a : α) (b : β) : α → β :=
  fun x => if x = a then b else f x

/-- The visible value of a name: `Config::getAny` / `Config::tryGetAny`
(/repo/src/config.cpp:39-67) - own map first, then the implicit one if not null. -/
def look (h : Addr → VMap N) (c : Cfg) (k : String) : Option (Val N) :=
  match (h c.own).find k with
  | some v => some v
  | none =>
    match c.imp with
    | none => none
    | some i => (h i).find k

/-- Literal arguments of the calling program. -/
inductive Lit (N : Type) where
  | num (x : N)
  | vec (xs : List N)
  | str (s : String)

/-- A literal as a `value_t`. -/
def Lit.toVal : Lit N → Val N
  | .num x => .num x
  | .vec xs => .vec xs
  | .str s => .str s

/-- `detail::buildval<T>::op()` for the type `T` of the given value
(/repo/src/flame/config.h:32-39): `0.0` or an empty string/vector. -/
def Val.dflt [Zero N] : Val N → Val N
  | .num _ => .num 0
  | .vec _ => .vec []
  | .str _ => .str ""
  | .cfgs _ => .cfgs []

/-- The API calls.  `o d s p` are `Config` objects, `x y` are `value_t` variables. -/
inductive Op (N : Type) where
  /-- `Config o;` (config.cpp:11-13) -/
  | new (o : Nat)
  /-- `Config d(s);` or `d = s;` (config.cpp:15-28) -/
  | copy (d s : Nat)
  /-- end of life of `o` -/
  | destroy (o : Nat)
  /-- `x = literal` -/
  | lit (x : Nat) (v : Lit N)
  /-- `x = y` -/
  | copyVal (x y : Nat)
  /-- `x = std::vector<Config>{o1, o2, ...}` -/
  | mkVec (x : Nat) (os : List Nat)
  /-- `d = boost::get<std::vector<Config>>(x)[i]` -/
  | take (d x i : Nat)
  /-- `o.tryGetAny(k, x)` (config.cpp:39-55) -/
  | get (x o : Nat) (k : String)
  /-- `o.setAny(k, x)` (config.cpp:68-73), `o.set<T>(k, x)` (config.h:174-180) -/
  | set (o : Nat) (k : String) (x : Nat)
  /-- `o.swap<T>(k, x)` (config.h:191-199) -/
  | swapT (o : Nat) (k : String) (x : Nat)
  /-- `o.swapAny(k, x)` (config.cpp:75-89) -/
  | swapAny (o : Nat) (k : String) (x : Nat)
  /-- `o.swap(p)` (config.h:202-207) -/
  | swapObj (o p : Nat)
  /-- `d = s.new_scope()` (config.cpp:91-107) -/
  | newScope (d s : Nat)
  /-- `o.push_scope()` (config.cpp:109-114) -/
  | pushScope (o : Nat)
  /-- `o.flatten()` (config.cpp:116-124) -/
  | flatten (o : Nat)

/-- `Config::_cow()` (/repo/src/config.cpp:31-37) on object `o`.  `uq s o` is the answer of
`values.unique()`. -/
def cow (uq : St N → Nat → Bool) (s : St N) (o : Nat) : St N :=
  match s.objs o with
  | none => s
  | some c =>
    if uq s o then s
    else { s with
      heap := upd s.heap s.next (s.heap c.own)
      next := s.next + 1
      objs := upd s.objs o (some { c with own := s.next }) }

/-- `(*values)[k] = v` on the own map of object `o` (/repo/src/config.cpp:72). -/
def write (s : St N) (o : Nat) (k : String) (v : Val N) : St N :=
  match s.objs o with
  | none => s
  | some c => { s with heap := upd s.heap c.own ((s.heap c.own).insert k v) }

/-- `Config::flatten` (/repo/src/config.cpp:116-124).  Note: no `_cow()`. -/
def flatten (s : St N) (o : Nat) : St N :=
  match s.objs o with
  | none => s
  | some c =>
    match c.imp with
    | none => s
    | some i => { s with
        heap := upd s.heap c.own ((s.heap c.own).merge (s.heap i))
        objs := upd s.objs o (some { c with imp := none }) }

/-- `Config::new_scope` (/repo/src/config.cpp:91-107), result stored in object `d`. -/
def newScope (s : St N) (d : Nat) (c : Cfg) : St N :=
  if (s.heap c.own).isEmpty then
    { s with
      heap := upd s.heap s.next []
      next := s.next + 1
      objs := upd s.objs d (some ⟨s.next, c.imp⟩) }
  else
    match c.imp with
    | none => { s with
        heap := upd s.heap s.next []
        next := s.next + 1
        objs := upd s.objs d (some ⟨s.next, some c.own⟩) }
    | some i =>
      if (s.heap i).isEmpty then { s with
        heap := upd s.heap s.next []
        next := s.next + 1
        objs := upd s.objs d (some ⟨s.next, some c.own⟩) }
      else { s with
        heap := upd (upd s.heap s.next []) (s.next + 1) ((s.heap c.own).merge (s.heap i))
        next := s.next + 2
        objs := upd s.objs d (some ⟨s.next, some (s.next + 1)⟩) }

/-- One API call. -/
def step [Zero N] (uq : St N → Nat → Bool) (s : St N) : Op N → St N
  | .new o => { s with
      heap := upd s.heap s.next []
      next := s.next + 1
      objs := upd s.objs o (some ⟨s.next, none⟩) }
  | .copy d o =>
    match s.objs o with
    | none => s
    | some c => { s with objs := upd s.objs d (some c) }
  | .destroy o => { s with objs := upd s.objs o none }
  | .lit x v => { s with vals := upd s.vals x v.toVal }
  | .copyVal x y => { s with vals := upd s.vals x (s.vals y) }
  | .mkVec x os => { s with vals := upd s.vals x (.cfgs (os.filterMap s.objs)) }
  | .take d x i =>
    match s.vals x with
    | .cfgs l =>
      match l[i]? with
      | some c => { s with objs := upd s.objs d (some c) }
      | none => s
    | _ => s
  | .get x o k =>
    match s.objs o with
    | none => s
    | some c =>
      match look s.heap c k with
      | some v => { s with vals := upd s.vals x v }
      | none => s
  | .set o k x => write (cow uq s o) o k (s.vals x)
  | .swapT o k x =>
    match s.objs o with
    | none => s
    | some _ =>
      let s' := write (cow uq s o) o k (s.vals x)
      { s' with vals := upd s'.vals x (s.vals x).dflt }
  | .swapAny o k x =>
    let s1 := cow uq s o
    match s1.objs o with
    | none => s1
    | some c =>
      let old := ((s1.heap c.own).find k).getD (.num 0)
      let s2 := write s1 o k (s.vals x)
      { s2 with vals := upd s2.vals x old }
  | .swapObj o p =>
    match s.objs o, s.objs p with
    | some a, some b => { s with objs := upd (upd s.objs o (some b)) p (some a) }
    | _, _ => s
  | .newScope d o =>
    match s.objs o with
    | none => s
    | some c => newScope s d c
  | .pushScope o =>
    let s1 := flatten s o
    match s1.objs o with
    | none => s1
    | some c => { s1 with
        heap := upd s1.heap s1.next []
        next := s1.next + 1
        objs := upd s1.objs o (some ⟨s1.next, some c.own⟩) }
  | .flatten o => flatten s o

/-- A whole program. -/
def run [Zero N] (uq : St N → Nat → Bool) (s : St N) (ops : List (Op N)) : St N :=
  ops.foldl (step uq) s

/-- Program start: no objects, all `value_t` variables default constructed
(`boost::variant` default: first alternative, `0.0`). -/
def init [Zero N] : St N :=
  { heap := fun _ => [], next := 0, objs := fun _ => none, vals := fun _ => .num 0 }

/-! ### References -/

/-- A place holding a `Config`: an object, an entry of a vector-valued variable, or an entry of a
vector stored in a map. -/
inductive Site where
  | obj (o : Nat)
  | val (x i : Nat)
  | cell (a : Addr) (k : String) (i : Nat)
deriving DecidableEq

/-- `Live s σ c`: site `σ` holds the `Config` `c` and is reachable from the program's variables;
these are the sites that own a reference count in C++. -/
inductive Live (s : St N) : Site → Cfg → Prop where
  | obj {o c} (h : s.objs o = some c) : Live s (.obj o) c
  | val {x l i c} (h : s.vals x = .cfgs l) (hi : l[i]? = some c) : Live s (.val x i) c
  | cell {σ c a k l i c'} (hl : Live s σ c) (ha : c.own = a ∨ c.imp = some a)
      (h : (s.heap a).find k = some (.cfgs l)) (hi : l[i]? = some c') : Live s (.cell a k i) c'

/-- What the program relies on from `shared_ptr::unique()` (/repo/src/config.cpp:33): if it answers
yes for object `o`, no other reachable reference to the own map of `o` exists.  The true reference
count satisfies this; so does any count that also includes unreachable maps. -/
def UniqueSound (uq : St N → Nat → Bool) : Prop :=
  ∀ s o c, s.objs o = some c → uq s o = true →
    (∀ σ c', Live s σ c' → c'.own = c.own → σ = .obj o) ∧
    (∀ σ c', Live s σ c' → c'.imp ≠ some c.own)

open Classical in
/-- The exact answer of `shared_ptr::unique()` when no memory is leaked
(/repo/src/config.cpp:33): the own map of `o` is referenced by `o` only. -/
noncomputable def exactUnique (s : St N) (o : Nat) : Bool :=
  match s.objs o with
  | none => false
  | some c => decide (
      (∀ σ c', Live s σ c' → c'.own = c.own → σ = .obj o) ∧
      (∀ σ c', Live s σ c' → c'.imp ≠ some c.own))

end Flame.Conf
