import Verif.Config.Model

/-!
# What users rely on: `Config` objects as independent values

Two specifications of the same API, both without any heap, pointer or sharing: an object *is* a
function answering queries, so no operation on one object can influence another.

* `Lk`: answers to lookups only (get/tryGet/getAny, at any nesting depth).
* `Fl`: answers to lookups and to enumeration (own entries and inherited entries separately).
-/

namespace Flame.Conf

variable {N : Type}

/-- Answer to a query. `cfgs n`: a vector of `n` nested configurations. -/
inductive Leaf (N : Type) where
  | missing
  | num (x : N)
  | vec (xs : List N)
  | str (s : String)
  | cfgs (n : Nat)
deriving DecidableEq, Repr

/-! ## Lookup specification -/

/-- A configuration value: for every path `k1[i1].k2[i2]...` and final name, an answer. -/
abbrev LkCfg (N : Type) := List (String × Nat) → String → Leaf N

/-- A stored value: what it is, and the nested configurations it contains. -/
structure LkVal (N : Type) where
  leaf : Leaf N
  sub : Nat → LkCfg N

namespace Lk

/-- The configuration without entries. -/
def empty : LkCfg N := fun _ _ => .missing

/-- Literal values. -/
def ofLit : Lit N → LkVal N
  | .num x => ⟨.num x, fun _ => empty⟩
  | .vec xs => ⟨.vec xs, fun _ => empty⟩
  | .str s => ⟨.str s, fun _ => empty⟩

/-- A vector of configurations. -/
def ofVec (l : List (LkCfg N)) : LkVal N := ⟨.cfgs l.length, fun i => (l[i]?).getD empty⟩

/-- Store `v` under `k`. -/
def set (c : LkCfg N) (k : String) (v : LkVal N) : LkCfg N
  | [], q => if q = k then v.leaf else c [] q
  | (k', i) :: p, q => if k' = k then v.sub i p q else c ((k', i) :: p) q

/-- The value stored under `k` (meaningful when `c [] k ≠ missing`). -/
def get (c : LkCfg N) (k : String) : LkVal N := ⟨c [] k, fun i p q => c ((k, i) :: p) q⟩

/-- The default value of the same type. -/
def dflt [Zero N] (v : LkVal N) : LkVal N :=
  match v.leaf with
  | .num _ => ofLit (.num 0)
  | .vec _ => ofLit (.vec [])
  | .str _ => ofLit (.str "")
  | .cfgs _ => ofVec []
  | .missing => v

/-- State: every object is a value of its own. -/
structure State (N : Type) where
  objs : Nat → Option (LkCfg N)
  vals : Nat → LkVal N

/-- One call.  new_scope, push_scope and flatten change no lookup; `swapAny` is not covered by
this specification (its result depends on which entries are own entries, see `Fl`). -/
def step [Zero N] (s : State N) : Op N → State N
  | .new o => { s with objs := upd s.objs o (some empty) }
  | .copy d o => match s.objs o with
    | none => s
    | some c => { s with objs := upd s.objs d (some c) }
  | .destroy o => { s with objs := upd s.objs o none }
  | .lit x v => { s with vals := upd s.vals x (ofLit v) }
  | .copyVal x y => { s with vals := upd s.vals x (s.vals y) }
  | .mkVec x os => { s with vals := upd s.vals x (ofVec (os.filterMap s.objs)) }
  | .take d x i => match (s.vals x).leaf with
    | .cfgs n => if i < n then { s with objs := upd s.objs d (some ((s.vals x).sub i)) } else s
    | _ => s
  | .get x o k => match s.objs o with
    | none => s
    | some c => match c [] k with
      | .missing => s
      | _ => { s with vals := upd s.vals x (get c k) }
  | .set o k x => match s.objs o with
    | none => s
    | some c => { s with objs := upd s.objs o (some (set c k (s.vals x))) }
  | .swapT o k x => match s.objs o with
    | none => s
    | some c =>
      { s with objs := upd s.objs o (some (set c k (s.vals x))),
               vals := upd s.vals x (dflt (s.vals x)) }
  | .swapAny _ _ _ => s
  | .swapObj o p => match s.objs o, s.objs p with
    | some a, some b => { s with objs := upd (upd s.objs o (some b)) p (some a) }
    | _, _ => s
  | .newScope d o => match s.objs o with
    | none => s
    | some c => { s with objs := upd s.objs d (some c) }
  | .pushScope _ => s
  | .flatten _ => s

/-- A whole program. -/
def run [Zero N] (s : State N) (ops : List (Op N)) : State N := ops.foldl step s

/-- Program start. -/
def init [Zero N] : State N := ⟨fun _ => none, fun _ => ofLit (.num 0)⟩

end Lk

/-! ## Full specification: own and inherited entries -/

/-- Which of the two levels of a configuration a query addresses. -/
inductive Level where
  | own
  | inh
deriving DecidableEq, Repr

/-- A configuration value: answers per level. -/
abbrev FlCfg (N : Type) := List (Level × String × Nat) → Level → String → Leaf N

/-- A stored value. -/
structure FlVal (N : Type) where
  leaf : Leaf N
  sub : Nat → FlCfg N

namespace Fl

def empty : FlCfg N := fun _ _ _ => .missing

def ofLit : Lit N → FlVal N
  | .num x => ⟨.num x, fun _ => empty⟩
  | .vec xs => ⟨.vec xs, fun _ => empty⟩
  | .str s => ⟨.str s, fun _ => empty⟩

def ofVec (l : List (FlCfg N)) : FlVal N := ⟨.cfgs l.length, fun i => (l[i]?).getD empty⟩

/-- The entry `k` at a level. -/
def entry (c : FlCfg N) (l : Level) (k : String) : FlVal N :=
  ⟨c [] l k, fun i p l' q => c ((l, k, i) :: p) l' q⟩

/-- A configuration from its two levels. -/
def mk (own inh : String → FlVal N) : FlCfg N
  | [], .own, q => (own q).leaf
  | [], .inh, q => (inh q).leaf
  | (.own, k, i) :: p, l, q => (own k).sub i p l q
  | (.inh, k, i) :: p, l, q => (inh k).sub i p l q

/-- No entry. -/
def missing : FlVal N := ⟨.missing, fun _ => empty⟩

/-- First choice, else second. -/
def orElse (a b : FlVal N) : FlVal N :=
  match a.leaf with
  | .missing => b
  | _ => a

/-- What a lookup sees: own entries shadow inherited ones. -/
def visible (c : FlCfg N) (k : String) : FlVal N := orElse (entry c .own k) (entry c .inh k)

def set (c : FlCfg N) (k : String) (v : FlVal N) : FlCfg N :=
  mk (fun q => if q = k then v else entry c .own q) (entry c .inh)

/-- Default value of the same type. -/
def dflt [Zero N] (v : FlVal N) : FlVal N :=
  match v.leaf with
  | .num _ => ofLit (.num 0)
  | .vec _ => ofLit (.vec [])
  | .str _ => ofLit (.str "")
  | .cfgs _ => ofVec []
  | .missing => v

structure State (N : Type) where
  objs : Nat → Option (FlCfg N)
  vals : Nat → FlVal N

/-- Replace object `o` by `f` of itself. -/
def modify (s : State N) (o : Nat) (f : FlCfg N → FlCfg N) : State N :=
  match s.objs o with
  | none => s
  | some c => { s with objs := upd s.objs o (some (f c)) }

def step [Zero N] (s : State N) : Op N → State N
  | .new o => { s with objs := upd s.objs o (some empty) }
  | .copy d o => match s.objs o with
    | none => s
    | some c => { s with objs := upd s.objs d (some c) }
  | .destroy o => { s with objs := upd s.objs o none }
  | .lit x v => { s with vals := upd s.vals x (ofLit v) }
  | .copyVal x y => { s with vals := upd s.vals x (s.vals y) }
  | .mkVec x os => { s with vals := upd s.vals x (ofVec (os.filterMap s.objs)) }
  | .take d x i => match (s.vals x).leaf with
    | .cfgs n => if i < n then { s with objs := upd s.objs d (some ((s.vals x).sub i)) } else s
    | _ => s
  | .get x o k => match s.objs o with
    | none => s
    | some c => match (visible c k).leaf with
      | .missing => s
      | _ => { s with vals := upd s.vals x (visible c k) }
  | .set o k x => modify s o (fun c => set c k (s.vals x))
  | .swapT o k x => match s.objs o with
    | none => s
    | some _ => { modify s o (fun c => set c k (s.vals x)) with
                    vals := upd s.vals x (dflt (s.vals x)) }
  -- a true exchange with the own entry; an absent entry counts as the number 0
  | .swapAny o k x => match s.objs o with
    | none => s
    | some c => { modify s o (fun c => set c k (s.vals x)) with
                    vals := upd s.vals x (orElse (entry c .own k) (ofLit (.num 0))) }
  | .swapObj o p => match s.objs o, s.objs p with
    | some a, some b => { s with objs := upd (upd s.objs o (some b)) p (some a) }
    | _, _ => s
  -- the new scope has no own entries and inherits all that was visible
  | .newScope d o => match s.objs o with
    | none => s
    | some c => { s with objs := upd s.objs d (some (mk (fun _ => missing) (visible c))) }
  -- all that was visible becomes inherited
  | .pushScope o => modify s o (fun c => mk (fun _ => missing) (visible c))
  -- all that was visible becomes own
  | .flatten o => modify s o (fun c => mk (visible c) (fun _ => missing))

def run [Zero N] (s : State N) (ops : List (Op N)) : State N := ops.foldl step s

def init [Zero N] : State N := ⟨fun _ => none, fun _ => ofLit (.num 0)⟩

end Fl

/-! ## What can be observed of the implementation -/

/-- The kind of a stored value. -/
def leafOf : Option (Val N) → Leaf N
  | none => .missing
  | some (.num x) => .num x
  | some (.vec xs) => .vec xs
  | some (.str s) => .str s
  | some (.cfgs l) => .cfgs l.length

/-- The `i`-th nested configuration of a stored value. -/
def nested (v : Option (Val N)) (i : Nat) : Option Cfg :=
  match v with
  | some (.cfgs l) => l[i]?
  | _ => none

/-- All lookups through `getAny` at any depth. -/
def obsLk (h : Addr → VMap N) : Cfg → LkCfg N
  | c, [], q => leafOf (look h c q)
  | c, (k, i) :: p, q =>
    match nested (look h c k) i with
    | some c' => obsLk h c' p q
    | none => .missing

/-- Lookups in a value. -/
def obsLkVal (h : Addr → VMap N) (v : Val N) : LkVal N :=
  ⟨leafOf (some v), fun i => match nested (some v) i with
    | some c => obsLk h c
    | none => Lk.empty⟩

/-- The entry at one level: the own map, or the implicit map if there is one. -/
def lookLv (h : Addr → VMap N) (c : Cfg) (l : Level) (k : String) : Option (Val N) :=
  match l with
  | .own => (h c.own).find k
  | .inh => match c.imp with
    | none => none
    | some i => (h i).find k

/-- All enumerations and lookups at any depth. -/
def obsFl (h : Addr → VMap N) : Cfg → FlCfg N
  | c, [], l, q => leafOf (lookLv h c l q)
  | c, (l, k, i) :: p, l', q =>
    match nested (lookLv h c l k) i with
    | some c' => obsFl h c' p l' q
    | none => .missing

/-- Enumerations and lookups in a value. -/
def obsFlVal (h : Addr → VMap N) (v : Val N) : FlVal N :=
  ⟨leafOf (some v), fun i => match nested (some v) i with
    | some c => obsFl h c
    | none => Fl.empty⟩

/-- Observable part of a program state, lookups. -/
def absLk (s : St N) : Lk.State N :=
  ⟨fun o => (s.objs o).map (obsLk s.heap), fun x => obsLkVal s.heap (s.vals x)⟩

/-- Observable part of a program state, lookups and enumerations. -/
def absFl (s : St N) : Fl.State N :=
  ⟨fun o => (s.objs o).map (obsFl s.heap), fun x => obsFlVal s.heap (s.vals x)⟩

/-- No call of `swapAny`. -/
def noSwapAny : Op N → Bool
  | .swapAny _ _ _ => false
  | _ => true

/-- `flatten()` / `push_scope()` on `o` is harmless: nothing is inherited, or no other reachable
reference to the own map of `o` exists. -/
def FlatSafe (s : St N) (o : Nat) : Prop :=
  ∀ c, s.objs o = some c → c.imp = none ∨
    ((∀ σ c', Live s σ c' → c'.own = c.own → σ = .obj o) ∧
     (∀ σ c', Live s σ c' → c'.imp ≠ some c.own))

/-- The call is safe in this state. -/
def OpSafe (s : St N) : Op N → Prop
  | .flatten o => FlatSafe s o
  | .pushScope o => FlatSafe s o
  | _ => True

/-- Every call of the history is safe at its moment. -/
def SafeRun [Zero N] (uq : St N → Nat → Bool) (s : St N) : List (Op N) → Prop
  | [] => True
  | op :: ops => OpSafe s op ∧ SafeRun uq (step uq s op) ops

end Flame.Conf
