import Verif.Machine.Model

/-!
# What a user of Machine relies on

Definitions used in the statements of C18-C26 and C52.  They speak about plain lists of
elements and never mention the lookup maps, the loop counter or the registry's maps.
-/

namespace Flame.Mach

variable {C X S : Type}

/-- The positions of the elements satisfying `p`, in beamline order. -/
def positions (els : List (Elem C X S)) (p : Elem C X S → Bool) : List Nat :=
  (List.range els.length).filter (fun i => (els[i]?).any p)

/-- Entry `ec` of the lattice at place `i` turned into element `e` by class `k`. -/
structure MadeFrom (cv : CView C) (k : Cls C X S) (i : Nat) (ec : C) (e : Elem C X S) : Prop where
  cls : e.cls = k
  conf : e.conf = ec
  index : e.index = i
  name : cv.str ec "name" = .ok e.name
  type : cv.str ec "type" = .ok e.cls.typeName
  dat : k.build ec = .ok e.dat
  obs : e.obs = none

/-- Class `k` is what element type `ty` of simulation type `sim` means in the registry. -/
def Registered (w : World C X S) (sim ty : String) (k : Cls C X S) : Prop :=
  ∃ i p, w.infos.find sim = some i ∧ i.elements.find ty = some p ∧ w.deref p = some k

/-- The simulation type is known. -/
def KnownSim (w : World C X S) (sim : String) : Prop := ∃ i, w.infos.find sim = some i

/-- An entry of the lattice for which an element can be built. -/
def GoodEntry (cv : CView C) (w : World C X S) (sim : String) (ec : C) : Prop :=
  ∃ ty k nm x, cv.str ec "type" = .ok ty ∧ Registered w sim ty k ∧ k.typeName = ty ∧
    cv.str ec "name" = .ok nm ∧ k.build ec = .ok x

/-- Registry operations (`registerState`, `registerElement`, `registeryCleanup`). -/
inductive WOp (C X S : Type)
  | state (sim : String) (builder : Nat)
  | element (sim ty : String) (k : Cls C X S)
  | cleanup

/-- One registry operation with its outcome. -/
def WOp.run (w : World C X S) : WOp C X S → World C X S × Option Err
  | .state n b => registerState w n b
  | .element s e k => registerElement w s e k
  | .cleanup => (registeryCleanup w, none)

/-- The registry after a history. -/
def WOp.runAll (w : World C X S) (h : List (WOp C X S)) : World C X S :=
  h.foldl (fun w o => (o.run w).1) w

/-- The abstract registry: for each known simulation type its state builder and its element
classes. -/
abbrev AReg (C X S : Type) := String → Option (Nat × (String → Option (Cls C X S)))

/-- Abstract registry operation: a taken name is refused and nothing changes. -/
def WOp.spec (r : AReg C X S) : WOp C X S → AReg C X S × Option Err
  | .state n b =>
    if (r n).isSome then (r, some .logic)
    else (fun m => if m = n then some (b, fun _ => none) else r m, none)
  | .element s e k =>
    match r s with
    | none => (r, some .logic)
    | some (b, t) =>
      if (t e).isSome then (r, some .logic)
      else (fun m => if m = s then some (b, fun f => if f = e then some k else t f) else r m, none)
  | .cleanup => (fun _ => none, none)

/-- The abstract registry after a history. -/
def WOp.specAll (r : AReg C X S) (h : List (WOp C X S)) : AReg C X S :=
  h.foldl (fun r o => (o.spec r).1) r

/-- The meaning of a concrete registry. -/
def World.abs (w : World C X S) : AReg C X S := fun s =>
  (w.infos.find s).map (fun i => (i.builder, fun e => (i.elements.find e).bind w.deref))

/-- The operation concerns simulation type `s`. -/
def WOp.about (s : String) : WOp C X S → Bool
  | .state n _ => n = s
  | .element n _ _ => n = s
  | .cleanup => true

/-- An element class that neither redirects the beam, nor turns it around, nor throws. -/
def Straight (k : Cls C X S) : Prop :=
  ∀ x s, (k.advance x s).2.1.nextElem = s.nextElem ∧ (k.advance x s).2.1.retreat = s.retreat ∧
    (k.advance x s).2.2 = none

/-- An element class that does not turn the beam around (but may redirect it or throw). -/
def KeepsDir (k : Cls C X S) : Prop := ∀ x s, (k.advance x s).2.1.retreat = s.retreat

/-- Pass the state through the listed elements; `next n` is the value of `next_elem` seen by
element `n`. -/
def passAll (next : Nat → Nat) :
    List (Elem C X S) → St S → List Nat → List (Elem C X S) × St S
  | els, s, [] => (els, s)
  | els, s, n :: ns =>
    match els[n]? with
    | none => (els, s)
    | some e =>
      let r := e.cls.advance e.dat { s with nextElem := next n }
      passAll next (els.set n { e with dat := r.1 }) r.2.1 ns

/-- The elements passed, in order. -/
def visits : List (Event S) → List Nat
  | [] => []
  | .visit n :: t => n :: visits t
  | .view _ _ _ :: t => visits t

/-- What observers saw, in order: observer, element index, state. -/
def views : List (Event S) → List (Nat × Nat × St S)
  | [] => []
  | .visit _ :: t => views t
  | .view o i s :: t => (o, i, s) :: views t

/-- The completed element passages of a propagation with at most `n` steps: which element, and
the state at its exit.  Observers do not occur here. -/
def passages : Nat → List (Elem C X S) → St S → List (Nat × St S)
  | 0, _, _ => []
  | n + 1, els, s =>
    match els[s.nextElem]? with
    | none => []
    | some e =>
      let r := e.cls.advance e.dat (stepNext s)
      if r.2.2.isSome then []
      else (s.nextElem, r.2.1) :: passages n (els.set s.nextElem { e with dat := r.1 }) r.2.1

/-- Index fields agree with positions. -/
def Indexed (els : List (Elem C X S)) : Prop := ∀ (i : Nat) (e : Elem C X S), els[i]? = some e → e.index = i

/-- Elements `a` and `b` agree in everything but the installed observer. -/
def SameButObs (a b : Elem C X S) : Prop :=
  a.cls = b.cls ∧ a.name = b.name ∧ a.index = b.index ∧ a.conf = b.conf ∧ a.dat = b.dat

/-- A reconfigure history: index and new configuration. -/
abbrev RHist (C : Type) := List (Nat × C)

/-- The machine after a reconfigure history (outcomes ignored). -/
def reconfAll (cv : CView C) (w : World C X S) (m : Machine C X S) (h : RHist C) : Machine C X S :=
  h.foldl (fun m q => (m.reconfigure cv w q.1 q.2).1) m

/-- Every configuration of the history keeps the name of the element it is applied to. -/
def KeepsNames (cv : CView C) (els : List (Elem C X S)) (h : RHist C) : Prop :=
  ∀ q ∈ h, ∀ e, els[q.1]? = some e → cv.str q.2 "name" = .ok e.name

end Flame.Mach
