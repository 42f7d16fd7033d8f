import Verif.Arrays.Model

/-!
# What the parameters of a state are

Independent of the order and of the addresses in the code.
-/

namespace Flame.Arrays.Spec

open Flame.Moment (MSt Particle)
open Flame.Arrays (Cell AType)

/-- Entry of a matrix. -/
def entry (M : Matrix (Fin 7) (Fin 7) ℝ) (i j : Nat) : Option ℝ :=
  if h : i < 7 ∧ j < 7 then some (M ⟨i, h.1⟩ ⟨j, h.2⟩) else none

/-- Component of a vector. -/
def comp (v : Fin 7 → ℝ) (i : Nat) : Option ℝ := if h : i < 7 then some (v ⟨i, h⟩) else none

/-- A parameter without an index. -/
def single (c : Cell) : List Nat → Option Cell
  | [] => some c
  | _ => none

/-- One number per charge state. -/
def each (real : List Particle) (f : Particle → ℝ) : List Nat → Option Cell
  | [k] => real[k]?.map (fun p => .num (f p))
  | _ => none

/-- A vector, a matrix, a vector per charge state, a matrix per charge state; the charge state is the last index. -/
def vec (v : Fin 7 → ℝ) : List Nat → Option Cell
  | [i] => (comp v i).map .num
  | _ => none

def mat (M : Matrix (Fin 7) (Fin 7) ℝ) : List Nat → Option Cell
  | [i, j] => (entry M i j).map .num
  | _ => none

def vecs (l : List (Fin 7 → ℝ)) : List Nat → Option Cell
  | [i, k] => (l[k]?.bind (comp · i)).map .num
  | _ => none

def mats (l : List (Matrix (Fin 7) (Fin 7) ℝ)) : List Nat → Option Cell
  | [i, j, k] => (l[k]?.bind (entry · i j)).map .num
  | _ => none

/-- The parameters of a moment state by name, and their values by index. -/
def shown (next : Nat) (s : MSt) : List (String × (List Nat → Option Cell)) :=
  [("next_elem", single (.nat next)),
   ("pos", single (.num s.pos)),
   ("last_caviphi0", single (.num s.last_caviphi0)),
   ("moment0", vecs s.moment0), ("moment1", mats s.moment1), ("transmat", mats s.transmat),
   ("moment0_env", vec s.moment0_env), ("moment0_rms", vec s.moment0_rms), ("moment1_env", mat s.moment1_env),
   ("IonZ", each s.real (·.IonZ)), ("ref_IonZ", single (.num s.ref.IonZ)),
   ("IonQ", each s.real (·.IonQ)), ("ref_IonQ", single (.num s.ref.IonQ)),
   ("IonEs", each s.real (·.IonEs)), ("ref_IonEs", single (.num s.ref.IonEs)),
   ("IonW", each s.real (·.IonW)), ("ref_IonW", single (.num s.ref.IonW)),
   ("gamma", each s.real (·.gamma)), ("ref_gamma", single (.num s.ref.gamma)),
   ("beta", each s.real (·.beta)), ("ref_beta", single (.num s.ref.beta)),
   ("bg", each s.real (·.bg)), ("ref_bg", single (.num s.ref.bg)),
   ("SampleFreq", each s.real (·.SampleFreq)), ("ref_SampleFreq", single (.num s.ref.SampleFreq)),
   ("SampleIonK", each s.real (·.SampleIonK)), ("ref_SampleIonK", single (.num s.ref.SampleIonK)),
   ("phis", each s.real (·.phis)), ("ref_phis", single (.num s.ref.phis)),
   ("IonEk", each s.real (·.IonEk)), ("ref_IonEk", single (.num s.ref.IonEk))]

/-- A `Particle` at an address: twelve doubles (/repo/src/flame/moment.h:22-33). -/
def ParticleAt (mem : Flame.Util.Mem Cell) (a : Int) (p : Particle) : Prop :=
  mem a = .num p.IonZ ∧ mem (a + 8) = .num p.IonQ ∧ mem (a + 16) = .num p.IonEs ∧ mem (a + 24) = .num p.IonW ∧
  mem (a + 32) = .num p.gamma ∧ mem (a + 40) = .num p.beta ∧ mem (a + 48) = .num p.bg ∧
  mem (a + 56) = .num p.SampleFreq ∧ mem (a + 64) = .num p.SampleLambda ∧ mem (a + 72) = .num p.SampleIonK ∧
  mem (a + 80) = .num p.phis ∧ mem (a + 88) = .num p.IonEk

/-- A vector of seven doubles; a row major matrix (/repo/src/flame/moment.h:94-101). -/
def VecAt (mem : Flame.Util.Mem Cell) (a : Int) (v : Fin 7 → ℝ) : Prop := ∀ i : Fin 7, mem (a + 8 * i.val) = .num (v i)

def MatAt (mem : Flame.Util.Mem Cell) (a : Int) (M : Matrix (Fin 7) (Fin 7) ℝ) : Prop :=
  ∀ i j : Fin 7, mem (a + 8 * (7 * i.val + j.val)) = .num (M i j)

/-- Objects of size `sz` one behind the other. -/
def ArrayAt {α : Type} (P : Int → α → Prop) (a sz : Int) (l : List α) : Prop :=
  ∀ (k : Nat) x, l[k]? = some x → P (a + k * sz) x

/-- The memory holds the state. -/
structure Holds (mem : Flame.Util.Mem Cell) (L : Layout) (next : Nat) (s : MSt) : Prop where
  nextElem : mem L.nextElem = .nat next
  pos : mem L.pos = .num s.pos
  env1 : MatAt mem L.env1 s.moment1_env
  m1 : ArrayAt (MatAt mem) L.m1 L.szM s.moment1
  tm : ArrayAt (MatAt mem) L.tm L.szM s.transmat
  env0 : VecAt mem L.env0 s.moment0_env
  rms : VecAt mem L.rms s.moment0_rms
  m0 : ArrayAt (VecAt mem) L.m0 L.szV s.moment0
  ref : ParticleAt mem L.ref s.ref
  real : ArrayAt (ParticleAt mem) L.real 96 s.real
  cavi : mem L.cavi = .num s.last_caviphi0

/-- The parts of a state do not overlap, and matrices and vectors contain their numbers (the static assertions at
/repo/src/moment.cpp:326, 340, 372). -/
def Apart (L : Layout) (s : MSt) : Prop :=
  [(L.env1, 8 * 49), (L.m1, s.moment1.length * L.szM), (L.tm, s.transmat.length * L.szM), (L.env0, 56), (L.rms, 56),
   (L.m0, s.moment0.length * L.szV), (L.ref, 96), (L.real, s.real.length * 96), (L.cavi, 8), (L.nextElem, 8),
   (L.pos, 8)].Pairwise (fun (a b : Int × Int) => a.1 + a.2 ≤ b.1 ∨ b.1 + b.2 ≤ a.1) ∧ 8 * 49 ≤ L.szM ∧ 8 * 7 ≤ L.szV

/-- There is a charge state. -/
def Filled (s : MSt) : Prop := s.real ≠ [] ∧ s.moment0 ≠ [] ∧ s.moment1 ≠ [] ∧ s.transmat ≠ []

end Flame.Arrays.Spec
