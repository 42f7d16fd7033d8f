import Verif.Scale.Spec

/-! # A beam line turned about its axis: the terms of C97

Nothing here mentions functions of the elements, only settings, states and the calls of `propagate`. -/

namespace Flame.Turn.Spec

open Flame.Linear (LCfg LVal)
open Flame.Mach (Elem St Run propagate)
open Flame.Moment (Particle MSt MDat)
open Flame.Scale.Spec (Call)

/-- The turn of the transverse plane by the angle `a`, for positions and angles alike. -/
noncomputable def turner (a : ℝ) : Matrix (Fin 7) (Fin 7) ℝ :=
  !![Real.cos a, 0, -Real.sin a, 0, 0, 0, 0;
     0, Real.cos a, 0, -Real.sin a, 0, 0, 0;
     Real.sin a, 0, Real.cos a, 0, 0, 0, 0;
     0, Real.sin a, 0, Real.cos a, 0, 0, 0;
     0, 0, 0, 0, 1, 0, 0;
     0, 0, 0, 0, 0, 1, 0;
     0, 0, 0, 0, 0, 0, 1]

/-- `S'` is the beam `S` turned by the angle `a`.  The transfer matrices are those seen in the turned coordinates.  Nothing is said
of `moment0_rms`, which follows from the envelope. -/
structure TurnedBeam (a : ℝ) (S S' : MSt) : Prop where
  pos : S'.pos = S.pos
  ref : S'.ref = S.ref
  real : S'.real = S.real
  moment0 : S'.moment0 = S.moment0.map (fun v => (turner a).mulVec v)
  moment1 : S'.moment1 = S.moment1.map (fun M => turner a * M * (turner a).transpose)
  transmat : S'.transmat = S.transmat.map (fun M => turner a * M * (turner a)⁻¹)
  moment0_env : S'.moment0_env = (turner a).mulVec S.moment0_env
  moment1_env : S'.moment1_env = turner a * S.moment1_env * (turner a).transpose
  last_caviphi0 : S'.last_caviphi0 = S.last_caviphi0

/-- A number among the settings, or zero. -/
def number (c : LCfg) (k : String) : ℝ :=
  match c k with
  | some (.num x) => x
  | _ => 0

/-- The settings that may differ. -/
def Moved (k : String) : Prop := k ∈ ["name", "dx", "dy", "roll", "matrix"]

/-- The matrix with the rows `xs'` is that with the rows `xs`, in coordinates turned by the angle `a`. -/
def TurnedRows (a : ℝ) (xs xs' : List ℝ) : Prop :=
  xs.length = 49 ∧ xs'.length = 49 ∧
    (Matrix.of fun i j : Fin 7 => xs'.getD (7 * (i : ℕ) + (j : ℕ)) 0) =
      turner a * (Matrix.of fun i j : Fin 7 => xs.getD (7 * (i : ℕ) + (j : ℕ)) 0) * (turner a)⁻¹

/-- The element of type `ty` with the settings `c'` is that with the settings `c`, turned by the angle `a` about the axis of the beam
line: its offset is turned, its roll increased.  It is neither tilted nor of a kind that gives or changes a beam regardless of
where it stands. -/
structure TurnedElement (a : ℝ) (ty : String) (c c' : LCfg) : Prop where
  dx : number c' "dx" = Real.cos a * number c "dx" - Real.sin a * number c "dy"
  dy : number c' "dy" = Real.sin a * number c "dx" + Real.cos a * number c "dy"
  roll : number c' "roll" = number c "roll" + a
  rest : ∀ k, ¬ Moved k → c' k = c k
  pitch : number c "pitch" = 0
  yaw : number c "yaw" = 0
  kind : ty ≠ "source" ∧ ty ≠ "stripper"
  matrix : ty = "tmatrix" → ∃ xs xs', c "matrix" = some (.vec xs) ∧ c' "matrix" = some (.vec xs') ∧ TurnedRows a xs xs'
  growth : ty = "rfcavity" → c "EmitGrowth" = none ∨ c "EmitGrowth" = some (.num 0)

/-- The same call for the beam turned by the angle `a`. -/
def TurnedCall (a : ℝ) (x y : Call MSt) : Prop :=
  y.watch = x.watch ∧ y.start = x.start ∧ y.max = x.max ∧ TurnedBeam a x.state.payload y.state.payload

/-- Two results of `propagate` that differ by a turn: the same exception or none, the same place, the beam turned, and the same visits
with turned views. -/
def SameButTurn {C X : Type} (a : ℝ) (r r' : Run C X MSt) : Prop :=
  r'.err = r.err ∧ r'.st.nextElem = r.st.nextElem ∧ TurnedBeam a r.st.payload r'.st.payload ∧
    List.Forall₂ (Flame.Cavity.Spec.Seen (TurnedBeam a)) r.trace r'.trace

end Flame.Turn.Spec
