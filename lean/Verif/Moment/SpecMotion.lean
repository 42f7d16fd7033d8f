import Verif.Moment.Spec
import Mathlib.Analysis.Calculus.Deriv.Basic
import Mathlib.Analysis.Real.Sqrt
import Mathlib.Analysis.SpecialFunctions.Trigonometric.Basic
import Mathlib.Data.Matrix.Mul
import Mathlib.LinearAlgebra.Matrix.Notation

/-!
# Equations of motion in the units of the moment simulation

Used in the statements of C64.  Nothing here mentions the model, apart from the type of configurations.  Transverse positions and lengths are in mm, the phase in rad
and the energy in MeV; energies of particles are in eV and fields in T.
-/

namespace Flame.Moment.Spec

/-- Momentum per charge (T m) of a particle with charge `Z`, rest energy `Es` and kinetic energy `Ek`. -/
noncomputable def rigidity (Z Es Ek : ℝ) : ℝ := Real.sqrt ((Es + Ek) ^ 2 - Es ^ 2) / (299792458 * Z)

/-- Velocity in units of that of light at total energy `W`. -/
noncomputable def speed (Es W : ℝ) : ℝ := Real.sqrt (1 - (Es / W) ^ 2)

/-- Advance of the phase of an oscillation of frequency `f` while a particle flies `L`. -/
noncomputable def phaseAdvance (f Es W L : ℝ) : ℝ := 2 * Real.pi * f * (L / 1000) / (299792458 * speed Es W)

/-- Coefficients of the equations of motion: focusing by `kx`, `ky`, seen from a frame that rotates with angle `k` per length,
and slip of the phase by `s` per length and energy. -/
def motion (kx ky k s : ℝ) : Matrix (Fin 6) (Fin 6) ℝ :=
  !![0, 1, k, 0, 0, 0;
     -kx, 0, 0, k, 0, 0;
     -k, 0, 0, 1, 0, 0;
     0, -k, -ky, 0, 0, 0;
     0, 0, 0, 0, 0, s;
     0, 0, 0, 0, 0, 0]

/-- `M` takes the solutions of the equations of motion with coefficients `A` over the length `L`. -/
def Solves (A : Matrix (Fin 6) (Fin 6) ℝ) (L : ℝ) (M : Matrix (Fin 6) (Fin 6) ℝ) : Prop :=
  ∃ T : ℝ → Matrix (Fin 6) (Fin 6) ℝ, T 0 = 1 ∧ (∀ x i j, HasDerivAt (fun x => T x i j) ((A * T x) i j) x) ∧ T L = M

/-- The same through pieces of length `h` each, with different coefficients. -/
def Through (h : ℝ) : List (Matrix (Fin 6) (Fin 6) ℝ) → Matrix (Fin 6) (Fin 6) ℝ → Prop
  | [], M => M = 1
  | A :: l, M => ∃ M1 M2, Solves A h M1 ∧ Through h l M2 ∧ M = M2 * M1

/-- The seventh coordinate is left alone and does not act on the others. -/
def NoKick (T : Matrix (Fin 7) (Fin 7) ℝ) : Prop :=
  (∀ i, T 6 i = if i = 6 then 1 else 0) ∧ ∀ i, T i 6 = if i = 6 then 1 else 0

/-- In the frame of an element that is shifted by `dx`, `dy` and rolled by `roll`, `T` is motion through pieces of length `h`
with the coefficients `l`. -/
def Runs (dx dy roll h : ℝ) (l : List (Matrix (Fin 6) (Fin 6) ℝ)) (T : Matrix (Fin 7) (Fin 7) ℝ) : Prop :=
  ∃ M, NoKick M ∧ Through h l (phaseSpace M) ∧ ∀ v, inFrame dx dy roll (T.mulVec v) = M.mulVec (inFrame dx dy roll v)

/-- The slip of a particle: change of the advance of its phase per mm with the energy in MeV. -/
def Slip (f Es Ek s : ℝ) : Prop := HasDerivAt (fun W => phaseAdvance f Es W 1) (s / 1000000) (Es + Ek)

/-- The count in parameter `k`, which may be a number or a text; zero without it. -/
def Count (parse : String → Option ℝ) (c : String → Option Flame.Linear.LVal) (k : String) (n : ℕ) : Prop :=
  (match c k with
    | some (.num x) => x
    | some (.str t) => (parse t).getD 0
    | _ => 0) = (n : ℝ)

/-- The values of a field along an element that is described by `n` curves: sums of the curves of `src`, all of the same
length, each times its scale, over the part selected by 'use_range'. -/
def Profile (c src : String → Option Flame.Linear.LVal) (n : ℕ) (f : List ℝ) : Prop :=
  ∃ (cv : ℕ → List ℝ) (m a b : ℕ),
    (∀ i < n, src ("curve" ++ toString i) = some (.vec (cv i)) ∧ (cv i).length = m) ∧
    (((∀ r, c "use_range" ≠ some (.vec r)) ∧ a = 0 ∧ b = m) ∨
      ∃ x y, c "use_range" = some (.vec [x, y]) ∧ Truncated x a ∧ Truncated y b) ∧
    a ≤ b ∧ b ≤ m ∧ f.length = b - a ∧
    ∀ j < b - a, f.getD j 0 = ∑ i ∈ Finset.range n, numOr c ("scl_fac" ++ toString i) 0 * (cv i).getD (a + j) 0

/-- Where the curves come from: the file named in the configuration, or the configuration itself. -/
def CurveSource {E : Type} (file : String → Except E (String → Option Flame.Linear.LVal))
    (c src : String → Option Flame.Linear.LVal) : Prop :=
  ((∀ f, c "CurveFile" ≠ some (.str f)) ∧ src = c) ∨
  ∃ f, c "CurveFile" = some (.str f) ∧ file (textOr c "Eng_Data_Dir" "." ++ "/" ++ f) = .ok src

/-- The values of the field in pieces of equal length: a single one, with the property `u`, or those of curves. -/
def Field {E : Type} (parse : String → Option ℝ) (file : String → Except E (String → Option Flame.Linear.LVal))
    (c : String → Option Flame.Linear.LVal) (u : ℝ → Prop) (f : List ℝ) : Prop :=
  (Count parse c "ncurve" 0 ∧ ∃ B, u B ∧ f = [B]) ∨
  ∃ n src, n ≠ 0 ∧ Count parse c "ncurve" n ∧ CurveSource file c src ∧ Profile c src n f

/-- The angles of a particle are changed by `a` and `b`. -/
def kicked (a b : ℝ) (v : Fin 7 → ℝ) : Fin 7 → ℝ := ![v 0, v 1 + a * v 6, v 2, v 3 + b * v 6, v 4, v 5, v 6]

end Flame.Moment.Spec
