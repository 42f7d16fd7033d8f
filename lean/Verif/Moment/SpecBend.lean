import Verif.Moment.SpecMotion
import Mathlib.Analysis.SpecialFunctions.Log.Basic
import Mathlib.Analysis.SpecialFunctions.Trigonometric.Basic

/-!
# Equations of motion in bends

Used in the statements of C74 and C75.  Nothing here mentions the model.  Units are those of `SpecMotion`; `h` is the
curvature of the design orbit per mm, `k` the advance of the phase per mm on it.
-/

namespace Flame.Moment.Spec

/-- The relative change of the momentum of a particle per MeV of energy is `t`. -/
def Stiff (Es Ek t : ℝ) : Prop := HasDerivAt (fun W => Real.log (Real.sqrt (W ^ 2 - Es ^ 2))) (t / 1000000) (Es + Ek)

/-- The kinetic energy `Ed` of the design particle of a magnet: that of the reference particle, or in fit mode 0 the one whose
momentum is parameter `bg` times that at rest energy. -/
def Design (mode : ℕ) (c : String → Option Flame.Linear.LVal) (Es Ek Ed : ℝ) : Prop :=
  (mode ≠ 0 ∧ Ed = Ek) ∨
  mode = 0 ∧ ∃ bg, c "bg" = some (.num bg) ∧ 0 < Ed ∧ (Es + Ed) ^ 2 - Es ^ 2 = (bg * Es) ^ 2

/-- `v` goes to `v'` over the length `L` of a magnet of curvature `h` and field index `K`, by the linear equations of motion in
a bend: the orbit of a particle with relative charge `q` more than the design particle and energy `D` above it is bent the
more the larger the charge and the smaller the momentum; the phase lags with the length of the orbit and with the velocity. -/
def Bent (h K k s t q D L : ℝ) (v v' : Fin 7 → ℝ) : Prop :=
  ∃ u : ℝ → Fin 7 → ℝ, u 0 = v ∧ u L = v' ∧ ∀ z,
    HasDerivAt (fun z => u z 0) (u z 1) z ∧
    HasDerivAt (fun z => u z 1) (-(K + h ^ 2) * u z 0 + h * (t * (u z 5 + D * u z 6) - q * u z 6)) z ∧
    HasDerivAt (fun z => u z 2) (u z 3) z ∧
    HasDerivAt (fun z => u z 3) (K * u z 2) z ∧
    HasDerivAt (fun z => u z 4) (k * (h * u z 0) + s * (u z 5 + D * u z 6)) z ∧
    HasDerivAt (fun z => u z 5) 0 z ∧
    HasDerivAt (fun z => u z 6) 0 z

/-- An edge of a magnet of curvature `h` that is inclined by `e`. -/
noncomputable def inclined (h e : ℝ) (v : Fin 7 → ℝ) : Fin 7 → ℝ :=
  ![v 0, v 1 + h * Real.tan e * v 0, v 2, v 3 - h * Real.tan e * v 2, v 4, v 5, v 6]

/-- `T` is a magnet of length `L`, curvature `h`, field index `K` and edges inclined by `e1`, `e2`, in its frame.  The reference
particle has rest energy `Es` and kinetic energy `Ek`, the design particle `Ed`; `f` is the frequency.  The slip is that of the
design particle if and only if the energies agree. -/
def Magnet (f Es Ek Ed h K e1 e2 q L dx dy roll : ℝ) (T : Matrix (Fin 7) (Fin 7) ℝ) : Prop :=
  ∃ t s, Stiff Es Ed t ∧ (Slip f Es Ed s ↔ Ed = Ek) ∧ s * ((Es + Ek) / Es) ^ 2 = -(phaseAdvance f Es (Es + Ed) 1 * t) ∧
    ∀ v, ∃ v', Bent h K (phaseAdvance f Es (Es + Ed) 1) s t q ((Ek - Ed) / 1000000) L (inclined h e1 (inFrame dx dy roll v)) v' ∧
      inFrame dx dy roll (T.mulVec v) = inclined h e2 v'

/-- Momentum times velocity changes by `e` per energy, and is `p` in MeV. -/
def Pull (Es Ek e p : ℝ) : Prop :=
  HasDerivAt (fun W => (W ^ 2 - Es ^ 2) / W) e (Es + Ek) ∧ p = ((Es + Ek) ^ 2 - Es ^ 2) / (Es + Ek) / 1000000

/-- The same for electrodes with curvature `h` along the orbit and focusing by `kx`, `ky`: `e` is the change of momentum times
velocity with energy, `p` momentum times velocity.  A particle outside of the orbit is behind for two reasons: it flies
further, and more slowly because of its potential. -/
def Deflected (h kx ky k s e p L : ℝ) (v v' : Fin 7 → ℝ) : Prop :=
  ∃ u : ℝ → Fin 7 → ℝ, u 0 = v ∧ u L = v' ∧ ∀ z,
    HasDerivAt (fun z => u z 0) (u z 1) z ∧
    HasDerivAt (fun z => u z 1) (-kx * u z 0 + h * (e / p * u z 5)) z ∧
    HasDerivAt (fun z => u z 2) (u z 3) z ∧
    HasDerivAt (fun z => u z 3) (-ky * u z 2) z ∧
    HasDerivAt (fun z => u z 4) (k * (h * e * u z 0) + s * u z 5) z ∧
    HasDerivAt (fun z => u z 5) 0 z ∧
    HasDerivAt (fun z => u z 6) 0 z

/-- The fringe field of electrodes. -/
noncomputable def fringe (fx fy a : ℝ) (v : Fin 7 → ℝ) : Fin 7 → ℝ :=
  ![v 0, fx * v 0 + Real.sqrt (1 + a) * v 1, v 2, v 3 + fy * v 2, v 4, (1 + a) * v 5, v 6]

/-- Coordinates in the frame of electrodes that bend in the vertical plane. -/
noncomputable def upright (ver : Bool) (v : Fin 7 → ℝ) : Fin 7 → ℝ := if ver then inFrame 0 0 (Real.pi / 2) v else v

/-- `T` is a pair of electrodes of length `L` and curvature `h` for particles with rest energy `Es` and kinetic energy `Ek`, with
focusing by `kx`, `ky`.  The effect on the phase is `r` times that of the equations of motion. -/
def Electrodes (f Es Ek h kx ky r fx fy a L dx dy roll : ℝ) (ver : Bool) (T : Matrix (Fin 7) (Fin 7) ℝ) : Prop :=
  ∃ e p s, Pull Es Ek e p ∧ Slip f Es Ek s ∧ ∀ v, ∃ v',
    Deflected h kx ky (r * phaseAdvance f Es (Es + Ek) 1) (r * s) e p L (fringe fx fy a (upright ver (inFrame dx dy roll v))) v' ∧
      upright ver (inFrame dx dy roll (T.mulVec v)) = fringe fx fy a v'

/-- The velocity for which a dipole is built: that of the reference particle, or parameter `beta` if the fit mode is 0. -/
def DesignSpeed (parse : String → Option ℝ) (c : String → Option Flame.Linear.LVal) (b0 b : ℝ) : Prop :=
  ∃ mode : ℝ, (match c "HdipoleFitMode" with
      | some (.num x) => mode = x
      | some (.str t) => mode = (parse t).getD 1
      | _ => mode = 1) ∧
    (mode = 1 ∧ b = b0 ∨ mode = 0 ∧ b = numOr c "beta" b0)

/-- Motion between electrodes across the orbit, for a charge state with energy `D` above the reference particle: the energy is
counted from that of the charge state, and `c` is the fraction by which its momentum times velocity per charge exceeds that of
the design particle. -/
def Apart (h kx ky e p D c L : ℝ) (v v' : Fin 7 → ℝ) : Prop :=
  ∃ u : ℝ → Fin 7 → ℝ, u 0 = v ∧ u L = v' ∧ ∀ z,
    HasDerivAt (fun z => u z 0) (u z 1) z ∧
    HasDerivAt (fun z => u z 1) (-kx * u z 0 + h * (e / p * (u z 5 - D * u z 6) + c * u z 6)) z ∧
    HasDerivAt (fun z => u z 2) (u z 3) z ∧
    HasDerivAt (fun z => u z 3) (-ky * u z 2) z ∧
    HasDerivAt (fun z => u z 5) 0 z ∧
    HasDerivAt (fun z => u z 6) 0 z

/-- `T` is a pair of electrodes for a charge state with kinetic energy `Ek` and charge `Z`, where the reference particle has `E0`
and `Z0` and the electrodes are built for the energy `Ed`.  The curvature is `h`, the length `L`.  The excess `c` is the mean of
that of the squared velocity per charge and that of the inverse charge, with the weight `e Ed / p` of a change of energy.  The
phase is the one of the equations of motion times `r` if the particle moves like one without the seventh coordinate. -/
def OtherState (f Es Ek E0 Ed Z Z0 h kx ky r fx fy a L dx dy roll : ℝ) (ver : Bool) (T : Matrix (Fin 7) (Fin 7) ℝ) : Prop :=
  ∃ e p s, Pull Es Ed e p ∧ Slip f Es Ed s ∧ ∀ v, ∃ v' v'',
    Apart h kx ky e (p * Ek / Ed) ((Ek - E0) / 1000000)
      (e * (Ed / 1000000) / p * (speed Es (Es + Ek) ^ 2 / Z / (speed Es (Es + Ed) ^ 2 / Z0) - 1) +
        (1 - e * (Ed / 1000000) / p) * (Z0 / Z - 1)) L (fringe fx fy a (upright ver (inFrame dx dy roll v))) v' ∧
    Deflected h kx ky (r * phaseAdvance f Es (Es + Ek) 1)
      (r * (s * (phaseAdvance f Es (Es + Ek) 1 / phaseAdvance f Es (Es + Ed) 1) * (Ed / Ek))) e (p * Ek / Ed) L
      (Function.update (fringe fx fy a (upright ver (inFrame dx dy roll v))) 6 0) v'' ∧ v' 4 = v'' 4 ∧
    upright ver (inFrame dx dy roll (T.mulVec v)) = fringe fx fy a v'

end Flame.Moment.Spec
