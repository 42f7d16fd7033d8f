import Verif.Cavity.Spec
import Mathlib.Analysis.Calculus.Deriv.Basic

/-!
# Rays in a cavity (C72)

A particle next to the centre of its charge state is followed through the pieces of a cavity.  Nothing here refers to the model.
-/

namespace Flame.Cavity.Spec

/-- Offsets (mm), angles (rad), phase (rad) and energy (MeV) of a particle relative to the centre of its charge state. -/
structure Ray where
  x : ℝ
  xp : ℝ
  y : ℝ
  yp : ℝ
  ph : ℝ
  dw : ℝ

/-- As a vector of the simulation. -/
def Ray.coords (r : Ray) : Fin 7 → ℝ := ![r.x, r.xp, r.y, r.yp, r.ph, r.dw, 1]

/-- A straight flight, a thin lens, a vertical kick, and angles reduced because the momentum along the axis has grown. -/
def Ray.fly (l : ℝ) (r : Ray) : Ray := { r with x := r.x + l * r.xp, y := r.y + l * r.yp }
def Ray.lens (a b : ℝ) (r : Ray) : Ray := { r with xp := r.xp + a * r.x, yp := r.yp + b * r.y }
def Ray.kick (a : ℝ) (r : Ray) : Ray := { r with yp := r.yp + a }
def Ray.damp (a : ℝ) (r : Ray) : Ray := { r with xp := a * r.xp, yp := a * r.yp }

/-- Speed (of light) at total energy `W`, and the wave number (rad/mm) of a field of wave length `lam` (mm). -/
noncomputable def speed (Es W : ℝ) : ℝ := Real.sqrt (1 - (Es / W) ^ 2)
noncomputable def wave (lam Es W : ℝ) : ℝ := 2 * Real.pi / (speed Es W * lam)

/-- The phase slips by the change of the wave number with energy. -/
def Slips (lam Es W l : ℝ) (r r' : Ray) : Prop :=
  ∃ s, HasDerivAt (wave lam Es) s W ∧ r' = { r with ph := r.ph + s * 1000000 * l * r.dw }

/-- Energy gain (MeV) in a field of amplitude `V` (MV) with the transit time factors `T`, `S`, by phase. -/
noncomputable def gain (Z V T S u : ℝ) : ℝ := Z * V * (T * Real.cos u - S * Real.sin u)

/-- The energy changes by the slope of the gain. -/
noncomputable def Ray.push (Z V T S u : ℝ) (r : Ray) : Ray := { r with dw := r.dw + deriv (gain Z V T S) u * r.ph }

/-- Deflection by an electric and by a magnetic field, at speed `b` and energy `g` times that at rest.  The mass is that of one
atomic mass unit (MeV), whatever the rest energy of the particle. -/
noncomputable def electric (Z V T S u b g : ℝ) : ℝ := gain Z V T S u / (931.49432 * (b ^ 2 * g))
noncomputable def magnetic (Z V T S u b g : ℝ) : ℝ :=
  -deriv (gain Z V T S) u * (4 * Real.pi * 1e-7 * 299792458) / (931.49432 * (b * g))

/-- Charge, rest energy (eV), scale of the fields, aperture (mm), wave length (mm), order of the multipoles taken into account. -/
structure Setting where
  Z : ℝ
  Es : ℝ
  scl : ℝ
  Rm : ℝ
  lam : ℝ
  order : ℕ

/-- A piece of a cavity; the transit time factors depend on the wave number. -/
structure Piece where
  kind : String
  length : ℝ
  volts : ℝ
  T : ℝ → ℝ
  S : ℝ → ℝ

/-! ## one energy after the other: generic cavities -/

/-- A piece takes the centre from energy `W` and phase `u` to `W'`, `u'`, and the particle next to it from `r` to `r'`. -/
noncomputable def Acts (g : Setting) (P : Piece) (W u : ℝ) (r : Ray) (W' u' : ℝ) (r' : Ray) : Prop :=
  let k := wave g.lam g.Es W
  let e := electric g.Z (P.volts * g.scl) (P.T k) (P.S k) u (speed g.Es W) (W / g.Es)
  let h := magnetic g.Z (P.volts * g.scl) (P.T k) (P.S k) u (speed g.Es W) (W / g.Es)
  match P.kind with
  | "drift" => W' = W ∧ u' = u + k * P.length ∧ Slips g.lam g.Es W P.length (r.fly P.length) r'
  | "EFocus" => W' = W ∧ u' = u ∧ r' = r.lens (e / g.Rm) (e / g.Rm)
  | "EDipole" => W' = W ∧ u' = u ∧ r' = if 1 ≤ g.order then r.kick e else r
  | "EQuad" => W' = W ∧ u' = u ∧ r' = if 2 ≤ g.order then r.lens (e / g.Rm) (-(e / g.Rm)) else r
  | "HMono" => W' = W ∧ u' = u ∧ r' = if 2 ≤ g.order then r.lens (h / g.Rm) (h / g.Rm) else r
  | "HDipole" => W' = W ∧ u' = u ∧ r' = if 1 ≤ g.order then r.kick h else r
  | "HQuad" => W' = W ∧ u' = u ∧ r' = if 2 ≤ g.order then r.lens (h / g.Rm) (-(h / g.Rm)) else r
  | "AccGap" =>
    W' = W + 1000000 * gain g.Z (P.volts * g.scl) (P.T k) (P.S k) u ∧ u' = u ∧
      r' = (r.damp (momentum g.Es W / momentum g.Es W')).push g.Z (P.volts * g.scl) (P.T k) (P.S k) u
  | _ => False

/-- One piece after the other. -/
def Passes (g : Setting) : List Piece → ℝ → ℝ → Ray → ℝ → ℝ → Ray → Prop
  | [], W, u, r, W', u', r' => W' = W ∧ u' = u ∧ r' = r
  | P :: l, W, u, r, W', u', r' => ∃ W1 u1 r1, Acts g P W u r W1 u1 r1 ∧ Passes g l W1 u1 r1 W' u' r'

/-! ## two gaps -/

/-- What the transverse motion depends on: speed, energy, wave number, phase and the number of gaps passed. -/
structure Pace where
  b : ℝ
  g : ℝ
  k : ℝ
  u : ℝ
  n : ℕ

/-- The pace at energy `W`. -/
noncomputable def pace (lam Es W u : ℝ) (n : ℕ) : Pace := ⟨speed Es W, W / Es, wave lam Es W, u, n⟩

/-- Transit time factors of a lens: behind the middle of the cavity those of its kind at the wave number `kB`; before the middle,
by reflection, at `kA`, the two halves of the focusing field exchanged, with the sign of one factor changed. -/
noncomputable def reflected (fac : String → ℝ → ℝ × ℝ) (kA kB s : ℝ) (kind : String) : ℝ × ℝ :=
  open Classical in
  if s < 0 then
    match kind with
    | "EFocus1" => ((fac "EFocus2" kA).1, -(fac "EFocus2" kA).2)
    | "EFocus2" => ((fac "EFocus1" kA).1, -(fac "EFocus1" kA).2)
    | "EDipole" => ((fac "EDipole" kA).1, -(fac "EDipole" kA).2)
    | "EQuad" => ((fac "EQuad" kA).1, -(fac "EQuad" kA).2)
    | _ => (-(fac kind kA).1, (fac kind kA).2)
  else fac kind kB

open Classical in
/-- A piece that ends at `s` (from the middle), between the energies `W 0` before the first gap, `W 1` and `W 2` behind the second. -/
noncomputable def ActsT (g : Setting) (W : ℕ → ℝ) (fac : String → ℝ → ℝ × ℝ) (P : Piece) (s : ℝ) (q : Pace) (r : Ray) (q' : Pace)
    (r' : Ray) : Prop :=
  let kA := (wave g.lam g.Es (W 0) + wave g.lam g.Es (W 1)) / 2
  let kB := (wave g.lam g.Es (W 1) + wave g.lam g.Es (W 2)) / 2
  let F := reflected fac kA kB s P.kind
  let e := electric g.Z (P.volts * g.scl) F.1 F.2 q.u q.b q.g
  let h := fun b c => magnetic g.Z (P.volts * g.scl) F.1 F.2 q.u b c
  match P.kind with
  | "drift" => q' = { q with u := q.u + q.k * P.length } ∧ r' = r.fly P.length
  | "EFocus1" => q' = q ∧ r' = r.lens (e / g.Rm) (e / g.Rm)
  | "EFocus2" => q' = q ∧ r' = r.lens (e / g.Rm) (e / g.Rm)
  | "EDipole" => q' = q ∧ r' = if 1 ≤ g.order then r.kick e else r
  | "EQuad" => q' = q ∧ r' = if 2 ≤ g.order then r.lens (e / g.Rm) (-(e / g.Rm)) else r
  | "HMono" => q' = q ∧ r' = if 2 ≤ g.order then r.lens (h q.b q.g / g.Rm) (h q.b q.g / g.Rm) else r
  | "HDipole" => q' = q ∧ r' = if 1 ≤ g.order then r.kick (h q.b q.g) else r
  | "HQuad" =>
    let i := if s < 0 then 0 else 1
    let b := (speed g.Es (W i) + speed g.Es (W (i + 1))) / 2
    let c := (W i / g.Es + W (i + 1) / g.Es) / 2
    q' = (if 2 ≤ g.order then { q with b := b, g := c } else q) ∧
      r' = if 2 ≤ g.order then r.lens (h b c / g.Rm) (-(h b c / g.Rm)) else r
  | "AccGap" =>
    let i := if s < 0 then 0 else 1
    q.n < 2 ∧ q' = pace g.lam g.Es (W (q.n + 1)) q.u (q.n + 1) ∧ r' = r.damp (momentum g.Es (W i) / momentum g.Es (W (i + 1)))
  | _ => False

/-- One piece after the other, from position `s` on. -/
def PassesT (g : Setting) (W : ℕ → ℝ) (fac : String → ℝ → ℝ × ℝ) : List Piece → ℝ → Pace → Ray → Ray → Prop
  | [], _, _, r, r' => r' = r
  | P :: l, s, q, r, r' => ∃ q1 r1, ActsT g W fac P (s + P.length) q r q1 r1 ∧ PassesT g W fac l (s + P.length) q1 r1 r'

/-- A gap: centre (from the entry of its half of the cavity), transit time factors, their slopes, amplitude. -/
structure Gap2 where
  c : ℝ
  T : ℝ
  T' : ℝ
  S : ℝ
  S' : ℝ
  V : ℝ

/-- Half a cavity of length `dis` with one gap: energy and phase behind it. -/
noncomputable def GapModel (g : Setting) (dis : ℝ) (a : Gap2) (W u W' u' : ℝ) : Prop :=
  let k := wave g.lam g.Es W
  let v := u + k * a.c
  W' = W + 1000000 * gain g.Z a.V a.T a.S v ∧
  u' = v + wave g.lam g.Es W' * (dis - a.c) +
    g.Z * a.V * k * (a.T' * Real.sin v + a.S' * Real.cos v) / (2 * ((W - g.Es) / 1000000))

/-- Phase and energy of a particle in a cavity with two gaps: flight to the first gap, push, flight to the second gap, push,
flight to the end.  The phases at the gaps are those of a flight at the mean of the wave numbers before and behind the gap. -/
noncomputable def PassesL (g : Setting) (dis : ℝ) (a1 a2 : Gap2) (W : ℕ → ℝ) (u0 u1 : ℝ) (r r' : Ray) : Prop :=
  let k := fun i => wave g.lam g.Es (W i)
  ∃ r1 r2, Slips g.lam g.Es (W 0) a1.c r r1 ∧
    Slips g.lam g.Es (W 1) (a2.c + dis - a1.c) (r1.push g.Z a1.V a1.T a1.S (u0 + (k 0 + k 1) / 2 * a1.c)) r2 ∧
    Slips g.lam g.Es (W 2) (dis - a2.c) (r2.push g.Z a2.V a2.T a2.S (u1 + (k 1 + k 2) / 2 * a2.c)) r'

/-- Phases count with the frequency of the cavity inside and with the frequency of the beam outside; `m` is the ratio. -/
noncomputable def Ray.inside (m : ℝ) (r : Ray) : Ray := { r with ph := r.ph * m }

end Flame.Cavity.Spec
