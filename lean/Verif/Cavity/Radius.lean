import Verif.Cavity.Optics
import Verif.Cavity.Beam
import Verif.Cavity.Cache

/-! # C62: cavities from a data file have an aperture -/

namespace Flame.Cavity

open Flame.Mach (Err St)
open Flame.Linear (LCfg)
open Flame.Moment

theorem initRFCav_radius {c : LCfg} {cav : Cav} {phi : ℝ} {p : Particle} {r : Particle × Mat} (h : initRFCav c cav phi p = .ok r)
    (hc : cav.cavi = 0) : 0 < cav.cRm := by
  unfold initRFCav at h
  rw [hc] at h
  simp only [labelOf, lt_irrefl, if_false] at h
  split at h
  · cases h
  · split at h
    · cases h
    · split at h
      · cases h
      · rename_i hM
        unfold getCavMatGeneric at hM
        dsimp only at hM
        split at hM
        · cases hM
        · by_contra hn
          rw [if_pos (not_lt.1 hn)] at hM
          cases hM

theorem recomputeCav_radius {c : LCfg} {cav : Cav} {ref : Particle} {real : List Particle} {r : Particle × ℝ × List (Particle × Mat)}
    (h : recomputeCav c cav ref real = .ok r) (hne : real ≠ []) (hc : cav.cavi = 0) : 0 < cav.cRm := by
  unfold recomputeCav at h
  split at h
  · cases h
  · split at h
    · cases h
    · rename_i hl
      have hF := forEach_ok.1 hl
      cases hF with
      | nil => exact absurd rfl hne
      | cons hd _ =>
        split at hd
        · cases hd
        · rename_i hi
          exact initRFCav_radius hi hc

/-- C62, aperture: a cavity that is described by a data file (number zero) and has not been used before lets a beam through only if its
aperture radius `Rm` is positive, so that the strengths of its multipoles, which are divided by it, are numbers.  (The code has an
`assert` at /repo/src/rf_cavity.cpp:1315, which the default build of the project leaves out.) -/
theorem C62_aperture (env : Env) (files : Files) {d d' : MDat} {s s' : St MSt} (hd : d.refIn = none) (hr : s.retreat = false)
    (hne : s.payload.real ≠ []) (h : advanceCavity env files d s = (d', s', none)) :
    ∃ cav, d'.cav = some cav ∧ (cav.cavi = 0 → 0 < cav.cRm) := by
  obtain ⟨cav0, hc0, ⟨hh, -⟩ | ⟨-, cav, ref, phi, l, mis, hre, hrec, hmis, -, rfl, rfl⟩⟩ := forward_cases hr h
  · exact absurd hh (miss _ hd)
  · have hne' : s.payload.recalc.real ≠ [] := by simpa [MSt.recalc] using hne
    have key : cav.cavi = 0 → 0 < cav.cRm := recomputeCav_radius hrec hne'
    refine ⟨{ cav with phiRef := some phi, misalign := mis }, ?_, key⟩
    unfold cavForward filledDat
    rfl

/-- The cavity of `exFull_runs` meets the hypotheses. -/
example (env : Env) (junk : Mat) : ∃ d d' s', buildCavity env exFiles junk exFull = .ok d ∧ d.refIn = none ∧
    (exState false).retreat = false ∧ (exState false).payload.real ≠ [] ∧
    advanceCavity env exFiles d (exState false) = (d', s', none) := by
  obtain ⟨d, d', s', hb, h, hr, -, -⟩ := exFull_runs env junk
  exact ⟨d, d', s', hb, (built hb).choose_spec.2.2, hr, by simp [exState], h⟩

end Flame.Cavity
