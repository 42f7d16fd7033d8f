import Verif.Steady.Step
import Verif.Cavity.Time

/-! # C107: small changes of settings and beam -/

namespace Flame.Steady

open Flame.Mach (Cls St Err CView Machine propagate sizeMod Elem Run run propagate_eq)
open Flame.Linear (LVal LCfg getNum getNumD getVec)
open Flame.Moment Flame.Steady.Spec

variable {X : Type} [TopologicalSpace X]

theorem straight_name {t : MType} (h : Straight t.name) : straight t = true := by
  unfold Straight at h
  cases t <;> first | rfl | (revert h; decide)

theorem good_build {env : Env} {junk : Mat} {t : MType} {c : X → LCfg} {d : X → MDat} (hb : ∀ x, build env junk t (c x) = .ok (d x))
    (hs : Regular t.name c) (ht : Tuned c) : Good t d := by
  have hst : straight t = true ∨ t = .sbend ∨ t = .edipole ∨ t = .sextupole := by
    rcases hs.kind with h | h | h | h
    · exact .inl (straight_name h)
    · exact .inr (.inl (by revert h; cases t <;> decide))
    · exact .inr (.inr (.inl (by revert h; cases t <;> decide)))
    · exact .inr (.inr (.inr (by revert h; cases t <;> decide)))
  have hc : ∀ x, (d x).conf = c x := fun x => (build_length (hb x)).2.1
  have h1 := fun k => tuned_numD ht k 0
  have hmode : t = .sbend → ∀ x y, (d x).fitMode = (d y).fitMode := by
    rintro rfl x y
    have hx := hb x
    have hy := hb y
    have hf : getFlag env (c x) "HdipoleFitMode" 1 = getFlag env (c y) "HdipoleFitMode" 1 := by
      unfold getFlag getStr getNum
      rw [hs.mode (.inl rfl) x y]
    simp only [build] at hx hy
    rw [hf] at hx
    cases hn : getFlag env (c y) "HdipoleFitMode" 1 with
    | error e =>
      rw [hn] at hx
      cases hx
    | ok n =>
      rw [hn] at hx hy
      dsimp only at hx hy
      split at hx
      · rename_i h0
        rw [if_pos h0] at hy
        rw [← Except.ok.inj hx, ← Except.ok.inj hy]
      · cases hx
  have e : ∀ x, (d x).length = (if t.name = "marker" ∨ t.name = "bpm" ∨ t.name = "orbtrim" then 0 else getNumD (c x) "L" 0) ∧
      (d x).dx = getNumD (c x) "dx" 0 * MtoMM ∧ (d x).dy = getNumD (c x) "dy" 0 * MtoMM ∧
      (d x).pitch = getNumD (c x) "pitch" 0 ∧ (d x).yaw = getNumD (c x) "yaw" 0 ∧ (d x).roll = getNumD (c x) "roll" 0 := by
    intro x
    have h := hb x
    by_cases hsb : t = .sbend
    · subst hsb
      simp only [build] at h
      split at h
      · cases h
      · split at h
        · rw [← Except.ok.inj h]
          simp [MType.name]
        · cases h
    · have hst' : straight t = true ∨ t = .edipole ∨ t = .sextupole := by
        rcases hst with h | h | h
        · exact .inl h
        · exact absurd h hsb
        · exact .inr h
      cases t <;> simp only [build, Except.ok.injEq] at h <;>
        first | (exact absurd rfl hsb) | (exact absurd hst' (by decide)) | skip
      all_goals
        rw [← h]
        simp [MType.name]
  refine ⟨hst, ⟨?_, ?_, ?_, ?_, ?_, ?_⟩, ?_, ?_, fun x => (build_length (hb x)).2.2.1, ?_, ?_, ?_⟩
  · simp only [(e _).1]
    split
    · exact continuous_const
    · exact h1 "L"
  · simp only [(e _).2.1]
    exact (h1 _).mul continuous_const
  · simp only [(e _).2.2.1]
    exact (h1 _).mul continuous_const
  · simp only [(e _).2.2.2.1]
    exact h1 _
  · simp only [(e _).2.2.2.2.1]
    exact h1 _
  · simp only [(e _).2.2.2.2.2]
    exact h1 _
  · simp only [hc]
    exact ht
  · intro h x
    rw [hc]
    exact hs.radius (by rw [h]; rfl) x
  · intro h
    refine ⟨hmode h, fun x => ?_⟩
    rw [hc]
    exact hs.bent (by rw [h]; rfl) x
  · intro h
    simp only [hc]
    have h' : t.name = "edipole" := by rw [h]; rfl
    exact ⟨hs.mode (.inr h'), hs.ver h', hs.deflecting h'⟩
  · intro h
    simp only [hc]
    exact hs.lens (by rw [h]; rfl)

/-- **C107.** Small changes of the settings and of the beam have small effects.  For every `x` of a topological space there is a lattice,
with the same kinds of elements, and a beam.  Between `start` and `start + n` there are only elements of `Regular`: those of the kinds of
`Straight`, sector magnets that bend and focus or defocus horizontally, electrostatic dipoles, and sextupoles of thin lenses.  Each of
their settings is the same for all `x` or a number that changes continuously with `x`; the beam changes continuously, and consists of moving
charged particles.  If there is no exception for any `x`, then everything the state
reports behind each of these elements changes continuously with `x`: position, particles, centroids, covariances, transfer matrices,
and the averages over the charge states.  In particular a quadrupole or solenoid may be ramped through zero. -/
theorem C107_steady_partial {env : Env} {junk : Mat} {base : Nat} {cavity stripper : Cls LCfg MDat MSt} [Nonempty X] (cv : CView LCfg)
    (c : X → LCfg) (m : X → Machine LCfg MDat MSt)
    (h : ∀ x, Machine.new cv (registry env junk base cavity stripper) (c x) = .ok (m x))
    (es : List (X → LCfg)) (hes : ∀ x, cv.elems (c x) = .ok (es.map (fun e => e x))) (hl : es.length < sizeMod)
    (start n : Nat) (hn : start + n ≤ es.length)
    (hu : ∀ j e, j < n → es[start + j]? = some e → Tuned e ∧ ∃ ty, (∀ x, cv.str (e x) "type" = .ok ty) ∧ Regular ty e)
    (s : X → St MSt) (hb : Beams fun x => (s x).payload) (hg : ∀ x, Going (s x).payload) :
    ∃ R : X → ℕ → Run LCfg MDat MSt, (∀ x, ∀ k ≤ n, propagate (m x).elems (s x) start k = some (R x k)) ∧
      ((∀ x, (R x n).err = none) → ∀ k ≤ n, Beams fun x => (R x k).st.payload) := by
  have hF := fun x => machine_moment (h x) (hes x)
  have hlen : ∀ x, (m x).elems.length = es.length := fun x => by rw [← (hF x).length_eq, List.length_map]
  refine ⟨fun x k => run k (m x).elems { s x with nextElem := start, retreat := false }, fun x k _ => ?_, fun hok => ?_⟩
  · rw [propagate_eq (m x).elems (s x) start k (by omega)]
    have : decide ((k : Int) < 0) = false := by simp
    rw [this, Int.natAbs_natCast]
  refine run_cont (env := env) (junk := junk) (base := base) (Classical.arbitrary X) n (fun x => (m x).elems)
    (fun x => { s x with nextElem := start, retreat := false }) start (fun x => by rw [hlen]; exact hl) (fun x => by rw [hlen]; exact hn)
    (fun _ => rfl) (fun _ => rfl) ?_ hb hg hok
  intro j hj hj2
  have hjl : j < es.length := by omega
  obtain ⟨htun, ty, hty, hst⟩ := hu (j - start) es[j] (by omega) (by
    rw [show start + (j - start) = j by omega]
    exact List.getElem?_eq_getElem hjl)
  have hex : ∀ x, ∃ e, (m x).elems[j]? = some e ∧ ∃ t : MType, e.cls = cls env junk base t ∧ t.name = ty ∧
      build env junk t (es[j] x) = .ok e.dat := by
    intro x
    have hj' : j < (m x).elems.length := by rw [hlen]; exact hjl
    refine ⟨_, List.getElem?_eq_getElem hj', ?_⟩
    obtain ⟨ec, hec, ty', hty', hcase⟩ := Flame.Cavity.forall₂_get (hF x) (List.getElem?_eq_getElem hj')
    rw [List.getElem?_map, List.getElem?_eq_getElem hjl] at hec
    cases hec
    rw [hty x] at hty'
    cases hty'
    rcases hcase with hc | ⟨-, rfl, -⟩ | ⟨-, rfl, -⟩
    · exact hc
    · exact absurd hst.kind (by unfold Straight; decide)
    · exact absurd hst.kind (by unfold Straight; decide)
  choose e he t ht htn hbuild using hex
  have htt : ∀ x, t x = t (Classical.arbitrary X) := by
    intro x
    have : (t x).name = (t (Classical.arbitrary X)).name := (htn x).trans (htn _).symm
    revert this
    generalize t x = a
    generalize t (Classical.arbitrary X) = b
    cases a <;> cases b <;> simp [MType.name]
  simp only [htt] at ht hbuild
  exact ⟨_, e, he, ht, good_build hbuild (by rw [htn]; exact hst) htun⟩

end Flame.Steady
