import Verif.Steady.Sector
import Verif.Moment.Walk
import Verif.Moment.Undo

/-! # One element, for settings and a beam that change continuously -/

namespace Flame.Steady

open Flame.Mach (Err St Elem run stepNext sizeMod run_succ_err run_succ_ok)
open Flame.Linear (LVal LCfg getNum getNumD getVec)
open Flame.Moment Flame.Steady.Spec

variable {X : Type} [TopologicalSpace X]

/-! ## lists -/

theorem zipWith_cont {α β γ : Type} [TopologicalSpace α] [TopologicalSpace β] [TopologicalSpace γ] {f : α → β → γ}
    (hf : ∀ (a : X → α) (b : X → β), Continuous a → Continuous b → Continuous fun x => f (a x) (b x))
    {l : X → List α} {r : X → List β} (hl : Each Continuous l) (hr : Each Continuous r) :
    Each Continuous fun x => List.zipWith f (l x) (r x) := by
  obtain ⟨fs, h1, h2⟩ := hl
  obtain ⟨gs, h3, h4⟩ := hr
  refine ⟨List.zipWith (fun a b x => f (a x) (b x)) fs gs, ?_, fun x => ?_⟩
  · clear h2 h4
    induction fs generalizing gs with
    | nil => simp
    | cons a fs ih =>
      cases gs with
      | nil => simp
      | cons b gs =>
        intro q hq
        rw [List.zipWith_cons_cons] at hq
        rcases List.mem_cons.1 hq with rfl | hq
        · exact hf a b (h1 a List.mem_cons_self) (h3 b List.mem_cons_self)
        · exact ih (fun f h => h1 f (List.mem_cons_of_mem _ h)) gs (fun f h => h3 f (List.mem_cons_of_mem _ h)) q hq
  · dsimp only
    rw [h2, h4, List.map_zipWith, List.zipWith_map]

theorem sum_cont {l : X → List ℝ} (hl : Each Continuous l) : Continuous fun x => (l x).sum := by
  obtain ⟨fs, h1, h2⟩ := hl
  have e : (fun x => (l x).sum) = fun x => (fs.map (fun f => f x)).sum := funext fun x => by rw [h2]
  rw [e]
  clear h2 e
  induction fs with
  | nil => exact continuous_const
  | cons a fs ih =>
    simp only [List.map_cons, List.sum_cons]
    exact (h1 a List.mem_cons_self).add (ih (fun f h => h1 f (List.mem_cons_of_mem _ h)))

theorem map_each {α β : Type} {P : (X → α) → Prop} {Q : (X → β) → Prop} {f : X → α → β}
    (hf : ∀ a, P a → Q fun x => f x (a x)) {l : X → List α} (hl : Each P l) : Each Q fun x => (l x).map (f x) := by
  obtain ⟨fs, h1, h2⟩ := hl
  refine ⟨fs.map (fun a x => f x (a x)), ?_, fun x => ?_⟩
  · intro q hq
    obtain ⟨a, ha, rfl⟩ := List.mem_map.1 hq
    exact hf a (h1 a ha)
  · dsimp only
    rw [h2, List.map_map, List.map_map]
    rfl

/-! ## the sums over charge states -/

theorem totQ_cont {real : X → List Particle} (h : Each Particles real) : Continuous fun x => totQ (real x) := by
  unfold totQ
  exact sum_cont (map_each (f := fun _ p => p.IonQ) (fun a ha => ha.IonQ) h)

theorem env0_cont {real : X → List Particle} {m0 : X → List Vec} (h : Each Particles real) (h0 : Each Continuous m0)
    (hQ : ∀ x, totQ (real x) ≠ 0) : Continuous fun x => env0 (real x) (m0 x) := by
  refine continuous_pi fun j => ?_
  unfold env0
  refine (sum_cont ?_).div (totQ_cont h) hQ
  have hq : Each Continuous fun x => (real x).map (·.IonQ) := map_each (f := fun _ p => p.IonQ) (fun a ha => ha.IonQ) h
  have e : (fun x => List.zipWith (fun p (v : Vec) => v j * p.IonQ) (real x) (m0 x)) =
      fun x => List.zipWith (fun q (v : Vec) => v j * q) ((real x).map (·.IonQ)) (m0 x) := by
    funext x
    rw [List.zipWith_map_left]
  rw [e]
  exact zipWith_cont (fun a b ha hb => ((continuous_apply j).comp hb).mul ha) hq h0

theorem env1_cont {real : X → List Particle} {m0 : X → List Vec} {m1 : X → List Mat} (h : Each Particles real)
    (h0 : Each Continuous m0) (h1 : Each Continuous m1) (hQ : ∀ x, totQ (real x) ≠ 0) :
    Continuous fun x => env1 (real x) (m0 x) (m1 x) := by
  refine continuous_pi fun i => continuous_pi fun j => ?_
  unfold env1
  by_cases hij : i < 6 ∧ j < 6
  · simp only [hij, and_self, if_true]
    refine (sum_cont ?_).div (totQ_cont h) hQ
    have hq : Each Continuous fun x => (real x).map (·.IonQ) := map_each (f := fun _ p => p.IonQ) (fun a ha => ha.IonQ) h
    have hE := env0_cont h h0 hQ
    have hz : Each Continuous fun x => (List.zip (m0 x) (m1 x)).map (fun q : Vec × Mat =>
        q.2 i j + (q.1 i - env0 (real x) (m0 x) i) * (q.1 j - env0 (real x) (m0 x) j)) := by
      refine map_each (P := Continuous) (f := fun x (q : Vec × Mat) =>
        q.2 i j + (q.1 i - env0 (real x) (m0 x) i) * (q.1 j - env0 (real x) (m0 x) j)) (fun a ha => ?_)
        (zipWith_cont (f := Prod.mk) (fun a b ha hb => ha.prodMk hb) h0 h1)
      have a1 : ∀ k, Continuous fun x => (a x).1 k := fun k => (continuous_apply k).comp (continuous_fst.comp ha)
      have a2 : Continuous fun x => (a x).2 i j := (continuous_snd.comp ha).matrix_elem i j
      have a3 : ∀ k, Continuous fun x => env0 (real x) (m0 x) k := fun k => (continuous_apply k).comp hE
      exact a2.add (((a1 i).sub (a3 i)).mul ((a1 j).sub (a3 j)))
    have e : (fun x => List.zipWith (fun p (q : Vec × Mat) =>
        p.IonQ * (q.2 i j + (q.1 i - env0 (real x) (m0 x) i) * (q.1 j - env0 (real x) (m0 x) j))) (real x) (List.zip (m0 x) (m1 x))) =
        fun x => List.zipWith (fun a b : ℝ => a * b) ((real x).map (·.IonQ)) ((List.zip (m0 x) (m1 x)).map (fun q : Vec × Mat =>
          q.2 i j + (q.1 i - env0 (real x) (m0 x) i) * (q.1 j - env0 (real x) (m0 x) j))) := by
      funext x
      rw [List.zipWith_map]
    rw [e]
    exact zipWith_cont (fun a b ha hb => ha.mul hb) hq hz
  · simp only [hij, if_false]
    exact continuous_const

theorem calcRms_cont {S : X → MSt} (hp : Continuous fun x => (S x).pos) (hr : Particles fun x => (S x).ref)
    (h : Each Particles fun x => (S x).real) (h0 : Each Continuous fun x => (S x).moment0) (h1 : Each Continuous fun x => (S x).moment1)
    (ht : Each Continuous fun x => (S x).transmat) (hQ : ∀ x, totQ (S x).real ≠ 0) : Beams fun x => (S x).calcRms := by
  have hE := env1_cont h h0 h1 hQ
  exact ⟨hp, hr, h, h0, h1, ht, env0_cont h h0 hQ,
    continuous_pi fun j => Real.continuous_sqrt.comp (hE.matrix_elem j j), hE⟩

/-! ## one element -/

/-- An element as built, whose settings change continuously. -/
structure Good (t : MType) (d : X → MDat) : Prop where
  kind : straight t = true ∨ t = .sbend ∨ t = .edipole ∨ t = .sextupole
  placing : Placing d
  tuned : Tuned fun x => (d x).conf
  radius : t = .equad → ∀ x, (d x).conf "radius" ≠ some (.num 0)
  fresh : ∀ x, (d x).refIn = none
  bend : t = .sbend → (∀ x y, (d x).fitMode = (d y).fitMode) ∧ ∀ x, Bent (d x).conf
  field : t = .edipole → (∀ x y, (d x).conf "HdipoleFitMode" = (d y).conf "HdipoleFitMode") ∧
    (∀ x y, (d x).conf "ver" = (d y).conf "ver") ∧ ∀ x, Deflecting (d x).conf
  lens : t = .sextupole → (∀ x, (d x).conf "thinlens" = some (.num 1)) ∧ (∀ x y, (d x).conf "step" = (d y).conf "step") ∧
    ∀ x y, (d x).conf "dstkick" = (d y).conf "dstkick"

theorem matrices_cont {env : Env} {t : MType} {d d1 : X → MDat} (h : Good t d) (hns : t ≠ .sextupole) (h1 : Placing d1) (h2 : ∀ x, (d1 x).conf = (d x).conf)
    (h3 : ∀ x, (d1 x).fitMode = (d x).fitMode) {ref : X → Particle}
    (hr : Particles ref) (hrl : ∀ x, Live (ref x)) {fs : List (X → Particle)} (hfs : ∀ f ∈ fs, Particles f ∧ ∀ x, Live (f x)) (x0 : X)
    (hok : ∀ x, ∃ T, recompute env t (d1 x) (ref x) (fs.map (fun f => f x)) = .ok T) :
    ∃ Ms : List (X → Mat), (∀ M ∈ Ms, Continuous M) ∧
      ∀ x, recompute env t (d1 x) (ref x) (fs.map (fun f => f x)) = .ok (Ms.map (fun M => M x)) := by
  have ht : Tuned fun x => (d1 x).conf := by simpa only [h2] using h.tuned
  rcases h.kind with hk | rfl | rfl | rfl
  · exact recompute_cont hk h1 ht (by simpa only [h2] using h.radius) hr hrl hfs x0 hok
  · exact sbend_cont h1 ht (by simpa only [h3] using (h.bend rfl).1) (by simpa only [h2] using (h.bend rfl).2) hr hrl hfs x0 hok
  · obtain ⟨a, b, c⟩ := h.field rfl
    exact edipole_cont h1 ht (by simpa only [h2] using a) (by simpa only [h2] using b) (by simpa only [h2] using c) hr hrl hfs x0 hok
  · exact absurd rfl hns

theorem step_base {env : Env} {t : MType} {d : X → MDat} (hd : Good t d) (hnb : t ≠ .sbend) (hns : t ≠ .sextupole) {s : X → St MSt} (hs : ∀ x, (s x).retreat = false)
    (hb : Beams fun x => (s x).payload) (hg : ∀ x, Going (s x).payload) (x0 : X)
    (hok : ∀ x, (advance env t (d x) (s x)).2.2 = none) :
    (Beams fun x => (advance env t (d x) (s x)).2.1.payload) ∧ ∀ x, Going (advance env t (d x) (s x)).2.1.payload := by
  have hadv : ∀ x, advance env t (d x) (s x) = advanceBase (recompute env t) (d x) (s x) := by
    intro x
    rcases hd.kind with this | this | this | this
    · cases t <;> first | rfl | cases this
    · exact absurd this hnb
    · subst this
      rfl
    · exact absurd this hns
  obtain ⟨fs, hf1, hf2⟩ := hb.real
  dsimp only at hf2
  have hmv : ∀ f ∈ fs, ∀ x, Moves (f x) := fun f hf x => (hg x).real _ (by rw [hf2]; exact List.mem_map.2 ⟨f, hf, rfl⟩)
  let d1 : X → MDat := fun x => { d x with refIn := some (s x).payload.recalc.ref, realIn := (s x).payload.recalc.real, transfer := resize (s x).payload.recalc.real.length (d x).transfer }
  have hrr : ∀ x, (s x).payload.recalc.real = (fs.map (fun f x => (f x).recalc)).map (fun f => f x) := by
    intro x
    show (s x).payload.real.map Particle.recalc = _
    rw [hf2, List.map_map, List.map_map]
    rfl
  have hnh : ∀ x, ¬ hit (d x) (s x).payload.recalc := by
    rintro x ⟨-, ⟨r, hr, -⟩, -⟩
    rw [hd.fresh x] at hr
    cases hr
  have key : ∀ x, ∃ T, recompute env t (d1 x) (s x).payload.recalc.ref ((fs.map (fun f x => (f x).recalc)).map (fun f => f x)) = .ok T := by
    intro x
    have h := hok x
    rw [hadv x, advanceBase] at h
    simp only [particles, hnh x, decide_false, Bool.false_eq_true, if_false] at h
    rw [← hrr x]
    cases hT : recompute env t (d1 x) (s x).payload.recalc.ref (s x).payload.recalc.real with
    | ok T => exact ⟨T, rfl⟩
    | error e =>
      rw [show recompute env t { d x with refIn := some (s x).payload.recalc.ref, realIn := (s x).payload.recalc.real, transfer := resize (s x).payload.recalc.real.length (d x).transfer } (s x).payload.recalc.ref (s x).payload.recalc.real = .error e from hT] at h
      cases h
  have hrec : ∀ f ∈ fs.map (fun f x => (f x).recalc), Particles f ∧ ∀ x, Live (f x) := by
    intro q hq
    obtain ⟨f, hf, rfl⟩ := List.mem_map.1 hq
    exact ⟨Particles.recalc (hf1 f hf) (hmv f hf), fun x => live_recalc (hmv f hf x)⟩
  have hp1 : Placing d1 := ⟨hd.placing.length, hd.placing.dx, hd.placing.dy, hd.placing.pitch, hd.placing.yaw, hd.placing.roll⟩
  obtain ⟨Ms, hM1, hM2⟩ := matrices_cont hd hns hp1 (fun _ => rfl) (fun _ => rfl) (Particles.recalc hb.ref (fun x => (hg x).ref))
    (fun x => live_recalc (hg x).ref) hrec x0 key
  let S' : X → MSt := fun x => forward (Ms.map (fun M => M x)) { (s x).payload.recalc with
    ref := (s x).payload.ref.recalc.recalc.drifted false (d x).length
    real := (s x).payload.real.map (fun p => p.recalc.recalc.drifted false (d x).length)
    pos := (s x).payload.pos + sign false * (d x).length }
  have hres : ∀ x, (advance env t (d x) (s x)).2.1.payload = (S' x).calcRms := by
    intro x
    rw [hadv x, advanceBase]
    simp only [particles, hnh x, decide_false, Bool.false_eq_true, if_false, hs x]
    have := hM2 x
    rw [← hrr x] at this
    rw [show recompute env t { d x with refIn := some (s x).payload.recalc.ref, realIn := (s x).payload.recalc.real, transfer := resize (s x).payload.recalc.real.length (d x).transfer } (s x).payload.recalc.ref (s x).payload.recalc.real = .ok (Ms.map (fun M => M x)) from this]
    dsimp only
    rw [show (s x).payload.recalc.real.map (fun p => p.recalc.drifted false (d x).length) =
      (s x).payload.real.map (fun p => p.recalc.recalc.drifted false (d x).length) by
        show ((s x).payload.real.map Particle.recalc).map _ = _
        rw [List.map_map]
        rfl]
    rfl
  have hQ : ∀ x, totQ (S' x).real ≠ 0 := by
    intro x
    have := (hg x).current
    show totQ ((s x).payload.real.map (fun p => p.recalc.recalc.drifted false (d x).length)) ≠ 0
    unfold totQ
    rw [List.map_map]
    exact this
  have hT : Each Continuous fun x => Ms.map (fun M => M x) := ⟨Ms, hM1, fun _ => rfl⟩
  simp only [hres]
  refine ⟨calcRms_cont ?_ ?_ ?_ ?_ ?_ hT hQ, fun x => ⟨⟨?_, ?_, ?_, ?_⟩, ?_, hQ x⟩⟩
  · exact hb.pos.add (continuous_const.mul hd.placing.length)
  · have h1 := Particles.recalc hb.ref (fun x => (hg x).ref)
    exact Particles.drifted (Particles.recalc h1 (fun x => (live_recalc (hg x).ref).moves)) false hd.placing.length
  · refine ⟨fs.map (fun f x => (f x).recalc.recalc.drifted false (d x).length), ?_, fun x => ?_⟩
    · intro q hq
      obtain ⟨f, hf, rfl⟩ := List.mem_map.1 hq
      have h1 := Particles.recalc (hf1 f hf) (hmv f hf)
      exact Particles.drifted (Particles.recalc h1 (fun x => (live_recalc (hmv f hf x)).moves)) false hd.placing.length
    · show (s x).payload.real.map _ = _
      rw [hf2, List.map_map, List.map_map]
      rfl
  · exact zipWith_cont (fun a b ha hb => ha.matrix_mulVec hb) hT hb.moment0
  · exact zipWith_cont (fun a b ha hb => (ha.matrix_mul hb).matrix_mul ha.matrix_transpose) hT hb.moment1
  · exact (hg x).ref.mass
  · exact (hg x).ref.energy
  · exact (hg x).ref.charge
  · exact (hg x).ref.freq
  · intro p hp
    obtain ⟨q, hq, rfl⟩ := List.mem_map.1 hp
    have := (hg x).real q hq
    exact ⟨this.mass, this.energy, this.charge, this.freq⟩

theorem bendPhis_cont {r : Bool} {L : X → ℝ} (hL : Continuous L) : ∀ (fs : List (X → Particle)) (vs ws : List (X → Vec)),
    (∀ f ∈ fs, Particles f) → (∀ v ∈ vs, Continuous v) → (∀ w ∈ ws, Continuous w) →
    Each Particles fun x => bendPhis r (L x) (fs.map (fun f => f x)) (vs.map (fun v => v x)) (ws.map (fun w => w x)) := by
  intro fs
  induction fs with
  | nil => intro vs ws _ _ _; exact ⟨[], by simp, fun x => by simp [bendPhis]⟩
  | cons f fs ih =>
    intro vs ws h1 h2 h3
    cases vs with
    | nil => exact ⟨f :: fs, h1, fun x => by simp [bendPhis]⟩
    | cons v vs =>
      cases ws with
      | nil => exact ⟨f :: fs, h1, fun x => by simp [bendPhis]⟩
      | cons w ws =>
        obtain ⟨gs, g1, g2⟩ := ih vs ws (fun f h => h1 f (List.mem_cons_of_mem _ h)) (fun f h => h2 f (List.mem_cons_of_mem _ h))
          (fun f h => h3 f (List.mem_cons_of_mem _ h))
        refine ⟨(fun x => { f x with phis := (f x).phis + (sign r * ((f x).SampleIonK * L x * MtoMM) + (w x 4 - v x 4)) }) :: gs, ?_, fun x => ?_⟩
        · intro q hq
          rcases List.mem_cons.1 hq with rfl | hq
          · have hf := h1 f List.mem_cons_self
            have hv := (continuous_apply (4 : Fin 7)).comp (h2 v List.mem_cons_self)
            have hw := (continuous_apply (4 : Fin 7)).comp (h3 w List.mem_cons_self)
            exact { hf with phis := hf.phis.add ((continuous_const.mul ((hf.SampleIonK.mul hL).mul continuous_const)).add (hw.sub hv)) }
          · exact g1 q hq
        · have := g2 x
          dsimp only at this
          simp only [List.map_cons, bendPhis, this]

theorem bendPhis_charge {r : Bool} (L : ℝ) (ps : List Particle) (vs ws : List Vec) :
    (bendPhis r L ps vs ws).map (·.IonQ) = ps.map (·.IonQ) := by
  have := bendPhis_ph r L ps vs ws
  generalize bendPhis r L ps vs ws = qs at this ⊢
  induction this with
  | nil => rfl
  | cons h _ ih =>
    obtain ⟨x, rfl⟩ := h
    simp only [List.map_cons, ih]

theorem bendPhis_moves {r : Bool} (L : ℝ) (ps : List Particle) (vs ws : List Vec) (h : ∀ p ∈ ps, Moves p) :
    ∀ p ∈ bendPhis r L ps vs ws, Moves p := by
  have := bendPhis_ph r L ps vs ws
  generalize bendPhis r L ps vs ws = qs at this ⊢
  induction this with
  | nil => simp
  | @cons a b l m h1 _ ih =>
    obtain ⟨x, rfl⟩ := h1
    intro p hp
    rcases List.mem_cons.1 hp with rfl | hp
    · have := h a List.mem_cons_self
      exact ⟨this.mass, this.energy, this.charge, this.freq⟩
    · exact ih (fun p hp => h p (List.mem_cons_of_mem _ hp)) p hp

theorem step_bend {env : Env} {d : X → MDat} (hd : Good .sbend d) {s : X → St MSt} (hs : ∀ x, (s x).retreat = false)
    (hb : Beams fun x => (s x).payload) (hg : ∀ x, Going (s x).payload) (x0 : X)
    (hok : ∀ x, (advance env .sbend (d x) (s x)).2.2 = none) :
    (Beams fun x => (advance env .sbend (d x) (s x)).2.1.payload) ∧ ∀ x, Going (advance env .sbend (d x) (s x)).2.1.payload := by
  have hadv : ∀ x, advance env .sbend (d x) (s x) = advanceBend (recompute env .sbend) (d x) (s x) := fun _ => rfl
  obtain ⟨fs, hf1, hf2⟩ := hb.real
  dsimp only at hf2
  have hmv : ∀ f ∈ fs, ∀ x, Moves (f x) := fun f hf x => (hg x).real _ (by rw [hf2]; exact List.mem_map.2 ⟨f, hf, rfl⟩)
  let d1 : X → MDat := fun x => { d x with refIn := some (s x).payload.recalc.ref, realIn := (s x).payload.recalc.real, transfer := resize (s x).payload.recalc.real.length (d x).transfer }
  have hrr : ∀ x, (s x).payload.recalc.real = (fs.map (fun f x => (f x).recalc)).map (fun f => f x) := by
    intro x
    show (s x).payload.real.map Particle.recalc = _
    rw [hf2, List.map_map, List.map_map]
    rfl
  have hnh : ∀ x, ¬ hit (d x) (s x).payload.recalc := by
    rintro x ⟨-, ⟨r, hr, -⟩, -⟩
    rw [hd.fresh x] at hr
    cases hr
  have key : ∀ x, ∃ T, recompute env .sbend (d1 x) (s x).payload.recalc.ref ((fs.map (fun f x => (f x).recalc)).map (fun f => f x)) = .ok T := by
    intro x
    have h := hok x
    rw [hadv x, advanceBend] at h
    simp only [particles, hnh x, decide_false, Bool.false_eq_true, if_false] at h
    rw [← hrr x]
    cases hT : recompute env .sbend (d1 x) (s x).payload.recalc.ref (s x).payload.recalc.real with
    | ok T => exact ⟨T, rfl⟩
    | error e =>
      rw [show recompute env .sbend { d x with refIn := some (s x).payload.recalc.ref, realIn := (s x).payload.recalc.real, transfer := resize (s x).payload.recalc.real.length (d x).transfer } (s x).payload.recalc.ref (s x).payload.recalc.real = .error e from hT] at h
      cases h
  have hrec : ∀ f ∈ fs.map (fun f x => (f x).recalc), Particles f ∧ ∀ x, Live (f x) := by
    intro q hq
    obtain ⟨f, hf, rfl⟩ := List.mem_map.1 hq
    exact ⟨Particles.recalc (hf1 f hf) (hmv f hf), fun x => live_recalc (hmv f hf x)⟩
  have hp1 : Placing d1 := ⟨hd.placing.length, hd.placing.dx, hd.placing.dy, hd.placing.pitch, hd.placing.yaw, hd.placing.roll⟩
  obtain ⟨Ms, hM1, hM2⟩ := matrices_cont hd (by decide) hp1 (fun _ => rfl) (fun _ => rfl) (Particles.recalc hb.ref (fun x => (hg x).ref))
    (fun x => live_recalc (hg x).ref) hrec x0 key
  have hT : Each Continuous fun x => Ms.map (fun M => M x) := ⟨Ms, hM1, fun _ => rfl⟩
  have hv0 : Each Continuous fun x => List.zipWith (fun M v => M.mulVec v) (Ms.map (fun M => M x)) (s x).payload.moment0 :=
    zipWith_cont (fun a b ha hb => ha.matrix_mulVec hb) hT hb.moment0
  let S' : X → MSt := fun x => { forward (Ms.map (fun M => M x)) { (s x).payload.recalc with
    ref := (s x).payload.ref.recalc.recalc.drifted false (d x).length
    pos := (s x).payload.pos + sign false * (d x).length } with
    real := bendPhis false (d x).length ((fs.map (fun f x => (f x).recalc.recalc)).map (fun f => f x)) (s x).payload.moment0
      (List.zipWith (fun M v => M.mulVec v) (Ms.map (fun M => M x)) (s x).payload.moment0) }
  have hres : ∀ x, (advance env .sbend (d x) (s x)).2.1.payload = (S' x).calcRms := by
    intro x
    rw [hadv x, advanceBend]
    simp only [particles, hnh x, decide_false, Bool.false_eq_true, if_false, hs x]
    have := hM2 x
    rw [← hrr x] at this
    rw [show recompute env .sbend { d x with refIn := some (s x).payload.recalc.ref, realIn := (s x).payload.recalc.real, transfer := resize (s x).payload.recalc.real.length (d x).transfer } (s x).payload.recalc.ref (s x).payload.recalc.real = .ok (Ms.map (fun M => M x)) from this]
    dsimp only
    rw [show (s x).payload.recalc.real.map (fun p => id p.recalc) = (fs.map (fun f x => (f x).recalc.recalc)).map (fun f => f x) by
        rw [hrr x, List.map_map, List.map_map, List.map_map]
        rfl]
    rfl
  have hrl : Each Particles fun x => (S' x).real := by
    obtain ⟨vs, v1, v2⟩ := hb.moment0
    obtain ⟨ws, w1, w2⟩ := hv0
    dsimp only at v2 w2
    have h5 := bendPhis_cont (r := false) hd.placing.length (fs.map (fun f x => (f x).recalc.recalc)) vs ws (by
      intro q hq
      obtain ⟨f, hf, rfl⟩ := List.mem_map.1 hq
      exact Particles.recalc (Particles.recalc (hf1 f hf) (hmv f hf)) (fun x => (live_recalc (hmv f hf x)).moves)) v1 w1
    have e : (fun x => (S' x).real) = fun x => bendPhis false (d x).length ((fs.map (fun f x => (f x).recalc.recalc)).map (fun f => f x))
        (vs.map (fun v => v x)) (ws.map (fun w => w x)) := by
      funext x
      show bendPhis false (d x).length _ (s x).payload.moment0 (List.zipWith (fun M v => M.mulVec v) (Ms.map (fun M => M x)) (s x).payload.moment0) = _
      rw [w2 x, v2 x]
    rw [e]
    exact h5
  have hQ : ∀ x, totQ (S' x).real ≠ 0 := by
    intro x
    have := (hg x).current
    unfold totQ
    show ((bendPhis false (d x).length _ _ _).map (·.IonQ)).sum ≠ 0
    rw [bendPhis_charge, List.map_map, List.map_map]
    rw [hf2, List.map_map] at this
    exact this
  simp only [hres]
  refine ⟨calcRms_cont ?_ ?_ hrl hv0 ?_ hT hQ, fun x => ⟨⟨?_, ?_, ?_, ?_⟩, ?_, hQ x⟩⟩
  · exact hb.pos.add (continuous_const.mul hd.placing.length)
  · have h1 := Particles.recalc hb.ref (fun x => (hg x).ref)
    exact Particles.drifted (Particles.recalc h1 (fun x => (live_recalc (hg x).ref).moves)) false hd.placing.length
  · exact zipWith_cont (fun a b ha hb => (ha.matrix_mul hb).matrix_mul ha.matrix_transpose) hT hb.moment1
  · exact (hg x).ref.mass
  · exact (hg x).ref.energy
  · exact (hg x).ref.charge
  · exact (hg x).ref.freq
  · refine bendPhis_moves _ _ _ _ ?_
    intro p hp
    rw [List.map_map] at hp
    obtain ⟨f, hf, rfl⟩ := List.mem_map.1 hp
    exact (live_recalc (live_recalc (hmv f hf x)).moves).moves

/-! ## sextupoles of thin lenses -/

theorem thin_cont {L K a b c e f : X → ℝ} {T : X → Mat} (hL : Continuous L) (hK : Continuous K) (ha : Continuous a) (hb : Continuous b)
    (hc : Continuous c) (he : Continuous e) (hf : Continuous f) (dst : Bool) :
    Continuous fun x => sextM (L x) (K x) (a x) (b x) (c x) (e x) (f x) true dst (T x) := by
  have h1 : Continuous fun x => (setAt (setAt 1 0 1 (L x / 2)) 2 3 (L x / 2) : Mat) :=
    setAt_cont (setAt_cont continuous_const (hL.div_const _) _ _) (hL.div_const _) _ _
  have h2 : Continuous fun x => (setAt (setAt (setAt (setAt 1 1 0 (-K x * L x * a x)) 1 2 (K x * L x * b x)) 3 0 (K x * L x * b x)) 3 2
      (K x * L x * a x) : Mat) :=
    setAt_cont (setAt_cont (setAt_cont (setAt_cont continuous_const ((hK.neg.mul hL).mul ha) _ _) ((hK.mul hL).mul hb) _ _)
      ((hK.mul hL).mul hb) _ _) ((hK.mul hL).mul ha) _ _
  have h3 := h1.matrix_mul (h2.matrix_mul h1)
  cases dst
  · exact h3
  · exact setAt_cont (setAt_cont h3 ((hK.neg.mul hL).mul (hc.sub he)) 1 6) (((continuous_const.mul hK).mul hL).mul hf) 3 6

theorem loop_cont {p : X → Particle} (hp : Particles p) (hl : ∀ x, Live (p x)) {L K : X → ℝ} (hL : Continuous L) (hK : Continuous K) (dst : Bool) :
    ∀ (n : Nat) (v : X → Vec) (S A T : X → Mat), Continuous v → Continuous S → Continuous A → Continuous T →
    Continuous fun x => sextLoop (p x) (L x) (K x) true dst n (v x, S x, A x, T x)
  | 0, _, _, _, _, hv, hS, hA, hT => hv.prodMk (hS.prodMk (hA.prodMk hT))
  | n + 1, v, S, A, T, hv, hS, hA, hT => by
    have hT' : Continuous fun x => setAt (sextM (L x) (K x) (v x 0) (v x 2) (S x 0 0) (S x 2 2) (S x 0 2) true dst (T x)) 4 5 (slip (p x) (L x)) :=
      setAt_cont (thin_cont hL hK ((continuous_apply 0).comp hv) ((continuous_apply 2).comp hv) (hS.matrix_elem 0 0) (hS.matrix_elem 2 2)
        (hS.matrix_elem 0 2) dst) (slip_cont hp hl hL) _ _
    simp only [sextLoop]
    exact loop_cont hp hl hL hK dst n _ _ _ _ (hT'.matrix_mulVec hv) ((hT'.matrix_mul hS).matrix_mul hT'.matrix_transpose)
      (hT'.matrix_mul hA) hT'

theorem forEach_fam {α β : Type} {P : (X → α) → Prop} {Q : (X → β) → Prop} {G : X → α → Except Err β}
    (h : ∀ p, P p → (∀ x, ∃ M, G x (p x) = .ok M) → ∃ M : X → β, Q M ∧ ∀ x, G x (p x) = .ok (M x)) :
    ∀ fs : List (X → α), (∀ f ∈ fs, P f) → (∀ x, ∃ l, forEach (G x) (fs.map (fun f => f x)) = .ok l) →
    ∃ Ms : List (X → β), (∀ M ∈ Ms, Q M) ∧ ∀ x, forEach (G x) (fs.map (fun f => f x)) = .ok (Ms.map (fun M => M x))
  | [], _, _ => ⟨[], by simp, fun _ => rfl⟩
  | f :: fs, hP, hok => by
    have hsplit : ∀ x, (∃ M, G x (f x) = .ok M) ∧ ∃ l, forEach (G x) (fs.map (fun f => f x)) = .ok l := by
      intro x
      obtain ⟨l, hl⟩ := hok x
      rw [List.map_cons, forEach] at hl
      split at hl
      · cases hl
      rename_i b hb
      split at hl
      · cases hl
      rename_i bs hbs
      exact ⟨⟨b, hb⟩, bs, hbs⟩
    obtain ⟨M, hM, h1⟩ := h f (hP f (by simp)) (fun x => (hsplit x).1)
    obtain ⟨Ms, hMs, h2⟩ := forEach_fam h fs (fun g hg => hP g (by simp [hg])) (fun x => (hsplit x).2)
    refine ⟨M :: Ms, by simpa using ⟨hM, hMs⟩, fun x => ?_⟩
    rw [List.map_cons, forEach, h1 x, h2 x]
    rfl

theorem zip_each {α β : Type} {P : (X → α) → Prop} {Q : (X → β) → Prop} {l : X → List α} {r : X → List β} (hl : Each P l) (hr : Each Q r) :
    Each (fun q : X → α × β => P (fun x => (q x).1) ∧ Q fun x => (q x).2) fun x => (l x).zip (r x) := by
  obtain ⟨fs, h1, h2⟩ := hl
  obtain ⟨gs, h3, h4⟩ := hr
  refine ⟨List.zipWith (fun a b x => (a x, b x)) fs gs, ?_, fun x => ?_⟩
  · clear h2 h4
    induction fs generalizing gs with
    | nil => simp
    | cons a fs ih =>
      cases gs with
      | nil => simp
      | cons b gs =>
        intro q hq
        rw [List.zipWith_cons_cons] at hq
        rcases List.mem_cons.1 hq with rfl | hq
        · exact ⟨h1 a List.mem_cons_self, h3 b List.mem_cons_self⟩
        · exact ih (fun f h => h1 f (List.mem_cons_of_mem _ h)) gs (fun f h => h3 f (List.mem_cons_of_mem _ h)) q hq
  · dsimp only
    rw [h2, h4, List.map_zipWith, List.zip, List.zipWith_map]

/-- One charge state in a sextupole. -/
theorem sextOne_cont {d : X → MDat} (hd : Placing d) {B3 L : X → ℝ} (hB : Continuous B3) (hL : Continuous L) (stp : ℝ) (dst : Bool)
    {ref p : X → Particle} (hr : Particles ref) (hp : Particles p) (hrl : ∀ x, Live (ref x)) (hpl : ∀ x, Live (p x))
    {v : X → Vec} {S : X → Mat} (hv : Continuous v) (hS : Continuous S)
    (hok : ∀ x, ∃ r, sextOne (d x) (B3 x) (L x) stp true dst (ref x) (p x) (v x) (S x) = .ok r) :
    ∃ r : X → Vec × Mat × Mat, Continuous r ∧ ∀ x, sextOne (d x) (B3 x) (L x) stp true dst (ref x) (p x) (v x) (S x) = .ok (r x) := by
  obtain ⟨A, B, hA, hBm, h⟩ := misalign_cont hd hr hp hrl hpl (fun x => by
    obtain ⟨M, hM⟩ := hok x
    unfold sextOne at hM
    split at hM
    · cases hM
    · rename_i a b hab
      exact ⟨_, hab⟩)
  have hK : Continuous fun x => B3 x / (p x).Brho / (MtoMM * MtoMM * MtoMM) :=
    (hB.div (brho_cont hp hpl) (fun x => brho_ne (hpl x))).div_const _
  have hl := loop_cont hp hpl (hL.div_const stp) hK dst (toSteps stp) _ _ _ _ (hA.matrix_mulVec hv)
    ((hA.matrix_mul hS).matrix_mul hA.matrix_transpose) (continuous_const (y := (1 : Mat))) (continuous_const (y := (1 : Mat)))
  refine ⟨_, (hBm.matrix_mulVec (continuous_fst.comp hl)).prodMk (((hBm.matrix_mul (continuous_fst.comp (continuous_snd.comp hl))).matrix_mul
    hBm.matrix_transpose).prodMk (hBm.matrix_mul ((continuous_fst.comp (continuous_snd.comp (continuous_snd.comp hl))).matrix_mul hA))), fun x => ?_⟩
  unfold sextOne
  rw [h x]
  rfl

theorem step_sext {env : Env} {d : X → MDat} (hd : Good .sextupole d) {s : X → St MSt} (hs : ∀ x, (s x).retreat = false)
    (hb : Beams fun x => (s x).payload) (hg : ∀ x, Going (s x).payload) (x0 : X)
    (hok : ∀ x, (advance env .sextupole (d x) (s x)).2.2 = none) :
    (Beams fun x => (advance env .sextupole (d x) (s x)).2.1.payload) ∧ ∀ x, Going (advance env .sextupole (d x) (s x)).2.1.payload := by
  have hadv : ∀ x, advance env .sextupole (d x) (s x) = advanceSext (d x) (s x) := fun _ => rfl
  simp only [hadv] at hok ⊢
  obtain ⟨hthin, hstep, hdst⟩ := hd.lens rfl
  obtain ⟨fs, hf1, hf2⟩ := hb.real
  dsimp only at hf2
  have hmv : ∀ f ∈ fs, ∀ x, Moves (f x) := fun f hf x => (hg x).real _ (by rw [hf2]; exact List.mem_map.2 ⟨f, hf, rfl⟩)
  have hnum : ∀ x, (∃ v, getNum (d x).conf "B3" = .ok v) ∧ ∃ v, getNum (d x).conf "L" = .ok v := by
    intro x
    have h := hok x
    unfold advanceSext at h
    cases h1 : getNum (d x).conf "B3" with
    | error e =>
      rw [h1] at h
      cases h
    | ok B3 =>
      cases h2 : getNum (d x).conf "L" with
      | error e =>
        rw [h1, h2] at h
        cases h
      | ok L => exact ⟨⟨_, rfl⟩, _, rfl⟩
  obtain ⟨B3, hB, hB3⟩ := tuned_num hd.tuned "B3" (fun x => (hnum x).1)
  obtain ⟨L, hL, hL0⟩ := tuned_num hd.tuned "L" (fun x => (hnum x).2)
  let stp : ℝ := (toSteps (getNumD (d x0).conf "step" 1) : ℝ)
  let dst : Bool := decide (getNumD (d x0).conf "dstkick" 1 = 1)
  have e1 : ∀ x, getNumD (d x).conf "step" 1 = getNumD (d x0).conf "step" 1 := fun x => by simp only [getNumD, hstep x x0]
  have e2 : ∀ x, getNumD (d x).conf "dstkick" 1 = getNumD (d x0).conf "dstkick" 1 := fun x => by simp only [getNumD, hdst x x0]
  have e3 : ∀ x, getNumD (d x).conf "thinlens" 0 = 1 := fun x => by simp only [getNumD, hthin x]
  let d1 : X → MDat := fun x => { d x with refIn := some (s x).payload.recalc.ref, realIn := (s x).payload.recalc.real, transfer := resize (s x).payload.recalc.real.length (d x).transfer }
  have hp1 : Placing d1 := ⟨hd.placing.length, hd.placing.dx, hd.placing.dy, hd.placing.pitch, hd.placing.yaw, hd.placing.roll⟩
  let G : X → Particle × Vec × Mat → Except Err (Vec × Mat × Mat) := fun x q =>
    sextOne (d1 x) (B3 x) (L x * MtoMM) stp true dst (s x).payload.recalc.ref q.1 q.2.1 q.2.2
  let l : X → List (Particle × Vec × Mat) := fun x =>
    (s x).payload.recalc.real.zip ((s x).payload.recalc.moment0.zip (s x).payload.recalc.moment1)
  have hrefc := Particles.recalc hb.ref (fun x => (hg x).ref)
  have hreal : Each (fun p : X → Particle => Particles p ∧ ∀ x, Live (p x)) fun x => (s x).payload.recalc.real := by
    refine ⟨fs.map (fun f x => (f x).recalc), ?_, fun x => ?_⟩
    · intro q hq
      obtain ⟨f, hf, rfl⟩ := List.mem_map.1 hq
      exact ⟨Particles.recalc (hf1 f hf) (hmv f hf), fun x => live_recalc (hmv f hf x)⟩
    · show (s x).payload.real.map Particle.recalc = _
      rw [hf2, List.map_map, List.map_map]
      rfl
  have hl : Each (fun q : X → Particle × Vec × Mat => (Particles (fun x => (q x).1) ∧ ∀ x, Live (q x).1) ∧
      Continuous (fun x => (q x).2.1) ∧ Continuous fun x => (q x).2.2) l := zip_each hreal (zip_each hb.moment0 hb.moment1)
  have hshape : ∀ x, advanceSext (d x) (s x) = match forEach (G x) (l x) with
      | .error e => (d1 x, { s x with payload := (s x).payload.recalc }, some e)
      | .ok (rs : List (Vec × Mat × Mat)) =>
        ({ d1 x with refOut := (s x).payload.recalc.ref.recalc.drifted false (d x).length,
                     realOut := (s x).payload.recalc.real.map (fun p : Particle => p.recalc.drifted false (d x).length) },
          { s x with payload :=
            { (s x).payload.recalc with
              ref := (s x).payload.recalc.ref.recalc.drifted false (d x).length
              real := (s x).payload.recalc.real.map (fun p : Particle => p.recalc.drifted false (d x).length)
              pos := (s x).payload.recalc.pos + (d x).length
              moment0 := rs.map (fun (q : Vec × Mat × Mat) => q.1)
              moment1 := rs.map (fun (q : Vec × Mat × Mat) => q.2.1)
              transmat := rs.map (fun (q : Vec × Mat × Mat) => q.2.2) }.calcRms }, none) := by
    intro x
    unfold advanceSext
    simp only [hB3 x, hL0 x, e1 x, e2 x, e3 x, hs x, Bool.false_eq_true, if_false, decide_true]
    rfl
  obtain ⟨qs, hq1, hq2⟩ := hl
  have key : ∀ x, ∃ r, forEach (G x) (qs.map (fun q => q x)) = .ok r := by
    intro x
    have h := hok x
    rw [hshape x] at h
    rw [← hq2 x]
    cases hf : forEach (G x) (l x) with
    | ok r => exact ⟨r, rfl⟩
    | error e =>
      rw [hf] at h
      cases h
  have hG : ∀ q : X → Particle × Vec × Mat, ((Particles (fun x => (q x).1) ∧ ∀ x, Live (q x).1) ∧
      Continuous (fun x => (q x).2.1) ∧ Continuous fun x => (q x).2.2) → (∀ x, ∃ r, G x (q x) = .ok r) →
      ∃ r : X → Vec × Mat × Mat, Continuous r ∧ ∀ x, G x (q x) = .ok (r x) := fun q hq hqok =>
    sextOne_cont hp1 hB (hL.mul continuous_const) stp dst hrefc hq.1.1 (fun x => live_recalc (hg x).ref) hq.1.2 hq.2.1 hq.2.2 hqok
  obtain ⟨rs, hr1, hr2⟩ := forEach_fam hG qs hq1 key
  let S' : X → MSt := fun x => { (s x).payload.recalc with
    ref := (s x).payload.ref.recalc.recalc.drifted false (d x).length
    real := (s x).payload.real.map (fun p => p.recalc.recalc.drifted false (d x).length)
    pos := (s x).payload.pos + (d x).length
    moment0 := (rs.map (fun r => r x)).map (fun (q : Vec × Mat × Mat) => q.1)
    moment1 := (rs.map (fun r => r x)).map (fun (q : Vec × Mat × Mat) => q.2.1)
    transmat := (rs.map (fun r => r x)).map (fun (q : Vec × Mat × Mat) => q.2.2) }
  have hres : ∀ x, (advanceSext (d x) (s x)).2.1.payload = (S' x).calcRms := by
    intro x
    have := hr2 x
    rw [← hq2 x] at this
    rw [hshape x, this]
    dsimp only
    rw [show (s x).payload.recalc.real.map (fun p => p.recalc.drifted false (d x).length) =
      (s x).payload.real.map (fun p => p.recalc.recalc.drifted false (d x).length) by
        show ((s x).payload.real.map Particle.recalc).map _ = _
        rw [List.map_map]
        rfl]
    rfl
  have hQ : ∀ x, totQ (S' x).real ≠ 0 := by
    intro x
    have := (hg x).current
    show totQ ((s x).payload.real.map (fun p => p.recalc.recalc.drifted false (d x).length)) ≠ 0
    unfold totQ
    rw [List.map_map]
    exact this
  have hE : Each Continuous fun x => rs.map (fun r => r x) := ⟨rs, hr1, fun _ => rfl⟩
  simp only [hres]
  refine ⟨calcRms_cont ?_ ?_ ?_ ?_ ?_ ?_ hQ, fun x => ⟨⟨?_, ?_, ?_, ?_⟩, ?_, hQ x⟩⟩
  · exact hb.pos.add hd.placing.length
  · exact Particles.drifted (Particles.recalc hrefc (fun x => (live_recalc (hg x).ref).moves)) false hd.placing.length
  · refine ⟨fs.map (fun f x => (f x).recalc.recalc.drifted false (d x).length), ?_, fun x => ?_⟩
    · intro q hq
      obtain ⟨f, hf, rfl⟩ := List.mem_map.1 hq
      have h1 := Particles.recalc (hf1 f hf) (hmv f hf)
      exact Particles.drifted (Particles.recalc h1 (fun x => (live_recalc (hmv f hf x)).moves)) false hd.placing.length
    · show (s x).payload.real.map _ = _
      rw [hf2, List.map_map, List.map_map]
      rfl
  · exact map_each (f := fun _ (q : Vec × Mat × Mat) => q.1) (fun a ha => continuous_fst.comp ha) hE
  · exact map_each (f := fun _ (q : Vec × Mat × Mat) => q.2.1) (fun a ha => continuous_fst.comp (continuous_snd.comp ha)) hE
  · exact map_each (f := fun _ (q : Vec × Mat × Mat) => q.2.2) (fun a ha => continuous_snd.comp (continuous_snd.comp ha)) hE
  · exact (hg x).ref.mass
  · exact (hg x).ref.energy
  · exact (hg x).ref.charge
  · exact (hg x).ref.freq
  · intro p hp
    obtain ⟨q, hq, rfl⟩ := List.mem_map.1 hp
    have := (hg x).real q hq
    exact ⟨this.mass, this.energy, this.charge, this.freq⟩

theorem step_cont {env : Env} {t : MType} {d : X → MDat} (hd : Good t d) {s : X → St MSt} (hs : ∀ x, (s x).retreat = false)
    (hb : Beams fun x => (s x).payload) (hg : ∀ x, Going (s x).payload) (x0 : X)
    (hok : ∀ x, (advance env t (d x) (s x)).2.2 = none) :
    (Beams fun x => (advance env t (d x) (s x)).2.1.payload) ∧ ∀ x, Going (advance env t (d x) (s x)).2.1.payload := by
  by_cases h : t = .sbend
  · subst h
    exact step_bend hd hs hb hg x0 hok
  · by_cases h' : t = .sextupole
    · subst h'
      exact step_sext hd hs hb hg x0 hok
    · exact step_base hd h h' hs hb hg x0 hok

theorem run_cont {env : Env} {junk : Mat} {base : Nat} (x0 : X) (n : Nat) : ∀ (els : X → List (Elem LCfg MDat MSt)) (s : X → St MSt)
    (i : Nat), (∀ x, (els x).length < sizeMod) → (∀ x, i + n ≤ (els x).length) → (∀ x, (s x).nextElem = i) →
    (∀ x, (s x).retreat = false) →
    (∀ j, i ≤ j → j < i + n → ∃ t, ∃ e : X → Elem LCfg MDat MSt, (∀ x, (els x)[j]? = some (e x)) ∧
      (∀ x, (e x).cls = cls env junk base t) ∧ Good t fun x => (e x).dat) →
    (Beams fun x => (s x).payload) → (∀ x, Going (s x).payload) → (∀ x, (run n (els x) (s x)).err = none) →
    ∀ k ≤ n, Beams fun x => (run k (els x) (s x)).st.payload := by
  induction n with
  | zero =>
    intro els s i _ _ _ _ _ hb _ _ k hk
    obtain rfl : k = 0 := by omega
    exact hb
  | succ n ih =>
    intro els s i hl hn hi hr hE hb hg hok k hk
    have hpay : ∀ s : St MSt, (stepNext s).payload = s.payload := by intro s; unfold stepNext; split <;> rfl
    have hret : ∀ s : St MSt, (stepNext s).retreat = s.retreat := by intro s; unfold stepNext; split <;> rfl
    obtain ⟨t, e, he, hc, hgood⟩ := hE i (le_refl _) (by omega)
    have he' : ∀ x, (els x)[(s x).nextElem]? = some (e x) := fun x => by rw [hi x]; exact he x
    have hts : t ≠ .source := by
      rintro rfl
      exact absurd hgood.kind (by decide)
    have h3 : ∀ x, ((e x).cls.advance (e x).dat (stepNext (s x))).2.2 = none := by
      intro x
      cases h : ((e x).cls.advance (e x).dat (stepNext (s x))).2.2 with
      | none => rfl
      | some err =>
        have := hok x
        rw [run_succ_err (he' x) h] at this
        cases this
    have h3' : ∀ x, (advance env t (e x).dat (stepNext (s x))).2.2 = none := by
      intro x
      have := h3 x
      rw [hc x] at this
      exact this
    obtain ⟨g1, g2⟩ := step_cont hgood (fun x => by rw [hret]; exact hr x) (by simpa only [hpay] using hb)
      (fun x => by rw [hpay]; exact hg x) x0 h3'
    have hrun : ∀ m x, (run (m + 1) (els x) (s x)).st = (run m ((els x).set i { e x with dat := (advance env t (e x).dat (stepNext (s x))).1 })
        (advance env t (e x).dat (stepNext (s x))).2.1).st ∧ (run (m + 1) (els x) (s x)).err = (run m ((els x).set i { e x with dat := (advance env t (e x).dat (stepNext (s x))).1 })
        (advance env t (e x).dat (stepNext (s x))).2.1).err := by
      intro m x
      have hx : (e x).cls.advance = advance env t := by rw [hc x]; rfl
      rw [run_succ_ok (he' x) (h3 x), hi x, hx]
      exact ⟨rfl, rfl⟩
    have hkeep : ∀ x, (advance env t (e x).dat (stepNext (s x))).2.1.nextElem = i + 1 ∧
        (advance env t (e x).dat (stepNext (s x))).2.1.retreat = false := by
      intro x
      obtain ⟨k1, k2⟩ := (measured_cls env junk base t hts).1 (e x).dat (stepNext (s x))
      refine ⟨k1.trans ?_, k2.trans ((hret _).trans (hr x))⟩
      unfold stepNext
      rw [if_neg (by rw [hr x]; simp), hi x]
      have := hl x
      have := hn x
      exact Nat.mod_eq_of_lt (by omega)
    cases k with
    | zero => exact hb
    | succ k =>
      simp only [(hrun _ _).1]
      refine ih _ _ (i + 1) (fun x => by rw [List.length_set]; exact hl x) (fun x => by rw [List.length_set]; have := hn x; omega)
        (fun x => (hkeep x).1) (fun x => (hkeep x).2) ?_ g1 g2 (fun x => by rw [← (hrun _ _).2]; exact hok x) k (by omega)
      intro j hj hj2
      obtain ⟨t', e', h1, h2, h3⟩ := hE j (by omega) (by omega)
      exact ⟨t', e', fun x => by rw [List.getElem?_set_ne (by omega)]; exact h1 x, h2, h3⟩

end Flame.Steady
