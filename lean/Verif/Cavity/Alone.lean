import Verif.Cavity.Time
import Verif.Cavity.Cache
import Verif.Cavity.SpecAlone

/-!
# Charge states do not influence each other: C84

Between strippers each charge state moves as if it were alone with the reference particle.
-/

namespace Flame.Cavity

open Flame.Mach (Cls St Err CView Machine propagate sizeMod Elem Run Event run visits stepNext viewEvents run_succ_none run_succ_err run_succ_ok propagate_eq)
open Flame.Linear (LVal LCfg getNum getNumD getVec)
open Flame.Moment Flame.Moment.Spec

/-! ## parts of lists -/

/-- Each entry `j` of `l'` belongs to entry `f j` of `l`. -/
def Sub {α β : Type} (f : Nat → Nat) (P : α → β → Prop) (l : List α) (l' : List β) : Prop :=
  ∀ j b, l'[j]? = some b → ∃ a, l[f j]? = some a ∧ P a b

theorem Sub.map {α β γ δ : Type} {f : Nat → Nat} {P : α → β → Prop} {Q : γ → δ → Prop} {l : List α} {l' : List β} {g : α → γ}
    {g' : β → δ} (h : Sub f P l l') (hg : ∀ a b, P a b → Q (g a) (g' b)) : Sub f Q (l.map g) (l'.map g') := by
  intro j b hb
  rw [List.getElem?_map, Option.map_eq_some_iff] at hb
  obtain ⟨b0, hb, rfl⟩ := hb
  obtain ⟨a, ha, hP⟩ := h j b0 hb
  exact ⟨g a, by rw [List.getElem?_map, ha]; rfl, hg _ _ hP⟩

theorem Sub.imp {α β : Type} {f : Nat → Nat} {P Q : α → β → Prop} {l : List α} {l' : List β} (h : Sub f P l l')
    (hg : ∀ a b, P a b → Q a b) : Sub f Q l l' := by
  intro j b hb
  obtain ⟨a, ha, hP⟩ := h j b hb
  exact ⟨a, ha, hg _ _ hP⟩

theorem Sub.zip {α β γ δ : Type} {f : Nat → Nat} {P : α → β → Prop} {Q : γ → δ → Prop} {l : List α} {l' : List β} {m : List γ}
    {m' : List δ} (h : Sub f P l l') (h2 : Sub f Q m m') : Sub f (fun a b => P a.1 b.1 ∧ Q a.2 b.2) (l.zip m) (l'.zip m') := by
  rintro j ⟨b, d⟩ hb
  rw [List.getElem?_zip_eq_some] at hb
  obtain ⟨a, ha, hP⟩ := h j b hb.1
  obtain ⟨c, hc, hQ⟩ := h2 j d hb.2
  exact ⟨(a, c), List.getElem?_zip_eq_some.2 ⟨ha, hc⟩, hP, hQ⟩

theorem Sub.zipWith {α β γ δ ε ζ : Type} {f : Nat → Nat} {P : α → β → Prop} {Q : γ → δ → Prop} {R : ε → ζ → Prop} {l : List α}
    {l' : List β} {m : List γ} {m' : List δ} {g : α → γ → ε} {g' : β → δ → ζ} (h : Sub f P l l') (h2 : Sub f Q m m')
    (hg : ∀ a b c d, P a b → Q c d → R (g a c) (g' b d)) : Sub f R (List.zipWith g l m) (List.zipWith g' l' m') := by
  rw [← List.map_uncurry_zip_eq_zipWith, ← List.map_uncurry_zip_eq_zipWith]
  exact (h.zip h2).map (fun a b hab => hg _ _ _ _ hab.1 hab.2)

theorem Sub.each {α β γ δ : Type} {f : Nat → Nat} {P : α → β → Prop} {Q : γ → δ → Prop} {l : List α} {l' : List β}
    {g : α → Except Err γ} {g' : β → Except Err δ} {r : List γ} (h : Sub f P l l') (hr : forEach g l = .ok r)
    (hg : ∀ a b c, P a b → g a = .ok c → ∃ d, g' b = .ok d ∧ Q c d) : ∃ r', forEach g' l' = .ok r' ∧ Sub f Q r r' := by
  have hF := forEach_ok.1 hr
  have hall : ∀ j b, l'[j]? = some b → ∃ d c, r[f j]? = some c ∧ g' b = .ok d ∧ Q c d := by
    intro j b hb
    obtain ⟨a, ha, hP⟩ := h j b hb
    have hlen := hF.length_eq
    have hlt : f j < l.length := by
      by_contra hc
      rw [List.getElem?_eq_none (by omega)] at ha
      cases ha
    have h1 := (List.forall₂_iff_get.1 hF).2 (f j) hlt (by omega)
    rw [List.getElem?_eq_getElem hlt] at ha
    cases ha
    obtain ⟨d, h2, h3⟩ := hg _ b _ hP h1
    exact ⟨d, _, List.getElem?_eq_getElem (by omega), h2, h3⟩
  clear hF hr h
  suffices ∀ (l' : List β) (k : Nat), (∀ j b, l'[j]? = some b → ∃ d c, r[f (j + k)]? = some c ∧ g' b = .ok d ∧ Q c d) →
      ∃ r', forEach g' l' = .ok r' ∧ ∀ j d, r'[j]? = some d → ∃ c, r[f (j + k)]? = some c ∧ Q c d by
    exact this l' 0 hall
  intro l'
  induction l' with
  | nil => intro k _; exact ⟨[], rfl, fun j d h => by simp at h⟩
  | cons b l' ih =>
    intro k hall
    obtain ⟨d, c, h1, h2, h3⟩ := hall 0 b rfl
    obtain ⟨r', h4, h5⟩ := ih (k + 1) (fun j b hb => by
      have := hall (j + 1) b hb
      rwa [show j + 1 + k = j + (k + 1) by omega] at this)
    refine ⟨d :: r', ?_, ?_⟩
    · simp only [forEach, h2, h4]
    · intro j e he
      cases j with
      | zero => cases he; exact ⟨c, h1, h3⟩
      | succ j =>
        rw [show j + 1 + k = j + (k + 1) by omega]
        exact h5 j e he

/-! ## particles of another weight -/

/-- A particle of weight `w`. -/
def weigh (w : ℝ) (p : Particle) : Particle := { p with IonQ := w }

/-- The second particle is the first one with another weight. -/
def Weighed (p q : Particle) : Prop := q = weigh q.IonQ p

theorem weighed_iff {p q : Particle} : Spec.Reweighted p q ↔ Weighed p q := by
  constructor
  · rintro ⟨h1, h2, h3, h4, h5, h6, h7, h8, h9, h10, h11⟩
    cases p; cases q
    simp only at h1 h2 h3 h4 h5 h6 h7 h8 h9 h10 h11
    subst h1 h2 h3 h4 h5 h6 h7 h8 h9 h10 h11
    rfl
  · intro h
    rw [Weighed] at h
    rw [h]
    exact ⟨rfl, rfl, rfl, rfl, rfl, rfl, rfl, rfl, rfl, rfl, rfl⟩

theorem Weighed.recalc {p q : Particle} (h : Weighed p q) : Weighed p.recalc q.recalc := by
  rw [Weighed] at h; rw [h]; rfl

theorem Weighed.drifted {p q : Particle} (h : Weighed p q) (b : Bool) (L : ℝ) : Weighed (p.drifted b L) (q.drifted b L) := by
  rw [Weighed] at h; rw [h]; rfl

/-- The parts of a state that a part of the beam shares. -/
structure Part (f : Nat → Nat) (S S' : MSt) : Prop where
  pos : S'.pos = S.pos
  ref : S'.ref = S.ref
  phi : S'.last_caviphi0 = S.last_caviphi0
  real : Sub f Weighed S.real S'.real
  m0 : Sub f Eq S.moment0 S'.moment0
  m1 : Sub f Eq S.moment1 S'.moment1
  tm : Sub f Eq S.transmat S'.transmat

theorem lt_of_get {α : Type} {l : List α} {j : Nat} {a : α} (h : l[j]? = some a) : j < l.length := by
  by_contra hc
  rw [List.getElem?_eq_none (by omega)] at h
  cases h

theorem part_iff {f : Nat → Nat} {S S' : MSt} (hc' : Spec.Complete S') : Spec.PartOf f S S' ↔ Part f S S' := by
  constructor
  · intro h
    refine ⟨h.pos, h.ref, h.last_caviphi0, ?_, ?_, ?_, ?_⟩
    · intro j q hq
      obtain ⟨p, q', h1, h2, h3⟩ := (h.states j (lt_of_get hq)).particle
      rw [hq] at h2
      cases h2
      exact ⟨p, h1, weighed_iff.1 h3⟩
    · intro j q hq
      refine ⟨q, ?_, rfl⟩
      rw [← (h.states j (by rw [← hc'.moment0]; exact lt_of_get hq)).moment0]; exact hq
    · intro j q hq
      refine ⟨q, ?_, rfl⟩
      rw [← (h.states j (by rw [← hc'.moment1]; exact lt_of_get hq)).moment1]; exact hq
    · intro j q hq
      refine ⟨q, ?_, rfl⟩
      rw [← (h.states j (by rw [← hc'.transmat]; exact lt_of_get hq)).transmat]; exact hq
  · intro h
    refine ⟨h.pos, h.ref, h.phi, fun j hj => ?_⟩
    have key : ∀ {α : Type} {l l' : List α}, Sub f Eq l l' → l'.length = S'.real.length → l'[j]? = l[f j]? := by
      intro α l l' hs hl
      have := List.getElem?_eq_getElem (l := l') (i := j) (by omega)
      obtain ⟨a, ha, rfl⟩ := hs j _ this
      rw [ha, this]
    obtain ⟨p, hp, hw⟩ := h.real j _ (List.getElem?_eq_getElem hj)
    exact ⟨⟨p, _, hp, List.getElem?_eq_getElem hj, weighed_iff.2 hw⟩, key h.m0 hc'.moment0, key h.m1 hc'.moment1, key h.tm hc'.transmat⟩

theorem Part.recalc {f : Nat → Nat} {S S' : MSt} (h : Part f S S') : Part f S.recalc S'.recalc :=
  ⟨h.pos, congrArg Particle.recalc h.ref, h.phi, h.real.map (fun _ _ h => h.recalc), h.m0, h.m1, h.tm⟩

theorem Part.calcRms {f : Nat → Nat} {S S' : MSt} (h : Part f S S') : Part f S.calcRms S'.calcRms :=
  ⟨h.pos, h.ref, h.phi, h.real, h.m0, h.m1, h.tm⟩

/-! ## elements without cavities -/

theorem Sub.matrices {f : Nat → Nat} {l l' : List Particle} {g : Particle → Except Err Mat} (h : Sub f Weighed l l')
    (hg : ∀ p w, g (weigh w p) = g p) {T : List Mat} (hT : forEach g l = .ok T) :
    ∃ T', forEach g l' = .ok T' ∧ Sub f Eq T T' :=
  h.each hT (fun a b c hab hc => ⟨c, by rw [Weighed] at hab; rw [hab, hg]; exact hc, rfl⟩)

/-- The matrix of a charge state depends neither on the others nor on its weight. -/
theorem recompute_part {env : Env} {t : MType} {d : MDat} {f : Nat → Nat} {r : Particle} {l l' : List Particle} {T : List Mat}
    (h : Sub f Weighed l l') (hT : recompute env t d r l = .ok T) :
    ∃ T', recompute env t d r l' = .ok T' ∧ Sub f Eq T T' := by
  have hmap : ∀ g : Particle → Mat, (∀ p w, g (weigh w p) = g p) → Except.ok (l.map g) = (Except.ok T : Except Err (List Mat)) →
      ∃ T', (Except.ok (l'.map g) : Except Err (List Mat)) = .ok T' ∧ Sub f Eq T T' := by
    intro g hg hT
    cases hT
    exact ⟨_, rfl, h.map (fun a b hab => by rw [Weighed] at hab; rw [hab, hg])⟩
  cases t
  case drift => exact hmap _ (fun p w => rfl) hT
  case orbtrim => exact h.matrices (fun p w => rfl) hT
  case sbend =>
    simp only [recompute, sbendRec] at hT ⊢
    split at hT
    · exact h.matrices (fun p w => rfl) hT
    · cases hT
  case quadrupole =>
    simp only [recompute, quadRec] at hT ⊢
    repeat' split at hT
    all_goals first
      | cases hT
      | exact h.matrices (fun p w => rfl) hT
      | (rw [if_pos (by assumption)]; exact h.matrices (fun p w => rfl) hT)
      | (rw [if_neg (by assumption)]; exact h.matrices (fun p w => rfl) hT)
  case solenoid =>
    simp only [recompute, solenoidRec] at hT ⊢
    repeat' split at hT
    all_goals first
      | cases hT
      | exact h.matrices (fun p w => rfl) hT
      | (rw [if_pos (by assumption)]; exact h.matrices (fun p w => rfl) hT)
      | (rw [if_neg (by assumption)]; exact h.matrices (fun p w => rfl) hT)
  case edipole =>
    simp only [recompute, edipoleRec] at hT ⊢
    split at hT
    · split at hT
      · cases hT
      · split at hT
        · cases hT
        · rw [if_neg (by assumption)]
          exact h.matrices (fun p w => rfl) hT
    · cases hT
  case equad =>
    simp only [recompute, equadRec] at hT ⊢
    repeat' split at hT
    all_goals first
      | cases hT
      | exact h.matrices (fun p w => rfl) hT
      | (rw [if_pos (by assumption)]; exact h.matrices (fun p w => rfl) hT)
      | (rw [if_neg (by assumption)]; exact h.matrices (fun p w => rfl) hT)
  case tmatrix => exact h.matrices (fun p w => rfl) hT
  all_goals exact hmap _ (fun p w => rfl) hT

/-- The first pass through an element: what `advanceBase` does if nothing is cached. -/
theorem advanceBase_first {rec : MDat → Particle → List Particle → Except Err (List Mat)} {d : MDat} {s : St MSt}
    (hc : ∀ d a b c e f, rec (MDat.cached d a b c e f) = rec d) (h0 : d.refIn = none) (hr : s.retreat = false) :
    ((advanceBase rec d s).2.2, (advanceBase rec d s).2.1.payload) =
      match rec d s.payload.recalc.ref s.payload.recalc.real with
      | .error e => (some e, s.payload.recalc)
      | .ok T => (none, (forward T { s.payload.recalc with
          ref := s.payload.recalc.ref.recalc.drifted false d.length
          real := s.payload.recalc.real.map (fun p => p.recalc.drifted false d.length)
          pos := s.payload.recalc.pos + sign false * d.length }).calcRms) := by
  unfold advanceBase
  generalize s.payload.recalc = S
  have h1 : rec { d with refIn := some S.ref, realIn := S.real, transfer := resize S.real.length d.transfer } = rec d :=
    hc d _ d.refOut _ d.realOut _
  simp only [miss_decide _ h0, hr, particles, Bool.false_eq_true, if_false, h1]
  cases rec d S.ref S.real <;> rfl

theorem advanceBend_first {rec : MDat → Particle → List Particle → Except Err (List Mat)} {d : MDat} {s : St MSt}
    (hc : ∀ d a b c e f, rec (MDat.cached d a b c e f) = rec d) (h0 : d.refIn = none) (hr : s.retreat = false) :
    ((advanceBend rec d s).2.2, (advanceBend rec d s).2.1.payload) =
      match rec d s.payload.recalc.ref s.payload.recalc.real with
      | .error e => (some e, s.payload.recalc)
      | .ok T =>
        let S' := forward T { s.payload.recalc with
          ref := s.payload.recalc.ref.recalc.drifted false d.length
          real := s.payload.recalc.real.map (fun p => p.recalc)
          pos := s.payload.recalc.pos + sign false * d.length }
        (none, { S' with real := bendPhis false d.length S'.real s.payload.recalc.moment0 S'.moment0 }.calcRms) := by
  unfold advanceBend
  generalize s.payload.recalc = S
  have h1 : rec { d with refIn := some S.ref, realIn := S.real, transfer := resize S.real.length d.transfer } = rec d :=
    hc d _ d.refOut _ d.realOut _
  simp only [miss_decide _ h0, hr, particles, Bool.false_eq_true, if_false, h1]
  cases rec d S.ref S.real <;> rfl

theorem Part.forward {f : Nat → Nat} {S S' : MSt} {T T' : List Mat} (h : Part f S S') (hT : Sub f Eq T T') :
    Part f (forward T S) (forward T' S') :=
  ⟨h.pos, h.ref, h.phi, h.real, hT.zipWith h.m0 (fun a b c d h1 h2 => by rw [h1, h2]),
    hT.zipWith h.m1 (fun a b c d h1 h2 => by rw [h1, h2]), hT⟩

theorem forward_complete {S : MSt} {T : List Mat} (h : Spec.Complete S) (hT : T.length = S.real.length) :
    Spec.Complete (forward T S) :=
  ⟨by simp [Flame.Moment.forward, h.moment0, hT], by simp [Flame.Moment.forward, h.moment1, hT], hT⟩

theorem bendPhis_eq (L : ℝ) : ∀ (l : List Particle) (v w : List Vec), v.length = l.length → w.length = l.length →
    bendPhis false L l v w = List.zipWith (fun p (q : Vec × Vec) =>
      { p with phis := p.phis + (sign false * (p.SampleIonK * L * MtoMM) + (q.2 4 - q.1 4)) }) l (v.zip w)
  | [], [], [], _, _ => rfl
  | p :: l, a :: v, b :: w, h1, h2 => by
    simp only [bendPhis, List.zip_cons_cons, List.zipWith_cons_cons,
      bendPhis_eq L l v w (by simpa using h1) (by simpa using h2)]

theorem advance_part {env : Env} {t : MType} {d : MDat} {f : Nat → Nat} {s s' : St MSt} (ht : t ≠ .source) (h0 : d.refIn = none)
    (hr : s.retreat = false) (hr' : s'.retreat = false) (hc : Spec.Complete s.payload) (hc' : Spec.Complete s'.payload)
    (hp : Part f s.payload s'.payload) (hok : (advance env t d s).2.2 = none) :
    (advance env t d s').2.2 = none ∧ Part f (advance env t d s).2.1.payload (advance env t d s').2.1.payload ∧
      Spec.Complete (advance env t d s).2.1.payload ∧ Spec.Complete (advance env t d s').2.1.payload := by
  have hcr : ∀ {S : MSt}, Spec.Complete S → Spec.Complete S.recalc := fun h =>
    ⟨by simpa [MSt.recalc] using h.moment0, by simpa [MSt.recalc] using h.moment1, by simpa [MSt.recalc] using h.transmat⟩
  have hP := hp.recalc
  have hC := hcr hc
  have hC' := hcr hc'
  have base : ∀ t, (advanceBase (recompute env t) d s).2.2 = none →
      (advanceBase (recompute env t) d s').2.2 = none ∧
      Part f (advanceBase (recompute env t) d s).2.1.payload (advanceBase (recompute env t) d s').2.1.payload ∧
      Spec.Complete (advanceBase (recompute env t) d s).2.1.payload ∧
      Spec.Complete (advanceBase (recompute env t) d s').2.1.payload := by
    intro t hok
    have e1 := advanceBase_first (fun d a b c e f => recompute_cached env t d a b c e f) h0 hr
    have e2 := advanceBase_first (fun d a b c e f => recompute_cached env t d a b c e f) h0 hr'
    rw [hok] at e1
    generalize s.payload.recalc = S at *
    generalize s'.payload.recalc = S' at *
    cases hT : recompute env t d S.ref S.real with
    | error e => rw [hT] at e1; cases congrArg Prod.fst e1
    | ok T =>
      obtain ⟨T', hT', hs⟩ := recompute_part hP.real hT
      rw [hT] at e1
      rw [hP.ref, hT'] at e2
      have e3 := congrArg Prod.snd e1
      have e4 := congrArg Prod.snd e2
      dsimp only at e3 e4
      rw [e3, e4]
      refine ⟨congrArg Prod.fst e2, ?_, ?_, ?_⟩
      · apply Part.calcRms
        refine Part.forward ?_ hs
        refine ⟨?_, rfl, hP.phi, hP.real.map (fun a b h => h.recalc.drifted false d.length), hP.m0, hP.m1, hP.tm⟩
        show S'.pos + _ = S.pos + _
        rw [hP.pos]
      · have := forward_complete (S := { S with
          ref := S.ref.recalc.drifted false d.length
          real := S.real.map (fun p => p.recalc.drifted false d.length)
          pos := S.pos + sign false * d.length }) (T := T) ⟨by simpa using hC.moment0, by simpa using hC.moment1, by simpa using hC.transmat⟩
            (by simpa using recompute_length hT)
        exact ⟨this.moment0, this.moment1, this.transmat⟩
      · have := forward_complete (S := { S' with
          ref := S.ref.recalc.drifted false d.length
          real := S'.real.map (fun p => p.recalc.drifted false d.length)
          pos := S'.pos + sign false * d.length }) (T := T') ⟨by simpa using hC'.moment0, by simpa using hC'.moment1, by simpa using hC'.transmat⟩
            (by simpa using recompute_length hT')
        exact ⟨this.moment0, this.moment1, this.transmat⟩
  have bend : (advanceBend (recompute env .sbend) d s).2.2 = none →
      (advanceBend (recompute env .sbend) d s').2.2 = none ∧
      Part f (advanceBend (recompute env .sbend) d s).2.1.payload (advanceBend (recompute env .sbend) d s').2.1.payload ∧
      Spec.Complete (advanceBend (recompute env .sbend) d s).2.1.payload ∧
      Spec.Complete (advanceBend (recompute env .sbend) d s').2.1.payload := by
    intro hok
    have e1 := advanceBend_first (fun d a b c e f => recompute_cached env .sbend d a b c e f) h0 hr
    have e2 := advanceBend_first (fun d a b c e f => recompute_cached env .sbend d a b c e f) h0 hr'
    rw [hok] at e1
    generalize s.payload.recalc = S at *
    generalize s'.payload.recalc = S' at *
    cases hT : recompute env .sbend d S.ref S.real with
    | error e => rw [hT] at e1; cases congrArg Prod.fst e1
    | ok T =>
      obtain ⟨T', hT', hs⟩ := recompute_part hP.real hT
      rw [hT] at e1
      rw [hP.ref, hT'] at e2
      dsimp only at e1 e2
      have e3 := congrArg Prod.snd e1
      have e4 := congrArg Prod.snd e2
      dsimp only at e3 e4
      rw [e3, e4]
      have l1 := recompute_length hT
      have l2 := recompute_length hT'
      have z0 : Sub f Eq (List.zipWith (fun M v => M.mulVec v) T S.moment0) (List.zipWith (fun M v => M.mulVec v) T' S'.moment0) :=
        hs.zipWith hP.m0 (fun a b c d h1 h2 => by rw [h1, h2])
      have z1 : Sub f Eq (List.zipWith congr T S.moment1) (List.zipWith congr T' S'.moment1) :=
        hs.zipWith hP.m1 (fun a b c d h1 h2 => by rw [h1, h2])
      have b1 := bendPhis_eq d.length (S.real.map (fun p => p.recalc)) S.moment0 (List.zipWith (fun M v => M.mulVec v) T S.moment0)
        (by simpa using hC.moment0) (by simp [l1, hC.moment0])
      have b2 := bendPhis_eq d.length (S'.real.map (fun p => p.recalc)) S'.moment0 (List.zipWith (fun M v => M.mulVec v) T' S'.moment0)
        (by simpa using hC'.moment0) (by simp [l2, hC'.moment0])
      refine ⟨congrArg Prod.fst e2, ⟨?_, rfl, hP.phi, ?_, z0, z1, hs⟩, ?_, ?_⟩
      · show S'.pos + _ = S.pos + _
        rw [hP.pos]
      · show Sub f Weighed (bendPhis false d.length (S.real.map (fun p => p.recalc)) S.moment0 (List.zipWith (fun M v => M.mulVec v) T S.moment0))
          (bendPhis false d.length (S'.real.map (fun p => p.recalc)) S'.moment0 (List.zipWith (fun M v => M.mulVec v) T' S'.moment0))
        rw [b1, b2]
        refine (hP.real.map (Q := Weighed) (fun a b h => h.recalc)).zipWith (hP.m0.zip z0) ?_
        rintro a b ⟨c1, c2⟩ ⟨d1, d2⟩ h1 ⟨h2, h3⟩
        dsimp only at h2 h3
        subst h2 h3
        rw [Weighed] at h1 ⊢
        rw [h1]
        rfl
      · refine ⟨?_, ?_, ?_⟩
        all_goals
          simp only [MSt.calcRms, forward]
          rw [b1]
          simp [l1, hC.moment0, hC.moment1]
      · refine ⟨?_, ?_, ?_⟩
        all_goals
          simp only [MSt.calcRms, forward]
          rw [b2]
          simp [l2, hC'.moment0, hC'.moment1]
  have sext : (advanceSext d s).2.2 = none →
      (advanceSext d s').2.2 = none ∧ Part f (advanceSext d s).2.1.payload (advanceSext d s').2.1.payload ∧
      Spec.Complete (advanceSext d s).2.1.payload ∧ Spec.Complete (advanceSext d s').2.1.payload := by
    intro hok
    unfold advanceSext at hok ⊢
    simp only [hr, hr', Bool.false_eq_true, if_false] at hok ⊢
    generalize s.payload.recalc = S at *
    generalize s'.payload.recalc = S' at *
    cases hB : getNum d.conf "B3" with
    | error e => rw [hB] at hok; cases hok
    | ok B3 =>
      cases hL : getNum d.conf "L" with
      | error e => rw [hB, hL] at hok; cases hok
      | ok L0 =>
        rw [hB, hL] at hok
        dsimp only at hok ⊢
        split at hok
        · cases hok
        rename_i rs hrs
        have hz := hP.real.zip (hP.m0.zip hP.m1)
        obtain ⟨rs', hrs', hsub⟩ := hz.each (Q := Eq)
          (g' := fun q : Particle × Vec × Mat => sextOne { d with refIn := some S'.ref, realIn := S'.real, transfer := resize S'.real.length d.transfer } B3
            (L0 * MtoMM) (toSteps (getNumD d.conf "step" 1) : ℝ) (@decide (getNumD d.conf "thinlens" 0 = 1) (Classical.propDecidable _)) (@decide (getNumD d.conf "dstkick" 1 = 1) (Classical.propDecidable _)) S'.ref q.1 q.2.1 q.2.2)
          hrs (by
            rintro ⟨p, v, M⟩ ⟨p', v', M'⟩ c ⟨h1, h2, h3⟩ hc
            dsimp only at h1 h2 h3
            subst h2 h3
            refine ⟨c, ?_, rfl⟩
            rw [Weighed] at h1
            rw [h1, hP.ref, ← hc]
            have : ∀ (a b : Bool) (L K : ℝ) (n : Nat) (x : Vec × Mat × Mat × Mat), sextLoop (weigh p'.IonQ p) L K a b n x = sextLoop p L K a b n x := by
              intro a b L K n
              induction n with
              | zero => intro x; rfl
              | succ n ih =>
                rintro ⟨v, S, X, T⟩
                simp only [sextLoop]
                exact ih _
            simp only [sextOne, this]
            rfl)
        have hl := (forEach_ok.1 hrs).length_eq
        have hl' := (forEach_ok.1 hrs').length_eq
        simp only [List.length_zip, hC.moment0, hC.moment1, hC'.moment0, hC'.moment1, min_self] at hl hl'
        rw [hrs']
        refine ⟨rfl, ⟨?_, ?_, hP.phi, ?_, ?_, ?_, ?_⟩, ?_, ?_⟩
        · show S'.pos + _ = S.pos + _
          rw [hP.pos]
        · show S'.ref.recalc.drifted _ _ = S.ref.recalc.drifted _ _
          rw [hP.ref]
        · exact hP.real.map (fun a b h => h.recalc.drifted false d.length)
        · exact hsub.map (fun a b h => by rw [h])
        · exact hsub.map (fun a b h => by rw [h])
        · exact hsub.map (fun a b h => by rw [h])
        · exact ⟨by simp [MSt.calcRms, hl], by simp [MSt.calcRms, hl], by simp [MSt.calcRms, hl]⟩
        · exact ⟨by simp [MSt.calcRms, hl'], by simp [MSt.calcRms, hl'], by simp [MSt.calcRms, hl']⟩
  cases t with
  | source => exact absurd rfl ht
  | sbend => exact bend hok
  | sextupole => exact sext hok
  | _ => exact base _ hok

/-! ## cavities -/

theorem initRFCav_weigh {c : LCfg} {cav : Cav} {phi w : ℝ} {p q : Particle} {M : Mat} (h : initRFCav c cav phi p = .ok (q, M)) :
    initRFCav c cav phi (weigh w p) = .ok (weigh w q, M) := by
  have hb : ∀ fy scl, getCavBoost cav.cavData cav.fRF { weigh w p with IonW := (weigh w p).IonEk + (weigh w p).IonEs } fy scl =
      getCavBoost cav.cavData cav.fRF { p with IonW := p.IonEk + p.IonEs } fy scl := fun fy scl => rfl
  unfold initRFCav at h ⊢
  cases hl : labelOf cav.cavi with
  | error e => rw [hl] at h; cases h
  | ok x =>
    obtain ⟨label, Rm⟩ := x
    rw [hl] at h
    dsimp only at h ⊢
    cases hn : getNum c "scl_fac" with
    | error e => rw [hn] at h; cases h
    | ok scl =>
      rw [hn] at h
      dsimp only at h ⊢
      rw [hb]
      show _ = _
      rw [show (weigh w p).phis = p.phis from rfl, show (weigh w p).SampleFreq = p.SampleFreq from rfl]
      cases hg : getCavBoost cav.cavData cav.fRF { p with IonW := p.IonEk + p.IonEs } (cav.fRF / p.SampleFreq * p.phis + phi) scl with
      | error e => rw [hg] at h; cases h
      | ok x =>
        obtain ⟨W, fy⟩ := x
        rw [hg] at h
        dsimp only at h ⊢
        rw [show (weigh w p).IonZ = p.IonZ from rfl, show (weigh w p).IonEs = p.IonEs from rfl,
          show (weigh w p).IonEk = p.IonEk from rfl]
        split at h
        · cases h
        · cases h
          rfl

theorem recomputeCav_part {c : LCfg} {cav : Cav} {f : Nat → Nat} {ref r : Particle} {l l' : List Particle} {phi : ℝ}
    {k : List (Particle × Mat)} (h : Sub f Weighed l l') (hk : recomputeCav c cav ref l = .ok (r, phi, k)) :
    ∃ k', recomputeCav c cav ref l' = .ok (r, phi, k') ∧ k'.length = l'.length ∧
      Sub f (fun a b => Weighed a.1 b.1 ∧ a.2 = b.2) k k' := by
  unfold recomputeCav at hk ⊢
  cases hl : propagateLong c cav ref with
  | error e => rw [hl] at hk; cases hk
  | ok x =>
    obtain ⟨r0, phi0⟩ := x
    rw [hl] at hk
    dsimp only at hk ⊢
    split at hk
    · cases hk
    rename_i k0 hf
    cases hk
    have hgo : ∀ (g' : Particle → Except Err (Particle × Mat)), forEach g' l = .ok k → (∀ p, g' p = match initRFCav c cav phi p with
        | .error e => .error e
        | .ok (p', M) => .ok ({ p' with SampleIonK := p.SampleIonK }, M)) →
        ∃ k', forEach g' l' = .ok k' ∧ Sub f (fun a b => Weighed a.1 b.1 ∧ a.2 = b.2) k k' := by
      intro g' hf hg'
      refine h.each hf ?_
      rintro a b ⟨c1, c2⟩ hab hc
      rw [Weighed] at hab
      rw [hg'] at hc ⊢
      cases hi : initRFCav c cav phi a with
      | error e => rw [hi] at hc; cases hc
      | ok x =>
        obtain ⟨q, N⟩ := x
        rw [hi] at hc
        cases hc
        refine ⟨({ weigh b.IonQ q with SampleIonK := b.SampleIonK }, c2), ?_, ?_, rfl⟩
        · have := initRFCav_weigh (w := b.IonQ) hi
          rw [← hab] at this
          rw [this]
        · rw [hab]
          rfl
    obtain ⟨k', h1, h2⟩ := hgo _ hf (by intro p; rfl)
    refine ⟨k', ?_, (forEach_ok.1 h1).length_eq.symm, h2⟩
    rw [h1]

theorem misalign_weigh (d : MDat) (r p : Particle) (w : ℝ) : getMisalign d r (weigh w p) = getMisalign d r p := rfl

theorem cavLoop_eq (cav : Cav) (ref : Particle) : ∀ (Ts : List Mat) (ms : List (Mat × Mat)) (ps : List Particle)
    (es : List (Particle × Particle)) (vs : List Vec) (Ss : List Mat),
    cavLoop cav ref Ts ms ps es vs Ss = (Ts.zip (ms.zip (ps.zip (es.zip (vs.zip Ss))))).map
      (fun q => cavOne cav ref q.1 q.2.1 q.2.2.1 q.2.2.2.1.1 q.2.2.2.1.2 q.2.2.2.2.1 q.2.2.2.2.2)
  | T :: Ts, m :: ms, p :: ps, e :: es, v :: vs, S :: Ss => by
    simp only [cavLoop, List.zip_cons_cons, List.map_cons, cavLoop_eq cav ref Ts ms ps es vs Ss]
  | [], _, _, _, _, _ => rfl
  | _ :: _, [], _, _, _, _ => rfl
  | _ :: _, _ :: _, [], _, _, _ => rfl
  | _ :: _, _ :: _, _ :: _, [], _, _ => rfl
  | _ :: _, _ :: _, _ :: _, _ :: _, [], _ => rfl
  | _ :: _, _ :: _, _ :: _, _ :: _, _ :: _, [] => rfl

theorem cavGrown_iff (cav : Cav) (ref : Particle) : ∀ (Ts : List Mat) (ms : List (Mat × Mat)) (ps : List Particle)
    (es : List (Particle × Particle)) (vs : List Vec) (Ss : List Mat),
    cavGrown cav ref Ts ms ps es vs Ss ↔ ∀ q ∈ Ts.zip (ms.zip (ps.zip (es.zip (vs.zip Ss)))),
      grownOne cav ref q.1 q.2.1 q.2.2.1 q.2.2.2.1.1 q.2.2.2.1.2 q.2.2.2.2.1 q.2.2.2.2.2
  | T :: Ts, m :: ms, p :: ps, e :: es, v :: vs, S :: Ss => by
    simp only [cavGrown, List.zip_cons_cons, List.forall_mem_cons, cavGrown_iff cav ref Ts ms ps es vs Ss]
  | [], _, _, _, _, _ => by simp [cavGrown]
  | _ :: _, [], _, _, _, _ => by simp [cavGrown]
  | _ :: _, _ :: _, [], _, _, _ => by simp [cavGrown]
  | _ :: _, _ :: _, _ :: _, [], _, _ => by simp [cavGrown]
  | _ :: _, _ :: _, _ :: _, _ :: _, [], _ => by simp [cavGrown]
  | _ :: _, _ :: _, _ :: _, _ :: _, _ :: _, [] => by simp [cavGrown]

theorem cavOne_weigh (cav : Cav) (ref : Particle) (T : Mat) (m : Mat × Mat) (p a b : Particle) (v : Vec) (S : Mat) (x y z : ℝ) :
    cavOne cav ref T m (weigh x p) (weigh y a) (weigh z b) v S = cavOne cav ref T m p a b v S := rfl

theorem grownOne_weigh (cav : Cav) (ref : Particle) (T : Mat) (m : Mat × Mat) (p a b : Particle) (v : Vec) (S : Mat) (x y z : ℝ) :
    grownOne cav ref T m (weigh x p) (weigh y a) (weigh z b) v S ↔ grownOne cav ref T m p a b v S := Iff.rfl

/-- The forward part of a cavity for a part of the beam. -/
theorem cavForward_part {env : Env} {cav cav' : Cav} {d d' : MDat} {S S' : MSt} {f : Nat → Nat} (hP : Part f S S')
    (hcav : cav' = { cav with misalign := cav'.misalign }) (hmis : Sub f Eq cav.misalign cav'.misalign)
    (hT : Sub f Eq d.transfer d'.transfer) (hin : Sub f Weighed d.realIn d'.realIn) (hout : Sub f Weighed d.realOut d'.realOut)
    (hl : d'.length = d.length) (e1 : d.realOut.length = d.realIn.length) (e2 : d'.realOut.length = d'.realIn.length)
    (hok : cavFault env cav d S = none) :
    cavFault env cav' d' S' = none ∧ Part f (cavForward env cav d S).2 (cavForward env cav' d' S').2 := by
  have hends : Sub f (fun a b => Weighed a.1 b.1 ∧ Weighed a.2 b.2) (ends env d) (ends env d') := by
    unfold ends
    rw [e1, e2, Nat.sub_self, Nat.sub_self]
    simpa using hin.zip hout
  have hz := hT.zip (hmis.zip (hP.real.zip (hends.zip (hP.m0.zip hP.m1))))
  have hgr : ∀ T m p a b v S, grownOne cav' S'.ref T m p a b v S ↔ grownOne cav S'.ref T m p a b v S := by
    intro T m p a b v S
    rw [hcav]
    exact Iff.rfl
  have hone : ∀ T m p a b v S, cavOne cav' S'.ref T m p a b v S = cavOne cav S'.ref T m p a b v S := by
    intro T m p a b v S
    rw [hcav]
    rfl
  constructor
  · unfold cavFault at hok ⊢
    rw [if_pos]
    split at hok
    · rename_i hg
      rw [cavGrown_iff] at hg ⊢
      intro q hq
      obtain ⟨j, hj⟩ := List.getElem?_of_mem hq
      obtain ⟨a, ha, h1, h2, h3, ⟨h4, h5⟩, h6, h7⟩ := hz j q hj
      have := hg a (List.mem_of_getElem? ha)
      rw [hgr, ← h1, ← h2, ← h6, ← h7, hP.ref]
      rw [Weighed] at h3 h4 h5
      rw [h3, h4, h5, grownOne_weigh]
      exact this
    · cases hok
  · have hloop : Sub f Eq (cavLoop cav S.ref d.transfer cav.misalign S.real (ends env d) S.moment0 S.moment1)
        (cavLoop cav' S'.ref d'.transfer cav'.misalign S'.real (ends env d') S'.moment0 S'.moment1) := by
      rw [cavLoop_eq, cavLoop_eq]
      refine hz.map ?_
      rintro a b ⟨h1, h2, h3, ⟨h4, h5⟩, h6, h7⟩
      rw [hone, ← h1, ← h2, ← h6, ← h7, hP.ref]
      rw [Weighed] at h3 h4 h5
      rw [h3, h4, h5, cavOne_weigh]
    refine ⟨?_, hP.ref, ?_, hP.real, hloop.map (fun a b h => by rw [h]), hloop.map (fun a b h => by rw [h]),
      hloop.map (fun a b h => by rw [h])⟩
    · show S'.pos + d'.length = S.pos + d.length
      rw [hP.pos, hl]
    · show caviphi env cav' = caviphi env cav
      rw [hcav]
      rfl

theorem cavForward_complete {env : Env} {cav : Cav} {d : MDat} {S : MSt} (hC : Spec.Complete S) (h1 : d.transfer.length = S.real.length)
    (h2 : cav.misalign.length = S.real.length) (h3 : d.realIn.length = S.real.length) (h4 : d.realOut.length = S.real.length) :
    Spec.Complete (cavForward env cav d S).2 := by
  have he : (ends env d).length = S.real.length := by
    simp [ends, h3, h4]
  have hl : (cavLoop cav S.ref d.transfer cav.misalign S.real (ends env d) S.moment0 S.moment1).length = S.real.length := by
    rw [cavLoop_eq]
    simp [h1, h2, he, hC.moment0, hC.moment1]
  exact ⟨(List.length_map _).trans hl, (List.length_map _).trans hl, (List.length_map _).trans hl⟩

theorem advanceCavity_part {env : Env} {files : Files} {d : MDat} {cav : Cav} {f : Nat → Nat} {s s' : St MSt} (hcav : d.cav = some cav)
    (h0 : d.refIn = none) (ht : getStr d.conf "cavtype" = .ok cav.cavType)
    (hg : cav.cavType = "Generic" → ∃ f, getStr d.conf "datafile" = .ok f ∧
      cav.dataFile = getStrD d.conf "Eng_Data_Dir" "." ++ "/" ++ f)
    (hr : s.retreat = false) (hr' : s'.retreat = false) (hc : Spec.Complete s.payload) (hc' : Spec.Complete s'.payload)
    (hp : Part f s.payload s'.payload) (hok : (advanceCavity env files d s).2.2 = none) :
    (advanceCavity env files d s').2.2 = none ∧
      Part f (advanceCavity env files d s).2.1.payload (advanceCavity env files d s').2.1.payload ∧
      Spec.Complete (advanceCavity env files d s).2.1.payload ∧ Spec.Complete (advanceCavity env files d s').2.1.payload := by
  have hcr : ∀ {S : MSt}, Spec.Complete S → Spec.Complete S.recalc := fun h =>
    ⟨by simpa [MSt.recalc] using h.moment0, by simpa [MSt.recalc] using h.moment1, by simpa [MSt.recalc] using h.transmat⟩
  have hP := hp.recalc
  have hC := hcr hc
  have hC' := hcr hc'
  unfold advanceCavity at hok ⊢
  simp only [hcav, hr, hr', Bool.false_eq_true, if_false, if_neg (miss _ h0)] at hok ⊢
  generalize s.payload.recalc = S at *
  generalize s'.payload.recalc = S' at *
  rw [reload_same ht hg] at hok ⊢
  rw [reload_same ht hg]
  dsimp only at hok ⊢
  have hmm : ∀ (m : List (Mat × Mat)) (r : Particle) (l : List Particle),
      recomputeCav d.conf { cav with misalign := m } r l = recomputeCav d.conf cav r l := fun m r l =>
    recomputeCav_cov (cd := cav) (o := { cav with misalign := m }) (fun _ => ⟨rfl, rfl, rfl⟩) d.conf r l
  simp only [hmm] at hok ⊢
  cases hR : recomputeCav d.conf cav S.ref S.real with
  | error e => rw [hR] at hok; cases hok
  | ok x =>
    obtain ⟨ref, phi, k⟩ := x
    obtain ⟨k', hk1, hk2, hk3⟩ := recomputeCav_part hP.real hR
    have hkl := recomputeCav_length hR
    rw [hR] at hok
    rw [hP.ref, hk1]
    try rw [hR]
    dsimp only at hok ⊢
    have hm2 : ∀ (d1 : MDat) (l : List Particle), (∀ r p, getMisalign d1 r p = getMisalign d r p) →
        forEach (fun p => getMisalign d1 ref p) l = forEach (fun p => getMisalign d ref p) l := by
      intro d1 l h1
      simp only [h1]
    have hd1 := hm2 { d with
      refIn := some S.ref, realIn := S.real, transfer := resize S.real.length d.transfer
      cav := some { cav with misalign := resizeMis S.real.length cav.misalign } }
    have hd2 := hm2 { d with
      refIn := some S.ref, realIn := S'.real, transfer := resize S'.real.length d.transfer
      cav := some { cav with misalign := resizeMis S'.real.length cav.misalign } }
    rw [hd1 _ (fun _ _ => rfl)] at hok
    rw [hd1 _ (fun _ _ => rfl)]
    rw [hd2 _ (fun _ _ => rfl)]
    cases hM : forEach (fun p => getMisalign d ref p) (k.map (fun q => q.1)) with
    | error e => rw [hM] at hok; cases hok
    | ok mis =>
      rw [hM] at hok
      have hk4 : Sub f Weighed (k.map (fun q => q.1)) (k'.map (fun q => q.1)) := hk3.map (fun a b h => h.1)
      obtain ⟨mis', hM', hms⟩ := hk4.each (Q := Eq) (g' := fun p => getMisalign d ref p) hM
        (fun a b c hab hc => ⟨c, by rw [Weighed] at hab; rw [hab, misalign_weigh]; exact hc, rfl⟩)
      rw [hM']
      dsimp only at hok ⊢
      have hml := (forEach_ok.1 hM).length_eq
      have hml' := (forEach_ok.1 hM').length_eq
      rw [List.length_map] at hml hml'
      have hk5 : Sub f Weighed (((k.map (fun q => q.1))).map Particle.recalc) ((k'.map (fun q => q.1)).map Particle.recalc) :=
        hk4.map (fun a b h => h.recalc)
      obtain ⟨g1, g2⟩ := cavForward_part (env := env) (f := f)
        (cav := { cav with phiRef := some phi, misalign := mis }) (cav' := { cav with phiRef := some phi, misalign := mis' })
        (d := { d with
          refIn := some S.ref, realIn := S.real, transfer := k.map (fun q => q.2), refOut := ref.recalc
          realOut := (k.map (fun q => q.1)).map Particle.recalc, cav := some { cav with phiRef := some phi, misalign := mis } })
        (d' := { d with
          refIn := some S.ref, realIn := S'.real, transfer := k'.map (fun q => q.2), refOut := ref.recalc
          realOut := (k'.map (fun q => q.1)).map Particle.recalc, cav := some { cav with phiRef := some phi, misalign := mis' } })
        (S := MSt.recalc { S with ref := ref, real := k.map (fun q => q.1) })
        (S' := MSt.recalc { S' with ref := ref, real := k'.map (fun q => q.1) })
        ⟨hP.pos, rfl, hP.phi, hk5, hP.m0, hP.m1, hP.tm⟩ rfl hms (hk3.map (fun a b h => h.2)) hP.real hk5 rfl
        (by simp [hkl]) (by simp [hk2]) hok
      refine ⟨g1, g2, ?_, ?_⟩
      · refine cavForward_complete ⟨?_, ?_, ?_⟩ ?_ ?_ ?_ ?_
        all_goals simp [MSt.recalc, hkl, ← hml, hC.moment0, hC.moment1, hC.transmat]
      · refine cavForward_complete ⟨?_, ?_, ?_⟩ ?_ ?_ ?_ ?_
        all_goals simp [MSt.recalc, hk2, ← hml', hC'.moment0, hC'.moment1, hC'.transmat]

/-! ## two runs -/

section general
variable {C X S : Type}

/-- Two forward runs over the same elements, which meet every element for the first time: if the first one succeeds, so does the
second one, and they stay related. -/
theorem run_part {E : Nat → Elem C X S → Prop} {R : S → S → Prop}
    (hk : ∀ j e, E j e → Keeps e.cls)
    (hstep : ∀ j e (s s' : St S), E j e → s.retreat = false → s'.retreat = false → R s.payload s'.payload →
      (e.cls.advance e.dat s).2.2 = none → (e.cls.advance e.dat s').2.2 = none ∧
        R (e.cls.advance e.dat s).2.1.payload (e.cls.advance e.dat s').2.1.payload)
    (n : Nat) : ∀ (els els' : List (Elem C X S)) (s s' : St S), els.length < sizeMod → els'.length = els.length →
      (∀ j, s.nextElem ≤ j → els'[j]? = els[j]?) → (∀ j e, s.nextElem ≤ j → els[j]? = some e → E j e) →
      s'.nextElem = s.nextElem → s.retreat = false → s'.retreat = false → R s.payload s'.payload →
      (run n els s).err = none →
      (run n els' s').err = none ∧ R (run n els s).st.payload (run n els' s').st.payload ∧
        List.Forall₂ (Spec.Seen R) (run n els s).trace (run n els' s').trace := by
  induction n with
  | zero => intro els els' s s' _ _ _ _ hn _ _ hR _; exact ⟨rfl, hR, .nil⟩
  | succ n ih =>
    intro els els' s s' hl hl' he hE hn hr hr' hR hok
    have hpay : ∀ s : St S, (stepNext s).payload = s.payload := by intro s; unfold stepNext; split <;> rfl
    have hret : ∀ s : St S, (stepNext s).retreat = s.retreat := by intro s; unfold stepNext; split <;> rfl
    cases h : els[s.nextElem]? with
    | none =>
      rw [run_succ_none h, run_succ_none (by rw [hn, he _ (le_refl _)]; exact h)]
      exact ⟨rfl, hR, .nil⟩
    | some e =>
      have h' : els'[s'.nextElem]? = some e := by rw [hn, he _ (le_refl _)]; exact h
      have hEe := hE _ e (le_refl _) h
      have hlt : s.nextElem < els.length := lt_of_get h
      cases h3 : (e.cls.advance e.dat (stepNext s)).2.2 with
      | some x => rw [run_succ_err h h3] at hok; cases hok
      | none =>
        obtain ⟨g1, g2⟩ := hstep _ e (stepNext s) (stepNext s') hEe (by rw [hret]; exact hr) (by rw [hret]; exact hr')
          (by rw [hpay, hpay]; exact hR) h3
        obtain ⟨k1, k2⟩ := hk _ e hEe e.dat (stepNext s)
        obtain ⟨k1', k2'⟩ := hk _ e hEe e.dat (stepNext s')
        have hup : ∀ s : St S, s.retreat = false → s.nextElem < els.length → (stepNext s).nextElem = s.nextElem + 1 := by
          intro s hs hlt
          unfold stepNext
          rw [if_neg (by rw [hs]; simp)]
          exact Nat.mod_eq_of_lt (by omega)
        rw [hup s hr hlt] at k1
        rw [hup s' hr' (by omega), hn] at k1'
        rw [hret, hr] at k2
        rw [hret, hr'] at k2'
        rw [run_succ_ok h h3] at hok ⊢
        rw [run_succ_ok h' g1]
        dsimp only at hok ⊢
        obtain ⟨i1, i2, i3⟩ := ih (els.set s.nextElem { e with dat := (e.cls.advance e.dat (stepNext s)).1 })
          (els'.set s'.nextElem { e with dat := (e.cls.advance e.dat (stepNext s')).1 })
          (e.cls.advance e.dat (stepNext s)).2.1 (e.cls.advance e.dat (stepNext s')).2.1 (by rwa [List.length_set])
          (by rw [List.length_set, List.length_set]; exact hl')
          (by
            intro j hj
            rw [k1] at hj
            rw [List.getElem?_set_ne (by omega), List.getElem?_set_ne (by omega)]
            exact he j (by omega))
          (by
            intro j e' hj hj'
            rw [k1] at hj
            rw [List.getElem?_set_ne (by omega)] at hj'
            exact hE j e' (by omega) hj')
          (by rw [k1, k1']) k2 k2' g2 hok
        refine ⟨i1, i2, ?_⟩
        rw [List.cons_append, List.cons_append]
        refine .cons (by rw [hn]; exact .visit _) ?_
        refine List.rel_append ?_ i3
        unfold viewEvents
        cases e.obs with
        | none => exact .nil
        | some o => exact .cons (.view _ _ g2 (by rw [k1, k1']) (by rw [k2, k2'])) .nil

end general

/-- A pass keeps the number of charge states. -/
theorem count_of_tags {S S' : MSt} (h : tags S' = tags S) : S'.real.length = S.real.length := by
  have := congrArg List.length (congrArg Prod.snd h)
  simpa [tags] using this

/-- C84: charge states do not influence each other.  A machine is built from a lattice, and a beam is sent forward from element
`start` on; there is neither a source nor a stripper in the range.  If the beam passes without an exception, so does any beam of
some of its charge states, with whatever weights; everywhere and at the end each of them has the energy, phase, centroid,
covariance and matrix that it has in the whole beam, none is lost, and the reference particle is the same. -/
theorem C84_part {env : Env} {files : Files} {junk : Mat} {base : Nat} (cv : CView LCfg) (c : LCfg)
    (m : Machine LCfg MDat MSt)
    (h : Machine.new cv (registry env junk base (cavityCls env files junk base) (stripperCls env junk base)) c = .ok m)
    (es : List LCfg) (hes : cv.elems c = .ok es) (hl : es.length < sizeMod) (start : Nat) (max : Int) (hm : 0 ≤ max)
    (hns : ∀ j ec, start ≤ j → es[j]? = some ec → cv.str ec "type" ≠ .ok "source" ∧ cv.str ec "type" ≠ .ok "stripper")
    (f : Nat → Nat) (s s' : St MSt) (hc : Spec.Complete s.payload) (hc' : Spec.Complete s'.payload)
    (hp : Spec.PartOf f s.payload s'.payload) :
    ∃ r r', propagate m.elems s start max = some r ∧ propagate m.elems s' start max = some r' ∧
      (r.err = none → r'.err = none ∧
        Spec.PartOf f r.st.payload r'.st.payload ∧ r'.st.payload.real.length = s'.payload.real.length ∧
        List.Forall₂ (Spec.Seen (fun a b => Spec.PartOf f a b ∧ b.real.length = s'.payload.real.length)) r.trace r'.trace) := by
  have hF := machine_moment h hes
  have hlen := hF.length_eq
  have hall := fun j e (hj : m.elems[j]? = some e) => forall₂_get hF hj
  let R : MSt → MSt → Prop := fun S S' => (Part f S S' ∧ Spec.Complete S ∧ Spec.Complete S') ∧
    S'.real.length = s'.payload.real.length
  let E : Nat → Elem LCfg MDat MSt → Prop := fun j e => start ≤ j ∧ m.elems[j]? = some e
  have hk : ∀ j e, E j e → Keeps e.cls := by
    rintro j e ⟨h1, h2⟩
    obtain ⟨ec, hec, ty, hty, ⟨t, ht, htn, hb⟩ | ⟨ht, -, hb⟩ | ⟨ht, -, hb⟩⟩ := hall j e h2
    · rw [ht]
      refine (measured_cls env junk base t ?_).1
      rintro rfl
      exact (hns j ec h1 hec).1 (by rw [hty, ← htn]; rfl)
    · rw [ht]
      exact (measured_cavity env files junk base _ _ hb).2.1
    · rw [ht]
      exact (measured_stripper env junk base _ _ hb).2.1
  have hstep : ∀ j e (s s' : St MSt), E j e → s.retreat = false → s'.retreat = false → R s.payload s'.payload →
      (e.cls.advance e.dat s).2.2 = none → (e.cls.advance e.dat s').2.2 = none ∧
        R (e.cls.advance e.dat s).2.1.payload (e.cls.advance e.dat s').2.1.payload := by
    rintro j e s s' ⟨h1, h2⟩ hr hr' ⟨⟨hP, hC, hC'⟩, hn⟩ hok
    obtain ⟨ec, hec, ty, hty, ⟨t, ht, htn, hb⟩ | ⟨ht, rfl, hb⟩ | ⟨ht, rfl, hb⟩⟩ := hall j e h2
    · have hts : t ≠ .source := by
        rintro rfl
        exact (hns j ec h1 hec).1 (by rw [hty, ← htn]; rfl)
      rw [ht] at hok ⊢
      obtain ⟨a1, a2⟩ := advance_part (env := env) (t := t) hts (build_length hb).2.2.1 hr hr' hC hC' hP hok
      exact ⟨a1, a2, (count_of_tags (advance_tags (env := env) (t := t) hts (build_length hb).2.2.1 hr')).trans hn⟩
    · rw [ht] at hok ⊢
      obtain ⟨d0, cav, hd0, hload, hdat⟩ := loadCavity_ok (show buildCavity env files junk ec = .ok e.dat from hb)
      obtain ⟨l1, -, l3, l4⟩ := loadCavity_map hload
      have hconf : e.dat.conf = ec := by rw [hdat]; exact (build_length hd0).2.1
      have hnone : e.dat.refIn = none := by rw [hdat]; exact (build_length hd0).2.2.1
      have hcv : e.dat.cav = some cav := by rw [hdat]
      obtain ⟨a1, a2⟩ := advanceCavity_part (env := env) (files := files) hcv hnone
        (by rw [hconf]; exact l3) (by rw [hconf]; exact l4) hr hr' hC hC' hP hok
      exact ⟨a1, a2, (count_of_tags (advanceCavity_tags (env := env) (files := files) hnone hr')).trans hn⟩
    · exact absurd hty (hns j ec h1 hec).2
  have hm' : max ≠ -2 ^ 31 := by omega
  refine ⟨_, _, propagate_eq m.elems s start max hm', propagate_eq m.elems s' start max hm', fun hok => ?_⟩
  have hret : decide (max < 0) = false := by simp; omega
  have hfin : ∀ a b, R a b → Spec.PartOf f a b ∧ b.real.length = s'.payload.real.length :=
    fun a b h => ⟨(part_iff h.1.2.2).2 h.1.1, h.2⟩
  obtain ⟨r1, r2, r3⟩ := run_part (E := E) (R := R) hk hstep max.natAbs m.elems m.elems
    { s with nextElem := start, retreat := decide (max < 0) } { s' with nextElem := start, retreat := decide (max < 0) }
    (by rw [← hlen]; exact hl) rfl (fun _ _ => rfl) (fun j e h1 h2 => ⟨h1, h2⟩) rfl hret hret
    ⟨⟨(part_iff hc').1 hp, hc, hc'⟩, rfl⟩ hok
  exact ⟨r1, (hfin _ _ r2).1, (hfin _ _ r2).2, r3.imp (fun _ _ h => Seen.mono hfin h)⟩

/-- C84, the other way to say it: two beams with the same reference particle share a charge state, number `i` of the one and number
`j` of the other, and differ otherwise in any way.  If both pass the same range without an exception, they share it afterwards, and
have the same reference particle. -/
theorem C84_shared {env : Env} {files : Files} {junk : Mat} {base : Nat} (cv : CView LCfg) (c : LCfg)
    (m : Machine LCfg MDat MSt)
    (h : Machine.new cv (registry env junk base (cavityCls env files junk base) (stripperCls env junk base)) c = .ok m)
    (es : List LCfg) (hes : cv.elems c = .ok es) (hl : es.length < sizeMod) (start : Nat) (max : Int) (hm : 0 ≤ max)
    (hns : ∀ j ec, start ≤ j → es[j]? = some ec → cv.str ec "type" ≠ .ok "source" ∧ cv.str ec "type" ≠ .ok "stripper")
    (i j : Nat) (s s' : St MSt) (hc : Spec.Complete s.payload) (hc' : Spec.Complete s'.payload)
    (h1 : s'.payload.pos = s.payload.pos) (h2 : s'.payload.ref = s.payload.ref)
    (h3 : s'.payload.last_caviphi0 = s.payload.last_caviphi0) (h4 : Spec.SameState s.payload i s'.payload j) :
    ∃ r r', propagate m.elems s start max = some r ∧ propagate m.elems s' start max = some r' ∧
      (r.err = none → r'.err = none → r'.st.payload.pos = r.st.payload.pos ∧ r'.st.payload.ref = r.st.payload.ref ∧
        r'.st.payload.last_caviphi0 = r.st.payload.last_caviphi0 ∧ Spec.SameState r.st.payload i r'.st.payload j) := by
  obtain ⟨p, q, hp, hq, hpq⟩ := h4.particle
  have hi := lt_of_get hp
  have e0 := List.getElem?_eq_getElem (l := s.payload.moment0) (i := i) (by rw [hc.moment0]; exact hi)
  have e1 := List.getElem?_eq_getElem (l := s.payload.moment1) (i := i) (by rw [hc.moment1]; exact hi)
  have e2 := List.getElem?_eq_getElem (l := s.payload.transmat) (i := i) (by rw [hc.transmat]; exact hi)
  let t : St MSt := { s with payload := { s.payload with
    real := [p]
    moment0 := [s.payload.moment0[i]'(by rw [hc.moment0]; exact hi)]
    moment1 := [s.payload.moment1[i]'(by rw [hc.moment1]; exact hi)]
    transmat := [s.payload.transmat[i]'(by rw [hc.transmat]; exact hi)] } }
  have hct : Spec.Complete t.payload := ⟨rfl, rfl, rfl⟩
  have t1 : Spec.PartOf (fun _ => i) s.payload t.payload := by
    refine ⟨rfl, rfl, rfl, fun k hk => ?_⟩
    obtain rfl : k = 0 := by simp [t] at hk; omega
    exact ⟨⟨p, p, hp, rfl, weighed_iff.2 rfl⟩, e0.symm, e1.symm, e2.symm⟩
  have t2 : Spec.PartOf (fun _ => j) s'.payload t.payload := by
    refine ⟨h1.symm, h2.symm, h3.symm, fun k hk => ?_⟩
    obtain rfl : k = 0 := by simp [t] at hk; omega
    refine ⟨⟨q, p, hq, rfl, ?_⟩, (h4.moment0.trans e0).symm, (h4.moment1.trans e1).symm, (h4.transmat.trans e2).symm⟩
    obtain ⟨a1, a2, a3, a4, a5, a6, a7, a8, a9, a10, a11⟩ := hpq
    exact ⟨a1.symm, a2.symm, a3.symm, a4.symm, a5.symm, a6.symm, a7.symm, a8.symm, a9.symm, a10.symm, a11.symm⟩
  obtain ⟨r, rt, p1, p2, p3⟩ := C84_part cv c m h es hes hl start max hm hns _ s t hc hct t1
  obtain ⟨r', rt', p1', p2', p3'⟩ := C84_part cv c m h es hes hl start max hm hns _ s' t hc' hct t2
  rw [p2] at p2'
  cases p2'
  refine ⟨r, r', p1, p1', fun ho ho' => ?_⟩
  obtain ⟨-, q1, q2, -⟩ := p3 ho
  obtain ⟨-, q1', -, -⟩ := p3' ho'
  have hn : 0 < rt.st.payload.real.length := by rw [q2]; exact Nat.one_pos
  have w := q1.states 0 hn
  have w' := q1'.states 0 hn
  refine ⟨q1'.pos.symm.trans q1.pos, q1'.ref.symm.trans q1.ref, q1'.last_caviphi0.symm.trans q1.last_caviphi0, ?_,
    w'.moment0.symm.trans w.moment0, w'.moment1.symm.trans w.moment1, w'.transmat.symm.trans w.transmat⟩
  obtain ⟨x, y, x1, x2, a1, a2, a3, a4, a5, a6, a7, a8, a9, a10, a11⟩ := w.particle
  obtain ⟨x', y', x1', x2', b1, b2, b3, b4, b5, b6, b7, b8, b9, b10, b11⟩ := w'.particle
  rw [x2] at x2'
  cases x2'
  exact ⟨x, x', x1, x1', b1.symm.trans a1, b2.symm.trans a2, b3.symm.trans a3, b4.symm.trans a4, b5.symm.trans a5,
    b6.symm.trans a6, b7.symm.trans a7, b8.symm.trans a8, b9.symm.trans a9, b10.symm.trans a10, b11.symm.trans a11⟩

/-- A beam of two charge states. -/
noncomputable def exBoth : St MSt :=
  { nextElem := 0, retreat := false, payload :=
    { pos := 0, ref := exParticle, real := [exParticle, { exParticle with IonZ := 2 }], moment0 := [fun _ => 1, fun _ => 1]
      moment1 := [1, 2], transmat := [1, 1], moment0_env := 0, moment0_rms := 0, moment1_env := 0, last_caviphi0 := 0 } }

/-- The second of them alone, with five times the weight. -/
noncomputable def exAlone : St MSt :=
  { nextElem := 0, retreat := false, payload :=
    { pos := 0, ref := exParticle, real := [{ exParticle with IonZ := 2, IonQ := 5 }], moment0 := [fun _ => 1]
      moment1 := [2], transmat := [1], moment0_env := 0, moment0_rms := 0, moment1_env := 0, last_caviphi0 := 0 } }

/-- These beams and the machine of a drift and a cavity meet the hypotheses of `C84_part` and `C84_shared`. -/
example (env : Env) (junk : Mat) : ∃ m es, Machine.new exCavView
      (registry env junk 0 (cavityCls env exFiles junk 0) (stripperCls env junk 0))
      (fun k => if k = "sim_type" then some (.str "MomentMatrix") else none) = .ok m ∧
    exCavView.elems (fun k => if k = "sim_type" then some (.str "MomentMatrix") else none) = .ok es ∧ es.length = 2 ∧
    (∀ (j : Nat) ec, 0 ≤ j → es[j]? = some ec → exCavView.str ec "type" ≠ .ok "source" ∧ exCavView.str ec "type" ≠ .ok "stripper") ∧
    Spec.Complete exBoth.payload ∧ Spec.Complete exAlone.payload ∧ Spec.PartOf (fun _ => 1) exBoth.payload exAlone.payload ∧
    Spec.SameState exBoth.payload 1 exAlone.payload 0 := by
  obtain ⟨hk, hreg⟩ := registered_shipped env junk 0 (cavityCls env exFiles junk 0) (stripperCls env junk 0)
  have hb : ∃ d, buildCavity env exFiles junk exFull = .ok d := by
    unfold buildCavity
    rw [exFull_loads]
    exact ⟨_, rfl⟩
  obtain ⟨d, hd⟩ := hb
  obtain ⟨m, hm⟩ := (Flame.Mach.C18_success_iff exCavView
    (registry env junk 0 (cavityCls env exFiles junk 0) (stripperCls env junk 0))
    (fun k => if k = "sim_type" then some (.str "MomentMatrix") else none)).2 ⟨"MomentMatrix", _, rfl, hk, rfl, by
      simp only [List.mem_cons, List.not_mem_nil, or_false, forall_eq_or_imp, forall_eq]
      exact ⟨⟨"drift", _, "d", _, rfl, hreg _ _ rfl, rfl, rfl, rfl⟩, ⟨"rfcavity", _, "c", d, rfl, hreg _ _ rfl, rfl, rfl, hd⟩⟩⟩
  have hs : Spec.SameState exBoth.payload 1 exAlone.payload 0 :=
    ⟨⟨_, _, rfl, rfl, rfl, rfl, rfl, rfl, rfl, rfl, rfl, rfl, rfl, rfl, rfl⟩, rfl, rfl, rfl⟩
  refine ⟨m, _, hm, rfl, rfl, ?_, ⟨rfl, rfl, rfl⟩, ⟨rfl, rfl, rfl⟩, ⟨rfl, rfl, rfl, ?_⟩, hs⟩
  · intro j ec _ hj
    match j, hj with
    | 0, hj => cases hj; simp [exCavView]
    | 1, hj => cases hj; simp [exCavView, exFull]
  · intro j hj
    obtain rfl : j = 0 := by simp [exAlone] at hj; omega
    exact hs

end Flame.Cavity
