import Verif.Cavity.Alone
import Verif.Cavity.SpecDivide
import Mathlib.Algebra.BigOperators.Ring.Finset
import Mathlib.Data.List.GetD

/-!
# The division of a beam into charge states does not matter: C99
-/

namespace Flame.Cavity

open Flame.Mach (Cls St Err CView Machine propagate sizeMod Elem Run Event run visits stepNext viewEvents run_succ_none run_succ_err run_succ_ok propagate_eq)
open Flame.Linear (LVal LCfg getNum getNumD getVec)
open Flame.Moment Flame.Moment.Spec

/-! ## sums with the weights -/

theorem sum_range {α : Type} (l : List α) (g : α → ℝ) (F : Nat → ℝ) (h : ∀ (j : Nat) a, l[j]? = some a → g a = F j) :
    (l.map g).sum = ∑ j ∈ Finset.range l.length, F j := by
  induction l generalizing F with
  | nil => simp
  | cons a l ih =>
    rw [List.map_cons, List.sum_cons, List.length_cons, Finset.sum_range_succ', add_comm, h 0 a rfl,
      ih (fun j => F (j + 1)) (fun j b hb => h (j + 1) b hb)]

/-- The weight of charge state `i`. -/
noncomputable def wt (S : MSt) (i : Nat) : ℝ := (S.real.map (·.IonQ)).getD i 0

theorem wt_of {S : MSt} {i : Nat} {p : Particle} (h : S.real[i]? = some p) : wt S i = p.IonQ := by
  simp [wt, List.getD_eq_getElem?_getD, h]

theorem sum_weights {α : Type} [Inhabited α] (S : MSt) (l : List α) (hl : l.length = S.real.length) (φ : α → ℝ) :
    (List.zipWith (fun p a => p.IonQ * φ a) S.real l).sum =
      ∑ i ∈ Finset.range S.real.length, wt S i * φ (l.getD i default) := by
  rw [← List.map_uncurry_zip_eq_zipWith, sum_range _ _ (fun i => wt S i * φ (l.getD i default))]
  · rw [List.length_zip, hl, min_self]
  · rintro j ⟨p, a⟩ h
    rw [List.getElem?_zip_eq_some] at h
    simp [Function.uncurry, wt_of h.1, List.getD_eq_getElem?_getD, h.2]

/-- What the weights have to do with each other. -/
structure Div (f : Nat → Nat) (c : ℝ) (S S' : MSt) : Prop where
  unit : c ≠ 0
  part : Part f S S'
  all : ∀ i < S.real.length, ∃ j < S'.real.length, f j = i
  weight : ∀ i < S.real.length, Spec.weightOf f S' i = c * wt S i

theorem Div.below {f : Nat → Nat} {c : ℝ} {S S' : MSt} (h : Div f c S S') {j : Nat} (hj : j < S'.real.length) :
    f j < S.real.length := by
  obtain ⟨p, hp, -⟩ := h.part.real j _ (List.getElem?_eq_getElem hj)
  exact lt_of_get hp

/-- Sums over the charge states, each with its weight, differ by the unit of the weights. -/
theorem Div.sum {f : Nat → Nat} {c : ℝ} {S S' : MSt} (h : Div f c S S') {α : Type} [Inhabited α] {l l' : List α}
    (hl : l.length = S.real.length) (hl' : l'.length = S'.real.length) (hs : Sub f Eq l l') (φ : α → ℝ) :
    (List.zipWith (fun p a => p.IonQ * φ a) S'.real l').sum = c * (List.zipWith (fun p a => p.IonQ * φ a) S.real l).sum := by
  rw [sum_weights S' l' hl', sum_weights S l hl, Finset.mul_sum]
  have e1 : ∀ j ∈ Finset.range S'.real.length, wt S' j * φ (l'.getD j default) =
      ∑ i ∈ Finset.range S.real.length, if f j = i then wt S' j * φ (l.getD i default) else 0 := by
    intro j hj
    have hj := Finset.mem_range.1 hj
    have hb := h.below hj
    rw [Finset.sum_ite_eq, if_pos (Finset.mem_range.2 hb)]
    obtain ⟨a, ha, rfl⟩ := hs j _ (List.getElem?_eq_getElem (by rw [hl']; exact hj))
    rw [List.getD_eq_getElem?_getD, List.getD_eq_getElem?_getD, ha, List.getElem?_eq_getElem (by rw [hl']; exact hj)]
  rw [Finset.sum_congr rfl e1, Finset.sum_comm]
  refine Finset.sum_congr rfl (fun i hi => ?_)
  rw [← mul_assoc, ← h.weight i (Finset.mem_range.1 hi), Spec.weightOf, Finset.sum_mul]
  refine Finset.sum_congr rfl (fun j _ => ?_)
  split
  · rfl
  · rw [zero_mul]

theorem zipWith_map_self {α β γ : Type} (g : α → β → γ) (q : α → β) (l : List α) :
    List.zipWith g l (l.map q) = l.map (fun a => g a (q a)) := by
  induction l with
  | nil => rfl
  | cons a l ih => simp [ih]

theorem Div.total {f : Nat → Nat} {c : ℝ} {S S' : MSt} (h : Div f c S S') : totQ S'.real = c * totQ S.real := by
  have := h.sum (l := S.real.map (fun _ => (1 : ℝ))) (l' := S'.real.map (fun _ => (1 : ℝ))) (by simp) (by simp)
    (h.part.real.map (fun _ _ _ => rfl)) id
  rw [zipWith_map_self, zipWith_map_self] at this
  simpa [totQ] using this

theorem Div.recombined {f : Nat → Nat} {c : ℝ} {S S' : MSt} (h : Div f c S S') (q : Particle → ℝ)
    (hq : ∀ w p, q (weigh w p) = q p) : recombined S'.real q = recombined S.real q := by
  have := h.sum (l := S.real.map q) (l' := S'.real.map q) (by simp) (by simp)
    (h.part.real.map (fun a b hab => by rw [Weighed] at hab; rw [hab, hq])) id
  rw [zipWith_map_self, zipWith_map_self] at this
  simp only [id] at this
  rw [Moment.recombined, Moment.recombined, this, h.total, mul_div_mul_left _ _ h.unit]

theorem Div.env0 {f : Nat → Nat} {c : ℝ} {S S' : MSt} (h : Div f c S S') (hc : Spec.Complete S) (hc' : Spec.Complete S') :
    env0 S'.real S'.moment0 = env0 S.real S.moment0 := by
  funext k
  have := h.sum hc.moment0 hc'.moment0 h.part.m0 (fun v => v k)
  simp only [Moment.env0]
  simp only [mul_comm _ (Particle.IonQ _)]
  rw [this, h.total, mul_div_mul_left _ _ h.unit]

theorem Div.spread {f : Nat → Nat} {c : ℝ} {S S' : MSt} (h : Div f c S S') (hc : Spec.Complete S) (hc' : Spec.Complete S')
    (φ : Vec × Mat → ℝ) :
    (List.zipWith (fun p (q : Vec × Mat) => p.IonQ * φ q) S'.real (S'.moment0.zip S'.moment1)).sum / totQ S'.real =
      (List.zipWith (fun p (q : Vec × Mat) => p.IonQ * φ q) S.real (S.moment0.zip S.moment1)).sum / totQ S.real := by
  have : Inhabited (Vec × Mat) := ⟨(0, 0)⟩
  have := h.sum (l := S.moment0.zip S.moment1) (l' := S'.moment0.zip S'.moment1) (by simp [hc.moment0, hc.moment1])
    (by simp [hc'.moment0, hc'.moment1]) ((h.part.m0.zip h.part.m1).imp (fun a b hab => Prod.ext hab.1 hab.2)) φ
  rw [this, h.total, mul_div_mul_left _ _ h.unit]

theorem Div.env1 {f : Nat → Nat} {c : ℝ} {S S' : MSt} (h : Div f c S S') (hc : Spec.Complete S) (hc' : Spec.Complete S') :
    env1 S'.real S'.moment0 S'.moment1 = env1 S.real S.moment0 S.moment1 := by
  funext i j
  simp only [Moment.env1, h.env0 hc hc']
  split
  · exact h.spread hc hc' (fun q => q.2 i j + (q.1 i - Moment.env0 S.real S.moment0 i) * (q.1 j - Moment.env0 S.real S.moment0 j))
  · rfl

theorem Div.averages {f : Nat → Nat} {c : ℝ} {S S' : MSt} (h : Div f c S S') (hc : Spec.Complete S) (hc' : Spec.Complete S') :
    Spec.SameAverages S.calcRms S'.calcRms := by
  refine ⟨h.env0 hc hc', ?_, h.env1 hc hc'⟩
  simp only [MSt.calcRms, h.env1 hc hc']

/-! ## carried along -/

theorem Weighed.symm {p q : Particle} (h : Weighed p q) : Weighed q p := by
  rw [Weighed] at h
  rw [h]
  rfl

theorem Sub.back {α β : Type} {f g : Nat → Nat} {P : α → β → Prop} {Q : β → α → Prop} {l : List α} {l' : List β}
    (h : Sub f P l l') (hPQ : ∀ a b, P a b → Q b a) (hg : ∀ i < l.length, g i < l'.length ∧ f (g i) = i) : Sub g Q l' l := by
  intro i a ha
  obtain ⟨h1, h2⟩ := hg i (lt_of_get ha)
  obtain ⟨a', ha', hP⟩ := h (g i) _ (List.getElem?_eq_getElem h1)
  rw [h2, ha] at ha'
  cases ha'
  exact ⟨_, List.getElem?_eq_getElem h1, hPQ _ _ hP⟩

theorem Div.back {f : Nat → Nat} {c : ℝ} {S S' : MSt} (h : Div f c S S') (hc : Spec.Complete S) (hc' : Spec.Complete S') :
    ∃ g, Part g S' S := by
  have hx : ∀ i, ∃ j, i < S.real.length → j < S'.real.length ∧ f j = i := by
    intro i
    by_cases hi : i < S.real.length
    · obtain ⟨j, h1, h2⟩ := h.all i hi
      exact ⟨j, fun _ => ⟨h1, h2⟩⟩
    · exact ⟨0, fun hn => absurd hn hi⟩
  choose g hg using hx
  refine ⟨g, h.part.pos.symm, h.part.ref.symm, h.part.phi.symm, h.part.real.back (fun _ _ => Weighed.symm) hg, ?_, ?_, ?_⟩
  · exact h.part.m0.back (fun _ _ => Eq.symm) (by rw [hc.moment0, hc'.moment0]; exact hg)
  · exact h.part.m1.back (fun _ _ => Eq.symm) (by rw [hc.moment1, hc'.moment1]; exact hg)
  · exact h.part.tm.back (fun _ _ => Eq.symm) (by rw [hc.transmat, hc'.transmat]; exact hg)

theorem weights_of_tags {S T : MSt} (h : tags T = tags S) : T.real.map (·.IonQ) = S.real.map (·.IonQ) := by
  have := congrArg (List.map Prod.fst) (congrArg Prod.snd h)
  simpa [tags, Function.comp_def] using this

/-- Weights that stay. -/
theorem Div.carry {f : Nat → Nat} {c : ℝ} {S S' T T' : MSt} (h : Div f c S S') (hp : Part f T T') (ht : tags T = tags S)
    (ht' : tags T' = tags S') : Div f c T T' := by
  have hn := count_of_tags ht
  have hn' := count_of_tags ht'
  refine ⟨h.unit, hp, ?_, ?_⟩
  · rw [hn, hn']; exact h.all
  · intro i hi
    have := h.weight i (by omega)
    rw [Spec.weightOf, wt] at this ⊢
    rw [weights_of_tags ht, weights_of_tags ht', hn']
    exact this

theorem Div.recalc {f : Nat → Nat} {c : ℝ} {S S' : MSt} (h : Div f c S S') : Div f c S.recalc S'.recalc :=
  h.carry h.part.recalc (tags_recalc _) (tags_recalc _)

theorem Div.calcRms {f : Nat → Nat} {c : ℝ} {S S' : MSt} (h : Div f c S S') : Div f c S.calcRms S'.calcRms :=
  h.carry h.part.calcRms rfl rfl

theorem Sub.refl {α : Type} {P : α → α → Prop} (hP : ∀ a, P a a) (l : List α) : Sub id P l l := fun _ b hb => ⟨b, hb, hP b⟩

theorem Div.refl (S : MSt) : Div id 1 S S := by
  refine ⟨one_ne_zero, ⟨rfl, rfl, rfl, Sub.refl (fun p => show Weighed p p from rfl) _, Sub.refl (fun _ => rfl) _, Sub.refl (fun _ => rfl) _,
    Sub.refl (fun _ => rfl) _⟩, fun i hi => ⟨i, hi, rfl⟩, fun i hi => ?_⟩
  rw [Spec.weightOf, one_mul, wt]
  simp only [id]
  rw [Finset.sum_ite_eq', if_pos (Finset.mem_range.2 hi)]

/-! ## one element -/

theorem advanceCavity_rms {env : Env} {files : Files} {d : MDat} {s : St MSt} (h0 : d.refIn = none) (hr : s.retreat = false)
    (hok : (advanceCavity env files d s).2.2 = none) :
    (advanceCavity env files d s).2.1.payload.calcRms = (advanceCavity env files d s).2.1.payload := by
  generalize h : advanceCavity env files d s = x at hok ⊢
  obtain ⟨d', s', e⟩ := x
  cases hok
  obtain ⟨cav0, -, ⟨hh, -⟩ | ⟨-, cav, ref, phi, l, mis, -, hrec, hmis, -, rfl, rfl⟩⟩ := forward_cases hr h
  · exact absurd hh (miss _ h0)
  · rfl

theorem advance_rms {env : Env} {t : MType} {d : MDat} {s : St MSt} (ht : t ≠ .source) (h0 : Sized d) (hc : Spec.Complete s.payload)
    (hok : (advance env t d s).2.2 = none) :
    (advance env t d s).2.1.payload.calcRms = (advance env t d s).2.1.payload := by
  generalize h : advance env t d s = x at hok ⊢
  obtain ⟨d', s', e⟩ := x
  cases hok
  exact (advance_moved env t d d' s s' ht h0 ⟨hc.moment0, hc.moment1, hc.transmat⟩ h).2.2.1

/-- The lists of a beam of no charge states, and the first charge state. -/
theorem Div.first {f : Nat → Nat} {c : ℝ} {S S' : MSt} (h : Div f c S S') (hf : f 0 = 0) :
    (S.real = [] ∧ S'.real = []) ∨ ∃ p l q l', S.real = p :: l ∧ S'.real = q :: l' ∧ Weighed p q := by
  cases hr' : S'.real with
  | nil =>
    left
    refine ⟨?_, rfl⟩
    cases hr : S.real with
    | nil => rfl
    | cons p l =>
      obtain ⟨j, hj, -⟩ := h.all 0 (by rw [hr]; simp)
      rw [hr'] at hj
      simp at hj
  | cons q l' =>
    right
    obtain ⟨p, hp, hw⟩ := h.part.real 0 q (by rw [hr']; rfl)
    rw [hf] at hp
    cases hr : S.real with
    | nil => rw [hr] at hp; cases hp
    | cons p' l =>
      rw [hr] at hp
      cases hp
      exact ⟨p, l, q, l', rfl, rfl, hw⟩

theorem stripped_div {F : Foil} {chg w : List ℝ} {f : Nat → Nat} {c : ℝ} {S S' : MSt} (h : Div f c S S') (hc : Spec.Complete S)
    (hc' : Spec.Complete S') (ha : Spec.SameAverages S S') : stripped F chg w S' = stripped F chg w S := by
  have e1 := h.recombined (·.IonEk) (fun _ _ => rfl)
  have e2 := h.recombined (·.phis) (fun _ _ => rfl)
  have e3 : recombinedCov S' = recombinedCov S := by
    funext i j
    simp only [recombinedCov, ha.mean]
    exact h.spread hc hc' (fun q => q.2 i j + (q.1 i - S.moment0_env i) * (q.1 j - S.moment0_env j))
  simp only [stripped, MSt.calcRms, e1, e2, e3, ha.mean, h.part.pos, h.part.ref, h.part.phi]

theorem stripperGetMat_div {C : LCfg} {f : Nat → Nat} {c : ℝ} {S S' : MSt} (h : Div f c S S') (hc : Spec.Complete S)
    (hc' : Spec.Complete S') (ha : Spec.SameAverages S S') (hf : f 0 = 0 ∨ C "charge_model" = some (.str "off")) :
    stripperGetMat C S' = stripperGetMat C S := by
  have e : ∀ F chg w, stripped F chg w S' = stripped F chg w S := fun _ _ _ => stripped_div h hc hc' ha
  rcases hf with hf | hf
  · unfold stripperGetMat
    rcases h.first hf with ⟨h1, h2⟩ | ⟨p, l, q, l', h1, h2, h3⟩
    · simp only [h1, h2, e]
    · have hb : q.beta = p.beta := by rw [Weighed] at h3; rw [h3]; rfl
      simp only [h1, h2, e, hb]
  · have hm : getStrD C "charge_model" "baron" = "off" := by simp [getStrD, hf]
    unfold stripperGetMat
    simp only [hm, e, true_and, if_true]

theorem stripperGetMat_complete {C : LCfg} {S T : MSt} (h : stripperGetMat C S = .ok T) : Spec.Complete T ∧ T.calcRms = T := by
  have key : ∀ F chg w, chg.length = w.length → Spec.Complete (stripped F chg w S) ∧
      (stripped F chg w S).calcRms = stripped F chg w S := by
    intro F chg w hl
    refine ⟨⟨?_, ?_, ?_⟩, rfl⟩ <;> simp [stripped, MSt.calcRms, hl]
  unfold stripperGetMat at h
  split at h
  · dsimp only at h
    split at h
    · cases h
    · rename_i h1
      split at h
      · cases h
      · split at h
        · cases h
        · split at h
          · rename_i h2
            cases h
            exact key _ _ _ (by by_contra hn; exact h1 ⟨h2, hn⟩)
          · split at h
            · cases h
            · split at h
              · cases h
              · cases h
                exact key _ _ _ (by simp [chargeStripper])
  · cases h

/-! ## the run -/

/-- One beam in two descriptions, both complete. -/
def Two (first : Bool) (S S' : MSt) : Prop :=
  (∃ f c, Div f c S S' ∧ (first = true → f 0 = 0)) ∧ Spec.SameAverages S S' ∧ Spec.Complete S ∧ Spec.Complete S'

theorem Two.refl (first : Bool) {S : MSt} (hc : Spec.Complete S) : Two first S S :=
  ⟨⟨id, 1, Div.refl S, fun _ => rfl⟩, ⟨rfl, rfl, rfl⟩, hc, hc⟩

theorem Two.iff {first : Bool} {S S' : MSt} (hc : Spec.Complete S) (hc' : Spec.Complete S') :
    Two first S S' ↔ Spec.OneBeam first S S' := by
  have key : ∀ f c, Div f c S S' ↔ Spec.Division f c S S' := by
    intro f c
    constructor
    · intro h
      refine ⟨h.unit, (part_iff hc').2 h.part, h.all, fun i p hp => ?_⟩
      rw [← wt_of hp]
      exact h.weight i (lt_of_get hp)
    · intro h
      refine ⟨h.unit, (part_iff hc').1 h.part, h.all, fun i hi => ?_⟩
      have hp := List.getElem?_eq_getElem hi
      rw [wt_of hp]
      exact h.weight i _ hp
  simp only [Two, Spec.OneBeam, key]
  constructor
  · rintro ⟨h1, h2, -⟩; exact ⟨h1, h2⟩
  · rintro ⟨h1, h2⟩; exact ⟨h1, h2, hc, hc'⟩

/-- Passing an element that treats the charge states separately. -/
theorem Two.step {first : Bool} {adv : St MSt → MDat × St MSt × Option Err}
    (hpart : ∀ (f : Nat → Nat) (s s' : St MSt), s.retreat = false → s'.retreat = false → Spec.Complete s.payload →
      Spec.Complete s'.payload → Part f s.payload s'.payload → (adv s).2.2 = none →
      (adv s').2.2 = none ∧ Part f (adv s).2.1.payload (adv s').2.1.payload ∧ Spec.Complete (adv s).2.1.payload ∧
        Spec.Complete (adv s').2.1.payload)
    (htags : ∀ s, s.retreat = false → tags (adv s).2.1.payload = tags s.payload)
    (hrms : ∀ s, s.retreat = false → Spec.Complete s.payload → (adv s).2.2 = none →
      (adv s).2.1.payload.calcRms = (adv s).2.1.payload)
    {s s' : St MSt} (hr : s.retreat = false) (hr' : s'.retreat = false) (h : Two first s.payload s'.payload) :
    ((adv s).2.2 = none ↔ (adv s').2.2 = none) ∧
      ((adv s).2.2 = none → Two first (adv s).2.1.payload (adv s').2.1.payload) := by
  obtain ⟨⟨f, c, hd, hf⟩, -, hc, hc'⟩ := h
  refine ⟨⟨fun hok => (hpart f s s' hr hr' hc hc' hd.part hok).1, fun hok => ?_⟩, fun hok => ?_⟩
  · obtain ⟨g, hg⟩ := hd.back hc hc'
    exact (hpart g s' s hr' hr hc' hc hg hok).1
  · obtain ⟨a1, a2, a3, a4⟩ := hpart f s s' hr hr' hc hc' hd.part hok
    have hD := hd.carry a2 (htags s hr) (htags s' hr')
    refine ⟨⟨f, c, hD, hf⟩, ?_, a3, a4⟩
    rw [← hrms s hr hc hok, ← hrms s' hr' hc' a1]
    exact hD.averages a3 a4

theorem Two.source {first : Bool} {d : MDat} {s s' : St MSt} (hi : ∀ i, d.istate = some i → Spec.Complete i)
    (hr : s.retreat = false) (hr' : s'.retreat = false) (h : Two first s.payload s'.payload) :
    ((advanceSource d s).2.2 = none ↔ (advanceSource d s').2.2 = none) ∧
      ((advanceSource d s).2.2 = none → Two first (advanceSource d s).2.1.payload (advanceSource d s').2.1.payload) := by
  unfold advanceSource
  cases he : d.istate with
  | none => exact ⟨Iff.rfl, fun _ => h⟩
  | some i =>
    simp only [hr, hr', Bool.false_eq_true, if_false, forall_const, true_and]
    exact Two.refl first (hi i he)

theorem Two.stripper {first : Bool} {d : MDat} {s s' : St MSt}
    (hf : first = true ∨ d.conf "charge_model" = some (.str "off"))
    (hr : s.retreat = false) (hr' : s'.retreat = false) (h : Two first s.payload s'.payload) :
    ((advanceStripper d s).2.2 = none ↔ (advanceStripper d s').2.2 = none) ∧
      ((advanceStripper d s).2.2 = none → Two first (advanceStripper d s).2.1.payload (advanceStripper d s').2.1.payload) := by
  obtain ⟨⟨f, c, hd, hfirst⟩, -, hc, hc'⟩ := h
  have hcr : ∀ {S : MSt}, Spec.Complete S → Spec.Complete S.recalc := fun h =>
    ⟨by simpa [MSt.recalc] using h.moment0, by simpa [MSt.recalc] using h.moment1, by simpa [MSt.recalc] using h.transmat⟩
  have hD := hd.recalc
  have hA := hD.averages (hcr hc) (hcr hc')
  have e := stripperGetMat_div (C := d.conf) hD.calcRms (S := s.payload.recalc.calcRms) (S' := s'.payload.recalc.calcRms)
    ⟨(hcr hc).moment0, (hcr hc).moment1, (hcr hc).transmat⟩ ⟨(hcr hc').moment0, (hcr hc').moment1, (hcr hc').transmat⟩ hA
    (hf.imp hfirst id)
  unfold advanceStripper
  simp only [hr, hr', Bool.false_eq_true, if_false, e]
  cases hg : stripperGetMat d.conf s.payload.recalc.calcRms with
  | error x => exact ⟨Iff.rfl, fun h => by cases h⟩
  | ok T => exact ⟨Iff.rfl, fun _ => Two.refl first (stripperGetMat_complete hg).1⟩

/-- **C99.** How a beam is divided into charge states does not matter.  A machine is built from a lattice, and a beam is sent
forward from element `start` on, in two descriptions: in the second one the charge states come in another order, some of them are
entered in several parts that add up, and the weights are in another unit.  Then the one simulation ends without an exception if and
only if the other one does, and then they describe one beam everywhere on the way and at the end: the same position and reference
particle, the same charge states with the same weights in the sum, the same mean, widths and covariance.  The range may contain
sources, cavities and strippers; a stripper that has to compute the weights (`charge_model` not `off`) looks at the first charge
state, which has to be the same one then. -/
theorem C99_division {env : Env} {files : Files} {junk : Mat} {base : Nat} (cv : CView LCfg) (c : LCfg)
    (m : Machine LCfg MDat MSt)
    (h : Machine.new cv (registry env junk base (cavityCls env files junk base) (stripperCls env junk base)) c = .ok m)
    (es : List LCfg) (hes : cv.elems c = .ok es) (hl : es.length < sizeMod) (start : Nat) (max : Int) (hm : 0 ≤ max)
    (first : Bool)
    (hfirst : first = true ∨ ∀ j ec, start ≤ j → es[j]? = some ec → cv.str ec "type" = .ok "stripper" →
      ec "charge_model" = some (.str "off"))
    (s s' : St MSt) (hc : Spec.Complete s.payload) (hc' : Spec.Complete s'.payload)
    (hp : Spec.OneBeam first s.payload s'.payload) :
    ∃ r r', propagate m.elems s start max = some r ∧ propagate m.elems s' start max = some r' ∧
      (r.err = none ↔ r'.err = none) ∧
      (r.err = none → Spec.OneBeam first r.st.payload r'.st.payload ∧
        List.Forall₂ (Spec.Seen (Spec.OneBeam first)) r.trace r'.trace) := by
  have hF := machine_moment h hes
  have hlen := hF.length_eq
  have hall := fun j e (hj : m.elems[j]? = some e) => forall₂_get hF hj
  let E : Nat → Elem LCfg MDat MSt → Prop := fun j e => start ≤ j ∧ m.elems[j]? = some e
  have hk : ∀ j e, E j e → Keeps e.cls := by
    rintro j e ⟨h1, h2⟩
    obtain ⟨ec, hec, ty, hty, ⟨t, ht, htn, hb⟩ | ⟨ht, -, hb⟩ | ⟨ht, -, hb⟩⟩ := hall j e h2
    · rw [ht]
      by_cases hts : t = .source
      · subst hts
        intro d s
        show (advanceSource d s).2.1.nextElem = _ ∧ (advanceSource d s).2.1.retreat = _
        unfold advanceSource
        split
        · exact ⟨rfl, rfl⟩
        · split <;> exact ⟨rfl, rfl⟩
      · exact (measured_cls env junk base t hts).1
    · rw [ht]
      exact (measured_cavity env files junk base _ _ hb).2.1
    · rw [ht]
      exact (measured_stripper env junk base _ _ hb).2.1
  have hstep : ∀ j e (s s' : St MSt), E j e → s.retreat = false → s'.retreat = false → Two first s.payload s'.payload →
      ((e.cls.advance e.dat s).2.2 = none ↔ (e.cls.advance e.dat s').2.2 = none) ∧
        ((e.cls.advance e.dat s).2.2 = none →
          Two first (e.cls.advance e.dat s).2.1.payload (e.cls.advance e.dat s').2.1.payload) := by
    rintro j e s s' ⟨h1, h2⟩ hr hr' hT
    obtain ⟨ec, hec, ty, hty, ⟨t, ht, htn, hb⟩ | ⟨ht, rfl, hb⟩ | ⟨ht, rfl, hb⟩⟩ := hall j e h2
    · rw [ht]
      by_cases hts : t = .source
      · subst hts
        refine Two.source ?_ hr hr' hT
        intro i hi
        obtain ⟨-, w1, w2, w3⟩ := newState_shape ((build_conf hb).2.2 i hi).2
        exact ⟨w1, w2, w3⟩
      · have hnone := (build_length hb).2.2.1
        exact Two.step (adv := fun s => advance env t e.dat s)
          (fun f s s' a b c d g hok => advance_part hts hnone a b c d g hok)
          (fun s a => advance_tags hts hnone a) (fun s a b hok => advance_rms hts (build_length hb).2.2.2 b hok) hr hr' hT
    · rw [ht]
      obtain ⟨d0, cav, hd0, hload, hdat⟩ := loadCavity_ok (show buildCavity env files junk ec = .ok e.dat from hb)
      obtain ⟨l1, -, l3, l4⟩ := loadCavity_map hload
      have hconf : e.dat.conf = ec := by rw [hdat]; exact (build_length hd0).2.1
      have hnone : e.dat.refIn = none := by rw [hdat]; exact (build_length hd0).2.2.1
      have hcv : e.dat.cav = some cav := by rw [hdat]
      exact Two.step (adv := fun s => advanceCavity env files e.dat s)
        (fun f s s' a b c d g hok => advanceCavity_part hcv hnone (by rw [hconf]; exact l3) (by rw [hconf]; exact l4) a b c d g hok)
        (fun s a => advanceCavity_tags hnone a) (fun s a _ hok => advanceCavity_rms hnone a hok) hr hr' hT
    · rw [ht]
      have hconf : e.dat.conf = ec := (build_length (env := env) (junk := junk) (t := .marker) hb).2.1
      refine Two.stripper ?_ hr hr' hT
      rw [hconf]
      exact hfirst.imp id (fun hx => hx j ec h1 hec hty)
  have hm' : max ≠ -2 ^ 31 := by omega
  have hret : decide (max < 0) = false := by simp; omega
  have hT := (Two.iff hc hc').2 hp
  refine ⟨_, _, propagate_eq m.elems s start max hm', propagate_eq m.elems s' start max hm', ⟨fun hok => ?_, fun hok => ?_⟩,
    fun hok => ?_⟩
  · exact (run_part (E := E) (R := Two first) hk
      (fun j e s s' he a b hR ho => ⟨(hstep j e s s' he a b hR).1.1 ho, (hstep j e s s' he a b hR).2 ho⟩) max.natAbs m.elems m.elems
      { s with nextElem := start, retreat := decide (max < 0) } { s' with nextElem := start, retreat := decide (max < 0) }
      (by rw [← hlen]; exact hl) rfl (fun _ _ => rfl) (fun j e h1 h2 => ⟨h1, h2⟩) rfl hret hret hT hok).1
  · exact (run_part (E := E) (R := fun a b => Two first b a) hk
      (fun j e s s' he a b hR ho => ⟨(hstep j e s' s he b a hR).1.2 ho, (hstep j e s' s he b a hR).2 ((hstep j e s' s he b a hR).1.2 ho)⟩)
      max.natAbs m.elems m.elems
      { s' with nextElem := start, retreat := decide (max < 0) } { s with nextElem := start, retreat := decide (max < 0) }
      (by rw [← hlen]; exact hl) rfl (fun _ _ => rfl) (fun j e h1 h2 => ⟨h1, h2⟩) rfl hret hret hT hok).1
  · obtain ⟨-, r2, r3⟩ := run_part (E := E) (R := Two first) hk
      (fun j e s s' he a b hR ho => ⟨(hstep j e s s' he a b hR).1.1 ho, (hstep j e s s' he a b hR).2 ho⟩) max.natAbs m.elems m.elems
      { s with nextElem := start, retreat := decide (max < 0) } { s' with nextElem := start, retreat := decide (max < 0) }
      (by rw [← hlen]; exact hl) rfl (fun _ _ => rfl) (fun j e h1 h2 => ⟨h1, h2⟩) rfl hret hret hT hok
    have hfin : ∀ a b, Two first a b → Spec.OneBeam first a b := fun a b h => (Two.iff h.2.2.1 h.2.2.2).1 h
    exact ⟨hfin _ _ r2, r3.imp (fun _ _ h => Seen.mono hfin h)⟩

/-- The beam `exBoth` with its second charge state in two parts, in thousandths of the old unit of weights. -/
noncomputable def exDivided : St MSt :=
  { nextElem := 0, retreat := false, payload :=
    { pos := 0, ref := exParticle
      real := [{ exParticle with IonQ := 1000 }, { exParticle with IonZ := 2, IonQ := 300 }, { exParticle with IonZ := 2, IonQ := 700 }]
      moment0 := [fun _ => 1, fun _ => 1, fun _ => 1], moment1 := [1, 2, 2], transmat := [1, 1, 1], moment0_env := 0, moment0_rms := 0
      moment1_env := 0, last_caviphi0 := 0 } }

/-- These beams and the machine of a drift and a cavity meet the hypotheses of `C99_division`. -/
example (env : Env) (junk : Mat) : ∃ m es, Machine.new exCavView
      (registry env junk 0 (cavityCls env exFiles junk 0) (stripperCls env junk 0))
      (fun k => if k = "sim_type" then some (.str "MomentMatrix") else none) = .ok m ∧
    exCavView.elems (fun k => if k = "sim_type" then some (.str "MomentMatrix") else none) = .ok es ∧ es.length = 2 ∧
    Spec.Complete exBoth.payload ∧ Spec.Complete exDivided.payload ∧ Spec.OneBeam true exBoth.payload exDivided.payload := by
  obtain ⟨hk, hreg⟩ := registered_shipped env junk 0 (cavityCls env exFiles junk 0) (stripperCls env junk 0)
  have hb : ∃ d, buildCavity env exFiles junk exFull = .ok d := by
    unfold buildCavity
    rw [exFull_loads]
    exact ⟨_, rfl⟩
  obtain ⟨d, hd⟩ := hb
  obtain ⟨m, hm⟩ := (Flame.Mach.C18_success_iff exCavView
    (registry env junk 0 (cavityCls env exFiles junk 0) (stripperCls env junk 0))
    (fun k => if k = "sim_type" then some (.str "MomentMatrix") else none)).2 ⟨"MomentMatrix", _, rfl, hk, rfl, by
      simp only [List.mem_cons, List.not_mem_nil, or_false, forall_eq_or_imp, forall_eq]
      exact ⟨⟨"drift", _, "d", _, rfl, hreg _ _ rfl, rfl, rfl, rfl⟩, ⟨"rfcavity", _, "c", d, rfl, hreg _ _ rfl, rfl, rfl, hd⟩⟩⟩
  refine ⟨m, _, hm, rfl, rfl, ⟨rfl, rfl, rfl⟩, ⟨rfl, rfl, rfl⟩, ⟨fun j => if j = 0 then 0 else 1, 1000, ⟨by norm_num, ⟨rfl, rfl, rfl, ?_⟩,
    ?_, ?_⟩, fun _ => rfl⟩, rfl, rfl, rfl⟩
  · intro j hj
    match j, hj with
    | 0, _ => exact ⟨⟨_, _, rfl, rfl, rfl, rfl, rfl, rfl, rfl, rfl, rfl, rfl, rfl, rfl, rfl⟩, rfl, rfl, rfl⟩
    | 1, _ => exact ⟨⟨_, _, rfl, rfl, rfl, rfl, rfl, rfl, rfl, rfl, rfl, rfl, rfl, rfl, rfl⟩, rfl, rfl, rfl⟩
    | 2, _ => exact ⟨⟨_, _, rfl, rfl, rfl, rfl, rfl, rfl, rfl, rfl, rfl, rfl, rfl, rfl, rfl⟩, rfl, rfl, rfl⟩
    | (j + 3), hj => simp [exDivided] at hj
  · intro i hi
    match i, hi with
    | 0, _ => exact ⟨0, by simp [exDivided], rfl⟩
    | 1, _ => exact ⟨1, by simp [exDivided], rfl⟩
    | (j + 2), hj => simp [exBoth] at hj
  · intro i p hp
    match i, hp with
    | 0, hp => cases hp; simp [Spec.weightOf, exDivided, exParticle]
    | 1, hp => cases hp; norm_num [Spec.weightOf, exDivided, Finset.sum_range_succ, exParticle]
    | (j + 2), hj => simp [exBoth] at hj

end Flame.Cavity
