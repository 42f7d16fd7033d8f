import Verif.Moment.Cache
import Verif.Moment.Stats
import Mathlib.Algebra.BigOperators.Field

/-! # Passing an element: C35 -/

namespace Flame.Moment

open Flame.Mach (St Err)
open Flame.Linear (getNum getNumD getVec)
open Spec

/-! ## lengths -/

theorem forEach_ok {α β : Type} {f : α → Except Err β} : ∀ {l : List α} {r : List β},
    forEach f l = .ok r ↔ List.Forall₂ (fun a b => f a = .ok b) l r
  | [], r => by
    simp only [forEach, Except.ok.injEq]
    constructor
    · rintro rfl; exact .nil
    · intro h; cases h; rfl
  | a :: l, r => by
    simp only [forEach]
    constructor
    · intro h
      split at h
      · simp at h
      · rename_i b hb
        split at h
        · simp at h
        · rename_i bs hbs
          simp only [Except.ok.injEq] at h
          subst h
          exact .cons hb (forEach_ok.1 hbs)
    · intro h
      cases h with
      | cons hb hbs => rw [hb, forEach_ok.2 hbs]

theorem forEach_length {α β : Type} {f : α → Except Err β} {l : List α} {r : List β} (h : forEach f l = .ok r) :
    r.length = l.length := (forEach_ok.1 h).length_eq.symm

theorem orbtrim_length {d ref real T} (h : orbtrimRec d ref real = .ok T) : T.length = real.length := forEach_length h

theorem sbend_length {d ref real T} (h : sbendRec d ref real = .ok T) : T.length = real.length := by
  unfold sbendRec at h
  split at h
  · exact forEach_length h
  · simp at h

theorem quad_length {env d ref real T} (h : quadRec env d ref real = .ok T) : T.length = real.length := by
  unfold quadRec at h
  split at h
  · simp at h
  · dsimp only at h
    split at h
    · simp at h
    · split at h
      · split at h
        · simp at h
        · exact forEach_length h
      · split at h
        · simp at h
        · exact forEach_length h

theorem solenoid_length {env d ref real T} (h : solenoidRec env d ref real = .ok T) : T.length = real.length := by
  unfold solenoidRec at h
  split at h
  · simp at h
  · dsimp only at h
    split at h
    · simp at h
    · split at h
      · split at h
        · simp at h
        · exact forEach_length h
      · split at h
        · simp at h
        · exact forEach_length h

theorem equad_length {env d ref real T} (h : equadRec env d ref real = .ok T) : T.length = real.length := by
  unfold equadRec at h
  split at h
  · simp at h
  · dsimp only at h
    split at h
    · simp at h
    · split at h
      · split at h
        · exact forEach_length h
        · simp at h
      · split at h
        · simp at h
        · exact forEach_length h

theorem edipole_length {env d ref real T} (h : edipoleRec env d ref real = .ok T) : T.length = real.length := by
  unfold edipoleRec at h
  split at h
  · split at h
    · simp at h
    · split at h
      · simp at h
      · exact forEach_length h
  · simp at h

theorem recompute_length {env t d ref real T} (h : recompute env t d ref real = .ok T) : T.length = real.length := by
  cases t with
  | orbtrim => exact orbtrim_length h
  | sbend => exact sbend_length h
  | quadrupole => exact quad_length h
  | solenoid => exact solenoid_length h
  | equad => exact equad_length h
  | edipole => exact edipole_length h
  | tmatrix => exact forEach_length h
  | _ =>
    simp only [recompute, Except.ok.injEq] at h
    subst h
    simp

theorem resize_length (n : Nat) (l : List Mat) : (resize n l).length = n := by
  simp only [resize, List.length_append, List.length_take, List.length_replicate]
  omega

/-- There are as many matrices as noted particles.  True of every element at all times. -/
def Sized (d : MDat) : Prop := d.transfer.length = d.realIn.length

/-- The lists of a state have the same length. -/
def WF (S : MSt) : Prop :=
  S.moment0.length = S.real.length ∧ S.moment1.length = S.real.length ∧ S.transmat.length = S.real.length

theorem particles_sized {rec : MDat → Particle → List Particle → Except Err (List Mat)} {mv d S}
    (hrec : ∀ d r l T, rec d r l = .ok T → T.length = l.length) (hs : Sized d) (b : Bool) (hb : b = true → hit d S) :
    Sized (particles rec mv d S b).1 ∧ (particles rec mv d S b).1.transfer.length = S.real.length := by
  unfold particles
  split
  · rename_i h
    exact ⟨hs, hs.trans (hb h).2.2.length_eq⟩
  · dsimp only
    split
    · exact ⟨resize_length _ _, resize_length _ _⟩
    · rename_i h
      exact ⟨hrec _ _ _ _ h, hrec _ _ _ _ h⟩

/-! ## the matrices of a pass -/

theorem inverse_ok {M I : Mat} (h : inverse M = .ok I) : M.det ≠ 0 ∧ I = M⁻¹ := by
  unfold inverse at h
  split at h
  · simp at h
  · rename_i hd
    simp only [Except.ok.injEq] at h
    exact ⟨hd, h.symm⟩

theorem inverse_mul {M I : Mat} (h : inverse M = .ok I) : I * M = 1 ∧ M * I = 1 := by
  obtain ⟨hd, rfl⟩ := inverse_ok h
  have hu : IsUnit M.det := isUnit_iff_ne_zero.2 hd
  exact ⟨Matrix.nonsing_inv_mul M hu, Matrix.mul_nonsing_inv M hu⟩

/-- A successful backward pass applies the inverses. -/
theorem backLoop_ok : ∀ {T : List Mat} {vs : List Vec} {Ss Xs : List Mat}, vs.length = T.length → Ss.length = T.length →
    Xs.length = T.length → (backLoop T vs Ss Xs).2.2.2 = none →
    ∃ I, List.Forall₂ (fun M N => inverse M = .ok N) T I ∧ (backLoop T vs Ss Xs).2.2.1 = I ∧
      movedBy I vs Ss (backLoop T vs Ss Xs).1 (backLoop T vs Ss Xs).2.1
  | [], [], [], [], _, _, _, _ => ⟨[], .nil, rfl, by simp [movedBy, backLoop]⟩
  | M :: T, v :: vs, S :: Ss, X :: Xs, h1, h2, h3, hn => by
    simp only [backLoop] at hn ⊢
    cases hI : inverse M with
    | error e => rw [hI] at hn; simp at hn
    | ok N =>
      rw [hI] at hn
      simp only at hn ⊢
      obtain ⟨I, hF, hX, hm⟩ := backLoop_ok (T := T) (vs := vs) (Ss := Ss) (Xs := Xs) (by simpa using h1) (by simpa using h2)
        (by simpa using h3) hn
      refine ⟨N :: I, .cons hI hF, by rw [hX], ?_⟩
      obtain ⟨a, b, c, e⟩ := hm
      refine ⟨by simp [a], by simp [← b], by simp [c], ?_⟩
      simp only [List.zipWith_cons_cons, ← e]
      rfl
  | [], _ :: _, _, _, h, _, _, _ => by simp at h
  | [], [], _ :: _, _, _, h, _, _ => by simp at h
  | [], [], [], _ :: _, _, _, h, _ => by simp at h
  | _ :: _, [], _, _, h, _, _, _ => by simp at h
  | _ :: _, _ :: _, [], _, _, h, _, _ => by simp at h
  | _ :: _, _ :: _, _ :: _, [], _, _, h, _ => by simp at h

theorem congr_mul (A B S : Mat) : congr A (congr B S) = congr (A * B) S := by
  simp only [congr, Matrix.transpose_mul, Matrix.mul_assoc]

theorem sextLoop_ok (p : Particle) (dL K : ℝ) (thin dst : Bool) (v0 : Vec) (S0 : Mat) :
    ∀ (n : Nat) (v : Vec) (S X T : Mat), v = X.mulVec v0 → S = congr X S0 →
      (sextLoop p dL K thin dst n (v, S, X, T)).1 = (sextLoop p dL K thin dst n (v, S, X, T)).2.2.1.mulVec v0 ∧
      (sextLoop p dL K thin dst n (v, S, X, T)).2.1 = congr (sextLoop p dL K thin dst n (v, S, X, T)).2.2.1 S0
  | 0, _, _, _, _, h1, h2 => ⟨h1, h2⟩
  | n + 1, v, S, X, T, h1, h2 => by
    simp only [sextLoop]
    apply sextLoop_ok p dL K thin dst v0 S0 n
    · rw [h1, Matrix.mulVec_mulVec]
    · rw [h2, congr_mul]

theorem sextOne_ok {d B3 L stp thin dst ref p v S r} (h : sextOne d B3 L stp thin dst ref p v S = .ok r) :
    r.1 = r.2.2.mulVec v ∧ r.2.1 = congr r.2.2 S := by
  unfold sextOne at h
  split at h
  · simp at h
  · rename_i M IM _
    simp only [Except.ok.injEq] at h
    subst h
    obtain ⟨h1, h2⟩ := sextLoop_ok p (L / stp) (B3 / p.Brho / (MtoMM * MtoMM * MtoMM)) thin dst (M.mulVec v) (congr M S)
      (toSteps stp) (M.mulVec v) (congr M S) 1 1 (by rw [Matrix.one_mulVec]) (by simp [congr])
    dsimp only
    rw [h1, h2, Matrix.mulVec_mulVec, Matrix.mulVec_mulVec, congr_mul, congr_mul, Matrix.mul_assoc]
    exact ⟨rfl, rfl⟩

theorem sext_moved {f : Particle × Vec × Mat → Except Err (Vec × Mat × Mat)}
    (hf : ∀ q r, f q = .ok r → r.1 = r.2.2.mulVec q.2.1 ∧ r.2.1 = congr r.2.2 q.2.2) :
    ∀ {ps : List Particle} {vs : List Vec} {Ss : List Mat} {rs : List (Vec × Mat × Mat)}, vs.length = ps.length →
      Ss.length = ps.length → forEach f (ps.zip (vs.zip Ss)) = .ok rs →
      rs.length = ps.length ∧ movedBy (rs.map (·.2.2)) vs Ss (rs.map (·.1)) (rs.map (·.2.1)) := by
  intro ps vs Ss rs h1 h2 h
  have hF := forEach_ok.1 h
  clear h
  induction ps generalizing vs Ss rs with
  | nil =>
    obtain rfl : vs = [] := by simpa using h1
    obtain rfl : Ss = [] := by simpa using h2
    cases hF
    simp [movedBy]
  | cons p ps ih =>
    match vs, Ss, h1, h2 with
    | v :: vs, S :: Ss, h1, h2 =>
      cases hF with
      | @cons _ r _ rs hr hrs =>
        obtain ⟨a, b, c, e, g⟩ := ih (by simpa using h1) (by simpa using h2) hrs
        obtain ⟨e1, e2⟩ := hf _ _ hr
        refine ⟨by simp [a], by simpa using b, ?_, by simpa using e, ?_⟩
        · simp only [List.map_cons, List.zipWith_cons_cons, ← c, e1]
        · simp only [List.map_cons, List.zipWith_cons_cons, ← g, e2]
          rfl

/-- Every successful pass of an element other than a source applies one matrix per charge state, reports it, and reports
the envelope of what it leaves. -/
theorem advance_moved (env : Env) (t : MType) (d d' : MDat) (s s' : St MSt) (ht : t ≠ .source) (hs : Sized d)
    (hw : WF s.payload) (h : advance env t d s = (d', s', none)) :
    s'.payload.transmat.length = s.payload.real.length ∧
    movedBy s'.payload.transmat s.payload.moment0 s.payload.moment1 s'.payload.moment0 s'.payload.moment1 ∧
    s'.payload.calcRms = s'.payload ∧ Sized d' := by
  have hw' : WF s.payload.recalc := by simpa [WF, MSt.recalc] using hw
  obtain ⟨w0, w1, w2⟩ := hw'
  have e0 : s.payload.recalc.moment0 = s.payload.moment0 := rfl
  have e1 : s.payload.recalc.moment1 = s.payload.moment1 := rfl
  have e2 : s.payload.recalc.real.length = s.payload.real.length := by simp [MSt.recalc]
  have base : ∀ t, advanceBase (recompute env t) d s = (d', s', none) →
    s'.payload.transmat.length = s.payload.real.length ∧
    movedBy s'.payload.transmat s.payload.moment0 s.payload.moment1 s'.payload.moment0 s'.payload.moment1 ∧
    s'.payload.calcRms = s'.payload ∧ Sized d' := by
    intro t h
    have hp := particles_sized (rec := recompute env t) (mv := (·.drifted s.retreat d.length)) (fun _ _ _ _ => recompute_length) hs
      (S := s.payload.recalc) (@decide (hit d s.payload.recalc) (Classical.propDecidable _)) (by simp)
    unfold advanceBase at h
    dsimp only at h
    split at h
    · simp at h
    · rename_i d1 ref real heq
      rw [heq] at hp
      split at h
      · split at h
        · simp at h
        · rename_i S' hb
          simp only [Prod.mk.injEq, and_true] at h
          obtain ⟨rfl, rfl⟩ := h
          simp only [backward, Prod.mk.injEq] at hb
          obtain ⟨rfl, hb⟩ := hb
          obtain ⟨I, hF, hX, hm⟩ := backLoop_ok (by rw [hp.2, w0]) (by rw [hp.2, w1]) (by rw [hp.2, w2]) hb
          refine ⟨?_, ?_, rfl, hp.1⟩
          · show (backLoop _ _ _ _).2.2.1.length = _
            rw [hX, ← hF.length_eq, hp.2, e2]
          · show movedBy (backLoop _ _ _ _).2.2.1 _ _ _ _
            rw [hX]
            exact hm
      · simp only [Prod.mk.injEq, and_true] at h
        obtain ⟨rfl, rfl⟩ := h
        refine ⟨hp.2.trans e2, ⟨?_, rfl, ?_, rfl⟩, rfl, hp.1⟩
        · exact hp.2.trans w0.symm
        · exact hp.2.trans w1.symm
  have bend : ∀ t, advanceBend (recompute env t) d s = (d', s', none) →
    s'.payload.transmat.length = s.payload.real.length ∧
    movedBy s'.payload.transmat s.payload.moment0 s.payload.moment1 s'.payload.moment0 s'.payload.moment1 ∧
    s'.payload.calcRms = s'.payload ∧ Sized d' := by
    intro t h
    have hp := particles_sized (rec := recompute env t) (mv := id) (fun _ _ _ _ => recompute_length) hs
      (S := s.payload.recalc) (@decide (hit d s.payload.recalc) (Classical.propDecidable _)) (by simp)
    unfold advanceBend at h
    dsimp only at h
    split at h
    · simp at h
    · rename_i d1 ref real heq
      rw [heq] at hp
      split at h
      · split at h
        · simp at h
        · rename_i S' hb
          simp only [Prod.mk.injEq, and_true] at h
          obtain ⟨rfl, rfl⟩ := h
          simp only [backward, Prod.mk.injEq] at hb
          obtain ⟨rfl, hb⟩ := hb
          obtain ⟨I, hF, hX, hm⟩ := backLoop_ok (by rw [hp.2, w0]) (by rw [hp.2, w1]) (by rw [hp.2, w2]) hb
          refine ⟨?_, ?_, rfl, hp.1⟩
          · show (backLoop _ _ _ _).2.2.1.length = _
            rw [hX, ← hF.length_eq, hp.2, e2]
          · show movedBy (backLoop _ _ _ _).2.2.1 _ _ _ _
            rw [hX]
            exact hm
      · simp only [Prod.mk.injEq, and_true] at h
        obtain ⟨rfl, rfl⟩ := h
        refine ⟨hp.2.trans e2, ⟨?_, rfl, ?_, rfl⟩, rfl, hp.1⟩
        · exact hp.2.trans w0.symm
        · exact hp.2.trans w1.symm
  cases t with
  | source => exact absurd rfl ht
  | sbend => exact bend _ h
  | sextupole =>
    change advanceSext d s = _ at h
    unfold advanceSext at h
    split at h
    · dsimp only at h
      split at h
      · simp at h
      · split at h
        · simp at h
        · rename_i rs hr
          simp only [Prod.mk.injEq, and_true] at h
          obtain ⟨rfl, rfl⟩ := h
          obtain ⟨a, b⟩ := sext_moved (fun q r hq => sextOne_ok hq) w0 w1 hr
          refine ⟨?_, b, rfl, resize_length _ _⟩
          show (rs.map _).length = _
          rw [List.length_map, a, e2]
    · simp at h
  | _ => exact base _ h

theorem advance_sized (env : Env) (t : MType) (d : MDat) (s : St MSt) (hs : Sized d) : Sized (advance env t d s).1 := by
  have base : ∀ t, Sized (advanceBase (recompute env t) d s).1 := by
    intro t
    have hp := particles_sized (rec := recompute env t) (mv := (·.drifted s.retreat d.length))
      (fun _ _ _ _ => recompute_length) hs
      (S := s.payload.recalc) (@decide (hit d s.payload.recalc) (Classical.propDecidable _)) (by simp)
    unfold advanceBase
    dsimp only
    split
    · rename_i heq
      rw [heq] at hp
      exact hp.1
    · rename_i heq
      rw [heq] at hp
      split
      · split <;> exact hp.1
      · exact hp.1
  cases t with
  | source =>
    simp only [advance, advanceSource]
    split
    · exact hs
    · split <;> exact hs
  | sbend =>
    have hp := particles_sized (rec := recompute env .sbend) (mv := id) (fun _ _ _ _ => recompute_length) hs
      (S := s.payload.recalc) (@decide (hit d s.payload.recalc) (Classical.propDecidable _)) (by simp)
    show Sized (advanceBend _ d s).1
    unfold advanceBend
    dsimp only
    split
    · rename_i heq
      rw [heq] at hp
      exact hp.1
    · rename_i heq
      rw [heq] at hp
      split
      · split <;> exact hp.1
      · exact hp.1
  | sextupole =>
    show Sized (advanceSext d s).1
    unfold advanceSext
    split
    · dsimp only
      split
      · exact resize_length _ _
      · split <;> exact resize_length _ _
    · exact hs
  | _ => exact base _

/-- The element after a history. -/
noncomputable def afterUses (env : Env) (t : MType) : MDat → List (Use MDat (St MSt)) → MDat
  | d, [] => d
  | d, .pass s :: h => afterUses env t (advance env t d s).1 h
  | d, .reconf d' :: h => afterUses env t (assign d d') h

theorem afterUses_sized (env : Env) (t : MType) : ∀ (h : List (Use MDat (St MSt))) (d : MDat), Sized d →
    (∀ d', Use.reconf d' ∈ h → Sized d') → Sized (afterUses env t d h)
  | [], _, hd, _ => hd
  | .pass s :: h, d, hd, hh => afterUses_sized env t h _ (advance_sized env t d s hd) (fun x hx => hh x (by simp [hx]))
  | .reconf d' :: h, _, _, hh => afterUses_sized env t h _ (hh d' (by simp)) (fun x hx => hh x (by simp [hx]))

/-! ## C35 -/

theorem quad_form {n : Nat} (S : Matrix (Fin n) (Fin n) ℝ) (x : Fin n → ℝ) :
    ∑ i, ∑ j, x i * S i j * x j = x ⬝ᵥ S.mulVec x := by
  simp only [dotProduct, Matrix.mulVec, Finset.mul_sum]
  exact Finset.sum_congr rfl fun i _ => Finset.sum_congr rfl fun j _ => by ring

theorem covariance_moved {n : Nat} (T S : Matrix (Fin n) (Fin n) ℝ) (h : Covariance S) :
    Covariance (T * S * T.transpose) := by
  refine ⟨?_, fun x => ?_⟩
  · rw [Matrix.transpose_mul, Matrix.transpose_mul, Matrix.transpose_transpose, h.1, Matrix.mul_assoc]
  · have := h.2 (T.transpose.mulVec x)
    rw [quad_form] at this ⊢
    rw [← Matrix.mulVec_mulVec, ← Matrix.mulVec_mulVec, Matrix.dotProduct_mulVec, ← Matrix.mulVec_transpose]
    exact this

theorem mean_push (T : Mat) (X : Cloud) : mean (push T X) = T.mulVec (mean X) := by
  have hw : weight (push T X) = weight X := by simp [weight, push, Function.comp_def]
  funext i
  unfold mean
  rw [hw]
  simp only [Matrix.mulVec, dotProduct, mul_div_assoc']
  rw [← Finset.sum_div]
  congr 1
  simp only [push, List.map_map, Function.comp_def]
  clear hw
  induction X with
  | nil => simp
  | cons q X ih =>
    simp only [List.map_cons, List.sum_cons, mul_add, Finset.sum_add_distrib]
    rw [ih]
    congr 1
    simp only [Matrix.mulVec, dotProduct, Finset.mul_sum]
    exact Finset.sum_congr rfl fun j _ => by ring

theorem cov_push (T : Mat) (X : Cloud) : cov (push T X) = T * cov X * T.transpose := by
  have hw : weight (push T X) = weight X := by simp [weight, push, Function.comp_def]
  funext i j
  have e : ∀ q : ℝ × Vec, q.1 * ((T.mulVec q.2 i - T.mulVec (mean X) i) * (T.mulVec q.2 j - T.mulVec (mean X) j)) =
      ∑ a, ∑ b, T i a * (q.1 * ((q.2 a - mean X a) * (q.2 b - mean X b))) * T j b := by
    intro q
    rw [← Pi.sub_apply, ← Pi.sub_apply, ← Matrix.mulVec_sub]
    simp only [Matrix.mulVec, dotProduct]
    rw [Finset.sum_mul_sum, Finset.mul_sum]
    simp only [Finset.mul_sum, Pi.sub_apply]
    exact Finset.sum_congr rfl fun a _ => Finset.sum_congr rfl fun b _ => by ring
  have e2 : ((push T X).map (fun q => q.1 * ((q.2 i - T.mulVec (mean X) i) * (q.2 j - T.mulVec (mean X) j)))).sum =
      ∑ a, ∑ b, T i a * (X.map (fun q => q.1 * ((q.2 a - mean X a) * (q.2 b - mean X b)))).sum * T j b := by
    simp only [push, List.map_map, Function.comp_def, e]
    generalize mean X = m
    clear e hw
    induction X with
    | nil => simp
    | cons q X ih => simp only [List.map_cons, List.sum_cons, ih, mul_add, add_mul, Finset.sum_add_distrib]
  have e3 : cov (push T X) i j = ((push T X).map (fun q => q.1 * ((q.2 i - T.mulVec (mean X) i) *
      (q.2 j - T.mulVec (mean X) j)))).sum / weight X := by
    unfold cov
    rw [mean_push, hw]
  rw [e3, e2, Matrix.mul_apply]
  simp only [Matrix.mul_apply, Matrix.transpose_apply, Finset.sum_mul, cov, Finset.sum_div]
  rw [Finset.sum_comm]
  exact Finset.sum_congr rfl fun a _ => Finset.sum_congr rfl fun b _ => by ring

theorem movedBy_get {T m0 m1 m0' m1'} (h : movedBy T m0 m1 m0' m1') (k : Nat) (M : Mat) (hM : T[k]? = some M) :
    ∃ v S, m0[k]? = some v ∧ m1[k]? = some S ∧ m0'[k]? = some (M.mulVec v) ∧
      m1'[k]? = some (M * S * M.transpose) := by
  obtain ⟨h1, rfl, h2, rfl⟩ := h
  have hk : k < T.length := by
    rw [List.getElem?_eq_some_iff] at hM
    exact hM.1
  refine ⟨m0[k]'(h1 ▸ hk), m1[k]'(h2 ▸ hk), ?_, ?_, ?_, ?_⟩
  · exact List.getElem?_eq_getElem _
  · exact List.getElem?_eq_getElem _
  · rw [List.getElem?_zipWith, hM, List.getElem?_eq_getElem (h1 ▸ hk)]
  · rw [List.getElem?_zipWith, hM, List.getElem?_eq_getElem (h2 ▸ hk)]

/-- C35: however an element was used before, a successful pass has one matrix `M` per charge state, which it reports.  The
centroid is multiplied by `M`, the covariance `S` becomes `M S M^t` and is symmetric and positive semidefinite if it
was, and both are the mean and the covariance of the points moved by `M`, for any cloud of points they described before.
The reported envelope is that of the new charge states. -/
theorem C35_transport (env : Env) (t : MType) (d0 : MDat) (uses : List (Use MDat (St MSt))) (d' : MDat) (s s' : St MSt)
    (ht : t ≠ .source) (hw : WF s.payload)
    (h : advance env t (afterUses env t (fresh env d0) uses) s = (d', s', none))
    (hu : ∀ d', Use.reconf d' ∈ uses → Sized d') :
    s'.payload.transmat.length = s.payload.real.length ∧
    movedBy s'.payload.transmat s.payload.moment0 s.payload.moment1 s'.payload.moment0 s'.payload.moment1 ∧
    s'.payload.calcRms = s'.payload ∧
    ∀ (k : Nat) (M : Mat), s'.payload.transmat[k]? = some M → ∃ v S v' S', s.payload.moment0[k]? = some v ∧
      s.payload.moment1[k]? = some S ∧ s'.payload.moment0[k]? = some v' ∧ s'.payload.moment1[k]? = some S' ∧
      v' = M.mulVec v ∧ S' = M * S * M.transpose ∧ (Covariance S → Covariance S') ∧
      ∀ X, mean X = v → cov X = S → mean (push M X) = v' ∧ cov (push M X) = S' := by
  obtain ⟨a, b, c, -⟩ := advance_moved env t _ d' s s' ht (afterUses_sized env t uses (fresh env d0) rfl hu) hw h
  refine ⟨a, b, c, fun k M hM => ?_⟩
  obtain ⟨v, S, h1, h2, h3, h4⟩ := movedBy_get b k M hM
  refine ⟨v, S, _, _, h1, h2, h3, h4, rfl, rfl, covariance_moved M S, ?_⟩
  rintro X rfl rfl
  exact ⟨mean_push M X, cov_push M X⟩

/-- The hypotheses hold for a beam of one charge state that passes a drift a second time. -/
example (env : Env) : ∃ d' s', advance env .drift (afterUses env .drift (fresh env (exDat env (fun _ => none) 1))
    [.pass (exState false)]) (exState false) = (d', s', none) ∧ WF (exState false).payload := by
  have h1 : (advance env .drift (fresh env (exDat env (fun _ => none) 1)) (exState false)).2.2 = none := by
    have k := advanceBase_coherent (d := fresh env (exDat env (fun _ => none) 1)) (s := exState false)
      (recompute_cached env .drift) (.inl rfl)
    have := k.1
    show (advanceBase _ _ _).2.2 = none
    rw [this]
    rfl
  obtain ⟨⟨a, b, c, e, f, hd⟩, hf⟩ :=
    (pass_fit env .drift (fresh env (exDat env (fun _ => none) 1)) (exState false) (fit_fresh ..)).2 h1
  have h2 := (pass_fit env .drift _ (exState false) (hf false (.inl rfl))).1
  rw [hd, fresh_cached, ← hd] at h2
  exact ⟨_, _, Prod.ext rfl (Prod.ext rfl ((congrArg Prod.snd h2).trans h1)), by simp [WF, exState]⟩

/-- C35: if all charge states are moved by the same matrix, so is the envelope.  The seventh coordinate is the same for all
charge states and has no spread, as it is for every beam (`C58_orbit`). -/
theorem C35_shared (M : Mat) (s s' : MSt) (l l' : List Tri) (hp : Parts s l) (hp' : Parts s' l')
    (hQ : l'.map (·.1.IonQ) = l.map (·.1.IonQ)) (hM : movedBy (l.map (fun _ => M)) s.moment0 s.moment1 s'.moment0 s'.moment1)
    (htot : (l.map (·.1.IonQ)).sum ≠ 0) (c : ℝ) (h6 : ∀ t ∈ l, t.2.1 6 = c)
    (hS : ∀ t ∈ l, ∀ i, t.2.2 i 6 = 0 ∧ t.2.2 6 i = 0) :
    s'.calcRms.moment0_env = M.mulVec s.calcRms.moment0_env ∧
    phaseSpace s'.calcRms.moment1_env =
      phaseSpace M * phaseSpace s.calcRms.moment1_env * (phaseSpace M).transpose := by
  obtain ⟨hr, h0, h1⟩ := hp
  obtain ⟨hr', h0', h1'⟩ := hp'
  obtain ⟨-, hm0, -, hm1⟩ := hM
  have key : ∀ g : Vec → Mat → ℝ, sumOver l' (fun t => t.1.IonQ * g t.2.1 t.2.2) =
      sumOver l (fun t => t.1.IonQ * g (M.mulVec t.2.1) (M * t.2.2 * M.transpose)) := by
    rw [h0, h0'] at hm0
    rw [h1, h1'] at hm1
    clear h0 h1 h0' h1' hr hr' htot h6 hS
    induction l generalizing l' with
    | nil =>
      have : l' = [] := by simpa using hQ
      subst this
      intro g; rfl
    | cons a l ih =>
      match l', hQ, hm0, hm1 with
      | a' :: l', hQ, hm0, hm1 =>
        simp only [List.map_cons, List.zipWith_cons_cons, List.cons.injEq] at hQ hm0 hm1
        intro g
        have := ih l' hQ.2 hm0.2 hm1.2 g
        simp only [sumOver, List.map_cons, List.sum_cons] at this ⊢
        rw [this, hQ.1, hm0.1, hm1.1]
  have hW : sumOver l' (fun t => t.1.IonQ) = sumOver l (fun t => t.1.IonQ) := by
    simpa using key (fun _ _ => 1)
  have hW0 : sumOver l (fun t => t.1.IonQ) ≠ 0 := htot
  have hc : ∀ (f : Tri → ℝ), sumOver l (fun t => f t * t.1.IonQ) = sumOver l (fun t => t.1.IonQ * f t) :=
    fun f => sumOver_congr fun t _ => mul_comm _ _
  have hc' : ∀ (f : Tri → ℝ), sumOver l' (fun t => f t * t.1.IonQ) = sumOver l' (fun t => t.1.IonQ * f t) :=
    fun f => sumOver_congr fun t _ => mul_comm _ _
  have he : env0 s'.real s'.moment0 = M.mulVec (env0 s.real s.moment0) := by
    funext i
    rw [hr', h0', env0_tri, hW, hc' (fun t => t.2.1 i), key (fun v _ => v i), hr, h0]
    simp only [Matrix.mulVec, dotProduct, env0_tri, hc]
    simp only [mul_div_assoc', ← Finset.sum_div, ← sumOver_mul, ← sumOver_finset]
    congr 1
    refine sumOver_congr fun t _ => ?_
    rw [Finset.mul_sum]
    exact Finset.sum_congr rfl fun j _ => by ring
  refine ⟨he, ?_⟩
  set m := env0 s.real s.moment0 with hm
  have hm6 : m 6 = c := by
    rw [hm, hr, h0, env0_tri, hc (fun t => t.2.1 6)]
    have : sumOver l (fun t => t.1.IonQ * t.2.1 6) = c * sumOver l (fun t => t.1.IonQ) := by
      rw [← sumOver_mul]
      exact sumOver_congr fun t ht => by rw [h6 t ht, mul_comm]
    rw [this, mul_div_cancel_right₀ _ hW0]
  have dev : ∀ t ∈ l, ∀ a : Fin 6, M.mulVec t.2.1 a.castSucc - M.mulVec m a.castSucc =
      ∑ b : Fin 6, M a.castSucc b.castSucc * (t.2.1 b.castSucc - m b.castSucc) := by
    intro t ht a
    rw [← Pi.sub_apply, ← Matrix.mulVec_sub]
    simp only [Matrix.mulVec, dotProduct]
    rw [Fin.sum_univ_castSucc]
    have : (t.2.1 - m) (Fin.last 6) = 0 := by
      show t.2.1 6 - m 6 = 0
      rw [h6 t ht, hm6, sub_self]
    rw [this, mul_zero, add_zero]
    rfl
  have sig : ∀ t ∈ l, ∀ a b : Fin 6, (M * t.2.2 * M.transpose) a.castSucc b.castSucc =
      ∑ x : Fin 6, ∑ y : Fin 6, M a.castSucc x.castSucc * t.2.2 x.castSucc y.castSucc * M b.castSucc y.castSucc := by
    intro t ht a b
    have hz : ∀ i, t.2.2 i (Fin.last 6) = 0 ∧ t.2.2 (Fin.last 6) i = 0 := hS t ht
    simp only [Matrix.mul_apply, Matrix.transpose_apply, Fin.sum_univ_castSucc (n := 6), (hz _).1, (hz _).2, mul_zero,
      add_zero, Finset.sum_const_zero, zero_mul, Finset.sum_mul]
    rw [Finset.sum_comm]
  funext a b
  show env1 s'.real s'.moment0 s'.moment1 a.castSucc b.castSucc = _
  rw [hr', h0', h1', env1_tri, ← hr', ← h0', he, if_pos ⟨castSucc_lt_six a, castSucc_lt_six b⟩, hW,
    key (fun v S => S a.castSucc b.castSucc + (v a.castSucc - M.mulVec m a.castSucc) *
      (v b.castSucc - M.mulVec m b.castSucc))]
  have hR : (phaseSpace M * phaseSpace s.calcRms.moment1_env * (phaseSpace M).transpose) a b =
      ∑ x : Fin 6, ∑ y : Fin 6, M a.castSucc x.castSucc * env1 s.real s.moment0 s.moment1 x.castSucc y.castSucc *
        M b.castSucc y.castSucc := by
    simp only [Matrix.mul_apply, Matrix.transpose_apply, Finset.sum_mul]
    rw [Finset.sum_comm]
    rfl
  rw [hR]
  have hE : ∀ x y : Fin 6, env1 s.real s.moment0 s.moment1 x.castSucc y.castSucc =
      sumOver l (fun t => t.1.IonQ * (t.2.2 x.castSucc y.castSucc + (t.2.1 x.castSucc - m x.castSucc) *
        (t.2.1 y.castSucc - m y.castSucc))) / sumOver l (fun t => t.1.IonQ) := by
    intro x y
    rw [hm, hr, h0, h1, env1_tri, if_pos ⟨castSucc_lt_six x, castSucc_lt_six y⟩]
  simp only [hE, mul_div_assoc', div_mul_eq_mul_div, ← Finset.sum_div]
  congr 1
  have e4 : ∀ x y : Fin 6, M a.castSucc x.castSucc * sumOver l (fun t => t.1.IonQ * (t.2.2 x.castSucc y.castSucc +
      (t.2.1 x.castSucc - m x.castSucc) * (t.2.1 y.castSucc - m y.castSucc))) * M b.castSucc y.castSucc =
      sumOver l (fun t => M b.castSucc y.castSucc * (M a.castSucc x.castSucc * (t.1.IonQ * (t.2.2 x.castSucc y.castSucc +
      (t.2.1 x.castSucc - m x.castSucc) * (t.2.1 y.castSucc - m y.castSucc))))) := by
    intro x y
    rw [sumOver_mul, sumOver_mul, mul_comm]
  simp only [e4, ← sumOver_finset]
  refine sumOver_congr fun t ht => ?_
  rw [dev t ht, dev t ht, sig t ht, Finset.sum_mul_sum, ← Finset.sum_add_distrib, Finset.mul_sum]
  refine Finset.sum_congr rfl fun x _ => ?_
  rw [← Finset.sum_add_distrib, Finset.mul_sum]
  exact Finset.sum_congr rfl fun y _ => by ring

/-- Two charge states without spread, with different centroids. -/
noncomputable def exPair (p : Particle) : List Tri :=
  [({ p with IonQ := 1 }, fun _ => 1, 0), ({ p with IonQ := 3 }, fun i => if i = 6 then 1 else 5, 0)]

/-- The hypotheses are met by these and what any matrix makes of them. -/
example (p : Particle) (M : Mat) (s : MSt) :
    let l := exPair p
    let l' : List Tri := l.map (fun t => (t.1, M.mulVec t.2.1, M * t.2.2 * M.transpose))
    let s1 : MSt := { s with real := l.map (·.1), moment0 := l.map (·.2.1), moment1 := l.map (·.2.2) }
    let s2 : MSt := { s with real := l'.map (·.1), moment0 := l'.map (·.2.1), moment1 := l'.map (·.2.2) }
    Parts s1 l ∧ Parts s2 l' ∧ l'.map (·.1.IonQ) = l.map (·.1.IonQ) ∧
    movedBy (l.map (fun _ => M)) s1.moment0 s1.moment1 s2.moment0 s2.moment1 ∧ (l.map (·.1.IonQ)).sum ≠ 0 ∧
    (∀ t ∈ l, t.2.1 6 = 1) ∧ ∀ t ∈ l, ∀ i, t.2.2 i 6 = 0 ∧ t.2.2 6 i = 0 := by
  refine ⟨⟨rfl, rfl, rfl⟩, ⟨rfl, rfl, rfl⟩, rfl, ⟨rfl, rfl, rfl, rfl⟩, ?_, ?_, ?_⟩
  · simp [exPair]; norm_num
  · simp [exPair]
  · simp [exPair]

end Flame.Moment
