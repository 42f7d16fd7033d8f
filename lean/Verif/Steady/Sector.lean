import Verif.Steady.Elements

/-! # Matrices of sector magnets as continuous functions of settings and beam -/

namespace Flame.Steady

open Flame.Mach (Err)
open Flame.Linear (LVal LCfg getNum getNumD getVec)
open Flame.Moment Flame.Steady.Spec

variable {X : Type} [TopologicalSpace X]

theorem edgeM_cont {rho phi : X → ℝ} (hr : Continuous rho) (hr0 : ∀ x, rho x ≠ 0) (hp : Continuous phi) (hc : ∀ x, Real.cos (phi x) ≠ 0) :
    Continuous fun x => edgeM (rho x) (phi x) := by
  have ht : Continuous fun x => Real.tan (phi x) := by
    simp only [Real.tan_eq_sin_div_cos]
    exact (Real.continuous_sin.comp hp).div (Real.continuous_cos.comp hp) hc
  unfold edgeM
  exact setAt_cont (setAt_cont continuous_const (ht.div hr hr0) _ _) (ht.neg.div hr hr0) _ _

/-- `dx` and `sx` of `GetSBendMatrix` without distinction of cases (/repo/src/moment_sup.cpp:236-246). -/
noncomputable def bendD (L rho Kx : ℝ) : ℝ := (1 - qc L Kx) / (rho * Kx)
noncomputable def bendS (L rho Kx : ℝ) : ℝ := Real.sin (Real.sqrt |Kx| * L) / (rho * Real.sqrt |Kx|)

theorem sbendM_eq (L phi phi1 phi2 K IonEs refGamma qmrel dipBeta dipGamma dd k : ℝ) (M : Mat) (h : K + 1 / (L / phi * (L / phi)) ≠ 0) :
    sbendM L phi phi1 phi2 K IonEs refGamma qmrel dipBeta dipGamma dd k M =
      (let rho := L / phi
      let Kx := K + 1 / (rho * rho)
      let dx := bendD L rho Kx
      let sx := bendS L rho Kx
      let pz := dipBeta * dipBeta * dipGamma * IonEs / MeVtoeV
      let M := quadPlane L (-K) 2 3 (quadPlane L Kx 0 1 M)
      let M := setAt M 0 5 (dx / pz)
      let M := setAt M 1 5 (sx / pz)
      let M := setAt M 4 0 (sx * k)
      let M := setAt M 4 1 (dx * k)
      let M := setAt M 4 5 (((L / rho - sx) / (Kx * rho) - L / (refGamma * refGamma)) * k / pz)
      let M := setAt M 4 6 (((L / rho - sx) / (Kx * rho) * dd - L / (refGamma * refGamma) * (dd + qmrel)) * k)
      let M := setAt M 0 6 (dx * dd)
      let M := setAt M 1 6 (sx * dd)
      edgeM rho phi2 * (M * edgeM rho phi1)) := by
  unfold sbendM
  dsimp only
  have e1 : bendD L (L / phi) (K + 1 / (L / phi * (L / phi))) = if 0 < K + 1 / (L / phi * (L / phi)) then
      (1 - Real.cos (Real.sqrt (K + 1 / (L / phi * (L / phi))) * L)) / (L / phi * (K + 1 / (L / phi * (L / phi))))
      else (1 - Real.cosh (Real.sqrt (-(K + 1 / (L / phi * (L / phi)))) * L)) / (L / phi * (K + 1 / (L / phi * (L / phi)))) := by
    generalize K + 1 / (L / phi * (L / phi)) = Kx at *
    unfold bendD qc
    rcases lt_or_gt_of_ne h with h | h
    · rw [if_neg (by linarith), Real.sqrt_eq_zero_of_nonpos h.le]
      simp
    · rw [if_pos h, Real.sqrt_eq_zero_of_nonpos (by linarith : -Kx ≤ 0)]
      simp
  have e2 : bendS L (L / phi) (K + 1 / (L / phi * (L / phi))) = if 0 < K + 1 / (L / phi * (L / phi)) then
      Real.sin (Real.sqrt (K + 1 / (L / phi * (L / phi))) * L) / (L / phi * Real.sqrt (K + 1 / (L / phi * (L / phi))))
      else Real.sin (Real.sqrt (-(K + 1 / (L / phi * (L / phi)))) * L) / (L / phi * Real.sqrt (-(K + 1 / (L / phi * (L / phi))))) := by
    generalize K + 1 / (L / phi * (L / phi)) = Kx at *
    unfold bendS
    rcases lt_or_gt_of_ne h with h | h
    · rw [if_neg (by linarith), abs_of_neg h]
    · rw [if_pos h, abs_of_pos h]
  simp only [if_neg h, e1, e2]

theorem sbendM_cont {L phi phi1 phi2 K E g q db dg dd k : X → ℝ} (hL : Continuous L) (hL0 : ∀ x, L x ≠ 0) (hp : Continuous phi)
    (hp0 : ∀ x, phi x ≠ 0) (h1 : Continuous phi1) (hc1 : ∀ x, Real.cos (phi1 x) ≠ 0) (h2 : Continuous phi2)
    (hc2 : ∀ x, Real.cos (phi2 x) ≠ 0) (hK : Continuous K) (hKx : ∀ x, K x + 1 / (L x / phi x * (L x / phi x)) ≠ 0)
    (hE : Continuous E) (hE0 : ∀ x, E x ≠ 0) (hg : Continuous g) (hg0 : ∀ x, g x ≠ 0) (hq : Continuous q) (hdb : Continuous db)
    (hdb0 : ∀ x, db x ≠ 0) (hdg : Continuous dg) (hdg0 : ∀ x, dg x ≠ 0) (hdd : Continuous dd) (hk : Continuous k) :
    Continuous fun x => sbendM (L x) (phi x) (phi1 x) (phi2 x) (K x) (E x) (g x) (q x) (db x) (dg x) (dd x) (k x) 1 := by
  simp only [sbendM_eq _ _ _ _ _ _ _ _ _ _ _ _ _ (hKx _)]
  have hr : Continuous fun x => L x / phi x := hL.div hp hp0
  have hr0 : ∀ x, L x / phi x ≠ 0 := fun x => div_ne_zero (hL0 x) (hp0 x)
  have hX : Continuous fun x => K x + 1 / (L x / phi x * (L x / phi x)) :=
    hK.add (continuous_const.div (hr.mul hr) fun x => mul_ne_zero (hr0 x) (hr0 x))
  have hd : Continuous fun x => bendD (L x) (L x / phi x) (K x + 1 / (L x / phi x * (L x / phi x))) := by
    unfold bendD
    exact (continuous_const.sub (qc_cont hL hX)).div (hr.mul hX) fun x => mul_ne_zero (hr0 x) (hKx x)
  have hs : Continuous fun x => bendS (L x) (L x / phi x) (K x + 1 / (L x / phi x * (L x / phi x))) := by
    unfold bendS
    exact (Real.continuous_sin.comp ((Real.continuous_sqrt.comp hX.abs).mul hL)).div (hr.mul (Real.continuous_sqrt.comp hX.abs))
      fun x => mul_ne_zero (hr0 x) (Real.sqrt_pos.2 (abs_pos.2 (hKx x))).ne'
  have hz : Continuous fun x => db x * db x * dg x * E x / MeVtoeV := (((hdb.mul hdb).mul hdg).mul hE).div_const _
  have hz0 : ∀ x, db x * db x * dg x * E x / MeVtoeV ≠ 0 := fun x => by
    have := hdb0 x
    have := hdg0 x
    have := hE0 x
    unfold MeVtoeV
    positivity
  have hlr : Continuous fun x => (L x / (L x / phi x) - bendS (L x) (L x / phi x) (K x + 1 / (L x / phi x * (L x / phi x)))) /
      ((K x + 1 / (L x / phi x * (L x / phi x))) * (L x / phi x)) :=
    ((hL.div hr hr0).sub hs).div (hX.mul hr) fun x => mul_ne_zero (hKx x) (hr0 x)
  have hlg : Continuous fun x => L x / (g x * g x) := hL.div (hg.mul hg) fun x => mul_ne_zero (hg0 x) (hg0 x)
  refine (edgeM_cont hr hr0 h2 hc2).matrix_mul (Continuous.matrix_mul ?_ (edgeM_cont hr hr0 h1 hc1))
  refine setAt_cont ?_ (hs.mul hdd) _ _
  refine setAt_cont ?_ (hd.mul hdd) _ _
  refine setAt_cont ?_ (((hlr.mul hdd).sub (hlg.mul (hdd.add hq))).mul hk) _ _
  refine setAt_cont ?_ (((hlr.sub hlg).mul hk).div hz hz0) _ _
  refine setAt_cont ?_ (hd.mul hk) _ _
  refine setAt_cont ?_ (hs.mul hk) _ _
  refine setAt_cont ?_ (hs.div hz hz0) _ _
  refine setAt_cont ?_ (hd.div hz hz0) _ _
  exact quadPlane_cont hL hK.neg (quadPlane_cont hL hX continuous_const _ _) _ _

theorem sbend_cont {d : X → MDat} (hd : Placing d) (he : Tuned fun x => (d x).conf) (hm : ∀ x y, (d x).fitMode = (d y).fitMode)
    (hb : ∀ x, Bent (d x).conf) {ref : X → Particle} (hr : Particles ref)
    (hrl : ∀ x, Live (ref x)) {fs : List (X → Particle)} (hfs : ∀ f ∈ fs, Particles f ∧ ∀ x, Live (f x)) (x0 : X)
    (hok : ∀ x, ∃ T, sbendRec (d x) (ref x) (fs.map (fun f => f x)) = .ok T) :
    ∃ Ms : List (X → Mat), (∀ M ∈ Ms, Continuous M) ∧
      ∀ x, sbendRec (d x) (ref x) (fs.map (fun f => f x)) = .ok (Ms.map (fun M => M x)) := by
  choose L phi a b hL hphi ha hbb hL0 hphi0 hca hcb hK using fun x => (hb x).shape
  have hnum : ∀ k (f : X → ℝ), (∀ x, (d x).conf k = some (.num (f x))) → Continuous f ∧ ∀ x, getNum (d x).conf k = .ok (f x) := by
    intro k f hf
    have e : ∀ x, getNum (d x).conf k = .ok (f x) := fun x => by simp [getNum, hf x]
    obtain ⟨g, hg, hge⟩ := tuned_num he k (fun x => ⟨_, e x⟩)
    have : g = f := funext fun x => by
      have := hge x
      rw [e x] at this
      exact (Except.ok.inj this).symm
    exact ⟨this ▸ hg, e⟩
  obtain ⟨cL, eL⟩ := hnum _ _ hL
  obtain ⟨cp, ep⟩ := hnum _ _ hphi
  obtain ⟨ca, ea⟩ := hnum _ _ ha
  obtain ⟨cb, eb⟩ := hnum _ _ hbb
  have hM : MtoMM ≠ 0 := by norm_num [MtoMM]
  have hLm : ∀ x, L x * MtoMM ≠ 0 := fun x => mul_ne_zero (hL0 x) hM
  simp only [sbendRec, eL, ep, ea, eb, ne_eq, hLm, not_false_eq_true, if_true] at hok ⊢
  have hgrad : ∀ x, gradient (d x).conf = getNumD (d x).conf "K" 0 := fun x => rfl
  have hKx : ∀ x, getNumD (d x).conf "K" 0 / (MtoMM * MtoMM) +
      1 / (L x * MtoMM / (phi x * Real.pi / 180) * (L x * MtoMM / (phi x * Real.pi / 180))) ≠ 0 := by
    intro x h0
    apply hK x
    rw [hgrad]
    have := hL0 x
    have := hphi0 x
    have := Real.pi_ne_zero
    field_simp at h0 ⊢
    linarith
  have hpi : ∀ x, phi x * Real.pi / 180 ≠ 0 := fun x => by
    have := hphi0 x
    have := Real.pi_ne_zero
    positivity
  have cpp : Continuous fun x => phi x * Real.pi / 180 := (cp.mul continuous_const).div_const _
  have cap : Continuous fun x => a x * Real.pi / 180 := (ca.mul continuous_const).div_const _
  have cbp : Continuous fun x => b x * Real.pi / 180 := (cb.mul continuous_const).div_const _
  have cLm : Continuous fun x => L x * MtoMM := cL.mul continuous_const
  have cK : Continuous fun x => getNumD (d x).conf "K" 0 / (MtoMM * MtoMM) := (tuned_numD he _ _).div_const _
  refine forEach_cont (P := fun p => Particles p ∧ ∀ x, Live (p x)) ?_ fs hfs hok
  rintro p ⟨hp1, hp2⟩ hok
  have hq : Continuous fun x => ((p x).IonZ - (ref x).IonZ) / (ref x).IonZ := (hp1.IonZ.sub hr.IonZ).div hr.IonZ fun x => (hrl x).charge
  unfold sbendOne at hok ⊢
  dsimp only at hok ⊢
  by_cases h0 : (d x0).fitMode = 0
  · have h0' : ∀ x, (d x).fitMode = 0 := fun x => (hm x x0).trans h0
    simp only [h0', if_true] at hok ⊢
    obtain ⟨g, hg, hge⟩ := tuned_num he "bg" (fun x => by
      obtain ⟨T, hT⟩ := hok x
      split at hT
      · cases hT
      · rename_i v hv
        exact ⟨v, hv⟩)
    simp only [hge] at hok ⊢
    have hg0 : ∀ x, g x ≠ 0 := by
      intro x
      apply (hb x).bg
      have := hge x
      unfold getNum at this
      split at this
      · rename_i w hw
        cases this
        exact hw
      · cases this
    have hgt : ∀ x, 1 < Real.sqrt (g x * g x + 1) := by
      intro x
      rw [Real.lt_sqrt (by norm_num)]
      have := mul_self_pos.2 (hg0 x)
      linarith
    have hgam : ∀ x, ((Real.sqrt (g x * g x + 1) - 1) * (ref x).IonEs + (ref x).IonEs) / (ref x).IonEs = Real.sqrt (g x * g x + 1) := by
      intro x
      have := (hrl x).mass.ne'
      field_simp
      ring
    have cs : Continuous fun x => Real.sqrt (g x * g x + 1) := Real.continuous_sqrt.comp ((hg.mul hg).add continuous_const)
    have cb1 : Continuous fun x => Real.sqrt (1 - 1 / (Real.sqrt (g x * g x + 1) * Real.sqrt (g x * g x + 1))) :=
      Real.continuous_sqrt.comp (continuous_const.sub (continuous_const.div (cs.mul cs) fun x => by
        have := hgt x
        positivity))
    have hb0 : ∀ x, Real.sqrt (1 - 1 / (Real.sqrt (g x * g x + 1) * Real.sqrt (g x * g x + 1))) ≠ 0 := by
      intro x
      apply (Real.sqrt_pos.2 _).ne'
      have := hgt x
      rw [sub_pos, div_lt_one (by positivity)]
      nlinarith
    simp only [hgam] at hok ⊢
    refine aligned_cont hd hr hp1 hrl hp2 ?_ hok
    have cdd : Continuous fun x => ((ref x).gamma - Real.sqrt (g x * g x + 1)) / (Real.sqrt (1 - 1 / (Real.sqrt (g x * g x + 1) * Real.sqrt (g x * g x + 1))) *
        Real.sqrt (1 - 1 / (Real.sqrt (g x * g x + 1) * Real.sqrt (g x * g x + 1))) * Real.sqrt (g x * g x + 1)) -
        ((p x).IonZ - (ref x).IonZ) / (ref x).IonZ :=
      ((hr.gamma.sub cs).div ((cb1.mul cb1).mul cs) fun x => mul_ne_zero (mul_ne_zero (hb0 x) (hb0 x)) (by have := hgt x; positivity)).sub hq
    have ck : Continuous fun x => 2 * Real.pi / (Real.sqrt (1 - 1 / (Real.sqrt (g x * g x + 1) * Real.sqrt (g x * g x + 1))) * (ref x).SampleLambda) :=
      continuous_const.div (cb1.mul hr.SampleLambda) fun x => mul_ne_zero (hb0 x) (hrl x).lam
    exact sbendM_cont cLm hLm cpp hpi cap hca cbp hcb cK hKx hr.IonEs (fun x => (hrl x).mass.ne') hr.gamma (fun x => (hrl x).gamma.ne') hq
      cb1 hb0 cs (fun x => by have := hgt x; positivity) cdd ck
  · have h0' : ∀ x, ¬ (d x).fitMode = 0 := fun x h => h0 ((hm x0 x).trans h)
    simp only [h0', if_false] at hok ⊢
    refine aligned_cont hd hr hp1 hrl hp2 ?_ hok
    exact sbendM_cont cLm hLm cpp hpi cap hca cbp hcb cK hKx hr.IonEs (fun x => (hrl x).mass.ne') hr.gamma (fun x => (hrl x).gamma.ne') hq
      hr.beta (fun x => (hrl x).beta.ne') hr.gamma (fun x => (hrl x).gamma.ne') hq.neg hr.SampleIonK

/-! ## electrostatic dipoles -/

theorem eedgeM_cont {fx fy kappa : X → ℝ} (hx : Continuous fx) (hy : Continuous fy) (hk : Continuous kappa) :
    Continuous fun x => eedgeM (fx x) (fy x) (kappa x) := by
  unfold eedgeM
  exact setAt_cont (setAt_cont (setAt_cont (setAt_cont continuous_const hx _ _) (Real.continuous_sqrt.comp (continuous_const.add hk)) _ _)
    hy _ _) (continuous_const.add hk) _ _

theorem ebendM_eq (L phi fx fy kappa Kx Ky E g eta h dK dKZ k : ℝ) (M : Mat) (hK : 0 < Kx) :
    ebendM L phi fx fy kappa Kx Ky E g eta h dK dKZ k M =
      (let rho := L / phi
      let scl := (g - 1) * E / MeVtoeV
      let M := quadPlane L Ky 2 3 (quadPlane L Kx 0 1 M)
      let dx := (1 - Real.cos (Real.sqrt Kx * L)) / (rho * Kx)
      let sx := Real.sin (Real.sqrt Kx * L) / Real.sqrt Kx
      let Nk := ((1 + 2 * eta) * (1 + 2 * eta) + h) / (2 * (1 + eta) * (1 + 2 * eta))
      let Nt := 1 + h / ((1 + 2 * eta) * (1 + 2 * eta))
      let CorT := -g / (1 + g)
      let tx := sx / rho * Nt * CorT
      let txp := dx * Nt * CorT
      let tzp := (-L / (2 * (1 + eta) * (1 + 2 * eta)) + ((L - sx) / Kx / (rho * rho)) * Nk * Nt) * CorT
      let M := setAt M 0 5 (dx * Nk / scl)
      let M := setAt M 1 5 (sx / rho * Nk / scl)
      let M := setAt M 4 0 (-tx * k)
      let M := setAt M 4 1 (-txp * k)
      let M := setAt M 4 5 (-tzp * k / scl)
      let Nkz := (1 + 2 * eta - h) / (2 * (1 + eta) * (1 + 2 * eta))
      let M := setAt M 0 6 (dx * (Nk * dK + Nkz * dKZ))
      let M := setAt M 1 6 (sx / rho * (Nk * dK + Nkz * dKZ))
      eedgeM fx fy kappa * (M * eedgeM fx fy kappa)) := by
  unfold ebendM
  simp only [if_neg hK.ne', if_pos hK]

theorem ebendM_cont {L phi fx fy kappa Kx Ky E g eta dK dKZ k : X → ℝ} (hL : Continuous L) (hL0 : ∀ x, L x ≠ 0) (hp : Continuous phi)
    (hp0 : ∀ x, phi x ≠ 0) (hx : Continuous fx) (hy : Continuous fy) (hka : Continuous kappa) (hX : Continuous Kx) (hX0 : ∀ x, 0 < Kx x)
    (hY : Continuous Ky) (hE : Continuous E) (hE0 : ∀ x, E x ≠ 0) (hg : Continuous g) (hg1 : ∀ x, 1 < g x) (he : Continuous eta)
    (he0 : ∀ x, 0 < eta x) (hdK : Continuous dK) (hdKZ : Continuous dKZ) (hk : Continuous k) :
    Continuous fun x => ebendM (L x) (phi x) (fx x) (fy x) (kappa x) (Kx x) (Ky x) (E x) (g x) (eta x) 1 (dK x) (dKZ x) (k x) 1 := by
  simp only [ebendM_eq _ _ _ _ _ _ _ _ _ _ _ _ _ _ _ (hX0 _)]
  have hr : Continuous fun x => L x / phi x := hL.div hp hp0
  have hr0 : ∀ x, L x / phi x ≠ 0 := fun x => div_ne_zero (hL0 x) (hp0 x)
  have hq : Continuous fun x => Real.sqrt (Kx x) := Real.continuous_sqrt.comp hX
  have hq0 : ∀ x, Real.sqrt (Kx x) ≠ 0 := fun x => (Real.sqrt_pos.2 (hX0 x)).ne'
  have hd : Continuous fun x => (1 - Real.cos (Real.sqrt (Kx x) * L x)) / (L x / phi x * Kx x) :=
    (continuous_const.sub (Real.continuous_cos.comp (hq.mul hL))).div (hr.mul hX) fun x => mul_ne_zero (hr0 x) (hX0 x).ne'
  have hs : Continuous fun x => Real.sin (Real.sqrt (Kx x) * L x) / Real.sqrt (Kx x) :=
    (Real.continuous_sin.comp (hq.mul hL)).div hq hq0
  have h2 : Continuous fun x => 1 + 2 * eta x := continuous_const.add (continuous_const.mul he)
  have h20 : ∀ x, 1 + 2 * eta x ≠ 0 := fun x => by have := he0 x; positivity
  have h3 : Continuous fun x => 2 * (1 + eta x) * (1 + 2 * eta x) := (continuous_const.mul (continuous_const.add he)).mul h2
  have h30 : ∀ x, 2 * (1 + eta x) * (1 + 2 * eta x) ≠ 0 := fun x => by have := he0 x; positivity
  have hNk : Continuous fun x => ((1 + 2 * eta x) * (1 + 2 * eta x) + 1) / (2 * (1 + eta x) * (1 + 2 * eta x)) :=
    ((h2.mul h2).add continuous_const).div h3 h30
  have hNkz : Continuous fun x => (1 + 2 * eta x - 1) / (2 * (1 + eta x) * (1 + 2 * eta x)) := (h2.sub continuous_const).div h3 h30
  have hNt : Continuous fun x => 1 + 1 / ((1 + 2 * eta x) * (1 + 2 * eta x)) :=
    continuous_const.add (continuous_const.div (h2.mul h2) fun x => mul_ne_zero (h20 x) (h20 x))
  have hC : Continuous fun x => -g x / (1 + g x) := hg.neg.div (continuous_const.add hg) fun x => by have := hg1 x; positivity
  have hz : Continuous fun x => (g x - 1) * E x / MeVtoeV := ((hg.sub continuous_const).mul hE).div_const _
  have hz0 : ∀ x, (g x - 1) * E x / MeVtoeV ≠ 0 := fun x =>
    div_ne_zero (mul_ne_zero (by have := hg1 x; linarith) (hE0 x)) (by norm_num [MeVtoeV])
  have hsr := hs.div hr hr0
  have hK2 := (hNk.mul hdK).add (hNkz.mul hdKZ)
  have htz := ((hL.neg.div h3 h30).add (((((hL.sub hs).div hX fun x => (hX0 x).ne').div (hr.mul hr) fun x => mul_ne_zero (hr0 x) (hr0 x)).mul
    hNk).mul hNt)).mul hC
  refine (eedgeM_cont hx hy hka).matrix_mul (Continuous.matrix_mul ?_ (eedgeM_cont hx hy hka))
  refine setAt_cont ?_ (hsr.mul hK2) _ _
  refine setAt_cont ?_ (hd.mul hK2) _ _
  refine setAt_cont ?_ ((htz.neg.mul hk).div hz hz0) _ _
  refine setAt_cont ?_ (((hd.mul hNt).mul hC).neg.mul hk) _ _
  refine setAt_cont ?_ (((hsr.mul hNt).mul hC).neg.mul hk) _ _
  refine setAt_cont ?_ ((hsr.mul hNk).div hz hz0) _ _
  refine setAt_cont ?_ ((hd.mul hNk).div hz hz0) _ _
  exact quadPlane_cont hL hY (quadPlane_cont hL hX continuous_const _ _) _ _

theorem edipole_cont {env : Env} {d : X → MDat} (hd : Placing d) (he : Tuned fun x => (d x).conf)
    (hm : ∀ x y, (d x).conf "HdipoleFitMode" = (d y).conf "HdipoleFitMode") (hv : ∀ x y, (d x).conf "ver" = (d y).conf "ver")
    (hb : ∀ x, Deflecting (d x).conf) {ref : X → Particle} (hr : Particles ref)
    (hrl : ∀ x, Live (ref x)) {fs : List (X → Particle)} (hfs : ∀ f ∈ fs, Particles f ∧ ∀ x, Live (f x)) (x0 : X)
    (hok : ∀ x, ∃ T, edipoleRec env (d x) (ref x) (fs.map (fun f => f x)) = .ok T) :
    ∃ Ms : List (X → Mat), (∀ M ∈ Ms, Continuous M) ∧
      ∀ x, edipoleRec env (d x) (ref x) (fs.map (fun f => f x)) = .ok (Ms.map (fun M => M x)) := by
  choose L phi sph hL hphi hsph hL0 hphi0 hs2 using fun x => (hb x).shape
  have hnum : ∀ k (f : X → ℝ), (∀ x, (d x).conf k = some (.num (f x))) → Continuous f ∧ ∀ x, getNum (d x).conf k = .ok (f x) := by
    intro k f hf
    have e : ∀ x, getNum (d x).conf k = .ok (f x) := fun x => by simp [getNum, hf x]
    obtain ⟨g, hg, hge⟩ := tuned_num he k (fun x => ⟨_, e x⟩)
    have : g = f := funext fun x => by
      have := hge x
      rw [e x] at this
      exact (Except.ok.inj this).symm
    exact ⟨this ▸ hg, e⟩
  obtain ⟨cL, eL⟩ := hnum _ _ hL
  obtain ⟨cp, ep⟩ := hnum _ _ hphi
  obtain ⟨cs, es⟩ := hnum _ _ hsph
  have hflag : ∀ x, getFlag env (d x).conf "HdipoleFitMode" 1 = getFlag env (d x0).conf "HdipoleFitMode" 1 := by
    intro x
    unfold getFlag getStr getNum
    rw [hm x x0]
  have hver : ∀ x, getNum (d x).conf "ver" = getNum (d x0).conf "ver" := by
    intro x
    unfold getNum
    rw [hv x x0]
  have hM : MtoMM ≠ 0 := by norm_num [MtoMM]
  have hLm : ∀ x, L x * MtoMM ≠ 0 := fun x => mul_ne_zero (hL0 x) hM
  simp only [edipoleRec, eL, ep, es, hver, hflag] at hok ⊢
  cases hvv : getNum (d x0).conf "ver" with
  | error e =>
    rw [hvv] at hok
    obtain ⟨T, hT⟩ := hok x0
    cases hT
  | ok ver =>
  rw [hvv] at hok
  dsimp only at hok ⊢
  cases hmm : getFlag env (d x0).conf "HdipoleFitMode" 1 with
  | error e =>
    rw [hmm] at hok
    obtain ⟨T, hT⟩ := hok x0
    cases hT
  | ok mode =>
  rw [hmm] at hok
  dsimp only at hok ⊢
  by_cases h01 : ¬ mode = 0 ∧ ¬ mode = 1
  · obtain ⟨T, hT⟩ := hok x0
    rw [if_pos h01] at hT
    cases hT
  simp only [ne_eq, if_neg h01, hLm, not_false_eq_true, if_true] at hok ⊢
  obtain ⟨db, cdb, hdb, edb⟩ : ∃ db : X → ℝ, Continuous db ∧ (∀ x, 0 < db x ∧ db x < 1) ∧
      ∀ x, (if ¬ mode = 0 then (ref x).beta else getNumD (d x).conf "beta" (ref x).beta) = db x := by
    by_cases h0 : mode = 0
    · refine ⟨fun x => getNumD (d x).conf "beta" (ref x).beta, ?_, fun x => ?_, fun x => by simp [h0]⟩
      · rcases he "beta" with h | ⟨-, -, -, -, f, hf, h⟩
        · unfold getNumD
          cases hc : (d x0).conf "beta" with
          | none =>
            have h' : ∀ x, (d x).conf "beta" = none := fun x => (h x x0).trans hc
            simp only [h']
            exact hr.beta
          | some v =>
            have h' : ∀ x, (d x).conf "beta" = some v := fun x => (h x x0).trans hc
            simp only [h']
            cases v with
            | num v => exact continuous_const
            | str v => exact hr.beta
            | vec v => exact hr.beta
            | _ => exact hr.beta
        · have : (fun x => getNumD (d x).conf "beta" (ref x).beta) = f := funext fun x => by
            have := h x
            dsimp only at this
            unfold getNumD
            rw [this]
          rw [this]
          exact hf
      · show 0 < getNumD (d x).conf "beta" (ref x).beta ∧ getNumD (d x).conf "beta" (ref x).beta < 1
        unfold getNumD
        split
        · rename_i v hv
          exact (hb x).beta v hv
        · exact ⟨(hrl x).beta, (hrl x).slow⟩
    · exact ⟨fun x => (ref x).beta, hr.beta, fun x => ⟨(hrl x).beta, (hrl x).slow⟩, fun x => by simp [h0]⟩
  simp only [edb] at hok ⊢
  refine forEach_cont (P := fun p => Particles p ∧ ∀ x, Live (p x)) ?_ fs hfs hok
  rintro p ⟨hp1, hp2⟩ hok
  unfold edipoleOne at hok ⊢
  dsimp only at hok ⊢
  refine aligned_cont hd hr hp1 hrl hp2 ?_ hok
  have hpi : ∀ x, phi x * Real.pi / 180 ≠ 0 := fun x => by
    have := hphi0 x
    have := Real.pi_ne_zero
    positivity
  have cpp : Continuous fun x => phi x * Real.pi / 180 := (cp.mul continuous_const).div_const _
  have h1 : ∀ x, 0 < 1 - db x * db x := fun x => by nlinarith [(hdb x).1, (hdb x).2]
  have c1 : Continuous fun x => Real.sqrt (1 - db x * db x) := Real.continuous_sqrt.comp (continuous_const.sub (cdb.mul cdb))
  have heta : Continuous fun x => (1 / Real.sqrt (1 - db x * db x) - 1) / 2 :=
    ((continuous_const.div c1 fun x => (Real.sqrt_pos.2 (h1 x)).ne').sub continuous_const).div_const _
  have heta0 : ∀ x, 0 < (1 / Real.sqrt (1 - db x * db x) - 1) / 2 := by
    intro x
    have h2 := Real.sqrt_pos.2 (h1 x)
    have h3 : Real.sqrt (1 - db x * db x) < 1 := by
      rw [Real.sqrt_lt' one_pos]
      nlinarith [(hdb x).1]
    have : 1 < 1 / Real.sqrt (1 - db x * db x) := by rwa [lt_div_iff₀ h2, one_mul]
    linarith
  have cE : Continuous fun x => (p x).beta * (p x).beta / (p x).IonZ := (hp1.beta.mul hp1.beta).div hp1.IonZ fun x => (hp2 x).charge
  have cE0 : Continuous fun x => db x * db x / (ref x).IonZ := (cdb.mul cdb).div hr.IonZ fun x => (hrl x).charge
  have hE00 : ∀ x, db x * db x / (ref x).IonZ ≠ 0 := fun x => div_ne_zero (mul_ne_zero (hdb x).1.ne' (hdb x).1.ne') (hrl x).charge
  have hE10 : ∀ x, (p x).beta * (p x).beta / (p x).IonZ ≠ 0 := fun x =>
    div_ne_zero (mul_ne_zero (hp2 x).beta.ne' (hp2 x).beta.ne') (hp2 x).charge
  have cq : Continuous fun x => (p x).beta * (p x).beta / (p x).IonZ / (db x * db x / (ref x).IonZ) := cE.div cE0 hE00
  have ceL : Continuous fun x => (p x).beta * (p x).beta / (p x).IonZ / (db x * db x / (ref x).IonZ) * (L x * MtoMM) :=
    cq.mul (cL.mul continuous_const)
  have heL0 : ∀ x, (p x).beta * (p x).beta / (p x).IonZ / (db x * db x / (ref x).IonZ) * (L x * MtoMM) ≠ 0 := fun x =>
    mul_ne_zero (div_ne_zero (hE10 x) (hE00 x)) (hLm x)
  have crho := ceL.div cpp hpi
  have hrho0 := fun x => div_ne_zero (heL0 x) (hpi x)
  have cKx : Continuous fun x => (1 - sph x + (1 + 2 * ((1 / Real.sqrt (1 - db x * db x) - 1) / 2)) *
      (1 + 2 * ((1 / Real.sqrt (1 - db x * db x) - 1) / 2))) /
      ((p x).beta * (p x).beta / (p x).IonZ / (db x * db x / (ref x).IonZ) * (L x * MtoMM) / (phi x * Real.pi / 180) *
      ((p x).beta * (p x).beta / (p x).IonZ / (db x * db x / (ref x).IonZ) * (L x * MtoMM) / (phi x * Real.pi / 180))) :=
    ((continuous_const.sub cs).add ((continuous_const.add (continuous_const.mul heta)).mul
    (continuous_const.add (continuous_const.mul heta)))).div (crho.mul crho) fun x => mul_ne_zero (hrho0 x) (hrho0 x)
  have cKy : Continuous fun x => sph x /
      ((p x).beta * (p x).beta / (p x).IonZ / (db x * db x / (ref x).IonZ) * (L x * MtoMM) / (phi x * Real.pi / 180) *
      ((p x).beta * (p x).beta / (p x).IonZ / (db x * db x / (ref x).IonZ) * (L x * MtoMM) / (phi x * Real.pi / 180))) :=
    cs.div (crho.mul crho) fun x => mul_ne_zero (hrho0 x) (hrho0 x)
  have cdK : Continuous fun x => ((p x).beta * (p x).beta / (p x).IonZ / (db x * db x / (ref x).IonZ) - 1) -
      ((p x).IonEk - (ref x).IonEk) / (p x).IonEk :=
    (cq.sub continuous_const).sub ((hp1.IonEk.sub hr.IonEk).div hp1.IonEk fun x => (hp2 x).moves.energy.ne')
  have cdKZ : Continuous fun x => (ref x).IonZ / (p x).IonZ - 1 := (hr.IonZ.div hp1.IonZ fun x => (hp2 x).charge).sub continuous_const
  have ck : Continuous fun x => 2 * Real.pi / ((p x).beta * (p x).SampleLambda) :=
    continuous_const.div (hp1.beta.mul hp1.SampleLambda) fun x => mul_ne_zero (hp2 x).beta.ne' (hp2 x).lam
  have hX0 : ∀ x, 0 < (1 - sph x + (1 + 2 * ((1 / Real.sqrt (1 - db x * db x) - 1) / 2)) *
      (1 + 2 * ((1 / Real.sqrt (1 - db x * db x) - 1) / 2))) /
      ((p x).beta * (p x).beta / (p x).IonZ / (db x * db x / (ref x).IonZ) * (L x * MtoMM) / (phi x * Real.pi / 180) *
      ((p x).beta * (p x).beta / (p x).IonZ / (db x * db x / (ref x).IonZ) * (L x * MtoMM) / (phi x * Real.pi / 180))) := by
    intro x
    apply div_pos _ (mul_self_pos.2 (hrho0 x))
    have h4 := heta0 x
    have := hs2 x
    nlinarith [mul_pos h4 h4]
  have cM := ebendM_cont ceL heL0 cpp hpi ((tuned_numD he "fringe_x" 0).div_const MtoMM) ((tuned_numD he "fringe_y" 0).div_const MtoMM)
    (tuned_numD he "asym_fac" 0) cKx hX0 cKy hr.IonEs (fun x => (hrl x).mass.ne') hp1.gamma (fun x => (hp2 x).gt) heta heta0 cdK cdKZ ck
  by_cases hv1 : ver = 1
  · simp only [hv1, decide_true, if_true]
    exact (continuous_const.matrix_mul cM).matrix_mul continuous_const
  · simp only [hv1, decide_false, Bool.false_eq_true, if_false]
    exact cM

end Flame.Steady
