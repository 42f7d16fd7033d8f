import Verif.Moment.Model
import Verif.Moment.Spec
import Mathlib.Algebra.BigOperators.Group.List.Basic
import Mathlib.Algebra.Order.BigOperators.Group.List
import Mathlib.Algebra.BigOperators.Ring.List
import Mathlib.Tactic.FieldSimp
import Mathlib.Tactic.Ring
import Mathlib.Tactic.LinearCombination
import Mathlib.Tactic.Positivity
import Mathlib.Tactic.NormNum

/-! # Statistics of a beam of several charge states: C34, C35 -/

namespace Flame.Moment

open Spec

/-! ## sums over the charge states -/

/-- Charge states as triples: particle, centroid, covariance. -/
abbrev Tri := Particle × Vec × Mat

theorem zipWith_tri {γ : Type} (f : Particle → Vec → γ) (l : List Tri) :
    List.zipWith f (l.map (·.1)) (l.map (·.2.1)) = l.map (fun t => f t.1 t.2.1) := by
  induction l with
  | nil => rfl
  | cons a l ih => simp [ih]

theorem zipWith_tri' {γ : Type} (f : Particle → Vec × Mat → γ) (l : List Tri) :
    List.zipWith f (l.map (·.1)) (List.zip (l.map (·.2.1)) (l.map (·.2.2))) = l.map (fun t => f t.1 (t.2.1, t.2.2)) := by
  induction l with
  | nil => rfl
  | cons a l ih => simpa using ih

/-- Sum over charge states. -/
noncomputable def sumOver (l : List Tri) (f : Tri → ℝ) : ℝ := (l.map f).sum

theorem totQ_tri (l : List Tri) : totQ (l.map (·.1)) = sumOver l (fun t => t.1.IonQ) := by
  simp [totQ, sumOver, Function.comp_def]

theorem env0_tri (l : List Tri) (j : Fin 7) :
    env0 (l.map (·.1)) (l.map (·.2.1)) j = sumOver l (fun t => t.2.1 j * t.1.IonQ) / sumOver l (fun t => t.1.IonQ) := by
  unfold env0
  rw [zipWith_tri (fun p v => v j * p.IonQ), totQ_tri]
  rfl

theorem env1_tri (l : List Tri) (i j : Fin 7) :
    env1 (l.map (·.1)) (l.map (·.2.1)) (l.map (·.2.2)) i j =
      if i < 6 ∧ j < 6 then
        sumOver l (fun t => t.1.IonQ * (t.2.2 i j +
          (t.2.1 i - env0 (l.map (·.1)) (l.map (·.2.1)) i) * (t.2.1 j - env0 (l.map (·.1)) (l.map (·.2.1)) j))) /
        sumOver l (fun t => t.1.IonQ)
      else 0 := by
  unfold env1
  rw [zipWith_tri', totQ_tri]
  rfl

/-- Lists of the same length are the components of a list of triples. -/
theorem tri_of_lists : ∀ (r : List Particle) (v : List Vec) (S : List Mat), v.length = r.length → S.length = r.length →
    ∃ l : List Tri, r = l.map (·.1) ∧ v = l.map (·.2.1) ∧ S = l.map (·.2.2)
  | [], [], [], _, _ => ⟨[], rfl, rfl, rfl⟩
  | p :: r, a :: v, B :: S, h1, h2 => by
    obtain ⟨l, e1, e2, e3⟩ := tri_of_lists r v S (by simpa using h1) (by simpa using h2)
    exact ⟨(p, a, B) :: l, by simp [e1], by simp [e2], by simp [e3]⟩
  | [], _ :: _, _, h, _ => by simp at h
  | [], [], _ :: _, _, h => by simp at h
  | _ :: _, [], _, h, _ => by simp at h
  | _ :: _, _ :: _, [], _, h => by simp at h

theorem sumOver_add (l : List Tri) (f g : Tri → ℝ) : sumOver l (fun t => f t + g t) = sumOver l f + sumOver l g :=
  List.sum_map_add

theorem sumOver_mul (l : List Tri) (c : ℝ) (f : Tri → ℝ) : sumOver l (fun t => c * f t) = c * sumOver l f :=
  List.sum_map_mul_left l f c

theorem sumOver_nonneg (l : List Tri) (f : Tri → ℝ) (h : ∀ t ∈ l, 0 ≤ f t) : 0 ≤ sumOver l f :=
  List.sum_nonneg (by
    intro x hx
    obtain ⟨t, ht, rfl⟩ := List.mem_map.1 hx
    exact h t ht)

theorem sumOver_congr {l : List Tri} {f g : Tri → ℝ} (h : ∀ t ∈ l, f t = g t) : sumOver l f = sumOver l g := by
  unfold sumOver
  rw [List.map_congr_left h]

theorem sumOver_finset (l : List Tri) {n : Nat} (f : Fin n → Tri → ℝ) :
    sumOver l (fun t => ∑ i, f i t) = ∑ i, sumOver l (f i) := by
  induction l with
  | nil => simp [sumOver]
  | cons a l ih =>
    simp only [sumOver, List.map_cons, List.sum_cons] at ih ⊢
    rw [ih, Finset.sum_add_distrib]

/-! ## clouds -/

theorem weight_append (X Y : Cloud) : weight (X ++ Y) = weight X + weight Y := by simp [weight]

theorem weight_flatten (Xs : List Cloud) : weight Xs.flatten = (Xs.map weight).sum := by
  induction Xs with
  | nil => simp [weight]
  | cons X Xs ih => simp [weight_append, ih]

theorem sum_flatten (Xs : List Cloud) (f : ℝ × (Fin 7 → ℝ) → ℝ) :
    (Xs.flatten.map f).sum = (Xs.map (fun X => (X.map f).sum)).sum := by
  induction Xs with
  | nil => rfl
  | cons X Xs ih => rw [List.flatten_cons, List.map_append, List.sum_append, ih, List.map_cons, List.sum_cons]

/-- The sum of the deviations from any point, in terms of mean and covariance. -/
theorem shift (X : Cloud) (hw : weight X ≠ 0) (a b : ℝ) (i j : Fin 7) :
    (X.map (fun q => q.1 * ((q.2 i - a) * (q.2 j - b)))).sum =
      weight X * (cov X i j + (mean X i - a) * (mean X j - b)) := by
  have e : ∀ a b : ℝ, (X.map (fun q => q.1 * ((q.2 i - a) * (q.2 j - b)))).sum =
      (X.map (fun q => q.1 * (q.2 i * q.2 j))).sum - b * (X.map (fun q => q.1 * q.2 i)).sum
        - a * (X.map (fun q => q.1 * q.2 j)).sum + a * b * weight X := by
    intro a b
    unfold weight
    clear hw
    induction X with
    | nil => simp
    | cons q X ih =>
      simp only [List.map_cons, List.sum_cons, ih]
      ring
  have hm : ∀ k, (X.map (fun q => q.1 * q.2 k)).sum = mean X k * weight X := by
    intro k
    unfold mean
    rw [div_mul_cancel₀ _ hw]
  have hc : weight X * cov X i j = (X.map (fun q => q.1 * ((q.2 i - mean X i) * (q.2 j - mean X j)))).sum := by
    unfold cov
    rw [mul_div_cancel₀ _ hw]
  rw [mul_add, hc, e a b, e (mean X i) (mean X j), hm i, hm j]
  ring

/-- The moments of a charge state are those of a cloud. -/
def Describes (X : Cloud) (t : Tri) : Prop :=
  (X = [] ∧ t.1.IonQ = 0) ∨
  (weight X = t.1.IonQ ∧ weight X ≠ 0 ∧ mean X = t.2.1 ∧ phaseSpace (cov X) = phaseSpace t.2.2)

theorem lt_six_castSucc {i : Fin 7} (h : i < 6) : ∃ k : Fin 6, i = k.castSucc :=
  ⟨⟨i.1, h⟩, rfl⟩

theorem castSucc_lt_six (k : Fin 6) : k.castSucc < 6 := by
  show (k : Nat) < 6
  exact k.2

theorem sum_forall₂ {Xs : List Cloud} {l : List Tri} (h : List.Forall₂ Describes Xs l) {F : Cloud → ℝ} {g : Tri → ℝ}
    (hF : ∀ X t, Describes X t → F X = g t) : (Xs.map F).sum = sumOver l g := by
  induction h with
  | nil => rfl
  | cons hd _ ih =>
    simp only [sumOver, List.map_cons, List.sum_cons] at ih ⊢
    rw [ih, hF _ _ hd]

/-- C34: if the centroids and covariances of the charge states are those of clouds of particles whose weights are the
charges, then the envelope centroid and covariance are those of all particles together, and the rms the square roots of
the variances.  The seventh row and column of the covariance are zero. -/
theorem C34_mixture (s : MSt) (Xs : List Cloud) (l : List Tri) (hr : s.real = l.map (·.1))
    (h0 : s.moment0 = l.map (·.2.1)) (h1 : s.moment1 = l.map (·.2.2))
    (hX : List.Forall₂ Describes Xs l) (_htot : weight Xs.flatten ≠ 0) :
    s.calcRms.moment0_env = mean Xs.flatten ∧
    phaseSpace s.calcRms.moment1_env = phaseSpace (cov Xs.flatten) ∧
    (∀ i, s.calcRms.moment1_env i 6 = 0 ∧ s.calcRms.moment1_env 6 i = 0) ∧
    (∀ k : Fin 6, s.calcRms.moment0_rms k.castSucc = Real.sqrt (cov Xs.flatten k.castSucc k.castSucc)) ∧
    s.calcRms.moment0_rms 6 = 0 := by
  have hw : weight Xs.flatten = sumOver l (fun t => t.1.IonQ) := by
    rw [weight_flatten]
    refine sum_forall₂ hX ?_
    rintro X t (⟨rfl, h⟩ | ⟨h, _⟩)
    · simp [weight, h]
    · exact h
  have hm : env0 s.real s.moment0 = mean Xs.flatten := by
    funext j
    rw [hr, h0, env0_tri, mean, hw, sum_flatten]
    congr 1
    symm
    refine sum_forall₂ hX ?_
    rintro X t (⟨rfl, h⟩ | ⟨h, hn, hm, _⟩)
    · simp [h]
    · rw [← hm, mean, ← h, div_mul_cancel₀ _ hn]
  have hc : ∀ a b : Fin 6, env1 s.real s.moment0 s.moment1 a.castSucc b.castSucc =
      cov Xs.flatten a.castSucc b.castSucc := by
    intro a b
    rw [hr, h0, h1, env1_tri, if_pos ⟨castSucc_lt_six a, castSucc_lt_six b⟩, ← hr, ← h0, hm, cov, hw, sum_flatten]
    congr 1
    symm
    refine sum_forall₂ hX ?_
    rintro X t (⟨rfl, h⟩ | ⟨h, hn, hm, hcov⟩)
    · simp [h]
    · rw [shift X hn, ← hm, h]
      have := congrFun (congrFun hcov a) b
      unfold phaseSpace at this
      rw [this]
  have h6 : ∀ i, env1 s.real s.moment0 s.moment1 i 6 = 0 ∧ env1 s.real s.moment0 s.moment1 6 i = 0 := by
    intro i
    constructor <;>
    · unfold env1
      rw [if_neg]
      simp
  refine ⟨hm, ?_, h6, ?_, ?_⟩
  · funext a b
    exact hc a b
  · intro k
    show Real.sqrt (env1 _ _ _ _ _) = _
    rw [hc]
  · show Real.sqrt (env1 _ _ _ _ _) = _
    rw [(h6 6).1, Real.sqrt_zero]

/-- Two charge states of weights 1 and 3, each a pair of particles. -/
noncomputable def exClouds : List Cloud :=
  [[(1 / 2, fun _ => 1), (1 / 2, fun _ => -1)], [(3 / 2, fun _ => 4), (3 / 2, fun _ => 6)]]

noncomputable def exTri (p : Particle) : List Tri :=
  [({ p with IonQ := 1 }, fun _ => 0, fun _ _ => 1), ({ p with IonQ := 3 }, fun _ => 5, fun _ _ => 1)]

example (p : Particle) : List.Forall₂ Describes exClouds (exTri p) ∧ weight exClouds.flatten ≠ 0 := by
  refine ⟨.cons (.inr ⟨?_, ?_, ?_, ?_⟩) (.cons (.inr ⟨?_, ?_, ?_, ?_⟩) .nil), ?_⟩
  · simp only [weight]; norm_num
  · simp only [weight]; norm_num
  · funext i; simp only [mean, weight]; norm_num
  · funext i j; simp only [phaseSpace, cov, mean, weight]; norm_num
  · simp only [weight]; norm_num
  · simp only [weight]; norm_num
  · funext i; simp only [mean, weight]; norm_num
  · funext i j; simp only [phaseSpace, cov, mean, weight]; norm_num
  · simp only [weight, exClouds]; norm_num

/-- The charge states of a state as triples. -/
def Parts (s : MSt) (l : List Tri) : Prop :=
  s.real = l.map (·.1) ∧ s.moment0 = l.map (·.2.1) ∧ s.moment1 = l.map (·.2.2)

/-- C34: the envelope covariance is symmetric and positive semidefinite if those of the charge states are and no charge
is negative. -/
theorem C34_psd (s : MSt) (l : List Tri) (hp : Parts s l) (hQ : ∀ t ∈ l, 0 ≤ t.1.IonQ)
    (hS : ∀ t ∈ l, Covariance (phaseSpace t.2.2)) :
    Covariance (phaseSpace s.calcRms.moment1_env) ∧ Covariance s.calcRms.moment1_env := by
  obtain ⟨hr, h0, h1⟩ := hp
  set W := sumOver l (fun t => t.1.IonQ) with hW
  have hW0 : 0 ≤ W := sumOver_nonneg _ _ hQ
  set m := env0 s.real s.moment0 with hm
  have he : ∀ a b : Fin 6, s.calcRms.moment1_env a.castSucc b.castSucc =
      sumOver l (fun t => t.1.IonQ * (t.2.2 a.castSucc b.castSucc +
        (t.2.1 a.castSucc - m a.castSucc) * (t.2.1 b.castSucc - m b.castSucc))) / W := by
    intro a b
    show env1 _ _ _ _ _ = _
    rw [hm, hr, h0, h1, env1_tri, if_pos ⟨castSucc_lt_six a, castSucc_lt_six b⟩]
  have h6 : ∀ i, s.calcRms.moment1_env i 6 = 0 ∧ s.calcRms.moment1_env 6 i = 0 := by
    intro i
    constructor
    · show env1 s.real s.moment0 s.moment1 i 6 = 0
      unfold env1
      rw [if_neg]
      simp
    · show env1 s.real s.moment0 s.moment1 6 i = 0
      unfold env1
      rw [if_neg]
      simp
  have sym : ∀ a b : Fin 6, s.calcRms.moment1_env a.castSucc b.castSucc = s.calcRms.moment1_env b.castSucc a.castSucc := by
    intro a b
    rw [he, he]
    congr 1
    refine sumOver_congr ?_
    intro t ht
    have := congrFun (congrFun (hS t ht).1 b) a
    simp only [Matrix.transpose_apply, phaseSpace] at this
    rw [this]
    ring
  have pos : ∀ x : Fin 6 → ℝ, 0 ≤ ∑ a, ∑ b, x a * s.calcRms.moment1_env a.castSucc b.castSucc * x b := by
    intro x
    have : ∑ a, ∑ b, x a * s.calcRms.moment1_env a.castSucc b.castSucc * x b =
        sumOver l (fun t => t.1.IonQ * ((∑ a, ∑ b, x a * phaseSpace t.2.2 a b * x b) +
          (∑ a, x a * (t.2.1 a.castSucc - m a.castSucc)) ^ 2)) / W := by
      have e1 : ∀ a b : Fin 6, x a * s.calcRms.moment1_env a.castSucc b.castSucc * x b =
          sumOver l (fun t => t.1.IonQ * (x a * phaseSpace t.2.2 a b * x b +
            x a * (t.2.1 a.castSucc - m a.castSucc) * (x b * (t.2.1 b.castSucc - m b.castSucc)))) / W := by
        intro a b
        rw [he, mul_div_assoc', div_mul_eq_mul_div, ← sumOver_mul, mul_comm, ← sumOver_mul]
        congr 1
        refine sumOver_congr fun t _ => ?_
        simp only [phaseSpace]
        ring
      simp only [e1]
      simp only [div_eq_mul_inv, ← Finset.sum_mul]
      congr 1
      simp only [← sumOver_finset]
      refine sumOver_congr fun t _ => ?_
      rw [sq, Finset.sum_mul_sum]
      simp only [Finset.sum_add_distrib, ← Finset.mul_sum]
    rw [this]
    refine div_nonneg (sumOver_nonneg _ _ ?_) hW0
    intro t ht
    exact mul_nonneg (hQ t ht) (add_nonneg ((hS t ht).2 x) (sq_nonneg _))
  refine ⟨⟨?_, pos⟩, ?_, ?_⟩
  · funext a b
    exact sym b a
  · funext i j
    rw [Matrix.transpose_apply]
    by_cases hi : i < 6
    · by_cases hj : j < 6
      · obtain ⟨a, rfl⟩ := lt_six_castSucc hi
        obtain ⟨b, rfl⟩ := lt_six_castSucc hj
        exact sym b a
      · have : j = 6 := by omega
        subst this
        rw [(h6 i).1, (h6 i).2]
    · have : i = 6 := by omega
      subst this
      rw [(h6 j).1, (h6 j).2]
  · intro x
    have hz := pos (fun a => x a.castSucc)
    have h6' : ∀ i, s.calcRms.moment1_env i (Fin.last 6) = 0 ∧ s.calcRms.moment1_env (Fin.last 6) i = 0 := h6
    rw [Fin.sum_univ_castSucc]
    simp only [Fin.sum_univ_castSucc (n := 6) (fun b => _ * _ * x b), h6', mul_zero, zero_mul, add_zero,
      Finset.sum_const_zero]
    exact hz

example (p : Particle) : (∀ t ∈ exTri p, 0 ≤ t.1.IonQ) ∧ ∀ t ∈ exTri p, Covariance (phaseSpace t.2.2) := by
  have h : Covariance (phaseSpace (fun _ _ => 1)) := by
    refine ⟨rfl, fun x => ?_⟩
    have : ∑ i, ∑ j, x i * phaseSpace (fun _ _ => 1) i j * x j = (∑ i, x i) ^ 2 := by
      rw [sq, Finset.sum_mul_sum]
      simp [phaseSpace]
    rw [this]
    positivity
  simp [exTri, h]

/-- C34: a single charge state reports its own moments. -/
theorem C34_single (s : MSt) (p : Particle) (v : Vec) (S : Mat) (hp : Parts s [(p, v, S)]) (hQ : p.IonQ ≠ 0) :
    s.calcRms.moment0_env = v ∧ phaseSpace s.calcRms.moment1_env = phaseSpace S ∧
    ∀ k : Fin 6, s.calcRms.moment0_rms k.castSucc = Real.sqrt (S k.castSucc k.castSucc) := by
  obtain ⟨hr, h0, h1⟩ := hp
  have hm : env0 s.real s.moment0 = v := by
    funext j
    rw [hr, h0, env0_tri]
    simp [sumOver, hQ]
  have hc : ∀ a b : Fin 6, env1 s.real s.moment0 s.moment1 a.castSucc b.castSucc = S a.castSucc b.castSucc := by
    intro a b
    rw [hr, h0, h1, env1_tri, if_pos ⟨castSucc_lt_six a, castSucc_lt_six b⟩, ← hr, ← h0, hm]
    simp [sumOver, hQ]
  refine ⟨hm, ?_, ?_⟩
  · funext a b
    exact hc a b
  · intro k
    show Real.sqrt (env1 _ _ _ _ _) = _
    rw [hc]

/-- The same charge states with all charges multiplied by `c`. -/
def scaled (c : ℝ) (l : List Tri) : List Tri := l.map (fun t => ({ t.1 with IonQ := c * t.1.IonQ }, t.2))

/-- C34: multiplying all charges by the same number changes no envelope moment, and neither does the order of the charge
states. -/
theorem C34_scale_order (s s' : MSt) (l l' : List Tri) (hp : Parts s l) (hp' : Parts s' l')
    (h : (∃ c ≠ 0, l' = scaled c l) ∨ l'.Perm l) :
    s'.calcRms.moment0_env = s.calcRms.moment0_env ∧ s'.calcRms.moment1_env = s.calcRms.moment1_env ∧
    s'.calcRms.moment0_rms = s.calcRms.moment0_rms := by
  obtain ⟨hr, h0, h1⟩ := hp
  obtain ⟨hr', h0', h1'⟩ := hp'
  -- both changes multiply all sums linear in the charges by one factor
  have key : ∃ c : ℝ, c ≠ 0 ∧ ∀ g : Vec → Mat → ℝ,
      sumOver l' (fun t => t.1.IonQ * g t.2.1 t.2.2) = c * sumOver l (fun t => t.1.IonQ * g t.2.1 t.2.2) := by
    rcases h with ⟨c, hc, rfl⟩ | hperm
    · refine ⟨c, hc, fun g => ?_⟩
      rw [← sumOver_mul]
      simp only [sumOver, scaled, List.map_map]
      congr 1
      refine List.map_congr_left fun t _ => ?_
      simp only [Function.comp_apply]
      ring
    · refine ⟨1, one_ne_zero, fun g => ?_⟩
      rw [one_mul]
      exact (hperm.map _).sum_eq
  obtain ⟨c, hc, key⟩ := key
  have kW : sumOver l' (fun t => t.1.IonQ) = c * sumOver l (fun t => t.1.IonQ) := by
    simpa using key (fun _ _ => 1)
  have hm : env0 s'.real s'.moment0 = env0 s.real s.moment0 := by
    funext j
    rw [hr, h0, hr', h0', env0_tri, env0_tri, kW]
    have := key (fun v _ => v j)
    simp only [mul_comm (_ : ℝ) (Particle.IonQ _)] at this ⊢
    rw [this, mul_div_mul_left _ _ hc]
  have hc1 : env1 s'.real s'.moment0 s'.moment1 = env1 s.real s.moment0 s.moment1 := by
    funext i j
    rw [hr', h0', h1', env1_tri, ← hr', ← h0', hm, hr, h0, h1, env1_tri, ← hr, ← h0, kW]
    congr 1
    rw [key (fun v S => S i j + (v i - env0 s.real s.moment0 i) * (v j - env0 s.real s.moment0 j)),
      mul_div_mul_left _ _ hc]
  refine ⟨hm, hc1, ?_⟩
  funext j
  show Real.sqrt (env1 _ _ _ _ _) = Real.sqrt (env1 _ _ _ _ _)
  rw [hc1]

example (p : Particle) : (exTri p).reverse.Perm (exTri p) ∧ ∃ c ≠ 0, scaled 2 (exTri p) = scaled c (exTri p) :=
  ⟨List.reverse_perm _, 2, by norm_num, rfl⟩

end Flame.Moment
