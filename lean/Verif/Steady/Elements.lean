import Verif.Steady.Matrices
import Verif.Moment.Misalign
import Verif.Moment.Kinematics

/-! # Matrices of elements as continuous functions of settings and beam -/

namespace Flame.Steady

open Flame.Mach (Err)
open Flame.Linear (LVal LCfg getNum getNumD getVec)
open Flame.Moment Flame.Steady.Spec

variable {X : Type} [TopologicalSpace X]

/-! ## particles -/

/-- A moving particle after `recalc`. -/
structure Live (p : Particle) : Prop where
  mass : 0 < p.IonEs
  beta : 0 < p.beta
  gamma : 0 < p.gamma
  bg : 0 < p.bg
  W : 0 < p.IonW
  charge : p.IonZ ≠ 0
  lam : p.SampleLambda ≠ 0
  k : p.SampleIonK ≠ 0
  faster : p.IonEs < p.IonW
  gt : 1 < p.gamma
  slow : p.beta < 1
  moves : Moves p

theorem gamma_gt {p : Particle} (h : Moves p) : 1 < (p.IonEs + p.IonEk) / p.IonEs := by
  rw [lt_div_iff₀ h.mass]
  linarith [h.energy]

theorem live_recalc {p : Particle} (h : Moves p) : Live p.recalc := by
  have hg := gamma_gt h
  have hgam : p.recalc.gamma = (p.IonEs + p.IonEk) / p.IonEs := by
    simp [Particle.recalc, h.mass.ne']
  have hb : 0 < p.recalc.beta := by
    have : p.recalc.beta = Real.sqrt (1 - 1 / (p.recalc.gamma * p.recalc.gamma)) := rfl
    rw [this, hgam]
    apply Real.sqrt_pos.2
    rw [sub_pos, div_lt_one (by positivity)]
    nlinarith
  have hbg : p.recalc.bg = p.recalc.beta * p.recalc.gamma := by
    have : p.recalc.bg = if p.recalc.beta ≠ 0 then p.recalc.beta * p.recalc.gamma else 1 := rfl
    rw [this, if_pos hb.ne']
  have hl : p.recalc.SampleLambda ≠ 0 := by
    show C0 / p.SampleFreq * MtoMM ≠ 0
    have := h.freq
    unfold C0 MtoMM
    positivity
  have hgp : 0 < p.recalc.gamma := by rw [hgam]; linarith
  refine ⟨h.mass, hb, hgp, by rw [hbg]; positivity, add_pos h.mass h.energy, h.charge, hl, ?_, lt_add_of_pos_right _ h.energy, by rw [hgam]; exact hg, ?_,
    h.mass, h.energy, h.charge, h.freq⟩
  · show 2 * Real.pi / (p.recalc.beta * p.recalc.SampleLambda) ≠ 0
    have := Real.pi_ne_zero
    have := hb.ne'
    positivity
  · show Real.sqrt (1 - 1 / (p.recalc.gamma * p.recalc.gamma)) < 1
    rw [Real.sqrt_lt' one_pos]
    have : 0 < 1 / (p.recalc.gamma * p.recalc.gamma) := by positivity
    linarith

theorem Particles.recalc {p : X → Particle} (h : Particles p) (hm : ∀ x, Moves (p x)) : Particles fun x => (p x).recalc := by
  have hW : Continuous fun x => (p x).recalc.IonW := h.IonEs.add h.IonEk
  have hg : Continuous fun x => (p x).recalc.gamma := by
    have e : (fun x => (p x).recalc.gamma) = fun x => ((p x).IonEs + (p x).IonEk) / (p x).IonEs := by
      funext x
      simp [Particle.recalc, (hm x).mass.ne']
    rw [e]
    exact (h.IonEs.add h.IonEk).div h.IonEs (fun x => (hm x).mass.ne')
  have hb : Continuous fun x => (p x).recalc.beta := by
    show Continuous fun x => Real.sqrt (1 - 1 / ((p x).recalc.gamma * (p x).recalc.gamma))
    refine Real.continuous_sqrt.comp (continuous_const.sub (continuous_const.div (hg.mul hg) (fun x => ?_)))
    have := (live_recalc (hm x)).gamma
    positivity
  have hl : Continuous fun x => (p x).recalc.SampleLambda := by
    show Continuous fun x => C0 / (p x).SampleFreq * MtoMM
    exact (continuous_const.div h.SampleFreq (fun x => (hm x).freq)).mul continuous_const
  refine ⟨h.IonZ, h.IonQ, h.IonEs, hW, hg, hb, ?_, h.SampleFreq, hl, ?_, h.phis, h.IonEk⟩
  · have e : (fun x => (p x).recalc.bg) = fun x => (p x).recalc.beta * (p x).recalc.gamma := by
      funext x
      have : (p x).recalc.bg = if (p x).recalc.beta ≠ 0 then (p x).recalc.beta * (p x).recalc.gamma else 1 := rfl
      rw [this, if_pos (live_recalc (hm x)).beta.ne']
    rw [e]
    exact hb.mul hg
  · show Continuous fun x => 2 * Real.pi / ((p x).recalc.beta * (p x).recalc.SampleLambda)
    exact continuous_const.div (hb.mul hl) (fun x => mul_ne_zero (live_recalc (hm x)).beta.ne' (live_recalc (hm x)).lam)

theorem Particles.drifted {p : X → Particle} (h : Particles p) (b : Bool) {L : X → ℝ} (hL : Continuous L) :
    Particles fun x => (p x).drifted b (L x) :=
  ⟨h.IonZ, h.IonQ, h.IonEs, h.IonW, h.gamma, h.beta, h.bg, h.SampleFreq, h.SampleLambda, h.SampleIonK,
    h.phis.add (continuous_const.mul ((h.SampleIonK.mul hL).mul continuous_const)), h.IonEk⟩

theorem slip_cont {p : X → Particle} (h : Particles p) (hl : ∀ x, Live (p x)) {L : X → ℝ} (hL : Continuous L) :
    Continuous fun x => slip (p x) (L x) := by
  unfold slip
  refine (continuous_const.div (((h.SampleLambda.mul h.IonEs).div_const _).mul ((h.bg.mul h.bg).mul h.bg)) (fun x => ?_)).mul hL
  have h1 := (hl x).lam
  have h2 := (hl x).mass.ne'
  have h3 := (hl x).bg.ne'
  have h4 : MeVtoeV ≠ 0 := by norm_num [MeVtoeV]
  exact mul_ne_zero (div_ne_zero (mul_ne_zero h1 h2) h4) (mul_ne_zero (mul_ne_zero h3 h3) h3)

theorem brho_cont {p : X → Particle} (h : Particles p) (hl : ∀ x, Live (p x)) : Continuous fun x => (p x).Brho := by
  unfold Particle.Brho
  refine (h.beta.mul h.IonW).div (continuous_const.mul h.IonZ) (fun x => ?_)
  have := (hl x).charge
  unfold C0
  positivity

theorem brho_ne {p : Particle} (h : Live p) : p.Brho ≠ 0 := by
  have h1 := h.charge
  have h2 := h.beta.ne'
  have h3 := h.W.ne'
  unfold Particle.Brho C0
  positivity

/-! ## fields -/

theorem quadM_cont {p : X → Particle} (h : Particles p) (hl : ∀ x, Live (p x)) {L K : X → ℝ} (hL : Continuous L) (hK : Continuous K) :
    Continuous fun x => quadM (p x) (L x) (K x) := by
  unfold quadM
  exact setAt_cont (quadPlane_cont hL hK.neg (quadPlane_cont hL hK continuous_const _ _) _ _) (slip_cont h hl hL) _ _

theorem solenoidM_cont {p : X → Particle} (h : Particles p) (hl : ∀ x, Live (p x)) {L K : X → ℝ} (hL : Continuous L)
    (hK : Continuous K) : Continuous fun x => solenoidM (p x) (L x) (K x) := by
  unfold solenoidM
  exact setAt_cont (solM_cont hL hK continuous_const) (slip_cont h hl hL) _ _

theorem driftM_cont {p : X → Particle} (h : Particles p) (hl : ∀ x, Live (p x)) {L : X → ℝ} (hL : Continuous L) :
    Continuous fun x => driftM (p x) (L x) := by
  unfold driftM
  exact setAt_cont (setAt_cont (setAt_cont continuous_const hL _ _) hL _ _) (slip_cont h hl hL) _ _

theorem slices_cont {n : Nat} {f : X → Nat → Mat} (h : ∀ j, Continuous fun x => f x j) : Continuous fun x => slices n (f x) := by
  unfold slices
  have key : ∀ (l : List Nat) (A : X → Mat), Continuous A → Continuous fun x => l.foldl (fun M j => f x j * M) (A x) := by
    intro l
    induction l with
    | nil => intro A hA; exact hA
    | cons j l ih => intro A hA; exact ih (fun x => f x j * A x) ((h j).matrix_mul hA)
  exact key _ _ continuous_const

/-! ## misalignment -/

/-- The data of an element change continuously. -/
structure Placing (d : X → MDat) : Prop where
  length : Continuous fun x => (d x).length
  dx : Continuous fun x => (d x).dx
  dy : Continuous fun x => (d x).dy
  pitch : Continuous fun x => (d x).pitch
  yaw : Continuous fun x => (d x).yaw
  roll : Continuous fun x => (d x).roll

theorem misalign_cont {d : X → MDat} (hd : Placing d) {ref p : X → Particle} (hr : Particles ref) (hp : Particles p)
    (hrl : ∀ x, Live (ref x)) (hpl : ∀ x, Live (p x)) (hok : ∀ x, ∃ r, getMisalign (d x) (ref x) (p x) = .ok r) :
    ∃ A B : X → Mat, Continuous A ∧ Continuous B ∧ ∀ x, getMisalign (d x) (ref x) (p x) = .ok (A x, B x) := by
  let scl : X → Mat := fun x => setAt (setAt 1 4 4 (1 / -(p x).SampleIonK)) 5 5
    (1 / ((p x).beta * (p x).beta * (p x).gamma * (ref x).IonEs / MeVtoeV))
  let T : X → Mat := fun x => setAt (setAt 1 4 6 (-(d x).length / 2 * MtoMM)) 5 6 1
  let R : X → Mat := fun x => rotMat (d x).dx (d x).dy (d x).pitch (d x).yaw (d x).roll
  let T' : X → Mat := fun x => setAt (setAt (T x) 4 6 ((d x).length / 2 * MtoMM)) 5 6 1
  have hscl : Continuous scl := by
    refine setAt_cont (setAt_cont continuous_const (continuous_const.div hp.SampleIonK.neg (fun x => ?_)) _ _)
      (continuous_const.div (((hp.beta.mul hp.beta).mul hp.gamma).mul hr.IonEs |>.div_const _) (fun x => ?_)) _ _
    · exact neg_ne_zero.2 (hpl x).k
    · have h1 := (hpl x).beta.ne'
      have h2 := (hpl x).gamma.ne'
      have h3 := (hrl x).mass.ne'
      have h4 : MeVtoeV ≠ 0 := by norm_num [MeVtoeV]
      exact div_ne_zero (mul_ne_zero (mul_ne_zero (mul_ne_zero h1 h1) h2) h3) h4
  have hT : Continuous T := setAt_cont (setAt_cont continuous_const ((hd.length.neg.div_const _).mul continuous_const) _ _)
    continuous_const _ _
  have hR : Continuous R := rotMat_cont hd.dx hd.dy hd.pitch hd.yaw hd.roll
  have hT' : Continuous T' := setAt_cont (setAt_cont hT ((hd.length.div_const _).mul continuous_const) _ _) continuous_const _ _
  have hall : ∀ x, (∃ I, inverse (scl x) = .ok I) ∧ (∃ I, inverse (T x) = .ok I) ∧ (∃ I, inverse (R x) = .ok I) ∧
      (∃ I, inverse (T' x) = .ok I) := by
    intro x
    obtain ⟨r, hr⟩ := hok x
    unfold getMisalign at hr
    dsimp only at hr
    split at hr
    · cases hr
    rename_i I1 h1
    split at hr
    · cases hr
    rename_i I2 h2
    split at hr
    · cases hr
    rename_i I3 h3
    split at hr
    · cases hr
    rename_i I4 h4
    exact ⟨⟨I1, h1⟩, ⟨I2, h2⟩, ⟨I3, h3⟩, ⟨I4, h4⟩⟩
  obtain ⟨a1, b1⟩ := inverse_cont hscl (fun x => (hall x).1)
  obtain ⟨a2, b2⟩ := inverse_cont hT (fun x => (hall x).2.1)
  obtain ⟨a3, b3⟩ := inverse_cont hR (fun x => (hall x).2.2.1)
  obtain ⟨a4, b4⟩ := inverse_cont hT' (fun x => (hall x).2.2.2)
  refine ⟨fun x => (scl x)⁻¹ * ((T x)⁻¹ * (R x * (T x * scl x))), fun x => (scl x)⁻¹ * ((T' x)⁻¹ * ((R x)⁻¹ * (T' x * scl x))),
    a1.matrix_mul (a2.matrix_mul (hR.matrix_mul (hT.matrix_mul hscl))),
    a1.matrix_mul (a4.matrix_mul (a3.matrix_mul (hT'.matrix_mul hscl))), fun x => ?_⟩
  have c1 := b1 x
  have c2 := b2 x
  have c3 := b3 x
  have c4 := b4 x
  simp only [scl, T, R, T'] at c1 c2 c3 c4
  unfold getMisalign
  simp only [c1, c2, c3, c4, scl, T, R, T']

theorem aligned_cont {d : X → MDat} (hd : Placing d) {ref p : X → Particle} (hr : Particles ref) (hp : Particles p)
    (hrl : ∀ x, Live (ref x)) (hpl : ∀ x, Live (p x)) {T : X → Mat} (hT : Continuous T)
    (hok : ∀ x, ∃ M, aligned (d x) (ref x) (p x) (T x) = .ok M) :
    ∃ M : X → Mat, Continuous M ∧ ∀ x, aligned (d x) (ref x) (p x) (T x) = .ok (M x) := by
  obtain ⟨A, B, hA, hB, h⟩ := misalign_cont hd hr hp hrl hpl (fun x => by
    obtain ⟨M, hM⟩ := hok x
    unfold aligned at hM
    split at hM
    · cases hM
    · rename_i a b hab
      exact ⟨_, hab⟩)
  refine ⟨fun x => B x * (T x * A x), hB.matrix_mul (hT.matrix_mul hA), fun x => ?_⟩
  unfold aligned
  rw [h x]

theorem forEach_cont {P : (X → Particle) → Prop} {G : X → Particle → Except Err Mat}
    (h : ∀ p, P p → (∀ x, ∃ M, G x (p x) = .ok M) → ∃ M : X → Mat, Continuous M ∧ ∀ x, G x (p x) = .ok (M x)) :
    ∀ fs : List (X → Particle), (∀ f ∈ fs, P f) → (∀ x, ∃ l, forEach (G x) (fs.map (fun f => f x)) = .ok l) →
    ∃ Ms : List (X → Mat), (∀ M ∈ Ms, Continuous M) ∧ ∀ x, forEach (G x) (fs.map (fun f => f x)) = .ok (Ms.map (fun M => M x))
  | [], _, _ => ⟨[], by simp, fun _ => rfl⟩
  | f :: fs, hP, hok => by
    have hsplit : ∀ x, (∃ M, G x (f x) = .ok M) ∧ ∃ l, forEach (G x) (fs.map (fun f => f x)) = .ok l := by
      intro x
      obtain ⟨l, hl⟩ := hok x
      rw [List.map_cons, forEach] at hl
      split at hl
      · cases hl
      rename_i b hb
      split at hl
      · cases hl
      rename_i bs hbs
      exact ⟨⟨b, hb⟩, bs, hbs⟩
    obtain ⟨M, hM, h1⟩ := h f (hP f (by simp)) (fun x => (hsplit x).1)
    obtain ⟨Ms, hMs, h2⟩ := forEach_cont h fs (fun g hg => hP g (by simp [hg])) (fun x => (hsplit x).2)
    refine ⟨M :: Ms, by simpa using ⟨hM, hMs⟩, fun x => ?_⟩
    rw [List.map_cons, forEach, h1 x, h2 x]
    rfl

/-! ## settings -/

theorem tuned_vec {e : X → LCfg} (h : Tuned e) (k : String) (x y : X) : getVec (e x) k = getVec (e y) k := by
  rcases h k with h | ⟨-, -, -, -, f, -, hf⟩
  · simp only [getVec, h x y]
  · simp only [getVec, hf]

theorem tuned_str {e : X → LCfg} (h : Tuned e) (k : String) (x y : X) : getStr (e x) k = getStr (e y) k := by
  rcases h k with h | ⟨-, -, -, -, f, -, hf⟩
  · simp only [getStr, h x y]
  · simp only [getStr, hf]

theorem tuned_strD {e : X → LCfg} (h : Tuned e) (k d : String) (x y : X) : getStrD (e x) k d = getStrD (e y) k d := by
  rcases h k with h | ⟨-, -, -, -, f, -, hf⟩
  · simp only [getStrD, h x y]
  · simp only [getStrD, hf]

theorem tuned_numD {e : X → LCfg} (h : Tuned e) (k : String) (d : ℝ) : Continuous fun x => getNumD (e x) k d := by
  rcases h k with h | ⟨-, -, -, -, f, hc, hf⟩
  · exact continuous_of_const (fun x y => by simp only [getNumD, h x y])
  · simpa only [getNumD, hf] using hc

theorem tuned_num {e : X → LCfg} (h : Tuned e) (k : String) (hok : ∀ x, ∃ v, getNum (e x) k = .ok v) :
    ∃ f : X → ℝ, Continuous f ∧ ∀ x, getNum (e x) k = .ok (f x) := by
  refine ⟨fun x => getNumD (e x) k 0, tuned_numD h k 0, fun x => ?_⟩
  obtain ⟨v, hv⟩ := hok x
  unfold getNum at hv ⊢
  unfold getNumD
  split at hv
  · rename_i w hw
    simp only [hw]
  · cases hv

theorem tuned_flag {e : X → LCfg} (h : Tuned e) (env : Env) (x y : X) : getFlag env (e x) "ncurve" 0 = getFlag env (e y) "ncurve" 0 := by
  rcases h "ncurve" with h | ⟨h, -⟩
  · simp only [getFlag, getStr, getNum, h x y]
  · exact absurd rfl h

theorem tuned_realpara {e : X → LCfg} (h : Tuned e) (x y : X) : getNumD (e x) "realpara" 0 = getNumD (e y) "realpara" 0 := by
  rcases h "realpara" with h | ⟨-, h, -⟩
  · simp only [getNumD, h x y]
  · exact absurd rfl h

/-- Curves with scales that change continuously. -/
def Curves (cs : X → List (ℝ × List ℝ)) : Prop :=
  ∃ l : List ((X → ℝ) × List ℝ), (∀ q ∈ l, Continuous q.1) ∧ ∀ x, cs x = l.map (fun q => (q.1 x, q.2))

theorem tuned_oneCurve {e src : X → LCfg} (h : Tuned e) (hs : ∀ k x y, getVec (src x) k = getVec (src y) k) (range : Option (List ℝ))
    (n prev : Nat) (x0 : X) :
    ∃ g : (ℝ → Except Err (List ℝ × Nat × ℝ)), (∀ x, Moment.oneCurve (e x) (src x) range n prev = g (getNumD (e x) ("scl_fac" ++ toString n) 0)) ∧
      ((∃ er, ∀ v, g v = .error er) ∨ ∃ c sz, ∀ v, g v = .ok (c, sz, v)) := by
  refine ⟨fun v => match Moment.oneCurve (e x0) (src x0) range n prev with
    | .error er => .error er
    | .ok (c, sz, _) => .ok (c, sz, v), fun x => ?_, ?_⟩
  · unfold Moment.oneCurve
    rw [hs _ x x0]
    cases getVec (src x0) ("curve" ++ toString n) with
    | error _ => rfl
    | ok cv =>
      rcases range with _ | _ | ⟨a, _ | ⟨b, _ | ⟨c, r⟩⟩⟩
      · dsimp only
        split <;> rfl
      · rfl
      · rfl
      · dsimp only
        cases toUnsigned a with
        | none => rfl
        | some s =>
          cases toUnsigned b with
          | none => rfl
          | some t =>
            dsimp only
            split
            · rfl
            · split
              · rfl
              · first | rfl | (dsimp only; split <;> rfl)
      · rfl
  · cases Moment.oneCurve (e x0) (src x0) range n prev with
    | error er => exact .inl ⟨er, fun _ => rfl⟩
    | ok r => exact .inr ⟨r.1, r.2.1, fun _ => rfl⟩

theorem tuned_curveLoop {e src : X → LCfg} (h : Tuned e) (hs : ∀ k x y, getVec (src x) k = getVec (src y) k) (range : Option (List ℝ))
    (x0 : X) : ∀ (k n prev : Nat), (∀ x, ∃ cs, Moment.curveLoop (e x) (src x) range k n prev = .ok cs) →
    ∃ l : List ((X → ℝ) × List ℝ), (∀ q ∈ l, Continuous q.1) ∧
      ∀ x, Moment.curveLoop (e x) (src x) range k n prev = .ok (l.map (fun q => (q.1 x, q.2)))
  | 0, n, prev, _ => ⟨[], by simp, fun _ => rfl⟩
  | k + 1, n, prev, hok => by
    obtain ⟨g, hg, ⟨er, hbad⟩ | ⟨c, sz, hgood⟩⟩ := tuned_oneCurve h hs range n prev x0
    · obtain ⟨cs, hcs⟩ := hok x0
      rw [Moment.curveLoop, hg, hbad] at hcs
      cases hcs
    · have hstep : ∀ x, Moment.curveLoop (e x) (src x) range (k + 1) n prev =
          match Moment.curveLoop (e x) (src x) range k (n + 1) sz with
          | .error e => .error e
          | .ok r => .ok ((getNumD (e x) ("scl_fac" ++ toString n) 0, c) :: r) := by
        intro x
        rw [Moment.curveLoop, hg, hgood]
        rfl
      obtain ⟨l, hl, h2⟩ := tuned_curveLoop h hs range x0 k (n + 1) sz (fun x => by
        obtain ⟨cs, hcs⟩ := hok x
        rw [hstep] at hcs
        split at hcs
        · cases hcs
        · rename_i r hr
          exact ⟨r, hr⟩)
      refine ⟨(fun x => getNumD (e x) ("scl_fac" ++ toString n) 0, c) :: l, by simpa using ⟨tuned_numD h _ _, fun a b hab => hl (a, b) hab⟩, fun x => ?_⟩
      rw [hstep, h2 x]
      rfl

theorem tuned_curveData {e : X → LCfg} (h : Tuned e) (env : Env) (n : Nat) (x0 : X)
    (hok : ∀ x, ∃ cs, Moment.curveData env (e x) n = .ok cs) :
    ∃ cs : X → List (ℝ × List ℝ), Curves cs ∧ ∀ x, Moment.curveData env (e x) n = .ok (cs x) := by
  have hstr : ∀ x, getStr (e x) "CurveFile" = getStr (e x0) "CurveFile" := fun x => tuned_str h _ _ _
  have hdir : ∀ x, getStrD (e x) "Eng_Data_Dir" "." = getStrD (e x0) "Eng_Data_Dir" "." := fun x => tuned_strD h _ _ _ _
  have hvec : ∀ x, getVec (e x) "use_range" = getVec (e x0) "use_range" := fun x => tuned_vec h _ _ _
  unfold Moment.curveData at hok ⊢
  simp only [hstr, hdir, hvec] at hok ⊢
  cases hf : getStr (e x0) "CurveFile" with
  | error _ =>
    rw [hf] at hok
    dsimp only at hok ⊢
    obtain ⟨l, hl, h2⟩ := tuned_curveLoop h (src := e) (fun k x y => tuned_vec h k x y) _ x0 n 0 0 hok
    exact ⟨fun x => l.map (fun q => (q.1 x, q.2)), ⟨l, hl, fun _ => rfl⟩, h2⟩
  | ok f =>
    rw [hf] at hok
    dsimp only at hok ⊢
    cases hg : env.file (getStrD (e x0) "Eng_Data_Dir" "." ++ "/" ++ f) with
    | error _ =>
      rw [hg] at hok
      obtain ⟨cs, hcs⟩ := hok x0
      cases hcs
    | ok src =>
      rw [hg] at hok
      dsimp only at hok ⊢
      obtain ⟨l, hl, h2⟩ := tuned_curveLoop h (src := fun _ => src) (fun k x y => rfl) _ x0 n 0 0 hok
      exact ⟨fun x => l.map (fun q => (q.1 x, q.2)), ⟨l, hl, fun _ => rfl⟩, h2⟩

theorem Curves.len {cs : X → List (ℝ × List ℝ)} (h : Curves cs) (x y : X) : curveLen (cs x) = curveLen (cs y) := by
  obtain ⟨l, -, h⟩ := h
  rw [h x, h y]
  cases l <;> rfl

theorem Curves.sum {cs : X → List (ℝ × List ℝ)} (h : Curves cs) (j : Nat) {f : X → ℝ → ℝ}
    (hf : ∀ v : X → ℝ, Continuous v → Continuous fun x => f x (v x)) : Continuous fun x => curveSum (cs x) j (f x) := by
  obtain ⟨l, hl, h⟩ := h
  simp only [curveSum, h, List.map_map]
  clear h
  induction l with
  | nil => exact continuous_const
  | cons q l ih =>
    simp only [List.map_cons, List.sum_cons, Function.comp]
    exact (hf _ ((hl q (by simp)).mul continuous_const)).add (ih (fun r hr => hl r (by simp [hr])))

/-! ## elements -/

theorem rotMat_none : rotMat 0 0 0 0 0 = 1 := by rw [rotMat_split, offs_zero, mul_one, turn_zero]

theorem orbtrim_cont {d : X → MDat} (hd : Placing d) (he : Tuned fun x => (d x).conf) {ref : X → Particle} (hr : Particles ref)
    (hrl : ∀ x, Live (ref x)) {fs : List (X → Particle)} (hfs : ∀ f ∈ fs, Particles f ∧ ∀ x, Live (f x)) (x0 : X)
    (hok : ∀ x, ∃ T, orbtrimRec (d x) (ref x) (fs.map (fun f => f x)) = .ok T) :
    ∃ Ms : List (X → Mat), (∀ M ∈ Ms, Continuous M) ∧
      ∀ x, orbtrimRec (d x) (ref x) (fs.map (fun f => f x)) = .ok (Ms.map (fun M => M x)) := by
  have hp : Continuous fun x => (ref x).IonZ * C0 / Real.sqrt ((ref x).IonW * (ref x).IonW - (ref x).IonEs * (ref x).IonEs) := by
    refine (hr.IonZ.mul continuous_const).div
      (Real.continuous_sqrt.comp ((hr.IonW.mul hr.IonW).sub (hr.IonEs.mul hr.IonEs))) (fun x => ?_)
    have h1 := (hrl x).faster
    have h2 := (hrl x).mass
    exact (Real.sqrt_pos.2 (by nlinarith)).ne'
  have hkick : ∀ a b : String, Continuous fun x => if getNumD (d x).conf "realpara" 0 = 1 then
      getNumD (d x).conf a 0 * ((ref x).IonZ * C0 / Real.sqrt ((ref x).IonW * (ref x).IonW - (ref x).IonEs * (ref x).IonEs))
      else getNumD (d x).conf b 0 := by
    intro a b
    by_cases h : getNumD (d x0).conf "realpara" 0 = 1
    · have e : ∀ x, getNumD (d x).conf "realpara" 0 = 1 := fun x => (tuned_realpara he x x0).trans h
      simp only [e, if_true]
      exact (tuned_numD he _ _).mul hp
    · have e : ∀ x, ¬ getNumD (d x).conf "realpara" 0 = 1 := fun x hx => h ((tuned_realpara he x0 x).trans hx)
      simp only [e, if_false]
      exact tuned_numD he _ _
  unfold orbtrimRec at hok ⊢
  dsimp only at hok ⊢
  refine forEach_cont (P := fun p => Particles p ∧ ∀ x, Live (p x)) ?_ fs hfs hok
  rintro p ⟨hp1, hp2⟩ hok
  have hT : Continuous fun x => setAt (setAt (1 : Mat) 1 6 ((if getNumD (d x).conf "realpara" 0 = 1 then
      getNumD (d x).conf "tm_xkick" 0 * ((ref x).IonZ * C0 / Real.sqrt ((ref x).IonW * (ref x).IonW - (ref x).IonEs * (ref x).IonEs))
      else getNumD (d x).conf "theta_x" 0) * (p x).IonZ / (ref x).IonZ)) 3 6 ((if getNumD (d x).conf "realpara" 0 = 1 then
      getNumD (d x).conf "tm_ykick" 0 * ((ref x).IonZ * C0 / Real.sqrt ((ref x).IonW * (ref x).IonW - (ref x).IonEs * (ref x).IonEs))
      else getNumD (d x).conf "theta_y" 0) * (p x).IonZ / (ref x).IonZ) :=
    setAt_cont (setAt_cont continuous_const (((hkick _ _).mul hp1.IonZ).div hr.IonZ (fun x => (hrl x).charge)) _ _)
      (((hkick _ _).mul hp1.IonZ).div hr.IonZ (fun x => (hrl x).charge)) _ _
  obtain ⟨M, hM, h1⟩ := aligned_cont hd hr hp1 hrl hp2 hT (fun x => by
    obtain ⟨M, hM⟩ := hok x
    split at hM
    · cases hM
    · rename_i N hN
      exact ⟨N, hN⟩)
  have hrot : Continuous fun x => rotMat 0 0 0 0 (getNumD (d x).conf "xyrotate" 0 * Real.pi / 180) :=
    rotMat_cont continuous_const continuous_const continuous_const continuous_const
      (((tuned_numD he _ _).mul continuous_const).div_const _)
  refine ⟨fun x => M x * rotMat 0 0 0 0 (getNumD (d x).conf "xyrotate" 0 * Real.pi / 180), hM.matrix_mul hrot, fun x => ?_⟩
  rw [h1 x]
  dsimp only
  split
  · rfl
  · rename_i h0
    rw [not_not.1 h0, rotMat_none, mul_one]

theorem field_cont {env : Env} {d : X → MDat} (hd : Placing d) (he : Tuned fun x => (d x).conf) {ref : X → Particle} (hr : Particles ref)
    (hrl : ∀ x, Live (ref x)) {fs : List (X → Particle)} (hfs : ∀ f ∈ fs, Particles f ∧ ∀ x, Live (f x)) (x0 : X)
    {V : Type} {Q : (X → V) → Prop}
    {B : X → Except Err V} (hB : (∀ x, ∃ v, B x = .ok v) → ∃ f : X → V, Q f ∧ ∀ x, B x = .ok (f x))
    {F : Particle → ℝ → ℝ → Mat} (hF : ∀ p : X → Particle, Particles p → (∀ x, Live (p x)) → ∀ L K : X → ℝ, Continuous L → Continuous K →
      Continuous fun x => F (p x) (L x) (K x))
    {g : Particle → V → ℝ} (hg : ∀ p : X → Particle, Particles p → (∀ x, Live (p x)) → ∀ v : X → V, Q v →
      Continuous fun x => g (p x) (v x))
    {g' : Particle → ℝ → ℝ} (hg' : ∀ p : X → Particle, Particles p → (∀ x, Live (p x)) → ∀ v : X → ℝ, Continuous v →
      Continuous fun x => g' (p x) (v x))
    {rec : MDat → Particle → List Particle → Except Err V → Except Err (List Mat)}
    (hrec : ∀ d ref real b, rec d ref real b = 
      match getNum d.conf "L" with
      | .error e => .error e
      | .ok L0 =>
        match getFlag env d.conf "ncurve" 0 with
        | .error e => .error e
        | .ok n =>
          if n = 0 then
            match b with
            | .error e => .error e
            | .ok B2 => forEach (fun p => aligned d ref p (F p (L0 * MtoMM) (g p B2))) real
          else
            match Moment.curveData env d.conf n with
            | .error e => .error e
            | .ok cs =>
              forEach (fun p => aligned d ref p
                (slices (curveLen cs) (fun j => F p (L0 * MtoMM / (curveLen cs)) (curveSum cs j (g' p))))) real)
    (hok : ∀ x, ∃ T, rec (d x) (ref x) (fs.map (fun f => f x)) (B x) = .ok T) :
    ∃ Ms : List (X → Mat), (∀ M ∈ Ms, Continuous M) ∧
      ∀ x, rec (d x) (ref x) (fs.map (fun f => f x)) (B x) = .ok (Ms.map (fun M => M x)) := by
  simp only [hrec] at hok ⊢
  obtain ⟨L, hL, hLe⟩ := tuned_num he "L" (fun x => by
    obtain ⟨T, hT⟩ := hok x
    split at hT
    · cases hT
    · rename_i v hv
      exact ⟨v, hv⟩)
  have hflag : ∀ x, getFlag env (d x).conf "ncurve" 0 = getFlag env (d x0).conf "ncurve" 0 := fun x => tuned_flag he env x x0
  simp only [hLe, hflag] at hok ⊢
  cases hn : getFlag env (d x0).conf "ncurve" 0 with
  | error e =>
    rw [hn] at hok
    obtain ⟨T, hT⟩ := hok x0
    cases hT
  | ok n =>
    rw [hn] at hok
    dsimp only at hok ⊢
    by_cases h0 : n = 0
    · simp only [h0, if_true] at hok ⊢
      obtain ⟨f, hf, hfe⟩ := hB (fun x => by
        obtain ⟨T, hT⟩ := hok x
        split at hT
        · cases hT
        · rename_i v hv
          exact ⟨v, hv⟩)
      simp only [hfe] at hok ⊢
      refine forEach_cont (P := fun p => Particles p ∧ ∀ x, Live (p x)) ?_ fs hfs hok
      rintro p ⟨hp1, hp2⟩ hok
      exact aligned_cont hd hr hp1 hrl hp2 (hF p hp1 hp2 _ _ (hL.mul continuous_const) (hg p hp1 hp2 f hf)) hok
    · simp only [if_neg h0] at hok ⊢
      obtain ⟨cs, hcs, hcse⟩ := tuned_curveData he env n x0 (fun x => by
        obtain ⟨T, hT⟩ := hok x
        split at hT
        · cases hT
        · rename_i v hv
          exact ⟨v, hv⟩)
      have hlen : ∀ x, curveLen (cs x) = curveLen (cs x0) := fun x => hcs.len x x0
      simp only [hcse, hlen] at hok ⊢
      refine forEach_cont (P := fun p => Particles p ∧ ∀ x, Live (p x)) ?_ fs hfs hok
      rintro p ⟨hp1, hp2⟩ hok
      refine aligned_cont hd hr hp1 hrl hp2 (slices_cont (fun j => ?_)) hok
      exact hF p hp1 hp2 _ _ ((hL.mul continuous_const).div_const _) (hcs.sum j (fun v hv => hg' p hp1 hp2 v hv))

/-- The two settings of an electrostatic quadrupole (as in /repo/src/moment.cpp:1411-1412). -/
noncomputable def twoNums (e : LCfg) : Except Err (ℝ × ℝ) :=
  match getNum e "V", getNum e "radius" with
  | .ok a, .ok b => .ok (a, b)
  | _, _ => .error .keyError

/-- `equadRec` with the settings read first (/repo/src/moment.cpp:1378-1438). -/
noncomputable def equadWith (env : Env) (d : MDat) (ref : Particle) (real : List Particle) (b : Except Err (ℝ × ℝ)) :
    Except Err (List Mat) :=
  match getNum d.conf "L" with
  | .error e => .error e
  | .ok L0 =>
    match getFlag env d.conf "ncurve" 0 with
    | .error e => .error e
    | .ok n =>
      if n = 0 then
        match b with
        | .error e => .error e
        | .ok v => forEach (fun p => aligned d ref p
            (quadM p (L0 * MtoMM) (2 * v.1 / (C0 * p.beta * (v.2 * v.2)) / p.Brho / (MtoMM * MtoMM)))) real
      else
        match curveData env d.conf n with
        | .error e => .error e
        | .ok cs => forEach (fun p => aligned d ref p
            (slices (curveLen cs) (fun j => quadM p (L0 * MtoMM / curveLen cs)
              (curveSum cs j (fun x => 2 * x / (C0 * p.beta) / p.Brho / (MtoMM * MtoMM)))))) real

/-- The kinds of `Straight`. -/
def straight : MType → Bool
  | .source | .sbend | .sextupole | .edipole => false
  | _ => true

theorem recompute_cont {env : Env} {t : MType} (ht : straight t = true) {d : X → MDat} (hd : Placing d)
    (he : Tuned fun x => (d x).conf) (hrad : t = .equad → ∀ x, (d x).conf "radius" ≠ some (.num 0)) {ref : X → Particle}
    (hr : Particles ref) (hrl : ∀ x, Live (ref x)) {fs : List (X → Particle)} (hfs : ∀ f ∈ fs, Particles f ∧ ∀ x, Live (f x)) (x0 : X)
    (hok : ∀ x, ∃ T, recompute env t (d x) (ref x) (fs.map (fun f => f x)) = .ok T) :
    ∃ Ms : List (X → Mat), (∀ M ∈ Ms, Continuous M) ∧
      ∀ x, recompute env t (d x) (ref x) (fs.map (fun f => f x)) = .ok (Ms.map (fun M => M x)) := by
  have hone : ∃ Ms : List (X → Mat), (∀ M ∈ Ms, Continuous M) ∧
      ∀ x, (Except.ok ((fs.map (fun f => f x)).map (fun _ => (1 : Mat))) : Except Err (List Mat)) = .ok (Ms.map (fun M => M x)) :=
    ⟨fs.map (fun _ _ => 1), by
      intro M hM
      obtain ⟨f, -, rfl⟩ := List.mem_map.1 hM
      exact continuous_const, fun x => by rw [List.map_map, List.map_map]; rfl⟩
  cases t with
  | source => cases ht
  | sbend => cases ht
  | sextupole => cases ht
  | edipole => cases ht
  | marker => exact hone
  | bpm => exact hone
  | drift =>
    refine ⟨fs.map (fun f x => driftM (f x) ((d x).length * MtoMM)), ?_, fun x => ?_⟩
    · intro M hM
      obtain ⟨f, hf, rfl⟩ := List.mem_map.1 hM
      exact driftM_cont (hfs f hf).1 (hfs f hf).2 (hd.length.mul continuous_const)
    · simp [recompute]
  | orbtrim => exact orbtrim_cont hd he hr hrl hfs x0 hok
  | quadrupole =>
    refine field_cont (env := env) hd he hr hrl hfs x0 (B := fun x => getNum (d x).conf "B2") (tuned_num he "B2")
      (F := fun p L K => quadM p L K) (fun p h1 h2 L K hL hK => quadM_cont h1 h2 hL hK)
      (Q := fun f => Continuous f) (g := fun p v => v / p.Brho / (MtoMM * MtoMM)) (fun p h1 h2 v hv => ?_) (g' := fun p v => v / p.Brho / (MtoMM * MtoMM))
      (fun p h1 h2 v hv => ?_) (rec := fun d ref real b => 
      match getNum d.conf "L" with
      | .error e => .error e
      | .ok L0 =>
        match getFlag env d.conf "ncurve" 0 with
        | .error e => .error e
        | .ok n =>
          if n = 0 then
            match b with
            | .error e => .error e
            | .ok B2 => forEach (fun p => aligned d ref p (quadM p (L0 * MtoMM) (B2 / p.Brho / (MtoMM * MtoMM)))) real
          else
            match Moment.curveData env d.conf n with
            | .error e => .error e
            | .ok cs =>
              forEach (fun p => aligned d ref p
                (slices (curveLen cs) (fun j => quadM p (L0 * MtoMM / (curveLen cs))
                  (curveSum cs j (fun v => v / p.Brho / (MtoMM * MtoMM)))))) real)
      (fun _ _ _ b => by cases b <;> rfl) hok
    · exact (hv.div (brho_cont h1 h2) (fun x => brho_ne (h2 x))).div_const _
    · exact (hv.div (brho_cont h1 h2) (fun x => brho_ne (h2 x))).div_const _
  | solenoid =>
    refine field_cont (env := env) hd he hr hrl hfs x0 (B := fun x => getNum (d x).conf "B") (tuned_num he "B")
      (F := fun p L K => solenoidM p L K) (fun p h1 h2 L K hL hK => solenoidM_cont h1 h2 hL hK)
      (Q := fun f => Continuous f) (g := fun p v => v / (2 * p.Brho) / MtoMM) (fun p h1 h2 v hv => ?_) (g' := fun p v => v / (2 * p.Brho) / MtoMM)
      (fun p h1 h2 v hv => ?_) (rec := fun d ref real b => 
      match getNum d.conf "L" with
      | .error e => .error e
      | .ok L0 =>
        match getFlag env d.conf "ncurve" 0 with
        | .error e => .error e
        | .ok n =>
          if n = 0 then
            match b with
            | .error e => .error e
            | .ok B2 => forEach (fun p => aligned d ref p (solenoidM p (L0 * MtoMM) (B2 / (2 * p.Brho) / MtoMM))) real
          else
            match Moment.curveData env d.conf n with
            | .error e => .error e
            | .ok cs =>
              forEach (fun p => aligned d ref p
                (slices (curveLen cs) (fun j => solenoidM p (L0 * MtoMM / (curveLen cs))
                  (curveSum cs j (fun v => v / (2 * p.Brho) / MtoMM))))) real)
      (fun _ _ _ b => by cases b <;> rfl) hok
    · exact (hv.div (continuous_const.mul (brho_cont h1 h2)) (fun x => mul_ne_zero two_ne_zero (brho_ne (h2 x)))).div_const _
    · exact (hv.div (continuous_const.mul (brho_cont h1 h2)) (fun x => mul_ne_zero two_ne_zero (brho_ne (h2 x)))).div_const _
  | equad =>
    have key : ∀ x, recompute env .equad (d x) (ref x) (fs.map (fun f => f x)) = equadWith env (d x) (ref x) (fs.map (fun f => f x))
        (twoNums (d x).conf) := by
      intro x
      unfold recompute equadRec equadWith twoNums
      dsimp only
      cases getNum (d x).conf "L" with
      | error e => rfl
      | ok L0 =>
        dsimp only
        cases getFlag env (d x).conf "ncurve" 0 with
        | error e => rfl
        | ok n =>
          dsimp only
          by_cases h0 : n = 0
          · rw [if_pos h0, if_pos h0]
            cases getNum (d x).conf "V" <;> cases getNum (d x).conf "radius" <;> rfl
          · rw [if_neg h0, if_neg h0]
            cases curveData env (d x).conf n <;> rfl
    simp only [key] at hok ⊢
    refine field_cont (env := env) hd he hr hrl hfs x0 (B := fun x => twoNums (d x).conf)
      (Q := fun f => Continuous (fun x => (f x).1) ∧ Continuous (fun x => (f x).2) ∧ ∀ x, (f x).2 ≠ 0) ?_
      (F := fun p L K => quadM p L K) (fun p h1 h2 L K hL hK => quadM_cont h1 h2 hL hK)
      (g := fun p v => 2 * v.1 / (C0 * p.beta * (v.2 * v.2)) / p.Brho / (MtoMM * MtoMM)) (fun p h1 h2 v hv => ?_)
      (g' := fun p v => 2 * v / (C0 * p.beta) / p.Brho / (MtoMM * MtoMM)) (fun p h1 h2 v hv => ?_)
      (rec := equadWith env) (fun _ _ _ b => by cases b <;> rfl) hok
    · intro h
      have h1 : ∀ x, (∃ a, getNum (d x).conf "V" = .ok a) ∧ ∃ b, getNum (d x).conf "radius" = .ok b := by
        intro x
        obtain ⟨v, hv⟩ := h x
        unfold twoNums at hv
        cases ha : getNum (d x).conf "V" <;> cases hb : getNum (d x).conf "radius" <;> rw [ha, hb] at hv <;>
          first | exact ⟨⟨_, rfl⟩, _, rfl⟩ | cases hv
      obtain ⟨a, ha, hae⟩ := tuned_num he "V" (fun x => (h1 x).1)
      obtain ⟨b, hb, hbe⟩ := tuned_num he "radius" (fun x => (h1 x).2)
      refine ⟨fun x => (a x, b x), ⟨ha, hb, fun x h0 => ?_⟩, fun x => by unfold twoNums; rw [hae, hbe]⟩
      have h2 := hbe x
      have h3 := hrad rfl x
      unfold getNum at h2
      split at h2
      · rename_i w hw
        cases h2
        exact h3 (by rw [hw]; exact congrArg _ (congrArg _ h0))
      · cases h2
    · exact ((((continuous_const.mul hv.1).div ((continuous_const.mul h1.beta).mul (hv.2.1.mul hv.2.1))
        (fun x => mul_ne_zero (mul_ne_zero C0_ne (h2 x).beta.ne') (mul_ne_zero (hv.2.2 x) (hv.2.2 x)))).div (brho_cont h1 h2)
        (fun x => brho_ne (h2 x)))).div_const _
    · exact ((((continuous_const.mul hv).div (continuous_const.mul h1.beta)
        (fun x => mul_ne_zero C0_ne (h2 x).beta.ne')).div (brho_cont h1 h2)
        (fun x => brho_ne (h2 x)))).div_const _
  | tmatrix =>
    have hv : ∀ x, loadStorage 49 (d x).conf "matrix" = loadStorage 49 (d x0).conf "matrix" := by
      intro x
      unfold loadStorage
      rw [tuned_vec he "matrix" x x0]
    simp only [recompute, hv] at hok ⊢
    refine forEach_cont (P := fun p => Particles p ∧ ∀ x, Live (p x)) ?_ fs hfs hok
    intro p _ hok
    obtain ⟨M, hM⟩ := hok x0
    exact ⟨fun _ => M, continuous_const, fun _ => hM⟩

end Flame.Steady
