import Verif.Scale.Spec
import Verif.Cavity.Time
import Verif.Moment.Walk
import Verif.Util.PropsStamped

/-! # Fields and charges in proportion: the elements without cavities -/

namespace Flame.Scale

open Flame.Mach (Elem Cls St Err Run)
open Flame.Linear (LVal LCfg getNum getNumD getVec)
open Flame.Moment
open Flame.Scale.Spec

/-! ## settings -/

/-- The settings that are not changed, as a test. -/
def plain (k : String) : Bool :=
  k ∉ ["IonZ", "Stripper_IonZ", "IonChargeStates", "B2", "B", "B3", "tm_xkick", "tm_ykick", "V", "scl_fac"] &&
    k.toList.take 7 ≠ "scl_fac".toList

theorem take_scl (t : String) : ("scl_fac" ++ t).toList.take 7 = "scl_fac".toList := by
  rw [String.toList_append]
  rfl

theorem rest_of {q : ℝ} {c c' : LCfg} (h : Rescaled q c c') {k : String} (hk : plain k = true) : c' k = c k := by
  simp only [plain, Bool.and_eq_true, decide_eq_true_eq, List.mem_cons, List.not_mem_nil, or_false, not_or] at hk
  obtain ⟨⟨h1, h2, h3, h4, h5, h6, h7, h8, h9, h10⟩, h11⟩ := hk
  refine h.rest k ?_ h3 ?_
  · simp only [IsCharge, List.mem_cons, List.not_mem_nil, or_false, not_or]
    exact ⟨h1, h2⟩
  · rintro (hm | ⟨n, rfl⟩)
    · simp only [List.mem_cons, List.not_mem_nil, or_false] at hm
      rcases hm with h | h | h | h | h | h | h <;> contradiction
    · exact h11 (take_scl _)

section settings
variable {q : ℝ} {c c' : LCfg} (h : Rescaled q c c')
include h

theorem num_same (k : String) (hk : plain k = true) : getNum c' k = getNum c k := by
  simp only [getNum, rest_of h hk]

theorem numD_same (k : String) (d : ℝ) (hk : plain k = true) : getNumD c' k d = getNumD c k d := by
  simp only [getNumD, rest_of h hk]

theorem vec_same (k : String) (hk : plain k = true) : getVec c' k = getVec c k := by
  simp only [getVec, rest_of h hk]

theorem str_all (k : String) : getStr c' k = getStr c k := by
  by_cases hc : IsCharge k
  · simp only [getStr, h.charge k hc]
    cases c k with
    | none => rfl
    | some v => cases v <;> rfl
  · by_cases hs : k = "IonChargeStates"
    · subst hs
      simp only [getStr, h.charges]
      cases c "IonChargeStates" with
      | none => rfl
      | some v => cases v <;> rfl
    · by_cases hf : IsField k
      · simp only [getStr, h.field k hf]
        cases c k with
        | none => rfl
        | some v => cases v <;> rfl
      · simp only [getStr, h.rest k hc hs hf]

theorem strD_all (k d : String) : getStrD c' k d = getStrD c k d := by
  have := str_all h k
  unfold getStr at this
  unfold getStrD
  split at this <;> split at this <;> simp_all

theorem vec_all (k : String) (hs : k ≠ "IonChargeStates") : getVec c' k = getVec c k := by
  by_cases hc : IsCharge k
  · simp only [getVec, h.charge k hc]
    cases c k with
    | none => rfl
    | some v => cases v <;> rfl
  · by_cases hf : IsField k
    · simp only [getVec, h.field k hf]
      cases c k with
      | none => rfl
      | some v => cases v <;> rfl
    · simp only [getVec, h.rest k hc hs hf]

theorem flag_same (env : Env) (k : String) (d : Nat) (hk : plain k = true) : getFlag env c' k d = getFlag env c k d := by
  unfold getFlag
  rw [str_all h, num_same h k hk]

theorem num_field (k : String) (hk : IsField k) : getNum c' k = (getNum c k).map (q⁻¹ * ·) := by
  simp only [getNum, h.field k hk]
  cases c k with
  | none => rfl
  | some v => cases v <;> rfl

theorem numD_field (k : String) (hk : IsField k) : getNumD c' k 0 = q⁻¹ * getNumD c k 0 := by
  simp only [getNumD, h.field k hk]
  cases c k with
  | none => exact (mul_zero _).symm
  | some v => cases v <;> first | rfl | exact (mul_zero _).symm

theorem numD_charge (k : String) (hk : IsCharge k) (d : ℝ) : getNumD c' k (q * d) = q * getNumD c k d := by
  simp only [getNumD, h.charge k hk]
  cases c k with
  | none => rfl
  | some v => cases v <;> rfl

theorem vec_charge : getVec c' "IonChargeStates" = (getVec c "IonChargeStates").map (fun l => l.map (q * ·)) := by
  simp only [getVec, h.charges]
  cases c "IonChargeStates" with
  | none => rfl
  | some v => cases v <;> rfl

/-! ## curves -/

omit h in
theorem curve_name (n : ℕ) : "curve" ++ toString n ≠ "IonChargeStates" := by
  intro e
  have := congrArg (fun s => s.toList.take 1) e
  revert this
  rw [show ("curve" ++ toString n).toList.take 1 = ['c'] by rw [String.toList_append]; rfl]
  decide

theorem oneCurve_scaled {src src' : LCfg} (hs : ∀ n : ℕ, getVec src' ("curve" ++ toString n) = getVec src ("curve" ++ toString n))
    (range : Option (List ℝ)) (n prev : Nat) :
    oneCurve c' src' range n prev = (oneCurve c src range n prev).map (fun r => (r.1, r.2.1, q⁻¹ * r.2.2)) := by
  unfold oneCurve
  rw [hs n, numD_field h _ (Or.inr ⟨n, rfl⟩)]
  cases getVec src ("curve" ++ toString n) with
  | error e => rfl
  | ok cv =>
    have key : ∀ (part : Except Err (List ℝ)) (x : ℝ),
        (match part with
          | .error e => (.error e : Except Err (List ℝ × Nat × ℝ))
          | .ok p => if n ≠ 0 ∧ prev ≠ cv.length then .error .runtime else .ok (p, cv.length, q⁻¹ * x)) =
        (match part with
          | .error e => (.error e : Except Err (List ℝ × Nat × ℝ))
          | .ok p => if n ≠ 0 ∧ prev ≠ cv.length then .error .runtime else .ok (p, cv.length, x)).map
            (fun r : List ℝ × Nat × ℝ => (r.1, r.2.1, q⁻¹ * r.2.2)) := by
      intro part x
      cases part with
      | error e => rfl
      | ok p =>
        dsimp only
        split <;> rfl
    exact key _ _

theorem curveLoop_scaled {src src' : LCfg}
    (hs : ∀ n : ℕ, getVec src' ("curve" ++ toString n) = getVec src ("curve" ++ toString n)) (range : Option (List ℝ)) :
    ∀ k n prev, curveLoop c' src' range k n prev =
      (curveLoop c src range k n prev).map (fun l => l.map (fun r => (q⁻¹ * r.1, r.2))) := by
  intro k
  induction k with
  | zero => intro n prev; rfl
  | succ k ih =>
    intro n prev
    unfold curveLoop
    rw [oneCurve_scaled h hs]
    cases oneCurve c src range n prev with
    | error e => rfl
    | ok r =>
      obtain ⟨cv, sz, scl⟩ := r
      simp only [Except.map]
      rw [ih]
      cases curveLoop c src range k (n + 1) sz with
      | error e => rfl
      | ok l => rfl

theorem curveData_scaled (env : Env) (n : Nat) :
    curveData env c' n = (curveData env c n).map (fun l => l.map (fun r => (q⁻¹ * r.1, r.2))) := by
  unfold curveData
  rw [str_all h, strD_all h, vec_same h "use_range" (by decide)]
  dsimp only
  cases getStr c "CurveFile" with
  | error e => exact curveLoop_scaled h (fun n => vec_all h _ (curve_name n)) _ _ _ _
  | ok f =>
    dsimp only
    cases env.file (getStrD c "Eng_Data_Dir" "." ++ "/" ++ f) with
    | error e => rfl
    | ok src => exact curveLoop_scaled h (fun _ => rfl) _ _ _ _

end settings

theorem curveLen_scaled (q : ℝ) (cs : List (ℝ × List ℝ)) : curveLen (cs.map (fun r => (q⁻¹ * r.1, r.2))) = curveLen cs := by
  cases cs <;> rfl

theorem curveSum_scaled (q : ℝ) (cs : List (ℝ × List ℝ)) (j : Nat) (f g : ℝ → ℝ) (hfg : ∀ x, g (q⁻¹ * x) = f x) :
    curveSum (cs.map (fun r => (q⁻¹ * r.1, r.2))) j g = curveSum cs j f := by
  unfold curveSum
  rw [List.map_map]
  congr 1
  apply List.map_congr_left
  intro r _
  simp only [Function.comp, mul_assoc]
  exact hfg _

/-! ## particles and matrices -/

/-- The particle with `q` times the charge. -/
def up (q : ℝ) (p : Particle) : Particle := { p with IonZ := q * p.IonZ }

def upS (q : ℝ) (S : MSt) : MSt := { S with ref := up q S.ref, real := S.real.map (up q) }

def upT (q : ℝ) (s : St MSt) : St MSt := { s with payload := upS q s.payload }

/-- The data of an element that has seen particles with `q` times the charge. -/
def upD (q : ℝ) (c' : LCfg) (r' : Particle) (d : MDat) : MDat :=
  { d with conf := c', istate := d.istate.map (upS q), refIn := d.refIn.map (up q), refOut := r',
           realIn := d.realIn.map (up q), realOut := d.realOut.map (up q) }

/-- The data of an element in both runs. -/
def DRel (q : ℝ) (d d' : MDat) : Prop :=
  ∃ c' r', Rescaled q d.conf c' ∧ (d.refIn ≠ none → r' = up q d.refOut) ∧ d' = upD q c' r' d

theorem forEach_map {α β γ : Type} (f : β → Except Err γ) (g : α → β) (l : List α) : forEach f (l.map g) = forEach (fun a => f (g a)) l := by
  induction l with
  | nil => rfl
  | cons a l ih => simp only [List.map_cons, forEach, ih]

theorem brho_up (q : ℝ) (p : Particle) : (up q p).Brho = p.Brho / q := by
  simp only [Particle.Brho, up, div_eq_mul_inv, mul_inv]
  ring

theorem div_up {q : ℝ} (hq : q ≠ 0) (p : Particle) (x : ℝ) : q⁻¹ * x / (up q p).Brho = x / p.Brho := by
  rw [brho_up, div_div_eq_mul_div, mul_comm q⁻¹ x, mul_assoc, inv_mul_cancel₀ hq, mul_one]

theorem div_up2 {q : ℝ} (hq : q ≠ 0) (p : Particle) (x : ℝ) : q⁻¹ * x / (2 * (up q p).Brho) = x / (2 * p.Brho) := by
  have := div_up hq p (x / 2)
  rw [show x / (2 * p.Brho) = x / 2 / p.Brho by rw [div_div], ← this]
  rw [mul_comm 2, ← div_div]
  ring

theorem ratio_up {q : ℝ} (hq : q ≠ 0) (x a b : ℝ) : x * (q * a) / (q * b) = x * a / b := by
  rw [show x * (q * a) = q * (x * a) by ring, mul_div_mul_left _ _ hq]

variable {q : ℝ} {c' : LCfg} {r' : Particle}

theorem aligned_up (d : MDat) (ref p : Particle) (T : Mat) :
    aligned (upD q c' r' d) (up q ref) (up q p) T = aligned d ref p T := rfl

theorem orbtrim_up (hq : q ≠ 0) {d : MDat} (h : Rescaled q d.conf c') (ref : Particle) (real : List Particle) :
    orbtrimRec (upD q c' r' d) (up q ref) (real.map (up q)) = orbtrimRec d ref real := by
  have e : ∀ k, IsField k → getNumD c' k 0 * (q * ref.IonZ * C0 / Real.sqrt (ref.IonW * ref.IonW - ref.IonEs * ref.IonEs)) =
      getNumD d.conf k 0 * (ref.IonZ * C0 / Real.sqrt (ref.IonW * ref.IonW - ref.IonEs * ref.IonEs)) := by
    intro k hk
    rw [numD_field h k hk, mul_assoc q, mul_div_assoc, mul_mul_mul_comm, inv_mul_cancel₀ hq, one_mul]
  unfold orbtrimRec
  rw [forEach_map]
  simp only [upD, up]
  simp only [e "tm_xkick" (.inl (by simp)), e "tm_ykick" (.inl (by simp)), numD_same h "xyrotate" 0 (by decide),
    numD_same h "realpara" 0 (by decide), numD_same h "theta_x" 0 (by decide), numD_same h "theta_y" 0 (by decide), ratio_up hq]
  try rfl

theorem sbend_up (hq : q ≠ 0) {d : MDat} (h : Rescaled q d.conf c') (ref : Particle) (real : List Particle) :
    sbendRec (upD q c' r' d) (up q ref) (real.map (up q)) = sbendRec d ref real := by
  have hr : ∀ p : Particle, (q * p.IonZ - q * ref.IonZ) / (q * ref.IonZ) = (p.IonZ - ref.IonZ) / ref.IonZ := by
    intro p
    rw [← mul_sub, mul_div_mul_left _ _ hq]
  unfold sbendRec
  simp only [forEach_map]
  simp only [show (upD q c' r' d).conf = c' from rfl, num_same h "L" (by decide), num_same h "phi" (by decide), num_same h "phi1" (by decide), num_same h "phi2" (by decide),
    numD_same h "K" 0 (by decide)]
  have : ∀ L phi phi1 phi2 K p, sbendOne (upD q c' r' d) L phi phi1 phi2 K (up q ref) (up q p) =
      sbendOne d L phi phi1 phi2 K ref p := by
    intro L phi phi1 phi2 K p
    unfold sbendOne
    simp only [show (upD q c' r' d).conf = c' from rfl, num_same h "bg" (by decide), aligned_up]
    simp only [up, hr]
    rfl
  simp only [this]

theorem quad_up (hq : q ≠ 0) (env : Env) {d : MDat} (h : Rescaled q d.conf c') (ref : Particle) (real : List Particle) :
    quadRec env (upD q c' r' d) (up q ref) (real.map (up q)) = quadRec env d ref real := by
  have hM : ∀ p L K, quadM (up q p) L K = quadM p L K := fun _ _ _ => rfl
  unfold quadRec
  simp only [forEach_map, show (upD q c' r' d).conf = c' from rfl, num_same h "L" (by decide), flag_same h env "ncurve" 0 (by decide),
    num_field h "B2" (.inl (by simp)), curveData_scaled h]
  cases getNum d.conf "L" with
  | error e => rfl
  | ok L =>
    dsimp only
    cases getFlag env d.conf "ncurve" 0 with
    | error e => rfl
    | ok n =>
      dsimp only
      split
      · cases getNum d.conf "B2" with
        | error e => rfl
        | ok B =>
          simp only [Except.map, aligned_up, hM, div_up hq]
      · cases curveData env d.conf n with
        | error e => rfl
        | ok cs =>
          have hs : ∀ (p : Particle) (j : Nat), curveSum (cs.map (fun r => (q⁻¹ * r.1, r.2))) j (fun x => x / (up q p).Brho / (MtoMM * MtoMM)) =
              curveSum cs j (fun x => x / p.Brho / (MtoMM * MtoMM)) := by
            intro p j
            refine curveSum_scaled q cs j _ _ (fun x => ?_)
            simp only [div_up hq]
            try rfl
          simp only [Except.map, aligned_up, hM, curveLen_scaled, hs]

theorem solenoid_up (hq : q ≠ 0) (env : Env) {d : MDat} (h : Rescaled q d.conf c') (ref : Particle) (real : List Particle) :
    solenoidRec env (upD q c' r' d) (up q ref) (real.map (up q)) = solenoidRec env d ref real := by
  have hM : ∀ p L K, solenoidM (up q p) L K = solenoidM p L K := fun _ _ _ => rfl
  unfold solenoidRec
  simp only [forEach_map, show (upD q c' r' d).conf = c' from rfl, num_same h "L" (by decide), flag_same h env "ncurve" 0 (by decide),
    num_field h "B" (.inl (by simp)), curveData_scaled h]
  cases getNum d.conf "L" with
  | error e => rfl
  | ok L =>
    dsimp only
    cases getFlag env d.conf "ncurve" 0 with
    | error e => rfl
    | ok n =>
      dsimp only
      split
      · cases getNum d.conf "B" with
        | error e => rfl
        | ok B =>
          simp only [Except.map, aligned_up, hM, div_up2 hq]
      · cases curveData env d.conf n with
        | error e => rfl
        | ok cs =>
          have hs : ∀ (p : Particle) (j : Nat), curveSum (cs.map (fun r => (q⁻¹ * r.1, r.2))) j (fun x => x / (2 * (up q p).Brho) / MtoMM) =
              curveSum cs j (fun x => x / (2 * p.Brho) / MtoMM) := by
            intro p j
            refine curveSum_scaled q cs j _ _ (fun x => ?_)
            simp only [div_up2 hq]
            try rfl
          simp only [Except.map, aligned_up, hM, curveLen_scaled, hs]

theorem equad_up (hq : q ≠ 0) (env : Env) {d : MDat} (h : Rescaled q d.conf c') (ref : Particle) (real : List Particle) :
    equadRec env (upD q c' r' d) (up q ref) (real.map (up q)) = equadRec env d ref real := by
  have hM : ∀ p L K, quadM (up q p) L K = quadM p L K := fun _ _ _ => rfl
  have hV : ∀ (p : Particle) (V w : ℝ), 2 * (q⁻¹ * V) / w / (up q p).Brho = 2 * V / w / p.Brho := by
    intro p V w
    rw [← div_up hq p (2 * V / w)]
    congr 1
    ring
  unfold equadRec
  simp only [forEach_map, show (upD q c' r' d).conf = c' from rfl, num_same h "L" (by decide), flag_same h env "ncurve" 0 (by decide),
    num_field h "V" (.inl (by simp)), num_same h "radius" (by decide), curveData_scaled h]
  cases getNum d.conf "L" with
  | error e => rfl
  | ok L =>
    dsimp only
    cases getFlag env d.conf "ncurve" 0 with
    | error e => rfl
    | ok n =>
      dsimp only
      split
      · cases getNum d.conf "V" with
        | error e => rfl
        | ok V =>
          cases getNum d.conf "radius" with
          | error e => rfl
          | ok R =>
            simp only [Except.map, aligned_up, hM, hV]
            rfl
      · cases curveData env d.conf n with
        | error e => rfl
        | ok cs =>
          have hs : ∀ (p : Particle) (j : Nat), curveSum (cs.map (fun r => (q⁻¹ * r.1, r.2))) j (fun x => 2 * x / (C0 * (up q p).beta) / (up q p).Brho / (MtoMM * MtoMM)) =
              curveSum cs j (fun x => 2 * x / (C0 * p.beta) / p.Brho / (MtoMM * MtoMM)) := by
            intro p j
            refine curveSum_scaled q cs j _ _ (fun x => ?_)
            simp only [hV]
            try rfl
          simp only [Except.map, aligned_up, hM, curveLen_scaled, hs]

theorem edipole_up (hq : q ≠ 0) (env : Env) {d : MDat} (h : Rescaled q d.conf c') (ref : Particle) (real : List Particle) :
    edipoleRec env (upD q c' r' d) (up q ref) (real.map (up q)) = edipoleRec env d ref real := by
  have hE : ∀ (a b x y : ℝ), a / (q * x) / (b / (q * y)) = a / x / (b / y) := by
    intro a b x y
    rw [div_div_div_eq, div_div_div_eq, show a * (q * y) = q * (a * y) by ring, show q * x * b = q * (x * b) by ring,
      mul_div_mul_left _ _ hq]
  have hR : ∀ (x y : ℝ), q * x / (q * y) = x / y := fun x y => mul_div_mul_left _ _ hq
  unfold edipoleRec
  simp only [forEach_map]
  simp only [show (upD q c' r' d).conf = c' from rfl, num_same h "L" (by decide), num_same h "phi" (by decide),
    num_same h "ver" (by decide), num_same h "spher" (by decide), flag_same h env "HdipoleFitMode" 1 (by decide),
    numD_same h "fringe_x" 0 (by decide), numD_same h "fringe_y" 0 (by decide), numD_same h "asym_fac" 0 (by decide),
    numD_same h "beta" _ (by decide)]
  have : ∀ v L phi fx fy kappa spher db p, edipoleOne (upD q c' r' d) v L phi fx fy kappa spher db (up q ref) (up q p) =
      edipoleOne d v L phi fx fy kappa spher db ref p := by
    intro v L phi fx fy kappa spher db p
    unfold edipoleOne
    simp only [aligned_up]
    simp only [up, hE, hR]
  simp only [this]
  rfl

theorem recompute_up (hq : q ≠ 0) (env : Env) (t : MType) {d : MDat} (h : Rescaled q d.conf c') (ref : Particle) (real : List Particle) :
    recompute env t (upD q c' r' d) (up q ref) (real.map (up q)) = recompute env t d ref real := by
  cases t with
  | orbtrim => exact orbtrim_up hq h ref real
  | sbend => exact sbend_up hq h ref real
  | quadrupole => exact quad_up hq env h ref real
  | solenoid => exact solenoid_up hq env h ref real
  | equad => exact equad_up hq env h ref real
  | edipole => exact edipole_up hq env h ref real
  | tmatrix =>
    simp only [recompute, forEach_map, show (upD q c' r' d).conf = c' from rfl, loadStorage, vec_same h "matrix" (by decide)]
  | _ =>
    simp only [recompute, List.map_map]
    rfl

/-! ## states -/

theorem recalc_up (p : Particle) : (up q p).recalc = up q p.recalc := rfl

theorem drifted_up (p : Particle) (b : Bool) (L : ℝ) : (up q p).drifted b L = up q (p.drifted b L) := rfl

theorem recalc_upS (S : MSt) : (upS q S).recalc = upS q S.recalc := by
  simp only [upS, MSt.recalc, List.map_map]
  rfl

theorem totQ_up (l : List Particle) : totQ (l.map (up q)) = totQ l := by
  simp only [totQ, List.map_map]
  rfl

theorem env0_up (l : List Particle) (m0 : List Vec) : env0 (l.map (up q)) m0 = env0 l m0 := by
  funext j
  simp only [env0, totQ_up, List.zipWith_map_left]
  rfl

theorem env1_up (l : List Particle) (m0 : List Vec) (m1 : List Mat) : env1 (l.map (up q)) m0 m1 = env1 l m0 m1 := by
  funext i j
  simp only [env1, totQ_up, List.zipWith_map_left, env0_up]
  rfl

theorem calcRms_up (S : MSt) : (upS q S).calcRms = upS q S.calcRms := by
  simp only [MSt.calcRms, upS, env0_up, env1_up]

theorem same_up (hq : q ≠ 0) (a b : Particle) : (up q a).same (up q b) ↔ a.same b := by
  simp only [Particle.same, up, mul_right_inj' hq]

theorem forall₂_up {P : Particle → Particle → Prop} (hP : ∀ a b, P (up q a) (up q b) ↔ P a b) (l k : List Particle) :
    List.Forall₂ P (l.map (up q)) (k.map (up q)) ↔ List.Forall₂ P l k := by
  rw [List.forall₂_map_left_iff, List.forall₂_map_right_iff]
  constructor
  · exact List.Forall₂.imp (fun a b => (hP a b).1)
  · exact List.Forall₂.imp (fun a b => (hP a b).2)

theorem hit_up (hq : q ≠ 0) (d : MDat) (S : MSt) : hit (upD q c' r' d) (upS q S) ↔ hit d S := by
  unfold hit
  refine and_congr Iff.rfl (and_congr ?_ ?_)
  · show (∃ r, d.refIn.map (up q) = some r ∧ r.same (up q S.ref)) ↔ _
    cases d.refIn with
    | none => simp
    | some r => simp [same_up hq]
  · exact forall₂_up (same_up hq) _ _

theorem hit_decide (hq : q ≠ 0) (d : MDat) (s : St MSt) :
    @decide (hit (upD q c' r' d) (upT q s).payload.recalc) (Classical.propDecidable _) =
      @decide (hit d s.payload.recalc) (Classical.propDecidable _) := by
  have : hit (upD q c' r' d) (upT q s).payload.recalc ↔ hit d s.payload.recalc := by
    rw [show (upT q s).payload = upS q s.payload from rfl, recalc_upS]
    exact hit_up hq d _
  by_cases h : hit d s.payload.recalc
  · rw [@decide_eq_true _ (_) h, @decide_eq_true _ (_) (this.2 h)]
  · rw [@decide_eq_false _ (_) h, @decide_eq_false _ (_) (fun e => h (this.1 e))]

theorem backward_up (T : List Mat) (S : MSt) : backward T (upS q S) = (upS q (backward T S).1, (backward T S).2) := rfl

theorem forward_up (T : List Mat) (S : MSt) : forward T (upS q S) = upS q (forward T S) := rfl

/-- What has to be shown of an element. -/
def Alike (q : ℝ) (x x' : MDat × St MSt × Option Err) : Prop :=
  x'.2.2 = x.2.2 ∧ x'.2.1 = upT q x.2.1 ∧ (x.2.2 = none → DRel q x.1 x'.1)

theorem particles_up (hq : q ≠ 0) (env : Env) (t : MType) {move : Particle → Particle} (hm : ∀ p, move (up q p) = up q (move p))
    {d : MDat} (h : Rescaled q d.conf c') (hr : d.refIn ≠ none → r' = up q d.refOut) (S : MSt) (b : Bool) (hb : b = true → hit d S) :
    match particles (recompute env t) move d S b, particles (recompute env t) move (upD q c' r' d) (upS q S) b with
    | (_, .error e), y => y.2 = .error e
    | (d1, .ok x), y => y.2 = .ok (up q x.1, x.2.map (up q)) ∧ y.1.transfer = d1.transfer ∧ DRel q d1 y.1 := by
  unfold particles
  by_cases hbt : b = true
  · subst hbt
    obtain ⟨-, ⟨r, h1, -⟩, -⟩ := hb rfl
    have hr' := hr (by rw [h1]; simp)
    refine ⟨?_, rfl, ⟨c', r', h, hr, rfl⟩⟩
    subst hr'
    simp only [if_true, upD, upS, List.map_append, List.map_drop, List.length_map]
  · rw [if_neg hbt, if_neg hbt]
    have e : ({ upD q c' r' d with refIn := some (upS q S).ref, realIn := (upS q S).real, transfer := resize (upS q S).real.length (upD q c' r' d).transfer } : MDat) =
        upD q c' r' { d with refIn := some S.ref, realIn := S.real, transfer := resize S.real.length d.transfer } := by
      simp only [upD, upS, List.length_map]
      rfl
    dsimp only
    rw [e]
    have hrec := recompute_up (r' := r') hq env t (d := { d with refIn := some S.ref, realIn := S.real, transfer := resize S.real.length d.transfer }) h S.ref S.real
    rw [show (upS q S).ref = up q S.ref from rfl, show (upS q S).real = S.real.map (up q) from rfl, hrec]
    cases recompute env t { d with refIn := some S.ref, realIn := S.real, transfer := resize S.real.length d.transfer } S.ref S.real with
    | error e => rfl
    | ok T =>
      refine ⟨?_, rfl, ⟨c', move (up q S.ref.recalc), h, fun _ => hm _, ?_⟩⟩
      · simp only [List.map_map, Function.comp_def, recalc_up, hm]
      · simp only [upD, List.map_map, Function.comp_def, recalc_up, hm]
        rfl

theorem base_up (hq : q ≠ 0) (env : Env) (t : MType) {d d' : MDat} (h : DRel q d d') (s : St MSt) :
    Alike q (advanceBase (recompute env t) d s) (advanceBase (recompute env t) d' (upT q s)) := by
  obtain ⟨c', r', h, hr, rfl⟩ := h
  unfold advanceBase
  dsimp only
  rw [hit_decide hq]
  simp only [show (upT q s).payload = upS q s.payload from rfl, recalc_upS, show (upT q s).retreat = s.retreat from rfl,
    show (upD q c' r' d).length = d.length from rfl]
  have hp := particles_up hq env t (move := (·.drifted s.retreat d.length)) (fun p => drifted_up p _ _) h hr s.payload.recalc
    (@decide (hit d s.payload.recalc) (Classical.propDecidable _)) (fun e => @of_decide_eq_true _ (_) e)
  generalize particles (recompute env t) (·.drifted s.retreat d.length) d s.payload.recalc
    (@decide (hit d s.payload.recalc) (Classical.propDecidable _)) = x at hp ⊢
  generalize particles (recompute env t) (·.drifted s.retreat d.length) (upD q c' r' d) (upS q s.payload.recalc)
    (@decide (hit d s.payload.recalc) (Classical.propDecidable _)) = y at hp ⊢
  obtain ⟨d1, x⟩ := x
  obtain ⟨d1', y⟩ := y
  cases x with
  | error e =>
    dsimp only at hp
    subst hp
    exact ⟨rfl, rfl, fun h => by cases h⟩
  | ok x =>
    obtain ⟨h1, h2, h3⟩ := hp
    dsimp only at h1 h2
    subst h1
    dsimp only
    split
    · rw [h2]
      have hb := backward_up (q := q) d1.transfer { s.payload.recalc with ref := x.1, real := x.2, pos := s.payload.recalc.pos + sign s.retreat * d.length }
      rw [show ({ upS q s.payload.recalc with ref := up q x.1, real := x.2.map (up q), pos := (upS q s.payload.recalc).pos + sign s.retreat * d.length } : MSt)
        = upS q { s.payload.recalc with ref := x.1, real := x.2, pos := s.payload.recalc.pos + sign s.retreat * d.length } from rfl, hb]
      generalize backward d1.transfer { s.payload.recalc with ref := x.1, real := x.2, pos := s.payload.recalc.pos + sign s.retreat * d.length } = z
      obtain ⟨S1, o⟩ := z
      cases o with
      | some e => exact ⟨rfl, rfl, fun h => by cases h⟩
      | none => exact ⟨rfl, by simp only [upT, calcRms_up], fun _ => h3⟩
    · rw [h2]
      refine ⟨rfl, ?_, fun _ => h3⟩
      simp only [upT, ← calcRms_up]
      rfl

theorem bendPhis_up (b : Bool) (L : ℝ) : ∀ (l : List Particle) (v w : List Vec),
    bendPhis b L (l.map (up q)) v w = (bendPhis b L l v w).map (up q)
  | [], _, _ => rfl
  | p :: l, [], _ => rfl
  | p :: l, _ :: _, [] => rfl
  | p :: l, a :: v, c :: w => by
    simp only [List.map_cons, bendPhis, bendPhis_up b L l v w]
    rfl

theorem bend_up (hq : q ≠ 0) (env : Env) {d d' : MDat} (h : DRel q d d') (s : St MSt) :
    Alike q (advanceBend (recompute env .sbend) d s) (advanceBend (recompute env .sbend) d' (upT q s)) := by
  obtain ⟨c', r', h, hr, rfl⟩ := h
  unfold advanceBend
  dsimp only
  rw [hit_decide hq]
  simp only [show (upT q s).payload = upS q s.payload from rfl, recalc_upS, show (upT q s).retreat = s.retreat from rfl,
    show (upD q c' r' d).length = d.length from rfl]
  have hp := particles_up hq env .sbend (move := id) (fun p => rfl) h hr s.payload.recalc
    (@decide (hit d s.payload.recalc) (Classical.propDecidable _)) (fun e => @of_decide_eq_true _ (_) e)
  generalize particles (recompute env .sbend) id d s.payload.recalc
    (@decide (hit d s.payload.recalc) (Classical.propDecidable _)) = x at hp ⊢
  generalize particles (recompute env .sbend) id (upD q c' r' d) (upS q s.payload.recalc)
    (@decide (hit d s.payload.recalc) (Classical.propDecidable _)) = y at hp ⊢
  obtain ⟨d1, x⟩ := x
  obtain ⟨d1', y⟩ := y
  cases x with
  | error e =>
    dsimp only at hp
    subst hp
    exact ⟨rfl, rfl, fun h => by cases h⟩
  | ok x =>
    obtain ⟨h1, h2, h3⟩ := hp
    dsimp only at h1 h2
    subst h1
    dsimp only
    rw [show ({ upS q s.payload.recalc with ref := (up q x.1).drifted s.retreat d.length, real := x.2.map (up q), pos := (upS q s.payload.recalc).pos + sign s.retreat * d.length } : MSt)
        = upS q { s.payload.recalc with ref := x.1.drifted s.retreat d.length, real := x.2, pos := s.payload.recalc.pos + sign s.retreat * d.length } from rfl]
    generalize ({ s.payload.recalc with ref := x.1.drifted s.retreat d.length, real := x.2, pos := s.payload.recalc.pos + sign s.retreat * d.length } : MSt) = S0
    have key : ∀ (m0 : List Vec) (S1 : MSt), ({ upS q S1 with real := bendPhis s.retreat d.length (upS q S1).real m0 (upS q S1).moment0 } : MSt).calcRms =
        upS q ({ S1 with real := bendPhis s.retreat d.length S1.real m0 S1.moment0 } : MSt).calcRms := by
      intro m0 S1
      rw [← calcRms_up]
      simp only [upS, bendPhis_up]
    split
    · rw [h2, backward_up]
      generalize backward d1.transfer S0 = z
      obtain ⟨S1, o⟩ := z
      cases o with
      | some e => exact ⟨rfl, rfl, fun h => by cases h⟩
      | none => exact ⟨rfl, congrArg (St.mk _ _) (key _ _), fun _ => h3⟩
    · rw [h2, forward_up]
      exact ⟨rfl, congrArg (St.mk _ _) (key _ _), fun _ => h3⟩

theorem sext_up (hq : q ≠ 0) {d d' : MDat} (h : DRel q d d') (s : St MSt) : Alike q (advanceSext d s) (advanceSext d' (upT q s)) := by
  obtain ⟨c', r', h, hr, rfl⟩ := h
  unfold advanceSext
  simp only [show (upD q c' r' d).conf = c' from rfl, num_field h "B3" (.inl (by simp)), num_same h "L" (by decide),
    numD_same h "step" 1 (by decide), numD_same h "thinlens" 0 (by decide), numD_same h "dstkick" 1 (by decide),
    show (upT q s).payload = upS q s.payload from rfl, recalc_upS, show (upT q s).retreat = s.retreat from rfl]
  cases getNum d.conf "B3" with
  | error e => exact ⟨rfl, rfl, fun h => by cases h⟩
  | ok B3 =>
    cases getNum d.conf "L" with
    | error e => exact ⟨rfl, rfl, fun h => by cases h⟩
    | ok L =>
      simp only [Except.map]
      split
      · exact ⟨rfl, rfl, fun h => by cases h⟩
      · have hz : (upS q s.payload.recalc).real.zip ((upS q s.payload.recalc).moment0.zip (upS q s.payload.recalc).moment1) =
            (s.payload.recalc.real.zip (s.payload.recalc.moment0.zip s.payload.recalc.moment1)).map (fun x => (up q x.1, x.2)) := by
          simp only [upS, List.zip_map_left]
          rfl
        rw [hz, forEach_map]
        have hone : ∀ (D D' : MDat), (D'.length = D.length ∧ D'.dx = D.dx ∧ D'.dy = D.dy ∧ D'.pitch = D.pitch ∧ D'.yaw = D.yaw ∧ D'.roll = D.roll) →
            ∀ (stp : ℝ) (a b : Bool) (x : Particle × Vec × Mat),
            sextOne D' (q⁻¹ * B3) (L * MtoMM) stp a b (upS q s.payload.recalc).ref (up q x.1) x.2.1 x.2.2 =
              sextOne D B3 (L * MtoMM) stp a b s.payload.recalc.ref x.1 x.2.1 x.2.2 := by
          rintro D D' ⟨e1, e2, e3, e4, e5, e6⟩ stp a b x
          have hg : getMisalign D' (upS q s.payload.recalc).ref (up q x.1) = getMisalign D s.payload.recalc.ref x.1 := by
            unfold getMisalign
            rw [e1, e2, e3, e4, e5, e6]
            rfl
          have hl : ∀ dL K n y, sextLoop (up q x.1) dL K a b n y = sextLoop x.1 dL K a b n y := by
            intro dL K n
            induction n with
            | zero => intro y; rfl
            | succ n ih => intro y; unfold sextLoop; dsimp only; rw [ih]; rfl
          unfold sextOne
          simp only [hg, div_up hq, hl]
        generalize hz1 : forEach _ (s.payload.recalc.real.zip (s.payload.recalc.moment0.zip s.payload.recalc.moment1)) = z
        generalize hz2 : forEach _ (s.payload.recalc.real.zip (s.payload.recalc.moment0.zip s.payload.recalc.moment1)) = z'
        have hzz : z' = z := by
          rw [← hz1, ← hz2]
          exact congrArg (fun f => forEach f _) (funext fun x => hone _ _ ⟨rfl, rfl, rfl, rfl, rfl, rfl⟩ _ _ _ x)
        subst hzz
        clear hz1 hz2
        cases z' with
        | error e => exact ⟨rfl, rfl, fun h => by cases h⟩
        | ok rs =>
          refine ⟨rfl, ?_, fun _ => ⟨c', _, h, fun _ => rfl, ?_⟩⟩
          · simp only [upT, ← calcRms_up]
            simp only [upS, List.map_map]
            rfl
          · simp only [upD, upS, List.length_map, List.map_map]
            rfl

theorem source_up {d d' : MDat} (h : DRel q d d') (s : St MSt) : Alike q (advanceSource d s) (advanceSource d' (upT q s)) := by
  obtain ⟨c', r', h, hr, rfl⟩ := h
  unfold advanceSource
  rw [show (upD q c' r' d).istate = d.istate.map (upS q) from rfl, show (upT q s).retreat = s.retreat from rfl]
  cases d.istate with
  | none => exact ⟨rfl, rfl, fun _ => ⟨c', r', h, hr, rfl⟩⟩
  | some i =>
    dsimp only [Option.map]
    split
    · exact ⟨rfl, rfl, fun _ => ⟨c', r', h, hr, rfl⟩⟩
    · exact ⟨rfl, rfl, fun _ => ⟨c', r', h, hr, rfl⟩⟩

/-- All element types but cavities and strippers. -/
theorem advance_up (hq : q ≠ 0) (env : Env) (t : MType) {d d' : MDat} (h : DRel q d d') (s : St MSt) :
    Alike q (advance env t d s) (advance env t d' (upT q s)) := by
  cases t with
  | source => exact source_up h s
  | sbend => exact bend_up hq env h s
  | sextupole => exact sext_up hq h s
  | _ => exact base_up hq env _ h s

/-! ## strippers -/

theorem stripper_up {d d' : MDat} (h : DRel q d d') (hc : Settled d.conf) (s : St MSt) :
    Alike q (advanceStripper d s) (advanceStripper d' (upT q s)) := by
  obtain ⟨c', r', h, hr, rfl⟩ := h
  obtain ⟨h1, x, h2⟩ := hc
  have h2' : c' "Stripper_IonZ" = some (.num (q * x)) := by
    rw [h.charge _ (by simp [IsCharge]), h2]
    rfl
  have hmdl : getStrD d.conf "charge_model" "baron" = "off" := by simp only [getStrD, h1]
  have hn : ∀ k, k ≠ "IonChargeStates" → ∀ v, getVecD c' k v = getVecD d.conf k v := by
    intro k hk v
    simp only [getVecD, vec_all h k hk]
  have hZ : getNumD c' "Stripper_IonZ" (78 / 238) = q * getNumD d.conf "Stripper_IonZ" (78 / 238) := by
    simp only [getNumD, h2, h2']
  have hf : foilOf c' = { foilOf d.conf with IonZ := q * (foilOf d.conf).IonZ } := by
    simp only [foilOf, numD_same h "Stripper_IonMass" _ (by decide), numD_same h "Stripper_IonProton" _ (by decide),
      numD_same h "Stripper_E1Para" _ (by decide), numD_same h "Stripper_lambda" _ (by decide),
      numD_same h "Stripper_upara" _ (by decide), hn "Stripper_Para" (by decide), hn "Stripper_E0Para" (by decide),
      hZ]
  have hstr : ∀ (f : Foil) (chg w : List ℝ) (S : MSt), stripped { f with IonZ := q * f.IonZ } (chg.map (q * ·)) w (upS q S) =
      upS q (stripped f chg w S) := by
    intro f chg w S
    have hrc : recombinedCov (upS q S) = recombinedCov S := by
      funext i j
      simp only [recombinedCov, upS, totQ_up, List.zipWith_map_left]
      rfl
    have hr1 : ∀ g : Particle → ℝ, (∀ p, g (up q p) = g p) → recombined (upS q S).real g = recombined S.real g := by
      intro g hg
      simp only [recombined, upS, totQ_up, List.map_map, Function.comp_def, hg]
      rfl
    unfold stripped
    rw [hrc, hr1 (·.IonEk) (fun _ => rfl), hr1 (·.phis) (fun _ => rfl), ← calcRms_up]
    simp only [upS, List.map_map, List.zipWith_map_left, List.map_zipWith]
    rfl
  unfold advanceStripper
  simp only [show (upT q s).payload = upS q s.payload from rfl, recalc_upS, calcRms_up, show (upT q s).retreat = s.retreat from rfl,
    show (upD q c' r' d).conf = c' from rfl]
  split
  · exact ⟨rfl, rfl, fun h => by cases h⟩
  · have hg : stripperGetMat c' (upS q s.payload.recalc.calcRms) = (stripperGetMat d.conf s.payload.recalc.calcRms).map (upS q) := by
      unfold stripperGetMat
      simp only [strD_all h, vec_charge h, vec_all h "NCharge" (by decide), hf, hmdl]
      cases getVec d.conf "IonChargeStates" with
      | error e => rfl
      | ok chg =>
        cases getVec d.conf "NCharge" with
        | error e => rfl
        | ok w =>
          simp only [Except.map, List.length_map, hstr]
          split
          · rfl
          · split
            · rfl
            · split
              · rfl
              · simp
    rw [hg]
    cases stripperGetMat d.conf s.payload.recalc.calcRms with
    | error e => exact ⟨rfl, rfl, fun h => by cases h⟩
    | ok S => exact ⟨rfl, rfl, fun _ => ⟨c', r', h, hr, rfl⟩⟩

end Flame.Scale
