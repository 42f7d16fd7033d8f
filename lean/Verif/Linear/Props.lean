import Verif.Linear.Optics
import Verif.Linear.Walk
import Mathlib.Data.List.Forall2

/-! # C27-C32 and C56 for the linear simulations -/

namespace Flame.Linear

open Flame.Mach
open Spec

variable {σ : Type}

/-! ## C27, C30 -/

/-- Propagation through any range of elements other than sources, forward or backward, acts on the state as the
product of the matrices of the elements passed, adds their lengths to the position and changes no element. -/
theorem C27_product {k : Kind σ} (hk : Lawful k) {base : Nat} (els : List (LElem σ)) (s : St (LSt σ)) (start : Nat)
    (max : Int) (hp : ∀ e ∈ els, Plain k base e) (hl : els.length < sizeMod) (hm : max ≠ -2 ^ 31) :
    ∃ r, propagate els s start max = some r ∧ r.err = none ∧ r.elems = els ∧
      r.st.payload.state = k.prod (along ((passed els start max).map (·.dat.transfer))) s.payload.state := by
  obtain ⟨r, h1, h2, h3, _, h5, _⟩ := propagate_plain hk els s start max hp hl hm
  exact ⟨r, h1, h2, h3, h5⟩

/-- A machine of a linear simulation without sources, seen through its lattice. -/
theorem machine_plain {k : Kind σ} {base : Nat} {sim : String} {cv : CView LCfg} {c : LCfg}
    {m : Machine LCfg (LDat σ) (LSt σ)} (h : Machine.new cv (registry k base sim) c = .ok m)
    {es : List LCfg} (hes : cv.elems c = .ok es) (hns : ∀ ec ∈ es, cv.str ec "type" ≠ .ok "source") :
    m.elems.length = es.length ∧ (∀ e ∈ m.elems, Plain k base e) ∧
    ∀ (i : Nat) (ec : LCfg), es[i]? = some ec → ∃ (e : LElem σ) (t : LType), m.elems[i]? = some e ∧
      cv.str ec "type" = .ok t.name ∧ transferOf t ec = .ok e.dat.transfer ∧ e.dat.length = getNumD ec "L" 0 := by
  obtain ⟨sim', es', _, hes', _, _, hl, hall⟩ := C18_machine_matches_lattice cv _ c m h
  rw [hes] at hes'
  cases hes'
  have main : ∀ (i : Nat) (ec : LCfg), es[i]? = some ec → ∃ (e : LElem σ) (t : LType), m.elems[i]? = some e ∧
      cv.str ec "type" = .ok t.name ∧ e.cls = cls k base t ∧ transferOf t ec = .ok e.dat.transfer ∧
      e.dat.length = getNumD ec "L" 0 ∧ e.dat.istate = none := by
    intro i ec hi
    obtain ⟨e, c', he, hreg, hmade⟩ := hall i ec hi
    obtain ⟨t, rfl, _⟩ := registered_linear hreg
    have hty := hmade.type
    rw [hmade.cls] at hty
    have hty' : cv.str ec "type" = .ok t.name := hty
    obtain ⟨b1, b2, b3⟩ := build_ok (k := k) (t := t) hmade.dat
    refine ⟨e, t, he, hty', hmade.cls, b1, b2, b3 ?_⟩
    rintro rfl
    exact hns ec (List.mem_of_getElem? hi) hty'
  refine ⟨hl, ?_, ?_⟩
  · intro e he
    obtain ⟨i, hi, rfl⟩ := List.getElem_of_mem he
    obtain ⟨e', t, h1, _, h3, _, _, h6⟩ := main i es[i] (List.getElem?_eq_getElem (by omega))
    rw [List.getElem?_eq_getElem hi] at h1
    cases h1
    exact ⟨⟨t, h3⟩, h6⟩
  · intro i ec hi
    obtain ⟨e, t, h1, h2, _, h4, h5, _⟩ := main i ec hi
    exact ⟨e, t, h1, h2, h4, h5⟩

theorem passed_map {α β : Type} (f : α → β) (l : List α) (start : Nat) (max : Int) :
    (passed l start max).map f = passed (l.map f) start max := by
  unfold passed
  rw [List.length_map]
  split
  · simp
  · split
    · simp
    · rfl

/-- The same lattice without sources built as a Vector and as a TransferMatrix machine: for every start and range, in
either direction, there is one matrix by which the one multiplies every vector and the other every matrix; both end
at the same element and advance the position by the same amount.  In particular propagating the identity gives the
matrix itself. -/
theorem C27_agree (cv : CView LCfg) (cV cM : LCfg) (bV bM : Nat)
    (mV : Machine LCfg (LDat Vec) (LSt Vec)) (mM : Machine LCfg (LDat Mat) (LSt Mat))
    (hV : Machine.new cv (registry vector bV "Vector") cV = .ok mV)
    (hM : Machine.new cv (registry matrix bM "TransferMatrix") cM = .ok mM)
    (es : List LCfg) (heV : cv.elems cV = .ok es) (heM : cv.elems cM = .ok es)
    (hns : ∀ ec ∈ es, cv.str ec "type" ≠ .ok "source") (hl : es.length < sizeMod)
    (start : Nat) (max : Int) (hm : max ≠ -2 ^ 31) :
    ∃ (M : Mat) (d : ℝ), ∀ (sv : St (LSt Vec)) (sm : St (LSt Mat)), ∃ rv rm,
      propagate mV.elems sv start max = some rv ∧ propagate mM.elems sm start max = some rm ∧
      rv.err = none ∧ rm.err = none ∧
      rv.st.payload.state = M.mulVec sv.payload.state ∧ rm.st.payload.state = M * sm.payload.state ∧
      rv.st.payload.pos = sv.payload.pos + d ∧ rm.st.payload.pos = sm.payload.pos + d ∧
      rv.st.nextElem = rm.st.nextElem := by
  obtain ⟨lV, pV, aV⟩ := machine_plain hV heV hns
  obtain ⟨lM, pM, aM⟩ := machine_plain hM heM hns
  have same : mV.elems.map (fun e => (e.dat.transfer, e.dat.length)) = mM.elems.map (fun e => (e.dat.transfer, e.dat.length)) := by
    apply List.ext_getElem?
    intro i
    simp only [List.getElem?_map]
    cases hi : es[i]? with
    | none =>
      have := List.getElem?_eq_none_iff.1 hi
      rw [List.getElem?_eq_none (by omega), List.getElem?_eq_none (by omega)]
      rfl
    | some ec =>
      obtain ⟨e, t, h1, h2, h3, h4⟩ := aV i ec hi
      obtain ⟨e', t', h1', h2', h3', h4'⟩ := aM i ec hi
      rw [h2] at h2'
      have := LType.name_inj (Except.ok.inj h2')
      subst this
      rw [h3] at h3'
      rw [h1, h1']
      simp [Except.ok.inj h3', h4, h4']
  have sT : (passed mV.elems start max).map (·.dat.transfer) = (passed mM.elems start max).map (·.dat.transfer) := by
    have := congrArg (List.map Prod.fst) same
    simp only [List.map_map] at this
    rw [passed_map, passed_map]
    exact congrArg (fun l => passed l start max) this
  have sL : (passed mV.elems start max).map (·.dat.length) = (passed mM.elems start max).map (·.dat.length) := by
    have := congrArg (List.map Prod.snd) same
    simp only [List.map_map] at this
    rw [passed_map, passed_map]
    exact congrArg (fun l => passed l start max) this
  refine ⟨along ((passed mM.elems start max).map (·.dat.transfer)), ((passed mM.elems start max).map (·.dat.length)).sum, ?_⟩
  intro sv sm
  obtain ⟨rv, v1, v2, _, v4, v5, v6⟩ := propagate_plain lawful_vector mV.elems sv start max pV (by omega) hm
  obtain ⟨rm, m1, m2, _, m4, m5, m6⟩ := propagate_plain lawful_matrix mM.elems sm start max pM (by omega) hm
  refine ⟨rv, rm, v1, m1, v2, m2, ?_, m5, ?_, m4, ?_⟩
  · rw [v5, sT]; rfl
  · rw [v4, sL]
  · rw [v6, m6, lV, lM]

/-- How the examples read a configuration; every machine consists of a drift and a quadrupole. -/
noncomputable def exView : CView LCfg where
  str c k := match c k with
    | some (.str x) => .ok x
    | _ => .error .keyError
  elems _ := .ok [fun k => if k = "type" then some (.str "drift") else if k = "name" then some (.str "d")
      else if k = "L" then some (.num 1) else none,
    fun k => if k = "type" then some (.str "quadrupole") else if k = "name" then some (.str "q")
      else if k = "L" then some (.num 2) else if k = "K" then some (.num (-3)) else none]

example : (∃ m, Machine.new exView (registry vector 0 "Vector")
      (fun k => if k = "sim_type" then some (.str "Vector") else none) = .ok m) ∧
    (∃ m, Machine.new exView (registry matrix 10 "TransferMatrix")
      (fun k => if k = "sim_type" then some (.str "TransferMatrix") else none) = .ok m) ∧
    ∀ c es, exView.elems c = .ok es → es.length = 2 ∧ ∀ ec ∈ es, exView.str ec "type" ≠ .ok "source" := by
  refine ⟨⟨_, rfl⟩, ⟨_, rfl⟩, ?_⟩
  intro c es h
  cases h
  refine ⟨rfl, ?_⟩
  simp [exView]

theorem passed_forall₂ {α β : Type} {R : α → β → Prop} {l : List α} {l' : List β} (h : List.Forall₂ R l l')
    (start : Nat) (max : Int) : List.Forall₂ R (passed l start max) (passed l' start max) := by
  have hr : ∀ {a : List α} {b : List β}, List.Forall₂ R a b → List.Forall₂ R a.reverse b.reverse :=
    fun h => List.rel_reverse h
  unfold passed
  rw [h.length_eq]
  split
  · exact List.forall₂_take _ (List.forall₂_drop _ h)
  · split
    · exact List.forall₂_take _ (hr (List.forall₂_take _ h))
    · exact .nil

/-- The same from the lattice as configured: the position advances by the configured lengths 'L' (in metres) of the
entries passed, and the state is multiplied by the matrices which their configured types have. -/
theorem C30_linear_machine {k : Kind σ} (hk : Lawful k) {base : Nat} {sim : String} (cv : CView LCfg) (c : LCfg)
    (m : Machine LCfg (LDat σ) (LSt σ)) (h : Machine.new cv (registry k base sim) c = .ok m)
    (es : List LCfg) (hes : cv.elems c = .ok es) (hns : ∀ ec ∈ es, cv.str ec "type" ≠ .ok "source")
    (hl : es.length < sizeMod) (s : St (LSt σ)) (start : Nat) (max : Int) (hm : max ≠ -2 ^ 31) :
    ∃ r Ms, propagate m.elems s start max = some r ∧ r.err = none ∧
      r.st.payload.pos = s.payload.pos +
        ((passed es start max).map (fun ec => match ec "L" with | some (.num x) => x | _ => 0)).sum ∧
      List.Forall₂ (fun ec M => ∃ t : LType, cv.str ec "type" = .ok t.name ∧ transferOf t ec = .ok M)
        (passed es start max) Ms ∧
      r.st.payload.state = k.prod (along Ms) s.payload.state := by
  obtain ⟨lm, pm, am⟩ := machine_plain h hes hns
  obtain ⟨r, r1, r2, _, r4, r5, _⟩ := propagate_plain hk m.elems s start max pm (by omega) hm
  have all : List.Forall₂ (fun (ec : LCfg) (e : LElem σ) =>
      (∃ t : LType, cv.str ec "type" = .ok t.name ∧ transferOf t ec = .ok e.dat.transfer) ∧
      e.dat.length = getNumD ec "L" 0) es m.elems := by
    rw [List.forall₂_iff_get]
    refine ⟨lm.symm, ?_⟩
    intro i h1 h2
    obtain ⟨e, t, g1, g2, g3, g4⟩ := am i es[i] (List.getElem?_eq_getElem h1)
    rw [List.getElem?_eq_getElem h2] at g1
    cases g1
    exact ⟨⟨t, g2, g3⟩, g4⟩
  have part := passed_forall₂ all start max
  refine ⟨r, (passed m.elems start max).map (·.dat.transfer), r1, r2, ?_, ?_, r5⟩
  · rw [r4]
    congr 2
    clear r4 r5
    generalize passed es start max = a at part
    generalize passed m.elems start max = b at part
    induction part with
    | nil => rfl
    | cons hd _ ih =>
      simp only [List.map_cons, ih, hd.2]
      rfl
  · rw [List.forall₂_map_right_iff]
    exact part.imp fun _ _ hd => hd.1

/-- Position, linear simulations: the lengths of the elements passed are added, whatever the direction. -/
theorem C30_linear_position {k : Kind σ} (hk : Lawful k) {base : Nat} (els : List (LElem σ)) (s : St (LSt σ))
    (start : Nat) (max : Int) (hp : ∀ e ∈ els, Plain k base e) (hl : els.length < sizeMod) (hm : max ≠ -2 ^ 31) :
    ∃ r, propagate els s start max = some r ∧
      r.st.payload.pos = s.payload.pos + ((passed els start max).map (·.dat.length)).sum := by
  obtain ⟨r, h1, _, _, h4, _⟩ := propagate_plain hk els s start max hp hl hm
  exact ⟨r, h1, h4⟩

/-- A source among the elements: a forward range whose last source is followed by `post` ends with that source's
initial state transported through `post`, at the sum of the lengths of `post`, whatever the state was before. -/
theorem C30_linear_source {k : Kind σ} (hk : Lawful k) {base : Nat} (els : List (LElem σ)) (s : St (LSt σ))
    (start : Nat) (max : Int) (hc : ∀ e ∈ els, ∃ t, e.cls = cls k base t) (hl : els.length < sizeMod) (h0 : 0 ≤ max)
    (pre post : List (LElem σ)) (src : LElem σ) (i : σ)
    (hsplit : passed els start max = pre ++ src :: post) (hsrc : src.dat.istate = some i)
    (hpost : ∀ e ∈ post, e.dat.istate = none) :
    ∃ r, propagate els s start max = some r ∧
      r.st.payload.pos = (post.map (·.dat.length)).sum ∧
      r.st.payload.state = k.prod (along (post.map (·.dat.transfer))) i := by
  have hs : ∀ e ∈ els, Straight e.cls := fun e he => by
    obtain ⟨t, ht⟩ := hc e he
    rw [ht]
    exact cls_straight k base t
  obtain ⟨r, hr, _, hv, _, _⟩ := C22_forward els s start max hs hl h0
  have hne : max ≠ -2 ^ 31 := by omega
  have hr' := hr
  rw [propagate_eq els s start max hne] at hr'
  cases hr'
  refine ⟨_, hr, ?_⟩
  rw [(run_any _ _ _ hc).2, hv, filterMap_range']
  rw [passed, if_pos h0] at hsplit
  rw [hsplit, List.foldl_append, List.foldl_cons, act_plain hk post _ hpost]
  simp [act, hsrc]

/-! ## C28 -/

/-- Every drift, bend, quadrupole and solenoid (and marker and source) has a symplectic transfer matrix of determinant
1, for every configuration.  A bend needs a length, since the code divides by its radius. -/
theorem C28_symplectic (t : LType) (ht : t ≠ .generic) (c : LCfg) (M : Mat)
    (_hL : t = .sbend → getNumD c "L" 0 ≠ 0) (h : transferOf t c = .ok M) : Symplectic M ∧ M.det = 1 := by
  have h1 : Symplectic (1 : Mat) ∧ (1 : Mat).det = 1 := ⟨by simp [Symplectic], Matrix.det_one⟩
  cases t with
  | source => cases h; exact h1
  | marker => cases h; exact h1
  | drift =>
    cases h
    rw [driftT_eq]
    exact ⟨planes_symplectic _ _ _, planes_det _ _ _⟩
  | sbend =>
    simp only [transferOf] at h
    cases hphi : getNum c "phi" with
    | error e => simp [hphi] at h
    | ok phi =>
      simp only [hphi, Except.ok.injEq] at h
      subst h
      rw [sbendT_eq]
      exact ⟨planes_symplectic _ _ _, planes_det _ _ _⟩
  | quadrupole =>
    cases h
    rw [quadT_eq]
    exact ⟨planes_symplectic _ _ _, planes_det _ _ _⟩
  | solenoid =>
    cases h
    rw [solenoidT_eq]
    exact ⟨sol_symplectic _ _ _ (cc_ss _ _), sol_det _ _⟩
  | generic => exact absurd rfl ht

example : transferOf .quadrupole (fun k => if k = "L" then some (.num 2) else if k = "K" then some (.num (-3)) else none) =
    .ok (quadT (2 * 1000) (-3 / (1000 * 1000))) := by
  simp [transferOf, getNumD, MtoMM]

theorem planes_area (kx ky L : ℝ) : AreaPreservedIn 0 1 (planes kx ky L) ∧ AreaPreservedIn 2 3 (planes kx ky L) ∧
    AreaPreservedIn 4 5 (planes kx ky L) := by
  have hx := cc_ss kx L
  have hy := cc_ss ky L
  refine ⟨⟨?_, ?_⟩, ⟨?_, ?_⟩, ⟨?_, ?_⟩⟩
  · intro a; fin_cases a <;> simp [planes]
  · simp [planes]; linear_combination hx
  · intro a; fin_cases a <;> simp [planes]
  · simp [planes]; linear_combination hy
  · intro a; fin_cases a <;> simp [planes]
  · simp [planes]

/-- Drift, bend and quadrupole keep the three planes apart and preserve the area in each; the solenoid keeps the
longitudinal plane apart and preserves its area. -/
theorem C28_planes (L phi K : ℝ) :
    (∀ i j, (i, j) ∈ [((0 : Fin 6), (1 : Fin 6)), (2, 3), (4, 5)] →
      AreaPreservedIn i j (driftT L) ∧ AreaPreservedIn i j (quadT L K) ∧
      (L ≠ 0 → AreaPreservedIn i j (sbendT L phi K))) ∧
    AreaPreservedIn 4 5 (solenoidT L K) := by
  constructor
  · intro i j hij
    rw [driftT_eq, quadT_eq, sbendT_eq]
    have h1 := planes_area 0 0 L
    have h2 := planes_area K (-K) L
    have h3 := planes_area (K + 1 / (L / phi * (L / phi))) (-K) L
    simp only [List.mem_cons, Prod.mk.injEq, List.not_mem_nil, or_false] at hij
    rcases hij with ⟨rfl, rfl⟩ | ⟨rfl, rfl⟩ | ⟨rfl, rfl⟩
    · exact ⟨h1.1, h2.1, fun _ => h3.1⟩
    · exact ⟨h1.2.1, h2.2.1, fun _ => h3.2.1⟩
    · exact ⟨h1.2.2, h2.2.2, fun _ => h3.2.2⟩
  · rw [solenoidT_eq]
    constructor
    · intro a; fin_cases a <;> simp [sol]
    · simp [sol]

/-! ## C29 -/

/-- Splitting a drift, quadrupole or solenoid: if the lengths add up and the strengths are the same, the matrix of the
whole is that of the first part followed by that of the second. -/
theorem C29_split (t : LType) (ht : t = .drift ∨ t = .quadrupole ∨ t = .solenoid) (c c1 c2 : LCfg)
    (hL : getNumD c "L" 0 = getNumD c1 "L" 0 + getNumD c2 "L" 0)
    (hK1 : getNumD c1 "K" 0 = getNumD c "K" 0) (hK2 : getNumD c2 "K" 0 = getNumD c "K" 0) :
    ∃ M M1 M2, transferOf t c = .ok M ∧ transferOf t c1 = .ok M1 ∧ transferOf t c2 = .ok M2 ∧ M = M2 * M1 := by
  rcases ht with rfl | rfl | rfl
  · refine ⟨_, _, _, rfl, rfl, rfl, ?_⟩
    rw [driftT_eq, driftT_eq, driftT_eq, hL, add_mul, planes_add]
  · refine ⟨_, _, _, rfl, rfl, rfl, ?_⟩
    rw [quadT_eq, quadT_eq, quadT_eq, hK1, hK2, hL, add_mul, planes_add]
  · refine ⟨_, _, _, rfl, rfl, rfl, ?_⟩
    rw [solenoidT_eq, solenoidT_eq, solenoidT_eq, hK1, hK2, hL, add_mul, sol_add]

example : ∃ c c1 c2 : LCfg, getNumD c "L" 0 = 5 ∧ getNumD c1 "L" 0 = 2 ∧ getNumD c2 "L" 0 = 3 ∧
    getNumD c "K" 0 = -7 ∧ getNumD c1 "K" 0 = -7 ∧ getNumD c2 "K" 0 = -7 := by
  refine ⟨fun k => if k = "L" then some (.num 5) else if k = "K" then some (.num (-7)) else none,
    fun k => if k = "L" then some (.num 2) else if k = "K" then some (.num (-7)) else none,
    fun k => if k = "L" then some (.num 3) else if k = "K" then some (.num (-7)) else none, ?_⟩
  simp [getNumD]

/-- Splitting a bend of constant radius `rho`. -/
theorem C29_split_bend (rho K L1 L2 : ℝ) (hr : rho ≠ 0) (h1 : L1 ≠ 0) (h2 : L2 ≠ 0) (h : L1 + L2 ≠ 0) :
    sbendT (L1 + L2) ((L1 + L2) / rho) K = sbendT L2 (L2 / rho) K * sbendT L1 (L1 / rho) K := by
  have e : ∀ L : ℝ, L ≠ 0 → L / (L / rho) = rho := fun L hL => by field_simp
  rw [sbendT_eq, sbendT_eq, sbendT_eq, e _ h, e _ h1, e _ h2, planes_add]

/-! ## C56 -/

/-- `T L` is the flow of the linear equations of motion with coefficients `A`. -/
def FlowOf (A : Mat) (T : ℝ → Mat) : Prop :=
  T 0 = 1 ∧ ∀ L i j, HasDerivAt (fun x => T x i j) ((A * T L) i j) L

theorem planes_flow (kx ky : ℝ) : FlowOf (hill kx ky) (planes kx ky) := by
  constructor
  · ext a b
    fin_cases a <;> fin_cases b <;> simp [planes, cc_zero, ss_zero]
  · intro L i j
    fin_cases i <;> fin_cases j <;> simp [planes, hill, Matrix.mul_apply, Fin.sum_univ_six] <;>
      first
        | exact hasDerivAt_const _ _
        | exact ss_deriv _ _
        | exact (cc_deriv _ _).congr_deriv (by ring)
        | exact ((ss_deriv _ _).const_mul _).congr_deriv (by ring)
        | exact ((ss_deriv _ _).const_mul _).neg.congr_deriv (by ring)

theorem sol_flow (K : ℝ) : FlowOf (larmor K) (fun L => sol K (cc (K * K) L) (ss (K * K) L)) := by
  constructor
  · ext a b
    fin_cases a <;> fin_cases b <;> simp [sol, cc_zero, ss_zero]
  · intro L i j
    have c := cc_deriv (K * K) L
    have s := ss_deriv (K * K) L
    fin_cases i <;> fin_cases j <;> simp [sol, larmor, Matrix.mul_apply, Fin.sum_univ_six] <;>
      first
        | exact hasDerivAt_const _ _
        | exact (c.mul c).congr_deriv (by ring)
        | exact (s.mul c).congr_deriv (by ring)
        | exact ((s.const_mul K).mul c).congr_deriv (by ring)
        | exact ((s.const_mul K).mul s).congr_deriv (by ring)
        | exact ((s.const_mul K).mul c).neg.congr_deriv (by ring)
        | exact ((s.const_mul K).mul s).neg.congr_deriv (by ring)
        | exact (((s.const_mul K).const_mul K).mul c).congr_deriv (by ring)
        | exact (((s.const_mul K).const_mul K).mul c).neg.congr_deriv (by ring)
        | exact (((s.const_mul K).mul (s.const_mul K)).const_mul K).congr_deriv (by ring)
        | exact (((s.const_mul K).mul (s.const_mul K)).const_mul K).neg.congr_deriv (by ring)

/-- The matrices are the solutions of the equations of motion: free motion in a drift, focusing by `K` and defocusing
by `K` in a quadrupole, rotation with focusing in a solenoid, and in a bend of radius `rho` the additional focusing
`1/rho^2` in the plane of the bend. -/
theorem C56_motion (K : ℝ) :
    FlowOf (hill 0 0) driftT ∧ FlowOf (hill K (-K)) (fun L => quadT L K) ∧
    FlowOf (larmor K) (fun L => solenoidT L K) ∧
    ∀ rho L : ℝ, rho ≠ 0 → L ≠ 0 → ∀ i j,
      HasDerivAt (fun x => sbendT x (x / rho) K i j) ((hill (K + 1 / rho ^ 2) (-K) * sbendT L (L / rho) K) i j) L := by
  refine ⟨?_, ?_, ?_, ?_⟩
  · rw [show driftT = planes 0 0 from funext driftT_eq]
    exact planes_flow 0 0
  · rw [show (fun L => quadT L K) = planes K (-K) from funext fun L => quadT_eq L K]
    exact planes_flow _ _
  · rw [show (fun L => solenoidT L K) = fun L => sol K (cc (K * K) L) (ss (K * K) L) from funext fun L => solenoidT_eq L K]
    exact sol_flow K
  · intro rho L hr hL i j
    have e : ∀ x : ℝ, x ≠ 0 → sbendT x (x / rho) K = planes (K + 1 / rho ^ 2) (-K) x := fun x hx => by
      rw [sbendT_eq, show x / (x / rho) = rho by field_simp, sq]
    rw [e L hL]
    refine ((planes_flow (K + 1 / rho ^ 2) (-K)).2 L i j).congr_of_eventuallyEq ?_
    filter_upwards [isOpen_ne.mem_nhds hL] with x hx
    rw [e x hx]

theorem planes_units (kx ky L : ℝ) :
    planes (kx / (1000 * 1000)) (ky / (1000 * 1000)) (L * 1000) * toMM = toMM * planes kx ky L := by
  have hx := cc_scale 1000 kx L (by norm_num)
  have hy := cc_scale 1000 ky L (by norm_num)
  have gx := ss_scale 1000 kx L (by norm_num)
  have gy := ss_scale 1000 ky L (by norm_num)
  ext i j
  simp only [toMM, Matrix.mul_diagonal, Matrix.diagonal_mul]
  fin_cases i <;> fin_cases j <;> simp [planes, hx, hy, gx, gy] <;> ring

theorem sol_units (K L : ℝ) :
    sol (K / 1000) (cc (K / 1000 * (K / 1000)) (L * 1000)) (ss (K / 1000 * (K / 1000)) (L * 1000)) * toMM =
      toMM * sol K (cc (K * K) L) (ss (K * K) L) := by
  have e : K / 1000 * (K / 1000) = K * K / (1000 * 1000) := by ring
  rw [e, cc_scale 1000 _ L (by norm_num), ss_scale 1000 _ L (by norm_num)]
  ext i j
  simp only [toMM, Matrix.mul_diagonal, Matrix.diagonal_mul]
  fin_cases i <;> fin_cases j <;> simp [sol] <;> first | ring1 | (left; ring1)

/-- Units: with length and strengths as configured in metres, the matrix of an element is the flow of the equations of
motion in metres over the configured length, written in the coordinates of the state (millimetres). -/
theorem C56_units (c : LCfg) :
    (∃ M F, transferOf .drift c = .ok M ∧ FlowOf (hill 0 0) F ∧ M * toMM = toMM * F (getNumD c "L" 0)) ∧
    (∃ M F, transferOf .quadrupole c = .ok M ∧ FlowOf (hill (getNumD c "K" 0) (-getNumD c "K" 0)) F ∧
      M * toMM = toMM * F (getNumD c "L" 0)) ∧
    (∃ M F, transferOf .solenoid c = .ok M ∧ FlowOf (larmor (getNumD c "K" 0)) F ∧
      M * toMM = toMM * F (getNumD c "L" 0)) ∧
    (∀ phi, c "phi" = some (.num phi) → getNumD c "L" 0 ≠ 0 → ∃ M F, transferOf .sbend c = .ok M ∧
      FlowOf (hill (getNumD c "K" 0 + (phi / getNumD c "L" 0) ^ 2) (-getNumD c "K" 0)) F ∧
      M * toMM = toMM * F (getNumD c "L" 0)) := by
  refine ⟨⟨_, planes 0 0, rfl, planes_flow _ _, ?_⟩, ⟨_, planes _ _, rfl, planes_flow _ _, ?_⟩,
    ⟨_, _, rfl, sol_flow _, ?_⟩, ?_⟩
  · have := planes_units 0 0 (getNumD c "L" 0)
    rw [zero_div] at this
    rw [driftT_eq, MtoMM]
    exact this
  · have := planes_units (getNumD c "K" 0) (-getNumD c "K" 0) (getNumD c "L" 0)
    rw [neg_div] at this
    rw [quadT_eq, MtoMM]
    exact this
  · rw [solenoidT_eq, MtoMM]
    exact sol_units _ _
  · intro phi hphi hL
    have hg : getNum c "phi" = .ok phi := by simp [getNum, hphi]
    refine ⟨sbendT (getNumD c "L" 0 * MtoMM) phi (getNumD c "K" 0 / (MtoMM * MtoMM)), planes _ _,
      by simp [transferOf, hg], planes_flow _ _, ?_⟩
    have := planes_units (getNumD c "K" 0 + (phi / getNumD c "L" 0) ^ 2) (-getNumD c "K" 0) (getNumD c "L" 0)
    rw [neg_div] at this
    rw [sbendT_eq, MtoMM, ← this]
    congr 2
    by_cases hp : phi = 0
    · subst hp; simp
    · field_simp

/-! ## C57 -/

/-- The matrix of a generic element: 'transfer' row by row, the rest from the identity; more than 36 values are
refused, and so is a missing or wrongly typed 'transfer'. -/
theorem C57_generic (c : LCfg) :
    (∀ xs, c "transfer" = some (.vec xs) →
      (xs.length ≤ 36 → ∃ M, transferOf .generic c = .ok M ∧ ∀ i j : Fin 6,
        M i j = if h : i.val * 6 + j.val < xs.length then xs[i.val * 6 + j.val] else if i = j then 1 else 0) ∧
      (36 < xs.length → transferOf .generic c = .error .invalidArg)) ∧
    ((∀ xs, c "transfer" ≠ some (.vec xs)) → transferOf .generic c = .error .keyError) := by
  constructor
  · intro xs hx
    have hg : getVec c "transfer" = .ok xs := by simp [getVec, hx]
    refine ⟨fun h => ⟨copyMat xs 1, ?_, ?_⟩, fun h => ?_⟩
    · simp [transferOf, genericT, hg, h]
    · intro i j
      unfold copyMat
      rw [mul_comm 6]
      split
      · rename_i hi; rw [List.getElem?_eq_getElem hi]; rfl
      · rename_i hi; rw [List.getElem?_eq_none (by omega)]; exact Matrix.one_apply
    · simp [transferOf, genericT, hg, h]
  · intro hx
    have hg : getVec c "transfer" = .error .keyError := by
      unfold getVec
      split
      · rename_i xs h; exact absurd h (hx xs)
      · rfl
    simp [transferOf, genericT, hg]

example : ∃ M, transferOf .generic (fun k => if k = "transfer" then some (.vec [4, 5]) else none) = .ok M ∧
    M 0 0 = 4 ∧ M 0 1 = 5 ∧ M 1 1 = 1 := by
  obtain ⟨M, h, hM⟩ := ((C57_generic (fun k => if k = "transfer" then some (.vec [4, 5]) else none)).1 [4, 5]
    (by simp)).1 (by simp)
  exact ⟨M, h, by rw [hM]; simp, by rw [hM]; simp, by rw [hM]; simp⟩

/-! ## C21 for the linear classes -/

/-- Reconfiguring any linear element but a source gives it exactly the data of a freshly built one. -/
theorem C21_linear_fresh (k : Kind σ) (base : Nat) (t : LType) (ht : t ≠ .source) (c c' : LCfg) (d d' : LDat σ)
    (h : (cls k base t).build c = .ok d) (h' : (cls k base t).build c' = .ok d') :
    (cls k base t).assign d d' = d' := by
  have h1 := (build_ok (k := k) (t := t) h).2.2 ht
  have h2 := (build_ok (k := k) (t := t) h').2.2 ht
  obtain ⟨l, T, i⟩ := d
  obtain ⟨l', T', i'⟩ := d'
  simp only at h1 h2
  subst h1 h2
  rfl

/-- Reconfiguring a source keeps the old initial state: the new 'initial' has no effect. -/
theorem C21_linear_source_false (k : Kind σ) (base : Nat) (c c' : LCfg) (d d' : LDat σ) (i i' : σ) (hne : i ≠ i')
    (h : (cls k base .source).build c = .ok d) (h' : (cls k base .source).build c' = .ok d')
    (hi : k.init c = .ok i) (hi' : k.init c' = .ok i') :
    d.istate = some i ∧ d'.istate = some i' ∧ ((cls k base .source).assign d d').istate = some i ∧
      (cls k base .source).assign d d' ≠ d' := by
  have g : ∀ c d i, (cls k base .source).build c = .ok d → k.init c = .ok i → d.istate = some i := by
    intro c d i h hi
    have h0 : build k .source c = .ok d := h
    simp only [build, transferOf, hi, if_pos] at h0
    cases h0
    rfl
  have a := g c d i h hi
  have b := g c' d' i' h' hi'
  refine ⟨a, b, a, ?_⟩
  intro e
  have : ((cls k base .source).assign d d').istate = d'.istate := by rw [e]
  rw [b, show ((cls k base .source).assign d d').istate = some i from a] at this
  exact hne (Option.some.inj this)

example : ∃ d d', (cls vector 0 .source).build (fun k => if k = "initial" then some (.vec [1]) else none) = .ok d ∧
    (cls vector 0 .source).build (fun _ => none) = .ok d' ∧
    vector.init (fun k => if k = "initial" then some (.vec [1]) else none) = .ok (copyVec [1] 0) ∧
    vector.init (fun _ => none) = .ok 0 ∧ copyVec [1] 0 ≠ 0 := by
  have e1 : vector.init (fun k => if k = "initial" then some (.vec [1]) else none) = .ok (copyVec [1] 0) := by
    simp [vector, initVec, getVec]
  have e2 : vector.init (fun _ => none) = .ok 0 := by simp [vector, initVec, getVec]
  refine ⟨⟨0, 1, some (copyVec [1] 0)⟩, ⟨0, 1, some 0⟩, ?_, ?_, e1, e2, ?_⟩
  · simp only [cls, build, transferOf, e1, getNumD]
    simp
  · simp only [cls, build, transferOf, e2, getNumD]
    simp
  · intro h
    have := congrFun h 0
    simp [copyVec] at this

/-! ## C32 -/

/-- Initial vector and matrix: the given values replace the first entries (row by row) of zero and identity; too many are
refused; without a list of numbers the default is used. -/
theorem C32_initial (c : LCfg) :
    (∀ xs, c "initial" = some (.vec xs) →
      (xs.length ≤ 6 → ∃ v, vector.init c = .ok v ∧ ∀ i : Fin 6, v i = if h : i.val < xs.length then xs[i.val] else 0) ∧
      (6 < xs.length → vector.init c = .error .invalidArg) ∧
      (xs.length ≤ 36 → ∃ M, matrix.init c = .ok M ∧ ∀ i j : Fin 6,
        M i j = if h : i.val * 6 + j.val < xs.length then xs[i.val * 6 + j.val] else if i = j then 1 else 0) ∧
      (36 < xs.length → matrix.init c = .error .invalidArg)) ∧
    ((∀ xs, c "initial" ≠ some (.vec xs)) → vector.init c = .ok (fun _ => 0) ∧
      ∃ M, matrix.init c = .ok M ∧ ∀ i j : Fin 6, M i j = if i = j then 1 else 0) := by
  constructor
  · intro xs hx
    have hg : getVec c "initial" = .ok xs := by simp [getVec, hx]
    refine ⟨fun h => ⟨copyVec xs 0, ?_, ?_⟩, fun h => ?_, fun h => ⟨copyMat xs 1, ?_, ?_⟩, fun h => ?_⟩
    · simp [vector, initVec, hg, h]
    · intro i
      unfold copyVec
      split
      · rename_i hi; rw [List.getElem?_eq_getElem hi]; rfl
      · rename_i hi; rw [List.getElem?_eq_none (by omega)]; rfl
    · simp [vector, initVec, hg, h]
    · simp [matrix, initMat, hg, h]
    · intro i j
      unfold copyMat
      rw [mul_comm 6]
      split
      · rename_i hi; rw [List.getElem?_eq_getElem hi]; rfl
      · rename_i hi; rw [List.getElem?_eq_none (by omega)]; exact Matrix.one_apply
    · simp [matrix, initMat, hg, h]
  · intro hx
    have hg : getVec c "initial" = .error .keyError := by
      unfold getVec
      split
      · rename_i xs h; exact absurd h (hx xs)
      · rfl
    refine ⟨by simp [vector, initVec, hg]; rfl, 1, by simp [matrix, initMat, hg], fun i j => Matrix.one_apply⟩

example : ∃ v, vector.init (fun k => if k = "initial" then some (.vec [4, 5]) else none) = .ok v ∧
    v 0 = 4 ∧ v 1 = 5 ∧ v 2 = 0 := by
  obtain ⟨v, h, hv⟩ := ((C32_initial (fun k => if k = "initial" then some (.vec [4, 5]) else none)).1 [4, 5]
    (by simp)).1 (by simp)
  exact ⟨v, h, by rw [hv]; simp, by rw [hv]; simp, by rw [hv]; simp⟩

/-! ## C31 -/

/-- A drift of one metre. -/
noncomputable def drift1 : LElem Vec :=
  { cls := cls vector 0 .drift, name := "d", index := 0, conf := fun k => if k = "L" then some (.num 1) else none,
    obs := none, dat := ⟨1, driftT 1000, none⟩ }

theorem drift1_plain : Plain vector 0 drift1 := ⟨⟨.drift, rfl⟩, rfl⟩

theorem drift1_built : (cls vector 0 .drift).build drift1.conf = .ok drift1.dat := by
  show build vector .drift drift1.conf = _
  simp [build, transferOf, drift1, getNumD, MtoMM]

/-- C31 fails in the linear simulations: a particle with slope 1 that passes a drift of 1 m forward and then
backward ends 2000 mm from where it started, at position 2 m. -/
theorem C31_linear_false :
    ∃ (s : St (LSt Vec)) (r q : _), propagate [drift1] s 0 1 = some r ∧ propagate r.elems r.st 0 (-1) = some q ∧
      s.payload.state 0 = 0 ∧ r.st.payload.state 0 = 1000 ∧ q.st.payload.state 0 = 2000 ∧
      s.payload.pos = 0 ∧ q.st.payload.pos = 2 := by
  have hp : ∀ e ∈ [drift1], Plain vector 0 e := by simpa using drift1_plain
  let s : St (LSt Vec) := ⟨0, false, ⟨0, ![0, 1, 0, 0, 0, 0]⟩⟩
  obtain ⟨r, r1, _, r3, r4, r5, _⟩ := propagate_plain lawful_vector [drift1] s 0 1 hp (by decide) (by decide)
  obtain ⟨q, q1, _, _, q4, q5, _⟩ := propagate_plain lawful_vector [drift1] r.st 0 (-1) hp (by decide) (by decide)
  have e1 : passed [drift1] 0 1 = [drift1] := by simp [passed]
  have e2 : passed [drift1] 0 (-1) = [drift1] := by simp [passed]
  rw [e1] at r4 r5
  rw [e2] at q4 q5
  refine ⟨s, r, q, r1, by rw [r3]; exact q1, by simp [s], ?_, ?_, rfl, ?_⟩
  · rw [r5]
    simp [along, vector, drift1, driftT_eq, planes, Matrix.mulVec, dotProduct, Fin.sum_univ_six, s, cc, ss]
  · rw [q5, r5]
    simp [along, vector, drift1, driftT_eq, planes, Matrix.mulVec, dotProduct, Fin.sum_univ_six, s, cc, ss]
    norm_num
  · rw [q4, r4]
    simp [drift1, s]
    norm_num

/-- A source with slope 1. -/
noncomputable def source1 : LElem Vec :=
  { cls := cls vector 0 .source, name := "s", index := 0, conf := fun _ => none, obs := none,
    dat := ⟨0, 1, some ![0, 1, 0, 0, 0, 0]⟩ }

example : passed [source1, drift1, drift1] 0 2 = [] ++ source1 :: [drift1] ∧ source1.dat.istate.isSome ∧
    (∀ e ∈ [source1, drift1, drift1], ∃ t, e.cls = cls vector 0 t) ∧ ∀ e ∈ [drift1], e.dat.istate = none := by
  refine ⟨rfl, rfl, ?_, ?_⟩
  · intro e he
    simp only [List.mem_cons, List.not_mem_nil, or_false, or_self] at he
    rcases he with rfl | rfl
    · exact ⟨.source, rfl⟩
    · exact ⟨.drift, rfl⟩
  · simp [drift1]

/-- What backward propagation does instead: the same matrices in the opposite order, and the lengths are added
again.  Partial with respect to C31: nothing is undone. -/
theorem C31_linear_partial {k : Kind σ} (hk : Lawful k) {base : Nat} (els : List (LElem σ)) (s : St (LSt σ)) (n : Nat)
    (hn : els.length = n + 1) (hp : ∀ e ∈ els, Plain k base e) (hl : els.length < 2 ^ 31) :
    ∃ r q, propagate els s 0 (n + 1) = some r ∧ propagate r.elems r.st n (-(n + 1)) = some q ∧
      q.st.payload.state = k.prod (along ((els.reverse).map (·.dat.transfer)) * along (els.map (·.dat.transfer)))
        s.payload.state ∧
      q.st.payload.pos = s.payload.pos + 2 * (els.map (·.dat.length)).sum := by
  have hl' : els.length < sizeMod := Nat.lt_trans hl (by decide)
  obtain ⟨r, r1, _, r3, r4, r5, _⟩ := propagate_plain hk els s 0 (n + 1) hp hl' (by omega)
  obtain ⟨q, q1, _, _, q4, q5, _⟩ := propagate_plain hk els r.st n (-(n + 1)) hp hl' (by omega)
  have e1 : passed els 0 (n + 1) = els := by
    unfold passed
    rw [if_pos (by omega), List.drop_zero, List.take_of_length_le (by omega)]
  have e2 : passed els n (-(n + 1)) = els.reverse := by
    unfold passed
    have ht : els.take (n + 1) = els := List.take_of_length_le (by omega)
    rw [if_neg (by omega), if_pos (by omega), ht, List.take_of_length_le (by rw [List.length_reverse]; omega)]
  rw [e1] at r4 r5
  rw [e2] at q4 q5
  refine ⟨r, q, r1, by rw [r3]; exact q1, ?_, ?_⟩
  · rw [q5, r5, hk.mul]
  · rw [q4, r4, List.map_reverse, List.sum_reverse]
    ring

example : [drift1, drift1].length = 1 + 1 ∧ ∀ e ∈ [drift1, drift1], Plain vector 0 e := by
  refine ⟨rfl, ?_⟩
  intro e he
  have : e = drift1 := by simpa using he
  rw [this]
  exact drift1_plain

end Flame.Linear
