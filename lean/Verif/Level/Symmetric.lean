import Verif.Level.Run
import Verif.Level.Example
import Verif.Level.SpecSym
import Verif.Flip.Symmetric

/-! # A flat beam stays flat (C118) -/

namespace Flame.Level

open Flame.Linear (LCfg LVal)
open Flame.Mach (CView Err Event Machine Run St propagate)
open Flame.Moment Flame.Cavity
open Flame.Agree (exSettings exBeam)
open Flame.Scale.Spec (Call Session)
open Flame.Flip (map_fix session_unique)
open Flame.Level.Spec

/-- A vector that is its own image. -/
theorem imageV_fix (v : Fin 7 → ℝ) : imageV v = v ↔ Flat v := by
  constructor
  · intro h
    have h0 := congrFun h 2
    have h1 := congrFun h 3
    simp [imageV, side] at h0 h1
    exact ⟨by linarith, by linarith⟩
  · rintro ⟨h0, h1⟩
    funext i
    fin_cases i <;> simp [imageV, side, h0, h1]

/-- A matrix that is its own image. -/
theorem imageM_fix (M : Matrix (Fin 7) (Fin 7) ℝ) : imageM M = M ↔ Uncoupled M := by
  have sd : ∀ k : Fin 7, (Vertical k ∧ side k = -1) ∨ (¬ Vertical k ∧ side k = 1) := by
    intro k
    fin_cases k <;> simp [side, Vertical]
  constructor
  · intro h i j hi hj
    have h0 := congrFun (congrFun h i) j
    have h1 := congrFun (congrFun h j) i
    have si : side i = -1 := by
      rcases sd i with h | h
      · exact h.2
      · exact absurd hi h.1
    have sj : side j = 1 := by
      rcases sd j with h | h
      · exact absurd h.1 hj
      · exact h.2
    simp only [imageM, si, sj] at h0 h1
    exact ⟨by linarith, by linarith⟩
  · intro h
    funext i j
    simp only [imageM]
    rcases sd i with ⟨a, b⟩ | ⟨a, b⟩ <;> rcases sd j with ⟨a', b'⟩ | ⟨a', b'⟩ <;> rw [b, b']
    · ring
    · rw [(h i j a a').1]
      ring
    · rw [(h j i a' a).2]
      ring
    · ring

/-- A beam that is its own image. -/
theorem beam_fix (S : MSt) : MirroredBeam S S ↔ UpDown S := by
  constructor
  · intro h
    exact ⟨(map_fix imageV_fix _).1 h.moment0.symm, (map_fix imageM_fix _).1 h.moment1.symm,
      (map_fix imageM_fix _).1 h.transmat.symm, (imageV_fix _).1 h.moment0_env.symm, (imageM_fix _).1 h.moment1_env.symm⟩
  · intro h
    exact ⟨rfl, rfl, rfl, ((map_fix imageV_fix _).2 h.moment0).symm, ((map_fix imageM_fix _).2 h.moment1).symm,
      ((map_fix imageM_fix _).2 h.transmat).symm, ((imageV_fix _).2 h.moment0_env).symm, rfl,
      ((imageM_fix _).2 h.moment1_env).symm, rfl⟩

/-- An element that is its own image. -/
theorem planar_fix {ty : String} {c : LCfg} (h : Planar ty c) : MirroredElement ty c c := by
  refine ⟨?_, ?_, fun _ _ _ _ => rfl, h.kind, h.given⟩
  · intro k hk
    cases e : c k with
    | none => rfl
    | some v =>
      cases v with
      | num x =>
        have := h.zero k x hk e
        subst this
        simp [reverse]
      | _ => rfl
  · intro k hk
    cases e : c k with
    | none => exact .inr ⟨by simp, rfl⟩
    | some v =>
      cases v with
      | vec xs =>
        refine .inl ⟨xs, xs, rfl, rfl, rfl, ?_, ?_⟩
        · intro hl i
          obtain ⟨h0, h1⟩ := h.vector k xs hk e hl
          fin_cases i <;> simp_all [side]
        · intro hl i j
          have hm := h.matrix k xs hk e hl
          have := congrFun (congrFun ((imageM_fix (fun i j : Fin 7 => xs.getD (7 * (i : ℕ) + (j : ℕ)) 0)).2
            (fun i j hi hj => hm i j hi hj j.2)) i) j
          exact this.symm
      | _ => exact .inr ⟨by simp, rfl⟩

/-- C118: without anything that tells up from down, a flat beam stays flat.  A machine without cavities is built from a lattice whose
elements are all planar (`Planar`): quadrupoles, sextupoles, bends and horizontal electrostatic dipoles of any strength, at
horizontal offsets and with any yaw.  It is used with any calls of `propagate`, forward and backward, over any ranges and
with any observers, for beams that are flat and uncoupled in the vertical plane.  Then at the end of every call, whether it ends
with an exception or not, and in every view of an observer, every charge state is still flat and uncoupled, and so are the averages
over the charge states and the transfer matrices. -/
theorem C118_flat {env : Env} {files : Files} {junk : Mat} {base : Nat} (cv : CView LCfg) (c : LCfg)
    (m : Machine LCfg MDat MSt)
    (h : Machine.new cv (registry env junk base (cavityCls env files junk base) (stripperCls env junk base)) c = .ok m)
    (es : List LCfg) (hes : cv.elems c = .ok es)
    (hc : ∀ e ∈ es, ∃ ty, cv.str e "type" = .ok ty ∧ Planar ty e)
    (calls : List (Call MSt)) (hcalls : ∀ a ∈ calls, UpDown a.state.payload)
    (rs : List (Run LCfg MDat MSt)) (hs : Session m.elems calls rs) :
    ∀ r ∈ rs, UpDown r.st.payload ∧ ∀ o i s, Event.view o i s ∈ r.trace → UpDown s.payload := by
  obtain ⟨rs', hs', hF⟩ := C118_mirror cv c c m m h h es es hes hes
    (by
      rw [List.forall₂_same]
      intro e he
      obtain ⟨ty, t1, t2⟩ := hc e he
      exact ⟨ty, t1, t1, planar_fix t2⟩)
    calls calls
    (by
      rw [List.forall₂_same]
      intro a ha
      exact ⟨rfl, rfl, rfl, (beam_fix _).2 (hcalls a ha)⟩)
    rs hs
  rw [session_unique hs hs'] at hF
  rw [List.forall₂_same] at hF
  intro r hr
  obtain ⟨-, -, g1, g2⟩ := hF r hr
  refine ⟨(beam_fix _).1 g1, ?_⟩
  intro o i s hv
  rw [List.forall₂_same] at g2
  cases g2 _ hv with
  | view _ _ q _ _ => exact (beam_fix _).1 q

/-- A source of a flat beam, with a correlation of `x` and the momentum. -/
noncomputable def symSource : LCfg :=
  exSettings [("type", .str "source"), ("name", .str "S"), ("moment0", .vec [3, 4, 0, 0, 5, 6, 1]),
    ("initial", .vec ((List.range 49).map (fun n => if n % 8 = 0 then 2 else if n = 5 ∨ n = 35 then 1 else 0)))]

/-- A bend. -/
noncomputable def symBend : LCfg :=
  exSettings [("type", .str "sbend"), ("name", .str "b"), ("L", .num 1), ("phi", .num 30), ("phi1", .num 5), ("phi2", .num 6), ("bg", .num 1)]

/-- A source, a quadrupole that is too far to one side and yawed, a sextupole, a bend, a horizontal electrostatic dipole, a horizontal
corrector and a stripper. -/
noncomputable def symElems : List LCfg :=
  [symSource,
   exSettings [("type", .str "quadrupole"), ("name", .str "q"), ("L", .num 1), ("B2", .num 5), ("dy", .num 0), ("dx", .num 2), ("yaw", .num 1)],
   exSettings [("type", .str "sextupole"), ("name", .str "x"), ("L", .num 1), ("B3", .num 5), ("step", .num 2), ("dx", .num 1)],
   symBend,
   exSettings [("type", .str "edipole"), ("name", .str "e"), ("L", .num 1), ("phi", .num 30), ("ver", .num 0)],
   exSettings [("type", .str "orbtrim"), ("name", .str "o"), ("theta_x", .num 3)],
   exSettings [("type", .str "stripper"), ("name", .str "f"), ("IonChargeStates", .vec [1]), ("NCharge", .vec [1])]]

/-- How the example reads a configuration. -/
noncomputable def symView : CView LCfg where
  str c k := match c k with
    | some (.str x) => .ok x
    | _ => .error .keyError
  elems _ := .ok symElems

/-- A beam that is off axis in the horizontal plane only, with a correlation of `y` and `y'`. -/
noncomputable def symBeam : St MSt :=
  { nextElem := 0, retreat := false, payload :=
    { pos := 0, ref := Moment.exParticle, real := [Moment.exParticle]
      moment0 := [![3, 4, 0, 0, 5, 6, 1]], moment1 := [fun i j => if i = j then 2 else if (i = 2 ∧ j = 3) ∨ (i = 3 ∧ j = 2) then 1 else 0]
      transmat := [1], moment0_env := 0, moment0_rms := 0, moment1_env := 0, last_caviphi0 := 0 } }

/-- Elements other than sources and given matrices. -/
theorem planar_plain {ty : String} {c : LCfg} (h1 : ty ≠ "tmatrix") (h2 : ty ≠ "source") (h0 : ty ≠ "rfcavity")
    (h : ∀ k x, Reversed ty c k → c k = some (.num x) → x = 0) : Planar ty c :=
  ⟨h, fun k _ hk => absurd hk (moments_not h1 h2 k), fun k _ hk => absurd hk (moments_not h1 h2 k), h0, fun e => absurd e h2⟩

/-- The hypotheses of `C118_flat` are met by this lattice and this beam, used forward and then backward through the quadrupole. -/
example (env : Env) (files : Files) (junk : Mat) :
    (∃ m, Machine.new symView (registry env junk 0 (cavityCls env files junk 0) (stripperCls env junk 0))
      (exSettings [("sim_type", .str "MomentMatrix")]) = .ok m) ∧
    (∀ e ∈ symElems, ∃ ty, symView.str e "type" = .ok ty ∧ Planar ty e) ∧
    ∀ a ∈ [(⟨fun i => some i, symBeam, 0, 7⟩ : Call MSt), ⟨fun _ => none, symBeam, 1, -1⟩], UpDown a.state.payload := by
  obtain ⟨hk, hreg⟩ := registered_shipped env junk 0 (cavityCls env files junk 0) (stripperCls env junk 0)
  have new : newState junk symSource = .ok (newSingle junk symSource) := by
    have : toSize 0 = some 0 := by
      unfold toSize
      rw [if_pos (by norm_num)]
      simp
    unfold newState
    rw [show optNum symSource "cstate" = none from rfl, Option.getD_none, this]
    rfl
  obtain ⟨ds, hds⟩ : ∃ d, build env junk .source symSource = .ok d := by
    unfold build
    simp only [new]
    exact ⟨_, rfl⟩
  obtain ⟨db, hdb⟩ := bend_builds env junk symBend rfl
  have hbeam : UpDown symBeam.payload := by
    refine ⟨?_, ?_, ?_, ⟨rfl, rfl⟩, fun _ _ _ _ => ⟨rfl, rfl⟩⟩
    · intro v hv
      rw [List.mem_singleton.1 hv]
      exact ⟨rfl, rfl⟩
    · intro M hM
      rw [List.mem_singleton.1 hM]
      intro i j hi hj
      fin_cases i <;> fin_cases j <;> simp_all [Vertical]
    · intro M hM
      rw [List.mem_singleton.1 hM]
      intro i j hi hj
      have : i ≠ j := by
        rintro rfl
        exact hj hi
      exact ⟨Matrix.one_apply_ne this, Matrix.one_apply_ne this.symm⟩
  refine ⟨?_, ?_, ?_⟩
  · refine (Flame.Mach.C18_success_iff symView (registry env junk 0 (cavityCls env files junk 0) (stripperCls env junk 0)) _).2
      ⟨"MomentMatrix", symElems, rfl, hk, rfl, ?_⟩
    simp only [symElems, List.mem_cons, List.not_mem_nil, or_false, forall_eq_or_imp, forall_eq]
    exact ⟨⟨"source", _, "S", ds, rfl, hreg _ _ rfl, rfl, rfl, hds⟩, ⟨"quadrupole", _, "q", _, rfl, hreg _ _ rfl, rfl, rfl, rfl⟩,
      ⟨"sextupole", _, "x", _, rfl, hreg _ _ rfl, rfl, rfl, rfl⟩, ⟨"sbend", _, "b", db, rfl, hreg _ _ rfl, rfl, rfl, hdb⟩, ⟨"edipole", _, "e", _, rfl, hreg _ _ rfl, rfl, rfl, rfl⟩,
      ⟨"orbtrim", _, "o", _, rfl, hreg _ _ rfl, rfl, rfl, rfl⟩, ⟨"stripper", _, "f", _, rfl, hreg _ _ rfl, rfl, rfl, rfl⟩⟩
  · simp only [symElems, List.mem_cons, List.not_mem_nil, or_false, forall_eq_or_imp, forall_eq]
    refine ⟨⟨"source", rfl, ?_⟩, ⟨"quadrupole", rfl, planar_plain (by decide) (by decide) (by decide) ?_⟩,
      ⟨"sextupole", rfl, planar_plain (by decide) (by decide) (by decide) ?_⟩, ⟨"sbend", rfl, planar_plain (by decide) (by decide) (by decide) ?_⟩, ⟨"edipole", rfl, planar_plain (by decide) (by decide) (by decide) ?_⟩,
      ⟨"orbtrim", rfl, planar_plain (by decide) (by decide) (by decide) ?_⟩, ⟨"stripper", rfl, planar_plain (by decide) (by decide) (by decide) ?_⟩⟩
    · have hS : ¬ Several symSource := by
        rintro ⟨xs, h⟩
        have : symSource "IonChargeStates" = none := rfl
        rw [this] at h
        cases h
      have two : ∀ k, IsMoments "source" symSource k → k = "moment0" ∨ k = "initial" := by
        rintro k (⟨e, -⟩ | ⟨-, name, hn, ⟨hs, -⟩ | ⟨-, rfl⟩⟩)
        · exact absurd e (by decide)
        · exact absurd hs hS
        · exact hn
      refine ⟨?_, ?_, ?_, by decide, fun _ _ => ⟨_, rfl, by simp⟩⟩
      · intro k x hk hx
        simp [Reversed] at hk
        rcases hk with rfl | rfl | rfl <;> simp [symSource, exSettings] at hx
      · intro k xs hk hx hl
        rcases two k hk with rfl | rfl <;> simp [symSource, exSettings] at hx <;> subst hx
        · exact ⟨rfl, rfl⟩
        · simp at hl
      · intro k xs hk hx hl i j hi hj h7
        rcases two k hk with rfl | rfl <;> simp [symSource, exSettings] at hx <;> subst hx
        · simp at hl
        · rcases hi with rfl | rfl <;> interval_cases j <;> simp_all [Vertical, List.getD_eq_getElem?_getD]
    · intro k x hk hx
      simp [Reversed] at hk
      rcases hk with rfl | rfl | rfl <;> simp [exSettings] at hx
      exact hx.symm
    · intro k x hk hx
      simp [Reversed] at hk
      rcases hk with rfl | rfl | rfl <;> simp [exSettings] at hx
    · intro k x hk hx
      simp [Reversed] at hk
      rcases hk with rfl | rfl | rfl <;> simp [symBend, exSettings] at hx
    · intro k x hk hx
      simp [Reversed] at hk
      rcases hk with (rfl | rfl | rfl) | ⟨h, rfl⟩
      · simp [exSettings] at hx
      · simp [exSettings] at hx
      · simp [exSettings] at hx
      · simp [exSettings] at h
    · intro k x hk hx
      simp [Reversed] at hk
      rcases hk with (rfl | rfl | rfl) | rfl | rfl | rfl <;> simp [exSettings] at hx
    · intro k x hk hx
      simp [Reversed] at hk
      rcases hk with rfl | rfl | rfl <;> simp [exSettings] at hx
  · intro a ha
    simp only [List.mem_cons, List.not_mem_nil, or_false] at ha
    rcases ha with rfl | rfl <;> exact hbeam

end Flame.Level
