import Verif.Cavity.Total
import Verif.Cavity.SpecArrive
import Verif.Moment.Flight

/-! # C101: time of flight along a beam line -/

namespace Flame.Cavity

open Flame.Mach (Cls St Err CView Machine propagate sizeMod Elem Run Event run visits stepNext viewEvents run_succ_none run_succ_err run_succ_ok propagate_eq)
open Flame.Linear (LVal LCfg getNum getNumD getVec)
open Flame.Moment Flame.Moment.Spec

section

variable {C X S : Type}

/-- Runs of increasing length, with the number of the element. -/
theorem run_steps_at {E : Nat → Elem C X S → Prop} {P : S → Prop} {Rel : Nat → S → S → Prop}
    (hk : ∀ j e, E j e → Keeps e.cls)
    (hstep : ∀ j e (s : St S), E j e → s.retreat = false → P s.payload → (e.cls.advance e.dat s).2.2 = none →
        P (e.cls.advance e.dat s).2.1.payload ∧ Rel j s.payload (e.cls.advance e.dat s).2.1.payload)
    (n : Nat) : ∀ (els : List (Elem C X S)) (s : St S), els.length < sizeMod → s.nextElem + n ≤ els.length →
      (∀ j e, s.nextElem ≤ j → j < s.nextElem + n → els[j]? = some e → E j e) → s.retreat = false → P s.payload →
      (run n els s).err = none →
      ∀ k ≤ n, P (run k els s).st.payload ∧
        (k < n → Rel (s.nextElem + k) (run k els s).st.payload (run (k + 1) els s).st.payload) := by
  induction n with
  | zero =>
    intro els s _ _ _ _ hP _ k hk
    obtain rfl : k = 0 := by omega
    exact ⟨hP, fun h => absurd h (by omega)⟩
  | succ n ih =>
    intro els s hl hn hE hr hP hok
    have hpay : ∀ s : St S, (stepNext s).payload = s.payload := by intro s; unfold stepNext; split <;> rfl
    have hret : ∀ s : St S, (stepNext s).retreat = s.retreat := by intro s; unfold stepNext; split <;> rfl
    cases h : els[s.nextElem]? with
    | none =>
      rw [List.getElem?_eq_none_iff] at h
      omega
    | some e =>
      have hEe := hE _ e (le_refl _) (by omega) h
      cases h3 : (e.cls.advance e.dat (stepNext s)).2.2 with
      | some x => rw [run_succ_err h h3] at hok; cases hok
      | none =>
        have g := hstep _ e (stepNext s) hEe (by rw [hret]; exact hr) (by rw [hpay]; exact hP) h3
        rw [hpay] at g
        obtain ⟨k1, k2⟩ := hk _ e hEe e.dat (stepNext s)
        have hup : (stepNext s).nextElem = s.nextElem + 1 := by
          unfold stepNext
          rw [if_neg (by rw [hr]; simp)]
          exact Nat.mod_eq_of_lt (by omega)
        rw [hup] at k1
        rw [hret, hr] at k2
        rw [run_succ_ok h h3] at hok
        have hi := ih (els.set s.nextElem { e with dat := (e.cls.advance e.dat (stepNext s)).1 })
          (e.cls.advance e.dat (stepNext s)).2.1 (by rwa [List.length_set]) (by rw [List.length_set, k1]; omega)
          (by
            intro j e' hj hj2 hj'
            rw [k1] at hj hj2
            rw [List.getElem?_set_ne (by omega)] at hj'
            exact hE j e' (by omega) (by omega) hj')
          k2 g.1 hok
        intro k hkn
        cases k with
        | zero =>
          refine ⟨hP, fun _ => ?_⟩
          rw [run_succ_ok h h3]
          exact g.2
        | succ k =>
          rw [run_succ_ok h h3]
          refine ⟨(hi k (by omega)).1, fun hlt => ?_⟩
          rw [run_succ_ok h h3]
          have := (hi k (by omega)).2 (by omega)
          rw [k1, show s.nextElem + 1 + k = s.nextElem + (k + 1) by omega] at this
          exact this

end

theorem advance_complete {env : Env} {t : MType} {d : MDat} {s : St MSt} (ht : t ≠ .source) (h0 : d.refIn = none)
    (hr : s.retreat = false) (hc : Spec.Complete s.payload) (hok : (advance env t d s).2.2 = none) :
    Spec.Complete (advance env t d s).2.1.payload :=
  (advance_part ht h0 hr hr hc hc (Part.refl _) hok).2.2.1

theorem build_fresh {env : Env} {junk : Mat} {t : MType} {c : LCfg} {d : MDat} (h : build env junk t c = .ok d) (ht : t ≠ .source) :
    fresh env d = d := by
  cases t <;> simp only [build] at h
  case source => exact absurd rfl ht
  case sbend =>
    split at h
    · simp at h
    · split at h
      · simp only [Except.ok.injEq] at h
        subst h
        rfl
      · simp at h
  all_goals
    simp only [Except.ok.injEq] at h
    subst h
    rfl

theorem phaseAdvance_add (f Es W a b : ℝ) :
    phaseAdvance f Es W (1000 * (a + b)) = phaseAdvance f Es W (1000 * a) + phaseAdvance f Es W (1000 * b) := by
  unfold phaseAdvance
  ring

theorem Arrived.refl (p : Particle) : Spec.Arrived p p 0 0 :=
  ⟨rfl, rfl, rfl, rfl, rfl, fun _ _ => by simp [phaseAdvance]⟩

theorem Arrived.trans {p q r : Particle} {a b x y : ℝ} (h1 : Spec.Arrived p q a x) (h2 : Spec.Arrived q r b y) :
    Spec.Arrived p r (a + b) (x + y) := by
  obtain ⟨a1, a2, a3, a4, a5, a6⟩ := h1
  obtain ⟨b1, b2, b3, b4, b5, b6⟩ := h2
  refine ⟨b1.trans a1, b2.trans a2, b3.trans a3, b4.trans a4, b5.trans a5, fun h0 hk => ?_⟩
  rw [b6 (by rw [a3]; exact h0) (by rw [a4]; exact hk), a6 h0 hk, a3, a4, a5, phaseAdvance_add]
  ring

theorem Arrived.of_flown {bend : Prop} [Decidable bend] {L : ℝ} {S S' : MSt} (h : Flown bend 1 L S S') :
    S'.pos = S.pos + L ∧ Spec.Arrived S.ref S'.ref L 0 ∧
    ∀ (k : Nat) (p : Particle) (v : Vec), S.real[k]? = some p → S.moment0[k]? = some v →
      ∃ p' v', S'.real[k]? = some p' ∧ S'.moment0[k]? = some v' ∧ Spec.Arrived p p' L (if bend then v' 4 - v 4 else 0) := by
  obtain ⟨h1, -, ⟨a1, a2, a3, a4, a5, -⟩, h4, h5⟩ := h
  refine ⟨by rw [h1, one_mul], ⟨a1, a2, a3, a4, a5, fun h0 hk => by rw [h4 h0 hk, one_mul, add_zero]⟩, fun k p v hp hv => ?_⟩
  obtain ⟨p', v', g1, g2, ⟨b1, b2, b3, b4, b5, -⟩, g4⟩ := h5 k p v hp hv
  exact ⟨p', v', g1, g2, b1, b2, b3, b4, b5, fun h0 hk => by rw [g4 h0 hk, one_mul]⟩

open Classical in
/-- **C101.** Time of flight along a beam line.  A machine is built from a lattice, and a beam is sent forward through `n` elements
from `start` on, none of them a source, a stripper or a cavity; `L j` is the length in the lattice of the `j`-th of them, and
`bend j` says that it is a bend.  Let `R k` be the same simulation ended after `k` elements.  If there is no exception, then behind every
element the position is the sum of the lengths, the reference particle and all charge states have the charge, mass and energy they
started with, the reference phase has advanced by the time of flight over this distance at its velocity, and the phase of each
charge state by its own time of flight, plus, in bends only, the change of its longitudinal centroid there. -/
theorem C101_arrival {env : Env} {files : Files} {junk : Mat} {base : Nat} (cv : CView LCfg) (c : LCfg)
    (m : Machine LCfg MDat MSt)
    (h : Machine.new cv (registry env junk base (cavityCls env files junk base) (stripperCls env junk base)) c = .ok m)
    (es : List LCfg) (hes : cv.elems c = .ok es) (hl : es.length < sizeMod) (start n : Nat) (hn : start + n ≤ es.length)
    (L : Nat → ℝ) (bend : Nat → Prop)
    (hu : ∀ j ec ty, j < n → es[start + j]? = some ec → cv.str ec "type" = .ok ty →
      ty ≠ "source" ∧ ty ≠ "stripper" ∧ ty ≠ "rfcavity" ∧ L j = lengthOf ty ec ∧ (bend j ↔ ty = "sbend"))
    (s : St MSt) (hc : Spec.Complete s.payload) :
    ∃ R : ℕ → Run LCfg MDat MSt, (∀ k ≤ n, propagate m.elems s start k = some (R k)) ∧ ((R n).err = none →
      ∀ k ≤ n, (R k).st.payload.pos = s.payload.pos + ∑ j ∈ Finset.range k, L j ∧
        Spec.Arrived s.payload.ref (R k).st.payload.ref (∑ j ∈ Finset.range k, L j) 0 ∧
        ∀ (i : ℕ) (p : Particle), s.payload.real[i]? = some p → ∃ (q : Particle) (v : ℕ → Vec),
          (R k).st.payload.real[i]? = some q ∧ (∀ j ≤ k, (R j).st.payload.moment0[i]? = some (v j)) ∧
          Spec.Arrived p q (∑ j ∈ Finset.range k, L j)
            (∑ j ∈ Finset.range k, if bend j then v (j + 1) 4 - v j 4 else 0)) := by
  have hF := machine_moment h hes
  have hlen := hF.length_eq
  have hall := fun j e (hj : m.elems[j]? = some e) => forall₂_get hF hj
  let E : Nat → Elem LCfg MDat MSt → Prop := fun j e => start ≤ j ∧ j < start + n ∧ m.elems[j]? = some e
  have hty' : ∀ j e, E j e → ∃ t, e.cls = cls env junk base t ∧ t ≠ .source ∧ e.dat.refIn = none ∧ fresh env e.dat = e.dat ∧
      e.dat.length = L (j - start) ∧ (bend (j - start) ↔ t = .sbend) := by
    rintro j e ⟨h1, h1', h2⟩
    have hj : start + (j - start) = j := by omega
    obtain ⟨ec, hec, ty, hty, ⟨t, ht, htn, hb⟩ | ⟨ht, rfl, hb⟩ | ⟨ht, rfl, hb⟩⟩ := hall j e h2
    · obtain ⟨u1, u2, u3, u4, u5⟩ := hu (j - start) ec ty (by omega) (by rw [hj]; exact hec) hty
      have hts : t ≠ .source := by
        rintro rfl
        exact u1 (by rw [← htn]; rfl)
      refine ⟨t, ht, hts, (build_length hb).2.2.1, build_fresh hb hts, ?_, ?_⟩
      · rw [u4, ← htn]
        exact (build_length hb).1
      · rw [u5, ← htn]
        cases t <;> simp [MType.name]
    · exact absurd rfl (hu (j - start) ec _ (by omega) (by rw [hj]; exact hec) hty).2.2.1
    · exact absurd rfl (hu (j - start) ec _ (by omega) (by rw [hj]; exact hec) hty).2.1
  have hk : ∀ j e, E j e → Keeps e.cls := by
    intro j e he
    obtain ⟨t, ht, hts, -⟩ := hty' j e he
    rw [ht]
    exact (measured_cls env junk base t hts).1
  have hstep : ∀ j e (s : St MSt), E j e → s.retreat = false → Spec.Complete s.payload → (e.cls.advance e.dat s).2.2 = none →
      Spec.Complete (e.cls.advance e.dat s).2.1.payload ∧
        Flown (bend (j - start)) 1 (L (j - start)) s.payload (e.cls.advance e.dat s).2.1.payload := by
    intro j e s he hr hP hok
    obtain ⟨t, ht, hts, hnone, hfr, hlj, hbj⟩ := hty' j e he
    rw [ht] at hok ⊢
    refine ⟨advance_complete hts hnone hr hP hok, ?_⟩
    have := C65_flight env t e.dat _ s _ hts (complete_wf hP)
      (show advance env t (fresh env e.dat) s = ((advance env t e.dat s).1, (advance env t e.dat s).2.1, none) by
        rw [hfr]; exact Prod.ext rfl (Prod.ext rfl hok))
    rw [hr, if_neg (by simp), hlj] at this
    simp only [Flown, hbj] at this ⊢
    exact this
  refine ⟨fun k => run k m.elems { s with nextElem := start, retreat := false }, fun k _ => ?_, fun hok => ?_⟩
  · rw [propagate_eq m.elems s start k (by omega)]
    have : decide ((k : Int) < 0) = false := by simp
    rw [this, Int.natAbs_natCast]
  have hs := run_steps_at (E := E) (P := Spec.Complete)
    (Rel := fun j a b => Flown (bend (j - start)) 1 (L (j - start)) a b) hk hstep n m.elems
    { s with nextElem := start, retreat := false }
    (by rw [← hlen]; exact hl) (by rw [← hlen]; exact hn) (fun j e h1 h2 h3 => ⟨h1, h2, h3⟩) rfl hc hok
  intro k
  induction k with
  | zero =>
    intro _
    refine ⟨by simp [run], by simpa [run] using Arrived.refl s.payload.ref, fun i p hp => ?_⟩
    obtain ⟨v, hv⟩ : ∃ v, s.payload.moment0[i]? = some v :=
      ⟨_, List.getElem?_eq_getElem (by rw [hc.moment0]; exact lt_of_get hp)⟩
    refine ⟨p, fun _ => v, by simpa [run] using hp, fun j hj => ?_, by simpa using Arrived.refl p⟩
    obtain rfl : j = 0 := by omega
    exact hv
  | succ k ih =>
    intro hk1
    obtain ⟨i1, i2, i3⟩ := ih (by omega)
    have st := (hs k (by omega)).2 (by omega)
    simp only [show start + k - start = k by omega] at st
    obtain ⟨f1, f2, f3⟩ := Arrived.of_flown st
    refine ⟨?_, ?_, fun i p hp => ?_⟩
    · rw [f1, i1, Finset.sum_range_succ, add_assoc]
    · rw [Finset.sum_range_succ]
      have := Arrived.trans i2 f2
      rwa [add_zero] at this
    · obtain ⟨q, v, q1, q2, q3⟩ := i3 i p hp
      obtain ⟨q', v', g1, g2, g3⟩ := f3 i q (v k) q1 (q2 k (le_refl _))
      refine ⟨q', fun j => if j = k + 1 then v' else v j, g1, fun j hj => ?_, ?_⟩
      · dsimp only
        split
        · rename_i e; rw [e]; exact g2
        · exact q2 j (by omega)
      · rw [Finset.sum_range_succ, Finset.sum_range_succ]
        have := Arrived.trans q3 g3
        simp only [if_true, if_neg (by omega : k ≠ k + 1)]
        refine (congrArg (fun x => Spec.Arrived p q' (∑ j ∈ Finset.range k, L j + L k) (x + if bend k then v' 4 - v k 4 else 0)) ?_).mp this
        refine Finset.sum_congr rfl (fun j hj => ?_)
        have := Finset.mem_range.1 hj
        rw [if_neg (by omega : j + 1 ≠ k + 1), if_neg (by omega : j ≠ k + 1)]

/-- A drift and a bend. -/
noncomputable def exArcView : CView LCfg where
  str c k := match c k with
    | some (.str x) => .ok x
    | _ => .error .keyError
  elems _ := .ok [fun k => if k = "type" then some (.str "drift") else if k = "name" then some (.str "d")
      else if k = "L" then some (.num 1) else none,
    fun k => if k = "type" then some (.str "sbend") else if k = "name" then some (.str "b")
      else if k = "L" then some (.num 2) else if k = "phi" then some (.num 45) else none]

/-- The hypotheses of `C101_arrival` are met by a drift of 1 m and a bend of 2 m, for a beam of two charge states. -/
example (env : Env) (junk : Mat) : ∃ m es, Machine.new exArcView
      (registry env junk 0 (cavityCls env exFiles junk 0) (stripperCls env junk 0))
      (fun k => if k = "sim_type" then some (.str "MomentMatrix") else none) = .ok m ∧
    exArcView.elems (fun k => if k = "sim_type" then some (.str "MomentMatrix") else none) = .ok es ∧ 0 + 2 ≤ es.length ∧
    (∀ (j : Nat) ec ty, j < 2 → es[0 + j]? = some ec → exArcView.str ec "type" = .ok ty →
      ty ≠ "source" ∧ ty ≠ "stripper" ∧ ty ≠ "rfcavity" ∧ ((j : ℝ) + 1) = lengthOf ty ec ∧ (j = 1 ↔ ty = "sbend")) ∧
    Spec.Complete exOnAxis.payload := by
  obtain ⟨hk, hreg⟩ := registered_shipped env junk 0 (cavityCls env exFiles junk 0) (stripperCls env junk 0)
  obtain ⟨d, hd⟩ : ∃ d, (cls env junk 0 .sbend).build (fun k => if k = "type" then some (.str "sbend")
      else if k = "name" then some (.str "b") else if k = "L" then some (.num 2) else if k = "phi" then some (.num 45) else none) =
      .ok d := by
    have h1 : asUnsigned 1 = .ok 1 := by norm_num [asUnsigned]
    simp [cls, build, getFlag, getStr, getNum, h1]
  obtain ⟨m, hm⟩ := (Flame.Mach.C18_success_iff exArcView
    (registry env junk 0 (cavityCls env exFiles junk 0) (stripperCls env junk 0))
    (fun k => if k = "sim_type" then some (.str "MomentMatrix") else none)).2 ⟨"MomentMatrix", _, rfl, hk, rfl, by
      simp only [List.mem_cons, List.not_mem_nil, or_false, forall_eq_or_imp, forall_eq]
      exact ⟨⟨"drift", _, "d", _, rfl, hreg _ _ rfl, rfl, rfl, rfl⟩, ⟨"sbend", _, "b", d, rfl, hreg _ _ rfl, rfl, rfl, hd⟩⟩⟩
  refine ⟨m, _, hm, rfl, by simp, ?_, ⟨rfl, rfl, rfl⟩⟩
  intro j ec ty _ hj hty
  match j, hj with
  | 0, hj =>
    cases hj
    cases hty
    refine ⟨by decide, by decide, by decide, ?_, by simp⟩
    simp [lengthOf]
  | 1, hj =>
    cases hj
    cases hty
    refine ⟨by decide, by decide, by decide, ?_, by simp⟩
    simp [lengthOf]
    norm_num

end Flame.Cavity
