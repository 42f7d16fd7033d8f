import Verif.Cavity.Total
import Verif.Cavity.SpecSplit
import Verif.Moment.Halves

/-! # C87: cutting a straight element in two changes nothing

Two runs, of the lattice and of the one with the parts, are related step by step; the elements do not look at the matrices that the
element before them has left in the state. -/

namespace Flame.Cavity

open Flame.Mach (Cls St Err CView Machine propagate sizeMod Elem Run Event run visits stepNext viewEvents run_succ_none run_succ_err run_succ_ok propagate_eq)
open Flame.Linear (LVal LCfg getNum getNumD getVec)
open Flame.Moment Flame.Moment.Spec
open Spec (SameBeam)

/-! ## two runs, one of which has an element more -/

section

variable {C X S : Type}

/-- Two elements do the same with states related by `R`. -/
def Matched (R : S → S → Prop) (e e' : Elem C X S) : Prop :=
  Keeps e.cls ∧ Keeps e'.cls ∧ ∀ s s' : St S, s.retreat = false → s'.retreat = false → R s.payload s'.payload →
    ((e.cls.advance e.dat s).2.2 = none ↔ (e'.cls.advance e'.dat s').2.2 = none) ∧
    ((e.cls.advance e.dat s).2.2 = none → R (e.cls.advance e.dat s).2.1.payload (e'.cls.advance e'.dat s').2.1.payload)

/-- Two elements `a` and `b` do together what `e` does. -/
def Together (R : S → S → Prop) (e a b : Elem C X S) : Prop :=
  Keeps e.cls ∧ Keeps a.cls ∧ Keeps b.cls ∧ ∀ s s' s'' : St S, s.retreat = false → s'.retreat = false → s''.retreat = false →
    R s.payload s'.payload → s''.payload = (a.cls.advance a.dat s').2.1.payload →
    ((e.cls.advance e.dat s).2.2 = none ↔ (a.cls.advance a.dat s').2.2 = none ∧ (b.cls.advance b.dat s'').2.2 = none) ∧
    ((e.cls.advance e.dat s).2.2 = none → R (e.cls.advance e.dat s).2.1.payload (b.cls.advance b.dat s'').2.1.payload)

theorem stepNext_fields (s : St S) (hr : s.retreat = false) (h : s.nextElem + 1 < sizeMod) :
    (stepNext s).payload = s.payload ∧ (stepNext s).retreat = false ∧ (stepNext s).nextElem = s.nextElem + 1 := by
  unfold stepNext
  rw [if_neg (by rw [hr]; simp)]
  exact ⟨rfl, hr, Nat.mod_eq_of_lt h⟩

theorem run_matched {R : S → S → Prop} (n : Nat) : ∀ (els els' : List (Elem C X S)) (s s' : St S), els.length < sizeMod →
    els'.length < sizeMod → s.retreat = false → s'.retreat = false → R s.payload s'.payload →
    (∀ j < n, ∃ e e', els[s.nextElem + j]? = some e ∧ els'[s'.nextElem + j]? = some e' ∧ Matched R e e') →
    ((run n els s).err = none ↔ (run n els' s').err = none) ∧
      ((run n els s).err = none → R (run n els s).st.payload (run n els' s').st.payload) := by
  induction n with
  | zero => exact fun els els' s s' _ _ _ _ hR _ => ⟨Iff.rfl, fun _ => hR⟩
  | succ n ih =>
    intro els els' s s' hl hl' hr hr' hR hE
    obtain ⟨e, e', he, he', k1, k2, k3⟩ := hE 0 (by omega)
    rw [add_zero] at he he'
    obtain ⟨p1, p2, p3⟩ := stepNext_fields s hr (by have := lt_of_get he; omega)
    obtain ⟨q1, q2, q3⟩ := stepNext_fields s' hr' (by have := lt_of_get he'; omega)
    obtain ⟨g1, g2⟩ := k3 (stepNext s) (stepNext s') p2 q2 (by rw [p1, q1]; exact hR)
    obtain ⟨a1, a2⟩ := k1 e.dat (stepNext s)
    obtain ⟨b1, b2⟩ := k2 e'.dat (stepNext s')
    cases h3 : (e.cls.advance e.dat (stepNext s)).2.2 with
    | some x =>
      cases h4 : (e'.cls.advance e'.dat (stepNext s')).2.2 with
      | none => rw [h3, h4] at g1; cases g1.2 rfl
      | some y =>
        rw [run_succ_err he h3, run_succ_err he' h4]
        exact ⟨⟨nofun, nofun⟩, nofun⟩
    | none =>
      have h4 := g1.1 h3
      rw [run_succ_ok he h3, run_succ_ok he' h4]
      refine ih _ _ _ _ (by rwa [List.length_set]) (by rwa [List.length_set]) (by rw [a2, p2]) (by rw [b2, q2]) (g2 h3) ?_
      intro j hj
      rw [a1, p3, b1, q3, List.getElem?_set_ne (by omega), List.getElem?_set_ne (by omega)]
      have := hE (j + 1) (by omega)
      rwa [show s.nextElem + (j + 1) = s.nextElem + 1 + j by omega, show s'.nextElem + (j + 1) = s'.nextElem + 1 + j by omega] at this

theorem run_together {R : S → S → Prop} (l : Nat) (k : Nat) : ∀ (els els' : List (Elem C X S)) (s s' : St S), els.length < sizeMod →
    els'.length < sizeMod → s.retreat = false → s'.retreat = false → R s.payload s'.payload →
    (∀ j < k, ∃ e e', els[s.nextElem + j]? = some e ∧ els'[s'.nextElem + j]? = some e' ∧ Matched R e e') →
    (∃ e a b, els[s.nextElem + k]? = some e ∧ els'[s'.nextElem + k]? = some a ∧ els'[s'.nextElem + (k + 1)]? = some b ∧
      Together R e a b) →
    (∀ j < l, ∃ e e', els[s.nextElem + (k + 1 + j)]? = some e ∧ els'[s'.nextElem + (k + 2 + j)]? = some e' ∧ Matched R e e') →
    ((run (k + 1 + l) els s).err = none ↔ (run (k + 2 + l) els' s').err = none) ∧
      ((run (k + 1 + l) els s).err = none → R (run (k + 1 + l) els s).st.payload (run (k + 2 + l) els' s').st.payload) := by
  induction k with
  | zero =>
    intro els els' s s' hl hl' hr hr' hR _ hC hE
    obtain ⟨e, a, b, he, ha, hb, k1, k2, k2', k3⟩ := hC
    rw [add_zero] at he ha
    rw [zero_add] at hb
    obtain ⟨p1, p2, p3⟩ := stepNext_fields s hr (by have := lt_of_get he; omega)
    obtain ⟨q1, q2, q3⟩ := stepNext_fields s' hr' (by have := lt_of_get ha; omega)
    obtain ⟨a1, a2⟩ := k1 e.dat (stepNext s)
    obtain ⟨b1, b2⟩ := k2 a.dat (stepNext s')
    rw [show 0 + 1 + l = l + 1 by omega, show 0 + 2 + l = l + 1 + 1 by omega]
    have hb' : (els'.set s'.nextElem { a with dat := (a.cls.advance a.dat (stepNext s')).1 })[(a.cls.advance a.dat
        (stepNext s')).2.1.nextElem]? = some b := by
      rw [b1, q3, List.getElem?_set_ne (by omega)]
      exact hb
    obtain ⟨r1, r2, r3⟩ := stepNext_fields (a.cls.advance a.dat (stepNext s')).2.1 (by rw [b2, q2])
      (by rw [b1, q3]; have := lt_of_get hb; omega)
    obtain ⟨c1, c2⟩ := k2' b.dat (stepNext (a.cls.advance a.dat (stepNext s')).2.1)
    obtain ⟨g1, g2⟩ := k3 (stepNext s) (stepNext s') (stepNext (a.cls.advance a.dat (stepNext s')).2.1) p2 q2 r2
      (by rw [p1, q1]; exact hR) r1
    cases h4 : (a.cls.advance a.dat (stepNext s')).2.2 with
    | some y =>
      rw [run_succ_err ha h4]
      cases h3 : (e.cls.advance e.dat (stepNext s)).2.2 with
      | none =>
        have := (g1.1 h3).1
        rw [h4] at this
        cases this
      | some x =>
        rw [run_succ_err he h3]
        exact ⟨⟨nofun, nofun⟩, nofun⟩
    | none =>
      rw [run_succ_ok ha h4]
      dsimp only
      cases h5 : (b.cls.advance b.dat (stepNext (a.cls.advance a.dat (stepNext s')).2.1)).2.2 with
      | some y =>
        rw [run_succ_err hb' h5]
        cases h3 : (e.cls.advance e.dat (stepNext s)).2.2 with
        | none =>
          have := (g1.1 h3).2
          rw [h5] at this
          cases this
        | some x =>
          rw [run_succ_err he h3]
          exact ⟨⟨nofun, nofun⟩, nofun⟩
      | none =>
        have h3 := g1.2 ⟨h4, h5⟩
        rw [run_succ_ok hb' h5, run_succ_ok he h3]
        refine run_matched (R := R) l _ _ _ _ (by rwa [List.length_set]) (by rwa [List.length_set, List.length_set])
          (by rw [a2, p2]) (by rw [c2, r2]) (g2 h3) ?_
        intro j hj
        rw [a1, p3, c1, r3, b1, q3, List.getElem?_set_ne (by omega), List.getElem?_set_ne (by omega),
          List.getElem?_set_ne (by omega)]
        have := hE j hj
        rwa [show s.nextElem + (0 + 1 + j) = s.nextElem + 1 + j by omega,
          show s'.nextElem + (0 + 2 + j) = s'.nextElem + 1 + 1 + j by omega] at this
  | succ k ih =>
    intro els els' s s' hl hl' hr hr' hR hM hC hE
    obtain ⟨e, e', he, he', k1, k2, k3⟩ := hM 0 (by omega)
    rw [add_zero] at he he'
    obtain ⟨p1, p2, p3⟩ := stepNext_fields s hr (by have := lt_of_get he; omega)
    obtain ⟨q1, q2, q3⟩ := stepNext_fields s' hr' (by have := lt_of_get he'; omega)
    obtain ⟨g1, g2⟩ := k3 (stepNext s) (stepNext s') p2 q2 (by rw [p1, q1]; exact hR)
    obtain ⟨a1, a2⟩ := k1 e.dat (stepNext s)
    obtain ⟨b1, b2⟩ := k2 e'.dat (stepNext s')
    rw [show k + 1 + 1 + l = k + 1 + l + 1 by omega, show k + 1 + 2 + l = k + 2 + l + 1 by omega]
    cases h3 : (e.cls.advance e.dat (stepNext s)).2.2 with
    | some x =>
      cases h4 : (e'.cls.advance e'.dat (stepNext s')).2.2 with
      | none => rw [h3, h4] at g1; cases g1.2 rfl
      | some y =>
        rw [run_succ_err he h3, run_succ_err he' h4]
        exact ⟨⟨nofun, nofun⟩, nofun⟩
    | none =>
      have h4 := g1.1 h3
      rw [run_succ_ok he h3, run_succ_ok he' h4]
      refine ih _ _ _ _ (by rwa [List.length_set]) (by rwa [List.length_set]) (by rw [a2, p2]) (by rw [b2, q2]) (g2 h3) ?_ ?_ ?_
      · intro j hj
        rw [a1, p3, b1, q3, List.getElem?_set_ne (by omega), List.getElem?_set_ne (by omega)]
        have := hM (j + 1) (by omega)
        rwa [show s.nextElem + (j + 1) = s.nextElem + 1 + j by omega,
          show s'.nextElem + (j + 1) = s'.nextElem + 1 + j by omega] at this
      · rw [a1, p3, b1, q3, List.getElem?_set_ne (by omega), List.getElem?_set_ne (by omega), List.getElem?_set_ne (by omega)]
        rwa [show s.nextElem + (k + 1) = s.nextElem + 1 + k by omega, show s'.nextElem + (k + 1) = s'.nextElem + 1 + k by omega,
          show s'.nextElem + (k + 1 + 1) = s'.nextElem + 1 + (k + 1) by omega] at hC
      · intro j hj
        rw [a1, p3, b1, q3, List.getElem?_set_ne (by omega), List.getElem?_set_ne (by omega)]
        have := hE j hj
        rwa [show s.nextElem + (k + 1 + 1 + j) = s.nextElem + 1 + (k + 1 + j) by omega,
          show s'.nextElem + (k + 1 + 2 + j) = s'.nextElem + 1 + (k + 2 + j) by omega] at this

end

/-! ## elements do not look at the matrices in the state -/

theorem SameBeam.refl (S : MSt) : SameBeam S S := rfl

theorem sameBeam_iff {S S' : MSt} : SameBeam S S' ↔ ∃ X, S' = { S with transmat := X } :=
  ⟨fun h => ⟨_, h⟩, fun ⟨X, h⟩ => by subst h; rfl⟩

/-- What is to be shown of one element: the results agree. -/
def Blind (f : St MSt → MDat × St MSt × Option Err) : Prop :=
  ∀ (k k' : Nat) (P : MSt) (Y : List Mat), (f ⟨k', false, { P with transmat := Y }⟩).2.2 = (f ⟨k, false, P⟩).2.2 ∧
    ((f ⟨k, false, P⟩).2.2 = none → SameBeam (f ⟨k, false, P⟩).2.1.payload (f ⟨k', false, { P with transmat := Y }⟩).2.1.payload)

theorem base_blind (rec : MDat → Particle → List Particle → Except Err (List Mat)) (d : MDat) : Blind (advanceBase rec d) := by
  intro k k' P Y
  unfold advanceBase
  dsimp only
  have e2 : MSt.recalc { P with transmat := Y } = { P.recalc with transmat := Y } := rfl
  rw [e2]
  generalize hq : particles rec (fun p => p.drifted false d.length) d { P.recalc with transmat := Y } _ = q
  have hq' : particles rec (fun p => p.drifted false d.length) d P.recalc (@decide (hit d P.recalc) (Classical.propDecidable _)) = q := hq
  rw [hq']
  clear hq hq' e2
  obtain ⟨d', e | ⟨ref, real⟩⟩ := q
  · exact ⟨rfl, nofun⟩
  · exact ⟨rfl, fun _ => rfl⟩

theorem bend_blind (rec : MDat → Particle → List Particle → Except Err (List Mat)) (d : MDat) : Blind (advanceBend rec d) := by
  intro k k' P Y
  unfold advanceBend
  dsimp only
  have e2 : MSt.recalc { P with transmat := Y } = { P.recalc with transmat := Y } := rfl
  rw [e2]
  generalize hq : particles rec id d { P.recalc with transmat := Y } _ = q
  have hq' : particles rec id d P.recalc (@decide (hit d P.recalc) (Classical.propDecidable _)) = q := hq
  rw [hq']
  clear hq hq' e2
  obtain ⟨d', e | ⟨ref, real⟩⟩ := q
  · exact ⟨rfl, nofun⟩
  · exact ⟨rfl, fun _ => rfl⟩

theorem sext_blind (d : MDat) : Blind (advanceSext d) := by
  intro k k' P Y
  unfold advanceSext
  cases getNum d.conf "B3" with
  | error e => exact ⟨rfl, nofun⟩
  | ok B3 =>
    cases getNum d.conf "L" with
    | error e => exact ⟨rfl, nofun⟩
    | ok L0 =>
      dsimp only
      have e2 : MSt.recalc { P with transmat := Y } = { P.recalc with transmat := Y } := rfl
      rw [e2]
      dsimp only
      simp only [Bool.false_eq_true, if_false]
      split
      · exact ⟨rfl, nofun⟩
      · exact ⟨rfl, fun _ => rfl⟩

theorem source_blind (d : MDat) : Blind (advanceSource d) := by
  intro k k' P Y
  unfold advanceSource
  split
  · exact ⟨rfl, fun _ => rfl⟩
  · exact ⟨rfl, fun _ => rfl⟩

theorem advance_blind (env : Env) (t : MType) (d : MDat) : Blind (advance env t d) := by
  cases t with
  | source => exact source_blind d
  | sbend => exact bend_blind _ d
  | sextupole => exact sext_blind d
  | _ => exact base_blind _ d

theorem stripperGetMat_blind (c : LCfg) (S : MSt) (Y : List Mat) :
    stripperGetMat c { S with transmat := Y } = stripperGetMat c S := by
  have hs : ∀ f chg n, stripped f chg n { S with transmat := Y } = stripped f chg n S := fun _ _ _ => rfl
  unfold stripperGetMat
  simp only [hs]

theorem stripper_blind (d : MDat) : Blind (advanceStripper d) := by
  intro k k' P Y
  unfold advanceStripper
  dsimp only
  simp only [Bool.false_eq_true, if_false]
  have e2 : (MSt.recalc { P with transmat := Y }).calcRms = { P.recalc.calcRms with transmat := Y } := rfl
  rw [e2, stripperGetMat_blind]
  cases stripperGetMat d.conf P.recalc.calcRms with
  | error e => exact ⟨rfl, nofun⟩
  | ok S => exact ⟨rfl, fun _ => rfl⟩

theorem cavity_blind (env : Env) (files : Files) (d : MDat) : Blind (advanceCavity env files d) := by
  intro k k' P Y
  unfold advanceCavity
  cases d.cav with
  | none => exact ⟨rfl, nofun⟩
  | some cav =>
    dsimp only
    have e2 : MSt.recalc { P with transmat := Y } = { P.recalc with transmat := Y } := rfl
    rw [e2]
    generalize P.recalc = S
    simp only [Bool.false_eq_true, if_false]
    have eh : hit d { S with transmat := Y } ↔ hit d S := Iff.rfl
    by_cases hh : hit d S
    · rw [if_pos hh, if_pos (eh.2 hh)]
      exact ⟨rfl, fun _ => rfl⟩
    · rw [if_neg hh, if_neg (fun h => hh (eh.1 h))]
      split
      · exact ⟨rfl, nofun⟩
      · split
        · exact ⟨rfl, nofun⟩
        · split
          · exact ⟨rfl, nofun⟩
          · exact ⟨rfl, fun _ => rfl⟩

theorem Blind.matched {e e' : Elem LCfg MDat MSt} (hc : e'.cls = e.cls) (hd : e'.dat = e.dat) (hk : Keeps e.cls)
    (hb : Blind (e.cls.advance e.dat)) : Matched SameBeam e e' := by
  refine ⟨hk, hc ▸ hk, ?_⟩
  rintro ⟨k, b, P⟩ ⟨k', b', P'⟩ hr hr' hR
  obtain rfl : b = false := hr
  obtain rfl : b' = false := hr'
  obtain ⟨Y, rfl⟩ := sameBeam_iff.1 hR
  rw [hc, hd]
  obtain ⟨h1, h2⟩ := hb k k' P Y
  exact ⟨by rw [h1], h2⟩

/-! ## the parts of an element -/

theorem forward_chain {T T1 T2 : List Mat} {S0 S1 : MSt}
    (hT : List.Forall₂ (fun B (q : Mat × Mat) => B = q.2 * q.1) T (T1.zip T2)) (h1 : T1.length = T.length)
    (h2 : T2.length = T.length) :
    List.zipWith (fun M v => M.mulVec v) T S0.moment0 =
      List.zipWith (fun M v => M.mulVec v) T2 (List.zipWith (fun M v => M.mulVec v) T1 S0.moment0) ∧
    List.zipWith congr T S1.moment1 = List.zipWith congr T2 (List.zipWith congr T1 S1.moment1) := by
  generalize S0.moment0 = vs
  generalize S1.moment1 = Ss
  clear S0 S1
  induction T generalizing T1 T2 vs Ss with
  | nil =>
    obtain rfl := List.length_eq_zero_iff.1 h2
    simp
  | cons A T ih =>
    obtain ⟨A1, T1, rfl⟩ := List.exists_cons_of_length_eq_add_one h1
    obtain ⟨A2, T2, rfl⟩ := List.exists_cons_of_length_eq_add_one h2
    rw [List.zip_cons_cons] at hT
    cases hT with
    | cons hA hT =>
      constructor
      · cases vs with
        | nil => simp
        | cons v vs =>
          have := (ih hT (by simpa using h1) (by simpa using h2) vs Ss).1
          simp only [List.zipWith_cons_cons, List.cons.injEq]
          exact ⟨by rw [hA, Matrix.mulVec_mulVec], this⟩
      · cases Ss with
        | nil => simp
        | cons M Ss =>
          have := (ih hT (by simpa using h1) (by simpa using h2) vs Ss).2
          simp only [List.zipWith_cons_cons, List.cons.injEq]
          refine ⟨?_, this⟩
          rw [hA]
          dsimp only
          unfold Moment.congr
          rw [Matrix.transpose_mul]
          simp only [Matrix.mul_assoc]

theorem drifted_add (p : Particle) (x y : ℝ) : ((p.recalc.drifted false x).recalc.recalc).drifted false y =
    p.recalc.drifted false (x + y) := by
  have : (p.recalc.drifted false x).recalc.recalc = p.recalc.drifted false x := rfl
  rw [this]
  unfold Particle.drifted
  dsimp only
  congr 1
  ring

theorem base_together {env : Env} {t : MType} {d a b : MDat} {x y : ℝ} (hd : d.refIn = none ∧ a.refIn = none ∧ b.refIn = none)
    (hlen : a.length = x ∧ b.length = y ∧ d.length = x + y)
    (hc : ∀ ref real, Chain (recompute env t d ref real) (recompute env t a ref real) (recompute env t b ref real))
    (s s' s'' : St MSt) (hr : s.retreat = false) (hr' : s'.retreat = false) (hr'' : s''.retreat = false)
    (hR : SameBeam s.payload s'.payload) (hs : s''.payload = (advanceBase (recompute env t) a s').2.1.payload) :
    ((advanceBase (recompute env t) d s).2.2 = none ↔ (advanceBase (recompute env t) a s').2.2 = none ∧
      (advanceBase (recompute env t) b s'').2.2 = none) ∧
    ((advanceBase (recompute env t) d s).2.2 = none →
      SameBeam (advanceBase (recompute env t) d s).2.1.payload (advanceBase (recompute env t) b s'').2.1.payload) := by
  have hca := fun d a b c e f => recompute_cached env t d a b c e f
  have e0 := advanceBase_first hca hd.1 hr
  have e1 := advanceBase_first hca hd.2.1 hr'
  have e2 := advanceBase_first hca hd.2.2 hr''
  rw [hs] at e2
  clear hs
  obtain ⟨Y, hY⟩ := sameBeam_iff.1 hR
  rw [hY] at e1
  have e3 : MSt.recalc { s.payload with transmat := Y } = { s.payload.recalc with transmat := Y } := rfl
  rw [e3] at e1
  generalize hS : s.payload.recalc = S at e0 e1
  have hrr : S.ref.recalc = S.ref := by rw [← hS]; rfl
  have hrl : S.real.map Particle.recalc = S.real := by rw [← hS]; simp [MSt.recalc]; intros; rfl
  clear e3 hY hR
  dsimp only at e1
  cases hT1 : recompute env t a S.ref S.real with
  | error x =>
    rw [hT1] at e1
    have f1 := congrArg Prod.fst e1
    dsimp only at f1
    rw [f1]
    cases hT : recompute env t d S.ref S.real with
    | error z =>
      rw [hT] at e0
      have f0 := congrArg Prod.fst e0
      dsimp only at f0
      rw [f0]
      exact ⟨⟨nofun, fun h => nomatch h.1⟩, nofun⟩
    | ok T =>
      obtain ⟨T1, T2, h1, -⟩ := (hc S.ref S.real).1 T hT
      rw [hT1] at h1
      cases h1
  | ok T1 =>
    rw [hT1] at e1
    have f1 := congrArg Prod.fst e1
    have g1 := congrArg Prod.snd e1
    dsimp only at f1 g1
    rw [g1] at e2
    rw [f1]
    have hph : recompute env t b (S.ref.recalc.drifted false a.length) (S.real.map (fun p => p.recalc.drifted false a.length)) =
        recompute env t b S.ref S.real := by
      refine recompute_ph env t b ⟨_, by rw [hrr]; rfl⟩ ?_
      conv => arg 2; rw [← hrl]
      rw [List.forall₂_map_left_iff, List.forall₂_map_right_iff, List.forall₂_same]
      exact fun p _ => ⟨_, rfl⟩
    generalize hS1 : ((forward T1 { S with
      ref := S.ref.recalc.drifted false a.length
      real := S.real.map (fun p => p.recalc.drifted false a.length)
      pos := S.pos + sign false * a.length }).calcRms) = S1 at g1
    have hS1' : (forward T1
        { pos := S.pos + sign false * a.length, ref := S.ref.recalc.drifted false a.length
          real := S.real.map (fun p => p.recalc.drifted false a.length), moment0 := S.moment0, moment1 := S.moment1
          transmat := Y, moment0_env := S.moment0_env, moment0_rms := S.moment0_rms, moment1_env := S.moment1_env
          last_caviphi0 := S.last_caviphi0 }).calcRms = S1 := hS1
    rw [hS1'] at e2
    have hk : S1.recalc = S1 := by
      rw [← hS1]
      unfold MSt.recalc MSt.calcRms forward
      dsimp only
      rw [List.map_map]
      rfl
    rw [hk] at e2
    have k1 : S1.ref = S.ref.recalc.drifted false a.length := by rw [← hS1]; rfl
    have k2 : S1.real = S.real.map (fun p => p.recalc.drifted false a.length) := by rw [← hS1]; rfl
    rw [k1, k2, hph] at e2
    cases hT2 : recompute env t b S.ref S.real with
    | error w =>
      rw [hT2] at e2
      have f2 := congrArg Prod.fst e2
      dsimp only at f2
      rw [f2]
      cases hT : recompute env t d S.ref S.real with
      | error z =>
        rw [hT] at e0
        have f0 := congrArg Prod.fst e0
        dsimp only at f0
        rw [f0]
        exact ⟨⟨nofun, fun h => nomatch h.2⟩, nofun⟩
      | ok T =>
        obtain ⟨T1, T2, -, h2, -⟩ := (hc S.ref S.real).1 T hT
        rw [hT2] at h2
        cases h2
    | ok T2 =>
      rw [hT2] at e2
      obtain ⟨T, hT⟩ := (hc S.ref S.real).2 T1 T2 hT1 hT2
      obtain ⟨T1', T2', h1, h2, hz, z1, z2⟩ := (hc S.ref S.real).1 T hT
      rw [hT1] at h1
      rw [hT2] at h2
      cases h1
      cases h2
      rw [hT] at e0
      have f0 := congrArg Prod.fst e0
      have g0 := congrArg Prod.snd e0
      have f2 := congrArg Prod.fst e2
      have g2 := congrArg Prod.snd e2
      dsimp only at f0 g0 f2 g2
      rw [f0, f2]
      refine ⟨by simp, fun _ => ?_⟩
      rw [g0, g2]
      have m0 : S1.moment0 = List.zipWith (fun M v => M.mulVec v) T1 S.moment0 := by rw [← hS1]; rfl
      have m1 : S1.moment1 = List.zipWith Moment.congr T1 S.moment1 := by rw [← hS1]; rfl
      have m2 : S1.pos = S.pos + sign false * a.length := by rw [← hS1]; rfl
      have m3 : S1.last_caviphi0 = S.last_caviphi0 := by rw [← hS1]; rfl
      obtain ⟨w0, w1⟩ := forward_chain (S0 := S) (S1 := S) hz z1 z2
      have hreal : (List.map (fun p => p.recalc.drifted false b.length) (S.real.map (fun p => p.recalc.drifted false a.length))) =
          S.real.map (fun p => p.recalc.drifted false d.length) := by
        rw [List.map_map, hlen.1, hlen.2.1, hlen.2.2]
        exact List.map_congr_left fun p _ => drifted_add p x y
      have href : (S.ref.recalc.drifted false a.length).recalc.drifted false b.length = S.ref.recalc.drifted false d.length := by
        rw [hlen.1, hlen.2.1, hlen.2.2]
        exact drifted_add S.ref x y
      have hpos : S.pos + sign false * a.length + sign false * b.length = S.pos + sign false * d.length := by
        rw [hlen.1, hlen.2.1, hlen.2.2]
        ring
      unfold forward
      dsimp only
      rw [hreal, href, m2, hpos, m0, m1, m3, ← w0, ← w1]
      rfl

/-! ## C87 -/

theorem source_keeps (env : Env) (junk : Mat) (base : Nat) : Keeps (cls env junk base .source) := by
  intro d s
  show (advanceSource d s).2.1.nextElem = _ ∧ (advanceSource d s).2.1.retreat = _
  unfold advanceSource
  split
  · exact ⟨rfl, rfl⟩
  · split
    · exact ⟨rfl, rfl⟩
    · exact ⟨rfl, rfl⟩

theorem name_inj {t u : MType} (h : t.name = u.name) : t = u := by
  cases t <;> cases u <;> first | rfl | exact absurd h (by decide)

theorem name_ne (t : MType) : t.name ≠ "rfcavity" ∧ t.name ≠ "stripper" := by
  cases t <;> exact ⟨by decide, by decide⟩

/-- What an element of a machine is made from. -/
def MadeFrom (env : Env) (files : Files) (junk : Mat) (base : Nat) (cv : CView LCfg) (ec : LCfg) (e : Elem LCfg MDat MSt) : Prop :=
  ∃ ty, cv.str ec "type" = .ok ty ∧
      ((∃ t : MType, e.cls = cls env junk base t ∧ t.name = ty ∧ build env junk t ec = .ok e.dat) ∨
       (e.cls = cavityCls env files junk base ∧ ty = "rfcavity" ∧ (cavityCls env files junk base).build ec = .ok e.dat) ∨
       (e.cls = stripperCls env junk base ∧ ty = "stripper" ∧ (stripperCls env junk base).build ec = .ok e.dat))

theorem MadeFrom.same {env : Env} {files : Files} {junk : Mat} {base : Nat} {cv : CView LCfg} {ec : LCfg}
    {e e' : Elem LCfg MDat MSt} (h : MadeFrom env files junk base cv ec e) (h' : MadeFrom env files junk base cv ec e') :
    e'.cls = e.cls ∧ e'.dat = e.dat := by
  obtain ⟨ty, hty, h⟩ := h
  obtain ⟨ty', hty', h'⟩ := h'
  rw [hty] at hty'
  cases hty'
  rcases h with ⟨t, c1, c2, c3⟩ | ⟨c1, rfl, c3⟩ | ⟨c1, rfl, c3⟩
  · subst c2
    rcases h' with ⟨u, k1, k2, k3⟩ | ⟨k1, k2, k3⟩ | ⟨k1, k2, k3⟩
    · obtain rfl := name_inj k2
      rw [c3] at k3
      exact ⟨k1.trans c1.symm, (Except.ok.inj k3).symm⟩
    · exact absurd k2 (name_ne t).1
    · exact absurd k2 (name_ne t).2
  · rcases h' with ⟨u, k1, k2, k3⟩ | ⟨k1, k2, k3⟩ | ⟨k1, k2, k3⟩
    · exact absurd k2 (name_ne u).1
    · rw [c3] at k3
      exact ⟨k1.trans c1.symm, (Except.ok.inj k3).symm⟩
    · exact absurd k2 (by decide)
  · rcases h' with ⟨u, k1, k2, k3⟩ | ⟨k1, k2, k3⟩ | ⟨k1, k2, k3⟩
    · exact absurd k2 (name_ne u).2
    · exact absurd k2 (by decide)
    · rw [c3] at k3
      exact ⟨k1.trans c1.symm, (Except.ok.inj k3).symm⟩

theorem MadeFrom.keeps {env : Env} {files : Files} {junk : Mat} {base : Nat} {cv : CView LCfg} {ec : LCfg}
    {e : Elem LCfg MDat MSt} (h : MadeFrom env files junk base cv ec e) : Keeps e.cls ∧ Blind (e.cls.advance e.dat) := by
  obtain ⟨ty, -, ⟨t, c1, -, -⟩ | ⟨c1, -, c3⟩ | ⟨c1, -, c3⟩⟩ := h
  · rw [c1]
    refine ⟨?_, advance_blind env t _⟩
    by_cases ht : t = .source
    · subst ht
      exact source_keeps env junk base
    · exact (measured_cls env junk base t ht).1
  · rw [c1]
    exact ⟨(measured_cavity env files junk base _ _ c3).2.1, cavity_blind env files _⟩
  · rw [c1]
    exact ⟨(measured_stripper env junk base _ _ c3).2.1, stripper_blind _⟩

theorem MadeFrom.matched {env : Env} {files : Files} {junk : Mat} {base : Nat} {cv : CView LCfg} {ec : LCfg}
    {e e' : Elem LCfg MDat MSt} (h : MadeFrom env files junk base cv ec e) (h' : MadeFrom env files junk base cv ec e') :
    Matched SameBeam e e' :=
  Blind.matched (h.same h').1 (h.same h').2 h.keeps.1 h.keeps.2

theorem build_place {env : Env} {junk : Mat} {t : MType} {c : LCfg} {d : MDat} (h : build env junk t c = .ok d)
    (ht : t = .quadrupole ∨ t = .solenoid ∨ t = .equad) : d.dx = numOr c "dx" 0 * MtoMM ∧ d.dy = numOr c "dy" 0 * MtoMM ∧
      d.pitch = numOr c "pitch" 0 ∧ d.yaw = numOr c "yaw" 0 ∧ d.roll = numOr c "roll" 0 := by
  rcases ht with rfl | rfl | rfl <;> (simp only [build] at h; cases h; exact ⟨rfl, rfl, rfl, rfl, rfl⟩)

theorem halves_together {env : Env} {files : Files} {junk : Mat} {base : Nat} {cv : CView LCfg} {ty : String} {c ca cb : LCfg}
    {e a b : Elem LCfg MDat MSt} (h : Spec.Halves env ty c ca cb) (hty : cv.str c "type" = .ok ty)
    (hta : cv.str ca "type" = .ok ty) (htb : cv.str cb "type" = .ok ty) (he : MadeFrom env files junk base cv c e)
    (ha : MadeFrom env files junk base cv ca a) (hb : MadeFrom env files junk base cv cb b) : Together SameBeam e a b := by
  refine ⟨he.keeps.1, ha.keeps.1, hb.keeps.1, ?_⟩
  obtain ⟨t, htn, htk⟩ : ∃ t : MType, t.name = ty ∧ (t = .drift ∨ t = .quadrupole ∨ t = .solenoid ∨ t = .equad) := by
    rcases h.kind with rfl | rfl | rfl | rfl
    · exact ⟨.drift, rfl, by simp⟩
    · exact ⟨.quadrupole, rfl, by simp⟩
    · exact ⟨.solenoid, rfl, by simp⟩
    · exact ⟨.equad, rfl, by simp⟩
  have made : ∀ {ec : LCfg} {e : Elem LCfg MDat MSt}, cv.str ec "type" = .ok ty → MadeFrom env files junk base cv ec e →
      e.cls = cls env junk base t ∧ build env junk t ec = .ok e.dat := by
    rintro ec e hty ⟨ty', hty', h⟩
    rw [hty] at hty'
    cases hty'
    subst htn
    rcases h with ⟨u, c1, c2, c3⟩ | ⟨c1, c2, c3⟩ | ⟨c1, c2, c3⟩
    · obtain rfl := name_inj c2
      exact ⟨c1, c3⟩
    · exact absurd c2 (name_ne t).1
    · exact absurd c2 (name_ne t).2
  obtain ⟨c0, b0⟩ := made hty he
  obtain ⟨c1, b1⟩ := made hta ha
  obtain ⟨c2, b2⟩ := made htb hb
  rw [c0, c1, c2]
  obtain ⟨l0, d0, n0, -⟩ := build_length b0
  obtain ⟨l1, d1, n1, -⟩ := build_length b1
  obtain ⟨l2, d2, n2, -⟩ := build_length b2
  obtain ⟨x, y, hx, hy, hxy⟩ := h.length
  have hadv : ∀ d s, advance env t d s = advanceBase (recompute env t) d s := by
    intro d s
    rcases htk with rfl | rfl | rfl | rfl <;> rfl
  have hlen : a.dat.length = x ∧ b.dat.length = y ∧ e.dat.length = x + y := by
    rw [l0, l1, l2]
    rcases htk with rfl | rfl | rfl | rfl <;> simp [lengthOf, MType.name, hx, hy, hxy]
  show ∀ s s' s'' : St MSt, _ → _ → _ → _ → s''.payload = (advance env t a.dat s').2.1.payload →
    ((advance env t e.dat s).2.2 = none ↔ (advance env t a.dat s').2.2 = none ∧ (advance env t b.dat s'').2.2 = none) ∧
    ((advance env t e.dat s).2.2 = none → SameBeam (advance env t e.dat s).2.1.payload (advance env t b.dat s'').2.1.payload)
  simp only [hadv]
  refine base_together ⟨n0, n1, n2⟩ hlen (fun ref real => recompute_chain ref real ?_ (by rw [d0, d1, d2]; exact h.same)
    (by rw [d0, d1, d2]; exact ⟨hx, hy, hxy⟩) hlen)
  rcases htk with rfl | htk
  · exact .inl rfl
  · refine .inr ⟨htk, ?_, ?_⟩
    · have hnd : ty ≠ "drift" := by
        rw [← htn]
        rcases htk with rfl | rfl | rfl <;> decide
      obtain ⟨p1, p2, p3, p4, p5⟩ := build_place b0 htk
      obtain ⟨q1, q2, q3, q4, q5⟩ := build_place b1 htk
      obtain ⟨r1, r2, r3, r4, r5⟩ := build_place b2 htk
      obtain ⟨u, v⟩ := h.angles hnd
      have hn : ∀ k, k ≠ "L" → k ≠ "name" → numOr ca k 0 = numOr c k 0 ∧ numOr cb k 0 = numOr c k 0 := by
        intro k h1 h2
        unfold numOr
        rw [(h.same k h1 h2).1, (h.same k h1 h2).2]
        exact ⟨rfl, rfl⟩
      have i1 := hn "dx" (by decide) (by decide)
      have i2 := hn "dy" (by decide) (by decide)
      have i3 := hn "pitch" (by decide) (by decide)
      have i4 := hn "yaw" (by decide) (by decide)
      have i5 := hn "roll" (by decide) (by decide)
      constructor
      · rw [p1, q1, r1, i1.1, i1.2]; exact ⟨rfl, rfl⟩
      · rw [p2, q2, r2, i2.1, i2.2]; exact ⟨rfl, rfl⟩
      · rw [p5, q5, r5, i5.1, i5.2]; exact ⟨rfl, rfl⟩
      · rw [p3, q3, r3, i3.1, i3.2]; exact ⟨u, u, u⟩
      · rw [p4, q4, r4, i4.1, i4.2]; exact ⟨v, v, v⟩
    · rw [d0]
      exact flag_switch.2 ⟨h.uniform (by rw [← htn]; rcases htk with rfl | rfl | rfl <;> decide), by norm_num⟩

/-- C87: two machines are built, the second one from the lattice of the first one with a drift, quadrupole, solenoid or
electrostatic quadrupole cut in two.  The element has a uniform field and is not inclined.  A beam is sent forward from the same
element on through a range that contains it, through one element more in the second machine.  Then there is an exception in
both simulations or in none of them; in the latter case the states at the end are equal in all respects, except perhaps in the
matrix that is reported for the last element. -/
theorem C87_cut {env : Env} {files : Files} {junk : Mat} {base : Nat} (cv : CView LCfg) (c c' : LCfg)
    (m m' : Machine LCfg MDat MSt)
    (h : Machine.new cv (registry env junk base (cavityCls env files junk base) (stripperCls env junk base)) c = .ok m)
    (h' : Machine.new cv (registry env junk base (cavityCls env files junk base) (stripperCls env junk base)) c' = .ok m')
    (pre post : List LCfg) (ce ca cb : LCfg) (hes : cv.elems c = .ok (pre ++ ce :: post))
    (hes' : cv.elems c' = .ok (pre ++ ca :: cb :: post)) (hl : pre.length + post.length + 2 < sizeMod) (ty : String)
    (hty : cv.str ce "type" = .ok ty) (hta : cv.str ca "type" = .ok ty) (htb : cv.str cb "type" = .ok ty)
    (hh : Spec.Halves env ty ce ca cb) (start k l : Nat) (hk : start + k = pre.length) (hn : l ≤ post.length) (s : St MSt) :
    ∃ R R', propagate m.elems s start ((k + 1 + l : Nat) : Int) = some R ∧
      propagate m'.elems s start ((k + 2 + l : Nat) : Int) = some R' ∧ (R.err = none ↔ R'.err = none) ∧
      (R.err = none → SameBeam R.st.payload R'.st.payload) := by
  have hF : List.Forall₂ (MadeFrom env files junk base cv) (pre ++ ce :: post) m.elems := machine_moment h hes
  have hF' : List.Forall₂ (MadeFrom env files junk base cv) (pre ++ ca :: cb :: post) m'.elems := machine_moment h' hes'
  have hlen := hF.length_eq
  have hlen' := hF'.length_eq
  simp only [List.length_append, List.length_cons] at hlen hlen'
  have hp : ∀ (n : Nat) (els : List (Elem LCfg MDat MSt)), propagate els s start (n : Int) =
      some (run n els { s with nextElem := start, retreat := false }) := by
    intro n els
    rw [propagate_eq els s start n (by omega)]
    have : decide ((n : Int) < 0) = false := by simp
    rw [this, Int.natAbs_natCast]
  refine ⟨_, _, hp _ _, hp _ _, ?_⟩
  have get : ∀ {es : List LCfg} {els : List (Elem LCfg MDat MSt)}, List.Forall₂ (MadeFrom env files junk base cv) es els →
      ∀ (j : Nat) (ec : LCfg), es[j]? = some ec → ∃ e, els[j]? = some e ∧ MadeFrom env files junk base cv ec e := by
    intro es els hF j ec hj
    have hlt : j < els.length := by rw [← hF.length_eq]; exact lt_of_get hj
    obtain ⟨ec', h1, h2⟩ := forall₂_get hF (List.getElem?_eq_getElem hlt)
    rw [hj] at h1
    cases h1
    exact ⟨_, List.getElem?_eq_getElem hlt, h2⟩
  refine run_together (R := SameBeam) l k m.elems m'.elems _ _ (by omega) (by omega) rfl rfl rfl ?_ ?_ ?_
  · intro j hj
    show ∃ e e', m.elems[start + j]? = some e ∧ m'.elems[start + j]? = some e' ∧ _
    have hj1 : start + j < pre.length := by omega
    obtain ⟨e, q1, q2⟩ := get hF (start + j) pre[start + j] (by rw [List.getElem?_append_left hj1]; exact List.getElem?_eq_getElem hj1)
    obtain ⟨e', r1, r2⟩ := get hF' (start + j) pre[start + j]
      (by rw [List.getElem?_append_left hj1]; exact List.getElem?_eq_getElem hj1)
    exact ⟨e, e', q1, r1, q2.matched r2⟩
  · show ∃ e a b, m.elems[start + k]? = some e ∧ m'.elems[start + k]? = some a ∧ m'.elems[start + (k + 1)]? = some b ∧ _
    obtain ⟨e, q1, q2⟩ := get hF (start + k) ce (by rw [hk]; simp)
    obtain ⟨a, r1, r2⟩ := get hF' (start + k) ca (by rw [hk]; simp)
    obtain ⟨b, t1, t2⟩ := get hF' (start + (k + 1)) cb (by rw [← add_assoc, hk, List.getElem?_append_right (by omega)]; simp)
    exact ⟨e, a, b, q1, r1, t1, halves_together hh hty hta htb q2 r2 t2⟩
  · intro j hj
    show ∃ e e', m.elems[start + (k + 1 + j)]? = some e ∧ m'.elems[start + (k + 2 + j)]? = some e' ∧ _
    have hj1 : j < post.length := by omega
    obtain ⟨e, q1, q2⟩ := get hF (start + (k + 1 + j)) post[j] (by
      rw [show start + (k + 1 + j) = pre.length + (j + 1) by omega, List.getElem?_append_right (by omega)]
      simp [hj1])
    obtain ⟨e', r1, r2⟩ := get hF' (start + (k + 2 + j)) post[j] (by
      rw [show start + (k + 2 + j) = pre.length + (j + 2) by omega, List.getElem?_append_right (by omega)]
      simp [hj1])
    exact ⟨e, e', q1, r1, q2.matched r2⟩

/-- A rolled quadrupole of a given length. -/
noncomputable def exQuad (L : ℝ) : LCfg := fun k =>
  if k = "type" then some (.str "quadrupole") else if k = "name" then some (.str "q") else if k = "L" then some (.num L)
  else if k = "B2" then some (.num 5) else if k = "roll" then some (.num (1 / 10)) else none

/-- A drift, a quadrupole and a cavity; or the same with the quadrupole cut in two. -/
noncomputable def exCutView : CView LCfg where
  str c k := match c k with
    | some (.str x) => .ok x
    | _ => .error .keyError
  elems c := .ok (
    match c "cut" with
    | none => [fun k => if k = "type" then some (.str "drift") else if k = "name" then some (.str "d")
        else if k = "L" then some (.num 1) else none] ++ exQuad (1 / 4) :: [exMono]
    | some _ => [fun k => if k = "type" then some (.str "drift") else if k = "name" then some (.str "d")
        else if k = "L" then some (.num 1) else none] ++ exQuad (1 / 10) :: exQuad (3 / 20) :: [exMono])

/-- The hypotheses of `C87_cut` are met by a rolled quadrupole between a drift and a cavity that is cut into parts of different
lengths. -/
example (env : Env) (junk : Mat) : ∃ c c' m m' pre post, Machine.new exCutView
      (registry env junk 0 (cavityCls env exFiles junk 0) (stripperCls env junk 0)) c = .ok m ∧
    Machine.new exCutView (registry env junk 0 (cavityCls env exFiles junk 0) (stripperCls env junk 0)) c' = .ok m' ∧
    exCutView.elems c = .ok (pre ++ exQuad (1 / 4) :: post) ∧
    exCutView.elems c' = .ok (pre ++ exQuad (1 / 10) :: exQuad (3 / 20) :: post) ∧ pre.length = 1 ∧ post.length = 1 ∧
    (∀ L, exCutView.str (exQuad L) "type" = .ok "quadrupole") ∧
    Spec.Halves env "quadrupole" (exQuad (1 / 4)) (exQuad (1 / 10)) (exQuad (3 / 20)) := by
  obtain ⟨hk, hreg⟩ := registered_shipped env junk 0 (cavityCls env exFiles junk 0) (stripperCls env junk 0)
  obtain ⟨d, hd⟩ := exMono_builds env junk
  obtain ⟨m, hm⟩ := (Flame.Mach.C18_success_iff exCutView
    (registry env junk 0 (cavityCls env exFiles junk 0) (stripperCls env junk 0))
    (fun k => if k = "sim_type" then some (.str "MomentMatrix") else none)).2 ⟨"MomentMatrix", _, rfl, hk, rfl, by
      show ∀ ec ∈ [_, exQuad (1 / 4), exMono], _
      simp only [List.mem_cons, List.not_mem_nil, or_false, forall_eq_or_imp, forall_eq]
      exact ⟨⟨"drift", _, "d", _, rfl, hreg _ _ rfl, rfl, rfl, rfl⟩, ⟨"quadrupole", _, "q", _, rfl, hreg _ _ rfl, rfl, rfl, rfl⟩,
        ⟨"rfcavity", _, "c", d, rfl, hreg _ _ rfl, rfl, rfl, hd⟩⟩⟩
  obtain ⟨m', hm'⟩ := (Flame.Mach.C18_success_iff exCutView
    (registry env junk 0 (cavityCls env exFiles junk 0) (stripperCls env junk 0))
    (fun k => if k = "sim_type" ∨ k = "cut" then some (.str "MomentMatrix") else none)).2 ⟨"MomentMatrix", _, rfl, hk, rfl, by
      show ∀ ec ∈ [_, exQuad (1 / 10), exQuad (3 / 20), exMono], _
      simp only [List.mem_cons, List.not_mem_nil, or_false, forall_eq_or_imp, forall_eq]
      exact ⟨⟨"drift", _, "d", _, rfl, hreg _ _ rfl, rfl, rfl, rfl⟩, ⟨"quadrupole", _, "q", _, rfl, hreg _ _ rfl, rfl, rfl, rfl⟩,
        ⟨"quadrupole", _, "q", _, rfl, hreg _ _ rfl, rfl, rfl, rfl⟩, ⟨"rfcavity", _, "c", d, rfl, hreg _ _ rfl, rfl, rfl, hd⟩⟩⟩
  refine ⟨_, _, m, m', _, _, hm, hm', rfl, rfl, rfl, rfl, fun L => rfl, .inr (.inl rfl), fun k h1 h2 => ?_,
    ⟨1 / 10, 3 / 20, rfl, rfl, ?_⟩, fun _ => ⟨rfl, rfl⟩, fun _ => .inr ⟨?_, ?_⟩⟩
  · simp [exQuad, h1]
  · show some (LVal.num (1 / 4)) = _
    norm_num
  · rfl
  · simp [Settings.Says, exQuad]

end Flame.Cavity
