import Verif.Cavity.Split
import Verif.Cavity.SpecInsert

/-! # C88: markers and monitors change nothing

Before the marker the two runs are equal, behind it they differ at first in numbers that every element computes anew, and from the
next element on they are equal again. -/

namespace Flame.Cavity

open Flame.Mach (Cls St Err CView Machine propagate sizeMod Elem Run Event run visits stepNext viewEvents run_succ_none run_succ_err run_succ_ok propagate_eq)
open Flame.Linear (LVal LCfg getNum getNumD getVec)
open Flame.Moment Flame.Moment.Spec
open Spec (Complete SameMoments SameParticle)

/-! ## two runs, one of which has an element more that does nothing -/

section

variable {C X S : Type}

/-- Two elements do the same with states related by `L`, and their results are equal. -/
def Sharp (L : S → S → Prop) (e e' : Elem C X S) : Prop :=
  Keeps e.cls ∧ Keeps e'.cls ∧ ∀ s s' : St S, s.retreat = false → s'.retreat = false → L s.payload s'.payload →
    (e'.cls.advance e'.dat s').2.2 = (e.cls.advance e.dat s).2.2 ∧
    ((e.cls.advance e.dat s).2.2 = none → (e'.cls.advance e'.dat s').2.1.payload = (e.cls.advance e.dat s).2.1.payload)

theorem Sharp.matched {L : S → S → Prop} {e e' : Elem C X S} (h : Sharp L e e') (hL : ∀ a, L a a) :
    Matched (fun a b => b = a) e e' := by
  refine ⟨h.1, h.2.1, fun s s' hr hr' hR => ?_⟩
  obtain ⟨h1, h2⟩ := h.2.2 s s' hr hr' (by rw [hR]; exact hL _)
  exact ⟨by rw [h1], h2⟩

theorem run_insert {L : S → S → Prop} {P : S → Prop} (hL : ∀ a, L a a) (l : Nat) (k : Nat) :
    ∀ (els els' : List (Elem C X S)) (s s' : St S), els.length < sizeMod →
    els'.length < sizeMod → s.retreat = false → s'.retreat = false → s'.payload = s.payload → P s.payload →
    (∀ j < k, ∃ e e', els[s.nextElem + j]? = some e ∧ els'[s'.nextElem + j]? = some e' ∧ Sharp L e e' ∧
      ∀ s : St S, s.retreat = false → P s.payload → (e.cls.advance e.dat s).2.2 = none →
        P (e.cls.advance e.dat s).2.1.payload) →
    (∃ b, els'[s'.nextElem + k]? = some b ∧ Keeps b.cls ∧ ∀ s : St S, s.retreat = false → P s.payload →
      (b.cls.advance b.dat s).2.2 = none ∧ L s.payload (b.cls.advance b.dat s).2.1.payload) →
    (∀ j < l, ∃ e e', els[s.nextElem + (k + j)]? = some e ∧ els'[s'.nextElem + (k + 1 + j)]? = some e' ∧ Sharp L e e') →
    ((run (k + l) els s).err = none ↔ (run (k + 1 + l) els' s').err = none) ∧
      ((run (k + l) els s).err = none → L (run (k + l) els s).st.payload (run (k + 1 + l) els' s').st.payload ∧
        (0 < l → (run (k + 1 + l) els' s').st.payload = (run (k + l) els s).st.payload)) := by
  induction k with
  | zero =>
    intro els els' s s' hl hl' hr hr' hR hP _ hC hE
    obtain ⟨b, hb, k1, k3⟩ := hC
    rw [add_zero] at hb
    obtain ⟨q1, q2, q3⟩ := stepNext_fields s' hr' (by have := lt_of_get hb; omega)
    obtain ⟨b1, b2⟩ := k1 b.dat (stepNext s')
    obtain ⟨h4, g2⟩ := k3 (stepNext s') q2 (by rw [q1, hR]; exact hP)
    rw [q1, hR] at g2
    rw [show 0 + l = l by omega, show 0 + 1 + l = l + 1 by omega, run_succ_ok hb h4]
    dsimp only
    cases l with
    | zero => exact ⟨Iff.rfl, fun _ => ⟨g2, fun h => absurd h (by omega)⟩⟩
    | succ l =>
      obtain ⟨e, e', he, he', hs⟩ := hE 0 (by omega)
      rw [add_zero, add_zero] at he
      rw [add_zero, zero_add] at he'
      have he2 : (els'.set s'.nextElem { b with dat := (b.cls.advance b.dat (stepNext s')).1 })[(b.cls.advance b.dat
          (stepNext s')).2.1.nextElem]? = some e' := by
        rw [b1, q3, List.getElem?_set_ne (by omega)]
        exact he'
      obtain ⟨p1, p2, p3⟩ := stepNext_fields s hr (by have := lt_of_get he; omega)
      obtain ⟨r1, r2, r3⟩ := stepNext_fields (b.cls.advance b.dat (stepNext s')).2.1 (by rw [b2, q2])
        (by rw [b1, q3]; have := lt_of_get he'; omega)
      obtain ⟨w1, w2⟩ := hs.2.2 (stepNext s) (stepNext (b.cls.advance b.dat (stepNext s')).2.1) p2 r2 (by rw [p1, r1]; exact g2)
      obtain ⟨a1, a2⟩ := hs.1 e.dat (stepNext s)
      obtain ⟨c1, c2⟩ := hs.2.1 e'.dat (stepNext (b.cls.advance b.dat (stepNext s')).2.1)
      cases h3 : (e.cls.advance e.dat (stepNext s)).2.2 with
      | some x =>
        rw [h3] at w1
        rw [run_succ_err he h3, run_succ_err he2 w1]
        exact ⟨⟨nofun, nofun⟩, nofun⟩
      | none =>
        have w3 := w2 h3
        rw [h3] at w1
        rw [run_succ_ok he h3, run_succ_ok he2 w1]
        dsimp only
        obtain ⟨z1, z2⟩ := run_matched (R := fun a b => b = a) l
          (els.set s.nextElem { e with dat := (e.cls.advance e.dat (stepNext s)).1 })
          ((els'.set s'.nextElem { b with dat := (b.cls.advance b.dat (stepNext s')).1 }).set
            (b.cls.advance b.dat (stepNext s')).2.1.nextElem
            { e' with dat := (e'.cls.advance e'.dat (stepNext (b.cls.advance b.dat (stepNext s')).2.1)).1 })
          (e.cls.advance e.dat (stepNext s)).2.1 (e'.cls.advance e'.dat (stepNext (b.cls.advance b.dat (stepNext s')).2.1)).2.1
          (by rwa [List.length_set]) (by rwa [List.length_set, List.length_set])
          (by rw [a2, p2]) (by rw [c2, r2]) w3 (by
            intro j hj
            rw [a1, p3, c1, r3, b1, q3, List.getElem?_set_ne (by omega), List.getElem?_set_ne (by omega),
              List.getElem?_set_ne (by omega)]
            obtain ⟨f, f', hf, hf', hsf⟩ := hE (j + 1) (by omega)
            rw [show s.nextElem + (0 + (j + 1)) = s.nextElem + 1 + j by omega] at hf
            rw [show s'.nextElem + (0 + 1 + (j + 1)) = s'.nextElem + 1 + 1 + j by omega] at hf'
            exact ⟨f, f', hf, hf', hsf.matched hL⟩)
        refine ⟨z1, fun h => ?_⟩
        have := z2 h
        exact ⟨by rw [this]; exact hL _, fun _ => this⟩
  | succ k ih =>
    intro els els' s s' hl hl' hr hr' hR hP hM hC hE
    obtain ⟨e, e', he, he', hs, hp⟩ := hM 0 (by omega)
    rw [add_zero] at he he'
    obtain ⟨p1, p2, p3⟩ := stepNext_fields s hr (by have := lt_of_get he; omega)
    obtain ⟨q1, q2, q3⟩ := stepNext_fields s' hr' (by have := lt_of_get he'; omega)
    obtain ⟨g1, g2⟩ := hs.2.2 (stepNext s) (stepNext s') p2 q2 (by rw [p1, q1, hR]; exact hL _)
    obtain ⟨a1, a2⟩ := hs.1 e.dat (stepNext s)
    obtain ⟨b1, b2⟩ := hs.2.1 e'.dat (stepNext s')
    rw [show k + 1 + l = k + l + 1 by omega, show k + 1 + 1 + l = k + 1 + l + 1 by omega]
    cases h3 : (e.cls.advance e.dat (stepNext s)).2.2 with
    | some x =>
      rw [h3] at g1
      rw [run_succ_err he h3, run_succ_err he' g1]
      exact ⟨⟨nofun, nofun⟩, nofun⟩
    | none =>
      have h4 := g2 h3
      rw [h3] at g1
      rw [run_succ_ok he h3, run_succ_ok he' g1]
      refine ih _ _ _ _ (by rwa [List.length_set]) (by rwa [List.length_set]) (by rw [a2, p2]) (by rw [b2, q2]) h4
        (hp _ p2 (by rw [p1]; exact hP) h3) ?_ ?_ ?_
      · intro j hj
        rw [a1, p3, b1, q3, List.getElem?_set_ne (by omega), List.getElem?_set_ne (by omega)]
        have := hM (j + 1) (by omega)
        rwa [show s.nextElem + (j + 1) = s.nextElem + 1 + j by omega,
          show s'.nextElem + (j + 1) = s'.nextElem + 1 + j by omega] at this
      · rw [b1, q3, List.getElem?_set_ne (by omega)]
        rwa [show s'.nextElem + (k + 1) = s'.nextElem + 1 + k by omega] at hC
      · intro j hj
        rw [a1, p3, b1, q3, List.getElem?_set_ne (by omega), List.getElem?_set_ne (by omega)]
        have := hE j hj
        rwa [show s.nextElem + (k + 1 + j) = s.nextElem + 1 + (k + j) by omega,
          show s'.nextElem + (k + 1 + 1 + j) = s'.nextElem + 1 + (k + 1 + j) by omega] at this

end

/-! ## numbers that every element computes anew -/

/-- Two states differ only in matrices, averages, and numbers of particles that are computed from the others. -/
def Loose (P P' : MSt) : Prop := ∃ X a b c, P'.recalc =
  { P.recalc with transmat := X, moment0_env := a, moment0_rms := b, moment1_env := c }

theorem Loose.refl (P : MSt) : Loose P P := ⟨_, _, _, _, rfl⟩

/-- What is to be shown of one element: the results are equal. -/
def Fresh (f : St MSt → MDat × St MSt × Option Err) : Prop :=
  ∀ (k k' : Nat) (P P' : MSt), Loose P P' → (f ⟨k', false, P'⟩).2.2 = (f ⟨k, false, P⟩).2.2 ∧
    ((f ⟨k, false, P⟩).2.2 = none → (f ⟨k', false, P'⟩).2.1.payload = (f ⟨k, false, P⟩).2.1.payload)

theorem base_fresh (rec : MDat → Particle → List Particle → Except Err (List Mat)) (d : MDat) : Fresh (advanceBase rec d) := by
  rintro k k' P P' ⟨Y, a, b, c, h⟩
  unfold advanceBase
  dsimp only
  rw [h]
  generalize P.recalc = S
  generalize hq : particles rec (fun p => p.drifted false d.length) d
    { S with transmat := Y, moment0_env := a, moment0_rms := b, moment1_env := c } _ = q
  have hq' : particles rec (fun p => p.drifted false d.length) d S (@decide (hit d S) (Classical.propDecidable _)) = q := hq
  rw [hq']
  clear hq hq'
  obtain ⟨d', e | ⟨ref, real⟩⟩ := q
  · exact ⟨rfl, nofun⟩
  · exact ⟨rfl, fun _ => rfl⟩

theorem bend_fresh (rec : MDat → Particle → List Particle → Except Err (List Mat)) (d : MDat) : Fresh (advanceBend rec d) := by
  rintro k k' P P' ⟨Y, a, b, c, h⟩
  unfold advanceBend
  dsimp only
  rw [h]
  generalize P.recalc = S
  generalize hq : particles rec id d { S with transmat := Y, moment0_env := a, moment0_rms := b, moment1_env := c } _ = q
  have hq' : particles rec id d S (@decide (hit d S) (Classical.propDecidable _)) = q := hq
  rw [hq']
  clear hq hq'
  obtain ⟨d', e | ⟨ref, real⟩⟩ := q
  · exact ⟨rfl, nofun⟩
  · exact ⟨rfl, fun _ => rfl⟩

theorem sext_fresh (d : MDat) : Fresh (advanceSext d) := by
  rintro k k' P P' ⟨Y, a, b, c, h⟩
  unfold advanceSext
  cases getNum d.conf "B3" with
  | error e => exact ⟨rfl, nofun⟩
  | ok B3 =>
    cases getNum d.conf "L" with
    | error e => exact ⟨rfl, nofun⟩
    | ok L0 =>
      dsimp only
      rw [h]
      dsimp only
      simp only [Bool.false_eq_true, if_false]
      split
      · exact ⟨rfl, nofun⟩
      · exact ⟨rfl, fun _ => rfl⟩

theorem advance_fresh (env : Env) (t : MType) (d : MDat) (h : t = .source → d.istate.isSome) : Fresh (advance env t d) := by
  cases t with
  | source =>
    obtain ⟨i, hi⟩ := Option.isSome_iff_exists.1 (h rfl)
    intro k k' P P' _
    show (advanceSource d _).2.2 = (advanceSource d _).2.2 ∧ ((advanceSource d _).2.2 = none →
      (advanceSource d _).2.1.payload = (advanceSource d _).2.1.payload)
    unfold advanceSource
    rw [hi]
    exact ⟨rfl, fun _ => rfl⟩
  | sbend => exact bend_fresh _ d
  | sextupole => exact sext_fresh d
  | _ => exact base_fresh _ d

theorem stripper_fresh (d : MDat) : Fresh (advanceStripper d) := by
  rintro k k' P P' ⟨Y, a, b, c, h⟩
  unfold advanceStripper
  dsimp only
  simp only [Bool.false_eq_true, if_false]
  have e2 : P'.recalc.calcRms = { P.recalc.calcRms with transmat := Y } := by rw [h]; rfl
  rw [e2, stripperGetMat_blind]
  cases stripperGetMat d.conf P.recalc.calcRms with
  | error e => exact ⟨rfl, nofun⟩
  | ok S => exact ⟨rfl, fun _ => rfl⟩

theorem cavity_fresh (env : Env) (files : Files) (d : MDat) : Fresh (advanceCavity env files d) := by
  rintro k k' P P' ⟨Y, a, b, c, h⟩
  unfold advanceCavity
  cases d.cav with
  | none => exact ⟨rfl, nofun⟩
  | some cav =>
    dsimp only
    rw [h]
    generalize P.recalc = S
    simp only [Bool.false_eq_true, if_false]
    have eh : hit d { S with transmat := Y, moment0_env := a, moment0_rms := b, moment1_env := c } ↔ hit d S := Iff.rfl
    by_cases hh : hit d S
    · rw [if_pos hh, if_pos (eh.2 hh)]
      exact ⟨rfl, fun _ => rfl⟩
    · rw [if_neg hh, if_neg (fun h => hh (eh.1 h))]
      split
      · exact ⟨rfl, nofun⟩
      · split
        · exact ⟨rfl, nofun⟩
        · split
          · exact ⟨rfl, nofun⟩
          · exact ⟨rfl, fun _ => rfl⟩

theorem source_state {env : Env} {junk : Mat} {c : LCfg} {d : MDat} (h : build env junk .source c = .ok d) :
    ∃ i, d.istate = some i ∧ newState junk c = .ok i := by
  simp only [build] at h
  split at h
  · cases h
  · cases h
  · rename_i s hs
    cases h
    exact ⟨s, rfl, hs⟩

theorem MadeFrom.fresh {env : Env} {files : Files} {junk : Mat} {base : Nat} {cv : CView LCfg} {ec : LCfg}
    {e : Elem LCfg MDat MSt} (h : MadeFrom env files junk base cv ec e) : Fresh (e.cls.advance e.dat) := by
  obtain ⟨ty, -, ⟨t, c1, -, c3⟩ | ⟨c1, -, c3⟩ | ⟨c1, -, c3⟩⟩ := h
  · rw [c1]
    refine advance_fresh env t _ ?_
    rintro rfl
    obtain ⟨i, hi, -⟩ := source_state c3
    simp [hi]
  · rw [c1]
    exact cavity_fresh env files _
  · rw [c1]
    exact stripper_fresh _

theorem MadeFrom.sharp {env : Env} {files : Files} {junk : Mat} {base : Nat} {cv : CView LCfg} {ec : LCfg}
    {e e' : Elem LCfg MDat MSt} (h : MadeFrom env files junk base cv ec e) (h' : MadeFrom env files junk base cv ec e') :
    Sharp Loose e e' := by
  obtain ⟨hc, hd⟩ := h.same h'
  refine ⟨h.keeps.1, h'.keeps.1, ?_⟩
  rintro ⟨k, b, P⟩ ⟨k', b', P'⟩ hr hr' hR
  obtain rfl : b = false := hr
  obtain rfl : b' = false := hr'
  rw [hc, hd]
  exact h.fresh k k' P P' hR

/-! ## states stay complete -/

theorem stripper_complete {d : MDat} {s : St MSt} (hok : (advanceStripper d s).2.2 = none) :
    Complete (advanceStripper d s).2.1.payload := by
  unfold advanceStripper at hok ⊢
  dsimp only at hok ⊢
  split at hok
  · cases hok
  rename_i hr
  rw [if_neg hr]
  have key : ∀ f chg w S, List.length w = List.length chg → Complete (stripped f chg w S) := by
    intro f chg w S hw
    constructor <;> simp [stripped, MSt.calcRms, hw]
  cases h : stripperGetMat d.conf s.payload.recalc.calcRms with
  | error e => rw [h] at hok; cases hok
  | ok S =>
    show Complete S
    unfold stripperGetMat at h
    split at h
    · dsimp only at h
      split at h
      · cases h
      rename_i h1
      split at h
      · cases h
      split at h
      · cases h
      split at h
      · rename_i hoff
        cases h
        refine key _ _ _ _ ?_
        by_contra hne
        exact h1 ⟨hoff, fun h => hne h.symm⟩
      · split at h
        · cases h
        · split at h
          · cases h
          · cases h
            exact key _ _ _ _ (by simp [chargeStripper])
    · cases h

theorem MadeFrom.complete {env : Env} {files : Files} {junk : Mat} {base : Nat} {cv : CView LCfg} {ec : LCfg}
    {e : Elem LCfg MDat MSt} (h : MadeFrom env files junk base cv ec e) (s : St MSt) (hr : s.retreat = false)
    (hc : Complete s.payload) (hok : (e.cls.advance e.dat s).2.2 = none) : Complete (e.cls.advance e.dat s).2.1.payload := by
  obtain ⟨ty, -, ⟨t, c1, -, hb⟩ | ⟨c1, -, hb⟩ | ⟨c1, -, hb⟩⟩ := h
  · rw [c1] at hok ⊢
    by_cases ht : t = .source
    · subst ht
      obtain ⟨i, hi, hn⟩ := source_state hb
      obtain ⟨-, w1, w2, w3⟩ := newState_shape hn
      show Complete (advanceSource _ _).2.1.payload
      unfold advanceSource
      rw [hi]
      dsimp only
      rw [hr]
      exact ⟨w1, w2, w3⟩
    · exact (advance_part ht (build_length hb).2.2.1 hr hr hc hc (Part.refl _) hok).2.2.1
  · obtain ⟨d0, cav, hd0, hload, hdat⟩ := loadCavity_ok (show buildCavity env files junk ec = .ok e.dat from hb)
    obtain ⟨-, -, l3, l4⟩ := loadCavity_map hload
    have hconf : e.dat.conf = ec := by rw [hdat]; exact (build_length hd0).2.1
    have hnone : e.dat.refIn = none := by rw [hdat]; exact (build_length hd0).2.2.1
    have hcv : e.dat.cav = some cav := by rw [hdat]
    rw [c1] at hok ⊢
    exact (advanceCavity_part hcv hnone (by rw [hconf]; exact l3) (by rw [hconf]; exact l4) hr hr hc hc (Part.refl _) hok).2.2.1
  · rw [c1] at hok ⊢
    exact stripper_complete hok

/-! ## the marker -/

theorem ones_forward : ∀ (l : List Particle) (v : List Vec) (M : List Mat), v.length = l.length → M.length = l.length →
    List.zipWith (fun M v => M.mulVec v) (l.map (fun _ => (1 : Mat))) v = v ∧
    List.zipWith Moment.congr (l.map (fun _ => (1 : Mat))) M = M
  | [], [], [], _, _ => ⟨rfl, rfl⟩
  | p :: l, a :: v, b :: M, h1, h2 => by
    obtain ⟨i1, i2⟩ := ones_forward l v M (by simpa using h1) (by simpa using h2)
    simp only [List.map_cons, List.zipWith_cons_cons]
    rw [i1, i2]
    exact ⟨by rw [Matrix.one_mulVec], by simp [Moment.congr]⟩

theorem marker_nothing {env : Env} {t : MType} {d : MDat} (ht : t = .marker ∨ t = .bpm) (hd : d.refIn = none) (hl : d.length = 0)
    (s : St MSt) (hr : s.retreat = false) (hc : Complete s.payload) :
    (advance env t d s).2.2 = none ∧ Loose s.payload (advance env t d s).2.1.payload := by
  have e0 := advanceBase_first (rec := recompute env t) (fun d a b c e f => recompute_cached env t d a b c e f) hd hr
  have hadv : advance env t d s = advanceBase (recompute env t) d s := by rcases ht with rfl | rfl <;> rfl
  have hrec : ∀ ref real, recompute env t d ref real = .ok (real.map (fun _ => 1)) := by
    intro ref real
    rcases ht with rfl | rfl <;> rfl
  rw [hrec] at e0
  rw [hadv]
  have f0 := congrArg Prod.fst e0
  have g0 := congrArg Prod.snd e0
  dsimp only at f0 g0
  refine ⟨f0, ?_⟩
  rw [g0]
  have hS : Complete s.payload.recalc :=
    ⟨by simpa [MSt.recalc] using hc.moment0, by simpa [MSt.recalc] using hc.moment1, by simpa [MSt.recalc] using hc.transmat⟩
  have hrr : s.payload.recalc.ref.recalc = s.payload.recalc.ref := rfl
  have hrl : s.payload.recalc.real.map Particle.recalc = s.payload.recalc.real := by
    simp [MSt.recalc]
    intros
    rfl
  unfold Loose
  generalize s.payload.recalc = S at *
  have hz : ∀ p : Particle, p.drifted false d.length = p := by
    intro p
    unfold Particle.drifted
    rw [hl]
    simp
  obtain ⟨w0, w1⟩ := ones_forward S.real S.moment0 S.moment1 hS.moment0 hS.moment1
  simp only [hz, hrr, hrl]
  unfold forward
  dsimp only
  rw [w0, w1, hl, mul_zero, add_zero]
  refine ⟨S.real.map (fun _ => 1), (S.calcRms).moment0_env, S.calcRms.moment0_rms, S.calcRms.moment1_env, ?_⟩
  unfold MSt.recalc MSt.calcRms
  dsimp only
  rw [hrr, hrl]

theorem sameParticle_of {p q : Particle} (h : q.recalc = p.recalc) : SameParticle p q :=
  ⟨(congrArg Particle.IonZ h :), (congrArg Particle.IonQ h :), (congrArg Particle.IonEs h :), (congrArg Particle.IonEk h :),
    (congrArg Particle.phis h :), (congrArg Particle.SampleFreq h :)⟩

theorem Loose.moments {P P' : MSt} (h : Loose P P') : SameMoments P P' := by
  obtain ⟨X, a, b, c, h⟩ := h
  have hr : P'.real.map Particle.recalc = P.real.map Particle.recalc := congrArg MSt.real h
  refine ⟨(congrArg MSt.pos h :), sameParticle_of ((congrArg MSt.ref h :)), ?_, (congrArg MSt.moment0 h :), (congrArg MSt.moment1 h :),
    (congrArg MSt.last_caviphi0 h :)⟩
  generalize P.real = l at hr
  generalize P'.real = l' at hr
  clear h
  induction l generalizing l' with
  | nil =>
    rw [List.map_nil, List.map_eq_nil_iff] at hr
    subst hr
    exact .nil
  | cons p l ih =>
    cases l' with
    | nil => cases hr
    | cons q l' =>
      simp only [List.map_cons, List.cons.injEq] at hr
      exact .cons (sameParticle_of hr.1) (ih l' hr.2)

/-! ## C88 -/

/-- C88: two machines are built, the second one from the lattice of the first one with a marker or a monitor inserted somewhere.
A beam is sent forward from the same element on through a range that contains this place, through one element more in the second
machine.  Then there is an exception in both simulations or in none of them; in the latter case they end with the same position,
particles, centroids and covariances, and if the inserted element is not the last one of the range, the states are equal in all
respects. -/
theorem C88_marker {env : Env} {files : Files} {junk : Mat} {base : Nat} (cv : CView LCfg) (c c' : LCfg)
    (m m' : Machine LCfg MDat MSt)
    (h : Machine.new cv (registry env junk base (cavityCls env files junk base) (stripperCls env junk base)) c = .ok m)
    (h' : Machine.new cv (registry env junk base (cavityCls env files junk base) (stripperCls env junk base)) c' = .ok m')
    (pre post : List LCfg) (ce : LCfg) (hes : cv.elems c = .ok (pre ++ post))
    (hes' : cv.elems c' = .ok (pre ++ ce :: post)) (hl : pre.length + post.length + 1 < sizeMod)
    (hty : cv.str ce "type" = .ok "marker" ∨ cv.str ce "type" = .ok "bpm") (start k l : Nat) (hk : start + k = pre.length)
    (hn : l ≤ post.length) (s : St MSt) (hc : Complete s.payload) :
    ∃ R R', propagate m.elems s start ((k + l : Nat) : Int) = some R ∧
      propagate m'.elems s start ((k + 1 + l : Nat) : Int) = some R' ∧ (R.err = none ↔ R'.err = none) ∧
      (R.err = none → SameMoments R.st.payload R'.st.payload ∧ (0 < l → R'.st.payload = R.st.payload)) := by
  have hF : List.Forall₂ (MadeFrom env files junk base cv) (pre ++ post) m.elems := machine_moment h hes
  have hF' : List.Forall₂ (MadeFrom env files junk base cv) (pre ++ ce :: post) m'.elems := machine_moment h' hes'
  have hlen := hF.length_eq
  have hlen' := hF'.length_eq
  simp only [List.length_append, List.length_cons] at hlen hlen'
  have hp : ∀ (n : Nat) (els : List (Elem LCfg MDat MSt)), propagate els s start (n : Int) =
      some (run n els { s with nextElem := start, retreat := false }) := by
    intro n els
    rw [propagate_eq els s start n (by omega)]
    have : decide ((n : Int) < 0) = false := by simp
    rw [this, Int.natAbs_natCast]
  refine ⟨_, _, hp _ _, hp _ _, ?_⟩
  have get : ∀ {es : List LCfg} {els : List (Elem LCfg MDat MSt)}, List.Forall₂ (MadeFrom env files junk base cv) es els →
      ∀ (j : Nat) (ec : LCfg), es[j]? = some ec → ∃ e, els[j]? = some e ∧ MadeFrom env files junk base cv ec e := by
    intro es els hF j ec hj
    have hlt : j < els.length := by rw [← hF.length_eq]; exact lt_of_get hj
    obtain ⟨ec', h1, h2⟩ := forall₂_get hF (List.getElem?_eq_getElem hlt)
    rw [hj] at h1
    cases h1
    exact ⟨_, List.getElem?_eq_getElem hlt, h2⟩
  have key := run_insert (L := Loose) (P := Complete) Loose.refl l k m.elems m'.elems
    { s with nextElem := start, retreat := false } { s with nextElem := start, retreat := false }
    (by omega) (by omega) rfl rfl rfl hc ?_ ?_ ?_
  · exact ⟨key.1, fun h => ⟨(key.2 h).1.moments, (key.2 h).2⟩⟩
  · intro j hj
    show ∃ e e', m.elems[start + j]? = some e ∧ m'.elems[start + j]? = some e' ∧ _
    have hj1 : start + j < pre.length := by omega
    obtain ⟨e, q1, q2⟩ := get hF (start + j) pre[start + j] (by rw [List.getElem?_append_left hj1]; exact List.getElem?_eq_getElem hj1)
    obtain ⟨e', r1, r2⟩ := get hF' (start + j) pre[start + j]
      (by rw [List.getElem?_append_left hj1]; exact List.getElem?_eq_getElem hj1)
    exact ⟨e, e', q1, r1, q2.sharp r2, fun s hr hc hok => q2.complete s hr hc hok⟩
  · show ∃ b, m'.elems[start + k]? = some b ∧ _
    obtain ⟨b, t1, t2⟩ := get hF' (start + k) ce (by rw [hk]; simp)
    refine ⟨b, t1, t2.keeps.1, fun s hr hP => ?_⟩
    obtain ⟨ty, hty', ⟨t, c1, c2, c3⟩ | ⟨-, c2, -⟩ | ⟨-, c2, -⟩⟩ := t2
    · have ht : t = .marker ∨ t = .bpm := by
        rcases hty with hty | hty <;> rw [hty] at hty' <;> cases hty'
        · exact .inl (name_inj c2)
        · exact .inr (name_inj c2)
      rw [c1]
      refine marker_nothing ht (build_length c3).2.2.1 ?_ s hr hP
      rw [(build_length c3).1]
      rcases ht with rfl | rfl <;> simp [lengthOf, MType.name]
    · subst c2
      rcases hty with hty | hty <;> exact absurd (Except.ok.inj (hty.symm.trans hty')) (by decide)
    · subst c2
      rcases hty with hty | hty <;> exact absurd (Except.ok.inj (hty.symm.trans hty')) (by decide)
  · intro j hj
    show ∃ e e', m.elems[start + (k + j)]? = some e ∧ m'.elems[start + (k + 1 + j)]? = some e' ∧ _
    have hj1 : j < post.length := by omega
    obtain ⟨e, q1, q2⟩ := get hF (start + (k + j)) post[j] (by
      rw [show start + (k + j) = pre.length + j by omega, List.getElem?_append_right (by omega)]
      simp [hj1])
    obtain ⟨e', r1, r2⟩ := get hF' (start + (k + 1 + j)) post[j] (by
      rw [show start + (k + 1 + j) = pre.length + (j + 1) by omega, List.getElem?_append_right (by omega)]
      simp [hj1])
    exact ⟨e, e', q1, r1, q2.sharp r2⟩

/-- A drift and a cavity; or the same with a monitor between them. -/
noncomputable def exMarkView : CView LCfg where
  str c k := match c k with
    | some (.str x) => .ok x
    | _ => .error .keyError
  elems c := .ok (
    match c "mark" with
    | none => [fun k => if k = "type" then some (.str "drift") else if k = "name" then some (.str "d")
        else if k = "L" then some (.num 1) else none] ++ [exMono]
    | some _ => [fun k => if k = "type" then some (.str "drift") else if k = "name" then some (.str "d")
        else if k = "L" then some (.num 1) else none] ++
        (fun k => if k = "type" then some (.str "bpm") else if k = "name" then some (.str "b") else none) :: [exMono])

/-- The hypotheses of `C88_marker` are met by a monitor between a drift and a cavity. -/
example (env : Env) (junk : Mat) : ∃ c c' m m' pre post ce, Machine.new exMarkView
      (registry env junk 0 (cavityCls env exFiles junk 0) (stripperCls env junk 0)) c = .ok m ∧
    Machine.new exMarkView (registry env junk 0 (cavityCls env exFiles junk 0) (stripperCls env junk 0)) c' = .ok m' ∧
    exMarkView.elems c = .ok (pre ++ post) ∧ exMarkView.elems c' = .ok (pre ++ ce :: post) ∧ pre.length = 1 ∧ post.length = 1 ∧
    exMarkView.str ce "type" = .ok "bpm" ∧ Complete exOnAxis.payload := by
  obtain ⟨hk, hreg⟩ := registered_shipped env junk 0 (cavityCls env exFiles junk 0) (stripperCls env junk 0)
  obtain ⟨d, hd⟩ := exMono_builds env junk
  obtain ⟨m, hm⟩ := (Flame.Mach.C18_success_iff exMarkView
    (registry env junk 0 (cavityCls env exFiles junk 0) (stripperCls env junk 0))
    (fun k => if k = "sim_type" then some (.str "MomentMatrix") else none)).2 ⟨"MomentMatrix", _, rfl, hk, rfl, by
      show ∀ ec ∈ [_, exMono], _
      simp only [List.mem_cons, List.not_mem_nil, or_false, forall_eq_or_imp, forall_eq]
      exact ⟨⟨"drift", _, "d", _, rfl, hreg _ _ rfl, rfl, rfl, rfl⟩, ⟨"rfcavity", _, "c", d, rfl, hreg _ _ rfl, rfl, rfl, hd⟩⟩⟩
  obtain ⟨m', hm'⟩ := (Flame.Mach.C18_success_iff exMarkView
    (registry env junk 0 (cavityCls env exFiles junk 0) (stripperCls env junk 0))
    (fun k => if k = "sim_type" ∨ k = "mark" then some (.str "MomentMatrix") else none)).2 ⟨"MomentMatrix", _, rfl, hk, rfl, by
      show ∀ ec ∈ [_, _, exMono], _
      simp only [List.mem_cons, List.not_mem_nil, or_false, forall_eq_or_imp, forall_eq]
      exact ⟨⟨"drift", _, "d", _, rfl, hreg _ _ rfl, rfl, rfl, rfl⟩, ⟨"bpm", _, "b", _, rfl, hreg _ _ rfl, rfl, rfl, rfl⟩,
        ⟨"rfcavity", _, "c", d, rfl, hreg _ _ rfl, rfl, rfl, hd⟩⟩⟩
  exact ⟨_, _, m, m', _, _, _, hm, hm', rfl, rfl, rfl, rfl, rfl, ⟨rfl, rfl, rfl⟩⟩

end Flame.Cavity
