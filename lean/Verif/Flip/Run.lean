import Verif.Flip.Cavity
import Verif.Turn.Run

/-! # A beam line seen in a mirror: whole machines (C98) -/

namespace Flame.Flip

open Flame.Mach (Elem Cls St Err Run CView Machine propagate)
open Flame.Linear (LVal LCfg getNum getNumD getVec)
open Flame.Moment Flame.Cavity
open Flame.Scale (ERel)
open Flame.Scale.Spec (Call Session watched)
open Flame.Turn (SRel Keeps session_rel)
open Flame.Flip.Spec

variable {c c' : LCfg}

theorem buildCavity_im (h : MirroredElement "rfcavity" c c') (env : Env) (files : Files) (junk : Mat) {d d' : MDat}
    (hd : buildCavity env files junk c = .ok d) (hd' : buildCavity env files junk c' = .ok d') : DRel "rfcavity" d d' := by
  unfold buildCavity at hd hd'
  rw [loadCavity_c h env files] at hd'
  cases h1 : build env junk .drift c with
  | error e => rw [h1] at hd; cases hd
  | ok d0 =>
    cases h2 : build env junk .drift c' with
    | error e => rw [h2] at hd'; cases hd'
    | ok d0' =>
      rw [h1] at hd
      rw [h2] at hd'
      dsimp only at hd hd'
      obtain ⟨e1, e2, e3⟩ := build_im h env junk .drift (fun h => by cases h) h1 h2
      have hmi : (loadCavity env files c noCav).1.misalign = [] := loadCavity_misalign env files c noCav
      generalize loadCavity env files c noCav = z at hd hd' hmi
      obtain ⟨cav, o⟩ := z
      cases o with
      | some e => cases hd
      | none =>
        cases hd; cases hd'
        subst e3
        refine ⟨c', by rw [← e1] at h; exact h, ?_⟩
        have : imageC cav = cav := by
          dsimp only at hmi
          unfold imageC
          rw [hmi, List.map_nil, ← hmi]
        simp only [imageD, Option.map, this]

/-! ## the theorem -/

/-- Data in both runs, together with the class. -/
def KRel (env : Env) (files : Files) (junk : Mat) (base : Nat) (k : MCls) (d d' : MDat) : Prop :=
  (∃ t, k = cls env junk base t ∧ DRel t.name d d') ∨ (k = cavityCls env files junk base ∧ DRel "rfcavity" d d') ∨
    (k = stripperCls env junk base ∧ DRel "stripper" d d')

theorem step_im (env : Env) (files : Files) (junk : Mat) (base : Nat) : Keeps (KRel env files junk base) MirroredBeam := by
  intro k d d' s s' hk hs
  obtain ⟨q1, q2, q3⟩ := hs
  have q4 := (mirrored_iff _ _).1 q3
  have e : s' = imageT s := by
    clear q3
    cases s'
    dsimp only at q1 q2 q4
    subst q1 q2 q4
    rfl
  subst e
  have fin : ∀ {P : MDat → MDat → Prop} {x x' : MDat × St MSt × Option Err}, Alike P x x' → SRel MirroredBeam x.2.1 x'.2.1 := by
    intro P x x' h
    rw [h.2.1]
    exact ⟨rfl, rfl, (mirrored_iff _ _).2 rfl⟩
  rcases hk with ⟨t, rfl, hd⟩ | ⟨rfl, hd⟩ | ⟨rfl, hd⟩
  · have h := advance_im env t hd s
    exact ⟨h.1, fin h, fun hn => .inl ⟨t, rfl, h.2.2 hn⟩⟩
  · have h := cavity_im env files hd s
    exact ⟨h.1, fin h, fun hn => .inr (.inl ⟨rfl, h.2.2 hn⟩)⟩
  · have h := stripper_im hd s
    exact ⟨h.1, fin h, fun hn => .inr (.inr ⟨rfl, h.2.2 hn⟩)⟩

theorem element_im {env : Env} {files : Files} {junk : Mat} {base : Nat} {ec ec' : LCfg} {ty : String} {e e' : Elem LCfg MDat MSt}
    (t2 : MirroredElement ty ec ec')
    (g2 : (∃ t : MType, e.cls = cls env junk base t ∧ t.name = ty ∧ build env junk t ec = .ok e.dat) ∨
       (e.cls = cavityCls env files junk base ∧ ty = "rfcavity" ∧ buildCavity env files junk ec = .ok e.dat) ∨
       (e.cls = stripperCls env junk base ∧ ty = "stripper" ∧ build env junk .marker ec = .ok e.dat))
    (g2' : (∃ t : MType, e'.cls = cls env junk base t ∧ t.name = ty ∧ build env junk t ec' = .ok e'.dat) ∨
       (e'.cls = cavityCls env files junk base ∧ ty = "rfcavity" ∧ buildCavity env files junk ec' = .ok e'.dat) ∨
       (e'.cls = stripperCls env junk base ∧ ty = "stripper" ∧ build env junk .marker ec' = .ok e'.dat)) :
    e'.cls = e.cls ∧ KRel env files junk base e.cls e.dat e'.dat := by
  rcases g2 with ⟨t, a1, a2, a3⟩ | ⟨a1, a2, a3⟩ | ⟨a1, a2, a3⟩ <;> rcases g2' with ⟨t', b1, b2, b3⟩ | ⟨b1, b2, b3⟩ | ⟨b1, b2, b3⟩
  · have : t' = t := by
      rw [← a2] at b2
      revert b2
      cases t <;> cases t' <;> decide
    subst this
    obtain ⟨e1, e2, e3⟩ := build_im t2 env junk t' (fun h => by rw [← a2, h]; rfl) a3 b3
    exact ⟨b1.trans a1.symm, .inl ⟨t', a1, ec', by rw [e1, a2]; exact t2, e3⟩⟩
  · exfalso; rw [b2] at a2; revert a2; cases t <;> decide
  · exfalso; rw [b2] at a2; revert a2; cases t <;> decide
  · exfalso; rw [a2] at b2; revert b2; cases t' <;> decide
  · subst a2
    exact ⟨b1.trans a1.symm, .inr (.inl ⟨a1, buildCavity_im t2 env files junk a3 b3⟩)⟩
  · exfalso; rw [a2] at b2; revert b2; decide
  · exfalso; rw [a2] at b2; revert b2; cases t' <;> decide
  · exfalso; rw [a2] at b2; revert b2; decide
  · subst a2
    obtain ⟨e1, e2, e3⟩ := build_im t2 env junk .marker (fun h => by cases h) a3 b3
    exact ⟨b1.trans a1.symm, .inr (.inr ⟨a1, ec', by rw [e1]; exact t2, e3⟩)⟩

/-- C98: left and right are alike.  Two machines are built, the second from the lattice seen in a mirror that exchanges left and right.
They are used in the same way: the same calls of `propagate`, forward and backward, over any ranges and with any observers, the
second with the beams seen in the mirror.  Then the calls end in the same way, and at the end and in all views the positions,
energies, phases and beam sizes are the same and the centroids, covariances, envelopes and transfer matrices are those of the first
seen in the mirror.  All element types are covered, with any misalignment. -/
theorem C98_mirror {env : Env} {files : Files} {junk : Mat} {base : Nat} (cv : CView LCfg) (c c' : LCfg)
    (m m' : Machine LCfg MDat MSt)
    (h : Machine.new cv (registry env junk base (cavityCls env files junk base) (stripperCls env junk base)) c = .ok m)
    (h' : Machine.new cv (registry env junk base (cavityCls env files junk base) (stripperCls env junk base)) c' = .ok m')
    (es es' : List LCfg) (hes : cv.elems c = .ok es) (hes' : cv.elems c' = .ok es')
    (hc : List.Forall₂ (fun e e' => ∃ ty, cv.str e "type" = .ok ty ∧ cv.str e' "type" = .ok ty ∧ MirroredElement ty e e') es es')
    (calls calls' : List (Call MSt)) (hcalls : List.Forall₂ MirroredCall calls calls')
    (rs : List (Run LCfg MDat MSt)) (hs : Session m.elems calls rs) :
    ∃ rs', Session m'.elems calls' rs' ∧ List.Forall₂ SameButMirror rs rs' := by
  have hF := machine_moment h hes
  have hF' := machine_moment h' hes'
  have hI : ∀ {c : LCfg} {m : Machine LCfg MDat MSt}, Machine.new cv (registry env junk base (cavityCls env files junk base) (stripperCls env junk base)) c = .ok m →
      ∀ (i : Nat) (hi : i < m.elems.length), m.elems[i].index = i ∧ m.elems[i].obs = none := by
    intro c m h i hi
    obtain ⟨_, es, _, _, _, _, hl, hall⟩ := Flame.Mach.C18_machine_matches_lattice cv _ c m h
    obtain ⟨e, k, he, -, hm⟩ := hall i es[i] (List.getElem?_eq_getElem (by omega))
    rw [List.getElem?_eq_getElem hi] at he
    rw [Option.some.inj he]
    exact ⟨hm.index, hm.obs⟩
  have hE : List.Forall₂ (ERel (KRel env files junk base)) m.elems m'.elems := by
    rw [List.forall₂_iff_get]
    have l1 := hF.length_eq
    have l2 := hF'.length_eq
    have l3 := hc.length_eq
    refine ⟨by omega, ?_⟩
    intro i i1 i2
    obtain ⟨ty1, g1, g2⟩ := (List.forall₂_iff_get.1 hF).2 i (by omega) i1
    obtain ⟨ty2, g1', g2'⟩ := (List.forall₂_iff_get.1 hF').2 i (by omega) i2
    obtain ⟨ty, t1, t1', t2⟩ := (List.forall₂_iff_get.1 hc).2 i (by omega) (by omega)
    have hty : ty1 = ty := Except.ok.inj (g1.symm.trans t1)
    have hty' : ty2 = ty := Except.ok.inj (g1'.symm.trans t1')
    subst hty hty'
    simp only [List.get_eq_getElem] at *
    obtain ⟨x1, x2⟩ := hI h i i1
    obtain ⟨x3, x4⟩ := hI h' i i2
    have main := element_im t2 g2 g2'
    exact ⟨main.1, by rw [x2, x4], by rw [x1, x3], main.2⟩
  obtain ⟨rs', r1, r2⟩ := session_rel (step_im env files junk base) hE hcalls hs
  exact ⟨rs', r1, r2.imp (fun r r' ⟨a1, a2, a3⟩ => ⟨a1, a2.1, a2.2.2, a3⟩)⟩

end Flame.Flip
