import Verif.Cavity.Growth
import Verif.Cavity.Regular

/-!
# What cavities do to centroids and covariances in a run: C35, C58, C68

A property `Q` of matrices, `A` of centroids and `B` of covariances is carried through all elements except strippers.
-/

namespace Flame.Cavity

open Flame.Mach (Cls St Err Elem CView Machine Run propagate)
open Flame.Linear (LVal LCfg getNum getNumD getVec)
open Flame.Moment Flame.Moment.Spec

/-- What is carried by products with matrices with property `Q`, by the cavity's own centroids and by its growth of the
emittance. -/
structure Carried (Q : Mat → Prop) (A : Vec → Prop) (B : Mat → Prop) : Prop where
  nice : Nice Q
  cell : ∀ {T : Mat} {i : Fin 7} {x : ℝ}, i ≠ 6 → Q T → Q (setAt T i 6 x)
  vec : ∀ {M : Mat} {v : Vec}, Q M → A v → A (M.mulVec v)
  lon : ∀ {v : Vec} {x y : ℝ}, A v → A (fun i => if i = 4 then x else if i = 5 then y else v i)
  mat : ∀ {M S : Mat}, Q M → B S → B (congr M S)
  grow : ∀ {S N : Mat} {d : Fin 7 → ℝ}, Spec.Stretched d S N → d 6 = 1 → B S → B N

variable {Q : Mat → Prop} {A : Vec → Prop} {B : Mat → Prop}

/-! ## one pass -/

theorem Carried.emit (h : Carried Q A B) {cav : Cav} {ref pin pout : Particle} {bf gf x2 cx y2 cy : ℝ} {M : Mat} (hM : B M) :
    B (emitGrowth cav ref pin pout bf gf x2 cx y2 cy M) := by
  cases hf : emitFactors cav ref pin pout bf gf x2 cx y2 cy M with
  | none =>
    unfold emitGrowth
    rw [hf]
    exact hM
  | some q =>
    obtain ⟨a, b, c⟩ := q
    exact h.grow (emitGrowth_stretched hf) rfl hM

theorem Carried.one (h : Carried Q A B) {cav : Cav} {ref p pin pout : Particle} {T : Mat} {mis : Mat × Mat} {v : Vec} {S : Mat}
    (hT : Q T) (h1 : Q mis.1) (h2 : Q mis.2) (hv : A v) (hS : B S) :
    Q (cavOne cav ref T mis p pin pout v S).1 ∧ A (cavOne cav ref T mis p pin pout v S).2.1 ∧
    B (cavOne cav ref T mis p pin pout v S).2.2.1 := by
  have hT0 := h.cell (i := 5) (x := 0) (by decide) (h.cell (i := 4) (x := 0) (by decide) hT)
  have hT1 : Q (cavOne cav ref T mis p pin pout v S).1 :=
    h.cell (i := 5) (by decide) (h.cell (i := 4) (by decide) hT0)
  refine ⟨hT1, ?_, ?_⟩
  · exact h.vec h2 (h.lon (h.vec hT0 (h.vec h1 hv)))
  · simp only [cavOne]
    refine h.mat h2 ?_
    have hS2 := h.mat hT1 (h.mat h1 hS)
    split
    · exact h.emit hS2
    · exact hS2

theorem Carried.forward (h : Carried Q A B) {env : Env} {cav : Cav} {d : MDat} {S : MSt} (hT : ∀ T ∈ d.transfer, Q T)
    (hm : ∀ m ∈ cav.misalign, Q m.1 ∧ Q m.2) (hv : ∀ v ∈ S.moment0, A v) (hS : ∀ C ∈ S.moment1, B C) :
    (∀ T ∈ (cavForward env cav d S).1.transfer, Q T) ∧ (∀ v ∈ (cavForward env cav d S).2.moment0, A v) ∧
    (∀ C ∈ (cavForward env cav d S).2.moment1, B C) := by
  have key : ∀ r ∈ cavLoop cav S.ref d.transfer cav.misalign S.real (ends env d) S.moment0 S.moment1,
      Q r.1 ∧ A r.2.1 ∧ B r.2.2.1 := by
    intro r hr
    obtain ⟨k, hk⟩ := List.getElem?_of_mem hr
    obtain ⟨T, m, p, e, v, C, k1, k2, -, -, k5, k6, rfl⟩ := cavLoop_get hk
    obtain ⟨m1, m2⟩ := hm m (List.mem_of_getElem? k2)
    exact h.one (hT T (List.mem_of_getElem? k1)) m1 m2 (hv v (List.mem_of_getElem? k5)) (hS C (List.mem_of_getElem? k6))
  refine ⟨fun T hx => ?_, fun v hx => ?_, fun C hx => ?_⟩ <;> obtain ⟨r, hr, rfl⟩ := List.mem_map.1 hx
  · exact (key r hr).1
  · exact (key r hr).2.1
  · exact (key r hr).2.2

theorem Carried.backward (h : Carried Q A B) {T : List Mat} (hT : ∀ M ∈ T, Q M) {S S' : MSt} {e : Option Err}
    (hb : backward T S = (S', e)) (hv : ∀ v ∈ S.moment0, A v) (hS : ∀ C ∈ S.moment1, B C) :
    (∀ v ∈ S'.moment0, A v) ∧ (∀ C ∈ S'.moment1, B C) := by
  have e : S' = (Flame.Moment.backward T S).1 := by rw [hb]
  subst e
  obtain ⟨b1, b2⟩ := backLoop_moved h.nice T S.moment0 S.moment1 S.transmat hT
  constructor
  · intro v' hx
    obtain ⟨k, hk⟩ := List.getElem?_of_mem hx
    obtain ⟨v, M, e, hM, rfl⟩ := b1 k v' hk
    exact h.vec hM (hv v (List.mem_of_getElem? e))
  · intro C' hx
    obtain ⟨k, hk⟩ := List.getElem?_of_mem hx
    obtain ⟨C, M, e, hM, rfl⟩ := b2 k C' hk
    exact h.mat hM (hS C (List.mem_of_getElem? e))

/-- All matrices of a cavity have property `Q`. -/
def CavHas (Q : Mat → Prop) (d : MDat) : Prop :=
  (∀ T ∈ d.transfer, Q T) ∧ ∀ cav, d.cav = some cav → ∀ m ∈ cav.misalign, Q m.1 ∧ Q m.2

theorem zipWith_all {α β γ : Type} {f : α → β → γ} {P : α → Prop} {R : β → Prop} {U : γ → Prop}
    (h : ∀ a b, P a → R b → U (f a b)) : ∀ (l : List α) (r : List β), (∀ a ∈ l, P a) → (∀ b ∈ r, R b) →
      ∀ c ∈ List.zipWith f l r, U c
  | [], _, _, _, c, hc => by simp at hc
  | _ :: _, [], _, _, c, hc => by simp at hc
  | a :: l, b :: r, hl, hr, c, hc => by
    rcases List.mem_cons.1 hc with rfl | hc
    · exact h a b (hl a (by simp)) (hr b (by simp))
    · exact zipWith_all h l r (fun a ha => hl a (by simp [ha])) (fun b hb => hr b (by simp [hb])) c hc

theorem resizeMis_all (h1 : Q 1) {n : Nat} {l : List (Mat × Mat)} (h : ∀ m ∈ l, Q m.1 ∧ Q m.2) :
    ∀ m ∈ resizeMis n l, Q m.1 ∧ Q m.2 := by
  intro m hm
  unfold resizeMis at hm
  rcases List.mem_append.1 hm with hm | hm
  · exact h m (List.mem_of_mem_take hm)
  · rw [(List.mem_replicate.1 hm).2]
    exact ⟨h1, h1⟩

theorem Carried.cavity (h : Carried Q A B)
    (hrec : ∀ c cav ref real ref' phi l, recomputeCav c cav ref real = .ok (ref', phi, l) → ∀ q ∈ l, Q q.2)
    (env : Env) (files : Files) (d : MDat) (s : St MSt) (hd : CavHas Q d) (hv : ∀ v ∈ s.payload.moment0, A v)
    (hS : ∀ C ∈ s.payload.moment1, B C) : CavHas Q (advanceCavity env files d s).1 ∧
      (∀ v ∈ (advanceCavity env files d s).2.1.payload.moment0, A v) ∧
      (∀ C ∈ (advanceCavity env files d s).2.1.payload.moment1, B C) := by
  obtain ⟨hT, hm⟩ := hd
  have mis_all : ∀ {d : MDat} {ref : Particle} {l : List Particle} {mis : List (Mat × Mat)},
      forEach (fun p => getMisalign d ref p) l = .ok mis → ∀ m ∈ mis, Q m.1 ∧ Q m.2 := by
    intro d ref l mis he m hx
    obtain ⟨p, -, hp⟩ := forEach_all he m hx
    exact h.nice.misalign hp
  unfold advanceCavity
  split
  · exact ⟨⟨hT, hm⟩, hv, hS⟩
  rename_i cav hc
  have hmc := hm cav hc
  dsimp only
  split
  · split
    · exact ⟨⟨hT, hm⟩, hv, hS⟩
    split
    · exact ⟨⟨hT, hm⟩, hv, hS⟩
    split
    · exact ⟨⟨hT, hm⟩, hv, hS⟩
    rename_i mis hmis
    have hM := mis_all hmis
    have hZ : ∀ N ∈ List.zipWith (fun T (m : Mat × Mat) => m.2 * (T * m.1)) d.transfer mis, Q N :=
      zipWith_all (P := Q) (R := fun m : Mat × Mat => Q m.1 ∧ Q m.2) (U := Q)
        (fun T m h1 h2 => h.nice.mul h2.2 (h.nice.mul h1 h2.1)) _ _ hT hM
    split
    · rename_i S' e hb
      have h3 := h.backward hZ hb hv hS
      exact ⟨⟨hT, fun c hcc => by cases hcc; exact hM⟩, h3⟩
    · rename_i S' hb
      have h3 := h.backward hZ hb hv hS
      exact ⟨⟨hT, fun c hcc => by cases hcc; exact hM⟩, h3⟩
  split
  · have := h.forward (env := env) (cav := cav) (d := d) (S := { s.payload.recalc with
        ref := d.refOut, real := d.realOut ++ s.payload.recalc.real.drop d.realOut.length }) hT hmc hv hS
    exact ⟨⟨this.1, fun c hcc => by cases hcc; exact hmc⟩, this.2⟩
  have hm1 := resizeMis_all h.nice.one (n := s.payload.recalc.real.length) hmc
  have hT1 := resize_all h.nice.one (n := s.payload.recalc.real.length) hT
  have hre := reload_misalign env files d.conf
    { cav with misalign := resizeMis s.payload.recalc.real.length cav.misalign }
  split
  · rename_i cav1 e hl
    have hl' : reload env files d.conf { cav with misalign := resizeMis s.payload.recalc.real.length cav.misalign } =
      (cav1, some e) := hl
    rw [hl'] at hre
    refine ⟨⟨hT1, fun c hcc => ?_⟩, hv, hS⟩
    cases hcc
    rw [hre]
    exact hm1
  rename_i cav1 hl
  have hl' : reload env files d.conf { cav with misalign := resizeMis s.payload.recalc.real.length cav.misalign } =
    (cav1, none) := hl
  rw [hl'] at hre
  have hm2 : ∀ m ∈ cav1.misalign, Q m.1 ∧ Q m.2 := by rw [hre]; exact hm1
  split
  · exact ⟨⟨hT1, fun c hcc => by cases hcc; exact hm2⟩, hv, hS⟩
  rename_i ref phi l hR
  split
  · exact ⟨⟨hT1, fun c hcc => by cases hcc; exact hm2⟩, hv, hS⟩
  rename_i mis hmis
  have hM := mis_all hmis
  have hTl : ∀ T ∈ l.map (fun q => q.2), Q T := by
    intro T hx
    obtain ⟨q, hq, rfl⟩ := List.mem_map.1 hx
    exact hrec _ _ _ _ _ _ _ hR q hq
  have := h.forward (env := env) (cav := { cav1 with phiRef := some phi, misalign := mis })
    (d := filledDat d s.payload.recalc { cav1 with phiRef := some phi, misalign := mis } ref l)
    (S := filledSt s.payload.recalc ref l) hTl hM hv hS
  exact ⟨⟨this.1, fun c hcc => by cases hcc; exact hM⟩, this.2⟩

/-! ## runs -/

/-- An element other than a stripper whose matrices have property `Q`; if it is a source, its beam has the properties `A` and
`B`. -/
def Carries (Q : Mat → Prop) (A : Vec → Prop) (B : Mat → Prop) (env : Env) (files : Files) (junk : Mat) (base : Nat)
    (e : MElem) : Prop :=
  (∃ t : MType, e.cls = cls env junk base t ∧ Gives Q env t e.dat.conf ∧
    (∀ i, e.dat.istate = some i → (∀ v ∈ i.moment0, A v) ∧ ∀ C ∈ i.moment1, B C) ∧ ∀ T ∈ e.dat.transfer, Q T) ∨
  (e.cls = cavityCls env files junk base ∧ CavHas Q e.dat)

theorem Carried.step (h : Carried Q A B)
    (hrec : ∀ c cav ref real ref' phi l, recomputeCav c cav ref real = .ok (ref', phi, l) → ∀ q ∈ l, Q q.2)
    (env : Env) (files : Files) (junk : Mat) (base : Nat) (e : MElem) (s : St MSt) (he : Carries Q A B env files junk base e)
    (hs : (∀ v ∈ s.payload.moment0, A v) ∧ ∀ C ∈ s.payload.moment1, B C) :
    Carries Q A B env files junk base { e with dat := (e.cls.advance e.dat s).1 } ∧
      (∀ v ∈ (e.cls.advance e.dat s).2.1.payload.moment0, A v) ∧
      ∀ C ∈ (e.cls.advance e.dat s).2.1.payload.moment1, B C := by
  rcases he with ⟨t, hc, hg, hi, hT⟩ | ⟨hc, hd⟩
  · have ha : e.cls.advance = advance env t := by rw [hc]; rfl
    rw [ha]
    by_cases hsrc : t = .source
    · subst hsrc
      have : advance env .source e.dat s = advanceSource e.dat s := rfl
      rw [this]
      unfold advanceSource
      cases hI : e.dat.istate with
      | none => exact ⟨.inl ⟨.source, hc, hg, hi, hT⟩, hs⟩
      | some i =>
        dsimp only
        split
        · exact ⟨.inl ⟨.source, hc, hg, hi, hT⟩, hs⟩
        · exact ⟨.inl ⟨.source, hc, hg, hi, hT⟩, hi i hI⟩
    · obtain ⟨h1, h2, h3, h4⟩ := advance_all h.nice hsrc (s := s) hT hg
      refine ⟨.inl ⟨t, hc, ?_, ?_, h1⟩, fun v' hx => ?_, fun C' hx => ?_⟩
      · dsimp only
        rw [h3]
        exact hg
      · dsimp only
        rw [h4]
        exact hi
      · obtain ⟨k, hk⟩ := List.getElem?_of_mem hx
        obtain ⟨v, M, e, hM, rfl⟩ := h2.1 k v' hk
        exact h.vec hM (hs.1 v (List.mem_of_getElem? e))
      · obtain ⟨k, hk⟩ := List.getElem?_of_mem hx
        obtain ⟨C, M, e, hM, rfl⟩ := h2.2 k C' hk
        exact h.mat hM (hs.2 C (List.mem_of_getElem? e))
  · have ha : e.cls.advance = advanceCavity env files := by rw [hc]; rfl
    rw [ha]
    obtain ⟨h1, h2⟩ := h.cavity hrec env files e.dat s hd hs.1 hs.2
    exact ⟨.inr ⟨hc, h1⟩, h2⟩

theorem Carried.machine {env : Env} {files : Files} {junk : Mat} {base : Nat} {stripper : MCls}
    (cv : CView LCfg) (c : LCfg) (m : Machine LCfg MDat MSt)
    (hm : Machine.new cv (registry env junk base (cavityCls env files junk base) stripper) c = .ok m)
    (es : List LCfg) (hes : cv.elems c = .ok es)
    (hty : ∀ ec ∈ es, ∀ ty, cv.str ec "type" = .ok ty → ty ≠ "stripper" ∧ (∀ t : MType, t.name = ty → Gives Q env t ec) ∧
      (ty = "source" → ∀ i, newState junk ec = .ok i → (∀ v ∈ i.moment0, A v) ∧ ∀ C ∈ i.moment1, B C)) :
    ∀ e ∈ m.elems, Carries Q A B env files junk base e := by
  have hF := machine_moment hm hes
  generalize m.elems = l at hF
  clear hm hes
  induction hF with
  | nil => intro e he; simp at he
  | @cons ec e _ _ hd _ ih =>
    intro e' he'
    rcases List.mem_cons.1 he' with rfl | he'
    · obtain ⟨ty, h1, h2⟩ := hd
      obtain ⟨n2, n3, n4⟩ := hty ec (by simp) ty h1
      rcases h2 with ⟨t, hc, hn, hb⟩ | ⟨hc, rfl, hb⟩ | ⟨-, rfl, -⟩
      · obtain ⟨b1, b2, b3⟩ := build_conf hb
        refine .inl ⟨t, hc, ?_, ?_, ?_⟩
        · rw [b1]
          exact n3 t hn
        · intro i hi
          obtain ⟨ht, hst⟩ := b3 i hi
          exact n4 (by rw [← hn, ht]; rfl) i hst
        · rw [b2]
          simp
      · obtain ⟨d0, cav, h0, hl, he⟩ := loadCavity_ok (show buildCavity env files junk ec = .ok e'.dat from hb)
        refine .inr ⟨hc, ?_, ?_⟩
        · rw [he]
          show ∀ T ∈ d0.transfer, _
          rw [(build_conf h0).2.1]
          simp
        · intro cav' hcc
          rw [he] at hcc
          cases hcc
          have := loadCavity_misalign env files ec noCav
          rw [hl] at this
          have e0 : cav.misalign = [] := this
          rw [e0]
          simp
      · exact absurd rfl n2
    · exact ih (fun ec hec => hty ec (by simp [hec])) e' he'

/-! ## C35: covariances -/

theorem stretched_eq {d : Fin 7 → ℝ} {M N : Mat} (h : Spec.Stretched d M N) : N = congr (Matrix.diagonal d) M := by
  ext i j
  rw [h i j, Moment.congr, Matrix.diagonal_transpose, Matrix.mul_diagonal, Matrix.diagonal_mul]
  ring

theorem covariance_carried : Carried (fun _ => True) (fun _ => True) Covariance where
  nice := ⟨fun _ _ => trivial, fun _ _ => trivial, fun _ _ => trivial⟩
  cell := fun _ _ => trivial
  vec := fun _ _ => trivial
  lon := fun _ => trivial
  mat := fun _ h => covariance_moved _ _ h
  grow := fun hs _ h => by rw [stretched_eq hs]; exact covariance_moved _ _ h

/-- An element other than a stripper; if it is a source, the covariances of its beam are covariances. -/
def Physical (env : Env) (files : Files) (junk : Mat) (base : Nat) (e : MElem) : Prop :=
  (∃ t : MType, e.cls = cls env junk base t ∧ ∀ i, e.dat.istate = some i → ∀ C ∈ i.moment1, Covariance C) ∨
  e.cls = cavityCls env files junk base

theorem physical_iff {env : Env} {files : Files} {junk : Mat} {base : Nat} {e : MElem} :
    Carries (fun _ => True) (fun _ => True) Covariance env files junk base e ↔ Physical env files junk base e := by
  constructor
  · rintro (⟨t, hc, -, hi, -⟩ | ⟨hc, -⟩)
    · exact .inl ⟨t, hc, fun i h => (hi i h).2⟩
    · exact .inr hc
  · rintro (⟨t, hc, hi⟩ | hc)
    · exact .inl ⟨t, hc, ⟨fun _ _ _ _ _ _ _ _ => trivial, fun _ _ _ _ _ _ _ _ _ _ _ _ _ _ _ => trivial⟩,
        fun i h => ⟨fun _ _ => trivial, hi i h⟩, fun _ _ => trivial⟩
    · exact .inr ⟨hc, fun _ _ => trivial, fun _ _ _ _ => ⟨trivial, trivial⟩⟩

/-- In every propagation in either direction through any elements except strippers, cavities with growth of the emittance
included, whether it succeeds or throws, the covariances of all charge states stay symmetric and positive semidefinite; so
this holds for any number of propagations. -/
theorem C35_run (env : Env) (files : Files) (junk : Mat) (base : Nat) (els : List MElem) (s : St MSt) (start : Nat) (max : Int)
    (hE : ∀ e ∈ els, Physical env files junk base e) (hs : ∀ C ∈ s.payload.moment1, Covariance C)
    (r : Run LCfg MDat MSt) (hr : propagate els s start max = some r) :
    (∀ C ∈ r.st.payload.moment1, Covariance C) ∧ ∀ e ∈ r.elems, Physical env files junk base e := by
  obtain ⟨h1, h2⟩ := propagate_inv (E := Carries (fun _ => True) (fun _ => True) Covariance env files junk base)
    (P := fun p => (∀ v ∈ p.moment0, True) ∧ ∀ C ∈ p.moment1, Covariance C)
    (fun e s he hp => covariance_carried.step (fun _ _ _ _ _ _ _ _ _ _ => trivial) env files junk base e s he hp)
    (fun e he => physical_iff.2 (hE e he)) ⟨fun _ _ => trivial, hs⟩ start max hr
  exact ⟨h1.2, fun e he => physical_iff.1 (h2 e he)⟩

/-- Every newly built machine without strippers is as required, if its sources are. -/
theorem C35_machine {env : Env} {files : Files} {junk : Mat} {base : Nat} {stripper : MCls}
    (cv : CView LCfg) (c : LCfg) (m : Machine LCfg MDat MSt)
    (hm : Machine.new cv (registry env junk base (cavityCls env files junk base) stripper) c = .ok m)
    (es : List LCfg) (hes : cv.elems c = .ok es)
    (hty : ∀ ec ∈ es, ∀ ty, cv.str ec "type" = .ok ty → ty ≠ "stripper" ∧
      (ty = "source" → ∀ i, newState junk ec = .ok i → ∀ C ∈ i.moment1, Covariance C)) :
    ∀ e ∈ m.elems, Physical env files junk base e := by
  intro e he
  refine physical_iff.1 (Carried.machine cv c m hm es hes (fun ec hec ty h => ?_) e he)
  obtain ⟨h1, h2⟩ := hty ec hec ty h
  exact ⟨h1, fun t _ => ⟨fun _ _ _ _ _ _ _ _ => trivial, fun _ _ _ _ _ _ _ _ _ _ _ _ _ _ _ => trivial⟩,
    fun hs i hi => ⟨fun _ _ => trivial, h2 hs i hi⟩⟩

/-- A cavity that asks for the growth of the emittance and a beam with a size: the conditions of `C35_run`. -/
example (env : Env) (files : Files) (junk : Mat) (base : Nat) (e : MElem) (hc : e.cls = cavityCls env files junk base)
    (_ : e.dat.cav = some { exGap with emitGrowth := 1 }) :
    Physical env files junk base e ∧ ∀ C ∈ [(1 : Mat)], Covariance C := by
  refine ⟨.inr hc, fun C hC => ?_⟩
  rw [List.mem_singleton.1 hC]
  refine ⟨Matrix.transpose_one, fun x => ?_⟩
  simp only [Fin.sum_univ_seven, Matrix.one_apply]
  simp
  nlinarith [mul_self_nonneg (x 0), mul_self_nonneg (x 1), mul_self_nonneg (x 2), mul_self_nonneg (x 3), mul_self_nonneg (x 4),
    mul_self_nonneg (x 5), mul_self_nonneg (x 6)]

/-! ## C58: the seventh coordinate -/

theorem jump_keeps {m : ℝ} {M : Mat} (h : Keeps7 M) : Keeps7 (jump m M) := by
  intro j
  rw [jump_eq]
  show M 6 j * _ / _ = _
  rw [h j]
  by_cases hj : j = 4 <;> simp [hj]

theorem getCavMat_keeps {cav : Cav} {label : Nat} {Rm Z Es scl fy0 Ek : ℝ} {M : Mat}
    (h : getCavMat cav label Rm Z Es scl fy0 Ek = .ok M) : Keeps7 M := by
  unfold getCavMat at h
  dsimp only at h
  split at h
  · cases h
  rename_i a ha
  split at h
  · cases h
  rename_i g1 hg1
  split at h
  · cases h
  rename_i W1 b fy1 he1
  split at h
  · cases h
  rename_i g2 hg2
  split at h
  · cases h
  rename_i W2 c fy2 he2
  split at h
  · cases h
  rename_i lines hl
  split at h
  · cases h
  rename_i t ht
  cases h
  obtain ⟨hT, hD⟩ := transFold_inv lines ht OnlyT.one Damp.one
  obtain ⟨hL, hDL⟩ := lonM_only Z Es (extent cav.cavData / 2) (C0 / cav.fRF * MtoMM) a b c
    { g1 with Ecen := g1.Ecen - extent cav.cavData / 2 } g2 fy0 fy1
  rw [combine_eq hT hL]
  exact (hD.mul hDL).1

theorem recomputeCav_keeps {c : LCfg} {cav : Cav} {ref ref' : Particle} {real : List Particle} {phi : ℝ}
    {l : List (Particle × Mat)} (h : recomputeCav c cav ref real = .ok (ref', phi, l)) : ∀ q ∈ l, Keeps7 q.2 := by
  unfold recomputeCav at h
  split at h
  · cases h
  split at h
  · cases h
  rename_i l' hl
  cases h
  intro q hq
  obtain ⟨p, -, hp⟩ := forEach_all hl q hq
  split at hp
  · cases hp
  rename_i p' M he
  cases hp
  show Keeps7 M
  unfold initRFCav at he
  split at he
  · cases he
  dsimp only at he
  split at he
  · cases he
  split at he
  · cases he
  split at he
  · cases he
  rename_i N hN
  cases he
  have hk : Keeps7 N := by
    split at hN
    · exact getCavMat_keeps hN
    · obtain ⟨_, _, _, _, hd⟩ := C62_generic hN
      exact hd.1
  split
  · exact jump_keeps hk
  · exact hk

/-- Nothing is correlated with the seventh coordinate. -/
def Flat (S : Mat) : Prop := ∀ i, S i 6 = 0 ∧ S 6 i = 0

theorem keeps_carried : Carried Keeps7 (fun v => v 6 = 1) Flat where
  nice := keeps_nice
  cell := fun hi h => h.setAt hi _ _
  vec := fun hM hv => (mulVec_six hM _).trans hv
  lon := fun hv => by simpa using hv
  mat := by
    intro M S hM hS
    have := homogeneous_moved (s := { (exState false).payload with moment0 := [], moment1 := [S] })
      (s' := { (exState false).payload with moment0 := [], moment1 := [congr M S] }) ⟨by simp, fun C hC => by rw [List.mem_singleton.1 hC]; exact hS⟩
      ⟨by simp, fun k S' hk => by
        cases k with
        | zero => exact ⟨S, M, rfl, hM, by simpa using hk.symm⟩
        | succ k => simp at hk⟩
    exact this.2 _ (by simp)
  grow := fun hs _ h i => ⟨by rw [hs, (h i).1, mul_zero], by rw [hs, (h i).2, mul_zero]⟩

/-- An element other than a stripper whose matrices, including those in its cache, act on the seventh coordinate as the
identity; if it is a source, its beam is homogeneous. -/
def AffineAny (env : Env) (files : Files) (junk : Mat) (base : Nat) (e : MElem) : Prop :=
  Affine env junk base e ∨ (e.cls = cavityCls env files junk base ∧ (∀ T ∈ e.dat.transfer, ∀ j, T 6 j = if j = 6 then 1 else 0) ∧
    ∀ cav, e.dat.cav = some cav → ∀ m ∈ cav.misalign, ∀ j, m.1 6 j = (if j = 6 then 1 else 0) ∧ m.2 6 j = if j = 6 then 1 else 0)

theorem affineAny_step (env : Env) (files : Files) (junk : Mat) (base : Nat) (e : MElem) (s : St MSt)
    (he : AffineAny env files junk base e) (hs : Homogeneous s.payload.moment0 s.payload.moment1) :
    AffineAny env files junk base { e with dat := (e.cls.advance e.dat s).1 } ∧
      Homogeneous (e.cls.advance e.dat s).2.1.payload.moment0 (e.cls.advance e.dat s).2.1.payload.moment1 := by
  rcases he with he | ⟨hc, hT, hm⟩
  · obtain ⟨h1, h2⟩ := affine_step env junk base e s he hs
    exact ⟨.inl h1, h2⟩
  · have ha : e.cls.advance = advanceCavity env files := by rw [hc]; rfl
    rw [ha]
    obtain ⟨⟨h1, h2⟩, h3, h4⟩ := keeps_carried.cavity (fun _ _ _ _ _ _ _ h => recomputeCav_keeps h) env files e.dat s
      ⟨hT, fun cav hcc m hx => ⟨fun j => (hm cav hcc m hx j).1, fun j => (hm cav hcc m hx j).2⟩⟩ hs.1 hs.2
    exact ⟨.inr ⟨hc, h1, fun cav hcc m hx j => ⟨(h2 cav hcc m hx).1 j, (h2 cav hcc m hx).2 j⟩⟩, h3, h4⟩

/-- `C58_orbit` with cavities. -/
theorem C58_run (env : Env) (files : Files) (junk : Mat) (base : Nat) (els : List MElem) (s : St MSt) (start : Nat) (max : Int)
    (hE : ∀ e ∈ els, AffineAny env files junk base e) (hs : Homogeneous s.payload.moment0 s.payload.moment1)
    (r : Run LCfg MDat MSt) (hr : propagate els s start max = some r) :
    Homogeneous r.st.payload.moment0 r.st.payload.moment1 ∧ ∀ e ∈ r.elems, AffineAny env files junk base e :=
  propagate_inv (E := AffineAny env files junk base) (P := fun p => Homogeneous p.moment0 p.moment1)
    (fun e s he hp => affineAny_step env files junk base e s he hp) hE hs start max hr

/-- A newly built machine without strippers whose sources have homogeneous beams and whose matrices are affine. -/
theorem C58_machine_full {env : Env} {files : Files} {junk : Mat} {base : Nat} {stripper : MCls}
    (cv : CView LCfg) (c : LCfg) (m : Machine LCfg MDat MSt)
    (hm : Machine.new cv (registry env junk base (cavityCls env files junk base) stripper) c = .ok m)
    (es : List LCfg) (hes : cv.elems c = .ok es)
    (hty : ∀ ec ∈ es, ∀ ty, cv.str ec "type" = .ok ty → ty ≠ "stripper" ∧ (ty = "tmatrix" → AffineMatrix ec) ∧
      (ty = "source" → ∀ i, newState junk ec = .ok i → Homogeneous i.moment0 i.moment1)) :
    ∀ e ∈ m.elems, AffineAny env files junk base e := by
  have hF := machine_moment hm hes
  generalize m.elems = l at hF
  clear hm hes
  induction hF with
  | nil => intro e he; simp at he
  | @cons ec e _ _ hd _ ih =>
    intro e' he'
    rcases List.mem_cons.1 he' with rfl | he'
    · obtain ⟨ty, h1, h2⟩ := hd
      obtain ⟨n2, n3, n4⟩ := hty ec (by simp) ty h1
      rcases h2 with ⟨t, hc, hn, hb⟩ | ⟨hc, rfl, hb⟩ | ⟨-, rfl, -⟩
      · obtain ⟨b1, b2, b3⟩ := build_conf hb
        refine .inl ⟨t, hc, ?_, ?_, ?_⟩
        · intro ht
          rw [b1]
          exact n3 (by rw [← hn, ht]; rfl)
        · intro i hi
          obtain ⟨ht, hst⟩ := b3 i hi
          exact n4 (by rw [← hn, ht]; rfl) i hst
        · rw [b2]
          simp
      · obtain ⟨d0, cav, h0, hl, he⟩ := loadCavity_ok (show buildCavity env files junk ec = .ok e'.dat from hb)
        refine .inr ⟨hc, ?_, ?_⟩
        · rw [he]
          show ∀ T ∈ d0.transfer, _
          rw [(build_conf h0).2.1]
          simp
        · intro cav' hcc
          rw [he] at hcc
          cases hcc
          have := loadCavity_misalign env files ec noCav
          rw [hl] at this
          have e0 : cav.misalign = [] := this
          rw [e0]
          simp
      · exact absurd rfl n2
    · exact ih (fun ec hec => hty ec (by simp [hec])) e' he'

/-- A cavity that has not been used, and a beam off axis with a size: the conditions of `C58_run`. -/
example (env : Env) (files : Files) (junk : Mat) (base : Nat) (e : MElem) (d : MDat) (c : LCfg)
    (hc : e.cls = cavityCls env files junk base) (hb : buildCavity env files junk c = .ok d) (he : e.dat = d) :
    AffineAny env files junk base e ∧
      Homogeneous [![1, 2, 3, 4, 5, 6, 1]] [Matrix.diagonal ![2, 0, 0, 0, 0, 1, 0]] := by
  obtain ⟨d0, cav, h0, hl, hd⟩ := loadCavity_ok hb
  refine ⟨.inr ⟨hc, ?_, ?_⟩, ?_, ?_⟩
  · rw [he, hd]
    show ∀ T ∈ d0.transfer, _
    rw [(build_conf h0).2.1]
    simp
  · intro cav' hcc
    rw [he, hd] at hcc
    cases hcc
    have := loadCavity_misalign env files c noCav
    rw [hl] at this
    have e0 : cav.misalign = [] := this
    rw [e0]
    simp
  · simp
  · intro S hS i
    rw [List.mem_singleton.1 hS]
    fin_cases i <;> simp [Matrix.diagonal]

theorem growStep_flat {a k : Fin 7} (ha : a ≠ 6) {g : ℝ} {M : Mat} (h : Flat M) : Flat (growStep a k g M) := by
  have e : ∀ i j, M i j = 0 → growStep a k g M i j = 0 := by
    intro i j hij
    unfold growStep
    simp only [setAt]
    split
    · rename_i h1
      obtain ⟨rfl, rfl⟩ := h1
      split
      · rename_i h2
        obtain ⟨rfl, h3⟩ := h2
        rw [← h3, hij, zero_mul, zero_mul]
      · rw [hij, zero_mul]
    · split
      · rename_i h1
        obtain ⟨rfl, rfl⟩ := h1
        rw [hij, zero_mul]
      · exact hij
  exact fun i => ⟨e _ _ (h i).1, e _ _ (h i).2⟩

theorem foldl_flat {α : Type} {f : Mat → α → Mat} (h : ∀ M a, Flat M → Flat (f M a)) (l : List α) {M : Mat} (hM : Flat M) :
    Flat (l.foldl f M) := by
  induction l generalizing M with
  | nil => exact hM
  | cons a l ih => exact ih (h M a hM)

/-- Behind a stripper the beam is homogeneous if it was so before and carried a charge. -/
theorem C58_stripper {d d' : MDat} {s s' : St MSt} (hw : WF s.payload) (hQ : totQ s.payload.real ≠ 0)
    (hs : Homogeneous s.payload.moment0 s.payload.moment1) (h : advanceStripper d s = (d', s', none)) :
    Homogeneous s'.payload.moment0 s'.payload.moment1 := by
  obtain ⟨-, -, -, -, h⟩ := advanceStripper_ok h
  obtain ⟨chg, n, w, -, -, e, -, -⟩ := stripperGetMat_ok h
  rw [e]
  have hq : totQ s.payload.recalc.real = totQ s.payload.real := by
    simp only [MSt.recalc, totQ, List.map_map]
    rfl
  have h6 : s.payload.recalc.calcRms.moment0_env 6 = 1 := by
    have hz : ∀ (l : List Particle) (m : List Vec), m.length = l.length → (∀ v ∈ m, v 6 = 1) →
        (List.zipWith (fun (p : Particle) (v : Vec) => v 6 * p.IonQ) l m).sum = totQ l := by
      intro l
      induction l with
      | nil => intro m _ _; simp [totQ]
      | cons p l ih =>
        intro m hl hm
        cases m with
        | nil => simp at hl
        | cons v m =>
          have := ih m (by simpa using hl) (fun v hv => hm v (by simp [hv]))
          simp only [totQ] at this ⊢
          simp [this, hm v (by simp)]
    show (List.zipWith (fun (p : Particle) (v : Vec) => v 6 * p.IonQ) s.payload.recalc.real s.payload.moment0).sum /
      totQ s.payload.recalc.real = 1
    rw [hz _ _ (by rw [hw.1]; simp [MSt.recalc]) hs.1, div_self]
    rw [hq]
    exact hQ
  have hflat : Flat (recombinedCov s.payload.recalc.calcRms) := by
    have hz : ∀ (i j : Fin 7) (l : List Particle) (m : List (Vec × Mat)) (b : Vec), b 6 = 1 → (i = 6 ∨ j = 6) →
        (∀ q ∈ m, q.1 6 = 1 ∧ Flat q.2) → (List.zipWith (fun (p : Particle) (q : Vec × Mat) =>
          p.IonQ * (q.2 i j + (q.1 i - b i) * (q.1 j - b j))) l m).sum = 0 := by
      intro i j l m b hb hij hm
      apply List.sum_eq_zero
      refine zipWith_all (P := fun _ => True) (R := fun q : Vec × Mat => q.1 6 = 1 ∧ Flat q.2) (U := fun x => x = 0) ?_ _ _
        (fun _ _ => trivial) hm
      rintro p q - ⟨h1, h2⟩
      rcases hij with rfl | rfl
      · rw [(h2 j).2, h1, hb]
        ring
      · rw [(h2 i).1, h1, hb]
        ring
    have hm : ∀ q ∈ List.zip s.payload.moment0 s.payload.moment1, q.1 6 = 1 ∧ Flat q.2 := by
      intro q hx
      obtain ⟨a, b⟩ := q
      obtain ⟨h1, h2⟩ := List.of_mem_zip hx
      exact ⟨hs.1 a h1, hs.2 b h2⟩
    intro i
    constructor
    · exact (congrArg (· / totQ s.payload.recalc.calcRms.real) (hz i 6 _ _ _ h6 (.inr rfl) hm)).trans (zero_div _)
    · exact (congrArg (· / totQ s.payload.recalc.calcRms.real) (hz 6 i _ _ _ h6 (.inl rfl) hm)).trans (zero_div _)
  constructor
  · intro v hv
    obtain ⟨x, -, rfl⟩ := List.mem_map.1 (show v ∈ chg.map (fun _ => s.payload.recalc.calcRms.moment0_env) from hv)
    exact h6
  · intro S hS
    obtain ⟨x, -, rfl⟩ := List.mem_map.1 (show S ∈ chg.map (fun _ => growAngles (foilOf d.conf) (growEnergy (foilOf d.conf)
      (recombinedCov s.payload.recalc.calcRms))) from hS)
    refine foldl_flat (fun M k hM => growStep_flat (by decide) (growStep_flat (by decide) hM)) _ ?_
    exact foldl_flat (fun M k hM => growStep_flat (by decide) hM) _ hflat

/-- Two charge states that carry a charge. -/
noncomputable def exPair : St MSt :=
  { exState false with
    payload := { (exState false).payload with
      real := [exParticle, { exParticle with IonQ := 3 }], moment0 := [fun _ => 1, fun i => if i = 6 then 1 else 2],
      moment1 := [0, Matrix.diagonal fun i => if i = 6 then 0 else 1], transmat := [1, 1] } }

example (env : Env) : WF exPair.payload ∧ totQ exPair.payload.real ≠ 0 ∧
    Homogeneous exPair.payload.moment0 exPair.payload.moment1 ∧
    ∃ s', advanceStripper (exDat env exStripper 0) exPair = (exDat env exStripper 0, s', none) := by
  refine ⟨⟨rfl, rfl, rfl⟩, ?_, ⟨?_, ?_⟩, ?_⟩
  · norm_num [exPair, totQ, exParticle]
  · simp [exPair]
  · intro S hS i
    rcases List.mem_cons.1 (show S ∈ [0, Matrix.diagonal fun i => if i = 6 then 0 else 1] from hS) with rfl | hS
    · exact ⟨rfl, rfl⟩
    · rw [List.mem_singleton.1 hS]
      fin_cases i <;> simp
  · exact (C39_accepts (exDat env exStripper 0) exPair).2
      ⟨rfl, [1 / 3, 1 / 4], [2, 5], by simp [exDat, exStripper], by simp [exDat, exStripper],
        .inl ⟨by simp [textOr, exDat, exStripper], rfl⟩, by simp [listOr, exDat, exStripper],
        by simp [listOr, exDat, exStripper]⟩

/-! ## C68: a pass -/

theorem cavGrown_get {cav : Cav} {ref : Particle} : ∀ {Ts : List Mat} {ms : List (Mat × Mat)} {ps : List Particle}
    {es : List (Particle × Particle)} {vs : List Vec} {Ss : List Mat} {k : Nat} {T : Mat} {m : Mat × Mat} {p : Particle}
    {e : Particle × Particle} {v : Vec} {S : Mat}, cavGrown cav ref Ts ms ps es vs Ss →
    Ts[k]? = some T → ms[k]? = some m → ps[k]? = some p → es[k]? = some e → vs[k]? = some v → Ss[k]? = some S →
      grownOne cav ref T m p e.1 e.2 v S
  | _ :: _, _ :: _, _ :: _, _ :: _, _ :: _, _ :: _, 0, _, _, _, _, _, _, h, h1, h2, h3, h4, h5, h6 => by
    cases h1; cases h2; cases h3; cases h4; cases h5; cases h6
    exact h.1
  | _ :: Ts, _ :: ms, _ :: ps, _ :: es, _ :: vs, _ :: Ss, k + 1, _, _, _, _, _, _, h, h1, h2, h3, h4, h5, h6 =>
    cavGrown_get (Ts := Ts) (ms := ms) (ps := ps) (es := es) (vs := vs) (Ss := Ss) (k := k) h.2 h1 h2 h3 h4 h5 h6
  | [], _, _, _, _, _, _, _, _, _, _, _, _, _, h1, _, _, _, _, _ => by simp at h1
  | _ :: _, [], _, _, _, _, _, _, _, _, _, _, _, _, _, h2, _, _, _, _ => by simp at h2
  | _ :: _, _ :: _, [], _, _, _, _, _, _, _, _, _, _, _, _, _, h3, _, _, _ => by simp at h3
  | _ :: _, _ :: _, _ :: _, [], _, _, _, _, _, _, _, _, _, _, _, _, _, h4, _, _ => by simp at h4
  | _ :: _, _ :: _, _ :: _, _ :: _, [], _, _, _, _, _, _, _, _, _, _, _, _, _, h5, _ => by simp at h5
  | _ :: _, _ :: _, _ :: _, _ :: _, _ :: _, [], _, _, _, _, _, _, _, _, _, _, _, _, _, h6 => by simp at h6

theorem diag_nonneg {S : Mat} (h : Covariance S) (i : Fin 7) : 0 ≤ S i i := by
  have := h.2 (Pi.single i 1)
  simpa [Pi.single_apply] using this

/-- A cavity where it should be that asks for the growth of the emittance and has not been used since it was built or
configured.  The covariance behind it is that moved by the matrix reported, with the angles and the energy stretched; the
mean squares of the angles grow by the spread of the deflections over the bunch, where `p` and `q` are the charge state in
front of and behind the cavity. -/
theorem C68_pass_partial {env : Env} {files : Files} {d d' : MDat} {s s' : St MSt} (hr : s.retreat = false) (h0 : d.refIn = none)
    (hcov : ∀ C ∈ s.payload.moment1, Covariance C)
    (hx : d.dx = 0) (hy : d.dy = 0) (hp : d.pitch = 0) (hyw : d.yaw = 0) (hro : d.roll = 0)
    (h : advanceCavity env files d s = (d', s', none)) (cav : Cav) (hc : d'.cav = some cav) (he : cav.emitGrowth ≠ 0)
    (n : Nat) (S' : Mat) (hS' : s'.payload.moment1[n]? = some S') :
    ∃ p q v S M a b c, s.payload.real[n]? = some p ∧ s'.payload.real[n]? = some q ∧ s.payload.moment0[n]? = some v ∧
      s.payload.moment1[n]? = some S ∧ s'.payload.transmat[n]? = some M ∧
      Spec.Stretched ![1, a, 1, b, 1, c, 1] (M * S * M.transpose) S' ∧ 1 ≤ a ∧ 1 ≤ b ∧ 0 < c ∧
      (∃ k, k = Spec.defocus s.payload.ref.IonZ s.payload.ref.IonEs
            (Spec.gapVoltage cav.ionFys s.payload.ref.IonZ (q.IonW - p.recalc.IonW))
            ((q.beta + p.recalc.beta) / 2 * ((q.gamma + p.recalc.gamma) / 2)) (q.beta * q.gamma)
            (299792458 / cav.fRF * 1000) ∧
        S' 1 1 = (M * S * M.transpose) 1 1 +
          Spec.kickSpread k cav.ionFys (Real.sqrt ((M * S * M.transpose) 4 4)) (S 0 0 + v 0 ^ 2) ∧
        S' 3 3 = (M * S * M.transpose) 3 3 +
          Spec.kickSpread k cav.ionFys (Real.sqrt ((M * S * M.transpose) 4 4)) (S 2 2 + v 2 ^ 2)) ∧
      (0 ≤ 72 * Real.cos cav.ionFys ^ 2 + Real.sqrt ((M * S * M.transpose) 4 4) * Real.sin cav.ionFys → 1 ≤ c) := by
  obtain ⟨cav0, -, ⟨hh, -⟩ | ⟨-, cav1, ref, phi, l, mis, -, hrec, hmis, hf, rfl, rfl⟩⟩ := forward_cases hr h
  · exact absurd hh (miss _ h0)
  have hcc : { cav1 with phiRef := some phi, misalign := mis } = cav := Option.some.inj hc
  rw [hcc] at hf hS' ⊢
  have hm1 : cav.misalign = mis := by rw [← hcc]
  have hz : ∀ m ∈ cav.misalign, m = (1, 1) := by
    rw [hm1]
    intro m hm
    obtain ⟨p, -, hp'⟩ := forEach_all hmis m hm
    obtain ⟨z1, z2⟩ := getMisalign_ok hp'
    rw [getMisalign_eq d ref p z1 z2, hx, hy, hp, hyw, hro, rotMat_split, turn_zero, offs_zero] at hp'
    simp only [mul_one, inv_one, (middle_inv ref p z1 z2 _).1] at hp'
    exact (Except.ok.inj hp').symm
  have hS1 : ((cavLoop cav (filledSt s.payload.recalc ref l).ref (l.map (fun q => q.2)) cav.misalign
      (filledSt s.payload.recalc ref l).real (ends env (filledDat d s.payload.recalc cav ref l)) s.payload.moment0
      s.payload.moment1).map (fun q => q.2.2.1))[n]? = some S' := hS'
  rw [List.getElem?_map, Option.map_eq_some_iff] at hS1
  obtain ⟨r, hrk, rfl⟩ := hS1
  obtain ⟨T, m, q, e, v, S, k1, k2, k3, k4, k5, k6, rfl⟩ := cavLoop_get hrk
  obtain rfl := hz m (List.mem_of_getElem? k2)
  have hg : cavGrown cav (filledSt s.payload.recalc ref l).ref (l.map (fun q => q.2)) cav.misalign
      (filledSt s.payload.recalc ref l).real (ends env (filledDat d s.payload.recalc cav ref l)) s.payload.moment0
      s.payload.moment1 := by
    unfold cavFault at hf
    by_contra hn
    rw [if_neg (by exact hn)] at hf
    cases hf
  have hgr := cavGrown_get hg k1 k2 k3 k4 k5 k6 he
  have hl := recomputeCav_length hrec
  have hen : ∃ p, s.payload.real[n]? = some p ∧ e.1 = p.recalc ∧ e.2 = q := by
    have k4' : (List.zip s.payload.recalc.real ((l.map (fun q => q.1)).map Particle.recalc ++
        List.replicate (s.payload.recalc.real.length - ((l.map (fun q => q.1)).map Particle.recalc).length) env.junk))[n]? =
        some e := k4
    rw [show s.payload.recalc.real.length - ((l.map (fun q => q.1)).map Particle.recalc).length = 0 by simp [hl],
      List.replicate_zero, List.append_nil, List.getElem?_zip_eq_some] at k4'
    obtain ⟨k7, k8⟩ := k4'
    have k7' : (s.payload.real.map Particle.recalc)[n]? = some e.1 := k7
    rw [List.getElem?_map, Option.map_eq_some_iff] at k7'
    obtain ⟨p, hp1, hp2⟩ := k7'
    have k3' : ((l.map (fun q => q.1)).map Particle.recalc)[n]? = some q := k3
    rw [k3'] at k8
    exact ⟨p, hp1, hp2.symm, (Option.some.inj k8).symm⟩
  obtain ⟨p, hp1, he1, he2⟩ := hen
  have hrf : (filledSt s.payload.recalc ref l).ref.IonZ = s.payload.ref.IonZ ∧
      (filledSt s.payload.recalc ref l).ref.IonEs = s.payload.ref.IonEs := by
    unfold recomputeCav at hrec
    split at hrec
    · cases hrec
    rename_i r f hlong
    split at hrec
    · cases hrec
    cases hrec
    unfold propagateLong at hlong
    dsimp only at hlong
    split at hlong
    · cases hlong
    split at hlong
    · cases hlong
    split at hlong
    · cases hlong
    cases hlong
    exact ⟨rfl, rfl⟩
  have hM0 : (cavForward env cav (filledDat d s.payload.recalc cav ref l) (filledSt s.payload.recalc ref l)).2.transmat[n]? =
      some (cavOne cav (filledSt s.payload.recalc ref l).ref T (1, 1) q e.1 e.2 v S).2.2.2 := by
    show ((cavLoop cav (filledSt s.payload.recalc ref l).ref (l.map (fun q => q.2)) cav.misalign
      (filledSt s.payload.recalc ref l).real (ends env (filledDat d s.payload.recalc cav ref l)) s.payload.moment0
      s.payload.moment1).map (fun q => q.2.2.2))[n]? = _
    rw [List.getElem?_map, hrk]
    rfl
  obtain ⟨rf, hrf0⟩ : ∃ rf, (filledSt s.payload.recalc ref l).ref = rf := ⟨_, rfl⟩
  rw [hrf0] at hgr hrf hM0 ⊢
  have hS0 := hcov S (List.mem_of_getElem? k6)
  obtain ⟨T1, hT1⟩ : ∃ T1, (cavOne cav rf T (1, 1) q e.1 e.2 v S).1 = T1 := ⟨_, rfl⟩
  have e1 : (1 : Mat).mulVec v = v := Matrix.one_mulVec v
  have e2 : ∀ C : Mat, Moment.congr 1 C = C := fun C => by simp [Moment.congr]
  have hgr' : emitFactors cav rf e.1 e.2 q.beta q.gamma (S 0 0) (v 0) (S 2 2) (v 2) (T1 * S * T1.transpose) ≠ none := by
    have := hgr
    dsimp only at this
    rw [e1, e2, hT1] at this
    exact this
  obtain ⟨⟨a, b, c⟩, habc⟩ := Option.ne_none_iff_exists'.1 hgr'
  have hN : Covariance (T1 * S * T1.transpose) := covariance_moved T1 S hS0
  obtain ⟨g1, ⟨k, hk, g2, g3⟩, g4, g5, g6, g7⟩ := C68_growth_partial habc (diag_nonneg hN 1) (diag_nonneg hN 3) (diag_nonneg hN 4)
    (diag_nonneg hN 5) (diag_nonneg hS0 0) (diag_nonneg hS0 2)
  have hS3 : (cavOne cav rf T (1, 1) q e.1 e.2 v S).2.2.1 =
      emitGrowth cav rf e.1 e.2 q.beta q.gamma (S 0 0) (v 0) (S 2 2) (v 2) (T1 * S * T1.transpose) := by
    rw [← hT1]
    simp only [cavOne, if_pos he, e1, e2]
    rfl
  have hM : ((cavOne cav rf T (1, 1) q e.1 e.2 v S).2.2.2) = T1 := by
    rw [← hT1]
    simp only [cavOne, mul_one, one_mul]
  refine ⟨p, q, v, S, T1, a, b, c, hp1, k3, k5, k6, ?_, ?_, g4, g5, g6, ⟨k, ?_, ?_, ?_⟩, g7⟩
  · exact hM0.trans (congrArg some hM)
  · rw [hS3]
    exact g1
  · rw [hk, hrf.1, hrf.2, he1, he2]
  · rw [hS3]
    exact g2
  · rw [hS3]
    exact g3

/-- No coordinate of the particles of the bunch, and no combination of coordinates, is the same for all of them. -/
def Solid (S : Mat) : Prop := ∀ x : Fin 7 → ℝ, (∃ i, i ≠ 6 ∧ x i ≠ 0) → 0 < ∑ i, ∑ j, x i * S i j * x j

theorem solid_moved {A S : Mat} (hS : Solid S) (hA : (phaseSpace A).det ≠ 0) (i : Fin 7) (hi : i ≠ 6) :
    0 < (A * S * A.transpose) i i := by
  have e : (A * S * A.transpose) i i = ∑ a, ∑ b, A i a * S a b * A i b := by
    rw [Matrix.mul_apply, Finset.sum_comm]
    refine Finset.sum_congr rfl fun b _ => ?_
    rw [Matrix.mul_apply, Finset.sum_mul]
    rfl
  rw [e]
  refine hS (fun j => A i j) ?_
  by_contra hn
  push Not at hn
  obtain ⟨k, rfl⟩ : ∃ k : Fin 6, k.castSucc = i := ⟨i.castPred hi, Fin.castSucc_castPred i hi⟩
  exact hA (Matrix.det_eq_zero_of_row_eq_zero k fun j => hn j.castSucc (Fin.castSucc_lt_last j).ne)

theorem increase_some {d : Option ℝ} {old : ℝ} (h : 0 < old) : ∃ x, increase d old = some x := by
  unfold increase
  split
  · exact ⟨_, rfl⟩
  · rw [if_pos h]
    split <;> exact ⟨_, rfl⟩

theorem emitFactors_some {cav : Cav} {ref pin pout : Particle} {x2 cx y2 cy : ℝ} {M : Mat} (hf : cav.fRF ≠ 0)
    (hz : ref.IonZ ≠ 0) (he : ref.IonEs ≠ 0) (hi : Moving pin) (ho : Moving pout) (h1 : 0 < M 1 1) (h3 : 0 < M 3 3)
    (h5 : 0 < M 5 5) : emitFactors cav ref pin pout pout.beta pout.gamma x2 cx y2 cy M ≠ none := by
  have b1 := hi.beta_pos
  have b2 := ho.beta_pos
  have g1 := hi.one_lt
  have g2 := ho.one_lt
  have hl : 0 < M 5 5 * (1 / ((pout.gamma + pin.gamma) / 2 - 1) / ref.IonEs * MeVtoeV *
      (1 / ((pout.gamma + pin.gamma) / 2 - 1) / ref.IonEs * MeVtoeV)) := by
    refine mul_pos h5 (mul_self_pos.2 (mul_ne_zero (div_ne_zero (one_div_ne_zero ?_) he) MeVtoeV_ne))
    linarith
  unfold emitFactors
  dsimp only
  rw [if_neg]
  · obtain ⟨a, ha⟩ := increase_some (d := angleGrowth cav (kickPer cav ref pin pout pout.beta pout.gamma) (M 4 4) x2 cx) h1
    obtain ⟨b, hb⟩ := increase_some (d := angleGrowth cav (kickPer cav ref pin pout pout.beta pout.gamma) (M 4 4) y2 cy) h3
    obtain ⟨c, hc⟩ := increase_some (d := energyGrowth cav (kickPer cav ref pin pout pout.beta pout.gamma)
      ((pout.beta + pin.beta) / 2) ((pout.gamma + pin.gamma) / 2) (M 4 4)) hl
    rw [ha, hb, hc]
    simp
  · rintro (h | h | h | h | h | h | h | h)
    · exact hf h
    · exact hz h
    · exact he h
    all_goals linarith

theorem cavGrown_of {cav : Cav} {ref : Particle} : ∀ {Ts : List Mat} {ms : List (Mat × Mat)} {ps : List Particle}
    {es : List (Particle × Particle)} {vs : List Vec} {Ss : List Mat},
    (∀ T ∈ Ts, ∀ m ∈ ms, ∀ k : Nat, ∀ p e, ps[k]? = some p → es[k]? = some e → ∀ v ∈ vs, ∀ S ∈ Ss,
      grownOne cav ref T m p e.1 e.2 v S) → cavGrown cav ref Ts ms ps es vs Ss
  | T :: Ts, m :: ms, p :: ps, e :: es, v :: vs, S :: Ss, h =>
    ⟨h T (List.mem_cons_self ..) m (List.mem_cons_self ..) 0 p e rfl rfl v (List.mem_cons_self ..) S (List.mem_cons_self ..),
      cavGrown_of (Ts := Ts) (ms := ms) (ps := ps) (es := es) (vs := vs) (Ss := Ss) fun T hT m hm k p e hp he v hv S hS =>
        h T (List.mem_cons_of_mem _ hT) m (List.mem_cons_of_mem _ hm) (k + 1) p e hp he v (List.mem_cons_of_mem _ hv) S
          (List.mem_cons_of_mem _ hS)⟩
  | [], _, _, _, _, _, _ => trivial
  | _ :: _, [], _, _, _, _, _ => trivial
  | _ :: _, _ :: _, [], _, _, _, _ => trivial
  | _ :: _, _ :: _, _ :: _, [], _, _, _ => trivial
  | _ :: _, _ :: _, _ :: _, _ :: _, [], _, _ => trivial
  | _ :: _, _ :: _, _ :: _, _ :: _, _ :: _, [], _ => trivial

/-- The pass succeeds with growth of the emittance too, if the bunch extends into all directions. -/
theorem C68_succeeds {env : Env} {files : Files} {d : MDat} {s : St MSt} {cav0 cav : Cav} {scl phi : ℝ}
    (hr : s.retreat = false) (h0 : d.refIn = none) (hc : d.cav = some cav0)
    (hre : reload env files d.conf { cav0 with misalign := resizeMis s.payload.recalc.real.length cav0.misalign } = (cav, none))
    (hscl : getNum d.conf "scl_fac" = .ok scl) (hn : 2 ≤ cav.cavData.rows.length)
    (hm : Moving s.payload.ref.recalc ∧ |s.payload.ref.IonZ| * (mapOf cav.cavData).voltage scl < s.payload.ref.IonEk)
    (hphi : drivenPhase d.conf cav s.payload.ref.recalc (cav.fRF / s.payload.ref.SampleFreq) scl = .ok phi)
    (hp : ∀ p ∈ s.payload.real, Moving p.recalc ∧ p.SampleFreq ≠ 0 ∧
      |p.IonZ| * (mapOf cav.cavData).voltage scl < p.IonEk ∧ ∃ M, matrixOf cav scl phi p.recalc = .ok M)
    (hf : cav.fRF ≠ 0) (hz : s.payload.ref.IonZ ≠ 0) (hs : ∀ S ∈ s.payload.moment1, Solid S) :
    ∃ d' s', advanceCavity env files d s = (d', s', none) := by
  obtain ⟨ref, l, mis, h1, h2, h3, hE, hZ, hl⟩ := forward_reaches hr h0 hc hre hscl hn hm hphi hp
  refine ⟨_, _, Prod.ext rfl (Prod.ext rfl (h3.trans ?_))⟩
  unfold cavFault
  refine if_pos (cavGrown_of ?_)
  intro T hT m hm' k p e hk he v _ S hS _
  dsimp only
  obtain ⟨q, hq, rfl⟩ := List.mem_map.1 (show T ∈ l.map (fun q => q.2) from hT)
  obtain ⟨⟨r, hr0, hd⟩, hk7, -⟩ := C62_regular hf (by
    intro p hp'
    obtain ⟨p, hp'', rfl⟩ := List.mem_map.1 (show p ∈ s.payload.real.map Particle.recalc from hp')
    exact (hp p hp'').2.1) h1 q hq
  have hdet := Damp.det (M := q.2) ⟨hk7, hd⟩ hr0
  obtain ⟨p', -, hp'⟩ := forEach_all h2 m hm'
  have hmis := volume_nice.misalign (M := m.1) (IM := m.2) hp'
  have hlen := recomputeCav_length h1
  have k3 : ((l.map (fun q => q.1)).map Particle.recalc)[k]? = some p := hk
  have he' : (List.zip s.payload.recalc.real ((l.map (fun q => q.1)).map Particle.recalc ++
      List.replicate (s.payload.recalc.real.length - ((l.map (fun q => q.1)).map Particle.recalc).length) env.junk))[k]? =
      some e := he
  rw [show s.payload.recalc.real.length - ((l.map (fun q => q.1)).map Particle.recalc).length = 0 by simp [hlen],
    List.replicate_zero, List.append_nil, List.getElem?_zip_eq_some] at he'
  obtain ⟨k7, k8⟩ := he'
  rw [k3] at k8
  have hpe : e.2 = p := (Option.some.inj k8).symm
  have hpin : Moving e.1 := by
    obtain ⟨x, hx, hx'⟩ := List.mem_map.1 (show e.1 ∈ s.payload.real.map Particle.recalc from List.mem_of_getElem? k7)
    rw [← hx']
    exact (hp x hx).1
  have hpout : Moving e.2 := by
    rw [hpe]
    obtain ⟨x, hx, hx'⟩ := List.mem_map.1 (List.mem_of_getElem? k3)
    obtain ⟨y, hy, hy'⟩ := List.mem_map.1 hx
    rw [← hx', ← hy']
    exact hl y hy
  have hN : ∀ i, i ≠ 6 → 0 < (Moment.congr
      (cavOne { cav with phiRef := some phi, misalign := mis } (filledSt s.payload.recalc ref l).ref q.2 m p e.1 e.2 v S).1
      (Moment.congr m.1 S)) i i := by
    intro i hi
    generalize hT1 : (cavOne { cav with phiRef := some phi, misalign := mis } (filledSt s.payload.recalc ref l).ref q.2 m p
      e.1 e.2 v S).1 = T1
    have hph : phaseSpace T1 = phaseSpace q.2 := by
      rw [← hT1]
      ext a b
      fin_cases a <;> fin_cases b <;> rfl
    have e1 : Moment.congr T1 (Moment.congr m.1 S) = (T1 * m.1) * S * (T1 * m.1).transpose := by
      simp only [Moment.congr, Matrix.transpose_mul, Matrix.mul_assoc]
    rw [e1]
    refine solid_moved (hs S hS) ?_ i hi
    rw [phaseSpace_mul hmis.1.1, Matrix.det_mul, hph]
    refine mul_ne_zero hdet ?_
    have := hmis.1.2
    intro h
    rw [h] at this
    norm_num at this
  rw [← hpe] at hN ⊢
  exact emitFactors_some hf (by exact hZ.trans_ne hz) (by exact hE.trans_ne hm.1.mass.ne') hpin hpout (hN 1 (by decide))
    (hN 3 (by decide)) (hN 5 (by decide))

/-- The cavity of `Beam`, where growth is asked for, in front of a beam with spread in all directions: the hypotheses of
`C68_pass_partial` are met. -/
example (env : Env) (files : Files) : ∃ d' s', advanceCavity env files
      { exCavity env with cav := some { exWeak with emitGrowth := 1 } } (exState false) = (d', s', none) ∧
    (exState false).retreat = false ∧ (exCavity env).refIn = none ∧ (∀ C ∈ (exState false).payload.moment1, Covariance C) ∧
    (exCavity env).dx = 0 ∧ (exCavity env).dy = 0 ∧ (exCavity env).pitch = 0 ∧ (exCavity env).yaw = 0 ∧
    (exCavity env).roll = 0 ∧ ∃ cav S', d'.cav = some cav ∧ cav.emitGrowth ≠ 0 ∧ s'.payload.moment1[0]? = some S' := by
  have hm := exParticle_moving
  have hv := exWeak_voltage
  have hph : ∃ x, drivenPhase (exCavity env).conf { exWeak with emitGrowth := 1, misalign := [(1, 1)] } exParticle.recalc
      (exWeak.fRF / exParticle.SampleFreq) 1 = .ok x := by
    unfold drivenPhase
    rw [show getNumD (exCavity env).conf "syncflag" 1 = 1 by simp [getNumD, exCavity, exDat, exSet]]
    simp only [le_refl, if_true]
    unfold getCavPhase
    rw [if_neg]
    · exact ⟨_, rfl⟩
    · norm_num [exParticle, Particle.recalc, MeVtoeV]
  obtain ⟨x, hx⟩ := hph
  obtain ⟨M, hM⟩ := exWeak_matrix x
  have hZ : |exParticle.IonZ| * (mapOf exWeak.cavData).voltage 1 < exParticle.IonEk := by
    rw [hv]
    norm_num [exParticle]
  have hre : ∀ mis, reload env files (exCavity env).conf { exWeak with emitGrowth := 1, misalign := mis } =
      ({ exWeak with emitGrowth := 1, misalign := mis }, none) := fun mis =>
    reload_same (cav := { exWeak with emitGrowth := 1 }) (show getStr (exCavity env).conf "cavtype" = .ok exWeak.cavType by
        simp [getStr, exCavity, exDat, exSet, exWeak, exGap])
      (fun _ => ⟨"gap.lat", by simp [getStr, exCavity, exDat, exSet], by simp [getStrD, exCavity, exDat, exSet, exWeak]⟩) mis
  have hsq : ∀ x : Fin 7 → ℝ, ∑ i, ∑ j, x i * (1 : Mat) i j * x j = ∑ i, x i * x i := by
    intro x
    refine Finset.sum_congr rfl fun i _ => ?_
    simp [Matrix.one_apply]
  obtain ⟨d', s', h⟩ := C68_succeeds (env := env) (files := files)
    (d := { exCavity env with cav := some { exWeak with emitGrowth := 1 } }) (s := exState false)
    (scl := 1) (phi := x) (cav0 := { exWeak with emitGrowth := 1 })
    (cav := { exWeak with emitGrowth := 1, misalign := [(1, 1)] }) rfl rfl rfl (hre _)
    (by simp [getNum, exCavity, exDat, exSet]) (by simp [exWeak, exGap, exTable]) ⟨hm, hZ⟩ hx (by
      intro p hp
      rw [List.mem_singleton.1 (show p ∈ [exParticle] from hp)]
      exact ⟨hm, by norm_num [exParticle], hZ, M, hM⟩) (by norm_num [exWeak, exGap])
    (by norm_num [exState, exParticle]) (by
      intro S hS
      rw [List.mem_singleton.1 (show S ∈ [1] from hS)]
      rintro x ⟨i, -, hi⟩
      rw [hsq]
      exact Finset.sum_pos' (fun i _ => mul_self_nonneg _) ⟨i, Finset.mem_univ i, mul_self_pos.2 hi⟩)
  refine ⟨d', s', h, rfl, rfl, ?_, rfl, rfl, rfl, rfl, rfl, ?_⟩
  · intro S hS
    rw [List.mem_singleton.1 (show S ∈ [1] from hS)]
    refine ⟨Matrix.transpose_one, fun x => ?_⟩
    rw [hsq]
    exact Finset.sum_nonneg fun i _ => mul_self_nonneg _
  obtain ⟨cav0, hc0, ⟨hh, -⟩ | ⟨-, cav1, ref, phi, l, mis, hr1, hrec, hmis, -, rfl, rfl⟩⟩ := forward_cases rfl h
  · exact absurd hh (miss _ rfl)
  obtain rfl : { exWeak with emitGrowth := 1 } = cav0 := Option.some.inj hc0
  have e := (hre _).symm.trans hr1
  have e1 : cav1.emitGrowth = 1 := congrArg (fun q : Cav × Option Err => q.1.emitGrowth) e.symm
  refine ⟨_, _, rfl, ?_, List.getElem?_eq_getElem ?_⟩
  · show cav1.emitGrowth ≠ 0
    rw [e1]
    norm_num
  · have hl := recomputeCav_length hrec
    have hl1 : l.length = 1 := hl
    have hl2 : mis.length = 1 := by rw [forEach_length hmis, List.length_map, hl1]
    show 0 < List.length (List.map _ (cavLoop _ _ _ _ _ _ _ _))
    rw [List.length_map]
    refine cavLoop_length _ _ 1 _ _ _ _ _ _ ?_ ?_ ?_ ?_ (le_refl 1) (le_refl 1)
    · show 1 ≤ (l.map _).length
      rw [List.length_map, hl1]
    · exact hl2.ge
    · show 1 ≤ ((l.map _).map _).length
      rw [List.length_map, List.length_map, hl1]
    · rw [ends_length]
      exact le_refl 1

end Flame.Cavity
