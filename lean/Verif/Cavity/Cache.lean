import Verif.Cavity.Undo

/-!
# The cache of an RF cavity: C33 and C21
-/

namespace Flame.Cavity

open Flame.Mach
open Flame.Linear (LVal LCfg getNum getNumD getVec)
open Flame.Moment
open Flame.Moment.Spec (Use outputs rebuilt)

/-! ## what the fields left alone by `assign` are used for -/

/-- `cd` with the fields of `o` that `assign` does not copy or that a pass sets. -/
def cov (cd o : Cav) : Cav :=
  { cd with
    cavType := o.cavType
    dataFile := o.dataFile
    synAccTab := o.synAccTab
    refNrm := o.refNrm
    synComplex := o.synComplex
    phiRef := o.phiRef
    misalign := o.misalign }

theorem lineOf_cov (cd o : Cav) : lineOf (cov cd o) = lineOf cd := rfl

theorem linesFrom_cov (cd o : Cav) (k0 k1 : ℝ) (a b c : Kin) : ∀ (l : List RawParams) (s : ℝ),
    linesFrom (cov cd o) k0 k1 a b c s l = linesFrom cd k0 k1 a b c s l
  | [], _ => rfl
  | P :: l, s => by
    rw [linesFrom, linesFrom, linesFrom_cov cd o k0 k1 a b c l, lineOf_cov]

theorem getCavMat_cov (cd o : Cav) : getCavMat (cov cd o) = getCavMat cd := by
  have : getCavMatParams (cov cd o) = getCavMatParams cd := by
    funext k0 k1 a b c
    unfold getCavMatParams
    rw [linesFrom_cov]
    rfl
  funext label Rm Z Es scl fy0 Ek
  unfold getCavMat
  rw [this]
  rfl

theorem initRFCav_cov (c : LCfg) (cd o : Cav) : initRFCav c (cov cd o) = initRFCav c cd := by
  funext phi p
  unfold initRFCav
  rw [getCavMat_cov]
  rfl

/-- The tables of the driven phase are the same, if they are used. -/
def SameTables (cd o : Cav) : Prop :=
  cd.cavi = 0 → o.synAccTab = cd.synAccTab ∧ o.refNrm = cd.refNrm ∧ o.synComplex = cd.synComplex

theorem getCavPhase_tab (i : Nat) (h : i ≠ 0) (ref : Particle) (a b : ℝ) (P Q : List ℝ) :
    getCavPhase i ref a b P = getCavPhase i ref a b Q := by
  unfold getCavPhase
  dsimp only
  split
  · rfl
  · split <;> first | rfl | exact absurd rfl h

theorem drivenPhase_cov {cd o : Cav} (h : SameTables cd o) (c : LCfg) (ref : Particle) (m e : ℝ) :
    drivenPhase c (cov cd o) ref m e = drivenPhase c cd ref m e := by
  by_cases hi : cd.cavi = 0
  · obtain ⟨h1, h2, h3⟩ := h hi
    unfold drivenPhase cov
    dsimp only
    rw [h1, h2, h3]
  · have key : ∀ x : Cav, x.cavi = cd.cavi → x.ionFys = cd.ionFys → drivenPhase c x ref m e =
        if 1 ≤ getNumD c "syncflag" 1 then getCavPhase cd.cavi ref cd.ionFys m []
        else match getNum c "phi" with
          | .error e => .error e
          | .ok phi => .ok (phi * Real.pi / 180) := by
      intro x h1 h2
      unfold drivenPhase
      dsimp only
      split
      · split
        · rw [if_neg (by rw [h1]; exact fun h => hi h.1), h1, h2, getCavPhase_tab _ hi]
        · rw [h1, h2, getCavPhase_tab _ hi]
      · rfl
    rw [key (cov cd o) rfl rfl, key cd rfl rfl]

theorem recomputeCav_cov {cd o : Cav} (h : SameTables cd o) (c : LCfg) (ref : Particle) (real : List Particle) :
    recomputeCav c (cov cd o) ref real = recomputeCav c cd ref real := by
  have : propagateLong c (cov cd o) ref = propagateLong c cd ref := by
    unfold propagateLong
    simp only [drivenPhase_cov h]
    rfl
  unfold recomputeCav
  rw [this, initRFCav_cov]

theorem cavOne_cov (cd o : Cav) : cavOne (cov cd o) = cavOne cd := rfl

theorem cavLoop_cov (cd o : Cav) (ref : Particle) : ∀ (Ts : List Mat) (ms : List (Mat × Mat)) (ps : List Particle)
    (es : List (Particle × Particle)) (vs : List Vec) (Ss : List Mat),
    cavLoop (cov cd o) ref Ts ms ps es vs Ss = cavLoop cd ref Ts ms ps es vs Ss := by
  intro Ts
  induction Ts with
  | nil => intros; rfl
  | cons T Ts ih =>
    intro ms ps es vs Ss
    cases ms with
    | nil => rfl
    | cons m ms =>
    cases ps with
    | nil => rfl
    | cons p ps =>
    cases es with
    | nil => rfl
    | cons e es =>
    cases vs with
    | nil => rfl
    | cons v vs =>
    cases Ss with
    | nil => rfl
    | cons S Ss => rw [cavLoop, cavLoop, ih, cavOne_cov]

theorem cavGrown_cov (cd o : Cav) (ref : Particle) : ∀ (Ts : List Mat) (ms : List (Mat × Mat)) (ps : List Particle)
    (es : List (Particle × Particle)) (vs : List Vec) (Ss : List Mat),
    cavGrown (cov cd o) ref Ts ms ps es vs Ss ↔ cavGrown cd ref Ts ms ps es vs Ss := by
  intro Ts
  induction Ts with
  | nil => intros; rfl
  | cons T Ts ih =>
    intro ms ps es vs Ss
    cases ms with
    | nil => rfl
    | cons m ms =>
    cases ps with
    | nil => rfl
    | cons p ps =>
    cases es with
    | nil => rfl
    | cons e es =>
    cases vs with
    | nil => rfl
    | cons v vs =>
    cases Ss with
    | nil => rfl
    | cons S Ss =>
      rw [cavGrown, cavGrown, ih]
      exact Iff.rfl

/-! ## the entries of a stored matrix that a pass sets do not matter -/

/-- The matrices differ at most in the entries that a pass clears before it uses them. -/
def Zeroed (T U : Mat) : Prop := setAt (setAt T 4 6 0) 5 6 0 = setAt (setAt U 4 6 0) 5 6 0

theorem cavOne_zeroed {T U : Mat} (h : Zeroed T U) (cav : Cav) (ref : Particle) (m : Mat × Mat) (p q r : Particle) (v : Vec)
    (S : Mat) : cavOne cav ref T m p q r v S = cavOne cav ref U m p q r v S := by
  unfold cavOne
  rw [h]

theorem grownOne_zeroed {T U : Mat} (h : Zeroed T U) (cav : Cav) (ref : Particle) (m : Mat × Mat) (p q r : Particle) (v : Vec)
    (S : Mat) : grownOne cav ref T m p q r v S ↔ grownOne cav ref U m p q r v S := by
  unfold grownOne
  rw [cavOne_zeroed h]

theorem cavOne_stored (cav : Cav) (ref : Particle) (T : Mat) (m : Mat × Mat) (p q r : Particle) (v : Vec) (S : Mat) :
    Zeroed (cavOne cav ref T m p q r v S).1 T := by
  unfold Zeroed cavOne
  dsimp only
  funext i j
  simp only [setAt]
  split_ifs <;> rfl

theorem cavLoop_zeroed {Ts Us : List Mat} (h : List.Forall₂ Zeroed Ts Us) (cav : Cav) (ref : Particle) :
    ∀ (ms : List (Mat × Mat)) (ps : List Particle) (es : List (Particle × Particle)) (vs : List Vec) (Ss : List Mat),
    cavLoop cav ref Ts ms ps es vs Ss = cavLoop cav ref Us ms ps es vs Ss ∧
      (cavGrown cav ref Ts ms ps es vs Ss ↔ cavGrown cav ref Us ms ps es vs Ss) := by
  induction h with
  | nil => intros; exact ⟨rfl, Iff.rfl⟩
  | cons h1 _ ih =>
    intro ms ps es vs Ss
    cases ms with
    | nil => exact ⟨rfl, Iff.rfl⟩
    | cons m ms =>
    cases ps with
    | nil => exact ⟨rfl, Iff.rfl⟩
    | cons p ps =>
    cases es with
    | nil => exact ⟨rfl, Iff.rfl⟩
    | cons e es =>
    cases vs with
    | nil => exact ⟨rfl, Iff.rfl⟩
    | cons v vs =>
    cases Ss with
    | nil => exact ⟨rfl, Iff.rfl⟩
    | cons S Ss =>
      rw [cavLoop, cavLoop, cavGrown, cavGrown, (ih ms ps es vs Ss).1, (ih ms ps es vs Ss).2, cavOne_zeroed h1, grownOne_zeroed h1]
      exact ⟨rfl, Iff.rfl⟩

theorem cavLoop_stored (cav : Cav) (ref : Particle) : ∀ (Ts : List Mat) (ms : List (Mat × Mat)) (ps : List Particle)
    (es : List (Particle × Particle)) (vs : List Vec) (Ss : List Mat), ms.length = Ts.length → ps.length = Ts.length →
    es.length = Ts.length → vs.length = Ts.length → Ss.length = Ts.length →
    List.Forall₂ Zeroed ((cavLoop cav ref Ts ms ps es vs Ss).map (fun q => q.1)) Ts
  | [], _, _, _, _, _, _, _, _, _, _ => by simp [cavLoop]
  | T :: Ts, m :: ms, p :: ps, e :: es, v :: vs, S :: Ss, h1, h2, h3, h4, h5 => by
    rw [cavLoop, List.map_cons]
    exact .cons (cavOne_stored _ _ _ _ _ _ _ _ _) (cavLoop_stored cav ref Ts ms ps es vs Ss (by simpa using h1)
      (by simpa using h2) (by simpa using h3) (by simpa using h4) (by simpa using h5))
  | _ :: _, [], _, _, _, _, h, _, _, _, _ => by simp at h
  | _ :: _, _, [], _, _, _, _, h, _, _, _ => by simp at h
  | _ :: _, _, _, [], _, _, _, _, h, _, _ => by simp at h
  | _ :: _, _, _, _, [], _, _, _, _, h, _ => by simp at h
  | _ :: _, _, _, _, _, [], _, _, _, _, h => by simp at h

/-! ## loading again -/

/-- The tables of a generic cavity are those of its file. -/
def Loaded (files : Files) (o : Cav) : Prop :=
  o.cavType = "Generic" → ∃ top els lat, files.generic o.dataFile = .ok (top, els) ∧
    foldE genericElem els ([], []) = .ok (lat, o.synAccTab) ∧ o.refNrm = optNum top "RefNorm" ∧
    o.synComplex = (match getVec top "SyncFit" with
      | .ok v => some v
      | .error _ => none)

theorem loadShipped_again {files : Files} {dir lab : String} {x y cd : Cav} (h : loadShipped files dir lab x = (cd, none))
    (hl : y.lattice = x.lattice) : loadShipped files dir lab y =
      ({ y with lattice := cd.lattice, mlptable := cd.mlptable, cavData := cd.cavData }, none) ∧
      cd = { x with lattice := cd.lattice, mlptable := cd.mlptable, cavData := cd.cavData } := by
  unfold loadShipped at h ⊢
  dsimp only at h ⊢
  split at h
  · cases h
  split at h
  · cases h
  split at h
  · cases h
  split at h
  · cases h
  split at h
  · cases h
  rename_i h1 _ _ _ h2 _ _ h3
  cases h
  rw [if_neg h1, if_neg h2]
  dsimp only
  rw [hl]
  exact ⟨rfl, rfl⟩

theorem loadGeneric_again {files : Files} {x y cd : Cav} (h : loadGeneric files x = (cd, none))
    (hl : y.lattice = []) (hx : x.lattice = []) (hs : y.synAccTab = []) (hsx : x.synAccTab = [])
    (hf : y.dataFile = x.dataFile) (hr : y.cRm = x.cRm) : loadGeneric files y =
      ({ y with
        lattice := cd.lattice
        synAccTab := cd.synAccTab
        cavData := cd.cavData
        cRm := cd.cRm
        refNrm := cd.refNrm
        synComplex := cd.synComplex }, none) ∧
      cd = { x with
        lattice := cd.lattice
        synAccTab := cd.synAccTab
        cavData := cd.cavData
        cRm := cd.cRm
        refNrm := cd.refNrm
        synComplex := cd.synComplex } ∧ Loaded files cd := by
  unfold loadGeneric at h ⊢
  rw [hf, hl, hs]
  rw [hx, hsx] at h
  dsimp only at h ⊢
  split at h
  · cases h
  rename_i top els hg
  split at h
  · cases h
  rename_i lat tab hfold
  split at h
  · cases h
  rename_i Ez hE
  split at h
  · cases h
  rename_i n k m hrv
  cases h
  rw [hr]
  exact ⟨rfl, rfl, fun _ => ⟨top, els, lat, hg, hfold, rfl, rfl⟩⟩

/-- The type and the file in the configuration are those of the cavity. -/
def Current (c : LCfg) (o : Cav) : Prop := getStr c "cavtype" = .ok o.cavType ∧
  (o.cavType = "Generic" → ∃ f, getStr c "datafile" = .ok f ∧ o.dataFile = getStrD c "Eng_Data_Dir" "." ++ "/" ++ f)

theorem shipped_ne {ty lab : String} {i : Nat} (h : shipped ty = some (i, lab)) : i ≠ 0 := by
  unfold shipped at h
  split at h <;> first | (cases h; decide) | cases h

theorem load_again {env : Env} {files : Files} {c : LCfg} {cd : Cav} (h : loadCavity env files c noCav = (cd, none)) (o : Cav) :
    Loaded files cd ∧ Current c cd ∧
    ∃ w, loadCavity env files c { cov cd o with lattice := [], synAccTab := [] } = (cov cd w, none) ∧ SameTables cd w ∧
      Loaded files w ∧ Current c w ∧ w.misalign = o.misalign ∧ w.phiRef = none := by
  obtain ⟨-, -, hc1, hc2⟩ := loadCavity_map h
  unfold loadCavity at h ⊢
  dsimp only at h ⊢
  split at h
  · cases h
  split at h
  · cases h
  split at h
  · cases h
  split at h
  · cases h
  split at h
  · cases h
  rename_i hmg
  split at h
  · cases h
  rename_i ty hty
  rw [if_neg hmg]
  split at h
  · rename_i i lab hs
    have hne : ty ≠ "Generic" := by
      rintro rfl
      cases hs
    obtain ⟨a1, a2⟩ := loadShipped_again (y := { cov cd o with
      lattice := []
      synAccTab := []
      fRF := _
      ionFys := _
      phiRef := none
      cRm := _
      forcettfcalc := _
      mpoleLevel := _
      emitGrowth := _
      cavType := ty
      cavi := i }) h rfl
    have ht : cd.cavType = ty := by rw [a2]
    refine ⟨fun hG => absurd (ht.symm.trans hG) hne, ⟨hc1, hc2⟩, { cov cd o with cavType := ty, synAccTab := [], phiRef := none },
      (a1.trans (congrArg (·, none) ?_)), ?_, fun hG => absurd hG hne, ⟨hty, fun hG => absurd hG hne⟩, rfl, rfl⟩
    · clear a1
      unfold cov
      dsimp only at a2 ⊢
      rw [Cav.mk.injEq]
      exact ⟨rfl, rfl, rfl, rfl, rfl, rfl, rfl, rfl, (congrArg Cav.fRF a2).symm, (congrArg Cav.ionFys a2).symm, rfl,
        (congrArg Cav.cRm a2).symm, (congrArg Cav.cavi a2).symm, (congrArg Cav.forcettfcalc a2).symm,
        (congrArg Cav.mpoleLevel a2).symm, (congrArg Cav.emitGrowth a2).symm, rfl⟩
    · intro h0
      rw [congrArg Cav.cavi a2] at h0
      have h0 : i = 0 := h0
      exact absurd h0 (shipped_ne hs)
  · rename_i hs
    split at h
    · rename_i hG
      split at h
      · cases h
      rename_i fn hfn
      rw [if_pos hG]
      obtain ⟨a1, a2, a3⟩ := loadGeneric_again (y := { cov cd o with
        lattice := []
        synAccTab := []
        fRF := _
        ionFys := _
        phiRef := none
        cRm := _
        forcettfcalc := _
        mpoleLevel := _
        emitGrowth := _
        cavType := ty
        dataFile := getStrD c "Eng_Data_Dir" "." ++ "/" ++ fn
        cavi := 0 }) h rfl rfl rfl rfl rfl rfl
      have ht : cd.cavType = ty := by rw [a2]
      have hd : cd.dataFile = getStrD c "Eng_Data_Dir" "." ++ "/" ++ fn := by rw [a2]
      refine ⟨a3, ⟨hc1, hc2⟩, { cov cd o with
          cavType := ty
          dataFile := getStrD c "Eng_Data_Dir" "." ++ "/" ++ fn
          synAccTab := cd.synAccTab
          refNrm := cd.refNrm
          synComplex := cd.synComplex
          phiRef := none }, (a1.trans (congrArg (·, none) ?_)), fun _ => ⟨rfl, rfl, rfl⟩, ?_, ⟨hty, fun _ => ⟨fn, hfn, rfl⟩⟩, rfl, rfl⟩
      · clear a1
        unfold cov
        dsimp only at a2 ⊢
        rw [Cav.mk.injEq]
        exact ⟨rfl, rfl, rfl, rfl, rfl, rfl, rfl, rfl, (congrArg Cav.fRF a2).symm, (congrArg Cav.ionFys a2).symm, rfl,
          rfl, (congrArg Cav.cavi a2).symm, (congrArg Cav.forcettfcalc a2).symm,
          (congrArg Cav.mpoleLevel a2).symm, (congrArg Cav.emitGrowth a2).symm, rfl⟩
      · intro _
        have := a3 (ht.trans hG)
        rw [hd] at this
        exact this
    · cases h

theorem generic_of {env : Env} {files : Files} {c : LCfg} {cd x : Cav} (h : loadCavity env files c x = (cd, none))
    (h0 : cd.cavi = 0) : cd.cavType = "Generic" := by
  unfold loadCavity at h
  dsimp only at h
  split at h
  · cases h
  split at h
  · cases h
  split at h
  · cases h
  split at h
  · cases h
  split at h
  · cases h
  split at h
  · cases h
  split at h
  · rename_i i lab hs
    obtain ⟨-, a2⟩ := loadShipped_again h rfl
    rw [congrArg Cav.cavi a2] at h0
    exact absurd h0 (shipped_ne hs)
  · split at h
    · rename_i hG
      split at h
      · cases h
      obtain ⟨-, -, h4, -⟩ := loadGeneric_map h
      exact h4.trans hG
    · cases h

/-- Before the matrices are computed the cavity is as good as new. -/
theorem reload_works {env : Env} {files : Files} {c : LCfg} {cd o : Cav} (h : loadCavity env files c noCav = (cd, none))
    (ho : Loaded files o) : ∃ w, reload env files c (cov cd o) = (cov cd w, none) ∧ SameTables cd w ∧ Loaded files w ∧
      Current c w ∧ w.misalign = o.misalign ∧ (w.phiRef = o.phiRef ∨ w.phiRef = none) := by
  obtain ⟨hL, ⟨hc1, hc2⟩, w, hw, hw1, hw2, hw3, hw4, hw5⟩ := load_again h o
  unfold reload
  rw [hc1]
  dsimp only
  have same : o.cavType = cd.cavType → (cd.cavType = "Generic" → o.dataFile = cd.dataFile) → SameTables cd o := by
    intro h1 h2 h0
    have hG : cd.cavType = "Generic" := generic_of h h0
    obtain ⟨t1, e1, l1, a1, a2, a3, a4⟩ := ho (h1.trans hG)
    obtain ⟨t2, e2, l2, b1, b2, b3, b4⟩ := hL hG
    rw [h2 hG, b1] at a1
    cases a1
    rw [b2] at a2
    have := congrArg Prod.snd (Except.ok.inj a2)
    exact ⟨this.symm, a3.trans b3.symm, a4.trans b4.symm⟩
  split
  · exact ⟨w, hw, hw1, hw2, hw3, hw4, .inr hw5⟩
  · rename_i h1
    have h1 : o.cavType = cd.cavType := not_not.mp h1
    split
    · rename_i h2
      have h2 : o.cavType = "Generic" := h2
      obtain ⟨f, hf, hd⟩ := hc2 (h1.symm.trans h2)
      rw [hf]
      dsimp only
      split
      · exact ⟨w, hw, hw1, hw2, hw3, hw4, .inr hw5⟩
      · rename_i h3
        have h3 : o.dataFile = _ := not_not.mp h3
        refine ⟨o, rfl, same h1 fun _ => ?_, ho, ⟨?_, ?_⟩, rfl, .inl rfl⟩
        · rw [h3, hd]
        · rw [h1]; exact hc1
        · intro _
          exact ⟨f, hf, h3⟩
    · rename_i h2
      have h2 : ¬ o.cavType = "Generic" := h2
      refine ⟨o, rfl, same h1 fun hG => absurd (h1.trans hG) h2, ho, ⟨?_, fun hG => absurd hG h2⟩, rfl, .inl rfl⟩
      rw [h1]; exact hc1

/-! ## one pass -/

theorem cavForward_out (env : Env) (cd o w : Cav) (d e : MDat) (S : MSt) (h1 : e.length = d.length) (h2 : e.realIn = d.realIn)
    (h3 : e.realOut = d.realOut) (h4 : List.Forall₂ Zeroed e.transfer d.transfer) (h5 : o.phiRef = w.phiRef)
    (h6 : o.misalign = w.misalign) :
    (cavForward env (cov cd o) e S).2 = (cavForward env (cov cd w) d S).2 ∧
      cavFault env (cov cd o) e S = cavFault env (cov cd w) d S := by
  have he : ends env e = ends env d := by
    unfold ends
    rw [h2, h3]
  have hm : (cov cd o).misalign = (cov cd w).misalign := h6
  have hp : caviphi env (cov cd o) = caviphi env (cov cd w) := by
    unfold caviphi
    show (match o.phiRef with | none => _ | some x => _) = _
    rw [h5]
    rfl
  obtain ⟨z1, z2⟩ := cavLoop_zeroed h4 cd S.ref (cov cd w).misalign S.real (ends env d) S.moment0 S.moment1
  constructor
  · unfold cavForward
    dsimp only
    rw [cavLoop_cov, cavLoop_cov, he, hm, z1, hp, h1]
  · unfold cavFault
    rw [cavGrown_cov, cavGrown_cov, he, hm, z2]

/-- What a pass computes if nothing is stored. -/
noncomputable def anew (env : Env) (d : MDat) (cd : Cav) (S : MSt) : MSt × Option Err :=
  match recomputeCav d.conf cd S.ref S.real with
  | .error e => (S, some e)
  | .ok (ref, phi, l) =>
    match forEach (fun p => getMisalign d ref p) (l.map (fun q => q.1)) with
    | .error e => (S, some e)
    | .ok mis =>
      let cav := cov cd { cd with phiRef := some phi, misalign := mis }
      ((cavForward env cav (filledDat d S cav ref l) (filledSt S ref l)).2,
        cavFault env cav (filledDat d S cav ref l) (filledSt S ref l))

/-- What is stored is what would be computed. -/
structure Kept (d : MDat) (cd o : Cav) (c : MDat) (r : Particle) : Prop where
  refIn : c.refIn = some r
  recalc : r.recalc = r ∧ ∀ p ∈ c.realIn, p.recalc = p
  comp : ∃ ref phi l, recomputeCav d.conf cd r c.realIn = .ok (ref, phi, l) ∧ o.phiRef = some phi ∧
    forEach (fun p => getMisalign d ref p) (l.map (fun q => q.1)) = .ok o.misalign ∧ c.refOut = ref.recalc ∧
    c.realOut = (l.map (fun q => q.1)).map Particle.recalc ∧ List.Forall₂ Zeroed c.transfer (l.map (fun q => q.2))

/-- `c` is the element built as `d`, after some use; `cd` are the cavity's fields of `d`. -/
structure Used (files : Files) (d : MDat) (cd : Cav) (c : MDat) : Prop where
  frame : c = { d with
    refIn := c.refIn, refOut := c.refOut, realIn := c.realIn, realOut := c.realOut, transfer := c.transfer, cav := c.cav }
  cav : ∃ o, c.cav = some (cov cd o) ∧ Loaded files o ∧ (c.refIn = none ∨ ∃ r, Kept d cd o c r)

theorem used_misalign {d : MDat} {cd : Cav} {files : Files} {c : MDat} (h : Used files d cd c) : getMisalign c = getMisalign d := by
  rw [h.frame]
  rfl

theorem zeroed_trans {a b c : List Mat} (h : List.Forall₂ Zeroed a b) (k : List.Forall₂ Zeroed b c) : List.Forall₂ Zeroed a c := by
  induction h generalizing c with
  | nil => exact k
  | cons h1 _ ih =>
    cases k with
    | cons k1 k2 => exact .cons (h1.trans k1) (ih k2)

/-- What the loop over the charge states leaves behind. -/
theorem used_forward {env : Env} {files : Files} {d c : MDat} {cd o : Cav} {S : MSt} {r ref : Particle} {phi : ℝ}
    {l : List (Particle × Mat)}
    (hf : c = { d with
      refIn := c.refIn, refOut := c.refOut, realIn := c.realIn, realOut := c.realOut, transfer := c.transfer, cav := c.cav })
    (hL : Loaded files o) (h1 : c.refIn = some r) (h2 : r.recalc = r) (h3 : ∀ p ∈ c.realIn, p.recalc = p)
    (h4 : recomputeCav d.conf cd r c.realIn = .ok (ref, phi, l)) (h5 : o.phiRef = some phi)
    (h6 : forEach (fun p => getMisalign d ref p) (l.map (fun q => q.1)) = .ok o.misalign) (h7 : c.refOut = ref.recalc)
    (h8 : c.realOut = (l.map (fun q => q.1)).map Particle.recalc) (h9 : List.Forall₂ Zeroed c.transfer (l.map (fun q => q.2)))
    (hw0 : S.moment0.length = c.realIn.length) (hw1 : S.moment1.length = c.realIn.length) :
    Used files d cd (cavForward env (cov cd o) c (filledSt S ref l)).1 := by
  have hl := recomputeCav_length h4
  have ht : c.transfer.length = l.length := by simpa using h9.length_eq
  have hm : o.misalign.length = l.length := by simpa using forEach_length h6
  refine ⟨?_, o, rfl, hL, .inr ⟨r, h1, ⟨h2, h3⟩, ref, phi, l, h4, h5, h6, h7, h8, ?_⟩⟩
  · unfold cavForward
    dsimp only
    rw [hf]
  · refine zeroed_trans (cavLoop_stored _ _ _ _ _ _ _ _ ?_ ?_ ?_ ?_ ?_) h9
    · exact hm.trans ht.symm
    · simp [filledSt, MSt.recalc, ht]
    · rw [ends_length, ht, hl]
    · exact hw0.trans (hl.symm.trans ht.symm)
    · exact hw1.trans (hl.symm.trans ht.symm)

/-- A forward pass of a cavity that was used before gives what a new cavity gives. -/
theorem pass_used {env : Env} {files : Files} {d c : MDat} {cd : Cav} {s : St MSt}
    (hl : loadCavity env files d.conf noCav = (cd, none)) (h : Used files d cd c) (hr : s.retreat = false) :
    (advanceCavity env files c s).2 = ({ s with payload := (anew env d cd s.payload.recalc).1 }, (anew env d cd s.payload.recalc).2) ∧
    (WF s.payload → (anew env d cd s.payload.recalc).2 = none → Used files d cd (advanceCavity env files c s).1) := by
  obtain ⟨o, ho, hL, hk⟩ := h.cav
  have hconf : c.conf = d.conf := by rw [h.frame]
  have hlen : c.length = d.length := by rw [h.frame]
  have hmis := used_misalign h
  have hcalc := calc_recalc s.payload
  unfold advanceCavity
  rw [ho]
  dsimp only
  rw [if_neg (by rw [hr]; simp)]
  by_cases hit' : hit c s.payload.recalc
  · rw [if_pos hit']
    obtain ⟨-, ⟨r, hr1, hs⟩, hreal⟩ := hit'
    rcases hk with hk | ⟨r', K⟩
    · rw [hk] at hr1; cases hr1
    have : r' = r := Option.some.inj (K.refIn.symm.trans hr1)
    subst this
    have e1 : r' = s.payload.recalc.ref := same_eq K.recalc.1 hcalc.1 hs
    have e2 : c.realIn = s.payload.recalc.real := forall₂_same_eq K.recalc.2 hcalc.2 hreal
    obtain ⟨ref, phi, l, k1, k2, k3, k4, k5, k6⟩ := K.comp
    rw [e1, e2] at k1
    have hll := recomputeCav_length k1
    have hS : ({ s.payload.recalc with
        ref := c.refOut, real := c.realOut ++ s.payload.recalc.real.drop c.realOut.length } : MSt) =
        filledSt s.payload.recalc ref l := by
      rw [k4, k5, List.drop_eq_nil_of_le (by simp [hll]), List.append_nil]
      rfl
    unfold anew
    rw [k1]
    dsimp only
    rw [k3]
    dsimp only
    rw [hS]
    obtain ⟨o1, o2⟩ := cavForward_out env cd o { cd with phiRef := some phi, misalign := o.misalign }
      (filledDat d s.payload.recalc (cov cd { cd with phiRef := some phi, misalign := o.misalign }) ref l) c
      (filledSt s.payload.recalc ref l) hlen e2 k5 k6 k2 rfl
    refine ⟨by rw [o1, o2], fun hw _ => ?_⟩
    rw [← e2] at k1
    rw [← e1] at k1
    refine used_forward h.frame hL K.refIn K.recalc.1 K.recalc.2 k1 k2 k3 k4 k5 k6 ?_ ?_
    · rw [e2]
      exact hw.1.trans (by simp [MSt.recalc])
    · rw [e2]
      exact hw.2.1.trans (by simp [MSt.recalc])
  · rw [if_neg hit']
    obtain ⟨w, hw, hw1, hw2, -⟩ := reload_works (o := { o with misalign := resizeMis s.payload.recalc.real.length (cov cd o).misalign })
      hl hL
    have hw' : reload env files c.conf { cov cd o with misalign := resizeMis s.payload.recalc.real.length (cov cd o).misalign } =
        (cov cd w, none) := by
      rw [hconf]
      exact hw
    have hm : ∀ e : MDat, e.length = c.length → e.dx = c.dx → e.dy = c.dy → e.pitch = c.pitch → e.yaw = c.yaw → e.roll = c.roll →
        getMisalign e = getMisalign d := fun e a1 a2 a3 a4 a5 a6 => (getMisalign_congr a1 a2 a3 a4 a5 a6).trans hmis
    rw [hw']
    dsimp only
    rw [recomputeCav_cov hw1, hconf]
    unfold anew
    cases hrec : recomputeCav d.conf cd s.payload.recalc.ref s.payload.recalc.real with
    | error e => exact ⟨rfl, fun _ h => by cases h⟩
    | ok q =>
      obtain ⟨ref, phi, l⟩ := q
      dsimp only
      iterate 2
        conv in getMisalign (MDat.mk _ c.length _ _ _ _ _ _ _ _ (some _) _ _ _ _ _) => rw [hm _ (by rfl) (by rfl) (by rfl) (by rfl) (by rfl) (by rfl)]
      cases hmis2 : forEach (fun p => getMisalign d ref p) (l.map (fun q => q.1)) with
      | error e => exact ⟨rfl, fun _ h => by cases h⟩
      | ok mis =>
        dsimp only
        obtain ⟨o1, o2⟩ := cavForward_out env cd { w with phiRef := some phi, misalign := mis }
          { cd with phiRef := some phi, misalign := mis }
          (filledDat d s.payload.recalc (cov cd { cd with phiRef := some phi, misalign := mis }) ref l)
          (filledDat c s.payload.recalc (cov cd { w with phiRef := some phi, misalign := mis }) ref l)
          (filledSt s.payload.recalc ref l) hlen rfl rfl
          (List.forall₂_same.2 fun _ _ => rfl) rfl rfl
        refine ⟨?_, fun hwf _ => ?_⟩
        · rw [← o1, ← o2]
          rfl
        · refine used_forward (S := s.payload.recalc)
            (c := { filledDat c s.payload.recalc (cov cd { w with phiRef := some phi, misalign := mis }) ref l with conf := d.conf })
            (o := { w with phiRef := some phi, misalign := mis }) ?_ hw2 rfl hcalc.1 hcalc.2 hrec rfl hmis2 rfl rfl
            (List.forall₂_same.2 fun _ _ => rfl) ?_ ?_
          · rw [h.frame]
            rfl
          · exact hwf.1.trans (by simp [MSt.recalc, filledDat])
          · exact hwf.2.1.trans (by simp [MSt.recalc, filledDat])

/-- A backward pass of a cavity without pitch and yaw leaves it as it was. -/
theorem back_used {env : Env} {files : Files} {d c : MDat} {cd : Cav} {s : St MSt} (hp : d.pitch = 0) (hy : d.yaw = 0)
    (h : Used files d cd c) (hr : s.retreat = true) : Used files d cd (advanceCavity env files c s).1 := by
  obtain ⟨o, ho, hL, hk⟩ := h.cav
  have hmis := used_misalign h
  unfold advanceCavity
  rw [ho]
  dsimp only
  rw [if_pos hr]
  split
  · exact h
  rename_i hcb
  split
  · exact h
  rename_i hlen
  split
  · exact h
  rename_i mis hm
  have hcb := not_not.mp hcb
  have hlen := not_not.mp hlen
  rw [hmis] at hm
  rcases hk with hk | ⟨r, K⟩
  · exact absurd hk hcb.1
  obtain ⟨ref, phi, l, k1, k2, k3, k4, k5, k6⟩ := K.comp
  have hll : mis.length = o.misalign.length := by
    rw [forEach_length hm, forEach_length k3]
    have e1 := hcb.2.2.length_eq
    have e2 := congrArg List.length k5
    simp only [List.length_map] at e2
    simp [List.length_zipWith, hlen, ← e1, e2]
  have hmm : mis = o.misalign := by
    apply List.ext_getElem hll
    intro i h1 h2
    rw [misalign_roll hp hy hm _ (List.getElem_mem h1), misalign_roll hp hy k3 _ (List.getElem_mem h2)]
  have key : ({ c with cav := some { cov cd o with misalign := mis } } : MDat) = c := by
    rw [hmm, ← show c.cav = some { cov cd o with misalign := o.misalign } from ho]
  split
  · exact key ▸ h
  · exact key ▸ h

/-! ## histories -/

/-- The history without the backward passes. -/
def onward : List (Use MDat (St MSt)) → List (Use MDat (St MSt))
  | [] => []
  | .pass s :: h => if s.retreat then onward h else .pass s :: onward h
  | .reconf d :: h => .reconf d :: onward h

theorem built {env : Env} {files : Files} {junk : Mat} {c : LCfg} {d : MDat} (h : buildCavity env files junk c = .ok d) :
    ∃ cd, loadCavity env files d.conf noCav = (cd, none) ∧ d.cav = some cd ∧ d.refIn = none := by
  obtain ⟨d0, cav, h0, h1, rfl⟩ := loadCavity_ok h
  unfold build at h0
  cases h0
  exact ⟨cav, h1, rfl, rfl⟩

theorem used_built {env : Env} {files : Files} {d : MDat} {cd : Cav} (h : loadCavity env files d.conf noCav = (cd, none))
    (hc : d.cav = some cd) (hr : d.refIn = none) : Used files d cd d :=
  ⟨rfl, cd, hc, (load_again h cd).1, .inl hr⟩

theorem used_assign {files : Files} {d d' c : MDat} {cd cd' : Cav} (hu : Used files d cd c) (hc : d'.cav = some cd') (hr : d'.refIn = none) :
    Used files d' cd' (assignCavity c d') := by
  obtain ⟨o, ho, hL, -⟩ := hu.cav
  unfold assignCavity
  rw [ho, hc]
  exact ⟨rfl, { cd' with cavType := o.cavType, dataFile := o.dataFile, synAccTab := o.synAccTab, refNrm := o.refNrm,
                         synComplex := o.synComplex }, rfl, hL, .inl hr⟩

theorem onward_nil {env : Env} {files : Files} : ∀ (h : List (Use MDat (St MSt))) (d c : MDat),
    rebuilt (advanceCavity env files) id d (onward h) = [] →
    (outputs (advanceCavity env files) assignCavity c h).filter (fun o => !o.1.retreat) = []
  | [], _, _, _ => rfl
  | .pass s :: h, d, c, hn => by
    rw [onward] at hn
    split at hn
    · rename_i hr
      rw [outputs, List.filter_cons, (cavity_place env files c s).2.1, hr]
      exact onward_nil h d _ hn
    · simp [rebuilt] at hn
  | .reconf d' :: h, _, _, hn => onward_nil h _ _ hn

/-- C33 for RF cavities, as far as it is true: however a cavity is used and reconfigured, a forward pass gives what a cavity
built anew gives, provided that no earlier forward pass has failed.  Between the forward passes there may be backward
passes, successful or not, if the cavities have neither pitch nor yaw.
Missing: backward passes themselves (they need what is stored by the forward pass), pitch and yaw together with backward passes,
and passes after an exception. -/
theorem C33_cavity_partial (env : Env) (files : Files) (junk : Mat) (d : MDat) (h : List (Use MDat (St MSt)))
    (hd : ∃ c, buildCavity env files junk c = .ok d) (hh : ∀ d', Use.reconf d' ∈ h → ∃ c, buildCavity env files junk c = .ok d')
    (hw : ∀ s, Use.pass s ∈ h → WF s.payload)
    (hb : (∀ s, Use.pass s ∈ h → s.retreat = false) ∨
      ((d.pitch = 0 ∧ d.yaw = 0) ∧ ∀ d', Use.reconf d' ∈ h → d'.pitch = 0 ∧ d'.yaw = 0))
    (he : ∀ o ∈ (rebuilt (advanceCavity env files) id d (onward h)).dropLast, o.2 = none) :
    (outputs (advanceCavity env files) assignCavity d h).filter (fun o => !o.1.retreat) =
      rebuilt (advanceCavity env files) id d (onward h) := by
  obtain ⟨c0, h0⟩ := hd
  obtain ⟨cd, h1, h2, h3⟩ := built h0
  suffices ∀ (h : List (Use MDat (St MSt))) (d c : MDat) (cd : Cav),
      (∀ d', Use.reconf d' ∈ h → ∃ c, buildCavity env files junk c = .ok d') → (∀ s, Use.pass s ∈ h → WF s.payload) →
      ((∀ s, Use.pass s ∈ h → s.retreat = false) ∨
        ((d.pitch = 0 ∧ d.yaw = 0) ∧ ∀ d', Use.reconf d' ∈ h → d'.pitch = 0 ∧ d'.yaw = 0)) →
      (∀ o ∈ (rebuilt (advanceCavity env files) id d (onward h)).dropLast, o.2 = none) →
      loadCavity env files d.conf noCav = (cd, none) → d.cav = some cd → d.refIn = none → Used files d cd c →
      (outputs (advanceCavity env files) assignCavity c h).filter (fun o => !o.1.retreat) =
        rebuilt (advanceCavity env files) id d (onward h) from
    this h d d cd hh hw hb he h1 h2 h3 (used_built h1 h2 h3)
  clear he hw hh hb h1 h2 h3 h0 cd c0 h d
  intro h
  induction h with
  | nil => intros; rfl
  | cons u h ih =>
    intro d c cd hh hw hb he h1 h2 h3 hu
    cases u with
    | reconf d' =>
      obtain ⟨c0, h0⟩ := hh d' (by simp)
      obtain ⟨cd', h1', h2', h3'⟩ := built h0
      rw [onward, rebuilt, outputs]
      refine ih d' (assignCavity c d') cd' (fun x hx => hh x (by simp [hx])) (fun x hx => hw x (by simp [hx])) ?_ he h1' h2' h3'
        (used_assign hu h2' h3')
      rcases hb with hb | ⟨-, hb⟩
      · exact .inl fun x hx => hb x (by simp [hx])
      · exact .inr ⟨hb d' (by simp), fun x hx => hb x (by simp [hx])⟩
    | pass s =>
      have hb' : (∀ s, Use.pass s ∈ h → s.retreat = false) ∨
          ((d.pitch = 0 ∧ d.yaw = 0) ∧ ∀ d', Use.reconf d' ∈ h → d'.pitch = 0 ∧ d'.yaw = 0) := by
        rcases hb with hb | ⟨hb0, hb⟩
        · exact .inl fun x hx => hb x (by simp [hx])
        · exact .inr ⟨hb0, fun x hx => hb x (by simp [hx])⟩
      rw [outputs, List.filter_cons, (cavity_place env files c s).2.1]
      cases hr : s.retreat with
      | true =>
        rw [onward, if_pos hr] at he ⊢
        rcases hb with hb | ⟨hb0, -⟩
        · have := hb s (by simp)
          rw [hr] at this
          cases this
        exact ih d _ cd (fun x hx => hh x (by simp [hx])) (fun x hx => hw x (by simp [hx])) hb' he h1 h2 h3
          (back_used hb0.1 hb0.2 hu hr)
      | false =>
        have hon : onward (.pass s :: h) = .pass s :: onward h := by rw [onward, if_neg (by simp [hr])]
        rw [hon, rebuilt] at he ⊢
        have p1 := pass_used (s := s) h1 hu hr
        have p2 := pass_used (s := s) h1 (used_built h1 h2 h3) hr
        have e1 : (advanceCavity env files c s).2 = (advanceCavity env files (id d) s).2 := p1.1.trans p2.1.symm
        rw [e1]
        show _ :: _ = _
        congr 1
        by_cases hn : rebuilt (advanceCavity env files) id d (onward h) = []
        · rw [hn, onward_nil h d _ hn]
        · have hen : (advanceCavity env files (id d) s).2.2 = none :=
            he _ (by rw [List.dropLast_cons_of_ne_nil hn]; simp)
          have hen' : (anew env d cd s.payload.recalc).2 = none := by
            rw [← hen, ← e1, p1.1]
          exact ih d _ cd (fun x hx => hh x (by simp [hx])) (fun x hx => hw x (by simp [hx])) hb'
            (fun x hx => he x (by rw [List.dropLast_cons_of_ne_nil hn]; simp [hx])) h1 h2 h3
            (p1.2 (hw s (by simp)) hen')

/-! ## a reconfigured cavity is as good as new -/

/-- The elements differ in nothing that is used. -/
structure Twin (env : Env) (files : Files) (a b : MDat) : Prop where
  frame : a = { b with cav := a.cav }
  cav : ∃ cd o w, loadCavity env files b.conf noCav = (cd, none) ∧ a.cav = some (cov cd o) ∧ b.cav = some (cov cd w) ∧
    Loaded files o ∧ Loaded files w ∧ o.misalign = w.misalign ∧ o.phiRef = w.phiRef ∧
    (o.phiRef = none ∨ (Current b.conf o ∧ Current b.conf w))

theorem caviphi_twin {env : Env} {cd o w : Cav} (h : o.phiRef = w.phiRef) : caviphi env (cov cd o) = caviphi env (cov cd w) := by
  unfold caviphi
  show (match o.phiRef with | none => _ | some x => _) = _
  rw [h]
  rfl

/-- The last part of a pass. -/
theorem forward_twin {env : Env} {files : Files} {cd o w : Cav} {b : MDat} (S : MSt)
    (hl : loadCavity env files b.conf noCav = (cd, none)) (h1 : Loaded files o) (h2 : Loaded files w)
    (h3 : o.misalign = w.misalign) (h4 : o.phiRef = w.phiRef) (h5 : o.phiRef = none ∨ (Current b.conf o ∧ Current b.conf w))
    (x y : Option Cav) :
    (cavForward env (cov cd o) { b with cav := x } S).2 = (cavForward env (cov cd w) { b with cav := y } S).2 ∧
    cavFault env (cov cd o) { b with cav := x } S = cavFault env (cov cd w) { b with cav := y } S ∧
    Twin env files (cavForward env (cov cd o) { b with cav := x } S).1 (cavForward env (cov cd w) { b with cav := y } S).1 := by
  obtain ⟨o1, o2⟩ := cavForward_out env cd o w { b with cav := y } { b with cav := x } S rfl rfl rfl
    (List.forall₂_same.2 fun _ _ => rfl) h4 h3
  refine ⟨o1, o2, ?_, cd, o, w, hl, rfl, rfl, h1, h2, h3, h4, h5⟩
  unfold cavForward
  dsimp only
  rw [cavLoop_cov, cavLoop_cov]
  show MDat.mk _ _ _ _ _ _ _ _ _ _ _ _ _ _ (List.map _ (cavLoop cd _ _ o.misalign _ _ _ _)) _ = _
  rw [h3]
  rfl

theorem cov_fields {cd x y : Cav} (h : cov cd x = cov cd y) : x.cavType = y.cavType ∧ x.dataFile = y.dataFile ∧
    x.synAccTab = y.synAccTab ∧ x.refNrm = y.refNrm ∧ x.synComplex = y.synComplex ∧ x.phiRef = y.phiRef ∧ x.misalign = y.misalign :=
  ⟨(congrArg Cav.cavType h :), (congrArg Cav.dataFile h :), (congrArg Cav.synAccTab h :), (congrArg Cav.refNrm h :),
    (congrArg Cav.synComplex h :), (congrArg Cav.phiRef h :), (congrArg Cav.misalign h :)⟩

/-- A cavity that is up to date is not loaded again. -/
theorem reload_current {env : Env} {files : Files} {c : LCfg} {cd o : Cav} (h : loadCavity env files c noCav = (cd, none))
    (ho : Loaded files o) (hc : Current c o) : reload env files c (cov cd o) = (cov cd o, none) ∧ SameTables cd o := by
  have e : reload env files c (cov cd o) = (cov cd o, none) := reload_same (cav := cov cd o) hc.1 hc.2 o.misalign
  obtain ⟨w, hw, hw1, -⟩ := reload_works h ho
  rw [e] at hw
  obtain ⟨-, -, h1, h2, h3, -⟩ := cov_fields (Prod.mk.inj hw).1
  refine ⟨e, fun h0 => ?_⟩
  rw [h1, h2, h3]
  exact hw1 h0

theorem reload_twin {env : Env} {files : Files} {c : LCfg} {cd o w : Cav} (h : loadCavity env files c noCav = (cd, none))
    (h1 : Loaded files o) (h2 : Loaded files w) (h3 : o.misalign = w.misalign) (h4 : o.phiRef = w.phiRef)
    (h5 : o.phiRef = none ∨ (Current c o ∧ Current c w)) :
    ∃ o' w', reload env files c (cov cd o) = (cov cd o', none) ∧ reload env files c (cov cd w) = (cov cd w', none) ∧
      SameTables cd o' ∧ SameTables cd w' ∧ Loaded files o' ∧ Loaded files w' ∧ o'.misalign = w'.misalign ∧ o'.phiRef = w'.phiRef ∧
      Current c o' ∧ Current c w' := by
  rcases h5 with h5 | ⟨h5, h6⟩
  · obtain ⟨o', a1, a2, a3, a4, a5, a6⟩ := reload_works h h1
    obtain ⟨w', b1, b2, b3, b4, b5, b6⟩ := reload_works h h2
    refine ⟨o', w', a1, b1, a2, b2, a3, b3, by rw [a5, b5, h3], ?_, a4, b4⟩
    have e1 : o'.phiRef = none := a6.elim (fun h => h.trans h5) id
    have e2 : w'.phiRef = none := b6.elim (fun h => h.trans (h4.symm.trans h5)) id
    rw [e1, e2]
  · obtain ⟨a1, a2⟩ := reload_current h h1 h5
    obtain ⟨b1, b2⟩ := reload_current h h2 h6
    exact ⟨o, w, a1, b1, a2, b2, h1, h2, h3, h4, h5, h6⟩

theorem twin_pass {env : Env} {files : Files} {a b : MDat} (h : Twin env files a b) (s : St MSt) :
    (advanceCavity env files a s).2 = (advanceCavity env files b s).2 ∧
      Twin env files (advanceCavity env files a s).1 (advanceCavity env files b s).1 := by
  obtain ⟨hf, cd, o, w, hl, ha, hb, hL, hL', hm, hp, hc⟩ := h
  rw [ha] at hf
  clear ha
  subst hf
  unfold advanceCavity
  rw [hb]
  dsimp only
  by_cases hr : s.retreat = true
  · rw [if_pos hr, if_pos hr]
    by_cases h1 : checkBackward b s.payload.recalc
    · rw [if_neg (not_not.2 h1),
        if_neg (show ¬¬ checkBackward { b with cav := some (cov cd o) } s.payload.recalc from not_not.2 h1)]
      split
      · exact ⟨rfl, rfl, cd, o, w, hl, rfl, hb, hL, hL', hm, hp, hc⟩
      · rw [show getMisalign { b with cav := some (cov cd o) } = getMisalign b from rfl]
        generalize forEach (fun p => getMisalign b _ p) _ = q
        cases q with
        | error e => exact ⟨rfl, rfl, cd, o, w, hl, rfl, hb, hL, hL', hm, hp, hc⟩
        | ok mis =>
          dsimp only
          generalize backward _ _ = q
          obtain ⟨S, _ | e⟩ := q
          · dsimp only
            refine ⟨?_, rfl, cd, { o with misalign := mis }, { w with misalign := mis }, hl, rfl, rfl, hL, hL', rfl, hp, hc⟩
            rw [show caviphi env { cov cd o with misalign := mis } = caviphi env { cov cd w with misalign := mis } from
              caviphi_twin (o := { o with misalign := mis }) (w := { w with misalign := mis }) hp]
          · exact ⟨rfl, rfl, cd, { o with misalign := mis }, { w with misalign := mis }, hl, rfl, rfl, hL, hL', rfl, hp, hc⟩
    · rw [if_pos h1, if_pos (show ¬ checkBackward { b with cav := some (cov cd o) } s.payload.recalc from h1)]
      exact ⟨rfl, rfl, cd, o, w, hl, rfl, hb, hL, hL', hm, hp, hc⟩
  rw [if_neg hr, if_neg hr]
  by_cases hh : hit b s.payload.recalc
  · rw [if_pos hh, if_pos (show hit { b with cav := some (cov cd o) } s.payload.recalc from hh)]
    obtain ⟨t1, t2, t3⟩ := forward_twin (env := env) { s.payload.recalc with ref := b.refOut, real := b.realOut ++ s.payload.recalc.real.drop b.realOut.length }
      hl hL hL' hm hp hc (some (cov cd o)) b.cav
    exact ⟨by rw [t1, t2], t3⟩
  · rw [if_neg hh, if_neg (show ¬ hit { b with cav := some (cov cd o) } s.payload.recalc from hh)]
    obtain ⟨o', w', r1, r2, s1, s2, l1, l2, m1, p1, c1, c2⟩ := reload_twin (env := env) (files := files) (c := b.conf) (cd := cd)
      (o := { o with misalign := resizeMis s.payload.recalc.real.length (cov cd o).misalign })
      (w := { w with misalign := resizeMis s.payload.recalc.real.length (cov cd w).misalign }) hl hL hL'
      (congrArg (resizeMis s.payload.recalc.real.length) hm) hp hc
    rw [show reload env files b.conf { cov cd o with misalign := resizeMis s.payload.recalc.real.length (cov cd o).misalign } = _
      from r1, show reload env files b.conf { cov cd w with misalign := resizeMis s.payload.recalc.real.length (cov cd w).misalign } = _
      from r2]
    dsimp only
    rw [recomputeCav_cov s1, recomputeCav_cov s2]
    generalize recomputeCav b.conf cd s.payload.recalc.ref s.payload.recalc.real = q
    obtain e | ⟨ref, phi, l⟩ := q
    · exact ⟨rfl, rfl, cd, o', w', hl, rfl, rfl, l1, l2, m1, p1, .inr ⟨c1, c2⟩⟩
    · have hmis : ∀ e : MDat, e.length = b.length → e.dx = b.dx → e.dy = b.dy → e.pitch = b.pitch → e.yaw = b.yaw →
          e.roll = b.roll → getMisalign e = getMisalign b := fun e a1 a2 a3 a4 a5 a6 => getMisalign_congr a1 a2 a3 a4 a5 a6
      dsimp only
      iterate 4
        conv in getMisalign (MDat.mk _ b.length _ _ _ _ _ _ _ _ (some _) _ _ _ _ _) =>
          rw [hmis _ (by rfl) (by rfl) (by rfl) (by rfl) (by rfl) (by rfl)]
      generalize forEach (fun p => getMisalign b ref p) _ = q
      obtain e | mis := q
      · exact ⟨rfl, rfl, cd, o', w', hl, rfl, rfl, l1, l2, m1, p1, .inr ⟨c1, c2⟩⟩
      · obtain ⟨t1, t2, t3⟩ := forward_twin (env := env) (files := files) (cd := cd)
          (o := { o' with phiRef := some phi, misalign := mis }) (w := { w' with phiRef := some phi, misalign := mis })
          (b := filledDat b s.payload.recalc cd ref l) (filledSt s.payload.recalc ref l)
          hl l1 l2 rfl rfl (.inr ⟨c1, c2⟩) (some (cov cd { o' with phiRef := some phi, misalign := mis }))
          (some (cov cd { w' with phiRef := some phi, misalign := mis }))
        refine ⟨?_, t3⟩
        exact Prod.ext (congrArg (fun x => { s with payload := x }) t1) t2

/-- The element after a history. -/
noncomputable def after (env : Env) (files : Files) : MDat → List (Use MDat (St MSt)) → MDat
  | d, [] => d
  | d, .pass s :: h => after env files (advanceCavity env files d s).1 h
  | d, .reconf d' :: h => after env files (assignCavity d d') h

theorem load_phi {env : Env} {files : Files} {c : LCfg} {cd : Cav} (h : loadCavity env files c noCav = (cd, none)) :
    cd.phiRef = none := by
  unfold loadCavity at h
  dsimp only at h
  split at h
  · cases h
  split at h
  · cases h
  split at h
  · cases h
  split at h
  · cases h
  split at h
  · cases h
  split at h
  · cases h
  split at h
  · obtain ⟨-, a2⟩ := loadShipped_again h rfl
    rw [a2]
  · split at h
    · split at h
      · cases h
      obtain ⟨-, a2, -⟩ := loadGeneric_again h rfl rfl rfl rfl rfl rfl
      rw [a2]
    · cases h

theorem twin_outputs {env : Env} {files : Files} {junk : Mat} : ∀ (h : List (Use MDat (St MSt))) {a b : MDat}, Twin env files a b →
    (∀ d', Use.reconf d' ∈ h → ∃ c, buildCavity env files junk c = .ok d') →
    outputs (advanceCavity env files) assignCavity a h = outputs (advanceCavity env files) assignCavity b h
  | [], _, _, _, _ => rfl
  | .pass s :: h, a, b, ht, hh => by
    obtain ⟨t1, t2⟩ := twin_pass ht s
    rw [outputs, outputs, t1, twin_outputs h t2 fun d' hd => hh d' (by simp [hd])]
  | .reconf d' :: h, a, b, ht, hh => by
    rw [outputs, outputs]
    refine twin_outputs h ?_ fun d' hd => hh d' (by simp [hd])
    obtain ⟨c0, h0⟩ := hh d' (by simp)
    obtain ⟨cd', h1, h2, h3⟩ := built h0
    obtain ⟨-, cd, o, w, -, ha, hb, hL, hL', -⟩ := ht
    unfold assignCavity
    rw [ha, hb, h2]
    have hn := load_phi h1
    exact ⟨rfl, cd', { cd' with cavType := o.cavType, dataFile := o.dataFile, synAccTab := o.synAccTab, refNrm := o.refNrm,
                                synComplex := o.synComplex },
      { cd' with cavType := w.cavType, dataFile := w.dataFile, synAccTab := w.synAccTab, refNrm := w.refNrm,
                 synComplex := w.synComplex }, h1, rfl, rfl, hL, hL', rfl, rfl, .inl hn⟩

/-- What is always true of a cavity in use, even after exceptions. -/
structure Sound (env : Env) (files : Files) (c : MDat) : Prop where
  cav : ∃ cd o, loadCavity env files c.conf noCav = (cd, none) ∧ c.cav = some (cov cd o) ∧ Loaded files o

theorem sound_pass {env : Env} {files : Files} {c : MDat} (h : Sound env files c) (s : St MSt) :
    Sound env files (advanceCavity env files c s).1 := by
  obtain ⟨cd, o, hl, hc, hL⟩ := h
  unfold advanceCavity
  rw [hc]
  dsimp only
  have keep : Sound env files c := ⟨cd, o, hl, hc, hL⟩
  split
  · split
    · exact keep
    split
    · exact keep
    split
    · exact keep
    split <;> exact ⟨cd, { o with misalign := _ }, hl, rfl, hL⟩
  split
  · exact ⟨cd, o, hl, rfl, hL⟩
  obtain ⟨w, hw, -, hw2, -⟩ := reload_works
    (o := { o with misalign := resizeMis s.payload.recalc.real.length (cov cd o).misalign }) hl hL
  rw [show reload env files c.conf { cov cd o with misalign := resizeMis s.payload.recalc.real.length (cov cd o).misalign } = _
    from hw]
  dsimp only
  split
  · exact ⟨cd, w, hl, rfl, hw2⟩
  split
  · exact ⟨cd, w, hl, rfl, hw2⟩
  · exact ⟨cd, { w with phiRef := some _, misalign := _ }, hl, rfl, hw2⟩

theorem sound_built {env : Env} {files : Files} {junk : Mat} {c0 : LCfg} {d : MDat} (h : buildCavity env files junk c0 = .ok d) :
    Sound env files d := by
  obtain ⟨cd, h1, h2, -⟩ := built h
  exact ⟨cd, cd, h1, h2, (load_again h1 cd).1⟩

theorem sound_after {env : Env} {files : Files} {junk : Mat} : ∀ (h : List (Use MDat (St MSt))) {c : MDat}, Sound env files c →
    (∀ d', Use.reconf d' ∈ h → ∃ c, buildCavity env files junk c = .ok d') → Sound env files (after env files c h)
  | [], _, hs, _ => hs
  | .pass s :: h, _, hs, hh => sound_after (junk := junk) h (sound_pass hs s) fun d' hd => hh d' (by simp [hd])
  | .reconf d' :: h, c, hs, hh => by
    refine sound_after (junk := junk) h ?_ fun d' hd => hh d' (by simp [hd])
    obtain ⟨c0, h0⟩ := hh d' (by simp)
    obtain ⟨cd', h1, h2, -⟩ := built h0
    obtain ⟨cd, o, -, hc, hL⟩ := hs
    unfold assignCavity
    rw [hc, h2]
    exact ⟨cd', { cd' with cavType := o.cavType, dataFile := o.dataFile, synAccTab := o.synAccTab, refNrm := o.refNrm,
                           synComplex := o.synComplex }, h1, rfl, hL⟩

/-- C21 for RF cavities: whatever a cavity has been used for and however often it has been reconfigured, with exceptions or
without, after a reconfiguration with `d'` it behaves in every further use as the cavity `d'` built anew, although `assign`
does not copy all of its members. -/
theorem C21_cavity (env : Env) (files : Files) (junk : Mat) (d d' : MDat) (h h' : List (Use MDat (St MSt)))
    (hd : ∃ c, buildCavity env files junk c = .ok d) (hd' : ∃ c, buildCavity env files junk c = .ok d')
    (hh : ∀ x, Use.reconf x ∈ h ++ h' → ∃ c, buildCavity env files junk c = .ok x) :
    outputs (advanceCavity env files) assignCavity (assignCavity (after env files d h) d') h' =
      outputs (advanceCavity env files) assignCavity d' h' := by
  obtain ⟨c0, h0⟩ := hd
  obtain ⟨c1, h1⟩ := hd'
  obtain ⟨cd, o, hl, hc, hL⟩ := sound_after (junk := junk) h (sound_built h0) fun x hx => hh x (by simp [hx])
  obtain ⟨cd', g1, g2, -⟩ := built h1
  refine twin_outputs (junk := junk) h' ?_ fun x hx => hh x (by simp [hx])
  unfold assignCavity
  rw [hc, g2]
  exact ⟨rfl, cd', { cd' with cavType := o.cavType, dataFile := o.dataFile, synAccTab := o.synAccTab, refNrm := o.refNrm,
                              synComplex := o.synComplex }, cd', g1, rfl, g2, hL, (load_again g1 cd').1, rfl, rfl,
    .inl (load_phi g1 :)⟩

/-! ## an example -/

/-- The settings of `Beam` with another file. -/
noncomputable def exOther : LCfg := fun s => if s = "datafile" then some (.str "other.lat") else exFull s

theorem exOther_loads (env : Env) : loadCavity env exFiles exOther noCav = ({ exWeak with dataFile := "./other.lat" }, none) := by
  refine gap_loads env (f := "other.lat") (by simp [getNum, exOther, exFull]) (by simp [getNum, exOther, exFull]) ?_ ?_
    (by simp [getStr, exOther, exFull, exSet]) (by simp [getStr, exOther]) (by simp [getStrD, exOther, exFull, exSet])
    (by simp [getNumD, exOther, exFull]) (by simp [getNumD, exOther, exFull, exSet])
  · simp [getFlag, getStr, getNum, exOther, exFull, exSet, asUnsigned]
    norm_num
  · simp [getFlag, getStr, getNum, exOther, exFull, exSet, asUnsigned]

/-- The hypotheses of `C33_cavity_partial` and `C21_cavity` are met: a beam passes the cavity twice forward, then backward,
then the cavity gets another file, and the beam passes it again. -/
example (env : Env) (junk : Mat) : ∃ d d', buildCavity env exFiles junk exFull = .ok d ∧ buildCavity env exFiles junk exOther = .ok d' ∧
    (d.pitch = 0 ∧ d.yaw = 0) ∧ (d'.pitch = 0 ∧ d'.yaw = 0) ∧ WF (exState false).payload ∧ WF (exState true).payload ∧
    ∀ o ∈ (rebuilt (advanceCavity env exFiles) id d (onward [.pass (exState false), .pass (exState false), .pass (exState true),
      .reconf d', .pass (exState false)])).dropLast, o.2 = none := by
  have hb : ∃ d, buildCavity env exFiles junk exFull = .ok d ∧ d.refIn = none ∧ d.cav = some exWeak ∧ d.conf = exFull ∧
      d.pitch = 0 ∧ d.yaw = 0 := by
    unfold buildCavity
    rw [exFull_loads]
    exact ⟨_, rfl, rfl, rfl, rfl, by simp [getNumD, exFull, exSet], by simp [getNumD, exFull, exSet]⟩
  have hb' : ∃ d, buildCavity env exFiles junk exOther = .ok d ∧ d.pitch = 0 ∧ d.yaw = 0 := by
    unfold buildCavity
    rw [exOther_loads]
    exact ⟨_, rfl, by simp [getNumD, exOther, exFull, exSet], by simp [getNumD, exOther, exFull, exSet]⟩
  obtain ⟨d, h1, h2, h3, h4, h5, h6⟩ := hb
  obtain ⟨d', k1, k2, k3⟩ := hb'
  refine ⟨d, d', h1, k1, ⟨h5, h6⟩, ⟨k2, k3⟩, ⟨rfl, rfl, rfl⟩, ⟨rfl, rfl, rfl⟩, ?_⟩
  obtain ⟨e, s', h⟩ := exWeak_passes env exFiles d h2 h3 (by simp [h4, getNum, exFull, exSet])
    (by simp [h4, getNumD, exFull, exSet]) (by simp [h4, getStr, exFull, exSet]) (by simp [h4, getStr, exFull, exSet])
    (by simp [h4, getStrD, exFull, exSet])
  intro o ho
  simp only [onward, exState, rebuilt, Bool.false_eq_true, if_false, if_true, id] at ho
  simp only [exState] at h
  rw [h] at ho
  simp at ho
  rw [ho]

end Flame.Cavity
