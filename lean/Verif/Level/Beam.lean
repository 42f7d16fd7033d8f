import Verif.Level.Props

/-! # A beam line seen in a mirror that exchanges up and down: sources and strippers -/

namespace Flame.Level

open Flame.Mach (Elem Cls St Err Run Out)
open Flame.Linear (LVal LCfg getNum getNumD getVec)
open Flame.Moment
open Flame.Level.Spec

variable {c c' : LCfg}

/-! ## strippers -/

theorem recombinedCov_im (S : MSt) : recombinedCov (imageS S) = imageM (recombinedCov S) := by
  funext i j
  simp only [recombinedCov, imageS, imageM]
  rw [← mul_div_assoc, div_mul_eq_mul_div]
  congr 1
  rw [List.zip_map, ← List.map_uncurry_zip_eq_zipWith, ← List.map_uncurry_zip_eq_zipWith, List.zip_map_right, List.map_map, ← List.sum_map_mul_left,
    ← List.sum_map_mul_right]
  refine congrArg List.sum (List.map_congr_left (fun x _ => ?_))
  simp only [Function.uncurry, Function.comp, Prod.map, imageV, imageM, id]
  ring

theorem im_times (M : Mat) (i j : Fin 7) (g : ℝ) : imageM (setAt M i j (M i j * g)) = setAt (imageM M) i j (imageM M i j * g) := by
  rw [im_set]
  congr 1
  simp only [imageM]
  ring

theorem im_fold {α : Type} {f : Mat → α → Mat} (h : ∀ M k, imageM (f M k) = f (imageM M) k) : ∀ (l : List α) (M : Mat),
    l.foldl f (imageM M) = imageM (l.foldl f M)
  | [], _ => rfl
  | k :: l, M => by rw [List.foldl_cons, List.foldl_cons, ← h, im_fold h l]

theorem im_self (M : Mat) (i : Fin 7) : imageM M i i = M i i := by
  simp only [imageM]
  linear_combination M i i * side_signs i

theorem growStep_im (i k : Fin 7) (g : ℝ) (M : Mat) : imageM (growStep i k g M) = growStep i k g (imageM M) := by
  unfold growStep
  dsimp only
  rw [im_times, im_times]

theorem growEnergy_im (f : Foil) (M : Mat) : growEnergy f (imageM M) = imageM (growEnergy f M) := by
  unfold growEnergy
  dsimp only
  rw [im_self]
  exact im_fold (fun M (k : Fin 6) => growStep_im 5 k.castSucc _ M) _ _

theorem growAngles_im (f : Foil) (M : Mat) : growAngles f (imageM M) = imageM (growAngles f M) := by
  unfold growAngles
  dsimp only
  rw [im_self, im_self]
  exact im_fold (fun M k => by rw [growStep_im, growStep_im]) _ _

theorem stripped_im (f : Foil) (chg w : List ℝ) (S : MSt) : stripped f chg w (imageS S) = imageS (stripped f chg w S) := by
  unfold stripped
  dsimp only
  rw [recombinedCov_im, growEnergy_im, growAngles_im, ← calcRms_im]
  simp only [imageS, List.map_map, Function.comp_def, im_one]

theorem foilOf_im (h : MirroredElement "stripper" c c') : foilOf c' = foilOf c := by
  have hm : ∀ k, ¬ IsMoments "stripper" c k := by
    rintro k (⟨e, -⟩ | ⟨e, -⟩) <;> revert e <;> decide
  have hv : ∀ k, k ∈ keys → ∀ l, getVecD c' k l = getVecD c k l := by
    intro k hk l
    simp only [getVecD, vec_m h k hk (hm k)]
  have hn : ∀ k x, k ∈ keys → k ∉ ["dy", "roll", "pitch"] → getNumD c' k x = getNumD c k x := by
    intro k x hk hr
    refine numD_m h k x hk ?_
    simp only [Reversed, hr]
    simp
  simp only [foilOf, hn "Stripper_IonZ" _ (by decide) (by decide), hn "Stripper_IonMass" _ (by decide) (by decide),
    hn "Stripper_IonProton" _ (by decide) (by decide), hn "Stripper_E1Para" _ (by decide) (by decide),
    hn "Stripper_lambda" _ (by decide) (by decide), hn "Stripper_upara" _ (by decide) (by decide),
    hv "Stripper_Para" (by decide), hv "Stripper_E0Para" (by decide)]

theorem stripperGetMat_im (h : MirroredElement "stripper" c c') (S : MSt) :
    stripperGetMat c' (imageS S) = (stripperGetMat c S).map imageS := by
  have hm : ∀ k, ¬ IsMoments "stripper" c k := by
    rintro k (⟨e, -⟩ | ⟨e, -⟩) <;> revert e <;> decide
  unfold stripperGetMat
  simp only [vec_m h "IonChargeStates" (by decide) (hm _), vec_m h "NCharge" (by decide) (hm _), strD_m h "charge_model" "baron" (by decide),
    foilOf_im h, stripped_im, show (imageS S).real = S.real from rfl]
  cases getVec c "IonChargeStates" with
  | error e => rfl
  | ok chg =>
    cases getVec c "NCharge" with
    | error e => rfl
    | ok w =>
      dsimp only
      split
      · rfl
      split
      · rfl
      split
      · rfl
      split
      · rfl
      cases S.real with
      | nil => rfl
      | cons p l =>
        dsimp only
        split <;> rfl

theorem stripper_im {d d' : MDat} (h : DRel "stripper" d d') (s : St MSt) :
    Alike (DRel "stripper") (advanceStripper d s) (advanceStripper d' (imageT s)) := by
  obtain ⟨c', h1, rfl⟩ := h
  unfold advanceStripper
  dsimp only
  rw [show (imageT s).payload.recalc = imageS s.payload.recalc from rfl, show (imageT s).retreat = s.retreat from rfl,
    show (imageD c' d).conf = c' from rfl, calcRms_im, stripperGetMat_im h1]
  split
  · exact ⟨rfl, rfl, fun h => by cases h⟩
  · cases stripperGetMat d.conf s.payload.recalc.calcRms with
    | error e => exact ⟨rfl, rfl, fun h => by cases h⟩
    | ok S => exact ⟨rfl, rfl, fun _ => ⟨c', h1, rfl⟩⟩

/-! ## sources -/

/-- A name that does not end with a digit has no number at its end. -/
theorem no_number (k t : String) (n : ℕ) (x : Char) (hk : k.toList.getLast? = some x) (hx : x.isDigit = false) : k ≠ t ++ toString n := by
  rintro rfl
  rw [String.toList_append] at hk
  have hne : (toString n).toList ≠ [] := by
    show (Nat.repr n).toList ≠ []
    intro e
    have := Nat.length_toDigits_pos (b := 10) (n := n)
    simp [Nat.repr] at e
  have h2 : x ∈ (toString n).toList := by
    rw [List.getLast?_append_of_ne_nil _ hne] at hk
    exact List.mem_of_getLast? hk
  have : x.isDigit = true := by
    refine Nat.isDigit_of_mem_toDigits (b := 10) (n := n) (by decide) (by decide) ?_
    simpa [toString, Nat.repr] using h2
  rw [hx] at this
  cases this

theorem loadV_im {ty : String} (h : MirroredElement ty c c') {k : String} (hk : IsMoments ty c k) :
    (loadStorage 7 c' k).map vecOf = ((loadStorage 7 c k).map vecOf).map imageV := by
  rcases h.moments k hk with ⟨xs, xs', e1, e2, e3, e4, -⟩ | ⟨e1, e2⟩
  · simp only [loadStorage, getVec, e1, e2, e3]
    split
    · rename_i hl
      refine congrArg Except.ok ?_
      funext i
      exact e4 hl i
    · rfl
  · have : ∀ xs, getVec c k ≠ .ok xs := by
      intro xs hx
      unfold getVec at hx
      split at hx
      · rename_i y hy
        exact e1 _ hy
      · cases hx
    simp only [loadStorage, getVec, e2]
    rfl

theorem several_iff (c : LCfg) : Several c ↔ ∃ xs, getVec c "IonChargeStates" = .ok xs := by
  unfold Several getVec
  constructor
  · rintro ⟨xs, h⟩
    exact ⟨xs, by rw [h]⟩
  · rintro ⟨xs, h⟩
    split at h
    · rename_i y hy
      exact ⟨y, hy⟩
    · cases h

theorem text_eq (c : LCfg) (k x : String) : getStrD c k x = text c k x := by
  unfold getStrD text
  split <;> split <;> simp_all

theorem charges_im (h : MirroredElement "source" c c') : getVec c' "IonChargeStates" = getVec c "IonChargeStates" := by
  by_cases hm : IsMoments "source" c "IonChargeStates"
  · have hs : ¬ Several c := by
      rcases hm with ⟨e, -⟩ | ⟨-, name, -, ⟨hs, n, hn⟩ | ⟨hs, -⟩⟩
      · exact absurd e (by decide)
      · exact absurd hn (no_number _ _ n 's' (by decide) (by decide))
      · exact hs
    rcases h.moments _ hm with ⟨xs, xs', e1, -⟩ | ⟨-, e2⟩
    · exact absurd ⟨xs, e1⟩ hs
    · simp only [getVec, e2]
  · exact vec_m h _ (by decide) hm

theorem weights_im (h : MirroredElement "source" c c') (hs : Several c) : getVec c' "NCharge" = getVec c "NCharge" := by
  refine vec_m h _ (by decide) ?_
  rintro (⟨e, -⟩ | ⟨-, name, -, ⟨-, n, hn⟩ | ⟨hs', -⟩⟩)
  · revert e; decide
  · exact absurd hn (no_number _ _ n 'e' (by decide) (by decide))
  · exact hs' hs

theorem numD_s (h : MirroredElement "source" c c') (k : String) (x : ℝ) (hk : k ∈ keys ∧ k ∉ ["dy", "roll", "pitch"]) : getNumD c' k x = getNumD c k x := by
  obtain ⟨hk1, hk⟩ := hk
  simp only [List.mem_cons, not_or] at hk
  refine numD_m h k x hk1 ?_
  simp only [Reversed]
  simp
  tauto

theorem newRef_im (h : MirroredElement "source" c c') (Z Q : ℝ) : newRef c' Z Q = newRef c Z Q := by
  simp only [newRef, numD_s h "IonEs" _ (by decide), numD_s h "SampleFreq" _ (by decide), numD_s h "IonEk" _ (by decide)]

theorem newCharge_im (h : MirroredElement "source" c c') (hs : Several c) (ref : Particle) (n : Nat) (Z Q : ℝ) :
    newCharge c' ref n Z Q = (newCharge c ref n Z Q).map (fun q => (q.1, imageV q.2.1, imageM q.2.2)) := by
  have hv := loadV_im h (k := getStrD c "vector_variable" "moment0" ++ toString n)
    (.inr ⟨rfl, _, .inl (text_eq c _ _), .inl ⟨hs, n, rfl⟩⟩)
  have hm := loadM_im h (k := getStrD c "matrix_variable" "initial" ++ toString n)
    (.inr ⟨rfl, _, .inr (text_eq c _ _), .inl ⟨hs, n, rfl⟩⟩)
  unfold newCharge
  simp only [strD_m h "vector_variable" "moment0" (by decide), strD_m h "matrix_variable" "initial" (by decide)]
  generalize loadStorage 7 c' (getStrD c "vector_variable" "moment0" ++ toString n) = x' at hv ⊢
  generalize loadStorage 7 c (getStrD c "vector_variable" "moment0" ++ toString n) = x at hv ⊢
  generalize loadStorage 49 c' (getStrD c "matrix_variable" "initial" ++ toString n) = y' at hm ⊢
  generalize loadStorage 49 c (getStrD c "matrix_variable" "initial" ++ toString n) = y at hm ⊢
  cases x with
  | error e =>
    cases x' with
    | error e' => exact congrArg Except.error (Except.error.inj hv)
    | ok v' => cases hv
  | ok v =>
    cases x' with
    | error e' => cases hv
    | ok v' =>
      have hv : vecOf v' = imageV (vecOf v) := Except.ok.inj hv
      cases y with
      | error e =>
        cases y' with
        | error e' => exact congrArg Except.error (Except.error.inj hm)
        | ok v' => cases hm
      | ok M =>
        cases y' with
        | error e' => cases hm
        | ok M' =>
          have hm : matOf M' = imageM (matOf M) := Except.ok.inj hm
          simp only [Except.map, hv, hm, imageV, s4, s5, one_mul]

theorem newCharges_im (h : MirroredElement "source" c c') (hs : Several c) (ref : Particle) : ∀ (n : Nat) (l : List (ℝ × ℝ)),
    newCharges c' ref n l = (newCharges c ref n l).map (List.map (fun q => (q.1, imageV q.2.1, imageM q.2.2)))
  | _, [] => rfl
  | n, (Z, Q) :: l => by
    simp only [newCharges, newCharge_im h hs, newCharges_im h hs ref (n + 1) l]
    cases newCharge c ref n Z Q with
    | error e => rfl
    | ok x =>
      cases newCharges c ref (n + 1) l with
      | error e => rfl
      | ok r => rfl

theorem stateOf_im (ref : Particle) (l : List (Particle × Vec × Mat)) :
    stateOf ref (l.map (fun q => (q.1, imageV q.2.1, imageM q.2.2))) = imageS (stateOf ref l) := by
  have hz : imageV 0 = 0 := by funext i; simp [imageV]
  unfold stateOf
  rw [← calcRms_im]
  simp only [imageS, List.map_map, Function.comp_def, im_one, hz]

theorem newSingle_im (h : MirroredElement "source" c c') (hs : ¬ Several c) (junk : Mat) : newSingle junk c' = imageS (newSingle junk c) := by
  have hv := loadV_im h (k := getStrD c "vector_variable" "moment0") (.inr ⟨rfl, _, .inl (text_eq c _ _), .inr ⟨hs, rfl⟩⟩)
  have hm := loadM_im h (k := getStrD c "matrix_variable" "initial") (.inr ⟨rfl, _, .inr (text_eq c _ _), .inr ⟨hs, rfl⟩⟩)
  obtain ⟨xs, hx, hl⟩ := h.given rfl hs
  rw [← text_eq] at hx
  have hg : loadStorage 49 c (getStrD c "matrix_variable" "initial") = .ok xs := by
    simp only [loadStorage, getVec, hx, hl, if_true]
  unfold newSingle
  dsimp only
  rw [strD_m h "vector_variable" "moment0" (by decide), strD_m h "matrix_variable" "initial" (by decide), numD_s h "IonZ" _ (by decide),
    numD_s h "IonQ" _ (by decide), newRef_im h]
  rw [hg] at hm ⊢
  generalize newRef c _ _ = ref
  generalize loadStorage 49 c' (getStrD c "matrix_variable" "initial") = y' at hm ⊢
  generalize loadStorage 7 c' (getStrD c "vector_variable" "moment0") = x' at hv ⊢
  generalize loadStorage 7 c (getStrD c "vector_variable" "moment0") = x at hv ⊢
  have hz : imageV 0 = 0 := by funext i; simp [imageV]
  cases y' with
  | error e => cases hm
  | ok M' =>
    have hm : matOf M' = imageM (matOf xs) := Except.ok.inj hm
    dsimp only
    rw [hm, ← stateOf_im]
    simp only [List.map_cons, List.map_nil]
    refine congrArg (fun v => stateOf ref [(ref, v, imageM (matOf xs))]) ?_
    cases x with
    | error e =>
      cases x' with
      | error e' => exact hz.symm
      | ok v' => cases hv
    | ok v =>
      cases x' with
      | error e' => cases hv
      | ok v' => exact Except.ok.inj hv

/-- The constructor of the state gives the beam seen in the mirror. -/
theorem newState_im (h : MirroredElement "source" c c') (junk : Mat) :
    newState junk c' = match newState junk c with | .ub => .ub | .err e => .err e | .ok S => .ok (imageS S) := by
  have ho : optNum c' "cstate" = optNum c "cstate" := by simp only [optNum, num_m h "cstate" (by decide) (by simp [Reversed])]
  unfold newState
  rw [ho, charges_im h]
  cases toSize ((optNum c "cstate").getD 0) with
  | none => rfl
  | some i =>
    dsimp only
    cases hg : getVec c "IonChargeStates" with
    | error e =>
      dsimp only
      split
      · rfl
      · simp only [newSingle_im h (by rw [several_iff, hg]; rintro ⟨xs, hx⟩; cases hx)]
    | ok ics =>
      have hs : Several c := (several_iff c).2 ⟨ics, hg⟩
      dsimp only
      have hm : newMany c' ((optNum c "cstate").map (fun _ => i)) ics = (newMany c ((optNum c "cstate").map (fun _ => i)) ics).map imageS := by
        generalize (optNum c "cstate").map (fun _ => i) = cs
        unfold newMany
        rw [weights_im h hs]
        split
        · rfl
        split
        · rfl
        cases getVec c "NCharge" with
        | error e => rfl
        | ok nchg =>
          dsimp only
          split
          · rfl
          rw [numD_s h "IonQ" _ (by decide), numD_s h "IonZ" _ (by decide), newRef_im h, newCharges_im h hs]
          generalize newRef c (getNumD c "IonZ" (ics.headD 0)) (getNumD c "IonQ" (nchg.headD 0)) = ref
          cases newCharges c ref (cs.getD 0) (chosen cs (ics.zip nchg)) with
          | error e => rfl
          | ok l => exact congrArg Except.ok (stateOf_im ref l)
      rw [hm]
      cases newMany c ((optNum c "cstate").map (fun _ => i)) ics <;> rfl

/-- The constructors of the elements, with `ty` the type in the lattice. -/
theorem build_im {ty : String} (h : MirroredElement ty c c') (env : Env) (junk : Mat) (t : MType) (ht : t = .source → ty = "source") {d d' : MDat}
    (hd : build env junk t c = .ok d) (hd' : build env junk t c' = .ok d') :
    d.conf = c ∧ d.cav = none ∧ d' = imageD c' d := by
  obtain ⟨p1, p2, p3⟩ := place_m h
  have hr : ∀ k, k ∈ ["L", "dx", "yaw", "skipcache", "HdipoleFitMode"] → k ∈ keys ∧ ¬ Reversed ty c k := by
    intro k hk
    have key : ∀ k, k ∈ keys → k ∉ ["dy", "roll", "pitch"] → k ≠ "B" → (¬ ∃ n : ℕ, k = "scl_fac" ++ toString n) → k ≠ "B3" → k ∉ ["phi", "phi1", "phi2"] →
        k ≠ "phi" → k ∉ ["theta_y", "tm_ykick", "xyrotate"] → k ∈ keys ∧ ¬ Reversed ty c k := by
      intro k h0 h1 h2 h3 h4 h5 h6 h7
      exact ⟨h0, by simp only [Reversed]; tauto⟩
    simp only [List.mem_cons, List.not_mem_nil, or_false] at hk
    rcases hk with rfl | rfl | rfl | rfl | rfl
    · exact key _ (by decide) (by decide) (by decide) (scl_ne (by decide)) (by decide) (by decide) (by decide) (by decide)
    · exact key _ (by decide) (by decide) (by decide) (scl_ne (by decide)) (by decide) (by decide) (by decide) (by decide)
    · exact key _ (by decide) (by decide) (by decide) (scl_ne (by decide)) (by decide) (by decide) (by decide) (by decide)
    · refine key _ (by decide) (by decide) (by decide) ?_ (by decide) (by decide) (by decide) (by decide)
      rintro ⟨n, hn⟩
      exact no_number _ _ n 'e' (by decide) (by decide) hn
    · exact key _ (by decide) (by decide) (by decide) (scl_ne (by decide)) (by decide) (by decide) (by decide) (by decide)
  have hn : ∀ k, k ∈ ["L", "dx", "yaw", "skipcache", "HdipoleFitMode"] → ∀ x, getNumD c' k x = getNumD c k x :=
    fun k hk x => numD_m h k x (hr k hk).1 (hr k hk).2
  have hsk : @decide (getNumD c' "skipcache" 0 ≠ 0) (Classical.propDecidable _) = @decide (getNumD c "skipcache" 0 ≠ 0) (Classical.propDecidable _) := by
    rw [hn "skipcache" (by decide)]
  have hfl := flag_m h env "HdipoleFitMode" 1 (hr "HdipoleFitMode" (by decide)).1 (hr "HdipoleFitMode" (by decide)).2
  unfold build at hd hd'
  simp only [hsk, hn "L" (by decide), p1, p2, p3, hn "dx" (by decide), hn "yaw" (by decide), hfl, neg_mul] at hd'
  cases t <;> dsimp only at hd hd'
  case source =>
    have := ht rfl
    subst this
    rw [newState_im h] at hd'
    cases hs : newState junk c with
    | ub => rw [hs] at hd; cases hd
    | err e => rw [hs] at hd; cases hd
    | ok S =>
      rw [hs] at hd hd'
      cases hd; cases hd'
      exact ⟨rfl, rfl, rfl⟩
  case sbend =>
    cases hs : getFlag env c "HdipoleFitMode" 1 with
    | error e => rw [hs] at hd; cases hd
    | ok n =>
      rw [hs] at hd hd'
      dsimp only at hd hd'
      split at hd
      · rename_i hn
        rw [if_pos hn] at hd'
        cases hd; cases hd'
        exact ⟨rfl, rfl, rfl⟩
      · cases hd
  all_goals
    cases hd; cases hd'
    exact ⟨rfl, rfl, rfl⟩

end Flame.Level
