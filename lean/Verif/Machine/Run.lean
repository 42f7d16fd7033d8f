import Verif.Machine.Spec

/-! # The propagate loop: auxiliary facts -/

set_option linter.unusedSimpArgs false

namespace Flame.Mach

variable {C X S : Type}

/-- The loop with a structural budget. -/
def run : Nat → List (Elem C X S) → St S → Run C X S
  | 0, els, s => { elems := els, st := s, trace := [], err := none }
  | n + 1, els, s =>
    match els[s.nextElem]? with
    | none => { elems := els, st := s, trace := [], err := none }
    | some e =>
      let r := passElem els s.nextElem e s
      match r.err with
      | some _ => r
      | none =>
        let q := run n r.elems r.st
        { q with trace := r.trace ++ q.trace }

theorem loop_eq_run (b : Nat) : ∀ n i (els : List (Elem C X S)) (s : St S), b - i = n →
    loop b i els s = run n els s := by
  intro n
  induction n with
  | zero =>
    intro i els s h
    unfold loop
    rw [dif_neg (by omega)]
    rfl
  | succ n ih =>
    intro i els s h
    unfold loop run
    rw [dif_pos (by omega)]
    cases els[s.nextElem]? with
    | none => rfl
    | some e =>
      dsimp only
      cases hr : (passElem els s.nextElem e s).err with
      | some x => rfl
      | none =>
        dsimp only
        rw [ih (i + 1) _ _ (by omega)]

theorem propagate_eq (els : List (Elem C X S)) (s : St S) (start : Nat) (max : Int)
    (h : max ≠ -2 ^ 31) :
    propagate els s start max =
      some (run max.natAbs els { s with nextElem := start, retreat := decide (max < 0) }) := by
  unfold propagate cAbs
  rw [if_neg h]
  simp only [Option.map_some]
  rw [loop_eq_run _ max.natAbs 0 _ _ (by omega)]

theorem passElem_none {els : List (Elem C X S)} {n : Nat} {e : Elem C X S} {s : St S}
    (h : (e.cls.advance e.dat (stepNext s)).2.2 = none) :
    passElem els n e s =
      { elems := els.set n { e with dat := (e.cls.advance e.dat (stepNext s)).1 },
        st := (e.cls.advance e.dat (stepNext s)).2.1, err := none,
        trace := .visit n :: viewEvents e (e.cls.advance e.dat (stepNext s)).2.1 } := by
  unfold passElem
  simp only [h]

theorem passElem_some {els : List (Elem C X S)} {n : Nat} {e : Elem C X S} {s : St S} {x : Err}
    (h : (e.cls.advance e.dat (stepNext s)).2.2 = some x) :
    passElem els n e s =
      { elems := els.set n { e with dat := (e.cls.advance e.dat (stepNext s)).1 },
        st := (e.cls.advance e.dat (stepNext s)).2.1, err := some x, trace := [.visit n] } := by
  unfold passElem
  simp only [h]

/-- Case analysis of one turn. -/
theorem run_succ_none {n : Nat} {els : List (Elem C X S)} {s : St S}
    (h : els[s.nextElem]? = none) :
    run (n + 1) els s = { elems := els, st := s, trace := [], err := none } := by
  simp [run, h]

theorem run_succ_err {n : Nat} {els : List (Elem C X S)} {s : St S} {e : Elem C X S} {x : Err}
    (h : els[s.nextElem]? = some e) (hx : (e.cls.advance e.dat (stepNext s)).2.2 = some x) :
    run (n + 1) els s =
      { elems := els.set s.nextElem { e with dat := (e.cls.advance e.dat (stepNext s)).1 },
        st := (e.cls.advance e.dat (stepNext s)).2.1, err := some x, trace := [.visit s.nextElem] } := by
  unfold run
  simp only [h, passElem_some hx]

theorem run_succ_ok {n : Nat} {els : List (Elem C X S)} {s : St S} {e : Elem C X S}
    (h : els[s.nextElem]? = some e) (hx : (e.cls.advance e.dat (stepNext s)).2.2 = none) :
    run (n + 1) els s =
      (let r := e.cls.advance e.dat (stepNext s)
       let q := run n (els.set s.nextElem { e with dat := r.1 }) r.2.1
       { q with trace := (.visit s.nextElem :: viewEvents e r.2.1) ++ q.trace }) := by
  conv_lhs => unfold run
  simp only [h, passElem_none hx]

/-! ## what a run does not change -/

/-- The parts of an element a propagation cannot change. -/
def Elem.fixed (e : Elem C X S) : Cls C X S × String × Nat × C × Option Nat :=
  (e.cls, e.name, e.index, e.conf, e.obs)

theorem map_fixed_set (els : List (Elem C X S)) (n : Nat) (e : Elem C X S) (x : X)
    (h : els[n]? = some e) :
    (els.set n { e with dat := x }).map Elem.fixed = els.map Elem.fixed := by
  apply List.ext_getElem?
  intro i
  simp only [List.getElem?_map, List.getElem?_set]
  split
  · subst_vars
    split
    · simp [h, Elem.fixed]
    · rename_i hn
      rw [List.getElem?_eq_none (by omega)] at h
      simp at h
  · rfl

theorem run_fixed (n : Nat) : ∀ (els : List (Elem C X S)) (s : St S),
    (run n els s).elems.map Elem.fixed = els.map Elem.fixed := by
  induction n with
  | zero => intro els s; rfl
  | succ n ih =>
    intro els s
    cases h : els[s.nextElem]? with
    | none => rw [run_succ_none h]
    | some e =>
      cases hx : (e.cls.advance e.dat (stepNext s)).2.2 with
      | some x =>
        rw [run_succ_err h hx]
        exact map_fixed_set _ _ _ _ h
      | none =>
        rw [run_succ_ok h hx]
        dsimp only
        rw [ih]
        exact map_fixed_set _ _ _ _ h

theorem run_length (n : Nat) (els : List (Elem C X S)) (s : St S) :
    (run n els s).elems.length = els.length := by
  have := congrArg List.length (run_fixed n els s)
  simpa using this

theorem all_cls_of_fixed {els els' : List (Elem C X S)} (P : Cls C X S → Prop)
    (h : els'.map Elem.fixed = els.map Elem.fixed) (hp : ∀ e ∈ els, P e.cls) :
    ∀ e ∈ els', P e.cls := by
  intro e he
  have : Elem.fixed e ∈ els'.map Elem.fixed := List.mem_map_of_mem he
  rw [h] at this
  obtain ⟨e0, h0, heq⟩ := List.mem_map.1 this
  have : e0.cls = e.cls := congrArg Prod.fst heq
  rw [← this]
  exact hp e0 h0

theorem all_cls_set {els : List (Elem C X S)} (P : Cls C X S → Prop) {n : Nat} {e : Elem C X S}
    {x : X} (h : els[n]? = some e) (hp : ∀ e ∈ els, P e.cls) :
    ∀ e' ∈ els.set n { e with dat := x }, P e'.cls :=
  all_cls_of_fixed P (map_fixed_set els n e x h) hp

theorem stepNext_retreat (s : St S) : (stepNext s).retreat = s.retreat := by
  unfold stepNext
  split <;> rfl

theorem run_retreat (n : Nat) : ∀ (els : List (Elem C X S)) (s : St S),
    (∀ e ∈ els, KeepsDir e.cls) → (run n els s).st.retreat = s.retreat := by
  induction n with
  | zero => intro els s _; rfl
  | succ n ih =>
    intro els s hd
    cases h : els[s.nextElem]? with
    | none => rw [run_succ_none h]
    | some e =>
      have hk := hd e (List.mem_of_getElem? h) e.dat (stepNext s)
      rw [stepNext_retreat] at hk
      cases hx : (e.cls.advance e.dat (stepNext s)).2.2 with
      | some x => rw [run_succ_err h hx]; exact hk
      | none =>
        rw [run_succ_ok h hx]
        dsimp only
        rw [ih _ _ (all_cls_set _ h hd)]
        exact hk

/-! ## splitting a run -/

theorem run_add (a b : Nat) : ∀ (els : List (Elem C X S)) (s : St S),
    run (a + b) els s =
      (if (run a els s).err.isSome then run a els s
       else { run b (run a els s).elems (run a els s).st with
              trace := (run a els s).trace ++ (run b (run a els s).elems (run a els s).st).trace }) := by
  induction a with
  | zero => intro els s; simp [run]
  | succ a ih =>
    intro els s
    rw [show a + 1 + b = (a + b) + 1 by omega]
    cases h : els[s.nextElem]? with
    | none =>
      rw [run_succ_none h, run_succ_none h]
      cases b with
      | zero => simp [run]
      | succ b => simp [run_succ_none h]
    | some e =>
      cases hx : (e.cls.advance e.dat (stepNext s)).2.2 with
      | some x => rw [run_succ_err h hx, run_succ_err h hx]; simp
      | none =>
        rw [run_succ_ok h hx, run_succ_ok h hx]
        dsimp only
        rw [ih]
        split
        · simp
        · simp [List.append_assoc]

/-! ## the number of passages -/

theorem visits_append (a b : List (Event S)) : visits (a ++ b) = visits a ++ visits b := by
  induction a with
  | nil => rfl
  | cons x a ih => cases x <;> simp [visits, ih]

theorem views_append (a b : List (Event S)) : views (a ++ b) = views a ++ views b := by
  induction a with
  | nil => rfl
  | cons x a ih => cases x <;> simp [views, ih]

theorem stored_append (o : Nat) (a b : List (Event S)) : stored o (a ++ b) = stored o a ++ stored o b := by
  induction a with
  | nil => rfl
  | cons x a ih =>
    cases x with
    | visit n => simp [stored, ih]
    | view o' i s =>
      simp only [List.cons_append, stored, ih]
      split <;> simp

theorem visits_view (e : Elem C X S) (s : St S) :
    visits (viewEvents e s) = [] := by
  unfold viewEvents
  cases e.obs <;> rfl

theorem run_visits_le (n : Nat) : ∀ (els : List (Elem C X S)) (s : St S),
    (visits (run n els s).trace).length ≤ n := by
  induction n with
  | zero => intro els s; simp [run, visits]
  | succ n ih =>
    intro els s
    cases h : els[s.nextElem]? with
    | none => rw [run_succ_none h]; simp [visits]
    | some e =>
      cases hx : (e.cls.advance e.dat (stepNext s)).2.2 with
      | some x => rw [run_succ_err h hx]; simp [visits]
      | none =>
        rw [run_succ_ok h hx]
        dsimp only
        simp only [List.cons_append, visits, visits_append, visits_view, List.nil_append,
          List.length_cons]
        have := ih (els.set s.nextElem { e with dat := (e.cls.advance e.dat (stepNext s)).1 })
          (e.cls.advance e.dat (stepNext s)).2.1
        omega

theorem sizeMod_pos : 0 < sizeMod := Nat.two_pow_pos 64

/-! ## runs through elements that do not redirect the beam -/

theorem stepNext_fwd {s : St S} (h : s.retreat = false) (hn : s.nextElem + 1 < sizeMod) :
    stepNext s = { s with nextElem := s.nextElem + 1 } := by
  unfold stepNext
  simp [h, Nat.mod_eq_of_lt hn]

theorem stepNext_bwd {s : St S} (h : s.retreat = true) :
    stepNext s = { s with nextElem := (s.nextElem + (sizeMod - 1)) % sizeMod } := by
  unfold stepNext
  simp [h]

theorem run_forward (n : Nat) : ∀ (els : List (Elem C X S)) (s : St S),
    (∀ e ∈ els, Straight e.cls) → els.length < sizeMod → s.retreat = false →
    (run n els s).err = none ∧
    visits (run n els s).trace = List.range' s.nextElem (min n (els.length - s.nextElem)) ∧
    (run n els s).st.nextElem = s.nextElem + min n (els.length - s.nextElem) ∧
    ((run n els s).elems, (run n els s).st) =
      passAll (fun i => i + 1) els s (List.range' s.nextElem (min n (els.length - s.nextElem))) := by
  induction n with
  | zero => intro els s _ _ _; simp [run, visits, passAll]
  | succ n ih =>
    intro els s hs hl hr
    cases h : els[s.nextElem]? with
    | none =>
      have hge := List.getElem?_eq_none_iff.1 h
      rw [run_succ_none h]
      have : min (n + 1) (els.length - s.nextElem) = 0 := by omega
      simp [this, visits, passAll]
    | some e =>
      have hlt := (List.getElem?_eq_some_iff.1 h).1
      have hst := stepNext_fwd hr (show s.nextElem + 1 < sizeMod by omega)
      obtain ⟨h1, h2, h3⟩ := hs e (List.mem_of_getElem? h) e.dat (stepNext s)
      rw [run_succ_ok h h3]
      dsimp only
      rw [show min (n + 1) (els.length - s.nextElem) =
        (min n (els.length - (s.nextElem + 1))) + 1 by omega]
      have h1' : (e.cls.advance e.dat (stepNext s)).2.1.nextElem = s.nextElem + 1 := by
        rw [h1, hst]
      have h2' : (e.cls.advance e.dat (stepNext s)).2.1.retreat = false := by
        rw [h2, stepNext_retreat, hr]
      obtain ⟨i1, i2, i3, i4⟩ := ih
        (els.set s.nextElem { e with dat := (e.cls.advance e.dat (stepNext s)).1 })
        (e.cls.advance e.dat (stepNext s)).2.1 (all_cls_set _ h hs) (by simpa using hl) h2'
      rw [h1', List.length_set] at i2 i3 i4
      refine ⟨i1, ?_, ?_, ?_⟩
      · simp only [List.cons_append, visits, visits_append, visits_view, List.nil_append, i2]
        rw [List.range'_succ]
      · omega
      · rw [i4, List.range'_succ]
        simp only [passAll, h, hst]

theorem run_backward (n : Nat) : ∀ (els : List (Elem C X S)) (s : St S),
    (∀ e ∈ els, Straight e.cls) → els.length < sizeMod → s.retreat = true →
    s.nextElem < els.length →
    (run n els s).err = none ∧
    visits (run n els s).trace = (List.range (min n (s.nextElem + 1))).map (fun j => s.nextElem - j) ∧
    (run n els s).st.nextElem = (if n ≤ s.nextElem then s.nextElem - n else sizeMod - 1) ∧
    ((run n els s).elems, (run n els s).st) =
      passAll (fun i => if i = 0 then sizeMod - 1 else i - 1) els s
        ((List.range (min n (s.nextElem + 1))).map (fun j => s.nextElem - j)) := by
  induction n with
  | zero => intro els s _ _ _ _; simp [run, visits, passAll]
  | succ n ih =>
    intro els s hs hl hr hlt
    have h : els[s.nextElem]? = some els[s.nextElem] := List.getElem?_eq_getElem hlt
    generalize els[s.nextElem] = e at h
    have hst : stepNext s =
        { s with nextElem := if s.nextElem = 0 then sizeMod - 1 else s.nextElem - 1 } := by
      rw [stepNext_bwd hr]
      have hp := sizeMod_pos
      have hm : (s.nextElem + (sizeMod - 1)) % sizeMod =
          if s.nextElem = 0 then sizeMod - 1 else s.nextElem - 1 := by
       generalize sizeMod = M at *
       split
       · rename_i h0
         rw [h0, Nat.zero_add]
         exact Nat.mod_eq_of_lt (by omega)
       · rw [show s.nextElem + (M - 1) = (s.nextElem - 1) + M by omega,
          Nat.add_mod_right]
         exact Nat.mod_eq_of_lt (by omega)
      rw [hm]
    obtain ⟨h1, h2, h3⟩ := hs e (List.mem_of_getElem? h) e.dat (stepNext s)
    rw [run_succ_ok h h3]
    dsimp only
    have h1' : (e.cls.advance e.dat (stepNext s)).2.1.nextElem =
        if s.nextElem = 0 then sizeMod - 1 else s.nextElem - 1 := by
      rw [h1, hst]
    have h2' : (e.cls.advance e.dat (stepNext s)).2.1.retreat = true := by
      rw [h2, stepNext_retreat, hr]
    have hr0 : (List.range (min (n + 1) (s.nextElem + 1))).map (fun j => s.nextElem - j) =
        s.nextElem :: (List.range (min n s.nextElem)).map (fun j => s.nextElem - 1 - j) := by
      rw [show min (n + 1) (s.nextElem + 1) = min n s.nextElem + 1 by omega, List.range_succ_eq_map]
      simp only [List.map_cons, Nat.sub_zero, List.map_map]
      congr 1
      apply List.map_congr_left
      intro j _
      simp only [Function.comp_apply]
      omega
    rw [hr0]
    by_cases h0 : s.nextElem = 0
    · rw [if_pos h0] at h1'
      have hnone : (els.set s.nextElem { e with dat := (e.cls.advance e.dat (stepNext s)).1 })[
          (e.cls.advance e.dat (stepNext s)).2.1.nextElem]? = none := by
        rw [h1']
        apply List.getElem?_eq_none
        rw [List.length_set]
        omega
      have hstop : run n (els.set s.nextElem { e with dat := (e.cls.advance e.dat (stepNext s)).1 })
          (e.cls.advance e.dat (stepNext s)).2.1 =
          { elems := els.set s.nextElem { e with dat := (e.cls.advance e.dat (stepNext s)).1 },
            st := (e.cls.advance e.dat (stepNext s)).2.1, trace := [], err := none } := by
        cases n with
        | zero => rfl
        | succ n => exact run_succ_none hnone
      rw [hstop]
      refine ⟨rfl, ?_, ?_, ?_⟩
      · simp only [List.cons_append, visits, visits_append, visits_view]
        simp [h0, visits]
      · rw [if_neg (by omega)]
        exact h1'
      · rw [show min n s.nextElem = 0 by omega]
        simp only [List.range_zero, List.map_nil, passAll, h, hst]
    · rw [if_neg h0] at h1'
      obtain ⟨i1, i2, i3, i4⟩ := ih
        (els.set s.nextElem { e with dat := (e.cls.advance e.dat (stepNext s)).1 })
        (e.cls.advance e.dat (stepNext s)).2.1 (all_cls_set _ h hs) (by simpa using hl) h2'
        (by rw [h1', List.length_set]; omega)
      rw [h1'] at i2 i3 i4
      rw [show s.nextElem - 1 + 1 = s.nextElem by omega] at i2 i4
      refine ⟨i1, ?_, ?_, ?_⟩
      · simp only [List.cons_append, visits, visits_append, visits_view, List.nil_append, i2]
      · rw [i3]
        by_cases hn : n + 1 ≤ s.nextElem
        · rw [if_pos hn, if_pos (by omega)]
          omega
        · rw [if_neg hn, if_neg (by omega)]
      · rw [i4]
        simp only [passAll, h, hst]

/-! ## observers -/

/-- The events caused by a completed passage through element `i`. -/
def eventsOf (els : List (Elem C X S)) (q : Nat × St S) : List (Event S) :=
  .visit q.1 :: (match (els[q.1]?).bind Elem.obs with
    | none => []
    | some o => [.view o q.1 q.2])

theorem fixed_get {els els' : List (Elem C X S)} (h : els'.map Elem.fixed = els.map Elem.fixed) (i : Nat) :
    (els'[i]?).bind Elem.obs = (els[i]?).bind Elem.obs := by
  have := congrArg (fun l => (l[i]?).bind (fun q => q.2.2.2.2)) h
  simp only [List.getElem?_map] at this
  cases h1 : els'[i]? <;> cases h2 : els[i]? <;> simp_all [Elem.fixed]

theorem indexed_of_fixed {els els' : List (Elem C X S)}
    (h : els'.map Elem.fixed = els.map Elem.fixed) (hi : Indexed els) : Indexed els' := by
  intro i e he
  have := congrArg (fun l => (l[i]?)) h
  simp only [List.getElem?_map, he, Option.map_some] at this
  cases h2 : els[i]? with
  | none => simp [h2] at this
  | some e0 =>
    simp only [h2, Option.map_some, Option.some.injEq] at this
    have hx : e.index = e0.index := congrArg (fun q => q.2.2.1) this
    rw [hx]
    exact hi i e0 h2

theorem eventsOf_fixed {els els' : List (Elem C X S)} (h : els'.map Elem.fixed = els.map Elem.fixed) :
    eventsOf els' = eventsOf els := by
  funext q
  unfold eventsOf
  rw [fixed_get h]

theorem run_trace (n : Nat) : ∀ (els : List (Elem C X S)) (s : St S), Indexed els →
    ∃ tail : List (Event S), (run n els s).trace = (passages n els s).flatMap (eventsOf els) ++ tail ∧
      (if (run n els s).err.isSome then ∃ j, tail = [.visit j] else tail = []) := by
  induction n with
  | zero => intro els s _; exact ⟨[], by simp [run, passages], by simp [run]⟩
  | succ n ih =>
    intro els s hi
    cases h : els[s.nextElem]? with
    | none =>
      rw [run_succ_none h]
      exact ⟨[], by simp [passages, h], by simp⟩
    | some e =>
      cases hx : (e.cls.advance e.dat (stepNext s)).2.2 with
      | some x =>
        rw [run_succ_err h hx]
        exact ⟨[.visit s.nextElem], by simp [passages, h, hx], by simp⟩
      | none =>
        rw [run_succ_ok h hx]
        dsimp only
        have hf := map_fixed_set els s.nextElem e (e.cls.advance e.dat (stepNext s)).1 h
        obtain ⟨tail, h1, h2⟩ := ih _ (e.cls.advance e.dat (stepNext s)).2.1
          (indexed_of_fixed hf hi)
        refine ⟨tail, ?_, h2⟩
        rw [h1, eventsOf_fixed hf]
        simp only [passages, h, hx, Option.isSome_none, Bool.false_eq_true, if_false,
          List.flatMap_cons]
        rw [← List.append_assoc]
        congr 2
        simp only [eventsOf, h, Option.bind_some, viewEvents, hi _ _ h]
        cases e.obs <;> rfl

theorem clearObs_set (els : List (Elem C X S)) (n : Nat) (e : Elem C X S) (x : X) :
    clearObs (els.set n { e with dat := x }) =
      (clearObs els).set n { ({ e with obs := none } : Elem C X S) with dat := x } := by
  unfold clearObs
  rw [List.map_set]

theorem clearObs_get (els : List (Elem C X S)) (n : Nat) :
    (clearObs els)[n]? = (els[n]?).map (fun e => { e with obs := none }) := by
  simp [clearObs]

theorem run_clearObs (n : Nat) : ∀ (els : List (Elem C X S)) (s : St S),
    (run n (clearObs els) s).elems = clearObs (run n els s).elems ∧
    (run n (clearObs els) s).st = (run n els s).st ∧
    (run n (clearObs els) s).err = (run n els s).err ∧
    visits (run n (clearObs els) s).trace = visits (run n els s).trace := by
  induction n with
  | zero => intro els s; simp [run]
  | succ n ih =>
    intro els s
    cases h : els[s.nextElem]? with
    | none =>
      have h' : (clearObs els)[s.nextElem]? = none := by rw [clearObs_get, h]; rfl
      rw [run_succ_none h, run_succ_none h']
      simp
    | some e =>
      have h' : (clearObs els)[s.nextElem]? = some { e with obs := none } := by
        rw [clearObs_get, h]; rfl
      cases hx : (e.cls.advance e.dat (stepNext s)).2.2 with
      | some x =>
        rw [run_succ_err h hx, run_succ_err h' hx]
        simp [clearObs_set, visits]
      | none =>
        rw [run_succ_ok h hx, run_succ_ok h' hx]
        dsimp only
        have := ih (els.set s.nextElem { e with dat := (e.cls.advance e.dat (stepNext s)).1 })
          (e.cls.advance e.dat (stepNext s)).2.1
        rw [clearObs_set] at this
        obtain ⟨h1, h2, h3, h4⟩ := this
        refine ⟨h1, h2, h3, ?_⟩
        simp only [List.cons_append, visits, visits_append, visits_view, List.nil_append, h4]

theorem passages_clearObs (n : Nat) : ∀ (els : List (Elem C X S)) (s : St S),
    passages n (clearObs els) s = passages n els s := by
  induction n with
  | zero => intro els s; rfl
  | succ n ih =>
    intro els s
    cases h : els[s.nextElem]? with
    | none =>
      have h' : (clearObs els)[s.nextElem]? = none := by rw [clearObs_get, h]; rfl
      simp [passages, h, h']
    | some e =>
      have h' : (clearObs els)[s.nextElem]? = some { e with obs := none } := by
        rw [clearObs_get, h]; rfl
      simp only [passages, h, h']
      have := ih (els.set s.nextElem { e with dat := (e.cls.advance e.dat (stepNext s)).1 })
          (e.cls.advance e.dat (stepNext s)).2.1
      rw [clearObs_set] at this
      rw [this]

theorem views_flatMap (els : List (Elem C X S)) (ps : List (Nat × St S)) :
    views (ps.flatMap (eventsOf els)) =
      ps.filterMap (fun q => ((els[q.1]?).bind Elem.obs).map (fun o => (o, q.1, q.2))) := by
  induction ps with
  | nil => rfl
  | cons q ps ih =>
    simp only [List.flatMap_cons, views_append, ih, List.filterMap_cons, eventsOf, views]
    cases (els[q.1]?).bind Elem.obs <;> simp [views]

theorem stored_flatMap (o : Nat) (els : List (Elem C X S)) (ps : List (Nat × St S)) :
    stored o (ps.flatMap (eventsOf els)) =
      (ps.filter (fun q => (els[q.1]?).bind Elem.obs = some o)).map (fun q => (q.1, q.2.clone)) := by
  induction ps with
  | nil => rfl
  | cons q ps ih =>
    simp only [List.flatMap_cons, stored_append, ih, List.filter_cons, eventsOf, stored]
    cases (els[q.1]?).bind Elem.obs with
    | none => simp [stored]
    | some o' =>
      simp only [stored, Option.some.injEq, decide_eq_true_eq]
      split <;> simp

theorem visits_flatMap (els : List (Elem C X S)) (ps : List (Nat × St S)) :
    visits (ps.flatMap (eventsOf els)) = ps.map Prod.fst := by
  induction ps with
  | nil => rfl
  | cons q ps ih =>
    simp only [List.flatMap_cons, visits_append, ih, eventsOf, visits, List.map_cons]
    cases (els[q.1]?).bind Elem.obs <;> simp [visits]

/-! ## the Python wrapper -/

theorem installObs_ok (o : Nat) (is : List Nat) : ∀ els : List (Elem C X S),
    (∀ i ∈ is, i < els.length) →
    (installObs o els is).2 = none ∧
    clearObs (installObs o els is).1 = clearObs els ∧
    (installObs o els is).1.length = els.length ∧
    ∀ i : Nat, ((installObs o els is).1[i]?).bind Elem.obs =
      if i ∈ is then some o else (els[i]?).bind Elem.obs := by
  induction is with
  | nil => intro els _; simp [installObs]
  | cons i is ih =>
    intro els h
    have hi := h i (by simp)
    have he : els[i]? = some els[i] := List.getElem?_eq_getElem hi
    have := ih (els.set i { els[i] with obs := some o }) (by
      intro j hj
      rw [List.length_set]
      exact h j (by simp [hj]))
    unfold installObs
    rw [he]
    dsimp only
    obtain ⟨h1, h2, h3, h4⟩ := this
    refine ⟨h1, ?_, ?_, ?_⟩
    · rw [h2]
      apply List.ext_getElem?
      intro j
      simp only [clearObs_get, List.getElem?_set]
      by_cases hj : i = j
      · subst hj
        simp [hi, he]
      · simp [hj]
    · rw [h3, List.length_set]
    · intro j
      rw [h4, List.getElem?_set]
      by_cases hj : i = j
      · subst hj
        simp [hi]
      · simp [hj, Ne.symm hj]

theorem installObs_err (o : Nat) (is : List Nat) : ∀ els : List (Elem C X S),
    (∃ i ∈ is, els.length ≤ i) →
    (installObs o els is).2 = some .runtime ∧ clearObs (installObs o els is).1 = clearObs els := by
  induction is with
  | nil => intro els h; simp at h
  | cons i is ih =>
    intro els h
    unfold installObs
    cases he : els[i]? with
    | none => simp
    | some e =>
      have hi := (List.getElem?_eq_some_iff.1 he).1
      dsimp only
      have := ih (els.set i { e with obs := some o }) (by
        obtain ⟨j, hj, hl⟩ := h
        refine ⟨j, ?_, by rw [List.length_set]; exact hl⟩
        rcases List.mem_cons.1 hj with rfl | hj
        · omega
        · exact hj)
      refine ⟨this.1, ?_⟩
      rw [this.2]
      apply List.ext_getElem?
      intro j
      simp only [clearObs_get, List.getElem?_set]
      by_cases hj : i = j
      · subst hj
        rw [he]
        simp [hi]
      · simp [hj]

end Flame.Mach
