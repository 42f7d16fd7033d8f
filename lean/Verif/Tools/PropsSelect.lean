import Verif.Tools.SelectSpec
import Verif.Machine.Props
import Verif.Tools.Record

/-! # C70 -/

namespace Flame.Tools

open Flame.Mach Spec

variable {C X S : Type}

/-- The format gives observers. -/
def Format.gives : Format → Bool
  | .hdf5 none => false
  | _ => true

theorem observe_isSome (f : Format) (n : Nat) : f.observe n = if f.gives then some n else none := by
  cases f with
  | txt a b => rfl
  | utest a => rfl
  | hdf5 o => cases o <;> rfl

/-- The elements so far: those in `A` have been given an observer, each its own. -/
structure Inv (f : Format) (els : List (Elem C X S)) (A : Nat → Prop) (q : Sel C X S) : Prop where
  len : q.elems.length = els.length
  same : ∀ (i : Nat) e e', els[i]? = some e → q.elems[i]? = some e' → SameButObs e e'
  obs : ∀ (i : Nat) e, q.elems[i]? = some e → (e.obs.isSome = true ↔ f.gives = true ∧ A i)
  fresh : ∀ (i : Nat) e o, q.elems[i]? = some e → e.obs = some o → o < q.made
  own : ∀ (i j : Nat) e e' o, q.elems[i]? = some e → q.elems[j]? = some e' → e.obs = some o → e'.obs = some o → i = j

theorem inv_give {f : Format} {els : List (Elem C X S)} {A : Nat → Prop} {q : Sel C X S} (h : Inv f els A q) (i : Nat)
    (hi : i < els.length) : Inv f els (fun j => A j ∨ j = i) (q.give f i) := by
  have hl : i < q.elems.length := by rw [h.len]; exact hi
  have he : q.elems[i]? = some q.elems[i] := List.getElem?_eq_getElem hl
  generalize q.elems[i] = e at he
  have hg : q.give f i = { elems := q.elems.set i { e with obs := f.observe q.made }, made := q.made + 1 } := by
    unfold Sel.give
    rw [he]
  rw [hg, observe_isSome]
  refine ⟨by simp [h.len], ?_, ?_, ?_, ?_⟩
  · intro j a b ha hb
    dsimp only at hb
    rw [List.getElem?_set] at hb
    split at hb
    · rename_i hij
      subst hij
      cases hb
      exact h.same i a e ha he
    · exact h.same j a b ha hb
  · intro j b hb
    dsimp only at hb
    rw [List.getElem?_set] at hb
    split at hb
    · rename_i hij
      subst hij
      cases hb
      cases f.gives <;> simp
    · rename_i hij
      rw [h.obs j b hb]
      constructor
      · exact fun hc => ⟨hc.1, .inl hc.2⟩
      · rintro ⟨hc, hc' | rfl⟩
        · exact ⟨hc, hc'⟩
        · exact absurd rfl hij
  · intro j b o hb ho
    dsimp only at hb ⊢
    rw [List.getElem?_set] at hb
    split at hb
    · rename_i hij
      subst hij
      cases hb
      dsimp only at ho
      split at ho
      · cases ho
        omega
      · cases ho
    · have := h.fresh j b o hb ho
      omega
  · intro j k a b o ha hb hoa hob
    dsimp only at ha hb
    rw [List.getElem?_set] at ha hb
    have new : ∀ {x : Elem C X S}, some { e with obs := if f.gives then some q.made else none } = some x →
        x.obs = some o → o = q.made := by
      intro x hx hxo
      cases hx
      dsimp only at hxo
      split at hxo
      · cases hxo
        rfl
      · cases hxo
    split at ha <;> split at hb
    · omega
    · have h1 := new ha hoa
      have h2 := h.fresh k b o hb hob
      omega
    · have h1 := new hb hob
      have h2 := h.fresh j a o ha hoa
      omega
    · exact h.own j k a b o ha hb hoa hob

theorem inv_offer {f : Format} {els : List (Elem C X S)} {A : Nat → Prop} {q : Sel C X S} (h : Inv f els A q) (i : Nat)
    (hi : i < els.length) : Inv f els (fun j => A j ∨ j = i) (q.offer f i) := by
  have hl : i < q.elems.length := by rw [h.len]; exact hi
  have he : q.elems[i]? = some q.elems[i] := List.getElem?_eq_getElem hl
  generalize q.elems[i] = e at he
  unfold Sel.offer
  rw [he]
  dsimp only
  by_cases hn : e.obs.isNone = true
  · rw [if_pos hn]
    exact inv_give h i hi
  · rw [if_neg hn]
    have hs : e.obs.isSome = true := by
      cases ho : e.obs with
      | none => rw [ho] at hn; simp at hn
      | some o => rfl
    have hA := (h.obs i e he).1 hs
    refine ⟨h.len, h.same, ?_, h.fresh, h.own⟩
    intro j b hb
    rw [h.obs j b hb]
    constructor
    · exact fun hc => ⟨hc.1, .inl hc.2⟩
    · rintro ⟨hc, hc' | rfl⟩
      · exact ⟨hc, hc'⟩
      · exact hA

theorem Inv.congr {f : Format} {els : List (Elem C X S)} {A B : Nat → Prop} {q : Sel C X S} (h : Inv f els A q)
    (hAB : ∀ i, i < els.length → (A i ↔ B i)) : Inv f els B q :=
  ⟨h.len, h.same, fun i e he => by
    rw [h.obs i e he, hAB i (by rw [← h.len]; exact (List.getElem?_eq_some_iff.1 he).1)], h.fresh, h.own⟩

theorem inv_foldl {f : Format} {els : List (Elem C X S)} (g : Sel C X S → Nat → Sel C X S)
    (hg : ∀ A q i, Inv f els A q → i < els.length → Inv f els (fun j => A j ∨ j = i) (g q i)) :
    ∀ (l : List Nat) (A : Nat → Prop) (q : Sel C X S), Inv f els A q → (∀ i ∈ l, i < els.length) →
      Inv f els (fun j => A j ∨ j ∈ l) (l.foldl g q)
  | [], A, q, h, _ => h.congr (fun i _ => by simp)
  | i :: l, A, q, h, hl => by
    refine (inv_foldl g hg l _ _ (hg A q i h (hl i (by simp))) (fun j hj => hl j (by simp [hj]))).congr (fun j _ => ?_)
    simp only [List.mem_cons]
    tauto

theorem inv_lists {f : Format} {els : List (Elem C X S)} (R : String → List Nat) (hR : ∀ x, ∀ i ∈ R x, i < els.length) :
    ∀ (l : List String) (A : Nat → Prop) (q : Sel C X S), Inv f els A q →
      Inv f els (fun j => A j ∨ ∃ x ∈ l, j ∈ R x) (l.foldl (fun q x => (R x).foldl (Sel.offer f) q) q)
  | [], A, q, h => h.congr (fun i _ => by simp)
  | x :: l, A, q, h => by
    refine (inv_lists R hR l _ _ (inv_foldl (Sel.offer f) (fun A q i h hi => inv_offer h i hi) (R x) A q h (hR x))).congr
      (fun j _ => ?_)
    simp only [List.mem_cons, exists_eq_or_imp]
    tauto

theorem inv_start (f : Format) {els : List (Elem C X S)} (h : ∀ e ∈ els, e.obs = none) : Inv f els (fun _ => False) ⟨els, 0⟩ := by
  have hn : ∀ (i : Nat) e, els[i]? = some e → e.obs = none := fun i e he => h e (List.mem_of_getElem? he)
  refine ⟨rfl, ?_, ?_, ?_, ?_⟩
  · intro i e e' he he'
    cases he.symm.trans he'
    exact ⟨rfl, rfl, rfl, rfl, rfl⟩
  · intro i e he
    rw [hn i e he]
    simp
  · intro i e o he ho
    rw [hn i e he] at ho
    cases ho
  · intro i j e e' o he _ ho _
    rw [hn i e he] at ho
    cases ho

/-- The selection as a whole. -/
theorem inv_select (cv : CView C) (w : World C X S) (c : C) (m : Machine C X S) (hm : Machine.new cv w c = .ok m)
    (hn : m.elems.length ≤ sizeMod) (f : Format) (p : Picks) : Inv f m.elems (Chosen p m.elems) (select f p m) := by
  obtain ⟨l1, l2, -, -⟩ := C19_lookups_exact cv w c m hm hn
  have hobs : ∀ e ∈ m.elems, e.obs = none := by
    intro e he
    obtain ⟨-, -, -, -, es, -, hlen, hk⟩ := new_ok hm
    obtain ⟨i, hi⟩ := List.getElem?_of_mem he
    have hil : i < es.length := by rw [← hlen]; exact (List.getElem?_eq_some_iff.1 hi).1
    obtain ⟨_, _, _, _, h6⟩ := hk i hil e hi
    exact h6.obs
  have h1 : Inv f m.elems (fun _ => p.all = true)
      (if p.all then (List.range m.elems.length).foldl (Sel.give f) ⟨m.elems, 0⟩ else ⟨m.elems, 0⟩) := by
    by_cases ha : p.all = true
    · rw [if_pos ha]
      refine (inv_foldl (Sel.give f) (fun A q i h hi => inv_give h i hi) _ _ _ (inv_start f hobs)
        (fun i hi => List.mem_range.1 hi)).congr (fun i hi => ?_)
      simp [ha, hi]
    · rw [if_neg ha]
      exact (inv_start f hobs).congr (fun i _ => by simp [ha])
  have h2 := inv_lists (f := f) (fun ty => m.equalRangeType ty) (els := m.elems)
    (fun ty i hi => by rw [l2 ty] at hi; exact ((mem_positions _ _ _).1 hi).elim (fun a => by grind)) p.types _ _ h1
  have h3 := inv_lists (f := f) (fun nm => m.equalRange nm) (els := m.elems)
    (fun ty i hi => by rw [l1 ty] at hi; exact ((mem_positions _ _ _).1 hi).elim (fun a => by grind)) p.names _ _ h2
  have chosen : ∀ i, i < m.elems.length → ((((p.all = true ∨ ∃ x ∈ p.types, i ∈ m.equalRangeType x) ∨
      ∃ x ∈ p.names, i ∈ m.equalRange x) ∨ (p.last = true ∧ i = m.elems.length - 1)) ↔ Chosen p m.elems i) := by
    intro i hi
    have he : m.elems[i]? = some m.elems[i] := List.getElem?_eq_getElem hi
    generalize m.elems[i] = e at he
    have t1 : (∃ x ∈ p.types, i ∈ m.equalRangeType x) ↔ e.cls.typeName ∈ p.types := by
      constructor
      · rintro ⟨x, hx, hi⟩
        rw [l2 x, mem_positions] at hi
        obtain ⟨e', he', hp⟩ := hi
        cases he.symm.trans he'
        rw [decide_eq_true_eq] at hp
        rw [hp]
        exact hx
      · intro hx
        exact ⟨_, hx, by rw [l2, mem_positions]; exact ⟨e, he, by simp⟩⟩
    have t2 : (∃ x ∈ p.names, i ∈ m.equalRange x) ↔ e.name ∈ p.names := by
      constructor
      · rintro ⟨x, hx, hi⟩
        rw [l1 x, mem_positions] at hi
        obtain ⟨e', he', hp⟩ := hi
        cases he.symm.trans he'
        rw [decide_eq_true_eq] at hp
        rw [hp]
        exact hx
      · intro hx
        exact ⟨_, hx, by rw [l1, mem_positions]; exact ⟨e, he, by simp⟩⟩
    rw [t1, t2]
    unfold Chosen
    constructor
    · rintro (((h | h) | h) | ⟨h, h'⟩)
      · exact ⟨e, he, .inl h⟩
      · exact ⟨e, he, .inr (.inl h)⟩
      · exact ⟨e, he, .inr (.inr (.inl h))⟩
      · exact ⟨e, he, .inr (.inr (.inr ⟨h, by omega⟩))⟩
    · rintro ⟨e', he', h⟩
      cases he.symm.trans he'
      rcases h with h | h | h | ⟨h, h'⟩
      · exact .inl (.inl (.inl h))
      · exact .inl (.inl (.inr h))
      · exact .inl (.inr h)
      · exact .inr ⟨h, by omega⟩
  unfold select
  dsimp only
  by_cases hl : p.last = true ∧ 0 < m.elems.length
  · rw [if_pos hl]
    refine (inv_offer h3 (m.elems.length - 1) (by omega)).congr (fun i hi => ?_)
    rw [← chosen i hi]
    simp [hl.1]
  · rw [if_neg hl]
    refine h3.congr (fun i hi => ?_)
    rw [← chosen i hi]
    constructor
    · exact .inl
    · rintro (h | ⟨h, -⟩)
      · exact h
      · exact absurd ⟨h, by omega⟩ hl

/-- **C70**, selection: with an output format that has somewhere to write, exactly the elements selected by one of the options get
an observer, each its own; otherwise none does.  Nothing else of the machine changes. -/
theorem C70_selected (cv : CView C) (w : World C X S) (c : C) (m : Machine C X S) (hm : Machine.new cv w c = .ok m)
    (hn : m.elems.length ≤ sizeMod) (f : Format) (p : Picks) :
    List.Forall₂ SameButObs m.elems (select f p m).elems ∧
    (∀ (i : Nat) e, (select f p m).elems[i]? = some e → (e.obs.isSome = true ↔ f ≠ .hdf5 none ∧ Chosen p m.elems i)) ∧
    (∀ (i j : Nat) e e' o, (select f p m).elems[i]? = some e → (select f p m).elems[j]? = some e' → e.obs = some o →
      e'.obs = some o → i = j) := by
  have h := inv_select cv w c m hm hn f p
  have hg : f.gives = true ↔ f ≠ .hdf5 none := by
    cases f with
    | txt a b => simp [Format.gives]
    | utest a => simp [Format.gives]
    | hdf5 o => cases o <;> simp [Format.gives]
  refine ⟨?_, fun i e he => by rw [h.obs i e he, hg], h.own⟩
  rw [List.forall₂_iff_get]
  refine ⟨h.len.symm, fun i h1 h2 => ?_⟩
  exact h.same i _ _ (List.getElem?_eq_getElem h1) (List.getElem?_eq_getElem h2)

theorem shownBy_eq : ∀ t : List (Event S), shownBy t = views t
  | [] => rfl
  | .visit _ :: t => shownBy_eq t
  | .view _ _ _ :: t => by rw [shownBy, views, shownBy_eq t]

open Classical in
/-- What observers see, if those of the elements in `P` have one. -/
theorem seen_filter (P : Nat → Prop) (els : List (Elem C X S)) (ps : List (Nat × St S))
    (h : ∀ (i : Nat) e, els[i]? = some e → (e.obs.isSome = true ↔ P i)) (hP : ∀ i, P i → i < els.length) :
    (ps.filterMap (fun q => ((els[q.1]?).bind Elem.obs).map (fun o => (o, q.1, q.2)))).map (·.2) =
      ps.filter (fun q => decide (P q.1)) := by
  induction ps with
  | nil => rfl
  | cons q ps ih =>
    rw [List.filterMap_cons, List.filter_cons]
    by_cases hq : P q.1
    · have he : els[q.1]? = some _ := List.getElem?_eq_getElem (hP _ hq)
      generalize els[q.1]'(hP _ hq) = e at he
      have ho := (h q.1 e he).2 hq
      obtain ⟨o, ho⟩ := Option.isSome_iff_exists.1 ho
      rw [if_pos (by simpa using hq), he]
      simp only [Option.bind_some, ho, Option.map_some, List.map_cons, ih]
    · rw [if_neg (by simpa using hq)]
      have hb : (els[q.1]?).bind Elem.obs = none := by
        cases he : els[q.1]? with
        | none => rfl
        | some e =>
          rw [Option.bind_some]
          cases ho : e.obs with
          | none => rfl
          | some o => exact absurd ((h q.1 e he).1 (by rw [ho]; rfl)) hq
      rw [hb]
      exact ih

theorem clearObs_same {els els' : List (Elem C X S)} (h : List.Forall₂ SameButObs els els') : clearObs els = clearObs els' := by
  unfold clearObs
  induction h with
  | nil => rfl
  | cons h _ ih =>
    rename_i a b _ _ _
    obtain ⟨h1, h2, h3, h4, h5⟩ := h
    cases a
    cases b
    simp only at h1 h2 h3 h4 h5
    subst h1 h2 h3 h4 h5
    simp [ih]

open Classical in
theorem wanted_eq (p : Picks) (els : List (Elem C X S)) (ps : List (Nat × St S)) :
    wanted p els ps = ps.filter (fun q => decide (Chosen p els q.1)) := rfl

theorem views_run {els : List (Elem C X S)} (hi : Indexed els) (n : Nat) (s : St S) :
    views (run n els s).trace = (passages n els s).filterMap (fun q => ((els[q.1]?).bind Elem.obs).map (fun o => (o, q.1, q.2))) := by
  obtain ⟨tail, h1, h2⟩ := run_trace n els s hi
  rw [h1, views_append, views_flatMap]
  have : views tail = [] := by
    split at h2
    · obtain ⟨j, rfl⟩ := h2
      rfl
    · rw [h2]; rfl
  rw [this, List.append_nil]

theorem same_getElem? {els els' : List (Elem C X S)} (h : List.Forall₂ SameButObs els els') {i : Nat} {e : Elem C X S}
    (he : els'[i]? = some e) : ∃ e0, els[i]? = some e0 ∧ SameButObs e0 e := by
  have hl := (List.getElem?_eq_some_iff.1 he).1
  have hl' : i < els.length := by rw [h.length_eq]; exact hl
  refine ⟨_, List.getElem?_eq_getElem hl', ?_⟩
  have := (List.forall₂_iff_get.1 h).2 i hl' hl
  rw [List.get_eq_getElem, List.get_eq_getElem] at this
  rw [List.getElem?_eq_getElem hl] at he
  cases he
  exact this

/-- What is seen in a run of elements of which the selected ones have observers. -/
theorem seen_run {els : List (Elem C X S)} {P : Nat → Prop} (hi : Indexed els)
    (h : ∀ (i : Nat) e, els[i]? = some e → (e.obs.isSome = true ↔ P i)) (hP : ∀ i, P i → i < els.length) (n : Nat) (s : St S) :
    (shownBy (run n els s).trace).map (·.2) = (passages n (clearObs els) s).filter (fun q => @decide (P q.1) (Classical.propDecidable _)) := by
  rw [shownBy_eq, views_run hi, seen_filter P els _ h hP, passages_clearObs]

/-- Elements after a run keep their observers. -/
theorem run_obs {els : List (Elem C X S)} (n : Nat) (s : St S) {i : Nat} {e : Elem C X S} (he : (run n els s).elems[i]? = some e) :
    ∃ e0, els[i]? = some e0 ∧ e0.obs = e.obs ∧ e0.index = e.index := by
  have := congrArg (fun l => l[i]?) (run_fixed n els s)
  simp only [List.getElem?_map, he, Option.map_some] at this
  cases h0 : els[i]? with
  | none => rw [h0] at this; cases this
  | some e0 =>
    rw [h0, Option.map_some, Option.some.injEq] at this
    simp only [Elem.fixed, Prod.mk.injEq] at this
    exact ⟨e0, rfl, this.2.2.2.2.symm, this.2.2.1.symm⟩

/-- The states shown by the tool, with and without `--timeit`. -/
theorem cli_seen (cv : CView C) (w : World C X S) (c : C) (m : Machine C X S) (hm : Machine.new cv w c = .ok m)
    (hn : m.elems.length ≤ sizeMod) (f : Format) (hf : f ≠ .hdf5 none) (p : Picks) (s : St S) (max : Int) (r : Run C X S)
    (hr : propagate m.elems s 0 max = some r) :
    (∃ d, cliRun f p m s max false = some d ∧ d.st = r.st ∧ d.err = r.err ∧
      d.seen.map (·.2) = wanted p m.elems (passages max.natAbs m.elems { s with nextElem := 0, retreat := decide (max < 0) })) ∧
    (r.err = none → ∀ r', propagate r.elems r.st 0 max = some r' → ∃ d, cliRun f p m s max true = some d ∧ d.st = r'.st ∧
      d.err = r'.err ∧
      d.seen.map (·.2) = wanted p m.elems (passages max.natAbs m.elems { s with nextElem := 0, retreat := decide (max < 0) }) ++
        wanted p m.elems (passages max.natAbs r.elems { r.st with nextElem := 0, retreat := decide (max < 0) })) := by
  obtain ⟨h1, h2, -⟩ := C70_selected cv w c m hm hn f p
  have hx : max ≠ -2 ^ 31 := by
    rintro rfl
    simp [propagate, cAbs] at hr
  rw [propagate_eq _ s 0 max hx] at hr
  cases hr
  have hc := clearObs_same h1
  have hidx : Indexed (select f p m).elems := by
    intro i e he
    obtain ⟨e0, he0, hs⟩ := same_getElem? h1 he
    rw [← hs.2.2.1]
    exact (new_ok hm).1.indexed i e0 he0
  have hP : ∀ i, Chosen p m.elems i → i < (select f p m).elems.length := by
    rintro i ⟨e, he, -⟩
    rw [← h1.length_eq]
    exact (List.getElem?_eq_some_iff.1 he).1
  have hobs : ∀ (i : Nat) e, (select f p m).elems[i]? = some e → (e.obs.isSome = true ↔ Chosen p m.elems i) :=
    fun i e he => by rw [h2 i e he]; simp [hf]
  have one : ∀ s0 : St S, (shownBy (run max.natAbs (select f p m).elems s0).trace).map (·.2) =
      wanted p m.elems (passages max.natAbs m.elems s0) := fun s0 => by
    rw [seen_run hidx hobs hP, ← hc, passages_clearObs]
    rfl
  unfold cliRun simulate
  rw [propagate_eq _ s 0 max hx]
  dsimp only
  generalize ({ s with nextElem := 0, retreat := decide (max < 0) } : St S) = s0
  obtain ⟨a1, a2, a3, -⟩ := run_clearObs max.natAbs m.elems s0
  obtain ⟨b1, b2, b3, -⟩ := run_clearObs max.natAbs (select f p m).elems s0
  rw [hc] at a1 a2 a3
  have eel := b1.symm.trans a1
  have est := b2.symm.trans a2
  have eerr := b3.symm.trans a3
  constructor
  · cases he : (run max.natAbs (select f p m).elems s0).err with
    | some e => exact ⟨_, rfl, est, by rw [← eerr, he], one s0⟩
    | none => exact ⟨_, rfl, est, by rw [← eerr, he], one s0⟩
  · intro hok r' hr'
    rw [propagate_eq _ _ 0 max hx] at hr'
    cases hr'
    rw [eerr, hok]
    dsimp only
    rw [if_pos rfl, propagate_eq _ _ 0 max hx]
    dsimp only
    rw [est]
    generalize ({ (run max.natAbs m.elems s0).st with nextElem := 0, retreat := decide (max < 0) } : St S) = s1
    obtain ⟨-, c2, c3, -⟩ := run_clearObs max.natAbs (run max.natAbs m.elems s0).elems s1
    obtain ⟨-, d2, d3, -⟩ := run_clearObs max.natAbs (run max.natAbs (select f p m).elems s0).elems s1
    rw [eel] at d2 d3
    refine ⟨_, rfl, d2.symm.trans c2, d3.symm.trans c3, ?_⟩
    dsimp only
    rw [List.map_append, one s0]
    congr 1
    have hlen : (run max.natAbs (select f p m).elems s0).elems.length = (select f p m).elems.length := by
      simpa using congrArg List.length (run_fixed max.natAbs (select f p m).elems s0)
    rw [seen_run (P := Chosen p m.elems) ?_ ?_ ?_, eel, passages_clearObs]
    · rfl
    · intro i e he
      obtain ⟨e0, h0, -, h02⟩ := run_obs _ _ he
      rw [← h02]
      exact hidx i e0 h0
    · intro i e he
      obtain ⟨e0, h0, h01, -⟩ := run_obs _ _ he
      rw [← h01]
      exact hobs i e0 h0
    · intro i hi
      rw [hlen]
      exact hP i hi

/-- **C70**, output: the tool shows each completed passage through a selected element once, in order, with the state at the exit of
the element; final state and exception are those of a simulation without output. -/
theorem C70_shown (cv : CView C) (w : World C X S) (c : C) (m : Machine C X S) (hm : Machine.new cv w c = .ok m)
    (hn : m.elems.length ≤ sizeMod) (f : Format) (hf : f ≠ .hdf5 none) (p : Picks) (s : St S) (max : Int) (r : Run C X S)
    (hr : propagate m.elems s 0 max = some r) :
    ∃ d, cliRun f p m s max false = some d ∧ d.st = r.st ∧ d.err = r.err ∧
      d.seen.map (·.2) = wanted p m.elems (passages max.natAbs m.elems { s with nextElem := 0, retreat := decide (max < 0) }) :=
  (cli_seen cv w c m hm hn f hf p s max r hr).1

/-- With `--timeit` the output goes on with a second simulation that starts from the final state of the first. -/
theorem C70_timeit (cv : CView C) (w : World C X S) (c : C) (m : Machine C X S) (hm : Machine.new cv w c = .ok m)
    (hn : m.elems.length ≤ sizeMod) (f : Format) (hf : f ≠ .hdf5 none) (p : Picks) (s : St S) (max : Int) (r r' : Run C X S)
    (hr : propagate m.elems s 0 max = some r) (he : r.err = none) (hr' : propagate r.elems r.st 0 max = some r') :
    ∃ d, cliRun f p m s max true = some d ∧ d.st = r'.st ∧ d.err = r'.err ∧
      d.seen.map (·.2) = wanted p m.elems (passages max.natAbs m.elems { s with nextElem := 0, retreat := decide (max < 0) }) ++
        wanted p m.elems (passages max.natAbs r.elems { r.st with nextElem := 0, retreat := decide (max < 0) }) :=
  (cli_seen cv w c m hm hn f hf p s max r hr).2 he r' hr'

/-- **C70 is false** with `--timeit`: measuring the time changes what is shown and the final state. -/
theorem C70_timeit_false : ∃ (m : Machine Toy.TC (Int × Nat) (List Int)) (d d' : Done (List Int)),
    Machine.new Toy.view Toy.world Toy.lattice = .ok m ∧
    cliRun (.txt none 1) ⟨false, [], ["b"], false⟩ m ⟨0, false, []⟩ 9 false = some d ∧
    cliRun (.txt none 1) ⟨false, [], ["b"], false⟩ m ⟨0, false, []⟩ 9 true = some d' ∧
    d.seen.length = 1 ∧ d'.seen.length = 2 ∧ d.st.payload = [1, 2, 3] ∧ d'.st.payload = [1, 2, 3, 1, 2, 3] := by
  obtain ⟨m, hm, he⟩ := Toy.builds
  have hl : m.elems.length ≤ sizeMod := by rw [he]; decide
  have hr := propagate_eq m.elems (⟨0, false, []⟩ : St (List Int)) 0 9 (by decide)
  rw [he] at hr
  have hr' := propagate_eq (run 9 Toy.elems ⟨0, false, []⟩).elems (run 9 Toy.elems ⟨0, false, []⟩).st 0 9 (by decide)
  obtain ⟨d, d1, d2, -, d4⟩ := C70_shown Toy.view Toy.world Toy.lattice m hm hl (.txt none 1) (by simp) ⟨false, [], ["b"], false⟩
    ⟨0, false, []⟩ 9 _ (by rw [he]; exact hr)
  obtain ⟨d', e1, e2, -, e4⟩ := C70_timeit Toy.view Toy.world Toy.lattice m hm hl (.txt none 1) (by simp) ⟨false, [], ["b"], false⟩
    ⟨0, false, []⟩ 9 _ _ (by rw [he]; exact hr) (by decide +kernel) hr'
  have hw : ∀ s1 s2 s3 : St (List Int), wanted ⟨false, [], ["b"], false⟩ Toy.elems [(0, s1), (1, s2), (2, s3)] = [(1, s2)] := by
    intro s1 s2 s3
    simp [wanted, Chosen, Toy.elems]
  refine ⟨m, d, d', hm, d1, e1, ?_, ?_, ?_, ?_⟩
  · rw [← List.length_map (f := (·.2)), d4, he]
    exact congrArg List.length (hw _ _ _)
  · rw [← List.length_map (f := (·.2)), e4, he, List.length_append]
    exact congrArg₂ (· + ·) (congrArg List.length (hw _ _ _)) (congrArg List.length (hw _ _ _))
  · rw [d2]
    decide +kernel
  · rw [e2]
    decide +kernel

end Flame.Tools
