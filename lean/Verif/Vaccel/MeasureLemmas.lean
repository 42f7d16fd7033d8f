import Verif.Vaccel.MeasureSpec
import Verif.Machine.Props

/-! # Observers of the virtual accelerator -/

namespace Flame.Vaccel

open Flame.Mach
open Spec

variable {C X S : Type}

/-! ## passages -/

theorem passages_place (n : Nat) : ∀ (els : List (Elem C X S)) (s : St S),
    (∀ e ∈ els, Steady e.cls) → els.length < sizeMod → s.retreat = false → els.length - s.nextElem ≤ n →
    ∃ k, (passages n els s).map (·.1) = List.range' s.nextElem k ∧
      ((run n els s).err = none → k = els.length - s.nextElem) ∧
      ((run n els s).err ≠ none → k < els.length - s.nextElem) := by
  induction n with
  | zero => intro els s _ _ _ hn; exact ⟨0, by simp [passages], fun _ => by omega, fun h => by simp [run] at h⟩
  | succ n ih =>
    intro els s hs hl hr hn
    cases h : els[s.nextElem]? with
    | none =>
      have hge := List.getElem?_eq_none_iff.1 h
      refine ⟨0, by simp [passages, h], fun _ => by omega, fun hc => ?_⟩
      rw [run_succ_none h] at hc
      simp at hc
    | some e =>
      have hlt := (List.getElem?_eq_some_iff.1 h).1
      have hst := stepNext_fwd hr (show s.nextElem + 1 < sizeMod by omega)
      obtain ⟨h1, h2⟩ := hs e (List.mem_of_getElem? h) e.dat (stepNext s)
      cases h3 : (e.cls.advance e.dat (stepNext s)).2.2 with
      | some x =>
        refine ⟨0, by simp [passages, h, h3], fun hc => ?_, fun _ => by omega⟩
        rw [run_succ_err h h3] at hc
        simp at hc
      | none =>
        have h1' : (e.cls.advance e.dat (stepNext s)).2.1.nextElem = s.nextElem + 1 := by rw [h1, hst]
        have h2' : (e.cls.advance e.dat (stepNext s)).2.1.retreat = false := by rw [h2, stepNext_retreat, hr]
        obtain ⟨k, i1, i2, i3⟩ := ih (els.set s.nextElem { e with dat := (e.cls.advance e.dat (stepNext s)).1 })
          (e.cls.advance e.dat (stepNext s)).2.1 (all_cls_set _ h hs) (by simpa using hl) h2'
          (by rw [h1', List.length_set]; omega)
        rw [h1', List.length_set] at i2 i3
        rw [h1'] at i1
        refine ⟨k + 1, ?_, ?_, ?_⟩
        · simp only [passages, h, h3, Option.isSome_none, Bool.false_eq_true, if_false, List.map_cons, i1]
          rw [List.range'_succ]
        · intro hc
          rw [run_succ_ok h h3] at hc
          have := i2 hc
          omega
        · intro hc
          rw [run_succ_ok h h3] at hc
          have := i3 hc
          omega

/-- A simulation goes through if and only if nothing throws. -/
theorem through_iff {els : List (Elem C X S)} (hs : ∀ e ∈ els, Steady e.cls) (hl : els.length ≤ 2 ^ 31 - 1) (s : S) :
    (passages (2 ^ 31 - 1) els ⟨0, false, s⟩).map (·.1) = List.range els.length ↔
      (run (2 ^ 31 - 1) els ⟨0, false, s⟩).err = none := by
  have hm : els.length < sizeMod := by
    have : (2 ^ 31 - 1 : Nat) < sizeMod := by decide
    omega
  obtain ⟨k, h1, h2, h3⟩ := passages_place (2 ^ 31 - 1) els ⟨0, false, s⟩ hs hm rfl (by dsimp only; omega)
  dsimp only at h1 h2 h3
  constructor
  · intro h
    by_contra hc
    have := h3 hc
    have hk := congrArg List.length (h1.symm.trans h)
    simp at hk
    omega
  · intro h
    rw [h1, h2 h, List.range_eq_range']
    simp

/-! ## what observers keep -/

theorem viewOne_length (seen : List (Option (St S))) (o : Nat) (s : St S) : (viewOne seen o s).length = seen.length := by
  unfold viewOne
  split <;> simp

theorem viewAll_length : ∀ (t : List (Event S)) (seen : List (Option (St S))), (viewAll seen t).length = seen.length
  | [], _ => rfl
  | .visit _ :: t, seen => viewAll_length t seen
  | .view o _ s :: t, seen => by
    unfold viewAll
    rw [viewAll_length t, viewOne_length]

theorem viewOne_ne (seen : List (Option (St S))) {o o' : Nat} (s : St S) (h : o' ≠ o) : (viewOne seen o' s)[o]? = seen[o]? := by
  unfold viewOne
  split
  · rfl
  · rw [List.getElem?_set, if_neg h]
  · rw [List.getElem?_set, if_neg h]

theorem viewOne_self (seen : List (Option (St S))) {o : Nat} (s : St S) (h : o < seen.length) :
    ∃ l, (viewOne seen o s)[o]? = some (some l) ∧ l.payload = s.payload := by
  unfold viewOne
  rw [List.getElem?_eq_getElem h]
  cases seen[o] with
  | none => exact ⟨s.clone, by simp [h], rfl⟩
  | some l => exact ⟨l.assign s, by simp [h], rfl⟩

/-- If all views of an observer show the same and there is one, that is what it keeps. -/
theorem viewAll_get : ∀ (t : List (Event S)) (seen : List (Option (St S))) (o : Nat) (x : S), o < seen.length →
    (∀ w ∈ views t, w.1 = o → w.2.2.payload = x) →
    ((∃ w ∈ views t, w.1 = o) ∨ ∃ l, seen[o]? = some (some l) ∧ l.payload = x) →
    ∃ l, (viewAll seen t)[o]? = some (some l) ∧ l.payload = x
  | [], _, _, _, _, _, h => by
    rcases h with ⟨w, hw, -⟩ | h
    · simp [views] at hw
    · exact h
  | .visit _ :: t, seen, o, x, ho, h1, h2 => viewAll_get t seen o x ho h1 h2
  | .view o' i s :: t, seen, o, x, ho, h1, h2 => by
    unfold viewAll
    refine viewAll_get t _ o x (by rw [viewOne_length]; exact ho)
      (fun w hw => h1 w (by simp only [views]; exact List.mem_cons_of_mem _ hw)) ?_
    by_cases hc : o' = o
    · subst hc
      obtain ⟨l, l1, l2⟩ := viewOne_self seen s ho
      exact .inr ⟨l, l1, l2.trans (h1 (o', i, s) (by simp [views]) rfl)⟩
    · rcases h2 with ⟨w, hw, he⟩ | ⟨l, l1, l2⟩
      · simp only [views, List.mem_cons] at hw
        rcases hw with rfl | hw
        · exact absurd he hc
        · exact .inl ⟨w, hw, he⟩
      · exact .inr ⟨l, by rw [viewOne_ne seen s hc]; exact l1, l2⟩

/-! ## the simulation object -/

/-- The elements carry exactly the observers of `measures`, each its own; nothing else but contents and caches has changed
since the machine `m0` was built. -/
structure Sound (m0 : Machine C X S) (q : Sim C X S) : Prop where
  byName : q.m.byName = m0.byName
  byType : q.m.byType = m0.byType
  len : q.m.elems.length = m0.elems.length
  idx : ∀ (i : Nat) e, q.m.elems[i]? = some e → e.index = i ∧ e.obs = q.measures i ∧
    ∃ e0, m0.elems[i]? = some e0 ∧ e.cls = e0.cls
  inside : ∀ i o, q.measures i = some o → i < m0.elems.length ∧ o < q.seen.length
  own : ∀ i j o, q.measures i = some o → q.measures j = some o → i = j

/-- `q'` comes from `q` without a simulation. -/
structure Later (q q' : Sim C X S) : Prop where
  name : q'.name = q.name
  valid : q'.valid = q.valid
  kept : ∀ i o, q.measures i = some o → q'.measures i = some o
  seen : ∀ o, o < q.seen.length → q'.seen[o]? = q.seen[o]?
  fresh : ∀ o l, q.seen.length ≤ o → q'.seen[o]? = some l → l = none
  grow : q.seen.length ≤ q'.seen.length
  back : ∀ i o, q'.measures i = some o → o < q.seen.length → q.measures i = some o

theorem Later.refl (q : Sim C X S) : Later q q :=
  ⟨rfl, rfl, fun _ _ h => h, fun _ _ => rfl, fun o l h hl => (by rw [List.getElem?_eq_none h] at hl; cases hl), le_rfl,
    fun _ _ h _ => h⟩

theorem Later.trans {q q' q'' : Sim C X S} (h : Later q q') (h' : Later q' q'') : Later q q'' := by
  refine ⟨h'.name.trans h.name, h'.valid.trans h.valid, fun i o ho => h'.kept i o (h.kept i o ho), fun o ho => ?_,
    fun o l ho hl => ?_, h.grow.trans h'.grow, fun i o hi ho => h.back i o (h'.back i o hi (ho.trans_le h.grow)) ho⟩
  · rw [h'.seen o (ho.trans_le h.grow), h.seen o ho]
  · by_cases hc : o < q'.seen.length
    · rw [h'.seen o hc] at hl
      exact h.fresh o l ho hl
    · exact h'.fresh o l (by omega) hl

theorem sound_fresh (cv : CView C) (w : Mach.World C X S) (c : C) (m : Machine C X S) (hm : Machine.new cv w c = .ok m)
    (name : String) : Sound m (Sim.fresh name m) := by
  obtain ⟨sim, es, h1, h2, h3, h4, h5, h6⟩ := C18_machine_matches_lattice cv w c m hm
  refine ⟨rfl, rfl, rfl, fun i e he => ?_, fun _ _ h => (by cases h), fun _ _ _ h => by cases h⟩
  have hi := (List.getElem?_eq_some_iff.1 he).1
  change i < m.elems.length at hi
  obtain ⟨e', k, k1, k2, k3⟩ := h6 i es[i] (List.getElem?_eq_getElem (by omega))
  change m.elems[i]? = some e at he
  rw [he] at k1
  cases k1
  exact ⟨k3.index, k3.obs, e, he, rfl⟩

theorem getMeasure_sound {m0 : Machine C X S} {q : Sim C X S} (h : Sound m0 q) {i : Nat} (hi : i < m0.elems.length) :
    ∃ q' o, q.getMeasure i = .ok (q', o) ∧ Sound m0 q' ∧ Later q q' ∧ q'.measures i = some o := by
  unfold Sim.getMeasure
  cases hq : q.measures i with
  | some o => exact ⟨q, o, rfl, h, Later.refl q, hq⟩
  | none =>
    have hl : i < q.m.elems.length := by rw [h.len]; exact hi
    obtain ⟨e, he⟩ : ∃ e, q.m.elems[i]? = some e := ⟨_, List.getElem?_eq_getElem hl⟩
    obtain ⟨e1, e2, e0, e3, e4⟩ := h.idx i e he
    rw [he]
    dsimp only
    rw [e2, hq]
    simp only [Option.isSome_none, Bool.false_eq_true, if_false]
    refine ⟨_, _, rfl, ⟨h.byName, h.byType, by simp [h.len], ?_, ?_, ?_⟩, ⟨rfl, rfl, ?_, ?_, ?_, by simp, ?_⟩, by simp⟩
    · intro j f hf
      dsimp only at hf ⊢
      rw [List.getElem?_set] at hf
      split at hf
      · rename_i hij
        subst hij
        cases hf
        exact ⟨e1, by simp, e0, e3, e4⟩
      · rename_i hij
        rw [if_neg (fun hc => hij hc.symm)]
        exact h.idx j f hf
    · intro j o ho
      dsimp only at ho ⊢
      split at ho
      · rename_i hj
        cases ho
        exact ⟨hj ▸ hi, by simp⟩
      · have := h.inside j o ho
        exact ⟨this.1, by simp; omega⟩
    · intro j k o hj hk
      dsimp only at hj hk
      split at hj
      · rename_i hj'
        cases hj
        split at hk
        · rename_i hk'
          rw [hj', hk']
        · exact absurd (h.inside k _ hk).2 (lt_irrefl _)
      · split at hk
        · cases hk
          exact absurd (h.inside j _ hj).2 (lt_irrefl _)
        · exact h.own j k o hj hk
    · intro j o ho
      dsimp only
      rw [if_neg]
      · exact ho
      · rintro rfl
        rw [hq] at ho
        cases ho
    · intro o ho
      dsimp only
      rw [List.getElem?_append_left ho]
    · intro o l ho hl'
      dsimp only at hl'
      rw [List.getElem?_append_right ho] at hl'
      have := List.mem_of_getElem? hl'
      exact List.mem_singleton.1 this
    · intro j o hj ho
      dsimp only at hj
      split at hj
      · cases hj
        exact absurd ho (lt_irrefl _)
      · exact hj

theorem measureAll_sound {m0 : Machine C X S} : ∀ (l : List Nat) {q : Sim C X S}, Sound m0 q → (∀ i ∈ l, i < m0.elems.length) →
    ∃ q', measureAll q l = (q', .ok ()) ∧ Sound m0 q' ∧ Later q q' ∧ ∀ i ∈ l, (q'.measures i).isSome
  | [], q, h, _ => ⟨q, rfl, h, Later.refl q, by simp⟩
  | i :: l, q, h, hl => by
    have hi := hl i (List.mem_cons_self ..)
    have hl' : i < q.m.elems.length := by rw [h.len]; exact hi
    obtain ⟨e, he⟩ : ∃ e, q.m.elems[i]? = some e := ⟨_, List.getElem?_eq_getElem hl'⟩
    obtain ⟨q1, o, g1, g2, g3, g4⟩ := getMeasure_sound h hi
    obtain ⟨q2, k1, k2, k3, k4⟩ := measureAll_sound l g2 (fun j hj => hl j (List.mem_cons_of_mem _ hj))
    unfold measureAll
    rw [he]
    dsimp only
    rw [(h.idx i e he).1, g1]
    refine ⟨q2, k1, k2, g3.trans k3, fun j hj => ?_⟩
    rcases List.mem_cons.1 hj with rfl | hj
    · rw [k3.kept _ _ g4]
      rfl
    · exact k4 j hj

/-! ## changes of the configuration -/

theorem rebuild_kept {cv : CView C} {k : Cls C X S} {o o' : Elem C X S} {c : C} {idx : Nat} {r : Option Err}
    (h : rebuild cv k o c idx = (o', r)) (hi : o.index = idx) : o'.cls = o.cls ∧ o'.obs = o.obs ∧ o'.index = idx := by
  unfold rebuild at h
  split at h
  · cases h
    exact ⟨rfl, rfl, hi⟩
  · split at h
    · cases h
      exact ⟨rfl, rfl, hi⟩
    · cases h
      exact ⟨rfl, rfl, rfl⟩

theorem change_sound {m0 : Machine C X S} {q : Sim C X S} (h : Sound m0 q) {cv : CView C} {w : Mach.World C X S} {idx : Nat} {c : C}
    {m' : Machine C X S} {r : Out Unit} (hr : q.m.reconfigure cv w idx c = (m', r)) : Sound m0 { q with m := m' } := by
  have triv : m' = q.m → Sound m0 { q with m := m' } := by
    rintro rfl
    exact h
  unfold Machine.reconfigure at hr
  split at hr
  · cases hr
    exact triv rfl
  · rename_i o ho
    have key : ∀ k o' e, rebuild cv k o c idx = (o', e) →
        Sound m0 { q with m := { q.m with elems := q.m.elems.set idx o' } } := by
      intro k o' e he
      obtain ⟨p1, p2, e0, p3, p4⟩ := h.idx idx o ho
      obtain ⟨k1, k2, k3⟩ := rebuild_kept he p1
      refine ⟨h.byName, h.byType, by simp [h.len], ?_, h.inside, h.own⟩
      intro j f hf
      dsimp only at hf ⊢
      rw [List.getElem?_set] at hf
      split at hf
      · rename_i hij
        subst hij
        split at hf
        · cases hf
          exact ⟨k3, k2.trans p2, e0, p3, k1.trans p4⟩
        · cases hf
      · exact h.idx j f hf
    split at hr
    · cases hr
      exact triv rfl
    · split at hr
      · cases hr
        exact triv rfl
      · split at hr
        · cases hr
          exact triv rfl
        · split at hr
          · rename_i he
            cases hr
            exact key _ _ _ he
          · rename_i he
            cases hr
            exact key _ _ _ he

/-! ## simulations -/

theorem sound_cls {m0 : Machine C X S} {q : Sim C X S} (h : Sound m0 q) (P : Cls C X S → Prop) (hp : ∀ e ∈ m0.elems, P e.cls) :
    ∀ e ∈ q.m.elems, P e.cls := by
  intro e he
  obtain ⟨i, hi⟩ := List.mem_iff_getElem?.1 he
  obtain ⟨-, -, e0, h0, h1⟩ := h.idx i e hi
  rw [h1]
  exact hp e0 (List.mem_of_getElem? h0)

/-- What a simulation does. -/
theorem simulate_sound {m0 : Machine C X S} {q q' : Sim C X S} {s : S} (h : Sound m0 q) (hs : ∀ e ∈ m0.elems, Steady e.cls)
    (hl : m0.elems.length ≤ 2 ^ 31 - 1) (hq : q.simulate (.ok s) = some q') :
    Sound m0 q' ∧ q'.name = q.name ∧ q'.measures = q.measures ∧ q'.seen.length = q.seen.length ∧
    (q'.valid = true ↔ (passages (2 ^ 31 - 1) q.m.elems ⟨0, false, s⟩).map (·.1) = List.range q.m.elems.length) ∧
    (q'.valid = true → ∀ i o, q.measures i = some o → ∃ l t, q'.seen[o]? = some (some l) ∧ l.payload = t.payload ∧
      (i, t) ∈ passages (2 ^ 31 - 1) q.m.elems ⟨0, false, s⟩) := by
  unfold Sim.simulate at hq
  dsimp only at hq
  rw [propagate_eq _ _ _ _ (by decide)] at hq
  have hb : (2 ^ 31 - 1 : Int).natAbs = 2 ^ 31 - 1 := by decide
  have hd : decide ((2 ^ 31 - 1 : Int) < 0) = false := by decide
  rw [hb, hd] at hq
  simp only [Option.map_some, Option.some.injEq] at hq
  have hs' := sound_cls h Steady hs
  have hl' : q.m.elems.length ≤ 2 ^ 31 - 1 := by rw [h.len]; exact hl
  have hthr := through_iff hs' hl' s
  have hr : propagate q.m.elems ⟨0, false, s⟩ 0 (2 ^ 31 - 1) = some (run (2 ^ 31 - 1) q.m.elems ⟨0, false, s⟩) := by
    rw [propagate_eq _ _ _ _ (by decide), hb, hd]
  obtain ⟨ps, tail, c1, -, -, c2⟩ := C25_one_view_per_passage q.m.elems ⟨0, false, s⟩ 0 (2 ^ 31 - 1)
    (fun i e he => (h.idx i e he).1) _ hr
  rw [hb, hd] at c1
  have hfix := run_fixed (2 ^ 31 - 1) q.m.elems (⟨0, false, s⟩ : St S)
  have hlen := run_length (2 ^ 31 - 1) q.m.elems (⟨0, false, s⟩ : St S)
  generalize run (2 ^ 31 - 1) q.m.elems (⟨0, false, s⟩ : St S) = r at *
  subst hq
  refine ⟨⟨h.byName, h.byType, hlen.trans h.len, ?_, ?_, h.own⟩, rfl, rfl, viewAll_length _ _, ?_, ?_⟩
  · intro i e he
    dsimp only at he ⊢
    have hi : i < q.m.elems.length := by rw [← hlen]; exact (List.getElem?_eq_some_iff.1 he).1
    have hf := congrArg (fun l => l[i]?) hfix
    simp only [List.getElem?_map, he, Option.map_some] at hf
    rw [List.getElem?_eq_getElem hi, Option.map_some, Option.some.injEq] at hf
    obtain ⟨p1, p2, e0, p3, p4⟩ := h.idx i _ (List.getElem?_eq_getElem hi)
    simp only [Elem.fixed, Prod.mk.injEq] at hf
    obtain ⟨f1, f2, f3, f4, f5⟩ := hf
    exact ⟨f3.trans p1, f5.trans p2, e0, p3, f1.trans p4⟩
  · intro i o ho
    exact ⟨(h.inside i o ho).1, by dsimp only; rw [viewAll_length]; exact (h.inside i o ho).2⟩
  · dsimp only
    rw [Option.isNone_iff_eq_none]
    exact hthr.symm
  · intro hv i o ho
    dsimp only at hv ⊢
    have hps := hthr.2 (Option.isNone_iff_eq_none.1 hv)
    rw [← c1] at hps ⊢
    have hi : i < q.m.elems.length := by rw [h.len]; exact (h.inside i o ho).1
    have hmem : i ∈ ps.map (·.1) := by rw [hps]; exact List.mem_range.2 hi
    obtain ⟨⟨i', t⟩, ht, hti⟩ := List.mem_map.1 hmem
    dsimp only at hti
    subst hti
    -- There is only one passage through each element.
    have huniq : ∀ w ∈ ps, w.1 = i' → w = (i', t) := by
      intro w hw hwi
      have hn : (ps.map (·.1)).Nodup := by rw [hps]; exact List.nodup_range
      exact List.inj_on_of_nodup_map hn hw ht hwi
    have hobs : ∀ j, (q.m.elems[j]?).bind Elem.obs = if j < q.m.elems.length then q.measures j else none := by
      intro j
      by_cases hj : j < q.m.elems.length
      · rw [if_pos hj, List.getElem?_eq_getElem hj, Option.bind_some]
        exact (h.idx j _ (List.getElem?_eq_getElem hj)).2.1
      · rw [if_neg hj, List.getElem?_eq_none (by omega)]
        rfl
    have hv1 : ∀ w ∈ views r.trace, w.1 = o → w.2.2.payload = t.payload := by
      intro w hw hwo
      rw [c2] at hw
      obtain ⟨⟨j, u⟩, hu, hw⟩ := List.mem_filterMap.1 hw
      dsimp only at hw
      rw [hobs j] at hw
      split at hw
      · cases hj : q.measures j with
        | none => rw [hj] at hw; cases hw
        | some o' =>
          rw [hj] at hw
          simp only [Option.map_some, Option.some.injEq] at hw
          subst hw
          dsimp only at hwo ⊢
          subst hwo
          have := huniq (j, u) hu (h.own j i' o' hj ho)
          cases this
          rfl
      · cases hw
    have hv2 : ∃ w ∈ views r.trace, w.1 = o := by
      refine ⟨(o, i', t), ?_, rfl⟩
      rw [c2]
      refine List.mem_filterMap.2 ⟨(i', t), ht, ?_⟩
      dsimp only
      rw [hobs i', if_pos hi, ho]
      rfl
    obtain ⟨l, l1, l2⟩ := viewAll_get r.trace q.seen o t.payload (h.inside i' o ho).2 hv1 (.inl hv2)
    exact ⟨l, t, l1, l2, ht⟩

end Flame.Vaccel
