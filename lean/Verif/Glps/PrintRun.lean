import Mathlib.Data.List.Forall2
import Verif.Glps.PrintLemmas

/-!
# The statements of a printed configuration and their effect
-/

namespace Flame.Glps

variable {N : Type} {strtod : Name → Option N}

theorem runs_append {a : Arith N} {f f' f'' : File N} {ss ss' : List (Stmt N)} (h : Runs a f ss f')
    (h' : Runs a f' ss' f'') : Runs a f (ss ++ ss') f'' := by
  induction h with
  | nil => exact h'
  | cons hd _ ih => exact .cons hd (ih h')

theorem means_closed {a : Arith N} {e : Exp N} {v : Val N} (h : Means a (fun _ => none) e v)
    (ρ : Name → Option (Val N)) : Means a ρ e v :=
  means_mono a _ ρ (by intro n v h; cases h) e v h

/-- Printed values and values of the definitions. -/
abbrev SameVals (qs : List (Name × Val N)) (m : List (Name × CV N)) : Prop :=
  List.Forall₂ (fun (q : Name × Val N) (p : Name × CV N) => q.1 = p.1 ∧ q.2.toCV = some p.2) qs m

theorem SameVals.keys {qs : List (Name × Val N)} {m : List (Name × CV N)} (h : SameVals qs m) :
    qs.map (·.1) = m.map (·.1) := by
  induction h with
  | nil => rfl
  | cons h _ ih => rw [List.map_cons, List.map_cons, h.1, ih]

theorem SameVals.lookup {qs : List (Name × Val N)} {m : List (Name × CV N)} (h : SameVals qs m) (k : Name) :
    (qs.lookup k).bind Val.toCV = m.lookup k := by
  induction h with
  | nil => rfl
  | @cons q p qs m h _ ih =>
    obtain ⟨qk, qv⟩ := q
    obtain ⟨pk, pv⟩ := p
    simp only at h
    rw [List.lookup_cons, List.lookup_cons, h.1]
    by_cases hk : k = pk
    · subst hk
      simp [h.2]
    · have hb : (k == pk) = false := by simpa using hk
      simp only [hb]
      exact ih

theorem SameVals.no_line {qs : List (Name × Val N)} {m : List (Name × CV N)} (h : SameVals qs m) (k : Name) (v : Val N)
    (hv : qs.lookup k = some v) : v.toCV ≠ none := by
  induction h with
  | nil => cases hv
  | @cons q p qs m h _ ih =>
    obtain ⟨qk, qv⟩ := q
    rw [List.lookup_cons] at hv
    by_cases hk : k = qk
    · subst hk
      simp only [beq_self_eq_true] at hv
      injection hv with hv
      rw [← hv, h.2]
      simp
    · have hb : (k == qk) = false := by simpa using hk
      simp only [hb] at hv
      exact ih hv

theorem vars_run {a : Arith N} {fmt : N → Name} (m : SMap Name (CV N)) :
    (∀ p ∈ m, IsKw p.1 ∧ (IsCfgs p.2 ∨ Simple a strtod fmt p.2)) →
    (m.map (·.1)).Nodup → ∀ f : File N, (∀ p ∈ m, p.1 ∉ f.vars.map (·.1)) →
    ∃ ss vs, Chunk strtod (showVars fmt m) ss ∧ SameVals vs (plainPart m) ∧
      Runs a f ss { f with vars := f.vars ++ vs } := by
  induction m with
  | nil =>
    intro _ _ f _
    exact ⟨[], [], Chunk.nil, .nil, by simpa using Runs.nil f⟩
  | cons p m ih =>
    obtain ⟨k, v⟩ := p
    intro h hnd f hf
    rw [List.map_cons, List.nodup_cons] at hnd
    obtain ⟨hk, hv⟩ := h (k, v) (List.mem_cons_self ..)
    have h' := fun p hp => h p (List.mem_cons_of_mem _ hp)
    rw [showVars]
    unfold plainPart
    rcases hv with hv | hv
    · obtain ⟨ss, vs, h1, h2, h3⟩ := ih h' hnd.2 f (fun p hp => hf p (List.mem_cons_of_mem _ hp))
      refine ⟨ss, vs, ?_, ?_, h3⟩
      · have hc : Chunk strtod (showVar fmt k v) ([] : List (Stmt N)) := by
          cases v with
          | cfgs l =>
            rw [showVar]
            split
            · exact Chunk.nil
            · have e : "# ".toList ++ (k ++ " = [... skipped ...];\n".toList) =
                  '#' :: ((' ' :: (k ++ " = [... skipped ...];".toList)) ++ ['\n']) := by simp
              rw [e]
              refine Chunk.comment ?_
              have := isKw_no_newline hk
              simp [this]
          | _ => exact absurd hv (by simp [IsCfgs])
        exact Chunk.append hc h1
      · rw [List.filter_cons_of_neg (by simp [hv])]
        exact h2
    · obtain ⟨e, w, g1, g2, g3, g4⟩ := var_chunk hk hv
      have hnc : ¬ IsCfgs v := by
        cases v with
        | cfgs l => exact absurd hv (by simp [Simple])
        | _ => simp [IsCfgs]
      obtain ⟨ss, vs, h1, h2, h3⟩ := ih h' hnd.2 { f with vars := f.vars ++ [(k, w)] } (by
        intro p hp hm
        simp only [List.map_append, List.map_cons, List.map_nil, List.mem_append, List.mem_singleton] at hm
        rcases hm with hm | hm
        · exact hf p (List.mem_cons_of_mem _ hp) hm
        · exact hnd.1 (hm ▸ List.mem_map_of_mem (f := (·.1)) hp))
      refine ⟨.assign k e :: ss, (k, w) :: vs, Chunk.append g1 h1, ?_, ?_⟩
      · rw [List.filter_cons_of_pos (by simp [hnc])]
        exact .cons ⟨rfl, g3⟩ h2
      · refine .cons (.assign (means_closed g2 _) g4 (hf (k, v) (List.mem_cons_self ..))) ?_
        simpa using h3

/-- An element of a configuration that can be printed. -/
structure ElemOk (a : Arith N) (strtod : Name → Option N) (fmt : N → Name) (e : Cf N) (n t : Name) : Prop where
  sorted : SMap.Sorted e.own
  name : e.own.find "name".toList = some (.str n)
  type : e.own.find "type".toList = some (.str t)
  kwName : IsKw n
  kwType : IsKw t
  vals : ∀ p ∈ e.own, IsKw p.1 ∧ (IsCfgs p.2 ∨ Simple a strtod fmt p.2)

theorem isKw_ne_nil {k : Name} (h : IsKw k) : k ≠ [] := by
  obtain ⟨c, r, rfl, _⟩ := h
  simp

theorem elems_run {a : Arith N} {fmt : N → Name} (es : List (Cf N)) :
    ∀ (ns : List Name), List.Forall₂ (fun e n => ∃ t, ElemOk a strtod fmt e n t) es ns →
    ∀ (shown : List Name) (f : File N),
      (∀ n, n ∈ shown ↔ n ∈ f.elems.map (·.1)) →
      ∃ w ss fs, showElems fmt es shown = some (w, ns) ∧ Chunk strtod w ss ∧
        Runs a f ss { f with elems := f.elems ++ fs } ∧
        (∀ n ∈ ns, n ∈ (f.elems ++ fs).map (·.1)) ∧
        (∀ n ∈ fs.map (·.1), n ∈ ns) ∧
        (∀ x ∈ fs, ∃ e ∈ es, ElemOk a strtod fmt e x.1 x.2.1 ∧ SameVals x.2.2 (shownProps e.own)) := by
  induction es with
  | nil =>
    intro ns h shown f _
    cases h
    exact ⟨[], [], [], rfl, Chunk.nil, by simpa using Runs.nil f, by simp, by simp, by simp⟩
  | cons e es ih =>
    intro ns h shown f hs
    cases h with
    | @cons _ n _ ns he hr =>
      obtain ⟨t, he⟩ := he
      have hn : e.getStr "name".toList = some n := by simp only [Cf.getStr, Cf.look, he.name]
      have ht : e.getStr "type".toList = some t := by simp only [Cf.getStr, Cf.look, he.type]
      have hne : (n.isEmpty || t.isEmpty) = false := by
        have h1 := isKw_ne_nil he.kwName
        have h2 := isKw_ne_nil he.kwType
        cases n <;> cases t <;> simp_all
      rw [showElems, hn, ht]
      simp only [hne, Bool.false_eq_true, if_false]
      by_cases hm : n ∈ shown
      · obtain ⟨w, ss, fs, h1, h2, h3, h4, h5, h6⟩ := ih ns hr shown f hs
        refine ⟨w, ss, fs, by rw [if_pos hm, h1], h2, h3, ?_, ?_, ?_⟩
        · intro x hx
          rcases List.mem_cons.1 hx with rfl | hx
          · rw [List.map_append]
            exact List.mem_append_left _ ((hs x).1 hm)
          · exact h4 x hx
        · exact fun x hx => List.mem_cons_of_mem _ (h5 x hx)
        · intro x hx
          obtain ⟨e', he', h⟩ := h6 x hx
          exact ⟨e', List.mem_cons_of_mem _ he', h⟩
      · obtain ⟨ps, qs, c1, c2, c3⟩ := elem_chunk (a := a) (fmt := fmt) (strtod := strtod) e.own he.kwName he.kwType he.vals
        obtain ⟨w, ss, fs, h1, h2, h3, h4, h5, h6⟩ := ih ns hr (n :: shown) { f with elems := f.elems ++ [(n, t, qs)] } (by
          intro x
          simp only [List.mem_cons, List.map_append, List.map_cons, List.map_nil, List.mem_append,
            List.not_mem_nil, or_false, hs x]
          exact or_comm)
        refine ⟨_, .element n t ps :: ss, (n, t, qs) :: fs, by rw [if_neg hm, h1], ?_, ?_, ?_, ?_, ?_⟩
        · have := Chunk.append c1 h2
          simpa using this
        · refine .cons (.element (isKw_ne_nil he.kwName) (isKw_ne_nil he.kwType) ?_ ?_) (by simpa using h3)
          · exact fun hx => hm ((hs n).2 hx)
          · exact c2.imp (fun p q h => ⟨h.1, means_closed h.2 _⟩)
        · intro x hx
          rcases List.mem_cons.1 hx with rfl | hx
          · simp
          · have := h4 x hx
            simpa using this
        · intro x hx
          rw [List.map_cons] at hx
          rcases List.mem_cons.1 hx with rfl | hx
          · exact List.mem_cons_self ..
          · exact List.mem_cons_of_mem _ (h5 x hx)
        · intro x hx
          rcases List.mem_cons.1 hx with rfl | hx
          · exact ⟨e, List.mem_cons_self .., he, c3⟩
          · obtain ⟨e', he', h⟩ := h6 x hx
            exact ⟨e', List.mem_cons_of_mem _ he', h⟩

theorem find_filter (m : SMap Name (CV N)) (hm : SMap.Sorted m) (p : Name × CV N → Bool) (k : Name) :
    (m.filter p).lookup k = match m.find k with | some v => if p (k, v) then some v else none | none => none := by
  rw [← find_eq_lookup]
  have hs : SMap.Sorted (m.filter p) := List.Pairwise.filter _ hm
  cases hf : m.find k with
  | none =>
    simp only
    refine SMap.find_eq_none_of_forall_ne _ _ ?_
    intro q hq he
    have hq' := (List.mem_filter.1 hq).1
    have := SMap.mem_find_of_sorted m hm q.1 q.2 hq'
    rw [he, hf] at this
    cases this
  | some v =>
    simp only
    have hmem := SMap.find_some_mem m k v hf
    by_cases hp : p (k, v) = true
    · rw [if_pos hp]
      exact SMap.mem_find_of_sorted _ hs k v (List.mem_filter.2 ⟨hmem, hp⟩)
    · rw [if_neg hp]
      refine SMap.find_eq_none_of_forall_ne _ _ ?_
      intro q hq he
      obtain ⟨hq1, hq2⟩ := List.mem_filter.1 hq
      have := SMap.mem_find_of_sorted m hm q.1 q.2 hq1
      rw [he, hf] at this
      injection this with this
      apply hp
      rw [this]
      obtain ⟨q1, q2⟩ := q
      simp only at he
      rw [← he]
      exact hq2

end Flame.Glps
