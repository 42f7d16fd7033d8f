import Verif.Glps.PrintRun

/-!
# A printed configuration parses
-/

namespace Flame.Glps

variable {N : Type} {strtod : Name → Option N}

/-- A configuration whose text is a correct lattice file. -/
structure Printable (a : Arith N) (strtod : Name → Option N) (fmt : N → Name) (own : SMap Name (CV N))
    (es : List (Cf N)) (lname : Name) : Prop where
  sorted : SMap.Sorted own
  elements : own.find "elements".toList = some (.cfgs es)
  name : own.find "name".toList = some (.str lname)
  kwName : IsKw lname
  nonempty : es ≠ []
  vals : ∀ p ∈ own, IsKw p.1 ∧ (IsCfgs p.2 ∨ Simple a strtod fmt p.2)
  elems : ∀ e ∈ es, ∃ n t, ElemOk a strtod fmt e n t ∧ n ≠ "USE".toList ∧ (plainPart own).find n = none
  same : ∀ e ∈ es, ∀ e' ∈ es, e.own.find "name".toList = e'.own.find "name".toList → e.own = e'.own

/-- What is read back. -/
def reread (own : SMap Name (CV N)) (es : List (Cf N)) : Cf N :=
  .mk ((plainPart own).insert "elements".toList
    (.cfgs (es.map (fun e => Cf.mk (plainPart e.own) (plainPart own))))) []

theorem plain_sorted {m : SMap Name (CV N)} (h : SMap.Sorted m) : SMap.Sorted (plainPart m) :=
  List.Pairwise.filter _ h

theorem plain_find {m : SMap Name (CV N)} (h : SMap.Sorted m) (k : Name) :
    (plainPart m).find k = match m.find k with | some v => if IsCfgs v then none else some v | none => none := by
  rw [find_eq_lookup, plainPart, find_filter m h]
  cases m.find k with
  | none => rfl
  | some v =>
    simp only
    by_cases hv : IsCfgs v <;> simp [hv]

theorem forall₂_of_all {A B : Type} {R : A → B → Prop} : ∀ (l : List A), (∀ x ∈ l, ∃ y, R x y) →
    ∃ l', List.Forall₂ R l l'
  | [], _ => ⟨[], .nil⟩
  | x :: l, h => by
    obtain ⟨y, hy⟩ := h x (List.mem_cons_self ..)
    obtain ⟨l', hl'⟩ := forall₂_of_all l (fun x hx => h x (List.mem_cons_of_mem _ hx))
    exact ⟨y :: l', .cons hy hl'⟩

theorem printable_parse {a : Arith N} {fmt : N → Name} {own : SMap Name (CV N)} {inh : SMap Name (CV N)}
    {es : List (Cf N)} {lname : Name} (h : Printable a strtod fmt own es lname) :
    ∃ text, glpsPrint fmt (.mk own inh) = some text ∧
      parseText a strtod [] text true = .ok (reread own es) := by
  obtain ⟨ns, hns⟩ := forall₂_of_all (R := fun e n => ∃ t, ElemOk a strtod fmt e n t) es (by
    intro e he
    obtain ⟨n, t, h1, _⟩ := h.elems e he
    exact ⟨n, t, h1⟩)
  -- every member of the line is the name of an element
  have hmem : ∀ n ∈ ns, n ≠ "USE".toList ∧ (plainPart own).find n = none ∧ IsKw n := by
    intro n hn
    have : ∃ e ∈ es, ∃ t, ElemOk a strtod fmt e n t := by
      clear h
      induction hns with
      | nil => cases hn
      | @cons e m es ns h1 _ ih =>
        rcases List.mem_cons.1 hn with rfl | hn
        · exact ⟨e, List.mem_cons_self .., h1⟩
        · obtain ⟨e', h2, h3⟩ := ih hn
          exact ⟨e', List.mem_cons_of_mem _ h2, h3⟩
    obtain ⟨e, he, t, hok⟩ := this
    obtain ⟨n', t', hok', h1, h2⟩ := h.elems e he
    have : n' = n := by
      have := hok'.name
      rw [hok.name] at this
      injection this with this
      injection this with this
      exact this.symm
    rw [this] at h1 h2
    exact ⟨h1, h2, hok.kwName⟩
  obtain ⟨ss1, vs, c1, v1, r1⟩ := vars_run (a := a) (fmt := fmt) (strtod := strtod) own h.vals
    (sorted_nodup _ h.sorted) File.empty (by simp [File.empty])
  obtain ⟨w, ss2, fs, e1, c2, r2, m1, m2, m3⟩ := elems_run (a := a) (fmt := fmt) (strtod := strtod) es ns hns []
    ({ File.empty with vars := File.empty.vars ++ vs } : File N) (by simp [File.empty])
  have c3 := line_chunk (strtod := strtod) h.kwName ns (fun n hn => (hmem n hn).2.2)
  have hlook : (Cf.mk own inh).look "elements".toList = some (.cfgs es) := by
    simp only [Cf.look, Cf.own, h.elements]
  have hlname : (Cf.mk own inh).getStr "name".toList = some lname := by
    simp only [Cf.getStr, Cf.look, Cf.own, h.name]
  refine ⟨showVars fmt own ++ (w ++ (lname ++ (": LINE = (".toList ++ (showNames ns ++
        (");\nUSE: ".toList ++ (lname ++ ";\n".toList)))))), ?_, ?_⟩
  · unfold glpsPrint
    rw [hlook]
    simp only [e1, hlname]
    rfl
  · rw [parse_iff a strtod [] SMap.sorted_nil]
    let f1 : File N := ⟨vs, fs, [], []⟩
    let f2 : File N := ⟨vs, fs, [(lname, ns)], []⟩
    let f3 : File N := ⟨vs, fs ++ [("USE".toList, lname, [])], [(lname, ns)], []⟩
    have hvars : ∀ n, (vs.lookup n).bind Val.toCV = (plainPart own).find n := by
      intro n
      rw [find_eq_lookup]
      exact v1.lookup n
    have hvnone : ∀ n ∈ ns, vs.lookup n = none := by
      intro n hn
      have h1 := (hmem n hn).2.1
      have h2 := hvars n
      rw [h1] at h2
      cases hl : vs.lookup n with
      | none => rfl
      | some v =>
        rw [hl] at h2
        exact absurd h2 (v1.no_line n v hl)
    have hfs : ∀ n ∈ ns, n ∈ fs.map (·.1) := by
      intro n hn
      simpa [File.empty] using m1 n hn
    have hR : Runs a (File.ofVars []) (ss1 ++ (ss2 ++ [.line lname "LINE".toList (ns.map Exp.var),
        .element "USE".toList lname []])) f3 := by
      refine runs_append r1 (runs_append r2 (.cons (f' := f2) ?_ (.cons (f' := f3) ?_ (.nil _))))
      · have hd : Does a f1 (.line lname "LINE".toList (ns.map Exp.var))
            { f1 with lines := f1.lines ++ [(lname, (ns.map (fun n => [n])).flatten)] } := by
          refine .line (by decide) (by simp [f1]) ?_
          clear c3 m1 m2 e1 hns
          induction ns with
          | nil => exact .nil
          | cons n ns ih =>
            refine .cons (.var ?_) (ih (fun x hx => hmem x (List.mem_cons_of_mem _ hx))
              (fun x hx => hvnone x (List.mem_cons_of_mem _ hx)) (fun x hx => hfs x (List.mem_cons_of_mem _ hx)))
            have h1 := hvnone n (List.mem_cons_self ..)
            have h2 := hfs n (List.mem_cons_self ..)
            simp only [File.env, f1, h1, if_pos h2]
        have hflat : (ns.map (fun n => [n])).flatten = ns := by
          have : ∀ l : List Name, (l.map (fun n => [n])).flatten = l := by
            intro l
            induction l with
            | nil => rfl
            | cons n l ih => rw [List.map_cons, List.flatten_cons, ih]; rfl
          exact this ns
        rw [hflat] at hd
        simpa [f1, f2, File.empty] using hd
      · have : ("USE".toList) ∉ f2.elems.map (·.1) := fun hu => (hmem _ (m2 _ hu)).1 rfl
        exact .element (by decide) (isKw_ne_nil h.kwName) this .nil
    refine ⟨_, f3, (Chunk.append c1 (Chunk.append c2 c3)).text, hR, ?_⟩
    have hvar : IsMap (plainPart own) f3.var := ⟨plain_sorted h.sorted, fun k => (hvars k).symm⟩
    refine Result.lattice (label := lname) (ns := ns) (es := es.map (fun e => Cf.mk (plainPart e.own) (plainPart own)))
      (.use (t := lname) (qs := []) (by simp [f3]) (by simp [f3])) ?_ ?_ ?_
    · intro hn
      subst hn
      cases hns
      exact h.nonempty rfl
    · rw [List.forall₂_map_right_iff]
      have hflip : List.Forall₂ (fun n e => e ∈ es ∧ ∃ t, ElemOk a strtod fmt e n t) ns es := by
        clear h m3 m1 m2 e1 c3
        have : ∀ (l : List (Cf N)) ns, List.Forall₂ (fun e n => ∃ t, ElemOk a strtod fmt e n t) l ns →
            (∀ e ∈ l, e ∈ es) → List.Forall₂ (fun n e => e ∈ es ∧ ∃ t, ElemOk a strtod fmt e n t) ns l := by
          intro l ns hl
          induction hl with
          | nil => exact fun _ => .nil
          | cons h1 _ ih =>
            intro hm
            exact .cons ⟨hm _ (List.mem_cons_self ..), h1⟩ (ih (fun e he => hm e (List.mem_cons_of_mem _ he)))
        exact this es ns hns (fun e he => he)
      have hnsub : ∀ n ∈ ns, n ∈ fs.map (·.1) := hfs
      refine (List.forall₂_iff_get.2 ⟨hflip.length_eq, fun i h1 h2 => ?_⟩)
      have hi := (List.forall₂_iff_get.1 hflip).2 i h1 h2
      obtain ⟨hes, t, hok⟩ := hi
      have hn := hnsub _ (List.get_mem ns ⟨i, h1⟩)
      obtain ⟨x, hx, hxn⟩ := List.mem_map.1 hn
      obtain ⟨e', he', hok', hsv⟩ := m3 x hx
      have hown : (es.get ⟨i, h2⟩).own = e'.own := by
        refine h.same _ hes _ he' ?_
        rw [hok.name, hok'.name, hxn]
      generalize es.get ⟨i, h2⟩ = e at *
      generalize ns.get ⟨i, h1⟩ = n at *
      refine ⟨hvar, x.2.1, x.2.2, ?_, fun k v hv => hsv.no_line k v hv, plain_sorted hok.sorted, ?_⟩
      · rw [← hxn]
        exact List.mem_append_left _ hx
      · intro k
        have ht : e.own.find "type".toList = some (.str x.2.1) := by rw [hown]; exact hok'.type
        have hpf := plain_find hok.sorted k
        refine Eq.trans hpf ?_
        clear hpf
        beta_reduce
        by_cases hk1 : k = "name".toList
        · subst hk1
          rw [if_pos rfl, hok.name]
          rfl
        · by_cases hk2 : k = "type".toList
          · subst hk2
            rw [if_neg (by decide), if_pos rfl, ht]
            rfl
          · rw [if_neg hk1, if_neg hk2, hsv.lookup, shownProps, find_filter _ hok'.sorted, ← hown]
            cases e.own.find k with
            | none => rfl
            | some v =>
              simp only
              by_cases hv : IsCfgs v <;> simp [hv]
              exact ⟨hk1, hk2⟩
    · have hi := isMap_insert hvar "elements".toList
        (.cfgs (es.map (fun e => Cf.mk (plainPart e.own) (plainPart own))))
      refine ⟨hi.1, fun k => ?_⟩
      rw [hi.2]
      simp only
      by_cases hk : k = "elements".toList
      · rw [if_pos hk, if_pos hk]
      · rw [if_neg hk, if_neg hk]
        by_cases hk2 : k = "name".toList
        · subst hk2
          rw [if_pos rfl, ← hvar.2, plain_find h.sorted, h.name]
          rfl
        · rw [if_neg hk2]

end Flame.Glps
