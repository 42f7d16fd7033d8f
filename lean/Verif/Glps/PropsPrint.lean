import Verif.Glps.PrintParse
import Verif.Glps.PropsFill

/-!
# C17: printing a lattice and parsing it again
-/

namespace Flame.Glps

variable {N : Type}

/-! ### Names written in a file are keywords -/

/-- Labels, types and property names of a statement. -/
def Stmt.kws : Stmt N → List Name
  | .assign n _ => [n]
  | .element l t ps => l :: t :: ps.map (·.1)
  | .line l t _ => [l, t]
  | .func f _ => [f]
  | .command k => [k]

theorem reads_kw {strtod : Name → Option N} {s : Name} {ts : List (Tok N)} {b : Bool} (h : Reads strtod s ts b) :
    ∀ k, Tok.kw k ∈ ts → IsKw k := by
  induction h with
  | done => intro k hk; cases hk
  | @tok pk p s t ts b hl hm _ ih =>
    intro k hk
    rcases List.mem_cons.1 hk with h | h
    · subst h
      have hf := hl.1
      cases pk with
      | kw =>
        cases hf with
        | kw hkw =>
          simp only [meaning, Option.some.injEq, Tok.kw.injEq] at hm
          rwa [← hm]
      | num =>
        simp only [meaning] at hm
        cases hs : strtod p with
        | none => rw [hs] at hm; cases hm
        | some x => rw [hs] at hm; simp at hm
      | str => simp [meaning] at hm
      | sym =>
        simp only [meaning, Option.some.injEq] at hm
        cases p <;> simp at hm
      | blank => simp [meaning] at hm
    · exact ih k h
  | skip _ _ _ ih => exact ih
  | range => intro k hk; cases hk
  | stuck => intro k hk; cases hk

theorem derP_kws {ts : List (Tok N)} {ps : List (Name × Exp N)} (h : DerP ts ps) :
    ∀ k ∈ ps.map (·.1), Tok.kw k ∈ ts := by
  induction h with
  | nil => intro k hk; cases hk
  | @cons k te e tp ps _ _ ih =>
    intro k' hk
    rw [List.map_cons] at hk
    rcases List.mem_cons.1 hk with rfl | hk
    · simp
    · have := ih k' hk
      simp [this]

theorem derF_kws {ts : List (Tok N)} {ss : List (Stmt N)} (h : DerF ts ss) :
    ∀ s ∈ ss, ∀ k ∈ s.kws, Tok.kw k ∈ ts := by
  induction h with
  | nil => intro s hs; cases hs
  | @cons ts s ts' ss hd _ ih =>
    intro s' hs k hk
    rcases List.mem_cons.1 hs with rfl | hs
    · refine List.mem_append_left _ ?_
      cases hd with
      | assign n _ => simp only [Stmt.kws, List.mem_singleton] at hk; simp [hk]
      | element l t hp =>
        simp only [Stmt.kws, List.mem_cons] at hk
        rcases hk with rfl | rfl | hk
        · simp
        · simp
        · have := derP_kws hp k hk
          simp [this]
      | line l t _ =>
        simp only [Stmt.kws, List.mem_cons, List.not_mem_nil, or_false] at hk
        rcases hk with rfl | rfl <;> simp
      | func f _ => simp only [Stmt.kws, List.mem_singleton] at hk; simp [hk]
      | command c => simp only [Stmt.kws, List.mem_singleton] at hk; simp [hk]
    · exact List.mem_append_right _ (ih s' hs k hk)

/-- All names of the definitions are keywords, and element labels are unique. -/
structure File.Kws (f : File N) : Prop where
  vars : ∀ p ∈ f.vars, IsKw p.1
  elems : ∀ x ∈ f.elems, IsKw x.1 ∧ IsKw x.2.1 ∧ ∀ q ∈ x.2.2, IsKw q.1
  lines : ∀ x ∈ f.lines, IsKw x.1
  nodup : (f.elems.map (·.1)).Nodup

theorem mem_props_key {R : Name × Exp N → Name × Val N → Prop} (hR : ∀ p q, R p q → q.1 = p.1)
    {ps : List (Name × Exp N)} {qs : List (Name × Val N)} (h : List.Forall₂ R ps qs) :
    ∀ q ∈ qs, q.1 ∈ ps.map (·.1) := by
  induction h with
  | nil => intro q hq; cases hq
  | cons h1 _ ih =>
    intro q hq
    rcases List.mem_cons.1 hq with rfl | hq
    · rw [List.map_cons, hR _ _ h1]; exact List.mem_cons_self ..
    · exact List.mem_cons_of_mem _ (ih q hq)

theorem runs_kws {a : Arith N} {f f' : File N} {ss : List (Stmt N)} (h : Runs a f ss f') (hf : f.Kws)
    (hs : ∀ s ∈ ss, ∀ k ∈ s.kws, IsKw k) : f'.Kws := by
  induction h with
  | nil => exact hf
  | @cons f f' f'' s ss hd _ ih =>
    refine ih ?_ (fun s hs' => hs s (List.mem_cons_of_mem _ hs'))
    have hk := hs s (List.mem_cons_self ..)
    cases hd with
    | @assign n e v hv hl hn =>
      refine ⟨?_, hf.elems, hf.lines, hf.nodup⟩
      intro p hp
      rcases List.mem_append.1 hp with hp | hp
      · exact hf.vars p hp
      · rw [List.mem_singleton.1 hp]
        exact hk n (by simp [Stmt.kws])
    | @element l t ps qs hl ht hn hp =>
      refine ⟨hf.vars, ?_, hf.lines, ?_⟩
      · intro x hx
        rcases List.mem_append.1 hx with hx | hx
        · exact hf.elems x hx
        · rw [List.mem_singleton.1 hx]
          refine ⟨hk l (by simp [Stmt.kws]), hk t (by simp [Stmt.kws]), ?_⟩
          intro q hq
          have : q.1 ∈ ps.map (·.1) := mem_props_key (fun _ _ h => h.1.symm) hp q hq
          exact hk q.1 (by simp only [Stmt.kws, List.mem_cons]; exact .inr (.inr this))
      · simp only [List.map_append, List.map_cons, List.map_nil]
        rw [List.nodup_append]
        refine ⟨hf.nodup, by simp, ?_⟩
        intro x hx y hy
        rw [List.mem_singleton.1 hy]
        rintro rfl
        exact hn hx
    | @line l t es ms ht hn he =>
      refine ⟨hf.vars, hf.elems, ?_, hf.nodup⟩
      intro x hx
      rcases List.mem_append.1 hx with hx | hx
      · exact hf.lines x hx
      · rw [List.mem_singleton.1 hx]
        exact hk l (by simp [Stmt.kws])
    | print => exact ⟨hf.vars, hf.elems, hf.lines, hf.nodup⟩
    | fin => exact hf

theorem ofVars_kws (vars : SMap Name (CV N)) (h : ∀ p ∈ vars, IsKw p.1) : (File.ofVars vars).Kws := by
  refine ⟨?_, by simp [File.ofVars, File.empty], by simp [File.ofVars, File.empty], by simp [File.ofVars, File.empty]⟩
  intro p hp
  simp only [File.ofVars, List.mem_filterMap] at hp
  obtain ⟨q, hq, he⟩ := hp
  have := h q hq
  obtain ⟨k, v⟩ := q
  cases v <;> simp only [Option.some.injEq, reduceCtorEq] at he <;> rw [← he] <;> exact this

/-! ### C17 -/

/-- What the text cannot express about a lattice: a line member labelled like a variable of the
printed file (the label of the line is printed as the variable `name`) or labelled `USE`. -/
def LabelsClear (c : Cf N) : Prop :=
  ∀ es e n, c.look "elements".toList = some (.cfgs es) → e ∈ es → e.own.find "name".toList = some (.str n) →
    n ≠ "USE".toList ∧ ∀ v, c.own.find n = some v → IsCfgs v

/-- Every value of the lattice is a nested configuration or can be printed. -/
def AllPrint (a : Arith N) (strtod : Name → Option N) (fmt : N → Name) (c : Cf N) : Prop :=
  Prints a strtod fmt c.own ∧
  ∀ es e, c.look "elements".toList = some (.cfgs es) → e ∈ es → Prints a strtod fmt e.own

theorem isKw_lit_name : IsKw "name".toList := ⟨'n', "ame".toList, rfl, by decide, by decide, by decide⟩
theorem isKw_lit_type : IsKw "type".toList := ⟨'t', "ype".toList, rfl, by decide, by decide, by decide⟩
theorem isKw_lit_elements : IsKw "elements".toList := ⟨'e', "lements".toList, rfl, by decide, by decide, by decide⟩

theorem parsed_printable {a : Arith N} {strtod : Name → Option N} {fmt : N → Name} {vars : SMap Name (CV N)}
    (hv : SMap.Sorted vars) (hk : ∀ p ∈ vars, IsKw p.1) {text : Name} {c : Cf N}
    (h : parseText a strtod vars text true = .ok c) (hp : AllPrint a strtod fmt c) (hl : LabelsClear c) :
    ∃ (own top : SMap Name (CV N)) (es : List (Cf N)) (lname : Name), c = .mk own [] ∧ Printable a strtod fmt own es lname ∧ (∀ e ∈ es, e.inh = top) ∧
      ∀ k, k ≠ "elements".toList → k ≠ "name".toList → own.find k = top.find k := by
  obtain ⟨ss, f, ⟨ts, hr, hd⟩, hrun, hres⟩ := (parse_iff a strtod vars hv text true c).1 h
  have hf : f.Kws := runs_kws hrun (ofVars_kws vars hk)
    (fun s hs k hk' => reads_kw hr k (derF_kws hd s hs k hk'))
  cases hres with
  | @lattice own lname ns es hs hn he hm =>
    have hel : own.find "elements".toList = some (.cfgs es) := by rw [hm.2]; exact if_pos rfl
    have hna : own.find "name".toList = some (.str lname) := by
      rw [hm.2]; simp only; rw [if_neg (by decide), if_pos]; trivial
    have hlook : (Cf.mk own []).look "elements".toList = some (.cfgs es) := by
      simp only [Cf.look, Cf.own, hel]
    have hvarkw : ∀ k v, f.var k = some v → IsKw k := by
      intro k v hkv
      unfold File.var at hkv
      cases hlk : f.vars.lookup k with
      | none => rw [hlk] at hkv; cases hkv
      | some w => exact hf.vars (k, w) (lookup_mem _ _ _ hlk)
    have hes : ∀ e ∈ es, ∃ n ∈ ns, IsElem f n e := by
      intro e hme
      clear hm hel hlook hp hl h hn hs
      induction he with
      | nil => cases hme
      | @cons n e' ns es h1 _ ih =>
        rcases List.mem_cons.1 hme with rfl | hme
        · exact ⟨n, List.mem_cons_self .., h1⟩
        · obtain ⟨m, h2, h3⟩ := ih hme
          exact ⟨m, List.mem_cons_of_mem _ h2, h3⟩
    have helem : ∀ e ∈ es, ∃ n t, ElemOk a strtod fmt e n t := by
      intro e hme
      obtain ⟨n, _, hi, t, qs, hq, hq2, hq3⟩ := hes e hme
      obtain ⟨k1, k2, k3⟩ := hf.elems _ hq
      refine ⟨n, t, hq3.1, ?_, ?_, k1, k2, ?_⟩
      · rw [hq3.2]; exact if_pos rfl
      · rw [hq3.2]; simp only; rw [if_neg (by decide), if_pos]; trivial
      · intro p hpm
        have hfind := SMap.mem_find_of_sorted _ hq3.1 p.1 p.2 hpm
        refine ⟨?_, hp.2 es e hlook hme p.1 p.2 hfind⟩
        rw [hq3.2] at hfind
        simp only at hfind
        split at hfind
        · rename_i h1; rw [h1]; exact isKw_lit_name
        · split at hfind
          · rename_i h1; rw [h1]; exact isKw_lit_type
          · cases hlk : qs.lookup p.1 with
            | none => rw [hlk] at hfind; cases hfind
            | some w => exact k3 (p.1, w) (lookup_mem _ _ _ hlk)
    refine ⟨own, (es.head?.map Cf.inh).getD [], es, lname, rfl, ?_, ?_, ?_⟩
    · refine ⟨hm.1, hel, hna, ?_, ?_, ?_, ?_, ?_⟩
      · have : (lname, ns) ∈ f.lines := by
          cases hs with
          | use _ hl => exact hl
          | last _ hl => exact List.mem_of_getLast? hl
        exact hf.lines _ this
      · intro hnil
        subst hnil
        cases he
        exact hn rfl
      · intro p hpm
        have hfind := SMap.mem_find_of_sorted _ hm.1 p.1 p.2 hpm
        refine ⟨?_, hp.1 p.1 p.2 hfind⟩
        rw [hm.2] at hfind
        simp only at hfind
        split at hfind
        · rename_i h1; rw [h1]; exact isKw_lit_elements
        · split at hfind
          · rename_i h1; rw [h1]; exact isKw_lit_name
          · exact hvarkw _ _ hfind
      · intro e hme
        obtain ⟨n, t, hok⟩ := helem e hme
        obtain ⟨h1, h2⟩ := hl es e n hlook hme hok.name
        refine ⟨n, t, hok, h1, ?_⟩
        rw [plain_find hm.1]
        cases hfo : own.find n with
        | none => rfl
        | some v => simp only; rw [if_pos (h2 v hfo)]
      · intro e hme e' hme' hname
        obtain ⟨n, _, hi, t, qs, hq, hq2, hq3⟩ := hes e hme
        obtain ⟨n', _, hi', t', qs', hq', hq2', hq3'⟩ := hes e' hme'
        rw [hq3.2, hq3'.2] at hname
        simp only [if_true] at hname
        injection hname with hname
        injection hname with hname
        subst hname
        have : (n, t, qs) = (n, t', qs') :=
          List.inj_on_of_nodup_map hf.nodup hq hq' rfl
        obtain ⟨_, h1⟩ := Prod.mk.inj this
        obtain ⟨h1, h2⟩ := Prod.mk.inj h1
        subst h1 h2
        exact isMap_unique hq3 hq3'
    · intro e hme
      obtain ⟨_, _, hi, _⟩ := hes e hme
      cases es with
      | nil => cases hme
      | cons e0 es =>
        obtain ⟨_, _, hi0, _⟩ := hes e0 (List.mem_cons_self ..)
        simp only [List.head?_cons, Option.map_some, Option.getD_some]
        exact isMap_unique hi hi0
    · intro k h1 h2
      cases es with
      | nil => cases he; exact absurd rfl hn
      | cons e0 es =>
        obtain ⟨_, _, hi0, _⟩ := hes e0 (List.mem_cons_self ..)
        simp only [List.head?_cons, Option.map_some, Option.getD_some]
        rw [hi0.2, hm.2]
        simp only
        rw [if_neg h1, if_neg h2]

theorem plain_iff {m : SMap Name (CV N)} (h : SMap.Sorted m) (k : Name) (v : CV N) (hv : ¬ IsCfgs v) :
    (plainPart m).find k = some v ↔ m.find k = some v := by
  rw [plain_find h]
  cases m.find k with
  | none => simp
  | some w =>
    simp only
    by_cases hw : IsCfgs w
    · rw [if_pos hw]
      simp only [reduceCtorEq, false_iff, Option.some.injEq]
      rintro rfl
      exact hv hw
    · rw [if_neg hw]

/-- **C17** for the lattices whose line members are labelled neither `USE` nor like a printed variable,
and whose numbers print exactly and strings contain no quote or line break: the text printed for a
parsed lattice parses to the same lattice.  Without the condition on the labels the claim is false
(`C17_false`).  Nested configurations are left out by the printer. -/
theorem C17_roundtrip_partial (a : Arith N) (strtod : Name → Option N) (fmt : N → Name)
    (vars : SMap Name (CV N)) (hv : SMap.Sorted vars) (hk : ∀ p ∈ vars, IsKw p.1) (text : Name) (c : Cf N)
    (h : parseText a strtod vars text true = .ok c) (hp : AllPrint a strtod fmt c) (hl : LabelsClear c) :
    ∃ text' c', glpsPrint fmt c = some text' ∧ parseText a strtod [] text' true = .ok c' ∧ SameLattice c c' := by
  obtain ⟨own, top, es, lname, rfl, hpr, hinh, htop⟩ := parsed_printable hv hk h hp hl
  obtain ⟨text', h1, h2⟩ := printable_parse (inh := []) hpr
  refine ⟨text', _, h1, h2, ?_, es, es.map (fun e => Cf.mk (plainPart e.own) (plainPart own)), ?_, ?_, ?_⟩
  · intro k hk v hv
    have : ∀ m : SMap Name (CV N), (Cf.mk m []).look k = m.find k := by
      intro m
      simp only [Cf.look, Cf.own, Cf.inh]
      cases m.find k <;> rfl
    rw [reread, this, this, SMap.find_insert, if_neg hk, plain_iff hpr.sorted k v hv]
  · simp only [Cf.look, Cf.own, hpr.elements]
  · simp only [reread, Cf.look, Cf.own, SMap.find_insert_self]
  · rw [List.forall₂_map_right_iff, List.forall₂_same]
    intro e hme
    refine ⟨rfl, ?_⟩
    intro k hk v hv hpl
    obtain ⟨n, t, hok, _, _⟩ := hpr.elems e hme
    have hp1 := plain_find hok.sorted k
    simp only [Cf.look]
    have eo : (Cf.mk (plainPart e.own) (plainPart own)).own = plainPart e.own := rfl
    have ei : (Cf.mk (plainPart e.own) (plainPart own)).inh = plainPart own := rfl
    rw [eo, ei, hp1]
    cases hf : e.own.find k with
    | some w =>
      simp only
      rw [if_neg (hpl w hf)]
    | none =>
      simp only
      have hkn : k ≠ "name".toList := by
        rintro rfl
        rw [hok.name] at hf
        cases hf
      rw [plain_iff hpr.sorted k v hv, hinh e hme, htop k hk hkn]

/-- **C17.** Printing is stable: the lattice read back prints and reads back to itself. -/
theorem C17_stable (a : Arith N) (strtod : Name → Option N) (fmt : N → Name)
    (vars : SMap Name (CV N)) (hv : SMap.Sorted vars) (hk : ∀ p ∈ vars, IsKw p.1) (text : Name) (c : Cf N)
    (h : parseText a strtod vars text true = .ok c) (hp : AllPrint a strtod fmt c) (hl : LabelsClear c)
    (text' : Name) (c' : Cf N) (h1 : glpsPrint fmt c = some text') (h2 : parseText a strtod [] text' true = .ok c') :
    ∃ text'', glpsPrint fmt c' = some text'' ∧ parseText a strtod [] text'' true = .ok c' := by
  obtain ⟨own, top, es, lname, rfl, hpr, hinh, htop⟩ := parsed_printable hv hk h hp hl
  obtain ⟨tx, g1, g2⟩ := printable_parse (inh := []) hpr
  rw [h1] at g1
  injection g1 with g1
  subst g1
  rw [h2] at g2
  injection g2 with g2
  subst g2
  have hidem : ∀ m : SMap Name (CV N), plainPart (plainPart m) = plainPart m := by
    intro m
    unfold plainPart
    rw [List.filter_filter]
    congr 1
    funext p
    simp
  set es' := es.map (fun e => Cf.mk (plainPart e.own) (plainPart own)) with hes'
  have hso : SMap.Sorted ((plainPart own).insert "elements".toList (.cfgs es')) :=
    SMap.sorted_insert _ _ _ (plain_sorted hpr.sorted)
  have hpl : plainPart ((plainPart own).insert "elements".toList (.cfgs es')) = plainPart own := by
    refine SMap.ext_of_sorted _ _ (plain_sorted hso) (plain_sorted hpr.sorted) ?_
    intro k
    rw [plain_find hso, SMap.find_insert, plain_find hpr.sorted]
    by_cases hk : k = "elements".toList
    · subst hk
      rw [if_pos rfl, hpr.elements]
      rfl
    · rw [if_neg hk]
      cases own.find k with
      | none => rfl
      | some v =>
        simp only
        by_cases hv : IsCfgs v
        · rw [if_pos hv]
        · rw [if_neg hv]; simp only; rw [if_neg hv]
  have hpr' : Printable a strtod fmt ((plainPart own).insert "elements".toList (.cfgs es')) es' lname := by
    refine ⟨hso, SMap.find_insert_self _ _ _, ?_, hpr.kwName, ?_, ?_, ?_, ?_⟩
    · rw [SMap.find_insert, if_neg (by decide), plain_find hpr.sorted, hpr.name]
      rfl
    · intro hn
      exact hpr.nonempty (List.map_eq_nil_iff.1 hn)
    · intro p hp
      have hf := SMap.mem_find_of_sorted _ hso p.1 p.2 hp
      rw [SMap.find_insert] at hf
      split at hf
      · rename_i hpe
        injection hf with hf
        rw [hpe, ← hf]
        exact ⟨isKw_lit_elements, .inl trivial⟩
      · have := SMap.find_some_mem _ _ _ hf
        exact hpr.vals p (List.mem_filter.1 this).1
    · intro e he
      obtain ⟨e0, h0, rfl⟩ := List.mem_map.1 he
      obtain ⟨n, t, hok, hu, hnv⟩ := hpr.elems e0 h0
      refine ⟨n, t, ⟨plain_sorted hok.sorted, ?_, ?_, hok.kwName, hok.kwType, ?_⟩, hu, ?_⟩
      · show (plainPart e0.own).find _ = _
        rw [plain_find hok.sorted, hok.name]; rfl
      · show (plainPart e0.own).find _ = _
        rw [plain_find hok.sorted, hok.type]; rfl
      · intro p hp
        exact hok.vals p (List.mem_filter.1 hp).1
      · rw [hpl, hnv]
    · intro e he e' he' hname
      obtain ⟨e0, h0, rfl⟩ := List.mem_map.1 he
      obtain ⟨e1, h1, rfl⟩ := List.mem_map.1 he'
      obtain ⟨n0, t0, hok0, _⟩ := hpr.elems e0 h0
      obtain ⟨n1, t1, hok1, _⟩ := hpr.elems e1 h1
      have : e0.own = e1.own := by
        refine hpr.same e0 h0 e1 h1 ?_
        have hh : (plainPart e0.own).find "name".toList = (plainPart e1.own).find "name".toList := hname
        rw [plain_find hok0.sorted, plain_find hok1.sorted, hok0.name, hok1.name] at hh
        rw [hok0.name, hok1.name]
        exact hh
      show plainPart e0.own = plainPart e1.own
      rw [this]
  obtain ⟨tx, g1, g2⟩ := printable_parse (inh := []) hpr'
  refine ⟨tx, g1, ?_⟩
  rw [g2]
  have : reread ((plainPart own).insert "elements".toList (.cfgs es')) es' = reread own es := by
    unfold reread
    rw [hpl, hes', List.map_map]
    refine congrArg (fun l => Cf.mk ((plainPart own).insert "elements".toList (.cfgs l)) []) ?_
    refine List.map_congr_left (fun e _ => ?_)
    show Cf.mk (plainPart (plainPart e.own)) (plainPart own) = _
    rw [hidem]
  rw [this]

/-! ### Cases -/

instance (s : Name) : Decidable (Digits s) := by unfold Digits; infer_instance
instance (s : Name) : Decidable (StrOk s) := by unfold StrOk; infer_instance

/-- A printed value for the example: digits that read as the number. -/
def chkVal (strtod : Name → Option (Option Int)) (fmt : Option Int → Name) : CV (Option Int) → Bool
  | .num x => decide (fmt x ≠ [] ∧ Digits (fmt x) ∧ strtod (fmt x) = some x)
  | .vec xs => xs.all (fun x => decide (fmt x ≠ [] ∧ Digits (fmt x) ∧ strtod (fmt x) = some x))
  | .str s => decide (StrOk s)
  | .cfgs _ => true

/-- The hypotheses of `C17_roundtrip_partial` as a test. -/
def chkCf (strtod : Name → Option (Option Int)) (fmt : Option Int → Name) (c : Cf (Option Int)) : Bool :=
  c.own.all (fun p => chkVal strtod fmt p.2) &&
  match c.look "elements".toList with
  | some (.cfgs es) => es.all (fun e => e.own.all (fun p => chkVal strtod fmt p.2) &&
      match e.own.find "name".toList with
      | some (.str n) => decide (n ≠ "USE".toList) &&
          match c.own.find n with
          | none => true
          | some v => decide (IsCfgs v)
      | _ => true)
  | _ => true

theorem chkVal_ok {strtod : Name → Option (Option Int)} {fmt : Option Int → Name} {v : CV (Option Int)}
    (h : chkVal strtod fmt v = true) : IsCfgs v ∨ Simple exA strtod fmt v := by
  have num : ∀ x, (fmt x ≠ [] ∧ Digits (fmt x) ∧ strtod (fmt x) = some x) → Exact exA strtod (fmt x) x := by
    rintro x ⟨h1, h2, h3⟩
    exact .inl ⟨⟨fmt x, [], [], by simp, h1, h2, .inl rfl, .inl rfl⟩, h3⟩
  cases v with
  | num x => exact .inr (num x (of_decide_eq_true h))
  | vec xs =>
    refine .inr ?_
    intro x hx
    exact num x (of_decide_eq_true (List.all_eq_true.1 h x hx))
  | str s => exact .inr (of_decide_eq_true (p := StrOk s) h)
  | cfgs l => exact .inl trivial

theorem chkCf_ok {strtod : Name → Option (Option Int)} {fmt : Option Int → Name} {c : Cf (Option Int)}
    (h : chkCf strtod fmt c = true) : AllPrint exA strtod fmt c ∧ LabelsClear c := by
  unfold chkCf at h
  rw [Bool.and_eq_true] at h
  obtain ⟨h1, h2⟩ := h
  refine ⟨⟨?_, ?_⟩, ?_⟩
  · intro k v hf
    exact chkVal_ok (List.all_eq_true.1 h1 (k, v) (SMap.find_some_mem _ _ _ hf))
  · intro es e he hme k v hf
    rw [he] at h2
    have := List.all_eq_true.1 h2 e hme
    rw [Bool.and_eq_true] at this
    exact chkVal_ok (List.all_eq_true.1 this.1 (k, v) (SMap.find_some_mem _ _ _ hf))
  · intro es e n he hme hn
    rw [he] at h2
    have := List.all_eq_true.1 h2 e hme
    rw [Bool.and_eq_true, hn] at this
    have := this.2
    simp only [Bool.and_eq_true] at this
    refine ⟨of_decide_eq_true this.1, ?_⟩
    intro v hv
    have h3 := this.2
    rw [hv] at h3
    exact of_decide_eq_true h3

/-- Parsed with success to a configuration that passes a test. -/
def Outcome.okWith (o : Outcome N) (f : Cf N → Bool) : Bool :=
  match o with
  | .ok c => f c
  | _ => false

theorem Outcome.of_okWith {o : Outcome N} {f : Cf N → Bool} (h : o.okWith f = true) :
    ∃ c, o = .ok c ∧ f c = true := by
  cases o <;> simp_all [Outcome.okWith]

/-- Digits of a number below 100. -/
def exFmt (x : Option Int) : Name :=
  match x with
  | some x => if x < 10 then [Char.ofNat (48 + x.toNat)]
      else [Char.ofNat (48 + x.toNat / 10), Char.ofNat (48 + x.toNat % 10)]
  | none => "nan".toList

/-- A lattice with variables, strings, a vector, repeated members and properties. -/
def exLattice : Name :=
  "x = 2; s = \"a b\"; v = [1, 2, 3]; d: drift, L = x*21; q: quad, K = 7, m = \"u\"; M: LINE = (d, 2*q, d);".toList

/-- A case of `C17_roundtrip_partial` and `C17_stable`: all hypotheses hold for this lattice. -/
example : ∃ c, parseText exA exNum [] exLattice true = .ok c ∧ AllPrint exA exNum exFmt c ∧ LabelsClear c := by
  have h : (parseText exA exNum [] exLattice true).okWith (chkCf exNum exFmt) = true := by decide +kernel
  obtain ⟨c, h1, h2⟩ := Outcome.of_okWith h
  exact ⟨c, h1, chkCf_ok h2⟩

/-- The text printed for that lattice. -/
def exPrinted : Name :=
  ("name = \"M\";\ns = \"a b\";\nv = [1, 2, 3];\nx = 2;\nd: drift, L = 42;\nq: quad, K = 7, m = \"u\";\n").toList ++
    "M: LINE = (d, q, q, d);\nUSE: M;\n".toList

example : ∃ c, parseText exA exNum [] exLattice true = .ok c ∧ glpsPrint exFmt c = some exPrinted := by
  have h : (parseText exA exNum [] exLattice true).okWith (fun c => decide (glpsPrint exFmt c = some exPrinted)) = true := by
    decide +kernel
  obtain ⟨c, h1, h2⟩ := Outcome.of_okWith h
  exact ⟨c, h1, by simpa only [decide_eq_true_eq] using h2⟩

/-- Without the condition on the labels C17 fails. -/
theorem printed_not_parsed (text : Name) (e : PErr)
    (h : (parseText exA exNum [] text true).okWith (fun c => c.own.all (fun p => chkVal exNum exFmt p.2) &&
      (match c.look "elements".toList with
        | some (.cfgs es) => es.all (fun e => e.own.all (fun p => chkVal exNum exFmt p.2))
        | _ => true) &&
      match glpsPrint exFmt c with
      | some t => (parseText exA exNum [] t true).isPerr e
      | none => false) = true) :
    ∃ c text', parseText exA exNum [] text true = .ok c ∧ AllPrint exA exNum exFmt c ∧
      glpsPrint exFmt c = some text' ∧ parseText exA exNum [] text' true = .perr e := by
  obtain ⟨c, h1, h2⟩ := Outcome.of_okWith h
  simp only [Bool.and_eq_true] at h2
  obtain ⟨⟨h2, h3⟩, h4⟩ := h2
  cases hp : glpsPrint exFmt c with
  | none => rw [hp] at h4; cases h4
  | some t =>
    rw [hp] at h4
    refine ⟨c, t, h1, ⟨?_, ?_⟩, hp, Outcome.of_isPerr h4⟩
    · intro k v hf
      exact chkVal_ok (List.all_eq_true.1 h2 (k, v) (SMap.find_some_mem _ _ _ hf))
    · intro es e he hme k v hf
      rw [he] at h3
      exact chkVal_ok (List.all_eq_true.1 (List.all_eq_true.1 h3 e hme) (k, v) (SMap.find_some_mem _ _ _ hf))

/-- **C17** is false for all lattices: each of these parses, all its values can be printed exactly, and the
printed text is refused.  In the first a line member is labelled like a variable, in the second like the
variable `name` added by the parser, in the third `USE`. -/
theorem C17_false :
    ∀ text ∈ ["d: drift; L: LINE = (d); d = 3;".toList, "name: drift; L: LINE = (name);".toList,
      "USE: L; L: LINE = (USE);".toList],
      ∃ c text', parseText exA exNum [] text true = .ok c ∧ AllPrint exA exNum exFmt c ∧
        glpsPrint exFmt c = some text' ∧ ∃ e, parseText exA exNum [] text' true = .perr e := by
  intro text ht
  simp only [List.mem_cons, List.not_mem_nil, or_false] at ht
  rcases ht with rfl | rfl | rfl
  · obtain ⟨c, t, h1, h2, h3, h4⟩ := printed_not_parsed "d: drift; L: LINE = (d); d = 3;".toList .lineElem
      (by decide +kernel)
    exact ⟨c, t, h1, h2, h3, _, h4⟩
  · obtain ⟨c, t, h1, h2, h3, h4⟩ := printed_not_parsed "name: drift; L: LINE = (name);".toList .lineElem
      (by decide +kernel)
    exact ⟨c, t, h1, h2, h3, _, h4⟩
  · obtain ⟨c, t, h1, h2, h3, h4⟩ := printed_not_parsed "USE: L; L: LINE = (USE);".toList .redefined
      (by decide +kernel)
    exact ⟨c, t, h1, h2, h3, _, h4⟩

end Flame.Glps
