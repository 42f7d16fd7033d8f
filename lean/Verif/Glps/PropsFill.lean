import Verif.Glps.PropsEval

/-!
# C14 - C16: the configuration that a file describes
-/

namespace Flame.Glps

variable {N : Type}

/-! ### C14 -/

/-- **C14.** A parse returns a configuration exactly if the text is a list of correct statements and the
configuration is the one their definitions describe (`Result`): the variables, the label of the selected
line, and the members of the line in order with type, name, properties and inherited variables. -/
theorem C14_exact (a : Arith N) (strtod : Name → Option N) (vars : SMap Name (CV N))
    (hv : SMap.Sorted vars) (text : Name) (lattice : Bool) (cf : Cf N) :
    parseText a strtod vars text lattice = .ok cf ↔
      ∃ ss f, Text strtod text ss ∧ Runs a (File.ofVars vars) ss f ∧ Result f lattice cf :=
  parse_iff a strtod vars hv text lattice cf

theorem sim_of_runs (a : Arith N) (vars : SMap Name (CV N)) (hv : SMap.Sorted vars) {ss : List (Stmt N)}
    {f : File N} (hr : Runs a (File.ofVars vars) ss f) :
    ∃ c, execAll a (fillVars Ctx.empty vars) ss = (c, true) ∧ c.err = none ∧ Sim c f := by
  obtain ⟨c, h1, h2, h3⟩ := execAll_sim' a hr (fillVars_sim vars hv)
  exact ⟨c, h1, by rw [h2, fillVars_err], h3⟩

/-- **C14.** The definitions describe at most one configuration. -/
theorem C14_unique (a : Arith N) (vars : SMap Name (CV N)) (hv : SMap.Sorted vars) (ss : List (Stmt N))
    (f : File N) (hr : Runs a (File.ofVars vars) ss f) (lattice : Bool) (cf cf' : Cf N)
    (h : Result f lattice cf) (h' : Result f lattice cf') : cf = cf' := by
  obtain ⟨c, _, _, hs⟩ := sim_of_runs a vars hv hr
  have h1 := (hs.fill_iff lattice cf).2 h
  rw [(hs.fill_iff lattice cf').2 h'] at h1
  cases h1
  rfl

/-- A parse of a correct text is `fillContext` of its context. -/
theorem parse_eq_fill (a : Arith N) (strtod : Name → Option N) (vars : SMap Name (CV N)) (text : Name)
    (ss : List (Stmt N)) (ht : Text strtod text ss) (c : Ctx N)
    (hx : execAll a (fillVars Ctx.empty vars) ss = (c, true)) (he : c.err = none) (lattice : Bool) :
    parseText a strtod vars text lattice = fillContext c lattice := by
  obtain ⟨hb, hss⟩ := (text_iff strtod text ss).1 ht
  have hp : parseCtx a strtod (fillVars Ctx.empty vars) text = c := by
    unfold parseCtx
    simp only [hss, hx]
    rw [if_pos hb]
  unfold parseText finish
  rw [hp, he]

/-- **C14.** The errors of a correct text: no line, an unknown line in `USE`, an empty line, a beamline as
value of a property.  A text parsed for its variables only has none. -/
theorem C14_errors (a : Arith N) (strtod : Name → Option N) (vars : SMap Name (CV N))
    (hv : SMap.Sorted vars) (text : Name) (ss : List (Stmt N)) (f : File N)
    (ht : Text strtod text ss) (hr : Runs a (File.ofVars vars) ss f) :
    (f.lines = [] → parseText a strtod vars text true = .ferr .noLines) ∧
    (f.lines ≠ [] → (∃ t qs, ("USE".toList, t, qs) ∈ f.elems ∧ t ∉ f.lines.map (·.1)) →
      parseText a strtod vars text true = .ferr .unknownUse) ∧
    (∀ t, Selected f t [] → parseText a strtod vars text true = .ferr .emptyLine) ∧
    (∀ t ns n et qs k m, Selected f t ns → n ∈ ns → (n, et, qs) ∈ f.elems → qs.lookup k = some (.line m) →
      parseText a strtod vars text true = .ferr .illegalValue) ∧
    (∃ cf, parseText a strtod vars text false = .ok cf) := by
  obtain ⟨c, hx, he, hs⟩ := sim_of_runs a vars hv hr
  rw [parse_eq_fill a strtod vars text ss ht c hx he, parse_eq_fill a strtod vars text ss ht c hx he]
  obtain ⟨top, h1, h2⟩ := hs.top
  obtain ⟨s1, s2, s3⟩ := hs.select_iff
  have hlines : f.lines ≠ [] → ¬ c.lines.isEmpty = true := by
    intro hn hc
    apply hn
    rw [← hs.lines, List.isEmpty_iff.1 hc]
    rfl
  have hsel : ∀ {t ns}, Selected f t ns → f.lines ≠ [] ∧ (t, ns) ∈ f.lines := by
    intro t ns h
    have : (t, ns) ∈ f.lines := by
      cases h with
      | use _ hl => exact hl
      | last _ hl => exact List.mem_of_getLast? hl
    exact ⟨List.ne_nil_of_mem this, this⟩
  unfold fillContext
  rw [h1]
  simp only [if_true, Bool.false_eq_true, if_false]
  refine ⟨?_, ?_, ?_, ?_, ⟨_, rfl⟩⟩
  · intro hl
    rw [← hs.lines, List.map_eq_nil_iff] at hl
    rw [hl]
    rfl
  · intro hl hu
    rw [if_neg (hlines hl), (s3 .unknownUse).2 ⟨rfl, hu⟩]
  · intro t hst
    obtain ⟨l, hl, _, hn⟩ := (s1 t []).2 hst
    rw [if_neg (hlines (hsel hst).1), hl]
    simp only [hn, List.isEmpty_nil, if_true]
  · intro t ns n et qs k m hst hn hm hk
    obtain ⟨l, hl, hlt, hln⟩ := (s1 t ns).2 hst
    rw [if_neg (hlines (hsel hst).1), hl]
    have hmem := (hsel hst).2
    have hne : ns ≠ [] := List.ne_nil_of_mem hn
    have hlm : ∀ n ∈ ns, (c.elemIdx.find n).isSome = true := by
      rw [← hs.lines] at hmem
      obtain ⟨l', hl', he'⟩ := List.mem_map.1 hmem
      intro n hn
      rw [← (Prod.mk.inj he').2] at hn
      exact hs.inv.members l' hl' n hn
    obtain ⟨q1, q2⟩ := hs.elemCfs_iff h2 ns hlm
    simp only [hln]
    rw [if_neg (by simpa using hne)]
    cases hes : elemCfs c top ns with
    | none => rfl
    | some o =>
      cases o with
      | none => exact absurd hes q2
      | some es =>
        exfalso
        obtain ⟨y, _, hy⟩ := forall₂_mem_left ((q1 es).1 hes) hn
        obtain ⟨_, t', qs', hm', hk', _⟩ := hy
        obtain ⟨e, he1, _, _, hq⟩ := hs.elem_of hm
        obtain ⟨e', he2, _, _, hq'⟩ := hs.elem_of hm'
        rw [he1] at he2
        injection he2 with he2
        subst he2
        have hkk := hq k
        rw [hq' k, hk] at hkk
        cases hl' : qs'.lookup k with
        | none => rw [hl'] at hkk; cases hkk
        | some v =>
          rw [hl'] at hkk
          injection hkk with hkk
          have hv' : v = .line m := by
            have := congrArg TV.val hkk
            exact this
          exact hk' k v hl' (by rw [hv']; rfl)

/-- The name of every member of a configuration's `elements`, for the example. -/
def memberNames (o : Outcome N) : List (Option Name × Option Name) :=
  match o with
  | .ok cf =>
    match cf.look "elements".toList with
    | some (.cfgs es) => es.map (fun e =>
        (match e.look "name".toList with | some (.str s) => some s | _ => none,
         match e.look "type".toList with | some (.str s) => some s | _ => none))
    | _ => []
  | _ => []

/-- Example: `USE` selects the first of two lines; the members appear in order with name and type. -/
example : memberNames (parseText exA exNum []
      "L0 = 4; s: source; d: drift, L = L0; q: quad, L = 2, L = 1; A: LINE = (s, d, q, d); B: LINE = (s); USE: A;".toList
      true) =
    [(some ['s'], some "source".toList), (some ['d'], some "drift".toList), (some ['q'], some "quad".toList),
     (some ['d'], some "drift".toList)] := by
  decide +kernel

/-! ### C15 -/

/-- The value of a pre-set variable that is not a nested configuration. -/
def CV.toVal : CV N → Option (Val N)
  | .num x => some (.num x)
  | .vec xs => some (.vec xs)
  | .str s => some (.str s)
  | .cfgs _ => none

theorem ofVars_lookup (m : SMap Name (CV N)) (hm : SMap.Sorted m) (n : Name) :
    (File.ofVars m).vars.lookup n = (m.find n).bind CV.toVal := by
  induction m with
  | nil => rfl
  | cons p m ih =>
    obtain ⟨k, v⟩ := p
    have ih := ih (List.pairwise_cons.1 hm).2
    have hlt := (List.pairwise_cons.1 hm).1
    have hnone : n = k → SMap.find m n = none := by
      intro h
      refine SMap.find_eq_none_of_forall_ne m n (fun p hp he => ?_)
      have := hlt p hp
      rw [he, h] at this
      exact absurd this (lt_irrefl _)
    rw [SMap.find_cons]
    unfold File.ofVars at ih ⊢
    simp only [File.empty] at ih ⊢
    rw [List.filterMap_cons]
    by_cases hk : n = k
    · subst hk
      rw [hnone rfl] at ih
      cases v <;> simp [CV.toVal, List.lookup_cons]
      simpa using ih
    · have hb : (n == k) = false := by simpa using hk
      cases v <;> simp [hk, hb, List.lookup_cons, ih]

theorem defs_run (a : Arith N) (m : SMap Name (CV N)) (ds : List (Name × Exp N)) :
    ∀ (c : Ctx N), c.Inv → c.err = none → c.elements = [] → c.lines = [] → c.elemIdx = [] →
      c.lineIdx = [] → c.out = [] →
      (ds.map (·.1)).Nodup → (∀ p ∈ ds, c.varIdx.find p.1 = none) →
      (∀ p ∈ ds, ∃ v w, m.find p.1 = some v ∧ v.toVal = some w ∧ Means a (fun _ => none) p.2 w) →
      ∃ c', execAll a c (ds.map (fun p => .assign p.1 p.2)) = (c', true) ∧ c'.Inv ∧ c'.err = none ∧
        c'.elements = [] ∧ c'.lines = [] ∧ c'.elemIdx = [] ∧ c'.lineIdx = [] ∧ c'.out = [] ∧
        ∀ n, c'.var n = if n ∈ ds.map (·.1) then ((m.find n).bind CV.toVal).map tag else c.var n := by
  induction ds with
  | nil =>
    intro c hi he h1 h2 h3 h4 h5 _ _ _
    exact ⟨c, rfl, hi, he, h1, h2, h3, h4, h5, fun n => by simp⟩
  | cons p ds ih =>
    obtain ⟨k, e⟩ := p
    intro c hi he h1 h2 h3 h4 h5 hnd hn hv
    rw [List.map_cons, List.nodup_cons] at hnd
    obtain ⟨v, w, hf, hw, hme⟩ := hv (k, e) (List.mem_cons_self ..)
    have hk := hn (k, e) (List.mem_cons_self ..)
    have hev : evalE a c e = .ok (tag w) := by
      obtain ⟨ρ, hρ⟩ : ∃ ρ, EnvOk a c ρ := by
        refine ⟨fun n => match lookupName a c n with | .ok t => some t.val | .error _ => none, ?_⟩
        intro n t
        constructor
        · intro ht
          have := (lookupName_ok a c hi n t ht).1
          exact ⟨t.val, by simp only [ht], (tvok_iff t).1 this⟩
        · rintro ⟨v, hv, rfl⟩
          cases hl : lookupName a c n with
          | error f => simp only [hl] at hv; cases hv
          | ok t =>
            simp only [hl] at hv
            injection hv with hv
            have := (tvok_iff t).1 (lookupName_ok a c hi n t hl).1
            rw [this, hv]
      exact evalE_complete a c ρ hρ e w (means_mono a _ ρ (by intro n v h; cases h) e w hme)
    have hnl : ¬ (tag w).ty = .line := by
      cases v <;> simp only [CV.toVal, Option.some.injEq, reduceCtorEq] at hw <;> subst hw <;>
        simp [tag, Val.ty]
    have hx : exec a c (.assign k e) = (pushVar c k (tag w), true) := by
      simp only [exec, hev, doAssign, if_neg hnl, hk, Option.isSome_none, Bool.false_eq_true, if_false]
      rfl
    have hi' : (pushVar c k (tag w)).Inv := pushVar_inv c hi k (tag w) hk (tvok_tag w) hnl
    obtain ⟨c', q0, q1, q2, q3, q4, q5, q6, q7, q8⟩ := ih (pushVar c k (tag w)) hi' he h1 h2 h3 h4 h5 hnd.2
      (by
        intro p hp
        unfold pushVar
        simp only
        rw [SMap.find_insert, if_neg]
        · exact hn p (List.mem_cons_of_mem _ hp)
        · intro hc
          exact hnd.1 (hc ▸ List.mem_map_of_mem (f := (·.1)) hp))
      (fun p hp => hv p (List.mem_cons_of_mem _ hp))
    refine ⟨c', ?_, q1, q2, q3, q4, q5, q6, q7, ?_⟩
    · rw [List.map_cons, execAll, hx]
      exact q0
    · intro n
      rw [q8]
      by_cases hmem : n ∈ ds.map (·.1)
      · rw [if_pos hmem, if_pos (by rw [List.map_cons]; exact List.mem_cons_of_mem _ hmem)]
      · rw [if_neg hmem, push_var c hi k (tag w) hk]
        by_cases hnk : n = k
        · subst hnk
          rw [if_pos rfl, if_pos (by simp), hf]
          simp [hw]
        · rw [if_neg hnk, if_neg (by simp [hnk]; simpa using hmem)]

/-- **C15.** Parsing a text with pre-set variables has the same outcome, configuration or error, as
parsing the text with definitions of these variables in front.  The definitions may come in any order,
each value in any closed expression that means it. -/
theorem C15_setVar_is_definition (a : Arith N) (strtod : Name → Option N) (vars : SMap Name (CV N))
    (hv : SMap.Sorted vars) (d g text : Name) (ds : List (Name × Exp N))
    (hd : Text strtod d (ds.map (fun p => .assign p.1 p.2)))
    (hg : IsGap g) (hg0 : g ≠ []) (hnd : (ds.map (·.1)).Nodup)
    (hkeys : ∀ n, n ∈ ds.map (·.1) ↔ ∃ v w, vars.find n = some v ∧ v.toVal = some w)
    (hvals : ∀ p ∈ ds, ∃ v w, vars.find p.1 = some v ∧ v.toVal = some w ∧ Means a (fun _ => none) p.2 w)
    (lattice : Bool) :
    parseText a strtod vars text lattice = parseText a strtod [] (d ++ (g ++ text)) lattice := by
  obtain ⟨ts, hr, hder⟩ := hd
  have hlex : lexAll strtod d = (ts, true) := by
    have := reads_unique (lexAll_reads strtod d) hr
    exact Prod.ext this.1 this.2
  have hsim := fillVars_sim vars hv
  obtain ⟨c', q0, q1, q2, q3, q4, q5, q6, q7, q8⟩ := defs_run a vars ds (Ctx.empty : Ctx N) Ctx.empty_inv
    rfl rfl rfl rfl rfl rfl hnd (fun _ _ => rfl) hvals
  have heq : CtxEq (fillVars Ctx.empty vars) c' := by
    obtain ⟨f1, f2, f3, f4, f5⟩ := fillVars_props vars (Ctx.empty : Ctx N)
    have hidx : (fillVars (Ctx.empty : Ctx N) vars).elemIdx = [] ∧
        (fillVars (Ctx.empty : Ctx N) vars).lineIdx = [] := by
      have : ∀ (m : SMap Name (CV N)) (c : Ctx N), (fillVars c m).elemIdx = c.elemIdx ∧
          (fillVars c m).lineIdx = c.lineIdx := by
        intro m
        induction m with
        | nil => intro c; exact ⟨rfl, rfl⟩
        | cons p m ih =>
          obtain ⟨n, v⟩ := p
          intro c
          rw [fillVars]
          cases varOf v <;> exact ih _
      exact this vars _
    refine ⟨hsim.inv, q1, ?_, by rw [f2, q3]; rfl, by rw [hidx.1, q5], by rw [f3, q4]; rfl,
      by rw [hidx.2, q6], by rw [f5, q2]; rfl, by rw [f4, q7]; rfl⟩
    intro n
    rw [hsim.var_eq, ofVars_lookup vars hv, q8]
    by_cases hm : n ∈ ds.map (·.1)
    · rw [if_pos hm]
    · rw [if_neg hm]
      have hno : (vars.find n).bind CV.toVal = none := by
        cases hb : (vars.find n).bind CV.toVal with
        | none => rfl
        | some w =>
          exfalso
          cases hf : vars.find n with
          | none => rw [hf] at hb; cases hb
          | some v => rw [hf] at hb; exact hm ((hkeys n).2 ⟨v, w, hf, hb⟩)
      rw [hno]
      rfl
  unfold parseText
  have hctx : CtxEq (parseCtx a strtod (fillVars Ctx.empty vars) text)
      (parseCtx a strtod (fillVars Ctx.empty []) (d ++ (g ++ text))) := by
    have hrun := heq.execAll a (pAll (lexAll strtod text).1).1
    unfold parseCtx
    simp only [lexAll_append_gap strtod hlex hg hg0, pAll_append hder, execAll_append]
    have : fillVars (Ctx.empty : Ctx N) [] = Ctx.empty := rfl
    rw [this, q0]
    simp only
    obtain ⟨h1, h2⟩ := hrun
    generalize execAll a (fillVars Ctx.empty vars) (pAll (lexAll strtod text).1).1 = r at h1 h2 ⊢
    generalize execAll a c' (pAll (lexAll strtod text).1).1 = r' at h1 h2 ⊢
    obtain ⟨x, b⟩ := r
    obtain ⟨x', b'⟩ := r'
    simp only at h1 h2
    subst h1
    cases b with
    | false => exact h2
    | true =>
      simp only
      split
      · exact h2
      · exact h2.note _
  exact hctx.finish lattice

theorem setVar_sorted (m : SMap Name (CV N)) (h : SMap.Sorted m) (n : Name) (v : CV N) :
    SMap.Sorted (setVar m n v) := SMap.sorted_insert m n v h

/-- **C15.** Of several calls for the same name the last one counts, and the order of calls for
different names does not matter. -/
theorem C15_setVar_last (m : SMap Name (CV N)) (h : SMap.Sorted m) (n n' : Name) (v w : CV N) :
    setVar (setVar m n v) n w = setVar m n w ∧
    (n ≠ n' → setVar (setVar m n v) n' w = setVar (setVar m n' w) n v) :=
  ⟨SMap.insert_insert m h n v w, fun hn => SMap.insert_comm m h n n' v w hn⟩

/-- Example: `setVar("x", 7)` and `setVar("s", "ab")` are `s = "ab"; x = -(-7);` in front of any text. -/
example (text : Name) (lattice : Bool) :
    parseText exA exNum (setVar (setVar [] ['x'] (.num (some 7))) ['s'] (.str "ab".toList)) text lattice =
      parseText exA exNum [] ("s = \"ab\"; x = -(-7);".toList ++ ("\n".toList ++ text)) lattice := by
  have hv : setVar (setVar [] ['x'] (.num (some 7))) ['s'] (.str "ab".toList) =
      [(['s'], CV.str "ab".toList), (['x'], .num (some (7 : Int)))] := rfl
  rw [hv]
  refine C15_setVar_is_definition exA exNum _ ?_ _ _ text
    [(['s'], .str "ab".toList), (['x'], .neg (.neg (.num (some 7))))] ?_
    (isGap_of_blank (.blank (by decide))) (by decide) (by decide) ?_ ?_ lattice
  · rw [← hv]
    exact setVar_sorted _ (setVar_sorted _ SMap.sorted_nil _ _) _ _
  · rw [text_iff]
    exact ⟨by decide +kernel, by decide +kernel⟩
  · intro n
    simp only [List.map_cons, List.map_nil, List.mem_cons, List.not_mem_nil, or_false, SMap.find_cons,
      SMap.find_nil]
    constructor
    · rintro (rfl | rfl)
      · exact ⟨_, _, by rw [if_pos rfl], rfl⟩
      · exact ⟨_, _, by rw [if_neg (by decide), if_pos rfl], rfl⟩
    · rintro ⟨v, w, h, _⟩
      by_cases h1 : n = ['s']
      · exact .inl h1
      · by_cases h2 : n = ['x']
        · exact .inr h2
        · rw [if_neg h1, if_neg h2] at h; cases h
  · intro p hp
    simp only [List.mem_cons, List.not_mem_nil, or_false] at hp
    rcases hp with rfl | rfl
    · exact ⟨_, _, rfl, rfl, .str _⟩
    · exact ⟨_, .num (some 7), rfl, rfl, .neg (x := some (-7)) (.neg (x := some 7) (.num _))⟩

/-! ### C16 -/

theorem evalProps_iff (a : Arith N) (c : Ctx N) (ps : List (Name × Exp N)) :
    (∀ m, evalProps a c ps = .ok m → ∀ p ∈ ps, ∃ t, evalE a c p.2 = .ok t) ∧
    (∀ m, evalProps a c ps = .ok m → ∀ k,
      m.find k = (ps.lookup k).bind (fun e => (evalE a c e).toOption)) ∧
    ((∀ p ∈ ps, ∃ t, evalE a c p.2 = .ok t) → ∃ m, evalProps a c ps = .ok m) := by
  induction ps with
  | nil =>
    refine ⟨by simp, ?_, fun _ => ⟨[], rfl⟩⟩
    intro m hm k
    rw [evalProps] at hm
    cases hm
    rfl
  | cons p ps ih =>
    obtain ⟨k, e⟩ := p
    obtain ⟨i1, i2, i3⟩ := ih
    refine ⟨?_, ?_, ?_⟩
    · intro m hm p hp
      rw [evalProps] at hm
      split at hm
      · cases hm
      · rename_i t he
        split at hm
        · cases hm
        · rename_i m' hm'
          rcases List.mem_cons.1 hp with rfl | hp
          · exact ⟨t, he⟩
          · exact i1 m' hm' p hp
    · intro m hm k'
      rw [evalProps] at hm
      split at hm
      · cases hm
      · rename_i t he
        split at hm
        · cases hm
        · rename_i m' hm'
          cases hm
          rw [SMap.find_insert, List.lookup_cons]
          by_cases hk : k' = k
          · simp [hk, he, Except.toOption]
          · have hb : (k' == k) = false := by simpa using hk
            simp [hk, hb, i2 m' hm']
    · intro h
      obtain ⟨t, ht⟩ := h (k, e) (List.mem_cons_self ..)
      obtain ⟨m, hm⟩ := i3 (fun p hp => h p (List.mem_cons_of_mem _ hp))
      exact ⟨m.insert k t, by rw [evalProps, ht, hm]⟩

/-- **C16.** An element has the leftmost of several values given for one property, and no property
that was not given. -/
theorem C16_leftmost (a : Arith N) (c c' : Ctx N) (h : Reach a c) (l t : Name) (ps : List (Name × Exp N))
    (hx : exec a c (.element l t ps) = (c', true)) (he : c'.err = none) :
    ∃ e, c'.elem l = some e ∧ e.etype = t ∧
      (∀ k x, ps.lookup k = some x → ∃ v, evalE a c x = .ok v ∧ e.props.find k = some v) ∧
      (∀ k, ps.lookup k = none → e.props.find k = none) := by
  have hi := exec_inv a c h.inv (.element l t ps)
  rw [hx] at hi
  simp only at hi
  simp only [exec] at hx
  cases hp : evalProps a c ps with
  | error f => rw [hp] at hx; cases (Prod.mk.inj hx).2
  | ok m =>
    rw [hp] at hx
    have hc := (Prod.mk.inj hx).1
    unfold doElement at hc
    split at hc
    · rw [← hc] at he; exact (note_err he).elim
    · split at hc
      · rw [← hc] at he; exact (note_err he).elim
      · obtain ⟨i1, i2, _⟩ := evalProps_iff a c ps
        refine ⟨⟨l, t, m⟩, ?_, rfl, ?_, ?_⟩
        · rw [elem_iff c' hi]
          rw [← hc]
          exact ⟨by simp, rfl⟩
        · intro k x hk
          obtain ⟨v, hv⟩ := i1 m hp (k, x) (lookup_mem _ _ _ hk)
          refine ⟨v, hv, ?_⟩
          simp only
          rw [i2 m hp, hk]
          simp only [Option.bind_some]
          simp only at hv
          rw [hv]
          rfl
        · intro k hk
          simp only
          rw [i2 m hp, hk]
          rfl

/-- **C16.** The order of the properties does not matter as long as the leftmost value of each name
stays the leftmost: the element, or the fact that there is an error, is the same. -/
theorem C16_order (a : Arith N) (c : Ctx N) (h : Reach a c) (l t : Name) (ps ps' : List (Name × Exp N))
    (hp : ps.Perm ps') (hl : ∀ k, ps.lookup k = ps'.lookup k) (c' : Ctx N) :
    (exec a c (.element l t ps) = (c', true) ↔ exec a c (.element l t ps') = (c', true)) := by
  have key : ∀ (ps ps' : List (Name × Exp N)), ps.Perm ps' → (∀ k, ps.lookup k = ps'.lookup k) →
      exec a c (.element l t ps) = (c', true) → exec a c (.element l t ps') = (c', true) := by
    intro ps ps' hp hl hx
    simp only [exec] at hx ⊢
    cases he : evalProps a c ps with
    | error f => rw [he] at hx; cases (Prod.mk.inj hx).2
    | ok m =>
      rw [he] at hx
      obtain ⟨i1, i2, _⟩ := evalProps_iff a c ps
      obtain ⟨_, j2, j3⟩ := evalProps_iff a c ps'
      obtain ⟨m', hm'⟩ := j3 (fun p hmem => i1 m he p (hp.mem_iff.2 hmem))
      have : m = m' := by
        refine SMap.ext_of_sorted m m' (evalProps_ok a c h.inv ps m he).1 (evalProps_ok a c h.inv ps' m' hm').1 ?_
        intro k
        rw [i2 m he, j2 m' hm', hl]
      rw [hm', ← this]
      exact hx
  exact ⟨key ps ps' hp hl, key ps' ps hp.symm (fun k => (hl k).symm)⟩

/-- Example: `d: drift, L = 2, aper = 3, L = 1;` has `L = 2`; moving `aper` changes nothing. -/
example :
    let ps : List (Name × Exp (Option Int)) := [(['L'], .num (some 2)), ("aper".toList, .num (some 3)), (['L'], .num (some 1))]
    let ps' : List (Name × Exp (Option Int)) := [("aper".toList, .num (some 3)), (['L'], .num (some 2)), (['L'], .num (some 1))]
    ps.lookup ['L'] = some (.num (some 2)) ∧ ps.Perm ps' ∧ (∀ k, ps.lookup k = ps'.lookup k) ∧
    (exec exA (exCtx "") (.element ['d'] "drift".toList ps)).2 = true ∧
    (exec exA (exCtx "") (.element ['d'] "drift".toList ps)).1.err = none := by
  refine ⟨rfl, .swap _ _ _, ?_, by decide +kernel, by decide +kernel⟩
  intro k
  simp only [List.lookup_cons]
  by_cases h1 : k = ['L']
  · subst h1; rfl
  · have hb : (k == ['L']) = false := by simpa using h1
    rw [hb]

end Flame.Glps
