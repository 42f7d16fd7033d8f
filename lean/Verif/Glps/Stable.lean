import Verif.Glps.Fill

/-!
# Definitions never change; contexts that differ in the order of variables only
-/

namespace Flame.Glps

variable {N : Type}

/-- A parser context that some variables and statements lead to. -/
def Reach (a : Arith N) (c : Ctx N) : Prop :=
  ∃ vars ss, SMap.Sorted vars ∧ c = (execAll a (fillVars Ctx.empty vars) ss).1

theorem Reach.inv {a : Arith N} {c : Ctx N} (h : Reach a c) : c.Inv := by
  obtain ⟨vars, ss, hs, rfl⟩ := h
  exact execAll_inv a ss _ (fillVars_sim vars hs).inv

/-- The definitions of `c` are in `c'`, in front. -/
structure Extends (c c' : Ctx N) : Prop where
  vars : ∃ l, c'.vars = c.vars ++ l
  elements : ∃ l, c'.elements = c.elements ++ l
  lines : ∃ l, c'.lines = c.lines ++ l

theorem Extends.refl (c : Ctx N) : Extends c c := ⟨⟨[], by simp⟩, ⟨[], by simp⟩, ⟨[], by simp⟩⟩

theorem Extends.trans {c c' c'' : Ctx N} (h : Extends c c') (h' : Extends c' c'') : Extends c c'' := by
  obtain ⟨⟨l1, h1⟩, ⟨l2, h2⟩, ⟨l3, h3⟩⟩ := h
  obtain ⟨⟨m1, k1⟩, ⟨m2, k2⟩, ⟨m3, k3⟩⟩ := h'
  exact ⟨⟨l1 ++ m1, by rw [k1, h1, List.append_assoc]⟩, ⟨l2 ++ m2, by rw [k2, h2, List.append_assoc]⟩,
    ⟨l3 ++ m3, by rw [k3, h3, List.append_assoc]⟩⟩

theorem Extends.note (c : Ctx N) (e : PErr) : Extends c (c.note e) := ⟨⟨[], by simp [Ctx.note]⟩,
  ⟨[], by simp [Ctx.note]⟩, ⟨[], by simp [Ctx.note]⟩⟩

theorem Extends.abort (c : Ctx N) (f : Fail) : Extends c (c.abort f) := by
  cases f with
  | soft e => exact Extends.note c e
  | hard e => exact ⟨⟨[], by simp [Ctx.abort]⟩, ⟨[], by simp [Ctx.abort]⟩, ⟨[], by simp [Ctx.abort]⟩⟩

theorem exec_extends (a : Arith N) (c : Ctx N) (s : Stmt N) : Extends c (exec a c s).1 := by
  cases s with
  | assign n e =>
    simp only [exec]
    split
    · exact Extends.abort _ _
    · unfold doAssign
      split
      · exact Extends.note _ _
      · split
        · exact Extends.note _ _
        · exact ⟨⟨_, rfl⟩, ⟨[], by simp⟩, ⟨[], by simp⟩⟩
  | element l t ps =>
    simp only [exec]
    split
    · exact Extends.abort _ _
    · unfold doElement
      split
      · exact Extends.note _ _
      · split
        · exact Extends.note _ _
        · exact ⟨⟨[], by simp⟩, ⟨_, rfl⟩, ⟨[], by simp⟩⟩
  | line l t es =>
    simp only [exec]
    split
    · exact Extends.abort _ _
    · split
      · exact Extends.abort _ _
      · unfold doLine
        split
        · exact Extends.note _ _
        · split
          · exact Extends.note _ _
          · exact ⟨⟨[], by simp⟩, ⟨[], by simp⟩, ⟨_, rfl⟩⟩
  | func f e =>
    simp only [exec]
    split
    · exact Extends.abort _ _
    · unfold doCall
      split
      · exact Extends.note _ _
      · exact ⟨⟨[], by simp⟩, ⟨[], by simp⟩, ⟨[], by simp⟩⟩
  | command k =>
    simp only [exec]
    unfold doCommand
    split
    · exact Extends.note _ _
    · exact Extends.refl c

theorem execAll_extends (a : Arith N) (ss : List (Stmt N)) : ∀ c : Ctx N, Extends c (execAll a c ss).1 := by
  induction ss with
  | nil => intro c; exact Extends.refl c
  | cons s ss ih =>
    intro c
    have h1 := exec_extends a c s
    rw [execAll]
    split
    · rename_i c' he
      rw [he] at h1
      exact h1.trans (ih c')
    · rename_i c' he
      rw [he] at h1
      exact h1

theorem Extends.var {c c' : Ctx N} (h : Extends c c') (hi : c.Inv) (hi' : c'.Inv) {n : Name} {v : TV N}
    (hv : c.var n = some v) : c'.var n = some v := by
  rw [var_iff c hi] at hv
  rw [var_iff c' hi']
  obtain ⟨l, hl⟩ := h.vars
  rw [hl]
  exact List.mem_append_left _ hv

theorem Extends.elem {c c' : Ctx N} (h : Extends c c') (hi : c.Inv) (hi' : c'.Inv) {n : Name}
    {v : PElem N} (hv : c.elem n = some v) : c'.elem n = some v := by
  rw [elem_iff c hi] at hv
  rw [elem_iff c' hi']
  obtain ⟨l, hl⟩ := h.elements
  rw [hl]
  exact ⟨List.mem_append_left _ hv.1, hv.2⟩

theorem Extends.line {c c' : Ctx N} (h : Extends c c') (hi : c.Inv) (hi' : c'.Inv) {n : Name}
    {v : PLine} (hv : c.line n = some v) : c'.line n = some v := by
  rw [line_iff c hi] at hv
  rw [line_iff c' hi']
  obtain ⟨l, hl⟩ := h.lines
  rw [hl]
  exact ⟨List.mem_append_left _ hv.1, hv.2⟩

/-! ### Names used -/

mutual
/-- The names an expression uses. -/
def Exp.names : Exp N → List Name
  | .num _ => []
  | .str _ => []
  | .var n => [n]
  | .bin _ l r => l.names ++ r.names
  | .neg e => e.names
  | .call _ e => e.names
  | .vec es => es.names
/-- The names a list uses. -/
def Exps.names : Exps N → List Name
  | .nil => []
  | .cons e es => e.names ++ es.names
end

/-- The names a statement uses. -/
def Stmt.names : Stmt N → List Name
  | .assign _ e => e.names
  | .element _ _ ps => (ps.map (fun p => p.2.names)).flatten
  | .line _ _ es => (es.map Exp.names).flatten
  | .func _ e => e.names
  | .command _ => []

mutual
theorem evalE_undef (a : Arith N) (c : Ctx N) (n : Name) (hn : lookupName a c n = .error (.soft .undefined)) :
    ∀ e : Exp N, n ∈ e.names → ∃ f, evalE a c e = .error f
  | .num _, h => by cases h
  | .str _, h => by cases h
  | .var m, h => by
    rw [Exp.names, List.mem_singleton] at h
    subst h
    exact ⟨_, by rw [evalE]; exact hn⟩
  | .bin op l r, h => by
    rw [Exp.names, List.mem_append] at h
    rw [evalE]
    rcases h with h | h
    · obtain ⟨f, hf⟩ := evalE_undef a c n hn l h
      exact ⟨f, by rw [hf]⟩
    · obtain ⟨f, hf⟩ := evalE_undef a c n hn r h
      cases evalE a c l with
      | error g => exact ⟨g, rfl⟩
      | ok x => exact ⟨f, by simp only [hf]⟩
  | .neg e, h => by
    rw [Exp.names] at h
    obtain ⟨f, hf⟩ := evalE_undef a c n hn e h
    exact ⟨f, by rw [evalE, hf]⟩
  | .call g e, h => by
    rw [Exp.names] at h
    obtain ⟨f, hf⟩ := evalE_undef a c n hn e h
    exact ⟨f, by rw [evalE, hf]⟩
  | .vec es, h => by
    rw [Exp.names] at h
    obtain ⟨f, hf⟩ := evalEs_undef a c n hn es h
    exact ⟨f, by rw [evalE, hf]⟩
theorem evalEs_undef (a : Arith N) (c : Ctx N) (n : Name) (hn : lookupName a c n = .error (.soft .undefined)) :
    ∀ es : Exps N, n ∈ es.names → ∃ f, evalEs a c es = .error f
  | .nil, h => by cases h
  | .cons e es, h => by
    rw [Exps.names, List.mem_append] at h
    rw [evalEs]
    rcases h with h | h
    · obtain ⟨f, hf⟩ := evalE_undef a c n hn e h
      exact ⟨f, by rw [hf]⟩
    · obtain ⟨f, hf⟩ := evalEs_undef a c n hn es h
      cases evalE a c e with
      | error g => exact ⟨g, rfl⟩
      | ok x => exact ⟨f, by simp only [hf]⟩
end

theorem evalProps_undef (a : Arith N) (c : Ctx N) (n : Name)
    (hn : lookupName a c n = .error (.soft .undefined)) (ps : List (Name × Exp N)) :
    n ∈ (ps.map (fun p => p.2.names)).flatten → ∃ f, evalProps a c ps = .error f := by
  induction ps with
  | nil => intro h; simp at h
  | cons p ps ih =>
    obtain ⟨k, e⟩ := p
    intro h
    rw [List.map_cons, List.flatten_cons, List.mem_append] at h
    rw [evalProps]
    rcases h with h | h
    · obtain ⟨f, hf⟩ := evalE_undef a c n hn e h
      exact ⟨f, by rw [hf]⟩
    · obtain ⟨f, hf⟩ := ih h
      cases evalE a c e with
      | error g => exact ⟨g, rfl⟩
      | ok x => exact ⟨f, by simp only [hf]⟩

theorem evalList_undef (a : Arith N) (c : Ctx N) (n : Name)
    (hn : lookupName a c n = .error (.soft .undefined)) (es : List (Exp N)) :
    n ∈ (es.map Exp.names).flatten → ∃ f, evalList a c es = .error f := by
  induction es with
  | nil => intro h; simp at h
  | cons e es ih =>
    intro h
    rw [List.map_cons, List.flatten_cons, List.mem_append] at h
    rw [evalList]
    rcases h with h | h
    · obtain ⟨f, hf⟩ := evalE_undef a c n hn e h
      exact ⟨f, by rw [hf]⟩
    · obtain ⟨f, hf⟩ := ih h
      cases evalE a c e with
      | error g => exact ⟨g, rfl⟩
      | ok x => exact ⟨f, by simp only [hf]⟩

/-! ### The order of variables does not matter -/

/-- Contexts with the same definitions; variables may come in another order. -/
structure CtxEq (c c' : Ctx N) : Prop where
  inv : c.Inv
  inv' : c'.Inv
  var : ∀ n, c.var n = c'.var n
  elements : c.elements = c'.elements
  elemIdx : c.elemIdx = c'.elemIdx
  lines : c.lines = c'.lines
  lineIdx : c.lineIdx = c'.lineIdx
  err : c.err = c'.err
  out : c.out = c'.out

theorem CtxEq.lookup {c c' : Ctx N} (a : Arith N) (h : CtxEq c c') (n : Name) :
    lookupName a c n = lookupName a c' n := by
  rw [lookupName_eq a c h.inv, lookupName_eq a c' h.inv', h.var]
  unfold Ctx.elem Ctx.line
  rw [h.elements, h.elemIdx, h.lines, h.lineIdx]

mutual
theorem evalE_congr (a : Arith N) (c c' : Ctx N) (h : ∀ n, lookupName a c n = lookupName a c' n) :
    ∀ e : Exp N, evalE a c e = evalE a c' e
  | .num _ => rfl
  | .str _ => rfl
  | .var n => by rw [evalE, evalE]; exact h n
  | .bin op l r => by rw [evalE, evalE, evalE_congr a c c' h l, evalE_congr a c c' h r]
  | .neg e => by rw [evalE, evalE, evalE_congr a c c' h e]
  | .call f e => by rw [evalE, evalE, evalE_congr a c c' h e]
  | .vec es => by rw [evalE, evalE, evalEs_congr a c c' h es]
theorem evalEs_congr (a : Arith N) (c c' : Ctx N) (h : ∀ n, lookupName a c n = lookupName a c' n) :
    ∀ es : Exps N, evalEs a c es = evalEs a c' es
  | .nil => rfl
  | .cons e es => by rw [evalEs, evalEs, evalE_congr a c c' h e, evalEs_congr a c c' h es]
end

theorem evalList_congr (a : Arith N) (c c' : Ctx N) (h : ∀ n, lookupName a c n = lookupName a c' n)
    (es : List (Exp N)) : evalList a c es = evalList a c' es := by
  induction es with
  | nil => rfl
  | cons e es ih => rw [evalList, evalList, evalE_congr a c c' h e, ih]

theorem evalProps_congr (a : Arith N) (c c' : Ctx N) (h : ∀ n, lookupName a c n = lookupName a c' n)
    (ps : List (Name × Exp N)) : evalProps a c ps = evalProps a c' ps := by
  induction ps with
  | nil => rfl
  | cons p ps ih =>
    obtain ⟨k, e⟩ := p
    rw [evalProps, evalProps, evalE_congr a c c' h e, ih]

theorem CtxEq.note {c c' : Ctx N} (h : CtxEq c c') (e : PErr) : CtxEq (c.note e) (c'.note e) :=
  ⟨note_inv c h.inv e, note_inv c' h.inv' e, h.var, h.elements, h.elemIdx, h.lines, h.lineIdx,
    by simp only [Ctx.note, h.err], h.out⟩

theorem CtxEq.abort {c c' : Ctx N} (h : CtxEq c c') (f : Fail) : CtxEq (c.abort f) (c'.abort f) := by
  cases f with
  | soft e => exact h.note e
  | hard e =>
    exact ⟨abort_inv c h.inv (.hard e), abort_inv c' h.inv' (.hard e), h.var, h.elements, h.elemIdx,
      h.lines, h.lineIdx, rfl, h.out⟩

theorem push_var (c : Ctx N) (hi : c.Inv) (n : Name) (v : TV N) (hn : c.varIdx.find n = none) (m : Name) :
    (pushVar c n v).var m = if m = n then some v else c.var m := by
  unfold Ctx.var pushVar
  simp only
  rw [SMap.find_insert]
  by_cases hm : m = n
  · simp [hm]
  · rw [if_neg hm, if_neg hm]
    cases hf : c.varIdx.find m with
    | none => rfl
    | some i =>
      obtain ⟨w, hw⟩ := (hi.varIdx m i).1 hf
      have hlt : i < c.vars.length := by
        by_contra hge
        rw [List.getElem?_eq_none (by omega)] at hw; cases hw
      simp only
      rw [List.getElem?_append_left hlt]

theorem CtxEq.exec {c c' : Ctx N} (a : Arith N) (h : CtxEq c c') (s : Stmt N) :
    (exec a c s).2 = (exec a c' s).2 ∧ CtxEq (exec a c s).1 (exec a c' s).1 := by
  have hl := h.lookup a
  have hi := exec_inv a c h.inv s
  have hi' := exec_inv a c' h.inv' s
  have hvi : ∀ n, (c.varIdx.find n).isSome = (c'.varIdx.find n).isSome := by
    intro n
    rw [varIdx_isSome c h.inv, varIdx_isSome c' h.inv', h.var]
  cases s with
  | assign n e =>
    simp only [Glps.exec, ← evalE_congr a c c' hl e] at hi hi' ⊢
    cases he : evalE a c e with
    | error f => exact ⟨rfl, h.abort f⟩
    | ok v =>
      rw [he] at hi hi'
      refine ⟨rfl, ?_⟩
      simp only at hi hi' ⊢
      unfold doAssign at hi hi' ⊢
      by_cases h1 : v.ty = .line
      · rw [if_pos h1, if_pos h1]
        exact h.note _
      · rw [if_neg h1] at hi hi' ⊢
        rw [if_neg h1]
        by_cases h2 : (c.varIdx.find n).isSome = true
        · rw [if_pos h2, if_pos (by rw [← hvi]; exact h2)]
          exact h.note _
        · have h2' : ¬ (c'.varIdx.find n).isSome = true := by rw [← hvi]; exact h2
          rw [if_neg h2] at hi ⊢
          rw [if_neg h2'] at hi' ⊢
          refine ⟨hi, hi', fun m => ?_, h.elements, h.elemIdx, h.lines, h.lineIdx, h.err, h.out⟩
          have p1 := push_var c h.inv n v (by simpa using h2) m
          have p2 := push_var c' h.inv' n v (by simpa using h2') m
          unfold pushVar at p1 p2
          rw [p1, p2, h.var]
  | element l t ps =>
    simp only [Glps.exec, ← evalProps_congr a c c' hl ps] at hi hi' ⊢
    cases he : evalProps a c ps with
    | error f => exact ⟨rfl, h.abort f⟩
    | ok m =>
      rw [he] at hi hi'
      refine ⟨rfl, ?_⟩
      simp only at hi hi' ⊢
      unfold doElement at hi hi' ⊢
      rw [← h.elemIdx] at hi' ⊢
      by_cases h1 : (l.isEmpty || t.isEmpty) = true
      · rw [if_pos h1, if_pos h1]
        exact h.note _
      · rw [if_neg h1] at hi hi' ⊢
        rw [if_neg h1]
        by_cases h2 : (c.elemIdx.find l).isSome = true
        · rw [if_pos h2, if_pos h2]
          exact h.note _
        · rw [if_neg h2] at hi hi' ⊢
          rw [if_neg h2]
          exact ⟨hi, hi', h.var, by simp [h.elements], by simp [h.elements], h.lines, h.lineIdx,
            h.err, h.out⟩
  | line l t es =>
    simp only [Glps.exec, ← evalList_congr a c c' hl es] at hi hi' ⊢
    cases he : evalList a c es with
    | error f => exact ⟨rfl, h.abort f⟩
    | ok ts =>
      rw [he] at hi hi'
      simp only at hi hi' ⊢
      cases ha : appendLine ts with
      | error f => exact ⟨rfl, h.abort f⟩
      | ok acc =>
        rw [ha] at hi hi'
        refine ⟨rfl, ?_⟩
        simp only at hi hi' ⊢
        unfold doLine at hi hi' ⊢
        rw [← h.lineIdx] at hi' ⊢
        by_cases h1 : lower t ≠ lower "LINE".toList
        · rw [if_pos h1, if_pos h1]
          exact h.note _
        · rw [if_neg h1] at hi hi' ⊢
          rw [if_neg h1]
          by_cases h2 : (c.lineIdx.find l).isSome = true
          · rw [if_pos h2, if_pos h2]
            exact h.note _
          · rw [if_neg h2] at hi hi' ⊢
            rw [if_neg h2]
            exact ⟨hi, hi', h.var, h.elements, h.elemIdx, by simp [h.lines], by simp [h.lines],
              h.err, h.out⟩
  | func f e =>
    simp only [Glps.exec, ← evalE_congr a c c' hl e] at hi hi' ⊢
    cases he : evalE a c e with
    | error f => exact ⟨rfl, h.abort f⟩
    | ok v =>
      rw [he] at hi hi'
      refine ⟨rfl, ?_⟩
      simp only at hi hi' ⊢
      unfold doCall at hi hi' ⊢
      by_cases h1 : f ≠ "print".toList
      · rw [if_pos h1, if_pos h1]
        exact h.note _
      · rw [if_neg h1] at hi hi' ⊢
        rw [if_neg h1]
        exact ⟨hi, hi', h.var, h.elements, h.elemIdx, h.lines, h.lineIdx, h.err, by simp [h.out]⟩
  | command k =>
    refine ⟨rfl, ?_⟩
    simp only [Glps.exec]
    unfold doCommand
    by_cases h1 : k ≠ "END".toList
    · rw [if_pos h1, if_pos h1]
      exact h.note _
    · rw [if_neg h1, if_neg h1]
      exact h

theorem CtxEq.execAll (a : Arith N) (ss : List (Stmt N)) : ∀ {c c' : Ctx N}, CtxEq c c' →
    (execAll a c ss).2 = (execAll a c' ss).2 ∧ CtxEq (execAll a c ss).1 (execAll a c' ss).1 := by
  induction ss with
  | nil => intro c c' h; exact ⟨rfl, h⟩
  | cons s ss ih =>
    intro c c' h
    obtain ⟨h1, h2⟩ := h.exec a s
    rw [Glps.execAll, Glps.execAll]
    generalize Glps.exec a c s = r at h1 h2 ⊢
    generalize Glps.exec a c' s = r' at h1 h2 ⊢
    obtain ⟨d, b⟩ := r
    obtain ⟨d', b'⟩ := r'
    simp only at h1 h2
    subst h1
    cases b with
    | true => exact ih h2
    | false => exact ⟨rfl, h2⟩

theorem CtxEq.elemCf {c c' : Ctx N} (h : CtxEq c c') (top : SMap Name (CV N)) (n : Name) :
    elemCf c top n = elemCf c' top n := by
  unfold Glps.elemCf
  rw [h.elements, h.elemIdx]

theorem CtxEq.elemCfs {c c' : Ctx N} (h : CtxEq c c') (top : SMap Name (CV N)) (ns : List Name) :
    elemCfs c top ns = elemCfs c' top ns := by
  induction ns with
  | nil => rfl
  | cons n ns ih => rw [Glps.elemCfs, Glps.elemCfs, h.elemCf, ih]

theorem assignAll_sorted (c : Ctx N) (h : c.Inv) : ∃ m, assignAll [] c.vars = some m ∧ SMap.Sorted m ∧
    ∀ k, m.find k = (c.var k).bind cvOf := by
  obtain ⟨m, h1, h2, h3⟩ := assignAll_spec c.vars [] SMap.sorted_nil (varKeys_nodup c h) (by
    intro p hp
    obtain ⟨ht, hl⟩ := h.varTy p hp
    rw [(tvok_iff p.2).1 ht, cvOf_tag]
    intro hn
    cases hv : p.2.val with
    | line l =>
      have := (tvok_iff p.2).1 ht
      rw [hv] at this
      rw [this] at hl
      exact hl rfl
    | _ => rw [hv] at hn; cases hn)
  refine ⟨m, h1, h2, fun k => ?_⟩
  rw [h3, var_lookup c h]
  cases c.vars.lookup k <;> rfl

theorem CtxEq.fill {c c' : Ctx N} (h : CtxEq c c') (lattice : Bool) :
    fillContext c lattice = fillContext c' lattice := by
  obtain ⟨m, h1, h2, h3⟩ := assignAll_sorted c h.inv
  obtain ⟨m', h1', h2', h3'⟩ := assignAll_sorted c' h.inv'
  have hm : m = m' := SMap.ext_of_sorted m m' h2 h2' (fun k => by rw [h3, h3', h.var])
  subst hm
  unfold fillContext
  rw [h1, h1']
  have hsel : selectLine c = selectLine c' := by
    unfold selectLine
    rw [h.elemIdx, h.elements, h.lineIdx, h.lines]
  simp only [hsel, h.lines, h.elemCfs]

theorem CtxEq.finish {c c' : Ctx N} (h : CtxEq c c') (lattice : Bool) : finish c lattice = finish c' lattice := by
  unfold Glps.finish
  rw [h.err, h.fill]

theorem execAll_append (a : Arith N) (ss ss' : List (Stmt N)) : ∀ (c : Ctx N),
    execAll a c (ss ++ ss') = match execAll a c ss with
      | (c', true) => execAll a c' ss'
      | (c', false) => (c', false) := by
  induction ss with
  | nil => intro c; rfl
  | cons s ss ih =>
    intro c
    rw [List.cons_append, execAll, execAll]
    generalize exec a c s = r
    obtain ⟨d, b⟩ := r
    cases b with
    | true => exact ih d
    | false => rfl

mutual
/-- A closed expression means the same everywhere. -/
theorem means_mono (a : Arith N) (ρ ρ' : Name → Option (Val N)) (h : ∀ n v, ρ n = some v → ρ' n = some v) :
    ∀ (e : Exp N) (v : Val N), Means a ρ e v → Means a ρ' e v
  | .num x, v, hm => by cases hm; exact .num x
  | .str s, v, hm => by cases hm; exact .str s
  | .var n, v, hm => by cases hm with | var hv => exact .var (h n v hv)
  | .bin op l r, v, hm => by
    cases hm with
    | add h1 h2 => exact .add (means_mono a ρ ρ' h l _ h1) (means_mono a ρ ρ' h r _ h2)
    | sub h1 h2 => exact .sub (means_mono a ρ ρ' h l _ h1) (means_mono a ρ ρ' h r _ h2)
    | mul h1 h2 => exact .mul (means_mono a ρ ρ' h l _ h1) (means_mono a ρ ρ' h r _ h2)
    | div h1 h2 hf => exact .div (means_mono a ρ ρ' h l _ h1) (means_mono a ρ ρ' h r _ h2) hf
    | timesL h1 h2 hf => exact .timesL (means_mono a ρ ρ' h l _ h1) (means_mono a ρ ρ' h r _ h2) hf
    | timesR h1 h2 hf => exact .timesR (means_mono a ρ ρ' h l _ h1) (means_mono a ρ ρ' h r _ h2) hf
  | .neg e, v, hm => by
    cases hm with
    | neg h1 => exact .neg (means_mono a ρ ρ' h e _ h1)
    | rev h1 => exact .rev (means_mono a ρ ρ' h e _ h1)
  | .call f e, v, hm => by
    cases hm with
    | fn hf h1 => exact .fn hf (means_mono a ρ ρ' h e _ h1)
    | parse h1 hc => exact .parse (means_mono a ρ ρ' h e _ h1) hc
    | file hn h1 hp => exact .file hn (means_mono a ρ ρ' h e _ h1) hp
    | h5file h1 hp => exact .h5file (means_mono a ρ ρ' h e _ h1) hp
    | dash h1 =>
      cases h1 with
      | neg h1 => exact .dash (.neg (means_mono a ρ ρ' h e _ h1))
      | rev h1 => exact .dash (.rev (means_mono a ρ ρ' h e _ h1))
  | .vec es, v, hm => by cases hm with | vec h1 => exact .vec (meansL_mono a ρ ρ' h es _ h1)
theorem meansL_mono (a : Arith N) (ρ ρ' : Name → Option (Val N)) (h : ∀ n v, ρ n = some v → ρ' n = some v) :
    ∀ (es : Exps N) (xs : List N), MeansL a ρ es xs → MeansL a ρ' es xs
  | .nil, xs, hm => by cases hm; exact .nil
  | .cons e es, xs, hm => by
    cases hm with
    | cons h1 h2 => exact .cons (means_mono a ρ ρ' h e _ h1) (meansL_mono a ρ ρ' h es _ h2)
end

end Flame.Glps
