import Verif.Config.Steps

/-!
# One call: invariant and both refinements
-/

namespace Flame.Conf

variable {N : Type} [Zero N]

/-- What is shown for one call. -/
def StepOk (s s' : St N) (op : Op N) : Prop :=
  Inv s' ∧ (OpSafe s op → absFl s' = Fl.step (absFl s) op) ∧
    (noSwapAny op = true → absLk s' = Lk.step (absLk s) op)

omit [Zero N] in
theorem absFl_objs_some {s : St N} {o : Nat} {c : Cfg} (h : s.objs o = some c) :
    (absFl s).objs o = some (obsFl s.heap c) := by simp [absFl, h]
omit [Zero N] in
theorem absFl_objs_none {s : St N} {o : Nat} (h : s.objs o = none) :
    (absFl s).objs o = none := by simp [absFl, h]
omit [Zero N] in
theorem absLk_objs_some {s : St N} {o : Nat} {c : Cfg} (h : s.objs o = some c) :
    (absLk s).objs o = some (obsLk s.heap c) := by simp [absLk, h]
omit [Zero N] in
theorem absLk_objs_none {s : St N} {o : Nat} (h : s.objs o = none) :
    (absLk s).objs o = none := by simp [absLk, h]

omit [Zero N] in
theorem absFl_setVal (s : St N) (x : Nat) (v : Val N) :
    absFl { s with vals := upd s.vals x v } =
      { absFl s with vals := upd (absFl s).vals x (obsFlVal s.heap v) } := by
  unfold absFl
  congr 1
  funext y
  by_cases h : y = x
  · subst h; simp
  · simp [upd_ne _ _ h]

omit [Zero N] in
theorem absLk_setVal (s : St N) (x : Nat) (v : Val N) :
    absLk { s with vals := upd s.vals x v } =
      { absLk s with vals := upd (absLk s).vals x (obsLkVal s.heap v) } := by
  unfold absLk
  congr 1
  funext y
  by_cases h : y = x
  · subst h; simp
  · simp [upd_ne _ _ h]

omit [Zero N] in
theorem Inv.setVal {s : St N} (hi : Inv s) (x : Nat) (v : Val N)
    (hv : ∀ i c, nested (some v) i = some c → LiveC s c) :
    Inv { s with vals := upd s.vals x v } := by
  refine (hi.vars s.objs (upd s.vals x v) (fun o c h => LiveC.ofObj h) ?_).1
  intro y i c h
  rcases nested_upd_vals h with h | h
  · exact hv i c h
  · exact LiveC.ofVal h

omit [Zero N] in
theorem step_ok_setVal {s : St N} (hi : Inv s) (x : Nat) (v : Val N)
    (hv : ∀ i c, nested (some v) i = some c → LiveC s c) :
    Inv { s with vals := upd s.vals x v } ∧
    absFl { s with vals := upd s.vals x v } =
      { absFl s with vals := upd (absFl s).vals x (obsFlVal s.heap v) } ∧
    absLk { s with vals := upd s.vals x v } =
      { absLk s with vals := upd (absLk s).vals x (obsLkVal s.heap v) } :=
  ⟨hi.setVal x v hv, absFl_setVal s x v, absLk_setVal s x v⟩

omit [Zero N] in
theorem filterMap_obs {A B : Type} (f : A → Option B) {C : Type} (g : B → C) (l : List A) :
    l.filterMap (fun o => (f o).map g) = (l.filterMap f).map g := by
  rw [List.map_filterMap]

omit [Zero N] in
/-- pushScope, after flatten. -/
theorem push_tail {s : St N} (hi : Inv s) {o : Nat} {c : Cfg} (hc : s.objs o = some c)
    (e : c.imp = none) :
    ScopeOk s (setObj (alloc s []) o ⟨s.next, some c.own⟩) o c := by
  have hcl : LiveC s c := LiveC.ofObj hc
  refine scopeOk_one hi hcl o (some c.own) ?_ ?_ ?_
  · rintro a ⟨⟩; exact .inl rfl
  · rintro a ⟨⟩ c' h' e' k
    rw [hi.same c' c h' hcl e' k, look_of_imp_none e]
  · intro k; rw [look_of_imp_none e]; rfl

omit [Zero N] in
theorem flatten_noop {s : St N} {o : Nat} (h : ∀ c, s.objs o = some c → c.imp = none) :
    flatten s o = s := by
  unfold flatten
  cases hc : s.objs o with
  | none => rfl
  | some c => simp [h c hc]

omit [Zero N] in
theorem Fl.mk_visible_of_imp_none {h : Addr → VMap N} {c : Cfg} (e : c.imp = none) :
    Fl.mk (Fl.visible (obsFl h c)) (fun _ => Fl.missing) = obsFl h c := by
  conv => rhs; rw [obsFl_mk]
  congr 1
  · funext k; rw [visible_obs, look_of_imp_none e]; rfl
  · funext k; simp [lookLv, e, obsFlOpt]

omit [Zero N] in
theorem flatten_ok {s : St N} (hi : Inv s) (o : Nat) :
    Inv (flatten s o) ∧
    (FlatSafe s o → absFl (flatten s o) =
      Fl.modify (absFl s) o (fun c => Fl.mk (Fl.visible c) (fun _ => Fl.missing))) ∧
    absLk (flatten s o) = absLk s := by
  cases hc : s.objs o with
  | none =>
    have h : flatten s o = s := flatten_noop (fun c h => by rw [hc] at h; cases h)
    rw [h]
    refine ⟨hi, fun _ => ?_, rfl⟩
    simp [Fl.modify, absFl_objs_none hc]
  | some c =>
    have hcl : LiveC s c := LiveC.ofObj hc
    cases e : c.imp with
    | none =>
      have h : flatten s o = s := flatten_noop (fun c' h => by rw [hc] at h; cases h; exact e)
      rw [h]
      refine ⟨hi, fun _ => ?_, rfl⟩
      simp only [Fl.modify, absFl_objs_some hc]
      rw [Fl.mk_visible_of_imp_none e, upd_same _ _ _ (absFl_objs_some hc)]
    | some i =>
      refine ⟨flatten_inv hi hc e, ?_, flatten_absLk hi hc e⟩
      intro hsafe
      rcases hsafe c hc with h | hex
      · rw [e] at h; cases h
      · have hm : ∀ k j c', nested (((s.heap c.own).merge (s.heap i)).find k) j = some c' →
            Other s o c' := by
          intro k j c' hn
          rw [merge_look e, look_eq_or] at hn
          rcases nested_or hn with hn | hn
          · exact hcl.other_nested o hn
          · exact hcl.other_nested o hn
        have hv : ∀ y i c', nested (some (s.vals y)) i = some c' → Other s o c' := by
          intro y i c' hn
          obtain ⟨l, e, hi'⟩ := nested_some.mp hn
          exact ⟨.val y i, by simp, .val (Option.some.inj e) hi'⟩
        have hst : flatten s o =
            exclWrite s o c ((s.heap c.own).merge (s.heap i)) none s.vals := flatten_eq hc e
        rw [hst, exclWrite_absFl hc hex (.inl rfl) hm hv]
        simp only [Fl.modify, absFl_objs_some hc, if_true]
        congr 4
        funext k
        rw [merge_look e, visible_obs]

theorem step_ok {uq : St N → Nat → Bool} (huq : UniqueSound uq) {s : St N} (hi : Inv s)
    (op : Op N) : StepOk s (step uq s op) op := by
  cases op with
  | new o =>
    have hf : ∀ c, LiveC (alloc s []) c → c.own ≠ s.next ∧ c.imp ≠ some s.next := by
      intro c' h
      have := hi.fresh c' (alloc_live hi _ c' h)
      exact ⟨Nat.ne_of_lt this.1, fun e => Nat.lt_irrefl _ (this.2 _ e)⟩
    have hemp : (alloc s []).heap s.next = [] := by simp [alloc]
    have hcomp : Compatible (alloc s []) ⟨s.next, none⟩ :=
      Compatible.scope (by simp [alloc]) hf hemp (by simp)
    have hst : step uq s (.new o) = setObj (alloc s []) o ⟨s.next, none⟩ := rfl
    refine ⟨?_, fun _ => ?_, fun _ => ?_⟩
    · rw [hst]; exact (hi.alloc _).setObj hcomp o
    · rw [hst, absFl_setObj, absFl_alloc hi]
      have : obsFl (alloc s []).heap ⟨s.next, none⟩ = Fl.empty := by
        rw [obsFl_mk]
        funext p l q
        cases p with
        | nil => cases l <;> simp [Fl.mk, lookLv, hemp, obsFlOpt, Fl.missing, Fl.empty]
        | cons a p =>
          obtain ⟨l', k, i⟩ := a
          cases l' <;> simp [Fl.mk, lookLv, hemp, obsFlOpt, Fl.missing, Fl.empty]
      rw [this]; rfl
    · rw [hst, absLk_setObj, absLk_alloc hi]
      have : obsLk (alloc s []).heap ⟨s.next, none⟩ = Lk.empty := by
        rw [obsLk_mk]
        have hl : ∀ k, look (alloc s []).heap ⟨s.next, none⟩ k = none := by
          intro k; rw [look_of_imp_none rfl, hemp]; rfl
        funext p q
        cases p with
        | nil => simp [Lk.mk, hl, obsLkOpt, Lk.empty]
        | cons a p => obtain ⟨k, i⟩ := a; simp [Lk.mk, hl, obsLkOpt, Lk.empty]
      rw [this]; rfl
  | copy d o =>
    cases hc : s.objs o with
    | none =>
      have hst : step uq s (.copy d o) = s := by simp [step, hc]
      rw [hst]
      exact ⟨hi, fun _ => by simp [Fl.step, absFl_objs_none hc],
        fun _ => by simp [Lk.step, absLk_objs_none hc]⟩
    | some c =>
      have hst : step uq s (.copy d o) = setObj s d c := by simp [step, hc, setObj]
      rw [hst]
      refine ⟨hi.setObj (Compatible.ofLive hi (LiveC.ofObj hc)) d, fun _ => ?_, fun _ => ?_⟩
      · rw [absFl_setObj]; simp [Fl.step, absFl_objs_some hc]
      · rw [absLk_setObj]; simp [Lk.step, absLk_objs_some hc]
  | destroy o =>
    refine ⟨?_, fun _ => ?_, fun _ => ?_⟩
    · refine (hi.vars (upd s.objs o none) s.vals ?_ (fun x i c h => LiveC.ofVal h)).1
      intro o' c h
      by_cases e : o' = o
      · subst e; simp at h
      · rw [upd_ne _ _ e] at h; exact LiveC.ofObj h
    · simp only [step, Fl.step, absFl]
      congr 1
      funext o'
      by_cases e : o' = o
      · subst e; simp
      · simp [upd_ne _ _ e]
    · simp only [step, Lk.step, absLk]
      congr 1
      funext o'
      by_cases e : o' = o
      · subst e; simp
      · simp [upd_ne _ _ e]
  | lit x v =>
    obtain ⟨h1, h2, h3⟩ := step_ok_setVal hi x v.toVal
      (by intro i c h; cases v <;> simp [Lit.toVal, nested] at h)
    refine ⟨h1, fun _ => ?_, fun _ => ?_⟩
    · rw [show step uq s (.lit x v) = { s with vals := upd s.vals x v.toVal } from rfl, h2,
        obsFlVal_lit]; rfl
    · rw [show step uq s (.lit x v) = { s with vals := upd s.vals x v.toVal } from rfl, h3,
        obsLkVal_lit]; rfl
  | copyVal x y =>
    obtain ⟨h1, h2, h3⟩ := step_ok_setVal hi x (s.vals y) (fun i c h => LiveC.ofVal h)
    exact ⟨h1, fun _ => h2, fun _ => h3⟩
  | mkVec x os =>
    obtain ⟨h1, h2, h3⟩ := step_ok_setVal hi x (.cfgs (os.filterMap s.objs)) (by
      intro i c h
      have h : (os.filterMap s.objs)[i]? = some c := h
      have := List.mem_of_getElem? h
      obtain ⟨o, _, ho⟩ := List.mem_filterMap.mp this
      exact LiveC.ofObj ho)
    refine ⟨h1, fun _ => ?_, fun _ => ?_⟩
    · rw [show step uq s (.mkVec x os) =
        { s with vals := upd s.vals x (.cfgs (os.filterMap s.objs)) } from rfl, h2, obsFlVal_cfgs]
      simp only [Fl.step, absFl]
      rw [filterMap_obs]
    · rw [show step uq s (.mkVec x os) =
        { s with vals := upd s.vals x (.cfgs (os.filterMap s.objs)) } from rfl, h3, obsLkVal_cfgs]
      simp only [Lk.step, absLk]
      rw [filterMap_obs]
  | take d x i =>
    cases hv : s.vals x with
    | num y =>
      have hst : step uq s (.take d x i) = s := by simp [step, hv]
      rw [hst]
      exact ⟨hi, fun _ => by simp [Fl.step, absFl, hv, obsFlVal, leafOf],
        fun _ => by simp [Lk.step, absLk, hv, obsLkVal, leafOf]⟩
    | vec y =>
      have hst : step uq s (.take d x i) = s := by simp [step, hv]
      rw [hst]
      exact ⟨hi, fun _ => by simp [Fl.step, absFl, hv, obsFlVal, leafOf],
        fun _ => by simp [Lk.step, absLk, hv, obsLkVal, leafOf]⟩
    | str y =>
      have hst : step uq s (.take d x i) = s := by simp [step, hv]
      rw [hst]
      exact ⟨hi, fun _ => by simp [Fl.step, absFl, hv, obsFlVal, leafOf],
        fun _ => by simp [Lk.step, absLk, hv, obsLkVal, leafOf]⟩
    | cfgs l =>
      cases hg : l[i]? with
      | none =>
        have hst : step uq s (.take d x i) = s := by simp [step, hv, hg]
        have hlt : ¬ i < l.length := by
          have := List.getElem?_eq_none_iff.mp hg; omega
        rw [hst]
        exact ⟨hi, fun _ => by simp [Fl.step, absFl, hv, obsFlVal, leafOf, hlt],
          fun _ => by simp [Lk.step, absLk, hv, obsLkVal, leafOf, hlt]⟩
      | some c =>
        have hst : step uq s (.take d x i) = setObj s d c := by simp [step, hv, hg, setObj]
        obtain ⟨hlt, hgc⟩ := List.getElem?_eq_some_iff.mp hg
        have hcl : LiveC s c := ⟨_, .val hv hg⟩
        rw [hst]
        refine ⟨hi.setObj (Compatible.ofLive hi hcl) d, fun _ => ?_, fun _ => ?_⟩
        · rw [absFl_setObj]
          simp [Fl.step, absFl, hv, obsFlVal, leafOf, hlt, nested, hgc]
        · rw [absLk_setObj]
          simp [Lk.step, absLk, hv, obsLkVal, leafOf, hlt, nested, hgc]
  | get x o k =>
    cases hc : s.objs o with
    | none =>
      have hst : step uq s (.get x o k) = s := by simp [step, hc]
      rw [hst]
      exact ⟨hi, fun _ => by simp [Fl.step, absFl_objs_none hc],
        fun _ => by simp [Lk.step, absLk_objs_none hc]⟩
    | some c =>
      have hcl : LiveC s c := LiveC.ofObj hc
      cases hl : look s.heap c k with
      | none =>
        have hst : step uq s (.get x o k) = s := by simp [step, hc, hl]
        rw [hst]
        refine ⟨hi, fun _ => ?_, fun _ => ?_⟩
        · simp only [Fl.step, absFl_objs_some hc, visible_obs, hl]; rfl
        · have : obsLk s.heap c [] k = .missing := by simp [obsLk, hl, leafOf]
          simp only [Lk.step, absLk_objs_some hc, this]
      | some v =>
        have hst : step uq s (.get x o k) = { s with vals := upd s.vals x v } := by
          simp [step, hc, hl]
        obtain ⟨h1, h2, h3⟩ := step_ok_setVal hi x v (fun i c' hn =>
          hcl.nested (k := k) (i := i) (by rw [hl]; exact hn))
        rw [hst]
        refine ⟨h1, fun _ => ?_, fun _ => ?_⟩
        · rw [h2]
          simp only [Fl.step, absFl_objs_some hc, visible_obs, hl, obsFlOpt]
          have := leafOf_some_ne v
          have hleaf : (obsFlVal s.heap v).leaf ≠ .missing := this
          split
          · rename_i hm; exact absurd hm hleaf
          · rfl
        · rw [h3]
          have hg : Lk.get (obsLk s.heap c) k = obsLkVal s.heap v := by
            rw [obsLk_mk, Lk.get_mk, hl]; rfl
          have hleaf : obsLk s.heap c [] k ≠ .missing := by
            simp only [obsLk, hl]; exact leafOf_some_ne v
          simp only [Lk.step, absLk_objs_some hc, hg]
  | set o k x =>
    cases hc : s.objs o with
    | none =>
      have hst : step uq s (.set o k x) = s := by simp [step, cow, write, hc]
      rw [hst]
      exact ⟨hi, fun _ => by simp [Fl.step, Fl.modify, absFl_objs_none hc],
        fun _ => by simp [Lk.step, absLk_objs_none hc]⟩
    | some c =>
      obtain ⟨c1, hc1, hfl, hvals, hw⟩ := write_ok huq hi hc k x
      obtain ⟨h1, h2, h3⟩ := hw (s.vals x) (.inl rfl)
      obtain ⟨_, _, hlk, _⟩ := hi.cow huq hc
      have hst : step uq s (.set o k x) =
          { write (cow uq s o) o k (s.vals x) with vals := upd s.vals x (s.vals x) } := by
        rw [upd_same _ _ _ rfl, ← hvals]
        unfold step write
        simp only [hc1, hvals]
      have e1 : (absFl s).objs o = some (obsFl (cow uq s o).heap c1) := by
        rw [hfl]; exact absFl_objs_some hc1
      have e2 : (absLk s).objs o = some (obsLk (cow uq s o).heap c1) := by
        rw [← hlk]; exact absLk_objs_some hc1
      have v1 : obsFlVal (cow uq s o).heap (s.vals x) = (absFl s).vals x := by
        rw [hfl, ← hvals]; rfl
      have v2 : obsLkVal (cow uq s o).heap (s.vals x) = (absLk s).vals x := by
        rw [← hlk, ← hvals]; rfl
      refine ⟨by rw [hst]; exact h1, fun _ => ?_, fun _ => ?_⟩
      · rw [hst, h2, v1, upd_same _ _ _ rfl]
        simp only [Fl.step, Fl.modify, e1]
      · rw [hst, h3, v2, upd_same _ _ _ rfl]
        simp only [Lk.step, e2]
  | swapT o k x =>
    cases hc : s.objs o with
    | none =>
      have hst : step uq s (.swapT o k x) = s := by simp [step, hc]
      rw [hst]
      exact ⟨hi, fun _ => by simp [Fl.step, absFl_objs_none hc],
        fun _ => by simp [Lk.step, absLk_objs_none hc]⟩
    | some c =>
      obtain ⟨c1, hc1, hfl, hvals, hw⟩ := write_ok huq hi hc k x
      obtain ⟨h1, h2, h3⟩ := hw (s.vals x).dflt (.inr (.inr (.inr (by
        intro i; cases s.vals x <;> simp [Val.dflt, nested]))))
      obtain ⟨_, _, hlk, _⟩ := hi.cow huq hc
      have hst : step uq s (.swapT o k x) =
          { write (cow uq s o) o k (s.vals x) with vals := upd s.vals x (s.vals x).dflt } := by
        unfold step write
        simp only [hc, hc1, hvals]
      have e1 : (absFl s).objs o = some (obsFl (cow uq s o).heap c1) := by
        rw [hfl]; exact absFl_objs_some hc1
      have e2 : (absLk s).objs o = some (obsLk (cow uq s o).heap c1) := by
        rw [← hlk]; exact absLk_objs_some hc1
      have v1 : obsFlVal (cow uq s o).heap (s.vals x) = (absFl s).vals x := by
        rw [hfl, ← hvals]; rfl
      have v2 : obsLkVal (cow uq s o).heap (s.vals x) = (absLk s).vals x := by
        rw [← hlk, ← hvals]; rfl
      refine ⟨by rw [hst]; exact h1, fun _ => ?_, fun _ => ?_⟩
      · rw [hst, h2, dflt_obsFl, v1]
        simp only [Fl.step, Fl.modify, e1]
      · rw [hst, h3, dflt_obsLk, v2]
        simp only [Lk.step, e2]
  | swapAny o k x =>
    cases hc : s.objs o with
    | none =>
      have hst : step uq s (.swapAny o k x) = s := by simp [step, cow, hc]
      rw [hst]
      exact ⟨hi, fun _ => by simp [Fl.step, absFl_objs_none hc], fun h => by simp [noSwapAny] at h⟩
    | some c =>
      obtain ⟨c1, hc1, hfl, hvals, hw⟩ := write_ok huq hi hc k x
      obtain ⟨h1, h2, _⟩ := hw ((((cow uq s o).heap c1.own).find k).getD (.num 0)) (by
        cases h : ((cow uq s o).heap c1.own).find k with
        | none => right; left; rfl
        | some v => right; right; left; rfl)
      have hst : step uq s (.swapAny o k x) =
          { write (cow uq s o) o k (s.vals x) with
            vals := upd s.vals x ((((cow uq s o).heap c1.own).find k).getD (.num 0)) } := by
        unfold step write
        simp only [hc1, hvals]
      have e1 : (absFl s).objs o = some (obsFl (cow uq s o).heap c1) := by
        rw [hfl]; exact absFl_objs_some hc1
      have v1 : obsFlVal (cow uq s o).heap (s.vals x) = (absFl s).vals x := by
        rw [hfl, ← hvals]; rfl
      refine ⟨by rw [hst]; exact h1, fun _ => ?_, fun h => by simp [noSwapAny] at h⟩
      rw [hst, h2, v1]
      simp only [Fl.step, Fl.modify, e1]
      congr 2
      rw [obsFl_mk, Fl.entry_mk_own]
      simp only [lookLv]
      cases h : ((cow uq s o).heap c1.own).find k with
      | none => rfl
      | some v =>
        have : obsFlOpt (cow uq s o).heap (some v) = obsFlVal (cow uq s o).heap v := rfl
        rw [this]
        cases v <;> rfl
  | swapObj o p =>
    cases ha : s.objs o with
    | none =>
      have hst : step uq s (.swapObj o p) = s := by simp [step, ha]
      rw [hst]
      exact ⟨hi, fun _ => by simp [Fl.step, absFl_objs_none ha],
        fun _ => by simp [Lk.step, absLk_objs_none ha]⟩
    | some a =>
      cases hb : s.objs p with
      | none =>
        have hst : step uq s (.swapObj o p) = s := by simp [step, hb]
        rw [hst]
        exact ⟨hi, fun _ => by simp [Fl.step, absFl_objs_none hb],
          fun _ => by simp [Lk.step, absLk_objs_none hb]⟩
      | some b =>
        have hst : step uq s (.swapObj o p) = setObj (setObj s o b) p a := by
          simp [step, ha, hb, setObj]
        have hi' : Inv (step uq s (.swapObj o p)) := by
          have : step uq s (.swapObj o p) =
            { s with objs := upd (upd s.objs o (some b)) p (some a), vals := s.vals } := by
              simp [step, ha, hb]
          rw [this]
          refine (hi.vars _ s.vals ?_ (fun x i c h => LiveC.ofVal h)).1
          intro o' c h
          by_cases e : o' = p
          · subst e; simp only [upd_self] at h; cases h; exact LiveC.ofObj ha
          · rw [upd_ne _ _ e] at h
            by_cases e' : o' = o
            · subst e'; simp only [upd_self] at h; cases h; exact LiveC.ofObj hb
            · rw [upd_ne _ _ e'] at h; exact LiveC.ofObj h
        refine ⟨hi', fun _ => ?_, fun _ => ?_⟩
        · rw [hst, absFl_setObj, absFl_setObj]
          simp only [Fl.step, absFl_objs_some ha, absFl_objs_some hb]
          rfl
        · rw [hst, absLk_setObj, absLk_setObj]
          simp only [Lk.step, absLk_objs_some ha, absLk_objs_some hb]
          rfl
  | newScope d o =>
    cases hc : s.objs o with
    | none =>
      have hst : step uq s (.newScope d o) = s := by simp [step, hc]
      rw [hst]
      exact ⟨hi, fun _ => by simp [Fl.step, absFl_objs_none hc],
        fun _ => by simp [Lk.step, absLk_objs_none hc]⟩
    | some c =>
      have hst : step uq s (.newScope d o) = newScope s d c := by simp [step, hc]
      obtain ⟨h1, h2, h3⟩ := newScope_ok hi (LiveC.ofObj hc) d
      rw [hst]
      refine ⟨h1, fun _ => ?_, fun _ => ?_⟩
      · rw [h2]; simp only [Fl.step, absFl_objs_some hc]
      · rw [h3]; simp only [Lk.step, absLk_objs_some hc]
  | pushScope o =>
    obtain ⟨f1, f2, f3⟩ := flatten_ok hi o
    cases hc : s.objs o with
    | none =>
      have hfl : flatten s o = s := flatten_noop (fun c h => by rw [hc] at h; cases h)
      have hst : step uq s (.pushScope o) = s := by simp [step, hfl, hc]
      rw [hst]
      exact ⟨hi, fun _ => by simp [Fl.step, Fl.modify, absFl_objs_none hc], fun _ => rfl⟩
    | some c =>
      have hobj : (flatten s o).objs o = some { c with imp := none } := by
        cases e : c.imp with
        | none =>
          rw [flatten_noop (fun c' h => by rw [hc] at h; cases h; exact e), hc]
          cases c; simp_all
        | some i => rw [flatten_eq hc e]; simp
      have hst : step uq s (.pushScope o) =
          setObj (alloc (flatten s o) []) o ⟨(flatten s o).next, some c.own⟩ := by
        simp only [step, hobj]; rfl
      obtain ⟨h1, h2, h3⟩ := push_tail f1 hobj rfl
      rw [hst]
      refine ⟨h1, fun hs => ?_, fun _ => ?_⟩
      · have hf := f2 hs
        rw [h2, hf]
        have hvis : Fl.visible (obsFl (flatten s o).heap { c with imp := none }) =
            Fl.visible (obsFl s.heap c) := by
          have h4 : (absFl (flatten s o)).objs o =
              some (obsFl (flatten s o).heap { c with imp := none }) := absFl_objs_some hobj
          rw [hf] at h4
          simp only [Fl.modify, absFl_objs_some hc, upd_self, Option.some.injEq] at h4
          rw [← h4]
          funext k
          simp only [Fl.visible, Fl.entry_mk_own, Fl.entry_mk_inh]
          have h5 := visible_obs s.heap c k
          unfold Fl.visible at h5
          rw [h5]
          cases look s.heap c k with
          | none => rfl
          | some v => cases v <;> rfl
        rw [hvis]
        simp only [Fl.step, Fl.modify, absFl_objs_some hc]
        congr 1
        funext o'
        by_cases e : o' = o
        · subst e; simp
        · simp [upd_ne _ _ e]
      · rw [h3, f3]
        have h4 : (absLk (flatten s o)).objs o =
            some (obsLk (flatten s o).heap { c with imp := none }) := absLk_objs_some hobj
        rw [f3] at h4
        rw [upd_same _ _ _ h4]
        rfl
  | flatten o =>
    obtain ⟨f1, f2, f3⟩ := flatten_ok hi o
    exact ⟨f1, fun h => f2 h, fun _ => f3⟩

end Flame.Conf
