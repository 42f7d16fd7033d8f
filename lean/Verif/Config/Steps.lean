import Verif.Config.Lemmas

/-!
# Every `Config` call keeps the sharing invariant and follows the specifications
-/

namespace Flame.Conf

variable {N : Type}

theorem upd_same {α β : Type} [DecidableEq α] (f : α → β) (a : α) (b : β) (h : f a = b) :
    upd f a b = f := by
  funext x
  by_cases e : x = a
  · subst e; simp [h]
  · simp [upd_ne _ _ e]

/-! ### New scopes -/

theorem Compatible.scope {s : St N} {n : Cfg} (hown : n.own < s.next)
    (hne : ∀ c, LiveC s c → c.own ≠ n.own ∧ c.imp ≠ some n.own)
    (hemp : s.heap n.own = [])
    (himp : ∀ a, n.imp = some a → a ≠ n.own ∧ a < s.next ∧
      (∀ c, LiveC s c → c.own = a → ∀ k, look s.heap c k = (s.heap a).find k) ∧
      ∀ k i c', Conf.nested ((s.heap a).find k) i = some c' → LiveC s c') : Compatible s n where
  fresh := ⟨hown, fun i e => (himp i e).2.1⟩
  same := fun c h e => absurd e (hne c h).1
  frozen1 := fun c a h e e' => (himp a e).2.2.1 c h e'
  frozen2 := fun c h e => absurd e (hne c h).2
  frozen3 := fun e => absurd rfl (himp _ e).1
  nested := by
    intro l k i c' h
    cases l with
    | own => simp [lookLv, hemp, Conf.nested] at h
    | inh =>
      cases e : n.imp with
      | none => simp [lookLv, e, Conf.nested] at h
      | some a =>
        simp only [lookLv, e] at h
        exact (himp a e).2.2.2 k i c' h

theorem scope_lookLv_own {s : St N} {n : Cfg} (hemp : s.heap n.own = []) (k : String) :
    lookLv s.heap n .own k = none := by simp [lookLv, hemp]

/-- Result of introducing a scope `n` that has no own entries and inherits what `c` sees. -/
structure ScopeOk (s s' : St N) (d : Nat) (c : Cfg) : Prop where
  inv : Inv s'
  fl : absFl s' = { absFl s with
    objs := upd (absFl s).objs d
      (some (Fl.mk (fun _ => Fl.missing) (Fl.visible (obsFl s.heap c)))) }
  lk : absLk s' = { absLk s with objs := upd (absLk s).objs d (some (obsLk s.heap c)) }

theorem scopeOk_of {s s1 : St N} {n : Cfg} (hi1 : Inv s1) (hc : Compatible s1 n)
    (hfl : absFl s1 = absFl s) (hlk : absLk s1 = absLk s)
    (hobs : ∀ c, LiveC s c → obsFl s1.heap c = obsFl s.heap c)
    (hobs' : ∀ c, LiveC s c → obsLk s1.heap c = obsLk s.heap c)
    {c : Cfg} (hcl : LiveC s c) (hemp : s1.heap n.own = [])
    (hin : ∀ k, lookLv s1.heap n .inh k = look s.heap c k) (d : Nat) :
    ScopeOk s (setObj s1 d n) d c := by
  refine ⟨hi1.setObj hc d, ?_, ?_⟩
  · rw [absFl_setObj, hfl]
    have : obsFl s1.heap n = Fl.mk (fun _ => Fl.missing) (Fl.visible (obsFl s.heap c)) := by
      rw [obsFl_mk]
      congr 1
      · funext k; rw [scope_lookLv_own hemp]; rfl
      · funext k
        rw [hin, visible_obs]
        cases hv : look s.heap c k with
        | none => rfl
        | some v =>
          exact obsFlVal_congr v (fun i c' hn =>
            hobs c' (hcl.nested (k := k) (i := i) (by rw [hv]; exact hn)))
    rw [this]
  · rw [absLk_setObj, hlk]
    have : obsLk s1.heap n = obsLk s.heap c := by
      rw [obsLk_mk, obsLk_mk]
      congr 1
      funext k
      rw [look_eq_or, scope_lookLv_own hemp, hin]
      simp only [Option.none_or]
      cases hv : look s.heap c k with
      | none => rfl
      | some v =>
        exact obsLkVal_congr v (fun i c' hn =>
          hobs' c' (hcl.nested (k := k) (i := i) (by rw [hv]; exact hn)))
    rw [this]

/-- One allocated empty map on top of an existing map. -/
theorem scopeOk_one {s : St N} (hi : Inv s) {c : Cfg} (hcl : LiveC s c) (d : Nat)
    (imp : Option Addr) (himp : ∀ a, imp = some a → c.own = a ∨ c.imp = some a)
    (hfz : ∀ a, imp = some a → ∀ c', LiveC s c' → c'.own = a →
      ∀ k, look s.heap c' k = (s.heap a).find k)
    (hin : ∀ k, look s.heap c k = (imp.bind fun a => (s.heap a).find k)) :
    ScopeOk s (setObj (alloc s []) d ⟨s.next, imp⟩) d c := by
  have hf := hi.fresh c hcl
  have hlt : ∀ a, imp = some a → a < s.next := by
    intro a e
    rcases himp a e with rfl | h
    · exact hf.1
    · exact hf.2 a h
  have hheap : ∀ a, imp = some a → (alloc s []).heap a = s.heap a := by
    intro a e; exact upd_ne _ _ (Nat.ne_of_lt (hlt a e))
  have hemp : (alloc s []).heap s.next = [] := by simp [alloc]
  refine scopeOk_of (hi.alloc _) ?_ (absFl_alloc hi _) (absLk_alloc hi _)
    (fun c h => alloc_obsFl hi _ h) (fun c h => alloc_obsLk hi _ h) hcl hemp ?_ d
  · refine Compatible.scope (by simp [alloc]) ?_ hemp ?_
    · intro c' h
      have := hi.fresh c' (alloc_live hi _ c' h)
      exact ⟨Nat.ne_of_lt this.1, fun e => Nat.lt_irrefl _ (this.2 _ e)⟩
    · intro a e
      refine ⟨Nat.ne_of_lt (hlt a e), Nat.lt_succ_of_lt (hlt a e), ?_, ?_⟩
      · intro c' h e' k
        have h' := alloc_live hi _ c' h
        rw [alloc_look hi _ h', hheap a e]
        exact hfz a e c' h' e' k
      · intro k i c' hn
        have hcl1 : LiveC (alloc s []) c → LiveC (alloc s []) c' := by
          intro h0
          rcases himp a e with rfl | h
          · exact h0.nestedLv (l := .own) (k := k) (i := i) hn
          · exact h0.nestedLv (l := .inh) (k := k) (i := i) (by simp only [lookLv, h]; exact hn)
        apply hcl1
        -- reachability of `c` is not affected by the allocation
        obtain ⟨σ, hσ⟩ := hcl
        refine ⟨σ, ?_⟩
        clear hcl1 hin himp hfz hheap hlt hf
        induction hσ with
        | obj h => exact .obj h
        | val h hi => exact .val h hi
        | @cell σ c0 a' k' l' i' c'' h0 ha h hi' ih =>
          refine .cell ih ha ?_ hi'
          have hf0 := hi.fresh c0 ⟨_, h0⟩
          have : a' ≠ s.next := by
            rcases ha with rfl | ha
            · exact Nat.ne_of_lt hf0.1
            · exact Nat.ne_of_lt (hf0.2 _ ha)
          simpa [alloc, upd_ne _ _ this] using h
  · intro k
    rw [hin]
    cases imp with
    | none => rfl
    | some a => simp only [lookLv, Option.bind_some, hheap a rfl]

theorem alloc_live_mono {s : St N} (hi : Inv s) (m : VMap N) {c : Cfg} (h : LiveC s c) :
    LiveC (alloc s m) c := by
  obtain ⟨σ, hσ⟩ := h
  refine ⟨σ, ?_⟩
  induction hσ with
  | obj h => exact .obj h
  | val h hi => exact .val h hi
  | @cell σ c0 a' k' l' i' c'' h0 ha h hi' ih =>
    refine .cell ih ha ?_ hi'
    have hf0 := hi.fresh c0 ⟨_, h0⟩
    have : a' ≠ s.next := by
      rcases ha with rfl | ha
      · exact Nat.ne_of_lt hf0.1
      · exact Nat.ne_of_lt (hf0.2 _ ha)
    simpa [alloc, upd_ne _ _ this] using h

theorem look_of_imp_none {h : Addr → VMap N} {c : Cfg} (e : c.imp = none) (k : String) :
    look h c k = (h c.own).find k := by
  unfold look; rw [e]; cases (h c.own).find k <;> rfl

theorem find_of_isEmpty {m : VMap N} (h : m.isEmpty = true) (k : String) : m.find k = none := by
  cases m with
  | nil => rfl
  | cons a m => simp at h

theorem merge_look {h : Addr → VMap N} {c : Cfg} {i : Addr} (e : c.imp = some i) (k : String) :
    ((h c.own).merge (h i)).find k = look h c k := by
  rw [SMap.find_merge, look_eq_or]
  simp [lookLv, e]

theorem newScope_ok {s : St N} (hi : Inv s) {c : Cfg} (hcl : LiveC s c) (d : Nat) :
    ScopeOk s (newScope s d c) d c := by
  have hsingle : ∀ k, (c.imp = none ∨ ∃ i, c.imp = some i ∧ (s.heap i).isEmpty = true) →
      look s.heap c k = (s.heap c.own).find k := by
    intro k h
    rcases h with h | ⟨i, h, h'⟩
    · exact look_of_imp_none h k
    · rw [look_eq_or]; simp only [lookLv, h, find_of_isEmpty h']; simp
  have hcase : (c.imp = none ∨ ∃ i, c.imp = some i ∧ (s.heap i).isEmpty = true) →
      ScopeOk s (setObj (alloc s []) d ⟨s.next, some c.own⟩) d c := by
    intro h
    refine scopeOk_one hi hcl d (some c.own) ?_ ?_ ?_
    · rintro a ⟨⟩; exact .inl rfl
    · rintro a ⟨⟩ c' h' e k
      rw [hi.same c' c h' hcl e k, hsingle k h]
    · intro k; rw [hsingle k h]; rfl
  unfold newScope
  by_cases he : (s.heap c.own).isEmpty = true
  · rw [if_pos he]
    refine scopeOk_one hi hcl d c.imp (fun a e => .inr e) ?_ ?_
    · intro a e c' h' e' k
      exact hi.frozen c c' a hcl h' e e' k
    · intro k
      rw [look_eq_or]
      simp only [lookLv, find_of_isEmpty he, Option.none_or]
      cases c.imp <;> rfl
  · rw [if_neg he]
    cases e : c.imp with
    | none => exact hcase (.inl e)
    | some i =>
      simp only
      by_cases hie : (s.heap i).isEmpty = true
      · rw [if_pos hie]; exact hcase (.inr ⟨i, e, hie⟩)
      · rw [if_neg hie]
        have hi1 := hi.alloc (m := [])
        have hi2 := hi1.alloc (m := (s.heap c.own).merge (s.heap i))
        have hlive : ∀ c', LiveC (alloc (alloc s []) ((s.heap c.own).merge (s.heap i))) c' →
            LiveC s c' := fun c' h => alloc_live hi _ c' (alloc_live hi1 _ c' h)
        have hl1 : ∀ c', LiveC s c' → LiveC (alloc s []) c' := fun c' h => alloc_live_mono hi _ h
        refine scopeOk_of (s1 := alloc (alloc s []) ((s.heap c.own).merge (s.heap i)))
          (n := ⟨s.next, some (s.next + 1)⟩) hi2 ?_ ?_ ?_ ?_ ?_ hcl ?_ ?_ d
        · refine Compatible.scope ?_ ?_ ?_ ?_
          · exact Nat.lt_succ_of_lt (Nat.lt_succ_self _)
          · intro c' h
            have := hi.fresh c' (hlive c' h)
            exact ⟨Nat.ne_of_lt this.1, fun e => Nat.lt_irrefl _ (this.2 _ e)⟩
          · simp [alloc, upd]
          · rintro a ⟨⟩
            refine ⟨by simp, by simp [alloc], ?_, ?_⟩
            · intro c' h e'
              have := (hi.fresh c' (hlive c' h)).1
              rw [e'] at this
              exact absurd this (Nat.not_lt.mpr (Nat.le_succ _))
            · intro k j c' hn
              have hh : (alloc (alloc s []) ((s.heap c.own).merge (s.heap i))).heap (s.next + 1)
                  = (s.heap c.own).merge (s.heap i) := by simp [alloc]
              rw [hh, merge_look e] at hn
              exact alloc_live_mono hi1 _ (hl1 _ (hcl.nested hn))
        · rw [absFl_alloc hi1, absFl_alloc hi]
        · rw [absLk_alloc hi1, absLk_alloc hi]
        · intro c' h; rw [alloc_obsFl hi1 _ (hl1 c' h), alloc_obsFl hi _ h]
        · intro c' h; rw [alloc_obsLk hi1 _ (hl1 c' h), alloc_obsLk hi _ h]
        · simp [alloc, upd]
        · intro k
          have hh : (alloc (alloc s []) ((s.heap c.own).merge (s.heap i))).heap (s.next + 1)
              = (s.heap c.own).merge (s.heap i) := by simp [alloc]
          simp only [lookLv, hh, merge_look e]

/-! ### flatten, any sharing -/

section Flatten
variable {s : St N} (hi : Inv s) {o : Nat} {c : Cfg} (hc : s.objs o = some c) {i : Addr}
  (e : c.imp = some i)
include hi hc e

omit hi in
theorem flatten_eq : flatten s o = { s with
    heap := upd s.heap c.own ((s.heap c.own).merge (s.heap i))
    objs := upd s.objs o (some { c with imp := none }) } := by
  unfold flatten; simp only [hc, e]

omit hi in
theorem flatten_find (a : Addr) (k : String) :
    ((flatten s o).heap a).find k = if a = c.own then look s.heap c k else (s.heap a).find k := by
  rw [flatten_eq hc e]
  by_cases h : a = c.own
  · subst h; simp [merge_look e]
  · simp [upd_ne _ _ h, h]

theorem flatten_look {c' : Cfg} (h : LiveC s c') (k : String) :
    look (flatten s o).heap c' k = look s.heap c' k := by
  have hcl : LiveC s c := LiveC.ofObj hc
  have hfind := flatten_find hc e
  by_cases ho : c'.own = c.own
  · have hsame := hi.same c' c h hcl ho k
    rw [look_eq_or]
    simp only [lookLv, hfind, ho, if_true]
    cases hl : look s.heap c k with
    | some v => rw [hsame, hl]; rfl
    | none =>
      rw [hsame, hl]
      simp only [Option.none_or]
      rw [look_eq_or] at hsame
      rw [hl] at hsame
      have h2 : lookLv s.heap c' .inh k = none := by
        cases h3 : lookLv s.heap c' .own k with
        | none => rw [h3] at hsame; simpa using hsame
        | some v => rw [h3] at hsame; simp at hsame
      cases hj : c'.imp with
      | none => rfl
      | some j =>
        simp only [lookLv, hj] at h2
        simp only [h2, ite_self]
  · rw [look_eq_or, look_eq_or]
    have h1 : lookLv (flatten s o).heap c' .own k = lookLv s.heap c' .own k := by
      simp only [lookLv, hfind, if_neg ho]
    have h2 : lookLv (flatten s o).heap c' .inh k = lookLv s.heap c' .inh k := by
      cases hj : c'.imp with
      | none => simp only [lookLv, hj]
      | some j =>
        simp only [lookLv, hj, hfind]
        split
        · rename_i hjc; subst hjc; exact hi.frozen c' c _ h hcl hj rfl k
        · rfl
    rw [h1, h2]

omit hi in
theorem flatten_look_new (k : String) :
    look (flatten s o).heap { c with imp := none } k = look s.heap c k := by
  rw [look_of_imp_none rfl]
  simp [flatten_find hc e]

omit hi in
theorem flatten_live : ∀ c', LiveC (flatten s o) c' → c' = { c with imp := none } ∨ LiveC s c' := by
  have hcl : LiveC s c := LiveC.ofObj hc
  have key : ∀ a k i' c'', nested (((flatten s o).heap a).find k) i' = some c'' →
      (∀ i' c'', nested ((s.heap a).find k) i' = some c'' → LiveC s c'') → LiveC s c'' := by
    intro a k i' c'' hn hold
    rw [flatten_find hc e] at hn
    split at hn
    · exact hcl.nested hn
    · exact hold _ _ hn
  refine LiveC.closed _ ?_ ?_ ?_
  · intro o' c' h
    rw [flatten_eq hc e] at h
    by_cases e' : o' = o
    · subst e'; left; simpa using h.symm
    · right; exact LiveC.ofObj (by simpa [upd_ne _ _ e'] using h)
  · intro x j c' h
    right
    rw [flatten_eq hc e] at h
    exact LiveC.ofVal h
  · intro c' hc' l k j c'' hn
    right
    rcases hc' with rfl | hc'
    · cases l with
      | own => exact key _ _ _ _ hn (fun _ _ h => hcl.nestedLv (l := .own) h)
      | inh => simp [lookLv, nested] at hn
    · cases l with
      | own => exact key _ _ _ _ hn (fun _ _ h => hc'.nestedLv (l := .own) h)
      | inh =>
        cases hj : c'.imp with
        | none => simp [lookLv, hj, nested] at hn
        | some b =>
          simp only [lookLv, hj] at hn
          refine key b k j c'' hn (fun i'' c3 h => hc'.nestedLv (l := .inh) (k := k) (i := i'') ?_)
          simp only [lookLv, hj]; exact h

theorem flatten_inv : Inv (flatten s o) := by
  have hcl : LiveC s c := LiveC.ofObj hc
  have hl := flatten_live hc e
  have hfind := flatten_find hc e
  have hnext : (flatten s o).next = s.next := by rw [flatten_eq hc e]
  -- every reachable configuration corresponds to one before, same own map, same lookups
  have hrep : ∀ c', LiveC (flatten s o) c' → ∃ c0, LiveC s c0 ∧ c0.own = c'.own ∧
      (∀ k, look (flatten s o).heap c' k = look s.heap c0 k) ∧
      (∀ a, c'.imp = some a → c0.imp = some a) := by
    intro c' h
    rcases hl c' h with rfl | h
    · exact ⟨c, hcl, rfl, fun k => flatten_look_new hc e k, by simp⟩
    · exact ⟨c', h, rfl, fun k => flatten_look hi hc e h k, fun _ h => h⟩
  refine ⟨?_, ?_, ?_⟩
  · intro c' h
    obtain ⟨c0, h0, ho, _, him⟩ := hrep c' h
    rw [hnext, ← ho]
    exact ⟨(hi.fresh c0 h0).1, fun a ea => (hi.fresh c0 h0).2 a (him a ea)⟩
  · intro c1 c2 h1 h2 eo k
    obtain ⟨d1, g1, o1, l1, _⟩ := hrep c1 h1
    obtain ⟨d2, g2, o2, l2, _⟩ := hrep c2 h2
    rw [l1, l2]
    exact hi.same d1 d2 g1 g2 (by rw [o1, o2, eo]) k
  · intro c1 c2 a h1 h2 e1 e2 k
    obtain ⟨d1, g1, o1, l1, m1⟩ := hrep c1 h1
    obtain ⟨d2, g2, o2, l2, _⟩ := hrep c2 h2
    rw [l2, hfind]
    split
    · rename_i ha
      exact hi.same d2 c g2 hcl (by rw [o2, e2, ha]) k
    · exact hi.frozen d1 d2 a g1 g2 (m1 a e1) (by rw [o2, e2]) k

theorem flatten_absLk : absLk (flatten s o) = absLk s := by
  have hcl : LiveC s c := LiveC.ofObj hc
  have hobs : ∀ c', LiveC s c' → obsLk (flatten s o).heap c' = obsLk s.heap c' :=
    obsLk_congr (LiveC s) (fun _ h k => flatten_look hi hc e h k)
      (fun _ h _ _ _ hn => h.nested hn)
  have hnew : obsLk (flatten s o).heap { c with imp := none } = obsLk s.heap c := by
    rw [obsLk_mk, obsLk_mk]
    congr 1
    funext k
    rw [flatten_look_new hc e]
    cases hv : look s.heap c k with
    | none => rfl
    | some v =>
      exact obsLkVal_congr v (fun j c' hn =>
        hobs c' (hcl.nested (k := k) (i := j) (by rw [hv]; exact hn)))
  have hobjs : (flatten s o).objs = upd s.objs o (some { c with imp := none }) := by
    rw [flatten_eq hc e]
  have hvals : (flatten s o).vals = s.vals := by rw [flatten_eq hc e]
  unfold absLk
  congr 1
  · funext o'
    rw [hobjs]
    by_cases h : o' = o
    · subst h; simp [hc, hnew]
    · rw [upd_ne _ _ h]
      cases h' : s.objs o' with
      | none => rfl
      | some c' => simp [hobs c' (LiveC.ofObj h')]
  · funext x
    rw [hvals]
    exact obsLkVal_congr _ (fun j c' hn => hobs c' (LiveC.ofVal hn))

end Flatten

/-! ### Effect of an exclusive write on the observations -/

section
variable {s : St N} {o : Nat} {c : Cfg} (hc : s.objs o = some c) (he : Excl s o c)
  {m : VMap N} {imp : Option Addr} {vals : Nat → Val N}
  (himp : imp = none ∨ imp = c.imp)
  (hm : ∀ k i c', nested (m.find k) i = some c' → Other s o c')
  (hv : ∀ x i c', nested (some (vals x)) i = some c' → Other s o c')
include hc he himp hm hv

theorem exclWrite_absFl : absFl (exclWrite s o c m imp vals) =
    ⟨upd (absFl s).objs o (some (Fl.mk (fun k => obsFlOpt s.heap (m.find k))
      (fun k => if imp = none then Fl.missing else Fl.entry (obsFl s.heap c) .inh k))),
     fun x => obsFlVal s.heap (vals x)⟩ := by
  have hcl : LiveC s c := LiveC.ofObj hc
  unfold absFl
  congr 1
  · funext o'
    by_cases h : o' = o
    · subst h
      simp only [exclWrite, upd_self, Option.map_some]
      congr 1
      rw [obsFl_mk]
      congr 1
      · funext k
        simp only [lookLv, upd_self]
        cases h1 : m.find k with
        | none => rfl
        | some v =>
          exact obsFlVal_congr v (fun i c' hn => exclWrite_obsFl (m := m) (imp := imp) (vals := vals)
            he (hm k i c' (by rw [h1]; exact hn)))
      · funext k
        rcases himp with rfl | rfl
        · simp [lookLv, obsFlOpt]
        · cases e : c.imp with
          | none => simp [lookLv, obsFlOpt]
          | some j =>
            have hne : j ≠ c.own := fun e' => excl_imp_ne hc he (by rw [e, e'])
            simp only [lookLv, upd_ne _ _ hne, if_neg (by simp : ¬ some j = none)]
            rw [obsFl_mk, Fl.entry_mk_inh]
            simp only [lookLv, e]
            cases h1 : (s.heap j).find k with
            | none => rfl
            | some v =>
              refine obsFlVal_congr v (fun i c' hn => exclWrite_obsFl (m := m) (imp := some j)
                (vals := vals) he ?_)
              refine hcl.other_nested o' (l := .inh) (k := k) (i := i) ?_
              simp only [lookLv, e, h1]; exact hn
    · simp only [exclWrite, upd_ne _ _ h]
      cases h' : s.objs o' with
      | none => rfl
      | some c' =>
        simp only [Option.map_some]
        congr 1
        exact exclWrite_obsFl (m := m) (imp := imp) (vals := vals) he
          ⟨.obj o', by simpa using h, .obj h'⟩
  · funext x
    exact obsFlVal_congr _ (fun i c' hn => exclWrite_obsFl (m := m) (imp := imp) (vals := vals) he
      (hv x i c' hn))

theorem exclWrite_absLk (hq : imp = c.imp) : absLk (exclWrite s o c m imp vals) =
    ⟨upd (absLk s).objs o (some (Lk.mk (fun k => obsLkOpt s.heap
        ((m.find k).or (lookLv s.heap c .inh k))))),
     fun x => obsLkVal s.heap (vals x)⟩ := by
  have hcl : LiveC s c := LiveC.ofObj hc
  subst hq
  unfold absLk
  congr 1
  · funext o'
    by_cases h : o' = o
    · subst h
      simp only [exclWrite, upd_self, Option.map_some]
      congr 1
      rw [obsLk_mk]
      congr 1
      funext k
      have h1 : look (upd s.heap c.own m) { c with imp := c.imp } k
          = (m.find k).or (lookLv s.heap c .inh k) := by
        rw [look_eq_or]
        simp only [lookLv, upd_self]
        congr 1
        cases e : c.imp with
        | none => rfl
        | some j =>
          have hne : j ≠ c.own := fun e' => excl_imp_ne hc he (by rw [e, e'])
          simp only [upd_ne _ _ hne]
      rw [h1]
      cases h2 : (m.find k).or (lookLv s.heap c .inh k) with
      | none => rfl
      | some v =>
        refine obsLkVal_congr v (fun i c' hn => exclWrite_obsLk (m := m) (imp := c.imp)
          (vals := vals) he ?_)
        rw [← h2] at hn
        rcases nested_or hn with hn | hn
        · exact hm k i c' hn
        · exact hcl.other_nested o' hn
    · simp only [exclWrite, upd_ne _ _ h]
      cases h' : s.objs o' with
      | none => rfl
      | some c' =>
        simp only [Option.map_some]
        congr 1
        exact exclWrite_obsLk (m := m) (imp := c.imp) (vals := vals) he
          ⟨.obj o', by simpa using h, .obj h'⟩
  · funext x
    exact obsLkVal_congr _ (fun i c' hn => exclWrite_obsLk (m := m) (imp := c.imp) (vals := vals) he
      (hv x i c' hn))

end

/-- `set` in the two specifications, on observed configurations. -/
theorem Fl.set_obs (h : Addr → VMap N) (c : Cfg) (k : String) (v : Val N) :
    Fl.set (obsFl h c) k (obsFlVal h v) =
      Fl.mk (fun q => obsFlOpt h (((h c.own).insert k v).find q))
        (fun q => Fl.entry (obsFl h c) .inh q) := by
  unfold Fl.set
  congr 1
  funext q
  rw [SMap.find_insert]
  by_cases e : q = k
  · subst e; simp [obsFlOpt]
  · simp only [if_neg e]
    rw [obsFl_mk, Fl.entry_mk_own]
    simp [lookLv]

theorem Lk.set_obs (h : Addr → VMap N) (c : Cfg) (k : String) (v : Val N) :
    Lk.set (obsLk h c) k (obsLkVal h v) =
      Lk.mk (fun q => obsLkOpt h ((((h c.own).insert k v).find q).or (lookLv h c .inh q))) := by
  rw [obsLk_mk, Lk.set_mk]
  congr 1
  funext q
  rw [SMap.find_insert]
  by_cases e : q = k
  · subst e; simp [obsLkOpt]
  · simp only [if_neg e, look_eq_or]; rfl

theorem write_ok [Zero N] {uq : St N → Nat → Bool} (huq : UniqueSound uq) {s : St N} (hi : Inv s)
    {o : Nat} {c : Cfg} (hc : s.objs o = some c) (k : String) (x : Nat) :
    ∃ c1, (cow uq s o).objs o = some c1 ∧
      absFl s = absFl (cow uq s o) ∧ (cow uq s o).vals = s.vals ∧
      ∀ v : Val N, (v = (s.vals x) ∨ v = .num 0 ∨ ((cow uq s o).heap c1.own).find k = some v ∨
          ∀ i, nested (some v) i = none) →
        let s' := { write (cow uq s o) o k (s.vals x) with vals := upd s.vals x v }
        Inv s' ∧
        absFl s' = ⟨upd (absFl s).objs o (some (Fl.set (obsFl (cow uq s o).heap c1) k
            (obsFlVal (cow uq s o).heap (s.vals x)))),
          upd (absFl s).vals x (obsFlVal (cow uq s o).heap v)⟩ ∧
        absLk s' = ⟨upd (absLk s).objs o (some (Lk.set (obsLk (cow uq s o).heap c1) k
            (obsLkVal (cow uq s o).heap (s.vals x)))),
          upd (absLk s).vals x (obsLkVal (cow uq s o).heap v)⟩ := by
  obtain ⟨hi1, hfl, hlk, hvals, c1, hc1, hex⟩ := hi.cow huq hc
  refine ⟨c1, hc1, hfl.symm, hvals, ?_⟩
  intro v hv
  generalize hs1 : cow uq s o = s1 at *
  have hcl1 : LiveC s1 c1 := LiveC.ofObj hc1
  have hoth : ∀ y i c', nested (some (s1.vals y)) i = some c' → Other s1 o c' := by
    intro y i c' hn
    obtain ⟨l, e, hi'⟩ := nested_some.mp hn
    exact ⟨.val y i, by simp, .val (Option.some.inj e) hi'⟩
  have hst : ({ write s1 o k (s.vals x) with vals := upd s.vals x v } : St N) =
      exclWrite s1 o c1 ((s1.heap c1.own).insert k (s.vals x)) c1.imp (upd s.vals x v) := by
    unfold write exclWrite
    simp only [hc1]
    rw [upd_same s1.objs o (some { c1 with imp := c1.imp }) hc1]
  have hm : ∀ q i c', nested (((s1.heap c1.own).insert k (s.vals x)).find q) i = some c' →
      Other s1 o c' := by
    intro q i c' hn
    rw [SMap.find_insert] at hn
    split at hn
    · rw [← hvals] at hn; exact hoth x i c' hn
    · exact hcl1.other_nested o (l := .own) hn
  have hv' : ∀ y i c', nested (some (upd s.vals x v y)) i = some c' → Other s1 o c' := by
    intro y i c' hn
    rcases nested_upd_vals hn with hn | hn
    · rcases hv with rfl | rfl | hv | hv
      · rw [← hvals] at hn; exact hoth x i c' hn
      · simp [nested] at hn
      · exact hcl1.other_nested o (l := .own) (k := k) (i := i) (by simp only [lookLv, hv]; exact hn)
      · rw [hv] at hn; cases hn
    · rw [← hvals] at hn; exact hoth y i c' hn
  refine ⟨?_, ?_, ?_⟩
  · rw [hst]; exact Inv.exclWrite hi1 hc1 hex (.inr rfl) hm hv'
  · rw [hst, exclWrite_absFl hc1 hex (.inr rfl) hm hv', hfl, Fl.set_obs]
    congr 1
    · congr 3
      funext q
      by_cases e : c1.imp = none
      · rw [if_pos e, obsFl_mk, Fl.entry_mk_inh]; simp [lookLv, e, obsFlOpt]
      · rw [if_neg e]
    · funext y
      by_cases e : y = x
      · subst e; simp
      · simp only [upd_ne _ _ e]
        rw [← hvals, ← hfl]; rfl
  · rw [hst, exclWrite_absLk hc1 hex (.inr rfl) hm hv' rfl, hlk, Lk.set_obs]
    congr 1
    funext y
    by_cases e : y = x
    · subst e; simp
    · simp only [upd_ne _ _ e]
      rw [← hvals, ← hlk]; rfl

end Flame.Conf
