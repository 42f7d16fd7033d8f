import Verif.Config.Spec

/-!
# Auxiliary facts about the `Config` model
-/

namespace Flame.Conf

variable {N : Type}

@[simp] theorem upd_self {α β : Type} [DecidableEq α] (f : α → β) (a : α) (b : β) :
    upd f a b a = b := by simp [upd]

theorem upd_ne {α β : Type} [DecidableEq α] (f : α → β) {a x : α} (b : β) (h : x ≠ a) :
    upd f a b x = f x := by simp [upd, h]

theorem look_eq_or (h : Addr → VMap N) (c : Cfg) (k : String) :
    look h c k = (lookLv h c .own k).or (lookLv h c .inh k) := by
  unfold look lookLv
  cases h1 : (h c.own).find k <;> cases h2 : c.imp <;> simp

theorem nested_or {a b : Option (Val N)} {i : Nat} {c : Cfg} (h : nested (a.or b) i = some c) :
    nested a i = some c ∨ nested b i = some c := by
  cases a with
  | none => right; simpa using h
  | some v => left; simpa using h

theorem nested_some {v : Option (Val N)} {i : Nat} {c : Cfg} :
    nested v i = some c ↔ ∃ l, v = some (.cfgs l) ∧ l[i]? = some c := by
  unfold nested
  split
  · rename_i l; constructor
    · intro h; exact ⟨l, rfl, h⟩
    · rintro ⟨l', e, h⟩; cases e; exact h
  · rename_i h; constructor
    · intro h; cases h
    · rintro ⟨l', e, _⟩; exact absurd e (h l')

/-- Some reachable site holds `c`. -/
def LiveC (s : St N) (c : Cfg) : Prop := ∃ σ, Live s σ c

theorem Live.nestedLv {s : St N} {c : Cfg} (h : LiveC s c) {l k i c'}
    (hn : nested (lookLv s.heap c l k) i = some c') :
    ∃ a, (c.own = a ∨ c.imp = some a) ∧ Live s (.cell a k i) c' := by
  obtain ⟨σ, hσ⟩ := h
  obtain ⟨ls, e, hi⟩ := nested_some.mp hn
  cases l with
  | own => exact ⟨c.own, .inl rfl, .cell hσ (.inl rfl) e hi⟩
  | inh =>
    unfold lookLv at e
    cases hc : c.imp with
    | none => simp [hc] at e
    | some a =>
      simp only [hc] at e
      exact ⟨a, .inr rfl, .cell hσ (.inr hc) e hi⟩

theorem LiveC.nestedLv {s : St N} {c : Cfg} (h : LiveC s c) {l k i c'}
    (hn : nested (lookLv s.heap c l k) i = some c') : LiveC s c' := by
  obtain ⟨a, _, h⟩ := Live.nestedLv h hn; exact ⟨_, h⟩

theorem LiveC.nested {s : St N} {c : Cfg} (h : LiveC s c) {k i c'}
    (hn : nested (look s.heap c k) i = some c') : LiveC s c' := by
  rw [look_eq_or] at hn
  rcases nested_or hn with hn | hn
  · exact h.nestedLv hn
  · exact h.nestedLv hn

/-- Cfg-level induction over reachability. -/
theorem LiveC.closed {s : St N} (P : Cfg → Prop)
    (ho : ∀ o c, s.objs o = some c → P c)
    (hv : ∀ x i c, Conf.nested (some (s.vals x)) i = some c → P c)
    (hc : ∀ c, P c → ∀ l k i c', Conf.nested (lookLv s.heap c l k) i = some c' → P c') :
    ∀ c, LiveC s c → P c := by
  rintro c ⟨σ, h⟩
  induction h with
  | obj h => exact ho _ _ h
  | val h hi => exact hv _ _ _ (nested_some.mpr ⟨_, by rw [h], hi⟩)
  | @cell σ c a k l i c' _ ha h hi ih =>
    rcases ha with rfl | ha
    · exact hc _ ih .own k i _ (nested_some.mpr ⟨l, h, hi⟩)
    · refine hc _ ih .inh k i _ (nested_some.mpr ⟨l, ?_, hi⟩)
      simp [lookLv, ha, h]

/-! ### Observations depend on the reachable part only -/

theorem obsFl_congr {h h' : Addr → VMap N} (P : Cfg → Prop)
    (H : ∀ c, P c → ∀ l k, lookLv h' c l k = lookLv h c l k)
    (H2 : ∀ c, P c → ∀ l k i c', nested (lookLv h c l k) i = some c' → P c') :
    ∀ c, P c → obsFl h' c = obsFl h c := by
  intro c hc
  funext p
  induction p generalizing c with
  | nil => funext l q; simp only [obsFl, H c hc]
  | cons a p ih =>
    obtain ⟨l, k, i⟩ := a
    funext l' q
    simp only [obsFl, H c hc]
    cases hn : nested (lookLv h c l k) i with
    | none => rfl
    | some c' => exact congrFun (congrFun (ih c' (H2 c hc l k i c' hn)) l') q

theorem obsLk_congr {h h' : Addr → VMap N} (P : Cfg → Prop)
    (H : ∀ c, P c → ∀ k, look h' c k = look h c k)
    (H2 : ∀ c, P c → ∀ k i c', nested (look h c k) i = some c' → P c') :
    ∀ c, P c → obsLk h' c = obsLk h c := by
  intro c hc
  funext p
  induction p generalizing c with
  | nil => funext q; simp only [obsLk, H c hc]
  | cons a p ih =>
    obtain ⟨k, i⟩ := a
    funext q
    simp only [obsLk, H c hc]
    cases hn : nested (look h c k) i with
    | none => rfl
    | some c' => exact congrFun (ih c' (H2 c hc k i c' hn)) q

theorem obsFlVal_congr {h h' : Addr → VMap N} (v : Val N)
    (H : ∀ i c, nested (some v) i = some c → obsFl h' c = obsFl h c) :
    obsFlVal h' v = obsFlVal h v := by
  unfold obsFlVal
  congr 1
  funext i
  cases hn : nested (some v) i with
  | none => rfl
  | some c => exact H i c hn

theorem obsLkVal_congr {h h' : Addr → VMap N} (v : Val N)
    (H : ∀ i c, nested (some v) i = some c → obsLk h' c = obsLk h c) :
    obsLkVal h' v = obsLkVal h v := by
  unfold obsLkVal
  congr 1
  funext i
  cases hn : nested (some v) i with
  | none => rfl
  | some c => exact H i c hn

/-- Observation of an optional value. -/
def obsFlOpt (h : Addr → VMap N) : Option (Val N) → FlVal N
  | none => Fl.missing
  | some v => obsFlVal h v

def obsLkOpt (h : Addr → VMap N) : Option (Val N) → LkVal N
  | none => ⟨.missing, fun _ => Lk.empty⟩
  | some v => obsLkVal h v

/-- A configuration from its visible values. -/
def Lk.mk (f : String → LkVal N) : LkCfg N
  | [], q => (f q).leaf
  | (k, i) :: p, q => (f k).sub i p q

@[simp] theorem Fl.entry_mk_own (a b : String → FlVal N) (k : String) :
    Fl.entry (Fl.mk a b) .own k = a k := rfl

@[simp] theorem Fl.entry_mk_inh (a b : String → FlVal N) (k : String) :
    Fl.entry (Fl.mk a b) .inh k = b k := rfl

@[simp] theorem Lk.get_mk (f : String → LkVal N) (k : String) : Lk.get (Lk.mk f) k = f k := rfl

theorem Lk.set_mk (f : String → LkVal N) (k : String) (v : LkVal N) :
    Lk.set (Lk.mk f) k v = Lk.mk (fun q => if q = k then v else f q) := by
  funext p q
  cases p with
  | nil => simp only [Lk.set, Lk.mk]; split <;> rfl
  | cons a p => simp only [Lk.set, Lk.mk]; split <;> rfl

theorem obsFl_mk (h : Addr → VMap N) (c : Cfg) :
    obsFl h c = Fl.mk (fun k => obsFlOpt h (lookLv h c .own k))
      (fun k => obsFlOpt h (lookLv h c .inh k)) := by
  funext p l q
  cases p with
  | nil =>
    cases l <;> simp only [obsFl, Fl.mk]
    · cases lookLv h c .own q <;> rfl
    · cases lookLv h c .inh q <;> rfl
  | cons a p =>
    obtain ⟨l', k, i⟩ := a
    cases l' <;> simp only [obsFl, Fl.mk]
    · cases lookLv h c .own k with
      | none => rfl
      | some v => simp only [obsFlOpt, obsFlVal]; cases nested (some v) i <;> rfl
    · cases lookLv h c .inh k with
      | none => rfl
      | some v => simp only [obsFlOpt, obsFlVal]; cases nested (some v) i <;> rfl

theorem obsLk_mk (h : Addr → VMap N) (c : Cfg) :
    obsLk h c = Lk.mk (fun k => obsLkOpt h (look h c k)) := by
  funext p q
  cases p with
  | nil => simp only [obsLk, Lk.mk]; cases look h c q <;> rfl
  | cons a p =>
    obtain ⟨k, i⟩ := a
    simp only [obsLk, Lk.mk]
    cases look h c k with
    | none => rfl
    | some v => simp only [obsLkOpt, obsLkVal]; cases nested (some v) i <;> rfl

theorem leafOf_some_ne (v : Val N) : leafOf (some v) ≠ .missing := by
  cases v <;> simp [leafOf]

theorem orElse_obs (h : Addr → VMap N) (a b : Option (Val N)) :
    Fl.orElse (obsFlOpt h a) (obsFlOpt h b) = obsFlOpt h (a.or b) := by
  cases a with
  | none => rfl
  | some v => cases v <;> rfl

theorem visible_obs (h : Addr → VMap N) (c : Cfg) (k : String) :
    Fl.visible (obsFl h c) k = obsFlOpt h (look h c k) := by
  rw [obsFl_mk]
  simp only [Fl.visible, Fl.entry_mk_own, Fl.entry_mk_inh, orElse_obs, look_eq_or]

theorem dflt_obsFl [Zero N] (h : Addr → VMap N) (v : Val N) :
    obsFlVal h v.dflt = Fl.dflt (obsFlVal h v) := by
  cases v with
  | num x => rfl
  | vec x => rfl
  | str x => rfl
  | cfgs l =>
    simp only [Val.dflt, Fl.dflt, obsFlVal, leafOf, Fl.ofVec]
    congr 1

theorem dflt_obsLk [Zero N] (h : Addr → VMap N) (v : Val N) :
    obsLkVal h v.dflt = Lk.dflt (obsLkVal h v) := by
  cases v with
  | num x => rfl
  | vec x => rfl
  | str x => rfl
  | cfgs l =>
    simp only [Val.dflt, Lk.dflt, obsLkVal, leafOf, Lk.ofVec]
    congr 1

theorem obsFlVal_lit (h : Addr → VMap N) (v : Lit N) : obsFlVal h v.toVal = Fl.ofLit v := by
  cases v <;> rfl

theorem obsLkVal_lit (h : Addr → VMap N) (v : Lit N) : obsLkVal h v.toVal = Lk.ofLit v := by
  cases v <;> rfl

theorem obsFlVal_cfgs (h : Addr → VMap N) (l : List Cfg) :
    obsFlVal h (.cfgs l) = Fl.ofVec (l.map (obsFl h)) := by
  simp only [obsFlVal, Fl.ofVec, leafOf, List.length_map]
  congr 1
  funext i
  simp only [nested, List.getElem?_map]
  cases l[i]? <;> rfl

theorem obsLkVal_cfgs (h : Addr → VMap N) (l : List Cfg) :
    obsLkVal h (.cfgs l) = Lk.ofVec (l.map (obsLk h)) := by
  simp only [obsLkVal, Lk.ofVec, leafOf, List.length_map]
  congr 1
  funext i
  simp only [nested, List.getElem?_map]
  cases l[i]? <;> rfl

/-! ### The sharing invariant -/

/-- Sharing discipline of all reachable configurations. -/
structure Inv (s : St N) : Prop where
  /-- references point to allocated maps -/
  fresh : ∀ c, LiveC s c → c.own < s.next ∧ ∀ i, c.imp = some i → i < s.next
  /-- configurations sharing their own map see the same values -/
  same : ∀ c c', LiveC s c → LiveC s c' → c.own = c'.own → ∀ k, look s.heap c k = look s.heap c' k
  /-- a map used as inherited map by someone contains everything visible to its owners -/
  frozen : ∀ c c' a, LiveC s c → LiveC s c' → c.imp = some a → c'.own = a →
    ∀ k, look s.heap c' k = (s.heap a).find k

theorem nested_upd_vals {vals : Nat → Val N} {x y i : Nat} {v : Val N} {c : Cfg}
    (h : nested (some (upd vals x v y)) i = some c) :
    nested (some v) i = some c ∨ nested (some (vals y)) i = some c := by
  by_cases hy : y = x
  · subst hy; left; simpa using h
  · right; simpa [upd_ne _ _ hy] using h

theorem LiveC.ofVal {s : St N} {x i : Nat} {c : Cfg} (h : Conf.nested (some (s.vals x)) i = some c) :
    LiveC s c := by
  obtain ⟨l, e, hi⟩ := nested_some.mp h
  exact ⟨_, .val (Option.some.inj e) hi⟩

theorem LiveC.ofObj {s : St N} {o : Nat} {c : Cfg} (h : s.objs o = some c) : LiveC s c :=
  ⟨_, .obj h⟩

/-- Changing only variables, to things that were reachable before, keeps the invariant. -/
theorem Inv.vars {s : St N} (hi : Inv s) (objs : Nat → Option Cfg) (vals : Nat → Val N)
    (ho : ∀ o c, objs o = some c → LiveC s c)
    (hv : ∀ x i c, nested (some (vals x)) i = some c → LiveC s c) :
    Inv { s with objs := objs, vals := vals } ∧
      ∀ c, LiveC { s with objs := objs, vals := vals } c → LiveC s c := by
  have hl : ∀ c, LiveC { s with objs := objs, vals := vals } c → LiveC s c :=
    LiveC.closed (s := { s with objs := objs, vals := vals }) (LiveC s) ho hv
      (fun c hc l k i c' hn => hc.nestedLv hn)
  refine ⟨⟨?_, ?_, ?_⟩, hl⟩
  · intro c hc; exact hi.fresh c (hl c hc)
  · intro c c' hc hc'; exact hi.same c c' (hl c hc) (hl c' hc')
  · intro c c' a hc hc'; exact hi.frozen c c' a (hl c hc) (hl c' hc')

/-- Allocation of a new map. -/
def alloc (s : St N) (m : VMap N) : St N :=
  { s with heap := upd s.heap s.next m, next := s.next + 1 }

theorem alloc_lookLv {s : St N} (hi : Inv s) (m : VMap N) {c : Cfg} (hc : LiveC s c) (l : Level)
    (k : String) : lookLv (alloc s m).heap c l k = lookLv s.heap c l k := by
  have hf := hi.fresh c hc
  unfold lookLv alloc
  cases l with
  | own => simp only [upd_ne _ _ (Nat.ne_of_lt hf.1)]
  | inh =>
    cases hc : c.imp with
    | none => rfl
    | some i => simp only [upd_ne _ _ (Nat.ne_of_lt (hf.2 i hc))]

theorem alloc_look {s : St N} (hi : Inv s) (m : VMap N) {c : Cfg} (hc : LiveC s c)
    (k : String) : look (alloc s m).heap c k = look s.heap c k := by
  simp only [look_eq_or, alloc_lookLv hi m hc]

theorem alloc_live {s : St N} (hi : Inv s) (m : VMap N) : ∀ c, LiveC (alloc s m) c → LiveC s c := by
  refine LiveC.closed (LiveC s) (fun o c h => LiveC.ofObj h) (fun x i c h => LiveC.ofVal h) ?_
  intro c hc l k i c' hn
  rw [alloc_lookLv hi m hc] at hn
  exact hc.nestedLv hn

theorem Inv.alloc {s : St N} (hi : Inv s) (m : VMap N) : Inv (alloc s m) := by
  refine ⟨?_, ?_, ?_⟩
  · intro c hc
    have := hi.fresh c (alloc_live hi m c hc)
    exact ⟨Nat.lt_succ_of_lt this.1, fun i e => Nat.lt_succ_of_lt (this.2 i e)⟩
  · intro c c' hc hc' e k
    rw [alloc_look hi m (alloc_live hi m c hc), alloc_look hi m (alloc_live hi m c' hc')]
    exact hi.same c c' (alloc_live hi m c hc) (alloc_live hi m c' hc') e k
  · intro c c' a hc hc' e e' k
    have h1 := alloc_live hi m c hc
    have h2 := alloc_live hi m c' hc'
    rw [alloc_look hi m h2, hi.frozen c c' a h1 h2 e e' k]
    have := (hi.fresh c h1).2 a e
    simp only [Conf.alloc, upd_ne _ _ (Nat.ne_of_lt this)]

theorem alloc_obsFl {s : St N} (hi : Inv s) (m : VMap N) {c : Cfg} (hc : LiveC s c) :
    obsFl (alloc s m).heap c = obsFl s.heap c :=
  obsFl_congr (LiveC s) (fun _ h _ _ => alloc_lookLv hi m h _ _)
    (fun _ h _ _ _ _ hn => h.nestedLv hn) c hc

theorem alloc_obsLk {s : St N} (hi : Inv s) (m : VMap N) {c : Cfg} (hc : LiveC s c) :
    obsLk (alloc s m).heap c = obsLk s.heap c :=
  obsLk_congr (LiveC s) (fun _ h _ => alloc_look hi m h _)
    (fun _ h _ _ _ hn => h.nested hn) c hc

theorem absFl_eq {s s' : St N} (ho : s'.objs = s.objs) (hv : s'.vals = s.vals)
    (h : ∀ c, LiveC s c → obsFl s'.heap c = obsFl s.heap c) : absFl s' = absFl s := by
  unfold absFl
  congr 1
  · funext o
    rw [ho]
    cases hc : s.objs o with
    | none => rfl
    | some c => simp [h c (LiveC.ofObj hc)]
  · funext x
    rw [hv]
    exact obsFlVal_congr _ (fun i c hn => h c (LiveC.ofVal hn))

theorem absLk_eq {s s' : St N} (ho : s'.objs = s.objs) (hv : s'.vals = s.vals)
    (h : ∀ c, LiveC s c → obsLk s'.heap c = obsLk s.heap c) : absLk s' = absLk s := by
  unfold absLk
  congr 1
  · funext o
    rw [ho]
    cases hc : s.objs o with
    | none => rfl
    | some c => simp [h c (LiveC.ofObj hc)]
  · funext x
    rw [hv]
    exact obsLkVal_congr _ (fun i c hn => h c (LiveC.ofVal hn))

theorem absFl_alloc {s : St N} (hi : Inv s) (m : VMap N) : absFl (alloc s m) = absFl s :=
  absFl_eq rfl rfl (fun _ hc => alloc_obsFl hi m hc)

theorem absLk_alloc {s : St N} (hi : Inv s) (m : VMap N) : absLk (alloc s m) = absLk s :=
  absLk_eq rfl rfl (fun _ hc => alloc_obsLk hi m hc)

/-- Binding an object name to a configuration. -/
def setObj (s : St N) (d : Nat) (c : Cfg) : St N := { s with objs := upd s.objs d (some c) }

theorem absFl_setObj (s : St N) (d : Nat) (c : Cfg) :
    absFl (setObj s d c) =
      { absFl s with objs := upd (absFl s).objs d (some (obsFl s.heap c)) } := by
  unfold absFl setObj
  congr 1
  funext o
  by_cases h : o = d
  · subst h; simp
  · simp [upd_ne _ _ h]

theorem absLk_setObj (s : St N) (d : Nat) (c : Cfg) :
    absLk (setObj s d c) =
      { absLk s with objs := upd (absLk s).objs d (some (obsLk s.heap c)) } := by
  unfold absLk setObj
  congr 1
  funext o
  by_cases h : o = d
  · subst h; simp
  · simp [upd_ne _ _ h]

/-- Conditions under which a new configuration may be introduced. -/
structure Compatible (s : St N) (n : Cfg) : Prop where
  fresh : n.own < s.next ∧ ∀ i, n.imp = some i → i < s.next
  same : ∀ c, LiveC s c → c.own = n.own → ∀ k, look s.heap c k = look s.heap n k
  frozen1 : ∀ c a, LiveC s c → n.imp = some a → c.own = a → ∀ k, look s.heap c k = (s.heap a).find k
  frozen2 : ∀ c, LiveC s c → c.imp = some n.own → ∀ k, look s.heap n k = (s.heap n.own).find k
  frozen3 : n.imp = some n.own → ∀ k, look s.heap n k = (s.heap n.own).find k
  nested : ∀ l k i c', nested (lookLv s.heap n l k) i = some c' → LiveC s c'

theorem setObj_live {s : St N} {n : Cfg} (hn : Compatible s n) (d : Nat) :
    ∀ c, LiveC (setObj s d n) c → c = n ∨ LiveC s c := by
  refine LiveC.closed (fun c => c = n ∨ LiveC s c) ?_ ?_ ?_
  · intro o c h
    by_cases e : o = d
    · subst e; left; simpa [setObj] using h.symm
    · right; exact LiveC.ofObj (by simpa [setObj, upd_ne _ _ e] using h)
  · intro x i c h; right; exact LiveC.ofVal h
  · rintro c (rfl | hc) l k i c' h
    · right; exact hn.nested l k i c' h
    · right; exact hc.nestedLv h

theorem Inv.setObj {s : St N} (hi : Inv s) {n : Cfg} (hn : Compatible s n) (d : Nat) :
    Inv (setObj s d n) := by
  have hl := setObj_live hn d
  refine ⟨?_, ?_, ?_⟩
  · intro c hc
    rcases hl c hc with rfl | h
    · exact hn.fresh
    · exact hi.fresh c h
  · intro c c' hc hc' e k
    rcases hl c hc with rfl | h <;> rcases hl c' hc' with rfl | h'
    · rfl
    · exact (hn.same c' h' e.symm k).symm
    · exact hn.same c h e k
    · exact hi.same c c' h h' e k
  · intro c c' a hc hc' e e' k
    rcases hl c hc with rfl | h <;> rcases hl c' hc' with rfl | h'
    · subst e'; exact hn.frozen3 e k
    · exact hn.frozen1 c' a h' e e' k
    · subst e'; exact hn.frozen2 c h e k
    · exact hi.frozen c c' a h h' e e' k

theorem Compatible.ofLive {s : St N} (hi : Inv s) {c : Cfg} (hc : LiveC s c) : Compatible s c where
  fresh := hi.fresh c hc
  same := fun c' h e k => hi.same c' c h hc e k
  frozen1 := fun c' a h e e' k => hi.frozen c c' a hc h e e' k
  frozen2 := fun c' h e k => hi.frozen c' c c.own h hc e rfl k
  frozen3 := fun e k => hi.frozen c c c.own hc hc e rfl k
  nested := fun _ _ _ _ h => hc.nestedLv h

/-! ### Exclusive ownership and writes -/

/-- The only reachable reference to the own map of `o` is the one held by `o` itself. -/
def Excl (s : St N) (o : Nat) (c : Cfg) : Prop :=
  (∀ σ c', Live s σ c' → c'.own = c.own → σ = .obj o) ∧
  (∀ σ c', Live s σ c' → c'.imp ≠ some c.own)

/-- Reachable at a site other than the object `o` itself. -/
def Other (s : St N) (o : Nat) (c : Cfg) : Prop := ∃ σ, σ ≠ .obj o ∧ Live s σ c

theorem Other.live {s : St N} {o : Nat} {c : Cfg} (h : Other s o c) : LiveC s c :=
  ⟨h.choose, h.choose_spec.2⟩

theorem LiveC.other_nested {s : St N} {c : Cfg} (h : LiveC s c) (o : Nat) {l k i c'}
    (hn : Conf.nested (lookLv s.heap c l k) i = some c') : Other s o c' := by
  obtain ⟨a, _, h⟩ := Live.nestedLv h hn
  exact ⟨_, by simp, h⟩

theorem Other.ne {s : St N} {o : Nat} {c c' : Cfg} (he : Excl s o c) (h : Other s o c') :
    c'.own ≠ c.own ∧ c'.imp ≠ some c.own := by
  obtain ⟨σ, hσ, h⟩ := h
  exact ⟨fun e => hσ (he.1 σ c' h e), he.2 σ c' h⟩

/-- Overwriting an exclusively owned map (and possibly dropping the inherited scope of its owner,
and changing value variables). -/
def exclWrite (s : St N) (o : Nat) (c : Cfg) (m : VMap N) (imp : Option Addr)
    (vals : Nat → Val N) : St N :=
  { heap := upd s.heap c.own m, next := s.next,
    objs := upd s.objs o (some { c with imp := imp }), vals := vals }

section ExclWrite
variable {s : St N} (hi : Inv s) {o : Nat} {c : Cfg} (hc : s.objs o = some c) (he : Excl s o c)
  {m : VMap N} {imp : Option Addr} {vals : Nat → Val N}
  (himp : imp = none ∨ imp = c.imp)
  (hm : ∀ k i c', nested (m.find k) i = some c' → Other s o c')
  (hv : ∀ x i c', nested (some (vals x)) i = some c' → Other s o c')
include hi hc he himp hm hv

omit hc himp hm hv hi in
theorem exclWrite_lookLv {c' : Cfg} (h : Other s o c') (l : Level) (k : String) :
    lookLv (exclWrite s o c m imp vals).heap c' l k = lookLv s.heap c' l k := by
  have hne := h.ne he
  unfold lookLv exclWrite
  cases l with
  | own => simp only [upd_ne _ _ hne.1]
  | inh =>
    cases e : c'.imp with
    | none => rfl
    | some i =>
      have : i ≠ c.own := by intro e'; exact hne.2 (by rw [e, e'])
      simp only [upd_ne _ _ this]

omit hc himp hm hv hi in
theorem exclWrite_look {c' : Cfg} (h : Other s o c') (k : String) :
    look (exclWrite s o c m imp vals).heap c' k = look s.heap c' k := by
  simp only [look_eq_or, exclWrite_lookLv he h]

omit hc himp hm hv hi in
theorem exclWrite_obsFl {c' : Cfg} (h : Other s o c') :
    obsFl (exclWrite s o c m imp vals).heap c' = obsFl s.heap c' :=
  obsFl_congr (Other s o) (fun _ h _ _ => exclWrite_lookLv he h _ _)
    (fun _ h _ _ _ _ hn => h.live.other_nested o hn) c' h

omit hc himp hm hv hi in
theorem exclWrite_obsLk {c' : Cfg} (h : Other s o c') :
    obsLk (exclWrite s o c m imp vals).heap c' = obsLk s.heap c' := by
  refine obsLk_congr (Other s o) (fun _ h _ => exclWrite_look he h _) ?_ c' h
  intro c h k i c' hn
  rw [look_eq_or] at hn
  rcases nested_or hn with hn | hn
  · exact h.live.other_nested o hn
  · exact h.live.other_nested o hn

omit hi himp hm hv in
theorem excl_imp_ne : c.imp ≠ some c.own := he.2 _ c (.obj hc)

omit hi hm hv in
theorem exclWrite_imp_ne : imp ≠ some c.own := by
  rcases himp with rfl | rfl
  · simp
  · exact excl_imp_ne hc he

omit hi in
theorem exclWrite_live : ∀ c', LiveC (exclWrite s o c m imp vals) c' →
    c' = { c with imp := imp } ∨ Other s o c' ∨ (c' ≠ c ∧ False) := by
  refine LiveC.closed _ ?_ ?_ ?_
  · intro o' c' h
    by_cases e : o' = o
    · subst e; left; simpa [exclWrite] using h.symm
    · right; left
      exact ⟨.obj o', by simpa using e, .obj (by simpa [exclWrite, upd_ne _ _ e] using h)⟩
  · intro x i c' h; right; left; exact hv x i c' h
  · rintro c' (rfl | hc' | ⟨_, hf⟩) l k i c'' hn
    · right; left
      cases l with
      | own =>
        have : lookLv (exclWrite s o c m imp vals).heap { c with imp := imp } .own k = m.find k := by
          simp [lookLv, exclWrite]
        rw [this] at hn
        exact hm k i c'' hn
      | inh =>
        have hne := exclWrite_imp_ne hc he himp
        have hlive : LiveC s c := LiveC.ofObj hc
        rcases himp with rfl | rfl
        · simp [lookLv, nested] at hn
        · have : lookLv (exclWrite s o c m c.imp vals).heap { c with imp := c.imp } .inh k
              = lookLv s.heap c .inh k := by
            unfold lookLv exclWrite
            cases e : c.imp with
            | none => rfl
            | some j =>
              have : j ≠ c.own := by intro e'; exact hne (by rw [e, e'])
              simp only [upd_ne _ _ this]
          rw [this] at hn
          exact hlive.other_nested o hn
    · right; left
      rw [exclWrite_lookLv he hc'] at hn
      exact hc'.live.other_nested o hn
    · exact hf.elim

theorem Inv.exclWrite : Inv (exclWrite s o c m imp vals) := by
  have hl : ∀ c', LiveC (Conf.exclWrite s o c m imp vals) c' →
      c' = { c with imp := imp } ∨ Other s o c' := by
    intro c' h
    rcases exclWrite_live hc he himp hm hv c' h with h | h | h
    · exact .inl h
    · exact .inr h
    · exact h.2.elim
  have hcl : LiveC s c := LiveC.ofObj hc
  have hne := exclWrite_imp_ne hc he himp
  refine ⟨?_, ?_, ?_⟩
  · intro c' h
    rcases hl c' h with rfl | h
    · refine ⟨(hi.fresh c hcl).1, ?_⟩
      intro i e
      rcases himp with rfl | rfl
      · cases e
      · exact (hi.fresh c hcl).2 i e
    · exact hi.fresh c' h.live
  · intro c1 c2 h1 h2 e k
    rcases hl c1 h1 with rfl | h1 <;> rcases hl c2 h2 with rfl | h2
    · rfl
    · exact absurd e.symm (h2.ne he).1
    · exact absurd e (h1.ne he).1
    · rw [exclWrite_look he h1, exclWrite_look he h2]
      exact hi.same c1 c2 h1.live h2.live e k
  · intro c1 c2 a h1 h2 e e' k
    have ha : a ≠ c.own := by
      intro e''; subst e''
      rcases hl c1 h1 with rfl | h1
      · exact hne e
      · exact (h1.ne he).2 e
    have h2o : Other s o c2 := by
      rcases hl c2 h2 with rfl | h2
      · exact absurd e'.symm ha
      · exact h2
    have hheap : (Conf.exclWrite s o c m imp vals).heap a = s.heap a := upd_ne _ _ ha
    rw [exclWrite_look he h2o, hheap]
    rcases hl c1 h1 with rfl | h1
    · rcases himp with rfl | rfl
      · cases e
      · exact hi.frozen c c2 a hcl h2o.live e e' k
    · exact hi.frozen c1 c2 a h1.live h2o.live e e' k

end ExclWrite

/-! ### Copy-on-write -/

theorem Inv.cow {uq : St N → Nat → Bool} (huq : UniqueSound uq) {s : St N} (hi : Inv s)
    {o : Nat} {c : Cfg} (hc : s.objs o = some c) :
    Inv (cow uq s o) ∧ absFl (cow uq s o) = absFl s ∧ absLk (cow uq s o) = absLk s ∧
    (cow uq s o).vals = s.vals ∧
    ∃ c1, (cow uq s o).objs o = some c1 ∧ Excl (cow uq s o) o c1 := by
  by_cases hu : uq s o = true
  · have hst : Conf.cow uq s o = s := by unfold Conf.cow; simp [hc, hu]
    rw [hst]
    exact ⟨hi, rfl, rfl, rfl, c, hc, huq s o c hc hu⟩
  · have hcl : LiveC s c := LiveC.ofObj hc
    have hf := hi.fresh c hcl
    let s1 := Conf.alloc s (s.heap c.own)
    let n : Cfg := { c with own := s.next }
    have hi1 : Inv s1 := hi.alloc _
    have hlv : ∀ l k, lookLv s1.heap n l k = lookLv s.heap c l k := by
      intro l k
      cases l with
      | own => simp [lookLv, s1, n, Conf.alloc]
      | inh =>
        have := alloc_lookLv hi (s.heap c.own) hcl .inh k
        simpa [lookLv, s1, n] using this
    have hlk : ∀ k, look s1.heap n k = look s.heap c k := by
      intro k; simp only [look_eq_or, hlv]
    have hne : ∀ c', LiveC s1 c' → c'.own ≠ s.next ∧ c'.imp ≠ some s.next := by
      intro c' h
      have := hi.fresh c' (alloc_live hi _ c' h)
      exact ⟨Nat.ne_of_lt this.1, fun e => Nat.lt_irrefl _ (this.2 _ e)⟩
    have hcl1 : LiveC s1 c := LiveC.ofObj hc
    have hcomp : Compatible s1 n := by
      refine ⟨⟨?_, ?_⟩, ?_, ?_, ?_, ?_, ?_⟩
      · simp [s1, n, Conf.alloc]
      · intro i e; exact Nat.lt_succ_of_lt (hf.2 i e)
      · intro c' h e; exact absurd e (hne c' h).1
      · intro c' a h e e' k
        exact hi1.frozen c c' a hcl1 h e e' k
      · intro c' h e; exact absurd e (hne c' h).2
      · intro e; exact absurd e (hne c hcl1).2
      · intro l k i c' h
        rw [hlv] at h
        have h' : nested (lookLv s1.heap c l k) i = some c' := by
          rw [alloc_lookLv hi _ hcl]; exact h
        exact hcl1.nestedLv h'
    have hst : Conf.cow uq s o = Conf.setObj s1 o n := by
      unfold Conf.cow; simp only [hc, if_neg hu]; rfl
    rw [hst]
    have hobsFl : obsFl s1.heap n = obsFl s.heap c := by
      rw [obsFl_mk, obsFl_mk]
      have key : ∀ l, (fun k => obsFlOpt s1.heap (lookLv s1.heap n l k))
          = (fun k => obsFlOpt s.heap (lookLv s.heap c l k)) := by
        intro l
        funext k
        rw [hlv]
        cases hv : lookLv s.heap c l k with
        | none => rfl
        | some v =>
          exact obsFlVal_congr v (fun i c' hn => alloc_obsFl hi _
            (hcl.nestedLv (l := l) (k := k) (i := i) (by rw [hv]; exact hn)))
      rw [key .own, key .inh]
    have hobsLk : obsLk s1.heap n = obsLk s.heap c := by
      rw [obsLk_mk, obsLk_mk]
      congr 1
      funext k
      rw [hlk]
      cases hv : look s.heap c k with
      | none => rfl
      | some v =>
        exact obsLkVal_congr v (fun i c' hn => alloc_obsLk hi _
          (hcl.nested (k := k) (i := i) (by rw [hv]; exact hn)))
    refine ⟨hi1.setObj hcomp o, ?_, ?_, rfl, n, by simp [Conf.setObj], ?_, ?_⟩
    · rw [absFl_setObj, absFl_alloc hi, hobsFl]
      have : upd (absFl s).objs o (some (obsFl s.heap c)) = (absFl s).objs := by
        funext o'
        by_cases e : o' = o
        · subst e; simp [absFl, hc]
        · simp [upd_ne _ _ e]
      rw [this]
    · rw [absLk_setObj, absLk_alloc hi, hobsLk]
      have : upd (absLk s).objs o (some (obsLk s.heap c)) = (absLk s).objs := by
        funext o'
        by_cases e : o' = o
        · subst e; simp [absLk, hc]
        · simp [upd_ne _ _ e]
      rw [this]
    · intro σ c' hl e
      have hsite : σ = .obj o ∨ LiveC s1 c' := by
        clear e
        induction hl with
        | @obj o' c' h =>
          by_cases e : o' = o
          · left; rw [e]
          · right; exact LiveC.ofObj (by simpa [Conf.setObj, upd_ne _ _ e] using h)
        | val h hi => right; exact ⟨_, .val h hi⟩
        | @cell σ c0 a k l i c'' h0 ha h hi' ih =>
          right
          have hc0 := setObj_live hcomp o c0 ⟨σ, h0⟩
          have hn : ∃ lv, nested (lookLv s1.heap c0 lv k) i = some c'' := by
            rcases ha with rfl | ha
            · exact ⟨.own, nested_some.mpr ⟨l, h, hi'⟩⟩
            · refine ⟨.inh, nested_some.mpr ⟨l, ?_, hi'⟩⟩
              simp only [lookLv, ha]; exact h
          obtain ⟨lv, hn⟩ := hn
          rcases hc0 with rfl | hc0
          · exact hcomp.nested lv k i c'' hn
          · exact hc0.nestedLv hn
      rcases hsite with h | h
      · exact h
      · exact absurd e (hne c' h).1
    · intro σ c' hl
      rcases setObj_live hcomp o c' ⟨σ, hl⟩ with rfl | h
      · exact (hne c hcl1).2
      · exact (hne c' h).2

end Flame.Conf
