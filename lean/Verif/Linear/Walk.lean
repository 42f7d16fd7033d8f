import Verif.Linear.Model
import Verif.Linear.Spec
import Verif.Machine.Props

/-! # Propagation through linear elements: auxiliary facts -/

namespace Flame.Linear

open Flame.Mach
open Spec

variable {σ : Type}

/-- The action of matrices on a state. -/
structure Lawful (k : Kind σ) : Prop where
  one : ∀ s, k.prod 1 s = s
  mul : ∀ A B s, k.prod (A * B) s = k.prod A (k.prod B s)

theorem lawful_vector : Lawful vector := ⟨fun s => by simp [vector], fun A B s => by simp [vector]⟩
theorem lawful_matrix : Lawful matrix := ⟨fun s => by simp [matrix], fun A B s => by simp [matrix, Matrix.mul_assoc]⟩

abbrev LElem (σ : Type) := Elem LCfg (LDat σ) (LSt σ)

/-- An element of one of the registered classes other than a source. -/
def Plain (k : Kind σ) (base : Nat) (e : LElem σ) : Prop := (∃ t, e.cls = cls k base t) ∧ e.dat.istate = none

theorem cls_straight (k : Kind σ) (base : Nat) (t : LType) : Straight (cls k base t) := by
  intro x s
  show (advance k x s).2.1.nextElem = _ ∧ (advance k x s).2.1.retreat = _ ∧ (advance k x s).2.2 = none
  unfold advance
  cases x.istate <;> exact ⟨rfl, rfl, rfl⟩

theorem plain_advance {k : Kind σ} {base : Nat} {e : LElem σ} (h : Plain k base e) (s : St (LSt σ)) :
    e.cls.advance e.dat s =
      (e.dat, { s with payload := ⟨s.payload.pos + e.dat.length, k.prod e.dat.transfer s.payload.state⟩ }, none) := by
  obtain ⟨⟨t, ht⟩, hi⟩ := h
  rw [ht]
  show advance k e.dat s = _
  unfold advance
  rw [hi]

theorem set_self {α : Type} (l : List α) (n : Nat) (a : α) (h : l[n]? = some a) : l.set n a = l := by
  apply List.ext_getElem?
  intro j
  rw [List.getElem?_set]
  split
  · subst_vars
    rw [if_pos (List.getElem?_eq_some_iff.1 h).1, h]
  · rfl

theorem run_plain {k : Kind σ} (hk : Lawful k) {base : Nat} (n : Nat) : ∀ (els : List (LElem σ)) (s : St (LSt σ)),
    (∀ e ∈ els, Plain k base e) →
    (run n els s).elems = els ∧ (run n els s).err = none ∧
    (run n els s).st.payload =
      ⟨s.payload.pos + (((visits (run n els s).trace).filterMap (els[·]?)).map (·.dat.length)).sum,
       k.prod (along (((visits (run n els s).trace).filterMap (els[·]?)).map (·.dat.transfer))) s.payload.state⟩ := by
  induction n with
  | zero => intro els s _; simp [run, visits, along, hk.one]
  | succ n ih =>
    intro els s hp
    cases h : els[s.nextElem]? with
    | none => rw [run_succ_none h]; simp [visits, along, hk.one]
    | some e =>
      have ha := plain_advance (hp e (List.mem_of_getElem? h)) (stepNext s)
      rw [run_succ_ok h (by rw [ha])]
      dsimp only
      rw [ha]
      dsimp only
      have hset : els.set s.nextElem { e with dat := e.dat } = els := set_self _ _ _ h
      rw [hset]
      obtain ⟨h1, h2, h3⟩ := ih els { stepNext s with payload :=
        ⟨(stepNext s).payload.pos + e.dat.length, k.prod e.dat.transfer (stepNext s).payload.state⟩ } hp
      refine ⟨h1, h2, ?_⟩
      rw [h3]
      have hpay : (stepNext s).payload = s.payload := by unfold stepNext; split <;> rfl
      simp only [List.cons_append, visits, visits_append, visits_view, List.nil_append, List.filterMap_cons, h,
        List.map_cons, List.sum_cons, along, hk.mul, hpay, add_assoc]

theorem filterMap_range' {α : Type} (l : List α) : ∀ (n a : Nat),
    (List.range' a (min n (l.length - a))).filterMap (l[·]?) = (l.drop a).take n := by
  intro n
  induction n with
  | zero => intro a; simp
  | succ n ih =>
    intro a
    by_cases h : a < l.length
    · rw [show min (n + 1) (l.length - a) = min n (l.length - (a + 1)) + 1 by omega, List.range'_succ,
        List.filterMap_cons, List.getElem?_eq_getElem h, List.drop_eq_getElem_cons h, List.take_succ_cons]
      simp only [ih]
    · rw [show min (n + 1) (l.length - a) = 0 by omega, List.drop_eq_nil_of_le (by omega)]
      simp

theorem filterMap_down {α : Type} (l : List α) : ∀ (a n : Nat), a < l.length →
    ((List.range (min n (a + 1))).map (fun j => a - j)).filterMap (l[·]?) = ((l.take (a + 1)).reverse).take n := by
  intro a
  induction a with
  | zero =>
    intro n h
    cases n with
    | zero => simp
    | succ n => simp [List.take_one, List.head?_eq_getElem?, List.getElem?_eq_getElem h]
  | succ a ih =>
    intro n h
    cases n with
    | zero => simp
    | succ n =>
      rw [show min (n + 1) (a + 1 + 1) = min n (a + 1) + 1 by omega, List.range_succ_eq_map]
      have h2 : (l.take (a + 1 + 1)).reverse = l[a + 1] :: (l.take (a + 1)).reverse := by
        rw [List.take_succ_eq_append_getElem h]
        simp
      rw [h2, List.take_succ_cons, ← ih n (by omega)]
      simp only [List.map_cons, Nat.sub_zero, List.map_map, List.filterMap_cons, List.getElem?_eq_getElem h]
      congr 2
      apply List.map_congr_left
      intro j _
      simp only [Function.comp_apply]
      omega

theorem propagate_plain {k : Kind σ} (hk : Lawful k) {base : Nat} (els : List (LElem σ)) (s : St (LSt σ)) (start : Nat)
    (max : Int) (hp : ∀ e ∈ els, Plain k base e) (hl : els.length < sizeMod) (hm : max ≠ -2 ^ 31) :
    ∃ r, propagate els s start max = some r ∧ r.err = none ∧ r.elems = els ∧
      r.st.payload.pos = s.payload.pos + ((passed els start max).map (·.dat.length)).sum ∧
      r.st.payload.state = k.prod (along ((passed els start max).map (·.dat.transfer))) s.payload.state ∧
      r.st.nextElem = (if 0 ≤ max then start + min max.toNat (els.length - start)
        else if start < els.length then (if max.natAbs ≤ start then start - max.natAbs else sizeMod - 1) else start) := by
  have hs : ∀ e ∈ els, Straight e.cls := fun e he => by
    obtain ⟨⟨t, ht⟩, _⟩ := hp e he
    rw [ht]
    exact cls_straight k base t
  have key := run_plain hk max.natAbs els { s with nextElem := start, retreat := decide (max < 0) } hp
  refine ⟨_, propagate_eq els s start max hm, key.2.1, key.1, ?_⟩
  rw [key.2.2]
  have goal : (visits (run max.natAbs els { s with nextElem := start, retreat := decide (max < 0) }).trace).filterMap
      (els[·]?) = passed els start max ∧
      (run max.natAbs els { s with nextElem := start, retreat := decide (max < 0) }).st.nextElem =
      (if 0 ≤ max then start + min max.toNat (els.length - start)
        else if start < els.length then (if max.natAbs ≤ start then start - max.natAbs else sizeMod - 1) else start) := by
    unfold passed
    by_cases h0 : 0 ≤ max
    · obtain ⟨r, hr, _, hv, hn, _⟩ := C22_forward els s start max hs hl h0
      rw [propagate_eq els s start max hm] at hr
      cases hr
      rw [hv, hn, if_pos h0, if_pos h0]
      exact ⟨filterMap_range' els _ _, rfl⟩
    · rw [if_neg h0, if_neg h0]
      by_cases hst : start < els.length
      · obtain ⟨r, hr, _, hv, hn, _⟩ := C24_backward els s start max hs hl hst (by omega) hm
        rw [propagate_eq els s start max hm] at hr
        cases hr
        rw [hv, hn, if_pos hst, if_pos hst]
        exact ⟨filterMap_down els _ _ hst, rfl⟩
      · rw [if_neg hst, if_neg hst]
        have hnone : els[({ s with nextElem := start, retreat := decide (max < 0) } : St (LSt σ)).nextElem]? = none :=
          List.getElem?_eq_none (by simpa using hst)
        cases hN : max.natAbs with
        | zero => simp [run, visits]
        | succ n => rw [run_succ_none hnone]; simp [visits]
  rw [goal.1]
  exact ⟨rfl, rfl, goal.2⟩

/-- What one element of any registered class does. -/
def act (k : Kind σ) (p : LSt σ) (e : LElem σ) : LSt σ :=
  match e.dat.istate with
  | some i => ⟨0, i⟩
  | none => ⟨p.pos + e.dat.length, k.prod e.dat.transfer p.state⟩

theorem run_any {k : Kind σ} {base : Nat} (n : Nat) : ∀ (els : List (LElem σ)) (s : St (LSt σ)),
    (∀ e ∈ els, ∃ t, e.cls = cls k base t) →
    (run n els s).elems = els ∧
    (run n els s).st.payload = ((visits (run n els s).trace).filterMap (els[·]?)).foldl (act k) s.payload := by
  induction n with
  | zero => intro els s _; simp [run, visits]
  | succ n ih =>
    intro els s hp
    cases h : els[s.nextElem]? with
    | none => rw [run_succ_none h]; simp [visits]
    | some e =>
      have hpay : (stepNext s).payload = s.payload := by unfold stepNext; split <;> rfl
      have ha : e.cls.advance e.dat (stepNext s) = (e.dat, { stepNext s with payload := act k s.payload e }, none) := by
        obtain ⟨t, ht⟩ := hp e (List.mem_of_getElem? h)
        rw [ht]
        show advance k e.dat (stepNext s) = _
        unfold advance act
        cases e.dat.istate with
        | none => rw [hpay]
        | some i => rfl
      rw [run_succ_ok h (by rw [ha])]
      dsimp only
      rw [ha]
      dsimp only
      have hset : els.set s.nextElem { e with dat := e.dat } = els := set_self _ _ _ h
      rw [hset]
      obtain ⟨h1, h3⟩ := ih els { stepNext s with payload := act k s.payload e } hp
      refine ⟨h1, ?_⟩
      rw [h3]
      simp only [List.cons_append, visits, visits_append, visits_view, List.nil_append, List.filterMap_cons, h,
        List.foldl_cons]

theorem act_plain {k : Kind σ} (hk : Lawful k) (l : List (LElem σ)) : ∀ p : LSt σ, (∀ e ∈ l, e.dat.istate = none) →
    l.foldl (act k) p = ⟨p.pos + (l.map (·.dat.length)).sum, k.prod (along (l.map (·.dat.transfer))) p.state⟩ := by
  induction l with
  | nil => intro p _; simp [along, hk.one]
  | cons e l ih =>
    intro p h
    rw [List.foldl_cons, ih _ (fun e he => h e (List.mem_cons_of_mem _ he))]
    simp [act, h e List.mem_cons_self, along, hk.mul, add_assoc]

/-! ## machines built from configurations -/

theorem registered_linear {k : Kind σ} {base : Nat} {sim sim' ty : String} {c : Cls LCfg (LDat σ) (LSt σ)}
    (h : Registered (registry k base sim) sim' ty c) : ∃ t : LType, c = cls k base t ∧ t.name = ty := by
  obtain ⟨i, p, h1, h2, h3⟩ := h
  have ha : (registry k base sim).abs sim' = some (i.builder, fun e => (i.elements.find e).bind (registry k base sim).deref) := by
    simp [World.abs, h1]
  have hty : ((i.elements.find ty).bind (registry k base sim).deref) = some c := by simp [h2, h3]
  rw [registry, (C26_registry_refines _).1] at ha
  by_cases hsim : sim' = sim
  · subst hsim
    simp [WOp.specAll, WOp.spec] at ha
    have := congrFun ha.2 ty
    rw [registry] at hty
    rw [hty] at this
    clear ha hty
    split at this
    · exact ⟨.generic, by simp_all [LType.name]⟩
    split at this
    · exact ⟨.solenoid, by simp_all [LType.name]⟩
    split at this
    · exact ⟨.quadrupole, by simp_all [LType.name]⟩
    split at this
    · exact ⟨.sbend, by simp_all [LType.name]⟩
    split at this
    · exact ⟨.drift, by simp_all [LType.name]⟩
    split at this
    · exact ⟨.marker, by simp_all [LType.name]⟩
    split at this
    · exact ⟨.source, by simp_all [LType.name]⟩
    · cases this
  · simp [WOp.specAll, WOp.spec, hsim] at ha

theorem build_ok {k : Kind σ} {t : LType} {c : LCfg} {d : LDat σ} (h : build k t c = .ok d) :
    transferOf t c = .ok d.transfer ∧ d.length = getNumD c "L" 0 ∧ (t ≠ .source → d.istate = none) := by
  unfold build at h
  cases hM : transferOf t c with
  | error e => simp [hM] at h
  | ok M =>
    simp only [hM] at h
    by_cases ht : t = .source
    · rw [if_pos ht] at h
      cases hi : k.init c with
      | error e => simp [hi] at h
      | ok x =>
        simp only [hi, Except.ok.injEq] at h
        subst h
        exact ⟨rfl, rfl, fun hn => absurd ht hn⟩
    · rw [if_neg ht] at h
      simp only [Except.ok.injEq] at h
      subst h
      exact ⟨rfl, rfl, fun _ => rfl⟩

theorem LType.name_inj {a b : LType} (h : a.name = b.name) : a = b := by
  cases a <;> cases b <;> first | rfl | (exact absurd h (by decide))

end Flame.Linear
