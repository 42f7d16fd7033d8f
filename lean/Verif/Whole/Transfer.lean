import Verif.Whole.Model
import Verif.Machine.Run

/-! # Machines over different configurations -/

namespace Flame.Whole

open Flame.Mach

variable {C C' X S : Type}

/-- The same element, made from a configuration and from what is seen of it. -/
structure Same (f : C' → C) (e' : Elem C' X S) (e : Elem C X S) : Prop where
  cls : e'.cls = over f e.cls
  name : e'.name = e.name
  index : e'.index = e.index
  conf : e.conf = f e'.conf
  obs : e'.obs = e.obs
  dat : e'.dat = e.dat

/-- The same machine. -/
structure SameMach (f : C' → C) (m' : Machine C' X S) (m : Machine C X S) : Prop where
  info : m'.info = m.info
  conf : m.conf = f m'.conf
  simtype : m'.simtype = m.simtype
  elems : List.Forall₂ (Same f) m'.elems m.elems
  byName : m'.byName = m.byName
  byType : m'.byType = m.byType

/-- Both fail in the same way, or both succeed with related results. -/
inductive Both {α β : Type} (R : α → β → Prop) : Out α → Out β → Prop
  | ok {a b} : R a b → Both R (.ok a) (.ok b)
  | err (e : Err) : Both R (.err e) (.err e)
  | ub : Both R .ub .ub

theorem deref_over (f : C' → C) (w : World C X S) (p : Nat) : (overWorld f w).deref p = (w.deref p).map (over f) := by
  unfold World.deref overWorld
  dsimp only
  rw [List.getElem?_map]
  cases w.heap[p]? with
  | none => rfl
  | some k => rfl

theorem buildAt_both {f : C' → C} {cv' : CView C'} {cv : CView C} {w : World C X S} {ec : C'} (info : Info) (idx : Nat)
    (ht : cv'.str ec "type" = cv.str (f ec) "type") (hn : cv'.str ec "name" = cv.str (f ec) "name") :
    Both (fun a b => Same f a.1 b.1 ∧ a.2 = b.2) (buildAt cv' (overWorld f w) info idx ec) (buildAt cv w info idx (f ec)) := by
  unfold buildAt
  rw [ht]
  cases cv.str (f ec) "type" with
  | error e => exact .err e
  | ok ty =>
    dsimp only
    cases info.elements.find ty with
    | none => exact .err _
    | some p =>
      dsimp only
      rw [deref_over]
      cases w.deref p with
      | none => exact .ub
      | some k =>
        dsimp only [Option.map_some]
        unfold Cls.new
        rw [hn]
        cases cv.str (f ec) "name" with
        | error e => cases e <;> exact .err _
        | ok nm =>
          dsimp only [over]
          cases k.build (f ec) with
          | error e => cases e <;> exact .err _
          | ok x =>
            dsimp only
            by_cases h : k.typeName ≠ ty
            · rw [if_pos h, if_pos h]
              exact .err _
            · rw [if_neg h, if_neg h]
              exact .ok ⟨⟨rfl, rfl, rfl, rfl, rfl, rfl⟩, rfl⟩

theorem buildAll_both {f : C' → C} {cv' : CView C'} {cv : CView C} {w : World C X S} (info : Info) : ∀ (es : List C') (idx : Nat)
    (a : Acc C' X S) (b : Acc C X S), (∀ ec ∈ es, cv'.str ec "type" = cv.str (f ec) "type" ∧ cv'.str ec "name" = cv.str (f ec) "name") →
    List.Forall₂ (Same f) a.elems b.elems → a.byName = b.byName → a.byType = b.byType →
    Both (fun a b => List.Forall₂ (Same f) a.elems b.elems ∧ a.byName = b.byName ∧ a.byType = b.byType)
      (buildAll cv' (overWorld f w) info idx a es) (buildAll cv w info idx b (es.map f))
  | [], idx, a, b, _, h1, h2, h3 => .ok ⟨h1, h2, h3⟩
  | ec :: es, idx, a, b, h, h1, h2, h3 => by
    rw [List.map_cons]
    unfold buildAll
    have hb := buildAt_both (w := w) info idx (h ec (List.mem_cons_self ..)).1 (h ec (List.mem_cons_self ..)).2
    generalize buildAt cv' (overWorld f w) info idx ec = x at hb
    generalize buildAt cv w info idx (f ec) = y at hb
    cases hb with
    | err e => exact .err e
    | ub => exact .ub
    | @ok p q hpq =>
      obtain ⟨e', t'⟩ := p
      obtain ⟨e, t⟩ := q
      obtain ⟨hs, ht⟩ := hpq
      dsimp only at hs ht ⊢
      subst ht
      refine buildAll_both info es (idx + 1) _ _ (fun x hx => h x (List.mem_cons_of_mem _ hx)) ?_ ?_ ?_
      · exact List.rel_append h1 (.cons hs .nil)
      · rw [h2, hs.name, hs.index, h1.length_eq]
      · rw [h3, hs.index, h1.length_eq]

/-- The construction of a machine sees of the configurations only the types, the names and what the classes read. -/
theorem new_both {f : C' → C} {cv' : CView C'} {cv : CView C} {w : World C X S} {c : C'} {es : List C'}
    (hes : cv'.elems c = .ok es) (hes' : cv.elems (f c) = .ok (es.map f)) (hs : cv'.str c "sim_type" = cv.str (f c) "sim_type")
    (h : ∀ ec ∈ es, cv'.str ec "type" = cv.str (f ec) "type" ∧ cv'.str ec "name" = cv.str (f ec) "name") :
    Both (SameMach f) (Machine.new cv' (overWorld f w) c) (Machine.new cv w (f c)) := by
  unfold Machine.new
  rw [hs]
  cases cv.str (f c) "sim_type" with
  | error e => exact .err e
  | ok ty =>
    dsimp only
    rw [show (overWorld f w).infos = w.infos from rfl]
    cases w.infos.find ty with
    | none => exact .err _
    | some info =>
      dsimp only
      rw [hes, hes']
      dsimp only
      have hb := buildAll_both (w := w) info es 0 ⟨[], [], []⟩ ⟨[], [], []⟩ h .nil rfl rfl
      generalize buildAll cv' (overWorld f w) info 0 ⟨[], [], []⟩ es = x at hb
      generalize buildAll cv w info 0 ⟨[], [], []⟩ (es.map f) = y at hb
      cases hb with
      | err e => exact .err e
      | ub => exact .ub
      | ok h => exact .ok ⟨rfl, rfl, rfl, h.1, h.2.1, h.2.2⟩

theorem same_get {f : C' → C} {els' : List (Elem C' X S)} {els : List (Elem C X S)} (h : List.Forall₂ (Same f) els' els) (n : Nat) :
    (els'[n]? = none ∧ els[n]? = none) ∨ ∃ e' e, els'[n]? = some e' ∧ els[n]? = some e ∧ Same f e' e := by
  induction h generalizing n with
  | nil => exact .inl ⟨rfl, rfl⟩
  | cons hh _ ih =>
    cases n with
    | zero => exact .inr ⟨_, _, rfl, rfl, hh⟩
    | succ n => exact ih n

theorem same_set {f : C' → C} {els' : List (Elem C' X S)} {els : List (Elem C X S)} (h : List.Forall₂ (Same f) els' els) {n : Nat}
    {e' : Elem C' X S} {e : Elem C X S} (he : Same f e' e) : List.Forall₂ (Same f) (els'.set n e') (els.set n e) := by
  induction h generalizing n with
  | nil => exact .nil
  | cons hh ht ih =>
    cases n with
    | zero => exact .cons he ht
    | succ n => exact .cons hh ih

/-- Same machines give the same simulations. -/
theorem run_same {f : C' → C} : ∀ (n : Nat) (els' : List (Elem C' X S)) (els : List (Elem C X S)) (s : St S),
    List.Forall₂ (Same f) els' els → (run n els' s).st = (run n els s).st ∧ (run n els' s).err = (run n els s).err ∧
      (run n els' s).trace = (run n els s).trace ∧ List.Forall₂ (Same f) (run n els' s).elems (run n els s).elems ∧
      passages n els' s = passages n els s
  | 0, _, _, _, h => ⟨rfl, rfl, rfl, h, rfl⟩
  | n + 1, els', els, s, h => by
    unfold passages
    rcases same_get h s.nextElem with ⟨h1, h2⟩ | ⟨e', e, h1, h2, hs⟩
    · rw [run_succ_none h1, run_succ_none h2, h1, h2]
      exact ⟨rfl, rfl, rfl, h, rfl⟩
    · have ha : e'.cls.advance e'.dat (stepNext s) = e.cls.advance e.dat (stepNext s) := by
        rw [hs.cls, hs.dat]
        rfl
      have hd : Same f { e' with dat := (e.cls.advance e.dat (stepNext s)).1 }
          { e with dat := (e.cls.advance e.dat (stepNext s)).1 } :=
        ⟨hs.cls, hs.name, hs.index, hs.conf, hs.obs, rfl⟩
      rw [h1, h2]
      dsimp only
      cases hx : (e.cls.advance e.dat (stepNext s)).2.2 with
      | some x =>
        rw [run_succ_err h2 hx, run_succ_err h1 (by rw [ha]; exact hx), ha, hx]
        exact ⟨rfl, rfl, rfl, same_set h hd, rfl⟩
      | none =>
        rw [run_succ_ok h2 hx, run_succ_ok h1 (by rw [ha]; exact hx), ha, hx]
        dsimp only
        obtain ⟨r1, r2, r3, r4, r5⟩ := run_same n _ _ (e.cls.advance e.dat (stepNext s)).2.1 (same_set (n := s.nextElem) h hd)
        refine ⟨r1, r2, ?_, r4, ?_⟩
        · rw [r3]
          unfold viewEvents
          rw [hs.obs, hs.index]
        · rw [r5]

end Flame.Whole
