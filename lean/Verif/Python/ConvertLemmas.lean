import Verif.Python.ConvertSpec
import Mathlib.Data.List.Perm.Basic
import Mathlib.Tactic.Common

/-!
# Lemmas on the conversion
-/

namespace Flame.Python

open Flame.Glps (Name CV Cf)

variable {N : Type}

theorem cstr_id {s : Name} (h : '\x00' ∉ s) : cstr s = s := by
  unfold cstr
  induction s with
  | nil => rfl
  | cons c s ih =>
    have hc : (c != '\x00') = true := by simpa using fun h' : c = '\x00' => h (h' ▸ List.mem_cons_self ..)
    rw [List.takeWhile_cons, if_pos hc, ih (fun h' => h (List.mem_cons_of_mem _ h'))]

theorem parseItem_pair {k : Name} (v : Py N) (h : '\x00' ∉ k) : parseItem (pair k v) = some (k, v) := by
  simp only [pair, parseItem, if_neg h]

theorem elemItems_of {e : Py N} {its : List (Py N)} (h : IsElem e its) : elemItems e = some its := by
  rcases h with rfl | ⟨d, rfl, rfl⟩ <;> rfl

theorem isElem_of {e : Py N} {its : List (Py N)} (h : elemItems e = some its) : IsElem e its := by
  cases e with
  | list l => exact .inl (by simpa [elemItems] using h)
  | dict d => exact .inr ⟨d, rfl, by simpa [elemItems] using h.symm⟩
  | _ => simp [elemItems] at h

theorem parseItem_some {it : Py N} {k : Name} {v : Py N} (h : parseItem it = some (k, v)) : it = pair k v ∧ '\x00' ∉ k := by
  unfold parseItem at h
  split at h
  · split at h
    · cases h
    · rename_i hk
      cases h
      exact ⟨rfl, hk⟩
  · cases h

theorem ownPy_map : ∀ (m : List (Name × CV N)), (∀ p ∈ m, '\x00' ∉ p.1) →
    ownPy m = (m.map (fun p => (p.1, cvPy p.2))).map (fun p => pair p.1 p.2)
  | [], _ => rfl
  | (k, v) :: m, h => by
    rw [ownPy, ownPy_map m (fun p hp => h p (List.mem_cons_of_mem _ hp)), cstr_id (h (k, v) (List.mem_cons_self ..))]
    rfl

theorem insert_perm {V : Type} (m : SMap Name V) (k : Name) (v : V) (h : ∀ p ∈ m, p.1 ≠ k) :
    (SMap.insert m k v).Perm ((k, v) :: m) := by
  induction m with
  | nil => exact List.Perm.refl _
  | cons p m ih =>
    obtain ⟨x, w⟩ := p
    have hx : k ≠ x := fun e => h (x, w) (List.mem_cons_self ..) e.symm
    unfold SMap.insert
    rw [if_neg hx]
    split
    · exact List.Perm.refl _
    · exact ((ih (fun p hp => h p (List.mem_cons_of_mem _ hp))).cons _).trans (List.Perm.swap ..)

/-- What is shown of the recursive call. -/
def SubOk (n : Nat) (its : List (Py N)) (c0 : Cf N) (r : Except Err (Cf N)) : Prop :=
  ∃ c out, r = .ok c ∧ cfPy c = .list out ∧ Same n its out ∧ c.inh = c0.inh ∧ SMap.Sorted c.own

theorem elems_ok {n : Nat} (sub : List (Py N) → Cf N → Except Err (Cf N)) (R : List (Py N) → Prop)
    (hsub : ∀ its i, R its → SubOk n its (Cf.mk [] i) (sub its (.mk [] i))) (c : Cf N) :
    ∀ l : List (Py N), (∀ e ∈ l, ∃ its, IsElem e its ∧ R its) →
      ∃ cs, convElems sub c l = .ok cs ∧
        List.Forall₂ (fun e e' => ∃ its its', IsElem e its ∧ e' = .list its' ∧ Same n its its') l (cfsPy cs)
  | [], _ => ⟨[], rfl, .nil⟩
  | e :: l, h => by
    obtain ⟨its, h1, h2⟩ := h e (List.mem_cons_self ..)
    obtain ⟨cs, h3, h4⟩ := elems_ok sub R hsub c l (fun e he => h e (List.mem_cons_of_mem _ he))
    have h5 := hsub its (newScope c).inh h2
    obtain ⟨r, out, h5, h6, h7, _⟩ := h5
    have h5 : sub its (newScope c) = .ok r := h5
    refine ⟨r :: cs, ?_, ?_⟩
    · rw [convElems, elemItems_of h1]
      simp only [h5, h3]
    · rw [cfsPy]
      exact .cons ⟨its, out, h1, h6, h7⟩ h4

theorem val_ok {n : Nat} (sub : List (Py N) → Cf N → Except Err (Cf N)) (R : List (Py N) → Prop)
    (hsub : ∀ its i, R its → SubOk n its (Cf.mk [] i) (sub its (.mk [] i))) (c : Cf N) (v : Py N) (hv : GoodVal R v) :
    ∃ w, convVal sub c v = .ok w ∧ SameVal (Same n) v (cvPy w) := by
  rcases hv with ⟨x, rfl⟩ | ⟨sh, xs, rfl, h⟩ | ⟨s, rfl, h⟩ | ⟨l, hl, h⟩
  · exact ⟨.num x, rfl, .inl ⟨x, rfl, by rw [cvPy]⟩⟩
  · refine ⟨.vec xs, ?_, .inr (.inl ⟨sh, xs, rfl, h, by rw [cvPy]⟩)⟩
    rw [convVal, if_neg (by omega)]
  · refine ⟨.str (cstr s), rfl, .inr (.inr (.inl ⟨s, rfl, h, ?_⟩))⟩
    rw [cvPy, cstr_id h, cstr_id h]
  · obtain ⟨cs, h1, h2⟩ := elems_ok sub R hsub c l h
    refine ⟨.cfgs cs, ?_, .inr (.inr (.inr ⟨l, cfsPy cs, hl, by rw [cvPy], h2⟩))⟩
    rcases hl with rfl | rfl <;> simp only [convVal, h1] <;> rfl

theorem items_ok {n : Nat} (sub : List (Py N) → Cf N → Except Err (Cf N)) (R : List (Py N) → Prop)
    (hsub : ∀ its i, R its → SubOk n its (Cf.mk [] i) (sub its (.mk [] i))) :
    ∀ (ents : List (Name × Py N)) (c : Cf N), SMap.Sorted c.own → (ents.map (·.1)).Nodup →
      (∀ p ∈ ents, ∀ q ∈ c.own, q.1 ≠ p.1) → (∀ p ∈ ents, '\x00' ∉ p.1) → (∀ p ∈ ents, GoodVal R p.2) →
      ∃ (c' : Cf N) (vals : List (Name × CV N)), convItems sub (ents.map (fun p => pair p.1 p.2)) c = .ok c' ∧
        c'.inh = c.inh ∧ SMap.Sorted c'.own ∧ List.Perm (c'.own : List (Name × CV N)) (vals ++ c.own) ∧
        List.Forall₂ (fun a b => a.1 = b.1 ∧ SameVal (Same n) a.2 (cvPy b.2)) ents vals
  | [], c, hs, _, _, _, _ => ⟨c, [], rfl, rfl, hs, List.Perm.refl _, .nil⟩
  | (k, v) :: ents, c, hs, hn, hd, h0, hg => by
    obtain ⟨w, h1, h2⟩ := val_ok sub R hsub c v (hg (k, v) (List.mem_cons_self ..))
    rw [List.map_cons, List.nodup_cons] at hn
    have hnew : ∀ p ∈ c.own, p.1 ≠ k := fun p hp => hd (k, v) (List.mem_cons_self ..) p hp
    have hperm := insert_perm c.own k w hnew
    obtain ⟨c', vals, g1, g2, g3, g4, g5⟩ := items_ok sub R hsub ents (setVal c k w)
      (SMap.sorted_insert _ _ _ hs) hn.2
      (by
        intro p hp q hq
        have hq' : q ∈ (k, w) :: (c.own : List (Name × CV N)) := hperm.mem_iff.1 hq
        rcases List.mem_cons.1 hq' with rfl | hq'
        · intro he
          exact hn.1 (List.mem_map.2 ⟨p, hp, he.symm⟩)
        · exact hd p (List.mem_cons_of_mem _ hp) q hq')
      (fun p hp => h0 p (List.mem_cons_of_mem _ hp)) (fun p hp => hg p (List.mem_cons_of_mem _ hp))
    refine ⟨c', (k, w) :: vals, ?_, g2, g3, ?_, .cons ⟨rfl, h2⟩ g5⟩
    · rw [List.map_cons, convItems, parseItem_pair v (h0 (k, v) (List.mem_cons_self ..))]
      simp only [h1, g1]
    · refine g4.trans ((List.Perm.append_left vals hperm).trans ?_)
      exact List.perm_middle

theorem list_ok : ∀ (n : Nat) (its : List (Py N)) (i : SMap Name (CV N)), Good n its →
    SubOk n its (Cf.mk [] i) (list2Config n its (.mk [] i))
  | 0, _, _, h => h.elim
  | n + 1, its, i, h => by
    obtain ⟨ents, rfl, hn, h0, hg⟩ := h
    obtain ⟨c', vals, g1, g2, g3, g4, g5⟩ := items_ok (list2Config n) (Good n) (fun its i h => list_ok n its i h) ents
      (.mk [] i) (SMap.sorted_nil) hn (fun p _ q hq => by cases hq) h0 hg
    have g4' : List.Perm (c'.own : List (Name × CV N)) vals := by
      have e : vals ++ (Cf.mk [] i : Cf N).own = vals := List.append_nil _
      rwa [e] at g4
    have hk : ∀ p ∈ vals, '\x00' ∉ p.1 := by
      clear g1 g4 g4'
      induction g5 with
      | nil => intro p hp; cases hp
      | @cons a b l1 l2 hab _ ih =>
        intro p hp
        rcases List.mem_cons.1 hp with rfl | hp
        · rw [← hab.1]; exact h0 a (List.mem_cons_self ..)
        · rw [List.map_cons, List.nodup_cons] at hn
          exact ih hn.2 (fun p hp => h0 p (List.mem_cons_of_mem _ hp)) (fun p hp => hg p (List.mem_cons_of_mem _ hp)) p hp
    have hown : ∀ p ∈ (c'.own : List (Name × CV N)), '\x00' ∉ p.1 := fun p hp => hk p (g4'.mem_iff.1 hp)
    refine ⟨c', ownPy c'.own, g1, ?_, ?_, g2, g3⟩
    · obtain ⟨o, j⟩ := c'
      rw [cfPy]; rfl
    · rw [ownPy_map _ hown]
      refine ⟨ents, _, rfl, rfl, ?_, vals.map (fun p => (p.1, cvPy p.2)), g4'.map _, ?_⟩
      · rw [List.pairwise_map]
        exact g3
      · rw [List.forall₂_map_right_iff]
        exact g5

/-! ### Scopes -/

theorem look_newScope (c : Cf N) (q : Name) : (newScope c).look q = c.look q := by
  obtain ⟨o, i⟩ := c
  show SMap.find (if o.isEmpty then i else if i.isEmpty then o else SMap.merge o i : SMap Name (CV N)) q =
    match SMap.find o q with
    | some v => some v
    | none => SMap.find i q
  cases o with
  | nil => rfl
  | cons a o =>
    cases i with
    | nil =>
      show SMap.find (a :: o) q = _
      cases SMap.find (a :: o) q <;> rfl
    | cons b i =>
      show SMap.find (SMap.merge (a :: o) (b :: i)) q = _
      rw [SMap.find_merge]
      cases SMap.find (a :: o) q <;> rfl

theorem look_setVal (c : Cf N) (k q : Name) (v : CV N) :
    (setVal c k v).look q = if q = k then some v else c.look q := by
  simp only [setVal, Cf.look, Cf.own, Cf.inh, SMap.find_insert]
  by_cases h : q = k
  · simp [h]
  · simp [h]

end Flame.Python
