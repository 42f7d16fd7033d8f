import Verif.Cavity.Insert
import Verif.Cavity.Cache
import Verif.Cavity.SpecReuse

/-! # C89: a machine that was used and reconfigured gives the results of a new one -/

namespace Flame.Cavity

open Flame.Mach (Cls St Err CView World Machine propagate Elem Run run stepNext run_succ_none run_succ_err run_succ_ok propagate_eq new_ok
  C18_success_iff C21_reconfigure_one_or_nothing Registered GoodEntry Event viewEvents passages)
open Flame.Linear (LVal LCfg)
open Flame.Moment Flame.Moment.Spec
open Spec (Complete History Touched FailedAt)

/-- What is stored in an element of a machine, after some use, does not matter for forward simulations. -/
def AsNew (env : Env) (files : Files) (junk : Mat) (base : Nat) (cv : CView LCfg) (ec : LCfg) (e : Elem LCfg MDat MSt) : Prop :=
  (e.conf = ec ∧ ∃ nm, cv.str ec "name" = .ok nm) ∧ ∃ ty d, cv.str ec "type" = .ok ty ∧
    ((∃ t : MType, e.cls = cls env junk base t ∧ t.name = ty ∧ build env junk t ec = .ok d ∧ fresh env e.dat = fresh env d ∧
        Fit env t e.dat false) ∨
     (e.cls = cavityCls env files junk base ∧ ty = "rfcavity" ∧ buildCavity env files junk ec = .ok d ∧
        ∃ cd, loadCavity env files d.conf noCav = (cd, none) ∧ Used files d cd e.dat) ∨
     (e.cls = stripperCls env junk base ∧ ty = "stripper" ∧ build env junk .marker ec = .ok d ∧ e.dat = d))

/-- A forward pass through such an element gives what a new element gives, and if it succeeds the element stays as it is. -/
theorem AsNew.pass {env : Env} {files : Files} {junk : Mat} {base : Nat} {cv : CView LCfg} {ec : LCfg} {e : Elem LCfg MDat MSt}
    (h : AsNew env files junk base cv ec e) : ∃ d, MadeFrom env files junk base cv ec { e with dat := d } ∧
      ∀ s : St MSt, s.retreat = false → (e.cls.advance e.dat s).2 = (e.cls.advance d s).2 ∧
        (Complete s.payload → (e.cls.advance e.dat s).2.2 = none →
          AsNew env files junk base cv ec { e with dat := (e.cls.advance e.dat s).1 }) := by
  obtain ⟨hn, ty, d, hty, ⟨t, c1, c2, c3, c4, c5⟩ | ⟨c1, c2, c3, cd, c4, c5⟩ | ⟨c1, c2, c3, c4⟩⟩ := h
  · refine ⟨d, ⟨ty, hty, .inl ⟨t, c1, c2, c3⟩⟩, fun s hr => ?_⟩
    rw [c1]
    obtain ⟨p1, p2⟩ := pass_fit env t e.dat s (by rw [hr]; exact c5)
    obtain ⟨q1, -⟩ := pass_fit env t d s (fit_none _ _ _ _ (build_length c3).2.2.1)
    rw [c4] at p1
    refine ⟨p1.trans q1.symm, fun _ hok => ⟨hn, ty, d, hty, .inl ⟨t, rfl, c2, c3, ?_, (p2 hok).2 false (.inl hr.symm)⟩⟩⟩
    obtain ⟨a, b, c, x, f, hd⟩ := (p2 hok).1
    show fresh env (advance env t e.dat s).1 = _
    rw [hd, ← c4]
    rfl
  · refine ⟨d, ⟨ty, hty, .inr (.inl ⟨c1, c2, c3⟩)⟩, fun s hr => ?_⟩
    rw [c1]
    obtain ⟨cd', h1, h2, h3⟩ := built c3
    rw [c4] at h1
    cases h1
    have p := pass_used (s := s) c4 c5 hr
    have q := pass_used (s := s) c4 (used_built c4 h2 h3) hr
    refine ⟨p.1.trans q.1.symm, fun hc hok => ⟨hn, ty, d, hty, .inr (.inl ⟨rfl, c2, c3, cd, c4, ?_⟩)⟩⟩
    refine p.2 (complete_wf hc) ?_
    have hok : (advanceCavity env files e.dat s).2.2 = none := hok
    rw [p.1] at hok
    exact hok
  · refine ⟨d, ⟨ty, hty, .inr (.inr ⟨c1, c2, c3⟩)⟩, fun s hr => ?_⟩
    rw [c1, c4]
    refine ⟨rfl, fun _ _ => ⟨hn, ty, d, hty, .inr (.inr ⟨rfl, c2, c3, ?_⟩)⟩⟩
    show (advanceStripper d s).1 = d
    unfold advanceStripper
    dsimp only
    split
    · rfl
    · split <;> rfl

theorem AsNew.same {env : Env} {files : Files} {junk : Mat} {base : Nat} {cv : CView LCfg} {ec : LCfg}
    {e e' : Elem LCfg MDat MSt} (h : AsNew env files junk base cv ec e) (h' : AsNew env files junk base cv ec e') (s : St MSt)
    (hr : s.retreat = false) : (e'.cls.advance e'.dat s).2 = (e.cls.advance e.dat s).2 := by
  obtain ⟨d, h1, h2⟩ := h.pass
  obtain ⟨d', h1', h2'⟩ := h'.pass
  obtain ⟨hc, hd⟩ := h1.same h1'
  have hc : e'.cls = e.cls := hc
  have hd : d' = d := hd
  rw [(h2 s hr).1, (h2' s hr).1, hc, hd]

/-! ## elements of which less is known -/

/-- What remains true of an element however it is used. -/
def Weak (env : Env) (files : Files) (junk : Mat) (base : Nat) (cv : CView LCfg) (ec : LCfg) (e : Elem LCfg MDat MSt) : Prop :=
  (e.conf = ec ∧ ∃ nm, cv.str ec "name" = .ok nm) ∧ ∃ ty d, cv.str ec "type" = .ok ty ∧
    ((∃ t : MType, e.cls = cls env junk base t ∧ t.name = ty ∧ build env junk t ec = .ok d) ∨
     (e.cls = cavityCls env files junk base ∧ ty = "rfcavity" ∧ buildCavity env files junk ec = .ok d ∧ Sound env files e.dat) ∨
     (e.cls = stripperCls env junk base ∧ ty = "stripper" ∧ build env junk .marker ec = .ok d))

theorem AsNew.weak {env : Env} {files : Files} {junk : Mat} {base : Nat} {cv : CView LCfg} {ec : LCfg} {e : Elem LCfg MDat MSt}
    (h : AsNew env files junk base cv ec e) : Weak env files junk base cv ec e := by
  obtain ⟨hn, ty, d, hty, ⟨t, c1, c2, c3, -, -⟩ | ⟨c1, c2, c3, cd, c4, c5⟩ | ⟨c1, c2, c3, -⟩⟩ := h
  · exact ⟨hn, ty, d, hty, .inl ⟨t, c1, c2, c3⟩⟩
  · obtain ⟨o, o1, o2, -⟩ := c5.cav
    have hconf : e.dat.conf = d.conf := by rw [c5.frame]
    exact ⟨hn, ty, d, hty, .inr (.inl ⟨c1, c2, c3, cd, o, by rw [hconf]; exact c4, o1, o2⟩)⟩
  · exact ⟨hn, ty, d, hty, .inr (.inr ⟨c1, c2, c3⟩)⟩

theorem Weak.pass {env : Env} {files : Files} {junk : Mat} {base : Nat} {cv : CView LCfg} {ec : LCfg} {e : Elem LCfg MDat MSt}
    (h : Weak env files junk base cv ec e) (s : St MSt) :
    Weak env files junk base cv ec { e with dat := (e.cls.advance e.dat s).1 } := by
  obtain ⟨hn, ty, d, hty, ⟨t, c1, c2, c3⟩ | ⟨c1, c2, c3, c4⟩ | ⟨c1, c2, c3⟩⟩ := h
  · exact ⟨hn, ty, d, hty, .inl ⟨t, c1, c2, c3⟩⟩
  · refine ⟨hn, ty, d, hty, .inr (.inl ⟨c1, c2, c3, ?_⟩)⟩
    rw [c1]
    exact sound_pass c4 s
  · exact ⟨hn, ty, d, hty, .inr (.inr ⟨c1, c2, c3⟩)⟩

/-- The elements of a machine with these settings; those not in `T` are as good as new. -/
structure Held (env : Env) (files : Files) (junk : Mat) (base : Nat) (cv : CView LCfg) (T : Nat → Prop) (es : List LCfg)
    (els : List (Elem LCfg MDat MSt)) : Prop where
  len : els.length = es.length
  weak : ∀ (j : Nat) (ec : LCfg) (e : Elem LCfg MDat MSt), es[j]? = some ec → els[j]? = some e → Weak env files junk base cv ec e
  good : ∀ (j : Nat) (ec : LCfg) (e : Elem LCfg MDat MSt), es[j]? = some ec → els[j]? = some e → ¬ T j →
    AsNew env files junk base cv ec e

theorem Held.get {env : Env} {files : Files} {junk : Mat} {base : Nat} {cv : CView LCfg} {T : Nat → Prop} {es : List LCfg}
    {els : List (Elem LCfg MDat MSt)} (h : Held env files junk base cv T es els) {j : Nat} {e : Elem LCfg MDat MSt}
    (he : els[j]? = some e) : ∃ ec, es[j]? = some ec :=
  ⟨_, List.getElem?_eq_getElem (by rw [← h.len]; exact lt_of_get he)⟩

theorem Held.mono {env : Env} {files : Files} {junk : Mat} {base : Nat} {cv : CView LCfg} {T T' : Nat → Prop} {es : List LCfg}
    {els : List (Elem LCfg MDat MSt)} (h : Held env files junk base cv T es els) (hT : ∀ j, T j → T' j) :
    Held env files junk base cv T' es els :=
  ⟨h.len, h.weak, fun j ec e h1 h2 h3 => h.good j ec e h1 h2 fun h => h3 (hT j h)⟩

theorem Held.set {env : Env} {files : Files} {junk : Mat} {base : Nat} {cv : CView LCfg} {T T' : Nat → Prop} {es : List LCfg}
    {els : List (Elem LCfg MDat MSt)} (h : Held env files junk base cv T es els) {n : Nat} {ec : LCfg} {e : Elem LCfg MDat MSt}
    (hw : Weak env files junk base cv ec e) (hg : ¬ T' n → AsNew env files junk base cv ec e) (hT : ∀ j, j ≠ n → T j → T' j) :
    Held env files junk base cv T' (es.set n ec) (els.set n e) := by
  refine ⟨by rw [List.length_set, List.length_set, h.len], fun j ec' e' h1 h2 => ?_, fun j ec' e' h1 h2 h3 => ?_⟩
  · by_cases hj : j = n
    · subst hj
      have hlt := lt_of_get h1
      rw [List.length_set] at hlt
      rw [List.getElem?_set_self hlt] at h1
      rw [List.getElem?_set_self (by rw [h.len]; exact hlt)] at h2
      cases h1
      cases h2
      exact hw
    · rw [List.getElem?_set_ne (fun h => hj h.symm)] at h1 h2
      exact h.weak j ec' e' h1 h2
  · by_cases hj : j = n
    · subst hj
      have hlt := lt_of_get h1
      rw [List.length_set] at hlt
      rw [List.getElem?_set_self hlt] at h1
      rw [List.getElem?_set_self (by rw [h.len]; exact hlt)] at h2
      cases h1
      cases h2
      exact hg h3
    · rw [List.getElem?_set_ne (fun h => hj h.symm)] at h1 h2
      exact h.good j ec' e' h1 h2 fun ht => h3 (hT j hj ht)

theorem set_same {α : Type} {l : List α} {n : Nat} {a : α} (h : l[n]? = some a) : l.set n a = l := by
  obtain ⟨hn, rfl⟩ := List.getElem?_eq_some_iff.1 h
  exact List.set_getElem_self hn

/-- The same with the settings left alone. -/
theorem Held.put {env : Env} {files : Files} {junk : Mat} {base : Nat} {cv : CView LCfg} {T T' : Nat → Prop} {es : List LCfg}
    {els : List (Elem LCfg MDat MSt)} (h : Held env files junk base cv T es els) {n : Nat} {ec : LCfg} {e : Elem LCfg MDat MSt}
    (hn : es[n]? = some ec) (hw : Weak env files junk base cv ec e) (hg : ¬ T' n → AsNew env files junk base cv ec e)
    (hT : ∀ j, j ≠ n → T j → T' j) : Held env files junk base cv T' es (els.set n e) := by
  have := h.set hw hg hT
  rwa [set_same hn] at this

/-! ## runs -/

theorem visit_ok {n : Nat} {els : List (Elem LCfg MDat MSt)} {s : St MSt} {e : Elem LCfg MDat MSt}
    (h : els[s.nextElem]? = some e) (hx : (e.cls.advance e.dat (stepNext s)).2.2 = none) (j : Nat) :
    Touched (run (n + 1) els s) j ↔ j = s.nextElem ∨
      Touched (run n (els.set s.nextElem { e with dat := (e.cls.advance e.dat (stepNext s)).1 })
        (e.cls.advance e.dat (stepNext s)).2.1) j := by
  unfold Touched
  rw [run_succ_ok h hx]
  dsimp only
  rw [List.mem_append, List.mem_cons]
  have : Event.visit j ∉ viewEvents e (e.cls.advance e.dat (stepNext s)).2.1 := by
    unfold viewEvents
    split <;> simp
  simp [this]

theorem failed_ok {n : Nat} {els : List (Elem LCfg MDat MSt)} {s : St MSt} {e : Elem LCfg MDat MSt}
    (h : els[s.nextElem]? = some e) (hx : (e.cls.advance e.dat (stepNext s)).2.2 = none) (j : Nat)
    (hf : FailedAt (run n (els.set s.nextElem { e with dat := (e.cls.advance e.dat (stepNext s)).1 })
        (e.cls.advance e.dat (stepNext s)).2.1) j) : FailedAt (run (n + 1) els s) j := by
  unfold FailedAt at hf ⊢
  rw [run_succ_ok h hx]
  dsimp only
  refine ⟨hf.1, ?_⟩
  rw [List.getLast?_append, hf.2]
  rfl

/-- Whatever is done: what is not touched stays as good as new. -/
theorem run_held {env : Env} {files : Files} {junk : Mat} {base : Nat} {cv : CView LCfg} {es : List LCfg} : ∀ (n : Nat)
    (T : Nat → Prop) (els : List (Elem LCfg MDat MSt)) (s : St MSt), Held env files junk base cv T es els →
    Held env files junk base cv (fun j => T j ∨ Touched (run n els s) j) es (run n els s).elems
  | 0, T, els, s, h => h.mono fun _ => .inl
  | n + 1, T, els, s, h => by
    cases he : els[s.nextElem]? with
    | none =>
      have : (run (n + 1) els s).elems = els := by rw [run_succ_none he]
      rw [this]
      exact h.mono fun _ => .inl
    | some e =>
      obtain ⟨ec, hec⟩ := h.get he
      cases h3 : (e.cls.advance e.dat (stepNext s)).2.2 with
      | some x =>
        have ht : Touched (run (n + 1) els s) s.nextElem := by
          unfold Touched
          rw [run_succ_err he h3]
          simp
        have : (run (n + 1) els s).elems = els.set s.nextElem { e with dat := (e.cls.advance e.dat (stepNext s)).1 } := by
          rw [run_succ_err he h3]
        rw [this]
        exact h.put hec ((h.weak _ _ _ hec he).pass _) (fun hn => absurd (.inr ht) hn) fun _ _ => .inl
      | none =>
        have : (run (n + 1) els s).elems = (run n (els.set s.nextElem { e with dat := (e.cls.advance e.dat (stepNext s)).1 })
            (e.cls.advance e.dat (stepNext s)).2.1).elems := by rw [run_succ_ok he h3]
        rw [this]
        have h4 : Held env files junk base cv (fun j => T j ∨ j = s.nextElem) es
            (els.set s.nextElem { e with dat := (e.cls.advance e.dat (stepNext s)).1 }) :=
          h.put hec ((h.weak _ _ _ hec he).pass _) (fun hn => absurd (.inr rfl) hn) fun _ _ => .inl
        refine (run_held n _ _ (e.cls.advance e.dat (stepNext s)).2.1 h4).mono fun j hj => ?_
        rw [visit_ok he h3]
        tauto

/-- Machines with the same settings give the same results, and stay as good as new, as long as only such elements are touched
that are. -/
theorem run_asNew {env : Env} {files : Files} {junk : Mat} {base : Nat} {cv : CView LCfg} {es : List LCfg} : ∀ (n : Nat)
    (T : Nat → Prop) (els els' : List (Elem LCfg MDat MSt)) (s : St MSt), Held env files junk base cv T es els →
    Held env files junk base cv T es els' → s.retreat = false → Complete s.payload →
    (∀ j, Touched (run n els s) j → ¬ T j) →
    (run n els' s).st = (run n els s).st ∧ (run n els' s).err = (run n els s).err ∧ passages n els' s = passages n els s ∧
      Held env files junk base cv (fun j => T j ∨ FailedAt (run n els s) j) es (run n els s).elems
  | 0, T, els, els', s, h, _, _, _, _ => ⟨rfl, rfl, rfl, h.mono fun _ => .inl⟩
  | n + 1, T, els, els', s, h, h', hr, hc, hT => by
    unfold passages
    cases he : els[s.nextElem]? with
    | none =>
      have he' : els'[s.nextElem]? = none := by
        rw [List.getElem?_eq_none_iff] at he ⊢
        rw [h'.len, ← h.len]
        exact he
      rw [run_succ_none he, run_succ_none he', he']
      exact ⟨rfl, rfl, rfl, h.mono fun _ => .inl⟩
    | some e =>
      obtain ⟨ec, hec⟩ := h.get he
      obtain ⟨e', he'⟩ : ∃ e', els'[s.nextElem]? = some e' := by
        have : s.nextElem < els'.length := by rw [h'.len]; exact lt_of_get hec
        exact ⟨_, List.getElem?_eq_getElem this⟩
      rw [he']
      dsimp only
      have htouch : Touched (run (n + 1) els s) s.nextElem := by
        cases h3 : (e.cls.advance e.dat (stepNext s)).2.2 with
        | some x =>
          unfold Touched
          rw [run_succ_err he h3]
          simp
        | none => exact (visit_ok he h3 _).2 (.inl rfl)
      have k2 := h.good _ _ _ hec he (hT _ htouch)
      have k2' := h'.good _ _ _ hec he' (hT _ htouch)
      have hr1 : (stepNext s).retreat = false := by
        unfold stepNext
        split <;> exact hr
      have hp1 : (stepNext s).payload = s.payload := by
        unfold stepNext
        split <;> rfl
      have hsame := k2.same k2' (stepNext s) hr1
      obtain ⟨d, hm, hd⟩ := k2.pass
      obtain ⟨d1, hd1⟩ := hd (stepNext s) hr1
      obtain ⟨d', hm', hd'⟩ := k2'.pass
      obtain ⟨-, hd1'⟩ := hd' (stepNext s) hr1
      cases h3 : (e.cls.advance e.dat (stepNext s)).2.2 with
      | some x =>
        have h3' : (e'.cls.advance e'.dat (stepNext s)).2.2 = some x := by rw [hsame, h3]
        rw [run_succ_err he h3, run_succ_err he' h3', h3']
        refine ⟨by rw [hsame], rfl, rfl, ?_⟩
        exact h.put hec (k2.weak.pass _) (fun hn => absurd (.inr ⟨nofun, rfl⟩) hn) fun _ _ => .inl
      | none =>
        have h3' : (e'.cls.advance e'.dat (stepNext s)).2.2 = none := by rw [hsame, h3]
        have hc1 : Complete (e.cls.advance e.dat (stepNext s)).2.1.payload := by
          rw [d1]
          exact hm.complete (stepNext s) hr1 (by rw [hp1]; exact hc) (by rw [← h3, d1])
        have hr2 : (e.cls.advance e.dat (stepNext s)).2.1.retreat = false := by
          rw [d1, ← hr1]
          exact (hm.keeps.1 d (stepNext s)).2
        have h4 : Held env files junk base cv T es (els.set s.nextElem { e with dat := (e.cls.advance e.dat (stepNext s)).1 }) :=
          h.put hec (k2.weak.pass _) (fun _ => hd1 (by rw [hp1]; exact hc) h3) fun _ _ h => h
        have h4' : Held env files junk base cv T es
            (els'.set s.nextElem { e' with dat := (e'.cls.advance e'.dat (stepNext s)).1 }) :=
          h'.put hec (k2'.weak.pass _) (fun _ => hd1' (by rw [hp1]; exact hc) h3') fun _ _ h => h
        obtain ⟨r1, r2, r3, r4⟩ := run_asNew n T _ _ _ h4 h4' hr2 hc1 fun j hj => hT j ((visit_ok he h3 j).2 (.inr hj))
        have e1 : (e'.cls.advance e'.dat (stepNext s)).2.1 = (e.cls.advance e.dat (stepNext s)).2.1 := by rw [hsame]
        have f1 : (run (n + 1) els s).elems = (run n (els.set s.nextElem { e with dat := (e.cls.advance e.dat (stepNext s)).1 })
            (e.cls.advance e.dat (stepNext s)).2.1).elems := by rw [run_succ_ok he h3]
        refine ⟨?_, ?_, ?_, ?_⟩
        · rw [run_succ_ok he h3, run_succ_ok he' h3']
          dsimp only
          rw [e1]
          exact r1
        · rw [run_succ_ok he h3, run_succ_ok he' h3']
          dsimp only
          rw [e1]
          exact r2
        · rw [h3', e1, r3]
        · rw [f1]
          refine r4.mono fun j hj => ?_
          rcases hj with hj | hj
          · exact .inl hj
          · exact .inr (failed_ok he h3 j hj)

/-! ## the elements of a machine through its history -/

theorem AsNew.of_made {env : Env} {files : Files} {junk : Mat} {base : Nat} {cv : CView LCfg} {ec : LCfg} {e : Elem LCfg MDat MSt}
    (hn : e.conf = ec ∧ ∃ nm, cv.str ec "name" = .ok nm) (h : MadeFrom env files junk base cv ec e) : AsNew env files junk base cv ec e := by
  obtain ⟨ty, hty, ⟨t, c1, c2, c3⟩ | ⟨c1, c2, c3⟩ | ⟨c1, c2, c3⟩⟩ := h
  · exact ⟨hn, ty, _, hty, .inl ⟨t, c1, c2, c3, rfl, fit_none _ _ _ _ (build_length c3).2.2.1⟩⟩
  · obtain ⟨cd, h1, h2, h3⟩ := built (junk := junk) c3
    exact ⟨hn, ty, _, hty, .inr (.inl ⟨c1, c2, c3, cd, h1, used_built h1 h2 h3⟩)⟩
  · exact ⟨hn, ty, _, hty, .inr (.inr ⟨c1, c2, c3, rfl⟩)⟩

/-- What is true of a machine with a history. -/
structure Sane (env : Env) (files : Files) (junk : Mat) (base : Nat) (cv : CView LCfg) (m : Machine LCfg MDat MSt)
    (es : List LCfg) (T : Nat → Prop) : Prop where
  info : (registry env junk base (cavityCls env files junk base) (stripperCls env junk base)).infos.find m.simtype = some m.info
  held : Held env files junk base cv T es m.elems

theorem names_of {env : Env} {files : Files} {junk : Mat} {base : Nat} {cv : CView LCfg} {c : LCfg} {m : Machine LCfg MDat MSt}
    {es : List LCfg}
    (h : Machine.new cv (registry env junk base (cavityCls env files junk base) (stripperCls env junk base)) c = .ok m)
    (hes : cv.elems c = .ok es) : Sane env files junk base cv m es (fun _ => False) := by
  have hF : List.Forall₂ (MadeFrom env files junk base cv) es m.elems := machine_moment h hes
  obtain ⟨-, -, -, hi, es', hes', -, hall⟩ := new_ok h
  rw [hes] at hes'
  cases hes'
  refine ⟨hi, ?_⟩
  have good : ∀ (j : Nat) (ec : LCfg) (e : Elem LCfg MDat MSt), es[j]? = some ec → m.elems[j]? = some e →
      AsNew env files junk base cv ec e := by
    intro j ec e h1 h2
    obtain ⟨ec', k1, k2⟩ := forall₂_get hF h2
    rw [h1] at k1
    cases k1
    obtain ⟨hlt, h1⟩ := List.getElem?_eq_some_iff.1 h1
    obtain ⟨p, k, -, -, hm⟩ := hall j hlt e h2
    rw [h1] at hm
    exact .of_made ⟨hm.conf, _, hm.name⟩ k2
  exact ⟨hF.length_eq.symm, fun j ec e h1 h2 => (good j ec e h1 h2).weak, fun j ec e h1 h2 _ => good j ec e h1 h2⟩

theorem index_inj {t u : MType} (h : t.index = u.index) : t = u := by
  cases t <;> cases u <;> first | rfl | exact absurd h (by decide)

theorem index_ne (t : MType) : t.index ≠ 10 ∧ t.index ≠ 11 := by
  cases t <;> exact ⟨by decide, by decide⟩

theorem Weak.assign {env : Env} {files : Files} {junk : Mat} {base : Nat} {cv : CView LCfg} {ec c : LCfg}
    {e : Elem LCfg MDat MSt} (h : Weak env files junk base cv ec e) {sim ty nm : String} {k : Cls LCfg MDat MSt} {d : MDat}
    (hk : Registered (registry env junk base (cavityCls env files junk base) (stripperCls env junk base)) sim ty k)
    (hid : k.id = e.cls.id) (hty : cv.str c "type" = .ok ty) (hnm : cv.str c "name" = .ok nm) (hd : k.build c = .ok d)
    (e' : Elem LCfg MDat MSt) (hc : e'.cls = e.cls) (hconf : e'.conf = c) (hdat : e'.dat = e.cls.assign e.dat d) :
    AsNew env files junk base cv c e' := by
  obtain ⟨-, ty0, d0, hty0, h⟩ := h
  refine ⟨⟨hconf, nm, hnm⟩, ty, d, hty, ?_⟩
  rw [hc, hdat]
  rcases registered_moment hk with ⟨t, rfl, rfl⟩ | ⟨rfl, rfl⟩ | ⟨rfl, rfl⟩
  · rcases h with ⟨u, c1, -, -⟩ | ⟨c1, -, -, -⟩ | ⟨c1, -, -⟩
    · rw [c1] at hid
      obtain rfl := index_inj (Nat.add_left_cancel hid : t.index = u.index)
      rw [c1]
      exact .inl ⟨t, rfl, rfl, hd, rfl, fit_none _ _ _ _ (build_length hd).2.2.1⟩
    · rw [c1] at hid
      exact absurd (Nat.add_left_cancel hid) (index_ne t).1
    · rw [c1] at hid
      exact absurd (Nat.add_left_cancel hid) (index_ne t).2
  · rcases h with ⟨u, c1, -, -⟩ | ⟨c1, -, -, c4⟩ | ⟨c1, -, -⟩
    · rw [c1] at hid
      exact absurd (Nat.add_left_cancel hid).symm (index_ne u).1
    · rw [c1]
      obtain ⟨cd', h1, h2, h3⟩ := built (junk := junk) hd
      obtain ⟨cd, o, -, ho, hL⟩ := c4
      refine .inr (.inl ⟨rfl, rfl, hd, cd', h1, ?_⟩)
      show Used files d cd' (assignCavity e.dat d)
      unfold assignCavity
      rw [ho, h2]
      exact ⟨rfl, { cd' with cavType := o.cavType, dataFile := o.dataFile, synAccTab := o.synAccTab, refNrm := o.refNrm,
                             synComplex := o.synComplex }, rfl, hL, .inl h3⟩
    · rw [c1] at hid
      exact absurd (Nat.add_left_cancel hid) (by decide)
  · rcases h with ⟨u, c1, -, -⟩ | ⟨c1, -, -, -⟩ | ⟨c1, -, -⟩
    · rw [c1] at hid
      exact absurd (Nat.add_left_cancel hid).symm (index_ne u).2
    · rw [c1] at hid
      exact absurd (Nat.add_left_cancel hid) (by decide)
    · rw [c1]
      exact .inr (.inr ⟨rfl, rfl, hd, rfl⟩)

theorem forward_eq (els : List (Elem LCfg MDat MSt)) (s : St MSt) (start : Nat) (max : Int) (h : 0 ≤ max) :
    propagate els s start max = some (run max.natAbs els { s with nextElem := start, retreat := false }) := by
  rw [propagate_eq els s start max (by omega)]
  have : decide (max < 0) = false := by simp [h]
  rw [this]

theorem some_run {els : List (Elem LCfg MDat MSt)} {s : St MSt} {start : Nat} {max : Int} {R : Run LCfg MDat MSt}
    (h : propagate els s start max = some R) : ∃ n s', R = run n els s' := by
  by_cases hm : max = -2 ^ 31
  · subst hm
    unfold propagate Flame.Mach.cAbs at h
    rw [if_pos rfl] at h
    cases h
  · rw [propagate_eq els s start max hm] at h
    exact ⟨_, _, (Option.some.inj h).symm⟩

theorem history_sane {env : Env} {files : Files} {junk : Mat} {base : Nat} {cv : CView LCfg} {m : Machine LCfg MDat MSt}
    {es : List LCfg} {T : Nat → Prop}
    (h : History cv (registry env junk base (cavityCls env files junk base) (stripperCls env junk base)) m es T) :
    Sane env files junk base cv m es T := by
  induction h with
  | built h hes => exact names_of h hes
  | @forward m es T R s start max _ hmax hc hR hT ih =>
    rw [forward_eq _ _ _ _ hmax] at hR
    cases hR
    exact ⟨ih.info, (run_asNew max.natAbs T _ _ { s with nextElem := start, retreat := false } ih.held ih.held rfl hc hT).2.2.2⟩
  | otherwise s start max _ hR ih =>
    obtain ⟨n, s', rfl⟩ := some_run hR
    exact ⟨ih.info, run_held n _ _ s' ih.held⟩
  | @reconfigured m es T m' i c _ hR ih =>
    rcases C21_reconfigure_one_or_nothing cv _ m i c with ⟨-, h2⟩ | ⟨o, k, ty, p, x, nm, h1, h2, h3, h4, h5, h6, h7, -, h9⟩
    · rw [hR] at h2
      exact absurd rfl h2
    · rw [hR] at h9
      dsimp only at h9
      subst h9
      refine ⟨ih.info, ?_⟩
      obtain ⟨ec, hec⟩ := ih.held.get h1
      have hn := (ih.held.weak _ _ _ hec h1).assign ⟨_, p, ih.info, h3, h4⟩ h5 h2 h6 h7
        (Elem.mk o.cls nm i c o.obs (o.cls.assign o.dat x)) rfl rfl rfl
      exact ih.held.set hn.weak (fun _ => hn) fun j hj ht => ⟨ht, hj⟩
  | @refused m es T m' o i c _ hR hne ih =>
    rcases C21_reconfigure_one_or_nothing cv _ m i c with ⟨h1, -⟩ | ⟨o', k, ty, p, x, nm, h1, h2, h3, h4, h5, h6, h7, h8, -⟩
    · rw [hR] at h1
      dsimp only at h1
      subst h1
      exact ih
    · rw [hR] at h8
      exact absurd h8 hne
  | @observed m es T e i o _ he ih =>
    refine ⟨ih.info, ?_⟩
    obtain ⟨ec, hec⟩ := ih.held.get he
    have h1 := ih.held.weak _ _ _ hec he
    have h2 := ih.held.good _ _ _ hec he
    exact ih.held.put (e := { e with obs := o }) hec h1 (fun hn => h2 hn) fun _ _ h => h

/-! ## C89 -/

theorem lookup_shipped (env : Env) (junk : Mat) (base : Nat) (cavity stripper : MCls) (t : MType) :
    (Moment.shipped env junk base cavity stripper).lookup t.name = some (cls env junk base t) := by
  cases t <;> rfl

theorem conf_of {env : Env} {files : Files} {junk : Mat} {base : Nat} {cv : CView LCfg} {es : List LCfg} {T : Nat → Prop}
    {els : List (Elem LCfg MDat MSt)} (h : Held env files junk base cv T es els) : els.map (·.conf) = es := by
  apply List.ext_getElem?
  intro j
  rw [List.getElem?_map]
  cases he : els[j]? with
  | none =>
    rw [List.getElem?_eq_none_iff, h.len] at he
    rw [List.getElem?_eq_none he]
    rfl
  | some e =>
    obtain ⟨ec, hec⟩ := h.get he
    rw [hec, ← (h.weak _ _ _ hec he).1.1]
    rfl

/-- C89: a machine was built from a lattice of the moment simulation, then used for simulations, reconfigured and observed
in any order.  The elements report the settings that were accepted last, and the lattice with these settings can be built.
Whatever beam is sent forward through the used machine and through the one newly built from that lattice, from whatever element on
and however far, the results are the same, if the elements that are touched are none of those to be distrusted: the states behind all
elements, the state at the end, and the exception if there is one. -/
theorem C89_reuse {env : Env} {files : Files} {junk : Mat} {base : Nat} {cv : CView LCfg} {m : Machine LCfg MDat MSt}
    {es : List LCfg} {T : Nat → Prop}
    (h : History cv (registry env junk base (cavityCls env files junk base) (stripperCls env junk base)) m es T) (c : LCfg)
    (hes : cv.elems c = .ok es) : m.elems.map (·.conf) = es ∧
    (cv.str c "sim_type" = .ok "MomentMatrix" → ∃ m',
      Machine.new cv (registry env junk base (cavityCls env files junk base) (stripperCls env junk base)) c = .ok m') ∧
    ∀ m', Machine.new cv (registry env junk base (cavityCls env files junk base) (stripperCls env junk base)) c = .ok m' →
      ∀ (s : St MSt) (start : Nat) (max : Int), 0 ≤ max → Complete s.payload →
        ∃ R R', propagate m.elems s start max = some R ∧ propagate m'.elems s start max = some R' ∧
          ((∀ j, Touched R j → ¬ T j) → R'.st = R.st ∧ R'.err = R.err ∧
            passages max.natAbs m'.elems { s with nextElem := start, retreat := false } =
              passages max.natAbs m.elems { s with nextElem := start, retreat := false }) := by
  have hs := history_sane h
  refine ⟨conf_of hs.held, ?_, ?_⟩
  · intro hsim
    obtain ⟨hk, hreg⟩ := registered_shipped env junk base (cavityCls env files junk base) (stripperCls env junk base)
    refine (C18_success_iff cv _ c).2 ⟨"MomentMatrix", es, hsim, hk, hes, fun ec hec => ?_⟩
    obtain ⟨i, hi, rfl⟩ := List.getElem_of_mem hec
    have hlt : i < m.elems.length := by rw [hs.held.len]; exact hi
    obtain ⟨⟨-, nm, hnm⟩, ty, d, hty, k2⟩ := hs.held.weak i _ _ (List.getElem?_eq_getElem hi) (List.getElem?_eq_getElem hlt)
    rcases k2 with ⟨t, -, rfl, c3⟩ | ⟨-, rfl, c3, -⟩ | ⟨-, rfl, c3⟩
    · exact ⟨_, cls env junk base t, nm, d, hty, hreg _ _ (lookup_shipped ..), rfl, hnm, c3⟩
    · exact ⟨_, _, nm, d, hty, hreg _ _ rfl, rfl, hnm, c3⟩
    · exact ⟨_, _, nm, d, hty, hreg _ _ rfl, rfl, hnm, c3⟩
  · intro m' hm' s start max hmax hc
    refine ⟨_, _, forward_eq _ _ _ _ hmax, forward_eq _ _ _ _ hmax, fun hT => ?_⟩
    obtain ⟨r1, r2, r3, -⟩ := run_asNew max.natAbs T m.elems m'.elems { s with nextElem := start, retreat := false } hs.held
      ((names_of hm' hes).held.mono fun _ h => h.elim) rfl hc hT
    exact ⟨r1, r2, r3⟩

/-- A drift of the given length. -/
noncomputable def exDriftL (x : ℝ) : LCfg := fun k =>
  if k = "type" then some (.str "drift") else if k = "name" then some (.str "d") else if k = "L" then some (.num x) else none

/-- A drift of 1 m and a cavity, or a drift of 2 m and the cavity. -/
noncomputable def exReuseView : CView LCfg where
  str c k := match c k with
    | some (.str x) => .ok x
    | _ => .error .keyError
  elems c := .ok (
    match c "long" with
    | none => [exDriftL 1, exMono]
    | some _ => [exDriftL 2, exMono])

theorem reconfigure_ok {C X S : Type} {cv : CView C} {w : World C X S} {m : Machine C X S} {i : Nat} {c : C} {o : Elem C X S}
    {k : Cls C X S} {ty nm : String} {x : X} (ho : m.elems[i]? = some o) (hi : w.infos.find m.simtype = some m.info)
    (hk : Registered w m.simtype ty k) (hid : k.id = o.cls.id) (hty : cv.str c "type" = .ok ty) (hnm : cv.str c "name" = .ok nm)
    (hx : k.build c = .ok x) : (m.reconfigure cv w i c).2 = .ok () := by
  obtain ⟨i', p, h1, h2, h3⟩ := hk
  rw [hi] at h1
  cases h1
  unfold Machine.reconfigure
  rw [ho]
  dsimp only
  rw [hty]
  dsimp only
  rw [h2]
  dsimp only
  rw [h3]
  dsimp only
  unfold Flame.Mach.rebuild Cls.new
  rw [hnm]
  dsimp only
  rw [hx]
  dsimp only
  rw [if_neg (by rw [hid]; exact fun h => h rfl)]

/-- The hypotheses of `C89_reuse` are met by a machine of a drift and a cavity after a simulation and a change of the drift's
length; the lattice with the new length has other settings than the one it was built from. -/
example (env : Env) (junk : Mat) : ∃ m c es T,
    History exReuseView (registry env junk 0 (cavityCls env exFiles junk 0) (stripperCls env junk 0)) m es T ∧ (∀ j, ¬ T j) ∧
    exReuseView.elems c = .ok es ∧ exReuseView.str c "sim_type" = .ok "MomentMatrix" ∧ es = [exDriftL 2, exMono] := by
  obtain ⟨hk, hreg⟩ := registered_shipped env junk 0 (cavityCls env exFiles junk 0) (stripperCls env junk 0)
  obtain ⟨d, hd⟩ := exMono_builds env junk
  obtain ⟨m, hm⟩ := (C18_success_iff exReuseView
    (registry env junk 0 (cavityCls env exFiles junk 0) (stripperCls env junk 0))
    (fun k => if k = "sim_type" then some (.str "MomentMatrix") else none)).2 ⟨"MomentMatrix", _, rfl, hk, rfl, by
      show ∀ ec ∈ [_, exMono], _
      simp only [List.mem_cons, List.not_mem_nil, or_false, forall_eq_or_imp, forall_eq]
      exact ⟨⟨"drift", _, "d", _, rfl, hreg _ _ rfl, rfl, rfl, rfl⟩, ⟨"rfcavity", _, "c", d, rfl, hreg _ _ rfl, rfl, rfl, hd⟩⟩⟩
  have hes : exReuseView.elems (fun k => if k = "sim_type" then some (.str "MomentMatrix") else none) = .ok [exDriftL 1, exMono] := rfl
  have h0 := History.built hm hes
  have hF : List.Forall₂ (MadeFrom env exFiles junk 0 exReuseView) [exDriftL 1, exMono] m.elems := machine_moment hm hes
  obtain ⟨-, -, hsim, -⟩ := new_ok hm
  have hsim : m.simtype = "MomentMatrix" := (Except.ok.inj hsim).symm
  obtain ⟨e, he, ht⟩ : ∃ e, m.elems[0]? = some e ∧ MadeFrom env exFiles junk 0 exReuseView (exDriftL 1) e := by
    have hlt : 0 < m.elems.length := by rw [← hF.length_eq]; simp
    obtain ⟨ec, k1, k2⟩ := forall₂_get hF (List.getElem?_eq_getElem hlt)
    cases k1
    exact ⟨_, List.getElem?_eq_getElem hlt, k2⟩
  obtain ⟨hcls, hdat⟩ : e.cls = cls env junk 0 .drift ∧ build env junk .drift (exDriftL 1) = .ok e.dat := by
    obtain ⟨ty, hty, ⟨t, c1, c2, c3⟩ | ⟨-, rfl, -⟩ | ⟨-, rfl, -⟩⟩ := ht
    · obtain rfl : ty = "drift" := (Except.ok.inj hty).symm
      obtain rfl : t = .drift := name_inj c2
      exact ⟨c1, c3⟩
    · exact absurd (Except.ok.inj hty) (by decide)
    · exact absurd (Except.ok.inj hty) (by decide)
  have hok : (e.cls.advance e.dat (stepNext { exOnAxis with nextElem := 0, retreat := false })).2.2 = none := by
    rw [hcls]
    have e0 := advanceBase_first (rec := recompute env .drift) (s := stepNext { exOnAxis with nextElem := 0, retreat := false })
      (fun d a b c e f => recompute_cached env .drift d a b c e f) (build_length hdat).2.2.1 rfl
    exact congrArg Prod.fst e0
  have hrun : (run 1 m.elems { exOnAxis with nextElem := 0, retreat := false }).err = none := by
    rw [run_succ_ok he hok]
    rfl
  have h1 := h0.forward exOnAxis 0 1 (by decide) ⟨rfl, rfl, rfl⟩ (forward_eq _ _ _ _ (by decide)) (fun _ _ h => h)
  have s1 := history_sane h1
  obtain ⟨e1, he1, hc1⟩ : ∃ e1, (run 1 m.elems { exOnAxis with nextElem := 0, retreat := false }).elems[0]? = some e1 ∧
      e1.cls = cls env junk 0 .drift := by
    rw [run_succ_ok he hok]
    exact ⟨_, List.getElem?_set_self (lt_of_get he), hcls⟩
  have h2 := h1.reconfigured 0 (exDriftL 2) (Prod.ext rfl (reconfigure_ok (k := cls env junk 0 .drift) (ty := "drift") (nm := "d")
    he1 s1.info (by rw [show _ = _ from hsim]; exact hreg _ _ rfl) (by rw [hc1]) rfl rfl rfl))
  exact ⟨_, fun k => if k = "sim_type" then some (.str "MomentMatrix") else if k = "long" then some (.num 1) else none, _, _, h2,
    fun j hj => hj.1.elim id fun hf => hf.1 hrun, rfl, rfl, rfl⟩

end Flame.Cavity
