import Verif.Machine.Build

/-! # The registry: auxiliary facts -/

set_option linter.unusedSimpArgs false

namespace Flame.Mach

variable {C X S : Type}

/-- Every registered builder pointer points to a live builder. -/
def World.Live (w : World C X S) : Prop :=
  ∀ s i e p, w.infos.find s = some i → i.elements.find e = some p → ∃ k, w.deref p = some k

theorem live_empty : (World.empty : World C X S).Live := by
  intro s i e p h
  simp [World.empty] at h

theorem deref_append {w : World C X S} {p : Nat} {k : Cls C X S} (h : w.deref p = some k)
    (x : Option (Cls C X S)) (infos : SMap String Info) :
    World.deref { heap := w.heap ++ [x], infos := infos } p = some k := by
  unfold World.deref at *
  cases hp : w.heap[p]? with
  | none => simp [hp] at h
  | some v =>
    have := (List.getElem?_eq_some_iff.1 hp).1
    simp only [List.getElem?_append_left this, hp]
    rw [hp] at h
    exact h

theorem deref_last (w : World C X S) (k : Cls C X S) (infos : SMap String Info) :
    World.deref { heap := w.heap ++ [some k], infos := infos } w.heap.length = some k := by
  simp [World.deref]

theorem registerState_run (w : World C X S) (n : String) (b : Nat) :
    registerState w n b = if (w.infos.find n).isSome then (w, some .logic)
      else ({ w with infos := w.infos.insert n ⟨n, b, []⟩ }, none) := by
  unfold registerState
  cases w.infos.find n <;> rfl

theorem registerElement_unknown {w : World C X S} {s e : String} {k : Cls C X S}
    (h : w.infos.find s = none) :
    registerElement w s e k = ({ heap := w.heap ++ [some k], infos := w.infos }, some .logic) := by
  simp [registerElement, h]

theorem registerElement_dup {w : World C X S} {s e : String} {k : Cls C X S} {i : Info} {p : Nat}
    (h : w.infos.find s = some i) (he : i.elements.find e = some p) :
    registerElement w s e k = ({ heap := w.heap ++ [some k], infos := w.infos }, some .logic) := by
  simp [registerElement, h, he]

theorem registerElement_new {w : World C X S} {s e : String} {k : Cls C X S} {i : Info}
    (h : w.infos.find s = some i) (he : i.elements.find e = none) :
    registerElement w s e k = (
      { heap := w.heap ++ [some k],
        infos := w.infos.insert s ⟨i.name, i.builder, SMap.insert i.elements e w.heap.length⟩ }, none) := by
  simp [registerElement, h, he]

theorem live_run (w : World C X S) (h : w.Live) (o : WOp C X S) : (o.run w).1.Live := by
  cases o with
  | state n b =>
    simp only [WOp.run, registerState_run]
    split
    · exact h
    · intro s i e p h1 h2
      simp only [SMap.find_insert] at h1
      split at h1
      · cases h1
        simp at h2
      · exact h s i e p h1 h2
  | element sn en k =>
    simp only [WOp.run, registerElement]
    have keep : (World.Live { heap := w.heap ++ [some k], infos := w.infos }) := by
      intro s i e p h1 h2
      obtain ⟨k', hk⟩ := h s i e p h1 h2
      exact ⟨k', deref_append hk _ _⟩
    split
    · exact keep
    · rename_i i0 hi0
      split
      · exact keep
      · intro s i e p h1 h2
        simp only [SMap.find_insert] at h1
        split at h1
        · cases h1
          simp only [SMap.find_insert] at h2
          split at h2
          · cases h2
            exact ⟨k, deref_last _ _ _⟩
          · obtain ⟨k', hk⟩ := h _ _ e p hi0 h2
            exact ⟨k', deref_append hk _ _⟩
        · obtain ⟨k', hk⟩ := h s i e p h1 h2
          exact ⟨k', deref_append hk _ _⟩
  | cleanup =>
    intro s i e p h1
    simp [WOp.run, registeryCleanup] at h1

theorem live_runAll (h : List (WOp C X S)) : ∀ w : World C X S, w.Live → (WOp.runAll w h).Live := by
  induction h with
  | nil => intro w hw; exact hw
  | cons o h ih => intro w hw; exact ih _ (live_run w hw o)

theorem abs_run (w : World C X S) (h : w.Live) (o : WOp C X S) :
    ((o.run w).1.abs, (o.run w).2) = o.spec w.abs := by
  cases o with
  | state n b =>
    simp only [WOp.run, registerState_run, WOp.spec]
    have : (w.abs n).isSome = (w.infos.find n).isSome := by simp [World.abs]
    rw [this]
    split
    · rfl
    · congr 1
      funext m
      simp only [World.abs, SMap.find_insert]
      split
      · simp
      · rfl
  | element sn en k =>
    have keep : ∀ s, World.abs { heap := w.heap ++ [some k], infos := w.infos } s = w.abs s := by
      intro s
      simp only [World.abs]
      cases hs : w.infos.find s with
      | none => rfl
      | some i =>
        simp only [Option.map_some, Option.some.injEq, Prod.mk.injEq, true_and]
        funext e
        cases he : i.elements.find e with
        | none => rfl
        | some p =>
          obtain ⟨k', hk⟩ := h s i e p hs he
          simp only [Option.bind_some, deref_append hk, hk]
    simp only [WOp.run, WOp.spec]
    cases hs : w.infos.find sn with
    | none =>
      rw [registerElement_unknown hs]
      have : w.abs sn = none := by simp [World.abs, hs]
      rw [this]
      simp only [Prod.mk.injEq, and_true]
      exact funext keep
    | some i =>
      have habs : w.abs sn = some (i.builder, fun e => (i.elements.find e).bind w.deref) := by
        simp [World.abs, hs]
      rw [habs]
      dsimp only
      have hcase : (∃ p, i.elements.find en = some p) ∨ i.elements.find en = none := by
        cases i.elements.find en
        · exact Or.inr rfl
        · exact Or.inl ⟨_, rfl⟩
      rcases hcase with ⟨p, he⟩ | he
      · obtain ⟨k', hk⟩ := h sn i en p hs he
        rw [registerElement_dup hs he, if_pos (by simp [he, hk])]
        simp only [Prod.mk.injEq, and_true]
        exact funext keep
      · rw [registerElement_new hs he, if_neg (by simp [he])]
        simp only [Prod.mk.injEq, and_true]
        funext m
        by_cases hm : m = sn
        · subst hm
          simp only [World.abs, SMap.find_insert, if_true, Option.map_some, Option.some.injEq,
            Prod.mk.injEq, true_and]
          funext f
          by_cases hf : f = en
          · subst hf
            simp [deref_last]
          · simp only [if_neg hf]
            cases hef : i.elements.find f with
            | none => rfl
            | some p =>
              obtain ⟨k', hk⟩ := h m i f p hs hef
              simp only [Option.bind_some, deref_append hk, hk]
        · have := keep m
          simp only [World.abs, SMap.find_insert, if_neg hm] at this ⊢
          exact this
  | cleanup =>
    simp only [WOp.run, WOp.spec, Prod.mk.injEq, and_true]
    funext s
    simp [World.abs, registeryCleanup]

theorem abs_runAll (h : List (WOp C X S)) : ∀ w : World C X S, w.Live →
    (WOp.runAll w h).abs = WOp.specAll w.abs h := by
  induction h with
  | nil => intro w _; rfl
  | cons o h ih =>
    intro w hw
    have := abs_run w hw o
    simp only [WOp.runAll, WOp.specAll, List.foldl_cons] at *
    rw [ih _ (live_run w hw o)]
    rw [← this]

theorem spec_irrelevant (s : String) (r : AReg C X S) (o : WOp C X S) (h : o.about s = false) :
    (o.spec r).1 s = r s := by
  cases o with
  | state n b =>
    simp only [WOp.about, decide_eq_false_iff_not] at h
    simp only [WOp.spec]
    split
    · rfl
    · simp [Ne.symm h]
  | element n e k =>
    simp only [WOp.about, decide_eq_false_iff_not] at h
    simp only [WOp.spec]
    split
    · rfl
    · split
      · rfl
      · simp [Ne.symm h]
  | cleanup => simp [WOp.about] at h

theorem spec_congr (s : String) (r r' : AReg C X S) (o : WOp C X S) (ho : o.about s = true)
    (h : r s = r' s) : (o.spec r).1 s = (o.spec r').1 s ∧
      (∀ n b, o = .state n b → (o.spec r).2 = (o.spec r').2) ∧
      (∀ n e k, o = .element n e k → (o.spec r).2 = (o.spec r').2) := by
  cases o with
  | state n b =>
    simp only [WOp.about, decide_eq_true_eq] at ho
    subst ho
    simp only [WOp.spec, h]
    split <;> simp [h]
  | element n e k =>
    simp only [WOp.about, decide_eq_true_eq] at ho
    subst ho
    simp only [WOp.spec, h]
    split
    · simp [h]
    · split <;> simp [h]
  | cleanup => simp [WOp.spec]

theorem specAll_filter (s : String) (h : List (WOp C X S)) : ∀ r r' : AReg C X S, r s = r' s →
    WOp.specAll r h s = WOp.specAll r' (h.filter (WOp.about s)) s := by
  induction h with
  | nil => intro r r' hr; exact hr
  | cons o h ih =>
    intro r r' hr
    simp only [WOp.specAll, List.foldl_cons, List.filter_cons] at *
    by_cases ho : o.about s = true
    · rw [if_pos ho, List.foldl_cons]
      exact ih _ _ (spec_congr s r r' o ho hr).1
    · rw [if_neg ho]
      refine ih _ _ ?_
      rw [spec_irrelevant s r o (by simpa using ho)]
      exact hr

/-! ## existing machines -/

/-- The history contains no `registeryCleanup`. -/
def NoCleanup (h : List (WOp C X S)) : Prop := ∀ o ∈ h, ∀ (_ : o = .cleanup), False

theorem deref_run {w : World C X S} {p : Nat} {k : Cls C X S} (h : w.deref p = some k)
    (o : WOp C X S) (ho : o = .cleanup → False) : (o.run w).1.deref p = some k := by
  cases o with
  | state n b =>
    simp only [WOp.run, registerState_run]
    split <;> exact h
  | element sn en k' =>
    simp only [WOp.run, registerElement]
    split
    · exact deref_append h _ _
    · split <;> exact deref_append h _ _
  | cleanup => exact (ho rfl).elim

theorem deref_runAll (h : List (WOp C X S)) : ∀ {w : World C X S} {p : Nat} {k : Cls C X S},
    NoCleanup h → w.deref p = some k → (WOp.runAll w h).deref p = some k := by
  induction h with
  | nil => intro w p k _ hk; exact hk
  | cons o h ih =>
    intro w p k hc hk
    exact ih (fun o' ho' => hc o' (by simp [ho'])) (deref_run hk o (hc o (by simp)))

theorem infos_run {w : World C X S} {s e : String} {i : Info} {p : Nat}
    (h : w.infos.find s = some i) (he : i.elements.find e = some p)
    (o : WOp C X S) (ho : o = .cleanup → False) :
    ∃ i', (o.run w).1.infos.find s = some i' ∧ i'.elements.find e = some p := by
  cases o with
  | state n b =>
    simp only [WOp.run, registerState_run]
    split
    · exact ⟨i, h, he⟩
    · rename_i hn
      simp only [SMap.find_insert]
      split
      · subst_vars
        simp [h] at hn
      · exact ⟨i, h, he⟩
  | element sn en k' =>
    simp only [WOp.run, registerElement]
    split
    · exact ⟨i, h, he⟩
    · rename_i i0 hi0
      split
      · exact ⟨i, h, he⟩
      · rename_i hen
        simp only [SMap.find_insert]
        split
        · subst_vars
          rw [h] at hi0
          cases hi0
          refine ⟨_, rfl, ?_⟩
          simp only [SMap.find_insert]
          split
          · subst_vars
            rw [he] at hen
            cases hen
          · exact he
        · exact ⟨i, h, he⟩
  | cleanup => exact (ho rfl).elim

theorem infos_runAll (h : List (WOp C X S)) : ∀ {w : World C X S} {s e : String} {i : Info} {p : Nat},
    NoCleanup h → w.infos.find s = some i → i.elements.find e = some p →
    ∃ i', (WOp.runAll w h).infos.find s = some i' ∧ i'.elements.find e = some p := by
  induction h with
  | nil => intro w s e i p _ h1 h2; exact ⟨i, h1, h2⟩
  | cons o h ih =>
    intro w s e i p hc h1 h2
    obtain ⟨i', h1', h2'⟩ := infos_run h1 h2 o (hc o (by simp))
    exact ih (fun o' ho' => hc o' (by simp [ho'])) h1' h2'

theorem cleanup_kills {w : World C X S} {s e : String} {i : Info} {p : Nat}
    (h : w.infos.find s = some i) (he : i.elements.find e = some p) :
    (registeryCleanup w).deref p = none := by
  have hmem : p ∈ (w.infos.flatMap (fun q => q.2.elements.map Prod.snd)) := by
    rw [List.mem_flatMap]
    refine ⟨(s, i), SMap.find_some_mem _ _ _ h, ?_⟩
    rw [List.mem_map]
    exact ⟨(e, p), SMap.find_some_mem _ _ _ he, rfl⟩
  unfold registeryCleanup World.deref
  simp only [List.getElem?_map, List.getElem?_zipIdx, Option.map_map]
  cases hp : w.heap[p]? with
  | none => rfl
  | some v =>
    simp only [Option.map_some, Function.comp_apply, Nat.zero_add, if_pos hmem, Option.join]
    rfl

end Flame.Mach
