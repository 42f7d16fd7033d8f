import Verif.Config.Refine
import Verif.Config.Typed

/-!
# Properties of `Config` (C01 - C05, C51)

`uq` is the answer of `shared_ptr::unique()`; all theorems hold for every `uq` that never answers
"unique" wrongly (`UniqueSound`).
-/

namespace Flame.Conf

variable {N : Type} [Zero N]

omit [Zero N] in
/-- The exact reference count answer is admissible. -/
theorem uniqueSound_exact : UniqueSound (N := N) exactUnique := by
  intro s o c hc h
  unfold exactUnique at h
  simp only [hc, decide_eq_true_eq] at h
  exact h

omit [Zero N] in
/-- So is an answer that never says "unique". -/
theorem uniqueSound_never : UniqueSound (N := N) (fun _ _ => false) := by
  intro s o c _ h; cases h

theorem inv_init : Inv (init : St N) := by
  have hl : ∀ c, ¬ LiveC (init : St N) c := by
    apply LiveC.closed (fun _ => False)
    · intro o c h; simp [init] at h
    · intro x i c h; simp [init, nested] at h
    · intro c h; exact h.elim
  exact ⟨fun c h => (hl c h).elim, fun c _ h => (hl c h).elim, fun c _ _ h => (hl c h).elim⟩

theorem inv_run {uq : St N → Nat → Bool} (huq : UniqueSound uq) (ops : List (Op N)) :
    ∀ s, Inv s → Inv (run uq s ops) := by
  induction ops with
  | nil => intro s h; exact h
  | cons op ops ih => intro s h; exact ih _ (step_ok huq h op).1

theorem absLk_init : absLk (init : St N) = Lk.init := by
  unfold absLk init Lk.init
  congr 1

theorem absFl_init : absFl (init : St N) = Fl.init := by
  unfold absFl init Fl.init
  congr 1

/-! ## C01 -/

/-- **C01.** Any history of calls without `swapAny`: all lookups, at any depth, on all objects and
values, are those of the heap-free specification in which every object is a separate value. -/
theorem C01_lookups_refine_values {uq : St N → Nat → Bool} (huq : UniqueSound uq)
    (ops : List (Op N)) (h : ∀ op ∈ ops, noSwapAny op = true) :
    absLk (run uq init ops) = Lk.run Lk.init ops := by
  have key : ∀ (ops : List (Op N)), (∀ op ∈ ops, noSwapAny op = true) → ∀ s, Inv s →
      absLk (run uq s ops) = Lk.run (absLk s) ops := by
    intro ops
    induction ops with
    | nil => intro _ s _; rfl
    | cons op ops ih =>
      intro h s hi
      obtain ⟨h1, _, h3⟩ := step_ok huq hi op
      have := ih (fun o ho => h o (List.mem_cons_of_mem _ ho)) _ h1
      rw [h3 (h op (List.mem_cons_self ..))] at this
      exact this
  rw [key ops h init inv_init, absLk_init]

/-- The objects a call may change. -/
def written : Op N → List Nat
  | .new o => [o]
  | .copy d _ => [d]
  | .destroy o => [o]
  | .take d _ _ => [d]
  | .set o _ _ => [o]
  | .swapT o _ _ => [o]
  | .swapAny o _ _ => [o]
  | .swapObj o p => [o, p]
  | .newScope d _ => [d]
  | .pushScope o => [o]
  | .flatten o => [o]
  | _ => []

/-- `swapAny` at the level of lookups: the object sees the new value under `k`, nothing else
changes for any object. -/
theorem swapAny_lookups {uq : St N → Nat → Bool} (huq : UniqueSound uq) {s : St N} (hi : Inv s)
    (o : Nat) (k : String) (x : Nat) :
    (absLk (step uq s (.swapAny o k x))).objs =
      (Lk.step (absLk s) (.set o k x)).objs := by
  cases hc : s.objs o with
  | none =>
    have hst : step uq s (.swapAny o k x) = s := by simp [step, cow, hc]
    rw [hst]; simp [Lk.step, absLk_objs_none hc]
  | some c =>
    obtain ⟨c1, hc1, hfl, hvals, hw⟩ := write_ok huq hi hc k x
    obtain ⟨_, _, h3⟩ := hw ((((cow uq s o).heap c1.own).find k).getD (.num 0)) (by
      cases h : ((cow uq s o).heap c1.own).find k with
      | none => right; left; rfl
      | some v => right; right; left; rfl)
    obtain ⟨_, _, hlk, _⟩ := hi.cow huq hc
    have hst : step uq s (.swapAny o k x) =
        { write (cow uq s o) o k (s.vals x) with
          vals := upd s.vals x ((((cow uq s o).heap c1.own).find k).getD (.num 0)) } := by
      unfold step write
      simp only [hc1, hvals]
    have e2 : (absLk s).objs o = some (obsLk (cow uq s o).heap c1) := by
      rw [← hlk]; exact absLk_objs_some hc1
    have v2 : obsLkVal (cow uq s o).heap (s.vals x) = (absLk s).vals x := by
      rw [← hlk, ← hvals]; rfl
    rw [hst, h3, v2]
    simp only [Lk.step, e2]

/-- **C01, frame form, all calls including `swapAny`.** In every reachable state, a call changes no
lookup on an object it does not write. -/
theorem C01_call_changes_no_other_lookup {uq : St N → Nat → Bool} (huq : UniqueSound uq)
    (ops : List (Op N)) (op : Op N) (o : Nat) (ho : o ∉ written op) :
    (absLk (step uq (run uq init ops) op)).objs o = (absLk (run uq init ops)).objs o := by
  have hi := inv_run huq ops init inv_init
  generalize run uq init ops = s at *
  have hspec : ∀ op' : Op N, written op' = written op →
      (Lk.step (absLk s) op').objs o = (absLk s).objs o := by
    intro op' hw
    rw [← hw] at ho
    cases op' <;> simp only [written, List.mem_cons, List.not_mem_nil, not_or, or_false] at ho <;>
      simp only [Lk.step] <;> (try split) <;> (try split) <;> simp_all [upd]
  by_cases hs : noSwapAny op = true
  · rw [(step_ok huq hi op).2.2 hs]; exact hspec op rfl
  · cases op with
    | swapAny o' k x =>
      rw [swapAny_lookups huq hi]
      exact hspec (.set o' k x) rfl
    | _ => simp [noSwapAny] at hs

/-- **C01, frame form over whole histories.** As long as no call writes `o`, all lookups on `o` stay
the same, whatever happens to every other object. -/
theorem C01_history_changes_no_other_lookup {uq : St N → Nat → Bool} (huq : UniqueSound uq)
    (ops later : List (Op N)) (o : Nat) (ho : ∀ op ∈ later, o ∉ written op) :
    (absLk (run uq init (ops ++ later))).objs o = (absLk (run uq init ops)).objs o := by
  induction later generalizing ops with
  | nil => simp
  | cons op later ih =>
    have h1 := ih (ops ++ [op]) (fun q hq => ho q (List.mem_cons_of_mem _ hq))
    rw [List.append_assoc, List.singleton_append] at h1
    rw [h1]
    have h2 := C01_call_changes_no_other_lookup huq ops op o (ho op (List.mem_cons_self ..))
    simpa [run, List.foldl_append] using h2

/-- A history with nesting, copies and scopes, for the examples below. -/
def sampleOps : List (Op Int) :=
  [.new 0, .lit 0 (.num 7), .set 0 "a" 0, .newScope 1 0, .lit 1 (.str "b"), .set 1 "n" 1,
   .copy 2 1, .mkVec 3 [0, 1], .set 2 "elements" 3, .flatten 2, .pushScope 1, .set 0 "a" 1]

/-- The hypotheses of C01 hold for `sampleOps`, and object 1 still finds `a = 7` although `a` was
later changed in its parent and its own map was written through a copy. -/
example : UniqueSound (N := Int) (fun _ _ => false) ∧
    (∀ op ∈ sampleOps, noSwapAny op = true) ∧
    ((absLk (run (fun _ _ => false) init sampleOps)).objs 1).map (fun c => (c [] "a", c [] "n"))
      = some (Leaf.num 7, Leaf.str "b") := by
  rw [C01_lookups_refine_values uniqueSound_never sampleOps (by decide)]
  exact ⟨uniqueSound_never, by decide, by decide⟩

/-! ## C02, C51 -/

/-- **C02 (partial).** Full statement: for *every* history, lookups and enumerations of all objects
are those of the heap-free specification `Fl`.  That is false (`C02_false`).  Proved: it is true for
every history, including `swapAny`, in which `flatten`/`push_scope` is only called on an object
that inherits nothing or whose own map nobody else shares (`SafeRun`).
Missing: calls of `flatten`/`push_scope` on a `Config` whose own map is shared. -/
theorem C02_enumeration_refines_values_partial {uq : St N → Nat → Bool} (huq : UniqueSound uq)
    (ops : List (Op N)) (h : SafeRun uq init ops) :
    absFl (run uq init ops) = Fl.run Fl.init ops := by
  have key : ∀ (ops : List (Op N)) s, Inv s → SafeRun uq s ops →
      absFl (run uq s ops) = Fl.run (absFl s) ops := by
    intro ops
    induction ops with
    | nil => intro s _ _; rfl
    | cons op ops ih =>
      intro s hi h
      obtain ⟨h1, h2, _⟩ := step_ok huq hi op
      have := ih _ h1 h.2
      rw [h2 h.1] at this
      exact this
  rw [key ops init inv_init h, absFl_init]

omit [Zero N] in
theorem exclWrite_site {s : St N} {o : Nat} {c : Cfg} (hc : s.objs o = some c) (he : Excl s o c)
    {m : VMap N} (hm : ∀ k i c', nested (m.find k) i = some c' → Other s o c') {σ : Site} {c' : Cfg}
    (h : Live (exclWrite s o c m c.imp s.vals) σ c') : σ = .obj o ∨ Other s o c' := by
  have hv : ∀ y i c', nested (some (s.vals y)) i = some c' → Other s o c' := by
    intro y i c' hn
    obtain ⟨l, e, hi'⟩ := nested_some.mp hn
    exact ⟨.val y i, by simp, .val (Option.some.inj e) hi'⟩
  cases h with
  | @obj o' c' h =>
    by_cases e : o' = o
    · left; rw [e]
    · right
      exact ⟨.obj o', by simpa using e, .obj (by simpa [exclWrite, upd_ne _ _ e] using h)⟩
  | val h hi => right; exact hv _ _ _ (nested_some.mpr ⟨_, congrArg some h, hi⟩)
  | @cell σ0 c0 a k l i _ h0 ha h hi =>
    right
    have hn : ∃ lv, nested (lookLv (exclWrite s o c m c.imp s.vals).heap c0 lv k) i = some c' := by
      rcases ha with rfl | ha
      · exact ⟨.own, nested_some.mpr ⟨l, h, hi⟩⟩
      · refine ⟨.inh, nested_some.mpr ⟨l, ?_, hi⟩⟩
        simp only [lookLv, ha]; exact h
    obtain ⟨lv, hn⟩ := hn
    have hcl : LiveC s c := LiveC.ofObj hc
    rcases exclWrite_live hc he (.inr rfl) hm hv c0 ⟨_, h0⟩ with rfl | hc0 | ⟨_, hf⟩
    · cases lv with
      | own =>
        have : lookLv (exclWrite s o c m c.imp s.vals).heap { c with imp := c.imp } .own k
            = m.find k := by simp [lookLv, exclWrite]
        rw [this] at hn
        exact hm k i c' hn
      | inh =>
        have : lookLv (exclWrite s o c m c.imp s.vals).heap { c with imp := c.imp } .inh k
            = lookLv s.heap c .inh k := by
          unfold lookLv exclWrite
          cases e : c.imp with
          | none => rfl
          | some j =>
            have : j ≠ c.own := by intro e'; exact excl_imp_ne hc he (by rw [e, e'])
            simp only [upd_ne _ _ this]
        rw [this] at hn
        exact hcl.other_nested o hn
    · rw [exclWrite_lookLv he hc0] at hn
      exact hc0.live.other_nested o hn
    · exact hf.elim

/-- `flatten` right after a `set` on the same object is always safe. -/
theorem flatSafe_after_set {uq : St N → Nat → Bool} (huq : UniqueSound uq) {s : St N} (hi : Inv s)
    (o : Nat) (k : String) (x : Nat) : FlatSafe (step uq s (.set o k x)) o := by
  intro c2 hc2
  right
  cases hc : s.objs o with
  | none =>
    have hst : step uq s (.set o k x) = s := by simp [step, cow, write, hc]
    rw [hst, hc] at hc2; cases hc2
  | some c =>
    obtain ⟨hi1, _, _, hvals, c1, hc1, hex⟩ := hi.cow huq hc
    generalize hs1 : cow uq s o = s1 at *
    have hcl1 : LiveC s1 c1 := LiveC.ofObj hc1
    have hm : ∀ q i c', nested (((s1.heap c1.own).insert k (s.vals x)).find q) i = some c' →
        Other s1 o c' := by
      intro q i c' hn
      rw [SMap.find_insert] at hn
      split at hn
      · rw [← hvals] at hn
        obtain ⟨l, e, hi'⟩ := nested_some.mp hn
        exact ⟨.val x i, by simp, .val (Option.some.inj e) hi'⟩
      · exact hcl1.other_nested o (l := .own) hn
    have hst : step uq s (.set o k x) =
        exclWrite s1 o c1 ((s1.heap c1.own).insert k (s.vals x)) c1.imp s1.vals := by
      unfold step write exclWrite
      simp only [hs1, hc1]
      rw [upd_same s1.objs o (some { c1 with imp := c1.imp }) hc1]
    rw [hst] at hc2 ⊢
    have e2 : c2 = c1 := by simpa [exclWrite] using hc2.symm
    subst e2
    refine ⟨?_, ?_⟩
    · intro σ c' h e
      rcases exclWrite_site hc1 hex hm h with h' | h'
      · exact h'
      · exact absurd e (h'.ne hex).1
    · intro σ c' h
      rcases exclWrite_live hc1 hex (.inr rfl) hm (fun y i c' hn => by
        obtain ⟨l, e, hi'⟩ := nested_some.mp hn
        exact ⟨.val y i, by simp, .val (Option.some.inj e) hi'⟩) c' ⟨σ, h⟩ with rfl | h' | h'
      · exact excl_imp_ne hc1 hex
      · exact (h'.ne hex).2
      · exact h'.2.elim

/-- The hypothesis of the previous theorem is met by a history that nests, copies, exchanges and
flattens an object with inherited entries. -/
example : SafeRun (N := Int) (fun _ _ => false) init
    [.new 0, .lit 0 (.num 7), .set 0 "a" 0, .newScope 1 0, .mkVec 1 [0], .set 1 "b" 1,
     .flatten 1, .copy 2 1, .swapAny 2 "a" 0] := by
  simp only [SafeRun, OpSafe, and_true, true_and]
  exact flatSafe_after_set uniqueSound_never
    (inv_run uniqueSound_never [.new 0, .lit 0 (.num 7), .set 0 "a" 0, .newScope 1 0, .mkVec 1 [0]]
      init inv_init) 1 "b" 1

omit [Zero N] in
/-- `flatten` on an object turns everything it sees into own entries of *every* object sharing its
own map. -/
theorem flatten_shared {s : St N} {i j : Nat} {c : Cfg} (hi : s.objs i = some c)
    (hj : s.objs j = some c) (hij : i ≠ j) (k : String) :
    ((absFl (flatten s j)).objs i).map (fun f => f [] .own k) = some (leafOf (look s.heap c k)) := by
  cases e : c.imp with
  | none =>
    rw [flatten_noop (fun c' h => by rw [hj] at h; cases h; exact e), absFl_objs_some hi]
    simp [obsFl, lookLv, look_of_imp_none e]
  | some a =>
    have h1 : (flatten s j).objs i = some c := by
      rw [flatten_eq hj e]; simp [upd_ne _ _ hij, hi]
    rw [absFl_objs_some h1]
    simp only [Option.map_some, obsFl, lookLv]
    rw [flatten_find hj e, if_pos rfl]

/-- What `copy tmp := i; tmp.flatten()` does to the *original* object `i` in every reachable state:
all entries it could look up, inherited ones included, become own entries. -/
theorem flatten_copy_flattens_original (uq : St N → Nat → Bool)
    (s : St N) (tmp i : Nat) (hne : i ≠ tmp) (hi : (s.objs i).isSome) (k : String) :
    ((absFl (run uq s [.copy tmp i, .flatten tmp])).objs i).map (fun f => f [] .own k) =
      ((absLk s).objs i).map (fun f => f [] k) := by
  obtain ⟨c, hc⟩ := Option.isSome_iff_exists.mp hi
  have h1 : step uq s (.copy tmp i) = setObj s tmp c := by simp [step, hc, setObj]
  show ((absFl (flatten (step uq s (.copy tmp i)) tmp)).objs i).map _ = _
  rw [h1, flatten_shared (c := c) (by simp [setObj, upd_ne _ _ hne, hc]) (by simp [setObj]) hne,
    absLk_objs_some hc]
  rfl

/-- **C02 is false**: after `copy 2 := 1`, calling `flatten()` on object 2 changes what an
enumeration of object 1 shows, with any admissible reference count. -/
theorem C02_false {uq : St Int → Nat → Bool} (huq : UniqueSound uq) :
    ∃ (ops : List (Op Int)) (op : Op Int) (o : Nat), o ∉ written op ∧
      (absFl (step uq (run uq init ops) op)).objs o ≠ (absFl (run uq init ops)).objs o := by
  refine ⟨[.new 0, .lit 0 (.num 7), .set 0 "a" 0, .newScope 1 0, .copy 2 1], .flatten 2, 1,
    by decide, ?_⟩
  intro h
  have h0 : absFl (run uq init [.new 0, .lit 0 (.num 7), .set 0 "a" 0, .newScope 1 0, .copy 2 1]) =
      Fl.run Fl.init [.new 0, .lit 0 (.num 7), .set 0 "a" 0, .newScope 1 0, .copy 2 1] :=
    C02_enumeration_refines_values_partial huq _ (by simp [SafeRun, OpSafe])
  have h1 : absLk (run uq init [.new 0, .lit 0 (.num 7), .set 0 "a" 0, .newScope 1 0]) =
      Lk.run Lk.init [.new 0, .lit 0 (.num 7), .set 0 "a" 0, .newScope 1 0] :=
    C01_lookups_refine_values huq _ (by decide)
  have hsome : ((run uq init [.new 0, .lit 0 (.num 7), .set 0 "a" 0, .newScope 1 0]).objs 1).isSome
      := by
    have : ((absLk (run uq init [.new 0, .lit 0 (.num 7), .set 0 "a" 0, .newScope 1 0])).objs
      1).isSome := by rw [h1]; decide
    simpa [absLk] using this
  have h2 := flatten_copy_flattens_original uq
    (run uq init [.new 0, .lit 0 (.num 7), .set 0 "a" 0, .newScope 1 0]) 2 1 (by decide) hsome "a"
  rw [h1] at h2
  have h3 : run uq (run uq init [.new 0, .lit 0 (.num 7), .set 0 "a" 0, .newScope 1 0])
      [.copy 2 1, .flatten 2] = step uq (run uq init
        [.new 0, .lit 0 (.num 7), .set 0 "a" 0, .newScope 1 0, .copy 2 1]) (.flatten 2) := rfl
  rw [h3, h, h0] at h2
  revert h2
  decide

/-! ## C03 -/

/-- **C03.** A new scope has no entries of its own and finds exactly what its parent finds; the
parent and all other objects are unchanged. -/
theorem C03_new_scope {uq : St N → Nat → Bool} (huq : UniqueSound uq) (ops : List (Op N))
    (d p : Nat) (hp : ((run uq init ops).objs p).isSome) :
    let s := run uq init ops
    let s' := step uq s (.newScope d p)
    (∃ c, (absFl s').objs d = some c ∧ ∀ k, c [] .own k = .missing) ∧
    (absLk s').objs d = (absLk s).objs p ∧
    ∀ o, o ≠ d → (absFl s').objs o = (absFl s).objs o := by
  intro s s'
  obtain ⟨c, hc⟩ : ∃ c, s.objs p = some c := Option.isSome_iff_exists.mp hp
  have hi : Inv s := inv_run huq ops init inv_init
  obtain ⟨_, h2, h3⟩ := step_ok huq hi (.newScope d p)
  have h2 := h2 trivial
  have h3 := h3 rfl
  refine ⟨?_, ?_, ?_⟩
  · show ∃ c, (absFl (step uq s (.newScope d p))).objs d = some c ∧ _
    rw [h2]
    simp only [Fl.step, absFl_objs_some hc, upd_self]
    exact ⟨_, rfl, fun k => rfl⟩
  · show (absLk (step uq s (.newScope d p))).objs d = _
    rw [h3]
    simp only [Lk.step, absLk_objs_some hc, upd_self]
  · intro o ho
    show (absFl (step uq s (.newScope d p))).objs o = _
    rw [h2]
    simp only [Fl.step, absFl_objs_some hc, upd_ne _ _ ho]

/-- **C03.** What a child scope finds stays as it was at its creation (until it is written itself),
whatever is done to the parent and to every other object. -/
theorem C03_child_keeps_its_view {uq : St N → Nat → Bool} (huq : UniqueSound uq)
    (ops later : List (Op N)) (d p : Nat) (hp : ((run uq init ops).objs p).isSome)
    (hl : ∀ op ∈ later, d ∉ written op) :
    (absLk (run uq init (ops ++ .newScope d p :: later))).objs d =
      (absLk (run uq init ops)).objs p := by
  have h1 := C01_history_changes_no_other_lookup huq (ops ++ [.newScope d p]) later d hl
  rw [List.append_assoc, List.singleton_append] at h1
  rw [h1]
  have h2 := (C03_new_scope huq ops d p hp).2.1
  simpa [run, List.foldl_append] using h2

/-- **C03.** Writing a name: the object finds the new value under this name, everything else as
before, and no other object is affected (neither lookups nor enumeration). -/
theorem C03_set_shadows {uq : St N → Nat → Bool} (huq : UniqueSound uq) (ops : List (Op N))
    (o : Nat) (k : String) (x : Nat) (ho : ((run uq init ops).objs o).isSome) :
    let s := run uq init ops
    let s' := step uq s (.set o k x)
    (∃ c c', (absLk s).objs o = some c ∧ (absLk s').objs o = some c' ∧
      c' [] k = ((absLk s).vals x).leaf ∧ (∀ i p q, c' ((k, i) :: p) q = ((absLk s).vals x).sub i p q) ∧
      (∀ q, q ≠ k → c' [] q = c [] q ∧ ∀ i p r, c' ((q, i) :: p) r = c ((q, i) :: p) r)) ∧
    ∀ o', o' ≠ o → (absFl s').objs o' = (absFl s).objs o' := by
  intro s s'
  obtain ⟨c, hc⟩ : ∃ c, s.objs o = some c := Option.isSome_iff_exists.mp ho
  have hi : Inv s := inv_run huq ops init inv_init
  obtain ⟨_, h2, h3⟩ := step_ok huq hi (.set o k x)
  have h2 := h2 trivial
  have h3 := h3 rfl
  refine ⟨⟨obsLk s.heap c, Lk.set (obsLk s.heap c) k ((absLk s).vals x), absLk_objs_some hc, ?_,
    ?_, ?_, ?_⟩, ?_⟩
  · show (absLk (step uq s (.set o k x))).objs o = _
    rw [h3]; simp only [Lk.step, absLk_objs_some hc, upd_self]
  · simp [Lk.set]
  · intro i p q; simp [Lk.set]
  · intro q hq; simp [Lk.set, hq]
  · intro o' ho'
    show (absFl (step uq s (.set o k x))).objs o' = _
    rw [h2]
    simp only [Fl.step, Fl.modify, absFl_objs_some hc, upd_ne _ _ ho']

/-- **C03.** `flatten` and `push_scope` change no lookup on any object. -/
theorem C03_flatten_push_keep_lookups {uq : St N → Nat → Bool} (huq : UniqueSound uq)
    (ops : List (Op N)) (o : Nat) :
    absLk (step uq (run uq init ops) (.flatten o)) = absLk (run uq init ops) ∧
    absLk (step uq (run uq init ops) (.pushScope o)) = absLk (run uq init ops) := by
  have hi : Inv (run uq init ops) := inv_run huq ops init inv_init
  exact ⟨(step_ok huq hi (.flatten o)).2.2 rfl, (step_ok huq hi (.pushScope o)).2.2 rfl⟩

/-- The hypotheses of the C03 theorems hold: object 0 exists with parameter `a`; the child keeps
seeing 7 after the parent's `a` was overwritten and the parent destroyed. -/
example : (run (fun _ _ => false) (init : St Int) [.new 0, .lit 0 (.num 7), .set 0 "a" 0]).objs 0
      |>.isSome := by decide
example : ∀ op ∈ ([.lit 0 (.num 8), .set 0 "a" 0, .destroy 0] : List (Op Int)),
    1 ∉ written op := by decide
example : ((absLk (run (fun _ _ => false) (init : St Int)
    ([.new 0, .lit 0 (.num 7), .set 0 "a" 0] ++
      .newScope 1 0 :: [.lit 0 (.num 8), .set 0 "a" 0, .destroy 0]))).objs 1).map (fun c => c [] "a")
    = some (.num 7) := by
  rw [C03_child_keeps_its_view uniqueSound_never _ _ 1 0 (by decide) (by decide)]
  decide

/-! ## C04 -/

omit [Zero N] in
theorem getAny_eq (h : Addr → VMap N) (c : Cfg) (k : String) :
    getAny h c k = match look h c k with
      | some v => .ok v
      | none => .error .keyError := by
  unfold getAny look
  cases (h c.own).find k with
  | some v => rfl
  | none =>
    cases c.imp with
    | none => rfl
    | some i => simp only; cases (h i).find k <;> rfl

omit [Zero N] in
theorem tryGetAny_eq (h : Addr → VMap N) (c : Cfg) (k : String) (r : Val N) :
    tryGetAny h c k r = match look h c k with
      | some v => (true, v)
      | none => (false, r) := by
  unfold tryGetAny look
  cases (h c.own).find k with
  | some v => rfl
  | none =>
    cases c.imp with
    | none => rfl
    | some i => simp only; cases (h i).find k <;> rfl

/-- The entry that counts for a lookup: the own one if there is one, else the inherited one. -/
def Entry (h : Addr → VMap N) (c : Cfg) (k : String) (v : Val N) : Prop :=
  (h c.own).find k = some v ∨
  ((h c.own).find k = none ∧ ∃ i, c.imp = some i ∧ (h i).find k = some v)

omit [Zero N] in
theorem entry_iff (h : Addr → VMap N) (c : Cfg) (k : String) (v : Val N) :
    Entry h c k v ↔ look h c k = some v := by
  unfold Entry look
  cases h1 : (h c.own).find k with
  | some w => simp
  | none => cases h2 : c.imp <;> simp

omit [Zero N] in
/-- **C04.** `get<T>(name)` returns the visible entry iff it exists and has type `T`; in every other
case it raises `key_error` (never `bad_get`). -/
theorem C04_get (h : Addr → VMap N) (c : Cfg) (T : Ty) (k : String) :
    (∀ v, getT h c T k = .ok v ↔ Entry h c k v ∧ v.ty = T) ∧
    ((¬ ∃ v, Entry h c k v ∧ v.ty = T) → getT h c T k = .error .keyError) := by
  simp only [entry_iff]
  unfold getT boostGet
  rw [getAny_eq]
  cases look h c k with
  | none => simp
  | some v =>
    by_cases e : v.ty = T
    · simp only [e, if_true]
      refine ⟨?_, ?_⟩
      · intro w
        constructor
        · intro hw; cases hw; exact ⟨rfl, e⟩
        · rintro ⟨hw, _⟩; cases hw; rfl
      · intro hn; exact absurd ⟨v, rfl, e⟩ hn
    · simp only [e, if_false]
      refine ⟨?_, fun _ => trivial⟩
      intro w
      constructor
      · intro hw; cases hw
      · rintro ⟨hw, hT⟩; cases hw; exact absurd hT e

omit [Zero N] in
/-- **C04.** `get<T>(name, def)` never raises: the visible entry if it has type `T`, else `def`. -/
theorem C04_get_default (h : Addr → VMap N) (c : Cfg) (T : Ty) (k : String) (d : Val N) :
    (∀ v, Entry h c k v → v.ty = T → getDef h c T k d = .ok v) ∧
    ((¬ ∃ v, Entry h c k v ∧ v.ty = T) → getDef h c T k d = .ok d) := by
  simp only [entry_iff]
  unfold getDef boostGet
  rw [getAny_eq]
  cases look h c k with
  | none => simp
  | some v =>
    by_cases e : v.ty = T
    · simp [e]
    · simp only [e, if_false]
      refine ⟨?_, fun _ => trivial⟩
      intro w hw hT; cases hw; exact absurd hT e

/-- **C04.** `tryGet` returns true and stores the visible entry exactly if it exists with type `T`;
otherwise it returns false and leaves its argument alone. -/
theorem C04_tryGet (h : Addr → VMap N) (c : Cfg) (T : Ty) (k : String) (old : Val N) :
    (∀ v, Entry h c k v → v.ty = T → tryGetT h c T k old = (true, v)) ∧
    ((¬ ∃ v, Entry h c k v ∧ v.ty = T) → tryGetT h c T k old = (false, old)) := by
  simp only [entry_iff]
  unfold tryGetT boostGet
  rw [tryGetAny_eq]
  cases look h c k with
  | none => simp
  | some v =>
    by_cases e : v.ty = T
    · simp [e]
    · simp only [e, if_false]
      refine ⟨?_, fun _ => trivial⟩
      intro w hw hT; cases hw; exact absurd hT e

/-- All three outcomes occur: present, present with another type, absent. -/
example : let h : Addr → VMap Int := fun a => if a = 0 then [("L", .num 3)] else [("n", .str "x")]
    let c : Cfg := ⟨0, some 1⟩
    Entry h c "L" (.num 3) ∧ Entry h c "n" (.str "x") ∧
    getT h c .num "L" = .ok (.num 3) ∧ getT h c .str "n" = .ok (.str "x") ∧
    getT h c .num "n" = .error .keyError ∧ getT h c .num "z" = .error .keyError ∧
    getDef h c .num "n" (.num 5) = .ok (.num 5) ∧ tryGetT h c .num "z" (.num 4) = (false, .num 4) := by
  refine ⟨.inl rfl, .inr ⟨rfl, 1, rfl, rfl⟩, ?_⟩
  decide

/-! ## C05 -/

/-- **C05 (swapAny).** In every reachable state `swapAny(k, x)` is a true exchange with the own
entry `k`: the entry becomes the old value of `x`, `x` becomes the old entry (the number 0 if there
was none, the entry then being inserted); other entries, variables and objects are untouched. -/
theorem C05_swapAny {uq : St N → Nat → Bool} (huq : UniqueSound uq) (ops : List (Op N))
    (o : Nat) (k : String) (x : Nat) (ho : ((run uq init ops).objs o).isSome) :
    let s := run uq init ops
    let s' := step uq s (.swapAny o k x)
    ∃ c c', (absFl s).objs o = some c ∧ (absFl s').objs o = some c' ∧
      -- the entry is the old value of the variable
      Fl.entry c' .own k = (absFl s).vals x ∧
      -- the variable is the old entry, or 0
      ((c [] .own k ≠ .missing ∧ (absFl s').vals x = Fl.entry c .own k) ∨
       (c [] .own k = .missing ∧ (absFl s').vals x = Fl.ofLit (.num 0))) ∧
      -- frame
      (∀ q, q ≠ k → Fl.entry c' .own q = Fl.entry c .own q) ∧
      (∀ q, Fl.entry c' .inh q = Fl.entry c .inh q) ∧
      (∀ o', o' ≠ o → (absFl s').objs o' = (absFl s).objs o') ∧
      (∀ y, y ≠ x → (absFl s').vals y = (absFl s).vals y) := by
  intro s s'
  obtain ⟨c, hc⟩ : ∃ c, s.objs o = some c := Option.isSome_iff_exists.mp ho
  have hi : Inv s := inv_run huq ops init inv_init
  have h2 := (step_ok huq hi (.swapAny o k x)).2.1 trivial
  have hs' : absFl s' = Fl.step (absFl s) (.swapAny o k x) := h2
  refine ⟨obsFl s.heap c, Fl.set (obsFl s.heap c) k ((absFl s).vals x), absFl_objs_some hc, ?_⟩
  rw [hs']
  simp only [Fl.step, Fl.modify, absFl_objs_some hc, upd_self, true_and]
  refine ⟨?_, ?_, ?_, ?_, ?_, ?_⟩
  · simp [Fl.set]
  · have hl : (Fl.entry (obsFl s.heap c) .own k).leaf = obsFl s.heap c [] .own k := rfl
    by_cases hm : obsFl s.heap c [] .own k = .missing
    · right
      refine ⟨hm, ?_⟩
      unfold Fl.orElse; rw [hl, hm]
    · left
      refine ⟨hm, ?_⟩
      unfold Fl.orElse; rw [hl]
      split
      · rename_i h; exact absurd h hm
      · rfl
  · intro q hq; simp [Fl.set, hq]
  · intro q; simp [Fl.set]
  · intro o' ho'; simp [upd_ne _ _ ho']
  · intro y hy; simp [upd_ne _ _ hy]

/-- Hypothesis met: object 0 exists in a reachable state, with and without the entry. -/
example : ((run (fun _ _ => false) (init : St Int)
    [.new 0, .lit 0 (.num 7), .set 0 "a" 0, .lit 1 (.str "t"), .swapAny 0 "a" 1]).objs 0).isSome ∧
    ((absFl (run (fun _ _ => false) (init : St Int)
      [.new 0, .lit 0 (.num 7), .set 0 "a" 0, .lit 1 (.str "t"), .swapAny 0 "a" 1])).vals 1).leaf
      = .num 7 := by decide

/-- **C05 for swap<T> is false**: what the call really does, in every reachable state - the entry
becomes the old value of the variable but the variable always becomes the default value of its type,
never the old entry. -/
theorem C05_swapT_loses_old_value {uq : St N → Nat → Bool} (huq : UniqueSound uq)
    (ops : List (Op N)) (o : Nat) (k : String) (x : Nat) (ho : ((run uq init ops).objs o).isSome) :
    let s := run uq init ops
    let s' := step uq s (.swapT o k x)
    s'.vals x = (s.vals x).dflt ∧
    ∃ c', (absFl s').objs o = some c' ∧ Fl.entry c' .own k = (absFl s).vals x := by
  intro s s'
  obtain ⟨c, hc⟩ : ∃ c, s.objs o = some c := Option.isSome_iff_exists.mp ho
  have hi : Inv s := inv_run huq ops init inv_init
  have h2 : absFl s' = Fl.step (absFl s) (.swapT o k x) :=
    (step_ok huq hi (.swapT o k x)).2.1 trivial
  refine ⟨?_, ?_⟩
  · show (step uq s (.swapT o k x)).vals x = _
    simp only [step, hc, upd_self]
  · rw [h2]
    simp only [Fl.step, Fl.modify, absFl_objs_some hc, upd_self]
    exact ⟨_, rfl, by simp [Fl.set]⟩

/-- **C05 for swap<T> is false**: concrete history with a string parameter holding "a"; after
`swap<std::string>("k", v)` with `v = "b"`, `v` is empty instead of "a". -/
theorem C05_swapT_false {uq : St Int → Nat → Bool} (huq : UniqueSound uq) :
    let ops : List (Op Int) := [.new 0, .lit 0 (.str "a"), .set 0 "k" 0, .lit 1 (.str "b")]
    ((absLk (run uq init ops)).objs 0).map (fun c => c [] "k") = some (.str "a") ∧
    ((absLk (run uq init (ops ++ [.swapT 0 "k" 1]))).vals 1).leaf = .str "" := by
  intro ops
  rw [C01_lookups_refine_values huq ops (by decide), C01_lookups_refine_values huq _ (by decide)]
  decide

/-! ## C51 -/

/-- The calls made by Python's `Machine.conf(i)` on the `Config` `i` stored in the machine
(/repo/python/flame/modmachine.cpp:68-82): `C = conf(); C.flatten();` the result is built from `C`,
which then goes out of scope. -/
def confCall (tmp i : Nat) : List (Op N) := [.copy tmp i, .flatten tmp, .destroy tmp]

/-- **C51 (partial).** Full statement: `conf(i)` changes nothing that can be observed later.  Proved:
it changes no lookup (hence nothing that elements read when built, reconfigured or propagated), on
any object, in any reachable state.  Missing: enumeration, where the statement is false
(`C51_false`). -/
theorem C51_conf_keeps_lookups_partial {uq : St N → Nat → Bool} (huq : UniqueSound uq)
    (ops : List (Op N)) (tmp i o : Nat) (ho : o ≠ tmp) :
    (absLk (run uq init (ops ++ confCall tmp i))).objs o = (absLk (run uq init ops)).objs o := by
  refine C01_history_changes_no_other_lookup huq ops (confCall tmp i) o ?_
  intro op hop
  simp only [confCall, List.mem_cons, List.not_mem_nil, or_false] at hop
  rcases hop with rfl | rfl | rfl <;> simpa [written] using ho

/-- What `conf(i)` really does to the stored configuration `i`, in every reachable state: every
parameter it can look up, inherited ones included, becomes an own entry. -/
theorem C51_conf_flattens {uq : St N → Nat → Bool} (ops : List (Op N)) (tmp i : Nat)
    (hne : i ≠ tmp) (hi : ((run uq init ops).objs i).isSome) (k : String) :
    ((absFl (run uq init (ops ++ confCall tmp i))).objs i).map (fun f => f [] .own k) =
      ((absLk (run uq init ops)).objs i).map (fun f => f [] k) := by
  have h1 : run uq init (ops ++ confCall tmp i) =
      step uq (run uq (run uq init ops) [.copy tmp i, .flatten tmp]) (.destroy tmp) := by
    simp [run, confCall, List.foldl_append]
  have h2 : ∀ s : St N, (absFl (step uq s (.destroy tmp))).objs i = (absFl s).objs i := by
    intro s; simp [step, absFl, upd_ne _ _ hne]
  rw [h1, h2, flatten_copy_flattens_original uq _ tmp i hne hi]

/-- **C51 is false**: `conf(1)` makes the inherited parameter an own entry of the stored
configuration 1, which printing and enumerating it then show. -/
theorem C51_false {uq : St Int → Nat → Bool} (huq : UniqueSound uq) :
    let ops : List (Op Int) := [.new 0, .lit 0 (.num 7), .set 0 "a" 0, .newScope 1 0]
    ((absFl (run uq init ops)).objs 1).map (fun c => c [] .own "a") = some .missing ∧
    ((absFl (run uq init (ops ++ confCall 2 1))).objs 1).map (fun c => c [] .own "a")
      = some (.num 7) := by
  intro ops
  have h1 : absLk (run uq init ops) = Lk.run Lk.init ops :=
    C01_lookups_refine_values huq _ (by decide)
  have hsome : ((run uq init ops).objs 1).isSome := by
    have : ((absLk (run uq init ops)).objs 1).isSome := by rw [h1]; decide
    simpa [absLk] using this
  constructor
  · rw [C02_enumeration_refines_values_partial huq ops (by simp [ops, SafeRun, OpSafe])]
    decide
  · rw [C51_conf_flattens ops 2 1 (by decide) hsome, h1]
    decide

end Flame.Conf
