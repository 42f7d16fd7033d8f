import Verif.Vaccel.WorkerLemmas

/-!
# C46: no simulation request is lost
-/

namespace Flame.Vaccel

variable {S : Type}

/-- **C46.** Whenever a request is pending, the simulation thread either will look at it without blocking on the
event, or it waits for the event and the event is set, or the client that made the request is about to set it; unless
it has been told to stop. -/
theorem C46_not_lost (s : Sys S) (h : Reach s) (hr : s.ans < s.req) (hs : s.stop = false) :
    (s.w = .start ∨ s.w = .top ∨ s.w = .relock) ∨
    (s.w = .waiting ∧ (s.event = true ∨ ∃ i, s.c i = .marked ∧ s.owner = some (.client i))) := by
  have hI := inv_reach h
  have hd : s.doSim = true := by
    cases hd : s.doSim with
    | true => rfl
    | false => have := hI.idle hd; omega
  cases hw : s.w with
  | start => simp
  | top => simp
  | relock => simp
  | running => rw [hI.run hw] at hd; cases hd
  | done => rw [hI.ended hw] at hs; cases hs
  | waiting =>
    refine .inr ⟨rfl, ?_⟩
    rcases hI.wake hw hd with h | ⟨i, h⟩
    · exact .inl h
    · exact .inr ⟨i, h, (hI.holdC i).2 (by rw [h]; rfl)⟩

/-- **C46.** Every request is answered: if `k` requests have been made at some moment, then sooner or later a
simulation is or has been started after these `k` requests, or the thread is told to stop. -/
theorem C46_answered (r : Run S) (hc : r.ClientsFair) (hw : r.WorkerFair) (n k : Nat) (hk : k ≤ (r.st n).req) :
    ∃ m, n ≤ m ∧ (k ≤ (r.st m).ans ∨ (r.st m).stop = true) := by
  by_contra hneg
  have hlt : ∀ m, n ≤ m → (r.st m).ans < k ∧ (r.st m).stop = false := by
    intro m hm
    constructor
    · by_contra h
      exact hneg ⟨m, hm, .inl (by omega)⟩
    · by_contra h
      exact hneg ⟨m, hm, .inr (by simpa using h)⟩
  have hreq : ∀ m, n ≤ m → k ≤ (r.st m).req := by
    refine r.stays (fun s => k ≤ s.req) n ?_ hk
    intro m hm e hP _ hs
    have : (r.st m).req ≤ (r.st (m + 1)).req := by
      generalize r.st m = s at hs
      generalize r.st (m + 1) = s' at hs
      have henter : ∀ j q, s.enter j q = some s' → s.req ≤ s'.req := by
        intro j q hq
        unfold Sys.enter at hq
        split at hq
        · cases hq
          exact Nat.le_refl _
        · cases hq
      cases e with
      | request j => exact henter _ _ hs
      | stopCall j => exact henter _ _ hs
      | other j => exact henter _ _ hs
      | change j cfg => simp only [step] at hs; grind
      | worker => simp only [step, Sys.workerStep] at hs; grind
      | go j => simp only [step, Sys.goStep, Sys.setC] at hs; grind
    omega
  have hd : ∀ m, n ≤ m → (r.st m).doSim = true := by
    intro m hm
    cases hd : (r.st m).doSim with
    | true => rfl
    | false =>
      have h1 := (inv_reach (r.reach m)).idle hd
      have h2 := hreq m hm
      have h3 := (hlt m hm).1
      omega
  have hnd : ∀ m, n ≤ m → (r.st m).w ≠ .done := by
    intro m hm h
    have h1 := (inv_reach (r.reach m)).ended h
    rw [(hlt m hm).2] at h1
    cases h1
  obtain ⟨m, g1, g2, g3⟩ := r.looks hc hw n (fun m hm => ⟨hnd m hm, .inl (hd m hm)⟩)
  simp only [Sys.workerStep, g2, (hlt m g1).2, hd m g1] at g3
  have h1 := (hlt (m + 1) (by omega)).1
  have h2 := hreq m g1
  simp only [Bool.false_eq_true, if_false, if_true, Option.some.injEq] at g3
  rw [← g3] at h1
  simp only at h1
  omega

/-- **C46.** After the order to stop the thread ends. -/
theorem C46_stops (r : Run S) (hc : r.ClientsFair) (hw : r.WorkerFair) (n : Nat) (hs : (r.st n).stop = true) :
    ∃ m, n ≤ m ∧ (r.st m).w = .done := by
  by_contra hneg
  have hnd : ∀ m, n ≤ m → (r.st m).w ≠ .done := fun m hm h => hneg ⟨m, hm, h⟩
  have hst : ∀ m, n ≤ m → (r.st m).stop = true := by
    refine r.stays (fun s => s.stop = true) n ?_ hs
    intro m hm e hP _ hs
    generalize r.st m = s at hs hP
    generalize r.st (m + 1) = s' at hs
    have henter : ∀ j q, s.enter j q = some s' → s'.stop = true := by
      intro j q hq
      unfold Sys.enter at hq
      split at hq
      · cases hq
        exact hP
      · cases hq
    cases e with
    | request j => exact henter _ _ hs
    | stopCall j => exact henter _ _ hs
    | other j => exact henter _ _ hs
    | change j cfg => simp only [step] at hs; grind
    | worker => simp only [step, Sys.workerStep] at hs; grind
    | go j => simp only [step, Sys.goStep, Sys.setC] at hs; grind
  obtain ⟨m, g1, g2, g3⟩ := r.looks hc hw n (fun m hm => ⟨hnd m hm, .inr (hst m hm)⟩)
  simp only [Sys.workerStep, g2, hst m g1, if_true, Option.some.injEq] at g3
  exact hnd (m + 1) (by omega) (by rw [← g3])

/-- **C46.** There are not more simulations than requests, and the settings do not change during a simulation. -/
theorem C46_no_superfluous (s : Sys S) (h : Reach s) :
    s.sims ≤ s.req ∧ (s.w = .running → s.simCfg = s.cfg) := by
  have hI := inv_reach h
  refine ⟨?_, hI.cons⟩
  have := hI.sims
  cases hd : s.doSim with
  | true => have := hI.pend hd; omega
  | false => have := hI.idle hd; omega

/-- What one step can do to the flags: `stop` is only set by a client in the destructor, and a change of `ans` is the
start of a simulation. -/
theorem step_flags {s s' : Sys S} {e : Ev S} (hs : step s e = some s') :
    (s'.stop = s.stop ∨ ∃ i, s.c i = .sLocked) ∧
    (s'.ans = s.ans ∨ (s.w = .top ∧ s'.w = .running ∧ s'.simCfg = s.cfg)) ∧
    (∀ i, s'.c i = .sLocked → s.c i = .sLocked ∨ e = .stopCall i) := by
  have henter : ∀ j q, s.enter j q = some s' → s'.stop = s.stop ∧ s'.ans = s.ans ∧
      ∀ i, s'.c i = .sLocked → s.c i = .sLocked ∨ (j = i ∧ q = .sLocked) := by
    intro j q hq
    unfold Sys.enter at hq
    split at hq
    · cases hq
      refine ⟨rfl, rfl, fun i hi => ?_⟩
      simp only [Sys.setC] at hi
      split at hi
      · rename_i h
        exact .inr ⟨h.symm, hi⟩
      · exact .inl hi
    · cases hq
  cases e with
  | request j =>
    obtain ⟨h1, h2, h3⟩ := henter _ _ hs
    refine ⟨.inl h1, .inl h2, fun i hi => (h3 i hi).imp id (fun h => ?_)⟩
    cases h.2
  | stopCall j =>
    obtain ⟨h1, h2, h3⟩ := henter _ _ hs
    exact ⟨.inl h1, .inl h2, fun i hi => (h3 i hi).imp id (fun h => by rw [h.1])⟩
  | other j =>
    obtain ⟨h1, h2, h3⟩ := henter _ _ hs
    refine ⟨.inl h1, .inl h2, fun i hi => (h3 i hi).imp id (fun h => ?_)⟩
    cases h.2
  | change j cfg => simp only [step] at hs; grind
  | worker => simp only [step, Sys.workerStep] at hs; grind
  | go j => simp only [step, Sys.goStep, Sys.setC] at hs; grind

/-- **C46.** The order to stop comes from nowhere else: as long as nobody destroys the simulation the thread neither is
told to stop nor ends. -/
theorem C46_stop_only (r : Run S) (n : Nat) (h : ∀ m < n, ∀ i, r.ev m ≠ some (.stopCall i)) :
    (r.st n).stop = false ∧ (r.st n).w ≠ .done := by
  have key : (r.st n).stop = false ∧ ∀ i, (r.st n).c i ≠ .sLocked := by
    induction n with
    | zero =>
      obtain ⟨cfg, h0⟩ := r.init
      rw [h0]
      exact ⟨rfl, fun i => by simp [Sys.start]⟩
    | succ n ih =>
      obtain ⟨h1, h2⟩ := ih (fun m hm => h m (by omega))
      rcases r.next n with ⟨_, h3⟩ | ⟨e, he, hs⟩
      · rw [h3]; exact ⟨h1, h2⟩
      · obtain ⟨f1, _, f3⟩ := step_flags hs
        refine ⟨?_, fun i hi => ?_⟩
        · rcases f1 with f1 | ⟨i, f1⟩
          · rw [f1, h1]
          · exact absurd f1 (h2 i)
        · rcases f3 i hi with f | f
          · exact h2 i f
          · exact h n (by omega) i (by rw [he, f])
  refine ⟨key.1, fun hd => ?_⟩
  have := (inv_reach (r.reach n)).ended hd
  rw [key.1] at this
  cases this

/-- A change of `ans` between two moments is the start of a simulation. -/
theorem Run.starts (r : Run S) (n : Nat) : ∀ d, (r.st (n + d)).ans ≠ (r.st n).ans →
    ∃ m, n ≤ m ∧ (r.st m).w = .top ∧ (r.st (m + 1)).w = .running ∧ (r.st (m + 1)).simCfg = (r.st m).cfg
  | 0, h => absurd rfl h
  | d + 1, h => by
    by_cases hd : (r.st (n + d)).ans = (r.st n).ans
    · rcases r.next (n + d) with ⟨_, h3⟩ | ⟨e, he, hs⟩
      · exact absurd (by rw [← Nat.add_assoc, h3, hd]) h
      · rcases (step_flags hs).2.1 with f | f
        · exact absurd (by rw [← Nat.add_assoc, f, hd]) h
        · exact ⟨n + d, by omega, f⟩
    · exact r.starts n d hd

/-- **C46**, from the call on: after a client has called for a simulation, and no matter what is running or pending at
that moment, a simulation is started later with the settings of that later moment, unless there is an order to stop. -/
theorem C46_request (r : Run S) (hc : r.ClientsFair) (hw : r.WorkerFair) (n i : Nat) (h : r.ev n = some (.request i)) :
    ∃ m, n < m ∧ (((r.st m).w = .top ∧ (r.st (m + 1)).w = .running ∧ (r.st (m + 1)).simCfg = (r.st m).cfg) ∨
      (r.st m).stop = true) := by
  have hl : (r.st (n + 1)).c i = .locked := by
    rcases r.next n with ⟨h1, _⟩ | ⟨e, he, hs⟩
    · rw [h] at h1; cases h1
    · rw [h] at he
      cases he
      simp only [step, Sys.enter] at hs
      split at hs
      · simp only [Option.some.injEq] at hs
        rw [← hs]
        simp [Sys.setC]
      · cases hs
  obtain ⟨k, g1, g2, g3⟩ := r.goes hc hl (by decide) (by decide)
  have hreq : (r.st (k + 1)).req = (r.st k).req + 1 := by
    simp only [Sys.goStep, g2] at g3
    split at g3 <;> (simp only [Option.some.injEq] at g3; rw [← g3])
  obtain ⟨m, e1, e2⟩ := C46_answered r hc hw (k + 1) _ (Nat.le_refl _)
  rcases e2 with e2 | e2
  · have hI := inv_reach (r.reach k)
    have hle : (r.st k).ans ≤ (r.st k).req := by
      cases hd : (r.st k).doSim with
      | true => have := hI.pend hd; omega
      | false => have := hI.idle hd; omega
    obtain ⟨d, rfl⟩ : ∃ d, m = k + d := ⟨m - k, by omega⟩
    obtain ⟨j, f1, f2⟩ := r.starts k d (by omega)
    exact ⟨j, by omega, .inl f2⟩
  · exact ⟨m, by omega, .inr e2⟩

/-- **C46**, from the call on: after the destructor has been called the thread ends. -/
theorem C46_stop_call (r : Run S) (hc : r.ClientsFair) (hw : r.WorkerFair) (n i : Nat)
    (h : r.ev n = some (.stopCall i)) : ∃ m, n < m ∧ (r.st m).w = .done := by
  have hl : (r.st (n + 1)).c i = .sLocked := by
    rcases r.next n with ⟨h1, _⟩ | ⟨e, he, hs⟩
    · rw [h] at h1; cases h1
    · rw [h] at he
      cases he
      simp only [step, Sys.enter] at hs
      split at hs
      · simp only [Option.some.injEq] at hs
        rw [← hs]
        simp [Sys.setC]
      · cases hs
  obtain ⟨k, g1, g2, g3⟩ := r.goes hc hl (by decide) (by decide)
  simp only [Sys.goStep, g2, Option.some.injEq] at g3
  obtain ⟨m, e1, e2⟩ := C46_stops r hc hw (k + 1) (by rw [← g3])
  exact ⟨m, by omega, e2⟩

/-! ### A concrete execution -/

/-- Performing steps. -/
def runL : List (Ev S) → Sys S → Option (Sys S)
  | [], s => some s
  | e :: es, s => (step s e).bind (runL es)

theorem runL_append : ∀ (a b : List (Ev S)) (s : Sys S), runL (a ++ b) s = (runL a s).bind (runL b)
  | [], b, s => rfl
  | e :: a, b, s => by
    simp only [List.cons_append, runL]
    cases step s e with
    | none => rfl
    | some s' => exact runL_append a b s'

/-- The execution that performs the given steps and then nothing. -/
def ofList (es : List (Ev S)) (cfg : S) (h : (runL es (Sys.start cfg)).isSome = true) : Run S where
  st n := (runL (es.take n) (Sys.start cfg)).getD (Sys.start cfg)
  ev n := es[n]?
  init := ⟨cfg, rfl⟩
  next n := by
    by_cases hn : n < es.length
    · right
      refine ⟨es[n], List.getElem?_eq_getElem hn, ?_⟩
      have hsplit : es = es.take n ++ (es[n] :: es.drop (n + 1)) := by
        rw [← List.drop_eq_getElem_cons hn, List.take_append_drop]
      have htake : es.take (n + 1) = es.take n ++ [es[n]] := by
        rw [List.take_add_one, List.getElem?_eq_getElem hn]; rfl
      rw [htake]
      rw [hsplit] at h
      rw [runL_append] at h ⊢
      cases h1 : runL (es.take n) (Sys.start cfg) with
      | none => rw [h1] at h; cases h
      | some s =>
        rw [h1] at h
        simp only [Option.bind_some, runL, Option.getD_some] at h ⊢
        cases h2 : step s es[n] with
        | none => rw [h2] at h; cases h
        | some s' => rfl
    · left
      refine ⟨List.getElem?_eq_none (by omega), ?_⟩
      rw [List.take_of_length_le (by omega), List.take_of_length_le (by omega)]

/-- The client of a step. -/
def Ev.who : Ev S → Option Nat
  | .worker => none
  | .request i | .stopCall i | .other i | .change i _ | .go i => some i

theorem step_other {s s' : Sys S} {e : Ev S} {i : Nat} (hs : step s e = some s') (he : e.who ≠ some i) : s'.c i = s.c i := by
  have henter : ∀ j q, j ≠ i → s.enter j q = some s' → s'.c i = s.c i := by
    intro j q hj hq
    unfold Sys.enter at hq
    split at hq
    · cases hq
      simp only [Sys.setC]
      rw [if_neg (fun h => hj h.symm)]
    · cases hq
  have hne : ∀ j, some j ≠ some i → j ≠ i := fun j h h' => h (by rw [h'])
  cases e with
  | request j => exact henter _ _ (hne j he) hs
  | stopCall j => exact henter _ _ (hne j he) hs
  | other j => exact henter _ _ (hne j he) hs
  | change j cfg => simp only [step] at hs; grind
  | worker => simp only [step, Sys.workerStep] at hs; grind
  | go j => have := hne j he; simp only [step, Sys.goStep, Sys.setC] at hs; grind

theorem runL_other {i : Nat} : ∀ (es : List (Ev S)) (s s' : Sys S), runL es s = some s' → (∀ e ∈ es, e.who ≠ some i) →
    s'.c i = s.c i
  | [], s, s', h, _ => by simp only [runL, Option.some.injEq] at h; rw [h]
  | e :: es, s, s', h, hn => by
    obtain ⟨s1, h1, h2⟩ := Option.bind_eq_some_iff.1 h
    rw [runL_other es s1 s' h2 (fun e he => hn e (List.mem_cons_of_mem _ he)),
      step_other h1 (hn e (List.mem_cons_self ..))]

/-- A check of fairness for such an execution with clients below `b`. -/
theorem ofList_fair (es : List (Ev S)) (cfg : S) (h : (runL es (Sys.start cfg)).isSome = true) (b : Nat)
    (hb : ∀ e ∈ es, ∀ i, e.who = some i → i < b)
    (hc : ∀ n ≤ es.length, ∀ i < b, ((ofList es cfg h).st n).c i = .idle ∨ ((ofList es cfg h).st n).c i = .sWait ∨
      ∃ m < es.length, n ≤ m ∧ es[m]? = some (.go i))
    (hw : (step ((ofList es cfg h).st es.length) .worker).isSome = false) :
    (ofList es cfg h).ClientsFair ∧ (ofList es cfg h).WorkerFair := by
  have hlate : ∀ n, es.length ≤ n → (ofList es cfg h).st n = (ofList es cfg h).st es.length := by
    intro n hn
    simp only [ofList]
    rw [List.take_of_length_le hn, List.take_of_length_le (Nat.le_refl _)]
  have hfair : ∀ n ≤ es.length, ∀ i, ((ofList es cfg h).st n).c i ≠ .idle → ((ofList es cfg h).st n).c i ≠ .sWait →
      ∃ m, n ≤ m ∧ (ofList es cfg h).ev m = some (.go i) := by
    intro n hn i h1 h2
    by_cases hi : i < b
    · rcases hc n hn i hi with h3 | h3 | ⟨m, _, h4, h5⟩
      · exact absurd h3 h1
      · exact absurd h3 h2
      · exact ⟨m, h4, h5⟩
    · exfalso
      apply h1
      simp only [ofList]
      cases hr : runL (es.take n) (Sys.start cfg) with
      | none => rfl
      | some s =>
        rw [Option.getD_some, runL_other (es.take n) _ s hr]
        · rfl
        · intro e he hwho
          exact hi (hb e (List.mem_of_mem_take he) i hwho)
  constructor
  · intro n i h1 h2
    by_cases hn : n ≤ es.length
    · exact hfair n hn i h1 h2
    · rw [hlate n (by omega)] at h1 h2
      obtain ⟨m, h3, h4⟩ := hfair _ (Nat.le_refl _) i h1 h2
      exfalso
      simp only [ofList] at h4
      rw [List.getElem?_eq_none h3] at h4
      cases h4
  · intro n hinf
    obtain ⟨k, hk, hen⟩ := hinf (max n es.length) (Nat.le_max_left ..)
    rw [hlate k (Nat.le_trans (Nat.le_max_right ..) hk), hw] at hen
    cases hen

/-- Two requests, one of them while the first is still pending, a change of the settings in between, one simulation;
later the order to stop. -/
def exEvents : List (Ev Bool) :=
  [.worker, .worker, .request 0, .go 0, .go 0, .go 0, .worker, .other 1, .change 1 true, .go 1, .request 1, .go 1,
   .worker, .worker, .worker, .worker, .stopCall 0, .go 0, .go 0, .worker, .worker, .worker,
   .go 0]

theorem exEvents_ok : (runL exEvents (Sys.start false)).isSome = true := by decide

/-- Example for `C46_answered` and `C46_stops`: a fair execution in which there are requests and an order to stop. -/
example : (ofList exEvents false exEvents_ok).ClientsFair ∧ (ofList exEvents false exEvents_ok).WorkerFair ∧
    ((ofList exEvents false exEvents_ok).st 12).req = 2 ∧ ((ofList exEvents false exEvents_ok).st 12).ans = 0 ∧
    ((ofList exEvents false exEvents_ok).st 14).ans = 2 ∧ ((ofList exEvents false exEvents_ok).st 18).stop = true ∧
    ((ofList exEvents false exEvents_ok).st 23).w = .done := by
  have := ofList_fair exEvents false exEvents_ok 2 (by decide) (by decide +kernel) (by decide +kernel)
  exact ⟨this.1, this.2, by decide +kernel, by decide +kernel, by decide +kernel, by decide +kernel, by decide +kernel⟩

/-- Example for `C46_request`, `C46_stop_call` and `C46_stop_only` in the same execution. -/
example : (ofList exEvents false exEvents_ok).ev 10 = some (.request 1) ∧
    (ofList exEvents false exEvents_ok).ev 16 = some (.stopCall 0) ∧
    ∀ m < 16, ∀ i, (ofList exEvents false exEvents_ok).ev m ≠ some (.stopCall i) := by
  refine ⟨by decide, by decide, fun m hm i => ?_⟩
  have : ∀ m < 16, ∀ e ∈ exEvents[m]?, (match e with | .stopCall _ => false | _ => true) = true := by decide
  intro h
  exact absurd (this m hm _ h) (by simp)

/-- Example for `C46_not_lost` and `C46_no_superfluous`: a pending request with the thread waiting and the event
set. -/
example : Reach ((ofList exEvents false exEvents_ok).st 6) ∧ ((ofList exEvents false exEvents_ok).st 6).w = .waiting ∧
    ((ofList exEvents false exEvents_ok).st 6).ans < ((ofList exEvents false exEvents_ok).st 6).req ∧
    ((ofList exEvents false exEvents_ok).st 6).stop = false :=
  ⟨Run.reach _ _, by decide +kernel, by decide +kernel, by decide +kernel⟩

end Flame.Vaccel
