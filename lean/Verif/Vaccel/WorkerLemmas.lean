import Verif.Vaccel.WorkerSpec
import Mathlib.Tactic.Common

/-!
# Invariant of the simulation thread, and its progress
-/

namespace Flame.Vaccel

variable {S : Type}

/-- Phases in which a client owns the lock. -/
def CPhase.holds : CPhase → Bool
  | .locked | .marked | .signalled | .sLocked | .oLocked => true
  | .idle | .sSet | .sWait => false

structure Inv (s : Sys S) : Prop where
  holdW : s.owner = some .worker ↔ (s.w = .top ∨ s.w = .running)
  holdC : ∀ i, s.owner = some (.client i) ↔ (s.c i).holds = true
  run : s.w = .running → s.doSim = false
  idle : s.doSim = false → s.ans = s.req
  pend : s.doSim = true → s.ans < s.req
  sims : s.sims ≤ s.ans
  wake : s.w = .waiting → s.doSim = true → s.event = true ∨ ∃ i, s.c i = .marked
  wakeS : s.w = .waiting → s.stop = true → s.event = true ∨ ∃ i, s.c i = .sSet
  ended : s.w = .done → s.stop = true
  cons : s.w = .running → s.simCfg = s.cfg

theorem inv_start (cfg : S) : Inv (Sys.start cfg) := by
  constructor <;> simp [Sys.start, CPhase.holds]

theorem inv_enter {s s' : Sys S} {i : Nat} {p : CPhase} (h : Inv s) (hp : p = .locked ∨ p = .sLocked ∨ p = .oLocked)
    (hs : s.enter i p = some s') : Inv s' := by
  unfold Sys.enter at hs
  split at hs
  · rename_i h1 h2
    cases hs
    obtain ⟨a1, a2, a3, a4, a5, a6, a7, a8, a9, a10⟩ := h
    refine ⟨?_, ?_, a3, a4, a5, a6, ?_, ?_, a9, a10⟩
    · rw [h2] at a1
      simp only [Sys.setC]
      constructor
      · intro hc; cases hc
      · intro hc; have := a1.2 hc; cases this
    · intro j
      simp only [Sys.setC, Option.some.injEq, Who.client.injEq]
      split
      · rename_i hj
        rcases hp with rfl | rfl | rfl <;> simp [CPhase.holds, hj]
      · rename_i hj
        rw [← a2 j, h2]
        constructor
        · intro hc; exact absurd hc.symm hj
        · intro hc; cases hc
    · intro g1 g2
      rcases a7 g1 g2 with g | ⟨j, g⟩
      · exact .inl g
      · have := (a2 j).2 (by rw [g]; rfl)
        rw [h2] at this
        cases this
    · intro g1 g2
      rcases a8 g1 g2 with g | ⟨j, g⟩
      · exact .inl g
      · refine .inr ⟨j, ?_⟩
        simp only [Sys.setC]
        rw [if_neg (by rintro rfl; rw [h1] at g; cases g)]
        exact g
  · cases hs

theorem inv_step {s s' : Sys S} {e : Ev S} (h : Inv s) (hs : step s e = some s') : Inv s' := by
  cases e with
  | request i => exact inv_enter h (.inl rfl) hs
  | stopCall i => exact inv_enter h (.inr (.inl rfl)) hs
  | other i => exact inv_enter h (.inr (.inr rfl)) hs
  | change i cfg =>
    simp only [step] at hs
    split at hs
    · rename_i hi
      cases hs
      obtain ⟨a1, a2, a3, a4, a5, a6, a7, a8, a9, a10⟩ := h
      have ho := (a2 i).2 (by rw [hi]; rfl)
      refine ⟨a1, a2, a3, a4, a5, a6, a7, a8, a9, ?_⟩
      intro hw
      have := a1.2 (.inr hw)
      rw [ho] at this
      cases this
    · cases hs
  | worker =>
    simp only [step, Sys.workerStep] at hs
    obtain ⟨a1, a2, a3, a4, a5, a6, a7, a8, a9, a10⟩ := h
    split at hs
    · split at hs
      · cases hs
        constructor <;> grind
      · cases hs
    · split at hs
      · cases hs
        constructor <;> grind
      · cases hs
    · split at hs
      · cases hs
        constructor <;> grind
      · split at hs
        · cases hs
          constructor <;> grind
        · cases hs
          constructor <;> grind
    · cases hs
      constructor <;> grind
    · split at hs
      · cases hs
        constructor <;> grind
      · cases hs
    · cases hs
  | go i =>
    simp only [step, Sys.goStep] at hs
    obtain ⟨a1, a2, a3, a4, a5, a6, a7, a8, a9, a10⟩ := h
    have hI := a2 i
    split at hs
    · cases hs
    · rename_i hi
      rw [hi] at hI
      split at hs
      · cases hs
        constructor <;> simp only [Sys.setC] <;> grind [CPhase.holds]
      · cases hs
        constructor <;> simp only [Sys.setC] <;> grind [CPhase.holds]
    · rename_i hi
      rw [hi] at hI
      cases hs
      constructor <;> simp only [Sys.setC] <;> grind [CPhase.holds]
    · rename_i hi
      rw [hi] at hI
      cases hs
      constructor <;> simp only [Sys.setC] <;> grind [CPhase.holds]
    · rename_i hi
      rw [hi] at hI
      cases hs
      constructor <;> simp only [Sys.setC] <;> grind [CPhase.holds]
    · rename_i hi
      rw [hi] at hI
      cases hs
      constructor <;> simp only [Sys.setC] <;> grind [CPhase.holds]
    · rename_i hi
      rw [hi] at hI
      split at hs
      · cases hs
        constructor <;> simp only [Sys.setC] <;> grind [CPhase.holds]
      · cases hs
    · rename_i hi
      rw [hi] at hI
      cases hs
      constructor <;> simp only [Sys.setC] <;> grind [CPhase.holds]

theorem inv_reach {s : Sys S} (h : Reach s) : Inv s := by
  induction h with
  | start cfg => exact inv_start cfg
  | step _ hs ih => exact inv_step ih hs

/-! ### Progress -/

theorem Run.reach (r : Run S) : ∀ n, Reach (r.st n)
  | 0 => by
    obtain ⟨cfg, h⟩ := r.init
    rw [h]
    exact .start cfg
  | n + 1 => by
    rcases r.next n with ⟨_, h⟩ | ⟨e, _, h⟩
    · rw [h]
      exact r.reach n
    · exact .step (r.reach n) h

/-- Something that only the steps satisfying `E` can change is unchanged until such a step. -/
theorem Run.until (r : Run S) (P : Sys S → Prop) (E : Ev S → Prop)
    (hp : ∀ s s' e, P s → step s e = some s' → ¬ E e → P s')
    {n m : Nat} (hnm : n ≤ m) (h0 : P (r.st n)) {e : Ev S} (he : r.ev m = some e) (hE : E e) :
    ∃ k e', n ≤ k ∧ P (r.st k) ∧ r.ev k = some e' ∧ E e' := by
  obtain ⟨d, rfl⟩ : ∃ d, m = n + d := ⟨m - n, by omega⟩
  clear hnm
  induction d generalizing n with
  | zero => exact ⟨n, e, Nat.le_refl _, h0, he, hE⟩
  | succ d ih =>
    rcases r.next n with ⟨_, h⟩ | ⟨e1, h1, h2⟩
    · obtain ⟨k, e', g1, g2, g3, g4⟩ := ih (n := n + 1) (by rw [h]; exact h0) (by rw [← he]; congr 1; omega)
      exact ⟨k, e', by omega, g2, g3, g4⟩
    · by_cases hE1 : E e1
      · exact ⟨n, e1, Nat.le_refl _, h0, h1, hE1⟩
      · obtain ⟨k, e', g1, g2, g3, g4⟩ := ih (n := n + 1) (hp _ _ _ h0 h2 hE1) (by rw [← he]; congr 1; omega)
        exact ⟨k, e', by omega, g2, g3, g4⟩

/-- Something that no step of an execution changes from some moment on. -/
theorem Run.stays (r : Run S) (P : Sys S → Prop) (n : Nat)
    (hp : ∀ m, n ≤ m → ∀ e, P (r.st m) → r.ev m = some e → step (r.st m) e = some (r.st (m + 1)) → P (r.st (m + 1)))
    (h0 : P (r.st n)) : ∀ m, n ≤ m → P (r.st m) := by
  intro m hm
  obtain ⟨d, rfl⟩ : ∃ d, m = n + d := ⟨m - n, by omega⟩
  clear hm
  induction d with
  | zero => exact h0
  | succ d ih =>
    rcases r.next (n + d) with ⟨_, h⟩ | ⟨e, h1, h2⟩
    · rw [← Nat.add_assoc, h]
      exact ih
    · exact hp (n + d) (by omega) e ih h1 h2

/-- The phase of a client is changed by its own steps only. -/
theorem phase_kept {s s' : Sys S} {e : Ev S} {i : Nat} {p : CPhase} (hp : p ≠ .idle) (h : s.c i = p)
    (hs : step s e = some s') (he : e ≠ .go i) : s'.c i = p := by
  have henter : ∀ j q, s.enter j q = some s' → s'.c i = p := by
    intro j q hq
    unfold Sys.enter at hq
    split at hq
    · rename_i h1 _
      cases hq
      simp only [Sys.setC]
      rw [if_neg (by rintro rfl; rw [h] at h1; exact hp h1)]
      exact h
    · cases hq
  cases e with
  | request j => exact henter _ _ hs
  | stopCall j => exact henter _ _ hs
  | other j => exact henter _ _ hs
  | change j cfg =>
    simp only [step] at hs
    split at hs
    · cases hs; exact h
    · cases hs
  | worker =>
    simp only [step, Sys.workerStep] at hs
    grind
  | go j =>
    have hij : i ≠ j := by rintro rfl; exact he rfl
    simp only [step, Sys.goStep, Sys.setC] at hs
    grind

/-- A client inside a call takes its next step from the phase it is in. -/
theorem Run.goes (r : Run S) (hc : r.ClientsFair) {n i : Nat} {p : CPhase} (h : (r.st n).c i = p) (h1 : p ≠ .idle)
    (h2 : p ≠ .sWait) : ∃ m, n ≤ m ∧ (r.st m).c i = p ∧ (r.st m).goStep i = some (r.st (m + 1)) := by
  obtain ⟨m, hm, he⟩ := hc n i (by rw [h]; exact h1) (by rw [h]; exact h2)
  obtain ⟨k, e', g1, g2, g3, g4⟩ := r.until (fun s => s.c i = p) (fun e => e = .go i)
    (fun s s' e hP hs hE => phase_kept h1 hP hs hE) hm h he rfl
  subst g4
  refine ⟨k, g1, g2, ?_⟩
  rcases r.next k with ⟨h3, _⟩ | ⟨e, h3, h4⟩
  · rw [h3] at g3
    cases g3
  · rw [h3] at g3
    injection g3 with g3
    subst g3
    exact h4

/-- Steps left until a client gives the lock back. -/
def CPhase.left : CPhase → Nat
  | .locked => 3
  | .marked => 2
  | _ => 1

/-- A client gives the lock back sooner or later. -/
theorem Run.released (r : Run S) (hc : r.ClientsFair) (i : Nat) : ∀ (k n : Nat), ((r.st n).c i).left ≤ k →
    (r.st n).owner = some (.client i) → ∃ m, n ≤ m ∧ (r.st m).owner = none := by
  intro k
  induction k with
  | zero =>
    intro n hk
    cases hp : (r.st n).c i <;> rw [hp] at hk <;> simp [CPhase.left] at hk
  | succ k ih =>
    intro n hk ho
    have hI := inv_reach (r.reach n)
    have hh := (hI.holdC i).1 ho
    obtain ⟨m, g1, g2, g3⟩ := r.goes hc (n := n) (i := i) rfl (by intro h; rw [h] at hh; cases hh)
      (by intro h; rw [h] at hh; cases hh)
    have hI' := inv_reach (r.reach (m + 1))
    have hnext : ∀ q, (r.st (m + 1)).c i = q → q.holds = true → q.left ≤ k → ∃ m, n ≤ m ∧ (r.st m).owner = none := by
      intro q hq h1 h2
      obtain ⟨m', g4, g5⟩ := ih (m + 1) (by rw [hq]; exact h2) ((hI'.holdC i).2 (by rw [hq]; exact h1))
      exact ⟨m', by omega, g5⟩
    cases hp : (r.st n).c i with
    | idle => rw [hp] at hh; cases hh
    | sSet => rw [hp] at hh; cases hh
    | sWait => rw [hp] at hh; cases hh
    | locked =>
      rw [hp] at g2 hk
      simp only [Sys.goStep, g2] at g3
      split at g3
      · injection g3 with g3
        exact ⟨m + 1, by omega, by rw [← g3]⟩
      · injection g3 with g3
        exact hnext .marked (by rw [← g3]; simp [Sys.setC]) rfl (by simp [CPhase.left] at hk ⊢; omega)
    | marked =>
      rw [hp] at g2 hk
      simp only [Sys.goStep, g2] at g3
      injection g3 with g3
      exact hnext .signalled (by rw [← g3]; simp [Sys.setC]) rfl (by simp [CPhase.left] at hk ⊢; omega)
    | signalled =>
      rw [hp] at g2
      simp only [Sys.goStep, g2] at g3
      injection g3 with g3
      exact ⟨m + 1, by omega, by rw [← g3]⟩
    | sLocked =>
      rw [hp] at g2
      simp only [Sys.goStep, g2] at g3
      injection g3 with g3
      exact ⟨m + 1, by omega, by rw [← g3]⟩
    | oLocked =>
      rw [hp] at g2
      simp only [Sys.goStep, g2] at g3
      injection g3 with g3
      exact ⟨m + 1, by omega, by rw [← g3]⟩

/-- Only the simulation thread changes its phase, and only it clears the event. -/
theorem w_kept {s s' : Sys S} {e : Ev S} (hs : step s e = some s') (he : e ≠ .worker) :
    s'.w = s.w ∧ (s.event = true → s'.event = true) := by
  have henter : ∀ j q, s.enter j q = some s' → s'.w = s.w ∧ (s.event = true → s'.event = true) := by
    intro j q hq
    unfold Sys.enter at hq
    split at hq
    · cases hq
      exact ⟨rfl, id⟩
    · cases hq
  cases e with
  | request j => exact henter _ _ hs
  | stopCall j => exact henter _ _ hs
  | other j => exact henter _ _ hs
  | change j cfg =>
    simp only [step] at hs
    split at hs
    · cases hs; exact ⟨rfl, id⟩
    · cases hs
  | worker => exact absurd rfl he
  | go j =>
    simp only [step, Sys.goStep, Sys.setC] at hs
    grind

/-- As long as there is a request or the order to stop, the simulation thread gets its turn. -/
theorem Run.enabled (r : Run S) (hc : r.ClientsFair) (n : Nat)
    (hn : ∀ m, n ≤ m → (r.st m).w ≠ .done ∧ ((r.st m).doSim = true ∨ (r.st m).stop = true)) :
    ∃ k, n ≤ k ∧ (step (r.st k) .worker).isSome := by
  by_contra hneg
  have hoff : ∀ k, n ≤ k → (r.st k).workerStep = none := by
    intro k hk
    by_contra h
    exact hneg ⟨k, hk, Option.isSome_iff_ne_none.2 h⟩
  have hno : ∀ k, n ≤ k → ∀ e, r.ev k = some e → step (r.st k) e = some (r.st (k + 1)) → e ≠ .worker := by
    rintro k hk e _ h rfl
    simp only [step, hoff k hk] at h
    cases h
  have hw : ∀ k, n ≤ k → (r.st k).w = (r.st n).w :=
    r.stays (fun s => s.w = (r.st n).w) n
      (fun m hm e hP he hs => by rw [(w_kept hs (hno m hm e he hs)).1]; exact hP) rfl
  have lockCase : ((r.st n).w = .start ∨ (r.st n).w = .relock) → False := by
    intro hor
    have hnone : ∃ k, n ≤ k ∧ (r.st k).owner = none := by
      cases ho : (r.st n).owner with
      | none => exact ⟨n, Nat.le_refl _, ho⟩
      | some x =>
        cases x with
        | worker =>
          rcases (inv_reach (r.reach n)).holdW.1 ho with h | h <;> rcases hor with h' | h' <;> rw [h] at h' <;> cases h'
        | client i => exact r.released hc i _ n (Nat.le_refl _) ho
    obtain ⟨k, hk, ho⟩ := hnone
    have h1 := hoff k hk
    have h2 := hw k hk
    rcases hor with h | h <;> rw [h] at h2 <;> simp [Sys.workerStep, h2, ho] at h1
  cases hph : (r.st n).w with
  | start => exact lockCase (.inl hph)
  | relock => exact lockCase (.inr hph)
  | top =>
    have h1 := hoff n (Nat.le_refl _)
    simp only [Sys.workerStep, hph] at h1
    split at h1
    · cases h1
    · split at h1 <;> cases h1
  | running =>
    have h1 := hoff n (Nat.le_refl _)
    simp [Sys.workerStep, hph] at h1
  | done => exact (hn n (Nat.le_refl _)).1 hph
  | waiting =>
    have hev : ∀ k, n ≤ k → (r.st k).event = false := by
      intro k hk
      have h1 := hoff k hk
      have h2 := hw k hk
      rw [hph] at h2
      simp only [Sys.workerStep, h2] at h1
      cases he : (r.st k).event with
      | false => rfl
      | true => simp [he] at h1
    have hI := inv_reach (r.reach n)
    rcases (hn n (Nat.le_refl _)).2 with h | h
    · rcases hI.wake hph h with g | ⟨i, g⟩
      · rw [hev n (Nat.le_refl _)] at g
        cases g
      · obtain ⟨m, g1, g2, g3⟩ := r.goes hc g (by decide) (by decide)
        simp only [Sys.goStep, g2] at g3
        injection g3 with g3
        have := hev (m + 1) (by omega)
        rw [← g3] at this
        cases this
    · rcases hI.wakeS hph h with g | ⟨i, g⟩
      · rw [hev n (Nat.le_refl _)] at g
        cases g
      · obtain ⟨m, g1, g2, g3⟩ := r.goes hc g (by decide) (by decide)
        simp only [Sys.goStep, g2] at g3
        injection g3 with g3
        have := hev (m + 1) (by omega)
        rw [← g3] at this
        cases this

/-- Steps left until the simulation thread looks at its orders. -/
def WPhase.left : WPhase → Nat
  | .waiting => 3
  | .start | .relock | .running => 2
  | .top => 1
  | .done => 0

/-- Sooner or later the simulation thread is at the test of the loop and goes on from there. -/
theorem Run.looks (r : Run S) (hc : r.ClientsFair) (hw : r.WorkerFair) (n : Nat)
    (hn : ∀ m, n ≤ m → (r.st m).w ≠ .done ∧ ((r.st m).doSim = true ∨ (r.st m).stop = true)) :
    ∃ m, n ≤ m ∧ (r.st m).w = .top ∧ (r.st m).workerStep = some (r.st (m + 1)) := by
  have key : ∀ (k n : Nat), (r.st n).w.left ≤ k →
      (∀ m, n ≤ m → (r.st m).w ≠ .done ∧ ((r.st m).doSim = true ∨ (r.st m).stop = true)) →
      ∃ m, n ≤ m ∧ (r.st m).w = .top ∧ (r.st m).workerStep = some (r.st (m + 1)) := by
    intro k
    induction k with
    | zero =>
      intro n hk hn
      have := (hn n (Nat.le_refl _)).1
      cases hp : (r.st n).w <;> rw [hp] at hk <;> simp [WPhase.left] at hk
      exact absurd hp this
    | succ k ih =>
      intro n hk hn
      obtain ⟨m, hm, he⟩ := hw n (fun m hm => r.enabled hc m (fun m' hm' => hn m' (by omega)))
      obtain ⟨l, e', g1, g2, g3, g4⟩ := r.until (fun s => s.w = (r.st n).w) (fun e => e = .worker)
        (fun s s' e hP hs hE => by rw [(w_kept hs hE).1]; exact hP) hm rfl he rfl
      subst g4
      have hs : (r.st l).workerStep = some (r.st (l + 1)) := by
        rcases r.next l with ⟨h3, _⟩ | ⟨e, h3, h4⟩
        · rw [h3] at g3
          cases g3
        · rw [h3] at g3
          injection g3 with g3
          subst g3
          exact h4
      by_cases htop : (r.st n).w = .top
      · exact ⟨l, g1, by rw [g2]; exact htop, hs⟩
      · have hdec : (r.st (l + 1)).w.left < (r.st n).w.left := by
          have hd := (hn n (Nat.le_refl _)).1
          cases hp : (r.st n).w <;> simp only [hp] at g2 htop hd
          · simp only [Sys.workerStep, g2] at hs
            split at hs
            · injection hs with hs
              rw [← hs]
              simp [WPhase.left]
            · cases hs
          · exact absurd trivial htop
          · simp only [Sys.workerStep, g2] at hs
            injection hs with hs
            rw [← hs]
            simp [WPhase.left]
          · simp only [Sys.workerStep, g2] at hs
            split at hs
            · injection hs with hs
              rw [← hs]
              simp [WPhase.left]
            · cases hs
          · simp only [Sys.workerStep, g2] at hs
            split at hs
            · injection hs with hs
              rw [← hs]
              simp [WPhase.left]
            · cases hs
          · exact absurd rfl hd
        obtain ⟨m', g5, g6⟩ := ih (l + 1) (by omega) (fun m' hm' => hn m' (by omega))
        exact ⟨m', by omega, g6⟩
  exact key _ n (Nat.le_refl _) hn

end Flame.Vaccel
