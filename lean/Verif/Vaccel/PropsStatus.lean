import Verif.Vaccel.Status
import Mathlib.Data.List.Induction
import Mathlib.Tactic.Linarith
import Mathlib.Tactic.NormNum
import Mathlib.Tactic.Ring

/-!
# C112: the records about the simulation tell what its runs did

The specification looks at the runs of a history only (`runsOf`), the last one first.
-/

namespace Flame.Vaccel.Status

/-- The runs of a history, the last one first. -/
def runsOf : List Op → List Ran
  | [] => []
  | .run r :: os => runsOf os ++ [r]
  | _ :: os => runsOf os

/-- The message of the last run that failed, nothing if none did. -/
def complaint : List Ran → List Char
  | [] => []
  | r :: rs => r.failed.getD (complaint rs)

/-- How long the last run took, −1 if there was none. -/
noncomputable def took : List Ran → ℝ
  | [] => -1
  | r :: _ => r.finish - r.start

/-- How often the counter was processed. -/
def counted : List Op → Nat
  | [] => 0
  | .count :: os => counted os + 1
  | _ :: os => counted os

theorem steps_append (c : Bool) : ∀ (a b : List Op) (q : Sys),
    q.steps c (a ++ b) = (q.steps c a).bind fun q => q.steps c b
  | [], b, q => rfl
  | o :: a, b, q => by
    simp only [List.cons_append, Sys.steps]
    cases q.step c o with
    | none => rfl
    | some q' => exact steps_append c a b q'

theorem runsOf_append : ∀ a b : List Op, runsOf (a ++ b) = runsOf b ++ runsOf a
  | [], b => by simp [runsOf]
  | .run r :: a, b => by simp [runsOf, runsOf_append a b]
  | .msg :: a, b => by simp [runsOf, runsOf_append a b]
  | .time :: a, b => by simp [runsOf, runsOf_append a b]
  | .count :: a, b => by simp [runsOf, runsOf_append a b]

/-- The fields of the simulation after a history. -/
theorem sim_after {c : Bool} {m : Wave} {t : Analog} {n : Int} (ops : List Op) : ∀ {q : Sys},
    (⟨Sim.new, m, t, n⟩ : Sys).steps c ops = some q →
    q.sim.lastMsg = complaint (runsOf ops) ∧ q.sim.lastDuration = took (runsOf ops) ∧
    (∀ r rs, runsOf ops = r :: rs → q.sim.lastRun = r.finish ∧ q.sim.valid = r.failed.isNone) ∧
    (runsOf ops = [] → q.sim.valid = false) := by
  induction ops using List.reverseRecOn with
  | nil =>
    rintro q h
    obtain rfl := Option.some.inj h
    exact ⟨rfl, rfl, fun r rs h => by simp [runsOf] at h, fun _ => rfl⟩
  | append_singleton os o ih =>
    intro q h
    rw [steps_append] at h
    cases hq : (⟨Sim.new, m, t, n⟩ : Sys).steps c os with
    | none => rw [hq] at h; cases h
    | some q' =>
      rw [hq] at h
      obtain ⟨h1, h2, h3, h4⟩ := ih hq
      rw [runsOf_append]
      cases o with
      | run r =>
        obtain rfl := Option.some.inj h
        cases hr : r.failed with
        | none => simp [Sim.ran, hr, runsOf, complaint, took, h1]
        | some x => simp [Sim.ran, hr, runsOf, complaint, took]
      | msg => obtain rfl := Option.some.inj h; exact ⟨h1, h2, h3, h4⟩
      | time => obtain rfl := Option.some.inj h; exact ⟨h1, h2, h3, h4⟩
      | count =>
        simp only [Option.bind_some, Sys.steps, Sys.step] at h
        cases hc : readCount q'.count with
        | none => rw [hc] at h; cases h
        | some k =>
          rw [hc] at h
          obtain rfl := Option.some.inj h
          exact ⟨h1, h2, h3, h4⟩

theorem buf_length {c : Bool} : ∀ {ops : List Op} {q q' : Sys}, q.steps c ops = some q' →
    q'.msg.buf.length = q.msg.buf.length ∧ q'.time.conv = q.time.conv ∧ q'.time.devTime = q.time.devTime
  | [], q, q', h => by obtain rfl := Option.some.inj h; exact ⟨rfl, rfl, rfl⟩
  | o :: os, q, q', h => by
    simp only [Sys.steps] at h
    cases ho : q.step c o with
    | none => rw [ho] at h; cases h
    | some p =>
      rw [ho] at h
      obtain ⟨h1, h2, h3⟩ := buf_length (ops := os) (q := p) h
      rw [h1, h2, h3]
      cases o with
      | run r => obtain rfl := Option.some.inj ho; exact ⟨rfl, rfl, rfl⟩
      | msg =>
        obtain rfl := Option.some.inj ho
        refine ⟨?_, rfl, rfl⟩
        cases c
        · rfl
        · simp [readMsg]
      | time =>
        obtain rfl := Option.some.inj ho
        cases c <;> exact ⟨rfl, rfl, rfl⟩
      | count =>
        simp only [Sys.step] at ho
        cases hc : readCount q.count with
        | none => rw [hc] at ho; cases ho
        | some k =>
          rw [hc] at ho
          obtain rfl := Option.some.inj ho
          exact ⟨rfl, rfl, rfl⟩

/-- **C112**, messages.  Whatever happened before, a connected record that has just been processed shows the message of the last run that failed, from
its beginning as far as it fits, and nothing if no run failed.
Partial: the record is expected to tell about the last run, see `C112_message_false`, and in full. -/
theorem C112_message_partial {m : Wave} {t : Analog} {n : Int} {ops : List Op} {q : Sys}
    (h : (⟨Sim.new, m, t, n⟩ : Sys).steps true (ops ++ [.msg]) = some q) :
    q.msg.shown = (complaint (runsOf ops)).take m.buf.length := by
  rw [steps_append] at h
  cases hq : (⟨Sim.new, m, t, n⟩ : Sys).steps true ops with
  | none => rw [hq] at h; cases h
  | some p =>
    rw [hq] at h
    obtain rfl := Option.some.inj h
    obtain ⟨h1, -⟩ := sim_after ops hq
    obtain ⟨h2, -⟩ := buf_length hq
    simp only [Wave.shown, readMsg, if_true, h1, h2]
    rw [List.take_append_of_le_length (by simp)]
    simp [List.take_take]

/-- A record for 8 characters. -/
def wave8 : Wave := ⟨List.replicate 8 ' ', 0⟩

/-- A record that shows seconds as milliseconds. -/
noncomputable def millis : Analog := ⟨⟨1, 0, 1000, 0, 1⟩, true, 0, true, 0⟩

/-- Two runs, of which the first fails, and then the message is read. -/
example : ∃ q, (⟨Sim.new, wave8, millis, 0⟩ : Sys).steps true
      ([.run ⟨1, 2, some "no element".toList⟩, .msg, .run ⟨3, 5, none⟩] ++ [.msg]) = some q ∧
    q.msg.shown = "no eleme".toList := by
  refine ⟨_, rfl, ?_⟩
  rw [C112_message_partial (ops := [.run ⟨1, 2, some "no element".toList⟩, .msg, .run ⟨3, 5, none⟩]) rfl]
  rfl

/-- **C112**, messages, is false as expected: after a run without an error the record still shows the error of an earlier run. -/
theorem C112_message_false : ¬ ∀ (m : Wave) (t : Analog) (n : Int) (ops : List Op) (r : Ran) (q : Sys), r.failed = none →
    (⟨Sim.new, m, t, n⟩ : Sys).steps true (ops ++ [.run r, .msg]) = some q → q.msg.shown = [] := by
  intro h
  have := h wave8 millis 0 [.run ⟨1, 2, some ['x']⟩] ⟨3, 5, none⟩ _ rfl rfl
  exact absurd this (by simp [Wave.shown, readMsg, Sim.ran, wave8])

/-- What the conversion of an `ai` record means (EPICS record reference: `ASLO`, `AOFF`, then `ESLO`, `EOFF` for a linear conversion), for slopes that
are set. -/
noncomputable def converted (r : Rec ℝ) (x : ℝ) : ℝ :=
  if r.linr = 0 then x * r.aslo + r.aoff else (x * r.aslo + r.aoff) * r.eslo + r.eoff

/-- **C112**, run time.  A connected record that has just been processed shows how long the last run took, whether it failed or not, converted as the
fields of the record say, and the time at which it ended if it asks for device times.
Partial: the record shows a time before the first run as well, see `C112_runtime_false`. -/
theorem C112_runtime_partial {m : Wave} {t : Analog} {n : Int} {ops : List Op} {r : Ran} {rs : List Ran} {q : Sys}
    (ha : t.conv.aslo ≠ 0) (he : t.conv.eslo ≠ 0) (hr : runsOf ops = r :: rs)
    (h : (⟨Sim.new, m, t, n⟩ : Sys).steps true (ops ++ [.time]) = some q) :
    q.time.val = converted t.conv (r.finish - r.start) ∧ q.time.udf = false ∧ (t.devTime = true → q.time.time = r.finish) := by
  rw [steps_append] at h
  cases hq : (⟨Sim.new, m, t, n⟩ : Sys).steps true ops with
  | none => rw [hq] at h; cases h
  | some p =>
    rw [hq] at h
    obtain rfl := Option.some.inj h
    obtain ⟨-, h1, h2, -⟩ := sim_after ops hq
    obtain ⟨-, h3, h4⟩ := buf_length hq
    rw [hr] at h1
    refine ⟨?_, rfl, fun hd => ?_⟩
    · simp only [readRuntime, if_true, h3, h1, took, converted]
      by_cases hl : t.conv.linr = 0
      · rw [if_pos ha, if_neg (by simp [hl]), if_pos hl]
      · rw [if_pos ha, if_pos ⟨hl, he⟩, if_neg hl]
    · have : p.time.devTime = true := h4.trans hd
      simp only [readRuntime, if_true, this]
      exact (h2 r rs hr).1

/-- A run of two seconds shows as 2000. -/
example : ∃ q, (⟨Sim.new, wave8, millis, 0⟩ : Sys).steps true
      ([.run ⟨1, 2, some "no element".toList⟩, .msg, .run ⟨3, 5, none⟩] ++ [.time]) = some q ∧
    q.time.val = 2000 ∧ q.time.time = 5 := by
  refine ⟨_, rfl, ?_⟩
  obtain ⟨h1, -, h2⟩ := C112_runtime_partial (m := wave8) (t := millis) (n := 0)
    (ops := [.run ⟨1, 2, some "no element".toList⟩, .msg, .run ⟨3, 5, none⟩]) (r := ⟨3, 5, none⟩)
    (rs := [⟨1, 2, some "no element".toList⟩]) (by norm_num [millis]) (by norm_num [millis]) rfl rfl
  exact ⟨h1.trans (by norm_num [converted, millis]), h2 rfl⟩

/-- **C112**, run time, is false before the first run: the record is defined, and shows −1 second. -/
theorem C112_runtime_false : ¬ ∀ (m : Wave) (t : Analog) (n : Int) (ops : List Op) (q : Sys), t.udf = true →
    (⟨Sim.new, m, t, n⟩ : Sys).steps true ops = some q → q.time.udf = false →
      ∃ r ∈ runsOf ops, r.finish - r.start = q.sim.lastDuration := by
  intro h
  obtain ⟨r, hr, -⟩ := h wave8 millis 0 [.time] _ rfl rfl rfl
  simp [runsOf] at hr

theorem count_after {c : Bool} : ∀ {ops : List Op} {q q' : Sys}, q.steps c ops = some q' → q'.count = q.count + counted ops
  | [], q, q', h => by obtain rfl := Option.some.inj h; simp [counted]
  | o :: os, q, q', h => by
    simp only [Sys.steps] at h
    cases ho : q.step c o with
    | none => rw [ho] at h; cases h
    | some p =>
      rw [ho] at h
      have h1 := count_after (ops := os) (q := p) h
      rw [h1]
      cases o with
      | run r => obtain rfl := Option.some.inj ho; rfl
      | msg => obtain rfl := Option.some.inj ho; rfl
      | time => obtain rfl := Option.some.inj ho; rfl
      | count =>
        simp only [Sys.step, readCount] at ho
        split_ifs at ho
        · obtain rfl := Option.some.inj ho
          simp only [counted]
          push_cast
          ring
        · cases ho

/-- The counter is processed exactly once after each run and at no other time. -/
inductive OncePerRun : List Op → Prop
  | nil : OncePerRun []
  | other {os o} : OncePerRun os → o = .msg ∨ o = .time → OncePerRun (os ++ [o])
  | run {os} (r : Ran) (between : List Op) : OncePerRun os → (∀ o ∈ between, o = .msg ∨ o = .time) →
      OncePerRun (os ++ [.run r] ++ between ++ [.count])

theorem counted_append : ∀ a b : List Op, counted (a ++ b) = counted a + counted b
  | [], b => by simp [counted]
  | .run r :: a, b => by simp [counted, counted_append a b]
  | .msg :: a, b => by simp [counted, counted_append a b]
  | .time :: a, b => by simp [counted, counted_append a b]
  | .count :: a, b => by simp [counted, counted_append a b]; omega

theorem quiet {l : List Op} (h : ∀ o ∈ l, o = .msg ∨ o = .time) : runsOf l = [] ∧ counted l = 0 := by
  induction l with
  | nil => exact ⟨rfl, rfl⟩
  | cons o l ih =>
    obtain ⟨h1, h2⟩ := ih fun o ho => h o (List.mem_cons_of_mem _ ho)
    rcases h o List.mem_cons_self with rfl | rfl <;> simp [runsOf, counted, h1, h2]

/-- **C112**, counter.  The counter of runs grows by the number of times that it is processed; so it counts the runs if it is processed exactly once
after each of them, until it overflows.
Partial: it is expected to count runs in any case, see `C112_count_false`. -/
theorem C112_count_partial {c : Bool} {q q' : Sys} {ops : List Op} (h : q.steps c ops = some q') :
    q'.count = q.count + counted ops ∧ (OncePerRun ops → q'.count = q.count + (runsOf ops).length) := by
  refine ⟨count_after h, fun ho => ?_⟩
  have : counted ops = (runsOf ops).length := by
    clear h
    induction ho with
    | nil => rfl
    | other _ ho ih => rcases ho with rfl | rfl <;> simp [counted_append, runsOf_append, counted, runsOf, ih]
    | run r b _ hb ih =>
      obtain ⟨h1, h2⟩ := quiet hb
      simp [counted_append, runsOf_append, counted, runsOf, ih, h1, h2]
  rw [count_after h, this]

/-- Two runs, counted once each. -/
example : OncePerRun [.run ⟨1, 2, none⟩, .msg, .count, .run ⟨3, 5, none⟩, .count] ∧
    ∃ q, (⟨Sim.new, wave8, millis, 0⟩ : Sys).steps true [.run ⟨1, 2, none⟩, .msg, .count, .run ⟨3, 5, none⟩, .count] = some q ∧ q.count = 2 := by
  have h : OncePerRun [.run ⟨1, 2, none⟩, .msg, .count, .run ⟨3, 5, none⟩, .count] :=
    .run (os := [.run ⟨1, 2, none⟩, .msg, .count]) ⟨3, 5, none⟩ [] (.run (os := []) ⟨1, 2, none⟩ [.msg] .nil (by simp)) (by simp)
  exact ⟨h, _, rfl, (C112_count_partial (c := true) (q := ⟨Sim.new, wave8, millis, 0⟩) rfl).2 h⟩

/-- **C112**, counter, is false in general: a record that is processed without a run counts one, connected to a simulation or not. -/
theorem C112_count_false (c : Bool) : ¬ ∀ (q q' : Sys) (ops : List Op), q.steps c ops = some q' →
    q'.count = q.count + (runsOf ops).length := by
  intro h
  have := h ⟨Sim.new, wave8, millis, 0⟩ _ [.count] rfl
  simp [runsOf] at this

/-- **C112**, links.  A record is connected if its link is the name of a simulation, and for messages the record is one of characters; a record
that is not connected never changes its text or its time. -/
theorem C112_connect (sims : List String) (link : String) (charField : Bool) :
    (connects sims link charField = true ↔ link ∈ sims ∧ charField = true) ∧
    ∀ (q q' : Sys) (ops : List Op), q.steps false ops = some q' → q'.msg = q.msg ∧ q'.time = q.time := by
  refine ⟨by simp [connects, and_comm], fun q q' ops => ?_⟩
  induction ops generalizing q with
  | nil => intro h; obtain rfl := Option.some.inj h; exact ⟨rfl, rfl⟩
  | cons o os ih =>
    intro h
    simp only [Sys.steps] at h
    cases ho : q.step false o with
    | none => rw [ho] at h; cases h
    | some p =>
      rw [ho] at h
      obtain ⟨h1, h2⟩ := ih p h
      rw [h1, h2]
      cases o with
      | run r => obtain rfl := Option.some.inj ho; exact ⟨rfl, rfl⟩
      | msg => obtain rfl := Option.some.inj ho; exact ⟨rfl, rfl⟩
      | time => obtain rfl := Option.some.inj ho; exact ⟨rfl, rfl⟩
      | count =>
        simp only [Sys.step] at ho
        cases hc : readCount q.count with
        | none => rw [hc] at ho; cases ho
        | some k =>
          rw [hc] at ho
          obtain rfl := Option.some.inj ho
          exact ⟨rfl, rfl⟩

example : connects ["FE"] "FE" true = true ∧ connects ["FE"] "LS1" true = false ∧ connects ["FE"] "FE" false = false :=
  ⟨(C112_connect ["FE"] "FE" true).1.2 ⟨by simp, rfl⟩, by decide +kernel, by decide +kernel⟩

end Flame.Vaccel.Status
