import Mathlib.Data.List.Basic
import Mathlib.Tactic.Common

/-!
# C111: messages of the simulation

Model of `Machine::detail` and `FLAME_LOG` (/repo/src/flame/base.h:520-543), of the option `--verbose` of the command line tool
(/repo/tools/cli.cpp:394-400), and of the two loggers, `Logcerr` (/repo/src/base.cpp:279-291) and `PyLogger` (/repo/python/flame/modmain.cpp:16-33).
Threads are left out, and so are messages with NUL characters.
-/

namespace Flame.Tools

/-- The levels (/repo/src/flame/base.h:527-532). -/
inductive Level | error | warn | info | debug | fine
  deriving DecidableEq, Repr

/-- Their numbers (/repo/src/flame/base.h:527-532). -/
def Level.num : Level → Int
  | .error => 40
  | .warn => 30
  | .info => 20
  | .debug => 10
  | .fine => 0

/-- `Machine::detail` (/repo/src/flame/base.h:520), the condition of `FLAME_LOG`. -/
def detail (logDetail : Int) (l : Level) : Bool := logDetail ≤ l.num

/-- `Machine::log_detail` of the tool (/repo/src/base.cpp:295, /repo/tools/cli.cpp:394-400), without overflow.  Without HDF5 the first `if` has no
statement of its own: what follows it is the second `if`. -/
def cliDetail (hdf5 : Bool) (verb : Int) : Int :=
  if hdf5 then if verb > 2 then 40 - 10 * (verb - 2) else 30
  else if verb ≤ 2 then if verb > 2 then 40 - 10 * (verb - 2) else 30
  else 30

/-- What `Logcerr::log` (/repo/src/base.cpp:282-288) writes after file name and line. -/
def cerrText (msg : List Char) : List Char :=
  if msg.getLast? = some '\n' then msg else msg ++ ['\n']

/-- `find_last_not_of('\n')`: the position of the last character that is no line break. -/
def lastNot : List Char → Option Nat
  | [] => none
  | c :: s =>
    match lastNot s with
    | some k => some (k + 1)
    | none => if c = '\n' then none else some 0

/-- The text that `PyLogger::log` hands to Python (/repo/python/flame/modmain.cpp:22-25). -/
def pyText (msg : List Char) : List Char :=
  match lastNot msg with
  | none => msg
  | some pos => msg.take pos

/-- C111, tool with HDF5: a message is shown exactly if it is a warning or an error, or information with verbosity 4, a debug message with 5,
anything with 6 or more. -/
theorem C111_tool_partial (verb : Int) (l : Level) :
    detail (cliDetail true verb) l = true ↔
      l = .error ∨ l = .warn ∨ (l = .info ∧ 4 ≤ verb) ∨ (l = .debug ∧ 5 ≤ verb) ∨ (l = .fine ∧ 6 ≤ verb) := by
  unfold detail cliDetail
  cases l <;> simp only [if_true, Level.num, decide_eq_true_eq, reduceCtorEq, true_and, false_and, or_false, false_or, true_or, or_true, iff_true] <;>
    split <;> omega

/-- C111 is false for the tool without HDF5, which is the default (/repo/CMakeLists.txt:7): the verbosity has no effect on messages. -/
theorem C111_tool_false (verb : Int) (l : Level) : detail (cliDetail false verb) l = true ↔ l = .error ∨ l = .warn := by
  have : cliDetail false verb = 30 := by
    unfold cliDetail
    rw [if_neg (by decide)]
    split
    · rw [if_neg (by omega)]
    · rfl
  rw [this]
  unfold detail
  cases l <;> simp [Level.num]

/-- Example: verbosity 5 shows debug messages with HDF5 and hides them without. -/
example : detail (cliDetail true 5) .debug = true ∧ detail (cliDetail false 5) .debug = false := by decide

/-- C111: on the console a message is written as it is, with one line break added if it does not end with one; so the messages can be read
off the lines if each is one line. -/
theorem C111_console (msg : List Char) :
    (∃ t, cerrText msg = t ++ ['\n'] ∧ (msg = t ∨ msg = t ++ ['\n'])) ∧ msg <+: cerrText msg := by
  unfold cerrText
  split
  · rename_i h
    obtain ⟨t, rfl⟩ : ∃ t, msg = t ++ ['\n'] := by
      rw [List.getLast?_eq_some_iff] at h
      exact h
    exact ⟨⟨t, rfl, Or.inr rfl⟩, List.prefix_refl _⟩
  · exact ⟨⟨msg, rfl, Or.inl rfl⟩, List.prefix_append _ _⟩

theorem lastNot_breaks (n : Nat) : lastNot (List.replicate n '\n') = none := by
  induction n with
  | zero => rfl
  | succ n ih => simp [List.replicate_succ, lastNot, ih]

theorem lastNot_append (t : List Char) (c : Char) (n : Nat) (hc : c ≠ '\n') :
    lastNot (t ++ c :: List.replicate n '\n') = some t.length := by
  induction t with
  | nil => simp [lastNot, lastNot_breaks, hc]
  | cons x t ih => simp [lastNot, ih]

/-- C111 is false for messages in Python: besides the line breaks at the end, the last character of every message is lost. -/
theorem C111_python_false (t : List Char) (c : Char) (n : Nat) (hc : c ≠ '\n') : pyText (t ++ c :: List.replicate n '\n') = t := by
  unfold pyText
  rw [lastNot_append t c n hc]
  simp

/-- C111: only messages of line breaks alone arrive unchanged. -/
theorem C111_python_same (msg : List Char) : pyText msg = msg ↔ ∀ c ∈ msg, c = '\n' := by
  by_cases h : ∀ c ∈ msg, c = '\n'
  · have : msg = List.replicate msg.length '\n' := List.eq_replicate_of_mem h
    refine ⟨fun _ => h, fun _ => ?_⟩
    unfold pyText
    rw [this, lastNot_breaks]
  · refine ⟨fun e => absurd e ?_, fun h' => absurd h' h⟩
    have hsplit : ∀ msg : List Char, (¬ ∀ c ∈ msg, c = '\n') → ∃ t c n, c ≠ '\n' ∧ msg = t ++ c :: List.replicate n '\n' := by
      intro msg
      induction msg with
      | nil => intro h; exact absurd (by simp) h
      | cons x s ih =>
        intro h
        by_cases hs : ∀ c ∈ s, c = '\n'
        · refine ⟨[], x, s.length, ?_, by rw [← List.eq_replicate_of_mem hs]; rfl⟩
          intro hx
          apply h
          intro c hc
          rcases List.mem_cons.mp hc with rfl | hc
          · exact hx
          · exact hs c hc
        · obtain ⟨t, c, n, hc, rfl⟩ := ih hs
          exact ⟨x :: t, c, n, hc, rfl⟩
    obtain ⟨t, c, n, hc, rfl⟩ := hsplit msg h
    rw [C111_python_false t c n hc]
    intro e
    have := congrArg List.length e
    simp at this

/-- Example: the end of a warning about a cavity. -/
example : pyText "scale out of range 12.5\n".toList = "scale out of range 12.".toList := by decide

end Flame.Tools
