import Mathlib.Data.List.Basic
import Mathlib.Data.List.Induction
import Mathlib.Tactic.Common

/-!
# The simulations of the virtual accelerator and the commands about them

Model of `flamePrepare`, `flameDebug`, `flameShow`, `flameShowConfig` (/repo/vaccel/flame.cpp:91-178) and `test_debug` (/repo/vaccel/flame.cpp:86-89,
/repo/vaccel/flamedev.cpp:40-43).  Commands are typed at the shell of the server, one after the other.  An argument that is left out is a null pointer if
it is a name and zero if it is a number.  What reading a lattice gives, a machine or an exception, may be different for each command.
-/

namespace Flame.Vaccel.Instances

/-- Names. -/
abbrev Text := List Char

variable {M : Type}

/-- What can be read when a command is given: files, and the standard input; `none` is an exception of the parser or of `Machine`. -/
structure World (M : Type) where
  file : Text → Option M
  stdin : Option M

/-- `parser.parse_file(lattice)` and `new Machine` (/repo/vaccel/flame.cpp:105-113): without a name the standard input is read
(/repo/src/config.cpp:373-377). -/
def World.read (w : World M) : Option Text → Option M
  | none => w.stdin
  | some l => w.file l

/-- A command. -/
inductive Cmd (M : Type)
  | prepare (w : World M) (name lattice : Option Text)
  | debug (name : Option Text) (level : Int)
  | show (name : Option Text)

/-- An instance: its machine and the field `level` (/repo/vaccel/flame.h:55, 66). -/
structure Inst (M : Type) where
  machine : M
  level : Nat

/-- `SimGlobal.sims` (/repo/vaccel/flame.h:31-32). -/
abbrev Sims (M : Type) := Text → Option (Inst M)

/-- What a command prints. -/
inductive Out (M : Type)
  | nothing
  | error
  | machine (m : M)

/-- Before any command. -/
def Sims.none : Sims M := fun _ => Option.none

/-- `SimGlobal.sims[name] = ...`. -/
def Sims.put (s : Sims M) (n : Text) (i : Inst M) : Sims M := fun k => if k = n then some i else s k

/-- A command (/repo/vaccel/flame.cpp:96-178).  An instance that cannot get its machine is destroyed before it is in the table (line 111). -/
def step (s : Sims M) : Cmd M → Sims M × Out M
  -- lines 96-122
  | .prepare w name lattice =>
    match name with
    | none => (s, .nothing)
    | some n =>
      match s n with
      | some _ => (s, .error)
      | none =>
        match w.read lattice with
        | none => (s, .error)
        | some m => (s.put n ⟨m, 0⟩, .nothing)
  -- lines 124-140
  | .debug name level =>
    match name with
    | none => (s, .nothing)
    | some n =>
      match s n with
      | none => (s, .error)
      | some i => (s.put n { i with level := (max 0 level).toNat }, .nothing)
  -- lines 142-178
  | .show name =>
    match name with
    | none => (s, .nothing)
    | some n =>
      match s n with
      | none => (s, .error)
      | some i => (s, .machine i.machine)

/-- Commands one after the other. -/
def steps (s : Sims M) : List (Cmd M) → Sims M
  | [] => s
  | c :: cs => steps (step s c).1 cs

/-- `Sim::test_debug` (/repo/vaccel/flame.cpp:86-89). -/
def testDebug (i : Inst M) (lvl : Nat) : Bool := lvl ≤ i.level

/-- `SimDev::test_debug` (/repo/vaccel/flamedev.cpp:40-43) with the field `TPRO` of the record. -/
def recDebug (i : Inst M) (tpro lvl : Nat) : Bool := lvl ≤ i.level || lvl < tpro

/-! ## C114 -/

/-- The command makes the instance `n` with the machine `m`, if there is none of that name yet. -/
def Makes (n : Text) (m : M) : Cmd M → Prop
  | .prepare w (some k) lattice => k = n ∧ w.read lattice = some m
  | _ => False

/-- The number given by the last command about the messages of `n`, zero if there is none. -/
inductive Level (n : Text) : List (Cmd M) → Nat → Prop
  | none {cs : List (Cmd M)} (h : ∀ c ∈ cs, ∀ l, c ≠ .debug (some n) l) : Level n cs 0
  | last {pre post : List (Cmd M)} (l : Int) (h : ∀ c ∈ post, ∀ l, c ≠ .debug (some n) l) :
      Level n (pre ++ .debug (some n) l :: post) (if l < 0 then 0 else l.natAbs)

theorem steps_append (s : Sims M) (a b : List (Cmd M)) : steps s (a ++ b) = steps (steps s a) b := by
  induction a generalizing s with
  | nil => rfl
  | cons c a ih => exact ih _

/-- What one command does to one name. -/
theorem step_at (s : Sims M) (c : Cmd M) (n : Text) :
    (step s c).1 n = s n ∨
    (s n = none ∧ ∃ m, Makes n m c ∧ (step s c).1 n = some ⟨m, 0⟩) ∨
    (∃ i l, s n = some i ∧ c = .debug (some n) l ∧ (step s c).1 n = some ⟨i.machine, (max 0 l).toNat⟩) := by
  cases c with
  | prepare w name lattice =>
    cases name with
    | none => exact .inl rfl
    | some k =>
      cases hk : s k with
      | some i => left; simp only [step, hk]
      | none =>
        cases hr : w.read lattice with
        | none => left; simp only [step, hk, hr]
        | some m =>
          by_cases h : k = n
          · subst h
            right; left
            refine ⟨hk, m, ⟨rfl, hr⟩, ?_⟩
            simp only [step, hk, hr, Sims.put, if_true]
          · left
            simp only [step, hk, hr, Sims.put, if_neg (Ne.symm h)]
  | debug name level =>
    cases name with
    | none => exact .inl rfl
    | some k =>
      cases hk : s k with
      | none => left; simp only [step, hk]
      | some i =>
        by_cases h : k = n
        · subst h
          right; right
          exact ⟨i, level, hk, rfl, by simp only [step, hk, Sims.put, if_true]⟩
        · left
          simp only [step, hk, Sims.put, if_neg (Ne.symm h)]
  | «show» name =>
    left
    cases name with
    | none => rfl
    | some k =>
      cases hk : s k <;> simp only [step, hk]

theorem makes_new {s : Sims M} {c : Cmd M} {n : Text} {m : M} (hs : s n = none) (h : Makes n m c) : (step s c).1 n = some ⟨m, 0⟩ := by
  cases c with
  | prepare w name lattice =>
    cases name with
    | none => exact absurd h id
    | some k =>
      obtain ⟨rfl, hr⟩ := h
      simp only [step, hs, hr, Sims.put, if_true]
  | _ => exact absurd h id

/-- An instance keeps its machine. -/
theorem stays_one {s : Sims M} {c : Cmd M} {n : Text} {i : Inst M} (h : s n = some i) :
    ∃ l, (step s c).1 n = some ⟨i.machine, l⟩ := by
  rcases step_at s c n with h1 | ⟨h1, -⟩ | ⟨j, l, h1, -, h2⟩
  · exact ⟨i.level, by rw [h1, h]⟩
  · rw [h] at h1; cases h1
  · rw [h] at h1; cases h1; exact ⟨_, h2⟩

/-- **C114**: an instance keeps its machine, whatever commands follow; so what records have found stays valid. -/
theorem C114_stays (cs : List (Cmd M)) (s : Sims M) (n : Text) (i : Inst M) (h : s n = some i) :
    ∃ l, steps s cs n = some ⟨i.machine, l⟩ := by
  induction cs generalizing s i with
  | nil => exact ⟨i.level, h⟩
  | cons c cs ih =>
    obtain ⟨l, hl⟩ := stays_one (c := c) h
    exact ih _ ⟨i.machine, l⟩ hl

theorem none_iff (cs : List (Cmd M)) (n : Text) : steps Sims.none cs n = none ↔ ∀ c ∈ cs, ∀ m, ¬ Makes n m c := by
  induction cs using List.reverseRecOn with
  | nil => simp [steps, Sims.none]
  | append_singleton cs c ih =>
    rw [steps_append]
    simp only [steps, List.mem_append, List.mem_singleton]
    constructor
    · intro h
      have h0 : steps Sims.none cs n = none := by
        cases hs : steps Sims.none cs n with
        | none => rfl
        | some i =>
          obtain ⟨l, hl⟩ := stays_one (c := c) hs
          rw [hl] at h; cases h
      rintro c' (hc | rfl) m hm
      · exact ih.mp h0 c' hc m hm
      · rw [makes_new h0 hm] at h; cases h
    · intro h
      have h0 := ih.mpr (fun c' hc m => h c' (.inl hc) m)
      rcases step_at (steps Sims.none cs) c n with h1 | ⟨-, m, h2, -⟩ | ⟨i, l, h1, -⟩
      · rw [h1, h0]
      · exact absurd h2 (h c (.inr rfl) m)
      · rw [h0] at h1; cases h1

theorem level_of (n : Text) (i : Inst M) (cs : List (Cmd M)) (s : Sims M) (h : s n = some ⟨i.machine, 0⟩) :
    ∃ l, Level n cs l ∧ steps s cs n = some ⟨i.machine, l⟩ := by
  induction cs using List.reverseRecOn with
  | nil => exact ⟨0, .none (by simp), h⟩
  | append_singleton cs c ih =>
    obtain ⟨l, hl, hs⟩ := ih
    rw [steps_append]
    simp only [steps]
    by_cases hc : ∃ k, c = .debug (some n) k
    · obtain ⟨k, rfl⟩ := hc
      refine ⟨_, .last k (by simp), ?_⟩
      simp only [step, hs, Sims.put, if_true, Option.some.injEq, Inst.mk.injEq, true_and]
      split <;> omega
    · have hc' : ∀ k, c ≠ .debug (some n) k := fun k e => hc ⟨k, e⟩
      refine ⟨l, ?_, ?_⟩
      · cases hl with
        | none h =>
          refine .none (fun c' h' k => ?_)
          rcases List.mem_append.mp h' with h' | h'
          · exact h c' h' k
          · rw [List.mem_singleton.mp h']; exact hc' k
        | last k h =>
          rw [List.append_assoc, List.cons_append]
          refine .last k (fun c' h' k => ?_)
          rcases List.mem_append.mp h' with h' | h'
          · exact h c' h' k
          · rw [List.mem_singleton.mp h']; exact hc' k
      · rcases step_at (steps s cs) c n with h1 | ⟨h1, -⟩ | ⟨j, k, -, h2, -⟩
        · rw [h1, hs]
        · rw [hs] at h1; cases h1
        · exact absurd h2 (hc' k)

/-- **C114**: which simulations there are.  After any commands the name `n` stands for the machine of the first command that could make one of that name,
and its messages are those asked for by the last command about them since. -/
theorem C114_instances (cs : List (Cmd M)) (n : Text) :
    (steps Sims.none cs n = none ∧ ∀ c ∈ cs, ∀ m, ¬ Makes n m c) ∨
    ∃ pre c post m l, cs = pre ++ c :: post ∧ (∀ c ∈ pre, ∀ m, ¬ Makes n m c) ∧ Makes n m c ∧ Level n post l ∧
      steps Sims.none cs n = some ⟨m, l⟩ := by
  cases hs : steps Sims.none cs n with
  | none => exact .inl ⟨rfl, (none_iff cs n).mp hs⟩
  | some i =>
    right
    have hex : ∃ pre c post m, cs = pre ++ c :: post ∧ (∀ c ∈ pre, ∀ m, ¬ Makes n m c) ∧ Makes n m c := by
      have hne : ¬ ∀ c ∈ cs, ∀ m, ¬ Makes n m c := by
        rw [← none_iff, hs]; simp
      clear hs
      induction cs with
      | nil => exact absurd (by simp) hne
      | cons c cs ih =>
        by_cases hc : ∃ m, Makes n m c
        · obtain ⟨m, hm⟩ := hc
          exact ⟨[], c, cs, m, rfl, by simp, hm⟩
        · have hc' : ∀ m, ¬ Makes n m c := fun m hm => hc ⟨m, hm⟩
          obtain ⟨pre, c', post, m, rfl, h1, h2⟩ := ih (fun h => hne (by
            intro d hd m
            rcases List.mem_cons.mp hd with rfl | hd
            · exact hc' m
            · exact h d hd m))
          refine ⟨c :: pre, c', post, m, rfl, ?_, h2⟩
          intro d hd m
          rcases List.mem_cons.mp hd with rfl | hd
          · exact hc' m
          · exact h1 d hd m
    obtain ⟨pre, c, post, m, rfl, h1, h2⟩ := hex
    have h3 := makes_new ((none_iff pre n).mpr h1) h2
    obtain ⟨l, h4, h5⟩ := level_of n ⟨m, 0⟩ post _ h3
    refine ⟨pre, c, post, m, l, rfl, h1, h2, h4, ?_⟩
    rw [← hs, steps_append]
    exact h5

/-- **C114**: a command that is refused changes nothing; making an instance is refused exactly if there is one of that name or the lattice is faulty, the
other commands exactly if there is none.  Without a name nothing is done. -/
theorem C114_refused (s : Sims M) :
    (∀ c, (∃ m, (step s c).2 = .machine m) ∨ (step s c).2 = .error → (step s c).1 = s) ∧
    (∀ w n lattice, (step s (.prepare w (some n) lattice)).2 = .error ↔ (s n).isSome ∨ w.read lattice = none) ∧
    (∀ n l, (step s (.debug (some n) l)).2 = .error ↔ s n = none) ∧
    (∀ n, (step s (.show (some n))).2 = .error ↔ s n = none) ∧
    (∀ n m, (step s (.show (some n))).2 = .machine m ↔ ∃ i, s n = some i ∧ i.machine = m) := by
  refine ⟨fun c h => ?_, fun w n lattice => ?_, fun n l => ?_, fun n => ?_, fun n m => ?_⟩
  · cases c with
    | prepare w name lattice =>
      cases name with
      | none => rfl
      | some k =>
        cases hk : s k with
        | some i => simp only [step, hk]
        | none =>
          cases hr : w.read lattice with
          | none => simp only [step, hk, hr]
          | some m => simp [step, hk, hr] at h
    | debug name level =>
      cases name with
      | none => rfl
      | some k =>
        cases hk : s k with
        | none => simp only [step, hk]
        | some i => simp [step, hk] at h
    | «show» name =>
      cases name with
      | none => rfl
      | some k => cases hk : s k <;> simp only [step, hk]
  · cases hk : s n with
    | some i => simp [step, hk]
    | none => cases hr : w.read lattice <;> simp [step, hk, hr]
  · cases hk : s n <;> simp [step, hk]
  · cases hk : s n <;> simp [step, hk]
  · cases hk : s n with
    | none => simp [step, hk]
    | some i => simp [step, hk]

/-- **C114**: commands about one name do not touch another. -/
theorem C114_apart (s : Sims M) (c : Cmd M) (n : Text)
    (h : match c with | .prepare _ k _ | .debug k _ | .show k => k ≠ some n) : (step s c).1 n = s n := by
  rcases step_at s c n with h1 | ⟨-, m, h2, -⟩ | ⟨i, l, -, rfl, -⟩
  · exact h1
  · cases c with
    | prepare w name lattice =>
      cases name with
      | none => exact absurd h2 id
      | some k => exact absurd (by rw [h2.1]) h
    | _ => exact absurd h2 id
  · exact absurd rfl h

/-- **C114**: after `flameDebug(n, l)` exactly the messages up to level `l` are printed, those of level zero always; a record prints those below its own
`TPRO` too. -/
theorem C114_messages (s : Sims M) (n : Text) (i : Inst M) (h : s n = some i) (l : Int) :
    ∃ j, (step s (.debug (some n) l)).1 n = some j ∧ (∀ k : Nat, testDebug j k = true ↔ k = 0 ∨ (k : Int) ≤ l) ∧
      ∀ tpro k : Nat, recDebug j tpro k = true ↔ k = 0 ∨ (k : Int) ≤ l ∨ k < tpro := by
  refine ⟨⟨i.machine, (max 0 l).toNat⟩, by simp only [step, h, Sims.put, if_true], fun k => ?_, fun tpro k => ?_⟩
  · simp only [testDebug, decide_eq_true_eq]
    omega
  · simp only [recDebug, Bool.or_eq_true, decide_eq_true_eq]
    omega

/-- C114 is false for `flamePrepare` without a lattice: instead of being refused it makes an instance from the standard input, which is the shell's own
input. -/
theorem C114_no_lattice_false (s : Sims M) (n : Text) (hn : s n = none) (w : World M) (m : M) (hw : w.stdin = some m) :
    (step s (.prepare w (some n) none)).1 n = some ⟨m, 0⟩ ∧ ∀ o, (step s (.prepare w (some n) none)).2 = o → o = .nothing := by
  simp only [step, hn, World.read, hw, Sims.put, if_true, true_and]
  exact fun o h => h.symm

/-! ## Examples -/

/-- One lattice file; nothing on the standard input. -/
def exWorld : World Nat := ⟨fun l => if l = "a.lat".toList then some 1 else if l = "b.lat".toList then some 2 else none, none⟩

/-- Example: a faulty lattice first, then two instances, then a second try for a name. -/
example :
    let cs : List (Cmd Nat) := [.prepare exWorld (some "x".toList) (some "none.lat".toList), .prepare exWorld (some "x".toList) (some "a.lat".toList),
      .debug (some "x".toList) 3, .prepare exWorld (some "y".toList) (some "b.lat".toList), .prepare exWorld (some "x".toList) (some "b.lat".toList),
      .debug (some "y".toList) (-2)]
    (steps Sims.none cs "x".toList).map (fun i => (i.machine, i.level)) = some (1, 3) ∧
    (steps Sims.none cs "y".toList).map (fun i => (i.machine, i.level)) = some (2, 0) := by decide

end Flame.Vaccel.Instances
