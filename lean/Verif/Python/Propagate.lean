import Verif.Python.Calls
import Verif.Machine.Props

/-!
# C110: `propagate` from Python

Model of `PyMachine_propagate` (/repo/python/flame/modmachine.cpp:155-192) with its arguments as Python objects.  Left out: a `state` that is no
`State`, keyword handling, an `observe` that cannot be iterated (both are refused before anything happens).
-/

namespace Flame.Python

open Flame.Mach (Elem St Run Event propagate clearObs stored installObs passages Indexed)

variable {C X S : Type}

/-- A Python object where an integer is expected. -/
inductive PyInt
  | int (i : Int)
  | other
  deriving DecidableEq, Repr

/-- `PyLong_AsLong`: the number, or -1 with an exception raised. -/
def asLong : PyInt → Int × Bool
  | .int i => if -2 ^ 63 ≤ i ∧ i < 2 ^ 63 then (i, false) else (-1, true)
  | .other => (-1, true)

/-- `(int)` of a `long`, as gcc does it: the low 32 bits. -/
def cInt (i : Int) : Int := (i + 2 ^ 31) % 2 ^ 32 - 2 ^ 31

/-- The number of elements, and whether an exception is pending (/repo/python/flame/modmachine.cpp:161, 166): nobody looks at it. -/
def maxArg : Option PyInt → Int × Bool
  | none => (2 ^ 31 - 1, false)
  | some m => (cInt (asLong m).1, (asLong m).2)

/-- The loop over `observe` (/repo/python/flame/modmachine.cpp:174-181) with `PyScopedObserver::observe` (lines 146-152).  `pending` is an exception
from before, `PyNumber_AsSsize_t` another one; a negative number becomes a large `size_t`. -/
def observeLoop (pending : Bool) (o : Nat) : List (Elem C X S) → List PyInt → List (Elem C X S) × Option Exc
  | els, [] => (els, none)
  | els, i :: is =>
    if pending || (asLong i).2 then (els, some .raised)
    else
      match els[ulong (asLong i).1]? with
      | none => (els, some .runtime)
      | some e => observeLoop pending o (els.set (ulong (asLong i).1) { e with obs := some o }) is

/-- Result of a call: the machine and the state afterwards, and what Python gets. -/
structure PropRes (C X S : Type) where
  elems : List (Elem C X S)
  st : St S
  result : Except Exc (List (Nat × St S))

/-- `PyMachine_propagate` (/repo/python/flame/modmachine.cpp:155-192), `none` for undefined behaviour.  If an exception is pending at the end,
Python raises `SystemError` for a call that returned a result with an exception set. -/
def pyPropagateCall (o : Nat) (els : List (Elem C X S)) (s : St S) (start : Int) (max : Option PyInt) (observe : Option (List PyInt)) :
    Option (PropRes C X S) :=
  match observeLoop (maxArg max).2 o els (observe.getD []) with
  | (els', some e) => some ⟨clearObs els', s, .error e⟩
  | (els', none) =>
    match propagate els' s (ulong start) (maxArg max).1 with
    | none => none
    | some r =>
      some ⟨clearObs r.elems, r.st,
        match r.err with
        | some e => .error (if (maxArg max).2 then .raised else machExc e)
        | none => if (maxArg max).2 then .error .raised else .ok (stored o r.trace)⟩

theorem cInt_small {i : Int} (h1 : -2 ^ 31 ≤ i) (h2 : i < 2 ^ 31) : cInt i = i := by
  unfold cInt
  omega

theorem ulong_small {i : Int} (h1 : 0 ≤ i) (h2 : i < 2 ^ 64) : ulong i = i.toNat := by
  unfold ulong
  omega

/-- The numbers are those of elements. -/
def InRange (n : Nat) (is : List PyInt) : Prop := ∀ x ∈ is, ∃ i : Nat, x = .int i ∧ i < n

theorem observeLoop_ok (o : Nat) (is : List PyInt) : ∀ els : List (Elem C X S), els.length ≤ 2 ^ 63 → InRange els.length is →
    ∃ js : List Nat, is = js.map (fun j => .int (j : Int)) ∧ (∀ j ∈ js, j < els.length) ∧
      observeLoop false o els is = ((installObs o els js).1, none) ∧ (installObs o els js).2 = none := by
  induction is with
  | nil => exact fun els _ _ => ⟨[], rfl, by simp, rfl, rfl⟩
  | cons x is ih =>
    intro els hl h
    obtain ⟨i, rfl, hi⟩ := h _ (List.mem_cons_self ..)
    have ha : asLong (.int (i : Int)) = ((i : Int), false) := by
      simp only [asLong]
      rw [if_pos (by omega)]
    have hu : ulong (i : Int) = i := by
      rw [ulong_small (by omega) (by omega)]
      simp
    obtain ⟨js, h1, h2, h3, h4⟩ := ih (els.set i { els[i] with obs := some o }) (by simpa using hl) (by
      intro x hx
      simpa using h x (List.mem_cons_of_mem _ hx))
    refine ⟨i :: js, by rw [h1]; rfl, ?_, ?_, ?_⟩
    · intro j hj
      rcases List.mem_cons.mp hj with rfl | hj
      · exact hi
      · simpa using h2 j hj
    · simp only [observeLoop, ha, hu, Bool.or_self, Bool.false_eq_true, if_false, List.getElem?_eq_getElem hi, installObs]
      exact h3
    · simp only [installObs, List.getElem?_eq_getElem hi]
      exact h4

/-- C110, arguments in range: the call passes the same elements as the C++ function with the same numbers and leaves the same state; the result
is an exception if that fails, otherwise a list with an entry for each passage through one of the elements listed, in order, with a copy of the
state at its exit.  Without `max` the range goes to the end.  Missing: other numbers, see `C110_max_false`, `C110_undefined_false`,
`C110_bad_max_false` and `C110_start_false`. -/
theorem C110_call_partial (o : Nat) (els : List (Elem C X S)) (s : St S) (start : Nat) (max : Option Int) (observe : Option (List PyInt))
    (hi : Indexed els) (hfresh : ∀ e ∈ els, e.obs ≠ some o) (hl : els.length ≤ 2 ^ 63) (hs : start < 2 ^ 64)
    (hm : ∀ m, max = some m → -2 ^ 31 < m ∧ m < 2 ^ 31) (hin : InRange els.length (observe.getD [])) :
    ∃ r p, propagate els s start (max.getD (2 ^ 31 - 1)) = some r ∧
      pyPropagateCall o els s start (max.map .int) observe = some p ∧ p.st = r.st ∧ p.elems = clearObs r.elems ∧
      p.result = (match r.err with
        | some e => .error (machExc e)
        | none => .ok (((passages (max.getD (2 ^ 31 - 1)).natAbs els
              { s with nextElem := start, retreat := decide (max.getD (2 ^ 31 - 1) < 0) }).filter
            (fun q => .int (q.1 : Int) ∈ observe.getD [])).map (fun q => (q.1, q.2.clone)))) := by
  have hM : maxArg (max.map .int) = (max.getD (2 ^ 31 - 1), false) := by
    cases max with
    | none => rfl
    | some m =>
      obtain ⟨h1, h2⟩ := hm m rfl
      have : asLong (.int m) = (m, false) := by
        simp only [asLong]
        rw [if_pos (by omega)]
      simp only [Option.map_some, maxArg, this, Option.getD_some]
      rw [cInt_small (by omega) h2]
  have hne : max.getD (2 ^ 31 - 1) ≠ -2 ^ 31 := by
    cases max with
    | none => decide
    | some m =>
      have := (hm m rfl).1
      simp only [Option.getD_some]
      omega
  generalize max.getD (2 ^ 31 - 1) = M at *
  obtain ⟨js, h1, h2, h3, h4⟩ := observeLoop_ok o (observe.getD []) els hl hin
  obtain ⟨r, hr, -⟩ := (Flame.Mach.C24_bounded els s start M).1 hne
  obtain ⟨p, hp, p1, p2, -, p4⟩ := Flame.Mach.C25_python_observe o els s start M js hi hfresh h2 r hr
  have hu : ulong (start : Int) = start := by
    rw [ulong_small (by omega) (by omega)]
    simp
  have hfun : (fun q : Nat × St S => decide (PyInt.int (q.1 : Int) ∈ observe.getD [])) = fun q => decide (q.1 ∈ js) := by
    funext q
    rw [h1]
    simp only [List.mem_map, PyInt.int.injEq, decide_eq_decide]
    exact ⟨fun ⟨a, ha, e⟩ => by rw [← Int.ofNat.inj e]; exact ha, fun h => ⟨_, h, rfl⟩⟩
  unfold Flame.Mach.pyPropagate at hp
  have hins : installObs o els js = ((installObs o els js).1, none) := by rw [← h4]
  rw [hins] at hp
  dsimp only at hp
  unfold pyPropagateCall
  rw [hM]
  dsimp only
  rw [h3]
  dsimp only
  rw [hu]
  cases hq : propagate (installObs o els js).1 s start M with
  | none => rw [hq] at hp; simp at hp
  | some r' =>
    rw [hq] at hp
    simp only [Option.map_some, Option.some.injEq] at hp
    refine ⟨r, _, hr, rfl, ?_, ?_, ?_⟩
    · rw [← p1, ← hp]
    · rw [← p2, ← hp]
    · rw [hfun]
      rw [← hp] at p4
      dsimp only at p4
      revert p4
      cases r'.err with
      | some e =>
        cases r.err with
        | some e' => intro p4; simp only [Except.error.injEq] at p4; simp [p4]
        | none => intro p4; simp at p4
      | none =>
        cases r.err with
        | some e' => intro p4; simp at p4
        | none => intro p4; simp only [Except.ok.injEq] at p4; simp [p4]

/-- C110: an index that is no element, or no number, makes the call fail before anything is simulated: the state is left as it was. -/
theorem C110_bad_index (o : Nat) (els : List (Elem C X S)) (s : St S) (start : Int) (max : Option PyInt) (is : List PyInt)
    (hl : els.length ≤ 2 ^ 63) (h : ¬ InRange els.length is) :
    ∃ els' e, pyPropagateCall o els s start max (some is) = some ⟨clearObs els', s, .error e⟩ := by
  have key : ∀ (is : List PyInt) (els : List (Elem C X S)) (b : Bool), els.length ≤ 2 ^ 63 → ¬ InRange els.length is →
      ∃ els' e, observeLoop b o els is = (els', some e) := by
    intro is
    induction is with
    | nil => exact fun els b _ h => absurd (fun x hx => by simp at hx) h
    | cons x is ih =>
      intro els b hl h
      unfold observeLoop
      by_cases hb : (b || (asLong x).2) = true
      · rw [if_pos hb]
        exact ⟨_, _, rfl⟩
      · rw [if_neg hb]
        cases he : els[ulong (asLong x).1]? with
        | none => exact ⟨_, _, rfl⟩
        | some e =>
          dsimp only
          apply ih
          · simpa using hl
          · intro hr
            apply h
            intro y hy
            rcases List.mem_cons.mp hy with rfl | hy
            · cases y with
              | other => simp [asLong] at hb
              | int i =>
                have hlt := (List.getElem?_eq_some_iff.mp he).1
                simp only [asLong] at hb hlt
                split at hb
                · rename_i hrange
                  rw [if_pos hrange] at hlt
                  dsimp only at hlt
                  refine ⟨i.toNat, ?_, ?_⟩
                  · unfold ulong at hlt
                    rw [Int.toNat_of_nonneg (by omega)]
                  · unfold ulong at hlt
                    omega
                · simp at hb
            · simpa using hr y hy
  obtain ⟨els', e, he⟩ := key is els (maxArg max).2 hl h
  exact ⟨els', e, by simp only [pyPropagateCall, Option.getD_some, he]⟩

/-- C110 is false for other numbers: `max` counts modulo 4294967296, without notice. -/
theorem C110_max_false (o : Nat) (els : List (Elem C X S)) (s : St S) (start : Int) (observe : Option (List PyInt)) (m k : Int)
    (h1 : -2 ^ 63 ≤ m ∧ m < 2 ^ 63) (h2 : -2 ^ 63 ≤ m + k * 2 ^ 32 ∧ m + k * 2 ^ 32 < 2 ^ 63) :
    pyPropagateCall o els s start (some (.int (m + k * 2 ^ 32))) observe = pyPropagateCall o els s start (some (.int m)) observe := by
  have e : maxArg (some (.int (m + k * 2 ^ 32))) = maxArg (some (.int m)) := by
    simp only [maxArg, asLong, if_pos h1, if_pos h2, cInt]
    congr 1
    omega
  unfold pyPropagateCall
  rw [e]

/-- C110: 4294967295 elements forward are one element backward. -/
theorem C110_backward_false (o : Nat) (els : List (Elem C X S)) (s : St S) (start : Int) (observe : Option (List PyInt)) :
    pyPropagateCall o els s start (some (.int 4294967295)) observe = pyPropagateCall o els s start (some (.int (-1))) observe := by
  have e : (4294967295 : Int) = -1 + 1 * 2 ^ 32 := by decide
  rw [e]
  exact C110_max_false o els s start observe (-1) 1 (by decide) (by decide)

/-- C110: 2147483648 elements are undefined behaviour. -/
theorem C110_undefined_false (o : Nat) (els : List (Elem C X S)) (s : St S) (start : Int) :
    pyPropagateCall o els s start (some (.int 2147483648)) none = none := by
  have : maxArg (some (.int 2147483648)) = (-2 ^ 31, false) := by decide
  simp only [pyPropagateCall, this, Option.getD_none, observeLoop, propagate, Flame.Mach.cAbs, if_true, Option.map_none]

/-- C110: with anything but an integer as `max`, or with one of more than 64 bits, there is an exception, but before it the beam is taken one
element backward. -/
theorem C110_bad_max_false (o : Nat) (els : List (Elem C X S)) (s : St S) (start : Nat) (m : PyInt) (hs : start < 2 ^ 64)
    (hm : m = .other ∨ ∃ i, m = .int i ∧ ¬ (-2 ^ 63 ≤ i ∧ i < 2 ^ 63)) :
    ∃ r, propagate els s start (-1) = some r ∧ pyPropagateCall o els s start (some m) none = some ⟨clearObs r.elems, r.st, .error .raised⟩ := by
  have hM : maxArg (some m) = (-1, true) := by
    have : asLong m = (-1, true) := by
      rcases hm with rfl | ⟨i, rfl, hi⟩
      · rfl
      · simp only [asLong]
        rw [if_neg hi]
    simp only [maxArg, this]
    decide
  obtain ⟨r, hr, -⟩ := (Flame.Mach.C24_bounded els s start (-1)).1 (by decide)
  have hu : ulong (start : Int) = start := by
    rw [ulong_small (by omega) (by omega)]
    simp
  refine ⟨r, hr, ?_⟩
  simp only [pyPropagateCall, hM, Option.getD_none, observeLoop, hu, hr, if_true]
  cases r.err <;> rfl

/-- C110: `start` counts modulo 18446744073709551616, without notice. -/
theorem C110_start_false (o : Nat) (els : List (Elem C X S)) (s : St S) (start : Int) (max : Option PyInt) (observe : Option (List PyInt)) :
    pyPropagateCall o els s (start + 18446744073709551616) max observe = pyPropagateCall o els s start max observe := by
  have : ulong (start + 18446744073709551616) = ulong start := by
    unfold ulong
    omega
  simp only [pyPropagateCall, this]

/-! ### Examples -/

/-- The toy machine with elements that append 1, 2, 3 to the state: three elements observed at both ends. -/
example : ((pyPropagateCall 9 Flame.Mach.Toy.elems ⟨5, true, []⟩ 0 none (some [.int 0, .int 2])).map
      (fun p => (p.st.payload, match p.result with | .ok l => l.map Prod.fst | .error _ => []))) = some ([1, 2, 3], [0, 2]) ∧
    InRange Flame.Mach.Toy.elems.length [.int 0, .int 2] := by
  refine ⟨by decide +kernel, ?_⟩
  intro x hx
  simp only [List.mem_cons, List.not_mem_nil, or_false] at hx
  rcases hx with rfl | rfl
  · exact ⟨0, rfl, by decide⟩
  · exact ⟨2, rfl, by decide⟩

/-- 4294967297 elements are one, and a text as `max` still moves the beam. -/
example : ((pyPropagateCall 9 Flame.Mach.Toy.elems ⟨5, true, []⟩ 0 (some (.int 4294967297)) none).map (fun p => p.st.payload)) = some [1] ∧
    ((pyPropagateCall 9 Flame.Mach.Toy.elems ⟨5, true, []⟩ 1 (some .other) none).map (fun p => (p.st.payload, p.result.isOk))) =
      some ([2], false) := by
  decide +kernel

/-- An index that is no element. -/
example : ¬ InRange Flame.Mach.Toy.elems.length [.int 0, .int (-1)] := by
  intro h
  obtain ⟨i, h1, -⟩ := h (.int (-1)) (by simp)
  simp only [PyInt.int.injEq] at h1
  omega

end Flame.Python
