import Verif.Tools.PropsH5

/-!
# `h5file` in lattice files

`unary_h5file` (/repo/src/glps_ops.cpp:171-204), documented as "Normalize h5file path.  same as file() while also ignoring any trailing
"/group/name"" (/repo/documentation/mainpage.h:884).
-/

namespace Flame.Tools

/-- Result of `h5file`: a path, the message "does not exist", an exception, or none so far. -/
inductive H5Res
  | ok (p : Str)
  | missing
  | throws
  | running
  deriving DecidableEq, Repr

/-- `unary_h5file` (/repo/src/glps_ops.cpp:171-204).  `ex p` is `exists(absolute(p, cwd))`, `canon p` is `canonical(absolute(p, cwd))` as text; the
empty text stands for the directory itself, which `absolute` returns for it; the loop gets one round more than the text has characters, which is enough if the directory of the lattice file exists (`C109_result`). -/
def h5file (ex : Str → Bool) (canon : Str → Str) (s : Str) : H5Res :=
  match openSpec ex s (s.length + 1) with
  | .file f sep =>
    match h5fileGroup s sep with
    | none => .throws
    | some g => .ok (canon f ++ g)
  | .failed => .missing
  | .running => .running

/-- C109: what `h5file` gives, if the directory of the lattice file, named by the empty text, exists.  The text is cut at the last `/` that has
something existing before it; without such a `/` there is no result, for one or the other reason. -/
theorem C109_result (ex : Str → Bool) (canon : Str → Str) (s : Str) (h0 : ex [] = true) :
    (∃ a b, Rightmost ex s a b ∧ h5file ex canon s = .ok (canon a ++ '/' :: b)) ∨
    ((∀ a b, Cut s a b → ex a = false) ∧ s.head? ≠ some '/' ∧ h5file ex canon s = if ex s then .throws else .missing) := by
  by_cases h : ∃ a b, Cut s a b ∧ ex a = true
  · obtain ⟨a, b, h1, h2, -, -, h3⟩ := C48_rightmost ex s (s.length + 1) (Nat.lt_succ_self _) h
    left
    refine ⟨a, b, h1, ?_⟩
    simp only [h5file, h2, h3]
  · right
    have hno : ∀ a b, Cut s a b → ex a = false := by
      intro a b hc
      cases he : ex a with
      | false => rfl
      | true => exact absurd ⟨a, b, hc, he⟩ h
    have hs : s.head? ≠ some '/' := by
      intro hs
      cases s with
      | nil => simp at hs
      | cons c r =>
        simp only [List.head?_cons, Option.some.injEq] at hs
        subst hs
        have := hno [] r rfl
        rw [h0] at this
        exact absurd this (by decide)
    refine ⟨hno, hs, ?_⟩
    simp only [h5file, C48_whole_partial ex s (s.length + 1) (Nat.lt_succ_self _) hs hno]
    cases ex s <;> rfl

theorem rightmost_unique {ex : Str → Bool} {s a b a' b' : Str} (h : Rightmost ex s a b) (h' : Rightmost ex s a' b') : a = a' ∧ b = b' := by
  have hl : a.length = a'.length := by
    rcases Nat.lt_trichotomy a.length a'.length with hlt | he | hlt
    · have := h.2.2 a' b' h'.1 hlt
      rw [h'.2.1] at this
      exact absurd this (by decide)
    · exact he
    · have := h'.2.2 a b h.1 hlt
      rw [h.2.1] at this
      exact absurd this (by decide)
  have e : a ++ '/' :: b = a' ++ '/' :: b' := (show s = a ++ '/' :: b from h.1).symm.trans h'.1
  obtain ⟨e1, e2⟩ := List.append_inj e hl
  simp only [List.cons.injEq, true_and] at e2
  exact ⟨e1, e2⟩

theorem h5file_of_rightmost {ex : Str → Bool} (canon : Str → Str) {s a b : Str} (h : Rightmost ex s a b) :
    h5file ex canon s = .ok (canon a ++ '/' :: b) := by
  obtain ⟨a', b', h1, h2, -, -, h3⟩ := C48_rightmost ex s (s.length + 1) (Nat.lt_succ_self _) ⟨a, b, h.1, h.2.1⟩
  obtain ⟨rfl, rfl⟩ := rightmost_unique h h1
  simp only [h5file, h2, h3]

/-- C109, with a group: if `f` exists and nothing below it does, as for a file, `f/g` gives the path of `f` and the group `g`, which may have
several parts.  Missing: names without a group, see `C109_plain`, `C109_missing_false`, `C109_absolute_false` and `C109_local_false`. -/
theorem C109_group_partial (ex : Str → Bool) (canon : Str → Str) (f g : Str) (hf : ex f = true) (hg : ∀ b, ex (f ++ '/' :: b) = false) :
    h5file ex canon (f ++ '/' :: g) = .ok (canon f ++ '/' :: g) := by
  apply h5file_of_rightmost
  refine ⟨rfl, hf, ?_⟩
  intro a' b' hc hl
  have hc' : f ++ '/' :: g = a' ++ '/' :: b' := hc
  rw [List.append_eq_append_iff] at hc'
  rcases hc' with ⟨c, rfl, hc'⟩ | ⟨c, rfl, -⟩
  · cases c with
    | nil => simp at hl
    | cons x c =>
      simp only [List.cons_append, List.cons.injEq] at hc'
      rw [← hc'.1]
      exact hg c
  · simp at hl
    omega

/-- Example: the line of /repo/python/flame/test/test_h5.lat:2. -/
example : h5file (fun p => p = [] ∨ p = ".".toList ∨ p = "./test.h5".toList) (fun p => "/d".toList ++ p.drop 1) "./test.h5/foo/baz".toList =
    .ok "/d/test.h5/foo/baz".toList := by decide +kernel

/-- C109, a file in a directory, without a group: the path of the directory and the name of the file.  The file need not exist: this is
what `C109_missing_false` is about. -/
theorem C109_plain (ex : Str → Bool) (canon : Str → Str) (d f : Str) (hd : ex d = true) (hf : '/' ∉ f) :
    h5file ex canon (d ++ '/' :: f) = .ok (canon d ++ '/' :: f) := by
  apply h5file_of_rightmost
  refine ⟨rfl, hd, ?_⟩
  intro a' b' hc hl
  have hc' : d ++ '/' :: f = a' ++ '/' :: b' := hc
  rw [List.append_eq_append_iff] at hc'
  rcases hc' with ⟨c, rfl, hc'⟩ | ⟨c, rfl, -⟩
  · cases c with
    | nil => simp at hl
    | cons x c =>
      simp only [List.cons_append, List.cons.injEq] at hc'
      exact absurd (by rw [hc'.2]; simp) hf
  · simp at hl
    omega

/-- A file system as a user thinks of it: the directory of the lattice file exists, and so does whatever contains something that exists. -/
def Sound (ex : Str → Bool) : Prop := ex [] = true ∧ ∀ a b, ex (a ++ '/' :: b) = true → ex a = true

/-- C109 is false: a file that does not exist, in a directory that does, is not reported. -/
theorem C109_missing_false : ∃ (ex : Str → Bool) (s : Str), Sound ex ∧ ex s = false ∧ ∀ canon, ∃ p, h5file ex canon s = .ok p := by
  refine ⟨fun p => p = [] ∨ p = ".".toList, "./run.h5".toList, ⟨by decide, ?_⟩, by decide, fun canon => ⟨canon ".".toList ++ '/' :: "run.h5".toList, ?_⟩⟩
  · intro a b h
    exfalso
    simp only [decide_eq_true_eq] at h
    rcases h with h | h
    · simp at h
    · have h3 : '/' ∈ a ++ '/' :: b := by simp
      rw [h] at h3
      exact absurd h3 (by decide)
  · exact C109_plain _ canon ".".toList "run.h5".toList (by decide) (by decide)

/-- C109 is false: if no directory of an absolute path exists, the result is a path below the directory of the lattice file. -/
theorem C109_absolute_false (ex : Str → Bool) (canon : Str → Str) (s : Str) (h0 : ex [] = true)
    (h : ∀ a b, Cut ('/' :: s) a b → a ≠ [] → ex a = false) : h5file ex canon ('/' :: s) = .ok (canon [] ++ '/' :: s) := by
  apply h5file_of_rightmost
  refine ⟨rfl, h0, fun a' b' hc hl => h a' b' hc ?_⟩
  rintro rfl
  simp at hl

/-- Example: `/data/run.h5` where there is no `/data`. -/
example : h5file (fun p => p = []) (fun _ => "/home/me".toList) "/data/run.h5".toList = .ok "/home/me/data/run.h5".toList := by
  decide +kernel

/-- C109 is false: a file beside the lattice file is refused with an exception, unless it is written with `./`. -/
theorem C109_local_false (ex : Str → Bool) (canon : Str → Str) (f : Str) (hf : '/' ∉ f) (he : ex f = true) :
    h5file ex canon f = .throws := by
  have hno : ∀ a b, Cut f a b → ex a = false := by
    intro a b hc
    have hc' : f = a ++ '/' :: b := hc
    exact absurd (by rw [hc']; simp) hf
  have hs : f.head? ≠ some '/' := by
    intro hs
    exact hf (List.mem_of_mem_head? hs)
  simp only [h5file, C48_whole_partial ex f (f.length + 1) (Nat.lt_succ_self _) hs hno, he, if_true]
  rfl

/-- Example: `run.h5` beside the lattice file. -/
example : '/' ∉ "run.h5".toList ∧ Sound (fun p => p = [] ∨ p = "run.h5".toList) := by
  refine ⟨by decide, by decide, ?_⟩
  intro a b h
  have h3 : '/' ∈ a ++ '/' :: b := by simp
  simp only [decide_eq_true_eq] at h
  rcases h with h | h
  · simp at h
  · rw [h] at h3
    exact absurd h3 (by decide)

end Flame.Tools
