import Verif.Tools.Loadcav
import Verif.Tools.PropsH5
import Mathlib.Data.List.Infix

/-! # C113: storing cavity data -/

namespace Flame.Tools

variable {D : Type}

/-! ## The argument -/

theorem splitSlash_ne (s : Str) : splitSlash s ≠ [] := by
  cases s with
  | nil => simp [splitSlash]
  | cons c s =>
    unfold splitSlash
    split
    · simp
    · split <;> simp

/-- A text without `/` is one piece. -/
theorem splitSlash_none {s : Str} (h : '/' ∉ s) : splitSlash s = [s] := by
  induction s with
  | nil => rfl
  | cons c s ih =>
    simp only [List.mem_cons, not_or] at h
    simp only [splitSlash, if_neg (Ne.symm h.1), ih h.2]

theorem splitSlash_append {a : Str} (b : Str) (h : '/' ∉ a) : splitSlash (a ++ '/' :: b) = a :: splitSlash b := by
  induction a with
  | nil => simp [splitSlash]
  | cons c s ih =>
    simp only [List.mem_cons, not_or] at h
    simp only [List.cons_append, splitSlash, if_neg (Ne.symm h.1), ih h.2]

theorem joinSplit (s : Str) : joinSlash (splitSlash s) = s := by
  induction s with
  | nil => rfl
  | cons c s ih =>
    unfold splitSlash
    have hne := splitSlash_ne s
    revert ih hne
    cases splitSlash s with
    | nil => intro _ h; exact absurd rfl h
    | cons h t =>
      intro ih _
      split
      · rename_i e
        subst e
        simp only [joinSlash, List.nil_append, ih]
      · cases t with
        | nil => simp only [joinSlash] at ih ⊢; rw [ih]
        | cons y t => simp only [joinSlash, List.cons_append] at ih ⊢; rw [ih]

theorem splitSlash_append_last (g d : Str) (hd : '/' ∉ d) : splitSlash (g ++ '/' :: d) = splitSlash g ++ [d] := by
  induction g with
  | nil => simp [splitSlash, splitSlash_none hd]
  | cons c s ih =>
    simp only [List.cons_append, splitSlash]
    split
    · rw [ih]; rfl
    · rw [ih]
      have hne := splitSlash_ne s
      revert hne
      cases splitSlash s with
      | nil => intro h; exact absurd rfl h
      | cons h t => intro _; rfl

theorem cavArg_cons {s f : Str} {l : List Str} (h : splitSlash s = f :: l) (hl : l ≠ []) :
    cavArg s = some (f, joinSlash l.dropLast, l.getLast hl) := by
  cases l with
  | nil => exact absurd rfl hl
  | cons x l => simp only [cavArg, h]

/-- **C113**, the argument: `file/dataset` and `file/group/dataset`, where the group may have several parts, name what they seem to if the names of the file
and of the data set have no `/`. -/
theorem C113_argument (f g d : Str) (hf : '/' ∉ f) (hd : '/' ∉ d) :
    cavArg (f ++ '/' :: d) = some (f, [], d) ∧ cavArg (f ++ '/' :: (g ++ '/' :: d)) = some (f, g, d) := by
  constructor
  · rw [cavArg_cons (splitSlash_append d hf) (splitSlash_ne d)]
    simp [splitSlash_none hd, joinSlash]
  · rw [cavArg_cons (splitSlash_append _ hf) (splitSlash_ne _)]
    simp [splitSlash_append_last g d hd, joinSplit]

theorem cut_first {s : Str} (h : '/' ∈ s) : ∃ a b, s = a ++ '/' :: b ∧ '/' ∉ a := by
  induction s with
  | nil => simp at h
  | cons c s ih =>
    by_cases hc : c = '/'
    · exact ⟨[], s, by simp [hc], by simp⟩
    · obtain ⟨a, b, h1, h2⟩ := ih (by simpa [Ne.symm hc] using h)
      exact ⟨c :: a, b, by simp [h1], by simp [h2, Ne.symm hc]⟩

theorem cut_last {s : Str} (h : '/' ∈ s) : ∃ a b, s = a ++ '/' :: b ∧ '/' ∉ b := by
  obtain ⟨a, b, h1, h2⟩ := cut_first (s := s.reverse) (by simpa using h)
  refine ⟨b.reverse, a.reverse, ?_, by simpa using h2⟩
  have := congrArg List.reverse h1
  simpa using this

/-- **C113**: an argument is refused exactly if it has no `/`; and what is taken from it can be put together to the argument again. -/
theorem C113_argument_all (s : Str) :
    (cavArg s = none ↔ '/' ∉ s) ∧
    ∀ f g d, cavArg s = some (f, g, d) → '/' ∉ f ∧ '/' ∉ d ∧ ((g = [] ∧ s = f ++ '/' :: d) ∨ s = f ++ '/' :: (g ++ '/' :: d)) := by
  by_cases h : '/' ∈ s
  · obtain ⟨f, r, rfl, hf⟩ := cut_first h
    have key : ∃ g d, cavArg (f ++ '/' :: r) = some (f, g, d) ∧ '/' ∉ d ∧ ((g = [] ∧ r = d) ∨ r = g ++ '/' :: d) := by
      by_cases hr : '/' ∈ r
      · obtain ⟨g, d, rfl, hd⟩ := cut_last hr
        exact ⟨g, d, (C113_argument f g d hf hd).2, hd, Or.inr rfl⟩
      · exact ⟨[], r, (C113_argument f [] r hf hr).1, hr, Or.inl ⟨rfl, rfl⟩⟩
    obtain ⟨g, d, h1, h2, h3⟩ := key
    refine ⟨by simp [h1], ?_⟩
    intro f' g' d' h'
    rw [h1] at h'
    simp only [Option.some.injEq, Prod.mk.injEq] at h'
    obtain ⟨rfl, rfl, rfl⟩ := h'
    refine ⟨hf, h2, ?_⟩
    rcases h3 with ⟨rfl, rfl⟩ | rfl
    · exact Or.inl ⟨rfl, rfl⟩
    · exact Or.inr rfl
  · have : cavArg s = none := by simp only [cavArg, splitSlash_none h]
    simp [this, h]

/-- Example: the one of the script's documentation. -/
example : cavArg "data.h5/cav/foo/field".toList = some ("data.h5".toList, "cav/foo".toList, "field".toList) := by decide

/-! ## The group -/

/-- The groups that a path in an HDF5 file leads through: names separated by `/`; empty parts and "." stay where they are. -/
inductive Leads : Str → List Str → Prop
  | empty : Leads [] []
  | dot : Leads ['.'] []
  | name {c : Str} : '/' ∉ c → c ≠ [] → c ≠ ['.'] → Leads c [c]
  | join {a b : Str} {p q : List Str} : Leads a p → Leads b q → Leads (a ++ '/' :: b) (p ++ q)

theorem splitSlash_join (a b : Str) : splitSlash (a ++ '/' :: b) = splitSlash a ++ splitSlash b := by
  induction a with
  | nil => simp [splitSlash]
  | cons c s ih =>
    simp only [List.cons_append, splitSlash]
    split
    · rw [ih]; rfl
    · rw [ih]
      have hne := splitSlash_ne s
      revert hne
      cases splitSlash s with
      | nil => intro h; exact absurd rfl h
      | cons h t => intro _; rfl

theorem leads_comps : ∀ (n : Nat) (g : Str), g.length ≤ n → Leads g (comps g)
  | 0, g, h => by
    obtain rfl : g = [] := List.eq_nil_of_length_eq_zero (by omega)
    exact .empty
  | n + 1, g, h => by
    by_cases hs : '/' ∈ g
    · obtain ⟨a, b, rfl, -⟩ := cut_first hs
      simp only [List.length_append, List.length_cons] at h
      have := Leads.join (leads_comps n a (by omega)) (leads_comps n b (by omega))
      unfold comps at this ⊢
      rwa [splitSlash_join, List.filter_append]
    · unfold comps
      rw [splitSlash_none hs]
      by_cases h0 : g = []
      · subst h0
        exact .empty
      · by_cases h1 : g = ['.']
        · subst h1
          exact .dot
        · simpa [h0, h1] using Leads.name hs h0 h1

/-- **C113**, the group: however it is written, with doubled slashes or dots, it is the one that the path leads to. -/
theorem C113_group (g : Str) (l : List Str) : comps g = l ↔ Leads g l := by
  constructor
  · rintro rfl
    exact leads_comps _ g le_rfl
  · intro h
    induction h with
    | empty => rfl
    | dot => rfl
    | name h1 h2 h3 => simp [comps, splitSlash_none h1, h2, h3]
    | join _ _ ha hb => rw [comps, splitSlash_join, List.filter_append, ← ha, ← hb, comps, comps]

/-- Example: two ways to write the same group. -/
example : Leads "cav/foo".toList ["cav".toList, "foo".toList] ∧ Leads "/cav//./foo/".toList ["cav".toList, "foo".toList] :=
  ⟨(C113_group _ _).mp (by decide), (C113_group _ _).mp (by decide)⟩

/-- C113 is false for a file in another directory: the first part of its path, a directory, is taken for the file, and the file for a group.  With
an absolute path the name of the file is empty. -/
theorem C113_directory_false (dir r : Str) (h : '/' ∉ dir) : ∃ g d, cavArg (dir ++ '/' :: r) = some (dir, g, d) := by
  by_cases hr : '/' ∈ r
  · obtain ⟨g, d, rfl, hd⟩ := cut_last hr
    exact ⟨g, d, (C113_argument dir g d h hd).2⟩
  · exact ⟨[], r, (C113_argument dir [] r h hr).1⟩

/-- Example: the file in `/tmp` cannot be named. -/
example : cavArg "/tmp/data.h5/field".toList = some ([], "tmp/data.h5".toList, "field".toList) := by decide

/-! ## The file -/

/-- A data set is on the way to `p`. -/
def Blocked (F : H5F D) (p : List Str) : Prop := ∃ q x, q ≠ [] ∧ q <+: p ∧ F q = some (.data x)

theorem mem_inits_tail {q p : List Str} : q ∈ p.inits.tail ↔ q ≠ [] ∧ q <+: p := by
  cases p with
  | nil =>
    simp [List.inits]
  | cons a p =>
    rw [List.inits_cons, List.tail_cons, List.mem_map]
    constructor
    · rintro ⟨t, ht, rfl⟩
      rw [List.mem_inits] at ht
      exact ⟨by simp, by simpa using ht⟩
    · rintro ⟨h1, h2⟩
      cases q with
      | nil => exact absurd rfl h1
      | cons b t =>
        rw [List.cons_prefix_cons] at h2
        exact ⟨t, by simpa using h2.2, by rw [h2.1]⟩

theorem requireGroup_none {F : H5F D} {p : List Str} : requireGroup F p = none ↔ Blocked F p := by
  unfold requireGroup
  split
  · rename_i h
    simp only [true_iff]
    obtain ⟨q, hq, hd⟩ := List.any_eq_true.mp h
    rw [mem_inits_tail] at hq
    cases hF : F q with
    | none => simp [hF] at hd
    | some o =>
      cases o with
      | group => simp [hF] at hd
      | data x => exact ⟨q, x, hq.1, hq.2, hF⟩
  · rename_i h
    simp only [reduceCtorEq, false_iff]
    rintro ⟨q, x, h1, h2, h3⟩
    apply h
    rw [List.any_eq_true]
    exact ⟨q, mem_inits_tail.mpr ⟨h1, h2⟩, by simp [h3]⟩

theorem requireGroup_some {F F' : H5F D} {p : List Str} (h : requireGroup F p = some F') (q : List Str) :
    F' q = if q ≠ [] ∧ q <+: p then some .group else F q := by
  unfold requireGroup at h
  split at h
  · simp at h
  · simp only [Option.some.injEq] at h
    subst h
    simp only [mem_inits_tail]

theorem target_not_prefix (p : List Str) (d : Str) (q : List Str) : q <+: p → q ≠ p ++ [d] := by
  rintro h rfl
  have := h.length_le
  simp at this
  omega

/-- What is done in a file, all in one. -/
theorem storeIn_eq (force : Bool) (g d : Str) (x : D) (F : H5F D) :
    ((storeIn force g d x F).2 = true ↔ ¬ Blocked F (comps g) ∧ d ≠ [] ∧ d ≠ ['.'] ∧ (force = true ∨ F (comps g ++ [d]) = none)) ∧
    ((storeIn force g d x F).2 = true → ∀ q, (storeIn force g d x F).1 q =
      if q = comps g ++ [d] then some (.data x)
      else if force = true ∧ (F (comps g ++ [d])).isSome ∧ comps g ++ [d] <+: q then none
      else if q ≠ [] ∧ q <+: comps g then some .group else F q) ∧
    ((storeIn force g d x F).2 = false → ∀ q, (storeIn force g d x F).1 q = F q ∨
      (¬ Blocked F (comps g) ∧ q ≠ [] ∧ q <+: comps g ∧ (storeIn force g d x F).1 q = some .group)) := by
  cases hr : requireGroup F (comps g) with
  | none =>
    have hb := requireGroup_none.mp hr
    have e : storeIn force g d x F = (F, false) := by simp only [storeIn, hr]
    rw [e]
    simp [hb]
  | some F' =>
    have hb : ¬ Blocked F (comps g) := by rw [← requireGroup_none, hr]; simp
    have hF := requireGroup_some hr
    have hp : F' (comps g ++ [d]) = F (comps g ++ [d]) := by
      rw [hF, if_neg]
      exact fun h => target_not_prefix _ _ _ h.2 rfl
    have hfalse : ∀ q, F' q = F q ∨ (¬ Blocked F (comps g) ∧ q ≠ [] ∧ q <+: comps g ∧ F' q = some .group) := by
      intro q
      rw [hF]
      split
      · rename_i h; exact Or.inr ⟨hb, h.1, h.2, rfl⟩
      · exact Or.inl rfl
    by_cases hd : d = [] ∨ d = ['.']
    · have e : storeIn force g d x F = (F', false) := by simp only [storeIn, hr, if_pos hd]
      rw [e]
      refine ⟨?_, by simp, fun _ => hfalse⟩
      simp only [Bool.false_eq_true, false_iff]
      rintro ⟨-, h1, h2, -⟩
      rcases hd with hd | hd
      · exact h1 hd
      · exact h2 hd
    · have hd' := not_or.mp hd
      by_cases hf : force = true ∧ (F (comps g ++ [d])).isSome
      · have e : storeIn force g d x F =
            (fun q => if q = comps g ++ [d] then some (.data x) else delObj F' (comps g ++ [d]) q, true) := by
          have h1 : (force && (F' (comps g ++ [d])).isSome) = true := by rw [hp, hf.1, hf.2]; rfl
          have h2 : ((delObj F' (comps g ++ [d])) (comps g ++ [d])).isSome = false := by simp [delObj]
          simp only [storeIn, hr, if_neg hd, h1, if_true, h2, Bool.false_eq_true, if_false]
        rw [e]
        refine ⟨by simp [hb, hd'.1, hd'.2, hf.1], fun _ q => ?_, by simp⟩
        simp only [delObj, hF, hf.1, hf.2, true_and]
      · by_cases hx : (F (comps g ++ [d])).isSome = true
        · have hff : force = false := by cases force <;> simp_all
          have e : storeIn force g d x F = (F', false) := by
            simp only [storeIn, hr, if_neg hd, hp, hx, hff, Bool.false_and, Bool.false_eq_true, if_false, if_true]
          rw [e]
          refine ⟨?_, by simp, fun _ => hfalse⟩
          simp only [Bool.false_eq_true, false_iff, hff]
          rintro ⟨-, -, -, h | h⟩
          · simp at h
          · rw [h] at hx; simp at hx
        · have e : storeIn force g d x F = (fun q => if q = comps g ++ [d] then some (.data x) else F' q, true) := by
            simp only [storeIn, hr, if_neg hd, hp, hx, Bool.and_false, Bool.false_eq_true, if_false]
          have hn : F (comps g ++ [d]) = none := by simpa using hx
          rw [e]
          refine ⟨by simp [hb, hd'.1, hd'.2, hn], fun _ q => ?_, by simp⟩
          simp only [hF, hn, Option.isSome_none, Bool.false_eq_true, false_and, and_false, if_false]

/-! ## The disk -/

/-- The content of a file that can be opened; a new file is empty. -/
inductive Openable (can : Str → Bool) (disk : Str → Disk D) (f : Str) : H5F D → Prop
  | old {F : H5F D} : disk f = .h5 F → Openable can disk f F
  | new : disk f = .absent → can f = true → Openable can disk f (fun _ => none)

theorem loadcav_open {can : Str → Bool} {disk : Str → Disk D} {s f g d : Str} {F : H5F D} (hs : cavArg s = some (f, g, d))
    (h : Openable can disk f F) (force : Bool) (x : D) :
    loadcav can force s (some x) disk =
      (fun n => if n = f then .h5 (storeIn force g d x F).1 else disk n, (storeIn force g d x F).2) := by
  cases h with
  | old h => simp only [loadcav, hs, h]
  | new h hc => simp only [loadcav, hs, h, hc, if_true]

theorem loadcav_not {can : Str → Bool} {disk : Str → Disk D} {s f g d : Str} (hs : cavArg s = some (f, g, d))
    (h : ∀ F, ¬ Openable can disk f F) (force : Bool) (x : D) : loadcav can force s (some x) disk = (disk, false) := by
  cases hd : disk f with
  | other => simp only [loadcav, hs, hd]
  | h5 F => exact absurd (.old hd) (h F)
  | absent =>
    have hc : can f = false := by
      cases hc : can f with
      | false => rfl
      | true => exact absurd (.new hd hc) (h _)
    simp only [loadcav, hs, hd, hc, Bool.false_eq_true, if_false]

/-- **C113**, when it succeeds: exactly if the argument has a `/`, the text can be read, the file can be opened or created, no data set is in the way of
the group, the data set has a name, and it is not there yet or `--force` is given. -/
theorem C113_succeeds (can : Str → Bool) (force : Bool) (s : Str) (input : Option D) (disk : Str → Disk D) :
    (loadcav can force s input disk).2 = true ↔
      ∃ f g d x F, cavArg s = some (f, g, d) ∧ input = some x ∧ Openable can disk f F ∧ ¬ Blocked F (comps g) ∧ d ≠ [] ∧ d ≠ ['.'] ∧
        (force = true ∨ F (comps g ++ [d]) = none) := by
  cases hs : cavArg s with
  | none => simp [loadcav, hs]
  | some t =>
    obtain ⟨f, g, d⟩ := t
    cases input with
    | none => simp [loadcav, hs]
    | some x =>
      by_cases h : ∃ F, Openable can disk f F
      · obtain ⟨F, hF⟩ := h
        rw [loadcav_open hs hF]
        dsimp only
        rw [(storeIn_eq force g d x F).1]
        constructor
        · intro h; exact ⟨f, g, d, x, F, rfl, rfl, hF, h⟩
        · rintro ⟨f', g', d', x', F', h1, h2, h3, h4⟩
          simp only [Option.some.injEq, Prod.mk.injEq] at h1
          obtain ⟨rfl, rfl, rfl⟩ := h1
          have : F' = F := by
            cases hF with
            | old e =>
              cases h3 with
              | old e' => rw [e] at e'; cases e'; rfl
              | new e' _ => rw [e] at e'; cases e'
            | new e _ =>
              cases h3 with
              | old e' => rw [e] at e'; cases e'
              | new _ _ => rfl
          rw [← this]; exact h4
      · have h' : ∀ F, ¬ Openable can disk f F := fun F hF => h ⟨F, hF⟩
        rw [loadcav_not hs h']
        simp only [Bool.false_eq_true, false_iff]
        rintro ⟨f', g', d', x', F', h1, h2, h3, h4⟩
        simp only [Option.some.injEq, Prod.mk.injEq] at h1
        obtain ⟨rfl, rfl, rfl⟩ := h1
        exact h' _ h3

/-- **C113**, what is written: after a success the file has the data under the group and the name given. -/
theorem C113_stored (can : Str → Bool) (force : Bool) (s f g d : Str) (x : D) (disk : Str → Disk D) (hs : cavArg s = some (f, g, d))
    (h : (loadcav can force s (some x) disk).2 = true) :
    ∃ F, (loadcav can force s (some x) disk).1 f = .h5 F ∧ F (comps g ++ [d]) = some (.data x) ∧
      ∀ q, q ≠ [] → q <+: comps g → F q = some .group := by
  obtain ⟨f', g', d', x', F, h1, h2, h3, -⟩ := (C113_succeeds can force s (some x) disk).mp h
  rw [hs] at h1
  simp only [Option.some.injEq, Prod.mk.injEq] at h1 h2
  obtain ⟨rfl, rfl, rfl⟩ := h1
  rw [loadcav_open hs h3] at h ⊢
  refine ⟨_, if_pos rfl, ?_, fun q hq1 hq2 => ?_⟩
  · rw [(storeIn_eq force g d x F).2.1 h, if_pos rfl]
  · rw [(storeIn_eq force g d x F).2.1 h, if_neg (target_not_prefix _ _ _ hq2), if_neg, if_pos ⟨hq1, hq2⟩]
    rintro ⟨-, -, h5⟩
    have h6 := h5.length_le
    have h7 := hq2.length_le
    simp at h6
    omega

/-- **C113**, other files: they are never touched. -/
theorem C113_other_files (can : Str → Bool) (force : Bool) (s f g d : Str) (input : Option D) (disk : Str → Disk D)
    (hs : cavArg s = some (f, g, d)) (n : Str) (hn : n ≠ f) : (loadcav can force s input disk).1 n = disk n := by
  cases input with
  | none => simp only [loadcav, hs]
  | some x =>
    by_cases h : ∃ F, Openable can disk f F
    · obtain ⟨F, hF⟩ := h
      rw [loadcav_open hs hF]
      exact if_neg hn
    · rw [loadcav_not hs (fun F hF => h ⟨F, hF⟩)]

/-- **C113**, data that cannot be read: nothing is created or changed. -/
theorem C113_no_input (can : Str → Bool) (force : Bool) (s : Str) (disk : Str → Disk D) :
    loadcav can force s none disk = (disk, false) := by
  unfold loadcav
  split
  · rename_i h; cases h
  · rfl

/-- **C113**, without `--force`: every object that is in an HDF5 file stays as it is, whether the script succeeds or not. -/
theorem C113_keeps (can : Str → Bool) (s : Str) (input : Option D) (disk : Str → Disk D) (n : Str) (F : H5F D) (hn : disk n = .h5 F)
    (q : List Str) (o : Obj D) (hq : F q = some o) :
    ∃ F', (loadcav can false s input disk).1 n = .h5 F' ∧ (q ≠ [] → F' q = some o) := by
  cases hs : cavArg s with
  | none => exact ⟨F, by simp only [loadcav, hs, hn], fun _ => hq⟩
  | some t =>
    obtain ⟨f, g, d⟩ := t
    by_cases hnf : n = f
    · subst hnf
      cases input with
      | none => exact ⟨F, by simp only [loadcav, hs, hn], fun _ => hq⟩
      | some x =>
        rw [loadcav_open hs (.old hn)]
        refine ⟨_, if_pos rfl, fun hq0 => ?_⟩
        obtain ⟨h1, h2, h3⟩ := storeIn_eq false g d x F
        cases hb : (storeIn false g d x F).2 with
        | false =>
          rcases h3 hb q with h | ⟨hbl, h4, h5, h6⟩
          · rw [h, hq]
          · rw [h6]
            cases o with
            | group => rfl
            | data y => exact absurd ⟨q, y, h4, h5, hq⟩ hbl
        | true =>
          obtain ⟨hbl, -, -, hnone⟩ := h1.mp hb
          simp only [Bool.false_eq_true, false_or] at hnone
          rw [h2 hb, if_neg (fun e => by rw [e, hnone] at hq; cases hq), if_neg (by simp)]
          split
          · rename_i h
            cases o with
            | group => rfl
            | data y => exact absurd ⟨q, y, h.1, h.2, hq⟩ hbl
          · exact hq
    · rw [C113_other_files can false s f g d input disk hs n hnf]
      exact ⟨F, hn, fun _ => hq⟩

/-- **C113**, with `--force`: if the name given is that of a data set, or of nothing, every other object stays as it is.  (Below a data set there is nothing.)
Missing: the name of a group, see `C113_force_false`. -/
theorem C113_force_partial (can : Str → Bool) (s f g d : Str) (input : Option D) (disk : Str → Disk D) (hs : cavArg s = some (f, g, d))
    (F : H5F D) (hn : disk f = .h5 F) (hleaf : ∀ q, comps g ++ [d] <+: q → q ≠ comps g ++ [d] → F q = none)
    (q : List Str) (o : Obj D) (hq0 : q ≠ []) (hqd : q ≠ comps g ++ [d]) (hq : F q = some o) :
    ∃ F', (loadcav can true s input disk).1 f = .h5 F' ∧ F' q = some o := by
  cases input with
  | none => exact ⟨F, by simp only [loadcav, hs, hn], hq⟩
  | some x =>
    rw [loadcav_open hs (.old hn)]
    refine ⟨_, if_pos rfl, ?_⟩
    obtain ⟨h1, h2, h3⟩ := storeIn_eq true g d x F
    have hg : ¬ Blocked F (comps g) → q <+: comps g → o = .group := by
      intro hb hp
      cases o with
      | group => rfl
      | data y => exact absurd ⟨q, y, hq0, hp, hq⟩ hb
    cases hb : (storeIn true g d x F).2 with
    | false =>
      rcases h3 hb q with h | ⟨hbl, h4, h5, h6⟩
      · rw [h, hq]
      · rw [h6, hg hbl h5]
    | true =>
      rw [h2 hb, if_neg hqd, if_neg]
      · split
        · rename_i h
          rw [hg (h1.mp hb).1 h.2]
        · exact hq
      · rintro ⟨-, -, hp⟩
        rw [hleaf q hp hqd] at hq
        cases hq

/-- C113 is false for `--force`, documented as "Overwrite existing dataset": with the name of a group it succeeds, and all data sets in the group are lost. -/
theorem C113_force_false (can : Str → Bool) (s f g d : Str) (x : D) (disk : Str → Disk D) (hs : cavArg s = some (f, g, d))
    (F : H5F D) (hn : disk f = .h5 F) (hb : ¬ Blocked F (comps g)) (hd : d ≠ [] ∧ d ≠ ['.']) (hgroup : F (comps g ++ [d]) = some .group) :
    (loadcav can true s (some x) disk).2 = true ∧
    ∃ F', (loadcav can true s (some x) disk).1 f = .h5 F' ∧ ∀ q, q ≠ [] → F' (comps g ++ [d] ++ q) = none := by
  rw [loadcav_open hs (.old hn)]
  obtain ⟨h1, h2, -⟩ := storeIn_eq true g d x F
  have hb := h1.mpr ⟨hb, hd.1, hd.2, Or.inl rfl⟩
  refine ⟨hb, _, if_pos rfl, fun q hq => ?_⟩
  rw [h2 hb, if_neg (fun e => hq (by simpa using e)), if_pos ⟨rfl, by simp [hgroup], List.prefix_append _ _⟩]

/-- **C113**, the way back: what has been stored under `file/group/dataset` is what `H5Loader` finds when it opens `file/group` and loads `dataset`, if
`file` is a file that can be opened, so that nothing is below it on the disk. -/
theorem C113_loader (can : Str → Bool) (force : Bool) (f g d : Str) (x : D) (disk : Str → Disk D) (hf : '/' ∉ f) (hd : '/' ∉ d)
    (h : (loadcav can force (f ++ '/' :: (g ++ '/' :: d)) (some x) disk).2 = true)
    (canOpen : Str → Bool) (h1 : canOpen f = true) (h2 : ∀ b, canOpen (f ++ '/' :: b) = false) (n : Nat) (hn : f.length + 1 + g.length < n) :
    ∃ F, (loadcav can force (f ++ '/' :: (g ++ '/' :: d)) (some x) disk).1 f = .h5 F ∧
      openSpec canOpen (f ++ '/' :: g) n = .file f (some f.length) ∧
      F (comps (loaderGroup (f ++ '/' :: g) (some f.length)) ++ [d]) = some (.data x) := by
  obtain ⟨F, hF, hx, -⟩ := C113_stored can force _ f g d x disk (C113_argument f g d hf hd).2 h
  refine ⟨F, hF, ?_⟩
  obtain ⟨a, b, hr, ho, -, hl, -⟩ := C48_rightmost canOpen (f ++ '/' :: g) n (by simp; omega) ⟨f, g, rfl, h1⟩
  have hab : a = f := by
    obtain ⟨hc, hca, hmax⟩ := hr
    have hc' : f ++ '/' :: g = a ++ '/' :: b := hc
    rw [List.append_eq_append_iff] at hc'
    rcases hc' with ⟨c, rfl, hc'⟩ | ⟨c, rfl, hc'⟩
    · cases c with
      | nil => simp
      | cons y c =>
        simp only [List.cons_append, List.cons.injEq] at hc'
        rw [← hc'.1, h2] at hca
        simp at hca
    · cases c with
      | nil => simp
      | cons y c =>
        exfalso
        simp only [List.cons_append, List.cons.injEq] at hc'
        exact hf (by simp [← hc'.1])
  subst hab
  refine ⟨ho, ?_⟩
  have : loaderGroup (a ++ '/' :: g) (some a.length) = g := by simp [loaderGroup]
  rw [this]
  exact hx

/-! ## Examples -/

/-- A disk with one file that has two data sets in a group. -/
def exDisk : Str → Disk Nat := fun n =>
  if n = "data.h5".toList then
    .h5 (fun q => if q = ["cav".toList] then some .group else if q = ["cav".toList, "a".toList] then some (.data 1)
      else if q = ["cav".toList, "b".toList] then some (.data 2) else none)
  else .absent

/-- Example: a third data set in a new group below. -/
example : (loadcav (fun _ => true) false "data.h5/cav/foo/c".toList (some 3) exDisk).2 = true ∧
    (match (loadcav (fun _ => true) false "data.h5/cav/foo/c".toList (some 3) exDisk).1 "data.h5".toList with
      | .h5 F => decide (F ["cav".toList, "foo".toList, "c".toList] = some (.data 3) ∧ F ["cav".toList, "a".toList] = some (.data 1))
      | _ => false) = true := by decide +kernel

/-- Example: what has been stored there is found again through `data.h5/cav/foo`. -/
example : ∃ F, (loadcav (fun _ => true) false "data.h5/cav/foo/c".toList (some 3) exDisk).1 "data.h5".toList = .h5 F ∧
    openSpec (· == "data.h5".toList) "data.h5/cav/foo".toList 16 = .file "data.h5".toList (some 7) ∧
    F (comps (loaderGroup "data.h5/cav/foo".toList (some 7)) ++ ["c".toList]) = some (.data 3) :=
  C113_loader (fun _ => true) false "data.h5".toList "cav/foo".toList "c".toList 3 exDisk (by decide) (by decide) (by decide +kernel)
    (· == "data.h5".toList) (by decide) (fun b => by
      rw [beq_eq_false_iff_ne]
      intro e
      have := congrArg List.length e
      simp at this) 16 (by decide)

/-- Example: a data set that exists is replaced with `--force` only. -/
example : (loadcav (fun _ => true) false "data.h5/cav/a".toList (some 3) exDisk).2 = false ∧
    (loadcav (fun _ => true) true "data.h5/cav/a".toList (some 3) exDisk).2 = true := by decide +kernel

/-- Example: with `--force` and the name of the group both of its data sets are lost. -/
example : (match (loadcav (fun _ => true) true "data.h5/cav".toList (some 3) exDisk).1 "data.h5".toList with
    | .h5 F => decide (F ["cav".toList] = some (.data 3) ∧ F ["cav".toList, "a".toList] = none ∧ F ["cav".toList, "b".toList] = none)
    | _ => false) = true := by decide +kernel

end Flame.Tools
