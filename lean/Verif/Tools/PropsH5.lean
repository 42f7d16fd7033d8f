import Verif.Tools.H5Spec
import Mathlib.Tactic.Common

/-!
# C48: opening a file and group specification
-/

namespace Flame.Tools

/-- `s` is `a/b`. -/
def Cut (s a b : Str) : Prop := s = a ++ '/' :: b

/-- `a` is the longest text before a `/` that can be opened. -/
def Rightmost (canOpen : Str → Bool) (s a b : Str) : Prop :=
  Cut s a b ∧ canOpen a = true ∧ ∀ a' b', Cut s a' b' → a.length < a'.length → canOpen a' = false

/-! ### Lemmas -/

theorem cut_iff {s a b : Str} : Cut s a b ↔ s[a.length]? = some '/' ∧ a = s.take a.length ∧ b = s.drop (a.length + 1) := by
  unfold Cut
  constructor
  · rintro rfl
    simp
  · rintro ⟨h1, h2, h3⟩
    obtain ⟨hlt, hget⟩ := List.getElem?_eq_some_iff.1 h1
    conv_lhs => rw [← List.take_append_drop a.length s, List.drop_eq_getElem_cons hlt, hget, ← h2, ← h3]

theorem cut_at {s : Str} {k : Nat} (h : s[k]? = some '/') : Cut s (s.take k) (s.drop (k + 1)) := by
  obtain ⟨hlt, hget⟩ := List.getElem?_eq_some_iff.1 h
  rw [cut_iff]
  have : (s.take k).length = k := by rw [List.length_take]; omega
  rw [this]
  exact ⟨h, rfl, rfl⟩

/-- Slashes below a bound. -/
def Below (s : Str) (B : Nat) (o : Option Nat) : Prop :=
  match o with
  | none => ∀ j, s[j]? = some '/' → B ≤ j
  | some j => s[j]? = some '/' ∧ j < B ∧ ∀ j', s[j']? = some '/' → j' < B → j' ≤ j

theorem getLast?_filter_range (n : Nat) (p : Nat → Bool) :
    match ((List.range n).filter p).getLast? with
    | none => ∀ j, j < n → p j = false
    | some j => j < n ∧ p j = true ∧ ∀ j', j' < n → p j' = true → j' ≤ j := by
  induction n with
  | zero => simp
  | succ n ih =>
    rw [List.range_succ, List.filter_append]
    by_cases hp : p n = true
    · rw [List.filter_cons_of_pos hp, List.filter_nil, List.getLast?_concat]
      exact ⟨Nat.lt_succ_self n, hp, fun j' h _ => Nat.lt_succ_iff.1 h⟩
    · rw [List.filter_cons_of_neg hp, List.filter_nil, List.append_nil]
      have hp' : p n = false := by simpa using hp
      split at ih
      · rename_i h
        intro j hj
        rcases Nat.lt_succ_iff_lt_or_eq.1 hj with h1 | rfl
        · exact ih j h1
        · exact hp'
      · rename_i j h
        refine ⟨Nat.lt_succ_of_lt ih.1, ih.2.1, ?_⟩
        intro j' hj' hpj
        rcases Nat.lt_succ_iff_lt_or_eq.1 hj' with h1 | rfl
        · exact ih.2.2 j' h1 hpj
        · rw [hp'] at hpj; cases hpj

theorem lt_of_slash {s : Str} {j : Nat} (h : s[j]? = some '/') : j < s.length := by
  obtain ⟨hlt, _⟩ := List.getElem?_eq_some_iff.1 h
  exact hlt

theorem lastSlash_none_below (s : Str) : Below s s.length (lastSlash s none) := by
  have := getLast?_filter_range s.length (fun i => s[i]? == some '/' && true)
  unfold lastSlash Below
  simp only [Bool.and_true, beq_iff_eq] at this ⊢
  split at this
  · rename_i h
    intro j hj
    have h1 := this j (lt_of_slash hj)
    rw [hj] at h1
    simp at h1
  · rename_i j h
    exact ⟨this.2.1, this.1, fun j' h1 h2 => this.2.2 j' h2 h1⟩

theorem lastSlash_some_below (s : Str) (k : Nat) : Below s (k + 1) (lastSlash s (some k)) := by
  have := getLast?_filter_range s.length (fun i => s[i]? == some '/' && decide (i ≤ k))
  unfold lastSlash Below
  simp only [Bool.and_eq_true, beq_iff_eq, decide_eq_true_eq] at this ⊢
  split at this
  · rename_i h
    intro j hj
    have h1 := this j (lt_of_slash hj)
    rw [hj] at h1
    simp at h1
    omega
  · rename_i j h
    exact ⟨this.2.1.1, by omega, fun j' h1 h2 => this.2.2 j' (lt_of_slash h1) ⟨h1, by omega⟩⟩

theorem nextSep_below (s : Str) (k : Nat) (hk : 0 < k) : Below s k (nextSep s (some k)) := by
  obtain ⟨k, rfl⟩ : ∃ m, k = m + 1 := ⟨k - 1, by omega⟩
  exact lastSlash_some_below s k

/-- If some cut below the bound can be opened the loop finds the rightmost one. -/
theorem open_below (canOpen : Str → Bool) (s : Str) : ∀ (B n : Nat) (sep : Option Nat), B < n → Below s B (nextSep s sep) →
    ∀ j0, s[j0]? = some '/' → j0 < B → canOpen (s.take j0) = true →
    ∃ j, s[j]? = some '/' ∧ j < B ∧ canOpen (s.take j) = true ∧
      (∀ j', s[j']? = some '/' → j < j' → j' < B → canOpen (s.take j') = false) ∧
      openN canOpen s n sep = .file (s.take j) (some j) := by
  intro B
  induction B using Nat.strongRecOn with
  | _ B ih =>
    intro n sep hn hB j0 h1 h2 h3
    obtain ⟨n, rfl⟩ : ∃ m, n = m + 1 := ⟨n - 1, by omega⟩
    unfold openN
    cases hsep : nextSep s sep with
    | none =>
      rw [hsep] at hB
      have := hB j0 h1
      omega
    | some j =>
      rw [hsep] at hB
      obtain ⟨g1, g2, g3⟩ := hB
      by_cases hc : canOpen (s.take j) = true
      · refine ⟨j, g1, g2, hc, ?_, ?_⟩
        · intro j' k1 k2 k3
          have := g3 j' k1 k3
          omega
        · exact if_pos hc
      · have hj0 : j0 < j := by
          rcases Nat.lt_or_ge j0 j with h | h
          · exact h
          · have := g3 j0 h1 h2
            have : j0 = j := by omega
            rw [this] at h3
            exact absurd h3 hc
        obtain ⟨j2, k1, k2, k3, k4, k5⟩ := ih j g2 n (some j) (by omega) (nextSep_below s j (by omega)) j0 h1 hj0 h3
        refine ⟨j2, k1, by omega, k3, ?_, ?_⟩
        · intro j' l1 l2 l3
          rcases Nat.lt_trichotomy j' j with h | h | h
          · exact k4 j' l1 l2 h
          · rw [h]; simpa using hc
          · have := g3 j' l1 l3; omega
        · rw [if_neg (show ¬ canOpen (fileName s (some j)) = true from hc)]
          exact k5

/-- If no cut below the bound can be opened and the text does not start with a slash, the whole text is tried last. -/
theorem open_whole (canOpen : Str → Bool) (s : Str) (hs : s[0]? ≠ some '/') : ∀ (B n : Nat) (sep : Option Nat), B < n →
    Below s B (nextSep s sep) → (∀ j, s[j]? = some '/' → j < B → canOpen (s.take j) = false) →
    openN canOpen s n sep = if canOpen s then .file s none else .failed := by
  intro B
  induction B using Nat.strongRecOn with
  | _ B ih =>
    intro n sep hn hB hno
    obtain ⟨n, rfl⟩ : ∃ m, n = m + 1 := ⟨n - 1, by omega⟩
    unfold openN
    cases hsep : nextSep s sep with
    | none => rfl
    | some j =>
      rw [hsep] at hB
      obtain ⟨g1, g2, g3⟩ := hB
      rw [if_neg (show ¬ canOpen (fileName s (some j)) = true by
        rw [show canOpen (fileName s (some j)) = false from hno j g1 g2]; decide)]
      have hj : 0 < j := by
        rcases Nat.eq_zero_or_pos j with rfl | h
        · exact absurd g1 hs
        · exact h
      exact ih j g2 n (some j) (by omega) (nextSep_below s j hj) (fun j' k1 k2 => hno j' k1 (by omega))

/-! ### C48 -/

/-- **C48.** If a part of the specification before some `/` is a file that can be opened, the loop ends within as many
rounds as the specification has characters (and one more), with the longest such part, and the rest after that `/` is the
group. -/
theorem C48_rightmost (canOpen : Str → Bool) (s : Str) (n : Nat) (hn : s.length < n)
    (h : ∃ a b, Cut s a b ∧ canOpen a = true) :
    ∃ a b, Rightmost canOpen s a b ∧ openSpec canOpen s n = .file a (some a.length) ∧
      writerGroup s (some a.length) = some b ∧ loaderGroup s (some a.length) = b ∧
      h5fileGroup s (some a.length) = some ('/' :: b) := by
  obtain ⟨a0, b0, h1, h2⟩ := h
  obtain ⟨g1, g2, g3⟩ := cut_iff.1 h1
  rw [g2] at h2
  obtain ⟨j, k1, k2, k3, k4, k5⟩ := open_below canOpen s s.length n none hn (lastSlash_none_below s) a0.length g1
    (lt_of_slash g1) h2
  have hlen : (s.take j).length = j := by rw [List.length_take]; omega
  have hcut := cut_at k1
  refine ⟨s.take j, s.drop (j + 1), ⟨hcut, k3, ?_⟩, ?_, ?_, ?_, ?_⟩
  · intro a' b' hc hl
    obtain ⟨m1, m2, m3⟩ := cut_iff.1 hc
    rw [hlen] at hl
    rw [m2]
    exact k4 _ m1 hl (lt_of_slash m1)
  · rw [hlen]; exact k5
  · rw [hlen]; rfl
  · rw [hlen]; rfl
  · rw [hlen]
    simp only [h5fileGroup]
    obtain ⟨hlt, hget⟩ := List.getElem?_eq_some_iff.1 k1
    rw [List.drop_eq_getElem_cons hlt, hget]

example : ∃ a b, Cut "/data/run.h5/grp/sub".toList a b ∧ (· == "/data/run.h5".toList) a = true :=
  ⟨"/data/run.h5".toList, "grp/sub".toList, rfl, rfl⟩

/-- **C48**, for specifications that do not start with `/`: if no part before a `/` can be opened, the whole text is tried
last, and the loop ends in any case.  Missing: specifications that start with `/`, see `C48_false`. -/
theorem C48_whole_partial (canOpen : Str → Bool) (s : Str) (n : Nat) (hn : s.length < n) (hs : s.head? ≠ some '/')
    (h : ∀ a b, Cut s a b → canOpen a = false) :
    openSpec canOpen s n = if canOpen s then .file s none else .failed := by
  refine open_whole canOpen s ?_ s.length n none hn (lastSlash_none_below s) ?_
  · cases s with
    | nil => simp
    | cons c r => simpa using hs
  · intro j h1 _
    exact h _ _ (cut_at h1)

example : "dir/run.h5".toList.head? ≠ some '/' ∧
    openSpec (· == "dir/run.h5".toList) "dir/run.h5".toList 11 = .file "dir/run.h5".toList none ∧
    openSpec (fun _ => false) "dir/run.h5".toList 11 = .failed := by decide

/-- **C48 is false** for specifications that start with `/`: if no part before a `/` can be opened, the loop never ends,
even if the whole specification is a file that can be opened. -/
theorem C48_false (canOpen : Str → Bool) (s : Str) (hs : s.head? = some '/') (h : ∀ a b, Cut s a b → canOpen a = false) :
    ∀ n, openSpec canOpen s n = .running := by
  have h0 : s[0]? = some '/' := by
    cases s with
    | nil => simp at hs
    | cons c r => simpa using hs
  have hsep : ∀ sep, ∃ j, nextSep s sep = some j ∧ s[j]? = some '/' := by
    intro sep
    have key : ∀ B, 0 < B → ∀ o, Below s B o → ∃ j, o = some j ∧ s[j]? = some '/' := by
      intro B hB o ho
      cases o with
      | none => have := ho 0 h0; omega
      | some j => exact ⟨j, rfl, ho.1⟩
    have hlen := lt_of_slash h0
    match sep with
    | none => exact key _ hlen _ (lastSlash_none_below s)
    | some 0 => exact key _ hlen _ (lastSlash_none_below s)
    | some (k + 1) => exact key (k + 1) (by omega) _ (lastSlash_some_below s k)
  have : ∀ n sep, openN canOpen s n sep = .running := by
    intro n
    induction n with
    | zero => intro sep; rfl
    | succ n ih =>
      intro sep
      obtain ⟨j, h1, h2⟩ := hsep sep
      unfold openN
      rw [h1]
      rw [if_neg (show ¬ canOpen (fileName s (some j)) = true by
        rw [show canOpen (fileName s (some j)) = false from h _ _ (cut_at h2)]; decide)]
      exact ih _
  intro n
  exact this n none

/-- Example for `C48_false`: `/data/run.h5` exists, opening it never ends. -/
example : "/data/run.h5".toList.head? = some '/' ∧
    (∀ a b, Cut "/data/run.h5".toList a b → (· == "/data/run.h5".toList) a = false) ∧
    (· == "/data/run.h5".toList) "/data/run.h5".toList = true := by
  refine ⟨by decide, ?_, by decide⟩
  intro a b hc
  have hl : a.length < "/data/run.h5".toList.length := by
    rw [show "/data/run.h5".toList = a ++ '/' :: b from hc]
    simp
  cases hb : (fun x => x == "/data/run.h5".toList) a with
  | false => rfl
  | true =>
    have : a = "/data/run.h5".toList := by simpa using hb
    rw [this] at hl
    exact absurd hl (Nat.lt_irrefl _)

/-- **C48 is false** for files without group: `H5Loader` then asks for a group named like the whole specification, and
`h5file` fails with an exception although the file exists; only the writer uses the root group. -/
theorem C48_no_group_false (canOpen : Str → Bool) (s : Str) (hs : '/' ∉ s) (ho : canOpen s = true) :
    openSpec canOpen s 1 = .file s none ∧ loaderGroup s none = s ∧ h5fileGroup s none = none ∧ writerGroup s none = none := by
  refine ⟨?_, rfl, rfl, rfl⟩
  have hn : nextSep s none = none := by
    have := lastSlash_none_below s
    unfold nextSep
    cases h : lastSlash s none with
    | none => rfl
    | some j =>
      rw [h] at this
      exact absurd (List.mem_of_getElem? this.1) hs
  unfold openSpec openN
  rw [hn]
  exact if_pos ho

example : '/' ∉ "run.h5".toList ∧ (· == "run.h5".toList) "run.h5".toList = true := by decide

end Flame.Tools
