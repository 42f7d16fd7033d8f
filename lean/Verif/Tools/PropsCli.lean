import Verif.Tools.Cli
import Verif.Glps.PropsEval
import Mathlib.Data.List.Forall2
import Mathlib.Tactic.Common

/-!
# C49, C55: command line arguments
-/

namespace Flame.Tools

/-- The text consists of these parts, separated by commas. -/
inductive Joined : List Str → Str → Prop
  | one {p : Str} (h : ',' ∉ p) : Joined [p] p
  | more {p : Str} {ps : List Str} {s : Str} (h : ',' ∉ p) (t : Joined ps s) : Joined (p :: ps) (p ++ ',' :: s)

theorem Joined.ne {ps : List Str} {s : Str} (h : Joined ps s) : ps ≠ [] := by cases h <;> simp

theorem joined_exists : ∀ s : Str, ∃ ps, Joined ps s
  | [] => ⟨[[]], .one (by simp)⟩
  | c :: r => by
    obtain ⟨ps, h⟩ := joined_exists r
    by_cases hc : c = ','
    · subst hc
      exact ⟨[] :: ps, Joined.more (p := []) (by simp) h⟩
    · cases h with
      | one hp => exact ⟨[c :: r], .one (by simp [hp]; exact fun h => hc h.symm)⟩
      | @more p ps s hp ht => exact ⟨(c :: p) :: ps, Joined.more (p := c :: p) (by simp [hp]; exact fun h => hc h.symm) ht⟩

theorem tokAux_plain (p : Str) (hp : ',' ∉ p) : ∀ acc, tokAux acc p = [acc.reverse ++ p] := by
  induction p with
  | nil => intro acc; simp [tokAux]
  | cons c r ih =>
    intro acc
    have hc : c ≠ ',' := fun h => hp (by rw [h]; simp)
    rw [tokAux, if_neg hc, ih (fun h => hp (List.mem_cons_of_mem _ h))]
    simp

theorem tokAux_comma (p : Str) (s : Str) (hp : ',' ∉ p) : ∀ acc, tokAux acc (p ++ ',' :: s) =
    if acc.reverse ++ p = [] then tokAux [] s else (acc.reverse ++ p) :: tokAux [] s := by
  induction p with
  | nil =>
    intro acc
    rw [List.nil_append, tokAux, if_pos rfl, List.append_nil]
    cases acc <;> simp
  | cons c r ih =>
    intro acc
    have hc : c ≠ ',' := fun h => hp (by rw [h]; simp)
    rw [List.cons_append, tokAux, if_neg hc, ih (fun h => hp (List.mem_cons_of_mem _ h))]
    simp

/-- **C49** with the exception it needs: `tokenize` returns the parts in order, without the empty ones, except that the
last part is returned even if it is empty. -/
theorem C49_split (s : Str) (ps : List Str) (h : Joined ps s) :
    tokenize s = ps.dropLast.filter (fun p => !p.isEmpty) ++ [ps.getLast h.ne] := by
  unfold tokenize
  induction h with
  | one hp => rw [tokAux_plain _ hp]; simp
  | @more p ps s hp ht ih =>
    have hne := ht.ne
    rw [tokAux_comma _ _ hp, ih, List.dropLast_cons_of_ne_nil hne, List.getLast_cons hne]
    cases p with
    | nil => simp
    | cons c r => simp

/-- **C49**, for arguments whose last part is not empty: the nonempty parts in order.  Without that condition it is
false (`C49_false`). -/
theorem C49_nonempty_partial (s : Str) (ps : List Str) (h : Joined ps s) (hl : ps.getLast h.ne ≠ []) :
    tokenize s = ps.filter (fun p => !p.isEmpty) := by
  rw [C49_split s ps h]
  conv_rhs => rw [← List.dropLast_append_getLast h.ne, List.filter_append]
  congr 1
  rw [List.filter_cons_of_pos]
  · rfl
  · cases hq : ps.getLast h.ne with
    | nil => exact absurd hq hl
    | cons _ _ => rfl

example : ∃ h : Joined ["txt".toList, [], "file=a.txt".toList] "txt,,file=a.txt".toList,
    ["txt".toList, [], "file=a.txt".toList].getLast h.ne ≠ [] :=
  ⟨Joined.more (p := "txt".toList) (by decide) (Joined.more (p := []) (by decide) (Joined.one (by decide))), by decide⟩

/-- **C49 is false** for arguments that are empty or end in a comma: an empty part is returned. -/
theorem C49_false (s : Str) (hs : s = [] ∨ s.getLast? = some ',') : [] ∈ tokenize s := by
  obtain ⟨ps, h⟩ := joined_exists s
  rw [C49_split s ps h]
  have hl : ps.getLast h.ne = [] := by
    revert hs
    induction h with
    | @one p hp =>
      intro hs
      rcases hs with hs | hs
      · simpa using hs
      · exact absurd (List.mem_of_getLast? hs) hp
    | @more p ps s hp ht ih =>
      intro hs
      rw [List.getLast_cons ht.ne]
      apply ih
      rcases hs with hs | hs
      · simp at hs
      · cases hsn : s with
        | nil => exact .inl rfl
        | cons c r =>
          right
          rw [hsn] at hs
          rw [List.getLast?_append] at hs
          simpa using hs
  rw [hl]
  simp

example : ("txt,".toList = [] ∨ "txt,".toList.getLast? = some ',') ∧ tokenize "txt,".toList = ["txt".toList, []] := by decide

/-! ### Definitions -/

theorem takeWhile_stop (p : Str) (c : Char) (r : Str) (h : c ∉ p) :
    (p ++ c :: r).takeWhile (· != c) = p ∧ (p ++ c :: r).dropWhile (· != c) = c :: r := by
  induction p with
  | nil => simp
  | cons d p ih =>
    have hd : d ≠ c := fun h' => h (by rw [h']; simp)
    obtain ⟨h1, h2⟩ := ih (fun h' => h (List.mem_cons_of_mem _ h'))
    have hb : (d != c) = true := by simpa using hd
    constructor
    · rw [List.cons_append, List.takeWhile_cons, if_pos hb, h1]
    · rw [List.cons_append, List.dropWhile_cons, if_pos hb, h2]

/-- **C55.** A definition of the documented form sets the name before the first `=`, with the type up to the next `:`
and everything after that as value, which may itself contain these characters. -/
theorem C55_definition {N : Type} (num : Str → Option N) (name value : Str) (hn : name ≠ []) (he : '=' ∉ name) :
    (∀ ty, ty = "double".toList ∨ ty = "D".toList →
      parseDef num (name ++ '=' :: (ty ++ ':' :: value)) =
        match num value with
        | some x => .ok (name, .num x)
        | none => .error .badNumber) ∧
    (∀ ty, ty = "str".toList ∨ ty = "S".toList →
      parseDef num (name ++ '=' :: (ty ++ ':' :: value)) = .ok (name, .str value)) ∧
    (∀ ty, ':' ∉ ty → ty ∉ ["double".toList, "D".toList, "str".toList, "S".toList] →
      parseDef num (name ++ '=' :: (ty ++ ':' :: value)) = .error .badType) := by
  have hne : name.isEmpty = false := by cases name with
    | nil => exact absurd rfl hn
    | cons _ _ => rfl
  have key : ∀ ty, ':' ∉ ty → parseDef num (name ++ '=' :: (ty ++ ':' :: value)) =
      if ty = "double".toList ∨ ty = "D".toList then
        (match num value with
        | none => .error .badNumber
        | some x => .ok (name, .num x))
      else if ty = "str".toList ∨ ty = "S".toList then .ok (name, .str value) else .error .badType := by
    intro ty ht
    obtain ⟨h1, h2⟩ := takeWhile_stop name '=' (ty ++ ':' :: value) he
    obtain ⟨h3, h4⟩ := takeWhile_stop ty ':' value ht
    unfold parseDef
    simp only [h1, h2, h3, h4, hne]
    rfl
  refine ⟨?_, ?_, ?_⟩
  · intro ty ht
    rw [key ty (by rcases ht with rfl | rfl <;> decide), if_pos ht]
    cases num value <;> rfl
  · intro ty ht
    rw [key ty (by rcases ht with rfl | rfl <;> decide),
      if_neg (by rcases ht with rfl | rfl <;> decide), if_pos ht]
  · intro ty ht hm
    simp only [List.mem_cons, List.not_mem_nil, or_false, not_or] at hm
    rw [key ty ht, if_neg (by rintro (h | h); exacts [hm.1 h, hm.2.1 h]),
      if_neg (by rintro (h | h); exacts [hm.2.2.1 h, hm.2.2.2 h])]

example : "x".toList ≠ [] ∧ '=' ∉ "x".toList := by decide

/-- **C55.** Anything else is refused: a definition without `=`, without a `:` after it, or without a name. -/
theorem C55_refused {N : Type} (num : Str → Option N) (d : Str)
    (h : '=' ∉ d ∨ (∃ a b, d = a ++ '=' :: b ∧ '=' ∉ a ∧ ':' ∉ b) ∨ d.head? = some '=') :
    ∃ e, parseDef num d = .error e := by
  unfold parseDef
  split
  · exact ⟨_, rfl⟩
  · rename_i c r hr
    split
    · exact ⟨_, rfl⟩
    · rename_i c' value hv
      rcases h with h | ⟨a, b, rfl, h1, h2⟩ | h
      · have : c ∈ d := List.dropWhile_subset _ (by rw [hr]; simp)
        have hc : c = '=' := by
          have := List.head?_dropWhile_not (· != '=') d
          rw [hr] at this
          simpa using this
        rw [hc] at this
        exact absurd this h
      · obtain ⟨g1, g2⟩ := takeWhile_stop a '=' b h1
        rw [g2] at hr
        injection hr with _ hr
        subst hr
        have : c' ∈ b := List.dropWhile_subset _ (by rw [hv]; simp)
        have hc : c' = ':' := by
          have := List.head?_dropWhile_not (· != ':') b
          rw [hv] at this
          simpa using this
        rw [hc] at this
        exact absurd this h2
      · refine ⟨.noName, ?_⟩
        rw [if_pos]
        cases d with
        | nil => simp at h
        | cons x xs =>
          simp only [List.head?_cons, Option.some.injEq] at h
          subst h
          rfl

example : '=' ∉ "x:1".toList ∧ "=D:1".toList.head? = some '=' := by decide

/-- **C55.** If all definitions are accepted, each name has the value of the last definition for it, and names that are
not defined keep what they had. -/
theorem C55_last {N : Type} (num : Str → Option N) (ds : List Str) (m0 m : SMap Glps.Name (Glps.CV N))
    (hm : SMap.Sorted m0) (h : parseDefs num ds m0 = .ok m) :
    ∃ kvs, List.Forall₂ (fun d kv => parseDef num d = .ok kv) ds kvs ∧
      ∀ n, m.find n =
        match kvs.reverse.find? (fun kv => kv.1 = n) with
        | some kv => some kv.2
        | none => m0.find n := by
  induction ds generalizing m0 with
  | nil =>
    simp only [parseDefs, Except.ok.injEq] at h
    subst h
    exact ⟨[], .nil, fun n => rfl⟩
  | cons d ds ih =>
    simp only [parseDefs] at h
    split at h
    · cases h
    · rename_i n v hd
      obtain ⟨kvs, h1, h2⟩ := ih (Glps.setVar m0 n v) (SMap.sorted_insert m0 n v hm) h
      refine ⟨(n, v) :: kvs, .cons hd h1, ?_⟩
      intro k
      rw [h2 k, List.reverse_cons, List.find?_append]
      cases hf : kvs.reverse.find? (fun kv => kv.1 = k) with
      | some kv => rfl
      | none =>
        rw [Option.none_or]
        unfold Glps.setVar
        rw [SMap.find_insert]
        by_cases hk : k = n
        · subst hk
          simp
        · rw [if_neg hk, List.find?_cons_of_neg (by simpa using fun h => hk h.symm)]
          rfl

example : parseDefs Glps.exNum ["x=D:1".toList, "y=S:a=b:c".toList, "x=double:2".toList] [] =
    .ok [("x".toList, .num (some 2)), ("y".toList, .str "a=b:c".toList)] := rfl

/-- The help text says that definitions are overwritten by those in the lattice file
(/repo/tools/cli.cpp:106).  **That is false**: a file that defines the variable again is refused. -/
theorem C55_overwritten_false :
    ∃ (ds : List Str) (m : SMap Glps.Name (Glps.CV (Option Int))) (text : Str), parseDefs Glps.exNum ds [] = .ok m ∧
      (∃ c, Glps.parseText Glps.exA Glps.exNum [] text false = .ok c) ∧
      ∃ e, Glps.parseText Glps.exA Glps.exNum m text false = .perr e := by
  refine ⟨["x=D:1".toList], [("x".toList, .num (some 1))], "x = 2;".toList, rfl, ?_, ?_⟩
  · have : (match Glps.parseText Glps.exA Glps.exNum [] "x = 2;".toList false with
        | .ok _ => true
        | _ => false) = true := by decide +kernel
    split at this
    · exact ⟨_, by assumption⟩
    · cases this
  · have : (match Glps.parseText Glps.exA Glps.exNum [("x".toList, .num (some 1))] "x = 2;".toList false with
        | .perr _ => true
        | _ => false) = true := by decide +kernel
    split at this
    · exact ⟨_, by assumption⟩
    · cases this

end Flame.Tools
