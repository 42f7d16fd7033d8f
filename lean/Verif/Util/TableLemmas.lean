import Verif.Util.TableSpec
import Mathlib.Tactic.FinCases

/-!
# Reading lines
-/

namespace Flame.Util

variable {N : Type}

theorem digs_all {s : Str} (h : Digs s) : ∀ c ∈ s, isDg c = true := by
  intro c hc
  have := h.2 c hc
  fin_cases this <;> rfl

theorem isDg_mem {c : Char} (h : isDg c = true) : c ∈ ['0', '1', '2', '3', '4', '5', '6', '7', '8', '9'] := by
  unfold isDg at h
  simp only [Bool.and_eq_true, decide_eq_true_eq] at h
  obtain ⟨h1, h2⟩ := h
  have h1' : 48 ≤ c.toNat := h1
  have h2' : c.toNat ≤ 57 := h2
  have hc : c = Char.ofNat c.toNat := by simp
  have : c.toNat = 48 ∨ c.toNat = 49 ∨ c.toNat = 50 ∨ c.toNat = 51 ∨ c.toNat = 52 ∨ c.toNat = 53 ∨
    c.toNat = 54 ∨ c.toNat = 55 ∨ c.toNat = 56 ∨ c.toNat = 57 := by omega
  rcases this with h | h | h | h | h | h | h | h | h | h <;> rw [hc, h] <;> decide

/-- The text after a numeral. -/
def After (s : Str) : Prop := s = [] ∨ ∃ c r, s = c :: r ∧ Space c

theorem after_not {s : Str} (h : After s) {c : Char} {r : Str} (hs : s = c :: r) :
    isDg c = false ∧ c ≠ '.' ∧ c ≠ 'e' ∧ c ≠ 'E' ∧ c ≠ '+' ∧ c ≠ '-' := by
  rcases h with rfl | ⟨d, r', rfl, h⟩
  · cases hs
  · injection hs with h1 _
    subst h1
    rcases h with rfl | rfl | rfl <;> decide

theorem after_take {s : Str} (h : After s) : s.takeWhile isDg = [] ∧ s.dropWhile isDg = s := by
  cases s with
  | nil => exact ⟨rfl, rfl⟩
  | cons c r =>
    have := (after_not h rfl).1
    simp [List.takeWhile_cons, List.dropWhile_cons, this]

theorem take_digs {d s : Str} (hd : ∀ c ∈ d, isDg c = true) (h : After s) :
    (d ++ s).takeWhile isDg = d ∧ (d ++ s).dropWhile isDg = s := by
  induction d with
  | nil => exact after_take h
  | cons c r ih =>
    have := ih (fun x hx => hd x (List.mem_cons_of_mem _ hx))
    have hc := hd c (List.mem_cons_self ..)
    simp only [List.cons_append, List.takeWhile_cons, List.dropWhile_cons, hc, if_true, this, and_self]

theorem accMant_after {s : Str} (h : After s) (dec found : Bool) : accMant dec found s = ([], s) := by
  cases s with
  | nil => rfl
  | cons c r =>
    obtain ⟨h1, h2, h3, h4, _⟩ := after_not h rfl
    unfold accMant
    rw [if_neg (by simp [h1]), if_neg (fun h => h2 h.1), if_neg (by rintro ⟨h | h, _⟩ <;> contradiction)]

/-- Exponent part. -/
def Expo (e : Str) : Prop := e = [] ∨ ∃ l t d, e = l :: (t ++ d) ∧ (l = 'e' ∨ l = 'E') ∧ OptSign t ∧ Digs d

theorem accMant_expo {e s : Str} (he : Expo e) (h : After s) (dec : Bool) : accMant dec true (e ++ s) = (e, s) := by
  rcases he with rfl | ⟨l, t, d, rfl, hl, ht, hd⟩
  · exact accMant_after h dec true
  · have hdg : isDg l = false := by rcases hl with rfl | rfl <;> rfl
    have hdot : l ≠ '.' := by rcases hl with rfl | rfl <;> decide
    have hd' := digs_all hd
    obtain ⟨k1, k2⟩ := take_digs hd' h
    obtain ⟨d0, dr, rfl⟩ : ∃ x r, d = x :: r := by
      cases d with
      | nil => exact absurd rfl hd.1
      | cons x r => exact ⟨x, r, rfl⟩
    have hns : ¬ (d0 = '+' ∨ d0 = '-') := by
      have := hd' d0 (List.mem_cons_self ..)
      rintro (rfl | rfl) <;> revert this <;> decide
    have hexp : accExp (t ++ (d0 :: dr ++ s)) = (t ++ d0 :: dr, s) := by
      rcases ht with rfl | rfl | rfl
      · rw [List.cons_append] at k1 k2
        simp only [List.nil_append, List.cons_append, accExp]
        rw [if_neg hns, k1, k2]
      · simp only [List.nil_append, List.cons_append, accExp]
        rw [List.cons_append] at k1 k2
        rw [if_pos (by simp), k1, k2]
      · simp only [List.nil_append, List.cons_append, accExp]
        rw [List.cons_append] at k1 k2
        rw [if_pos (by simp), k1, k2]
    rw [List.cons_append, List.append_assoc, accMant, if_neg (by simp [hdg]), if_neg (fun h => hdot h.1),
      if_pos ⟨hl, rfl⟩, hexp]

theorem accMant_digs (d : Str) (hd : ∀ c ∈ d, isDg c = true) (dec found : Bool) (s : Str) :
    accMant dec found (d ++ s) =
      (d ++ (accMant dec (found || !d.isEmpty) s).1, (accMant dec (found || !d.isEmpty) s).2) := by
  induction d generalizing found with
  | nil => simp
  | cons c r ih =>
    rw [List.cons_append, accMant, if_pos (hd c (List.mem_cons_self ..)),
      ih (fun x hx => hd x (List.mem_cons_of_mem _ hx))]
    simp

/-- Part of a numeral after the sign. -/
theorem accMant_numeral {a b e s : Str} (he : Expo e) (h : After s)
    (hab : (Digs a ∧ (b = [] ∨ ∃ d, b = '.' :: d ∧ (d = [] ∨ Digs d))) ∨ (a = [] ∧ ∃ d, b = '.' :: d ∧ Digs d)) :
    accMant false false (a ++ (b ++ (e ++ s))) = (a ++ (b ++ e), s) := by
  have hdot : ∀ d found, (d = [] ∨ Digs d) → (found || !d.isEmpty) = true →
      accMant false found ('.' :: (d ++ (e ++ s))) = ('.' :: (d ++ e), s) := by
    intro d found hd hf
    rw [accMant, if_neg (by decide), if_pos ⟨rfl, rfl⟩]
    have hd' : ∀ c ∈ d, isDg c = true := by
      rcases hd with rfl | hd
      · simp
      · exact digs_all hd
    rw [accMant_digs d hd', hf, accMant_expo he h]
  rcases hab with ⟨ha, hb⟩ | ⟨rfl, d, rfl, hd⟩
  · rw [accMant_digs a (digs_all ha)]
    have hne : (false || !a.isEmpty) = true := by
      cases a with
      | nil => exact absurd rfl ha.1
      | cons => rfl
    rw [hne]
    rcases hb with rfl | ⟨d, rfl, hd⟩
    · rw [List.nil_append, accMant_expo he h, List.nil_append]
    · rw [List.cons_append, hdot d true hd rfl, List.cons_append]
  · rw [List.nil_append, List.cons_append, hdot d false (.inr hd) ?_]
    · rfl
    · cases d with
      | nil => exact absurd rfl hd.1
      | cons => rfl

theorem numeral_head {w : Str} (h : Numeral w) : ∃ c r, w = c :: r ∧ isSp c = false := by
  obtain ⟨s, a, b, e, rfl, hs, hab, _⟩ := h
  have hdig : ∀ c, isDg c = true → isSp c = false := by
    intro c hc
    have := isDg_mem hc
    fin_cases this <;> rfl
  rcases hs with rfl | rfl | rfl
  · rcases hab with ⟨ha, _⟩ | ⟨rfl, d, rfl, _⟩
    · cases a with
      | nil => exact absurd rfl ha.1
      | cons c r => exact ⟨c, _, rfl, hdig c (digs_all ha c (List.mem_cons_self ..))⟩
    · exact ⟨'.', _, rfl, rfl⟩
  · exact ⟨'+', _, rfl, rfl⟩
  · exact ⟨'-', _, rfl, rfl⟩

theorem accum_numeral {w s : Str} (hw : Numeral w) (h : After s) : accum (w ++ s) = (w, s) := by
  obtain ⟨sg, a, b, e, rfl, hs, hab, he⟩ := hw
  have hm := accMant_numeral (e := e) (s := s) he h hab
  rcases hs with rfl | rfl | rfl
  · simp only [List.nil_append, List.append_assoc]
    have : ∀ c r, a ++ (b ++ (e ++ s)) = c :: r → ¬ (c = '+' ∨ c = '-') := by
      intro c r hcr
      have hdig : ∀ c, isDg c = true → ¬ (c = '+' ∨ c = '-') := by
        intro c hc
        rintro (rfl | rfl) <;> revert hc <;> decide
      rcases hab with ⟨ha, _⟩ | ⟨rfl, d, rfl, _⟩
      · cases a with
        | nil => exact absurd rfl ha.1
        | cons x y =>
          injection hcr with h1 _
          subst h1
          exact hdig x (digs_all ha x (List.mem_cons_self ..))
      · injection hcr with h1 _
        subst h1
        decide
    cases hl : a ++ (b ++ (e ++ s)) with
    | nil =>
      rw [hl] at hm
      unfold accum
      simp only [accMant] at hm
      exact hm
    | cons c r =>
      unfold accum
      simp only
      rw [if_neg (this c r hl), ← hl, hm]
  · simp only [List.cons_append, List.nil_append, List.append_assoc]
    unfold accum
    simp only
    rw [if_pos (by simp), hm]
  · simp only [List.cons_append, List.nil_append, List.append_assoc]
    unfold accum
    simp only
    rw [if_pos (by simp), hm]

theorem space_isSp {c : Char} (h : Space c) : isSp c = true := by
  rcases h with rfl | rfl | rfl <;> rfl

theorem drop_space {g s : Str} (hg : ∀ c ∈ g, Space c) : (g ++ s).dropWhile isSp = s.dropWhile isSp := by
  induction g with
  | nil => rfl
  | cons c r ih =>
    rw [List.cons_append, List.dropWhile_cons, if_pos (space_isSp (hg c (List.mem_cons_self ..)))]
    exact ih (fun x hx => hg x (List.mem_cons_of_mem _ hx))

theorem drop_numeral {w s : Str} (hw : Numeral w) : (w ++ s).dropWhile isSp = w ++ s := by
  obtain ⟨c, r, rfl, hc⟩ := numeral_head hw
  rw [List.cons_append, List.dropWhile_cons, if_neg (by simp [hc])]

theorem numeral_ne {w : Str} (hw : Numeral w) : w.isEmpty = false := by
  obtain ⟨c, r, rfl, _⟩ := numeral_head hw
  rfl

/-- A data line gives its numbers. -/
theorem rowN_entries {num : Str → Option N} {s : Str} {xs : List N} (h : Entries num s xs) :
    ∀ n, s.length < n → rowN num n s = some xs := by
  induction h with
  | @none s h =>
    intro n hn
    obtain ⟨m, rfl⟩ : ∃ m, n = m + 1 := ⟨n - 1, by omega⟩
    have : s.dropWhile isSp = [] := by
      have := drop_space (s := []) h
      simpa using this
    simp [rowN, this]
  | @last g w x hg hw hx =>
    intro n hn
    obtain ⟨m, rfl⟩ : ∃ m, n = m + 1 := ⟨n - 1, by omega⟩
    have hd : (g ++ w).dropWhile isSp = w := by
      have := drop_numeral (s := []) hw
      rw [drop_space hg]
      simpa using this
    have ha : accum w = (w, []) := by
      have := accum_numeral (s := []) hw (.inl rfl)
      simpa using this
    unfold rowN
    simp only [hd, numeral_ne hw, ha, hx, Bool.false_eq_true, if_false, List.isEmpty_nil, if_true]
  | @cons g w c s x xs hg hw hx hc h ih =>
    intro n hn
    obtain ⟨m, rfl⟩ : ∃ m, n = m + 1 := ⟨n - 1, by omega⟩
    have hd : (g ++ (w ++ c :: s)).dropWhile isSp = w ++ c :: s := by
      rw [drop_space hg, drop_numeral hw]
    have ha : accum (w ++ c :: s) = (w, c :: s) := accum_numeral hw (.inr ⟨c, s, rfl, hc⟩)
    have hne : (w ++ c :: s).isEmpty = false := by cases w <;> rfl
    have hwl : 0 < w.length := by
      obtain ⟨c, r, rfl, _⟩ := numeral_head hw
      simp
    have hl : s.length < m - 1 := by
      simp only [List.length_append, List.length_cons] at hn
      omega
    have hrec : rowN num m (c :: s) = some xs := by
      have h1 := ih m (by omega)
      obtain ⟨k, rfl⟩ : ∃ k, m = k + 1 := ⟨m - 1, by omega⟩
      have hcs : (c :: s).dropWhile isSp = s.dropWhile isSp := by
        rw [List.dropWhile_cons, if_pos (space_isSp hc)]
      unfold rowN at h1 ⊢
      rw [hcs]
      exact h1
    unfold rowN
    simp only [hd, hne, numeral_ne hw, ha, hx, Bool.false_eq_true, if_false, List.isEmpty_cons, hrec]

/-! ### Characters of the lines -/

theorem digs_mem {s : Str} (h : s = [] ∨ Digs s) : ∀ c ∈ s, isDg c = true := by
  rcases h with rfl | h
  · simp
  · exact digs_all h

theorem isDg_plain {c : Char} (h : isDg c = true) :
    ¬ Space c ∧ isBl c = false ∧ c ≠ '%' ∧ c ≠ '\n' ∧ c ≠ '\r' := by
  have := isDg_mem h
  unfold Space
  fin_cases this <;> decide

theorem numeral_plain {w : Str} (h : Numeral w) :
    ∀ c ∈ w, ¬ Space c ∧ isBl c = false ∧ c ≠ '%' ∧ c ≠ '\n' ∧ c ≠ '\r' := by
  obtain ⟨s, a, b, e, rfl, hs, hab, he⟩ := h
  have sign : ∀ t, OptSign t → ∀ c ∈ t, ¬ Space c ∧ isBl c = false ∧ c ≠ '%' ∧ c ≠ '\n' ∧ c ≠ '\r' := by
    intro t ht c hc
    unfold Space
    rcases ht with rfl | rfl | rfl
    · cases hc
    · rw [List.mem_singleton.1 hc]; decide
    · rw [List.mem_singleton.1 hc]; decide
  intro c hc
  simp only [List.mem_append] at hc
  rcases hc with hc | hc | hc | hc
  · exact sign s hs c hc
  · rcases hab with ⟨ha, _⟩ | ⟨rfl, _⟩
    · exact isDg_plain (digs_all ha c hc)
    · cases hc
  · have dot : ∀ d, (d = [] ∨ Digs d) → c ∈ '.' :: d → ¬ Space c ∧ isBl c = false ∧ c ≠ '%' ∧ c ≠ '\n' ∧ c ≠ '\r' := by
      intro d hd hc
      rcases List.mem_cons.1 hc with rfl | hc
      · unfold Space; decide
      · exact isDg_plain (digs_mem hd c hc)
    rcases hab with ⟨_, rfl | ⟨d, rfl, hd⟩⟩ | ⟨_, d, rfl, hd⟩
    · cases hc
    · exact dot d hd hc
    · exact dot d (.inr hd) hc
  · rcases he with rfl | ⟨l, t, d, rfl, hl, ht, hd⟩
    · cases hc
    · rcases List.mem_cons.1 hc with rfl | hc
      · unfold Space
        rcases hl with rfl | rfl <;> decide
      · rcases List.mem_append.1 hc with hc | hc
        · exact sign t ht c hc
        · exact isDg_plain (digs_all hd c hc)

theorem space_plain {c : Char} (h : Space c) : c ≠ '%' ∧ c ≠ '\n' := by
  rcases h with rfl | rfl | rfl <;> decide

theorem entries_chars {num : Str → Option N} {s : Str} {xs : List N} (h : Entries num s xs) :
    ∀ c ∈ s, c ≠ '%' ∧ c ≠ '\n' := by
  induction h with
  | none h => exact fun c hc => space_plain (h c hc)
  | last hg hw _ =>
    intro c hc
    rcases List.mem_append.1 hc with hc | hc
    · exact space_plain (hg c hc)
    · have := numeral_plain hw c hc
      exact ⟨this.2.2.1, this.2.2.2.1⟩
  | cons hg hw _ hb _ ih =>
    intro c hc
    rcases List.mem_append.1 hc with hc | hc
    · exact space_plain (hg c hc)
    · rcases List.mem_append.1 hc with hc | hc
      · have := numeral_plain hw c hc
        exact ⟨this.2.2.1, this.2.2.2.1⟩
      · rcases List.mem_cons.1 hc with rfl | hc
        · exact space_plain hb
        · exact ih c hc

/-- A line with a number has a character that is neither blank nor part of a line end. -/
theorem entries_visible {num : Str → Option N} {s : Str} {xs : List N} (h : Entries num s xs) (hn : xs ≠ []) :
    ∃ c ∈ s, isBl c = false ∧ c ≠ '\r' ∧ c ≠ '\n' := by
  have num : ∀ w, Numeral w → ∃ c ∈ w, isBl c = false ∧ c ≠ '\r' ∧ c ≠ '\n' := by
    intro w hw
    obtain ⟨c, r, rfl, _⟩ := numeral_head hw
    have := numeral_plain hw c (List.mem_cons_self ..)
    exact ⟨c, List.mem_cons_self .., this.2.1, this.2.2.2.2, this.2.2.2.1⟩
  cases h with
  | none => exact absurd rfl hn
  | last hg hw _ =>
    obtain ⟨c, hc, h⟩ := num _ hw
    exact ⟨c, List.mem_append_right _ hc, h⟩
  | cons hg hw _ _ _ =>
    obtain ⟨c, hc, h⟩ := num _ hw
    exact ⟨c, List.mem_append_right _ (List.mem_append_left _ hc), h⟩

theorem entries_nil {num : Str → Option N} {s : Str} {xs : List N} (h : Entries num s xs) (hs : s = []) : xs = [] := by
  cases h with
  | none => rfl
  | last _ hw _ =>
    obtain ⟨c, r, rfl, _⟩ := numeral_head hw
    simp at hs
  | cons => simp at hs

theorem entries_snoc {num : Str → Option N} {s : Str} {xs : List N} (h : Entries num s xs) :
    ∀ s' c, s = s' ++ [c] → Space c → Entries num s' xs := by
  induction h with
  | none h =>
    rintro s' c rfl _
    exact .none (fun x hx => h x (List.mem_append_left _ hx))
  | @last g w x hg hw hx =>
    intro s' c he hc
    exfalso
    have hl : (g ++ w).getLast? = some c := by rw [he]; simp
    have hne : w ≠ [] := by
      obtain ⟨c, r, rfl, _⟩ := numeral_head hw
      simp
    rw [List.getLast?_append_of_ne_nil _ hne] at hl
    exact (numeral_plain hw c (List.mem_of_getLast? hl)).1 hc
  | @cons g w c' s x xs hg hw hx hb h ih =>
    intro s' c he hc
    rcases List.eq_nil_or_concat s with rfl | ⟨s2, c2, rfl⟩
    · have : g ++ w ++ [c'] = s' ++ [c] := by rw [← he]; simp
      obtain ⟨h1, h2⟩ := List.append_inj' this rfl
      subst h1
      have := entries_nil h rfl
      subst this
      exact .last hg hw hx
    · rw [List.concat_eq_append] at he ih
      have : (g ++ (w ++ c' :: s2)) ++ [c2] = s' ++ [c] := by rw [← he]; simp
      obtain ⟨h1, h2⟩ := List.append_inj' this rfl
      subst h1
      injection h2 with h2
      subst h2
      exact .cons hg hw hx hb (ih s2 c2 rfl hc)

theorem entries_strip {num : Str → Option N} {xs : List N} : ∀ (t s : Str), (∀ c ∈ t, Space c) →
    Entries num (s ++ t) xs → Entries num s xs
  | [], s, _, h => by simpa using h
  | c :: t, s, ht, h => by
    have h' : Entries num ((s ++ [c]) ++ t) xs := by simpa using h
    exact entries_snoc (entries_strip t (s ++ [c]) (fun x hx => ht x (List.mem_cons_of_mem _ hx)) h') s c rfl
      (ht c (List.mem_cons_self ..))

/-! ### Removing the line end -/

theorem stripEnd_eq {l : Str} (h : ∃ c ∈ l, c ≠ '\r' ∧ c ≠ '\n') :
    ∃ t, l = stripEnd l ++ t ∧ (∀ c ∈ t, c = '\r' ∨ c = '\n') ∧ stripEnd l ≠ [] := by
  obtain ⟨c, hc, h1, h2⟩ := h
  have hall : l.all (fun c => c == '\r' || c == '\n') = false := by
    rw [List.all_eq_false]
    exact ⟨c, hc, by simp [h1, h2]⟩
  unfold stripEnd
  rw [hall, if_neg (by simp)]
  refine ⟨(l.reverse.takeWhile (fun c => c == '\r' || c == '\n')).reverse, ?_, ?_, ?_⟩
  · rw [← List.reverse_append, List.takeWhile_append_dropWhile, List.reverse_reverse]
  · intro x hx
    have := List.mem_reverse.1 hx
    have := List.all_eq_true.1 (List.all_takeWhile (l := l.reverse)) x this
    simpa using this
  · intro hn
    have hd := List.reverse_eq_nil_iff.1 hn
    have ht := List.takeWhile_append_dropWhile (p := fun c => c == '\r' || c == '\n') (l := l.reverse)
    rw [hd, List.append_nil] at ht
    have hm : c ∈ l.reverse.takeWhile (fun c => c == '\r' || c == '\n') := by
      rw [ht]; exact List.mem_reverse.2 hc
    have := List.all_eq_true.1 (List.all_takeWhile (l := l.reverse)) c hm
    simp [h1, h2] at this

theorem stripEnd_unique {l s t : Str} (h : l = s ++ t) (ht : ∀ c ∈ t, c = '\r' ∨ c = '\n')
    (hs : ∃ c, s.getLast? = some c ∧ c ≠ '\r' ∧ c ≠ '\n') : stripEnd l = s := by
  obtain ⟨c, hc, h1, h2⟩ := hs
  have hall : l.all (fun c => c == '\r' || c == '\n') = false := by
    rw [List.all_eq_false]
    refine ⟨c, ?_, by simp [h1, h2]⟩
    rw [h]
    exact List.mem_append_left _ (List.mem_of_getLast? hc)
  unfold stripEnd
  rw [hall, if_neg (by simp), h, List.reverse_append, List.dropWhile_append_of_pos]
  · rw [List.getLast?_eq_head?_reverse] at hc
    cases hr : s.reverse with
    | nil => rw [hr] at hc; cases hc
    | cons x r =>
      rw [hr] at hc
      injection hc with hc
      subst hc
      rw [List.dropWhile_cons, if_neg (by simp [h1, h2]), ← hr, List.reverse_reverse]
  · intro x hx
    have := ht x (List.mem_reverse.1 hx)
    simpa using this

theorem row_data {num : Str → Option N} {s : Str} {xs : List N} (h : Entries num s xs) (hn : xs ≠ []) :
    row num (stripEnd s) = some xs ∧ s.all isBl = false ∧ (stripEnd s).head? ≠ some '%' := by
  obtain ⟨c, hc, h1, h2, h3⟩ := entries_visible h hn
  obtain ⟨t, ht, htc, hne⟩ := stripEnd_eq ⟨c, hc, h2, h3⟩
  have hch := entries_chars h
  have htc' : ∀ c ∈ t, Space c := by
    intro x hx
    rcases htc x hx with rfl | rfl
    · exact .inr (.inr rfl)
    · exact absurd rfl (hch '\n' (by rw [ht]; exact List.mem_append_right _ hx)).2
  rw [ht] at h
  refine ⟨rowN_entries (entries_strip t _ htc' h) _ (by omega), ?_, ?_⟩
  · rw [List.all_eq_false]
    exact ⟨c, hc, by simp [h1]⟩
  · intro hh
    have : '%' ∈ s := by
      rw [ht]
      exact List.mem_append_left _ (List.mem_of_head? hh)
    exact (hch '%' this).1 rfl

/-! ### Headers -/

theorem isBl_iff (c : Char) : isBl c = true ↔ c = ' ' ∨ c = '\t' := by simp [isBl]

theorem words_gap {g s : Str} (hg : ∀ c ∈ g, c = ' ' ∨ c = '\t') : wordsAux [] (g ++ s) = wordsAux [] s := by
  induction g with
  | nil => rfl
  | cons c r ih =>
    rw [List.cons_append, wordsAux, if_pos ((isBl_iff c).2 (hg c (List.mem_cons_self ..)))]
    simp only [List.isEmpty_nil, if_true]
    exact ih (fun x hx => hg x (List.mem_cons_of_mem _ hx))

theorem words_word (w : Str) (hw : ∀ c ∈ w, c ∉ [' ', '\t', '\r', '\n']) (acc s : Str) :
    wordsAux acc (w ++ s) = wordsAux (w.reverse ++ acc) s := by
  induction w generalizing acc with
  | nil => rfl
  | cons c r ih =>
    have hc := hw c (List.mem_cons_self ..)
    have hb : ¬ isBl c = true := by
      rw [isBl_iff]
      rintro (rfl | rfl) <;> simp at hc
    rw [List.cons_append, wordsAux, if_neg hb, ih (fun x hx => hw x (List.mem_cons_of_mem _ hx))]
    simp

theorem words_names {s : Str} {ns : List Str} (h : Names s ns) : wordsAux [] s = ns := by
  induction h with
  | @none s h =>
    have := words_gap (s := []) h
    simpa [wordsAux] using this
  | @last g w hg hw hc =>
    have := words_word w hc [] []
    rw [words_gap hg]
    simp only [List.append_nil] at this
    rw [this, wordsAux, if_neg (by simpa using hw)]
    simp
  | @cons g w c s ws hg hw hc hb _ ih =>
    rw [words_gap hg, words_word w hc, wordsAux, if_pos ((isBl_iff c).2 hb), if_neg (by simpa using hw), ih]
    simp

theorem names_chars {s : Str} {ns : List Str} (h : Names s ns) : ∀ c ∈ s, c ≠ '\r' ∧ c ≠ '\n' := by
  have word : ∀ c, c ∉ [' ', '\t', '\r', '\n'] → c ≠ '\r' ∧ c ≠ '\n' := by
    intro c hc
    constructor <;> rintro rfl <;> simp at hc
  have gap : ∀ c, (c = ' ' ∨ c = '\t') → c ≠ '\r' ∧ c ≠ '\n' := by
    rintro c (rfl | rfl) <;> decide
  induction h with
  | none h => exact fun c hc => gap c (h c hc)
  | last hg hw hc =>
    intro x hx
    rcases List.mem_append.1 hx with hx | hx
    · exact gap x (hg x hx)
    · exact word x (hc x hx)
  | cons hg hw hc hb _ ih =>
    intro x hx
    rcases List.mem_append.1 hx with hx | hx
    · exact gap x (hg x hx)
    · rcases List.mem_append.1 hx with hx | hx
      · exact word x (hc x hx)
      · rcases List.mem_cons.1 hx with rfl | hx
        · exact gap _ hb
        · exact ih x hx

theorem strip_header {s r : Str} {ns : List Str} (h : Names s ns) (hr : r = [] ∨ r = ['\r']) :
    stripEnd ('%' :: (s ++ r)) = '%' :: s := by
  have hch := names_chars h
  refine stripEnd_unique (t := r) (by simp) ?_ ?_
  · intro c hc
    rcases hr with rfl | rfl
    · cases hc
    · exact .inl (List.mem_singleton.1 hc)
  · cases hl : ('%' :: s).getLast? with
    | none => simp at hl
    | some c =>
      have := List.mem_of_getLast? hl
      rcases List.mem_cons.1 this with rfl | hm
      · exact ⟨_, rfl, by decide, by decide⟩
      · exact ⟨_, rfl, hch c hm⟩

theorem colsAux_find (ws : List Str) : ∀ (n : Nat) (m : SMap Str Nat) (k : Str),
    (∀ i, LastPos ws k i → (colsAux ws n m).find k = some (n + i)) ∧
    ((∀ i : Nat, ws[i]? ≠ some k) → (colsAux ws n m).find k = m.find k) := by
  induction ws with
  | nil =>
    intro n m k
    refine ⟨?_, fun _ => rfl⟩
    intro i hi
    simp [LastPos] at hi
  | cons w ws ih =>
    intro n m k
    obtain ⟨h1, h2⟩ := ih (n + 1) (m.insert w n) k
    constructor
    · rintro i ⟨hi, hj⟩
      cases i with
      | zero =>
        simp only [List.getElem?_cons_zero, Option.some.injEq] at hi
        subst hi
        rw [colsAux, h2, SMap.find_insert_self]
        · rfl
        · intro j hc
          exact hj (j + 1) (by omega) (by simpa using hc)
      | succ i =>
        rw [colsAux, h1 i ⟨by simpa using hi, fun j hij hc => hj (j + 1) (by omega) (by simpa using hc)⟩]
        congr 1
        omega
    · intro hn
      rw [colsAux, h2, SMap.find_insert, if_neg]
      · rintro rfl
        exact hn 0 (by simp)
      · intro i hc
        exact hn (i + 1) (by simpa using hc)

/-! ### All lines -/

theorem isLine_nl {num : Str → Option N} {l : Str} {i : Item N} (h : IsLine num l i) : '\n' ∉ l := by
  cases h with
  | blank h => intro hc; rcases h _ hc with h | h <;> cases h
  | header h hr =>
    intro hc
    rcases List.mem_cons.1 hc with hc | hc
    · revert hc; decide
    · rcases List.mem_append.1 hc with hc | hc
      · exact (names_chars h _ hc).2 rfl
      · rcases hr with rfl | rfl
        · cases hc
        · revert hc; decide
  | data h => exact fun hc => (entries_chars h _ hc).2 rfl

theorem linesAux_line (l : Str) (h : '\n' ∉ l) (acc s : Str) :
    linesAux acc (l ++ '\n' :: s) = (acc.reverse ++ l) :: linesAux [] s := by
  induction l generalizing acc with
  | nil => simp [linesAux]
  | cons c r ih =>
    have hc : c ≠ '\n' := fun he => h (by rw [he]; exact List.mem_cons_self ..)
    rw [List.cons_append, linesAux, if_neg hc, ih (fun hm => h (List.mem_cons_of_mem _ hm))]
    simp

theorem linesAux_end (l : Str) (h : '\n' ∉ l) (acc : Str) :
    linesAux acc l = if acc.reverse ++ l = [] then [] else [acc.reverse ++ l] := by
  induction l generalizing acc with
  | nil =>
    simp only [linesAux, List.append_nil, List.reverse_eq_nil_iff]
    cases acc <;> rfl
  | cons c r ih =>
    have hc : c ≠ '\n' := fun he => h (by rw [he]; exact List.mem_cons_self ..)
    rw [linesAux, if_neg hc, ih (fun hm => h (List.mem_cons_of_mem _ hm))]
    simp

theorem linesAux_all : ∀ (ls : List Str), (∀ l ∈ ls, '\n' ∉ l) → ∀ s,
    linesAux [] (ls.flatMap (· ++ ['\n']) ++ s) = ls ++ linesAux [] s
  | [], _, s => rfl
  | l :: ls, h, s => by
    have := linesAux_line l (h l (List.mem_cons_self ..)) [] (ls.flatMap (· ++ ['\n']) ++ s)
    simp only [List.flatMap_cons, List.append_assoc, List.cons_append, List.nil_append] at this ⊢
    rw [this, linesAux_all ls (fun x hx => h x (List.mem_cons_of_mem _ hx)) s]
    rfl

theorem readLines_blank (num : Str → Option N) (ls : List Str) : ∀ cols rows,
    readLines num (ls ++ [[]]) cols rows = readLines num ls cols rows := by
  induction ls with
  | nil => intro cols rows; simp [readLines]
  | cons l ls ih =>
    intro cols rows
    simp only [List.cons_append, readLines, ih]

theorem readLines_text (num : Str → Option N) {lines : List Str} {text : Str} (h : IsText lines text)
    (hn : ∀ l ∈ lines, '\n' ∉ l) (cols : SMap Str Nat) (rows : List (List N)) :
    readLines num (linesAux [] text) cols rows = readLines num lines cols rows := by
  rcases h with rfl | ⟨ls, l, rfl, rfl⟩
  · have := linesAux_all lines hn []
    rw [List.append_nil] at this
    rw [this]
    simp [linesAux]
  · rw [linesAux_all ls (fun x hx => hn x (List.mem_append_left _ hx)),
      linesAux_end l (hn l (by simp))]
    by_cases hl : l = []
    · subst hl
      simp only [List.reverse_nil, List.append_nil, if_true]
      rw [readLines_blank]
    · rw [if_neg (by simpa using hl)]
      rfl

/-- All rows have the same length. -/
def SameLen (rows : List (List N)) : Prop := ∀ r ∈ rows, ∀ r' ∈ rows, r.length = r'.length

theorem readLines_items {num : Str → Option N} {lines : List Str} {items : List (Item N)}
    (h : List.Forall₂ (IsLine num) lines items) : ∀ cols rows, SameLen rows →
      (SameLen (rows ++ dataRows items) → readLines num lines cols rows =
        some (match lastHeader items with | none => cols | some ns => colsAux ns 0 [], rows ++ dataRows items)) ∧
      (¬ SameLen (rows ++ dataRows items) → readLines num lines cols rows = none) := by
  induction h with
  | nil =>
    intro cols rows hr
    simp only [dataRows, List.append_nil, lastHeader, readLines]
    exact ⟨fun _ => trivial, fun h => absurd hr h⟩
  | @cons l i ls is h1 _ ih =>
    intro cols rows hr
    cases h1 with
    | blank hb =>
      have : l.all isBl = true := List.all_eq_true.2 (fun c hc => (isBl_iff c).2 (hb c hc))
      simp only [readLines, this, if_true, dataRows, lastHeader]
      exact ih cols rows hr
    | @header s ns r hn hr' =>
      have hb : ('%' :: (s ++ r)).all isBl = false := rfl
      obtain ⟨i1, i2⟩ := ih (colsAux ns 0 []) rows hr
      simp only [readLines, hb, Bool.false_eq_true, if_false, strip_header hn hr', List.head?_cons, if_true,
        List.tail_cons, words_names hn, dataRows, lastHeader]
      refine ⟨fun hs => ?_, i2⟩
      rw [i1 hs]
      cases lastHeader is <;> rfl
    | @data _ xs he hx =>
      obtain ⟨d1, d2, d3⟩ := row_data he hx
      simp only [readLines, d2, Bool.false_eq_true, if_false, if_neg d3, d1, dataRows, lastHeader]
      have happ : rows ++ xs :: dataRows is = (rows ++ [xs]) ++ dataRows is := by simp
      rw [happ]
      cases hl : rows.getLast? with
      | none =>
        have : rows = [] := List.getLast?_eq_none_iff.1 hl
        subst this
        simp only
        exact ih cols _ (by intro r hr r' hr'; rw [List.mem_singleton.1 hr, List.mem_singleton.1 hr'])
      | some r =>
        have hmem := List.mem_of_getLast? hl
        simp only
        by_cases hlen : r.length = xs.length
        · rw [if_neg (by simpa using hlen)]
          refine ih cols _ ?_
          have : ∀ q ∈ rows ++ [xs], q.length = xs.length := by
            intro q hq
            rcases List.mem_append.1 hq with hq | hq
            · rw [hr q hq r hmem, hlen]
            · rw [List.mem_singleton.1 hq]
          intro q hq q' hq'
          rw [this q hq, this q' hq']
        · rw [if_pos hlen]
          refine ⟨fun hs => absurd (hs r ?_ xs ?_) hlen, fun _ => rfl⟩
          · simp [hmem]
          · simp

/-! ### Lines that are refused -/

theorem accMant_split (s : Str) : ∀ dec found, (accMant dec found s).1 ++ (accMant dec found s).2 = s ∧
    ∀ c ∈ (accMant dec found s).1, isDg c = true ∨ c ∈ ['.', 'e', 'E', '+', '-'] := by
  have hexp : ∀ s : Str, (accExp s).1 ++ (accExp s).2 = s ∧
      ∀ c ∈ (accExp s).1, isDg c = true ∨ c ∈ ['.', 'e', 'E', '+', '-'] := by
    intro s
    have htake : ∀ s : Str, ∀ c ∈ s.takeWhile isDg, isDg c = true :=
      fun s c hc => List.all_eq_true.1 (List.all_takeWhile (l := s)) c hc
    cases s with
    | nil => exact ⟨rfl, fun c hc => by cases hc⟩
    | cons x r =>
      unfold accExp
      simp only
      by_cases hx : x = '+' ∨ x = '-'
      · rw [if_pos hx]
        refine ⟨by simp [List.takeWhile_append_dropWhile], ?_⟩
        intro c hc
        rcases List.mem_cons.1 hc with rfl | hc
        · refine .inr ?_
          rcases hx with rfl | rfl <;> simp
        · exact .inl (htake _ c hc)
      · rw [if_neg hx]
        exact ⟨List.takeWhile_append_dropWhile, fun c hc => .inl (htake _ c hc)⟩
  induction s with
  | nil => intro dec found; exact ⟨rfl, fun c hc => by cases hc⟩
  | cons x r ih =>
    intro dec found
    rw [accMant]
    by_cases h1 : isDg x = true
    · rw [if_pos h1]
      obtain ⟨i1, i2⟩ := ih dec true
      refine ⟨by rw [List.cons_append, i1], ?_⟩
      intro c hc
      rcases List.mem_cons.1 hc with rfl | hc
      · exact .inl h1
      · exact i2 c hc
    · rw [if_neg h1]
      by_cases h2 : x = '.' ∧ dec = false
      · rw [if_pos h2]
        obtain ⟨i1, i2⟩ := ih true found
        refine ⟨by rw [List.cons_append, i1], ?_⟩
        intro c hc
        rcases List.mem_cons.1 hc with rfl | hc
        · exact .inr (by simp [h2.1])
        · exact i2 c hc
      · rw [if_neg h2]
        by_cases h3 : (x = 'e' ∨ x = 'E') ∧ found = true
        · rw [if_pos h3]
          obtain ⟨i1, i2⟩ := hexp r
          refine ⟨by rw [List.cons_append, i1], ?_⟩
          intro c hc
          rcases List.mem_cons.1 hc with rfl | hc
          · exact .inr (by rcases h3.1 with h | h <;> simp [h])
          · exact i2 c hc
        · rw [if_neg h3]
          exact ⟨rfl, fun c hc => by cases hc⟩

theorem accum_split (s : Str) : (accum s).1 ++ (accum s).2 = s ∧
    ∀ c ∈ (accum s).1, isDg c = true ∨ c ∈ ['.', 'e', 'E', '+', '-'] := by
  cases s with
  | nil => exact ⟨rfl, fun c hc => by cases hc⟩
  | cons x r =>
    unfold accum
    simp only
    by_cases hx : x = '+' ∨ x = '-'
    · rw [if_pos hx]
      obtain ⟨i1, i2⟩ := accMant_split r false false
      refine ⟨by rw [List.cons_append, i1], ?_⟩
      intro c hc
      rcases List.mem_cons.1 hc with rfl | hc
      · exact .inr (by rcases hx with h | h <;> simp [h])
      · exact i2 c hc
    · rw [if_neg hx]
      exact accMant_split (x :: r) false false

theorem foreign_facts {c : Char} (h : Foreign c) :
    isSp c = false ∧ isBl c = false ∧ ¬ (isDg c = true ∨ c ∈ ['.', 'e', 'E', '+', '-']) ∧ c ≠ '\r' ∧ c ≠ '\n' := by
  unfold Foreign at h
  simp only [List.mem_cons, List.not_mem_nil, or_false, not_or] at h
  obtain ⟨h0, h1, h2, h3, h4, h5, h6, h7, h8, h9, hp, hm, hd, he, hE, hs, ht, hn, hr, hv, hf⟩ := h
  refine ⟨by simp [isSp, *], by simp [isBl, *], ?_, hr, hn⟩
  rintro (h | h)
  · have := isDg_mem h
    simp [*] at this
  · simp [*] at h

theorem rowN_foreign (num : Str → Option N) {c : Char} (hc : Foreign c) : ∀ (n : Nat) (s : Str), c ∈ s →
    rowN num n s = none
  | 0, _, _ => rfl
  | n + 1, s, hm => by
    obtain ⟨f1, _, f3, _, _⟩ := foreign_facts hc
    have h1 : c ∈ s.dropWhile isSp := by
      rw [← List.takeWhile_append_dropWhile (p := isSp) (l := s)] at hm
      rcases List.mem_append.1 hm with hm | hm
      · have := List.all_eq_true.1 (List.all_takeWhile (l := s)) c hm
        rw [f1] at this
        cases this
      · exact hm
    obtain ⟨a1, a2⟩ := accum_split (s.dropWhile isSp)
    have h2 : c ∈ (accum (s.dropWhile isSp)).2 := by
      rw [← a1] at h1
      rcases List.mem_append.1 h1 with h | h
      · exact absurd (a2 c h) f3
      · exact h
    have h3 : (accum (s.dropWhile isSp)).2.isEmpty = false := by
      cases h : (accum (s.dropWhile isSp)).2 with
      | nil => rw [h] at h2; cases h2
      | cons => rfl
    have h4 : (s.dropWhile isSp).isEmpty = false := by
      cases h : s.dropWhile isSp with
      | nil => rw [h] at h1; cases h1
      | cons => rfl
    have ih := rowN_foreign num hc n _ h2
    unfold rowN
    simp only [h4, h3, ih, Bool.false_eq_true, if_false]
    split <;> rfl

theorem readLines_foreign (num : Str → Option N) {c : Char} (hc : Foreign c) {l : Str} (hl : c ∈ l)
    (hp : l.head? ≠ some '%') : ∀ (ls : List Str), l ∈ ls → ∀ cols rows, readLines num ls cols rows = none
  | [], hm, _, _ => by cases hm
  | x :: ls, hm, cols, rows => by
    obtain ⟨_, f2, _, f4, f5⟩ := foreign_facts hc
    by_cases hx : l ∈ ls
    · have ih := readLines_foreign num hc hl hp ls hx
      simp only [readLines, ih]
      split
      · rfl
      · split
        · rfl
        · split
          · rfl
          · split
            · rfl
            · split <;> rfl
    · have : x = l := by
        rcases List.mem_cons.1 hm with h | h
        · exact h.symm
        · exact absurd h hx
      subst this
      obtain ⟨t, h1, h2, h3⟩ := stripEnd_eq ⟨c, hl, f4, f5⟩
      have hb : x.all isBl = false := by
        rw [List.all_eq_false]
        exact ⟨c, hl, by simp [f2]⟩
      have hh : (stripEnd x).head? ≠ some '%' := by
        intro hh
        apply hp
        rw [h1, List.head?_append, hh]
        rfl
      have hm : c ∈ stripEnd x := by
        rw [h1] at hl
        rcases List.mem_append.1 hl with h | h
        · exact h
        · rcases h2 c h with h | h
          · exact absurd h f4
          · exact absurd h f5
      have hr : row num (stripEnd x) = none := rowN_foreign num hc _ _ hm
      simp only [readLines, hb, Bool.false_eq_true, if_false, if_neg hh, hr]

theorem linesAux_pre (p q : Str) : ∀ acc, ∃ L, linesAux acc (p ++ '\n' :: q) = L ++ linesAux [] q := by
  induction p with
  | nil => intro acc; exact ⟨[acc.reverse], by simp [linesAux]⟩
  | cons c r ih =>
    intro acc
    rw [List.cons_append, linesAux]
    by_cases hc : c = '\n'
    · rw [if_pos hc]
      obtain ⟨L, h⟩ := ih []
      exact ⟨acc.reverse :: L, by rw [h]; rfl⟩
    · rw [if_neg hc]
      exact ih (c :: acc)

theorem line_mem {pre l post : Str} (hpre : pre = [] ∨ pre.getLast? = some '\n')
    (hpost : post = [] ∨ post.head? = some '\n') (hl : '\n' ∉ l) (hne : l ≠ []) :
    l ∈ linesAux [] (pre ++ (l ++ post)) := by
  have h1 : l ∈ linesAux [] (l ++ post) := by
    rcases hpost with rfl | hp
    · rw [List.append_nil, linesAux_end l hl, if_neg (by simpa using hne)]
      simp
    · cases post with
      | nil => cases hp
      | cons c q =>
        injection hp with hp
        subst hp
        rw [linesAux_line l hl]
        simp
  rcases hpre with rfl | hp
  · exact h1
  · obtain ⟨p, rfl⟩ : ∃ p, pre = p ++ ['\n'] := by
      rcases List.eq_nil_or_concat pre with rfl | ⟨p, c, rfl⟩
      · cases hp
      · rw [List.concat_eq_append, List.getLast?_append] at hp
        simp only [List.getLast?_singleton, Option.some_or, Option.some.injEq] at hp
        exact ⟨p, by rw [List.concat_eq_append, hp]⟩
    obtain ⟨L, h⟩ := linesAux_pre p (l ++ post) []
    have : p ++ ['\n'] ++ (l ++ post) = p ++ '\n' :: (l ++ post) := by simp
    rw [this, h]
    exact List.mem_append_right _ h1

end Flame.Util
