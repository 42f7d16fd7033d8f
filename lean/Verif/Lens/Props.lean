import Verif.Lens.Model
import Verif.Lens.Spec
import Verif.Util.TableLemmas

/-!
# C81: files of thin lenses
-/

namespace Flame.Lens

open Flame.Util

variable {N : Type}

/-! ### Words -/

theorem isSp_visible {c : Char} (h : Visible c) : isSp c = false := by
  simp only [Visible, List.mem_cons, List.not_mem_nil, or_false, not_or] at h
  simp [isSp, h]

theorem words_nil {ws : List Str} (h : Words [] ws) : ws = [] := by
  generalize hs : ([] : Str) = s at h
  cases h with
  | none => rfl
  | last _ hw _ => simp at hs; exact absurd hs.2 hw
  | cons => simp at hs

theorem words_gap {s : Str} {ws : List Str} {c : Char} (hc : Space c) (h : Words s ws) : Words (c :: s) ws := by
  cases h with
  | none h => exact .none (by intro x hx; rcases List.mem_cons.1 hx with rfl | hx <;> [exact hc; exact h x hx])
  | @last g w hg hw hv =>
    exact Words.last (g := c :: g) (by intro x hx; rcases List.mem_cons.1 hx with rfl | hx <;> [exact hc; exact hg x hx]) hw hv
  | @cons g w c' s ws hg hw hv hb h =>
    exact Words.cons (g := c :: g) (by intro x hx; rcases List.mem_cons.1 hx with rfl | hx <;> [exact hc; exact hg x hx])
      hw hv hb h

theorem words_head {s w : Str} {ws : List Str} (h : Words s (w :: ws)) :
    ∃ g r, s = g ++ (w ++ r) ∧ (∀ c ∈ g, Space c) ∧ w ≠ [] ∧ (∀ c ∈ w, Visible c) ∧ After r ∧ Words r ws := by
  cases h with
  | @last g w hg hw hv => exact ⟨g, [], by simp, hg, hw, hv, .inl rfl, .none (by simp)⟩
  | @cons g w c s ws hg hw hv hb h => exact ⟨g, c :: s, rfl, hg, hw, hv, .inr ⟨c, s, rfl, hb⟩, words_gap hb h⟩

theorem words_snoc {s : Str} {ws : List Str} (h : Words s ws) : ∀ s' c, s = s' ++ [c] → Space c → Words s' ws := by
  induction h with
  | none h =>
    rintro s' c rfl _
    exact .none (fun x hx => h x (List.mem_append_left _ hx))
  | @last g w hg hw hv =>
    intro s' c he hc
    exfalso
    have hl : (g ++ w).getLast? = some c := by rw [he]; simp
    rw [List.getLast?_append_of_ne_nil _ hw] at hl
    have h1 := isSp_visible (hv c (List.mem_of_getLast? hl))
    rw [space_isSp hc] at h1
    cases h1
  | @cons g w c' s ws hg hw hv hb h ih =>
    intro s' c he hc
    rcases List.eq_nil_or_concat s with rfl | ⟨s2, c2, rfl⟩
    · have : g ++ w ++ [c'] = s' ++ [c] := by rw [← he]; simp
      obtain ⟨h1, h2⟩ := List.append_inj' this rfl
      subst h1
      have := words_nil h
      subst this
      exact .last hg hw hv
    · rw [List.concat_eq_append] at he ih
      have : (g ++ (w ++ c' :: s2)) ++ [c2] = s' ++ [c] := by rw [← he]; simp
      obtain ⟨h1, h2⟩ := List.append_inj' this rfl
      subst h1
      injection h2 with h2
      subst h2
      exact .cons hg hw hv hb (ih s2 c2 rfl hc)

theorem words_strip {ws : List Str} : ∀ (t s : Str), (∀ c ∈ t, Space c) → Words (s ++ t) ws → Words s ws
  | [], s, _, h => by simpa using h
  | c :: t, s, ht, h => by
    have h' : Words ((s ++ [c]) ++ t) ws := by simpa using h
    exact words_snoc (words_strip t (s ++ [c]) (fun x hx => ht x (List.mem_cons_of_mem _ hx)) h') s c rfl
      (ht c (List.mem_cons_self ..))

theorem words_nl {s : Str} {ws : List Str} (h : Words s ws) : '\n' ∉ s := by
  have hsp : ∀ c, Space c → c ≠ '\n' := fun c hc => (space_plain hc).2
  have hvi : ∀ c, Visible c → c ≠ '\n' := by
    rintro c hc rfl
    exact hc (by simp)
  induction h with
  | none h => exact fun hn => hsp _ (h _ hn) rfl
  | last hg hw hv =>
    intro hn
    rcases List.mem_append.1 hn with hn | hn
    · exact hsp _ (hg _ hn) rfl
    · exact hvi _ (hv _ hn) rfl
  | cons hg hw hv hb h ih =>
    intro hn
    rcases List.mem_append.1 hn with hn | hn
    · exact hsp _ (hg _ hn) rfl
    · rcases List.mem_append.1 hn with hn | hn
      · exact hvi _ (hv _ hn) rfl
      · rcases List.mem_cons.1 hn with hn | hn
        · exact hsp _ hb hn.symm
        · exact ih hn

/-- The line without its end has the same words, and is not skipped. -/
theorem words_line {s w : Str} {ws : List Str} (h : Words s (w :: ws)) (hp : w.head? ≠ some '%') :
    Words (stripEnd s) (w :: ws) ∧ ((s.dropWhile isBl).isEmpty || (s.dropWhile isBl).head? == some '%') = false := by
  obtain ⟨g, r, rfl, hg, hw, hv, ha, hr⟩ := words_head h
  obtain ⟨c, w', rfl⟩ := List.exists_cons_of_ne_nil hw
  have hc := isSp_visible (hv c (List.mem_cons_self ..))
  have hcr : c ≠ '\r' ∧ c ≠ '\n' ∧ isBl c = false := by
    refine ⟨?_, ?_, ?_⟩
    · rintro rfl; revert hc; decide
    · rintro rfl; revert hc; decide
    · unfold isSp at hc
      simp only [Bool.or_eq_false_iff] at hc
      simp [isBl, hc.1.1.1.1.1, hc.1.1.1.1.2]
  obtain ⟨t, ht, htc, -⟩ := stripEnd_eq (l := g ++ (c :: w' ++ r)) ⟨c, by simp, hcr.1, hcr.2.1⟩
  refine ⟨?_, ?_⟩
  · have htc' : ∀ c ∈ t, Space c := by
      intro x hx
      rcases htc x hx with rfl | rfl
      · exact .inr (.inr rfl)
      · exact absurd (by rw [ht]; exact List.mem_append_right _ hx) (words_nl h)
    exact words_strip t _ htc' (by rw [← ht]; exact h)
  · have : ∀ g : Str, (∀ c ∈ g, Space c) → ∃ x y, (g ++ (c :: w' ++ r)).dropWhile isBl = x :: y ∧ (x = '\r' ∨ x = c) := by
      intro g hg
      induction g with
      | nil => exact ⟨c, w' ++ r, by simp [hcr.2.2], .inr rfl⟩
      | cons a g ih =>
        by_cases hb : isBl a = true
        · obtain ⟨x, y, h1, h2⟩ := ih (fun x hx => hg x (List.mem_cons_of_mem _ hx))
          exact ⟨x, y, by rw [List.cons_append, List.dropWhile_cons, if_pos hb, h1], h2⟩
        · refine ⟨a, g ++ (c :: w' ++ r), by rw [List.cons_append, List.dropWhile_cons, if_neg hb], .inl ?_⟩
          rcases hg a (List.mem_cons_self ..) with rfl | rfl | rfl
          · exact absurd rfl hb
          · exact absurd rfl hb
          · rfl
    obtain ⟨x, y, h1, h2⟩ := this g hg
    rw [h1]
    have hx : x ≠ '%' := by
      rcases h2 with rfl | rfl
      · decide
      · simpa using hp
    simp [hx]

theorem visible_take {w r : Str} (hv : ∀ c ∈ w, Visible c) (ha : After r) :
    (w ++ r).takeWhile (fun c => !isSp c) = w ∧ (w ++ r).dropWhile (fun c => !isSp c) = r := by
  induction w with
  | nil =>
    rcases ha with rfl | ⟨c, r, rfl, hc⟩
    · exact ⟨rfl, rfl⟩
    · simp [space_isSp hc]
  | cons c w ih =>
    have hc := isSp_visible (hv c (List.mem_cons_self ..))
    obtain ⟨h1, h2⟩ := ih (fun x hx => hv x (List.mem_cons_of_mem _ hx))
    simp [hc, h1, h2]

theorem visible_drop {w r : Str} (hw : w ≠ []) (hv : ∀ c ∈ w, Visible c) : (w ++ r).dropWhile isSp = w ++ r := by
  obtain ⟨c, w', rfl⟩ := List.exists_cons_of_ne_nil hw
  simp [isSp_visible (hv c (List.mem_cons_self ..))]

theorem getWord_words {s w : Str} {ws : List Str} (h : Words s (w :: ws)) :
    ∃ r, getWord ⟨s, false, false⟩ = (some w, ⟨r, r.isEmpty, false⟩) ∧ Words r ws := by
  obtain ⟨g, r, rfl, hg, hw, hv, ha, hr⟩ := words_head h
  refine ⟨r, ?_, hr⟩
  have hne : (w ++ r).isEmpty = false := by
    cases w with
    | nil => exact absurd rfl hw
    | cons => rfl
  unfold getWord
  simp only [Bool.or_self, Bool.false_eq_true, if_false, drop_space hg, visible_drop hw hv, hne, visible_take hv ha]

theorem getDouble_words {num : Str → Option N} {s w : Str} {ws : List Str} {x : N} (h : Words s (w :: ws)) (hw : Numeral w)
    (hx : num w = some x) : ∃ r, getDouble num ⟨s, false, false⟩ = (some x, ⟨r, r.isEmpty, false⟩) ∧ Words r ws := by
  obtain ⟨g, r, rfl, hg, hw', hv, ha, hr⟩ := words_head h
  refine ⟨r, ?_, hr⟩
  have hne : (w ++ r).isEmpty = false := by
    cases w with
    | nil => exact absurd rfl hw'
    | cons => rfl
  unfold getDouble
  simp only [Bool.or_self, Bool.false_eq_true, if_false, drop_space hg, visible_drop hw' hv, hne, accum_numeral hw ha,
    numeral_ne hw, hx]

/-- A word that does not begin like a number. -/
theorem getDouble_foreign {num : Str → Option N} {s w : Str} {ws : List Str} {c : Char} (h : Words s (w :: ws))
    (hw : w.head? = some c) (hf : Foreign c) : ∃ r, getDouble num ⟨s, false, false⟩ = (none, ⟨r, false, true⟩) := by
  obtain ⟨g, r, rfl, hg, hw', hv, ha, hr⟩ := words_head h
  cases w with
  | nil => cases hw
  | cons a w =>
    simp only [List.head?_cons, Option.some.injEq] at hw
    subst hw
    have hacc : accum (a :: w ++ r) = ([], a :: w ++ r) := by
      simp only [Foreign, List.mem_cons, List.not_mem_nil, or_false, not_or] at hf
      have hd : isDg a = false := by
        cases hd : isDg a
        · rfl
        · have := isDg_mem hd
          simp only [List.mem_cons, List.not_mem_nil, or_false] at this
          tauto
      rw [List.cons_append, accum, if_neg (by tauto), accMant, hd]
      simp only [Bool.false_eq_true, if_false, and_false, hf.2.2.2.2.2.2.2.2.2.2.2.2.1, false_and]
    refine ⟨a :: w ++ r, ?_⟩
    unfold getDouble
    simp only [Bool.or_self, Bool.false_eq_true, if_false, drop_space hg, visible_drop hw' hv, hacc]
    rfl

theorem getDouble_fail (num : Str → Option N) (r : Str) (e : Bool) :
    getDouble num ⟨r, e, true⟩ = (none, ⟨r, e, true⟩) := by
  unfold getDouble
  simp

theorem getDouble_none (num : Str → Option N) {s : Str} (h : Words s []) (e : Bool) (he : e = s.isEmpty) :
    ∃ r, getDouble num ⟨s, e, false⟩ = (none, ⟨r, true, true⟩) := by
  have hs : ∀ c ∈ s, Space c := by
    generalize hw : ([] : List Str) = ws at h
    cases h with
    | none h => exact h
    | last => cases hw
    | cons => cases hw
  unfold getDouble
  cases s with
  | nil =>
    simp only [List.isEmpty_nil] at he
    subst he
    exact ⟨[], rfl⟩
  | cons a s =>
    simp only [List.isEmpty_cons] at he
    subst he
    have := drop_space (s := []) hs
    rw [List.append_nil] at this
    refine ⟨[], ?_⟩
    simp [this]

theorem getWord_none {s : Str} (h : Words s []) (e : Bool) (he : e = s.isEmpty) :
    ∃ r, getWord ⟨s, e, false⟩ = (none, ⟨r, true, true⟩) := by
  have hs : ∀ c ∈ s, Space c := by
    generalize hw : ([] : List Str) = ws at h
    cases h with
    | none h => exact h
    | last => cases hw
    | cons => cases hw
  unfold getWord
  cases s with
  | nil =>
    simp only [List.isEmpty_nil] at he
    subst he
    exact ⟨[], rfl⟩
  | cons a s =>
    simp only [List.isEmpty_cons] at he
    subst he
    have := drop_space (s := []) hs
    rw [List.append_nil] at this
    refine ⟨[], ?_⟩
    simp [this]

theorem isEmpty_words {r w : Str} {ws : List Str} (h : Words r (w :: ws)) : r.isEmpty = false := by
  cases r with
  | nil => exact absurd (words_nil h) (by simp)
  | cons => rfl

/-! ### Lines -/

/-- What is read from a line that describes a piece. -/
def ofPiece (p : Piece N) : Raw N := ⟨p.type, p.name, some p.length, some p.aperture, some p.strength⟩

theorem readLine_piece {num : Str → Option N} {zero : N} {s : Str} {ws : List Str} {p : Piece N} (h : Words s ws)
    (hd : Describes num zero ws p) : readLine num zero s = some (ofPiece p) := by
  obtain ⟨a, b, more, rfl, ha, hxa, hb, hxb, h1, h2⟩ := hd
  obtain ⟨r1, g1, w1⟩ := getWord_words h
  obtain ⟨r2, g2, w2⟩ := getWord_words w1
  obtain ⟨r3, g3, w3⟩ := getDouble_words w2 ha hxa
  obtain ⟨r4, g4, w4⟩ := getDouble_words w3 hb hxb
  unfold readLine
  simp only [g1, isEmpty_words w1, g2, isEmpty_words w2, g3, isEmpty_words w3, g4, Option.getD_some]
  by_cases hp : Plain p.type
  · have hc : ¬ (p.type ≠ "drift".toList ∧ p.type ≠ "AccGap".toList) := by
      rintro ⟨q1, q2⟩
      rcases hp with hp | hp <;> contradiction
    rw [if_neg hc, h1 hp |>.symm]
    simp [ofPiece]
  · obtain ⟨e, more', rfl, he, hxe⟩ := h2 hp
    obtain ⟨r5, g5, w5⟩ := getDouble_words w4 he hxe
    have hc : p.type ≠ "drift".toList ∧ p.type ≠ "AccGap".toList := ⟨fun q => hp (.inl q), fun q => hp (.inr q)⟩
    rw [if_pos hc]
    simp only [isEmpty_words w4, g5]
    simp [ofPiece]

theorem isLine_nl {num : Str → Option N} {zero : N} {l : Str} {i : Option (Piece N)} (h : IsLine num zero l i) : '\n' ∉ l := by
  cases h with
  | blank h =>
    intro hn
    rcases h _ hn with h | h <;> revert h <;> decide
  | comment h hs =>
    intro hn
    rcases List.mem_append.1 hn with hn | hn
    · rcases h _ hn with h | h <;> revert h <;> decide
    · rcases List.mem_cons.1 hn with hn | hn
      · revert hn; decide
      · exact hs hn
  | piece h => exact words_nl h

theorem drop_bl {g s : Str} (hg : ∀ c ∈ g, c = ' ' ∨ c = '\t') : (g ++ s).dropWhile isBl = s.dropWhile isBl := by
  rw [List.dropWhile_append_of_pos]
  intro c hc
  exact (isBl_iff c).2 (hg c hc)

theorem readAll_lines {num : Str → Option N} {zero : N} {lines : List Str} {items : List (Option (Piece N))}
    (h : List.Forall₂ (IsLine num zero) lines items) : readAll num zero lines = some ((items.filterMap id).map ofPiece) := by
  induction h with
  | nil => rfl
  | @cons l i ls is h1 _ ih =>
    cases h1 with
    | blank h =>
      have := drop_bl (s := []) h
      rw [List.append_nil] at this
      simp [readAll, this, ih]
    | comment h hs =>
      have : ∀ s, ('%' :: s).dropWhile isBl = '%' :: s := fun s => rfl
      simp [readAll, drop_bl h, this, ih]
    | @piece _ ws p h hp hd =>
      obtain ⟨a, b, more, hws, -⟩ := id hd
      subst hws
      obtain ⟨q1, q2⟩ := words_line h hp
      rw [readAll]
      simp only [q2, Bool.false_eq_true, if_false, readLine_piece q1 hd, ih]
      simp

theorem readAll_snoc (num : Str → Option N) (zero : N) (ls : List Str) : readAll num zero (ls ++ [[]]) = readAll num zero ls := by
  induction ls with
  | nil => rfl
  | cons l ls ih => simp only [List.cons_append, readAll, ih]

theorem readAll_text (num : Str → Option N) (zero : N) {lines : List Str} {text : Str} (h : IsText lines text)
    (hn : ∀ l ∈ lines, '\n' ∉ l) : readAll num zero (linesAux [] text) = readAll num zero lines := by
  rcases h with rfl | ⟨ls, l, rfl, rfl⟩
  · have := linesAux_all lines hn []
    rw [List.append_nil] at this
    rw [this]
    simp [linesAux]
  · rw [linesAux_all ls (fun x hx => hn x (List.mem_append_left _ hx)), linesAux_end l (hn l (by simp))]
    by_cases hl : l = []
    · subst hl
      simp only [List.reverse_nil, List.append_nil, if_true]
      rw [readAll_snoc]
    · rw [if_neg (by simpa using hl)]
      rfl

/-- **C81.** A text of blank lines, comments and pieces gives exactly these pieces in their order, with the values written in
the text. -/
theorem C81_lines (num : Str → Option N) (zero : N) (lines : List Str) (items : List (Option (Piece N))) (text : Str)
    (hl : List.Forall₂ (IsLine num zero) lines items) (ht : IsText lines text) :
    read num zero true text = some ((items.filterMap id).map
      (fun p => ⟨p.type, p.name, some p.length, some p.aperture, some p.strength⟩)) := by
  have hn : ∀ l ∈ lines, '\n' ∉ l := by
    intro l hm
    clear ht
    induction hl with
    | nil => cases hm
    | cons h1 _ ih =>
      rcases List.mem_cons.1 hm with rfl | hm
      · exact isLine_nl h1
      · exact ih hm
  unfold read
  rw [if_pos rfl, readAll_text num zero ht hn, readAll_lines hl]
  rfl

theorem readAll_bad {num : Str → Option N} {zero : N} {l : Str}
    (h1 : ((l.dropWhile isBl).isEmpty || (l.dropWhile isBl).head? == some '%') = false)
    (h2 : readLine num zero (stripEnd l) = none) : ∀ {ls : List Str}, l ∈ ls → readAll num zero ls = none := by
  intro ls hm
  induction ls with
  | nil => cases hm
  | cons a ls ih =>
    rw [readAll]
    rcases List.mem_cons.1 hm with rfl | hm
    · simp [h1, h2]
    · rw [ih hm]
      dsimp only
      split
      · rfl
      · split <;> rfl

/-- **C81.** A line in which one of the values begins with a character that no number begins with is refused, wherever it is; and
so is a file that cannot be read. -/
theorem C81_refused (num : Str → Option N) (zero : N) (opened : Bool) (pre l post : Str)
    (hpre : pre = [] ∨ pre.getLast? = some '\n') (hpost : post = [] ∨ post.head? = some '\n')
    {ty nm w : Str} {vals more : List Str} {c : Char} (hw : Words l (ty :: nm :: (vals ++ w :: more)))
    (hp : ty.head? ≠ some '%') (hv : ∀ v ∈ vals, Numeral v ∧ ∃ x, num v = some x)
    (hn : (Plain ty → vals.length < 2) ∧ vals.length < 3) (hc : w.head? = some c) (hf : Foreign c) :
    read num zero opened (pre ++ (l ++ post)) = none ∧ read num zero false (pre ++ (l ++ post)) = none := by
  refine ⟨?_, rfl⟩
  unfold read
  cases opened with
  | false => rfl
  | true =>
    obtain ⟨q1, q2⟩ := words_line hw hp
    have hne : l ≠ [] := by
      rintro rfl
      exact absurd (words_nil hw) (by simp)
    rw [if_pos rfl]
    refine readAll_bad q2 ?_ (line_mem hpre hpost (words_nl hw) hne)
    obtain ⟨r1, g1, w1⟩ := getWord_words q1
    obtain ⟨r2, g2, w2⟩ := getWord_words w1
    unfold readLine
    simp only [g1, isEmpty_words w1, g2, Option.getD_some]
    match vals, hv, hn, w2 with
    | [], hv, hn, w2 =>
      obtain ⟨r3, g3⟩ := getDouble_foreign (num := num) w2 hc hf
      have h2 : r2.isEmpty = false := isEmpty_words w2
      rw [h2, g3]
      simp only [getDouble_fail]
      split <;> simp
    | [a], hv, hn, w2 =>
      obtain ⟨ha, x, hx⟩ := hv a (by simp)
      obtain ⟨r3, g3, w3⟩ := getDouble_words w2 ha hx
      obtain ⟨r4, g4⟩ := getDouble_foreign (num := num) w3 hc hf
      have h2 : r2.isEmpty = false := isEmpty_words w2
      have h3 : r3.isEmpty = false := isEmpty_words w3
      rw [h2, g3]
      simp only [h3, g4, getDouble_fail]
      split <;> simp
    | [a, b], hv, hn, w2 =>
      obtain ⟨ha, x, hx⟩ := hv a (by simp)
      obtain ⟨hb, y, hy⟩ := hv b (by simp)
      obtain ⟨r3, g3, w3⟩ := getDouble_words w2 ha hx
      obtain ⟨r4, g4, w4⟩ := getDouble_words w3 hb hy
      obtain ⟨r5, g5⟩ := getDouble_foreign (num := num) w4 hc hf
      have h2 : r2.isEmpty = false := isEmpty_words w2
      have h3 : r3.isEmpty = false := isEmpty_words w3
      have h4 : r4.isEmpty = false := isEmpty_words w4
      have hnp : ¬ Plain ty := fun hp => by have := hn.1 hp; simp at this
      rw [h2, g3]
      simp only [h3, g4, h4, g5]
      have hcond : ty ≠ "drift".toList ∧ ty ≠ "AccGap".toList := ⟨fun q => hnp (.inl q), fun q => hnp (.inr q)⟩
      rw [if_pos hcond]
      rfl
    | _ :: _ :: _ :: _, hv, hn, w2 =>
      have := hn.2
      simp at this
      omega

/-- **C81** is false for lines that end too early: unless a word is left over for every value, the piece is accepted without
that value, and goes on with whatever was in memory. -/
theorem C81_short_false (num : Str → Option N) (zero : N) {l ty : Str} {ws : List Str} (hw : Words l (ty :: ws))
    (hp : ty.head? ≠ some '%') (hn : ws.length < 3 ∨ ws.length < 4 ∧ ¬ Plain ty)
    (hv : ∀ v ∈ ws.tail, Numeral v ∧ ∃ x, num v = some x) :
    ∃ p, read num zero true (l ++ ['\n']) = some [p] ∧ p.type = ty ∧
      (p.length = none ∨ p.aperture = none ∨ p.E0 = none) := by
  obtain ⟨q1, q2⟩ := words_line hw hp
  have hread : ∀ p, readLine num zero (stripEnd l) = some p → read num zero true (l ++ ['\n']) = some [p] := by
    intro p h
    have := linesAux_line l (words_nl hw) [] []
    unfold read
    rw [if_pos rfl, this]
    simp only [List.reverse_nil, List.nil_append, linesAux, List.isEmpty_nil, if_true, readAll, q2, Bool.false_eq_true,
      if_false, h]
  suffices h : ∃ p, readLine num zero (stripEnd l) = some p ∧ p.type = ty ∧
      (p.length = none ∨ p.aperture = none ∨ p.E0 = none) by
    obtain ⟨p, h1, h2⟩ := h
    exact ⟨p, hread p h1, h2⟩
  obtain ⟨r1, g1, w1⟩ := getWord_words q1
  unfold readLine
  simp only [g1, Option.getD_some]
  match ws, hn, hv, w1 with
  | [], hn, hv, w1 =>
    obtain ⟨r2, g2⟩ := getWord_none w1 _ rfl
    rw [g2]
    simp only [getDouble_fail]
    split <;> exact ⟨_, rfl, rfl, .inl rfl⟩
  | [nm], hn, hv, w1 =>
    obtain ⟨r2, g2, w2⟩ := getWord_words w1
    have h1 : r1.isEmpty = false := isEmpty_words w1
    obtain ⟨r3, g3⟩ := getDouble_none num w2 _ rfl
    rw [h1, g2]
    simp only [g3, getDouble_fail]
    split <;> exact ⟨_, rfl, rfl, .inl rfl⟩
  | [nm, a], hn, hv, w1 =>
    obtain ⟨ha, x, hx⟩ := hv a (by simp)
    obtain ⟨r2, g2, w2⟩ := getWord_words w1
    obtain ⟨r3, g3, w3⟩ := getDouble_words w2 ha hx
    obtain ⟨r4, g4⟩ := getDouble_none num w3 _ rfl
    have h1 : r1.isEmpty = false := isEmpty_words w1
    have h2 : r2.isEmpty = false := isEmpty_words w2
    rw [h1, g2]
    simp only [h2, g3, g4, getDouble_fail]
    split <;> exact ⟨_, rfl, rfl, .inr (.inl rfl)⟩
  | [nm, a, b], hn, hv, w1 =>
    obtain ⟨ha, x, hx⟩ := hv a (by simp)
    obtain ⟨hb, y, hy⟩ := hv b (by simp)
    obtain ⟨r2, g2, w2⟩ := getWord_words w1
    obtain ⟨r3, g3, w3⟩ := getDouble_words w2 ha hx
    obtain ⟨r4, g4, w4⟩ := getDouble_words w3 hb hy
    obtain ⟨r5, g5⟩ := getDouble_none num w4 _ rfl
    have h1 : r1.isEmpty = false := isEmpty_words w1
    have h2 : r2.isEmpty = false := isEmpty_words w2
    have h3 : r3.isEmpty = false := isEmpty_words w3
    have hnp : ¬ Plain ty := by
      rcases hn with hn | hn
      · simp at hn
      · exact hn.2
    have hcond : ty ≠ "drift".toList ∧ ty ≠ "AccGap".toList := ⟨fun q => hnp (.inl q), fun q => hnp (.inr q)⟩
    rw [h1, g2]
    simp only [h2, g3, h3, g4]
    rw [if_pos hcond]
    simp only [g5]
    exact ⟨_, rfl, rfl, .inr (.inr rfl)⟩
  | _ :: _ :: _ :: _ :: _, hn, hv, w1 =>
    simp at hn
    omega

/-- **C81** is false for blank lines of files with line ends of two characters: such a line is taken for a piece without a
type. -/
theorem C81_crlf_false (num : Str → Option N) (zero : N) :
    read num zero true "\r\n".toList = some [⟨[], [], none, none, none⟩] := rfl

/-! ### Cases -/

/-- Numbers represented by their text. -/
def exNum (s : Str) : Option Str := if s.getLast? = some 'e' then none else some s

/-- A comment, a drift, a lens with a remark and a blank line. -/
def exLines : List Str := ["% lens\r".toList, "drift D1 68.1 .015\r".toList, " EFocus1\tEF 0 .015  -2.5e3 old".toList, " ".toList]

/-- What they say. -/
def exItems : List (Option (Piece Str)) :=
  [none, some ⟨"drift".toList, "D1".toList, "68.1".toList, ".015".toList, []⟩,
    some ⟨"EFocus1".toList, "EF".toList, "0".toList, ".015".toList, "-2.5e3".toList⟩, none]

theorem exLines_ok : List.Forall₂ (IsLine exNum []) exLines exItems := by
  have n0 : Numeral "0".toList := ⟨[], "0".toList, [], [], rfl, .inl rfl, .inl ⟨⟨by simp, by decide⟩, .inl rfl⟩, .inl rfl⟩
  have n1 : Numeral "68.1".toList :=
    ⟨[], "68".toList, ".1".toList, [], rfl, .inl rfl, .inl ⟨⟨by simp, by decide⟩, .inr ⟨['1'], rfl, .inr ⟨by simp, by
      decide⟩⟩⟩, .inl rfl⟩
  have n2 : Numeral "-2.5e3".toList :=
    ⟨['-'], ['2'], ['.', '5'], ['e', '3'], rfl, .inr (.inr rfl),
      .inl ⟨⟨by simp, by decide⟩, .inr ⟨['5'], rfl, .inr ⟨by simp, by decide⟩⟩⟩,
      .inr ⟨'e', [], ['3'], rfl, .inl rfl, .inl rfl, ⟨by simp, by decide⟩⟩⟩
  have n3 : Numeral ".015".toList :=
    ⟨[], [], ".015".toList, [], rfl, .inl rfl, .inr ⟨rfl, "015".toList, rfl, ⟨by simp, by decide⟩⟩, .inl rfl⟩
  have sp : ∀ s : Str, (∀ c ∈ s, c = ' ' ∨ c = '\t' ∨ c = '\r') → ∀ c ∈ s, Space c := fun _ h => h
  have vi : ∀ s : Str, (∀ c ∈ s, c ∉ [' ', '\t', '\n', '\r', Char.ofNat 11, Char.ofNat 12]) → ∀ c ∈ s, Visible c := fun _ h => h
  refine .cons ?_ (.cons ?_ (.cons ?_ (.cons ?_ .nil)))
  · exact IsLine.comment (g := []) (s := " lens\r".toList) (by decide) (by decide)
  · refine IsLine.piece (ws := ["drift".toList, "D1".toList, "68.1".toList, ".015".toList]) ?_ (by decide) ?_
    · exact Words.cons (g := []) (w := "drift".toList) (c := ' ') (s := "D1 68.1 .015\r".toList) (sp _ (by decide)) (by
      decide) (vi _ (by decide)) (.inl rfl)
        (Words.cons (g := []) (w := "D1".toList) (c := ' ') (s := "68.1 .015\r".toList) (sp _ (by decide)) (by decide) (vi _
          (by decide)) (.inl rfl)
        (Words.cons (g := []) (w := "68.1".toList) (c := ' ') (s := ".015\r".toList) (sp _ (by decide)) (by decide) (vi _ (by
          decide)) (.inl rfl)
        (Words.cons (g := []) (w := ".015".toList) (c := '\r') (s := []) (sp _ (by decide)) (by decide) (vi _ (by decide))
          (.inr (.inr rfl))
        (.none (by simp)))))
    · exact ⟨_, _, [], rfl, n1, by decide, n3, by decide, fun _ => rfl, fun h => absurd (.inl rfl) h⟩
  · refine IsLine.piece (ws := ["EFocus1".toList, "EF".toList, "0".toList, ".015".toList, "-2.5e3".toList, "old".toList])
      ?_ (by decide) ?_
    · exact Words.cons (g := [' ']) (w := "EFocus1".toList) (c := '\t') (s := "EF 0 .015  -2.5e3 old".toList) (sp _ (by
      decide)) (by decide) (vi _ (by decide)) (.inr (.inl rfl))
        (Words.cons (g := []) (w := "EF".toList) (c := ' ') (s := "0 .015  -2.5e3 old".toList) (sp _ (by decide)) (by decide)
          (vi _ (by decide)) (.inl rfl)
        (Words.cons (g := []) (w := "0".toList) (c := ' ') (s := ".015  -2.5e3 old".toList) (sp _ (by decide)) (by decide)
          (vi _ (by decide)) (.inl rfl)
        (Words.cons (g := []) (w := ".015".toList) (c := ' ') (s := " -2.5e3 old".toList) (sp _ (by decide)) (by decide) (vi
          _ (by decide)) (.inl rfl)
        (Words.cons (g := [' ']) (w := "-2.5e3".toList) (c := ' ') (s := "old".toList) (sp _ (by decide)) (by decide) (vi _
          (by decide)) (.inl rfl)
        (Words.last (g := []) (w := "old".toList) (by simp) (by decide) (vi _ (by decide)))))))
    · refine ⟨_, _, ["-2.5e3".toList, "old".toList], rfl, n0, by decide, n3, by decide, ?_, fun _ => ⟨_, _, rfl, n2, by decide⟩⟩
      unfold Plain
      decide
  · exact .blank (by decide)

/-- A case of `C81_lines`. -/
example : IsText exLines "% lens\r\ndrift D1 68.1 .015\r\n EFocus1\tEF 0 .015  -2.5e3 old\n \n".toList :=
  .inl (by decide +kernel)

/-- A case of `C81_refused`: a length in words. -/
example : Words "drift D1 long 1".toList ("drift".toList :: "D1".toList :: ([] ++ "long".toList :: ["1".toList])) ∧
    "drift".toList.head? ≠ some '%' ∧ "long".toList.head? = some 'l' ∧ Foreign 'l' := by
  refine ⟨?_, by decide, rfl, by unfold Foreign; decide⟩
  have vi : ∀ s : Str, (∀ c ∈ s, c ∉ [' ', '\t', '\n', '\r', Char.ofNat 11, Char.ofNat 12]) → ∀ c ∈ s, Visible c := fun _ h => h
  exact Words.cons (g := []) (w := "drift".toList) (c := ' ') (s := "D1 long 1".toList) (by simp) (by decide) (vi _ (by
    decide)) (.inl rfl)
    (Words.cons (g := []) (w := "D1".toList) (c := ' ') (s := "long 1".toList) (by simp) (by decide) (vi _ (by decide)) (.inl rfl)
    (Words.cons (g := []) (w := "long".toList) (c := ' ') (s := "1".toList) (by simp) (by decide) (vi _ (by decide)) (.inl rfl)
    (Words.last (g := []) (w := "1".toList) (by simp) (by decide) (vi _ (by decide)))))

/-- A case of `C81_short_false`: a lens without its strength. -/
example : ∃ p, read exNum [] true ("EFocus1 EF 0 1".toList ++ ['\n']) = some [p] ∧ p.E0 = none := ⟨_, rfl, rfl⟩

/-- Also accepted are numbers that are glued together or followed by a unit. -/
theorem C81_glued_false :
    read exNum [] true "drift D1 1.5.2\n".toList = some [⟨"drift".toList, "D1".toList, some "1.5".toList, some ".2".toList,
      some []⟩] ∧
    read exNum [] true "drift D1 1 2mm\n".toList = some [⟨"drift".toList, "D1".toList, some "1".toList, some "2".toList, some
      []⟩] := by
  refine ⟨?_, ?_⟩ <;> decide +kernel

end Flame.Lens
