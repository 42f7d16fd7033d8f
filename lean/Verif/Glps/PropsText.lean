import Verif.Glps.LexText
import Verif.Glps.Grammar
import Verif.Glps.Eval

/-!
# C06, C07, C08: from text to tokens to expressions
-/

namespace Flame.Glps

variable {N : Type}

/-! ### C06 -/

/-- A text: every token in one of its spellings, followed by a gap. -/
def textOf : List (Tok N × Name × Name) → Name
  | [] => []
  | (_, w, g) :: l => w ++ (g ++ textOf l)

/-- **C06.** Tokens written out with non-empty gaps (blanks, tabs, newlines, complete comments) between
them, and any gap in front, are scanned as the same tokens. -/
theorem C06_roundtrip (strtod : Name → Option N) (g0 : Name) (l : List (Tok N × Name × Name))
    (hg0 : IsGap g0) (hl : ∀ x ∈ l, Writes strtod x.1 x.2.1 ∧ IsGap x.2.2 ∧ x.2.2 ≠ []) :
    lexAll strtod (g0 ++ textOf l) = (l.map (·.1), true) := by
  rw [lexAll_gap strtod hg0]
  clear hg0
  induction l with
  | nil => rfl
  | cons x l ih =>
    obtain ⟨t, w, g⟩ := x
    obtain ⟨h1, h2, h3⟩ := hl (t, w, g) (List.mem_cons_self ..)
    rw [textOf, lexAll_append_gap strtod (lexAll_single strtod h1) h2 h3,
      ih (fun y hy => hl y (List.mem_cons_of_mem _ hy))]
    rfl

/-- **C06.** The gap after the last token may be missing. -/
theorem C06_roundtrip_end (strtod : Name → Option N) (g0 : Name) (l : List (Tok N × Name × Name))
    (t : Tok N) (w : Name) (hg0 : IsGap g0)
    (hl : ∀ x ∈ l, Writes strtod x.1 x.2.1 ∧ IsGap x.2.2 ∧ x.2.2 ≠ []) (ht : Writes strtod t w) :
    lexAll strtod (g0 ++ (textOf l ++ w)) = (l.map (·.1) ++ [t], true) := by
  rw [lexAll_gap strtod hg0]
  clear hg0
  induction l with
  | nil => exact lexAll_single strtod ht
  | cons x l ih =>
    obtain ⟨t', w', g⟩ := x
    obtain ⟨h1, h2, h3⟩ := hl (t', w', g) (List.mem_cons_self ..)
    rw [textOf, List.append_assoc, List.append_assoc,
      lexAll_append_gap strtod (lexAll_single strtod h1) h2 h3,
      ih (fun y hy => hl y (List.mem_cons_of_mem _ hy))]
    rfl

/-- **C06.** Which blanks and comments stand between two parts of a text does not matter. -/
theorem C06_gaps (strtod : Name → Option N) (a b g g' : Name) (ts : List (Tok N))
    (ha : lexAll strtod a = (ts, true)) (hg : IsGap g) (hg0 : g ≠ []) (hg' : IsGap g') (hg0' : g' ≠ []) :
    lexAll strtod (a ++ (g ++ b)) = lexAll strtod (a ++ (g' ++ b)) ∧
    lexAll strtod (a ++ (g ++ b)) = (ts ++ (lexAll strtod b).1, (lexAll strtod b).2) := by
  rw [lexAll_append_gap strtod ha hg hg0, lexAll_append_gap strtod ha hg' hg0']
  exact ⟨rfl, rfl⟩

/-- Digit strings as natural numbers, for the examples. -/
def natOf (s : Name) : Option Nat :=
  if s.all isDig then some (s.foldl (fun n c => 10 * n + (c.toNat - 48)) 0) else none

theorem isGap_of_blank {p : Name} (h : Form .blank p) : IsGap p := ⟨[p], by simp, by simpa using h⟩

/-- Example: `a:b`, `"x y"` and `42` with a tab and a comment between them. -/
example : lexAll natOf ([] ++ textOf [(.kw "a:b".toList, "a:b".toList, "\t".toList),
    (.str "x y".toList, "\"x y\"".toList, "# c\n".toList),
    (.num 42, "42".toList, "\n".toList)]) = ([.kw "a:b".toList, .str "x y".toList, .num 42], true) := by
  refine C06_roundtrip natOf [] _ ⟨[], rfl, by simp⟩ ?_
  intro x hx
  simp only [List.mem_cons, List.not_mem_nil, or_false] at hx
  rcases hx with rfl | rfl | rfl
  · refine ⟨⟨⟨'a', ":b".toList, rfl, by decide, by decide, by decide⟩, rfl⟩,
      isGap_of_blank (.blank (by decide)), by decide⟩
  · refine ⟨⟨by unfold StrOk; decide, rfl⟩, isGap_of_blank (.comment (s := " c".toList) (by decide)), by decide⟩
  · refine ⟨⟨⟨"42".toList, [], [], rfl, by decide, by unfold Digits; decide, Or.inl rfl, Or.inl rfl⟩,
      by decide⟩, isGap_of_blank (.blank (by decide)), by decide⟩

/-! ### C07 -/

/-- **C07.** Scanning any text follows the description `Reads`: always the longest piece, until the
end of the text, a place where no piece starts, or a number out of range; and there is no other way
to read the text. -/
theorem C07_scan (strtod : Name → Option N) (s : Name) (ts : List (Tok N)) (b : Bool) :
    lexAll strtod s = (ts, b) ↔ Reads strtod s ts b := by
  have h := lexAll_reads strtod s
  constructor
  · intro he
    rw [he] at h
    exact h
  · intro h'
    obtain ⟨h1, h2⟩ := reads_unique h h'
    rw [← h1, ← h2]

/-- **C07.** When scanning succeeds the pieces read make up the whole text and the tokens are what the
pieces stand for. -/
theorem C07_complete (strtod : Name → Option N) (s : Name) (ts : List (Tok N))
    (h : lexAll strtod s = (ts, true)) :
    ∃ ps : List (PieceKind × Name), (ps.map (·.2)).flatten = s ∧ (∀ x ∈ ps, Form x.1 x.2) ∧
      ps.map (fun x => meaning strtod x.1 x.2) = (ps.map (fun x => (meaning strtod x.1 x.2).getD none)).map some ∧
      ts = ps.filterMap (fun x => (meaning strtod x.1 x.2).getD none) := by
  have hr := (C07_scan strtod s ts true).1 h
  clear h
  generalize hb : true = b at hr
  induction hr with
  | done => exact ⟨[], rfl, by simp, rfl, rfl⟩
  | @tok k p s t ts b hl hm _ ih =>
    obtain ⟨ps, h1, h2, h3, h4⟩ := ih hb
    refine ⟨(k, p) :: ps, ?_, ?_, ?_, ?_⟩
    · simp [h1]
    · intro x hx
      rcases List.mem_cons.1 hx with rfl | hx
      · exact hl.1
      · exact h2 x hx
    · simp only [List.map_cons, hm, Option.getD_some, h3]
    · simp [hm, ← h4]
  | @skip k p s ts b hl hm _ ih =>
    obtain ⟨ps, h1, h2, h3, h4⟩ := ih hb
    refine ⟨(k, p) :: ps, ?_, ?_, ?_, ?_⟩
    · simp [h1]
    · intro x hx
      rcases List.mem_cons.1 hx with rfl | hx
      · exact hl.1
      · exact h2 x hx
    · simp only [List.map_cons, hm, Option.getD_some, h3]
    · simp [hm, ← h4]
  | range => cases hb
  | stuck => cases hb

theorem note_isSome (c : Ctx N) (e : PErr) : (c.note e).err.isSome = true := by
  unfold Ctx.note
  cases h : c.err <;> simp

theorem abort_isSome (c : Ctx N) (f : Fail) : (c.abort f).err.isSome = true := by
  cases f with
  | soft e => exact note_isSome c e
  | hard e => rfl

theorem exec_abort_isSome (a : Arith N) (c c' : Ctx N) (s : Stmt N) (h : exec a c s = (c', false)) :
    c'.err.isSome = true := by
  unfold exec at h
  cases s with
  | assign n e =>
    simp only at h
    split at h
    · have := (Prod.mk.inj h).1
      rw [← this]; exact abort_isSome _ _
    · cases (Prod.mk.inj h).2
  | element l t ps =>
    simp only at h
    split at h
    · have := (Prod.mk.inj h).1
      rw [← this]; exact abort_isSome _ _
    · cases (Prod.mk.inj h).2
  | line l t es =>
    simp only at h
    split at h
    · have := (Prod.mk.inj h).1
      rw [← this]; exact abort_isSome _ _
    · split at h
      · have := (Prod.mk.inj h).1
        rw [← this]; exact abort_isSome _ _
      · cases (Prod.mk.inj h).2
  | func f e =>
    simp only at h
    split at h
    · have := (Prod.mk.inj h).1
      rw [← this]; exact abort_isSome _ _
    · cases (Prod.mk.inj h).2
  | command k => cases (Prod.mk.inj h).2

theorem execAll_abort_isSome (a : Arith N) (ss : List (Stmt N)) : ∀ (c c' : Ctx N),
    execAll a c ss = (c', false) → c'.err.isSome = true := by
  induction ss with
  | nil => intro c c' h; cases (Prod.mk.inj h).2
  | cons s ss ih =>
    intro c c' h
    rw [execAll] at h
    split at h
    · exact ih _ _ h
    · rename_i c1 he
      rw [← (Prod.mk.inj h).1]
      exact exec_abort_isSome a c c1 s he

/-- **C07.** A text that is not scanned to its end never yields a configuration. -/
theorem C07_rejected (a : Arith N) (strtod : Name → Option N) (vars : SMap Name (CV N)) (s : Name)
    (lattice : Bool) (ts : List (Tok N)) (h : lexAll strtod s = (ts, false)) :
    ∃ e, parseText a strtod vars s lattice = .perr e := by
  have key : (parseCtx a strtod (fillVars Ctx.empty vars) s).err.isSome = true := by
    unfold parseCtx
    rw [h]
    simp only [Bool.false_and, Bool.false_eq_true, if_false]
    split
    · rename_i c' he
      exact execAll_abort_isSome a _ _ _ he
    · exact note_isSome _ _
  unfold parseText finish
  cases he : (parseCtx a strtod (fillVars Ctx.empty vars) s).err with
  | none => rw [he] at key; cases key
  | some e => exact ⟨e, rfl⟩

/-- Example: an unterminated string and a comment without line end are rejected, `x = "a b";` is
read completely. -/
example : (lexAll natOf "x = \"a".toList).2 = false ∧ (lexAll natOf "x; # end".toList).2 = false ∧
    lexAll natOf "x = \"a b\";".toList = ([.kw "x".toList, .sym '=', .str "a b".toList, .sym ';'], true) := by
  decide +kernel

/-! ### C08 -/

/-- **C08.** Every expression tree written with the fewest parentheses that precedence and left
grouping allow is parsed back to itself, in every place where an expression can stand. -/
theorem C08_parse_print (e : Exp N) (he : e.Wf) (rest : List (Tok N)) (hs : Stop 0 rest)
    (hn : NoPar rest) :
    pExpr (fuelFor (showE 0 e ++ rest)) 0 (showE 0 e ++ rest) = some (e, rest) :=
  pExpr_complete (showE_der e he 0) hs hn

/-- **C08.** The parser accepts exactly the expressions of the grammar: the whole token list is an
expression with value `e` if and only if the grammar derives it. -/
theorem C08_grammar (ts : List (Tok N)) (e : Exp N) :
    pExpr (fuelFor ts) 0 ts = some (e, []) ↔ DerE 0 ts e := by
  constructor
  · intro h
    obtain ⟨pre, hp, hd, _⟩ := (sound _).expr _ _ _ _ h
    rw [hp, List.append_nil]
    exact hd
  · intro h
    have := pExpr_complete (rest := []) h trivial rfl
    rwa [List.append_nil] at this

/-- **C08.** The grammar is unambiguous. -/
theorem C08_unambiguous (ts : List (Tok N)) (e e' : Exp N) (h : DerE 0 ts e) (h' : DerE 0 ts e') :
    e = e' := by
  have h1 := (C08_grammar ts e).2 h
  rw [(C08_grammar ts e').2 h'] at h1
  injection h1 with h1
  exact (Prod.mk.inj h1).1.symm

/-- **C08.** `+` and `-`, and `*` and `/`, group to the left, for any operands `a`, `b`, `c`. -/
theorem C08_left (op op' : Char)
    (hop : (op = '+' ∨ op = '-') ∧ (op' = '+' ∨ op' = '-') ∨ (op = '*' ∨ op = '/') ∧ (op' = '*' ∨ op' = '/'))
    (ta tb tc : List (Tok N))
    (a b c : Exp N) (ha : DerU ta a) (hb : DerU tb b) (hc : DerU tc c) :
    pExpr (fuelFor (ta ++ .sym op :: (tb ++ .sym op' :: tc))) 0 (ta ++ .sym op :: (tb ++ .sym op' :: tc)) =
      some (.bin op' (.bin op a b) c, []) := by
  have h : prec op ≠ 0 := by
    rcases hop with ⟨rfl | rfl, _⟩ | ⟨rfl | rfl, _⟩ <;> decide
  have h' : prec op' = prec op := by
    rcases hop with ⟨rfl | rfl, rfl | rfl⟩ | ⟨rfl | rfl, rfl | rfl⟩ <;> decide
  rw [C08_grammar]
  have := DerE.bin (p := 0) (c := op') (by rw [h']; exact h) (Nat.zero_le _)
    (DerE.bin (p := prec op') (c := op) h (by rw [h']) (.unary ha) (.unary hb)) (.unary hc)
  simpa using this

/-- **C08.** `*` and `/` bind tighter than `+` and `-` on either side, unary minus tighter than all. -/
theorem C08_tight (op mul : Char) (hop : op = '+' ∨ op = '-') (hmul : mul = '*' ∨ mul = '/')
    (ta tb tc : List (Tok N))
    (a b c : Exp N) (ha : DerU ta a) (hb : DerU tb b) (hc : DerU tc c) :
    pExpr (fuelFor (ta ++ .sym op :: (tb ++ .sym mul :: tc))) 0 (ta ++ .sym op :: (tb ++ .sym mul :: tc)) =
      some (.bin op a (.bin mul b c), []) ∧
    pExpr (fuelFor (ta ++ .sym mul :: (tb ++ .sym op :: tc))) 0 (ta ++ .sym mul :: (tb ++ .sym op :: tc)) =
      some (.bin op (.bin mul a b) c, []) ∧
    pExpr (fuelFor (.sym '-' :: (ta ++ .sym mul :: tb))) 0 (.sym '-' :: (ta ++ .sym mul :: tb)) =
      some (.bin mul (.neg a) b, []) ∧
    pExpr (fuelFor (ta ++ .sym op :: .sym '-' :: tb)) 0 (ta ++ .sym op :: .sym '-' :: tb) =
      some (.bin op a (.neg b), []) := by
  have h : prec op = 1 := by rcases hop with rfl | rfl <;> decide
  have h' : prec mul = 2 := by rcases hmul with rfl | rfl <;> decide
  refine ⟨?_, ?_, ?_, ?_⟩
  · rw [C08_grammar]
    exact .bin (by rw [h]; decide) (Nat.zero_le _) (.unary ha)
      (.bin (by rw [h']; decide) (by rw [h, h']) (.unary hb) (.unary hc))
  · rw [C08_grammar]
    have := DerE.bin (p := 0) (c := op) (by rw [h]; decide) (Nat.zero_le _)
      (DerE.bin (p := prec op) (c := mul) (by rw [h']; decide) (by rw [h, h']; decide) (.unary ha) (.unary hb))
      (.unary hc)
    simpa using this
  · rw [C08_grammar]
    exact .bin (tl := .sym '-' :: ta) (by rw [h']; decide) (Nat.zero_le _) (.unary (.neg ha)) (.unary hb)
  · rw [C08_grammar]
    exact .bin (by rw [h]; decide) (Nat.zero_le _) (.unary ha) (.unary (.neg hb))

/-- The tree of `-(a-b)*c - f([d, e+1])/2`. -/
def exTree : Exp Nat :=
  .bin '-'
    (.bin '*' (.neg (.bin '-' (.var ['a']) (.var ['b']))) (.var ['c']))
    (.bin '/' (.call ['f'] (.vec (.cons (.var ['d']) (.cons (.bin '+' (.var ['e']) (.num 1)) .nil)))) (.num 2))

/-- Example: the tree is well formed and round trips. -/
example : exTree.Wf ∧ pExpr (fuelFor (showE 0 exTree ++ [.sym ';'])) 0 (showE 0 exTree ++ [.sym ';']) =
    some (exTree, [.sym ';']) := by
  have h : exTree.Wf := by simp [exTree, Exp.Wf, Exps.Wf]
  exact ⟨h, C08_parse_print exTree h _ (Or.inl rfl) rfl⟩

end Flame.Glps
