import Verif.Glps.Lines
import Verif.Glps.LinesSpec
import Verif.Glps.LexLemmas
import Verif.Glps.Grammar
import Verif.Glps.PropsEval

/-! # Messages name the right line: C106 -/

namespace Flame.Glps

variable {N : Type}

/-! ## the scanner -/

theorem letter_nl {c : Char} (h : Letter c) : c ≠ '\n' := by
  rintro rfl
  revert h
  decide

theorem digit_nl {c : Char} (h : Digit c) : c ≠ '\n' := by
  rintro rfl
  revert h
  decide

theorem digits_nl {p : Name} (h : Digits p) : '\n' ∉ p := fun hm => digit_nl (h _ hm) rfl

theorem frac_nl {p : Name} (h : IsFrac p) : '\n' ∉ p := by
  rcases h with rfl | ⟨d, rfl, hd⟩
  · simp
  · simp [digits_nl hd]

theorem expo_nl {p : Name} (h : IsExpo p) : '\n' ∉ p := by
  rcases h with rfl | ⟨e, sg, d, rfl, he, hs, -, hd⟩
  · simp
  · rcases he with rfl | rfl <;> rcases hs with rfl | rfl | rfl <;> simp [digits_nl hd]

/-- Only what is ignored contains line breaks. -/
theorem form_nl {k : PieceKind} {p : Name} (h : Form k p) (hk : k ≠ .blank) : '\n' ∉ p := by
  cases h with
  | kw h =>
    obtain ⟨c, r, rfl, hc, hr, -⟩ := h
    simp only [List.mem_cons, not_or]
    refine ⟨fun h => letter_nl hc h.symm, fun hm => ?_⟩
    rcases hr _ hm with h | h | h | h
    · exact letter_nl h rfl
    · exact digit_nl h rfl
    · exact absurd h (by decide)
    · exact absurd h (by decide)
  | num h =>
    obtain ⟨a, b, c, rfl, -, ha, hb, hc⟩ := h
    simp [digits_nl ha, frac_nl hb, expo_nl hc]
  | str h =>
    simp only [List.mem_cons, List.mem_append, List.not_mem_nil, or_false, not_or]
    exact ⟨by decide, fun hm => (h _ hm).2.1 rfl, by decide⟩
  | sym h => revert h; simp only [List.mem_singleton]; rintro h rfl; revert h; decide
  | blank _ => exact absurd rfl hk
  | comment _ => exact absurd rfl hk

theorem blank_nl {p s : Name} (h : Form .blank p) : p.count '\n' = breaks (p ++ s) := by
  cases h with
  | @blank c h =>
    simp only [List.mem_cons, List.not_mem_nil, or_false] at h
    rcases h with rfl | rfl | rfl <;> simp [breaks]
  | @comment t h =>
    simp [breaks, List.count_eq_zero.2 h]

theorem meaning_tok {strtod : Name → Option N} {k : PieceKind} {p : Name} {t : Tok N} (h : meaning strtod k p = some (some t)) :
    k ≠ .blank := by
  rintro rfl
  simp [meaning] at h

theorem meaning_skip {strtod : Name → Option N} {k : PieceKind} {p : Name} (hf : Form k p) (h : meaning strtod k p = some none) :
    k = .blank := by
  cases k with
  | kw => simp [meaning] at h
  | num => simp [meaning] at h
  | str => simp [meaning] at h
  | blank => rfl
  | sym =>
    cases hf
    simp [meaning] at h

theorem lexL_numbered (strtod : Name → Option N) (fuel : Nat) : ∀ (b s : Name), s.length < fuel →
    Numbered strtod b s (lexL strtod fuel (lineAfter b) s).1 (lexL strtod fuel (lineAfter b) s).2.1
      (lexL strtod fuel (lineAfter b) s).2.2 := by
  induction fuel with
  | zero => intro b s h; omega
  | succ fuel ih =>
    intro b s hlen
    have h := scan1_ok strtod s
    rw [lexL]
    cases hsc : scan1 strtod s with
    | eof =>
      rw [hsc] at h
      have : s = [] := h
      subst this
      exact .done
    | bad =>
      rw [hsc] at h
      rcases h with ⟨k, p, rest, rfl, hl, hm⟩ | ⟨hs, hf⟩
      · exact .range hl hm
      · exact .stuck hs hf
    | skip rest =>
      have hlt := (scan1_lt strtod s).2 rest hsc
      rw [hsc] at h
      obtain ⟨k, p, rfl, hl, hm⟩ := h
      have hk := meaning_skip hl.1 hm
      subst hk
      have e : lineAfter b + breaks (p ++ rest) = lineAfter (b ++ p) := by
        rw [← blank_nl hl.1]
        simp [lineAfter, Nat.add_assoc]
      dsimp only
      rw [e]
      exact .skip hl hm (ih _ rest (by omega))
    | tok t rest =>
      have hlt := (scan1_lt strtod s).1 t rest hsc
      rw [hsc] at h
      obtain ⟨k, p, rfl, hl, hm⟩ := h
      have e : lineAfter b = lineAfter (b ++ p) := by
        simp [lineAfter, List.count_eq_zero.2 (form_nl hl.1 (meaning_tok hm))]
      refine .tok hl hm ?_
      rw [e]
      exact ih _ rest (by omega)

/-- **C106**, scanner: every token, the end of the text, and the place where the scanner gives up have the line that is one more than the
number of line breaks before them. -/
theorem C106_scanner (strtod : Name → Option N) (text : Name) :
    Numbered strtod [] text (lexLines strtod text).1 (lexLines strtod text).2.1 (lexLines strtod text).2.2 :=
  lexL_numbered strtod (text.length + 1) [] text (by omega)

theorem lexL_same (strtod : Name → Option N) (fuel : Nat) : ∀ (line : Nat) (s : Name),
    ((lexL strtod fuel line s).1.map Prod.fst, (lexL strtod fuel line s).2.1) = lexN strtod fuel s := by
  induction fuel with
  | zero => intro line s; rfl
  | succ fuel ih =>
    intro line s
    rw [lexL, lexN]
    cases scan1 strtod s with
    | eof => rfl
    | bad => rfl
    | skip rest => exact ih _ rest
    | tok t rest =>
      have := ih line rest
      simp only [Prod.ext_iff] at this ⊢
      simp [this.1, this.2]

/-- The tokens are those of `lexAll`. -/
theorem lexLines_same (strtod : Name → Option N) (text : Name) :
    (lexLines strtod text).1.map Prod.fst = (lexAll strtod text).1 ∧ (lexLines strtod text).2.1 = (lexAll strtod text).2 := by
  have := lexL_same strtod (text.length + 1) 1 text
  rw [Prod.ext_iff] at this
  exact this

/-! ## statements -/

/-- The statements stand one behind the other among the tokens. -/
inductive StandAll : List (Tok N × Nat) → List (Placed N) → List (Tok N × Nat) → Prop
  | nil {rest} : StandAll rest [] rest
  | cons {ts ts' p ps rest} (h : Stands ts p.stmt p.first p.semi) (h' : StandAll ts' ps rest) : StandAll (ts ++ ts') (p :: ps) rest

theorem derS_ends {ts : List (Tok N)} {s : Stmt N} (h : DerS ts s) : ∃ t body, ts = t :: body ++ [.sym ';'] := by
  cases h with
  | assign k h => exact ⟨_, _ :: _, rfl⟩
  | element k t h => exact ⟨_, _ :: _ :: _, rfl⟩
  | @line k t tl es h => exact ⟨.kw k, .sym ':' :: .kw t :: .sym '=' :: .sym '(' :: (tl ++ [.sym ')']), by simp⟩
  | @func k te e h => exact ⟨.kw k, .sym '(' :: (te ++ [.sym ')']), by simp⟩
  | command k => exact ⟨_, [], rfl⟩

theorem fileL_stands : ∀ (n : Nat) (ts : List (Tok N × Nat)), ∃ rest, StandAll ts (fileL n ts) rest
  | 0, ts => ⟨ts, .nil⟩
  | _ + 1, [] => ⟨[], .nil⟩
  | n + 1, t :: ts => by
    rw [fileL]
    split
    · exact ⟨_, .nil⟩
    · rename_i s r hs
      obtain ⟨pre, hp, hd⟩ := pStmt_sound hs
      have hlen : (t :: ts).length = pre.length + r.length := by
        have := congrArg List.length hp
        simpa using this
      have hk : (t :: ts).length - r.length = pre.length := by omega
      dsimp only
      rw [hk]
      obtain ⟨rest, hrest⟩ := fileL_stands n ((t :: ts).drop pre.length)
      have htake : ((t :: ts).take pre.length).map Prod.fst = pre := by
        rw [List.map_take, hp, List.take_left]
      refine ⟨rest, ?_⟩
      have hcut := (List.take_append_drop pre.length (t :: ts))
      generalize hT : (t :: ts).take pre.length = T at htake hcut ⊢
      suffices hst : Stands T s t.2 ((T.getLast?.map Prod.snd).getD 0) by
        have := StandAll.cons (p := ⟨s, t.2, (T.getLast?.map Prod.snd).getD 0⟩) hst hrest
        rwa [hcut] at this
      obtain ⟨t0, body, rfl⟩ := derS_ends hd
      cases T with
      | nil => simp at htake
      | cons x T =>
        have hx : x = t := by
          simp only [List.cons_append, List.length_cons, List.take_succ_cons, List.cons.injEq] at hT
          exact hT.1.symm
        subst hx
        have hne : T ≠ [] := by
          rintro rfl
          simp at htake
        obtain ⟨T', y, rfl⟩ := List.eq_nil_or_concat T |>.resolve_left hne
        rw [List.concat_eq_append] at htake ⊢
        simp only [List.map_cons, List.map_append, List.map_nil, List.cons_append, List.cons.injEq] at htake
        have hy : y.1 = .sym ';' := by
          have := congrArg List.getLast? htake.2
          simpa using this
        obtain ⟨y1, y2⟩ := y
        subst hy
        have hl : ((((x :: (T' ++ [(Tok.sym ';', y2)])).getLast?).map Prod.snd).getD 0) = y2 := by
          rw [← List.cons_append, List.getLast?_concat]
          rfl
        rw [hl]
        obtain ⟨x1, x2⟩ := x
        refine .intro (body := T') ?_
        simp only [List.cons_append, List.map_cons, List.map_append, List.map_nil]
        have h1 := htake.1
        have h2 := htake.2
        dsimp only at h1 h2
        rw [h1, h2]
        exact hd

/-- The statements are those of `pAll`. -/
theorem fileL_same : ∀ (n : Nat) (ts : List (Tok N × Nat)), (fileL n ts).map Placed.stmt = (pFile n (ts.map Prod.fst)).1
  | 0, ts => by rw [fileL]; simp [pFile]
  | _ + 1, [] => by rw [fileL]; simp [pFile]
  | n + 1, t :: ts => by
    rw [fileL, List.map_cons, pFile]
    rw [← List.map_cons]
    cases hs : pStmt ((t :: ts).map Prod.fst) with
    | none => rfl
    | some q =>
      obtain ⟨s, r⟩ := q
      obtain ⟨pre, hp, hd⟩ := pStmt_sound hs
      have hlen : (t :: ts).length = pre.length + r.length := by
        have := congrArg List.length hp
        simpa using this
      have hk : (t :: ts).length - r.length = pre.length := by omega
      dsimp only
      rw [hk, List.map_cons, fileL_same n, List.map_drop, hp, List.drop_left]

theorem allL_same (ts : List (Tok N × Nat)) : (allL ts).map Placed.stmt = (pAll (ts.map Prod.fst)).1 := by
  unfold allL pAll
  rw [fileL_same, List.length_map]

/-! ## messages -/

theorem failOf_exec (a : Arith N) (c : Ctx N) (s : Stmt N) :
    (∀ f, failOf a c s = some f → exec a c s = (c.abort f, false)) ∧ (failOf a c s = none → (exec a c s).2 = true) := by
  cases s with
  | assign n e => cases h : evalE a c e <;> simp [failOf, exec, h]
  | element l t ps => cases h : evalProps a c ps <;> simp [failOf, exec, h]
  | line l t es =>
    cases h : evalList a c es with
    | error f => simp [failOf, exec, h]
    | ok ts => cases h' : appendLine ts <;> simp [failOf, exec, h, h']
  | func f e => cases h : evalE a c e <;> simp [failOf, exec, h]
  | command k => simp [failOf, exec]

theorem execL_ctx (a : Arith N) (c : LCtx N) (p : Placed N) (line : Nat) :
    ((execL a c p line).1.ctx, (execL a c p line).2) = exec a c.ctx p.stmt := by
  unfold execL
  cases failOf a c.ctx p.stmt <;> rfl

theorem runL_ctx (a : Arith N) : ∀ (l : List (Placed N × Nat)) (c : LCtx N),
    ((runL a c l).1.ctx, (runL a c l).2) = execAll a c.ctx (l.map (fun x => x.1.stmt))
  | [], _ => rfl
  | x :: l, c => by
    rw [runL, List.map_cons, execAll]
    have h := execL_ctx a c x.1 x.2
    rw [← h]
    cases hx : execL a c x.1 x.2 with
    | mk c' go =>
      cases go
      · rfl
      · exact runL_ctx a l c'

/-- The model with line numbers is the model without, with line numbers. -/
theorem C106_context (a : Arith N) (strtod : Name → Option N) (look : Look) (c : LCtx N) (text : Name) :
    (parseL a strtod look c text).ctx = parseCtx a strtod c.ctx text := by
  obtain ⟨h1, h2⟩ := lexLines_same strtod text
  have h3 : ((allL (lexLines strtod text).1).zipIdx.map (fun x => (x.1, look.expr x.2))).map (fun x => x.1.stmt) =
      (pAll (lexAll strtod text).1).1 := by
    rw [← h1, ← allL_same, List.map_map]
    conv_rhs => rw [← List.zipIdx_map_fst 0 (allL (lexLines strtod text).1), List.map_map]
    rfl
  have h := runL_ctx a ((allL (lexLines strtod text).1).zipIdx.map (fun x => (x.1, look.expr x.2))) c
  rw [h3] at h
  unfold parseL parseCtx
  dsimp only
  rw [← h, ← h1, ← h2]
  generalize runL a c _ = q
  obtain ⟨c', go⟩ := q
  cases go
  · rfl
  · dsimp only
    split <;> rfl

/-- No operation of the statements writes to `last_error` itself: division without result, factors of lines out of range, files
that do not exist. -/
def Gentle (a : Arith N) (c : Ctx N) (l : List (Stmt N)) : Prop :=
  ∀ pre s post c', l = pre ++ s :: post → execAll a c pre = (c', true) → ∀ e, failOf a c' s ≠ some (.hard e)

theorem note_keeps {c : Ctx N} {e e' : PErr} (h : c.err = some e) : (c.note e').err = some e := by
  simp [Ctx.note, h]

theorem exec_keeps {a : Arith N} {c : Ctx N} {s : Stmt N} {e : PErr} (h : c.err = some e)
    (hs : ∀ e, failOf a c s ≠ some (.hard e)) : (exec a c s).1.err = some e := by
  cases hf : failOf a c s with
  | some f =>
    rw [(failOf_exec a c s).1 f hf]
    cases f with
    | soft e' => exact note_keeps h
    | hard e' => exact absurd hf (hs e')
  | none =>
    cases s with
    | assign n x =>
      cases hx : evalE a c x with
      | error f => simp [failOf, hx] at hf
      | ok v =>
        simp only [exec, hx, doAssign]
        split
        · exact note_keeps h
        · split
          · exact note_keeps h
          · exact h
    | element l t ps =>
      cases hx : evalProps a c ps with
      | error f => simp [failOf, hx] at hf
      | ok v =>
        simp only [exec, hx, doElement]
        split
        · exact note_keeps h
        · split
          · exact note_keeps h
          · exact h
    | line l t es =>
      cases hx : evalList a c es with
      | error f => simp [failOf, hx] at hf
      | ok ts =>
        cases hy : appendLine ts with
        | error f => simp [failOf, hx, hy] at hf
        | ok v =>
          simp only [exec, hx, hy, doLine]
          split
          · exact note_keeps h
          · split
            · exact note_keeps h
            · exact h
    | func f x =>
      cases hx : evalE a c x with
      | error f => simp [failOf, hx] at hf
      | ok v =>
        simp only [exec, hx, doCall]
        split
        · exact note_keeps h
        · exact h
    | command k =>
      simp only [exec, doCommand]
      split
      · exact note_keeps h
      · exact h

theorem Gentle.tail {a : Arith N} {c c' : Ctx N} {s : Stmt N} {l : List (Stmt N)} (h : Gentle a c (s :: l))
    (hs : exec a c s = (c', true)) : Gentle a c' l := by
  intro pre x post c2 hl hrun
  refine h (s :: pre) x post c2 (by rw [hl]; rfl) ?_
  rw [execAll, hs]
  exact hrun

theorem Gentle.head {a : Arith N} {c : Ctx N} {s : Stmt N} {l : List (Stmt N)} (h : Gentle a c (s :: l)) :
    ∀ e, failOf a c s ≠ some (.hard e) := h [] s l c rfl rfl

/-- The first message stays. -/
theorem runL_keeps {a : Arith N} {e : PErr} : ∀ {l : List (Placed N × Nat)} {c : LCtx N}, c.ctx.err = some e →
    Gentle a c.ctx (l.map (fun x => x.1.stmt)) →
    (runL a c l).1.ctx.err = some e ∧ (runL a c l).1.lastLine = c.lastLine
  | [], c, h, _ => ⟨h, rfl⟩
  | x :: l, c, h, hg => by
    rw [runL]
    rw [List.map_cons] at hg
    have he := exec_keeps h hg.head
    have hctx := execL_ctx a c x.1 x.2
    have hline : (execL a c x.1 x.2).1.lastLine = c.lastLine := by
      unfold execL
      split
      · rename_i f _
        cases f <;> simp [failLine, h]
      · simp [h]
    cases hx : execL a c x.1 x.2 with
    | mk c' go =>
      rw [hx] at hctx hline
      dsimp only at hctx hline
      rw [← hctx] at he
      cases go with
      | false => exact ⟨he, hline⟩
      | true =>
        dsimp only
        obtain ⟨h1, h2⟩ := runL_keeps (l := l) he (hg.tail hctx.symm)
        exact ⟨h1, h2.trans hline⟩

theorem runL_reported {a : Arith N} {e : PErr} : ∀ {l : List (Placed N × Nat)} {c : LCtx N}, c.ctx.err = none →
    Gentle a c.ctx (l.map (fun x => x.1.stmt)) → (runL a c l).1.ctx.err = some e →
    ∃ pre x post c1, l = pre ++ x :: post ∧ execAll a c.ctx (pre.map (fun x => x.1.stmt)) = (c1, true) ∧ c1.err = none ∧
      (exec a c1 x.1.stmt).1.err = some e ∧
      (runL a c l).1.lastLine = (if failOf a c1 x.1.stmt = none then x.1.semi else x.2)
  | [], c, h, _, he => by
    rw [runL, h] at he
    cases he
  | x :: l, c, h, hg, he => by
    rw [List.map_cons] at hg
    rw [runL] at he ⊢
    have hctx := execL_ctx a c x.1 x.2
    cases hx : execL a c x.1 x.2 with
    | mk c' go =>
      rw [hx] at hctx he
      dsimp only at hctx he ⊢
      cases hc' : c'.ctx.err with
      | none =>
        cases go with
        | false => rw [show c'.ctx.err = some e from he] at hc'; cases hc'
        | true =>
          dsimp only at he ⊢
          obtain ⟨pre, y, post, c1, h1, h2, h3, h4, h5⟩ := runL_reported hc' (hg.tail hctx.symm) he
          refine ⟨x :: pre, y, post, c1, by rw [h1]; rfl, ?_, h3, h4, h5⟩
          rw [List.map_cons, execAll, ← hctx]
          exact h2
      | some e' =>
        have hline : c'.lastLine = (if failOf a c.ctx x.1.stmt = none then x.1.semi else x.2) := by
          have hE : (exec a c.ctx x.1.stmt).1.err = some e' := by rw [← hctx]; exact hc'
          have := congrArg (fun q => q.1.lastLine) hx
          dsimp only at this
          rw [← this]
          unfold execL
          cases hf : failOf a c.ctx x.1.stmt with
          | some f =>
            cases f with
            | soft e2 => simp [failLine, h]
            | hard e2 => exact absurd hf (hg.head e2)
          | none => simp [h, hE]
        have hee : e' = e := by
          cases go with
          | false =>
            rw [show c'.ctx.err = some e from he] at hc'
            exact (Option.some.inj hc').symm
          | true =>
            have := (runL_keeps (l := l) hc' (hg.tail hctx.symm)).1
            rw [show (runL a c' l).1.ctx.err = some e from he] at this
            exact (Option.some.inj this).symm
        subst hee
        refine ⟨[], x, l, c.ctx, rfl, rfl, h, by rw [← hctx]; exact hc', ?_⟩
        cases go with
        | false => exact hline
        | true =>
          exact ((runL_keeps (l := l) hc' (hg.tail hctx.symm)).2).trans hline

/-! ## from statements to places in the text -/

theorem numbered_split {strtod : Name → Option N} {b s : Name} {T : List (Tok N × Nat)} {e : Bool} {n : Nat}
    (h : Numbered strtod b s T e n) : ∀ {A : List (Tok N × Nat)} {t : Tok N} {l : Nat} {C : List (Tok N × Nat)}, T = A ++ (t, l) :: C →
    ∃ s1 s2, s = s1 ++ s2 ∧ l = lineAfter (b ++ s1) ∧ Numbered strtod (b ++ s1) s2 ((t, l) :: C) e n ∧
      ∃ k p s3, s2 = p ++ s3 ∧ Longest k p s2 ∧ meaning strtod k p = some (some t) := by
  induction h with
  | done => intro A t l C hT; simp at hT
  | range => intro A t l C hT; simp at hT
  | stuck => intro A t l C hT; simp at hT
  | @skip k b p s ts e n hl hm h ih =>
    intro A t l C hT
    obtain ⟨s1, s2, rfl, h2, h3, h4⟩ := ih hT
    exact ⟨p ++ s1, s2, by simp, by rw [h2]; simp, by rw [← List.append_assoc]; exact h3, h4⟩
  | @tok k b p s t0 ts e n hl hm h ih =>
    intro A t l C hT
    cases A with
    | nil =>
      simp only [List.nil_append, List.cons.injEq, Prod.mk.injEq] at hT
      obtain ⟨⟨rfl, rfl⟩, rfl⟩ := hT
      exact ⟨[], p ++ s, rfl, by simp, by rw [List.append_nil]; exact .tok hl hm h, k, p, s, rfl, hl, hm⟩
    | cons x A =>
      simp only [List.cons_append, List.cons.injEq] at hT
      obtain ⟨s1, s2, rfl, h2, h3, h4⟩ := ih hT.2
      exact ⟨p ++ s1, s2, by simp, by rw [h2]; simp, by rw [← List.append_assoc]; exact h3, h4⟩

theorem standAll_mem {ts : List (Tok N × Nat)} {ps : List (Placed N)} {rest : List (Tok N × Nat)} (h : StandAll ts ps rest) :
    ∀ p ∈ ps, ∃ A T C, ts = A ++ T ++ C ∧ Stands T p.stmt p.first p.semi := by
  induction h with
  | nil => simp
  | @cons T ts' p ps rest hs h ih =>
    intro q hq
    rcases List.mem_cons.1 hq with rfl | hq
    · exact ⟨[], T, ts', by simp, hs⟩
    · obtain ⟨A, T2, C, rfl, h2⟩ := ih q hq
      exact ⟨T ++ A, T2, C, by simp, h2⟩

/-- **C106**, statements: the lines of a statement are those of the places in the text where it begins and where its semicolon is. -/
theorem C106_statement (strtod : Name → Option N) (text : Name) (p : Placed N) (hp : p ∈ allL (lexLines strtod text).1) :
    (∃ A T C, (lexLines strtod text).1 = A ++ T ++ C ∧ Stands T p.stmt p.first p.semi) ∧
    ∃ u v w, text = u ++ v ++ ';' :: w ∧ p.first = lineAfter u ∧ p.semi = lineAfter (u ++ v) := by
  obtain ⟨rest, hst⟩ := fileL_stands ((lexLines strtod text).1.length + 1) (lexLines strtod text).1
  obtain ⟨A, T, C, hT, hs⟩ := standAll_mem hst p hp
  refine ⟨⟨A, T, C, hT, hs⟩, ?_⟩
  obtain ⟨s, first, semi⟩ := p
  cases hs with
  | @intro _ t _ body _ hd =>
    have hn := C106_scanner strtod text
    obtain ⟨u, s2, h1, h2, h3, -⟩ := numbered_split hn (A := A) (t := t) (l := first) (C := body ++ [(Tok.sym ';', semi)] ++ C)
      (by rw [hT]; simp)
    obtain ⟨v, s3, h4, h5, h6, k, q, w, h7, h8, h9⟩ := numbered_split h3 (A := (t, first) :: body) (t := .sym ';') (l := semi) (C := C)
      (by simp)
    have hq : q = [';'] := by
      have hk : k = .sym := by
        cases k with
        | sym => rfl
        | num => simp [meaning] at h9
        | _ => simp [meaning] at h9
      subst hk
      cases h8.1 with
      | @sym c _ =>
        simp only [meaning, List.head?_cons, Option.map_some, Option.some.injEq, Tok.sym.injEq] at h9
        rw [h9]
    subst hq
    rw [List.nil_append] at h2 h5
    exact ⟨u, v, w, by rw [h1, h4, h7]; simp, h2, h5⟩

/-- **C106**, messages: if no operation writes its own message, the line in the message lies between the first token and the semicolon
of the first statement that is wrong, and is the line of the semicolon if the statement as a whole is wrong; an error of the scanner
behind complete statements is reported with the line where the scanner gave up. -/
theorem C106_reported_partial (a : Arith N) (strtod : Name → Option N) (look : Look) (c : LCtx N) (text : Name)
    (hc : c.ctx.err = none) (hg : Gentle a c.ctx (pAll (lexAll strtod text).1).1)
    (hlook : ∀ i p, (allL (lexLines strtod text).1)[i]? = some p → p.first ≤ look.expr i ∧ look.expr i ≤ p.semi)
    (hfull : (pAll (lexAll strtod text).1).2 = true) {e : PErr} (he : (parseL a strtod look c text).ctx.err = some e) :
    (∃ pre p post c1, allL (lexLines strtod text).1 = pre ++ p :: post ∧ execAll a c.ctx (pre.map Placed.stmt) = (c1, true) ∧
      c1.err = none ∧ (exec a c1 p.stmt).1.err = some e ∧
      p.first ≤ (parseL a strtod look c text).lastLine ∧ (parseL a strtod look c text).lastLine ≤ p.semi ∧
      (failOf a c1 p.stmt = none → (parseL a strtod look c text).lastLine = p.semi)) ∨
    (e = .malformed ∧ (lexAll strtod text).2 = false ∧
      (parseL a strtod look c text).lastLine = (lexLines strtod text).2.2) := by
  obtain ⟨h1, h2⟩ := lexLines_same strtod text
  have hmono : ∀ p ∈ allL (lexLines strtod text).1, p.first ≤ p.semi := by
    intro p hp
    obtain ⟨-, u, v, w, -, e1, e2⟩ := C106_statement strtod text p hp
    rw [e1, e2]
    simp [lineAfter]
  have hstm : ((allL (lexLines strtod text).1).zipIdx.map (fun x => (x.1, look.expr x.2))).map (fun x => x.1.stmt) =
      (pAll (lexAll strtod text).1).1 := by
    rw [← h1, ← allL_same, List.map_map]
    conv_rhs => rw [← List.zipIdx_map_fst 0 (allL (lexLines strtod text).1), List.map_map]
    rfl
  rw [← hstm] at hg
  have hrun : ∀ e, (runL a c ((allL (lexLines strtod text).1).zipIdx.map (fun x => (x.1, look.expr x.2)))).1.ctx.err = some e →
      ∃ pre p post c1, allL (lexLines strtod text).1 = pre ++ p :: post ∧ execAll a c.ctx (pre.map Placed.stmt) = (c1, true) ∧
      c1.err = none ∧ (exec a c1 p.stmt).1.err = some e ∧
      p.first ≤ (runL a c ((allL (lexLines strtod text).1).zipIdx.map (fun x => (x.1, look.expr x.2)))).1.lastLine ∧
      (runL a c ((allL (lexLines strtod text).1).zipIdx.map (fun x => (x.1, look.expr x.2)))).1.lastLine ≤ p.semi ∧
      (failOf a c1 p.stmt = none →
        (runL a c ((allL (lexLines strtod text).1).zipIdx.map (fun x => (x.1, look.expr x.2)))).1.lastLine = p.semi) := by
    intro e he
    obtain ⟨pre, x, post, c1, k1, k2, k3, k4, k5⟩ := runL_reported hc hg he
    rw [k5]
    have hall : allL (lexLines strtod text).1 = (pre.map Prod.fst) ++ x.1 :: (post.map Prod.fst) := by
      have := congrArg (List.map Prod.fst) k1
      rw [List.map_map] at this
      rw [show (Prod.fst ∘ fun x : Placed N × Nat => (x.1, look.expr x.2)) = Prod.fst from rfl, List.zipIdx_map_fst] at this
      rw [this]
      simp
    have hx : x.1.first ≤ x.2 ∧ x.2 ≤ x.1.semi := by
      have hi : ((allL (lexLines strtod text).1).zipIdx.map (fun x => (x.1, look.expr x.2)))[pre.length]? = some x := by
        rw [k1]
        simp
      rw [List.getElem?_map, List.getElem?_zipIdx] at hi
      cases hq : (allL (lexLines strtod text).1)[pre.length]? with
      | none => rw [hq] at hi; simp at hi
      | some q =>
        rw [hq] at hi
        simp only [Option.map_some, Option.some.injEq] at hi
        rw [← hi]
        simpa using hlook pre.length q hq
    have hm := hmono x.1 (by rw [hall]; simp)
    refine ⟨pre.map Prod.fst, x.1, post.map Prod.fst, c1, hall, ?_, k3, k4, ?_, ?_, ?_⟩
    · rw [List.map_map]
      exact k2
    · split
      · exact hm
      · exact hx.1
    · split
      · exact le_refl _
      · exact hx.2
    · intro hf
      rw [if_pos hf]
  rw [← h1] at hfull
  unfold parseL at he ⊢
  dsimp only at he ⊢
  rw [hfull, Bool.and_true] at he ⊢
  revert he hrun
  generalize runL a c _ = q
  obtain ⟨c', go⟩ := q
  intro he hrun
  cases go with
  | false => exact .inl (hrun e he)
  | true =>
    dsimp only at he ⊢
    cases hb : (lexLines strtod text).2.1 with
    | true =>
      rw [hb, if_pos rfl] at he
      rw [if_pos rfl]
      exact .inl (hrun e he)
    | false =>
      rw [hb, if_neg (by simp)] at he
      rw [if_neg (by simp)]
      dsimp only at he ⊢
      cases hce : c'.ctx.err with
      | none =>
        right
        refine ⟨?_, by rw [← h2]; exact hb, ?_⟩
        · simp [Ctx.note, hce] at he
          exact he.symm
        · simp
      | some e' =>
        rw [note_keeps hce] at he
        cases he
        left
        simpa using hrun e hce

/-- **C106**, printed lines: `print` names the line of its semicolon. -/
theorem C106_printed (a : Arith N) : ∀ (l : List (Placed N × Nat)) (c c' : LCtx N), runL a c l = (c', true) →
    c'.printed = c.printed ++ ((l.filter (fun x => isPrint x.1.stmt)).map (fun x => x.1.semi)) ∧
    c'.ctx.out.length = c.ctx.out.length + (l.filter (fun x => isPrint x.1.stmt)).length := by
  intro l
  induction l with
  | nil => intro c c' h; cases h; simp
  | cons x l ih =>
    intro c c' h
    rw [runL] at h
    have hctx := execL_ctx a c x.1 x.2
    cases hx : execL a c x.1 x.2 with
    | mk c1 go =>
      rw [hx] at h hctx
      cases go with
      | false => cases h
      | true =>
        obtain ⟨h1, h2⟩ := ih c1 c' h
        dsimp only at hctx
        have hf : failOf a c.ctx x.1.stmt = none := by
          cases hf : failOf a c.ctx x.1.stmt with
          | none => rfl
          | some f =>
            rw [(failOf_exec a c.ctx x.1.stmt).1 f hf] at hctx
            simpa using congrArg Prod.snd hctx
        have hp : c1.printed = if isPrint x.1.stmt then c.printed ++ [x.1.semi] else c.printed := by
          have := congrArg (fun q => q.1.printed) hx
          dsimp only at this
          rw [← this]
          unfold execL
          rw [hf]
        have ho : c1.ctx.out.length = c.ctx.out.length + (if isPrint x.1.stmt then 1 else 0) := by
          have := congrArg (fun q => q.1.out.length) hctx
          dsimp only at this
          rw [this]
          cases hs : x.1.stmt with
          | assign n y =>
            rw [hs] at hf
            cases hy : evalE a c.ctx y with
            | error f => simp [failOf, hy] at hf
            | ok v => simp only [exec, hy, doAssign, isPrint]; split <;> [rfl; (split <;> rfl)]
          | element q t ps =>
            rw [hs] at hf
            cases hy : evalProps a c.ctx ps with
            | error f => simp [failOf, hy] at hf
            | ok v => simp only [exec, hy, doElement, isPrint]; split <;> [rfl; (split <;> rfl)]
          | line q t es =>
            rw [hs] at hf
            cases hy : evalList a c.ctx es with
            | error f => simp [failOf, hy] at hf
            | ok ts =>
              cases hz : appendLine ts with
              | error f => simp [failOf, hy, hz] at hf
              | ok v => simp only [exec, hy, hz, doLine, isPrint]; split <;> [rfl; (split <;> rfl)]
          | func f y =>
            rw [hs] at hf
            cases hy : evalE a c.ctx y with
            | error f => simp [failOf, hy] at hf
            | ok v =>
              simp only [exec, hy, doCall, isPrint]
              by_cases hfp : f = "print".toList
              · rw [if_neg (not_not.2 hfp)]
                simp [hfp]
              · rw [if_pos hfp]
                simp only [Ctx.note, decide_eq_true_eq, if_neg hfp, Nat.add_zero]
          | command k => simp only [exec, doCommand, isPrint]; split <;> rfl
        rw [h1, h2, hp, ho]
        by_cases hpr : isPrint x.1.stmt = true
        · simp [hpr]; omega
        · simp [hpr]

/-! ## operations that write their message themselves -/

/-- Texts of the examples. -/
def exHard : Name := "a = 1;\nb = 2;\nc = 1/0;\n".toList
def exHard2 : Name := "a = 1;\na = 2;\n\nc = 1/0;\n".toList
def exSoft : Name := "a = 1; # one\nb\n =\n 2;\na = 3\n;\n".toList

/-- The scanner as far as the examples need it: expressions fail on the line of the semicolon, syntax errors on line 1. -/
def exLook (text : Name) : Look := ⟨fun i => (((allL (lexLines exNum text).1)[i]?).map Placed.semi).getD 0, 1⟩

def exParse (text : Name) : LCtx (Option Int) := parseL exA exNum (exLook text) (LCtx.new (fillVars Ctx.empty [])) text

/-- **C106** fails for operations that write their message themselves: the division by zero on line 3 is reported for line 0, and
after a variable that is defined twice on line 2 the division on line 4 is reported for line 2. -/
theorem C106_operation_false :
    ((exParse exHard).ctx.err = some .opFailed ∧ (exParse exHard).lastLine = 0 ∧
      ((allL (lexLines exNum exHard).1).map (fun p => (p.stmt, p.first, p.semi)))[2]? =
        some (.assign ['c'] (.bin '/' (.num (some 1)) (.num (some 0))), 3, 3)) ∧
    ((exParse exHard2).ctx.err = some .opFailed ∧ (exParse exHard2).lastLine = 2 ∧
      ((allL (lexLines exNum exHard2).1).map (fun p => (p.stmt, p.first, p.semi)))[2]? =
        some (.assign ['c'] (.bin '/' (.num (some 1)) (.num (some 0))), 4, 4)) :=
  ⟨⟨by decide +kernel, by decide +kernel, by decide +kernel⟩, ⟨by decide +kernel, by decide +kernel, by decide +kernel⟩⟩

/-- The hypotheses of `C106_reported_partial` can be met: a variable defined twice, with its semicolon on line 6. -/
theorem exSoft_gentle : Gentle exA (fillVars Ctx.empty []) (pAll (lexAll exNum exSoft).1).1 := by
  have hall : ∀ s ∈ (pAll (lexAll exNum exSoft).1).1, ∃ n v, s = .assign n (.num v) := by
    rw [show (pAll (lexAll exNum exSoft).1).1 = [.assign ['a'] (.num (some 1)), .assign ['b'] (.num (some 2)),
      .assign ['a'] (.num (some 3))] by decide +kernel]
    simp
  intro pre s post c' hl _ e
  obtain ⟨n, v, rfl⟩ := hall s (by rw [hl]; simp)
  simp [failOf, evalE]

theorem exLook_within (text : Name) (i : Nat) (p : Placed (Option Int)) (hp : (allL (lexLines exNum text).1)[i]? = some p) :
    p.first ≤ (exLook text).expr i ∧ (exLook text).expr i ≤ p.semi := by
  obtain ⟨-, u, v, w, -, e1, e2⟩ := C106_statement exNum text p (List.mem_of_getElem? hp)
  rw [show (exLook text).expr i = p.semi by simp [exLook, hp], e1, e2]
  simp [lineAfter]

example : (exParse exSoft).ctx.err = some .redefined ∧ (exParse exSoft).lastLine = 6 ∧
    (pAll (lexAll exNum exSoft).1).2 = true ∧
    (allL (lexLines exNum exSoft).1).map (fun p => (p.first, p.semi)) = [(1, 1), (2, 4), (5, 6)] := by
  refine ⟨by decide +kernel, by decide +kernel, by decide +kernel, by decide +kernel⟩

/-- As the test test_config.cpp:38 expects: prints on lines 2 and 4 say so. -/
example : (exParse "# c\nprint(14);\n\nprint(\"test\");\n".toList).printed = [2, 4] := by decide +kernel

end Flame.Glps
