import Verif.Glps.PrintSpec
import Verif.Glps.Fill
import Verif.Glps.Stable

/-!
# Reading a printed configuration
-/

namespace Flame.Glps

variable {N : Type}

/-! ### Scanning -/

/-- In front of `rest`, `w` is scanned as the tokens `ts`. -/
def Lx (strtod : Name → Option N) (w : Name) (ts : List (Tok N)) (rest : Name) : Prop :=
  lexAll strtod (w ++ rest) = (ts ++ (lexAll strtod rest).1, (lexAll strtod rest).2)

variable {strtod : Name → Option N}

theorem Lx.nil (rest : Name) : Lx strtod [] [] rest := rfl

theorem Lx.append {w w' rest : Name} {ts ts' : List (Tok N)} (h : Lx strtod w ts (w' ++ rest))
    (h' : Lx strtod w' ts' rest) : Lx strtod (w ++ w') (ts ++ ts') rest := by
  unfold Lx at *
  rw [List.append_assoc, h, h', List.append_assoc]

theorem Lx.kw {k rest : Name} (h : IsKw k) (hr : KwStop rest) : Lx strtod k [.kw k] rest :=
  lexAll_tok strtod (scan1_tok_of strtod (longest_kw h hr) rfl)

theorem Lx.num {w rest : Name} {x : N} (h : IsNum w) (hx : strtod w = some x)
    (hr : ∀ c, rest.head? = some c → numCont c = false) : Lx strtod w [.num x] rest :=
  lexAll_tok strtod (scan1_tok_of strtod (longest_num h hr) (by simp [meaning, hx]))

theorem Lx.str {s rest : Name} (h : StrOk s) : Lx strtod ('"' :: (s ++ ['"'])) [.str s] rest :=
  lexAll_tok strtod (scan1_tok_of strtod (longest_str h) (by simp [meaning]))

theorem Lx.sym {c : Char} {rest : Name} (h : c ∈ ['=', ':', ';', '(', ')', '[', ']', ',', '+', '*', '/', '-']) :
    Lx strtod [c] [.sym c] rest :=
  lexAll_tok strtod (scan1_tok_of strtod (longest_sym h) rfl)

theorem Lx.gap {g rest : Name} (h : IsGap g) : Lx strtod g [] rest := lexAll_gap strtod h

theorem Lx.blank {c : Char} {rest : Name} (h : c ∈ [' ', '\t', '\n']) : Lx strtod [c] [] rest :=
  Lx.gap ⟨[[c]], by simp, by simpa using Form.blank h⟩

theorem Lx.comma (rest : Name) : Lx strtod ", ".toList [.sym ','] rest :=
  Lx.append (w := [',']) (w' := [' ']) (Lx.sym (by decide)) (Lx.blank (by decide))

theorem Lx.equals (rest : Name) : Lx strtod " = ".toList [.sym '='] rest :=
  Lx.append (w := [' ']) (w' := ['=', ' ']) (ts := []) (Lx.blank (by decide))
    (Lx.append (w := ['=']) (w' := [' ']) (Lx.sym (by decide)) (Lx.blank (by decide)))

theorem Lx.colon (rest : Name) : Lx strtod ": ".toList [.sym ':'] rest :=
  Lx.append (w := [':']) (w' := [' ']) (Lx.sym (by decide)) (Lx.blank (by decide))

theorem Lx.semi (rest : Name) : Lx strtod ";\n".toList [.sym ';'] rest :=
  Lx.append (w := [';']) (w' := ['\n']) (Lx.sym (by decide)) (Lx.blank (by decide))

/-- The text starts with a character that ends keywords and numbers. -/
def Stops (rest : Name) : Prop := ∃ c r, rest = c :: r ∧ isKwChar c = false ∧ numCont c = false

theorem Stops.kwStop {rest : Name} (h : Stops rest) : KwStop rest := by
  obtain ⟨c, r, rfl, h1, _⟩ := h
  intro x hx
  rw [List.takeWhile_cons, h1] at hx
  simp at hx

theorem Stops.num {rest : Name} (h : Stops rest) : ∀ c, rest.head? = some c → numCont c = false := by
  obtain ⟨c, r, rfl, _, h1⟩ := h
  intro x hx
  simp only [List.head?_cons, Option.some.injEq] at hx
  rw [← hx]
  exact h1

theorem stops_comma (rest : Name) : Stops (", ".toList ++ rest) := ⟨',', ' ' :: rest, rfl, by decide, by decide⟩

theorem stops_equals (rest : Name) : Stops (" = ".toList ++ rest) := ⟨' ', '=' :: ' ' :: rest, rfl, by decide, by decide⟩

theorem stops_semi (rest : Name) : Stops (";\n".toList ++ rest) := ⟨';', '\n' :: rest, rfl, by decide, by decide⟩

theorem kwStop_colon (rest : Name) : KwStop (": ".toList ++ rest) := by
  intro x hx
  have h : ": ".toList ++ rest = ':' :: ' ' :: rest := rfl
  rw [h, List.takeWhile_cons, if_pos (by decide), List.takeWhile_cons, if_neg (by decide)] at hx
  simpa using hx

/-! ### Values -/

/-- An expression whose tokens are `ts`, which means `v` whatever the names mean. -/
def Closed (a : Arith N) (ts : List (Tok N)) (e : Exp N) (v : Val N) : Prop :=
  DerE 0 ts e ∧ Means a (fun _ => none) e v

theorem exact_closed {a : Arith N} {w : Name} {x : N} (h : Exact a strtod w x) :
    ∃ ts e, Closed a ts e (.num x) ∧ ∀ rest, Stops rest → Lx strtod w ts rest := by
  rcases h with ⟨h1, h2⟩ | ⟨u, y, rfl, h1, h2, h3⟩
  · exact ⟨[.num x], .num x, ⟨.unary (.num x), .num x⟩, fun rest hr => Lx.num h1 h2 hr.num⟩
  · refine ⟨[.sym '-', .num y], .neg (.num y), ⟨.unary (.neg (.num y)), h3 ▸ .neg (.num y)⟩, ?_⟩
    intro rest hr
    exact Lx.append (w := ['-']) (ts := [.sym '-']) (Lx.sym (by decide)) (Lx.num h1 h2 hr.num)

theorem nums_closed {a : Arith N} (fmt : N → Name) : ∀ (xs : List N), (∀ x ∈ xs, Exact a strtod (fmt x) x) →
    ∃ ts es, DerL ts es ∧ MeansL a (fun _ => none) es xs ∧
      ∀ rest, Stops rest → Lx strtod (showNums fmt xs) ts rest
  | [], _ => ⟨[], .nil, .nil, .nil, fun rest _ => Lx.nil rest⟩
  | [x], h => by
    obtain ⟨ts, e, ⟨h1, h2⟩, h3⟩ := exact_closed (h x (by simp))
    exact ⟨ts, .cons e .nil, .one h1, .cons h2 .nil, h3⟩
  | x :: y :: xs, h => by
    obtain ⟨ts, e, ⟨h1, h2⟩, h3⟩ := exact_closed (h x (by simp))
    obtain ⟨ts', es, g1, g2, g3⟩ := nums_closed fmt (y :: xs) (fun z hz => h z (List.mem_cons_of_mem _ hz))
    refine ⟨ts ++ .sym ',' :: ts', .cons e es, .cons h1 g1, .cons h2 g2, ?_⟩
    intro rest hr
    refine Lx.append (h3 _ ?_) (Lx.append (ts := [.sym ',']) (Lx.comma _) (g3 rest hr))
    rw [List.append_assoc]
    exact stops_comma _

theorem val_closed {a : Arith N} {fmt : N → Name} {v : CV N} (h : Simple a strtod fmt v) :
    ∃ ts e w, Closed a ts e w ∧ w.toCV = some v ∧ (∀ l, w ≠ .line l) ∧
      ∀ rest, Stops rest → Lx strtod (showVal fmt v) ts rest := by
  cases v with
  | num x =>
    obtain ⟨ts, e, h1, h2⟩ := exact_closed h
    exact ⟨ts, e, .num x, h1, rfl, by simp, h2⟩
  | str s =>
    exact ⟨[.str s], .str s, .str s, ⟨.unary (.str s), .str s⟩, rfl, by simp, fun rest _ => Lx.str h⟩
  | vec xs =>
    obtain ⟨ts, es, h1, h2, h3⟩ := nums_closed fmt xs h
    refine ⟨.sym '[' :: (ts ++ [.sym ']']), .vec es, .vec xs, ⟨.unary (.vec h1), .vec h2⟩, rfl, by simp, ?_⟩
    intro rest hr
    refine Lx.append (w := ['[']) (ts := [.sym '[']) (Lx.sym (by decide)) (Lx.append (h3 _ ?_) (Lx.sym (by decide)))
    exact ⟨']', rest, rfl, by decide, by decide⟩
  | cfgs l => exact absurd h (by simp [Simple])

/-! ### Pieces of text that are statements -/

/-- The text `w` holds the statements `ss`, whatever follows. -/
def Chunk (strtod : Name → Option N) (w : Name) (ss : List (Stmt N)) : Prop :=
  ∃ ts, DerF ts ss ∧ ∀ rest, Lx strtod w ts rest

theorem derF_append {ts ts' : List (Tok N)} {ss ss' : List (Stmt N)} (h : DerF ts ss) (h' : DerF ts' ss') :
    DerF (ts ++ ts') (ss ++ ss') := by
  induction h with
  | nil => exact h'
  | cons hs _ ih => rw [List.append_assoc]; exact .cons hs ih

theorem Chunk.nil : Chunk strtod [] ([] : List (Stmt N)) := ⟨[], .nil, Lx.nil⟩

theorem Chunk.append {w w' : Name} {ss ss' : List (Stmt N)} (h : Chunk strtod w ss) (h' : Chunk strtod w' ss') :
    Chunk strtod (w ++ w') (ss ++ ss') := by
  obtain ⟨ts, h1, h2⟩ := h
  obtain ⟨ts', h1', h2'⟩ := h'
  exact ⟨ts ++ ts', derF_append h1 h1', fun rest => Lx.append (h2 _) (h2' rest)⟩

theorem Chunk.one {w : Name} {s : Stmt N} {ts : List (Tok N)} (h : DerS ts s)
    (hl : ∀ rest, Lx strtod w ts rest) : Chunk strtod w [s] :=
  ⟨ts, by have := DerF.cons h .nil; rwa [List.append_nil] at this, hl⟩

theorem Chunk.text {w : Name} {ss : List (Stmt N)} (h : Chunk strtod w ss) : Text strtod w ss := by
  obtain ⟨ts, h1, h2⟩ := h
  refine ⟨ts, ?_, h1⟩
  have hl := h2 []
  unfold Lx at hl
  rw [List.append_nil, lexAll_eof] at hl
  simp only [List.append_nil] at hl
  have := lexAll_reads strtod w
  rwa [hl] at this

theorem Chunk.comment {s : Name} (h : '\n' ∉ s) : Chunk strtod ('#' :: (s ++ ['\n'])) ([] : List (Stmt N)) :=
  ⟨[], .nil, fun _ => Lx.gap ⟨['#' :: (s ++ ['\n'])], by simp, by simpa using Form.comment h⟩⟩

theorem isKw_no_newline {k : Name} (h : IsKw k) : '\n' ∉ k := by
  obtain ⟨c, r, rfl, h1, h2, _⟩ := h
  intro hm
  rcases List.mem_cons.1 hm with h | h
  · rw [← h] at h1; revert h1; decide
  · have := h2 _ h; revert this; decide

/-- The statement of a variable, with its value. -/
theorem var_chunk {a : Arith N} {fmt : N → Name} {k : Name} {v : CV N} (hk : IsKw k) (h : Simple a strtod fmt v) :
    ∃ e w, Chunk strtod (showVar fmt k v) [.assign k e] ∧ Means a (fun _ => none) e w ∧ w.toCV = some v ∧
      ∀ l, w ≠ .line l := by
  obtain ⟨ts, e, w, ⟨h1, h2⟩, h3, h4, h5⟩ := val_closed h
  refine ⟨e, w, ?_, h2, h3, h4⟩
  have hs : showVar fmt k v = k ++ (" = ".toList ++ (showVal fmt v ++ ";\n".toList)) := by
    cases v with
    | cfgs l => exact absurd h (by simp [Simple])
    | _ => rfl
  rw [hs]
  refine Chunk.one (DerS.assign k h1) (fun rest => ?_)
  refine Lx.append (ts := [.kw k]) (ts' := .sym '=' :: (ts ++ [.sym ';'])) (Lx.kw hk ?_)
    (Lx.append (ts := [.sym '=']) (Lx.equals _) (Lx.append (h5 _ (stops_semi rest)) (Lx.semi rest)))
  exact (by rw [List.append_assoc]; exact stops_equals _ : Stops _).kwStop

/-- The text of a property. -/
theorem prop_lex {a : Arith N} {fmt : N → Name} {k : Name} {v : CV N} (hk : IsKw k) (h : Simple a strtod fmt v) :
    ∃ ts e w, DerE 0 ts e ∧ Means a (fun _ => none) e w ∧ w.toCV = some v ∧
      ∀ rest, Stops rest → Lx strtod (showProp fmt k v) (.sym ',' :: .kw k :: .sym '=' :: ts) rest := by
  obtain ⟨ts, e, w, ⟨h1, h2⟩, h3, h4, h5⟩ := val_closed h
  refine ⟨ts, e, w, h1, h2, h3, fun rest hr => ?_⟩
  have hs : showProp fmt k v = ", ".toList ++ (k ++ (" = ".toList ++ showVal fmt v)) := by
    cases v with
    | cfgs l => exact absurd h (by simp [Simple])
    | _ => rfl
  rw [hs]
  refine Lx.append (ts := [.sym ',']) (ts' := .kw k :: .sym '=' :: ts) (Lx.comma _)
    (Lx.append (ts := [.kw k]) (ts' := .sym '=' :: ts) (Lx.kw hk ?_)
      (Lx.append (ts := [.sym '=']) (Lx.equals _) (h5 rest hr)))
  exact (by rw [List.append_assoc]; exact stops_equals _ : Stops _).kwStop

theorem stops_append {w rest : Name} (h : w = [] ∨ Stops (w ++ rest)) (hr : Stops rest) : Stops (w ++ rest) := by
  rcases h with rfl | h
  · exact hr
  · exact h

/-- The properties that are printed. -/
def shownProps (m : SMap Name (CV N)) : SMap Name (CV N) :=
  m.filter (fun p => p.1 ≠ "name".toList ∧ p.1 ≠ "type".toList ∧ ¬ IsCfgs p.2)

theorem props_lex {a : Arith N} {fmt : N → Name} (m : SMap Name (CV N)) :
    (∀ p ∈ m, IsKw p.1 ∧ (IsCfgs p.2 ∨ Simple a strtod fmt p.2)) →
    ∃ ts ps qs, DerP ts ps ∧ List.Forall₂ (fun p q => p.1 = q.1 ∧ Means a (fun _ => none) p.2 q.2) ps qs ∧
      List.Forall₂ (fun (q : Name × Val N) (p : Name × CV N) => q.1 = p.1 ∧ q.2.toCV = some p.2) qs (shownProps m) ∧
      ∀ rest, Stops rest → Lx strtod (showProps fmt m) ts rest ∧ Stops (showProps fmt m ++ rest) := by
  induction m with
  | nil => exact fun _ => ⟨[], [], [], .nil, .nil, .nil, fun rest hr => ⟨Lx.nil rest, hr⟩⟩
  | cons p m ih =>
    obtain ⟨k, v⟩ := p
    intro h
    obtain ⟨ts, ps, qs, h1, h2, h3, h4⟩ := ih (fun p hp => h p (List.mem_cons_of_mem _ hp))
    obtain ⟨hk, hv⟩ := h (k, v) (List.mem_cons_self ..)
    rw [showProps]
    unfold shownProps at h3 ⊢
    by_cases hkk : k = "name".toList ∨ k = "type".toList
    · rw [if_pos hkk, List.nil_append, List.filter_cons_of_neg (by simp; tauto)]
      exact ⟨ts, ps, qs, h1, h2, h3, h4⟩
    · rw [if_neg hkk]
      push Not at hkk
      rcases hv with hv | hv
      · have hs : showProp fmt k v = [] := by cases v <;> simp [IsCfgs] at hv; rfl
        rw [hs, List.nil_append, List.filter_cons_of_neg (by simp [hv])]
        exact ⟨ts, ps, qs, h1, h2, h3, h4⟩
      · obtain ⟨tv, e, w, g1, g2, g3, g4⟩ := prop_lex hk hv
        have hnc : ¬ IsCfgs v := by
          cases v with
          | cfgs l => exact absurd hv (by simp [Simple])
          | _ => simp [IsCfgs]
        rw [List.filter_cons_of_pos (by simp [hnc]; exact hkk)]
        refine ⟨_, (k, e) :: ps, (k, w) :: qs, .cons k g1 h1, .cons ⟨rfl, g2⟩ h2, .cons ⟨rfl, g3⟩ h3, ?_⟩
        intro rest hr
        obtain ⟨q1, q2⟩ := h4 rest hr
        have e1 : (.sym ',' :: .kw k :: .sym '=' :: (tv ++ ts) : List (Tok N)) =
          (.sym ',' :: .kw k :: .sym '=' :: tv) ++ ts := rfl
        rw [e1]
        refine ⟨Lx.append (g4 _ q2) q1, ?_⟩
        have hs : showProp fmt k v = ", ".toList ++ (k ++ (" = ".toList ++ showVal fmt v)) := by
          cases v with
          | cfgs l => exact absurd hv (by simp [Simple])
          | _ => rfl
        rw [hs, List.append_assoc, List.append_assoc]
        exact stops_comma _

/-- The text of an element. -/
theorem elem_chunk {a : Arith N} {fmt : N → Name} {n t : Name} (m : SMap Name (CV N)) (hn : IsKw n) (ht : IsKw t)
    (h : ∀ p ∈ m, IsKw p.1 ∧ (IsCfgs p.2 ∨ Simple a strtod fmt p.2)) :
    ∃ ps qs, Chunk strtod (n ++ (": ".toList ++ (t ++ (showProps fmt m ++ ";\n".toList)))) [.element n t ps] ∧
      List.Forall₂ (fun p q => p.1 = q.1 ∧ Means a (fun _ => none) p.2 q.2) ps qs ∧
      List.Forall₂ (fun (q : Name × Val N) (p : Name × CV N) => q.1 = p.1 ∧ q.2.toCV = some p.2) qs (shownProps m) := by
  obtain ⟨ts, ps, qs, h1, h2, h3, h4⟩ := props_lex (a := a) (fmt := fmt) (strtod := strtod) m h
  refine ⟨ps, qs, Chunk.one (DerS.element n t h1) (fun rest => ?_), h2, h3⟩
  obtain ⟨q1, q2⟩ := h4 _ (stops_semi rest)
  refine Lx.append (ts := [.kw n]) (ts' := .sym ':' :: .kw t :: (ts ++ [.sym ';'])) (Lx.kw hn ?_)
    (Lx.append (ts := [.sym ':']) (ts' := .kw t :: (ts ++ [.sym ';'])) (Lx.colon _)
      (Lx.append (ts := [.kw t]) (ts' := ts ++ [.sym ';']) (Lx.kw ht ?_) (Lx.append q1 (Lx.semi rest))))
  · rw [List.append_assoc]; exact kwStop_colon _
  · rw [List.append_assoc]; exact q2.kwStop

theorem names_lex (ns : List Name) : (∀ n ∈ ns, IsKw n) →
    ∃ ts es, DerL ts es ∧ es.toList = ns.map Exp.var ∧
      ∀ rest, Stops rest → Lx strtod (showNames ns) ts rest :=
  match ns with
  | [] => fun _ => ⟨[], .nil, .nil, rfl, fun rest _ => Lx.nil rest⟩
  | [n] => fun h => ⟨[.kw n], .cons (.var n) .nil, .one (.unary (.var n)), rfl,
      fun _ hr => Lx.kw (h n (by simp)) hr.kwStop⟩
  | n :: m :: ns => fun h => by
    obtain ⟨ts, es, h1, h2, h3⟩ := names_lex (m :: ns) (fun x hx => h x (List.mem_cons_of_mem _ hx))
    refine ⟨[.kw n] ++ .sym ',' :: ts, .cons (.var n) es, .cons (.unary (.var n)) h1, ?_, ?_⟩
    · rw [Exps.toList, h2]; rfl
    · intro rest hr
      refine Lx.append (Lx.kw (h n (by simp)) ?_) (Lx.append (ts := [.sym ',']) (Lx.comma _) (h3 rest hr))
      exact (by rw [List.append_assoc]; exact stops_comma _ : Stops _).kwStop

/-- The text of the line and its selection. -/
theorem line_chunk {lname : Name} (hl : IsKw lname) (ns : List Name) (h : ∀ n ∈ ns, IsKw n) :
    Chunk strtod (lname ++ (": LINE = (".toList ++ (showNames ns ++ (");\nUSE: ".toList ++ (lname ++ ";\n".toList)))))
      [.line lname "LINE".toList (ns.map Exp.var), (.element "USE".toList lname [] : Stmt N)] := by
  obtain ⟨ts, es, h1, h2, h3⟩ := names_lex (strtod := strtod) ns h
  have hL : IsKw "LINE".toList := ⟨'L', "INE".toList, rfl, by decide, by decide, by decide⟩
  have hU : IsKw "USE".toList := ⟨'U', "SE".toList, rfl, by decide, by decide, by decide⟩
  have e : lname ++ (": LINE = (".toList ++ (showNames ns ++ (");\nUSE: ".toList ++ (lname ++ ";\n".toList)))) =
      (lname ++ (": ".toList ++ ("LINE".toList ++ (" = ".toList ++ (['('] ++ (showNames ns ++ ([')'] ++ ";\n".toList))))))) ++
      ("USE".toList ++ (": ".toList ++ (lname ++ ";\n".toList))) := by
    simp
  rw [e]
  refine Chunk.append (ss := [_]) (ss' := [_]) ?_ ?_
  · rw [← h2]
    refine Chunk.one (DerS.line lname _ h1) (fun rest => ?_)
    refine Lx.append (ts := [.kw lname]) (ts' := .sym ':' :: .kw _ :: .sym '=' :: .sym '(' :: (ts ++ [.sym ')', .sym ';']))
      (Lx.kw hl ?_)
      (Lx.append (ts := [.sym ':']) (ts' := .kw _ :: .sym '=' :: .sym '(' :: (ts ++ [.sym ')', .sym ';'])) (Lx.colon _)
        (Lx.append (ts := [.kw _]) (ts' := .sym '=' :: .sym '(' :: (ts ++ [.sym ')', .sym ';'])) (Lx.kw hL ?_)
          (Lx.append (ts := [.sym '=']) (ts' := .sym '(' :: (ts ++ [.sym ')', .sym ';'])) (Lx.equals _)
            (Lx.append (ts := [.sym '(']) (ts' := ts ++ [.sym ')', .sym ';']) (Lx.sym (by decide))
              (Lx.append (ts := ts) (ts' := [.sym ')', .sym ';']) (h3 _ ?_)
                (Lx.append (ts := [.sym ')']) (Lx.sym (by decide)) (Lx.semi rest)))))))
    · rw [List.append_assoc]; exact kwStop_colon _
    · exact (by rw [List.append_assoc]; exact stops_equals _ : Stops _).kwStop
    · exact ⟨')', _, rfl, by decide, by decide⟩
  · refine Chunk.one (DerS.element _ lname .nil) (fun rest => ?_)
    refine Lx.append (ts := [.kw _]) (ts' := [.sym ':', .kw lname, .sym ';']) (Lx.kw hU ?_)
      (Lx.append (ts := [.sym ':']) (ts' := [.kw lname, .sym ';']) (Lx.colon _)
        (Lx.append (ts := [.kw lname]) (Lx.kw hl (stops_semi rest).kwStop) (Lx.semi rest)))
    rw [List.append_assoc]; exact kwStop_colon _

end Flame.Glps
