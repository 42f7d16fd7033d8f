import Verif.Glps.Nested
import Verif.Glps.PropsEval

/-! # C108: lattice files that use other files -/

namespace Flame.Glps

variable {N : Type}

/-! ## What a parse depends on -/

/-- Two sets of operations give the same answer to a question about files. -/
def Answers (a b : Arith N) (p : Name × Name) : Prop :=
  (p.1 = "parse".toList → b.parse p.2 = a.parse p.2) ∧
  (p.1 = "file".toList ∨ p.1 = "dir".toList → b.file p.2 = a.file p.2) ∧
  (p.1 = "h5file".toList → b.h5file p.2 = a.h5file p.2)

/-- The two differ in the operations on files only. -/
def SameNumbers (a b : Arith N) : Prop := b = { a with parse := b.parse, file := b.file, h5file := b.h5file }

/-- Two operations that cannot be told apart on these arguments. -/
def OperSame (name : Name) (args : List (TV N)) (o o' : Oper N) : Prop :=
  o'.name = o.name ∧ o'.args = o.args ∧ o'.res = o.res ∧
    (o.name = name → o.args = args.map TV.ty → o'.fn (args.map TV.val) = o.fn (args.map TV.val))

theorem findOp_same (name : Name) (args : List (TV N)) {l l' : List (Oper N)}
    (h : List.Forall₂ (OperSame name args) l l') :
    (match l'.find? (fun o => o.name = name ∧ o.args = args.map TV.ty) with
      | none => (.error (.soft .noOverload) : Except Fail (TV N))
      | some o =>
        match o.fn (args.map TV.val) with
        | .ok v => .ok ⟨o.res, v⟩
        | .fail => .error (.hard .opFailed)
        | .throw => .error (.soft .exception)) =
    (match l.find? (fun o => o.name = name ∧ o.args = args.map TV.ty) with
      | none => (.error (.soft .noOverload) : Except Fail (TV N))
      | some o =>
        match o.fn (args.map TV.val) with
        | .ok v => .ok ⟨o.res, v⟩
        | .fail => .error (.hard .opFailed)
        | .throw => .error (.soft .exception)) := by
  induction h with
  | nil => rfl
  | cons h _ ih =>
    obtain ⟨h1, h2, h3, h4⟩ := h
    rename_i o o' _ _ _
    by_cases hc : o.name = name ∧ o.args = args.map TV.ty
    · rw [List.find?_cons_of_pos (by simpa [h1, h2] using hc), List.find?_cons_of_pos (by simpa using hc)]
      simp only [h4 hc.1 hc.2, h3]
    · rw [List.find?_cons_of_neg (by simpa [h1, h2] using hc), List.find?_cons_of_neg (by simpa using hc)]
      exact ih

/-- An operation depends on the files it asks for. -/
theorem addOp_same {a b : Arith N} (hab : SameNumbers a b) (name : Name) (args : List (TV N))
    (h : ∀ p ∈ askedOp name args, Answers a b p) : addOp b name args = addOp a name args := by
  have key : name ∈ fileOps → args.map TV.ty = [.string] →
      (∃ s, args = [⟨.string, .str s⟩] ∧ Answers a b (name, s)) ∨ (∃ v, args.map TV.val = [v] ∧ ∀ s, v ≠ .str s) := by
    intro hn ht
    match args, ht with
    | [⟨t, v⟩], ht =>
      have ht' : t = .string := by simpa using ht
      subst ht'
      cases v with
      | str s => exact Or.inl ⟨s, rfl, h _ (by simp [askedOp, hn])⟩
      | _ => exact Or.inr ⟨_, rfl, fun s e => by cases e⟩
  unfold addOp
  apply findOp_same
  rw [hab]
  unfold opTable
  iterate 19 refine List.Forall₂.cons ⟨rfl, rfl, rfl, fun _ _ => rfl⟩ ?_
  refine List.Forall₂.cons ⟨rfl, rfl, rfl, ?_⟩ (List.Forall₂.cons ⟨rfl, rfl, rfl, ?_⟩
    (List.Forall₂.cons ⟨rfl, rfl, rfl, ?_⟩ (List.Forall₂.cons ⟨rfl, rfl, rfl, ?_⟩ List.Forall₂.nil)))
  all_goals
    intro e1 e2
    dsimp only at e1 e2
    subst e1
    rcases key (by decide) e2.symm with ⟨s, rfl, ha⟩ | ⟨v, hv, hs⟩
  · simp [parseOp, ha.1 rfl]
  · rw [hv]
    cases v <;> first | rfl | exact absurd rfl (hs _)
  · simp [pathOp, ha.2.1 (Or.inl rfl)]
  · rw [hv]
    cases v <;> first | rfl | exact absurd rfl (hs _)
  · simp [pathOp, ha.2.1 (Or.inr rfl)]
  · rw [hv]
    cases v <;> first | rfl | exact absurd rfl (hs _)
  · simp [pathOp, ha.2.2 rfl]
  · rw [hv]
    cases v <;> first | rfl | exact absurd rfl (hs _)

theorem askedOp_neg (x : TV N) : askedOp ['-'] [x] = [] := by
  unfold askedOp
  split
  · exact if_neg (by decide)
  · rfl

theorem lookupName_same {a b : Arith N} (hab : SameNumbers a b) (c : Ctx N) (n : Name) :
    lookupName b c n = lookupName a c n := by
  rw [hab]; rfl

mutual
theorem evalE_same {a b : Arith N} (hab : SameNumbers a b) (c : Ctx N) :
    ∀ e : Exp N, (∀ p ∈ asksE a c e, Answers a b p) → evalE b c e = evalE a c e ∧ asksE b c e = asksE a c e
  | .num x, _ => by simp [evalE, asksE]
  | .str s, _ => by simp [evalE, asksE]
  | .var n, _ => by simp [evalE, asksE, lookupName_same hab]
  | .bin op l r, h => by
    simp only [asksE, List.mem_append] at h
    have hl := evalE_same hab c l (fun p hp => h p (Or.inl hp))
    simp only [evalE, asksE, hl.1, hl.2]
    cases hv : evalE a c l with
    | error e => simp
    | ok x =>
      rw [hv] at h
      have hr := evalE_same hab c r (fun p hp => h p (Or.inr hp))
      simp only [hr.1, hr.2, and_true]
      cases evalE a c r with
      | error e => rfl
      | ok y => exact addOp_same hab _ _ (by simp [askedOp])
  | .neg e, h => by
    simp only [asksE] at h
    have he := evalE_same hab c e h
    simp only [evalE, asksE, he.1, he.2, and_true]
    cases evalE a c e with
    | error e => rfl
    | ok y => exact addOp_same hab _ _ (by simp [askedOp_neg])
  | .call f e, h => by
    simp only [asksE, List.mem_append] at h
    have he := evalE_same hab c e (fun p hp => h p (Or.inl hp))
    simp only [evalE, asksE, he.1, he.2, and_true]
    cases hv : evalE a c e with
    | error e => rfl
    | ok y =>
      rw [hv] at h
      exact addOp_same hab _ _ (fun p hp => h p (Or.inr hp))
  | .vec es, h => by
    simp only [asksE] at h
    have he := evalEs_same hab c es h
    simp only [evalE, asksE, he.1, he.2, and_true]
theorem evalEs_same {a b : Arith N} (hab : SameNumbers a b) (c : Ctx N) :
    ∀ es : Exps N, (∀ p ∈ asksEs a c es, Answers a b p) → evalEs b c es = evalEs a c es ∧ asksEs b c es = asksEs a c es
  | .nil, _ => by simp [evalEs, asksEs]
  | .cons e es, h => by
    simp only [asksEs, List.mem_append] at h
    have he := evalE_same hab c e (fun p hp => h p (Or.inl hp))
    simp only [evalEs, asksEs, he.1, he.2]
    cases hv : evalE a c e with
    | error e => simp
    | ok x =>
      rw [hv] at h
      have hr := evalEs_same hab c es (fun p hp => h p (Or.inr hp))
      simp only [hr.1, hr.2, and_self]
end

theorem evalList_same {a b : Arith N} (hab : SameNumbers a b) (c : Ctx N) :
    ∀ es : List (Exp N), (∀ p ∈ asksList a c es, Answers a b p) →
      evalList b c es = evalList a c es ∧ asksList b c es = asksList a c es
  | [], _ => by simp [evalList, asksList]
  | e :: es, h => by
    simp only [asksList, List.mem_append] at h
    have he := evalE_same hab c e (fun p hp => h p (Or.inl hp))
    simp only [evalList, asksList, he.1, he.2]
    cases hv : evalE a c e with
    | error e => simp
    | ok x =>
      rw [hv] at h
      have hr := evalList_same hab c es (fun p hp => h p (Or.inr hp))
      simp only [hr.1, hr.2, and_self]

theorem evalProps_same {a b : Arith N} (hab : SameNumbers a b) (c : Ctx N) :
    ∀ ps : List (Name × Exp N), (∀ p ∈ asksList a c (ps.map Prod.snd), Answers a b p) →
      evalProps b c ps = evalProps a c ps ∧ asksList b c (ps.map Prod.snd) = asksList a c (ps.map Prod.snd)
  | [], _ => by simp [evalProps, asksList]
  | (k, e) :: es, h => by
    simp only [List.map_cons, asksList, List.mem_append] at h
    have he := evalE_same hab c e (fun p hp => h p (Or.inl hp))
    simp only [List.map_cons, evalProps, asksList, he.1, he.2]
    cases hv : evalE a c e with
    | error e => simp
    | ok x =>
      rw [hv] at h
      have hr := evalProps_same hab c es (fun p hp => h p (Or.inr hp))
      simp only [hr.1, hr.2, and_self]

theorem exec_same {a b : Arith N} (hab : SameNumbers a b) (c : Ctx N) (s : Stmt N)
    (h : ∀ p ∈ asksStmt a c s, Answers a b p) : exec b c s = exec a c s ∧ asksStmt b c s = asksStmt a c s := by
  cases s with
  | assign n e =>
    have := evalE_same hab c e h
    simp only [exec, asksStmt, this.1, this.2, and_self]
  | element l t ps =>
    have := evalProps_same hab c ps h
    simp only [exec, asksStmt, this.1, this.2, and_self]
  | line l t es =>
    have := evalList_same hab c es h
    simp only [exec, asksStmt, this.1, this.2, and_self]
  | func f e =>
    have := evalE_same hab c e h
    simp only [exec, asksStmt, this.1, this.2, and_self]
  | command k => exact ⟨rfl, rfl⟩

theorem execAll_same {a b : Arith N} (hab : SameNumbers a b) :
    ∀ (ss : List (Stmt N)) (c : Ctx N), (∀ p ∈ asksAll a c ss, Answers a b p) →
      execAll b c ss = execAll a c ss ∧ asksAll b c ss = asksAll a c ss
  | [], _, _ => ⟨rfl, rfl⟩
  | s :: ss, c, h => by
    simp only [asksAll, List.mem_append] at h
    have hs := exec_same hab c s (fun p hp => h p (Or.inl hp))
    simp only [execAll, asksAll, hs.1, hs.2]
    cases hv : exec a c s with
    | mk c' ok =>
      rw [hv] at h
      cases ok with
      | false => simp
      | true =>
        have hr := execAll_same hab ss c' (fun p hp => h p (Or.inr hp))
        simp only [hr.1, hr.2, and_self]

/-- A parse depends on the files it asks for, and on nothing else outside. -/
theorem parseText_same {a b : Arith N} (hab : SameNumbers a b) (strtod : Name → Option N) (vars : SMap Name (CV N))
    (text : Name) (h : ∀ p ∈ asksText a strtod vars text, Answers a b p) :
    (∀ lattice, parseText b strtod vars text lattice = parseText a strtod vars text lattice) ∧
      asksText b strtod vars text = asksText a strtod vars text := by
  have := execAll_same hab (pAll (lexAll strtod text).1).1 (fillVars Ctx.empty vars) h
  refine ⟨fun lattice => ?_, this.2⟩
  simp only [parseText, parseCtx, this.1]

theorem within_numbers (a : Arith N) (fs fs' : Files) (dir dir' : Name) (sub sub' : Name → Option (Cf N)) :
    SameNumbers (within a fs dir sub) (within a fs' dir' sub') := rfl

theorem within_answers (a : Arith N) (fs : Files) (dir : Name) (sub sub' : Name → Option (Cf N)) (p : Name × Name)
    (h : p.1 = "parse".toList → ∀ q, fs.canon dir p.2 = some q → sub' q = sub q) :
    Answers (within a fs dir sub) (within a fs dir sub') p := by
  refine ⟨fun e => ?_, fun _ => rfl, fun _ => rfl⟩
  simp only [within]
  cases hq : fs.canon dir p.2 with
  | none => rfl
  | some q => exact h e q hq

/-! ## The number of nested calls does not matter -/

/-- What a call gives when it is done. -/
theorem load_done {a : Arith N} {strtod : Name → Option N} {fs : Files} {n : Nat} {vars : SMap Name (CV N)}
    {fname : Option Name} {lattice : Bool} {dir text : Name} (hs : fs.source fname = some (dir, text)) (o : Loaded N) :
    load a strtod fs (n + 1) vars fname lattice = some o ↔
      (∀ s, ("parse".toList, s) ∈ asksText (within a fs dir (fun q => handed (load a strtod fs n [] (some q) true))) strtod vars text →
        ∀ q, fs.canon dir s = some q → ∃ r, load a strtod fs n [] (some q) true = some r) ∧
      o = .done (parseText (within a fs dir (fun q => handed (load a strtod fs n [] (some q) true))) strtod vars text lattice) := by
  simp only [load, hs]
  split
  · rename_i hany
    rw [List.any_eq_true] at hany
    obtain ⟨⟨k, s⟩, hp, hc⟩ := hany
    simp only [Bool.and_eq_true, decide_eq_true_eq] at hc
    obtain ⟨rfl, hc⟩ := hc
    cases hq : fs.canon dir s with
    | none => simp [hq] at hc
    | some q =>
      rw [hq] at hc
      simp only [Option.isNone_iff_eq_none] at hc
      constructor
      · intro e; simp at e
      · intro e
        obtain ⟨r, hr⟩ := e.1 s hp q hq
        rw [hc] at hr
        simp at hr
  · rename_i hany
    constructor
    · intro e
      simp only [Option.some.injEq] at e
      refine ⟨fun s hp q hq => ?_, e.symm⟩
      cases hl : load a strtod fs n [] (some q) true with
      | some r => exact ⟨r, rfl⟩
      | none =>
        refine absurd (List.any_eq_true.mpr ⟨_, hp, ?_⟩) hany
        simp [hq, hl]
    · intro e
      rw [e.2]

theorem load_succ (a : Arith N) (strtod : Name → Option N) (fs : Files) :
    ∀ (n : Nat) (vars : SMap Name (CV N)) (fname : Option Name) (lattice : Bool) (r : Loaded N),
      load a strtod fs n vars fname lattice = some r → load a strtod fs (n + 1) vars fname lattice = some r
  | 0, _, _, _, _, h => by simp [load] at h
  | n + 1, vars, fname, lattice, r, h => by
    cases hs : fs.source fname with
    | none =>
      simp only [load, hs] at h ⊢
      exact h
    | some p =>
      obtain ⟨dir, text⟩ := p
      rw [load_done hs] at h ⊢
      obtain ⟨h1, h2⟩ := h
      have hag := parseText_same (within_numbers a fs fs dir dir (fun q => handed (load a strtod fs n [] (some q) true))
        (fun q => handed (load a strtod fs (n + 1) [] (some q) true))) strtod vars text (by
          intro p hp
          apply within_answers
          intro e q hq
          obtain ⟨k, s⟩ := p
          dsimp only at e hq
          subst e
          obtain ⟨r', hr'⟩ := h1 s hp q hq
          simp only [hr', load_succ a strtod fs n _ _ _ _ hr'])
      rw [hag.2, hag.1]
      refine ⟨fun s hp q hq => ?_, h2⟩
      obtain ⟨r', hr'⟩ := h1 s hp q hq
      exact ⟨r', load_succ a strtod fs n _ _ _ _ hr'⟩

/-- C108: a parse that has come to an end with so many nested calls gives the same with more. -/
theorem C108_depth (a : Arith N) (strtod : Name → Option N) (fs : Files) {n m : Nat} (hnm : n ≤ m)
    {vars : SMap Name (CV N)} {fname : Option Name} {lattice : Bool} {r : Loaded N}
    (h : load a strtod fs n vars fname lattice = some r) : load a strtod fs m vars fname lattice = some r := by
  induction hnm with
  | refl => exact h
  | step _ ih => exact load_succ a strtod fs _ _ _ _ _ ih

/-- Parsing the file ends, with this result. -/
def Ends (a : Arith N) (strtod : Name → Option N) (fs : Files) (vars : SMap Name (CV N)) (fname : Option Name)
    (lattice : Bool) (r : Loaded N) : Prop := ∃ n, load a strtod fs n vars fname lattice = some r

/-- C108: a file has one meaning. -/
theorem C108_unique {a : Arith N} {strtod : Name → Option N} {fs : Files} {vars : SMap Name (CV N)} {fname : Option Name}
    {lattice : Bool} {r r' : Loaded N} (h : Ends a strtod fs vars fname lattice r)
    (h' : Ends a strtod fs vars fname lattice r') : r = r' := by
  obtain ⟨n, hn⟩ := h
  obtain ⟨m, hm⟩ := h'
  have h1 := C108_depth a strtod fs (Nat.le_max_left n m) hn
  have h2 := C108_depth a strtod fs (Nat.le_max_right n m) hm
  rw [h1] at h2
  exact Option.some.inj h2

/-- What the file `q`, parsed on its own without variables, gives to the file that uses it: its configuration, or an exception. -/
def Gives (a : Arith N) (strtod : Name → Option N) (fs : Files) (q : Name) (c : Option (Cf N)) : Prop :=
  ∃ r, Ends a strtod fs [] (some q) true r ∧ c = handed (some r)

theorem gives_all {a : Arith N} {strtod : Name → Option N} {fs : Files} {sub : Name → Option (Cf N)} :
    ∀ l : List Name, (∀ q ∈ l, Gives a strtod fs q (sub q)) →
      ∃ n, ∀ q ∈ l, ∃ r, load a strtod fs n [] (some q) true = some r ∧ sub q = handed (some r)
  | [], _ => ⟨0, by simp⟩
  | q :: l, h => by
    obtain ⟨n, hn⟩ := gives_all l (fun x hx => h x (List.mem_cons_of_mem _ hx))
    obtain ⟨r, ⟨m, hm⟩, hc⟩ := h q (List.mem_cons_self ..)
    refine ⟨max n m, fun x hx => ?_⟩
    rcases List.mem_cons.mp hx with rfl | hx
    · exact ⟨r, C108_depth a strtod fs (Nat.le_max_right n m) hm, hc⟩
    · obtain ⟨r', h1, h2⟩ := hn x hx
      exact ⟨r', C108_depth a strtod fs (Nat.le_max_left n m) h1, h2⟩

/-- C108: what a lattice file means.  Parsing it ends with `o` exactly if each file it asks for with `parse`, relative to its own directory,
can be parsed to its end on its own, without the variables of this file, and `o` is what the text gives with those results. -/
theorem C108_meaning (a : Arith N) (strtod : Name → Option N) (fs : Files) (vars : SMap Name (CV N)) (fname : Option Name)
    (lattice : Bool) {dir text : Name} (hs : fs.source fname = some (dir, text)) (r : Loaded N) :
    Ends a strtod fs vars fname lattice r ↔
      ∃ sub : Name → Option (Cf N),
        (∀ s, ("parse".toList, s) ∈ asksText (within a fs dir sub) strtod vars text →
          ∀ q, fs.canon dir s = some q → Gives a strtod fs q (sub q)) ∧
        r = .done (parseText (within a fs dir sub) strtod vars text lattice) := by
  constructor
  · rintro ⟨n, hn⟩
    cases n with
    | zero => simp [load] at hn
    | succ n =>
      rw [load_done hs] at hn
      refine ⟨_, fun s hp q hq => ?_, hn.2⟩
      obtain ⟨r', hr'⟩ := hn.1 s hp q hq
      exact ⟨r', ⟨n, hr'⟩, by rw [hr']⟩
  · rintro ⟨sub, hsub, rfl⟩
    obtain ⟨n, hn⟩ := gives_all (a := a) (strtod := strtod) (fs := fs) (sub := sub)
      ((asksText (within a fs dir sub) strtod vars text).filterMap
        (fun p : Name × Name => if p.1 = "parse".toList then fs.canon dir p.2 else none)) (by
      intro q hq
      obtain ⟨⟨k, s⟩, hp, hc⟩ := List.mem_filterMap.mp hq
      dsimp only at hc
      split at hc
      · rename_i e
        subst e
        exact hsub s hp q hc
      · simp at hc)
    have hmem : ∀ s, ("parse".toList, s) ∈ asksText (within a fs dir sub) strtod vars text → ∀ q, fs.canon dir s = some q →
        ∃ r, load a strtod fs n [] (some q) true = some r ∧ sub q = handed (some r) := by
      intro s hp q hq
      exact hn q (List.mem_filterMap.mpr ⟨_, hp, by simp [hq]⟩)
    have hag := parseText_same (within_numbers a fs fs dir dir sub
        (fun q => handed (load a strtod fs n [] (some q) true))) strtod vars text (by
          intro p hp
          apply within_answers
          intro e q hq
          obtain ⟨k, s⟩ := p
          dsimp only at e hq
          subst e
          obtain ⟨r', hr', hc⟩ := hmem s hp q hq
          simp only [hr', hc])
    refine ⟨n + 1, ?_⟩
    rw [load_done hs, hag.2, hag.1]
    refine ⟨fun s hp q hq => ?_, rfl⟩
    obtain ⟨r', hr', _⟩ := hmem s hp q hq
    exact ⟨r', hr'⟩

/-- `q` asks for `q'` with `parse`, whatever the files it asks for before give. -/
def MayUse (a : Arith N) (strtod : Name → Option N) (fs : Files) (q q' : Name) : Prop :=
  ∃ dir text sub s, fs.source (some q) = some (dir, text) ∧
    ("parse".toList, s) ∈ asksText (within a fs dir sub) strtod [] text ∧ fs.canon dir s = some q'

/-- C108: if files can be ranked so that each uses files of lower rank only, parsing any file ends. -/
theorem C108_ends (a : Arith N) (strtod : Name → Option N) (fs : Files) (rank : Name → Nat)
    (h : ∀ q q', MayUse a strtod fs q q' → rank q' < rank q) (vars : SMap Name (CV N)) (fname : Option Name) (lattice : Bool) :
    ∃ r, Ends a strtod fs vars fname lattice r := by
  have key : ∀ k q, rank q < k → ∃ r, load a strtod fs k [] (some q) true = some r := by
    intro k
    induction k with
    | zero => intro q hq; omega
    | succ k ih =>
      intro q hq
      cases hs : fs.source (some q) with
      | none => exact ⟨.fileError, by simp only [load, hs]⟩
      | some p =>
        obtain ⟨dir, text⟩ := p
        refine ⟨_, (load_done hs _).mpr ⟨fun s hp q' hq' => ?_, rfl⟩⟩
        have := h q q' ⟨dir, text, _, s, hs, hp, hq'⟩
        exact ih q' (by omega)
  cases hs : fs.source fname with
  | none => exact ⟨.fileError, 1, by simp only [load, hs]⟩
  | some p =>
    obtain ⟨dir, text⟩ := p
    have hall : ∀ q, ∃ r, Ends a strtod fs [] (some q) true r := fun q =>
      (key (rank q + 1) q (by omega)).imp fun _ h => ⟨_, h⟩
    choose f hf using hall
    exact ⟨_, (C108_meaning a strtod fs vars fname lattice hs _).mpr
      ⟨fun q => handed (some (f q)), fun s _ q _ => ⟨f q, hf q, rfl⟩, rfl⟩⟩

/-- C108: files that use each other in a circle are never done. -/
theorem C108_circle (a : Arith N) (strtod : Name → Option N) (fs : Files) (S : Name → Prop)
    (h : ∀ q, S q → ∃ dir text, fs.source (some q) = some (dir, text) ∧ ∀ sub, ∃ s q',
      ("parse".toList, s) ∈ asksText (within a fs dir sub) strtod [] text ∧ fs.canon dir s = some q' ∧ S q')
    (n : Nat) (q : Name) (hq : S q) : load a strtod fs n [] (some q) true = none := by
  induction n generalizing q with
  | zero => rfl
  | succ n ih =>
    obtain ⟨dir, text, hs, hu⟩ := h q hq
    obtain ⟨s, q', hp, hc, hq'⟩ := hu (fun q => handed (load a strtod fs n [] (some q) true))
    cases hl : load a strtod fs (n + 1) [] (some q) true with
    | none => rfl
    | some r =>
      obtain ⟨r', hr'⟩ := ((load_done hs r).mp hl).1 s hp q' hc
      rw [ih q' hq'] at hr'
      simp at hr'

/-- C108: files may be moved.  If another file system, or the same one seen from another directory, has the same files under the names `m q`
and finds them from the directories `d dir` under the same relative names, and the paths themselves are not used, or are the same, parsing
gives the same. -/
theorem C108_moved (a : Arith N) (strtod : Name → Option N) (fs fs' : Files) (m d : Name → Name)
    (hsrc : ∀ q, fs'.source (some (m q)) = (fs.source (some q)).map (fun p => (d p.1, p.2)))
    (hask : ∀ q dir text sub, fs.source (some q) = some (dir, text) → ∀ p ∈ asksText (within a fs dir sub) strtod [] text,
      (p.1 = "parse".toList → fs'.canon (d dir) p.2 = (fs.canon dir p.2).map m) ∧
      (p.1 = "file".toList ∨ p.1 = "dir".toList → fs'.canon (d dir) p.2 = fs.canon dir p.2) ∧
      (p.1 = "h5file".toList → fs'.h5 (d dir) p.2 = fs.h5 dir p.2)) (n : Nat) (q : Name) :
    load a strtod fs' n [] (some (m q)) true = load a strtod fs n [] (some q) true := by
  induction n generalizing q with
  | zero => rfl
  | succ n ih =>
    cases hs : fs.source (some q) with
    | none =>
      have hs' : fs'.source (some (m q)) = none := by rw [hsrc, hs]; rfl
      simp only [load, hs, hs']
    | some p =>
      obtain ⟨dir, text⟩ := p
      have hs' : fs'.source (some (m q)) = some (d dir, text) := by rw [hsrc, hs]; rfl
      have hag := parseText_same (within_numbers a fs fs' dir (d dir)
        (fun q => handed (load a strtod fs n [] (some q) true))
        (fun q => handed (load a strtod fs' n [] (some q) true))) strtod [] text (by
          intro p hp
          obtain ⟨h1, h2, h3⟩ := hask q dir text _ hs p hp
          refine ⟨fun e => ?_, fun e => ?_, fun e => h3 e⟩
          · simp only [within, h1 e]
            cases fs.canon dir p.2 with
            | none => rfl
            | some q' => simp [ih q']
          · simp only [within, h2 e])
      ext r
      rw [load_done hs, load_done hs', hag.2, hag.1]
      apply and_congr_left'
      apply forall_congr'
      intro s
      apply forall_congr'
      intro hp
      rw [(hask q dir text _ hs _ hp).1 rfl]
      cases fs.canon dir s with
      | none => simp
      | some q' => simp [ih q']

/-- C108: without a name the standard input is read, and files are found from the current directory. -/
theorem C108_stdin (a : Arith N) (strtod : Name → Option N) (fs : Files) (vars : SMap Name (CV N)) (lattice : Bool)
    (sub : Name → Option (Cf N)) (h : ∀ s, ("parse".toList, s) ∉ asksText (within a fs fs.cwd sub) strtod vars fs.stdin) :
    Ends a strtod fs vars none lattice (.done (parseText (within a fs fs.cwd sub) strtod vars fs.stdin lattice)) :=
  (C108_meaning a strtod fs vars none lattice rfl _).mpr ⟨sub, fun s hs => absurd hs (h s), rfl⟩

/-- C108: the name "-", documented to stand for the standard input (/repo/src/flame/config.h:262), is an error unless the current directory
has a file of that name. -/
theorem C108_dash (a : Arith N) (strtod : Name → Option N) (fs : Files) (vars : SMap Name (CV N)) (lattice : Bool) (r : Loaded N)
    (h : fs.canon fs.cwd "-".toList = none) : Ends a strtod fs vars (some "-".toList) lattice r ↔ r = .fileError := by
  have hs : fs.source (some "-".toList) = none := by simp only [Files.source, h]
  constructor
  · rintro ⟨n, hn⟩
    cases n with
    | zero => simp [load] at hn
    | succ n =>
      simp only [load, hs, Option.some.injEq] at hn
      exact hn.symm
  · rintro rfl
    exact ⟨1, by simp only [load, hs]⟩

/-! ## Examples -/

/-- A file that uses another one. -/
def exTop : Name := "s = parse(\"sub/in.lat\"); y = 4; x: drift, L = y; l: LINE = (x);".toList

/-- The other file. -/
def exIn : Name := "y = 3; z: drift, L = y; m: LINE = (z);".toList

/-- The two files in the directory `r`; the current directory is another one. -/
def exFs (r : Name) : Files where
  canon base n :=
    if n = r ++ "/top.lat".toList then some n
    else if n = r ++ "/sub/in.lat".toList then some n
    else if base = r ∧ n = "sub/in.lat".toList then some (r ++ "/sub/in.lat".toList)
    else none
  parent p := if p = r ++ "/top.lat".toList then r else r ++ "/sub".toList
  text p := if p = r ++ "/top.lat".toList then some exTop else if p = r ++ "/sub/in.lat".toList then some exIn else none
  cwd := "/w".toList
  stdin := exIn
  h5 _ _ := none

theorem exTop_stmts : (pAll (lexAll exNum exTop).1).1 =
    [.assign "s".toList (.call "parse".toList (.str "sub/in.lat".toList)), .assign "y".toList (.num (some 4)),
     .element "x".toList "drift".toList [("L".toList, .var "y".toList)], .line "l".toList "LINE".toList [.var "x".toList]] := by
  decide +kernel

theorem exIn_stmts : (pAll (lexAll exNum exIn).1).1 =
    [.assign "y".toList (.num (some 3)), .element "z".toList "drift".toList [("L".toList, .var "y".toList)],
     .line "m".toList "LINE".toList [.var "z".toList]] := by
  decide +kernel

/-- Statements without calls ask for nothing. -/
theorem asksAll_nil (a : Arith N) (ss : List (Stmt N)) (h : ∀ s ∈ ss, ∀ c, asksStmt a c s = []) (c : Ctx N) : asksAll a c ss = [] := by
  induction ss generalizing c with
  | nil => rfl
  | cons s ss ih =>
    simp only [asksAll, h s (List.mem_cons_self ..), List.nil_append]
    cases exec a c s with
    | mk c' ok =>
      cases ok with
      | false => rfl
      | true => exact ih (fun s hs => h s (List.mem_cons_of_mem _ hs)) c'

theorem exIn_asks (a : Arith (Option Int)) (vars : SMap Name (CV (Option Int))) : asksText a exNum vars exIn = [] := by
  unfold asksText
  rw [exIn_stmts]
  apply asksAll_nil
  intro s hs c
  simp only [List.mem_cons, List.not_mem_nil, or_false] at hs
  rcases hs with rfl | rfl | rfl
  · rfl
  · simp only [asksStmt, List.map_cons, List.map_nil, asksList, asksE]
    cases evalE a c (.var "y".toList) <;> rfl
  · simp only [asksStmt, asksList, asksE]
    cases evalE a c (.var "z".toList) <;> rfl

/-- The first file asks for the other one only. -/
theorem exTop_asks (a : Arith (Option Int)) (vars : SMap Name (CV (Option Int))) :
    asksText a exNum vars exTop = [("parse".toList, "sub/in.lat".toList)] := by
  unfold asksText
  rw [exTop_stmts, asksAll]
  have h1 : ∀ c : Ctx (Option Int), asksStmt a c (.assign "s".toList (.call "parse".toList (.str "sub/in.lat".toList))) =
      [("parse".toList, "sub/in.lat".toList)] := fun c => by
    have : "parse".toList ∈ fileOps := by decide
    simp only [asksStmt, asksE, evalE, askedOp, this, if_true, List.nil_append]
  rw [h1]
  generalize exec a (fillVars Ctx.empty vars) (.assign "s".toList (.call "parse".toList (.str "sub/in.lat".toList))) = x
  obtain ⟨c', _ | _⟩ := x
  · rfl
  · refine (congrArg (List.cons _) (?_ : _ = [])).trans rfl
    apply asksAll_nil
    intro s hs c
    simp only [List.mem_cons, List.not_mem_nil, or_false] at hs
    rcases hs with rfl | rfl | rfl
    · rfl
    · simp only [asksStmt, List.map_cons, List.map_nil, asksList, asksE]
      cases evalE a c (.var "y".toList) <;> rfl
    · simp only [asksStmt, asksList, asksE]
      cases evalE a c (.var "x".toList) <;> rfl

/-- The sources of the example. -/
theorem exFs_source {q dir text : Name} (h : (exFs "/d".toList).source (some q) = some (dir, text)) :
    (q = "/d/top.lat".toList ∧ dir = "/d".toList ∧ text = exTop) ∨
    (q = "/d/sub/in.lat".toList ∧ dir = "/d/sub".toList ∧ text = exIn) := by
  by_cases h1 : q = "/d/top.lat".toList
  · subst h1
    have : (exFs "/d".toList).source (some "/d/top.lat".toList) = some ("/d".toList, exTop) := by decide +kernel
    rw [this] at h
    simp only [Option.some.injEq, Prod.mk.injEq] at h
    exact Or.inl ⟨rfl, h.1.symm, h.2.symm⟩
  · by_cases h2 : q = "/d/sub/in.lat".toList
    · subst h2
      have : (exFs "/d".toList).source (some "/d/sub/in.lat".toList) = some ("/d/sub".toList, exIn) := by decide +kernel
      rw [this] at h
      simp only [Option.some.injEq, Prod.mk.injEq] at h
      exact Or.inr ⟨rfl, h.1.symm, h.2.symm⟩
    · exfalso
      have e1 : "/d".toList ++ "/top.lat".toList = "/d/top.lat".toList := by decide
      have e2 : "/d".toList ++ "/sub/in.lat".toList = "/d/sub/in.lat".toList := by decide
      have e3 : ("/w".toList = "/d".toList) = False := eq_false (by decide)
      simp only [Files.source, exFs, e1, e2, h1, h2, e3, false_and, if_false] at h
      simp at h

/-- Example: each of the two files uses files of lower rank only, so parsing ends, whatever is parsed. -/
theorem exFs_rank (q q' : Name) (h : MayUse exA exNum (exFs "/d".toList) q q') :
    (if q' = "/d/top.lat".toList then 1 else 0) < (if q = "/d/top.lat".toList then 1 else 0) := by
  obtain ⟨dir, text, sub, s, hs, hp, hc⟩ := h
  rcases exFs_source hs with ⟨rfl, rfl, rfl⟩ | ⟨rfl, rfl, rfl⟩
  · rw [exTop_asks, List.mem_singleton, Prod.mk.injEq] at hp
    obtain ⟨-, rfl⟩ := hp
    have : (exFs "/d".toList).canon "/d".toList "sub/in.lat".toList = some "/d/sub/in.lat".toList := by decide +kernel
    rw [this, Option.some.injEq] at hc
    subst hc
    decide
  · rw [exIn_asks] at hp
    simp at hp

example : ∃ r, Ends exA exNum (exFs "/d".toList) [] (some "/d/top.lat".toList) true r :=
  C108_ends exA exNum (exFs "/d".toList) _ exFs_rank [] _ true

/-- Example: the first file's `s` is the configuration of the other one, with its own `y`. -/
example : (match load exA exNum (exFs "/d".toList) 2 [] (some "/d/top.lat".toList) true with
    | some (.done (.ok c)) =>
      match c.look "s".toList, c.look "y".toList with
      | some (.cfgs [c']), some (.num y) =>
        match c'.look "y".toList with | some (.num y') => decide (y = some 4 ∧ y' = some 3) | _ => false
      | _, _ => false
    | _ => false) = true := by decide +kernel

/-- Example: with one call only it is not done. -/
example : (load exA exNum (exFs "/d".toList) 1 [] (some "/d/top.lat".toList) true).isNone = true := by decide +kernel

/-- Example: moved to another directory the files give the same. -/
example (n : Nat) (q : Name) :
    load exA exNum (exFs "/e".toList) n [] (some (if q = "/d/top.lat".toList then "/e/top.lat".toList
      else if q = "/d/sub/in.lat".toList then "/e/sub/in.lat".toList else [])) true =
    load exA exNum (exFs "/d".toList) n [] (some q) true := by
  refine C108_moved exA exNum (exFs "/d".toList) (exFs "/e".toList)
    (fun q => if q = "/d/top.lat".toList then "/e/top.lat".toList
      else if q = "/d/sub/in.lat".toList then "/e/sub/in.lat".toList else [])
    (fun dir => if dir = "/d".toList then "/e".toList else "/e/sub".toList) ?_ ?_ n q
  · intro q
    by_cases h1 : q = "/d/top.lat".toList
    · subst h1; decide +kernel
    · by_cases h2 : q = "/d/sub/in.lat".toList
      · subst h2; decide +kernel
      · cases hs : (exFs "/d".toList).source (some q) with
        | some p =>
          rcases exFs_source hs with h | h
          · exact absurd h.1 h1
          · exact absurd h.1 h2
        | none =>
          simp only [h1, h2, if_false]
          decide +kernel
  · intro q dir text sub hs p hp
    rcases exFs_source hs with ⟨rfl, rfl, rfl⟩ | ⟨rfl, rfl, rfl⟩
    · rw [exTop_asks, List.mem_singleton] at hp
      subst hp
      decide +kernel
    · rw [exIn_asks] at hp
      simp at hp

/-- A file that uses itself. -/
def exLoop : Name := "s = parse(\"a.lat\"); x: drift, L = 1; l: LINE = (x);".toList

/-- A file system with that file only. -/
def exLoopFs : Files where
  canon _ _ := some "/d/a.lat".toList
  parent _ := "/d".toList
  text _ := some exLoop
  cwd := "/d".toList
  stdin := exIn
  h5 _ _ := none

/-- C108: that every lattice file comes to an end, with a result or an error, is false: a file that uses itself is parsed without end. -/
theorem C108_false : ¬ ∀ (a : Arith (Option Int)) (strtod : Name → Option (Option Int)) (fs : Files) (q : Name),
    ∃ r, Ends a strtod fs [] (some q) true r := by
  intro h
  obtain ⟨r, n, hn⟩ := h exA exNum exLoopFs "/d/a.lat".toList
  rw [C108_circle exA exNum exLoopFs (fun q => q = "/d/a.lat".toList) ?_ n _ rfl] at hn
  · simp at hn
  · rintro q rfl
    refine ⟨"/d".toList, exLoop, by decide +kernel, fun sub => ⟨"a.lat".toList, "/d/a.lat".toList, ?_, rfl, rfl⟩⟩
    have hst : ∃ ss, (pAll (lexAll exNum exLoop).1).1 =
        .assign "s".toList (.call "parse".toList (.str "a.lat".toList)) :: ss := ⟨[.element "x".toList "drift".toList
          [("L".toList, .num (some 1))], .line "l".toList "LINE".toList [.var "x".toList]], by decide +kernel⟩
    obtain ⟨ss, hss⟩ := hst
    unfold asksText
    rw [hss, asksAll]
    have : "parse".toList ∈ fileOps := by decide
    simp only [asksStmt, asksE, evalE, askedOp, this, if_true, List.nil_append, List.cons_append, List.mem_cons, true_or]

/-- C108: the documentation of `parse_file` is not met: with a correct lattice on the standard input, no name gives a configuration, and "-"
gives an error. -/
theorem C108_dash_false : (∃ c, Ends exA exNum (exFs "/d".toList) [] none true (.done (.ok c))) ∧
    Ends exA exNum (exFs "/d".toList) [] (some "-".toList) true .fileError := by
  refine ⟨?_, (C108_dash exA exNum _ [] true _ (by decide +kernel)).mpr rfl⟩
  have h := C108_stdin exA exNum (exFs "/d".toList) [] true (fun _ => none) (fun s hs => by
    have : (exFs "/d".toList).stdin = exIn := rfl
    rw [this, exIn_asks] at hs
    simp at hs)
  have hk : (match parseText (within exA (exFs "/d".toList) (exFs "/d".toList).cwd (fun _ => none)) exNum []
      (exFs "/d".toList).stdin true with | .ok _ => true | _ => false) = true := by decide +kernel
  revert h hk
  cases parseText (within exA (exFs "/d".toList) (exFs "/d".toList).cwd (fun _ => none)) exNum [] (exFs "/d".toList).stdin true with
  | ok c => exact fun h _ => ⟨c, h⟩
  | _ => intro _ hk; simp at hk

end Flame.Glps
