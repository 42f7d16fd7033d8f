import Verif.Glps.GrammarSpec

/-!
# The parser accepts exactly the grammar
-/

set_option linter.unusedSimpArgs false

namespace Flame.Glps

variable {N : Type}

theorem atSym_iff {c : Char} {ts : List (Tok N)} :
    atSym c ts = true ↔ ∃ r, ts = .sym c :: r := by
  cases ts with
  | nil => simp [atSym]
  | cons t r => cases t <;> simp [atSym]

theorem atSym_self (c : Char) (r : List (Tok N)) : atSym c (.sym c :: r) = true := by
  simp [atSym]

theorem DerE.mono {p q : Nat} {ts : List (Tok N)} {e : Exp N} (h : DerE q ts e) (hpq : p ≤ q) :
    DerE p ts e := by
  cases h with
  | unary h => exact .unary h
  | bin hc hp hl hr => exact .bin hc (le_trans hpq hp) hl hr

/-! ### Soundness -/

/-- What the four parsing functions promise for one amount of fuel. -/
structure Sound (n : Nat) : Prop where
  expr : ∀ (p : Nat) (ts rest : List (Tok N)) (e : Exp N), pExpr n p ts = some (e, rest) →
    ∃ pre, ts = pre ++ rest ∧ DerE p pre e ∧ Stop p rest
  loop : ∀ (p q : Nat) (tl ts rest : List (Tok N)) (l e : Exp N), pLoop n p l ts = some (e, rest) →
    DerE q tl l → p ≤ q → Stop (q + 1) ts → ∃ pre, ts = pre ++ rest ∧ DerE p (tl ++ pre) e ∧ Stop p rest
  unary : ∀ (ts rest : List (Tok N)) (e : Exp N), pUnary n ts = some (e, rest) →
    ∃ pre, ts = pre ++ rest ∧ DerU pre e
  list : ∀ (c : Char) (ts rest : List (Tok N)) (es : Exps N), pList n c ts = some (es, rest) →
    ∃ pre, ts = pre ++ .sym c :: rest ∧ DerL pre es

theorem prec_le (c : Char) : prec c ≤ 2 := by
  unfold prec
  split
  · omega
  · split <;> omega

theorem stop_big (q : Nat) (hq : 2 ≤ q) (ts : List (Tok N)) : Stop (q + 1) ts := by
  cases ts with
  | nil => trivial
  | cons t r =>
    cases t with
    | sym c =>
      right
      have := prec_le c
      omega
    | _ => trivial

theorem sound (n : Nat) : Sound (N := N) n := by
  induction n with
  | zero =>
    constructor
    · intro p ts rest e h; simp [pExpr] at h
    · intro p q tl ts rest l e h; simp [pLoop] at h
    · intro ts rest e h; simp [pUnary] at h
    · intro c ts rest es h; simp [pList] at h
  | succ n ih =>
    constructor
    · intro p ts rest e h
      rw [pExpr] at h
      split at h
      · simp at h
      · rename_i l r hu
        obtain ⟨pre, rfl, hd⟩ := ih.unary _ _ _ hu
        obtain ⟨pre', rfl, hd', hs⟩ := ih.loop p (max p 2) pre r rest l e h (.unary hd) (le_max_left _ _)
          (stop_big _ (le_max_right _ _) _)
        exact ⟨pre ++ pre', by rw [List.append_assoc], hd', hs⟩
    · intro p q tl ts rest l e h hl hpq hst
      rw [pLoop.eq_def] at h
      simp only at h
      split at h
      · rename_i c r
        split at h
        · rename_i hc
          split at h
          · simp at h
          · rename_i e1 r1 he
            obtain ⟨pre, hr, hd, hs⟩ := ih.expr _ _ _ _ he
            subst hr
            have hqc : prec c ≤ q := by
              rcases hst with h0 | h1
              · exact absurd h0 hc.1
              · omega
            have hbin : DerE (prec c) (tl ++ .sym c :: pre) (.bin c l e1) :=
              .bin hc.1 (le_refl _) (hl.mono hqc) hd
            obtain ⟨pre', rfl, hd', hs'⟩ := ih.loop p (prec c) _ _ _ _ _ h hbin hc.2 hs
            refine ⟨.sym c :: (pre ++ pre'), by simp, ?_, hs'⟩
            simpa using hd'
        · rename_i hc
          simp only [Option.some.injEq, Prod.mk.injEq] at h
          obtain ⟨rfl, rfl⟩ := h
          refine ⟨[], rfl, by simpa using hl.mono hpq, ?_⟩
          by_cases h0 : prec c = 0
          · exact Or.inl h0
          · right
            by_contra hlt
            exact hc ⟨h0, by omega⟩
      · rename_i hns
        simp only [Option.some.injEq, Prod.mk.injEq] at h
        obtain ⟨rfl, rfl⟩ := h
        refine ⟨[], rfl, by simpa using hl.mono hpq, ?_⟩
        cases ts with
        | nil => trivial
        | cons t r =>
          cases t with
          | sym c => exact absurd rfl (hns c r)
          | _ => trivial
    · intro ts rest e h
      rw [pUnary.eq_def] at h
      simp only at h
      split at h
      · simp at h
      · rename_i x r
        simp only [Option.some.injEq, Prod.mk.injEq] at h
        obtain ⟨rfl, rfl⟩ := h
        exact ⟨[.num x], rfl, .num x⟩
      · rename_i s r
        simp only [Option.some.injEq, Prod.mk.injEq] at h
        obtain ⟨rfl, rfl⟩ := h
        exact ⟨[.str s], rfl, .str s⟩
      · rename_i k r
        split at h
        · rename_i ha
          obtain ⟨r', rfl⟩ := atSym_iff.1 ha
          rw [List.tail_cons] at h
          split at h
          · simp at h
          · rename_i e1 r1 he
            obtain ⟨pre, rfl, hd, _⟩ := ih.expr _ _ _ _ he
            split at h
            · rename_i hb
              obtain ⟨r2, rfl⟩ := atSym_iff.1 hb
              simp only [Option.some.injEq, Prod.mk.injEq, List.tail_cons] at h
              obtain ⟨rfl, rfl⟩ := h
              exact ⟨.kw k :: .sym '(' :: (pre ++ [.sym ')']), by simp, .call k hd⟩
            · simp at h
        · simp only [Option.some.injEq, Prod.mk.injEq] at h
          obtain ⟨rfl, rfl⟩ := h
          exact ⟨[.kw k], rfl, .var k⟩
      · rename_i c r
        split at h
        · rename_i hc
          subst hc
          split at h
          · simp at h
          · rename_i e1 r1 he
            obtain ⟨pre, rfl, hd⟩ := ih.unary _ _ _ he
            simp only [Option.some.injEq, Prod.mk.injEq] at h
            obtain ⟨rfl, rfl⟩ := h
            exact ⟨.sym '-' :: pre, rfl, .neg hd⟩
        · split at h
          · rename_i hc
            subst hc
            split at h
            · simp at h
            · rename_i e1 r1 he
              obtain ⟨pre, rfl, hd, _⟩ := ih.expr _ _ _ _ he
              split at h
              · rename_i hb
                obtain ⟨r2, rfl⟩ := atSym_iff.1 hb
                simp only [Option.some.injEq, Prod.mk.injEq, List.tail_cons] at h
                obtain ⟨rfl, rfl⟩ := h
                exact ⟨.sym '(' :: (pre ++ [.sym ')']), by simp, .paren hd⟩
              · simp at h
          · split at h
            · rename_i hc
              subst hc
              split at h
              · simp at h
              · rename_i es r1 he
                obtain ⟨pre, rfl, hd⟩ := ih.list _ _ _ _ he
                simp only [Option.some.injEq, Prod.mk.injEq] at h
                obtain ⟨rfl, rfl⟩ := h
                exact ⟨.sym '[' :: (pre ++ [.sym ']']), by simp, .vec hd⟩
            · simp at h
    · intro c ts rest es h
      rw [pList] at h
      split at h
      · rename_i ha
        obtain ⟨r', rfl⟩ := atSym_iff.1 ha
        simp only [Option.some.injEq, Prod.mk.injEq, List.tail_cons] at h
        obtain ⟨rfl, rfl⟩ := h
        exact ⟨[], rfl, .nil⟩
      · split at h
        · simp at h
        · rename_i e1 r1 he
          obtain ⟨pre, rfl, hd, _⟩ := ih.expr _ _ _ _ he
          split at h
          · rename_i hb
            obtain ⟨r2, rfl⟩ := atSym_iff.1 hb
            rw [List.tail_cons] at h
            split at h
            · simp at h
            · rename_i es2 r3 hl
              obtain ⟨pre2, rfl, hd2⟩ := ih.list _ _ _ _ hl
              simp only [Option.some.injEq, Prod.mk.injEq] at h
              obtain ⟨rfl, rfl⟩ := h
              exact ⟨pre ++ .sym ',' :: pre2, by simp, .cons hd hd2⟩
          · split at h
            · rename_i hb
              obtain ⟨r2, rfl⟩ := atSym_iff.1 hb
              simp only [Option.some.injEq, Prod.mk.injEq, List.tail_cons] at h
              obtain ⟨rfl, rfl⟩ := h
              exact ⟨pre, by simp, .one hd⟩
            · simp at h

/-! ### Shape of derivable token lists -/

/-- Possible first tokens of an expression. -/
def Starts : List (Tok N) → Prop
  | .num _ :: _ => True
  | .str _ :: _ => True
  | .kw _ :: _ => True
  | .sym c :: _ => c = '-' ∨ c = '(' ∨ c = '['
  | [] => False

theorem Starts.append {ts rest : List (Tok N)} (h : Starts ts) : Starts (ts ++ rest) := by
  cases ts with
  | nil => exact absurd h (by simp [Starts])
  | cons t r => cases t <;> exact h

theorem derU_starts {ts : List (Tok N)} {e : Exp N} (h : DerU ts e) : Starts ts := by
  cases h <;> simp [Starts]

theorem derE_starts_aux (e : Exp N) : ∀ (ts : List (Tok N)) (p : Nat), DerE p ts e → Starts ts := by
  intro ts
  generalize hn : ts.length = n
  induction n using Nat.strong_induction_on generalizing ts e with
  | _ n ih =>
    intro p h
    cases h with
    | unary h => exact derU_starts h
    | @bin _ c tl tr l r hc hp hl hr =>
      refine Starts.append (ih tl.length ?_ l tl rfl _ hl)
      rw [← hn]
      simp

theorem derE_starts {p : Nat} {ts : List (Tok N)} {e : Exp N} (h : DerE p ts e) : Starts ts :=
  derE_starts_aux e ts p h

theorem starts_ne_nil {ts : List (Tok N)} (h : Starts ts) : ts ≠ [] := by
  rintro rfl; exact h

theorem starts_not_sym {ts rest : List (Tok N)} (h : Starts ts) (c : Char) (hc : c = ']' ∨ c = ')') :
    atSym c (ts ++ rest) = false := by
  cases ts with
  | nil => exact absurd h (by simp [Starts])
  | cons t r =>
    cases t with
    | sym d =>
      rcases h with h | h | h <;> rcases hc with h' | h' <;> subst h <;> subst h' <;> rfl
    | _ => rfl

/-! ### Enough fuel -/

theorem expr_shorter {n p : Nat} {ts rest : List (Tok N)} {e : Exp N}
    (h : pExpr n p ts = some (e, rest)) : rest.length < ts.length := by
  obtain ⟨pre, rfl, hd, _⟩ := (sound n).expr _ _ _ _ h
  have := List.length_pos_of_ne_nil (starts_ne_nil (derE_starts hd))
  rw [List.length_append]; omega

theorem unary_shorter {n : Nat} {ts rest : List (Tok N)} {e : Exp N}
    (h : pUnary n ts = some (e, rest)) : rest.length < ts.length := by
  obtain ⟨pre, rfl, hd⟩ := (sound n).unary _ _ _ h
  have := List.length_pos_of_ne_nil (starts_ne_nil (derU_starts hd))
  rw [List.length_append]; omega

theorem list_shorter {n : Nat} {c : Char} {ts rest : List (Tok N)} {es : Exps N}
    (h : pList n c ts = some (es, rest)) : rest.length < ts.length := by
  obtain ⟨pre, rfl, _⟩ := (sound n).list _ _ _ _ h
  rw [List.length_append, List.length_cons]; omega

/-- The result no longer depends on the fuel. -/
structure Stable (n : Nat) : Prop where
  expr : ∀ (p : Nat) (ts : List (Tok N)), 3 * ts.length + 2 ≤ n → pExpr (n + 1) p ts = pExpr n p ts
  loop : ∀ (p : Nat) (l : Exp N) (ts : List (Tok N)), 3 * ts.length + 1 ≤ n →
    pLoop (n + 1) p l ts = pLoop n p l ts
  unary : ∀ (ts : List (Tok N)), 3 * ts.length + 1 ≤ n → pUnary (n + 1) ts = pUnary n ts
  list : ∀ (c : Char) (ts : List (Tok N)), 3 * ts.length + 3 ≤ n → pList (n + 1) c ts = pList n c ts

theorem atSym_length {c : Char} {ts : List (Tok N)} (h : atSym c ts = true) :
    ts.length = ts.tail.length + 1 := by
  obtain ⟨r, rfl⟩ := atSym_iff.1 h
  rfl

theorem stable (n : Nat) : Stable (N := N) n := by
  induction n with
  | zero =>
    constructor
    · intro p ts h; omega
    · intro p l ts h; omega
    · intro ts h; omega
    · intro c ts h; omega
  | succ n ih =>
    constructor
    · intro p ts h
      rw [pExpr, pExpr, ih.unary ts (by omega)]
      cases hu : pUnary n ts with
      | none => rfl
      | some v =>
        obtain ⟨l, r⟩ := v
        have := unary_shorter hu
        exact ih.loop p l r (by omega)
    · intro p l ts h
      rw [pLoop.eq_def, pLoop.eq_def (n + 1)]
      cases ts with
      | nil => rfl
      | cons t r =>
        rw [List.length_cons] at h
        cases t with
        | sym c =>
          simp only
          rw [ih.expr (prec c + 1) r (by omega)]
          cases he : pExpr n (prec c + 1) r with
          | none => rfl
          | some v =>
            obtain ⟨e, r'⟩ := v
            have := expr_shorter he
            simp only
            rw [ih.loop p (.bin c l e) r' (by omega)]
        | _ => rfl
    · intro ts h
      rw [pUnary.eq_def, pUnary.eq_def (n + 1)]
      cases ts with
      | nil => rfl
      | cons t r =>
        rw [List.length_cons] at h
        cases t with
        | num x => rfl
        | str s => rfl
        | kw k =>
          simp only
          by_cases ha : atSym '(' r = true
          · rw [if_pos ha, if_pos ha]
            have hl := atSym_length ha
            rw [ih.expr 0 r.tail (by omega)]
          · rw [if_neg ha, if_neg ha]
        | sym c =>
          simp only
          rw [ih.unary r (by omega), ih.expr 0 r (by omega), ih.list ']' r (by omega)]
    · intro c ts h
      rw [pList, pList]
      by_cases ha : atSym c ts = true
      · rw [if_pos ha, if_pos ha]
      · rw [if_neg ha, if_neg ha, ih.expr 0 ts (by omega)]
        cases he : pExpr n 0 ts with
        | none => rfl
        | some v =>
          obtain ⟨e, r⟩ := v
          have := expr_shorter he
          simp only
          have hl : r.tail.length ≤ r.length := by simp
          rw [ih.list c r.tail (by omega)]

theorem expr_fuel {p : Nat} {ts : List (Tok N)} {R : Option (Exp N × List (Tok N))}
    (h : ∃ n, ∀ m, n ≤ m → pExpr m p ts = R) : pExpr (fuelFor ts) p ts = R := by
  obtain ⟨n, hn⟩ := h
  have key : ∀ k, pExpr (fuelFor ts + k) p ts = pExpr (fuelFor ts) p ts := by
    intro k
    induction k with
    | zero => rfl
    | succ k ih =>
      rw [← ih]
      exact (stable (fuelFor ts + k)).expr p ts (by unfold fuelFor; omega)
  rw [← key n]
  exact hn _ (by omega)

theorem list_fuel {c : Char} {ts : List (Tok N)} {R : Option (Exps N × List (Tok N))}
    (h : ∃ n, ∀ m, n ≤ m → pList m c ts = R) : pList (fuelFor ts) c ts = R := by
  obtain ⟨n, hn⟩ := h
  have key : ∀ k, pList (fuelFor ts + k) c ts = pList (fuelFor ts) c ts := by
    intro k
    induction k with
    | zero => rfl
    | succ k ih =>
      rw [← ih]
      exact (stable (fuelFor ts + k)).list c ts (by unfold fuelFor; omega)
  rw [← key n]
  exact hn _ (by omega)

/-! ### Completeness -/

/-- No opening parenthesis comes next. -/
def NoPar (ts : List (Tok N)) : Prop := atSym '(' ts = false

theorem noPar_op {c : Char} (hc : prec c ≠ 0) (r : List (Tok N)) : NoPar (.sym c :: r) := by
  unfold NoPar atSym
  by_contra h
  have : c = '(' := by simpa using h
  subst this
  exact hc rfl

/-- What the parsing functions promise for derivable token lists up to a certain length. -/
structure Complete (k : Nat) : Prop where
  unary : ∀ (ts : List (Tok N)) (e : Exp N), DerU ts e → 3 * ts.length < k →
    ∀ rest, NoPar rest → ∃ n, ∀ m, n ≤ m → pUnary m (ts ++ rest) = some (e, rest)
  expr : ∀ (q : Nat) (ts : List (Tok N)) (e : Exp N), DerE q ts e → 3 * ts.length + 1 < k →
    ∀ (p : Nat) (rest : List (Tok N)) (R : Option (Exp N × List (Tok N))), p ≤ q →
      Stop (q + 1) rest → NoPar rest → (∃ n, ∀ m, n ≤ m → pLoop m p e rest = R) →
      ∃ n, ∀ m, n ≤ m → pExpr m p (ts ++ rest) = R
  list : ∀ (ts : List (Tok N)) (es : Exps N), DerL ts es → 3 * ts.length + 2 < k →
    ∀ (c : Char), (c = ']' ∨ c = ')') → ∀ rest,
      ∃ n, ∀ m, n ≤ m → pList m c (ts ++ .sym c :: rest) = some (es, rest)

theorem complete (k : Nat) : Complete (N := N) k := by
  induction k with
  | zero => constructor <;> intros <;> omega
  | succ k ih =>
    constructor
    · intro ts e h hk
      intro rest hr
      cases h with
      | num x =>
        refine ⟨1, fun m hm => ?_⟩
        cases m with
        | zero => omega
        | succ m => rfl
      | str s =>
        refine ⟨1, fun m hm => ?_⟩
        cases m with
        | zero => omega
        | succ m => rfl
      | var k =>
        refine ⟨1, fun m hm => ?_⟩
        cases m with
        | zero => omega
        | succ m =>
          rw [pUnary.eq_def]
          simp only [List.cons_append, List.nil_append]
          rw [hr]
          rfl
      | @neg ts e h =>
        obtain ⟨n, hn⟩ := ih.unary _ _ h (by first | omega | (simp only [List.length_cons, List.length_append, List.length_nil] at hk; omega)) rest hr
        refine ⟨n + 1, fun m hm => ?_⟩
        cases m with
        | zero => omega
        | succ m =>
          rw [pUnary.eq_def]
          simp only [List.cons_append, if_true]
          rw [hn m (by omega)]
      | @paren ts e h =>
        have h1 := ih.expr _ _ _ h (by first | omega | (simp only [List.length_cons, List.length_append, List.length_nil] at hk; omega)) 0 (.sym ')' :: rest) (some (e, .sym ')' :: rest)) (le_refl _)
          (Or.inl rfl) rfl ⟨1, fun m hm => by
            cases m with
            | zero => omega
            | succ m => rfl⟩
        obtain ⟨n, hn⟩ := h1
        refine ⟨n + 1, fun m hm => ?_⟩
        cases m with
        | zero => omega
        | succ m =>
          rw [pUnary.eq_def]
          simp only [List.cons_append, List.append_assoc, List.nil_append]
          rw [if_neg (by decide), if_pos trivial, hn m (by omega)]
          rfl
      | @call k ts e h =>
        have h1 := ih.expr _ _ _ h (by first | omega | (simp only [List.length_cons, List.length_append, List.length_nil] at hk; omega)) 0 (.sym ')' :: rest) (some (e, .sym ')' :: rest)) (le_refl _)
          (Or.inl rfl) rfl ⟨1, fun m hm => by
            cases m with
            | zero => omega
            | succ m => rfl⟩
        obtain ⟨n, hn⟩ := h1
        refine ⟨n + 1, fun m hm => ?_⟩
        cases m with
        | zero => omega
        | succ m =>
          rw [pUnary.eq_def]
          simp only [List.cons_append, List.append_assoc, List.nil_append]
          rw [if_pos (atSym_self _ _), List.tail_cons, hn m (by omega)]
          rfl
      | @vec ts es h =>
        obtain ⟨n, hn⟩ := ih.list _ _ h (by first | omega | (simp only [List.length_cons, List.length_append, List.length_nil] at hk; omega)) ']' (Or.inl rfl) rest
        refine ⟨n + 1, fun m hm => ?_⟩
        cases m with
        | zero => omega
        | succ m =>
          rw [pUnary.eq_def]
          simp only [List.cons_append, List.append_assoc, List.nil_append]
          rw [if_neg (by decide), if_neg (by decide), if_pos trivial, hn m (by omega)]
    · intro q ts e h hk
      intro p rest R hpq hst hnp hR
      cases h with
      | unary h =>
        obtain ⟨n1, h1⟩ := ih.unary _ _ h (by first | omega | (simp only [List.length_cons, List.length_append, List.length_nil] at hk; omega)) rest hnp
        obtain ⟨n2, h2⟩ := hR
        refine ⟨n1 + n2 + 1, fun m hm => ?_⟩
        cases m with
        | zero => omega
        | succ m =>
          rw [pExpr, h1 m (by omega)]
          exact h2 m (by omega)
      | @bin _ c tl tr l r hc hp hl hr =>
        have hs2 : Stop (prec c + 1) rest := by
          cases rest with
          | nil => trivial
          | cons t rest =>
            cases t with
            | sym d =>
              rcases hst with h | h
              · exact Or.inl h
              · right; omega
            | _ => trivial
        have hs3 : Stop (prec c + 1 + 1) rest := by
          cases rest with
          | nil => trivial
          | cons t rest =>
            cases t with
            | sym d =>
              rcases hs2 with h | h
              · exact Or.inl h
              · right; omega
            | _ => trivial
        have hloop : ∃ n, ∀ m, n ≤ m → pLoop m (prec c + 1) r rest = some (r, rest) := by
          refine ⟨1, fun m hm => ?_⟩
          cases m with
          | zero => omega
          | succ m =>
            rw [pLoop.eq_def]
            cases rest with
            | nil => rfl
            | cons t rest =>
              cases t with
              | sym d =>
                simp only
                rw [if_neg]
                rintro ⟨h0, h1⟩
                rcases hs2 with h | h
                · exact h0 h
                · omega
              | _ => rfl
        obtain ⟨n1, h1⟩ := ih.expr _ _ _ hr (by first | omega | (simp only [List.length_cons, List.length_append, List.length_nil] at hk; omega)) (prec c + 1) rest (some (r, rest)) (le_refl _) hs3 hnp hloop
        obtain ⟨n2, h2⟩ := hR
        have hl' := ih.expr _ _ _ hl (by first | omega | (simp only [List.length_cons, List.length_append, List.length_nil] at hk; omega)) p (.sym c :: (tr ++ rest)) R (le_trans hpq hp) (Or.inr (by omega))
          (noPar_op hc _) ⟨n1 + n2 + 1, fun m hm => by
            cases m with
            | zero => omega
            | succ m =>
              rw [pLoop.eq_def]
              simp only
              rw [if_pos ⟨hc, le_trans hpq hp⟩, h1 m (by omega)]
              exact h2 m (by omega)⟩
        rw [List.append_assoc]
        exact hl'
    · intro ts es h hk
      intro c hc rest
      have hprec : prec c = 0 := by rcases hc with h | h <;> subst h <;> rfl
      have hnp : ∀ r : List (Tok N), NoPar (.sym c :: r) := by
        intro r; rcases hc with h | h <;> subst h <;> rfl
      have hcomma : ∀ r : List (Tok N), atSym ',' (.sym c :: r) = false := by
        intro r; rcases hc with h | h <;> subst h <;> rfl
      have hself : ∀ r : List (Tok N), atSym c (.sym c :: r) = true := by
        intro r; simp [atSym]
      cases h with
      | nil =>
        refine ⟨1, fun m hm => ?_⟩
        cases m with
        | zero => omega
        | succ m =>
          rw [pList, List.nil_append, if_pos (hself rest)]
          rfl
      | @one _ e h =>
        obtain ⟨n, hn⟩ := ih.expr _ _ _ h (by first | omega | (simp only [List.length_cons, List.length_append, List.length_nil] at hk; omega)) 0 (.sym c :: rest) (some (e, .sym c :: rest)) (le_refl _)
          (Or.inl hprec) (hnp rest) ⟨1, fun m hm => by
            cases m with
            | zero => omega
            | succ m =>
              rw [pLoop.eq_def]
              simp only
              rw [if_neg (fun h => h.1 hprec)]⟩
        refine ⟨n + 1, fun m hm => ?_⟩
        cases m with
        | zero => omega
        | succ m =>
          rw [pList, starts_not_sym (derE_starts h) c hc, hn m (by omega)]
          simp only [Bool.false_eq_true, if_false]
          rw [hcomma, hself]
          rfl
      | @cons ts1 ts2 e es' h h' =>
        obtain ⟨n1, hn1⟩ := ih.expr _ _ _ h (by first | omega | (simp only [List.length_cons, List.length_append, List.length_nil] at hk; omega)) 0 (.sym ',' :: (ts2 ++ .sym c :: rest))
          (some (e, .sym ',' :: (ts2 ++ .sym c :: rest))) (le_refl _)
          (Or.inl rfl) rfl ⟨1, fun m hm => by
            cases m with
            | zero => omega
            | succ m => rfl⟩
        obtain ⟨n2, hn2⟩ := ih.list _ _ h' (by first | omega | (simp only [List.length_cons, List.length_append, List.length_nil] at hk; omega)) c hc rest
        refine ⟨n1 + n2 + 1, fun m hm => ?_⟩
        cases m with
        | zero => omega
        | succ m =>
          rw [List.append_assoc, List.cons_append]
          rw [pList, starts_not_sym (derE_starts h) c hc, hn1 m (by omega)]
          simp only [Bool.false_eq_true, if_false]
          rw [if_pos (atSym_self _ _), List.tail_cons, hn2 m (by omega)]

theorem loop_stop {p : Nat} {e : Exp N} {rest : List (Tok N)} (h : Stop p rest) :
    ∃ n, ∀ m, n ≤ m → pLoop m p e rest = some (e, rest) := by
  refine ⟨1, fun m hm => ?_⟩
  cases m with
  | zero => omega
  | succ m =>
    rw [pLoop.eq_def]
    cases rest with
    | nil => rfl
    | cons t rest =>
      cases t with
      | sym d =>
        simp only
        rw [if_neg]
        rintro ⟨h0, h1⟩
        rcases h with h | h
        · exact h0 h
        · omega
      | _ => rfl

theorem Stop.succ {p : Nat} {rest : List (Tok N)} (h : Stop p rest) : Stop (p + 1) rest := by
  cases rest with
  | nil => trivial
  | cons t rest =>
    cases t with
    | sym d =>
      rcases h with h | h
      · exact Or.inl h
      · exact Or.inr (by omega)
    | _ => trivial

/-- A derivable expression is parsed, whatever legal token follows. -/
theorem pExpr_complete {p : Nat} {ts rest : List (Tok N)} {e : Exp N} (h : DerE p ts e)
    (hs : Stop p rest) (hn : NoPar rest) :
    pExpr (fuelFor (ts ++ rest)) p (ts ++ rest) = some (e, rest) :=
  expr_fuel ((complete _).expr _ _ _ h (Nat.lt_succ_self _) p rest _ (le_refl _) hs.succ hn (loop_stop hs))

theorem pList_complete {ts rest : List (Tok N)} {es : Exps N} (h : DerL ts es) (c : Char)
    (hc : c = ']' ∨ c = ')') :
    pList (fuelFor (ts ++ .sym c :: rest)) c (ts ++ .sym c :: rest) = some (es, rest) :=
  list_fuel ((complete _).list _ _ h (Nat.lt_succ_self _) c hc rest)

/-! ### Statements and files -/

theorem pProps_complete {ts : List (Tok N)} {ps : List (Name × Exp N)} (h : DerP ts ps) :
    ∀ (n : Nat) (rest : List (Tok N)), ts.length < n → atSym ',' rest = false → Stop 0 rest → NoPar rest →
      pProps n (ts ++ rest) = some (ps, rest) := by
  induction h with
  | nil =>
    intro n rest hn hr _ _
    cases n with
    | zero => simp at hn
    | succ n =>
      rw [pProps, List.nil_append, hr]
      rfl
  | @cons k te e tp ps hd hps ih =>
    intro n rest hn hr hs hnp
    cases n with
    | zero => simp at hn
    | succ n =>
      rw [pProps]
      simp only [List.cons_append, List.append_assoc]
      have hs2 : Stop 0 (tp ++ rest) ∧ NoPar (tp ++ rest) := by
        cases hps with
        | nil => exact ⟨hs, hnp⟩
        | cons => exact ⟨Or.inl rfl, rfl⟩
      rw [if_pos (atSym_self _ _), List.tail_cons]
      simp only
      rw [if_pos (atSym_self _ _), List.tail_cons, pExpr_complete hd hs2.1 hs2.2]
      simp only
      rw [ih n rest (by simp at hn ⊢; omega) hr hs hnp]

theorem pProps_sound : ∀ (n : Nat) (ts rest : List (Tok N)) (ps : List (Name × Exp N)),
    pProps n ts = some (ps, rest) → ∃ pre, ts = pre ++ rest ∧ DerP pre ps := by
  intro n
  induction n with
  | zero => intro ts rest ps h; simp [pProps] at h
  | succ n ih =>
    intro ts rest ps h
    rw [pProps] at h
    split at h
    · rename_i ha
      obtain ⟨r, rfl⟩ := atSym_iff.1 ha
      rw [List.tail_cons] at h
      split at h
      · rename_i k r1
        split at h
        · rename_i hb
          obtain ⟨r2, rfl⟩ := atSym_iff.1 hb
          rw [List.tail_cons] at h
          split at h
          · simp at h
          · rename_i e r3 he
            obtain ⟨pre, rfl, hd, _⟩ := (sound _).expr _ _ _ _ he
            split at h
            · simp at h
            · rename_i ps' r4 hp
              obtain ⟨pre', rfl, hd'⟩ := ih _ _ _ hp
              simp only [Option.some.injEq, Prod.mk.injEq] at h
              obtain ⟨rfl, rfl⟩ := h
              exact ⟨.sym ',' :: .kw k :: .sym '=' :: (pre ++ pre'), by simp, .cons k hd hd'⟩
        · simp at h
      · simp at h
    · simp only [Option.some.injEq, Prod.mk.injEq] at h
      obtain ⟨rfl, rfl⟩ := h
      exact ⟨[], rfl, .nil⟩

theorem endStmt_iff {s s' : Stmt N} {ts rest : List (Tok N)} :
    endStmt s ts = some (s', rest) ↔ s = s' ∧ ts = .sym ';' :: rest := by
  unfold endStmt
  by_cases h : atSym ';' ts = true
  · obtain ⟨r, rfl⟩ := atSym_iff.1 h
    rw [if_pos h]
    simp
  · rw [if_neg h]
    constructor
    · intro h'; cases h'
    · rintro ⟨_, rfl⟩
      exact absurd (by simp [atSym]) h

theorem pStmt_complete {ts : List (Tok N)} {s : Stmt N} (h : DerS ts s) (rest : List (Tok N)) :
    pStmt (ts ++ rest) = some (s, rest) := by
  cases h with
  | @assign k te e h =>
    rw [pStmt.eq_def]
    simp only [List.cons_append, List.append_assoc, List.nil_append]
    rw [if_pos (atSym_self _ _), List.tail_cons, pExpr_complete (rest := .sym ';' :: rest) h (Or.inl rfl) rfl]
    rfl
  | @element k t tp ps h =>
    rw [pStmt.eq_def]
    simp only [List.cons_append, List.append_assoc, List.nil_append]
    rw [if_neg (by simp [atSym]), if_pos (atSym_self _ _), List.tail_cons]
    simp only
    have hne : atSym '=' (tp ++ .sym ';' :: rest) = false := by
      cases h with
      | nil => rfl
      | cons => rfl
    rw [hne]
    simp only [Bool.false_eq_true, if_false]
    rw [pProps_complete h _ (.sym ';' :: rest) (by simp; omega) rfl (Or.inl rfl) rfl]
    rfl
  | @line k t tl es h =>
    rw [pStmt.eq_def]
    simp only [List.cons_append, List.append_assoc, List.nil_append]
    rw [if_neg (by simp [atSym]), if_pos (atSym_self _ _), List.tail_cons]
    simp only
    rw [if_pos (atSym_self _ _), List.tail_cons, if_pos (atSym_self _ _), List.tail_cons,
      pList_complete (rest := .sym ';' :: rest) h ')' (Or.inr rfl)]
    rfl
  | @func k te e h =>
    rw [pStmt.eq_def]
    simp only [List.cons_append, List.append_assoc, List.nil_append]
    rw [if_neg (by simp [atSym]), if_neg (by simp [atSym]), if_pos (atSym_self _ _), List.tail_cons,
      pExpr_complete (rest := .sym ')' :: .sym ';' :: rest) h (Or.inl rfl) rfl]
    rfl
  | command k =>
    rw [pStmt.eq_def]
    simp only [List.cons_append, List.nil_append]
    rw [if_neg (by simp [atSym]), if_neg (by simp [atSym]), if_neg (by simp [atSym])]
    rfl

theorem pStmt_sound {ts rest : List (Tok N)} {s : Stmt N} (h : pStmt ts = some (s, rest)) :
    ∃ pre, ts = pre ++ rest ∧ DerS pre s := by
  rw [pStmt.eq_def] at h
  split at h
  · rename_i k r
    split at h
    · rename_i ha
      obtain ⟨r1, rfl⟩ := atSym_iff.1 ha
      rw [List.tail_cons] at h
      split at h
      · simp at h
      · rename_i e r2 he
        obtain ⟨pre, rfl, hd, _⟩ := (sound _).expr _ _ _ _ he
        obtain ⟨rfl, rfl⟩ := endStmt_iff.1 h
        exact ⟨.kw k :: .sym '=' :: (pre ++ [.sym ';']), by simp, .assign k hd⟩
    · split at h
      · rename_i ha
        obtain ⟨r1, rfl⟩ := atSym_iff.1 ha
        rw [List.tail_cons] at h
        split at h
        · rename_i t r2 _
          split at h
          · rename_i hb
            obtain ⟨r3, rfl⟩ := atSym_iff.1 hb
            rw [List.tail_cons] at h
            split at h
            · rename_i hb2
              obtain ⟨r4, rfl⟩ := atSym_iff.1 hb2
              rw [List.tail_cons] at h
              split at h
              · simp at h
              · rename_i es r5 hl
                obtain ⟨pre, rfl, hd⟩ := (sound _).list _ _ _ _ hl
                obtain ⟨rfl, rfl⟩ := endStmt_iff.1 h
                exact ⟨.kw k :: .sym ':' :: .kw t :: .sym '=' :: .sym '(' :: (pre ++ [.sym ')', .sym ';']),
                  by simp, .line k t hd⟩
            · simp at h
          · split at h
            · simp at h
            · rename_i ps r3 hp
              obtain ⟨pre, rfl, hd⟩ := pProps_sound _ _ _ _ hp
              obtain ⟨rfl, rfl⟩ := endStmt_iff.1 h
              exact ⟨.kw k :: .sym ':' :: .kw t :: (pre ++ [.sym ';']), by simp, .element k t hd⟩
        · simp at h
      · split at h
        · rename_i ha
          obtain ⟨r1, rfl⟩ := atSym_iff.1 ha
          rw [List.tail_cons] at h
          split at h
          · simp at h
          · rename_i e r2 he
            obtain ⟨pre, rfl, hd, _⟩ := (sound _).expr _ _ _ _ he
            split at h
            · rename_i hb
              obtain ⟨r3, rfl⟩ := atSym_iff.1 hb
              rw [List.tail_cons] at h
              obtain ⟨rfl, rfl⟩ := endStmt_iff.1 h
              exact ⟨.kw k :: .sym '(' :: (pre ++ [.sym ')', .sym ';']), by simp, .func k hd⟩
            · simp at h
        · obtain ⟨rfl, rfl⟩ := endStmt_iff.1 h
          exact ⟨[.kw k, .sym ';'], rfl, .command k⟩
  · simp at h

theorem derS_ne_nil {ts : List (Tok N)} {s : Stmt N} (h : DerS ts s) : ts ≠ [] := by
  cases h <;> simp

theorem pStmt_shorter {ts rest : List (Tok N)} {s : Stmt N} (h : pStmt ts = some (s, rest)) :
    rest.length < ts.length := by
  obtain ⟨pre, rfl, hd⟩ := pStmt_sound h
  have := List.length_pos_of_ne_nil (derS_ne_nil hd)
  rw [List.length_append]; omega

theorem pFile_stable : ∀ (n m : Nat) (ts : List (Tok N)), ts.length < n → ts.length < m →
    pFile n ts = pFile m ts := by
  intro n
  induction n with
  | zero => intro m ts h; omega
  | succ n ih =>
    intro m ts hn hm
    cases m with
    | zero => omega
    | succ m =>
      cases ts with
      | nil => rfl
      | cons t ts =>
        rw [pFile, pFile]
        cases hp : pStmt (t :: ts) with
        | none => rfl
        | some v =>
          obtain ⟨s, r⟩ := v
          have := pStmt_shorter hp
          simp only
          rw [ih m r (by omega) (by omega)]

theorem pAll_nil : pAll ([] : List (Tok N)) = ([], true) := rfl

theorem pAll_stmt {ts rest : List (Tok N)} {s : Stmt N} (h : pStmt ts = some (s, rest)) :
    pAll ts = (s :: (pAll rest).1, (pAll rest).2) := by
  have hl := pStmt_shorter h
  cases ts with
  | nil => simp at hl
  | cons t ts =>
    unfold pAll
    rw [pFile, h]
    simp only
    rw [pFile_stable (t :: ts).length (rest.length + 1) rest hl (by omega)]

theorem pAll_none {ts : List (Tok N)} (h0 : ts ≠ []) (h : pStmt ts = none) :
    pAll ts = ([], false) := by
  cases ts with
  | nil => exact absurd rfl h0
  | cons t ts =>
    unfold pAll
    rw [pFile, h]

/-- Complete statements followed by more tokens. -/
theorem pAll_append {ts : List (Tok N)} {ss : List (Stmt N)} (h : DerF ts ss) (rest : List (Tok N)) :
    pAll (ts ++ rest) = (ss ++ (pAll rest).1, (pAll rest).2) := by
  induction h with
  | nil => rfl
  | @cons ts s ts' ss hs _ ih =>
    rw [List.append_assoc, pAll_stmt (pStmt_complete hs (ts' ++ rest)), ih]
    rfl

/-- The parser finds the statements of a complete file, and only those. -/
theorem pAll_iff (ts : List (Tok N)) (ss : List (Stmt N)) : pAll ts = (ss, true) ↔ DerF ts ss := by
  constructor
  · intro h
    generalize hn : ts.length = n
    induction n using Nat.strong_induction_on generalizing ts ss with
    | _ n ih =>
      by_cases h0 : ts = []
      · subst h0
        rw [pAll_nil] at h
        simp only [Prod.mk.injEq, and_true] at h
        rw [← h]
        exact .nil
      · cases hp : pStmt ts with
        | none => rw [pAll_none h0 hp] at h; simp at h
        | some v =>
          obtain ⟨s, r⟩ := v
          have hl := pStmt_shorter hp
          rw [pAll_stmt hp] at h
          simp only [Prod.mk.injEq] at h
          obtain ⟨h1, h2⟩ := h
          obtain ⟨pre, rfl, hd⟩ := pStmt_sound hp
          rw [← h1]
          exact .cons hd (ih r.length (hn ▸ hl) r _ (by rw [← h2]) rfl)
  · intro h
    have := pAll_append h []
    rw [List.append_nil, pAll_nil, List.append_nil] at this
    exact this

/-! ### Written expressions -/

theorem prec_wf {c : Char} (h : c = '+' ∨ c = '-' ∨ c = '*' ∨ c = '/') : prec c ≠ 0 := by
  rcases h with rfl | rfl | rfl | rfl <;> decide

mutual
theorem showE_der (e : Exp N) (he : e.Wf) (p : Nat) : DerE p (showE p e) e := by
  cases e with
  | num x => exact .unary (by rw [showE]; exact .num x)
  | str s => exact .unary (by rw [showE]; exact .str s)
  | var k => exact .unary (by rw [showE]; exact .var k)
  | bin c l r =>
    rw [Exp.Wf] at he
    have hc := prec_wf he.1
    have hl := showE_der l he.2.1 (prec c)
    have hr := showE_der r he.2.2 (prec c + 1)
    rw [showE, wrapP]
    by_cases h : prec c < p
    · rw [if_pos (by simpa using h)]
      exact .unary (.paren (.bin hc (Nat.zero_le _) hl hr))
    · rw [if_neg (by simpa using h)]
      exact .bin hc (by omega) hl hr
  | neg e =>
    rw [Exp.Wf] at he
    rw [showE]
    exact .unary (.neg (showU_der e he))
  | call f e =>
    rw [Exp.Wf] at he
    rw [showE]
    exact .unary (.call f (showE_der e he 0))
  | vec es =>
    rw [Exp.Wf] at he
    rw [showE]
    exact .unary (.vec (showL_der es he))
theorem showU_der (e : Exp N) (he : e.Wf) : DerU (showE 3 e) e := by
  cases e with
  | num x => rw [showE]; exact .num x
  | str s => rw [showE]; exact .str s
  | var k => rw [showE]; exact .var k
  | bin c l r =>
    rw [Exp.Wf] at he
    have hc := prec_wf he.1
    have hl := showE_der l he.2.1 (prec c)
    have hr := showE_der r he.2.2 (prec c + 1)
    have hle := prec_le c
    rw [showE, wrapP, if_pos (by simp; omega)]
    exact .paren (.bin hc (Nat.zero_le _) hl hr)
  | neg e =>
    rw [Exp.Wf] at he
    rw [showE]
    exact .neg (showU_der e he)
  | call f e =>
    rw [Exp.Wf] at he
    rw [showE]
    exact .call f (showE_der e he 0)
  | vec es =>
    rw [Exp.Wf] at he
    rw [showE]
    exact .vec (showL_der es he)
theorem showL_der (es : Exps N) (he : es.Wf) : DerL (showL es) es := by
  cases es with
  | nil => rw [showL]; exact .nil
  | cons e es =>
    rw [Exps.Wf] at he
    have h1 := showE_der e he.1 0
    cases es with
    | nil => rw [showL]; exact .one h1
    | cons e' es' =>
      have h2 := showL_der (.cons e' es') he.2
      rw [showL]
      · exact .cons h1 h2
      · simp
end

end Flame.Glps
