import Verif.Glps.LexSpec

/-!
# The scanner finds the longest piece
-/

namespace Flame.Glps

variable {N : Type}

theorem mem_takeWhile_imp' {α : Type} {p : α → Bool} {s : List α} {x : α} (h : x ∈ s.takeWhile p) :
    p x = true := by
  induction s with
  | nil => simp at h
  | cons a s ih =>
    by_cases ha : p a
    · rw [List.takeWhile_cons_of_pos ha] at h
      rcases List.mem_cons.1 h with h | h
      · rw [h]; exact ha
      · exact ih h
    · rw [List.takeWhile_cons_of_neg ha] at h
      simp at h

theorem takeWhile_all {α : Type} (p : α → Bool) (s : List α) : ∀ z ∈ s.takeWhile p, p z = true :=
  fun _ hz => mem_takeWhile_imp' hz

theorem dropWhile_nil {α : Type} {p : α → Bool} {s : List α} (h : s.dropWhile p = []) :
    ∀ z ∈ s, p z = true := by
  intro z hz
  have h2 := List.takeWhile_append_dropWhile (p := p) (l := s)
  rw [h, List.append_nil] at h2
  rw [← h2] at hz
  exact mem_takeWhile_imp' hz

theorem letter_iff (c : Char) : Letter c ↔ isLetter c = true := by
  simp only [Letter, isLetter, Bool.or_eq_true, Bool.and_eq_true, decide_eq_true_eq, Char.le_def, UInt32.le_iff_toNat_le,
    Char.toNat]
  rfl

theorem digit_iff (c : Char) : Digit c ↔ isDig c = true := by
  simp only [Digit, isDig, Bool.and_eq_true, decide_eq_true_eq, Char.le_def, UInt32.le_iff_toNat_le, Char.toNat]
  rfl

theorem kwChar_iff (c : Char) : (Letter c ∨ Digit c ∨ c = '_' ∨ c = ':') ↔ isKwChar c = true := by
  simp only [letter_iff, digit_iff, isKwChar, isWord, Bool.or_eq_true, beq_iff_eq, or_assoc]

theorem isKw_iff (p : Name) : IsKw p ↔
    ∃ c r, p = c :: r ∧ isLetter c = true ∧ (∀ x ∈ r, isKwChar x = true) ∧ p.getLast? ≠ some ':' := by
  simp only [IsKw, letter_iff, digit_iff, ← kwChar_iff]

theorem digits_iff (p : Name) : Digits p ↔ ∀ x ∈ p, isDig x = true := by
  simp only [Digits, digit_iff]

theorem isKwChar_of_isLetter {c : Char} (h : isLetter c = true) : isKwChar c = true := by
  simp [isKwChar, isWord, h]

theorem not_isLetter_colon : isLetter ':' = false := by decide

theorem take_takeWhile_length {α : Type} (p : α → Bool) (s : List α) :
    s.take (s.takeWhile p).length = s.takeWhile p := by
  induction s with
  | nil => rfl
  | cons a s ih =>
    by_cases h : p a
    · simp [h, ih]
    · simp [h]

theorem takeWhile_prefix' {α : Type} (p : α → Bool) (s q : List α) (hq : q <+: s)
    (ha : ∀ x ∈ q, p x = true) : q <+: s.takeWhile p := by
  obtain ⟨t, rfl⟩ := hq
  rw [List.takeWhile_append_of_pos ha]
  exact List.prefix_append _ _

theorem stripColons_append (w : Name) :
    ∃ z : Name, w = stripColons w ++ z ∧ ∀ x ∈ z, x = ':' := by
  refine ⟨(w.reverse.takeWhile (· == ':')).reverse, ?_, ?_⟩
  · have h := List.takeWhile_append_dropWhile (p := (· == ':')) (l := w.reverse)
    have h2 := congrArg List.reverse h
    simp only [List.reverse_append, List.reverse_reverse] at h2
    exact h2.symm
  · intro x hx
    have := mem_takeWhile_imp' (List.mem_reverse.1 hx)
    simpa using this

theorem stripColons_last (w : Name) : (stripColons w).getLast? ≠ some ':' := by
  unfold stripColons
  rw [List.getLast?_reverse]
  intro h
  have h' : ∀ l : Name, (l.dropWhile (· == ':')).head? ≠ some ':' := by
    intro l
    induction l with
    | nil => simp
    | cons a l ih =>
      by_cases ha : a = ':'
      · simpa [ha] using ih
      · simp [ha]
  exact h' _ h

/-- A keyword at the start of a text is not longer than the match. -/
theorem kw_le (s q : Name) (hq : IsKw q) (hp : q <+: s) : q.length ≤ (kwMatch s).length := by
  obtain ⟨c, r, rfl, hc, hr, hl⟩ := (isKw_iff _).1 hq
  have h1 : (c :: r) <+: s.takeWhile isKwChar := by
    refine takeWhile_prefix' _ _ _ hp ?_
    intro x hx
    rcases List.mem_cons.1 hx with h | h
    · rw [h]; exact isKwChar_of_isLetter hc
    · exact hr x h
  obtain ⟨z, hz, hzc⟩ := stripColons_append (s.takeWhile isKwChar)
  by_contra hlt
  push Not at hlt
  unfold kwMatch at hlt
  rw [hz] at h1
  obtain ⟨t, ht⟩ := h1
  have h2 : stripColons (s.takeWhile isKwChar) <+: (c :: r) :=
    List.prefix_of_prefix_length_le (List.prefix_append _ z) ⟨t, ht⟩ (le_of_lt hlt)
  obtain ⟨u, hu⟩ := h2
  have hu0 : u ≠ [] := by
    rintro rfl
    rw [List.append_nil] at hu
    rw [hu] at hlt
    exact lt_irrefl _ hlt
  rw [← hu, List.append_assoc] at ht
  have hut : u ++ t = z := List.append_cancel_left ht
  apply hl
  rw [← hu, List.getLast?_append_of_ne_nil _ hu0, List.getLast?_eq_some_getLast hu0]
  congr 1
  exact hzc _ (hut ▸ List.mem_append_left _ (List.getLast_mem hu0))

theorem kwMatch_prefix (s : Name) : kwMatch s <+: s := by
  obtain ⟨z, hz, _⟩ := stripColons_append (s.takeWhile isKwChar)
  have h : kwMatch s <+: s.takeWhile isKwChar := ⟨z, hz.symm⟩
  exact List.IsPrefix.trans h (List.takeWhile_prefix _)

theorem kwMatch_isKw (c : Char) (r : Name) (hc : isLetter c = true) : IsKw (kwMatch (c :: r)) := by
  have h1 : IsKw [c] := (isKw_iff _).2 ⟨c, [], rfl, hc, by simp, by
    intro h
    simp only [List.getLast?_singleton, Option.some.injEq] at h
    subst h
    revert hc
    decide⟩
  have h2 := kw_le (c :: r) [c] h1 ⟨r, rfl⟩
  obtain ⟨t, ht⟩ := kwMatch_prefix (c :: r)
  have hall : ∀ x ∈ kwMatch (c :: r), isKwChar x = true := by
    intro x hx
    obtain ⟨z, hz, _⟩ := stripColons_append ((c :: r).takeWhile isKwChar)
    have hx' : x ∈ (c :: r).takeWhile isKwChar := by
      rw [hz]; exact List.mem_append_left _ hx
    exact mem_takeWhile_imp' hx'
  have hlast : (kwMatch (c :: r)).getLast? ≠ some ':' := stripColons_last _
  revert hall hlast ht h2
  cases kwMatch (c :: r) with
  | nil => intro h2; simp at h2
  | cons a b =>
    intro h2 ht hall hlast
    have hac : a = c := by
      have := congrArg List.head? ht
      simpa using this
    exact (isKw_iff _).2 ⟨a, b, rfl, hac ▸ hc, fun x hx => hall x (List.mem_cons_of_mem _ hx), hlast⟩

/-! ### Numbers -/

theorem digits_le (s q : Name) (hq : Digits q) (hp : q <+: s) :
    q.length ≤ (s.takeWhile isDig).length :=
  (takeWhile_prefix' _ _ _ hp ((digits_iff q).1 hq)).length_le

theorem digits_takeWhile (s : Name) : Digits (s.takeWhile isDig) :=
  (digits_iff _).2 fun _ hx => mem_takeWhile_imp' hx

theorem drop_takeWhile_head {α : Type} (p : α → Bool) (s : List α) (x : α) (t : List α)
    (h : s.drop (s.takeWhile p).length = x :: t) : p x = false := by
  induction s with
  | nil => simp at h
  | cons a s ih =>
    by_cases ha : p a
    · rw [List.takeWhile_cons_of_pos ha] at h
      exact ih (by simpa using h)
    · rw [List.takeWhile_cons_of_neg ha] at h
      simp only [List.length_nil, List.drop_zero, List.cons.injEq] at h
      rw [← h.1]
      simpa using ha

theorem take_append_drop_prefix {α : Type} (s : List α) (n : Nat) : s.take n <+: s :=
  List.take_prefix n s

/-- Optional fraction: the match is one, and the longest one. -/
theorem frac_spec (s : Name) : IsFrac (s.take (fracLen s)) ∧ fracLen s ≤ s.length ∧
    ∀ q, IsFrac q → q <+: s → q.length ≤ fracLen s := by
  cases s with
  | nil =>
    refine ⟨Or.inl rfl, le_refl _, ?_⟩
    intro q _ hp
    rw [List.prefix_nil.1 hp]
    exact Nat.zero_le _
  | cons c r =>
    by_cases hc : c = '.'
    · subst hc
      refine ⟨Or.inr ⟨r.takeWhile isDig, ?_, digits_takeWhile r⟩, ?_, ?_⟩
      · simp only [fracLen]
        rw [Nat.add_comm, List.take_succ_cons, take_takeWhile_length]
      · simp only [fracLen, List.length_cons]
        have := (List.takeWhile_prefix isDig (l := r)).length_le
        omega
      · rintro q (rfl | ⟨d, rfl, hd⟩) hp
        · exact Nat.zero_le _
        · have hp' : d <+: r := (List.cons_prefix_cons.1 hp).2
          have := digits_le r d hd hp'
          simp only [fracLen, List.length_cons]
          omega
    · have h0 : fracLen (c :: r) = 0 := by
        unfold fracLen
        split
        · rename_i heq
          exact absurd (List.cons.inj heq).1 hc
        · rfl
      rw [h0]
      refine ⟨Or.inl rfl, Nat.zero_le _, ?_⟩
      rintro q (rfl | ⟨d, rfl, hd⟩) hp
      · exact Nat.zero_le _
      · exact absurd (List.cons_prefix_cons.1 hp).1.symm hc

/-- A signed digit string. -/
def IsSigned (p : Name) : Prop :=
  ∃ sg d, p = sg ++ d ∧ (sg = [] ∨ sg = ['+'] ∨ sg = ['-']) ∧ d ≠ [] ∧ Digits d

theorem isDig_plus : isDig '+' = false := by decide
theorem isDig_minus : isDig '-' = false := by decide

theorem signed_spec (s : Name) : (signedLen s ≠ 0 → IsSigned (s.take (signedLen s))) ∧
    signedLen s ≤ s.length ∧ ∀ q, IsSigned q → q <+: s → q.length ≤ signedLen s := by
  cases s with
  | nil =>
    refine ⟨by simp [signedLen], le_refl _, ?_⟩
    intro q _ hp
    rw [List.prefix_nil.1 hp]
    exact Nat.zero_le _
  | cons c r =>
    have hlen := (List.takeWhile_prefix isDig (l := r)).length_le
    by_cases hc : (c == '+' || c == '-') = true
    · have hcd : isDig c = false := by
        rcases (Bool.or_eq_true_iff).1 hc with h | h
        · rw [beq_iff_eq.1 h]; decide
        · rw [beq_iff_eq.1 h]; decide
      simp only [signedLen, hc, if_true]
      refine ⟨?_, ?_, ?_⟩
      · intro hne
        split at hne
        · exact absurd rfl hne
        · rename_i h0
          rw [if_neg h0, Nat.add_comm, List.take_succ_cons, take_takeWhile_length]
          refine ⟨[c], r.takeWhile isDig, rfl, ?_, ?_, digits_takeWhile r⟩
          · rcases (Bool.or_eq_true_iff).1 hc with h | h
            · rw [beq_iff_eq.1 h]; exact Or.inr (Or.inl rfl)
            · rw [beq_iff_eq.1 h]; exact Or.inr (Or.inr rfl)
          · intro h
            exact h0 (by rw [h]; rfl)
      · split
        · exact Nat.zero_le _
        · simp only [List.length_cons]; omega
      · rintro q ⟨sg, d, rfl, hsg, hd0, hd⟩ hp
        have hsg1 : sg = [] ∨ ∃ x, sg = [x] := by
          rcases hsg with h | h | h
          · exact Or.inl h
          · exact Or.inr ⟨_, h⟩
          · exact Or.inr ⟨_, h⟩
        rcases hsg1 with rfl | ⟨x, rfl⟩
        · cases d with
          | nil => exact absurd rfl hd0
          | cons a d =>
            have ha := (List.cons_prefix_cons.1 hp).1
            have := (digits_iff _).1 hd a (List.mem_cons_self ..)
            rw [ha, hcd] at this
            exact absurd this (by simp)
        · have hp' := (List.cons_prefix_cons.1 hp).2
          have hle := digits_le r d hd hp'
          have hpos : 0 < d.length := List.length_pos_of_ne_nil hd0
          rw [if_neg (by omega)]
          simp only [List.cons_append, List.nil_append, List.length_cons]
          omega
    · have hcf : (c == '+' || c == '-') = false := by simpa using hc
      simp only [signedLen, hcf]
      refine ⟨?_, (List.takeWhile_prefix isDig (l := c :: r)).length_le, ?_⟩
      · intro hne
        simp only [Bool.false_eq_true, if_false] at hne ⊢
        rw [take_takeWhile_length]
        refine ⟨[], (c :: r).takeWhile isDig, rfl, Or.inl rfl, ?_, digits_takeWhile _⟩
        intro h
        exact hne (by rw [h]; rfl)
      · rintro q ⟨sg, d, rfl, hsg, hd0, hd⟩ hp
        rcases hsg with rfl | rfl | rfl
        · exact digits_le _ d hd hp
        · have := (List.cons_prefix_cons.1 hp).1
          rw [← this] at hcf
          simp at hcf
        · have := (List.cons_prefix_cons.1 hp).1
          rw [← this] at hcf
          simp at hcf

theorem expo_spec (s : Name) : IsExpo (s.take (expLen s)) ∧ expLen s ≤ s.length ∧
    ∀ q, IsExpo q → q <+: s → q.length ≤ expLen s := by
  cases s with
  | nil =>
    refine ⟨Or.inl rfl, le_refl _, ?_⟩
    intro q _ hp
    rw [List.prefix_nil.1 hp]
    exact Nat.zero_le _
  | cons c r =>
    obtain ⟨s1, s2, s3⟩ := signed_spec r
    by_cases hc : (c == 'e' || c == 'E') = true
    · have hce : c = 'e' ∨ c = 'E' := by simpa using hc
      simp only [expLen, hc, if_true]
      refine ⟨?_, ?_, ?_⟩
      · by_cases h0 : signedLen r = 0
        · rw [if_pos h0]; exact Or.inl rfl
        · rw [if_neg h0, Nat.add_comm, List.take_succ_cons]
          obtain ⟨sg, d, he, hsg, hd0, hd⟩ := s1 h0
          exact Or.inr ⟨c, sg, d, by rw [he], hce, hsg, hd0, hd⟩
      · split
        · exact Nat.zero_le _
        · simp only [List.length_cons]; omega
      · rintro q (rfl | ⟨e, sg, d, rfl, he, hsg, hd0, hd⟩) hp
        · exact Nat.zero_le _
        · have hp' := (List.cons_prefix_cons.1 hp).2
          have hle := s3 (sg ++ d) ⟨sg, d, rfl, hsg, hd0, hd⟩ hp'
          have hpos : 0 < (sg ++ d).length := by
            rw [List.length_append]
            have := List.length_pos_of_ne_nil hd0
            omega
          rw [if_neg (by omega)]
          simp only [List.length_cons]
          omega
    · have hcf : (c == 'e' || c == 'E') = false := by simpa using hc
      simp only [expLen, hcf]
      refine ⟨Or.inl rfl, Nat.zero_le _, ?_⟩
      rintro q (rfl | ⟨e, sg, d, rfl, he, hsg, hd0, hd⟩) hp
      · exact Nat.zero_le _
      · have := (List.cons_prefix_cons.1 hp).1
        rw [← this] at hcf
        rcases he with h | h <;> rw [h] at hcf <;> simp at hcf

theorem isFrac_head {q : Name} {x : Char} {t : Name} (h : IsFrac q) (hq : q = x :: t) : x = '.' := by
  rcases h with h | ⟨d, h, _⟩
  · rw [h] at hq; cases hq
  · rw [h] at hq; exact (List.cons.inj hq).1.symm

theorem isExpo_head {q : Name} {x : Char} {t : Name} (h : IsExpo q) (hq : q = x :: t) :
    x = 'e' ∨ x = 'E' := by
  rcases h with h | ⟨e, sg, d, h, he, _⟩
  · rw [h] at hq; cases hq
  · rw [h] at hq; rw [← (List.cons.inj hq).1]; exact he

theorem prefix_drop {α : Type} {a b s : List α} (h : a ++ b <+: s) : b <+: s.drop a.length := by
  obtain ⟨t, rfl⟩ := h
  rw [List.append_assoc, List.drop_left]
  exact List.prefix_append _ _

theorem numLen_isNum (c : Char) (r : Name) (hc : isDig c = true) :
    IsNum ((c :: r).take (numLen (c :: r))) := by
  generalize hs : c :: r = s
  have hne : s.takeWhile isDig ≠ [] := by
    rw [← hs, List.takeWhile_cons_of_pos hc]; simp
  obtain ⟨f1, f2, _⟩ := frac_spec (s.drop (s.takeWhile isDig).length)
  obtain ⟨e1, e2, _⟩ := expo_spec (s.drop ((s.takeWhile isDig).length +
    fracLen (s.drop (s.takeWhile isDig).length)))
  refine ⟨_, _, _, ?_, hne, digits_takeWhile s, f1, e1⟩
  unfold numLen
  simp only
  rw [List.take_add, List.take_add, take_takeWhile_length, List.append_assoc]

theorem numLen_le_length (s : Name) : numLen s ≤ s.length := by
  unfold numLen
  simp only
  have h1 := (List.takeWhile_prefix isDig (l := s)).length_le
  have h2 := (frac_spec (s.drop (s.takeWhile isDig).length)).2.1
  have h3 := (expo_spec (s.drop ((s.takeWhile isDig).length +
    fracLen (s.drop (s.takeWhile isDig).length)))).2.1
  rw [List.length_drop] at h2 h3
  omega

/-- A number at the start of a text is not longer than the match. -/
theorem num_le (s q : Name) (hq : IsNum q) (hp : q <+: s) : q.length ≤ numLen s := by
  obtain ⟨a, b, c, rfl, ha0, ha, hb, hc⟩ := hq
  have hpa : a <+: s := (List.prefix_append a (b ++ c)).trans hp
  have hla := digits_le s a ha hpa
  have hbc := prefix_drop hp
  unfold numLen
  simp only
  generalize hA : (s.takeWhile isDig).length = A at *
  rw [List.length_append, List.length_append]
  by_cases hlt : a.length < A
  · -- the next character is a digit, so fraction and exponent are empty
    have hbc0 : b ++ c = [] := by
      cases hx : b ++ c with
      | nil => rfl
      | cons x t =>
        exfalso
        rw [hx] at hbc
        have hget : s.drop a.length = x :: ((s.drop a.length).tail) := by
          obtain ⟨u, hu⟩ := hbc
          rw [← hu]; rfl
        have hx1 : s[a.length]? = some x := by
          have := congrArg List.head? hget
          rw [List.head?_drop] at this
          simpa using this
        have hx2 : (s.takeWhile isDig)[a.length]? = some x := by
          have h := List.takeWhile_prefix isDig (l := s)
          obtain ⟨u, hu⟩ := h
          rw [← hu] at hx1
          rw [List.getElem?_append_left (by omega)] at hx1
          exact hx1
        have hdx : isDig x = true := (digit_iff x).1 <| digits_takeWhile s x (List.mem_of_getElem? hx2)
        have hxc : x = '.' ∨ x = 'e' ∨ x = 'E' := by
          cases b with
          | nil => exact Or.inr (isExpo_head hc (by simpa using hx))
          | cons y b' =>
            have : y = x := by
              have := List.cons.inj hx
              exact this.1
            left
            rw [← this]
            exact isFrac_head hb rfl
        rcases hxc with h | h | h <;> rw [h] at hdx <;> revert hdx <;> decide
    have := List.append_eq_nil_iff.1 hbc0
    rw [this.1, this.2]
    simp only [List.length_nil]
    omega
  · have hEq : a.length = A := by omega
    rw [hEq] at hbc
    have hbp : b <+: s.drop A := (List.prefix_append b c).trans hbc
    obtain ⟨f1, f2, f3⟩ := frac_spec (s.drop A)
    have hlb := f3 b hb hbp
    have hcp := prefix_drop hbc
    rw [List.drop_drop] at hcp
    by_cases hlt2 : b.length < fracLen (s.drop A)
    · -- the fraction could go on, so the exponent is empty
      have hc0 : c = [] := by
        cases hx : c with
        | nil => rfl
        | cons x t =>
          exfalso
          rw [hx] at hcp
          have hxe := isExpo_head hc hx
          have hx1 : (s.drop A)[b.length]? = some x := by
            rw [List.getElem?_drop]
            obtain ⟨u, hu⟩ := hcp
            have := congrArg List.head? hu
            rw [List.head?_drop] at this
            simpa using this.symm
          have hx2 : ((s.drop A).take (fracLen (s.drop A)))[b.length]? = some x := by
            rw [List.getElem?_take, if_pos hlt2]
            exact hx1
          rcases f1 with h | ⟨d, h, hd⟩
          · rw [h] at hx2; simp at hx2
          · rw [h] at hx2
            have hmem := List.mem_of_getElem? hx2
            rcases List.mem_cons.1 hmem with h' | h'
            · rw [h'] at hxe; revert hxe; decide
            · have := (digits_iff _).1 hd x h'
              rcases hxe with h'' | h'' <;> rw [h''] at this <;> revert this <;> decide
      rw [hc0]
      simp only [List.length_nil]
      omega
    · have hbl : b.length = fracLen (s.drop A) := by omega
      rw [hbl] at hcp
      have h3 := (expo_spec (s.drop (A + fracLen (s.drop A)))).2.2 c hc hcp
      omega

/-! ### Pieces by their first character -/

theorem isPunct_iff (c : Char) :
    isPunct c = true ↔ c ∈ ['=', ':', ';', '(', ')', '[', ']', ',', '+', '*', '/', '-'] := by
  simp [isPunct, or_assoc]

theorem form_ne_nil {k : PieceKind} {p : Name} (h : Form k p) : p ≠ [] := by
  cases h with
  | kw h => obtain ⟨c, r, rfl, _⟩ := h; simp
  | num h =>
    obtain ⟨a, b, c, rfl, ha, _⟩ := h
    intro h
    exact ha (List.append_eq_nil_iff.1 h).1
  | str => simp
  | sym => simp
  | blank => simp
  | comment => simp

/-- The kind of a piece by its first character, in the order in which the scanner looks. -/
def kindOf (c : Char) : Option PieceKind :=
  if isLetter c then some .kw
  else if isDig c then some .num
  else if c == '#' then some .blank
  else if isPunct c then some .sym
  else if c == ' ' || c == '\t' || c == '\n' then some .blank
  else if c == '"' then some .str
  else none

theorem kindOf_sym : ∀ c ∈ ['=', ':', ';', '(', ')', '[', ']', ',', '+', '*', '/', '-'],
    kindOf c = some .sym := by decide

theorem kindOf_blank : ∀ c ∈ [' ', '\t', '\n', '#'], kindOf c = some .blank := by decide

theorem form_kind {k : PieceKind} {c : Char} {r : Name} (h : Form k (c :: r)) :
    kindOf c = some k := by
  generalize hp : c :: r = p at h
  cases h with
  | kw h =>
    obtain ⟨c', r', rfl, hc, _⟩ := (isKw_iff _).1 h
    rw [(List.cons.inj hp).1]
    simp [kindOf, hc]
  | num h =>
    obtain ⟨a, b, c', rfl, ha0, ha, _⟩ := h
    cases a with
    | nil => exact absurd rfl ha0
    | cons x a =>
      have hx := (digits_iff _).1 ha x (List.mem_cons_self ..)
      have : c = x := (List.cons.inj hp).1
      subst this
      have hl : isLetter c = false := by
        cases hl : isLetter c with
        | false => rfl
        | true =>
          exfalso
          simp only [isLetter, isDig, Bool.or_eq_true, Bool.and_eq_true, decide_eq_true_eq] at hl hx
          have e1 : 'A'.toNat = 65 := rfl
          have e2 : 'a'.toNat = 97 := rfl
          have e3 : '9'.toNat = 57 := rfl
          have hx2 : c.toNat ≤ 57 := hx.2
          rcases hl with h | h
          · have : 65 ≤ c.toNat := h.1
            omega
          · have : 97 ≤ c.toNat := h.1
            omega
      simp [kindOf, hl, hx]
  | str h =>
    rw [(List.cons.inj hp).1]; decide
  | sym h =>
    rw [(List.cons.inj hp).1]; exact kindOf_sym _ h
  | blank h =>
    rw [(List.cons.inj hp).1]
    apply kindOf_blank
    simp only [List.mem_cons, List.not_mem_nil, or_false] at h ⊢
    tauto
  | comment h =>
    rw [(List.cons.inj hp).1]; decide

/-- A piece is the longest one if no piece of the same kind is longer. -/
theorem longest_of {k : PieceKind} {p s : Name} (hf : Form k p) (hp : p <+: s)
    (hle : ∀ q, Form k q → q <+: s → q.length ≤ p.length) : Longest k p s := by
  refine ⟨hf, hp, ?_⟩
  intro k' q hq hqs
  have hk : k' = k := by
    obtain ⟨u, hu⟩ := hp
    obtain ⟨v, hv⟩ := hqs
    cases hp' : p with
    | nil => exact absurd hp' (form_ne_nil hf)
    | cons a p' =>
      cases hq' : q with
      | nil => exact absurd hq' (form_ne_nil hq)
      | cons b q' =>
        rw [hp'] at hu hf
        rw [hq'] at hv hq
        rw [← hu] at hv
        have hab : b = a := (List.cons.inj hv).1
        have h1 := form_kind hf
        have h2 := form_kind hq
        rw [hab, h1] at h2
        exact (Option.some.inj h2).symm
  subst hk
  have hl := hle q hq hqs
  rcases Nat.lt_or_ge q.length p.length with h | h
  · exact Or.inl h
  · right
    exact ⟨(List.prefix_of_prefix_length_le hqs hp hl).eq_of_length (le_antisymm hl h), rfl⟩

theorem dropWhile_eq_cons {α : Type} (f : α → Bool) (r : List α) (x : α) (rest : List α)
    (h : r.dropWhile f = x :: rest) : r = r.takeWhile f ++ x :: rest ∧ f x = false := by
  constructor
  · rw [← h]; exact (List.takeWhile_append_dropWhile).symm
  · induction r with
    | nil => simp at h
    | cons a r ih =>
      by_cases ha : f a
      · rw [List.dropWhile_cons_of_pos ha] at h; exact ih h
      · rw [List.dropWhile_cons_of_neg ha] at h
        rw [← (List.cons.inj h).1]
        simpa using ha

theorem takeWhile_unique {α : Type} (f : α → Bool) (a b : List α) (x y : α) (u v : List α)
    (ha : ∀ z ∈ a, f z = true) (hb : ∀ z ∈ b, f z = true) (hx : f x = false) (hy : f y = false)
    (h : a ++ x :: u = b ++ y :: v) : a = b := by
  have e1 : (a ++ x :: u).takeWhile f = a := by
    rw [List.takeWhile_append_of_pos ha, List.takeWhile_cons_of_neg (by simp [hx]), List.append_nil]
  have e2 : (b ++ y :: v).takeWhile f = b := by
    rw [List.takeWhile_append_of_pos hb, List.takeWhile_cons_of_neg (by simp [hy]), List.append_nil]
  rw [← e1, ← e2, h]

/-- What one match of the scanner means. -/
def ScanOk (strtod : Name → Option N) (s : Name) : Scan N → Prop
  | .eof => s = []
  | .tok t rest => ∃ k p, s = p ++ rest ∧ Longest k p s ∧ meaning strtod k p = some (some t)
  | .skip rest => ∃ k p, s = p ++ rest ∧ Longest k p s ∧ meaning strtod k p = some none
  | .bad => (∃ k p rest, s = p ++ rest ∧ Longest k p s ∧ meaning strtod k p = none) ∨
      (s ≠ [] ∧ ∀ k p, Form k p → ¬ p <+: s)

theorem no_form {c : Char} {r : Name} (h : kindOf c = none) :
    ∀ k p, Form k p → ¬ p <+: (c :: r) := by
  intro k p hf hp
  cases p with
  | nil => exact form_ne_nil hf rfl
  | cons a p =>
    have := form_kind hf
    rw [(List.cons_prefix_cons.1 hp).1, h] at this
    cases this

theorem form_kind_of_prefix {c : Char} {r : Name} {k : PieceKind} {p : Name} (hf : Form k p)
    (hp : p <+: (c :: r)) : kindOf c = some k := by
  cases p with
  | nil => exact absurd rfl (form_ne_nil hf)
  | cons a p =>
    have := form_kind hf
    rwa [(List.cons_prefix_cons.1 hp).1] at this

theorem scan1_ok (strtod : Name → Option N) (s : Name) : ScanOk strtod s (scan1 strtod s) := by
  cases s with
  | nil => rfl
  | cons c r =>
    rw [scan1.eq_def]
    simp only
    by_cases h1 : isLetter c = true
    · rw [if_pos h1]
      refine ⟨.kw, kwMatch (c :: r), ?_, ?_, rfl⟩
      · obtain ⟨t, ht⟩ := kwMatch_prefix (c :: r)
        have h := List.take_append_drop (kwMatch (c :: r)).length (c :: r)
        have h2 : (c :: r).take (kwMatch (c :: r)).length = kwMatch (c :: r) := by
          generalize hk : kwMatch (c :: r) = k at ht ⊢
          rw [← ht, List.take_left]
        rw [h2] at h
        exact h.symm
      · refine longest_of (.kw (kwMatch_isKw c r h1)) (kwMatch_prefix _) ?_
        intro q hq hp
        cases hq with
        | kw hq => exact kw_le _ _ hq hp
    rw [if_neg h1]
    by_cases h2 : isDig c = true
    · rw [if_pos h2]
      have hlong : Longest .num ((c :: r).take (numLen (c :: r))) (c :: r) := by
        refine longest_of (.num (numLen_isNum c r h2)) (List.take_prefix _ _) ?_
        intro q hq hp
        cases hq with
        | num hq =>
          rw [List.length_take, Nat.min_eq_left (numLen_le_length _)]
          exact num_le _ _ hq hp
      cases hst : strtod ((c :: r).take (numLen (c :: r))) with
      | none =>
        left
        exact ⟨.num, _, _, (List.take_append_drop _ _).symm, hlong, by simp [meaning, hst]⟩
      | some x =>
        exact ⟨.num, _, (List.take_append_drop _ _).symm, hlong, by simp [meaning, hst]⟩
    rw [if_neg h2]
    by_cases h3 : (c == '#') = true
    · rw [if_pos h3]
      have hc : c = '#' := by simpa using h3
      subst hc
      cases hd : r.dropWhile (· != '\n') with
      | nil =>
        right
        refine ⟨by simp, ?_⟩
        intro k p hf hp
        have hk := form_kind_of_prefix hf hp
        have hk' : k = .blank := by
          have : kindOf '#' = some .blank := by decide
          rw [this] at hk
          exact (Option.some.inj hk).symm
        subst hk'
        cases hf with
        | blank h =>
          have := (List.cons_prefix_cons.1 hp).1
          rw [this] at h
          revert h; decide
        | @comment s h =>
          have hp' := (List.cons_prefix_cons.1 hp).2
          have hmem : '\n' ∈ r := hp'.subset (by simp)
          have := dropWhile_nil hd '\n' hmem
          simp at this
      | cons x rest =>
        obtain ⟨hr, hx⟩ := dropWhile_eq_cons _ _ _ _ hd
        have hx' : x = '\n' := by simpa using hx
        subst hx'
        have hno : '\n' ∉ r.takeWhile (· != '\n') := by
          intro h
          have := mem_takeWhile_imp' h
          simp at this
        refine ⟨.blank, '#' :: (r.takeWhile (· != '\n') ++ ['\n']), ?_, ?_, rfl⟩
        · simp only [List.cons_append, List.append_assoc, List.nil_append]
          rw [← hr]
        · refine longest_of (.comment hno) ?_ ?_
          · refine List.cons_prefix_cons.2 ⟨rfl, ⟨rest, ?_⟩⟩
            rw [List.append_assoc, List.singleton_append]
            exact hr.symm
          · intro q hq hp
            cases hq with
            | blank h => simp
            | @comment s h =>
              have hp' := (List.cons_prefix_cons.1 hp).2
              obtain ⟨t, ht⟩ := hp'
              rw [List.append_assoc, List.singleton_append] at ht
              have := takeWhile_unique (· != '\n') s (r.takeWhile (· != '\n')) '\n' '\n' t rest
                (by
                  intro z hz
                  have : z ≠ '\n' := fun e => h (e ▸ hz)
                  simpa using this)
                (takeWhile_all _ _) (by simp) (by simp) (by rw [ht]; exact hr)
              rw [this]
    rw [if_neg h3]
    by_cases h4 : isPunct c = true
    · rw [if_pos h4]
      refine ⟨.sym, [c], rfl, ?_, rfl⟩
      refine longest_of (.sym ((isPunct_iff c).1 h4)) ⟨r, rfl⟩ ?_
      intro q hq _
      cases hq with
      | sym => simp
    rw [if_neg h4]
    by_cases h5 : (c == ' ' || c == '\t' || c == '\n') = true
    · rw [if_pos h5]
      refine ⟨.blank, [c], rfl, ?_, rfl⟩
      refine longest_of (.blank (by simpa [or_assoc] using h5)) ⟨r, rfl⟩ ?_
      intro q hq hp
      cases hq with
      | blank => simp
      | comment h =>
        have := (List.cons_prefix_cons.1 hp).1
        rw [← this] at h3
        simp at h3
    rw [if_neg h5]
    by_cases h6 : (c == '"') = true
    · rw [if_pos h6]
      have hc : c = '"' := by simpa using h6
      subst hc
      have hstr : ∀ s, StrOk s →
          ∀ z ∈ s, (fun x => x != '"' && x != '\n' && x != '\r') z = true := by
        intro s hs z hz
        have := hs z hz
        simp [this.1, this.2.1, this.2.2]
      cases hd : r.dropWhile (fun x => x != '"' && x != '\n' && x != '\r') with
      | nil =>
        right
        refine ⟨by simp, ?_⟩
        intro k p hf hp
        have hk := form_kind_of_prefix hf hp
        have hk' : k = .str := by
          have : kindOf '"' = some .str := by decide
          rw [this] at hk
          exact (Option.some.inj hk).symm
        subst hk'
        cases hf with
        | @str s h =>
          have hp' := (List.cons_prefix_cons.1 hp).2
          have hmem : '"' ∈ r := hp'.subset (by simp)
          have := dropWhile_nil hd '"' hmem
          simp at this
      | cons q rest =>
        obtain ⟨hr, hq⟩ := dropWhile_eq_cons _ _ _ _ hd
        simp only
        by_cases hqq : (q == '"') = true
        · rw [if_pos hqq]
          have hq' : q = '"' := by simpa using hqq
          subst hq'
          have hok : StrOk (r.takeWhile (fun x => x != '"' && x != '\n' && x != '\r')) := by
            intro z hz
            have := mem_takeWhile_imp' hz
            simpa [and_assoc] using this
          refine ⟨.str, '"' :: (r.takeWhile (fun x => x != '"' && x != '\n' && x != '\r') ++ ['"']),
            ?_, ?_, by simp [meaning]⟩
          · simp only [List.cons_append, List.append_assoc, List.nil_append]
            rw [← hr]
          · refine longest_of (.str hok) ?_ ?_
            · refine List.cons_prefix_cons.2 ⟨rfl, ⟨rest, ?_⟩⟩
              rw [List.append_assoc, List.singleton_append]
              exact hr.symm
            · intro q hq hp
              cases hq with
              | @str s h =>
                have hp' := (List.cons_prefix_cons.1 hp).2
                obtain ⟨t, ht⟩ := hp'
                rw [List.append_assoc, List.singleton_append] at ht
                have := takeWhile_unique (fun x => x != '"' && x != '\n' && x != '\r') s
                  (r.takeWhile (fun x => x != '"' && x != '\n' && x != '\r')) '"' '"' t rest
                  (hstr s h) (takeWhile_all _ _) (by simp) (by simp)
                  (by rw [ht]; exact hr)
                rw [this]
        · rw [if_neg hqq]
          right
          refine ⟨by simp, ?_⟩
          intro k p hf hp
          have hk := form_kind_of_prefix hf hp
          have hk' : k = .str := by
            have : kindOf '"' = some .str := by decide
            rw [this] at hk
            exact (Option.some.inj hk).symm
          subst hk'
          cases hf with
          | @str s h =>
            have hp' := (List.cons_prefix_cons.1 hp).2
            obtain ⟨t, ht⟩ := hp'
            rw [List.append_assoc, List.singleton_append] at ht
            have hqf : (fun x => x != '"' && x != '\n' && x != '\r') q = false := hq
            have hab := takeWhile_unique (fun x => x != '"' && x != '\n' && x != '\r') s
              (r.takeWhile (fun x => x != '"' && x != '\n' && x != '\r')) '"' q t rest
              (hstr s h) (takeWhile_all _ _) (by simp) hqf
              (by rw [ht]; exact hr)
            have h2 : s ++ '"' :: t = s ++ q :: rest := by
              rw [ht]
              conv_lhs => rw [hr]
              rw [← hab]
            have := (List.cons.inj (List.append_cancel_left h2)).1
            rw [← this] at hqq
            simp at hqq
    · rw [if_neg h6]
      right
      refine ⟨by simp, no_form ?_⟩
      simp only [kindOf]
      rw [if_neg h1, if_neg h2, if_neg h3, if_neg h4, if_neg h5, if_neg h6]

/-- Every match consumes at least one character. -/
theorem scan1_lt (strtod : Name → Option N) (s : Name) :
    (∀ t rest, scan1 strtod s = .tok t rest → rest.length < s.length) ∧
    (∀ rest, scan1 strtod s = .skip rest → rest.length < s.length) := by
  have h := scan1_ok strtod s
  constructor
  · intro t rest he
    rw [he] at h
    obtain ⟨k, p, hs, hl, _⟩ := h
    rw [hs, List.length_append]
    have := List.length_pos_of_ne_nil (form_ne_nil hl.1)
    omega
  · intro rest he
    rw [he] at h
    obtain ⟨k, p, hs, hl, _⟩ := h
    rw [hs, List.length_append]
    have := List.length_pos_of_ne_nil (form_ne_nil hl.1)
    omega

theorem lexN_stable (strtod : Name → Option N) : ∀ (n m : Nat) (s : Name), s.length < n →
    s.length < m → lexN strtod n s = lexN strtod m s := by
  intro n
  induction n with
  | zero => intro m s h; omega
  | succ n ih =>
    intro m s hn hm
    cases m with
    | zero => omega
    | succ m =>
      obtain ⟨h1, h2⟩ := scan1_lt strtod s
      unfold lexN
      cases hsc : scan1 strtod s with
      | eof => rfl
      | bad => rfl
      | skip rest =>
        have := h2 rest hsc
        exact ih m rest (by omega) (by omega)
      | tok t rest =>
        have := h1 t rest hsc
        simp only
        rw [ih m rest (by omega) (by omega)]

theorem lexAll_eof (strtod : Name → Option N) : lexAll strtod [] = ([], true) := rfl

theorem lexAll_tok (strtod : Name → Option N) {s : Name} {t : Tok N} {rest : Name}
    (h : scan1 strtod s = .tok t rest) :
    lexAll strtod s = (t :: (lexAll strtod rest).1, (lexAll strtod rest).2) := by
  have hl := (scan1_lt strtod s).1 t rest h
  unfold lexAll
  rw [lexN, h]
  simp only
  rw [lexN_stable strtod s.length (rest.length + 1) rest hl (by omega)]

theorem lexAll_skip (strtod : Name → Option N) {s : Name} {rest : Name}
    (h : scan1 strtod s = .skip rest) : lexAll strtod s = lexAll strtod rest := by
  have hl := (scan1_lt strtod s).2 rest h
  unfold lexAll
  rw [lexN, h]
  exact lexN_stable strtod s.length (rest.length + 1) rest hl (by omega)

theorem lexAll_bad (strtod : Name → Option N) {s : Name} (h : scan1 strtod s = .bad) :
    lexAll strtod s = ([], false) := by
  unfold lexAll
  rw [lexN, h]

/-- The scanner reads every text as described by `Reads`. -/
theorem lexAll_reads (strtod : Name → Option N) (s : Name) :
    Reads strtod s (lexAll strtod s).1 (lexAll strtod s).2 := by
  generalize hn : s.length = n
  induction n using Nat.strong_induction_on generalizing s with
  | _ n ih =>
    have h := scan1_ok strtod s
    cases hsc : scan1 strtod s with
    | eof =>
      rw [hsc] at h
      have : s = [] := h
      subst this
      exact .done
    | bad =>
      rw [hsc] at h
      rw [lexAll_bad strtod hsc]
      rcases h with ⟨k, p, rest, rfl, hl, hm⟩ | ⟨hs, hf⟩
      · exact .range hl hm
      · exact .stuck hs hf
    | skip rest =>
      have hlt := (scan1_lt strtod s).2 rest hsc
      rw [lexAll_skip strtod hsc]
      rw [hsc] at h
      obtain ⟨k, p, rfl, hl, hm⟩ := h
      exact .skip hl hm (ih rest.length (hn ▸ hlt) rest rfl)
    | tok t rest =>
      have hlt := (scan1_lt strtod s).1 t rest hsc
      rw [lexAll_tok strtod hsc]
      rw [hsc] at h
      obtain ⟨k, p, rfl, hl, hm⟩ := h
      exact .tok hl hm (ih rest.length (hn ▸ hlt) rest rfl)

theorem longest_unique {k k' : PieceKind} {p q s : Name} (h : Longest k p s) (h' : Longest k' q s) :
    p = q ∧ k = k' := by
  rcases h.2.2 k' q h'.1 h'.2.1 with h1 | ⟨h1, h2⟩
  · rcases h'.2.2 k p h.1 h.2.1 with h3 | ⟨h3, h4⟩
    · omega
    · exact ⟨h3, h4⟩
  · exact ⟨h1.symm, h2.symm⟩

/-- There is only one way to read a text. -/
theorem reads_unique {strtod : Name → Option N} {s : Name} {ts ts' : List (Tok N)} {b b' : Bool}
    (h : Reads strtod s ts b) (h' : Reads strtod s ts' b') : ts = ts' ∧ b = b' := by
  induction h generalizing ts' b' with
  | done =>
    generalize hs : ([] : Name) = s at h'
    cases h' with
    | done => exact ⟨rfl, rfl⟩
    | tok hl => exact absurd (List.append_eq_nil_iff.1 hs.symm).1 (form_ne_nil hl.1)
    | skip hl => exact absurd (List.append_eq_nil_iff.1 hs.symm).1 (form_ne_nil hl.1)
    | range hl => exact absurd (List.append_eq_nil_iff.1 hs.symm).1 (form_ne_nil hl.1)
    | stuck h0 => exact absurd hs.symm h0
  | @tok k p s t ts b hl hm _ ih =>
    generalize hs : p ++ s = s0 at h'
    cases h' with
    | done => exact absurd (List.append_eq_nil_iff.1 hs).1 (form_ne_nil hl.1)
    | @tok k' p' s' t' ts'' _ hl' hm' hr' =>
      have hl2 := hl
      rw [hs] at hl2
      obtain ⟨rfl, rfl⟩ := longest_unique hl2 hl'
      have hss := List.append_cancel_left hs
      subst hss
      obtain ⟨e1, e2⟩ := ih hr'
      rw [hm] at hm'
      injection hm' with hm'
      injection hm' with hm'
      exact ⟨by rw [e1, hm'], e2⟩
    | @skip k' p' _ _ _ hl' hm' =>
      have hl2 := hl
      rw [hs] at hl2
      obtain ⟨rfl, rfl⟩ := longest_unique hl2 hl'
      rw [hm] at hm'; cases hm'
    | @range k' p' _ hl' hm' =>
      have hl2 := hl
      rw [hs] at hl2
      obtain ⟨rfl, rfl⟩ := longest_unique hl2 hl'
      rw [hm] at hm'; cases hm'
    | stuck _ hn => exact absurd (hs ▸ hl.2.1) (hn _ _ hl.1)
  | @skip k p s ts b hl hm _ ih =>
    generalize hs : p ++ s = s0 at h'
    cases h' with
    | done => exact absurd (List.append_eq_nil_iff.1 hs).1 (form_ne_nil hl.1)
    | @skip k' p' s' ts'' _ hl' hm' hr' =>
      have hl2 := hl
      rw [hs] at hl2
      obtain ⟨rfl, rfl⟩ := longest_unique hl2 hl'
      have hss := List.append_cancel_left hs
      subst hss
      exact ih hr'
    | @tok k' p' _ _ _ _ hl' hm' =>
      have hl2 := hl
      rw [hs] at hl2
      obtain ⟨rfl, rfl⟩ := longest_unique hl2 hl'
      rw [hm] at hm'; cases hm'
    | @range k' p' _ hl' hm' =>
      have hl2 := hl
      rw [hs] at hl2
      obtain ⟨rfl, rfl⟩ := longest_unique hl2 hl'
      rw [hm] at hm'; cases hm'
    | stuck _ hn => exact absurd (hs ▸ hl.2.1) (hn _ _ hl.1)
  | @range k p s hl hm =>
    generalize hs : p ++ s = s0 at h'
    cases h' with
    | done => exact absurd (List.append_eq_nil_iff.1 hs).1 (form_ne_nil hl.1)
    | @skip k' p' s' ts'' _ hl' hm' hr' =>
      have hl2 := hl
      rw [hs] at hl2
      obtain ⟨rfl, rfl⟩ := longest_unique hl2 hl'
      rw [hm] at hm'; cases hm'
    | @tok k' p' _ _ _ _ hl' hm' =>
      have hl2 := hl
      rw [hs] at hl2
      obtain ⟨rfl, rfl⟩ := longest_unique hl2 hl'
      rw [hm] at hm'; cases hm'
    | range => exact ⟨rfl, rfl⟩
    | stuck _ hn => exact absurd (hs ▸ hl.2.1) (hn _ _ hl.1)
  | @stuck s h0 hn =>
    cases h' with
    | done => exact absurd rfl h0
    | tok hl => exact absurd hl.2.1 (hn _ _ hl.1)
    | skip hl => exact absurd hl.2.1 (hn _ _ hl.1)
    | range hl => exact absurd hl.2.1 (hn _ _ hl.1)
    | stuck => exact ⟨rfl, rfl⟩

end Flame.Glps
