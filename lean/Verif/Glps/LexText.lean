import Verif.Glps.LexLemmas

/-!
# Scanning texts put together from pieces
-/

namespace Flame.Glps

variable {N : Type}

theorem scan1_tok_of (strtod : Name → Option N) {k : PieceKind} {p rest : Name} {t : Tok N}
    (hl : Longest k p (p ++ rest)) (hm : meaning strtod k p = some (some t)) :
    scan1 strtod (p ++ rest) = .tok t rest := by
  have h := scan1_ok strtod (p ++ rest)
  cases hsc : scan1 strtod (p ++ rest) with
  | eof =>
    rw [hsc] at h
    exact absurd (List.append_eq_nil_iff.1 h).1 (form_ne_nil hl.1)
  | bad =>
    rw [hsc] at h
    rcases h with ⟨k', p', r', _, hl', hm'⟩ | ⟨_, hf⟩
    · obtain ⟨rfl, rfl⟩ := longest_unique hl hl'
      rw [hm] at hm'; cases hm'
    · exact absurd hl.2.1 (hf _ _ hl.1)
  | skip r' =>
    rw [hsc] at h
    obtain ⟨k', p', _, hl', hm'⟩ := h
    obtain ⟨rfl, rfl⟩ := longest_unique hl hl'
    rw [hm] at hm'; cases hm'
  | tok t' r' =>
    rw [hsc] at h
    obtain ⟨k', p', hs, hl', hm'⟩ := h
    obtain ⟨rfl, rfl⟩ := longest_unique hl hl'
    rw [hm] at hm'
    injection hm' with hm'
    injection hm' with hm'
    rw [hm', List.append_cancel_left hs]

theorem scan1_skip_of (strtod : Name → Option N) {k : PieceKind} {p rest : Name}
    (hl : Longest k p (p ++ rest)) (hm : meaning strtod k p = some none) :
    scan1 strtod (p ++ rest) = .skip rest := by
  have h := scan1_ok strtod (p ++ rest)
  cases hsc : scan1 strtod (p ++ rest) with
  | eof =>
    rw [hsc] at h
    exact absurd (List.append_eq_nil_iff.1 h).1 (form_ne_nil hl.1)
  | bad =>
    rw [hsc] at h
    rcases h with ⟨k', p', r', _, hl', hm'⟩ | ⟨_, hf⟩
    · obtain ⟨rfl, rfl⟩ := longest_unique hl hl'
      rw [hm] at hm'; cases hm'
    · exact absurd hl.2.1 (hf _ _ hl.1)
  | skip r' =>
    rw [hsc] at h
    obtain ⟨k', p', hs, hl', hm'⟩ := h
    obtain ⟨rfl, rfl⟩ := longest_unique hl hl'
    rw [List.append_cancel_left hs]
  | tok t' r' =>
    rw [hsc] at h
    obtain ⟨k', p', hs, hl', hm'⟩ := h
    obtain ⟨rfl, rfl⟩ := longest_unique hl hl'
    rw [hm] at hm'; cases hm'

/-! ### When a piece is the longest one -/

/-- A keyword is not continued by `rest`: what follows is at most a run of colons. -/
def KwStop (rest : Name) : Prop := ∀ x ∈ rest.takeWhile isKwChar, x = ':'

theorem longest_kw {p rest : Name} (h : IsKw p) (hr : KwStop rest) : Longest .kw p (p ++ rest) := by
  refine longest_of (.kw h) (List.prefix_append _ _) ?_
  intro q hq hp
  cases hq with
  | kw hq =>
    by_contra hlt
    push Not at hlt
    have hpq : p <+: q :=
      List.prefix_of_prefix_length_le (List.prefix_append p rest) hp (le_of_lt hlt)
    obtain ⟨u, rfl⟩ := hpq
    obtain ⟨t, ht⟩ := hp
    rw [List.append_assoc] at ht
    have hu : u <+: rest := ⟨t, List.append_cancel_left ht⟩
    have hu0 : u ≠ [] := by
      rintro rfl
      simp at hlt
    obtain ⟨c, r, he, hc, hall, hlast⟩ := hq
    have huk : ∀ x ∈ u, isKwChar x = true := by
      intro x hx
      have : x ∈ c :: r := he ▸ List.mem_append_right p hx
      rcases List.mem_cons.1 this with h' | h'
      · rw [h']; exact isKwChar_of_isLetter ((letter_iff _).1 hc)
      · exact (kwChar_iff _).1 (hall x h')
    have hu' := takeWhile_prefix' isKwChar rest u hu huk
    apply hlast
    rw [List.getLast?_append_of_ne_nil _ hu0, List.getLast?_eq_some_getLast hu0]
    congr 1
    exact hr _ (hu'.subset (List.getLast_mem hu0))

/-- Characters that can continue a number. -/
def numCont (c : Char) : Bool := isDig c || c == '.' || c == 'e' || c == 'E'

theorem isNum_last {p : Name} (h : IsNum p) : ∀ x, p.getLast? = some x → isDig x = true ∨ x = '.' := by
  obtain ⟨a, b, c, rfl, ha0, ha, hb, hc⟩ := h
  intro x hx
  rcases hc with rfl | ⟨e, sg, d, rfl, he, hsg, hd0, hd⟩
  · rcases hb with rfl | ⟨d, rfl, hd⟩
    · simp only [List.append_nil] at hx
      exact Or.inl ((digit_iff _).1 (ha x (List.mem_of_getLast? hx)))
    · rw [List.append_nil, List.getLast?_append_of_ne_nil _ (by simp)] at hx
      rcases List.mem_cons.1 (List.mem_of_getLast? hx) with h | h
      · exact Or.inr h
      · exact Or.inl ((digit_iff _).1 (hd x h))
  · left
    have hne : sg ++ d ≠ [] := fun h => hd0 (List.append_eq_nil_iff.1 h).2
    rw [List.getLast?_append_of_ne_nil _ (by simp), List.getLast?_append_of_ne_nil _ (by simp),
      List.getLast?_cons_of_ne_nil hne, List.getLast?_append_of_ne_nil _ hd0] at hx
    exact (digit_iff _).1 (hd x (List.mem_of_getLast? hx))

theorem isNum_cont {p v : Name} {x : Char} (hp : IsNum p) (hq : IsNum (p ++ x :: v)) :
    numCont x = true := by
  by_contra hx
  have hx' : isDig x = false ∧ x ≠ '.' ∧ x ≠ 'e' ∧ x ≠ 'E' := by
    simpa [numCont, and_assoc] using hx
  obtain ⟨hxd, hx1, hx2, hx3⟩ := hx'
  obtain ⟨a, b, c, he, ha0, ha, hb, hc⟩ := hq
  have ha' : x ∉ a := fun h => by rw [(digit_iff _).1 (ha x h)] at hxd; cases hxd
  have hb' : x ∉ b := by
    rcases hb with rfl | ⟨d, rfl, hd⟩
    · simp
    · intro h
      rcases List.mem_cons.1 h with h | h
      · exact hx1 h
      · rw [(digit_iff _).1 (hd x h)] at hxd; cases hxd
  have hmem : x ∈ a ++ (b ++ c) := by rw [← he]; simp
  have hxc : x ∈ c := by
    rcases List.mem_append.1 hmem with h | h
    · exact absurd h ha'
    · rcases List.mem_append.1 h with h | h
      · exact absurd h hb'
      · exact h
  rcases hc with rfl | ⟨e, sg, d, rfl, hee, hsg, hd0, hd⟩
  · simp at hxc
  have hxe : x ≠ e := by rcases hee with h | h <;> rw [h] <;> assumption
  have hd' : x ∉ d := fun h => by rw [(digit_iff _).1 (hd x h)] at hxd; cases hxd
  have hsgx : sg = [x] := by
    rcases List.mem_cons.1 hxc with h | h
    · exact absurd h hxe
    · rcases List.mem_append.1 h with h | h
      · rcases hsg with rfl | rfl | rfl
        · simp at h
        · rw [List.mem_singleton.1 h]
        · rw [List.mem_singleton.1 h]
      · exact absurd h hd'
  subst hsgx
  have hsplit : p ++ x :: v = (a ++ b ++ [e]) ++ x :: d := by
    rw [he]; simp
  have hcount := congrArg (List.count x) hsplit
  have h0 : List.count x (a ++ b ++ [e]) = 0 := by
    rw [List.count_eq_zero]
    simp only [List.mem_append, List.mem_singleton]
    rintro ((h | h) | h)
    · exact ha' h
    · exact hb' h
    · exact hxe h
  have h1 : List.count x d = 0 := List.count_eq_zero.2 hd'
  rw [List.count_append, List.count_append, List.count_cons_self, List.count_cons_self, h0, h1] at hcount
  have hp0 : x ∉ p := List.count_eq_zero.1 (by omega)
  have hpe : p = a ++ b ++ [e] := by
    refine takeWhile_unique (fun z => z != x) p (a ++ b ++ [e]) x x v d ?_ ?_ (by simp) (by simp) hsplit
    · intro z hz
      have : z ≠ x := fun h => hp0 (h ▸ hz)
      simpa using this
    · intro z hz
      have : z ≠ x := fun h => (List.count_eq_zero.1 h0) (h ▸ hz)
      simpa using this
  have := isNum_last hp e (by rw [hpe]; simp)
  rcases hee with h | h <;> rw [h] at this <;> revert this <;> decide

theorem longest_num {p rest : Name} (h : IsNum p) (hr : ∀ x, rest.head? = some x → numCont x = false) :
    Longest .num p (p ++ rest) := by
  refine longest_of (.num h) (List.prefix_append _ _) ?_
  intro q hq hp
  cases hq with
  | num hq =>
    by_contra hlt
    push Not at hlt
    have hpq : p <+: q :=
      List.prefix_of_prefix_length_le (List.prefix_append p rest) hp (le_of_lt hlt)
    obtain ⟨u, rfl⟩ := hpq
    obtain ⟨t, ht⟩ := hp
    rw [List.append_assoc] at ht
    have hu := List.append_cancel_left ht
    cases u with
    | nil => simp at hlt
    | cons x v =>
      have h1 := isNum_cont h hq
      have h2 := hr x (by rw [← hu]; rfl)
      rw [h1] at h2; cases h2

theorem longest_str {s rest : Name} (h : StrOk s) :
    Longest .str ('"' :: (s ++ ['"'])) ('"' :: (s ++ ['"']) ++ rest) := by
  refine longest_of (.str h) (List.prefix_append _ _) ?_
  intro q hq hp
  cases hq with
  | @str s' h' =>
    obtain ⟨t, ht⟩ := hp
    simp only [List.cons_append, List.append_assoc, List.cons.injEq, true_and] at ht
    have hf : ∀ s, StrOk s → ∀ z ∈ s, (fun x => x != '"') z = true := by
      intro s hs z hz
      simpa using (hs z hz).1
    have := takeWhile_unique (fun x => x != '"') s' s '"' '"' t rest (hf _ h') (hf _ h) (by simp) (by simp)
      (by simpa using ht)
    rw [this]

theorem longest_sym {c : Char} {rest : Name}
    (h : c ∈ ['=', ':', ';', '(', ')', '[', ']', ',', '+', '*', '/', '-']) :
    Longest .sym [c] ([c] ++ rest) := by
  refine longest_of (.sym h) (List.prefix_append _ _) ?_
  intro q hq _
  cases hq with
  | sym => simp

theorem longest_blank {p rest : Name} (h : Form .blank p) : Longest .blank p (p ++ rest) := by
  refine longest_of h (List.prefix_append _ _) ?_
  intro q hq hp
  cases h with
  | @blank c hc =>
    cases hq with
    | blank => simp
    | @comment s hs =>
      have := (List.cons_prefix_cons.1 hp).1
      rw [← this] at hc
      exact absurd hc (by decide)
  | @comment s hs =>
    cases hq with
    | blank => simp
    | @comment s' hs' =>
      obtain ⟨t, ht⟩ := hp
      simp only [List.cons_append, List.append_assoc, List.cons.injEq, true_and] at ht
      have hf : ∀ s : Name, '\n' ∉ s → ∀ z ∈ s, (fun x => x != '\n') z = true := by
        intro s hs z hz
        have : z ≠ '\n' := fun h => hs (h ▸ hz)
        simpa using this
      have := takeWhile_unique (fun x => x != '\n') s' s '\n' '\n' t rest (hf _ hs') (hf _ hs)
        (by simp) (by simp) (by simpa using ht)
      rw [this]

/-! ### Gaps -/

/-- White space and complete comments. -/
def IsGap (g : Name) : Prop := ∃ ps : List Name, g = ps.flatten ∧ ∀ p ∈ ps, Form .blank p

theorem lexAll_gap (strtod : Name → Option N) {g s : Name} (h : IsGap g) :
    lexAll strtod (g ++ s) = lexAll strtod s := by
  obtain ⟨ps, rfl, hps⟩ := h
  induction ps with
  | nil => rfl
  | cons p ps ih =>
    have hp := hps p (List.mem_cons_self ..)
    rw [List.flatten_cons, List.append_assoc]
    rw [lexAll_skip strtod (scan1_skip_of strtod (longest_blank hp) rfl)]
    exact ih (fun q hq => hps q (List.mem_cons_of_mem _ hq))

/-- First character of a gap. -/
theorem gap_head {g : Name} (h : IsGap g) : ∀ x, g.head? = some x → x ∈ [' ', '\t', '\n', '#'] := by
  obtain ⟨ps, rfl, hps⟩ := h
  intro x hx
  cases ps with
  | nil => simp at hx
  | cons p ps =>
    have hp := hps p (List.mem_cons_self ..)
    cases hp with
    | @blank c hc =>
      simp only [List.flatten_cons, List.cons_append, List.head?_cons, Option.some.injEq] at hx
      rw [← hx]
      simp only [List.mem_cons, List.not_mem_nil, or_false] at hc ⊢
      tauto
    | comment =>
      simp only [List.flatten_cons, List.cons_append, List.head?_cons, Option.some.injEq] at hx
      rw [← hx]; decide

theorem gap_not_kw : ∀ c ∈ [' ', '\t', '\n', '#'], isKwChar c = false := by decide

theorem isNum_no_gap {p : Name} (h : IsNum p) : ∀ c ∈ [' ', '\t', '\n', '#'], c ∉ p := by
  obtain ⟨a, b, c, rfl, ha0, ha, hb, hc⟩ := h
  intro x hx
  have hxd : ∀ d, Digits d → x ∉ d := by
    intro d hd hm
    have := (digit_iff _).1 (hd x hm)
    have hall : ∀ c ∈ [' ', '\t', '\n', '#'], isDig c = false := by decide
    rw [hall x hx] at this; cases this
  rw [List.mem_append, List.mem_append]
  rintro (h | h | h)
  · exact hxd _ ha h
  · rcases hb with rfl | ⟨d, rfl, hd⟩
    · simp at h
    · rcases List.mem_cons.1 h with h | h
      · rw [h] at hx; revert hx; decide
      · exact hxd _ hd h
  · rcases hc with rfl | ⟨e, sg, d, rfl, he, hsg, hd0, hd⟩
    · simp at h
    · rcases List.mem_cons.1 h with h | h
      · rw [h] at hx
        rcases he with h | h <;> rw [h] at hx <;> revert hx <;> decide
      · rcases List.mem_append.1 h with h | h
        · rcases hsg with rfl | rfl | rfl
          · simp at h
          · rw [List.mem_singleton.1 h] at hx; revert hx; decide
          · rw [List.mem_singleton.1 h] at hx; revert hx; decide
        · exact hxd _ hd h

/-- A longest piece stays the longest piece when the text after it is continued by a character that
occurs in no keyword and no number. -/
theorem longest_extend {k : PieceKind} {p s w : Name} {x : Char} (h : Longest k p (p ++ s))
    (hx : x ∈ [' ', '\t', '\n', '#']) : Longest k p (p ++ (s ++ x :: w)) := by
  refine longest_of h.1 (List.prefix_append _ _) ?_
  intro q hq hp
  have key : x ∉ q → q.length ≤ p.length := by
    intro hxq
    have hqs : q <+: p ++ s := by
      have h1 : p ++ s <+: p ++ (s ++ x :: w) := by
        rw [← List.append_assoc]; exact List.prefix_append _ _
      rcases Nat.lt_or_ge (p ++ s).length q.length with hlt | hge
      · exfalso
        have h2 : p ++ s <+: q := List.prefix_of_prefix_length_le h1 hp (le_of_lt hlt)
        obtain ⟨u, rfl⟩ := h2
        obtain ⟨t, ht⟩ := hp
        rw [← List.append_assoc, List.append_assoc] at ht
        have hu := List.append_cancel_left ht
        cases u with
        | nil => simp at hlt
        | cons y u =>
          have : y = x := (List.cons.inj hu).1
          apply hxq
          rw [this]
          simp
      · exact List.prefix_of_prefix_length_le hp h1 hge
    rcases h.2.2 k q hq hqs with h' | ⟨h', _⟩
    · exact le_of_lt h'
    · rw [h']
  cases hq with
  | @kw q hq =>
    apply key
    obtain ⟨c, r, rfl, hc, hr, _⟩ := hq
    intro hm
    have := gap_not_kw x hx
    rcases List.mem_cons.1 hm with h' | h'
    · rw [h', isKwChar_of_isLetter ((letter_iff _).1 hc)] at this; cases this
    · rw [(kwChar_iff _).1 (hr x h')] at this; cases this
  | num hq => exact key (isNum_no_gap hq x hx)
  | @str s' h' =>
    have hf := h.1
    cases hf with
    | @str s'' h'' =>
      have := (longest_str (rest := s ++ x :: w) h'').2.2 .str _ (.str h') hp
      rcases this with h1 | ⟨h1, _⟩
      · exact le_of_lt h1
      · rw [h1]
  | sym =>
    have hf := h.1
    cases hf with
    | sym => simp
  | blank h' =>
    have := List.length_pos_of_ne_nil (form_ne_nil h.1)
    simp only [List.length_cons, List.length_nil]
    omega
  | comment h' =>
    have := (longest_blank (rest := s ++ x :: w) h.1).2.2 .blank _ (.comment h') hp
    rcases this with h1 | ⟨h1, _⟩
    · exact le_of_lt h1
    · rw [h1]

/-- A completely scanned text followed by a gap and another text. -/
theorem lexAll_append_gap (strtod : Name → Option N) {a g b : Name} {ts : List (Tok N)}
    (ha : lexAll strtod a = (ts, true)) (hg : IsGap g) (hg0 : g ≠ []) :
    lexAll strtod (a ++ (g ++ b)) = (ts ++ (lexAll strtod b).1, (lexAll strtod b).2) := by
  have hr := lexAll_reads strtod a
  rw [ha] at hr
  clear ha
  simp only at hr
  generalize hb : true = bb at hr
  induction hr with
  | done => rw [List.nil_append, List.nil_append, lexAll_gap strtod hg]
  | @tok k p s t ts b' hl hm _ ih =>
    cases hgc : g with
    | nil => exact absurd hgc hg0
    | cons x w =>
      have hx := gap_head hg x (by rw [hgc]; rfl)
      rw [← hgc]
      have hl' : Longest k p (p ++ (s ++ (g ++ b))) := by
        rw [hgc]; exact longest_extend hl hx
      rw [List.append_assoc, lexAll_tok strtod (scan1_tok_of strtod hl' hm), ih hb]
      rfl
  | @skip k p s ts b' hl hm _ ih =>
    cases hgc : g with
    | nil => exact absurd hgc hg0
    | cons x w =>
      have hx := gap_head hg x (by rw [hgc]; rfl)
      rw [← hgc]
      have hl' : Longest k p (p ++ (s ++ (g ++ b))) := by
        rw [hgc]; exact longest_extend hl hx
      rw [List.append_assoc, lexAll_skip strtod (scan1_skip_of strtod hl' hm), ih hb]
  | range => cases hb
  | stuck => cases hb

/-! ### Texts of tokens -/

/-- `w` is a way to write the token `t`. -/
def Writes (strtod : Name → Option N) : Tok N → Name → Prop
  | .kw k, w => IsKw k ∧ w = k
  | .str s, w => StrOk s ∧ w = '"' :: (s ++ ['"'])
  | .num x, w => IsNum w ∧ strtod w = some x
  | .sym c, w => c ∈ ['=', ':', ';', '(', ')', '[', ']', ',', '+', '*', '/', '-'] ∧ w = [c]

theorem kwStop_nil : KwStop [] := by
  intro x hx; simp at hx

theorem lexAll_single (strtod : Name → Option N) {t : Tok N} {w : Name} (h : Writes strtod t w) :
    lexAll strtod w = ([t], true) := by
  have key : ∀ k, Longest k w (w ++ []) → meaning strtod k w = some (some t) →
      lexAll strtod w = ([t], true) := by
    intro k hl hm
    have h1 := lexAll_tok strtod (scan1_tok_of strtod hl hm)
    rw [List.append_nil] at h1
    rw [h1]; rfl
  cases t with
  | kw k =>
    obtain ⟨h1, rfl⟩ := h
    exact key .kw (longest_kw h1 kwStop_nil) rfl
  | str s =>
    obtain ⟨h1, rfl⟩ := h
    exact key .str (longest_str h1) (by simp [meaning])
  | num x =>
    exact key .num (longest_num h.1 (by simp)) (by simp [meaning, h.2])
  | sym c =>
    obtain ⟨h1, rfl⟩ := h
    exact key .sym (longest_sym h1) rfl

end Flame.Glps
