import Verif.Config.Show

/-!
# C116: A listing shows one configuration only
-/

namespace Flame.Listing

/-! ## Spec -/

mutual
/-- Values that agree in everything but digits that are not shown. -/
inductive SameV (fmt : ℝ → Str) : Val → Val → Prop
  | num {x y : ℝ} : fmt x = fmt y → SameV fmt (.num x) (.num y)
  | str (s : Str) : SameV fmt (.str s) (.str s)
  | vec {l l' : List ℝ} : l.map fmt = l'.map fmt → SameV fmt (.vec l) (.vec l')
  | cfgs {l l' : Cfgs} : SameL fmt l l' → SameV fmt (.cfgs l) (.cfgs l')

/-- Configurations with the same names, in the same order, and such values. -/
inductive SameC (fmt : ℝ → Str) : Cfg → Cfg → Prop
  | nil : SameC fmt .nil .nil
  | cons (k : Str) {v v' : Val} {r r' : Cfg} : SameV fmt v v' → SameC fmt r r' → SameC fmt (.cons k v r) (.cons k v' r')

/-- Lists of such configurations of the same length. -/
inductive SameL (fmt : ℝ → Str) : Cfgs → Cfgs → Prop
  | nil : SameL fmt .nil .nil
  | cons {c c' : Cfg} {l l' : Cfgs} : SameC fmt c c' → SameL fmt l l' → SameL fmt (.cons c l) (.cons c' l')
end

mutual
/-- Texts without a line break, and names without a blank: as those the parser reads (/repo/src/glps.l:53-72). -/
def Val.Clean : Val → Prop
  | .num _ => True
  | .str s => '\n' ∉ s
  | .vec _ => True
  | .cfgs l => l.Clean

def Cfg.Clean : Cfg → Prop
  | .nil => True
  | .cons k v r => (k ≠ [] ∧ ' ' ∉ k) ∧ v.Clean ∧ r.Clean

def Cfgs.Clean : Cfgs → Prop
  | .nil => True
  | .cons c l => c.Clean ∧ l.Clean
end

/-- What a number is written with. -/
def Digits (fmt : ℝ → Str) : Prop := ∀ x, fmt x ≠ [] ∧ ∀ c ∈ fmt x, c ∈ "0123456789.+-einfa".toList

/-! ## lists -/

theorem until_inj {c : Char} : ∀ {a b s t : Str}, c ∉ a → c ∉ b → a ++ c :: s = b ++ c :: t → a = b ∧ s = t
  | [], [], s, t, _, _, h => ⟨rfl, (List.cons.inj h).2⟩
  | [], d :: b, s, t, _, hb, h => absurd (List.cons.inj h).1 (fun e => hb (by rw [e]; exact List.mem_cons_self))
  | d :: a, [], s, t, ha, _, h => absurd (List.cons.inj h).1 (fun e => ha (by rw [← e]; exact List.mem_cons_self))
  | d :: a, e :: b, s, t, ha, hb, h => by
    obtain ⟨h1, h2⟩ := List.cons.inj h
    obtain ⟨h3, h4⟩ := until_inj (fun x => ha (List.mem_cons_of_mem _ x)) (fun x => hb (List.mem_cons_of_mem _ x)) h2
    exact ⟨by rw [h1, h3], h4⟩

theorem sp_ne {k n : Nat} {c : Char} {s t : Str} (h : k < n) (hc : c ≠ ' ') : sp k ++ c :: s ≠ sp n ++ t := by
  intro e
  have h1 : (sp k ++ c :: s)[k]? = some c := by
    rw [List.getElem?_append_right (by simp [sp])]
    simp [sp]
  rw [e, List.getElem?_append_left (by simpa [sp] using h)] at h1
  simp only [sp, List.getElem?_replicate, if_pos h, Option.some_inj] at h1
  exact hc h1.symm

variable {fmt : ℝ → Str}

theorem digit_ne (hd : Digits fmt) {x : ℝ} {c : Char} (hc : c ∉ "0123456789.+-einfa".toList) : c ∉ fmt x :=
  fun h => hc ((hd x).2 c h)

theorem join_notMem (hd : Digits fmt) {c : Char} (hc : c ∉ ", 0123456789.+-einfa".toList) : ∀ l, c ∉ join fmt l
  | [] => by simp [join]
  | [x] => digit_ne hd (fun h => hc (List.mem_cons_of_mem _ (List.mem_cons_of_mem _ h)))
  | x :: y :: l => by
    have ih := join_notMem hd hc (y :: l)
    have h1 := digit_ne (x := x) hd (fun h => hc (List.mem_cons_of_mem _ (List.mem_cons_of_mem _ h)))
    have h2 : c ≠ ',' := fun h => hc (by rw [h]; decide +kernel)
    have h3 : c ≠ ' ' := fun h => hc (by rw [h]; decide +kernel)
    simp only [join, List.mem_append, List.mem_cons, not_or]
    exact ⟨h1, h2, h3, ih⟩

theorem join_inj (hd : Digits fmt) : ∀ l l', join fmt l = join fmt l' → l.map fmt = l'.map fmt
  | [], [], _ => rfl
  | [], [x], h => absurd h.symm (hd x).1
  | [], x :: y :: l, h => by simp [join] at h
  | [x], [], h => absurd h (hd x).1
  | [x], [y], h => by simpa [join] using h
  | [x], y :: z :: l, h => by
    have h1 : ',' ∈ join fmt [x] := by rw [h]; simp [join]
    exact absurd h1 (digit_ne hd (by decide +kernel))
  | x :: y :: l, [], h => by simp [join] at h
  | x :: y :: l, [z], h => by
    have h1 : ',' ∈ join fmt [z] := by rw [← h]; simp [join]
    exact absurd h1 (digit_ne hd (by decide +kernel))
  | x :: y :: l, x' :: y' :: l', h => by
    obtain ⟨h1, h2⟩ := until_inj (digit_ne hd (by decide +kernel)) (digit_ne hd (by decide +kernel)) h
    have ih := join_inj hd (y :: l) (y' :: l') (List.cons.inj h2).2
    rw [List.map_cons, List.map_cons (l := y' :: l'), h1, ih]

/-- What follows a configuration with indent `n`: a line with a smaller indent, or nothing. -/
def End (n : Nat) (s : Str) : Prop := s = [] ∨ ∃ k c t, k < n ∧ c ≠ ' ' ∧ s = sp k ++ c :: t

theorem end_ne {n : Nat} {s k t : Str} (he : End n s) (hk : k ≠ [] ∧ ' ' ∉ k) : s ≠ sp n ++ (k ++ t) := by
  intro h
  rcases he with rfl | ⟨m, c, u, h1, h2, rfl⟩
  · have := congrArg List.length h
    have h3 := List.length_pos_iff.2 hk.1
    simp only [List.length_nil, List.length_append] at this
    omega
  · exact sp_ne h1 h2 h

theorem num_ne (hd : Digits fmt) {x : ℝ} {c : Char} (hc : c ∉ "0123456789.+-einfa".toList) {s t : Str} : fmt x ++ s ≠ c :: t := by
  intro h
  cases hx : fmt x with
  | nil => exact (hd x).1 hx
  | cons d u =>
    rw [hx] at h
    exact digit_ne (x := x) hd hc (by rw [hx, ← (List.cons.inj h).1]; exact List.mem_cons_self)

theorem join_ne (hd : Digits fmt) {l : List ℝ} {s t : Str} : join fmt l ++ ']' :: s ≠ '\n' :: t := by
  intro h
  cases hx : join fmt l with
  | nil =>
    rw [hx] at h
    exact absurd (List.cons.inj h).1 (by decide)
  | cons d u =>
    rw [hx] at h
    exact join_notMem hd (c := '\n') (by decide +kernel) l (by rw [hx, ← (List.cons.inj h).1]; exact List.mem_cons_self)

mutual
theorem body_inj (hd : Digits fmt) (n : Nat) : ∀ (v v' : Val) (s t : Str), v.Clean → v'.Clean → body fmt n v ++ s = body fmt n v' ++ t →
    SameV fmt v v' ∧ s = t
  | .num x, v', s, t, _, _, h => by
    cases v' with
    | num y =>
      simp only [body, List.append_assoc, List.singleton_append] at h
      obtain ⟨h1, h2⟩ := until_inj (digit_ne hd (by decide +kernel)) (digit_ne hd (by decide +kernel)) h
      exact ⟨.num h1, h2⟩
    | str u =>
      simp only [body, List.append_assoc, List.cons_append] at h
      exact absurd h (num_ne hd (by decide +kernel))
    | vec l =>
      simp only [body, List.append_assoc, List.cons_append] at h
      exact absurd h (num_ne hd (by decide +kernel))
    | cfgs l =>
      simp only [body, List.append_assoc, List.cons_append] at h
      exact absurd h (num_ne hd (by decide +kernel))
  | .str u, v', s, t, hv, hv', h => by
    cases v' with
    | num y =>
      simp only [body, List.append_assoc, List.cons_append] at h
      exact absurd h.symm (num_ne hd (by decide +kernel))
    | str w =>
      simp only [body, List.append_assoc, List.cons_append, List.nil_append, List.cons.injEq, true_and] at h
      have h' : (u ++ ['"']) ++ '\n' :: s = (w ++ ['"']) ++ '\n' :: t := by simpa using h
      simp only [Val.Clean] at hv hv'
      obtain ⟨h1, h2⟩ := until_inj (by simpa using hv) (by simpa using hv') h'
      rw [List.append_cancel_right h1]
      exact ⟨.str w, h2⟩
    | vec l =>
      simp only [body, List.cons_append] at h
      exact absurd (List.cons.inj h).1 (by decide)
    | cfgs l =>
      simp only [body, List.cons_append] at h
      exact absurd (List.cons.inj h).1 (by decide)
  | .vec l, v', s, t, _, _, h => by
    cases v' with
    | num y =>
      simp only [body, List.append_assoc, List.cons_append] at h
      exact absurd h.symm (num_ne hd (by decide +kernel))
    | str w =>
      simp only [body, List.cons_append] at h
      exact absurd (List.cons.inj h).1 (by decide)
    | vec l' =>
      simp only [body, List.append_assoc, List.cons_append, List.nil_append, List.cons.injEq, true_and] at h
      obtain ⟨h1, h2⟩ := until_inj (join_notMem hd (by decide +kernel) l) (join_notMem hd (by decide +kernel) l') h
      exact ⟨.vec (join_inj hd _ _ h1), (List.cons.inj h2).2⟩
    | cfgs l' =>
      simp only [body, List.append_assoc, List.cons_append, List.nil_append, List.cons.injEq, true_and] at h
      exact absurd h (join_ne hd)
  | .cfgs l, v', s, t, hv, hv', h => by
    cases v' with
    | num y =>
      simp only [body, List.append_assoc, List.cons_append] at h
      exact absurd h.symm (num_ne hd (by decide +kernel))
    | str w =>
      simp only [body, List.cons_append] at h
      exact absurd (List.cons.inj h).1 (by decide)
    | vec l' =>
      simp only [body, List.append_assoc, List.cons_append, List.nil_append, List.cons.injEq, true_and] at h
      exact absurd h.symm (join_ne hd)
    | cfgs l' =>
      simp only [body, List.append_assoc, List.cons_append, List.nil_append, List.cons.injEq, true_and] at h
      obtain ⟨h1, h2⟩ := items_inj hd n l 0 l' _ _ hv hv' h
      exact ⟨.cfgs h1, (List.cons.inj h2).2⟩

theorem items_inj (hd : Digits fmt) (n : Nat) : ∀ (l : Cfgs) (i : Nat) (l' : Cfgs) (s t : Str), l.Clean → l'.Clean →
    items fmt n i l ++ (sp n ++ ']' :: s) = items fmt n i l' ++ (sp n ++ ']' :: t) → SameL fmt l l' ∧ s = t
  | .nil, i, l', s, t, _, _, h => by
    cases l' with
    | nil =>
      simp only [items, List.nil_append] at h
      exact ⟨.nil, (List.cons.inj (List.append_cancel_left h)).2⟩
    | cons c l' =>
      simp only [items, List.nil_append, List.append_assoc] at h
      exact absurd h (sp_ne (by omega) (by decide))
  | .cons c l, i, l', s, t, hl, hl', h => by
    cases l' with
    | nil =>
      simp only [items, List.nil_append, List.append_assoc] at h
      exact absurd h.symm (sp_ne (by omega) (by decide))
    | cons c' l' =>
      simp only [items, List.append_assoc, List.cons_append] at h
      have h1 := List.append_cancel_left (List.append_cancel_left (List.cons.inj (List.append_cancel_left h)).2)
      have e : ∀ u : Str, End (n + 4) (sp (n + 2) ++ ("},\n".toList ++ u)) := fun u =>
        .inr ⟨n + 2, '}', ',' :: '\n' :: u, by omega, by decide, rfl⟩
      simp only [Cfgs.Clean] at hl hl'
      obtain ⟨h2, h3⟩ := shown_inj hd (n + 4) c c' _ _ hl.1 hl'.1 (e _) (e _) h1
      obtain ⟨h4, h5⟩ := items_inj hd n l (i + 1) l' s t hl.2 hl'.2 (List.append_cancel_left (List.append_cancel_left h3))
      exact ⟨.cons h2 h4, h5⟩

theorem shown_inj (hd : Digits fmt) (n : Nat) : ∀ (a b : Cfg) (s t : Str), a.Clean → b.Clean → End n s → End n t →
    shown fmt n a ++ s = shown fmt n b ++ t → SameC fmt a b ∧ s = t
  | .nil, b, s, t, _, hb, hs, _, h => by
    cases b with
    | nil => exact ⟨.nil, h⟩
    | cons k v r =>
      simp only [Cfg.Clean] at hb
      simp only [shown, List.nil_append, List.append_assoc] at h
      exact absurd h (end_ne hs hb.1)
  | .cons k v r, b, s, t, ha, hb, hs, ht, h => by
    cases b with
    | nil =>
      simp only [Cfg.Clean] at ha
      simp only [shown, List.nil_append, List.append_assoc] at h
      exact absurd h.symm (end_ne ht ha.1)
    | cons k' v' r' =>
      simp only [Cfg.Clean] at ha hb
      simp only [shown, List.append_assoc, List.cons_append] at h
      obtain ⟨h1, h2⟩ := until_inj ha.1.2 hb.1.2 (List.append_cancel_left h)
      subst h1
      obtain ⟨h3, h4⟩ := body_inj hd n v v' _ _ ha.2.1 hb.2.1 (List.cons.inj (List.cons.inj h2).2).2
      obtain ⟨h5, h6⟩ := shown_inj hd n r r' s t ha.2.2 hb.2.2 hs ht h4
      exact ⟨.cons k h3 h5, h6⟩
end

mutual
theorem body_same (n : Nat) : ∀ (v v' : Val), SameV fmt v v' → body fmt n v = body fmt n v'
  | .num x, _, .num h => by simp only [body, h]
  | .str s, _, .str _ => rfl
  | .vec l, .vec l', .vec h => by
    have : ∀ l l' : List ℝ, l.map fmt = l'.map fmt → join fmt l = join fmt l' := by
      intro l
      induction l with
      | nil =>
        intro l' h
        cases l' with
        | nil => rfl
        | cons => simp at h
      | cons x l ih =>
        intro l' h
        cases l' with
        | nil => simp at h
        | cons x' l' =>
          rw [List.map_cons, List.map_cons, List.cons.injEq] at h
          have h2 := ih l' h.2
          cases l with
          | nil =>
            cases l' with
            | nil => simpa [join] using h.1
            | cons => simp at h
          | cons y l =>
            cases l' with
            | nil => simp at h
            | cons y' l' => simp only [join, h.1, h2]
    simp only [body, this l l' h]
  | .cfgs l, .cfgs l', .cfgs h => by simp only [body, items_same n l 0 l' h]

theorem items_same (n : Nat) : ∀ (l : Cfgs) (i : Nat) (l' : Cfgs), SameL fmt l l' → items fmt n i l = items fmt n i l'
  | .nil, _, _, .nil => rfl
  | .cons c l, i, .cons c' l', .cons h1 h2 => by simp only [items, shown_same (n + 4) c c' h1, items_same n l (i + 1) l' h2]

theorem shown_same (n : Nat) : ∀ (a b : Cfg), SameC fmt a b → shown fmt n a = shown fmt n b
  | .nil, _, .nil => rfl
  | .cons k v r, .cons _ v' r', .cons _ h1 h2 => by simp only [shown, body_same n v v' h1, shown_same n r r' h2]
end

/-- **C116**: two configurations, nested to any depth, have the same listing if and only if they agree in everything but digits that are not shown.
For names without blanks and texts without line breaks, as the parser makes them. -/
theorem C116_listing_partial (hd : Digits fmt) (a b : Cfg) (ha : a.Clean) (hb : b.Clean) :
    shown fmt 0 a = shown fmt 0 b ↔ SameC fmt a b := by
  refine ⟨fun h => ?_, shown_same 0 a b⟩
  exact (shown_inj hd 0 a b [] [] ha hb (.inl rfl) (.inl rfl) (by rw [h])).1

/-- The formatting of these examples: numbers from zero to two. -/
noncomputable def exFmt (x : ℝ) : Str := if x < 1 then ['0'] else if x < 2 then ['1'] else ['2']

theorem exFmt_digits : Digits exFmt := by
  intro x
  unfold exFmt
  split_ifs <;> exact ⟨by simp, by decide +kernel⟩

/-- A configuration with a list of two elements, and one in which the name of the second differs: different listings. -/
example : shown exFmt 0 (.cons ['L'] (.num 1) (.cons ['e'] (.cfgs (.cons (.cons ['n'] (.str ['a', '"', ' ']) .nil)
      (.cons (.cons ['n'] (.str ['b']) (.cons ['v'] (.vec [0, 1]) .nil)) .nil))) .nil)) ≠
    shown exFmt 0 (.cons ['L'] (.num 1) (.cons ['e'] (.cfgs (.cons (.cons ['n'] (.str ['a', '"', ' ']) .nil)
      (.cons (.cons ['n'] (.str ['c']) (.cons ['v'] (.vec [0, 1]) .nil)) .nil))) .nil)) := by
  intro h
  have h1 := (C116_listing_partial exFmt_digits _ _ (by simp [Cfg.Clean, Val.Clean, Cfgs.Clean]) (by simp [Cfg.Clean, Val.Clean, Cfgs.Clean])).1 h
  cases h1 with
  | cons _ _ h1 => cases h1 with
    | cons _ h1 _ => cases h1 with
      | cfgs h1 => cases h1 with
        | cons _ h1 => cases h1 with
          | cons h1 _ => cases h1 with
            | cons _ h1 _ => cases h1

/-- A text with a line break, as it can be given from Python, may look like two entries. -/
theorem C116_listing_false : ∃ a b : Cfg, ¬ SameC exFmt a b ∧ shown exFmt 0 a = shown exFmt 0 b := by
  refine ⟨.cons ['a'] (.str ("1\"\nb = \"2".toList)) .nil, .cons ['a'] (.str ['1']) (.cons ['b'] (.str ['2']) .nil), ?_, ?_⟩
  · intro h
    cases h with
    | cons _ _ h => cases h
  · simp only [shown, body]
    decide +kernel

/-! ## every value is listed -/

/-- One of the configurations of a list. -/
inductive Member (c : Cfg) : Cfgs → Prop
  | here (l : Cfgs) : Member c (.cons c l)
  | next (c' : Cfg) {l : Cfgs} : Member c l → Member c (.cons c' l)

/-- The entry `k`, `v` is in the configuration, inside of `d` others. -/
inductive Inside (k : Str) (v : Val) : Cfg → Nat → Prop
  | here (r : Cfg) : Inside k v (.cons k v r) 0
  | next (k' : Str) (v' : Val) {r : Cfg} {d : Nat} : Inside k v r d → Inside k v (.cons k' v' r) d
  | deep (k' : Str) {l : Cfgs} {c : Cfg} (r : Cfg) {d : Nat} : Member c l → Inside k v c d → Inside k v (.cons k' (.cfgs l) r) (d + 1)

theorem member_shown {n : Nat} {c : Cfg} {l : Cfgs} (h : Member c l) : ∀ i, ∃ p q, items fmt n i l = p ++ (shown fmt (n + 4) c ++ q) ∧
    p.getLast? = some '\n' := by
  induction h with
  | here l =>
    intro i
    refine ⟨sp (n + 2) ++ ('[' :: ((toString i).toList ++ "] = {\n".toList)), sp (n + 2) ++ ("},\n".toList ++ items fmt n (i + 1) l), ?_, ?_⟩
    · simp only [items, List.append_assoc, List.cons_append]
    · rw [List.getLast?_append, List.getLast?_cons, List.getLast?_append]
      rfl
  | next c' h ih =>
    intro i
    obtain ⟨p, q, h1, h2⟩ := ih (i + 1)
    refine ⟨sp (n + 2) ++ ('[' :: ((toString i).toList ++ ("] = {\n".toList ++ (shown fmt (n + 4) c' ++ (sp (n + 2) ++ ("},\n".toList ++ p)))))), q, ?_, ?_⟩
    · simp only [items, List.append_assoc, List.cons_append, h1]
    · have : ∀ u : Str, (u ++ p).getLast? = some '\n' := fun u => by rw [List.getLast?_append, h2]; rfl
      simp only [← List.append_assoc, ← List.cons_append]
      exact this _

theorem body_last (n : Nat) (v : Val) : (body fmt n v).getLast? = some '\n' := by
  cases v with
  | num x => simp [body]
  | str s =>
    simp only [body]
    rw [← List.cons_append, List.getLast?_append]
    rfl
  | vec l =>
    simp only [body]
    rw [← List.cons_append, List.getLast?_append]
    rfl
  | cfgs l =>
    simp only [body]
    rw [← List.append_assoc, ← List.cons_append, ← List.cons_append, List.getLast?_append]
    rfl

theorem inside_shown {k : Str} {v : Val} {a : Cfg} {d : Nat} (h : Inside k v a d) : ∀ n, ∃ p q,
    shown fmt n a = p ++ (sp (n + 4 * d) ++ (k ++ (" = ".toList ++ (body fmt (n + 4 * d) v ++ q)))) ∧ (p = [] ∨ p.getLast? = some '\n') := by
  induction h with
  | here r =>
    intro n
    exact ⟨[], shown fmt n r, by simp only [shown]; rfl, .inl rfl⟩
  | next k' v' h ih =>
    intro n
    obtain ⟨p, q, h1, h2⟩ := ih n
    refine ⟨sp n ++ (k' ++ (' ' :: '=' :: ' ' :: (body fmt n v' ++ p))), q, ?_, .inr ?_⟩
    · simp only [shown, h1, List.append_assoc, List.cons_append]
    · have h3 : (body fmt n v' ++ p).getLast? = some '\n' := by
        rcases h2 with rfl | h2
        · rw [List.append_nil, body_last]
        · rw [List.getLast?_append, h2]
          rfl
      rw [List.getLast?_append, List.getLast?_append, List.getLast?_cons, List.getLast?_cons, List.getLast?_cons, h3]
      rfl
  | deep k' r h1 h2 ih =>
    intro n
    obtain ⟨p, q, e1, e2⟩ := member_shown (fmt := fmt) (n := n) h1 0
    obtain ⟨p', q', e3, e4⟩ := ih (n + 4)
    refine ⟨sp n ++ (k' ++ (' ' :: '=' :: ' ' :: '[' :: '\n' :: (p ++ p'))), q' ++ (q ++ (sp n ++ (']' :: '\n' :: shown fmt n r))), ?_, .inr ?_⟩
    · simp only [shown, body, e1, e3, List.append_assoc, List.cons_append, List.nil_append]
      rw [show ∀ d, n + 4 * (d + 1) = n + 4 + 4 * d from fun d => by omega]
    · have h3 : (p ++ p').getLast? = some '\n' := by
        rcases e4 with rfl | e4
        · rw [List.append_nil, e2]
        · rw [List.getLast?_append, e4]
          rfl
      rw [List.getLast?_append, List.getLast?_append, List.getLast?_cons, List.getLast?_cons, List.getLast?_cons, List.getLast?_cons,
        List.getLast?_cons, h3]
      rfl

/-- **C116**, every number and text, at any depth, has its line in the listing: four blanks for each configuration around it, the name, and the
value. -/
theorem C116_listed (a : Cfg) (k : Str) (d : Nat) :
    (∀ x, Inside k (.num x) a d → ∃ p q, shown fmt 0 a = p ++ List.replicate (4 * d) ' ' ++ k ++ " = ".toList ++ fmt x ++ "\n".toList ++ q ∧
      (p = [] ∨ p.getLast? = some '\n')) ∧
    (∀ s, Inside k (.str s) a d → ∃ p q, shown fmt 0 a = p ++ List.replicate (4 * d) ' ' ++ k ++ " = \"".toList ++ s ++ "\"\n".toList ++ q ∧
      (p = [] ∨ p.getLast? = some '\n')) := by
  refine ⟨fun x h => ?_, fun s h => ?_⟩
  · obtain ⟨p, q, h1, h2⟩ := inside_shown (fmt := fmt) h 0
    refine ⟨p, q, ?_, h2⟩
    rw [h1]
    simp only [body, List.append_assoc, Nat.zero_add]
    rfl
  · obtain ⟨p, q, h1, h2⟩ := inside_shown (fmt := fmt) h 0
    refine ⟨p, q, ?_, h2⟩
    rw [h1]
    simp only [body, List.append_assoc, Nat.zero_add, List.cons_append]
    rfl

/-- The configuration `c` is number `i` of a list. -/
inductive Nth (c : Cfg) : Cfgs → Nat → Prop
  | zero (l : Cfgs) : Nth c (.cons c l) 0
  | succ (c' : Cfg) {l : Cfgs} {i : Nat} : Nth c l i → Nth c (.cons c' l) (i + 1)

theorem nth_shown {n : Nat} {c : Cfg} {l : Cfgs} {i : Nat} (h : Nth c l i) : ∀ j, ∃ p q, items fmt n j l = p ++ (sp (n + 2) ++
    ('[' :: ((toString (i + j)).toList ++ ("] = {\n".toList ++ (shown fmt (n + 4) c ++ (sp (n + 2) ++ ("},\n".toList ++ q))))))) := by
  induction h with
  | zero l =>
    intro j
    refine ⟨[], items fmt n (j + 1) l, ?_⟩
    simp only [items, Nat.zero_add, List.nil_append]
  | @succ c' l i h ih =>
    intro j
    obtain ⟨p, q, h1⟩ := ih (j + 1)
    refine ⟨sp (n + 2) ++ ('[' :: ((toString j).toList ++ ("] = {\n".toList ++ (shown fmt (n + 4) c' ++ (sp (n + 2) ++ ("},\n".toList ++ p)))))), q, ?_⟩
    simp only [items, List.append_assoc, List.cons_append, h1]
    rw [show i + (j + 1) = i + 1 + j by omega]

/-- **C116**, the configurations in a list, at any depth: each is listed between braces behind its number, counted from zero. -/
theorem C116_numbered (a : Cfg) (k : Str) (d : Nat) (l : Cfgs) (h : Inside k (.cfgs l) a d) (c : Cfg) (i : Nat) (hc : Nth c l i) :
    ∃ p q, shown fmt 0 a = p ++ List.replicate (4 * d + 2) ' ' ++ "[".toList ++ (toString i).toList ++ "] = {\n".toList ++
      shown fmt (4 * d + 4) c ++ List.replicate (4 * d + 2) ' ' ++ "},\n".toList ++ q := by
  obtain ⟨p, q, h1, -⟩ := inside_shown (fmt := fmt) h 0
  obtain ⟨p', q', h2⟩ := nth_shown (fmt := fmt) (n := 4 * d) hc 0
  refine ⟨p ++ (sp (4 * d) ++ (k ++ (" = ".toList ++ ('[' :: '\n' :: p')))), q' ++ (sp (4 * d) ++ ([']', '\n'] ++ q)), ?_⟩
  rw [h1]
  simp only [body, List.append_assoc, Nat.zero_add, List.cons_append, h2, Nat.add_zero]
  rfl

/-- The second of two elements. -/
example : ∃ p q, shown exFmt 0 (.cons ['e'] (.cfgs (.cons .nil (.cons (.cons ['n'] (.str ['b']) .nil) .nil))) .nil) =
    p ++ "  ".toList ++ "[".toList ++ "1".toList ++ "] = {\n".toList ++ "    n = \"b\"\n".toList ++ "  ".toList ++ "},\n".toList ++ q :=
  C116_numbered _ ['e'] 0 _ (.here _) (.cons ['n'] (.str ['b']) .nil) 1 (.succ _ (.zero _))

/-- The length of the second of two elements. -/
example : ∃ p q, shown exFmt 0 (.cons ['e'] (.cfgs (.cons .nil (.cons (.cons ['n'] (.str ['b']) (.cons ['L'] (.num 1) .nil)) .nil))) .nil) =
    p ++ "    ".toList ++ ['L'] ++ " = ".toList ++ exFmt 1 ++ "\n".toList ++ q ∧ (p = [] ∨ p.getLast? = some '\n') :=
  (C116_listed _ ['L'] 1).1 1 (.deep _ _ (.next _ (.here _)) (.next _ _ (.here _)))

end Flame.Listing
