import Verif.Vaccel.Link
import Mathlib.Tactic.Linarith

/-! # C76 -/

namespace Flame.Vaccel

theorem blank_space : blank ' ' := by simp [blank]

theorem solid_space {g : Text} (h : Solid g) : ' ' ∉ g := fun hm => h.2 _ hm blank_space

theorem word_space {g : Text} (h : Word g) : ' ' ∉ g := fun hm => (h.2 _ hm).1 blank_space

theorem word_bracket {g : Text} (h : Word g) : '[' ∉ g := fun hm => (h.2 _ hm).2 rfl

theorem digits_not {g : Text} (h : Digits g) (c : Char) (hc : ¬ digit c) : c ∉ g := fun hm => hc (h.2 _ hm)

/-- Text in front of a mark that it does not contain. -/
theorem cut {m : Char} : ∀ {a a' b b' : Text}, m ∉ a → m ∉ a' → a ++ m :: b = a' ++ m :: b' → a = a' ∧ b = b'
  | [], [], _, _, _, _, h => by simpa using h
  | [], c :: a', _, _, _, h', h => by
    simp only [List.nil_append, List.cons_append, List.cons.injEq] at h
    exact absurd (by simp [h.1]) h'
  | c :: a, [], _, _, h0, _, h => by
    simp only [List.nil_append, List.cons_append, List.cons.injEq] at h
    exact absurd (by simp [h.1]) h0
  | c :: a, d :: a', b, b', h0, h', h => by
    simp only [List.cons_append, List.cons.injEq] at h
    obtain ⟨e1, e2⟩ := cut (a := a) (a' := a') (fun x => h0 (List.mem_cons_of_mem _ x)) (fun x => h' (List.mem_cons_of_mem _ x)) h.2
    exact ⟨by rw [h.1, e1], e2⟩

/-- Text without `[`, then nothing or something beginning with `[`. -/
theorem cutOpen {a a' t t' : Text} (ha : '[' ∉ a) (ha' : '[' ∉ a') (ht : t = [] ∨ ∃ x, t = '[' :: x)
    (ht' : t' = [] ∨ ∃ x, t' = '[' :: x) (h : a ++ t = a' ++ t') : a = a' ∧ t = t' := by
  rcases ht with rfl | ⟨x, rfl⟩ <;> rcases ht' with rfl | ⟨y, rfl⟩
  · simpa using h
  · exact absurd (by rw [List.append_nil] at h; rw [h]; simp) ha
  · exact absurd (by rw [List.append_nil] at h; rw [← h]; simp) ha'
  · obtain ⟨e1, e2⟩ := cut ha ha' h
    exact ⟨e1, by rw [e2]⟩

theorem oneIndex_open {g : Option Text} {t : Text} (h : OneIndex g t) : t = [] ∨ ∃ x, t = '[' :: x := by
  cases g with
  | none => exact .inl h
  | some d => exact .inr ⟨_, h.2⟩

theorem twoIndices_open {g k : Option Text} {t : Text} (h : TwoIndices g k t) : t = [] ∨ ∃ x, t = '[' :: x := by
  cases g with
  | none =>
    cases k with
    | none => exact .inl h
    | some e => exact h.elim
  | some d =>
    cases k with
    | none => exact .inr ⟨_, h.2⟩
    | some e => exact .inr ⟨_, h.2.2⟩

theorem oneIndex_space {g : Option Text} {t : Text} (h : OneIndex g t) : ' ' ∉ t := by
  cases g with
  | none => rw [show t = [] from h]; simp
  | some d =>
    rw [h.2]
    have := digits_not h.1 ' ' (by simp [digit])
    simp [this]

theorem close_digits {d : Text} (h : Digits d) : ']' ∉ d := digits_not h ']' (by simp [digit])

theorem comma_digits {d : Text} (h : Digits d) : ',' ∉ d := digits_not h ',' (by simp [digit])

theorem oneIndex_inj {g g' : Option Text} {t : Text} (h : OneIndex g t) (h' : OneIndex g' t) : g = g' := by
  cases g with
  | none =>
    cases g' with
    | none => rfl
    | some d => exact absurd (show t = [] from h) (by rw [h'.2]; simp)
  | some d =>
    cases g' with
    | none => exact absurd (show t = [] from h') (by rw [h.2]; simp)
    | some d' =>
      have := h.2.symm.trans h'.2
      simp only [List.cons_append, List.cons.injEq, true_and] at this
      rw [(cut (close_digits h.1) (close_digits h'.1) this).1]

theorem one_two {d d' e : Text} (h : Digits d) : ('[' :: d ++ [']'] : Text) ≠ '[' :: d' ++ ',' :: e ++ [']'] := by
  intro he
  simp only [List.cons_append, List.cons.injEq, true_and, List.append_assoc] at he
  -- The comma would have to lie among the digits.
  have h1 : ∀ c ∈ d ++ [']'], c ≠ ',' := by
    intro c hc
    rcases List.mem_append.1 hc with hc | hc
    · rintro rfl
      exact comma_digits h hc
    · rw [List.mem_singleton.1 hc]
      decide
  exact h1 ',' (by rw [he]; simp) rfl

theorem twoIndices_inj {g g' k k' : Option Text} {t : Text} (h : TwoIndices g k t) (h' : TwoIndices g' k' t) :
    g = g' ∧ k = k' := by
  rcases g with _ | d <;> rcases k with _ | e
  · rcases g' with _ | d' <;> rcases k' with _ | e'
    · exact ⟨rfl, rfl⟩
    · exact False.elim h'
    · exact absurd (show t = [] from h) (by rw [h'.2]; simp)
    · exact absurd (show t = [] from h) (by rw [h'.2.2]; simp)
  · exact False.elim h
  · rcases g' with _ | d' <;> rcases k' with _ | e'
    · exact absurd (show t = [] from h') (by rw [h.2]; simp)
    · exact False.elim h'
    · exact ⟨oneIndex_inj (g := some d) (g' := some d') h h', rfl⟩
    · exact absurd (h.2.symm.trans h'.2.2) (one_two h.1)
  · rcases g' with _ | d' <;> rcases k' with _ | e'
    · exact absurd (show t = [] from h') (by rw [h.2.2]; simp)
    · exact False.elim h'
    · exact absurd (h'.2.symm.trans h.2.2) (one_two h'.1)
    · have := h.2.2.symm.trans h'.2.2
      simp only [List.cons_append, List.cons.injEq, true_and, List.append_assoc] at this
      obtain ⟨e1, e2⟩ := cut (comma_digits h.1) (comma_digits h'.1) this
      rw [e1, (cut (close_digits h.2.1) (close_digits h'.2.1) e2).1]
      exact ⟨rfl, rfl⟩

theorem elem_space {w t : Text} {g : Option Text} (h : Word w) (ht : OneIndex g t) : ' ' ∉ w ++ t := by
  intro hm
  rcases List.mem_append.1 hm with hm | hm
  · exact word_space h hm
  · exact oneIndex_space ht hm

/-- **C76**: a link string has at most one reading. -/
theorem C76_unambiguous (s : Text) :
    (∀ g g', MeasLink s g → MeasLink s g' → g = g') ∧ (∀ g g', OrbitLink s g → OrbitLink s g' → g = g') ∧
    (∀ g g', SetLink s g → SetLink s g' → g = g') ∧ (∀ g g', ElemLink s g → ElemLink s g' → g = g') := by
  refine ⟨?_, ?_, ?_, ?_⟩
  · rintro ⟨a, b, c, d, e, f⟩ ⟨a', b', c', d', e', f'⟩ ⟨t, u, h1, h2, h3, h4, h5, h⟩ ⟨t', u', k1, k2, k3, k4, k5, k⟩
    dsimp only at *
    obtain ⟨rfl, q⟩ := cut (solid_space h1) (solid_space k1) (h.symm.trans k)
    obtain ⟨q1, q2⟩ := cut (elem_space h2 h3) (elem_space k2 k3) q
    obtain ⟨rfl, rfl⟩ := cutOpen (word_bracket h2) (word_bracket k2) (oneIndex_open h3) (oneIndex_open k3) q1
    obtain ⟨rfl, rfl⟩ := cutOpen (word_bracket h4) (word_bracket k4) (twoIndices_open h5) (twoIndices_open k5) q2
    obtain ⟨rfl, rfl⟩ := twoIndices_inj h5 k5
    rw [oneIndex_inj h3 k3]
  · rintro ⟨a, b, d, e, f⟩ ⟨a', b', d', e', f'⟩ ⟨u, h1, h2, h4, h5, h⟩ ⟨u', k1, k2, k4, k5, k⟩
    dsimp only at *
    obtain ⟨rfl, q⟩ := cut (solid_space h1) (solid_space k1) (h.symm.trans k)
    obtain ⟨rfl, q2⟩ := cut (word_space h2) (word_space k2) q
    obtain ⟨rfl, rfl⟩ := cutOpen (word_bracket h4) (word_bracket k4) (twoIndices_open h5) (twoIndices_open k5) q2
    obtain ⟨rfl, rfl⟩ := twoIndices_inj h5 k5
    rfl
  · rintro ⟨a, b, c, d⟩ ⟨a', b', c', d'⟩ ⟨t, h1, h2, h3, h4, h⟩ ⟨t', k1, k2, k3, k4, k⟩
    dsimp only at *
    obtain ⟨rfl, q⟩ := cut (solid_space h1) (solid_space k1) (h.symm.trans k)
    obtain ⟨q1, rfl⟩ := cut (elem_space h2 h3) (elem_space k2 k3) q
    obtain ⟨rfl, rfl⟩ := cutOpen (word_bracket h2) (word_bracket k2) (oneIndex_open h3) (oneIndex_open k3) q1
    rw [oneIndex_inj h3 k3]
  · rintro ⟨a, b, c⟩ ⟨a', b', c'⟩ ⟨t, h1, h2, h3, h⟩ ⟨t', k1, k2, k3, k⟩
    dsimp only at *
    obtain ⟨rfl, q⟩ := cut (solid_space h1) (solid_space k1) (h.symm.trans k)
    obtain ⟨rfl, rfl⟩ := cutOpen (word_bracket h2) (word_bracket k2) (oneIndex_open h3) (oneIndex_open k3) q
    rw [oneIndex_inj h3 k3]

/-! ## numbers -/

/-- Decimal notation. -/
def decimal (n : Nat) : Text := if n = 0 then ['0'] else ((Nat.digits 10 n).map (fun k => Char.ofNat (48 + k))).reverse

theorem digitVal_ofNat : ∀ k < 10, digitVal (Char.ofNat (48 + k)) = k := by decide

theorem digit_ofNat : ∀ k < 10, digit (Char.ofNat (48 + k)) := by unfold digit; decide

theorem decimal_digits (n : Nat) : Digits (decimal n) := by
  unfold decimal
  split
  · exact ⟨by simp, by simp [digit]⟩
  · rename_i h
    refine ⟨by simpa using Nat.digits_ne_nil_iff_ne_zero.2 h, fun c hc => ?_⟩
    obtain ⟨k, hk, rfl⟩ := List.mem_map.1 (List.mem_reverse.1 hc)
    exact digit_ofNat k (Nat.digits_lt_base (by norm_num) hk)

theorem foldl_digits (l : List Nat) (hl : ∀ k ∈ l, k < 10) :
    ((l.map (fun k => Char.ofNat (48 + k))).reverse).foldl (fun n c => 10 * n + digitVal c) 0 = Nat.ofDigits 10 l := by
  induction l with
  | nil => rfl
  | cons k l ih =>
    rw [List.map_cons, List.reverse_cons, List.foldl_append, ih (fun x hx => hl x (List.mem_cons_of_mem _ hx)),
      Nat.ofDigits_cons]
    simp only [List.foldl_cons, List.foldl_nil, digitVal_ofNat k (hl k (List.mem_cons_self ..))]
    omega

theorem sizeOfText_decimal (n : Nat) (h : n < 2 ^ 64) : sizeOfText (decimal n) = some n := by
  unfold sizeOfText decimal
  split
  · rename_i h0
    subst h0
    decide
  · rw [foldl_digits _ (fun k hk => Nat.digits_lt_base (by norm_num) hk), Nat.ofDigits_digits]
    rw [if_pos h]

/-- `[inst]`, `[i]`, `[i,j]`. -/
def writeInst : Option Nat → Text
  | none => []
  | some n => "[".toList ++ decimal n ++ "]".toList

def writeDims : List Nat → Text
  | [i] => "[".toList ++ decimal i ++ "]".toList
  | [i, j] => "[".toList ++ decimal i ++ ",".toList ++ decimal j ++ "]".toList
  | _ => []

/-- The link of a measurement: simulation, element, which of the elements of that name, parameter, index. -/
def writeMeas (sim elem : Text) (inst : Option Nat) (param : Text) (dims : List Nat) : Text :=
  sim ++ " ".toList ++ elem ++ writeInst inst ++ " ".toList ++ param ++ writeDims dims

/-- **C76**: what is written in a link is what is read from it. -/
theorem C76_round_trip (sim elem : Text) (inst : Option Nat) (param : Text) (dims : List Nat) (h1 : Solid sim) (h2 : Word elem)
    (h3 : Word param) (hi : ∀ n ∈ inst, n < 2 ^ 64) (hd : ∀ i ∈ dims, i < 2 ^ 64) (hl : dims.length ≤ 2) :
    ∃ g, MeasLink (writeMeas sim elem inst param dims) g ∧
      (∀ g', MeasLink (writeMeas sim elem inst param dims) g' → g' = g) ∧
      g.sim = sim ∧ g.elem = elem ∧ g.param = param ∧ instOf g.inst = some (inst.getD 0) ∧ dimsOf g.dim0 g.dim1 = some dims := by
  have key : ∃ g, MeasLink (writeMeas sim elem inst param dims) g ∧
      g.sim = sim ∧ g.elem = elem ∧ g.param = param ∧ instOf g.inst = some (inst.getD 0) ∧ dimsOf g.dim0 g.dim1 = some dims := by
    refine ⟨⟨sim, elem, inst.map decimal, param, dims[0]?.map decimal, dims[1]?.map decimal⟩,
      ⟨writeInst inst, writeDims dims, h1, h2, ?_, h3, ?_, ?_⟩, rfl, rfl, rfl, ?_, ?_⟩
    · cases inst with
      | none => rfl
      | some n => exact ⟨decimal_digits n, rfl⟩
    · rcases dims with _ | ⟨i, _ | ⟨j, _ | ⟨k, l⟩⟩⟩
      · rfl
      · exact ⟨decimal_digits i, rfl⟩
      · exact ⟨decimal_digits i, decimal_digits j, by simp [writeDims]⟩
      · simp at hl
    · unfold writeMeas
      simp
    · cases inst with
      | none => rfl
      | some n => exact sizeOfText_decimal n (hi n rfl)
    · rcases dims with _ | ⟨i, _ | ⟨j, _ | ⟨k, l⟩⟩⟩
      · rfl
      · simp [dimsOf, sizeOfText_decimal i (hd i (by simp))]
      · simp [dimsOf, sizeOfText_decimal i (hd i (by simp)), sizeOfText_decimal j (hd j (by simp))]
      · simp at hl
  obtain ⟨g, hg, h⟩ := key
  exact ⟨g, hg, fun g' hg' => (C76_unambiguous _).1 g' g hg' hg, h⟩

/-- Without an index all elements of the name would be meant; the first one is. -/
example : writeMeas "sim".toList "BPM".toList (some 12) "moment0".toList [3, 0] = "sim BPM[12] moment0[3,0]".toList := by
  decide +kernel

example : Solid "sim".toList ∧ Word "BPM".toList ∧ Word "moment0".toList := by
  refine ⟨⟨by decide, ?_⟩, ⟨by decide, ?_⟩, ⟨by decide, ?_⟩⟩ <;> unfold blank <;> decide

end Flame.Vaccel
