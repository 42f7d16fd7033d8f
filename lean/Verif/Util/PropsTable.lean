import Verif.Util.TableLemmas

/-!
# C42: numeric tables
-/

namespace Flame.Util

variable {N : Type}

theorem isSome_lastPos (ns : List Str) (k : Str) : (∃ i, LastPos ns k i) ∨ ∀ i : Nat, ns[i]? ≠ some k := by
  induction ns with
  | nil => right; intro i; simp
  | cons a ns ih =>
    rcases ih with ⟨i, h1, h2⟩ | h
    · left
      refine ⟨i + 1, by simpa using h1, ?_⟩
      intro j hj
      cases j with
      | zero => omega
      | succ j => simpa using h2 j (by omega)
    · by_cases hk : a = k
      · left
        refine ⟨0, by simp [hk], ?_⟩
        intro j hj
        cases j with
        | zero => omega
        | succ j => simpa using h j
      · right
        intro i
        cases i with
        | zero => simpa using hk
        | succ i => simpa using h i

/-- **C42.** Reading a text made of blank lines, header lines and data lines: if all data lines have the same
number of entries the table has exactly these rows, and the column names are those of the last header, each
with its (last) position.  If two data lines differ in length the text is refused. -/
theorem C42_exact (num : Str → Option N) (zero : N) (old : Tbl N) (lines : List Str) (items : List (Item N))
    (text : Str) (hl : List.Forall₂ (IsLine num) lines items) (ht : IsText lines text) :
    ((∀ r ∈ dataRows items, ∀ r' ∈ dataRows items, r.length = r'.length) →
      ∃ t, Tbl.read num zero true old text = some t ∧
        (dataRows items ≠ [] → t.rows = dataRows items) ∧
        (∀ ns, lastHeader items = some ns → ∀ k i, t.colnames.find k = some i ↔ LastPos ns k i) ∧
        (lastHeader items = none → t.colnames = old.colnames)) ∧
    ((∃ r ∈ dataRows items, ∃ r' ∈ dataRows items, r.length ≠ r'.length) →
      Tbl.read num zero true old text = none) := by
  have hn : ∀ l ∈ lines, '\n' ∉ l := by
    intro l hm
    clear ht
    induction hl with
    | nil => cases hm
    | cons h1 _ ih =>
      rcases List.mem_cons.1 hm with rfl | hm
      · exact isLine_nl h1
      · exact ih hm
  obtain ⟨g1, g2⟩ := readLines_items hl old.colnames [] (by intro r hr; cases hr)
  rw [List.nil_append] at g1 g2
  unfold Tbl.read
  rw [if_pos rfl, readLines_text num ht hn]
  constructor
  · intro hs
    rw [g1 hs]
    have hcols : ∀ t : Tbl N, t.colnames = (match lastHeader items with
          | none => old.colnames | some ns => colsAux ns 0 []) →
        (∀ ns, lastHeader items = some ns → ∀ k i, t.colnames.find k = some i ↔ LastPos ns k i) ∧
        (lastHeader items = none → t.colnames = old.colnames) := by
      intro t ht
      constructor
      · intro ns hns k i
        rw [ht, hns]
        simp only
        obtain ⟨c1, c2⟩ := colsAux_find ns 0 [] k
        constructor
        · intro hf
          rcases isSome_lastPos ns k with ⟨j, hj⟩ | hno
          · rw [c1 j hj] at hf
            simp only [Nat.zero_add, Option.some.injEq] at hf
            rwa [← hf]
          · rw [c2 hno] at hf
            cases hf
        · intro hp
          simpa using c1 i hp
      · intro hno
        rw [ht, hno]
    cases hd : dataRows items with
    | nil => exact ⟨_, rfl, fun h => absurd rfl h, hcols _ rfl⟩
    | cons r rs => exact ⟨_, rfl, fun _ => rfl, hcols _ rfl⟩
  · rintro ⟨r, hr, r', hr', hne⟩
    rw [g2 (fun hs => hne (hs r hr r' hr'))]

/-- **C42.** A line, not a header, with a character that cannot be part of a number is refused, wherever it is. -/
theorem C42_foreign_refused (num : Str → Option N) (zero : N) (opened : Bool) (old : Tbl N) (pre l post : Str)
    (hpre : pre = [] ∨ pre.getLast? = some '\n') (hpost : post = [] ∨ post.head? = some '\n') (hl : '\n' ∉ l)
    (hp : l.head? ≠ some '%') (c : Char) (hc : c ∈ l) (hf : Foreign c) :
    Tbl.read num zero opened old (pre ++ (l ++ post)) = none := by
  unfold Tbl.read
  cases opened with
  | false => rfl
  | true =>
    rw [if_pos rfl, readLines_foreign num hf hc hp _ (line_mem hpre hpost hl (List.ne_nil_of_mem hc))]

/-- **C42.** A stream that cannot be read is refused. -/
theorem C42_unreadable (num : Str → Option N) (zero : N) (old : Tbl N) (text : Str) :
    Tbl.read num zero false old text = none := rfl

/-! ### Cases -/

/-- Numbers represented by their text. -/
def exNum (s : Str) : Option Str := if s.getLast? = some 'e' then none else some s

/-- A data line, a header, a blank line, and a data line with a line end of two characters. -/
def exItems : List (Item Str) :=
  [.header ["z".toList, "Ez".toList], .data ["1".toList, "-2.5e3".toList], .blank, .data [".5".toList, "0.".toList]]

/-- The lines of the example. -/
def exLines : List Str := ["%\tz Ez\r".toList, " 1\t -2.5e3 ".toList, "\t ".toList, ".5 0.\r".toList]

theorem exLines_ok : List.Forall₂ (IsLine exNum) exLines exItems := by
  have n1 : Numeral "1".toList := ⟨[], "1".toList, [], [], rfl, .inl rfl, .inl ⟨⟨by simp, by decide⟩, .inl rfl⟩, .inl rfl⟩
  have n2 : Numeral "-2.5e3".toList :=
    ⟨['-'], ['2'], ['.', '5'], ['e', '3'], rfl, .inr (.inr rfl),
      .inl ⟨⟨by simp, by decide⟩, .inr ⟨['5'], rfl, .inr ⟨by simp, by decide⟩⟩⟩,
      .inr ⟨'e', [], ['3'], rfl, .inl rfl, .inl rfl, ⟨by simp, by decide⟩⟩⟩
  have n3 : Numeral ".5".toList :=
    ⟨[], [], ['.', '5'], [], rfl, .inl rfl, .inr ⟨rfl, ['5'], rfl, ⟨by simp, by decide⟩⟩, .inl rfl⟩
  have n4 : Numeral "0.".toList :=
    ⟨[], ['0'], ['.'], [], rfl, .inl rfl, .inl ⟨⟨by simp, by decide⟩, .inr ⟨[], rfl, .inl rfl⟩⟩, .inl rfl⟩
  have sp : ∀ s : Str, (∀ c ∈ s, c = ' ' ∨ c = '\t' ∨ c = '\r') → ∀ c ∈ s, Space c := fun _ h => h
  refine .cons ?_ (.cons ?_ (.cons ?_ (.cons ?_ .nil)))
  · exact IsLine.header (s := "\tz Ez".toList) (r := ['\r'])
      (Names.cons (g := ['\t']) (w := ['z']) (c := ' ') (s := ['E', 'z']) (by decide) (by decide) (by decide)
        (.inl rfl) (Names.last (g := []) (by decide) (by decide) (by decide))) (.inr rfl)
  · refine .data ?_ (by simp)
    exact Entries.cons (g := [' ']) (w := ['1']) (c := '\t') (s := " -2.5e3 ".toList) (sp _ (by decide)) n1 (by decide)
      (.inr (.inl rfl)) (Entries.cons (g := [' ']) (w := "-2.5e3".toList) (c := ' ') (s := []) (sp _ (by decide)) n2
        (by decide) (.inl rfl) (.none (sp _ (by decide))))
  · exact .blank (by decide)
  · refine .data ?_ (by simp)
    exact Entries.cons (g := []) (w := ".5".toList) (c := ' ') (s := "0.\r".toList) (sp _ (by decide)) n3 (by decide)
      (.inl rfl) (Entries.cons (g := []) (w := "0.".toList) (c := '\r') (s := []) (sp _ (by decide)) n4
        (by decide) (.inr (.inr rfl)) (.none (sp _ (by decide))))

/-- A case of `C42_exact`. -/
example : List.Forall₂ (IsLine exNum) exLines exItems ∧
    IsText exLines "%\tz Ez\r\n 1\t -2.5e3 \n\t \n.5 0.\r\n".toList ∧
    (∀ r ∈ dataRows exItems, ∀ r' ∈ dataRows exItems, r.length = r'.length) ∧
    lastHeader exItems = some ["z".toList, "Ez".toList] :=
  ⟨exLines_ok, .inl (by decide +kernel), by decide, rfl⟩

/-- A case of `C42_foreign_refused`: a comma between two numbers. -/
example : ("1 2\n".toList = [] ∨ "1 2\n".toList.getLast? = some '\n') ∧ '\n' ∉ "3,4".toList ∧
    "3,4".toList.head? ≠ some '%' ∧ ',' ∈ "3,4".toList ∧ Foreign ',' := by
  refine ⟨.inr (by decide), by decide, by decide, by decide, ?_⟩
  unfold Foreign
  decide

/-! ### Where the reader is too tolerant or too strict -/

/-- **C42** is false for some entries that are no numbers: numbers glued together count as two entries, and an
incomplete number at the end of a line is dropped. -/
theorem C42_bad_entry_false :
    (Tbl.read exNum [] true ⟨[], []⟩ "1.5.2\n".toList).map (·.rows) = some [["1.5".toList, ".2".toList]] ∧
    (Tbl.read exNum [] true ⟨[], []⟩ "1-2\n".toList).map (·.rows) = some [["1".toList, "-2".toList]] ∧
    exNum "3e".toList = none ∧
    (Tbl.read exNum [] true ⟨[], []⟩ "1 2 3e\n".toList).map (·.rows) = some [["1".toList, "2".toList]] := by
  refine ⟨?_, ?_, ?_, ?_⟩ <;> decide +kernel

/-- **C42** is false for empty lines of files with line ends of two characters: they count as a data line
without entries. -/
theorem C42_crlf_false :
    (Tbl.read exNum [] true ⟨[], []⟩ "1 2\r\n\r\n".toList).map (·.rows) = none ∧
    (Tbl.read exNum [] true ⟨[], []⟩ "\r\n".toList).map (·.rows) = some [[]] := by
  refine ⟨?_, ?_⟩ <;> decide +kernel

/-- Reading a text without data into a used table does not give an empty table. -/
theorem C42_reuse_false (zero : Str) :
    (Tbl.read exNum zero true ⟨[], [["1".toList, "2".toList]]⟩ [] ).map (·.rows) = some [[zero, zero]] := by
  rfl

/-! ### Tables given as a vector -/

theorem foldl_store (numcol : Nat) (junk : N) (hc : 0 < numcol) : ∀ (vec : List N) (k : Nat) (m : Nat → Nat → N)
    (r c : Nat), c < numcol →
      ((vec.zipIdx k).foldl (fun (m : Nat → Nat → N) p => fun r c =>
        if r = (p.2 - p.2 % numcol) / numcol ∧ c = p.2 % numcol then p.1 else m r c) m) r c =
      if k ≤ r * numcol + c ∧ r * numcol + c < k + vec.length then (vec[r * numcol + c - k]?).getD junk else m r c := by
  intro vec
  induction vec with
  | nil => intro k m r c _; simp only [List.zipIdx_nil, List.foldl_nil, List.length_nil]; rw [if_neg (by omega)]
  | cons x vec ih =>
    intro k m r c hlt
    rw [List.zipIdx_cons, List.foldl_cons, ih (k + 1) _ r c hlt]
    have hk : (k - k % numcol) / numcol = k / numcol := by
      conv_lhs => rw [← Nat.div_add_mod k numcol]
      rw [Nat.mul_add_mod, Nat.mod_mod, Nat.add_sub_cancel, Nat.mul_div_cancel_left _ hc]
    have hiff : (r = (k - k % numcol) / numcol ∧ c = k % numcol) ↔ r * numcol + c = k := by
      rw [hk]
      constructor
      · rintro ⟨rfl, rfl⟩
        rw [Nat.mul_comm]
        exact Nat.div_add_mod k numcol
      · rintro rfl
        constructor
        · rw [Nat.mul_comm, Nat.mul_add_div hc, Nat.div_eq_of_lt hlt, Nat.add_zero]
        · rw [Nat.mul_comm, Nat.mul_add_mod, Nat.mod_eq_of_lt hlt]
    simp only [List.length_cons]
    by_cases h1 : k + 1 ≤ r * numcol + c ∧ r * numcol + c < k + 1 + vec.length
    · rw [if_pos h1, if_pos (by omega)]
      have : r * numcol + c - k = (r * numcol + c - (k + 1)) + 1 := by omega
      rw [this, List.getElem?_cons_succ]
    · rw [if_neg h1]
      by_cases h2 : r * numcol + c = k
      · rw [if_pos (hiff.2 h2), if_pos (by omega)]
        simp [h2]
      · rw [if_neg (fun h => h2 (hiff.1 h)), if_neg (by omega)]

/-- **C42.** A vector read as a table of `numcol` columns: entry (r, c) is number `r * numcol + c` of the vector, and
every entry is set.  A number of values that is no multiple of the number of columns is undefined. -/
theorem C42_readvec (vec : List N) (numcol : Nat) (junk : N) :
    (0 < numcol → numcol ∣ vec.length → ∃ rows m, readvec vec numcol junk = some (rows, numcol, m) ∧
      rows * numcol = vec.length ∧ ∀ r c, r < rows → c < numcol → vec[r * numcol + c]? = some (m r c)) ∧
    (numcol = 0 ∨ ¬ numcol ∣ vec.length → readvec vec numcol junk = none) := by
  constructor
  · intro hc hd
    have he : vec.length / numcol * numcol = vec.length := Nat.div_mul_cancel hd
    unfold readvec
    rw [if_neg (by omega), if_pos he.symm]
    refine ⟨_, _, rfl, he, ?_⟩
    intro r c hr hlt
    have hlen : r * numcol + c < vec.length := by
      have : (r + 1) * numcol ≤ vec.length / numcol * numcol := Nat.mul_le_mul_right _ hr
      rw [he, Nat.succ_mul] at this
      omega
    rw [foldl_store numcol junk hc vec 0 _ r c hlt, if_pos (by omega)]
    rw [Nat.sub_zero, List.getElem?_eq_getElem hlen]
    rfl
  · intro h
    unfold readvec
    by_cases h0 : numcol = 0
    · rw [if_pos h0]
    · rw [if_neg h0, if_neg]
      intro he
      rcases h with h | h
      · exact h0 h
      · exact h ⟨vec.length / numcol, by rw [Nat.mul_comm]; exact he⟩

example : 0 < 2 ∧ 2 ∣ [10, 11, 20, 21, 30, 31].length ∧
    (readvec [10, 11, 20, 21, 30, 31] 2 0).map (fun t => (t.1, t.2.1, t.2.2 1 0, t.2.2 2 1)) = some (3, 2, 20, 31) := by
  decide

end Flame.Util
