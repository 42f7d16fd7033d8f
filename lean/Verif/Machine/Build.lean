import Mathlib.Data.List.Sort
import Verif.Machine.Spec

/-! # Machine construction and the lookup maps: auxiliary facts -/

set_option linter.unusedSimpArgs false

namespace Flame.Mach

variable {C X S : Type}

/-! ## sorted maps -/

theorem dropWhile_sorted (m : SMap Key Nat) (h : SMap.Sorted m) (k : Key) :
    m.dropWhile (fun q => q.1 < k) = m.filter (fun q => k ≤ q.1) := by
  induction m with
  | nil => rfl
  | cons q m ih =>
    have hm := (List.pairwise_cons.1 h)
    by_cases hq : q.1 < k
    · have : ¬ k ≤ q.1 := not_le.2 hq
      simp [List.dropWhile_cons, List.filter_cons, hq, ih hm.2]
    · have hk : k ≤ q.1 := not_lt.1 hq
      have : m.filter (fun q => decide (k ≤ q.1)) = m := by
        rw [List.filter_eq_self]
        intro a ha
        have := hm.1 a ha
        simpa using le_of_lt (lt_of_le_of_lt hk this)
      simp [List.dropWhile_cons, List.filter_cons, hq, hk, this]

theorem takeWhile_sorted (m : SMap Key Nat) (h : SMap.Sorted m) (k : Key) :
    m.takeWhile (fun q => ¬ k < q.1) = m.filter (fun q => q.1 ≤ k) := by
  induction m with
  | nil => rfl
  | cons q m ih =>
    have hm := (List.pairwise_cons.1 h)
    by_cases hq : k < q.1
    · have : m.filter (fun q => decide (q.1 ≤ k)) = [] := by
        rw [List.filter_eq_nil_iff]
        intro a ha
        have := hm.1 a ha
        simpa using lt_trans hq this
      simp [List.takeWhile_cons, List.filter_cons, hq, this]
    · have hk : q.1 ≤ k := not_lt.1 hq
      have := ih hm.2
      simp only [not_lt] at this
      simp [List.takeWhile_cons, List.filter_cons, hk, this]

theorem nameRange_eq_filter (m : SMap Key Nat) (h : SMap.Sorted m)
    (hi : ∀ q ∈ m, (ofLex q.1).2 < sizeMod) (n : String) :
    nameRange m n = m.filter (fun q => (ofLex q.1).1 = n) := by
  unfold nameRange
  rw [dropWhile_sorted m h]
  rw [takeWhile_sorted _ (List.Pairwise.filter _ h), List.filter_filter]
  apply List.filter_congr
  intro q hq
  have hlt := hi q hq
  obtain ⟨k, v⟩ := q
  have : (k ≤ toLex (n, sizeMod - 1) ∧ toLex (n, 0) ≤ k) ↔ (ofLex k).1 = n := by
    simp only [Prod.Lex.le_iff, ofLex_toLex]
    constructor
    · rintro ⟨h1 | ⟨h1, _⟩, h2⟩
      · rcases h2 with h2 | ⟨h2, _⟩
        · exact absurd (lt_trans h1 h2) (lt_irrefl _)
        · exact h2.symm
      · exact h1
    · intro e
      refine ⟨Or.inr ⟨e, ?_⟩, Or.inr ⟨e.symm, Nat.zero_le _⟩⟩
      have : (ofLex k).2 < sizeMod := hlt
      omega
  rw [Bool.eq_iff_iff]
  simpa using this

/-! ## the lookup maps after construction -/

/-- The entries added to a lookup map for elements numbered from `i`. -/
def addKeys (f : Elem C X S → String) : Nat → SMap Key Nat → List (Elem C X S) → SMap Key Nat
  | _, m, [] => m
  | i, m, e :: es => addKeys f (i + 1) (m.insertNew (toLex (f e, i)) i) es

theorem addKeys_append (f : Elem C X S → String) (i : Nat) (m : SMap Key Nat)
    (a b : List (Elem C X S)) :
    addKeys f i m (a ++ b) = addKeys f (i + a.length) (addKeys f i m a) b := by
  induction a generalizing i m with
  | nil => simp [addKeys]
  | cons e a ih => simp [addKeys, ih, Nat.add_assoc, Nat.add_comm 1]

/-- A lookup map is exact for an element list. -/
structure Exact (f : Elem C X S → String) (els : List (Elem C X S)) (m : SMap Key Nat) : Prop where
  sorted : SMap.Sorted m
  mem : ∀ k v, (k, v) ∈ m ↔ ∃ e, els[v]? = some e ∧ k = toLex (f e, v)

theorem exact_nil (f : Elem C X S → String) : Exact f [] [] where
  sorted := SMap.sorted_nil
  mem := by simp

theorem Exact.snoc {f : Elem C X S → String} {els : List (Elem C X S)} {m : SMap Key Nat}
    (h : Exact f els m) (e : Elem C X S) :
    Exact f (els ++ [e]) (m.insertNew (toLex (f e, els.length)) els.length) := by
  have hs : SMap.Sorted (m.insertNew (toLex (f e, els.length)) els.length) :=
    SMap.sorted_insertNew _ _ _ h.sorted
  have hnone : m.find (toLex (f e, els.length)) = none := by
    apply SMap.find_eq_none_of_forall_ne
    rintro ⟨k, v⟩ hp hk
    obtain ⟨e', he', rfl⟩ := (h.mem k v).1 hp
    simp only [toLex_inj, Prod.mk.injEq] at hk
    have := List.getElem?_eq_some_iff.1 he'
    obtain ⟨hv, _⟩ := this
    omega
  refine ⟨hs, ?_⟩
  intro k v
  have key : (k, v) ∈ m.insertNew (toLex (f e, els.length)) els.length ↔
      (SMap.find (m.insertNew (toLex (f e, els.length)) els.length) k = some v) :=
    ⟨SMap.mem_find_of_sorted _ hs k v, SMap.find_some_mem _ k v⟩
  have key' : (k, v) ∈ m ↔ m.find k = some v :=
    ⟨SMap.mem_find_of_sorted _ h.sorted k v, SMap.find_some_mem _ k v⟩
  rw [key, SMap.find_insertNew, hnone]
  by_cases hk : k = toLex (f e, els.length)
  · subst hk
    simp only [if_true, Option.getD_none, Option.some.injEq]
    constructor
    · rintro rfl
      exact ⟨e, by simp, rfl⟩
    · rintro ⟨e', he', hk⟩
      simp only [toLex_inj, Prod.mk.injEq] at hk
      exact hk.2
  · rw [if_neg hk, ← key', h.mem]
    constructor
    · rintro ⟨e', he', rfl⟩
      obtain ⟨hv, _⟩ := List.getElem?_eq_some_iff.1 he'
      exact ⟨e', by rw [List.getElem?_append_left hv]; exact he', rfl⟩
    · rintro ⟨e', he', rfl⟩
      rcases lt_trichotomy v els.length with hv | hv | hv
      · rw [List.getElem?_append_left hv] at he'
        exact ⟨e', he', rfl⟩
      · subst hv
        simp at he'
        subst he'
        exact absurd rfl hk
      · rw [List.getElem?_eq_none (by simp; omega)] at he'
        simp at he'

theorem positions_sorted (els : List (Elem C X S)) (p : Elem C X S → Bool) :
    (positions els p).Pairwise (· < ·) :=
  List.Pairwise.filter _ List.pairwise_lt_range

theorem mem_positions (els : List (Elem C X S)) (p : Elem C X S → Bool) (i : Nat) :
    i ∈ positions els p ↔ ∃ e, els[i]? = some e ∧ p e := by
  unfold positions
  simp only [List.mem_filter, List.mem_range, Option.any_eq_true]
  constructor
  · rintro ⟨_, h⟩
    exact h
  · rintro ⟨e, he, hp⟩
    exact ⟨(List.getElem?_eq_some_iff.1 he).1, e, he, hp⟩

theorem Exact.index_lt {f : Elem C X S → String} {els : List (Elem C X S)} {m : SMap Key Nat}
    (h : Exact f els m) (hn : els.length ≤ sizeMod) : ∀ q ∈ m, (ofLex q.1).2 < sizeMod := by
  rintro ⟨k, v⟩ hq
  obtain ⟨e, he, rfl⟩ := (h.mem k v).1 hq
  have := (List.getElem?_eq_some_iff.1 he).1
  simp only [ofLex_toLex]
  omega

theorem Exact.range {f : Elem C X S → String} {els : List (Elem C X S)} {m : SMap Key Nat}
    (h : Exact f els m) (hn : els.length ≤ sizeMod) (n : String) :
    (nameRange m n).map Prod.snd = positions els (fun e => f e = n) := by
  rw [nameRange_eq_filter m h.sorted (h.index_lt hn)]
  apply List.Pairwise.eq_of_mem_iff (r := (· < ·)) _ (positions_sorted _ _)
  · intro v
    rw [mem_positions]
    simp only [List.mem_map, List.mem_filter, decide_eq_true_eq]
    constructor
    · rintro ⟨⟨k, v'⟩, ⟨hm, hk⟩, rfl⟩
      obtain ⟨e, he, rfl⟩ := (h.mem k v').1 hm
      exact ⟨e, he, by simpa using hk⟩
    · rintro ⟨e, he, hp⟩
      exact ⟨(toLex (f e, v), v), ⟨(h.mem _ _).2 ⟨e, he, rfl⟩, by simpa using hp⟩, rfl⟩
  · rw [List.pairwise_map]
    refine List.Pairwise.imp_of_mem ?_ (List.Pairwise.filter _ h.sorted)
    rintro ⟨k, v⟩ ⟨k', v'⟩ ha hb hlt
    simp only [List.mem_filter, decide_eq_true_eq] at ha hb
    obtain ⟨e, he, rfl⟩ := (h.mem k v).1 ha.1
    obtain ⟨e', he', rfl⟩ := (h.mem k' v').1 hb.1
    have h1 : f e = n := ha.2
    have h2 : f e' = n := hb.2
    simp only [Prod.Lex.toLex_lt_toLex] at hlt
    rcases hlt with hlt | ⟨_, hlt⟩
    · rw [h1, h2] at hlt
      exact absurd hlt (lt_irrefl _)
    · exact hlt

theorem Exact.all {f : Elem C X S → String} {els : List (Elem C X S)} {m : SMap Key Nat}
    (h : Exact f els m) : List.Perm (m.map Prod.snd) (List.range els.length) := by
  apply (List.perm_ext_iff_of_nodup _ List.nodup_range).2
  · intro v
    simp only [List.mem_map, List.mem_range]
    constructor
    · rintro ⟨⟨k, v'⟩, hm, rfl⟩
      obtain ⟨e, he, _⟩ := (h.mem k v').1 hm
      exact (List.getElem?_eq_some_iff.1 he).1
    · intro hv
      exact ⟨(toLex (f els[v], v), v), (h.mem _ _).2 ⟨els[v], by simp [hv], rfl⟩, rfl⟩
  · rw [List.Nodup, List.pairwise_map]
    refine List.Pairwise.imp_of_mem ?_ h.sorted
    rintro ⟨k, v⟩ ⟨k', v'⟩ ha hb hlt hv
    simp only at hv
    subst hv
    obtain ⟨e, he, rfl⟩ := (h.mem k v).1 ha
    obtain ⟨e', he', rfl⟩ := (h.mem k' v).1 hb
    rw [he] at he'
    cases he'
    exact lt_irrefl _ hlt

theorem findLoop_eq (nth i : Nat) (l : SMap Key Nat) (h : i ≤ nth) :
    findLoop nth i l = (l.map Prod.snd)[nth - i]? := by
  induction l generalizing i with
  | nil => simp [findLoop]
  | cons q r ih =>
    unfold findLoop
    split
    · subst_vars
      simp
    · have : nth - i = (nth - (i + 1)) + 1 := by omega
      rw [ih (i + 1) (by omega), this]
      simp

/-! ## the construction loop -/

theorem buildAt_ok {cv : CView C} {w : World C X S} {info : Info} {idx : Nat} {ec : C}
    {e : Elem C X S} {ty : String} (h : buildAt cv w info idx ec = .ok (e, ty)) :
    ∃ p k, info.elements.find ty = some p ∧ w.deref p = some k ∧ MadeFrom cv k idx ec e ∧
      e.cls.typeName = ty := by
  unfold buildAt at h
  split at h
  · cases h
  · rename_i etype ht
    split at h
    · cases h
    · rename_i p hp
      split at h
      · cases h
      · rename_i k hk
        split at h
        · cases h
        · cases h
        · rename_i e0 hnew
          split at h
          · cases h
          · rename_i hty
            simp only [ne_eq, Decidable.not_not] at hty
            cases h
            unfold Cls.new at hnew
            split at hnew
            · cases hnew
            · rename_i nm hnm
              split at hnew
              · cases hnew
              · rename_i x hx
                cases hnew
                simp only at hty
                exact ⟨p, k, hp, hk, ⟨rfl, rfl, rfl, hnm, by rw [ht, hty], hx, rfl⟩, hty⟩

theorem buildAt_of_good {cv : CView C} {w : World C X S} {info : Info} {idx : Nat} {ec : C}
    {ty nm : String} {p : Nat} {k : Cls C X S} {x : X}
    (ht : cv.str ec "type" = .ok ty) (hp : info.elements.find ty = some p) (hk : w.deref p = some k)
    (hty : k.typeName = ty) (hnm : cv.str ec "name" = .ok nm) (hx : k.build ec = .ok x) :
    ∃ e, buildAt cv w info idx ec = .ok (e, ty) := by
  unfold buildAt
  simp [ht, hp, hk, Cls.new, hnm, hx, hty]

theorem buildAll_ok {cv : CView C} {w : World C X S} {info : Info} (es : List C) :
    ∀ (idx : Nat) (a r : Acc C X S), a.elems.length = idx →
      Exact Elem.name a.elems a.byName → Exact (fun e => e.cls.typeName) a.elems a.byType →
      buildAll cv w info idx a es = .ok r →
      Exact Elem.name r.elems r.byName ∧ Exact (fun e => e.cls.typeName) r.elems r.byType ∧
      ∃ new, r.elems = a.elems ++ new ∧ new.length = es.length ∧
        ∀ j (hj : j < es.length) e, new[j]? = some e →
          ∃ p k, info.elements.find e.cls.typeName = some p ∧ w.deref p = some k ∧
            MadeFrom cv k (idx + j) es[j] e := by
  induction es with
  | nil =>
    intro idx a r _ hn ht h
    unfold buildAll at h
    cases h
    exact ⟨hn, ht, [], by simp, rfl, by simp⟩
  | cons ec es ih =>
    intro idx a r hl hn ht h
    unfold buildAll at h
    split at h
    · cases h
    · cases h
    · rename_i e ty he
      obtain ⟨p, k, hp, hk, hmade, hty⟩ := buildAt_ok he
      have hidx : e.index = a.elems.length := by rw [hmade.index, hl]
      rw [hidx] at h
      have hn' := hn.snoc e
      have ht' := ht.snoc e
      simp only [hty] at ht'
      obtain ⟨h1, h2, new, h3, h4, h5⟩ := ih (idx + 1) _ r (by simp [hl]) hn' ht' h
      refine ⟨h1, h2, e :: new, by rw [h3]; simp, by simp [h4], ?_⟩
      intro j hj e' hje
      cases j with
      | zero =>
        simp at hje
        subst hje
        exact ⟨p, k, by rw [hty]; exact hp, hk, by simpa using hmade⟩
      | succ j =>
        simp only [List.getElem?_cons_succ] at hje
        simp only [List.length_cons] at hj
        have := h5 j (by omega) e' hje
        rw [show idx + (j + 1) = idx + 1 + j by omega]
        simpa using this

theorem buildAll_good {cv : CView C} {w : World C X S} {info : Info} (es : List C)
    (h : ∀ ec ∈ es, ∃ ty p k nm x, cv.str ec "type" = .ok ty ∧ info.elements.find ty = some p ∧
      w.deref p = some k ∧ k.typeName = ty ∧ cv.str ec "name" = .ok nm ∧ k.build ec = .ok x) :
    ∀ idx a, ∃ r, buildAll cv w info idx a es = .ok r := by
  induction es with
  | nil => intro idx a; exact ⟨a, rfl⟩
  | cons ec es ih =>
    intro idx a
    obtain ⟨ty, p, k, nm, x, h1, h2, h3, h4, h5, h6⟩ := h ec (by simp)
    obtain ⟨e, he⟩ := buildAt_of_good (idx := idx) h1 h2 h3 h4 h5 h6
    unfold buildAll
    rw [he]
    exact ih (fun ec hec => h ec (by simp [hec])) _ _

theorem buildAll_not_ub {cv : CView C} {w : World C X S} {info : Info}
    (hl : ∀ ty p, info.elements.find ty = some p → ∃ k, w.deref p = some k) (es : List C) :
    ∀ idx a, buildAll cv w info idx a es ≠ .ub := by
  induction es with
  | nil => intro idx a h; cases h
  | cons ec es ih =>
    intro idx a
    unfold buildAll
    split
    · simp
    · rename_i he
      unfold buildAt at he
      split at he
      · cases he
      · split at he
        · cases he
        · rename_i p hp
          obtain ⟨k, hk⟩ := hl _ _ hp
          rw [hk] at he
          simp only at he
          split at he
          · cases he
          · cases he
          · split at he <;> cases he
    · exact ih _ _

/-- The invariant of machines: both lookup maps exact, index fields equal positions. -/
structure Machine.Built (m : Machine C X S) : Prop where
  byName : Exact Elem.name m.elems m.byName
  byType : Exact (fun e => e.cls.typeName) m.elems m.byType
  indexed : Indexed m.elems

theorem new_ok {cv : CView C} {w : World C X S} {c : C} {m : Machine C X S}
    (h : Machine.new cv w c = .ok m) :
    m.Built ∧ m.conf = c ∧ cv.str c "sim_type" = .ok m.simtype ∧
      w.infos.find m.simtype = some m.info ∧
      ∃ es, cv.elems c = .ok es ∧ m.elems.length = es.length ∧
        ∀ i (hi : i < es.length) e, m.elems[i]? = some e →
          ∃ p k, m.info.elements.find e.cls.typeName = some p ∧ w.deref p = some k ∧
            MadeFrom cv k i es[i] e := by
  unfold Machine.new at h
  split at h
  · cases h
  · rename_i ty hty
    split at h
    · cases h
    · rename_i info hinfo
      split at h
      · cases h
      · rename_i es hes
        split at h
        · cases h
        · cases h
        · rename_i a ha
          cases h
          obtain ⟨h1, h2, new, h3, h4, h5⟩ :=
            buildAll_ok es 0 _ a rfl (exact_nil _) (exact_nil _) ha
          simp only [List.nil_append] at h3
          have hlen : a.elems.length = es.length := by rw [h3, h4]
          refine ⟨⟨h1, h2, ?_⟩, rfl, hty, hinfo, es, hes, hlen, ?_⟩
          · intro i e hie
            have hi := (List.getElem?_eq_some_iff.1 hie).1
            simp only at hi hie
            rw [hlen] at hi
            rw [h3] at hie
            obtain ⟨p, k, _, _, hm⟩ := h5 i hi e hie
            simpa using hm.index
          · intro i hi e hie
            simp only at hie
            rw [h3] at hie
            simpa using h5 i hi e hie

end Flame.Mach
