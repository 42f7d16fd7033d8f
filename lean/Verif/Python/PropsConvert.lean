import Verif.Python.ConvertLemmas

/-!
# C50: configurations and Python objects
-/

namespace Flame.Python

open Flame.Glps (Name CV Cf)

variable {N : Type}

/-- **C50.** A list of pairs with distinct keys, of at most four levels, is accepted and comes back with the same entries
ordered by key, at every level. -/
theorem C50_roundtrip (its : List (Py N)) (h : Good 4 its) :
    ∃ c out, list2conf (.list its) = .ok c ∧ cfPy c = .list out ∧ Same 4 its out := by
  obtain ⟨c, out, h1, h2, h3, _⟩ := list_ok 4 its [] h
  exact ⟨c, out, h1, h2, h3⟩

theorem map_pair_inj : ∀ {a b : List (Name × Py N)}, a.map (fun p => pair p.1 p.2) = b.map (fun p => pair p.1 p.2) → a = b
  | [], [], _ => rfl
  | [], _ :: _, h => by simp at h
  | _ :: _, [], h => by simp at h
  | (k, v) :: a, (k', v') :: b, h => by
    simp only [List.map_cons, List.cons.injEq, pair, Py.tuple.injEq, Py.str.injEq, and_true] at h
    obtain ⟨⟨rfl, rfl⟩, h⟩ := h
    rw [map_pair_inj h]

/-- What comes back can be converted again. -/
theorem same_good : ∀ (n : Nat) (its out : List (Py N)), Same n its out → Good n its → Good n out
  | 0, _, _, h, _ => h.elim
  | n + 1, its, out, h, hg => by
    obtain ⟨ents, ents', rfl, rfl, hs, mid, hp, hf⟩ := h
    obtain ⟨ents2, he, hn, h0, hv⟩ := hg
    cases map_pair_inj he
    refine ⟨ents', rfl, ?_, ?_, ?_⟩
    · rw [List.nodup_iff_pairwise_ne, List.pairwise_map]
      exact hs.imp (fun h => ne_of_lt h)
    · intro p hp'
      have hm := hp.mem_iff.1 hp'
      clear hp hn hv
      induction hf with
      | nil => cases hm
      | @cons a b l1 l2 hab _ ih =>
        rcases List.mem_cons.1 hm with rfl | hm
        · rw [← hab.1]; exact h0 a (List.mem_cons_self ..)
        · exact ih rfl (fun p hp => h0 p (List.mem_cons_of_mem _ hp)) hm
    · intro p hp'
      have hm := hp.mem_iff.1 hp'
      clear hp hn h0
      induction hf with
      | nil => cases hm
      | @cons a b l1 l2 hab _ ih =>
        rcases List.mem_cons.1 hm with rfl | hm
        · have hga := hv a (List.mem_cons_self ..)
          rcases hab.2 with ⟨x, _, h⟩ | ⟨sh, xs, _, _, h⟩ | ⟨s, _, h1, h⟩ | ⟨l, l', h1, h, hfl⟩
          · exact .inl ⟨x, h⟩
          · exact .inr (.inl ⟨_, _, h, by simp⟩)
          · exact .inr (.inr (.inl ⟨s, h, h1⟩))
          · refine .inr (.inr (.inr ⟨l', .inl h, ?_⟩))
            have hgl : ∀ e ∈ l, ∃ its, IsElem e its ∧ Good n its := by
              rcases hga with ⟨x, h'⟩ | ⟨sh, xs, h', _⟩ | ⟨s, h', _⟩ | ⟨l2, h', hh⟩
              · rcases h1 with h1 | h1 <;> rw [h'] at h1 <;> cases h1
              · rcases h1 with h1 | h1 <;> rw [h'] at h1 <;> cases h1
              · rcases h1 with h1 | h1 <;> rw [h'] at h1 <;> cases h1
              · have : l2 = l := by
                  rcases h1 with h1 | h1 <;> rcases h' with h' | h' <;> rw [h1] at h' <;> cases h' <;> rfl
                subst this; exact hh
            clear h h1 hga ih hab
            induction hfl with
            | nil => intro e he; cases he
            | @cons e e' m1 m2 hee _ ihl =>
              intro e2 he2
              rcases List.mem_cons.1 he2 with rfl | he2
              · obtain ⟨its, its', g1, g2, g3⟩ := hee
                obtain ⟨its2, g4, g5⟩ := hgl e (List.mem_cons_self ..)
                have := elemItems_of g4
                rw [elemItems_of g1] at this
                cases this
                exact ⟨its', .inl g2, same_good n its its' g3 g5⟩
              · exact ihl (fun e he => hgl e (List.mem_cons_of_mem _ he)) e2 he2
        · exact ih rfl (fun p hp => hv p (List.mem_cons_of_mem _ hp)) hm

/-- What comes back comes back as it is. -/
theorem same_twice : ∀ (n : Nat) (its out out' : List (Py N)), Same n its out → Same n out out' → out' = out
  | 0, _, _, _, h, _ => h.elim
  | n + 1, its, out, out', h, h' => by
    obtain ⟨ents, ents', rfl, rfl, hs, mid, hp, hf⟩ := h
    obtain ⟨e2, e2', he, rfl, hs2, mid2, hp2, hf2⟩ := h'
    cases map_pair_inj he
    have hval : ∀ v b b' : Py N, SameVal (Same n) v b → SameVal (Same n) b b' → b' = b := by
      rintro v b b' (⟨x, _, rfl⟩ | ⟨sh, xs, _, _, rfl⟩ | ⟨s, _, _, rfl⟩ | ⟨l, l', hvl, rfl, hl⟩) h2
      · rcases h2 with ⟨y, e, rfl⟩ | ⟨_, _, e, _⟩ | ⟨_, e, _⟩ | ⟨_, _, e | e, _⟩ <;> cases e
        rfl
      · rcases h2 with ⟨y, e, rfl⟩ | ⟨_, _, e, _, rfl⟩ | ⟨_, e, _⟩ | ⟨_, _, e | e, _⟩ <;> cases e
        rfl
      · rcases h2 with ⟨y, e, rfl⟩ | ⟨_, _, e, _⟩ | ⟨_, e, _, rfl⟩ | ⟨_, _, e | e, _⟩ <;> cases e
        rfl
      · rcases h2 with ⟨y, e, rfl⟩ | ⟨_, _, e, _⟩ | ⟨_, e, _⟩ | ⟨m, m', e | e, rfl, hm⟩ <;> cases e
        congr 1
        clear hf hf2 he hvl
        induction hl generalizing m' with
        | nil => cases hm; rfl
        | @cons a b l1 l2 hab _ ih =>
          cases hm with
          | @cons _ b' _ m2 hbb hm =>
            obtain ⟨i1, i2, _, rfl, g3⟩ := hab
            obtain ⟨j1, j2, g4, rfl, g6⟩ := hbb
            have : j1 = i2 := by
              have := elemItems_of g4
              simpa [elemItems] using this.symm
            subst this
            rw [same_twice n i1 _ j2 g3 g6, ih m2 hm]
    have hback : ∀ p ∈ ents', ∃ v, SameVal (Same n) v p.2 := by
      intro p hp'
      have hm := hp.mem_iff.1 hp'
      clear hp hp2 hf2 he hs hval
      induction hf with
      | nil => cases hm
      | @cons a b l1 l2 hab _ ih =>
        rcases List.mem_cons.1 hm with rfl | hm
        · exact ⟨_, hab.2⟩
        · exact ih hm
    have hmid : mid2 = ents' := by
      clear hp hp2 hf hs he
      induction hf2 with
      | nil => rfl
      | @cons a b l1 l2 hab _ ih =>
        obtain ⟨v, hv⟩ := hback a (List.mem_cons_self ..)
        obtain ⟨a1, a2⟩ := a
        obtain ⟨b1, b2⟩ := b
        obtain ⟨h1, h2⟩ := hab
        simp only at h1 h2 hv
        rw [ih (fun p hp => hback p (List.mem_cons_of_mem _ hp)), h1, hval v a2 b2 hv h2]
    subst hmid
    have : e2' = mid2 := hp2.eq_of_pairwise (fun a b _ _ h1 h2 => absurd h1 (lt_asymm h2)) hs2 hs
    rw [this]

/-- **C50.** Converting what came back once more gives the very same list. -/
theorem C50_stable (its : List (Py N)) (h : Good 4 its) :
    ∃ c c', list2conf (.list its) = .ok c ∧ list2conf (cfPy c) = .ok c' ∧ cfPy c' = cfPy c := by
  obtain ⟨c, out, h1, h2, h3⟩ := C50_roundtrip its h
  obtain ⟨c', out', g1, g2, g3⟩ := C50_roundtrip out (same_good 4 its out h3 h)
  refine ⟨c, c', h1, by rw [h2, g1], ?_⟩
  rw [g2, h2, same_twice 4 its out out' h3 g3]

/-- Later items do not touch the names they do not mention, and what is inherited stays. -/
theorem items_other (sub : List (Py N) → Cf N → Except Err (Cf N)) :
    ∀ (its : List (Py N)) (c c' : Cf N), convItems sub its c = .ok c' →
      c'.inh = c.inh ∧ ∀ q, (∀ v, pair q v ∉ its) → c'.own.find q = c.own.find q
  | [], c, c', h => by
    simp only [convItems, Except.ok.injEq] at h
    subst h
    exact ⟨rfl, fun _ _ => rfl⟩
  | it :: its, c, c', h => by
    rw [convItems] at h
    split at h
    · cases h
    · rename_i k v hk
      split at h
      · cases h
      · rename_i w hw
        obtain ⟨h1, h2⟩ := items_other sub its _ c' h
        refine ⟨h1, fun q hq => ?_⟩
        rw [h2 q (fun v hv => hq v (List.mem_cons_of_mem _ hv))]
        have hne : q ≠ k := by
          intro he
          subst he
          exact hq v (by rw [(parseItem_some hk).1]; exact List.mem_cons_self ..)
        exact SMap.find_insert_ne _ _ hne

theorem items_append (sub : List (Py N) → Cf N → Except Err (Cf N)) :
    ∀ (a b : List (Py N)) (c c' : Cf N), convItems sub (a ++ b) c = .ok c' →
      ∃ m, convItems sub a c = .ok m ∧ convItems sub b m = .ok c'
  | [], b, c, c', h => ⟨c, rfl, h⟩
  | it :: a, b, c, c', h => by
    rw [List.cons_append, convItems] at h
    rw [convItems]
    split at h
    · cases h
    · split at h
      · cases h
      · exact items_append sub a b _ c' h

theorem elems_each (sub : List (Py N) → Cf N → Except Err (Cf N)) (c : Cf N) :
    ∀ (l : List (Py N)) (cs : List (Cf N)), convElems sub c l = .ok cs →
      List.Forall₂ (fun e r => ∃ its, IsElem e its ∧ sub its (newScope c) = .ok r) l cs
  | [], cs, h => by
    simp only [convElems, Except.ok.injEq] at h
    subst h
    exact .nil
  | e :: l, cs, h => by
    rw [convElems] at h
    split at h
    · cases h
    · rename_i its he
      split at h
      · cases h
      · rename_i r hr
        split at h
        · cases h
        · rename_i rs hrs
          cases h
          exact .cons ⟨its, isElem_of he, hr⟩ (elems_each sub c l rs hrs)

/-- **C50.** The last value given for a name is the one found, also if the name was given before or is inherited; a name
not given is found in the enclosing scope. -/
theorem C50_values (n : Nat) (its : List (Py N)) (c0 c : Cf N) (h : list2Config n its c0 = .ok c) :
    (∀ q, (∀ v, pair q v ∉ its) → c.look q = c0.look q) ∧
    ∀ a k v b, its = a ++ pair k v :: b → (∀ v', pair k v' ∉ b) →
      (∀ x, v = .num x → c.look k = some (.num x)) ∧
      (∀ s, v = .str s → '\x00' ∉ s → c.look k = some (.str s)) ∧
      (∀ sh xs, v = .arr sh xs → c.look k = some (.vec xs)) := by
  cases n with
  | zero => cases h
  | succ n =>
    rw [list2Config] at h
    constructor
    · intro q hq
      obtain ⟨h1, h2⟩ := items_other _ its c0 c h
      simp only [Cf.look, h2 q hq, h1]
    · intro a k v b he hb
      subst he
      obtain ⟨m, _, h2⟩ := items_append _ a _ c0 c h
      rw [convItems] at h2
      split at h2
      · cases h2
      · rename_i k' v' hk
        obtain ⟨e1, _⟩ := parseItem_some hk
        simp only [pair, Py.tuple.injEq, List.cons.injEq, Py.str.injEq, and_true] at e1
        obtain ⟨rfl, rfl⟩ := e1
        split at h2
        · cases h2
        · rename_i w hw
          obtain ⟨h3, h4⟩ := items_other _ b _ c h2
          have hl : c.look k = some w := by
            have h5 : c.own.find k = some w := by rw [h4 k hb]; exact SMap.find_insert_self ..
            simp only [Cf.look, h5]
          rw [hl]
          refine ⟨?_, ?_, ?_⟩
          · rintro x rfl
            simp only [convVal, Except.ok.injEq] at hw
            rw [hw]
          · rintro s rfl hs
            simp only [convVal, Except.ok.injEq, cstr_id hs] at hw
            rw [hw]
          · rintro sh xs rfl
            simp only [convVal] at hw
            split at hw
            · cases hw
            · cases hw; rfl

/-- **C50.** The elements in a list see their own values first and otherwise exactly what was visible in the enclosing
scope at that point: the values given before the list, and not the later ones. -/
theorem C50_scope (n : Nat) (its : List (Py N)) (c0 c : Cf N) (h : list2Config n its c0 = .ok c)
    (a : List (Py N)) (k : Name) (v : Py N) (l : List (Py N)) (b : List (Py N)) (he : its = a ++ pair k v :: b)
    (hv : v = .list l ∨ v = .tuple l) (hb : ∀ v', pair k v' ∉ b) :
    ∃ before es, list2Config n a c0 = .ok before ∧ c.look k = some (.cfgs es) ∧
      List.Forall₂ (fun e r => ∃ its', IsElem e its' ∧
        (∃ c1, list2Config (n - 1) its' c1 = .ok r ∧ c1.own = [] ∧ ∀ q, c1.look q = before.look q) ∧
        ∀ q, (∀ v', pair q v' ∉ its') → r.own.find q = none ∧ r.look q = before.look q) l es := by
  cases n with
  | zero => cases h
  | succ n =>
    rw [list2Config] at h
    subst he
    obtain ⟨m, h1, h2⟩ := items_append _ a _ c0 c h
    rw [convItems] at h2
    split at h2
    · cases h2
    · rename_i k' v' hk
      obtain ⟨e1, _⟩ := parseItem_some hk
      simp only [pair, Py.tuple.injEq, List.cons.injEq, Py.str.injEq, and_true] at e1
      obtain ⟨rfl, rfl⟩ := e1
      split at h2
      · cases h2
      · rename_i w hw
        obtain ⟨h3, h4⟩ := items_other _ b _ c h2
        have hl : c.look k = some w := by
          have h5 : c.own.find k = some w := by rw [h4 k hb]; exact SMap.find_insert_self ..
          simp only [Cf.look, h5]
        have hw' : (convElems (list2Config n) m l).map CV.cfgs = .ok w := by
          rcases hv with rfl | rfl <;> exact hw
        cases hes : convElems (list2Config n) m l with
        | error x => rw [hes] at hw'; cases hw'
        | ok es =>
          rw [hes] at hw'
          cases hw'
          refine ⟨m, es, h1, hl, (elems_each _ m l es hes).imp ?_⟩
          rintro e r ⟨its', g1, g2⟩
          refine ⟨its', g1, ⟨newScope m, g2, rfl, look_newScope m⟩, fun q hq => ⟨?_, ?_⟩⟩
          · cases n with
            | zero => cases g2
            | succ n =>
              rw [list2Config] at g2
              rw [(items_other _ its' _ r g2).2 q hq]
              rfl
          · rw [(C50_values n its' _ r g2).1 q hq, look_newScope]

/-- Structures with more than `n` levels are rejected when `n` levels are left. -/
theorem depth_levels (n : Nat) (its : List (Py N)) (c c' : Cf N) (h : Nested n its) : list2Config n its c ≠ .ok c' := by
  induction n generalizing its c c' with
  | zero => intro h'; cases h'
  | succ n ih =>
    intro hc
    rw [list2Config] at hc
    obtain ⟨k, l, e, its', h1, h2, h3, h4⟩ := h
    obtain ⟨v, hv, hm⟩ : ∃ v, (v = Py.list l ∨ v = .tuple l) ∧ pair k v ∈ its := by
      rcases h1 with h1 | h1
      · exact ⟨_, .inl rfl, h1⟩
      · exact ⟨_, .inr rfl, h1⟩
    obtain ⟨a, b, rfl⟩ := List.append_of_mem hm
    obtain ⟨m, g1, g2⟩ := items_append _ a _ c c' hc
    rw [convItems] at g2
    split at g2
    · cases g2
    · rename_i k' v' hk
      obtain ⟨e1, _⟩ := parseItem_some hk
      simp only [pair, Py.tuple.injEq, List.cons.injEq, Py.str.injEq, and_true] at e1
      obtain ⟨rfl, rfl⟩ := e1
      split at g2
      · cases g2
      · rename_i w hw
        have hw' : (convElems (list2Config n) m l).map CV.cfgs = .ok w := by
          rcases hv with rfl | rfl <;> exact hw
        cases hes : convElems (list2Config n) m l with
        | error x => rw [hes] at hw'; cases hw'
        | ok es =>
          have hf := elems_each _ m l es hes
          have : ∃ r its'', IsElem e its'' ∧ list2Config n its'' (newScope m) = .ok r := by
            clear hes hw' hv hm hw h1
            induction hf with
            | nil => cases h2
            | cons hab _ ihf =>
              rcases List.mem_cons.1 h2 with rfl | h2
              · obtain ⟨its'', g3, g4⟩ := hab
                exact ⟨_, its'', g3, g4⟩
              · exact ihf h2
          obtain ⟨r, its'', g3, g4⟩ := this
          have := elemItems_of g3
          rw [elemItems_of h3] at this
          cases this
          exact ih its' _ r h4 g4

/-- **C50.** Structures of more than four levels are rejected. -/
theorem C50_depth (its : List (Py N)) (h : Nested 4 its) (c : Cf N) : list2conf (.list its) ≠ .ok c :=
  depth_levels 4 its _ c h

/-- **C50.** What is not of the documented form is rejected: an item that is no pair with a text as key, and values such as
`None`, dictionaries, arrays of more than two dimensions, or lists with anything but dictionaries and lists in them. -/
theorem C50_rejected (n : Nat) (its : List (Py N)) (c c' : Cf N) (it : Py N) (hm : it ∈ its)
    (h : (∀ k v, it ≠ pair k v) ∨ ∃ k v, it = pair k v ∧ (v = .other ∨ v = .badNum ∨ v = .badArr ∨ (∃ d, v = .dict d) ∨
      (∃ sh xs, v = .arr sh xs ∧ 2 < sh.length) ∨
      ∃ l e, (v = .list l ∨ v = .tuple l) ∧ e ∈ l ∧ ∀ its', ¬ IsElem e its')) :
    list2Config n its c ≠ .ok c' := by
  intro hc
  cases n with
  | zero => cases hc
  | succ n =>
    rw [list2Config] at hc
    obtain ⟨a, b, rfl⟩ := List.append_of_mem hm
    obtain ⟨m, g1, g2⟩ := items_append _ a _ c c' hc
    rw [convItems] at g2
    split at g2
    · cases g2
    · rename_i k' v' hk
      obtain ⟨e1, _⟩ := parseItem_some hk
      rcases h with h | ⟨k, v, rfl, h⟩
      · exact h _ _ e1
      · simp only [pair, Py.tuple.injEq, List.cons.injEq, Py.str.injEq, and_true] at e1
        obtain ⟨rfl, rfl⟩ := e1
        split at g2
        · cases g2
        · rename_i w hw
          rcases h with rfl | rfl | rfl | ⟨d, rfl⟩ | ⟨sh, xs, rfl, h⟩ | ⟨l, e, hv, hel, hno⟩
          · cases hw
          · cases hw
          · cases hw
          · cases hw
          · rw [convVal, if_pos h] at hw
            cases hw
          · have hw' : (convElems (list2Config n) m l).map CV.cfgs = .ok w := by
              rcases hv with rfl | rfl <;> exact hw
            cases hes : convElems (list2Config n) m l with
            | error x => rw [hes] at hw'; cases hw'
            | ok es =>
              have hf := elems_each _ m l es hes
              clear hes hw' hv hm hw
              induction hf with
              | nil => cases hel
              | cons hab _ ihf =>
                rcases List.mem_cons.1 hel with rfl | hel
                · obtain ⟨its'', g3, _⟩ := hab
                  exact hno _ g3
                · exact ihf hel

/-! ### Examples -/

/-- `[("L", 1.0), ("elements", [{"name": "a"}, [("x", array([[1,2],[3,4]]))]), ("B", 2.0)]` -/
def exItems : List (Py Nat) :=
  [pair "L".toList (.num 1),
   pair "elements".toList (.list [.dict [(.str "name".toList, .str "a".toList)], .list [pair "x".toList (.arr [2, 2] [1, 2, 3, 4])]]),
   pair "B".toList (.num 2)]

/-- Example for `C50_roundtrip`. -/
example : Good 4 exItems := by
  refine ⟨[("L".toList, .num 1), ("elements".toList, .list [.dict [(.str "name".toList, .str "a".toList)],
    .list [pair "x".toList (.arr [2, 2] [1, 2, 3, 4])]]), ("B".toList, .num 2)], rfl, by decide, ?_, ?_⟩
  · intro p hp
    simp only [List.mem_cons, List.not_mem_nil, or_false] at hp
    rcases hp with rfl | rfl | rfl <;> decide
  · intro p hp
    simp only [List.mem_cons, List.not_mem_nil, or_false] at hp
    rcases hp with rfl | rfl | rfl
    · exact .inl ⟨1, rfl⟩
    · refine .inr (.inr (.inr ⟨_, .inl rfl, ?_⟩))
      intro e he
      simp only [List.mem_cons, List.not_mem_nil, or_false] at he
      rcases he with rfl | rfl
      · refine ⟨_, .inr ⟨_, rfl, rfl⟩, [("name".toList, .str "a".toList)], rfl, by decide, ?_, ?_⟩
        · intro p hp
          simp only [List.mem_cons, List.not_mem_nil, or_false] at hp
          subst hp; decide
        · intro p hp
          simp only [List.mem_cons, List.not_mem_nil, or_false] at hp
          subst hp
          exact .inr (.inr (.inl ⟨_, rfl, by decide⟩))
      · refine ⟨_, .inl rfl, [("x".toList, .arr [2, 2] [1, 2, 3, 4])], rfl, by decide, ?_, ?_⟩
        · intro p hp
          simp only [List.mem_cons, List.not_mem_nil, or_false] at hp
          subst hp; decide
        · intro p hp
          simp only [List.mem_cons, List.not_mem_nil, or_false] at hp
          subst hp
          exact .inr (.inl ⟨_, _, rfl, by decide⟩)
    · exact .inl ⟨2, rfl⟩

/-- Example for `C50_values` and `C50_scope`: in the elements `L` is visible and the later `B` is not. -/
example : (match list2Config 4 exItems (.mk [] []) with
    | .ok c =>
      match c.look "elements".toList with
      | some (.cfgs [e, _]) => (e.look "L".toList).isSome && !(e.look "B".toList).isSome && (c.look "B".toList).isSome
      | _ => false
    | .error _ => false) = true := by decide +kernel

/-- Example for `C50_depth`: five levels. -/
example : Nested 4 [pair "a".toList (.list [.list [pair "b".toList (.list [.list [pair "c".toList (.list [.list
    [pair "d".toList (.list [.list ([] : List (Py Nat))])]])]])]])] := by
  refine ⟨"a".toList, _, _, _, .inl (List.mem_singleton.2 rfl), List.mem_singleton.2 rfl, .inl rfl, ?_⟩
  refine ⟨"b".toList, _, _, _, .inl (List.mem_singleton.2 rfl), List.mem_singleton.2 rfl, .inl rfl, ?_⟩
  refine ⟨"c".toList, _, _, _, .inl (List.mem_singleton.2 rfl), List.mem_singleton.2 rfl, .inl rfl, ?_⟩
  exact ⟨"d".toList, _, _, _, .inl (List.mem_singleton.2 rfl), List.mem_singleton.2 rfl, .inl rfl, trivial⟩

/-- Example for `C50_rejected`: a list of numbers as value. -/
example : ∃ k v, pair "x".toList (.list [.num 1, .num 2]) = (pair k v : Py Nat) ∧ ∃ l e, (v = .list l ∨ v = .tuple l) ∧ e ∈ l ∧
    ∀ its', ¬ IsElem e its' :=
  ⟨_, _, rfl, _, .num 1, .inl rfl, List.mem_cons_self .., by rintro its' (h | ⟨d, h, _⟩) <;> cases h⟩

end Flame.Python
