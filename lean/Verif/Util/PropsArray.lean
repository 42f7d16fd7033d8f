import Verif.Util.Array
import Verif.Util.NdLemmas

/-!
# C41: arrays are visited, read and written completely
-/

namespace Flame.Util

/-! ### Enumeration -/

/-- **C41.** The loop over the indices of an array with positive dimensions ends after as many rounds as
there are entries; it sees every valid index and no other, none twice, the first dimension fastest. -/
theorem C41_enumerates (lim : List Nat) (h : ∀ l ∈ lim, 0 < l) (n : Nat) (hn : lim.prod ≤ n) :
    (loopN n (NdIter.start lim)).2.done = true ∧
    (∀ idx, idx ∈ (loopN n (NdIter.start lim)).1 ↔ InShape lim idx) ∧
    (loopN n (NdIter.start lim)).1.Pairwise Before ∧ (loopN n (NdIter.start lim)).1.Nodup ∧
    (loopN n (NdIter.start lim)).1.length = lim.prod := by
  obtain ⟨h1, h2, h3, h4⟩ := loop_all h n hn
  refine ⟨h1, h2, h3, ?_, h4⟩
  exact h3.imp (fun {a b} (hab : Before a b) (he : a = b) => before_irrefl b (he ▸ hab))

example : (∀ l ∈ [2, 3, 2], 0 < l) ∧ [2, 3, 2].prod ≤ 12 ∧
    (loopN 12 (NdIter.start [2, 3, 2])).1.take 4 = [[0, 0, 0], [1, 0, 0], [0, 1, 0], [1, 1, 0]] := by decide

/-- **C41.** It is not done earlier. -/
theorem C41_not_early (lim : List Nat) (h : ∀ l ∈ lim, 0 < l) (n : Nat) (hn : n < lim.prod) :
    (loopN n (NdIter.start lim)).2.done = false := by
  obtain ⟨_, _, h3⟩ := loopN_spec lim n _ (start_inShape h)
  rw [start_ordinal] at h3
  cases hd : (loopN n (NdIter.start lim)).2.done with
  | false => rfl
  | true =>
    have := h3.1 hd
    omega

example : (∀ l ∈ [2, 3, 2], 0 < l) ∧ 11 < [2, 3, 2].prod := by decide

/-- **C41** does not extend to arrays with an empty dimension: the loop body still sees one index, which is
not valid. -/
theorem C41_empty_dim_false (lim : List Nat) (h : 0 ∈ lim) (n : Nat) (hn : 0 < n) :
    lim.map (fun _ => 0) ∈ (loopN n (NdIter.start lim)).1 ∧ ∀ j, ¬ InShape lim j := by
  obtain ⟨k, rfl⟩ : ∃ k, n = k + 1 := ⟨n - 1, by omega⟩
  refine ⟨by simp [loopN, NdIter.start], ?_⟩
  intro j hj
  unfold InShape at hj
  induction hj with
  | nil => cases h
  | cons h1 _ ih =>
    rcases List.mem_cons.1 h with h | h
    · omega
    · exact ih h

example : 0 ∈ [3, 0, 2] := by decide

/-- **C41.** `inbounds` accepts exactly the valid indices. -/
theorem C41_inbounds (a : Info) (d : List Nat) (h : d.length = a.dim.length) :
    a.inbounds d = true ↔ InShape a.dim d := by
  unfold Info.inbounds InShape
  generalize a.dim = l at *
  induction d generalizing l with
  | nil => cases l with
    | nil => simp
    | cons _ _ => simp at h
  | cons i d ih => cases l with
    | nil => simp at h
    | cons k l =>
      have := ih l (by simpa using h)
      simp only [List.zipWith_cons_cons, List.all_cons, id, Bool.and_eq_true, decide_eq_true_eq,
        List.forall₂_cons, this]

example : Info.inbounds ⟨0, [2, 3], [8, 16]⟩ [1, 2] = true ∧ Info.inbounds ⟨0, [2, 3], [8, 16]⟩ [2, 1] = false := by
  decide

/-! ### Reading -/

theorem visits_spec {lim : List Nat} (h : ∀ l ∈ lim, 0 < l) :
    (∀ idx, idx ∈ visits lim ↔ InShape lim idx) ∧ (visits lim).Nodup := by
  have := C41_enumerates lim h (rounds lim) (by rw [rounds_pos h])
  exact ⟨this.2.1, this.2.2.2.1⟩

/-- Copying to separate addresses. -/
theorem foldl_put {V : Type} {dim : List Nat} {addr : List Nat → Int} (hs : Separate dim addr)
    (f : List Nat → V) : ∀ (l : List (List Nat)) (m : Mem V), (∀ i ∈ l, InShape dim i) →
      (∀ i, InShape dim i → (i ∈ l ∨ m (addr i) = f i) →
        (l.foldl (fun m idx => m.put (addr idx) (f idx)) m) (addr i) = f i) ∧
      (∀ p, (∀ i ∈ l, addr i ≠ p) → (l.foldl (fun m idx => m.put (addr idx) (f idx)) m) p = m p)
  | [], m, _ => by simp
  | a :: l, m, h => by
    have ha := h a (List.mem_cons_self ..)
    obtain ⟨h1, h2⟩ := foldl_put hs f l (m.put (addr a) (f a)) (fun i hi => h i (List.mem_cons_of_mem _ hi))
    constructor
    · intro i hi hor
      rw [List.foldl_cons]
      refine h1 i hi ?_
      by_cases hia : i = a
      · subst hia
        exact .inr (by simp [Mem.put])
      · rcases hor with hm | hm
        · rcases List.mem_cons.1 hm with rfl | hm
          · exact absurd rfl hia
          · exact .inl hm
        · refine .inr ?_
          have : addr i ≠ addr a := fun he => hia (hs i a hi ha he)
          simp only [Mem.put, if_neg this, hm]
    · intro p hp
      rw [List.foldl_cons, h2 p (fun i hi => hp i (List.mem_cons_of_mem _ hi))]
      have : p ≠ addr a := fun he => hp a (List.mem_cons_self ..) he.symm
      simp only [Mem.put, if_neg this]

theorem offset_cStrides {dim idx : List Nat} (h : InShape dim idx) :
    0 ≤ offset (cStrides dim) idx ∧ offset (cStrides dim) idx < 8 * (dim.prod : Nat) := by
  induction h with
  | nil => simp [cStrides, offset]
  | @cons i l is ls h1 _ ih =>
    simp only [cStrides, offset, List.prod_cons]
    obtain ⟨h2, h3⟩ := ih
    have h4 : (i : Int) + 1 ≤ l := by exact_mod_cast h1
    have h5 : (0 : Int) ≤ (ls.prod : Nat) := by positivity
    constructor
    · positivity
    · push_cast at *
      nlinarith

theorem cStrides_separate (dim : List Nat) (p : Int) :
    Separate dim (fun idx => p + offset (cStrides dim) idx) := by
  intro i j hi hj h
  replace h : offset (cStrides dim) i = offset (cStrides dim) j := by simp only at h; omega
  unfold InShape at hi
  induction hi generalizing j with
  | nil => cases hj; rfl
  | @cons a l is ls h1 h1' ih =>
    cases hj with
    | @cons b _ js _ h2 h3 =>
      simp only [cStrides, offset] at h
      obtain ⟨u1, u2⟩ := offset_cStrides (dim := ls) (idx := is) h1'
      obtain ⟨v1, v2⟩ := offset_cStrides (dim := ls) (idx := js) h3
      have hab : a = b := by
        rcases Nat.lt_trichotomy a b with hc | hc | hc
        · exfalso
          have : (a : Int) + 1 ≤ b := by exact_mod_cast hc
          nlinarith
        · exact hc
        · exfalso
          have : (b : Int) + 1 ≤ a := by exact_mod_cast hc
          nlinarith
      subst hab
      rw [ih js h3 (by omega)]

/-- **C41.** Reading an array attribute gives an array of the same shape with every entry of the state at
its own index, whatever the new array contained before. -/
theorem C41_read {V : Type} (m : Mem V) (info : Info) (junk : Mem V) (h : ∀ l ∈ info.dim, 0 < l)
    (idx : List Nat) (hi : InShape info.dim idx) :
    (getArr m info junk).info.dim = info.dim ∧ (getArr m info junk).entry idx = m (info.raw idx) := by
  refine ⟨rfl, ?_⟩
  obtain ⟨h1, _⟩ := visits_spec h
  exact (foldl_put (cStrides_separate info.dim 0) (fun i => m (info.raw i)) (visits info.dim) junk
    (fun i hi => (h1 i).1 hi)).1 idx hi (.inl ((h1 idx).2 hi))

example : (∀ l ∈ (Info.mk 4096 [7, 3] [8, 56]).dim, 0 < l) ∧ InShape (Info.mk 4096 [7, 3] [8, 56]).dim [6, 2] := by
  refine ⟨by decide, ?_⟩
  unfold InShape
  decide

/-! ### Writing -/

theorem range_put {V : Type} {dim : List Nat} {addr : List Nat → Int} (hs : Separate dim addr)
    (f : List Nat → V) (l : List (List Nat)) (m : Mem V) (hl : ∀ i ∈ l, InShape dim i)
    (hm : ∀ i, InShape dim i → m (addr i) = f i) :
    l.foldl (fun m idx => m.put (addr idx) (f idx)) m = m := by
  obtain ⟨h1, h2⟩ := foldl_put hs f l m hl
  funext p
  by_cases hp : ∃ i ∈ l, addr i = p
  · obtain ⟨i, hi, rfl⟩ := hp
    rw [h1 i (hl i hi) (.inl hi), hm i (hl i hi)]
  · push Not at hp
    exact h2 p hp

/-- The additional copy changes nothing. -/
theorem setExtra_id {V : Type} (m : Mem V) (info : Info) (val : PyArr V) (hs : Separate info.dim info.raw)
    (hm : ∀ i, InShape info.dim i → m (info.raw i) = val.entry i) : setExtra m info val = m := by
  unfold setExtra
  split
  · rename_i n hd
    have := range_put hs val.entry ((List.range n).map (fun i => [i])) m
      (by
        intro i hi
        obtain ⟨j, hj, rfl⟩ := List.mem_map.1 hi
        rw [hd]
        exact .cons (List.mem_range.1 hj) .nil) hm
    rwa [List.foldl_map] at this
  · rename_i n k hd
    have hin : ∀ i < n, (List.range k).foldl (fun m j => m.put (info.raw [i, j]) (val.entry [i, j])) m = m := by
      intro i hi
      have := range_put hs val.entry ((List.range k).map (fun j => [i, j])) m
        (by
          intro x hx
          obtain ⟨j, hj, rfl⟩ := List.mem_map.1 hx
          rw [hd]
          exact .cons hi (.cons (List.mem_range.1 hj) .nil)) hm
      rwa [List.foldl_map] at this
    have : ∀ l : List Nat, (∀ i ∈ l, i < n) → l.foldl (fun m i =>
        (List.range k).foldl (fun m j => m.put (info.raw [i, j]) (val.entry [i, j])) m) m = m := by
      intro l
      induction l with
      | nil => intro _; rfl
      | cons a l ih =>
        intro h
        rw [List.foldl_cons, hin a (h a (List.mem_cons_self ..))]
        exact ih (fun i hi => h i (List.mem_cons_of_mem _ hi))
    exact this _ (fun i hi => List.mem_range.1 hi)
  · rfl

/-- **C41.** Writing an array of another shape is refused and changes nothing.  Writing an array of the same
shape stores every entry at its own index and touches no other memory. -/
theorem C41_write {V : Type} (m : Mem V) (info : Info) (val : PyArr V) (h : ∀ l ∈ info.dim, 0 < l)
    (hs : Separate info.dim info.raw) :
    (val.info.dim ≠ info.dim → setArr m info val = none) ∧
    (val.info.dim = info.dim → ∃ m', setArr m info val = some m' ∧
      (∀ idx, InShape info.dim idx → m' (info.raw idx) = val.entry idx) ∧
      (∀ p, (∀ idx, InShape info.dim idx → info.raw idx ≠ p) → m' p = m p)) := by
  obtain ⟨h1, _⟩ := visits_spec h
  obtain ⟨g1, g2⟩ := foldl_put hs val.entry (visits info.dim) m (fun i hi => (h1 i).1 hi)
  constructor
  · intro hd
    unfold setArr
    by_cases hl : info.dim.length ≠ val.info.dim.length
    · rw [if_pos hl]
    · rw [if_neg hl, if_pos (fun he => hd he.symm)]
  · intro hd
    unfold setArr
    rw [if_neg (by rw [hd]; simp), if_neg (by rw [hd]; simp)]
    have g : ∀ i, InShape info.dim i →
        ((visits info.dim).foldl (fun m idx => m.put (info.raw idx) (val.entry idx)) m) (info.raw i) = val.entry i :=
      fun i hi => g1 i hi (.inl ((h1 i).2 hi))
    refine ⟨_, rfl, ?_, ?_⟩
    · rw [setExtra_id _ info val hs g]
      exact g
    · rw [setExtra_id _ info val hs g]
      intro p hp
      exact g2 p (fun i hi => hp i ((h1 i).1 hi))

/-- The columns of a state with three charge states, as laid out by a moment state: 7 by 3, stride 8 in the
first dimension and 96 in the second. -/
example : Separate [7, 3] (Info.mk 4096 [7, 3] [8, 96]).raw := by
  intro i j hi hj h
  unfold InShape at hi hj
  cases hi with
  | cons a1 hi => cases hi with
    | cons a2 hi => cases hi with
      | nil => cases hj with
        | cons b1 hj => cases hj with
          | cons b2 hj => cases hj with
            | nil =>
              simp only [Info.raw, offset] at h
              congr 1
              · omega
              · congr 1
                omega

/-- **C41.** Writing and then reading gives back what was written. -/
theorem C41_write_read {V : Type} (m m' : Mem V) (info : Info) (val : PyArr V) (junk : Mem V)
    (h : ∀ l ∈ info.dim, 0 < l) (hs : Separate info.dim info.raw) (hw : setArr m info val = some m') :
    (getArr m' info junk).info.dim = val.info.dim ∧
    ∀ idx, InShape info.dim idx → (getArr m' info junk).entry idx = val.entry idx := by
  obtain ⟨h1, h2⟩ := C41_write m info val h hs
  by_cases hd : val.info.dim = info.dim
  · obtain ⟨m'', g1, g2, _⟩ := h2 hd
    rw [hw] at g1
    injection g1 with g1
    subst g1
    refine ⟨hd.symm, ?_⟩
    intro idx hi
    rw [(C41_read m' info junk h idx hi).2, g2 idx hi]
  · rw [h1 hd] at hw
    cases hw

/-- A case: a vector of three entries spread over memory. -/
example : ∃ m', setArr (fun _ => (0 : Nat)) ⟨100, [3], [24]⟩ ⟨⟨0, [3], [-8]⟩, fun p => p.natAbs⟩ = some m' ∧
    (List.range 3).map (fun i => m' (100 + 24 * i)) = [0, 8, 16] := ⟨_, rfl, by decide⟩

/-! ### Scalars -/

/-- **C100.** Scalars: an assignment ends without an error exactly if the value given can be stored, and then it is what is stored; a
value of an unusable type is refused and the old value stays.  Missing: numbers that do not fit are refused as well, but change
the attribute (`C100_refused_false`). -/
theorem C100_scalar_partial {F : Type} (ofInt : Int → Option F) (minusOne : F) (trunc : F → Option Nat) :
    (∀ old v x, setDouble ofInt minusOne old v = .done x false ↔ v = .float x ∨ ∃ n, v = .int n ∧ ofInt n = some x) ∧
    (∀ old, setDouble ofInt minusOne old .other = .done old true) ∧
    (∀ old v n, setSizet trunc old v = .done n false ↔ (∃ x, v = .float x ∧ trunc x = some n) ∨ (v = .int n ∧ n < 2 ^ 64)) ∧
    (∀ old, setSizet trunc old .other = .done old true) := by
  refine ⟨?_, fun _ => rfl, ?_, fun _ => rfl⟩
  · intro old v x
    cases v with
    | float y => simp [setDouble]
    | int n =>
      simp only [setDouble]
      cases h : ofInt n with
      | none => simp [h]
      | some y => simp [h]
    | other => simp [setDouble]
    | deleted => simp [setDouble]
  · intro old v n
    cases v with
    | float y =>
      simp only [setSizet]
      cases h : trunc y with
      | none => simp [h]
      | some k => simp [h]
    | int k =>
      simp only [setSizet]
      by_cases h : 0 ≤ k ∧ k < 2 ^ 64
      · rw [if_pos h]
        simp
        omega
      · rw [if_neg h]
        simp
        omega
    | other => simp [setSizet]
    | deleted => simp [setSizet]

example : setSizet (fun x : Nat => some x) 5 (.int (7 : Nat)) = .done 7 false := by decide

/-- C100 in full is false: a refused assignment can still change the state: an integer that does not fit is stored as the largest
value before the error is raised; deleting an attribute is undefined. -/
theorem C100_refused_false :
    (∀ (F : Type) (trunc : F → Option Nat) (old : Nat), setSizet trunc old (.int (-1)) = .done (2 ^ 64 - 1) true) ∧
    (∀ (F : Type) (ofInt : Int → Option F) (minusOne old : F) (n : Int), ofInt n = none →
      setDouble ofInt minusOne old (.int n) = .done minusOne true) ∧
    (∀ (F : Type) (ofInt : Int → Option F) (minusOne old : F), setDouble ofInt minusOne old .deleted = .ub) ∧
    (∀ (F : Type) (trunc : F → Option Nat) (old : Nat), setSizet trunc old .deleted = .ub) := by
  exact ⟨fun _ _ _ => rfl, fun _ _ _ _ n h => by simp only [setDouble, h], fun _ _ _ _ => rfl, fun _ _ _ => rfl⟩

end Flame.Util
