import Mathlib.Order.Defs.LinearOrder
import Mathlib.Data.String.Basic

/-!
# Sorted association lists: the model of `std::map`

`std::map<K,V>` (used e.g. for `Config::values_t`, /repo/src/flame/config.h:79) is modelled by a
list of key/value pairs.  All functions keep the list sorted by key without duplicates, which is
the iteration order of `std::map`.  Simplification: keys are compared with the `<` of the key type;
for `std::string` the C++ order is by bytes, the Lean order by code points (equal on ASCII).
-/

namespace Flame

/-- `std::map<K,V>` as a key-sorted association list (/repo/src/flame/config.h:79). -/
abbrev SMap (K : Type) (V : Type) := List (K × V)

namespace SMap

variable {K V W : Type} [LinearOrder K]

/-- `map.find(key)` (/repo/src/config.cpp:42, /repo/src/flame/util.h:23-32). -/
def find : SMap K V → K → Option V
  | [], _ => none
  | (k, v) :: m, x => if x = k then some v else find m x

/-- `map[key] = value` (/repo/src/config.cpp:72): replace or insert, order kept. -/
def insert : SMap K V → K → V → SMap K V
  | [], x, v => [(x, v)]
  | (k, w) :: m, x, v =>
    if x = k then (x, v) :: m
    else if x < k then (x, v) :: (k, w) :: m
    else (k, w) :: insert m x v

/-- `map.insert(pair)` (/repo/src/config.cpp:86): does not overwrite an existing key. -/
def insertNew (m : SMap K V) (x : K) (v : V) : SMap K V :=
  if (m.find x).isSome then m else m.insert x v

/-- `map.insert(other.begin(), other.end())` (/repo/src/config.cpp:101, 119):
adds the entries of `o` whose keys are absent. -/
def merge (m o : SMap K V) : SMap K V := o.foldl (fun m p => m.insertNew p.1 p.2) m

/-- `map.erase(key)`. -/
def erase (m : SMap K V) (x : K) : SMap K V := m.filter (fun p => p.1 ≠ x)

/-- The class invariant of `std::map`: strictly increasing keys. -/
def Sorted (m : SMap K V) : Prop := m.Pairwise (fun a b => a.1 < b.1)

/-- The keys in iteration order. -/
def keys (m : SMap K V) : List K := m.map Prod.fst

@[simp] theorem find_nil (x : K) : find ([] : SMap K V) x = none := rfl

theorem find_cons (k : K) (v : V) (m : SMap K V) (x : K) :
    find ((k, v) :: m) x = if x = k then some v else find m x := rfl

theorem find_insert (m : SMap K V) (x : K) (v : V) (y : K) :
    find (insert m x v) y = if y = x then some v else find m y := by
  induction m with
  | nil => simp [insert, find]
  | cons p m ih =>
    obtain ⟨k, w⟩ := p
    unfold insert
    split
    · subst_vars
      simp only [find_cons]
      split <;> simp_all
    · split
      · simp only [find_cons]
      · simp only [find_cons, ih]
        split <;> split <;> simp_all

@[simp] theorem find_insert_self (m : SMap K V) (x : K) (v : V) :
    find (insert m x v) x = some v := by simp [find_insert]

theorem find_insert_ne (m : SMap K V) {x y : K} (v : V) (h : y ≠ x) :
    find (insert m x v) y = find m y := by simp [find_insert, h]

theorem find_insertNew (m : SMap K V) (x : K) (v : V) (y : K) :
    find (insertNew m x v) y = if y = x then some ((find m x).getD v) else find m y := by
  unfold insertNew
  split
  · rename_i h
    obtain ⟨w, hw⟩ := Option.isSome_iff_exists.mp h
    split
    · subst_vars; simp [hw]
    · rfl
  · rename_i h
    have h' : find m x = none := by simpa using h
    simp [find_insert, h']

theorem find_merge (m o : SMap K V) (y : K) :
    find (merge m o) y = (find m y).or (find o y) := by
  unfold merge
  induction o generalizing m with
  | nil => simp
  | cons p o ih =>
    obtain ⟨k, v⟩ := p
    simp only [List.foldl_cons, ih, find_insertNew, find_cons]
    by_cases h : y = k
    · subst h; cases h2 : find m y <;> simp
    · simp [h]

theorem mem_keys_insert (m : SMap K V) (x : K) (v : V) (p : K × V)
    (h : p ∈ insert m x v) : p.1 = x ∨ p ∈ m := by
  induction m with
  | nil => simp [insert] at h; simp [h]
  | cons q m ih =>
    obtain ⟨k, w⟩ := q
    unfold insert at h
    split at h
    · simp only [List.mem_cons] at h ⊢
      rcases h with h | h
      · left; rw [h]
      · right; right; exact h
    · split at h
      · simp only [List.mem_cons] at h ⊢
        rcases h with h | h | h
        · left; rw [h]
        · right; left; exact h
        · right; right; exact h
      · simp only [List.mem_cons] at h ⊢
        rcases h with h | h
        · right; left; exact h
        · rcases ih h with h | h
          · left; exact h
          · right; right; exact h

theorem sorted_nil : Sorted ([] : SMap K V) := List.Pairwise.nil

theorem sorted_insert (m : SMap K V) (x : K) (v : V) (h : Sorted m) : Sorted (insert m x v) := by
  induction m with
  | nil => simp [insert, Sorted]
  | cons q m ih =>
    obtain ⟨k, w⟩ := q
    have hq := List.pairwise_cons.mp h
    unfold insert
    split
    · subst_vars; exact List.pairwise_cons.mpr ⟨fun p hp => hq.1 p hp, hq.2⟩
    · split
      · rename_i hlt
        refine List.pairwise_cons.mpr ⟨fun p hp => ?_, h⟩
        rcases List.mem_cons.mp hp with rfl | hp
        · exact hlt
        · exact lt_trans hlt (hq.1 p hp)
      · rename_i hne hnlt
        refine List.pairwise_cons.mpr ⟨fun p hp => ?_, ih hq.2⟩
        rcases mem_keys_insert m x v p hp with hp | hp
        · rw [hp]; exact lt_of_le_of_ne (not_lt.mp hnlt) (Ne.symm hne)
        · exact hq.1 p hp

theorem sorted_insertNew (m : SMap K V) (x : K) (v : V) (h : Sorted m) :
    Sorted (insertNew m x v) := by
  unfold insertNew; split
  · exact h
  · exact sorted_insert m x v h

theorem sorted_merge (m o : SMap K V) (h : Sorted m) : Sorted (merge m o) := by
  unfold merge
  induction o generalizing m with
  | nil => exact h
  | cons p o ih => exact ih _ (sorted_insertNew m p.1 p.2 h)

theorem find_eq_none_of_forall_ne (m : SMap K V) (x : K) (h : ∀ p ∈ m, p.1 ≠ x) :
    find m x = none := by
  induction m with
  | nil => rfl
  | cons q m ih =>
    obtain ⟨k, w⟩ := q
    rw [find_cons, if_neg, ih]
    · intro p hp; exact h p (List.mem_cons_of_mem _ hp)
    · intro e; exact h (k, w) List.mem_cons_self e.symm

theorem find_some_mem (m : SMap K V) (x : K) (v : V) (h : find m x = some v) : (x, v) ∈ m := by
  induction m with
  | nil => simp at h
  | cons q m ih =>
    obtain ⟨k, w⟩ := q
    rw [find_cons] at h
    split at h
    · subst_vars; simp only [Option.some.injEq] at h; subst h; exact List.mem_cons_self
    · exact List.mem_cons_of_mem _ (ih h)

theorem mem_find_of_sorted (m : SMap K V) (h : Sorted m) (x : K) (v : V) (hm : (x, v) ∈ m) :
    find m x = some v := by
  induction m with
  | nil => simp at hm
  | cons q m ih =>
    obtain ⟨k, w⟩ := q
    have hq := List.pairwise_cons.mp h
    rw [find_cons]
    rcases List.mem_cons.mp hm with e | hm
    · cases e; simp
    · have : k < x := hq.1 (x, v) hm
      rw [if_neg (ne_of_gt this)]
      exact ih hq.2 hm

/-- A sorted map is determined by its lookup function: enumeration order carries no
extra information. -/
theorem ext_of_sorted (m o : SMap K V) (hm : Sorted m) (ho : Sorted o)
    (h : ∀ x, find m x = find o x) : m = o := by
  induction m generalizing o with
  | nil =>
    cases o with
    | nil => rfl
    | cons q o => obtain ⟨k, w⟩ := q; have := h k; simp [find_cons] at this
  | cons p m ih =>
    obtain ⟨k, w⟩ := p
    have hm' := List.pairwise_cons.mp hm
    cases o with
    | nil => have := h k; simp [find_cons] at this
    | cons q o =>
      obtain ⟨k', w'⟩ := q
      have ho' := List.pairwise_cons.mp ho
      have hk : k = k' := by
        rcases lt_trichotomy k k' with hlt | heq | hgt
        · exfalso
          have h1 := h k
          rw [find_cons, if_pos rfl, find_cons, if_neg (ne_of_lt hlt)] at h1
          rw [find_eq_none_of_forall_ne] at h1
          · cases h1
          · intro p hp; exact ne_of_gt (lt_trans hlt (ho'.1 p hp))
        · exact heq
        · exfalso
          have h1 := h k'
          rw [find_cons, if_neg (ne_of_lt hgt), find_cons, if_pos rfl] at h1
          rw [find_eq_none_of_forall_ne] at h1
          · cases h1
          · intro p hp; exact ne_of_gt (lt_trans hgt (hm'.1 p hp))
      subst hk
      have hw : w = w' := by
        have h1 := h k
        simp only [find_cons, if_true] at h1
        exact Option.some.inj h1
      subst hw
      congr 1
      apply ih o hm'.2 ho'.2
      intro x
      by_cases hx : x = k
      · subst hx
        rw [find_eq_none_of_forall_ne, find_eq_none_of_forall_ne]
        · intro p hp; exact ne_of_gt (ho'.1 p hp)
        · intro p hp; exact ne_of_gt (hm'.1 p hp)
      · have h1 := h x
        simpa only [find_cons, if_neg hx] using h1

theorem insert_find_self (m : SMap K V) (hm : Sorted m) (x : K) (v : V) (h : find m x = some v) :
    insert m x v = m := by
  apply ext_of_sorted _ _ (sorted_insert m x v hm) hm
  intro y
  rw [find_insert]
  split
  · subst_vars; exact h.symm
  · rfl

theorem insert_comm (m : SMap K V) (hm : Sorted m) (x y : K) (v w : V) (h : x ≠ y) :
    insert (insert m x v) y w = insert (insert m y w) x v := by
  apply ext_of_sorted
  · exact sorted_insert _ _ _ (sorted_insert _ _ _ hm)
  · exact sorted_insert _ _ _ (sorted_insert _ _ _ hm)
  intro z
  simp only [find_insert]
  by_cases h1 : z = x <;> by_cases h2 : z = y <;> simp_all

theorem insert_insert (m : SMap K V) (hm : Sorted m) (x : K) (v w : V) :
    insert (insert m x v) x w = insert m x w := by
  apply ext_of_sorted
  · exact sorted_insert _ _ _ (sorted_insert _ _ _ hm)
  · exact sorted_insert _ _ _ hm
  intro z
  simp only [find_insert]
  by_cases h1 : z = x <;> simp_all

theorem merge_nil (m : SMap K V) : merge m [] = m := rfl

end SMap
end Flame
