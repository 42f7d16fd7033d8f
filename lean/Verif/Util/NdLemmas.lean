import Verif.Util.NdIndex
import Verif.Util.NdSpec
import Mathlib.Tactic.Ring
import Mathlib.Tactic.Linarith

/-!
# The indices visited
-/

namespace Flame.Util

/-- Position of an index in the enumeration. -/
def ordinal : List Nat → List Nat → Nat
  | i :: is, l :: ls => i + l * ordinal is ls
  | _, _ => 0

theorem ordinal_lt {lim idx : List Nat} (h : InShape lim idx) : ordinal idx lim < lim.prod := by
  induction h with
  | nil => simp [ordinal]
  | @cons i l is ls h1 _ ih =>
    simp only [ordinal, List.prod_cons]
    nlinarith

theorem ordinal_inj {lim i j : List Nat} (hi : InShape lim i) (hj : InShape lim j)
    (h : ordinal i lim = ordinal j lim) : i = j := by
  induction hi generalizing j with
  | nil => cases hj; rfl
  | @cons a l is ls h1 _ ih =>
    cases hj with
    | @cons b _ js _ h2 h3 =>
      simp only [ordinal] at h
      have hm : (a + l * ordinal is ls) % l = (b + l * ordinal js ls) % l := by rw [h]
      rw [Nat.add_mul_mod_self_left, Nat.add_mul_mod_self_left, Nat.mod_eq_of_lt h1, Nat.mod_eq_of_lt h2] at hm
      subst hm
      have hl : 0 < l := by omega
      have := Nat.eq_of_mul_eq_mul_left hl (Nat.add_left_cancel h)
      rw [ih h3 this]

theorem before_of_ordinal {lim i j : List Nat} (hi : InShape lim i) (hj : InShape lim j)
    (h : ordinal i lim < ordinal j lim) : Before i j := by
  induction hi generalizing j with
  | nil => cases hj; simp [ordinal] at h
  | @cons a l is ls h1 h1' ih =>
    cases hj with
    | @cons b _ js _ h2 h3 =>
      simp only [ordinal] at h
      rcases Nat.lt_trichotomy (ordinal is ls) (ordinal js ls) with hc | hc | hc
      · exact .inl (ih h3 hc)
      · rw [hc] at h
        exact .inr ⟨ordinal_inj h1' h3 hc, by omega⟩
      · exfalso
        have : l * (ordinal js ls + 1) ≤ l * ordinal is ls := Nat.mul_le_mul_left _ hc
        rw [Nat.mul_add] at this
        omega

theorem before_irrefl : ∀ i : List Nat, ¬ Before i i
  | [] => by simp [Before]
  | a :: is => by
    simp only [Before]
    rintro (h | h)
    · exact before_irrefl is h
    · omega

theorem bump_spec {lim idx : List Nat} (h : InShape lim idx) :
    ((bump idx lim).2 = false → InShape lim (bump idx lim).1 ∧ ordinal (bump idx lim).1 lim = ordinal idx lim + 1) ∧
    ((bump idx lim).2 = true → ordinal idx lim + 1 = lim.prod ∧ InShape lim (bump idx lim).1 ∧
      ordinal (bump idx lim).1 lim = 0) := by
  induction h with
  | nil => simp [bump, ordinal, InShape]
  | @cons i l is ls h1 h2 ih =>
    simp only [bump]
    by_cases hl : i + 1 < l
    · rw [if_pos hl]
      simp only [reduceCtorEq, false_implies, and_true, forall_const]
      refine ⟨.cons hl h2, ?_⟩
      simp only [ordinal]
      ring
    · rw [if_neg hl]
      simp only
      have he : l = i + 1 := by omega
      have h0 : 0 < l := by omega
      constructor
      · intro hb
        obtain ⟨h3, h4⟩ := ih.1 hb
        refine ⟨.cons h0 h3, ?_⟩
        simp only [ordinal, h4]
        rw [Nat.mul_add]
        omega
      · intro hb
        obtain ⟨h3, h4, h5⟩ := ih.2 hb
        refine ⟨?_, .cons h0 h4, by simp only [ordinal, h5]; omega⟩
        simp only [ordinal, List.prod_cons, ← h3, Nat.mul_add]
        omega

/-- What the loop does from a valid index. -/
theorem loopN_spec (lim : List Nat) : ∀ (n : Nat) (idx : List Nat), InShape lim idx →
    ((loopN n ⟨false, idx, lim⟩).1.map (ordinal · lim) =
      List.range' (ordinal idx lim) (min n (lim.prod - ordinal idx lim))) ∧
    (∀ x ∈ (loopN n ⟨false, idx, lim⟩).1, InShape lim x) ∧
    ((loopN n ⟨false, idx, lim⟩).2.done = true ↔ lim.prod - ordinal idx lim ≤ n)
  | 0, idx, h => by
    have := ordinal_lt h
    simp [loopN]
    omega
  | n + 1, idx, h => by
    have hlt := ordinal_lt h
    simp only [loopN, NdIter.next, Bool.false_eq_true, if_false]
    cases hb : (bump idx lim).2 with
    | false =>
      obtain ⟨h1, h2⟩ := (bump_spec h).1 hb
      obtain ⟨i1, i2, i3⟩ := loopN_spec lim n _ h1
      refine ⟨?_, ?_, ?_⟩
      · rw [List.map_cons, i1, h2]
        have : min (n + 1) (lim.prod - ordinal idx lim) = min n (lim.prod - (ordinal idx lim + 1)) + 1 := by omega
        rw [this, List.range'_succ]
      · intro x hx
        rcases List.mem_cons.1 hx with rfl | hx
        · exact h
        · exact i2 x hx
      · rw [i3, h2]
        omega
    | true =>
      obtain ⟨h1, h2, h3⟩ := (bump_spec h).2 hb
      have hl : ∀ m (i : List Nat), loopN m ⟨true, i, lim⟩ = ([], ⟨true, i, lim⟩) := by
        intro m i
        cases m <;> simp [loopN]
      rw [hl]
      refine ⟨?_, ?_, ?_⟩
      · have : min (n + 1) (lim.prod - ordinal idx lim) = 1 := by omega
        rw [this]
        rfl
      · intro x hx
        rw [List.mem_singleton.1 hx]
        exact h
      · simp only [true_iff]
        omega

theorem start_inShape {lim : List Nat} (h : ∀ l ∈ lim, 0 < l) : InShape lim (lim.map (fun _ => 0)) := by
  unfold InShape
  induction lim with
  | nil => exact .nil
  | cons l ls ih =>
    exact .cons (h l (List.mem_cons_self ..)) (ih (fun x hx => h x (List.mem_cons_of_mem _ hx)))

theorem start_ordinal (lim : List Nat) : ordinal (lim.map (fun _ => 0)) lim = 0 := by
  induction lim with
  | nil => rfl
  | cons l ls ih => simp only [List.map_cons, ordinal, ih]; rfl

theorem rounds_pos {lim : List Nat} (h : ∀ l ∈ lim, 0 < l) : rounds lim = lim.prod := by
  unfold rounds
  congr 1
  conv_rhs => rw [← List.map_id lim]
  refine List.map_congr_left (fun l hl => ?_)
  have := h l hl
  simp only [id]
  omega

/-- Everything about the loop over an array with positive dimensions. -/
theorem loop_all {lim : List Nat} (h : ∀ l ∈ lim, 0 < l) (n : Nat) (hn : lim.prod ≤ n) :
    (loopN n (NdIter.start lim)).2.done = true ∧
    (∀ idx, idx ∈ (loopN n (NdIter.start lim)).1 ↔ InShape lim idx) ∧
    (loopN n (NdIter.start lim)).1.Pairwise Before ∧ (loopN n (NdIter.start lim)).1.length = lim.prod := by
  obtain ⟨h1, h2, h3⟩ := loopN_spec lim n _ (start_inShape h)
  rw [start_ordinal] at h1 h3
  unfold NdIter.start
  have hm : min n (lim.prod - 0) = lim.prod := by omega
  rw [hm] at h1
  refine ⟨h3.2 (by omega), ?_, ?_, ?_⟩
  · intro idx
    refine ⟨h2 idx, ?_⟩
    intro hi
    have hr : ordinal idx lim ∈ List.range' 0 lim.prod := by
      rw [List.mem_range'_1]
      exact ⟨Nat.zero_le _, by simpa using ordinal_lt hi⟩
    rw [← h1, List.mem_map] at hr
    obtain ⟨x, hx, he⟩ := hr
    rw [← ordinal_inj (h2 x hx) hi he]
    exact hx
  · have hp : (List.range' 0 lim.prod).Pairwise (· < ·) := List.pairwise_lt_range'
    rw [← h1, List.pairwise_map] at hp
    exact hp.imp_of_mem (fun ha hb hab => before_of_ordinal (h2 _ ha) (h2 _ hb) hab)
  · have := congrArg List.length h1
    simpa using this

end Flame.Util
