import Verif.Cavity.SpecFit
import Verif.Cavity.FitBounds
import Verif.Cavity.Transit

/-!
# Transit time factors of multipoles and gaps, fitted or from tables: C79

`TransFacts` and `TransitFacMultipole` take the factors from polynomials and powers fitted for the cavities of the FRIB linac,
or from a table of field strengths when the particle is too slow or too fast for the fits or when the user asks for it.
-/

namespace Flame.Cavity

open Flame.Mach (Err)
open Flame.Moment (Table)
open Flame.Cavity.FitBounds
open Flame.Cavity.SpecFit (Row waves speeds direction)

/-! ## The fits of the multipoles -/

/-- Factors of a field in direction `d` that hardly change the phase. -/
def Inside (d T S : ℝ) : Prop := 1 / 2 ≤ d * T ∧ |S| ≤ 1 / 25 ∧ T ^ 2 + S ^ 2 ≤ 1

theorem inside_up {T S m M l u v : ℝ} (t : m ≤ T ∧ T ≤ M) (s : l ≤ S ∧ S ≤ u) (h1 : 1 / 2 ≤ m) (h2 : -v ≤ l) (h3 : u ≤ v)
    (h4 : v ≤ 1 / 25) (h5 : M ^ 2 + v ^ 2 ≤ 1) : Inside 1 T S := by
  have hS : |S| ≤ v := abs_le.mpr ⟨by linarith [s.1], by linarith [s.2]⟩
  refine ⟨by linarith [t.1], by linarith, ?_⟩
  have h6 : S ^ 2 ≤ v ^ 2 := sq_le_sq' (by linarith [s.1]) (by linarith [s.2])
  have h7 : T ^ 2 ≤ M ^ 2 := sq_le_sq' (by linarith [t.1, t.2]) t.2
  linarith

theorem inside_down {T S m M l u v : ℝ} (t : m ≤ T ∧ T ≤ M) (s : l ≤ S ∧ S ≤ u) (h1 : M ≤ -(1 / 2)) (h2 : -v ≤ l) (h3 : u ≤ v)
    (h4 : v ≤ 1 / 25) (h5 : m ^ 2 + v ^ 2 ≤ 1) : Inside (-1) T S := by
  have := inside_up (T := -T) (S := S) (m := -M) (M := -m) ⟨by linarith [t.2], by linarith [t.1]⟩ s (by linarith) h2 h3 h4
    (by linarith [neg_sq m])
  refine ⟨by linarith [this.1], this.2.1, by linarith [this.2.2, neg_sq T]⟩

/-- All fits of the multipoles. -/
theorem fit_inside {p : Pole} {cavi : Nat} {K : ℝ} {a b : List ℝ} (h : poleFit p cavi = .ok (a, b)) (hK : waves cavi K) :
    Inside (direction p) (pwrSeries K a) (pwrSeries K b) := by
  rcases hK with ⟨rfl, h0, h1⟩ | ⟨rfl, h0, h1⟩ | ⟨rfl, h0, h1⟩ | ⟨rfl, h0, h1⟩
  · norm_num at h0 h1
    cases p <;> cases h
    · refine inside_down (m := (-1239/1250)) (M := (-4589/5000)) (l := (-37/1000)) (u := (239/10000)) (v := (37/1000)) ?_ ?_ (by norm_num)
        (by norm_num) (by norm_num) (by norm_num) (by norm_num)
      · have := eFocus1_1_T h0 h1
        norm_num at this ⊢
        exact this
      · have := eFocus1_1_S h0 h1
        norm_num at this ⊢
        exact this
    · refine inside_up (m := (8687/10000)) (M := (9707/10000)) (l := (-61/10000)) (u := (41/10000)) (v := (61/10000)) ?_ ?_ (by norm_num)
        (by norm_num) (by norm_num) (by norm_num) (by norm_num)
      · have := eFocus2_1_T h0 h1
        norm_num at this ⊢
        exact this
      · have := eFocus2_1_S h0 h1
        norm_num at this ⊢
        exact this
    · refine inside_down (m := (-9587/10000)) (M := (-4101/5000)) (l := (-17/5000)) (u := (11/1000)) (v := (11/1000)) ?_ ?_ (by norm_num)
        (by norm_num) (by norm_num) (by norm_num) (by norm_num)
      · have := eDipole_1_T h0 h1
        norm_num at this ⊢
        exact this
      · have := eDipole_1_S h0 h1
        norm_num at this ⊢
        exact this
    · refine inside_up (m := (8601/10000)) (M := (1939/2000)) (l := (29/5000)) (u := (103/10000)) (v := (103/10000)) ?_ ?_ (by norm_num)
        (by norm_num) (by norm_num) (by norm_num) (by norm_num)
      · have := eQuad_1_T h0 h1
        norm_num at this ⊢
        exact this
      · have := eQuad_1_S h0 h1
        norm_num at this ⊢
        exact this
    · refine inside_up (m := (458/625)) (M := (9381/10000)) (l := (-9/1000)) (u := (49/10000)) (v := (9/1000)) ?_ ?_ (by norm_num)
        (by norm_num) (by norm_num) (by norm_num) (by norm_num)
      · have := hMono_1_T h0 h1
        norm_num at this ⊢
        exact this
      · have := hMono_1_S h0 h1
        norm_num at this ⊢
        exact this
    · refine inside_up (m := (431/625)) (M := (9253/10000)) (l := (-51/2000)) (u := (3/2500)) (v := (51/2000)) ?_ ?_ (by norm_num)
        (by norm_num) (by norm_num) (by norm_num) (by norm_num)
      · have := hDipole_1_T h0 h1
        norm_num at this ⊢
        exact this
      · have := hDipole_1_S h0 h1
        norm_num at this ⊢
        exact this
    · refine inside_down (m := (-4727/5000)) (M := (-1899/2500)) (l := (-53/10000)) (u := (0)) (v := (53/10000)) ?_ ?_ (by norm_num)
        (by norm_num) (by norm_num) (by norm_num) (by norm_num)
      · have := hQuad_1_T h0 h1
        norm_num at this ⊢
        exact this
      · have := hQuad_1_S h0 h1
        norm_num at this ⊢
        exact this
  · norm_num at h0 h1
    cases p <;> cases h
    · refine inside_down (m := (-1999/2000)) (M := (-4703/5000)) (l := (-77/5000)) (u := (49/10000)) (v := (77/5000)) ?_ ?_ (by norm_num)
        (by norm_num) (by norm_num) (by norm_num) (by norm_num)
      · have := eFocus1_2_T h0 h1
        norm_num at this ⊢
        exact this
      · have := eFocus1_2_S h0 h1
        norm_num at this ⊢
        exact this
    · refine inside_up (m := (8961/10000)) (M := (623/625)) (l := (3/2000)) (u := (127/10000)) (v := (127/10000)) ?_ ?_ (by norm_num)
        (by norm_num) (by norm_num) (by norm_num) (by norm_num)
      · have := eFocus2_2_T h0 h1
        norm_num at this ⊢
        exact this
      · have := eFocus2_2_S h0 h1
        norm_num at this ⊢
        exact this
    · refine inside_down (m := (-9957/10000)) (M := (-1721/2000)) (l := (-9/2500)) (u := (-3/10000)) (v := (9/2500)) ?_ ?_ (by norm_num)
        (by norm_num) (by norm_num) (by norm_num) (by norm_num)
      · have := eDipole_2_T h0 h1
        norm_num at this ⊢
        exact this
      · have := eDipole_2_S h0 h1
        norm_num at this ⊢
        exact this
    · refine inside_up (m := (2153/2500)) (M := (9957/10000)) (l := (-13/2000)) (u := (29/10000)) (v := (13/2000)) ?_ ?_ (by norm_num)
        (by norm_num) (by norm_num) (by norm_num) (by norm_num)
      · have := eQuad_2_T h0 h1
        norm_num at this ⊢
        exact this
      · have := eQuad_2_S h0 h1
        norm_num at this ⊢
        exact this
    · refine inside_up (m := (464/625)) (M := (2479/2500)) (l := (7/5000)) (u := (43/10000)) (v := (43/10000)) ?_ ?_ (by norm_num)
        (by norm_num) (by norm_num) (by norm_num) (by norm_num)
      · have := hMono_2_T h0 h1
        norm_num at this ⊢
        exact this
      · have := hMono_2_S h0 h1
        norm_num at this ⊢
        exact this
    · refine inside_up (m := (1741/2500)) (M := (4949/5000)) (l := (-19/5000)) (u := (19/5000)) (v := (19/5000)) ?_ ?_ (by norm_num)
        (by norm_num) (by norm_num) (by norm_num) (by norm_num)
      · have := hDipole_2_T h0 h1
        norm_num at this ⊢
        exact this
      · have := hDipole_2_S h0 h1
        norm_num at this ⊢
        exact this
    · refine inside_down (m := (-9923/10000)) (M := (-3813/5000)) (l := (-7/2000)) (u := (3/5000)) (v := (7/2000)) ?_ ?_ (by norm_num)
        (by norm_num) (by norm_num) (by norm_num) (by norm_num)
      · have := hQuad_2_T h0 h1
        norm_num at this ⊢
        exact this
      · have := hQuad_2_S h0 h1
        norm_num at this ⊢
        exact this
  · norm_num at h0 h1
    cases p <;> cases h
    · refine inside_down (m := (-613/625)) (M := (-1739/2000)) (l := (1/10000)) (u := (1/500)) (v := (1/500)) ?_ ?_ (by norm_num)
        (by norm_num) (by norm_num) (by norm_num) (by norm_num)
      · have := eFocus1_3_T h0 h1
        norm_num at this ⊢
        exact this
      · have := eFocus1_3_S h0 h1
        norm_num at this ⊢
        exact this
    · refine inside_up (m := (8377/10000)) (M := (9751/10000)) (l := (-1/80)) (u := (-7/10000)) (v := (1/80)) ?_ ?_ (by norm_num)
        (by norm_num) (by norm_num) (by norm_num) (by norm_num)
      · have := eFocus2_3_T h0 h1
        norm_num at this ⊢
        exact this
      · have := eFocus2_3_S h0 h1
        norm_num at this ⊢
        exact this
    · refine inside_up (m := (3511/5000)) (M := (9527/10000)) (l := (-23/1000)) (u := (-7/5000)) (v := (23/1000)) ?_ ?_ (by norm_num)
        (by norm_num) (by norm_num) (by norm_num) (by norm_num)
      · have := eQuad_3_T h0 h1
        norm_num at this ⊢
        exact this
      · have := eQuad_3_S h0 h1
        norm_num at this ⊢
        exact this
    · refine inside_up (m := (1401/2500)) (M := (2313/2500)) (l := (-13/1000)) (u := (-11/10000)) (v := (13/1000)) ?_ ?_ (by norm_num)
        (by norm_num) (by norm_num) (by norm_num) (by norm_num)
      · have := hMono_3_T h0 h1
        norm_num at this ⊢
        exact this
      · have := hMono_3_S h0 h1
        norm_num at this ⊢
        exact this
    · refine inside_down (m := (-2331/2500)) (M := (-237/400)) (l := (13/10000)) (u := (91/5000)) (v := (91/5000)) ?_ ?_ (by norm_num)
        (by norm_num) (by norm_num) (by norm_num) (by norm_num)
      · have := hQuad_3_T h0 h1
        norm_num at this ⊢
        exact this
      · have := hQuad_3_S h0 h1
        norm_num at this ⊢
        exact this
  · norm_num at h0 h1
    cases p <;> cases h
    · refine inside_down (m := (-9881/10000)) (M := (-2383/2500)) (l := (-1/1000)) (u := (-1/10000)) (v := (1/1000)) ?_ ?_ (by norm_num)
        (by norm_num) (by norm_num) (by norm_num) (by norm_num)
      · have := eFocus1_4_T h0 h1
        norm_num at this ⊢
        exact this
      · have := eFocus1_4_S h0 h1
        norm_num at this ⊢
        exact this
    · refine inside_up (m := (1861/2000)) (M := (4909/5000)) (l := (3/5000)) (u := (9/2000)) (v := (9/2000)) ?_ ?_ (by norm_num)
        (by norm_num) (by norm_num) (by norm_num) (by norm_num)
      · have := eFocus2_4_T h0 h1
        norm_num at this ⊢
        exact this
      · have := eFocus2_4_S h0 h1
        norm_num at this ⊢
        exact this
    · refine inside_up (m := (7701/10000)) (M := (469/500)) (l := (-223/10000)) (u := (-2/625)) (v := (223/10000)) ?_ ?_ (by norm_num)
        (by norm_num) (by norm_num) (by norm_num) (by norm_num)
      · have := eQuad_4_T h0 h1
        norm_num at this ⊢
        exact this
      · have := eQuad_4_S h0 h1
        norm_num at this ⊢
        exact this
    · refine inside_up (m := (6519/10000)) (M := (9033/10000)) (l := (-2/625)) (u := (-1/2500)) (v := (2/625)) ?_ ?_ (by norm_num)
        (by norm_num) (by norm_num) (by norm_num) (by norm_num)
      · have := hMono_4_T h0 h1
        norm_num at this ⊢
        exact this
      · have := hMono_4_S h0 h1
        norm_num at this ⊢
        exact this
    · refine inside_down (m := (-907/1000)) (M := (-6629/10000)) (l := (11/5000)) (u := (79/5000)) (v := (79/5000)) ?_ ?_ (by norm_num)
        (by norm_num) (by norm_num) (by norm_num) (by norm_num)
      · have := hQuad_4_T h0 h1
        norm_num at this ⊢
        exact this
      · have := hQuad_4_S h0 h1
        norm_num at this ⊢
        exact this

/-! ## Tables -/

/-- C79: a table that does not reach the column of a multipole is refused. -/
theorem C79_few {t : Table} {cavi : Nat} {p : Pole} {K : ℝ} (h : t.cols ≤ SpecFit.heading.idxOf (some p)) :
    transitFacMultipole true t cavi p K = .error .runtime := by
  have : tableFactors t p.column 0 K false = .error .runtime := by
    unfold tableFactors column
    rw [if_pos]
    right
    cases p <;> exact h
  simp only [transitFacMultipole, if_true, this]

theorem column_map (rows : List Row) (p : Pole) (h : rows ≠ []) :
    column (SpecFit.table rows) p.column = .ok (rows.map Row.z, rows.map (SpecFit.strength p)) := by
  unfold column SpecFit.table
  rw [if_neg]
  · simp only [List.map_map]
    cases p <;> rfl
  · simp only [List.map_eq_nil_iff, h, false_or, not_le]
    cases p <;> decide

theorem field_map (rows : List Row) (p : Pole) (k : Nat) : (rows.map (SpecFit.strength p)).getD k 0 = SpecFit.field rows p k := by
  rw [SpecFit.field, List.getD_eq_getElem?_getD, List.getElem?_map]

theorem spaced_even {rows : List Row} {h : ℝ} (hs : SpecFit.Spaced rows h) (n : Nat) (hn : n ≤ rows.length) :
    Even (rows.map Row.z) n h := by
  intro k hk
  induction k with
  | zero => simp
  | succ k ih =>
    have h1 := ih (by omega)
    have h2 : k < rows.length := by omega
    have h3 : k + 1 < rows.length := by omega
    have := hs k rows[k] rows[k + 1] (List.getElem?_eq_getElem h2) (List.getElem?_eq_getElem h3)
    rw [List.getD_eq_getElem?_getD, List.getElem?_map, List.getElem?_eq_getElem h2] at h1
    rw [List.getD_eq_getElem?_getD, List.getElem?_map, List.getElem?_eq_getElem h3]
    simp only [Option.map_some, Option.getD_some] at h1 ⊢
    rw [this, h1]
    push_cast
    ring

/-- C79: when the factors of a multipole are computed from a table, they are the normalised integrals of the strength of that
multipole times the cosine and the sine about the centre of its field. -/
theorem C79_table {rows : List Row} {cavi : Nat} {p : Pole} {K h : ℝ} (hs : SpecFit.Spaced rows h)
    (ha : SpecFit.amount rows p h ≠ 0) : ∃ T S, transitFacMultipole true (SpecFit.table rows) cavi p K = .ok (T, S) ∧
      T * SpecFit.amount rows p h = SpecFit.along rows p h (fun z => Real.cos (K * z)) ∧
      S * SpecFit.amount rows p h = SpecFit.along rows p h (fun z => Real.sin (K * z)) := by
  have hn : rows ≠ [] := by
    rintro rfl
    simp [SpecFit.amount] at ha
  have hl : 2 ≤ rows.length := by
    by_contra hc
    apply ha
    have : rows.length - 1 = 0 := by omega
    simp [SpecFit.amount, this]
  have he := spaced_even hs rows.length le_rfl
  have hpt : points (rows.map Row.z) false = rows.length := by simp [points]
  have hz : ∀ k < rows.length, (rows.map Row.z).getD k 0 - (rows.map Row.z).getD 0 0 = k * h := by
    intro k hk
    rw [he k hk]
    ring
  have hok : ∃ g, calTransfac (rows.map Row.z) (rows.map (SpecFit.strength p)) 0 K false = .ok g := by
    unfold calTransfac
    dsimp only
    rw [if_neg (by simp [hn]), if_neg]
    · exact ⟨_, rfl⟩
    rw [intervals_eq]
    simp only [Bool.false_eq_true, if_false, List.length_map, field_map]
    rw [hz _ (by omega), Nat.cast_sub (by omega : 1 ≤ rows.length), Nat.cast_one, mul_div_cancel_left₀]
    · exact ha
    · have : (2 : ℝ) ≤ rows.length := by exact_mod_cast hl
      intro h0
      linarith
  obtain ⟨g, hg⟩ := hok
  obtain ⟨-, eml, c, h1, h2, h3, -, -, h5, h6, -⟩ := calTransfac_even (by rw [hpt]; exact he) hg
  rw [hpt] at h1 h3 h5 h6
  simp only [field_map] at h1 h3 h5 h6
  rw [if_neg (by decide)] at h5
  have e1 : eml = SpecFit.amount rows p h := h1
  subst e1
  have e2 : c = SpecFit.centre rows p h := h3
  subst e2
  refine ⟨g.T, g.S, ?_, ?_, ?_⟩
  · simp only [transitFacMultipole, if_true, tableFactors, column_map rows p hn, hg]
  · rw [h5, div_mul_cancel₀ _ ha, SpecFit.along]
  · rw [h6, div_mul_cancel₀ _ ha, SpecFit.along]

/-- C79: the fits are used for the wave numbers they were made for, and the table for all others. -/
theorem C79_choice {cavi : Nat} {p : Pole} {K : ℝ} (hc : 1 ≤ cavi ∧ cavi ≤ 4) :
    (¬ waves cavi K → ∀ t, transitFacMultipole false t cavi p K = transitFacMultipole true t cavi p K) ∧
    (waves cavi K → ∀ t t', transitFacMultipole false t cavi p K = transitFacMultipole false t' cavi p K) := by
  have key : (∃ lo hi, poleRange cavi = some (lo, hi) ∧ (K < lo ∨ hi < K)) ↔ ¬ waves cavi K := by
    have h4 : cavi = 1 ∨ cavi = 2 ∨ cavi = 3 ∨ cavi = 4 := by omega
    rcases h4 with rfl | rfl | rfl | rfl <;> simp only [poleRange, waves, Option.some.injEq, Prod.mk.injEq]
    all_goals
      constructor
      · rintro ⟨lo, hi, ⟨rfl, rfl⟩, h⟩
        norm_num
        intro h'
        rcases h with h | h
        · norm_num at h h'
          linarith
        · norm_num at h h' ⊢
          linarith
      · intro h
        refine ⟨_, _, ⟨rfl, rfl⟩, ?_⟩
        norm_num at h ⊢
        by_contra hn
        push Not at hn
        linarith [h hn.1, hn.2]
  constructor
  · intro h t
    simp only [transitFacMultipole, if_true, Bool.false_eq_true, if_false]
    rw [if_pos (key.mpr h)]
  · intro h t t'
    simp only [transitFacMultipole, Bool.false_eq_true, if_false]
    rw [if_neg (fun hh => key.mp hh h), if_neg (fun hh => key.mp hh h)]

/-- C79: a multipole acts with at most its integrated strength, whether its factors are fitted or computed. -/
theorem C79_disc {b : Bool} {t : Table} {cavi : Nat} {p : Pole} {K h T S : ℝ} (hc : 1 ≤ cavi ∧ cavi ≤ 4) (hh : 0 < h)
    (he : Even (t.rows.map (·.getD 0 0)) t.rows.length h) (hr : transitFacMultipole b t cavi p K = .ok (T, S)) :
    T ^ 2 + S ^ 2 ≤ 1 := by
  have htab : ∀ T S, transitFacMultipole true t cavi p K = .ok (T, S) → T ^ 2 + S ^ 2 ≤ 1 := by
    intro T S hr
    simp only [transitFacMultipole, if_true, tableFactors, column] at hr
    split at hr
    · rename_i heq
      split at heq <;> cases hr
    rename_i g heq
    cases hr
    split at heq
    · cases heq
    · rename_i z EM hcol
      split at hcol
      · cases hcol
      cases hcol
      exact (C63_disc hh (by rw [points]; simpa using he) heq).1
  cases b with
  | true => exact htab T S hr
  | false =>
    by_cases hw : waves cavi K
    · simp only [transitFacMultipole, Bool.false_eq_true, if_false] at hr
      split at hr
      · rename_i hx
        refine htab T S ?_
        simp only [transitFacMultipole, if_true]
        exact hr
      · split at hr
        · cases hr
        · rename_i a b hfit
          cases hr
          exact (fit_inside hfit hw).2.2
    · rw [(C79_choice hc).1 hw] at hr
      exact htab T S hr

/-- C79: the fitted factors have the direction of the field in the files of strengths, and at least half of it acts. -/
theorem C79_direction {t : Table} {cavi : Nat} {p : Pole} {K T S : ℝ} (hw : waves cavi K)
    (hr : transitFacMultipole false t cavi p K = .ok (T, S)) : 1 / 2 ≤ direction p * T ∧ |S| ≤ 1 / 25 := by
  have hc : 1 ≤ cavi ∧ cavi ≤ 4 := by
    rcases hw with h | h | h | h <;> omega
  have hfit : ∃ a b, poleFit p cavi = .ok (a, b) ∧ T = pwrSeries K a ∧ S = pwrSeries K b := by
    rw [(C79_choice hc).2 hw t ⟨0, []⟩] at hr
    simp only [transitFacMultipole, Bool.false_eq_true, if_false, tableFactors, column] at hr
    split at hr
    · cases hr
    split at hr
    · cases hr
    · rename_i a b hfit
      cases hr
      exact ⟨a, b, hfit, rfl, rfl⟩
  obtain ⟨a, b, hfit, rfl, rfl⟩ := hfit
  exact ⟨(fit_inside hfit hw).1, (fit_inside hfit hw).2.1⟩


/-! ## Gaps -/

/-- C79: the fits of the gaps are used for the velocities they were made for, and the table for all others. -/
theorem C79_gap_choice {label gap : Nat} {beta K s : ℝ} (hl : label = 41 ∨ label = 85 ∨ label = 29 ∨ label = 53) :
    (¬ speeds label beta → ∀ t, transFacts false t label beta K gap s = transFacts true t label beta K gap s) ∧
    (speeds label beta → ∀ t t' K', transFacts false t label beta K gap s = transFacts false t' label beta K' gap s) := by
  have key : ∃ lo hi, fitRange label = some (lo, hi) ∧ ((beta < lo ∨ hi < beta) ↔ ¬ speeds label beta) := by
    rcases hl with rfl | rfl | rfl | rfl <;> refine ⟨_, _, rfl, ?_⟩ <;> simp only [speeds]
    all_goals
      constructor
      · intro h
        norm_num
        intro h'
        rcases h with h | h
        · norm_num at h h'
          linarith
        · norm_num at h h' ⊢
          linarith
      · intro h
        norm_num at h ⊢
        by_contra hn
        push Not at hn
        linarith [h hn.1, hn.2]
  obtain ⟨lo, hi, h1, h2⟩ := key
  constructor
  · intro h t
    simp only [transFacts, if_true, Bool.false_eq_true, if_false, h1]
    rw [if_pos (h2.mpr h)]
  · intro h t t' K'
    simp only [transFacts, Bool.false_eq_true, if_false, h1]
    rw [if_neg (fun hh => h2.mp hh h), if_neg (fun hh => h2.mp hh h)]

theorem rpow_between {x p q r lo : ℝ} (h0 : 0 < lo) (hx : lo ≤ x) (h1 : x ≤ 1) (hq : 0 ≤ q) (hqp : q ≤ p) (hpr : p ≤ r) :
    x ^ (-q) ≤ x ^ (-p) ∧ x ^ (-p) ≤ lo ^ (-r) := by
  have hx0 : 0 < x := lt_of_lt_of_le h0 hx
  refine ⟨Real.rpow_le_rpow_of_exponent_ge hx0 h1 (by linarith), ?_⟩
  refine le_trans (Real.rpow_le_rpow_of_exponent_ge hx0 h1 (by linarith : -r ≤ -p)) ?_
  exact Real.rpow_le_rpow_of_nonpos h0 hx (by linarith)

theorem speed_85 {x : ℝ} (h0 : 0.05 ≤ x) (h1 : x ≤ 0.25) : 4 ≤ x ^ (-1.855 : ℝ) ∧ x ^ (-1.855 : ℝ) ≤ 400 := by
  have h := rpow_between (p := 1.855) (q := 1) (r := 2) (lo := 0.05) (by norm_num) h0 (by norm_num at h1 ⊢; linarith) (by norm_num)
    (by norm_num) (by norm_num)
  constructor
  · refine le_trans ?_ h.1
    rw [Real.rpow_neg_one, le_inv_comm₀ (by norm_num) (by norm_num at h0; linarith)]
    norm_num at h1 ⊢
    exact h1
  · refine le_trans h.2 ?_
    rw [show (-2 : ℝ) = ((-2 : ℤ) : ℝ) by norm_num, Real.rpow_intCast]
    norm_num

theorem speed_29 {x : ℝ} (h0 : 0.15 ≤ x) (h1 : x ≤ 0.4) : 2 ≤ x ^ (-1.618 : ℝ) ∧ x ^ (-1.618 : ℝ) ≤ 24 := by
  have h := rpow_between (p := 1.618) (q := 1) (r := 5 / 3) (lo := 0.15) (by norm_num) h0 (by norm_num at h1 ⊢; linarith)
    (by norm_num) (by norm_num) (by norm_num)
  constructor
  · refine le_trans ?_ h.1
    rw [Real.rpow_neg_one, le_inv_comm₀ (by norm_num) (by norm_num at h0; linarith)]
    norm_num at h1 ⊢
    linarith
  · refine le_trans h.2 ?_
    refine le_of_pow_le_pow_left₀ (n := 3) (by norm_num) (by norm_num) ?_
    rw [← Real.rpow_natCast, ← Real.rpow_mul (by norm_num), show (-(5 / 3) * ((3 : ℕ) : ℝ) : ℝ) = ((-5 : ℤ) : ℝ) by norm_num,
      Real.rpow_intCast]
    norm_num

theorem speed_53 {x : ℝ} (h0 : 0.3 ≤ x) (h1 : x ≤ 0.6) : 1 ≤ x ^ (-1.68 : ℝ) ∧ x ^ (-1.68 : ℝ) ≤ 10 := by
  have h := rpow_between (p := 1.68) (q := 1) (r := 7 / 4) (lo := 0.3) (by norm_num) h0 (by norm_num at h1 ⊢; linarith)
    (by norm_num) (by norm_num) (by norm_num)
  constructor
  · refine le_trans ?_ h.1
    rw [Real.rpow_neg_one, le_inv_comm₀ (by norm_num) (by norm_num at h0; linarith)]
    norm_num at h1 ⊢
    linarith
  · refine le_trans h.2 ?_
    refine le_of_pow_le_pow_left₀ (n := 4) (by norm_num) (by norm_num) ?_
    rw [← Real.rpow_natCast, ← Real.rpow_mul (by norm_num), show (-(7 / 4) * ((4 : ℕ) : ℝ) : ℝ) = ((-7 : ℤ) : ℝ) by norm_num,
      Real.rpow_intCast]
    norm_num

theorem series_neg (x a0 a1 a2 a3 a4 a5 a6 a7 a8 a9 : ℝ) : pwrSeries x [-a0, -a1, -a2, -a3, -a4, -a5, -a6, -a7, -a8, -a9] =
    -pwrSeries x [a0, a1, a2, a3, a4, a5, a6, a7, a8, a9] := by
  rw [series_ten, series_ten]
  ring

/-- Half the length of the cavities of the fits in mm, by label. -/
def halfLength : Nat → ℝ
  | 41 => 120
  | 53 => 250
  | _ => 150

theorem gap_fits {label : Nat} {beta s : ℝ} (hb : speeds label beta) : ∃ g : Gap, gapFit beta s label 1 = .ok g ∧
    gapFit beta s label 2 = .ok ⟨halfLength label - g.Ecen, -g.T, -g.Tp, g.S, g.Sp, g.V0⟩ ∧
    -1 ≤ g.T ∧ g.T ≤ -(1 / 2) ∧ g.S = 0 ∧ ∃ v : ℝ, 0 < v ∧ g.V0 = v * s := by
  rcases hb with ⟨rfl, h0, h1⟩ | ⟨rfl, h0, h1⟩ | ⟨rfl, h0, h1⟩ | ⟨rfl, h0, h1⟩
  · refine ⟨_, rfl, ?_, ?_, ?_, rfl, _, ?_, rfl⟩
    · simp only [gapFit, halfLength, Except.ok.injEq, Gap.mk.injEq, and_true, series_ten]
      refine ⟨by ring, by ring, by ring⟩
    · have := (gap_41_T (x := beta) (by norm_num at h0 ⊢; exact h0) (by norm_num at h1 ⊢; exact h1)).1
      norm_num at this ⊢
      linarith
    · have := (gap_41_T (x := beta) (by norm_num at h0 ⊢; exact h0) (by norm_num at h1 ⊢; exact h1)).2
      norm_num at this ⊢
      linarith
    · norm_num
  · refine ⟨_, rfl, ?_, ?_, ?_, rfl, _, ?_, rfl⟩
    · simp only [gapFit, halfLength, Except.ok.injEq, Gap.mk.injEq, and_true, series_ten]
      refine ⟨by ring, by ring, by ring⟩
    · have := (speed_85 h0 h1).1
      simp only [rpow]
      norm_num at this ⊢
      linarith
    · have := (speed_85 h0 h1).2
      simp only [rpow]
      norm_num at this ⊢
      linarith
    · norm_num
  · refine ⟨_, rfl, ?_, ?_, ?_, rfl, _, ?_, rfl⟩
    · simp only [gapFit, halfLength, Except.ok.injEq, Gap.mk.injEq, and_true, series_ten]
      refine ⟨by ring, by ring, by ring⟩
    · have := (speed_29 h0 h1).1
      simp only [rpow]
      norm_num at this ⊢
      linarith
    · have := (speed_29 h0 h1).2
      simp only [rpow]
      norm_num at this ⊢
      linarith
    · norm_num
  · refine ⟨_, rfl, ?_, ?_, ?_, rfl, _, ?_, rfl⟩
    · simp only [gapFit, halfLength, Except.ok.injEq, Gap.mk.injEq, and_true, series_ten]
      refine ⟨by ring, by ring, by ring⟩
    · have := (speed_53 h0 h1).1
      simp only [rpow]
      norm_num at this ⊢
      linarith
    · have := (speed_53 h0 h1).2
      simp only [rpow]
      norm_num at this ⊢
      linarith
    · norm_num


/-- C79: a gap gives a particle at most the voltage over it, whether its factors are fitted or computed; the fits of the two
gaps have factors of at least one half with opposite signs. -/
theorem C79_gap {b : Bool} {t : Table} {label gap : Nat} {beta K s h : ℝ} {g : Gap}
    (hl : label = 41 ∨ label = 85 ∨ label = 29 ∨ label = 53) (hgap : gap = 1 ∨ gap = 2) (hh : 0 < h)
    (he : Even (t.rows.map (·.getD 0 0)) (t.rows.length / 2) h) (hg : transFacts b t label beta K gap s = .ok g) :
    g.T ^ 2 + g.S ^ 2 ≤ 1 ∧ (∃ v : ℝ, 0 < v ∧ g.V0 = v * s) ∧
    (b = false → speeds label beta → 1 / 2 ≤ (if gap = 1 then -1 else 1) * g.T ∧ g.S = 0) := by
  have htab : ∀ g, transFacts true t label beta K gap s = .ok g → g.T ^ 2 + g.S ^ 2 ≤ 1 ∧ ∃ v : ℝ, 0 < v ∧ g.V0 = v * s := by
    intro g hr
    simp only [transFacts, if_true, tableFactors, column] at hr
    split at hr
    · rename_i heq
      split at heq <;> cases hr
    rename_i g' heq
    cases hr
    split at heq
    · cases heq
    · rename_i z EM hcol
      split at hcol
      · cases hcol
      cases hcol
      have := C63_disc hh (by rw [points]; simpa using he) heq
      exact ⟨this.1, g'.V0, this.2, rfl⟩
  by_cases hb : b = false ∧ speeds label beta
  · obtain ⟨rfl, hw⟩ := hb
    obtain ⟨g1, f1, f2, t1, t2, s0, v, hv, hv'⟩ := gap_fits (s := s) hw
    have hfit : gapFit beta s label gap = .ok g := by
      rw [(C79_gap_choice hl).2 hw t ⟨0, []⟩ K] at hg
      simp only [transFacts, Bool.false_eq_true, if_false, tableFactors, column] at hg
      split at hg
      · cases hg
      split at hg
      · cases hg
      · exact hg
    have hsq : g1.T ^ 2 + g1.S ^ 2 ≤ 1 := by
      rw [s0]
      nlinarith
    rcases hgap with rfl | rfl
    · rw [f1] at hfit
      cases hfit
      exact ⟨hsq, ⟨v, hv, hv'⟩, fun _ _ => ⟨by norm_num; linarith, s0⟩⟩
    · rw [f2] at hfit
      cases hfit
      refine ⟨by simpa using hsq, ⟨v, hv, hv'⟩, fun _ _ => ⟨?_, s0⟩⟩
      norm_num
      linarith
  · have : transFacts true t label beta K gap s = .ok g := by
      cases b with
      | true => exact hg
      | false =>
        rw [(C79_gap_choice hl).1 (fun hw => hb ⟨rfl, hw⟩)] at hg
        exact hg
    exact ⟨(htab g this).1, (htab g this).2, fun h1 h2 => absurd ⟨h1, h2⟩ hb⟩

/-- C79: the energy a particle gains in a gap is bounded by the voltage over it, for all fits and tables. -/
theorem C79_gain {b : Bool} {t : Table} {label gap : Nat} {beta K s h : ℝ} {g : Gap}
    (hl : label = 41 ∨ label = 85 ∨ label = 29 ∨ label = 53) (hgap : gap = 1 ∨ gap = 2) (hh : 0 < h)
    (he : Even (t.rows.map (·.getD 0 0)) (t.rows.length / 2) h) (hg : transFacts b t label beta K gap s = .ok g)
    {dis W0 Z Es fy0 k lam : ℝ} {r : ℝ × Kin × ℝ} (hr : evalGapModel dis W0 Z Es fy0 k lam g = .ok r) :
    |r.1 - W0| ≤ |Z * g.V0| * 1000000 :=
  (C63_gain (C79_gap hl hgap hh he hg).1).1 r hr

/-- C79: the second gap is the mirror image of the first with the field reversed, for the fits and for tables of the first
half of the cavity. -/
theorem C79_mirror {b : Bool} {t : Table} {label : Nat} {beta K s : ℝ} {g : Gap}
    (hl : label = 41 ∨ label = 85 ∨ label = 29 ∨ label = 53)
    (hlast : (t.rows.map (·.getD 0 0)).getD (t.rows.length - 1) 0 = halfLength label) :
    transFacts b t label beta K 1 s = .ok g ↔
      transFacts b t label beta K 2 s = .ok ⟨halfLength label - g.Ecen, -g.T, -g.Tp, g.S, g.Sp, g.V0⟩ := by
  have htab : transFacts true t label beta K 1 s = .ok g ↔
      transFacts true t label beta K 2 s = .ok ⟨halfLength label - g.Ecen, -g.T, -g.Tp, g.S, g.Sp, g.V0⟩ := by
    simp only [transFacts, if_true, tableFactors, column]
    split
    · rename_i e heq
      split at heq
      · cases heq
        constructor <;> intro h <;> cases h
      · rename_i z EM hcol
        constructor
        · intro h; cases h
        · intro h
          exfalso
          split at h
          · cases h
          rename_i g2 h2
          have := (C63_mirror (K := K) (half := true) (tz := z) (EM := EM)
            (g := ⟨z.getD (z.length - 1) 0 - g2.Ecen, -g2.T, -g2.Tp, g2.S, g2.Sp, g2.V0⟩)).mpr (by
              rw [h2]; simp)
          rw [this] at heq
          cases heq
    · rename_i g1 heq
      split at heq
      · cases heq
      · rename_i z EM hcol
        rw [C63_mirror] at heq
        rw [heq]
        have hz : z.getD (z.length - 1) 0 = halfLength label := by
          split at hcol
          · cases hcol
          cases hcol
          rw [← hlast]
          simp
        dsimp only
        rw [hz]
        simp only [Except.ok.injEq, Gap.mk.injEq, neg_inj, sub_right_inj]
        constructor
        · rintro rfl
          simp
        · intro h
          cases g
          simp only at h
          cases g1
          rw [Gap.mk.injEq]
          exact h
  by_cases hb : b = false ∧ speeds label beta
  · obtain ⟨rfl, hw⟩ := hb
    obtain ⟨g1, f1, f2, -⟩ := gap_fits (s := s) hw
    have hfit : ∀ gap, transFacts false t label beta K gap s = gapFit beta s label gap := by
      intro gap
      rw [(C79_gap_choice hl).2 hw t ⟨0, []⟩ K]
      simp only [transFacts, Bool.false_eq_true, if_false, tableFactors, column]
      have : ∃ lo hi, fitRange label = some (lo, hi) ∧ ¬ (beta < lo ∨ hi < beta) := by
        rcases hw with ⟨rfl, h0, h1⟩ | ⟨rfl, h0, h1⟩ | ⟨rfl, h0, h1⟩ | ⟨rfl, h0, h1⟩ <;>
          exact ⟨_, _, rfl, by rw [not_or, not_lt, not_lt]; exact ⟨h0, h1⟩⟩
      obtain ⟨lo, hi, h1, h2⟩ := this
      rw [h1]
      dsimp only
      rw [if_neg h2]
    rw [hfit, hfit, f1, f2]
    simp only [Except.ok.injEq, Gap.mk.injEq, neg_inj, sub_right_inj]
    constructor
    · rintro rfl
      simp
    · intro h
      cases g
      simp only at h
      cases g1
      rw [Gap.mk.injEq]
      exact h
  · cases b with
    | true => exact htab
    | false =>
      have h1 := (C79_gap_choice (label := label) (beta := beta) (K := K) (s := s) (gap := 1) hl).1 (fun hw => hb ⟨rfl, hw⟩) t
      have h2 := (C79_gap_choice (label := label) (beta := beta) (K := K) (s := s) (gap := 2) hl).1 (fun hw => hb ⟨rfl, hw⟩) t
      rw [h1, h2]
      exact htab

/-! ## The derivatives -/

/-- C79: the derivatives of the factors of a table with respect to the wave number are at most the length of the part of the
table that is used. -/
theorem C79_length {tz EM : List ℝ} {gap : Nat} {K h : ℝ} {half : Bool} {g : Gap} (hh : 0 < h)
    (he : Even tz (points tz half) h) (hg : calTransfac tz EM gap K half = .ok g) :
    |g.Tp| ≤ tz.getD (points tz half - 1) 0 - tz.getD 0 0 ∧ |g.Sp| ≤ tz.getD (points tz half - 1) 0 - tz.getD 0 0 := by
  have hcen := C63_centre hh he hg
  obtain ⟨h0, eml, c, h1, h2, h3, h4, -, -, -, h7, h8⟩ := calTransfac_even he hg
  have hp := eml_pos hh h1 h2
  have hc : (if gap = 2 then tz.getD (tz.length - 1) 0 - g.Ecen else g.Ecen) = c := by
    rw [h4]; split <;> ring
  dsimp only at hcen
  rw [hc] at hcen
  set L := tz.getD (points tz half - 1) 0 - tz.getD 0 0 with hL
  have hLn : L = ((points tz half : ℝ) - 1) * h := by
    rw [hL, he (points tz half - 1) (by omega), Nat.cast_sub (by omega : 1 ≤ points tz half)]
    push_cast
    ring
  have hz : ∀ k ∈ Finset.range (points tz half - 1), |((k : ℝ) + 1 / 2) * h - c| ≤ L := by
    intro k hk
    rw [Finset.mem_range] at hk
    have hk' : (k : ℝ) + 1 ≤ (points tz half : ℝ) - 1 := by
      have : (k + 2 : ℕ) ≤ points tz half := by omega
      have : ((k + 2 : ℕ) : ℝ) ≤ points tz half := by exact_mod_cast this
      push_cast at this
      linarith
    have hk0 : (0 : ℝ) ≤ k := Nat.cast_nonneg k
    have a1 : 0 ≤ ((k : ℝ) + 1 / 2) * h := by positivity
    have a2 : ((k : ℝ) + 1 / 2) * h ≤ L := by rw [hLn]; nlinarith
    rw [abs_le]
    constructor <;> linarith [hcen.1, hcen.2]
  have bound : ∀ f : ℕ → ℝ, (∀ k ∈ Finset.range (points tz half - 1), |f k| ≤ L) →
      |(∑ k ∈ Finset.range (points tz half - 1), (EM.getD k 0 + EM.getD (k + 1) 0) / 2 * h * f k) / eml| ≤ L := by
    intro f hf
    rw [abs_div, abs_of_pos hp, div_le_iff₀ hp]
    refine le_trans (Finset.abs_sum_le_sum_abs _ _) ?_
    rw [h1, Finset.mul_sum]
    apply Finset.sum_le_sum
    intro k hk
    have e1 : |(EM.getD k 0 + EM.getD (k + 1) 0) / 2 * h| ≤ (|EM.getD k 0| + |EM.getD (k + 1) 0|) / 2 * h := by
      rw [abs_mul, abs_div, abs_of_pos hh, abs_of_pos (by norm_num : (0 : ℝ) < 2)]
      have := abs_add_le (EM.getD k 0) (EM.getD (k + 1) 0)
      gcongr
    rw [abs_mul, mul_comm]
    exact mul_le_mul (hf k hk) e1 (abs_nonneg _) (le_trans (abs_nonneg _) (hf k hk))
  constructor
  · have : |g.Tp| = |if gap = 2 then -g.Tp else g.Tp| := by split <;> simp
    rw [this, h7]
    refine bound _ (fun k hk => ?_)
    rw [abs_mul, abs_neg]
    exact le_trans (mul_le_of_le_one_right (abs_nonneg _) (Real.abs_sin_le_one _)) (hz k hk)
  · rw [h8]
    refine bound _ (fun k hk => ?_)
    rw [abs_mul]
    exact le_trans (mul_le_of_le_one_right (abs_nonneg _) (Real.abs_cos_le_one _)) (hz k hk)

/-- C79: the fits of both gaps together, which the code offers but never asks for, do not have this property: two signs are
wrong in the derivatives of `S` for the cavities 41 and 53, which exceed the length of the cavity by far. -/
theorem C79_one_gap_false (t : Table) (K s : ℝ) :
    (∃ g, speeds 41 0.05 ∧ transFacts false t 41 0.05 K 0 s = .ok g ∧ 9 * (2 * halfLength 41) < |g.Sp|) ∧
    (∃ g, speeds 53 0.5 ∧ transFacts false t 53 0.5 K 0 s = .ok g ∧ 5 * (2 * halfLength 53) < |g.Sp|) := by
  have h1 : ∃ g, transFacts false t 41 0.05 K 0 s = .ok g ∧
      g.Sp = pwrSeries 0.05 [61.98, -1.073e4, 4.841e5, 9.284e6, 8.379e7, -2.926e8, 0, 0, 0, 0] := by
    unfold transFacts
    simp only [Bool.false_eq_true, if_false, fitRange]
    rw [if_neg (by norm_num)]
    exact ⟨_, rfl, rfl⟩
  have h2 : ∃ g, transFacts false t 53 0.5 K 0 s = .ok g ∧
      g.Sp = pwrSeries 0.5 [-1261, -1.413e4, 5.702e4, -1.111e5, 1.075e5, -4.167e4, 0, 0, 0, 0] := by
    unfold transFacts
    simp only [Bool.false_eq_true, if_false, fitRange]
    rw [if_neg (by norm_num)]
    exact ⟨_, rfl, rfl⟩
  obtain ⟨g1, a1, b1⟩ := h1
  obtain ⟨g2, a2, b2⟩ := h2
  refine ⟨⟨g1, Or.inl ⟨rfl, by norm_num, by norm_num⟩, a1, ?_⟩,
    ⟨g2, Or.inr (Or.inr (Or.inr ⟨rfl, by norm_num, by norm_num⟩)), a2, ?_⟩⟩
  · rw [b1, series_ten, lt_abs]
    left
    norm_num [halfLength]
  · rw [b2, series_ten, lt_abs]
    right
    norm_num [halfLength]

/-! ## Examples -/

/-- Five lines of a file, 30 mm apart, with a quadrupole and a focusing field. -/
def exRows : List Row :=
  [⟨0, 0, 0, 0, 0, 0, 0, 0⟩, ⟨30, 0, -2, 0, 3, 0, 0, 0⟩, ⟨60, 0, -5, 0, 4, 0, 0, 0⟩, ⟨90, 0, -2, 0, 1, 0, 0, 0⟩,
    ⟨120, 0, 0, 0, 0, 0, 0, 0⟩]

theorem exRows_spaced : SpecFit.Spaced exRows 30 := by
  intro k r r' h1 h2
  have : k < 5 := by
    by_contra hc
    rw [List.getElem?_eq_none (by simp [exRows]; omega)] at h1
    cases h1
  interval_cases k <;> simp [exRows] at h1 h2 <;> subst h1 <;> subst h2 <;> norm_num

theorem exRows_amount : SpecFit.amount exRows .EQuad 30 = 240 := by
  norm_num [SpecFit.amount, SpecFit.field, SpecFit.strength, exRows, Finset.sum_range_succ]

/-- The hypotheses of the theorems on multipoles: a table, and a wave number in and a wave number out of the range of the
fits of the cavity 41. -/
example : (∃ T S, transitFacMultipole true (SpecFit.table exRows) 1 .EQuad 0.03 = .ok (T, S) ∧ T ^ 2 + S ^ 2 ≤ 1) ∧
    (∃ T S, transitFacMultipole false (SpecFit.table exRows) 1 .EQuad 0.1 = .ok (T, S) ∧ T ^ 2 + S ^ 2 ≤ 1) ∧
    (∃ T S, transitFacMultipole false (SpecFit.table exRows) 1 .EQuad 0.03 = .ok (T, S) ∧ 1 / 2 ≤ T) ∧
    transitFacMultipole true ⟨7, exRows.map fun r => r.line.take 7⟩ 1 .HQuad 0.03 = .error .runtime := by
  have he : Even ((SpecFit.table exRows).rows.map (·.getD 0 0)) (SpecFit.table exRows).rows.length 30 := by
    have := spaced_even exRows_spaced exRows.length le_rfl
    have e : (SpecFit.table exRows).rows.map (·.getD 0 0) = exRows.map Row.z := by
      simp [SpecFit.table, Row.line]
    rw [e]
    simpa [SpecFit.table] using this
  have ha : SpecFit.amount exRows .EQuad 30 ≠ 0 := by rw [exRows_amount]; norm_num
  refine ⟨?_, ?_, ?_, C79_few (by decide)⟩
  · obtain ⟨T, S, h, -⟩ := C79_table (cavi := 1) (K := 0.03) exRows_spaced ha
    exact ⟨T, S, h, C79_disc (by norm_num) (by norm_num) he h⟩
  · obtain ⟨T, S, h, -⟩ := C79_table (cavi := 1) (K := 0.1) exRows_spaced ha
    rw [← (C79_choice (by norm_num)).1 (by unfold waves; norm_num)] at h
    exact ⟨T, S, h, C79_disc (by norm_num) (by norm_num) he h⟩
  · have hw : waves 1 0.03 := Or.inl ⟨rfl, by norm_num, by norm_num⟩
    have : ∃ T S, transitFacMultipole false (SpecFit.table exRows) 1 .EQuad 0.03 = .ok (T, S) := by
      rw [(C79_choice (by norm_num)).2 hw _ ⟨0, []⟩]
      simp only [transitFacMultipole, Bool.false_eq_true, if_false]
      rw [if_neg (by
        rintro ⟨lo, hi, h, h'⟩
        cases h
        norm_num at h')]
      exact ⟨_, _, rfl⟩
    obtain ⟨T, S, h⟩ := this
    refine ⟨T, S, h, ?_⟩
    have := (C79_direction hw h).1
    simpa [direction] using this

/-- The hypotheses of the theorems on gaps: a table of the field map of C63 and a velocity in the range of the fits. -/
example : let t : Table := ⟨2, exHalf.1.zipWith (fun z e => [z, e]) exHalf.2⟩
    (t.rows.map (·.getD 0 0)).getD (t.rows.length - 1) 0 = halfLength 41 ∧
    Even (t.rows.map (·.getD 0 0)) (t.rows.length / 2) 30 ∧
    (∃ g, transFacts true t 41 0.05 0.1 1 1 = .ok g) ∧ (∃ g, transFacts false t 41 0.05 0.1 1 1 = .ok g ∧ g.T ≤ -(1 / 2)) := by
  intro t
  have ht : t.rows.map (·.getD 0 0) = exHalf.1 := by simp [t, exHalf]
  have hn : t.rows.length = 9 := by simp [t, exHalf]
  refine ⟨?_, ?_, ?_, ?_⟩
  · rw [ht, hn]
    norm_num [exHalf, halfLength]
  · rw [ht, hn]
    exact exHalf_even
  · obtain ⟨g, hg⟩ := exHalf_ok 1 0.1
    refine ⟨{ g with V0 := g.V0 * 1 }, ?_⟩
    have hc : column t 2 = .ok exHalf := by
      unfold column
      rw [if_neg (by simp [t, exHalf]), ht]
      simp [t, exHalf]
    simp only [transFacts, if_true, tableFactors, hc, hg]
  · have hw : speeds 41 0.05 := Or.inl ⟨rfl, by norm_num, by norm_num⟩
    obtain ⟨g, h1, -, -, h2, -⟩ := gap_fits (s := 1) hw
    refine ⟨g, ?_, h2⟩
    unfold transFacts
    simp only [Bool.false_eq_true, if_false, fitRange]
    rw [if_neg (by norm_num)]
    exact h1

end Flame.Cavity
