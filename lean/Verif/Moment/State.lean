import Verif.Moment.Build
import Verif.Moment.Spec
import Verif.Moment.Advance

/-! # Initial states and flags: C53, C54 -/

namespace Flame.Moment

open Flame.Mach (St Err Out)
open Flame.Linear (LVal LCfg getNum getNumD getVec)
open Spec

/-! ## lookups -/

theorem getVec_ok {c : LCfg} {k : String} {v : List ℝ} : getVec c k = .ok v ↔ c k = some (.vec v) := by
  unfold getVec
  split
  · rename_i w h
    rw [h]
    simp
  · rename_i h
    constructor
    · intro h'; simp at h'
    · intro h'; exact absurd h' (h v)

theorem getNum_ok {c : LCfg} {k : String} {x : ℝ} : getNum c k = .ok x ↔ c k = some (.num x) := by
  unfold getNum
  split
  · rename_i w h
    rw [h]
    simp
  · rename_i h
    constructor
    · intro h'; simp at h'
    · intro h'; exact absurd h' (h x)

theorem optNum_some {c : LCfg} {k : String} {x : ℝ} : optNum c k = some x ↔ c k = some (.num x) := by
  unfold optNum
  rw [← getNum_ok]
  split
  · rename_i y h
    rw [h]
    simp
  · rename_i h
    rw [h]
    simp

theorem loadStorage_ok {n : Nat} {c : LCfg} {k : String} {v : List ℝ} :
    loadStorage n c k = .ok v ↔ c k = some (.vec v) ∧ v.length = n := by
  unfold loadStorage
  rw [← getVec_ok]
  split
  · rename_i w h
    rw [h]
    split
    · rename_i hl
      constructor
      · intro h'
        cases h'
        exact ⟨rfl, hl⟩
      · rintro ⟨h', -⟩
        cases h'
        rfl
    · rename_i hl
      constructor
      · intro h'; simp at h'
      · rintro ⟨h', h2⟩
        cases h'
        exact absurd h2 hl
  · rename_i h
    rw [h]
    simp

theorem loadStorage_err {n : Nat} {c : LCfg} {k : String} {e : Err} (h : loadStorage n c k = .error e) : e = .invalidArg := by
  unfold loadStorage at h
  split at h
  · split at h
    · simp at h
    · simpa using h.symm
  · simpa using h.symm

theorem toSize_ok {x : ℝ} {k : Nat} : toSize x = some k ↔ Truncated x k ∧ k < 2 ^ 64 := by
  unfold toSize Truncated
  constructor
  · intro h
    split at h
    · rename_i hx
      simp only [Option.some.injEq] at h
      subst h
      by_cases h0 : 0 ≤ x
      · have hf : (0 : ℤ) ≤ ⌊x⌋ := Int.floor_nonneg.2 h0
        have e : ((⌊x⌋.toNat : ℕ) : ℝ) = (⌊x⌋ : ℝ) := by
          have : ((⌊x⌋.toNat : ℕ) : ℤ) = ⌊x⌋ := Int.toNat_of_nonneg hf
          exact_mod_cast this
        refine ⟨.inl ⟨by rw [e]; exact Int.floor_le x, by rw [e]; exact Int.lt_floor_add_one x⟩, ?_⟩
        have h1 : ((⌊x⌋.toNat : ℕ) : ℝ) < 2 ^ 64 := by rw [e]; exact lt_of_le_of_lt (Int.floor_le x) hx.2
        exact_mod_cast h1
      · push Not at h0
        have hf : ⌊x⌋ < 0 := Int.floor_lt.2 (by simpa using h0)
        have : ⌊x⌋.toNat = 0 := Int.toNat_of_nonpos (by omega)
        rw [this]
        exact ⟨.inr ⟨rfl, hx.1, h0⟩, by norm_num⟩
    · simp at h
  · rintro ⟨⟨h1, h2⟩ | ⟨rfl, h1, h2⟩, hk⟩
    · have hk' : (k : ℝ) + 1 ≤ 2 ^ 64 := by exact_mod_cast hk
      have hfl : ⌊x⌋ = (k : ℤ) := by
        rw [Int.floor_eq_iff]
        exact ⟨by exact_mod_cast h1, by exact_mod_cast h2⟩
      have hk0 : (0 : ℝ) ≤ k := by positivity
      rw [if_pos ⟨by linarith, by linarith⟩, hfl]
      simp
    · rw [if_pos ⟨h1, by linarith [show (0:ℝ) < 2 ^ 64 by norm_num]⟩]
      have hf : ⌊x⌋ < 0 := Int.floor_lt.2 (by simpa using h2)
      have : ⌊x⌋.toNat = 0 := Int.toNat_of_nonpos (by omega)
      rw [this]

/-! ## charge states -/

theorem newCharge_ok {c : LCfg} {ref : Particle} {num : Nat} {Z Q : ℝ} {q : Particle × Vec × Mat} :
    newCharge c ref num Z Q = .ok q ↔ ∃ v S, 
      c (getStrD c "vector_variable" "moment0" ++ toString num) = some (.vec v) ∧ v.length = 7 ∧
      c (getStrD c "matrix_variable" "initial" ++ toString num) = some (.vec S) ∧ S.length = 49 ∧
      q = (Particle.recalc { ref with IonZ := Z, IonQ := Q, phis := vecOf v 4, IonEk := ref.IonEk + vecOf v 5 * MeVtoeV },
        vecOf v, matOf S) := by
  unfold newCharge
  constructor
  · intro h
    split at h
    · simp at h
    · rename_i v hv
      split at h
      · simp at h
      · rename_i S hS
        simp only [Except.ok.injEq] at h
        obtain ⟨a, b⟩ := loadStorage_ok.1 hv
        obtain ⟨a', b'⟩ := loadStorage_ok.1 hS
        exact ⟨v, S, a, b, a', b', h.symm⟩
  · rintro ⟨v, S, a, b, a', b', rfl⟩
    rw [loadStorage_ok.2 ⟨a, b⟩, loadStorage_ok.2 ⟨a', b'⟩]

theorem newCharge_err {c : LCfg} {ref : Particle} {num : Nat} {Z Q : ℝ} {e : Err}
    (h : newCharge c ref num Z Q = .error e) : e = .invalidArg := by
  unfold newCharge at h
  split at h
  · rename_i h'
    simp only [Except.error.injEq] at h
    subst h
    exact loadStorage_err h'
  · split at h
    · rename_i h'
      simp only [Except.error.injEq] at h
      subst h
      exact loadStorage_err h'
    · simp at h

theorem newCharges_ok {c : LCfg} {ref : Particle} : ∀ {l : List (ℝ × ℝ)} {num : Nat} {r : List (Particle × Vec × Mat)},
    newCharges c ref num l = .ok r ↔ r.length = l.length ∧
      ∀ k (hk : k < l.length) (hr : k < r.length), newCharge c ref (num + k) l[k].1 l[k].2 = .ok r[k]
  | [], num, r => by
    simp only [newCharges, Except.ok.injEq]
    constructor
    · rintro rfl
      exact ⟨rfl, fun k hk => by simp at hk⟩
    · rintro ⟨h, -⟩
      exact (List.length_eq_zero_iff.1 h).symm
  | (Z, Q) :: l, num, r => by
    simp only [newCharges]
    constructor
    · intro h
      split at h
      · simp at h
      · rename_i q hq
        split at h
        · simp at h
        · rename_i t ht
          simp only [Except.ok.injEq] at h
          subst h
          obtain ⟨h1, h2⟩ := newCharges_ok.1 ht
          refine ⟨by simp [h1], fun k hk hr => ?_⟩
          cases k with
          | zero => exact hq
          | succ k =>
            have := h2 k (by simpa using hk) (by simpa using hr)
            rw [show num + (k + 1) = num + 1 + k by omega]
            exact this
    · rintro ⟨h1, h2⟩
      match r, h1, h2 with
      | q :: t, h1, h2 =>
        have a := h2 0 (by simp) (by simp)
        simp only [Nat.add_zero, List.getElem_cons_zero] at a
        rw [a]
        have b : newCharges c ref (num + 1) l = .ok t := newCharges_ok.2 ⟨by simpa using h1, fun k hk hr => by
          have := h2 (k + 1) (by simpa using hk) (by simpa using hr)
          rw [show num + 1 + k = num + (k + 1) by omega]
          exact this⟩
        rw [b]

theorem newCharges_err {c : LCfg} {ref : Particle} : ∀ {l : List (ℝ × ℝ)} {num : Nat} {e : Err},
    newCharges c ref num l = .error e → e = .invalidArg
  | [], _, _, h => by simp [newCharges] at h
  | (Z, Q) :: l, num, e, h => by
    simp only [newCharges] at h
    split at h
    · rename_i h'
      simp only [Except.error.injEq] at h
      subst h
      exact newCharge_err h'
    · split at h
      · rename_i h'
        simp only [Except.error.injEq] at h
        subst h
        exact newCharges_err h'
      · simp at h

theorem newMany_ok {c : LCfg} {cs : Option Nat} {ics : List ℝ} {s : MSt} :
    newMany c cs ics = .ok s ↔ ics ≠ [] ∧ cs.getD 0 < ics.length ∧
      ∃ nchg, c "NCharge" = some (.vec nchg) ∧ nchg.length = ics.length ∧ ∃ l,
        newCharges c (newRef c (getNumD c "IonZ" (ics.headD 0)) (getNumD c "IonQ" (nchg.headD 0))) (cs.getD 0)
          (chosen cs (ics.zip nchg)) = .ok l ∧
        s = stateOf (newRef c (getNumD c "IonZ" (ics.headD 0)) (getNumD c "IonQ" (nchg.headD 0))) l := by
  unfold newMany
  constructor
  · intro h
    split at h
    · cases h
    · rename_i h1
      split at h
      · cases h
      · rename_i h2
        split at h
        · cases h
        · rename_i nchg h3
          split at h
          · cases h
          · rename_i h4
            dsimp only at h
            split at h
            · cases h
            · rename_i l h5
              simp only [Except.ok.injEq] at h
              exact ⟨h1, by omega, nchg, getVec_ok.1 h3, by omega, l, h5, h.symm⟩
  · rintro ⟨h1, h2, nchg, h3, h4, l, h5, rfl⟩
    rw [if_neg h1, if_neg (by omega), getVec_ok.2 h3]
    dsimp only
    rw [if_neg (by omega), h5]

theorem newMany_err {c : LCfg} {cs : Option Nat} {ics : List ℝ} {e : Err} (h : newMany c cs ics = .error e) :
    e = .invalidArg ∨ (e = .keyError ∧ ∀ v, c "NCharge" ≠ some (.vec v)) := by
  unfold newMany at h
  split at h
  · cases h; exact .inl rfl
  · split at h
    · cases h; exact .inl rfl
    · split at h
      · rename_i e' h3
        cases h
        refine .inr ⟨?_, ?_⟩
        · unfold getVec at h3
          split at h3
          · cases h3
          · cases h3; rfl
        · intro v hv
          rw [getVec_ok.2 hv] at h3
          cases h3
      · split at h
        · cases h; exact .inl rfl
        · dsimp only at h
          split at h
          · rename_i h5
            cases h
            exact .inl (newCharges_err h5)
          · cases h

/-- The number of the first charge state and the selection, as the constructor sees them. -/
theorem newState_many {junk : Mat} {c : LCfg} {ics : List ℝ} {sel : List ℕ}
    (hics : c "IonChargeStates" = some (.vec ics)) (hsel : Selects c ics.length sel) :
    ∃ cs : Option Nat, (newState junk c = match newMany c cs ics with
        | .error e => .err e
        | .ok s => .ok s) ∧
      (∀ i ∈ sel, cs.getD 0 < ics.length → i < ics.length) ∧
      ((∀ i ∈ sel, i < ics.length) → ics ≠ [] → cs.getD 0 < ics.length) ∧
      ∀ nchg : List ℝ, nchg.length = ics.length → cs.getD 0 < ics.length →
        (chosen cs (ics.zip nchg)).length = sel.length ∧
        ∀ k i, sel[k]? = some i → i = cs.getD 0 + k ∧ ∃ Z Q, ics[i]? = some Z ∧ nchg[i]? = some Q ∧
          (chosen cs (ics.zip nchg))[k]? = some (Z, Q) := by
  rcases hsel with ⟨hn, rfl⟩ | ⟨x, k, hx, ht, hk, rfl⟩
  · have ho : optNum c "cstate" = none := by
      cases ho : optNum c "cstate" with
      | none => rfl
      | some x => exact absurd (optNum_some.1 ho) (hn x)
    have h0 : toSize 0 = some 0 := toSize_ok.2 ⟨.inl (by norm_num), by norm_num⟩
    refine ⟨none, ?_, ?_, ?_, ?_⟩
    · unfold newState
      rw [ho]
      simp only [Option.getD_none, h0, getVec_ok.2 hics, Option.map_none]
      rfl
    · intro i hi _
      simpa using hi
    · intro _ hne
      simpa using List.length_pos_iff.2 hne
    · intro nchg hl _
      refine ⟨by simp [chosen, hl], ?_⟩
      intro k i hi
      have hk : k < ics.length := by
        rcases Nat.lt_or_ge k ics.length with h | h
        · exact h
        · rw [List.getElem?_eq_none (by simpa using h)] at hi; simp at hi
      rw [List.getElem?_range hk] at hi
      simp only [Option.some.injEq] at hi
      subst hi
      refine ⟨by simp, ics[k], nchg[k], by simp, by simp, ?_⟩
      show (ics.zip nchg)[k]? = _
      rw [List.getElem?_eq_getElem (by simp [hl, hk])]
      simp
  · have ho : optNum c "cstate" = some x := optNum_some.2 hx
    refine ⟨some k, ?_, ?_, ?_, ?_⟩
    · unfold newState
      rw [ho]
      simp only [Option.getD_some, toSize_ok.2 ⟨ht, hk⟩, getVec_ok.2 hics, Option.map_some]
      rfl
    · intro i hi h
      simp only [List.mem_singleton] at hi
      subst hi
      simpa using h
    · intro h _
      simpa using h k (by simp)
    · intro nchg hl hlt
      have hlt' : k < ics.length := by simpa using hlt
      have hch : chosen (some k) (ics.zip nchg) = [(ics[k], nchg[k])] := by
        show ((ics.zip nchg).drop k).take 1 = _
        rw [List.drop_eq_getElem_cons (by simp [hl, hlt'])]
        simp
      rw [hch]
      refine ⟨rfl, ?_⟩
      intro j i hi
      cases j with
      | zero =>
        simp only [List.getElem?_cons_zero, Option.some.injEq] at hi
        subst hi
        exact ⟨by simp, ics[k], nchg[k], by simp, by simp, rfl⟩
      | succ j => simp at hi

/-! ## C54 -/

/-- With a list of charge states the constructor accepts exactly these configurations: the list is not empty, there is a
weight for each charge, the selected charge state exists, and each charge state to be set up has a centroid of 7 values
and a covariance of 49. -/
theorem C54_accepts (junk : Mat) (c : LCfg) (ics : List ℝ) (sel : List ℕ)
    (hics : c "IonChargeStates" = some (.vec ics)) (hsel : Selects c ics.length sel) :
    (∃ s, newState junk c = .ok s) ↔
      ics ≠ [] ∧ (∃ nchg, c "NCharge" = some (.vec nchg) ∧ nchg.length = ics.length) ∧
      ∀ i ∈ sel, i < ics.length ∧ ∃ v S, Moments c i v S := by
  obtain ⟨cs, hst, hb1, hb2, hch⟩ := newState_many (junk := junk) hics hsel
  have hiff : (∃ s, newState junk c = .ok s) ↔ ∃ s, newMany c cs ics = .ok s := by
    rw [hst]
    constructor
    · rintro ⟨s, h⟩
      split at h
      · cases h
      · rename_i s' h'
        exact ⟨s', h'⟩
    · rintro ⟨s, h⟩
      rw [h]
      exact ⟨s, rfl⟩
  rw [hiff]
  constructor
  · rintro ⟨s, h⟩
    obtain ⟨h1, h2, nchg, h3, h4, l, h5, -⟩ := newMany_ok.1 h
    refine ⟨h1, ⟨nchg, h3, h4⟩, fun i hi => ⟨hb1 i hi h2, ?_⟩⟩
    obtain ⟨hlen, hget⟩ := hch nchg h4 h2
    obtain ⟨hl1, hl2⟩ := newCharges_ok.1 h5
    obtain ⟨k, hk, rfl⟩ := List.getElem_of_mem hi
    obtain ⟨hi2, Z, Q, -, -, hZQ⟩ := hget k _ (List.getElem?_eq_getElem hk)
    have := hl2 k (by omega) (by omega)
    rw [← hi2] at this
    obtain ⟨v, S, a1, a2, a3, a4, -⟩ := newCharge_ok.1 this
    exact ⟨v, S, a1, a2, a3, a4⟩
  · rintro ⟨h1, ⟨nchg, h3, h4⟩, hall⟩
    have h2 := hb2 (fun i hi => (hall i hi).1) h1
    obtain ⟨hlen, hget⟩ := hch nchg h4 h2
    have key : ∃ l, newCharges c (newRef c (getNumD c "IonZ" (ics.headD 0)) (getNumD c "IonQ" (nchg.headD 0))) (cs.getD 0)
        (chosen cs (ics.zip nchg)) = .ok l := by
      cases hn : newCharges c (newRef c (getNumD c "IonZ" (ics.headD 0)) (getNumD c "IonQ" (nchg.headD 0))) (cs.getD 0)
        (chosen cs (ics.zip nchg)) with
      | ok l => exact ⟨l, rfl⟩
      | error e =>
        exfalso
        have gen : ∀ (l : List (ℝ × ℝ)) (num : Nat) (ref : Particle),
            (∀ k, k < l.length → ∃ v S, Moments c (num + k) v S) → ∃ r, newCharges c ref num l = .ok r := by
          intro l
          induction l with
          | nil => intro num ref _; exact ⟨[], rfl⟩
          | cons q l ih =>
            intro num ref hm
            obtain ⟨v, S, a1, a2, a3, a4⟩ := hm 0 (by simp)
            obtain ⟨r, hr⟩ := ih (num + 1) ref (fun k hk => by
              have := hm (k + 1) (by simpa using hk)
              rw [show num + 1 + k = num + (k + 1) by omega]
              exact this)
            have := (newCharge_ok (ref := ref) (Z := q.1) (Q := q.2)).2 ⟨v, S, a1, a2, a3, a4, rfl⟩
            simp only [Nat.add_zero] at this
            obtain ⟨Z, Q⟩ := q
            dsimp only at this
            exact ⟨_, by simp only [newCharges, this, hr]; rfl⟩
        obtain ⟨r, hr⟩ := gen (chosen cs (ics.zip nchg)) (cs.getD 0)
          (newRef c (getNumD c "IonZ" (ics.headD 0)) (getNumD c "IonQ" (nchg.headD 0))) (fun k hk => by
            have hks : k < sel.length := by omega
            obtain ⟨hi2, -⟩ := hget k _ (List.getElem?_eq_getElem hks)
            rw [← hi2]
            exact (hall _ (List.getElem_mem hks)).2)
        rw [hr] at hn
        cases hn
    obtain ⟨l, hl⟩ := key
    exact ⟨_, newMany_ok.2 ⟨h1, h2, nchg, h3, h4, l, hl, rfl⟩⟩

/-- What does not satisfy these conditions is refused with an exception: `key_error` for missing weights,
`invalid_argument` otherwise.  Partial: the full claim, for every value of 'cstate', is false (`C54_cstate_false`); `Selects`
leaves out the values beyond the range of `size_t`. -/
theorem C54_refuses_partial (junk : Mat) (c : LCfg) (ics : List ℝ) (sel : List ℕ)
    (hics : c "IonChargeStates" = some (.vec ics)) (hsel : Selects c ics.length sel)
    (hno : ¬ ∃ s, newState junk c = .ok s) :
    newState junk c = .err .invalidArg ∨
      (newState junk c = .err .keyError ∧ ∀ v, c "NCharge" ≠ some (.vec v)) := by
  obtain ⟨cs, hst, -⟩ := newState_many (junk := junk) hics hsel
  rw [hst] at hno ⊢
  cases h : newMany c cs ics with
  | ok s => rw [h] at hno; exact absurd ⟨s, rfl⟩ hno
  | error e =>
    rcases newMany_err h with rfl | ⟨rfl, hv⟩
    · exact .inl rfl
    · exact .inr ⟨rfl, hv⟩

/-- What an accepted state contains: one particle, centroid, covariance and transfer matrix for each charge state to be
set up, each with its own charge, weight, phase and energy; a reference particle with the configured values; dependent
values and envelope up to date. -/
theorem C54_contents (junk : Mat) (c : LCfg) (ics : List ℝ) (sel : List ℕ) (s : MSt)
    (hics : c "IonChargeStates" = some (.vec ics)) (hsel : Selects c ics.length sel) (h : newState junk c = .ok s) :
    ∃ nchg, c "NCharge" = some (.vec nchg) ∧
      s.real.length = sel.length ∧ s.moment0.length = sel.length ∧ s.moment1.length = sel.length ∧
      s.transmat = List.replicate sel.length 1 ∧ s.pos = 0 ∧
      s.ref.IonZ = numOr c "IonZ" (ics.headD 0) ∧ s.ref.IonQ = numOr c "IonQ" (nchg.headD 0) ∧
      s.ref.IonEs = numOr c "IonEs" 0 ∧ s.ref.IonEk = numOr c "IonEk" 0 ∧
      s.ref.SampleFreq = numOr c "SampleFreq" 80500000 ∧ s.ref.phis = 0 ∧ s.ref.recalc = s.ref ∧
      (∀ (k i : Nat), sel[k]? = some i → ∃ (v S : List ℝ) (p : Particle), Moments c i v S ∧ s.real[k]? = some p ∧
        s.moment0[k]? = some (fun j : Fin 7 => v.getD j.val 0) ∧
        s.moment1[k]? = some (fun a b : Fin 7 => S.getD (7 * a.val + b.val) 0) ∧
        ics[i]? = some p.IonZ ∧ nchg[i]? = some p.IonQ ∧ p.phis = v.getD 4 0 ∧
        p.IonEk = s.ref.IonEk + v.getD 5 0 * 1000000 ∧ p.IonEs = s.ref.IonEs ∧ p.SampleFreq = s.ref.SampleFreq ∧
        p.recalc = p) ∧
      s.calcRms = s := by
  obtain ⟨cs, hst, hb1, hb2, hch⟩ := newState_many (junk := junk) hics hsel
  rw [hst] at h
  split at h
  · cases h
  · rename_i s' hm
    cases h
    obtain ⟨h1, h2, nchg, h3, h4, l, h5, rfl⟩ := newMany_ok.1 hm
    obtain ⟨hlen, hget⟩ := hch nchg h4 h2
    obtain ⟨hl1, hl2⟩ := newCharges_ok.1 h5
    have hll : l.length = sel.length := by omega
    refine ⟨nchg, h3, by simpa [stateOf, MSt.calcRms] using hll, by simpa [stateOf, MSt.calcRms] using hll,
      by simpa [stateOf, MSt.calcRms] using hll, ?_, rfl, rfl, rfl, rfl, rfl, rfl, rfl, rfl, ?_, rfl⟩
    · simp only [stateOf, MSt.calcRms, List.map_const', hll]
    · intro k i hi
      have hk : k < sel.length := (List.getElem?_eq_some_iff.1 hi).1
      obtain ⟨hi2, Z, Q, hZ, hQ, hZQ⟩ := hget k i hi
      have hc := hl2 k (by omega) (by omega)
      have hzq : (chosen cs (ics.zip nchg))[k] = (Z, Q) := by
        rw [List.getElem?_eq_getElem (by omega)] at hZQ
        exact Option.some.inj hZQ
      rw [hzq, ← hi2] at hc
      obtain ⟨v, S, a1, a2, a3, a4, hq⟩ := newCharge_ok.1 hc
      refine ⟨v, S, l[k].1, ⟨a1, a2, a3, a4⟩, ?_, ?_, ?_, ?_, ?_, ?_, ?_, ?_, ?_, ?_⟩
      · simp [stateOf, MSt.calcRms, List.getElem?_eq_getElem (show k < l.length by omega)]
      · simp [stateOf, MSt.calcRms, List.getElem?_eq_getElem (show k < l.length by omega), hq]
        rfl
      · simp [stateOf, MSt.calcRms, List.getElem?_eq_getElem (show k < l.length by omega), hq]
        rfl
      · rw [hZ, hq]; rfl
      · rw [hQ, hq]; rfl
      · rw [hq]; rfl
      · rw [hq]; rfl
      · rw [hq]; rfl
      · rw [hq]; rfl
      · rw [hq]; rfl

/-- A selection without a list of charge states is refused. -/
theorem C54_selection_needs_list (junk : Mat) (c : LCfg) (x : ℝ) (k : ℕ) (hics : ∀ v, c "IonChargeStates" ≠ some (.vec v))
    (hx : c "cstate" = some (.num x)) (ht : Truncated x k) (hk : k < 2 ^ 64) : newState junk c = .err .invalidArg := by
  unfold newState
  rw [optNum_some.2 hx]
  simp only [Option.getD_some, toSize_ok.2 ⟨ht, hk⟩]
  split
  · rfl
  · rename_i ics h
    exact absurd (getVec_ok.1 h) (hics ics)

/-- Without a list and a selection there is one charge state, with the configured moments if there are such. -/
theorem C54_single (junk : Mat) (c : LCfg) (hics : ∀ v, c "IonChargeStates" ≠ some (.vec v))
    (hx : ∀ x, c "cstate" ≠ some (.num x)) :
    ∃ s p v M, newState junk c = .ok s ∧ s.real = [p] ∧ s.ref = p ∧ s.moment0 = [v] ∧ s.moment1 = [M] ∧
      s.transmat = [1] ∧ s.pos = 0 ∧ p.recalc = p ∧ s.calcRms = s ∧
      p.IonZ = numOr c "IonZ" 0 ∧ p.IonQ = numOr c "IonQ" 1 ∧ p.IonEs = numOr c "IonEs" 0 ∧
      p.IonEk = numOr c "IonEk" 0 ∧ p.SampleFreq = numOr c "SampleFreq" 80500000 ∧
      (∀ l, c (textOr c "vector_variable" "moment0") = some (.vec l) → l.length = 7 → v = fun j : Fin 7 => l.getD j.val 0) ∧
      (∀ l, c (textOr c "matrix_variable" "initial") = some (.vec l) → l.length = 49 → M = fun a b : Fin 7 => l.getD (7 * a.val + b.val) 0) ∧
      ((∀ l, c (textOr c "vector_variable" "moment0") = some (.vec l) → l.length ≠ 7) → v = 0) ∧
      ((∀ l, c (textOr c "matrix_variable" "initial") = some (.vec l) → l.length ≠ 49) → M = junk) := by
  have ho : optNum c "cstate" = none := by
    cases ho : optNum c "cstate" with
    | none => rfl
    | some x => exact absurd (optNum_some.1 ho) (hx x)
  have h0 : toSize 0 = some 0 := toSize_ok.2 ⟨.inl (by norm_num), by norm_num⟩
  have hn : newState junk c = .ok (newSingle junk c) := by
    unfold newState
    rw [ho]
    simp only [Option.getD_none, h0]
    split
    · rfl
    · rename_i ics h
      exact absurd (getVec_ok.1 h) (hics ics)
  have e1 : textOr c "vector_variable" "moment0" = getStrD c "vector_variable" "moment0" := rfl
  have e2 : textOr c "matrix_variable" "initial" = getStrD c "matrix_variable" "initial" := rfl
  refine ⟨_, _, _, _, hn, rfl, rfl, rfl, rfl, rfl, rfl, rfl, rfl, rfl, rfl, rfl, rfl, rfl, ?_, ?_, ?_, ?_⟩
  · intro l hl h7
    rw [e1] at hl
    rw [loadStorage_ok.2 ⟨hl, h7⟩]
    rfl
  · intro l hl h7
    rw [e2] at hl
    rw [loadStorage_ok.2 ⟨hl, h7⟩]
    rfl
  · intro hl
    rw [e1] at hl
    split
    · rename_i v hv
      obtain ⟨a, b⟩ := loadStorage_ok.1 hv
      exact absurd b (hl v a)
    · rfl
  · intro hl
    rw [e2] at hl
    dsimp only
    cases hM : loadStorage 49 c (getStrD c "matrix_variable" "initial") with
    | ok v =>
      obtain ⟨a, b⟩ := loadStorage_ok.1 hM
      exact absurd b (hl v a)
    | error e => rfl

/-- A 'cstate' that is no index is not always refused: if it does not fit into `size_t`, for instance -1, its conversion is
undefined behaviour. -/
theorem C54_cstate_false : ∀ (junk : Mat) (c : LCfg) (x : ℝ), c "cstate" = some (.num x) → x ≤ -1 ∨ 2 ^ 64 ≤ x →
    newState junk c = .ub := by
  intro junk c x hx h
  unfold newState
  rw [optNum_some.2 hx]
  have : toSize x = none := by
    unfold toSize
    rw [if_neg]
    rintro ⟨h1, h2⟩
    rcases h with h | h <;> linarith
  simp only [Option.getD_some, this]

/-- Without a list of charge states a missing or wrongly sized covariance is not an error and is not replaced by the
identity, as a comment in `load_storage` says, but left as the memory was: any matrix can result. -/
theorem C54_uninitialised (c : LCfg) (hics : ∀ v, c "IonChargeStates" ≠ some (.vec v))
    (hx : ∀ x, c "cstate" ≠ some (.num x))
    (hm : ∀ l, c (textOr c "matrix_variable" "initial") = some (.vec l) → l.length ≠ 49) (M : Mat) :
    ∃ junk s, newState junk c = .ok s ∧ s.moment1 = [M] := by
  obtain ⟨s, p, v, M', h1, h2, h3, h4, h5, h6, h7, h8, h9, h10, h11, h12, h13, h14, h15, h16, h17, h18⟩ := C54_single M c hics hx
  exact ⟨M, s, h1, by rw [h5, h18 hm]⟩

/-- Three charge states of which the third is selected. -/
noncomputable def exCharges : LCfg := fun k =>
  if k = "IonChargeStates" then some (.vec [33, 34, 35])
  else if k = "NCharge" then some (.vec [10, 20, 30])
  else if k = "cstate" then some (.num (5 / 2))
  else if k = "vector_variable" then some (.str "P")
  else if k = "P2" then some (.vec [1, 2, 3, 4, 5, 6, 1])
  else if k = "initial2" then some (.vec (List.replicate 49 7))
  else if k = "IonEs" then some (.num 931494320)
  else if k = "IonEk" then some (.num 500000)
  else none

theorem toString_two : toString (2 : ℕ) = "2" := by decide +kernel

theorem exCharges_selects : Selects exCharges 3 [2] :=
  .inr ⟨5 / 2, 2, rfl, .inl ⟨by norm_num, by norm_num⟩, by norm_num, rfl⟩

theorem exCharges_moments : Moments exCharges 2 [1, 2, 3, 4, 5, 6, 1] (List.replicate 49 7) := by
  have e1 : textOr exCharges "vector_variable" "moment0" = "P" := rfl
  have e2 : textOr exCharges "matrix_variable" "initial" = "initial" := rfl
  unfold Moments
  rw [e1, e2, toString_two]
  exact ⟨rfl, rfl, rfl, rfl⟩

/-- The hypotheses of `C54_accepts` and `C54_contents` are met, and so is the right side. -/
example (junk : Mat) : ∃ s, newState junk exCharges = .ok s ∧ s.real.map (·.IonZ) = [35] := by
  have acc := (C54_accepts junk exCharges [33, 34, 35] [2] rfl exCharges_selects).2
    ⟨by simp, ⟨[10, 20, 30], rfl, rfl⟩, fun i hi => by
      simp only [List.mem_singleton] at hi
      subst hi
      exact ⟨by norm_num, _, _, exCharges_moments⟩⟩
  obtain ⟨s, hs⟩ := acc
  obtain ⟨nchg, -, hl, -, -, -, -, -, -, -, -, -, -, -, hk, -⟩ := C54_contents junk exCharges _ _ s rfl exCharges_selects hs
  obtain ⟨v, S, p, -, hp, -, -, hz, -⟩ := hk 0 2 rfl
  refine ⟨s, hs, ?_⟩
  match h : s.real, hl with
  | [q], _ =>
    rw [h] at hp
    simp only [List.getElem?_cons_zero, Option.some.injEq] at hp
    subst hp
    simp only [List.map_cons, List.map_nil]
    simp only [List.getElem?_cons_succ, List.getElem?_cons_zero, Option.some.injEq] at hz
    rw [← hz]

/-- The hypotheses of `C54_refuses_partial`: one weight is missing. -/
example (junk : Mat) : ∃ c ics sel, c "IonChargeStates" = some (.vec ics) ∧ Selects c ics.length sel ∧
    ¬ ∃ s, newState junk c = .ok s := by
  have hs : Selects (fun k => if k = "NCharge" then some (.vec [10, 20]) else exCharges k) 3 [2] :=
    .inr ⟨5 / 2, 2, rfl, .inl ⟨by norm_num, by norm_num⟩, by norm_num, rfl⟩
  refine ⟨_, [33, 34, 35], [2], rfl, hs, ?_⟩
  rw [C54_accepts junk _ [33, 34, 35] [2] rfl hs]
  rintro ⟨-, ⟨nchg, h1, h2⟩, -⟩
  simp only [if_true, Option.some.injEq, LVal.vec.injEq] at h1
  subst h1
  simp at h2

/-- The hypotheses of `C54_selection_needs_list`, of `C54_single` and of `C54_uninitialised`. -/
example : (∃ c : LCfg, (∀ v, c "IonChargeStates" ≠ some (.vec v)) ∧ c "cstate" = some (.num 1) ∧ Truncated 1 1) ∧
    ∃ c : LCfg, (∀ v, c "IonChargeStates" ≠ some (.vec v)) ∧ (∀ x, c "cstate" ≠ some (.num x)) ∧
      c "IonEs" = some (.num 931494320) ∧ ∀ l, c (textOr c "matrix_variable" "initial") = some (.vec l) → l.length ≠ 49 :=
  ⟨⟨fun k => if k = "cstate" then some (.num 1) else none, by simp, rfl, .inl (by norm_num)⟩,
    ⟨fun k => if k = "IonEs" then some (.num 931494320) else none, by simp, by simp, rfl, fun l h => by
      have e2 : textOr (fun k => if k = "IonEs" then some (.num 931494320) else none) "matrix_variable" "initial" =
        "initial" := rfl
      rw [e2] at h
      simp at h⟩⟩

/-! ## C53 -/

theorem asUnsigned_ok {x : ℝ} {n : ℕ} : asUnsigned x = .ok n ↔ (n : ℝ) = x ∧ n < 2 ^ 32 := by
  unfold asUnsigned
  constructor
  · intro h
    split at h
    · rename_i hx
      simp only [Except.ok.injEq] at h
      subst h
      refine ⟨hx.2.2, ?_⟩
      have : ((⌊x⌋.toNat : ℕ) : ℝ) < 2 ^ 32 := by rw [hx.2.2]; exact hx.2.1
      exact_mod_cast this
    · cases h
  · rintro ⟨rfl, hn⟩
    have : (n : ℝ) < 2 ^ 32 := by exact_mod_cast hn
    rw [if_pos ⟨by positivity, this, by simp⟩]
    simp

theorem asUnsigned_err {x : ℝ} (h : ¬ ∃ n : ℕ, (n : ℝ) = x ∧ n < 2 ^ 32) : asUnsigned x = .error .runtime := by
  unfold asUnsigned
  split
  · rename_i hx
    refine absurd ⟨_, hx.2.2, ?_⟩ h
    have : ((⌊x⌋.toNat : ℕ) : ℝ) < 2 ^ 32 := by rw [hx.2.2]; exact hx.2.1
    exact_mod_cast this
  · rfl

/-- Outcome of reading the value `x` as a flag. -/
def FlagOf (x : ℝ) (r : Except Err ℕ) : Prop :=
  (∀ n : ℕ, (n : ℝ) = x → n < 2 ^ 32 → r = .ok n) ∧
  ((¬ ∃ n : ℕ, (n : ℝ) = x ∧ n < 2 ^ 32) → r = .error .runtime)

theorem flagOf_asUnsigned (x : ℝ) : FlagOf x (asUnsigned x) :=
  ⟨fun _ h1 h2 => asUnsigned_ok.2 ⟨h1, h2⟩, fun h => asUnsigned_err h⟩

/-- A flag given as a number, or as a text that is a number, is taken if it is an integer from 0 to 2^32-1 and refused
otherwise; a missing flag gives the default.  Partial: a text that is no number and a value of another type should be
refused, but are not (`C53_false`). -/
theorem C53_partial (env : Env) (c : LCfg) (name : String) (dflt : ℕ) (hd : dflt < 2 ^ 32) :
    (∀ x, c name = some (.num x) → FlagOf x (getFlag env c name dflt)) ∧
    (∀ t x, c name = some (.str t) → env.parse t = some x → FlagOf x (getFlag env c name dflt)) ∧
    (c name = none → getFlag env c name dflt = .ok dflt) := by
  refine ⟨?_, ?_, ?_⟩
  · intro x hx
    have : getFlag env c name dflt = asUnsigned x := by
      simp [getFlag, getStr, hx, getNum]
    rw [this]
    exact flagOf_asUnsigned x
  · intro t x ht hp
    have : getFlag env c name dflt = asUnsigned x := by
      simp [getFlag, getStr, ht, hp]
    rw [this]
    exact flagOf_asUnsigned x
  · intro hn
    have : getFlag env c name dflt = asUnsigned dflt := by
      simp [getFlag, getStr, hn, getNum]
    rw [this]
    exact asUnsigned_ok.2 ⟨rfl, hd⟩

/-- Not everything else is refused: a text that is no number, and a value that is neither text nor number, count as
missing. -/
theorem C53_false (env : Env) (c : LCfg) (name : String) (dflt : ℕ) (hd : dflt < 2 ^ 32)
    (h : (∃ t, c name = some (.str t) ∧ env.parse t = none) ∨ (∃ v, c name = some (.vec v)) ∨ c name = some .other) :
    getFlag env c name dflt = .ok dflt := by
  have : getFlag env c name dflt = asUnsigned dflt := by
    rcases h with ⟨t, h1, h2⟩ | ⟨v, h1⟩ | h1
    · simp [getFlag, getStr, h1, h2, getNum]
    · simp [getFlag, getStr, h1, getNum]
    · simp [getFlag, getStr, h1, getNum]
  rw [this]
  exact asUnsigned_ok.2 ⟨rfl, hd⟩

/-- Three configurations: 1 is taken, 1.5 is refused, "yes" means the default. -/
example (env : Env) (hy : env.parse "yes" = none) :
    getFlag env (fun _ => some (.num 1)) "HdipoleFitMode" 0 = .ok 1 ∧
    getFlag env (fun _ => some (.num (3 / 2))) "HdipoleFitMode" 0 = .error .runtime ∧
    getFlag env (fun _ => some (.str "yes")) "HdipoleFitMode" 0 = .ok 0 := by
  refine ⟨((C53_partial env _ _ 0 (by norm_num)).1 1 rfl).1 1 (by norm_num) (by norm_num),
    ((C53_partial env _ _ 0 (by norm_num)).1 (3 / 2) rfl).2 ?_, C53_false env _ _ 0 (by norm_num) (.inl ⟨"yes", rfl, hy⟩)⟩
  rintro ⟨n, hn, -⟩
  have h2 : ((2 * n : ℕ) : ℝ) = ((3 : ℕ) : ℝ) := by push_cast; linarith
  have h3 : 2 * n = 3 := by exact_mod_cast h2
  omega

end Flame.Moment
