import Verif.Cavity.SpecSettings
import Verif.Cavity.Drive
import Verif.Util.PropsTable
import Verif.Lens.Props

/-! # C81: the settings and files of a cavity -/

namespace Flame.Cavity

open Flame.Mach (Err St)
open Flame.Linear (LCfg getNum getNumD getVec)
open Flame.Moment
open Settings

theorem says_unique {env : Env} {c : LCfg} {k : String} {x y : ℝ} (h : Says env c k x) (h' : Says env c k y) : x = y := by
  rcases h with h | ⟨t, h, p⟩ <;> rcases h' with h' | ⟨t', h', p'⟩ <;> rw [h] at h'
  · simpa using h'
  · simp at h'
  · simp at h'
  · simp only [Option.some.injEq, Flame.Linear.LVal.str.injEq] at h'
    subst h'
    rw [p] at p'
    simpa using p'

theorem flag_switch {env : Env} {c : LCfg} {k : String} {dflt n : ℕ} :
    getFlag env c k dflt = .ok n ↔ Switch env c k dflt n ∧ n < 2 ^ 32 := by
  by_cases hs : ∃ x, Says env c k x
  · obtain ⟨x, hx⟩ := hs
    have : getFlag env c k dflt = asUnsigned x := by
      rcases hx with h | ⟨t, h, p⟩
      · simp [getFlag, getStr, h, getNum]
      · simp [getFlag, getStr, h, p]
    rw [this, asUnsigned_ok]
    constructor
    · rintro ⟨rfl, h⟩
      exact ⟨.inl hx, h⟩
    · rintro ⟨h | h, h'⟩
      · exact ⟨says_unique h hx, h'⟩
      · exact absurd ⟨x, hx⟩ h.2
  · have : getFlag env c k dflt = asUnsigned dflt := by
      unfold getFlag getStr getNum
      cases h : c k with
      | none => rfl
      | some v =>
        cases v with
        | num x => exact absurd ⟨x, .inl h⟩ hs
        | str t =>
          cases p : env.parse t with
          | none => simp [p]
          | some x => exact absurd ⟨x, .inr ⟨t, h, p⟩⟩ hs
        | vec l => rfl
        | other => rfl
    rw [this, asUnsigned_ok]
    constructor
    · rintro ⟨h, h'⟩
      exact ⟨.inr ⟨by exact_mod_cast h, hs⟩, h'⟩
    · rintro ⟨h | h, h'⟩
      · exact absurd ⟨_, h⟩ hs
      · exact ⟨by rw [h.1], h'⟩

theorem number_get (c : LCfg) (k : String) (d : ℝ) : Number c k d (getNumD c k d) := by
  unfold Number getNumD
  split
  · rename_i x hx
    exact .inl hx
  · rename_i hx
    exact .inr ⟨rfl, hx⟩

theorem getVec_iff {c : LCfg} {k : String} {l : List ℝ} : getVec c k = .ok l ↔ c k = some (.vec l) := by
  unfold getVec
  split
  · rename_i h
    rw [h]
    simp
  · rename_i h
    simp only [reduceCtorEq, false_iff]
    exact h l

theorem getStr_iff {c : LCfg} {k x : String} : getStr c k = .ok x ↔ c k = some (.str x) :=
  ⟨getStr_some, fun h => by simp [getStr, h]⟩

theorem shipped_types {ty lab : String} {i : ℕ} : shipped ty = some (i, lab) ↔ (ty, i, lab) ∈ types := by
  unfold shipped types
  constructor
  · intro h
    split at h <;> simp at h <;> obtain ⟨rfl, rfl⟩ := h <;> simp
  · intro h
    simp only [List.mem_cons, List.not_mem_nil, or_false, Prod.mk.injEq] at h
    rcases h with ⟨rfl, rfl, rfl⟩ | ⟨rfl, rfl, rfl⟩ | ⟨rfl, rfl, rfl⟩ | ⟨rfl, rfl, rfl⟩ <;> rfl

/-! ## generic cavities -/

theorem genericElem_ok {e : LCfg} {acc r : List RawParams × List ℝ} (h : genericElem e acc = .ok r) :
    ∃ p, r.1 = acc.1 ++ [p] ∧ IsPiece e p ∧
      ((r.2 = acc.2 ∧ (acc.2 = [] → e "type" ≠ some (.str "AccGap"))) ∨
       (acc.2 = [] ∧ e "type" = some (.str "AccGap") ∧ ∃ front a b c more, front.length = 20 ∧
         e "attr" = some (.vec (front ++ a :: b :: c :: more)) ∧ r.2 = [a, b, c])) := by
  unfold genericElem at h
  split at h
  rotate_left
  · cases h
  rename_i ty L hty hL
  have ht := getStr_some hty
  have hl := getNum_some hL
  split at h
  · rename_i hd
    subst hd
    cases h
    refine ⟨_, rfl, ⟨ht, hl, fun _ => ⟨rfl, rfl, rfl⟩, fun hn => absurd rfl hn⟩, .inl ⟨rfl, fun _ => ?_⟩⟩
    rw [ht]
    simp
  · rename_i hd
    split at h
    · cases h
    rename_i V0 hV
    rcases hget : getVec e "attr" with err | attrs
    · rw [hget] at h
      simp at h
    rw [hget] at h
    have hv := getVec_iff.1 hget
    dsimp only at h
    split at h
    · cases h
    rename_i hlen
    have hp : IsPiece e { type := ty, length := L, E0 := V0, Tfit := attrs.take 10, Sfit := (attrs.drop 10).take 10 } := by
      refine ⟨ht, hl, fun h => absurd h hd, fun _ => ⟨getNum_some hV, by simp; omega, by simp; omega, attrs.drop 20, ?_⟩⟩
      rw [hv]
      congr 2
      conv_lhs => rw [← List.take_append_drop 10 attrs, ← List.take_append_drop 10 (attrs.drop 10)]
      simp
    split at h
    · rename_i hg
      split at h
      · cases h
      rename_i h23
      cases h
      refine ⟨_, rfl, hp, .inr ⟨hg.2, by rw [ht, hg.1], ?_⟩⟩
      have h20 : 20 < attrs.length := by omega
      have h21 : 21 < attrs.length := by omega
      have h22 : 22 < attrs.length := by omega
      refine ⟨attrs.take 20, attrs[20], attrs[21], attrs[22], attrs.drop 23, by simp; omega, ?_, ?_⟩
      · rw [hv]
        congr 2
        conv_lhs => rw [← List.take_append_drop 20 attrs]
        rw [List.drop_eq_getElem_cons h20, List.drop_eq_getElem_cons h21, List.drop_eq_getElem_cons h22]
      · rw [List.drop_eq_getElem_cons h20, List.drop_eq_getElem_cons h21, List.drop_eq_getElem_cons h22]
        rfl
    · rename_i hg
      cases h
      refine ⟨_, rfl, hp, .inl ⟨rfl, fun h0 hc => hg ⟨?_, h0⟩⟩⟩
      rw [ht] at hc
      simpa using hc

theorem generic_ok : ∀ {els : List LCfg} {acc r : List RawParams × List ℝ}, foldE genericElem els acc = .ok r →
    ∃ ps, r.1 = acc.1 ++ ps ∧ List.Forall₂ IsPiece els ps ∧ (acc.2 ≠ [] → r.2 = acc.2) ∧ (acc.2 = [] → Phase els r.2) := by
  intro els
  induction els with
  | nil =>
    intro acc r h
    cases h
    exact ⟨[], by simp, .nil, fun _ => rfl, fun h => by rw [h]; exact .none⟩
  | cons e els ih =>
    intro acc r h
    rw [foldE] at h
    split at h
    · cases h
    rename_i acc1 h1
    obtain ⟨ps, i1, i2, i3, i4⟩ := ih h
    obtain ⟨p, g1, g2, ⟨g3, g4⟩ | ⟨g3, g4, front, a, b, c, more, g5, g6, g7⟩⟩ := genericElem_ok h1
    · refine ⟨p :: ps, by rw [i1, g1]; simp, .cons g2 i2, fun h0 => (i3 (by rw [g3]; exact h0)).trans g3, fun h0 => ?_⟩
      exact .skip (g4 h0) (i4 (by rw [g3]; exact h0))
    · refine ⟨p :: ps, by rw [i1, g1]; simp, .cons g2 i2, fun h0 => absurd g3 h0, fun _ => ?_⟩
      rw [i3 (by rw [g7]; simp), g7]
      exact .gap g4 g5 g6

theorem genericElem_runs {e : LCfg} {p : RawParams} (hp : IsPiece e p) (acc : List RawParams × List ℝ)
    (hg : acc.2 = [] → e "type" = some (.str "AccGap") → ∃ front a b c more, front.length = 20 ∧
      e "attr" = some (.vec (front ++ a :: b :: c :: more))) : ∃ r, genericElem e acc = .ok r := by
  obtain ⟨h1, h2, h3, h4⟩ := hp
  unfold genericElem
  rw [getStr_iff.2 h1, getNum_ok.2 h2]
  dsimp only
  by_cases hd : p.type = "drift"
  · rw [if_pos hd]
    exact ⟨_, rfl⟩
  · obtain ⟨v, t1, t2, more, ha⟩ := h4 hd
    rw [if_neg hd, getNum_ok.2 v, getVec_iff.2 ha]
    dsimp only
    rw [if_neg (by simp only [List.length_append, t1, t2]; omega)]
    by_cases hc : p.type = "AccGap" ∧ acc.2 = []
    · rw [if_pos hc]
      obtain ⟨front, a, b, c, more', f1, f2⟩ := hg hc.2 (by rw [h1, hc.1])
      rw [ha] at f2
      simp only [Option.some.injEq, Flame.Linear.LVal.vec.injEq] at f2
      rw [f2, if_neg (by simp only [List.length_append, List.length_cons, f1]; omega)]
      exact ⟨_, rfl⟩
    · rw [if_neg hc]
      exact ⟨_, rfl⟩

theorem generic_runs : ∀ {els : List LCfg} {ps : List RawParams} (acc : List RawParams × List ℝ),
    List.Forall₂ IsPiece els ps → (acc.2 = [] → ∃ l, Phase els l) → ∃ r, foldE genericElem els acc = .ok r := by
  intro els
  induction els with
  | nil => exact fun acc _ _ => ⟨acc, rfl⟩
  | cons e els ih =>
    intro ps acc h hg
    cases h with
    | cons hp ht =>
      have hgap : acc.2 = [] → e "type" = some (.str "AccGap") → ∃ front a b c more, front.length = 20 ∧
          e "attr" = some (.vec (front ++ a :: b :: c :: more)) := by
        intro h0 hty
        obtain ⟨l, hl⟩ := hg h0
        cases hl with
        | skip h => exact absurd hty h
        | gap h hf ha => exact ⟨_, _, _, _, _, hf, ha⟩
      obtain ⟨r, hr⟩ := genericElem_runs hp acc hgap
      rw [foldE, hr]
      dsimp only
      refine ih r ht fun h0 => ?_
      obtain ⟨p, -, -, ⟨g3, g4⟩ | ⟨-, -, front, a, b, c, more, -, -, g7⟩⟩ := genericElem_ok hr
      · rw [g3] at h0
        obtain ⟨l, hl⟩ := hg h0
        cases hl with
        | skip _ hs => exact ⟨l, hs⟩
        | gap h => exact absurd h (g4 h0)
      · rw [g7] at h0
        cases h0

theorem flatten_pairs (f : ℕ → ℝ) (n : ℕ) :
    ((List.range n).map (fun i => [f (2 * i), f (2 * i + 1)])).flatten = (List.range (2 * n)).map f := by
  induction n with
  | zero => rfl
  | succ n ih =>
    rw [List.range_succ, List.map_append, List.flatten_append, ih, show 2 * (n + 1) = 2 * n + 1 + 1 by ring, List.range_succ,
      List.range_succ]
    simp

theorem readvec_pairs {l : List ℝ} {n k : ℕ} {m : ℕ → ℕ → ℝ} (h : Flame.Util.readvec l 2 0 = some (n, k, m)) :
    ((List.range n).map (fun i => [m i 0, m i 1])).flatten = l := by
  by_cases hd : 2 ∣ l.length
  · obtain ⟨rows, m', h1, h2, h3⟩ := (Flame.Util.C42_readvec l 2 (0 : ℝ)).1 (by norm_num) hd
    rw [h] at h1
    simp only [Option.some.injEq, Prod.mk.injEq] at h1
    obtain ⟨rfl, -, rfl⟩ := h1
    have e : ∀ i, [m i 0, m i 1] =
        [(fun j => m (j / 2) (j % 2)) (2 * i), (fun j => m (j / 2) (j % 2)) (2 * i + 1)] := by
      intro i
      dsimp only
      rw [show 2 * i / 2 = i by omega, show 2 * i % 2 = 0 by omega, show (2 * i + 1) / 2 = i by omega,
        show (2 * i + 1) % 2 = 1 by omega]
    have e' := flatten_pairs (fun j => m (j / 2) (j % 2)) n
    simp only [← e] at e'
    rw [e']
    apply List.ext_getElem?
    intro j
    rw [List.getElem?_map]
    by_cases hj : j < 2 * n
    · rw [List.getElem?_range hj, Option.map_some, ← h3 (j / 2) (j % 2) (by omega) (by omega)]
      congr 1
      omega
    · rw [List.getElem?_eq_none (by simp; omega), List.getElem?_eq_none (by omega)]
      rfl
  · rw [(Flame.Util.C42_readvec l 2 (0 : ℝ)).2 (.inr hd)] at h
    cases h

theorem readvec_even {rows : List (List ℝ)} (h : ∀ r ∈ rows, r.length = 2) :
    ∃ x, Flame.Util.readvec rows.flatten 2 0 = some x := by
  have hd : 2 ∣ rows.flatten.length := by
    induction rows with
    | nil => simp
    | cons r rows ih =>
      rw [List.flatten_cons, List.length_append, h r (List.mem_cons_self ..)]
      exact Dvd.dvd.add (dvd_refl 2) (ih fun x hx => h x (List.mem_cons_of_mem _ hx))
  obtain ⟨n, m, h1, -⟩ := (Flame.Util.C42_readvec rows.flatten 2 (0 : ℝ)).1 (by norm_num) hd
  exact ⟨_, h1⟩

/-! ## C81 -/

theorem force_iff (c : LCfg) : (@decide (getNumD c "forcettfcalc" 0 ≠ 0) (Classical.propDecidable _) = true) ↔
    ∃ x, c "forcettfcalc" = some (.num x) ∧ x ≠ 0 := by
  rw [@decide_eq_true_iff _ (Classical.propDecidable _)]
  unfold getNumD
  split
  · rename_i x hx
    rw [hx]
    simp
  · rename_i hx
    simp only [ne_eq, not_true_eq_false, false_iff, not_exists, not_and]
    exact fun x h => absurd h (hx x)

theorem optNum_iff {c : LCfg} {k : String} {x : ℝ} : optNum c k = some x ↔ c k = some (.num x) := by
  unfold optNum getNum
  cases c k with
  | none => simp
  | some v => cases v <;> simp

theorem loadShipped_asked {files : Files} {dir lab : String} {cav0 cav : Cav} (h : loadShipped files dir lab cav0 = (cav, none)) :
    files.table (dir ++ "/axisData_" ++ lab ++ ".txt") = .ok cav.cavData ∧ (cav.cavData.rows ≠ [] ∧ 2 ≤ cav.cavData.cols) ∧
    files.table (dir ++ "/Multipole" ++ lab ++ "/CaviMlp_" ++ lab ++ ".txt") = .ok cav.mlptable ∧
    (cav.mlptable.rows ≠ [] ∧ 7 ≤ cav.mlptable.cols) ∧
    (∃ l, files.lines (dir ++ "/Multipole" ++ lab ++ "/thinlenlon_" ++ lab ++ ".txt") = .ok l ∧ cav.lattice = cav0.lattice ++ l) ∧
    cav = { cav0 with cavData := cav.cavData, mlptable := cav.mlptable, lattice := cav.lattice } := by
  unfold loadShipped at h
  dsimp only at h
  split at h
  · cases h
  rename_i t ht
  split at h
  · cases h
  rename_i ht'
  split at h
  · cases h
  rename_i m hm
  split at h
  · cases h
  rename_i hm'
  split at h
  · cases h
  rename_i l hl
  cases h
  rw [not_or, not_lt] at ht' hm'
  exact ⟨ht, ht', hm, hm', ⟨l, hl, rfl⟩, rfl⟩

theorem loadGeneric_asked {files : Files} {cav0 cav : Cav} (h : loadGeneric files cav0 = (cav, none)) (h0 : cav0.lattice = [])
    (h1 : cav0.synAccTab = []) :
    (∃ top els, files.generic cav0.dataFile = .ok (top, els) ∧ List.Forall₂ IsPiece els cav.lattice ∧ Phase els cav.synAccTab ∧
      cav.cavData.cols = 2 ∧ (∀ r ∈ cav.cavData.rows, r.length = 2) ∧ top "Ez" = some (.vec cav.cavData.rows.flatten) ∧
      cav.cRm = (optNum top "Rm").getD cav0.cRm ∧
      (∀ x, cav.refNrm = some x ↔ top "RefNorm" = some (.num x)) ∧
      (∀ l, cav.synComplex = some l ↔ top "SyncFit" = some (.vec l))) ∧
    cav.fRF = cav0.fRF ∧ cav.ionFys = cav0.ionFys ∧ cav.mpoleLevel = cav0.mpoleLevel ∧ cav.emitGrowth = cav0.emitGrowth ∧
    cav.forcettfcalc = cav0.forcettfcalc ∧ cav.cavType = cav0.cavType ∧ cav.cavi = cav0.cavi := by
  unfold loadGeneric at h
  dsimp only at h
  split at h
  · cases h
  rename_i top els hg
  split at h
  · cases h
  rename_i lat tab hf
  split at h
  · cases h
  rename_i Ez hEz
  split at h
  · cases h
  rename_i n k m hr
  cases h
  obtain ⟨ps, g1, g2, -, g4⟩ := generic_ok hf
  rw [h0, List.nil_append] at g1
  simp only at g1
  subst g1
  refine ⟨⟨top, els, hg, g2, g4 h1, rfl, ?_, ?_, rfl, fun x => optNum_iff, ?_⟩, rfl, rfl, rfl, rfl, rfl, rfl, rfl⟩
  · intro r hr
    simp only [List.mem_map] at hr
    obtain ⟨i, -, rfl⟩ := hr
    rfl
  · rw [getVec_iff.1 hEz]
    congr 2
    exact (readvec_pairs hr).symm
  · intro l
    dsimp only
    unfold getVec
    cases top "SyncFit" with
    | none => simp
    | some v => cases v <;> simp

/-- **C81.** A cavity that is built is the one its settings and files ask for. -/
theorem C81_asked {env : Env} {files : Files} {junk : Mat} {c : LCfg} {d : MDat} (hb : buildCavity env files junk c = .ok d) :
    ∃ cav, d.cav = some cav ∧ Asked env files c cav := by
  obtain ⟨d0, cav, -, h, rfl⟩ := loadCavity_ok hb
  refine ⟨cav, rfl, ?_⟩
  unfold loadCavity at h
  dsimp only at h
  split at h
  · cases h
  rename_i f hf
  split at h
  · cases h
  rename_i phi hphi
  split at h
  · cases h
  rename_i m hm
  split at h
  · cases h
  rename_i g hg
  split at h
  · cases h
  rename_i hmg
  rw [not_or, not_lt, not_lt] at hmg
  split at h
  · cases h
  rename_i ty hty
  have e1 := getNum_ok.1 hf
  have e2 := getNum_ok.1 hphi
  have e3 := (flag_switch.1 hm).1
  have e4 := (flag_switch.1 hg).1
  have e5 := getStr_some hty
  split at h
  · rename_i i lab hs
    obtain ⟨g1, g2, g3, g4, ⟨l, g5, g6⟩, g7⟩ := loadShipped_asked h
    generalize cav.cavData = t1 at *
    generalize cav.mlptable = t2 at *
    generalize cav.lattice = t3 at *
    subst g7
    refine ⟨e1, ⟨phi, e2, rfl⟩, ⟨e3, hmg.1⟩, ⟨e4, hmg.2⟩, force_iff c, e5, _, getStrD_dir c,
      .inl ⟨i, lab, shipped_types.1 hs, rfl, g1, g2, g3, g4, ?_, number_get ..⟩⟩
    rw [g5, g6]
    rfl
  · split at h
    · rename_i hG
      split at h
      · cases h
      rename_i fn hfn
      obtain ⟨⟨top, els, q1, q2, q3, q4, q5, q6, q7, q8⟩, p1, p2, p3, p4, p5, p6, p7⟩ := loadGeneric_asked h rfl rfl
      refine ⟨by rw [p1]; exact e1, ⟨phi, e2, p2⟩, ?_, ?_, by rw [p5]; exact force_iff c, by rw [p6]; exact e5, _, getStrD_dir c,
        .inr ⟨p6.trans hG, p7, fn, top, els, getStr_some hfn, q1, q2, q3, q4, q5, q6, ?_, q8⟩⟩
      · rw [p3]; exact ⟨e3, hmg.1⟩
      · rw [p4]; exact ⟨e4, hmg.2⟩
      · rw [q7]
        cases hR : optNum top "Rm" with
        | some x => exact .inl (optNum_iff.1 hR)
        | none =>
          refine .inr ⟨fun x hx => ?_, number_get c "Rm" 0⟩
          rw [optNum_iff.2 hx] at hR
          cases hR
    · cases h

theorem dir_eq {c : LCfg} {dir : String} (h : Dir c dir) : getStrD c "Eng_Data_Dir" "." = dir := by
  rcases h with h | ⟨rfl, h⟩
  · simp [getStrD, h]
  · unfold getStrD
    split
    · rename_i x hx
      exact absurd hx (h x)
    · rfl

/-- **C81.** Nothing else is refused: a cavity is built whenever there is one that its settings and files ask for. -/
theorem C81_accepts (env : Env) (files : Files) (junk : Mat) (c : LCfg) (h : ∃ cav, Asked env files c cav) :
    ∃ d, buildCavity env files junk c = .ok d := by
  obtain ⟨cav, e1, ⟨phi, e2, -⟩, ⟨e3, m2⟩, ⟨e4, g1⟩, -, e5, dir, hdir, hdata⟩ := h
  suffices hl : ∃ cv, loadCavity env files c noCav = (cv, none) by
    obtain ⟨cv, hl⟩ := hl
    unfold buildCavity
    rw [hl]
    exact ⟨_, rfl⟩
  unfold loadCavity
  rw [getNum_ok.2 e1, getNum_ok.2 e2, flag_switch.2 ⟨e3, by omega⟩, flag_switch.2 ⟨e4, by omega⟩, getStr_iff.2 e5, dir_eq hdir]
  dsimp only
  rw [if_neg (by omega)]
  rcases hdata with ⟨i, lab, hty, t⟩ | ⟨hG, hcavi, f, top, els, d1, d2, d3, d4, d5, d6, d7, -⟩
  · rw [shipped_types.2 hty]
    unfold loadShipped
    dsimp only
    rw [t.map]
    dsimp only
    rw [if_neg (by rw [not_or, not_lt]; exact t.map_fits), t.poles]
    dsimp only
    rw [if_neg (by rw [not_or, not_lt]; exact t.poles_fit), t.pieces]
    exact ⟨_, rfl⟩
  · rw [hG]
    have hs : shipped "Generic" = none := rfl
    rw [hs]
    dsimp only
    rw [if_pos rfl, getStr_iff.2 d1]
    unfold loadGeneric
    dsimp only
    rw [d2]
    dsimp only
    obtain ⟨⟨r1, r2⟩, hr⟩ := generic_runs (noCav.lattice, noCav.synAccTab) d3 (fun _ => ⟨_, d4⟩)
    rw [hr]
    dsimp only
    rw [getVec_iff.2 d7]
    obtain ⟨⟨n, k, m⟩, hv⟩ := readvec_even d6
    dsimp only
    rw [hv]
    exact ⟨_, rfl⟩

/-- A piece with all its values. -/
def pieceOfRaw (p : Flame.Lens.Raw ℝ) : Option RawParams :=
  match p.length, p.aperture, p.E0 with
  | some x, some _, some z => some { type := String.ofList p.type, length := x, E0 := z, Tfit := [], Sfit := [] }
  | _, _, _ => none

/-- The pieces of a "thinlenlon" file with this text (/repo/src/rf_cavity.cpp:769-803), `none` if it cannot be opened; `num` is
`strtod`.  Pieces with values that were not read are represented by the error `logic`: what happens then is undefined. -/
noncomputable def linesOf (num : Flame.Util.Str → Option ℝ) (text : Option Flame.Util.Str) : Except Err (List RawParams) :=
  match text with
  | none => .error .runtime
  | some t =>
    match Flame.Lens.read num 0 true t with
    | none => .error .runtime
    | some l =>
      match l.mapM pieceOfRaw with
      | none => .error .logic
      | some ps => .ok ps

/-- **C81.** The pieces of a cavity are those written in its file. -/
theorem C81_pieces {num : Flame.Util.Str → Option ℝ} {lines : List Flame.Util.Str} {items : List (Option (Flame.Lens.Piece ℝ))}
    {text : Flame.Util.Str} (hl : List.Forall₂ (Flame.Lens.IsLine num 0) lines items) (ht : Flame.Util.IsText lines text)
    {env : Env} {files : Files} {junk : Mat} {c : LCfg} {d : MDat} (h : buildCavity env files junk c = .ok d)
    {ty dir lab : String} {i : ℕ} (hty : c "cavtype" = some (.str ty)) (hdir : Dir c dir) (hlab : (ty, i, lab) ∈ types)
    (hf : files.lines (dir ++ "/Multipole" ++ lab ++ "/thinlenlon_" ++ lab ++ ".txt") = linesOf num (some text)) :
    ∃ cav, d.cav = some cav ∧ cav.lattice = (items.filterMap id).map (fun p =>
      { type := String.ofList p.type, length := p.length, E0 := p.strength, Tfit := [], Sfit := [] }) := by
  obtain ⟨cav, h1, a⟩ := C81_asked h
  refine ⟨cav, h1, ?_⟩
  have hl' : linesOf num (some text) = .ok ((items.filterMap id).map (fun p =>
      { type := String.ofList p.type, length := p.length, E0 := p.strength, Tfit := [], Sfit := [] })) := by
    unfold linesOf
    dsimp only
    rw [Flame.Lens.C81_lines num 0 lines items text hl ht]
    dsimp only
    generalize items.filterMap id = ps
    have : ∀ ps : List (Flame.Lens.Piece ℝ), (ps.map (fun p => (⟨p.type, p.name, some p.length, some p.aperture,
        some p.strength⟩ : Flame.Lens.Raw ℝ))).mapM pieceOfRaw = some (ps.map (fun p =>
            { type := String.ofList p.type, length := p.length, E0 := p.strength, Tfit := [], Sfit := [] })) := by
      intro ps
      induction ps with
      | nil => rfl
      | cons p ps ih => simp [List.mapM_cons, ih, pieceOfRaw]
    rw [this]
  obtain ⟨dir', hd', ⟨i', lab', hlab', t⟩ | ⟨hG, -⟩⟩ := a.data
  · have hc := a.type
    rw [hty] at hc
    simp only [Option.some.injEq, Flame.Linear.LVal.str.injEq] at hc
    rw [← hc] at hlab'
    have e1 := shipped_types.2 hlab
    rw [shipped_types.2 hlab'] at e1
    simp only [Option.some.injEq, Prod.mk.injEq] at e1
    obtain ⟨-, rfl⟩ := e1
    have e2 := dir_eq hd'
    rw [dir_eq hdir] at e2
    subst e2
    have := t.pieces
    rw [hf, hl'] at this
    simp only [Except.ok.injEq] at this
    exact this.symm
  · have hc := a.type
    rw [hty, hG] at hc
    simp only [Option.some.injEq, Flame.Linear.LVal.str.injEq] at hc
    subst hc
    have := shipped_types.2 hlab
    cases this

/-- **C81** is false for elements of a data file with fewer than twenty attributes: instead of being refused they are read beyond
their end, which the model represents by the error `logic`. -/
theorem C81_attr_false {env : Env} {files : Files} {junk : Mat} {c : LCfg} {dir f ty : String} {top e : LCfg} {els : List LCfg}
    {x phi L V0 : ℝ} {m g : ℕ} {attr : List ℝ} (h1 : c "f" = some (.num x)) (h2 : c "phi" = some (.num phi))
    (h3 : Switch env c "MpoleLevel" 2 m ∧ m ≤ 2) (h4 : Switch env c "EmitGrowth" 0 g ∧ g ≤ 1)
    (h5 : c "cavtype" = some (.str "Generic")) (h6 : Dir c dir) (h7 : c "datafile" = some (.str f))
    (h8 : files.generic (dir ++ "/" ++ f) = .ok (top, e :: els)) (h9 : e "type" = some (.str ty)) (hty : ty ≠ "drift")
    (h10 : e "L" = some (.num L)) (h11 : e "V0" = some (.num V0)) (h12 : e "attr" = some (.vec attr)) (hs : attr.length < 20) :
    buildCavity env files junk c = .error .logic := by
  have hl : ∃ cv, loadCavity env files c noCav = (cv, some .logic) := by
    unfold loadCavity
    rw [getNum_ok.2 h1, getNum_ok.2 h2, flag_switch.2 ⟨h3.1, by omega⟩, flag_switch.2 ⟨h4.1, by omega⟩, getStr_iff.2 h5,
      dir_eq h6]
    dsimp only
    rw [if_neg (by omega)]
    have hs' : shipped "Generic" = none := rfl
    rw [hs']
    dsimp only
    rw [if_pos rfl, getStr_iff.2 h7]
    unfold loadGeneric
    dsimp only
    rw [h8]
    dsimp only
    have : ∀ acc, foldE genericElem (e :: els) acc = .error .logic := by
      intro acc
      have he : genericElem e acc = .error .logic := by
        unfold genericElem
        rw [getStr_iff.2 h9, getNum_ok.2 h10]
        dsimp only
        rw [if_neg hty, getNum_ok.2 h11, getVec_iff.2 h12]
        dsimp only
        rw [if_pos hs]
      rw [foldE, he]
    rw [this]
    exact ⟨_, rfl⟩
  obtain ⟨cv, hl⟩ := hl
  unfold buildCavity
  rw [hl]
  rfl

/-- **C53.** A bend is built exactly if its switch is 0 or 1, and uses it. -/
theorem C53_bend (env : Env) (junk : Mat) (c : LCfg) :
    (∀ d, build env junk .sbend c = .ok d → Switch env c "HdipoleFitMode" 1 d.fitMode ∧ d.fitMode ≤ 1) ∧
    ((∃ n ≤ 1, Switch env c "HdipoleFitMode" 1 n) → ∃ d, build env junk .sbend c = .ok d) := by
  unfold build
  dsimp only
  constructor
  · intro d h
    split at h
    · cases h
    rename_i n hn
    split at h
    · rename_i h01
      cases h
      exact ⟨(flag_switch.1 hn).1, by dsimp only; omega⟩
    · cases h
  · rintro ⟨n, hn, hs⟩
    rw [flag_switch.2 ⟨hs, by omega⟩]
    dsimp only
    rw [if_pos (by omega)]
    exact ⟨_, rfl⟩

/-! ## cases -/

example (env : Env) : Switch env (fun _ => some (.num 0)) "HdipoleFitMode" 1 0 := .inl (.inl (by simp))

/-- The settings of a generic cavity in `Verif/Cavity/Beam.lean`. -/
example (env : Env) (junk : Mat) : (∃ d, buildCavity env exFiles junk exFull = .ok d) ∧ Asked env exFiles exFull exWeak := by
  have h : ∃ d, buildCavity env exFiles junk exFull = .ok d ∧ d.cav = some exWeak := by
    unfold buildCavity
    rw [exFull_loads]
    exact ⟨_, rfl, rfl⟩
  obtain ⟨d, h, hc⟩ := h
  obtain ⟨cav, h1, h2⟩ := C81_asked h
  rw [hc] at h1
  cases h1
  exact ⟨⟨d, h⟩, h2⟩

/-- A number for every text. -/
noncomputable def exOnes (_ : Flame.Util.Str) : Option ℝ := some 1

/-- A file with a comment and a gap. -/
def exText : Flame.Util.Str := "% gap\nAccGap g 1 1\r\n".toList

/-- Small files of the cavity 0.29HWR. -/
noncomputable def exShipped : Files where
  table := fun _ => .ok ⟨7, [[0, 0, 0, 0, 0, 0, 0]]⟩
  lines := fun s => if s = "data/Multipole29/thinlenlon_29.txt" then linesOf exOnes (some exText)
    else .error .runtime
  generic := fun _ => .error .runtime

/-- Its settings. -/
noncomputable def exHwr : LCfg := fun s =>
  if s = "f" then some (.num 322000000) else if s = "phi" then some (.num (-30)) else if s = "cavtype" then some (.str "0.29HWR")
  else if s = "Eng_Data_Dir" then some (.str "data") else if s = "EmitGrowth" then some (.num 1) else none

theorem exText_ok : List.Forall₂ (Flame.Lens.IsLine exOnes 0) ["% gap".toList, "AccGap g 1 1\r".toList]
    [none, some ⟨"AccGap".toList, "g".toList, 1, 1, 0⟩] := by
  have n1 : Flame.Util.Numeral "1".toList :=
    ⟨[], "1".toList, [], [], rfl, .inl rfl, .inl ⟨⟨by simp, by decide⟩, .inl rfl⟩, .inl rfl⟩
  have vi : ∀ s : Flame.Util.Str, (∀ c ∈ s, c ∉ [' ', '\t', '\n', '\r', Char.ofNat 11, Char.ofNat 12]) →
      ∀ c ∈ s, Flame.Lens.Visible c := fun _ h => h
  refine .cons (Flame.Lens.IsLine.comment (g := []) (s := " gap".toList) (by decide) (by decide)) (.cons ?_ .nil)
  refine Flame.Lens.IsLine.piece (ws := ["AccGap".toList, "g".toList, "1".toList, "1".toList]) ?_ (by decide)
    ⟨"1".toList, "1".toList, [], rfl, n1, rfl, n1, rfl, fun _ => rfl, fun h => absurd (.inr rfl) h⟩
  exact .cons (g := []) (w := "AccGap".toList) (c := ' ') (s := "g 1 1\r".toList) (by simp) (by decide) (vi _ (by decide))
    (.inl rfl) (.cons (g := []) (w := "g".toList) (c := ' ') (s := "1 1\r".toList) (by simp) (by decide) (vi _ (by decide))
    (.inl rfl) (.cons (g := []) (w := "1".toList) (c := ' ') (s := "1\r".toList) (by simp) (by decide) (vi _ (by decide))
    (.inl rfl) (.cons (g := []) (w := "1".toList) (c := '\r') (s := []) (by simp) (by decide) (vi _ (by decide))
    (.inr (.inr rfl)) (.none (by simp)))))

/-- A case of `C81_pieces`: a cavity with a single gap. -/
example (env : Env) (junk : Mat) : ∃ d cav, buildCavity env exShipped junk exHwr = .ok d ∧ d.cav = some cav ∧
    cav.emitGrowth = 1 ∧ cav.mpoleLevel = 2 ∧
    cav.lattice = [{ type := "AccGap", length := 1, E0 := 0, Tfit := [], Sfit := [] }] := by
  have ht : Flame.Util.IsText ["% gap".toList, "AccGap g 1 1\r".toList] exText :=
    .inl (by decide +kernel)
  have hno : ∀ x, ¬ Says env exHwr "MpoleLevel" x := by
    rintro x (h | ⟨t, h, -⟩) <;> simp [exHwr] at h
  have hone : ∀ x, Says env exHwr "EmitGrowth" x → x = 1 := by
    rintro x (h | ⟨t, h, -⟩)
    · simp [exHwr] at h
      exact h.symm
    · simp [exHwr] at h
  have hlines : exShipped.lines "data/Multipole29/thinlenlon_29.txt" =
      linesOf exOnes (some exText) := by
    unfold exShipped
    dsimp only
    rw [if_pos rfl]
  have hread : linesOf exOnes (some exText) =
      .ok [{ type := "AccGap", length := 1, E0 := 0, Tfit := [], Sfit := [] }] := by
    unfold linesOf
    dsimp only
    rw [Flame.Lens.C81_lines exOnes 0 _ _ _ exText_ok ht]
    rfl
  have hdir : Dir exHwr "data" := .inl (by simp [exHwr])
  obtain ⟨d, hd⟩ := C81_accepts env exShipped junk exHwr ⟨{ noCav with
      fRF := 322000000, ionFys := -30 * Real.pi / 180, mpoleLevel := 2, emitGrowth := 1, cavType := "0.29HWR", cavi := 3,
      cavData := ⟨7, [[0, 0, 0, 0, 0, 0, 0]]⟩, mlptable := ⟨7, [[0, 0, 0, 0, 0, 0, 0]]⟩,
      lattice := [{ type := "AccGap", length := 1, E0 := 0, Tfit := [], Sfit := [] }] },
    { frequency := by simp [exHwr]
      phase := ⟨-30, by simp [exHwr], rfl⟩
      level := ⟨.inr ⟨rfl, fun ⟨x, hx⟩ => hno x hx⟩, le_refl 2⟩
      growth := ⟨.inl (.inl (by simp [exHwr])), le_refl 1⟩
      force := by simp [noCav, exHwr]
      type := by simp [exHwr]
      data := ⟨"data", hdir, .inl ⟨3, "29", by simp [types],
        { type := rfl
          map := rfl
          map_fits := by simp
          poles := rfl
          poles_fit := by simp
          pieces := by
            rw [← hread, ← hlines]
            rfl
          radius := .inr ⟨rfl, by simp [exHwr]⟩ }⟩⟩ }⟩
  obtain ⟨cav, h1, h2⟩ := C81_pieces exText_ok ht hd (ty := "0.29HWR") (dir := "data") (lab := "29") (i := 3)
    (by simp [exHwr]) hdir (by simp [types]) hlines
  obtain ⟨cav', h3, a⟩ := C81_asked hd
  rw [h1] at h3
  cases h3
  refine ⟨d, cav, hd, h1, ?_, ?_, h2⟩
  · rcases a.growth.1 with h | h
    · exact_mod_cast hone _ h
    · exact absurd ⟨1, .inl (by simp [exHwr])⟩ h.2
  · rcases a.level.1 with h | h
    · exact absurd h (hno _)
    · exact h.1

end Flame.Cavity
