import Verif.Cavity.Beam
import Verif.Cavity.SpecDrive

/-! # C73: the phase of a cavity -/

namespace Flame.Cavity

open Flame.Mach (Err St)
open Flame.Linear (LCfg getNum getNumD getVec)
open Flame.Moment

/-! ## the fits -/

theorem series_eq (x E : ℝ) : ∀ (n : ℕ) (P : List ℝ), P.length = 5 * n →
    ((List.range n).map (fun i => (P.getD (5 * i) 0 * rpow E (P.getD (5 * i + 1) 0) + P.getD (5 * i + 2) 0 * Real.log E
        + P.getD (5 * i + 3) 0 * Real.exp (-E) + P.getD (5 * i + 4) 0) * ipow x i)).sum = Spec.series x E P
  | 0, P, h => by
    obtain rfl : P = [] := List.length_eq_zero_iff.1 (by simpa using h)
    simp [Spec.series]
  | n + 1, P, h => by
    match P, h with
    | a :: b :: c :: d :: e :: l, h =>
      have ih := series_eq x E n l (by simp at h; omega)
      rw [List.range_succ_eq_map, List.map_cons, List.sum_cons, List.map_map, Spec.series, ← ih, ← List.sum_map_mul_left]
      congr 1
      · simp [rpow, C44_ipow]
      · congr 1
        refine List.map_congr_left fun i _ => ?_
        simp only [Function.comp, Nat.succ_eq_add_one, C44_ipow]
        have e0 : ∀ j, (a :: b :: c :: d :: e :: l).getD (5 * (i + 1) + j) 0 = l.getD (5 * i + j) 0 := by
          intro j
          rw [show 5 * (i + 1) + j = (5 * i + j) + 1 + 1 + 1 + 1 + 1 by ring]
          simp only [List.getD_cons_succ]
        have e1 := e0 0
        rw [Nat.add_zero, Nat.add_zero] at e1
        rw [e1, e0, e0, e0, e0, pow_succ]
        ring_nf
    | [], h => simp at h
    | [_], h => simp at h; omega
    | [_, _], h => simp at h; omega
    | [_, _, _], h => simp at h; omega
    | [_, _, _, _], h => simp at h; omega

/-- What a loaded cavity knows about its phase. -/
noncomputable def syncOf (cav : Cav) : Spec.Sync :=
  ⟨match cav.synAccTab with
    | a :: b :: c :: _ => some (a, b, c)
    | _ => none, cav.synComplex, cav.refNrm⟩

/-- The phase at which the reference particle enters. -/
theorem drive_ok {c : LCfg} {cav : Cav} {ref : Particle} {multip scl phi : ℝ} (h : drivenPhase c cav ref multip scl = .ok phi) :
    (getNumD c "syncflag" 1 < 1 → ∃ x, getNum c "phi" = .ok x ∧ phi = x * Real.pi / 180) ∧
    (1 ≤ getNumD c "syncflag" 1 → ∃ lag, multip * ref.phis + phi = cav.ionFys - lag ∧
      (cav.cavi = 0 → Spec.GenericLag (syncOf cav) (getNumD c "syncflag" 1) scl ref.IonZ ((ref.IonW - ref.IonEs) / 1000000) lag) ∧
      ∀ ty lab f, shipped ty = some (cav.cavi, lab) → Spec.lag ty = some f → lag = f ((ref.IonW - ref.IonEs) / 1000000)) := by
  constructor
  · intro hs
    unfold drivenPhase at h
    rw [if_neg (by linarith)] at h
    split at h
    · cases h
    · rename_i x hx
      exact ⟨x, hx, (Except.ok.inj h).symm⟩
  · intro hs
    have hE : (MeVtoeV : ℝ) = 1000000 := by norm_num [MeVtoeV]
    have sine : getCavPhase cav.cavi ref cav.ionFys multip cav.synAccTab = .ok phi →
        ∃ lag, multip * ref.phis + phi = cav.ionFys - lag ∧
          (cav.cavi = 0 → ∃ a b c, (syncOf cav).gap = some (a, b, c) ∧ lag = a * ((ref.IonW - ref.IonEs) / 1000000) ^ b - c) ∧
          ∀ ty lab f, shipped ty = some (cav.cavi, lab) → Spec.lag ty = some f → lag = f ((ref.IonW - ref.IonEs) / 1000000) := by
      intro hp
      unfold getCavPhase at hp
      rw [hE] at hp
      dsimp only at hp
      split at hp
      · cases hp
      rename_i hpos
      have fin : ∀ lag, Except.ok (ε := Err) (cav.ionFys - lag - ref.phis * multip) = .ok phi →
          multip * ref.phis + phi = cav.ionFys - lag := by
        intro lag he
        rw [← Except.ok.inj he]
        ring
      split at hp
      all_goals first
        | cases hp; done
        | skip
      · rename_i hi
        refine ⟨_, fin _ hp, by omega, fun ty lab f h1 h2 => ?_⟩
        rw [hi] at h1
        unfold shipped at h1
        split at h1 <;> simp at h1
        cases h2
        rfl
      · rename_i hi
        refine ⟨_, fin _ hp, by omega, fun ty lab f h1 h2 => ?_⟩
        rw [hi] at h1
        unfold shipped at h1
        split at h1 <;> simp at h1
        cases h2
        rfl
      · rename_i hi
        refine ⟨_, fin _ hp, by omega, fun ty lab f h1 h2 => ?_⟩
        rw [hi] at h1
        unfold shipped at h1
        split at h1 <;> simp at h1
        cases h2
        rfl
      · rename_i hi
        refine ⟨_, fin _ hp, by omega, fun ty lab f h1 h2 => ?_⟩
        rw [hi] at h1
        unfold shipped at h1
        split at h1 <;> simp at h1
        cases h2
        rfl
      · rename_i hi
        refine ⟨_, fin _ hp, by omega, fun ty lab f h1 h2 => ?_⟩
        rw [hi] at h1
        unfold shipped at h1
        split at h1 <;> simp at h1
      · rename_i hi
        split at hp
        · rename_i a b c l hl
          refine ⟨_, fin _ hp, fun _ => ⟨a, b, c, by simp [syncOf, hl], rfl⟩, fun ty lab f h1 h2 => ?_⟩
          rw [hi] at h1
          unfold shipped at h1
          split at h1 <;> simp at h1
        · cases hp
    unfold drivenPhase at h
    rw [if_pos hs] at h
    split at h
    · rename_i r P hr hP
      split at h
      · rename_i hc
        unfold getCavPhaseComplex at h
        rw [hE] at h
        dsimp only at h
        split at h
        · cases h
        rename_i h5
        split at h
        · cases h
        have h6 : P.length % 5 = 0 := not_not.1 h5
        rw [series_eq _ _ (P.length / 5) P (by omega)] at h
        refine ⟨Spec.series (scl * ref.IonZ / r) ((ref.IonW - ref.IonEs) / 1000000) P, ?_, fun _ => ⟨?_, ?_⟩, fun ty lab f h1 h2 => ?_⟩
        · rw [← Except.ok.inj h]
          ring
        · intro l n hl hn _
          cases hl.symm.trans (show (syncOf cav).series = some P from hP)
          cases hn.symm.trans (show (syncOf cav).norm = some r from hr)
          exact ⟨Nat.dvd_of_mod_eq_zero h6, rfl⟩
        · rintro (h1 | h1 | h1)
          · cases h1.symm.trans (show (syncOf cav).series = some P from hP)
          · cases h1.symm.trans (show (syncOf cav).norm = some r from hr)
          · exact absurd hc.2 h1
        · rw [hc.1] at h1
          unfold shipped at h1
          split at h1 <;> simp at h1
      · rename_i hc
        obtain ⟨lag, h1, h2, h3⟩ := sine h
        refine ⟨lag, h1, fun h0 => ⟨fun l n _ _ h4 => absurd ⟨h0, h4⟩ hc, fun _ => h2 h0⟩, h3⟩
    · rename_i hn
      obtain ⟨lag, h1, h2, h3⟩ := sine h
      refine ⟨lag, h1, fun h0 => ⟨fun l n h4 h5 _ => absurd h4 (hn n l h5), fun _ => h2 h0⟩, h3⟩

/-! ## the settings -/

/-- The parameters at the first gap of a data file. -/
def FirstGap (els : List LCfg) (t : ℝ × ℝ × ℝ) : Prop :=
  ∃ pre e post l, els = pre ++ e :: post ∧ (∀ x ∈ pre, x "type" ≠ some (.str "AccGap")) ∧ e "type" = some (.str "AccGap") ∧
    e "attr" = some (.vec l) ∧ l[20]? = some t.1 ∧ l[21]? = some t.2.1 ∧ l[22]? = some t.2.2

/-- The lag that the settings ask for. -/
def LagOf (files : Files) (c : LCfg) (sync scl Z E lag : ℝ) : Prop :=
  ∃ ty, c "cavtype" = some (.str ty) ∧
    ((∃ f, Spec.lag ty = some f ∧ lag = f E) ∨
     (ty = "Generic" ∧ ∃ dir f top els y, (c "Eng_Data_Dir" = some (.str dir) ∨ dir = "." ∧ ∀ x, c "Eng_Data_Dir" ≠ some (.str x)) ∧
       c "datafile" = some (.str f) ∧ files.generic (dir ++ "/" ++ f) = .ok (top, els) ∧ (∀ t, y.gap = some t → FirstGap els t) ∧
       (∀ l, y.series = some l ↔ top "SyncFit" = some (.vec l)) ∧ (∀ n, y.norm = some n ↔ top "RefNorm" = some (.num n)) ∧
       Spec.GenericLag y sync scl Z E lag))

/-- The setting `syncflag`. -/
def SyncFlag (c : LCfg) (sync : ℝ) : Prop :=
  c "syncflag" = some (.num sync) ∨ sync = 1 ∧ ∀ x, c "syncflag" ≠ some (.num x)

theorem syncFlag_get (c : LCfg) : SyncFlag c (getNumD c "syncflag" 1) := by
  unfold SyncFlag getNumD
  split
  · rename_i x hx
    exact .inl hx
  · rename_i hx
    exact .inr ⟨rfl, hx⟩

theorem syncFlag_unique {c : LCfg} {x : ℝ} (h : SyncFlag c x) : x = getNumD c "syncflag" 1 := by
  rcases h with h | ⟨rfl, h⟩
  · simp [getNumD, h]
  · unfold getNumD
    split
    · rename_i y hy
      exact absurd hy (h y)
    · rfl

theorem firstGap_fold : ∀ {els : List LCfg} {acc r : List RawParams × List ℝ}, foldE genericElem els acc = .ok r →
    (acc.2 ≠ [] → r.2 = acc.2) ∧
    (acc.2 = [] → r.2 = [] ∨ ∃ a b c, r.2 = [a, b, c] ∧ FirstGap els (a, b, c)) := by
  intro els
  induction els with
  | nil =>
    intro acc r h
    cases h
    exact ⟨fun _ => rfl, fun h => .inl h⟩
  | cons e els ih =>
    intro acc r h
    rw [foldE] at h
    split at h
    · cases h
    rename_i acc1 h1
    obtain ⟨i1, i2⟩ := ih h
    have key : (acc1.2 = acc.2 ∧ (acc.2 = [] → e "type" ≠ some (.str "AccGap"))) ∨
        (acc.2 = [] ∧ ∃ a b c, acc1.2 = [a, b, c] ∧ FirstGap (e :: els) (a, b, c)) := by
      unfold genericElem at h1
      split at h1
      rotate_left
      · cases h1
      rename_i ty L hty hL
      have ht := getStr_some hty
      split at h1
      · rename_i hd
        cases h1
        refine .inl ⟨rfl, fun _ => ?_⟩
        rw [ht, hd]
        simp
      · split at h1
        · cases h1
        rcases hget : getVec e "attr" with err | attrs
        · rw [hget] at h1
          simp at h1
        rw [hget] at h1
        dsimp only at h1
        split at h1
        · cases h1
        rename_i hlen
        split at h1
        · rename_i hg
          split at h1
          · cases h1
          rename_i h23
          cases h1
          refine .inr ⟨hg.2, ?_⟩
          have hv : e "attr" = some (.vec attrs) := by
            unfold getVec at hget
            split at hget
            · cases hget
              assumption
            · cases hget
          have h20 : 20 < attrs.length := by omega
          have h21 : 21 < attrs.length := by omega
          have h22 : 22 < attrs.length := by omega
          refine ⟨attrs[20], attrs[21], attrs[22], ?_, [], e, els, attrs, rfl, by simp, by rw [ht, hg.1], hv,
            List.getElem?_eq_getElem h20, List.getElem?_eq_getElem h21, List.getElem?_eq_getElem h22⟩
          rw [List.drop_eq_getElem_cons h20, List.drop_eq_getElem_cons h21, List.drop_eq_getElem_cons h22]
          rfl
        · rename_i hg
          cases h1
          refine .inl ⟨rfl, fun h0 hc => hg ⟨?_, h0⟩⟩
          rw [ht] at hc
          simpa using hc
    rcases key with ⟨k1, k2⟩ | ⟨k0, a, b, c, k1, k2⟩
    · refine ⟨fun h0 => (i1 (by rw [k1]; exact h0)).trans k1, fun h0 => ?_⟩
      rcases i2 (by rw [k1]; exact h0) with h3 | ⟨a, b, c, h3, pre, e', post, l, q1, q2, q3⟩
      · exact .inl h3
      · refine .inr ⟨a, b, c, h3, e :: pre, e', post, l, by rw [q1]; rfl, ?_, q3⟩
        intro x hx
        rcases List.mem_cons.1 hx with rfl | hx
        · exact k2 h0
        · exact q2 x hx
    · refine ⟨fun h0 => absurd k0 h0, fun _ => .inr ⟨a, b, c, ?_, k2⟩⟩
      rw [i1 (by rw [k1]; simp), k1]

theorem loadShipped_sync {files : Files} {dir lab : String} {cav0 cav : Cav} (h : loadShipped files dir lab cav0 = (cav, none)) :
    cav.cavi = cav0.cavi ∧ cav.ionFys = cav0.ionFys := by
  unfold loadShipped at h
  dsimp only at h
  split at h
  · cases h
  split at h
  · cases h
  split at h
  · cases h
  split at h
  · cases h
  split at h
  · cases h
  cases h
  exact ⟨rfl, rfl⟩

theorem loadGeneric_sync {files : Files} {cav0 cav : Cav} (h : loadGeneric files cav0 = (cav, none)) (h0 : cav0.synAccTab = []) :
    (∃ top els, files.generic cav0.dataFile = .ok (top, els) ∧ (∀ t, (syncOf cav).gap = some t → FirstGap els t) ∧
      (∀ l, (syncOf cav).series = some l ↔ top "SyncFit" = some (.vec l)) ∧
      (∀ n, (syncOf cav).norm = some n ↔ top "RefNorm" = some (.num n))) ∧
    cav.cavi = cav0.cavi ∧ cav.ionFys = cav0.ionFys := by
  unfold loadGeneric at h
  dsimp only at h
  split at h
  · cases h
  rename_i top els hg
  split at h
  · cases h
  rename_i lat tab hf
  split at h
  · cases h
  split at h
  · cases h
  cases h
  refine ⟨⟨top, els, hg, ?_, ?_, ?_⟩, rfl, rfl⟩
  · intro t ht
    rcases (firstGap_fold hf).2 h0 with h1 | ⟨a, b, c, h1, h2⟩
    · simp only at h1
      simp [syncOf, h1] at ht
    · simp only at h1
      simp only [syncOf, h1, Option.some.injEq] at ht
      rw [← ht]
      exact h2
  · intro l
    simp only [syncOf, getVec]
    cases top "SyncFit" with
    | none => simp
    | some v => cases v <;> simp
  · intro n
    simp only [syncOf, optNum, getNum]
    cases top "RefNorm" with
    | none => simp
    | some v => cases v <;> simp

theorem shipped_lag {ty lab : String} {i : ℕ} (h : shipped ty = some (i, lab)) : i ≠ 0 ∧ ∃ f, Spec.lag ty = some f := by
  unfold shipped at h
  split at h <;> simp at h
  all_goals exact ⟨by omega, _, rfl⟩

theorem loadCavity_sync {env : Env} {files : Files} {c : LCfg} {cav0 cav : Cav} (h : loadCavity env files c cav0 = (cav, none))
    (h0 : cav0.synAccTab = []) :
    (∃ phi, c "phi" = some (.num phi) ∧ cav.ionFys = phi * Real.pi / 180) ∧
    ((∃ ty lab, c "cavtype" = some (.str ty) ∧ shipped ty = some (cav.cavi, lab)) ∨
     (c "cavtype" = some (.str "Generic") ∧ cav.cavi = 0 ∧ ∃ dir f top els,
       (c "Eng_Data_Dir" = some (.str dir) ∨ dir = "." ∧ ∀ x, c "Eng_Data_Dir" ≠ some (.str x)) ∧
       c "datafile" = some (.str f) ∧ files.generic (dir ++ "/" ++ f) = .ok (top, els) ∧
       (∀ t, (syncOf cav).gap = some t → FirstGap els t) ∧
       (∀ l, (syncOf cav).series = some l ↔ top "SyncFit" = some (.vec l)) ∧
       (∀ n, (syncOf cav).norm = some n ↔ top "RefNorm" = some (.num n)))) := by
  unfold loadCavity at h
  dsimp only at h
  split at h
  · cases h
  split at h
  · cases h
  rename_i phi hphi
  split at h
  · cases h
  split at h
  · cases h
  split at h
  · cases h
  split at h
  · cases h
  rename_i ty hty
  split at h
  · rename_i i lab hs
    obtain ⟨h1, h2⟩ := loadShipped_sync h
    refine ⟨⟨phi, getNum_some hphi, h2⟩, .inl ⟨ty, lab, getStr_some hty, ?_⟩⟩
    rw [hs, h1]
  · split at h
    · rename_i hG
      split at h
      · cases h
      rename_i fn hfn
      obtain ⟨⟨top, els, g1, g2, g3, g4⟩, h1, h2⟩ := loadGeneric_sync h h0
      refine ⟨⟨phi, getNum_some hphi, h2⟩, .inr ⟨?_, h1, _, fn, top, els, getStrD_dir c, getStr_some hfn, g1, g2, g3, g4⟩⟩
      rw [getStr_some hty, hG]
    · cases h

theorem fmod_spec (x : ℝ) {y : ℝ} (hy : 0 < y) : (∃ n : ℤ, x = fmod x y + n * y) ∧ |fmod x y| < y ∧ 0 ≤ x * fmod x y := by
  have hxy : x / y * y = x := div_mul_cancel₀ x hy.ne'
  unfold fmod
  split
  · rename_i hx
    have h1 := Int.floor_le (x / y)
    have h2 := Int.lt_floor_add_one (x / y)
    have h3 : 0 ≤ x - y * (⌊x / y⌋ : ℝ) := by nlinarith
    refine ⟨⟨⌊x / y⌋, by ring⟩, ?_, mul_nonneg hx h3⟩
    rw [abs_of_nonneg h3]
    nlinarith
  · rename_i hx
    have h1 := Int.le_ceil (x / y)
    have h2 := Int.ceil_lt_add_one (x / y)
    have h3 : x - y * (⌈x / y⌉ : ℝ) ≤ 0 := by nlinarith
    refine ⟨⟨⌈x / y⌉, by ring⟩, ?_, mul_nonneg_of_nonpos_of_nonpos (not_le.mp hx).le h3⟩
    rw [abs_of_nonpos h3]
    nlinarith

/-! ## C73 -/

/-- **C73**: a beam in a cavity as it was built from its settings.  There is one drive for all particles (`Crossed`).  Without
synchronisation it is the phase in the settings; otherwise the phase of the reference particle at the entry is the one in the
settings less the lag at its energy, whenever it arrives.  The state shows the drive in degrees, less whole turns in the
direction of its sign. -/
theorem C73_drive {env : Env} {files : Files} {junk : Mat} {c : LCfg} {d d' : MDat} {s s' : St MSt}
    (hb : buildCavity env files junk c = .ok d) (hr : s.retreat = false) (hm : Moving s.payload.ref.recalc)
    (hp : ∀ p ∈ s.payload.real, Moving p.recalc) (h : advanceCavity env files d s = (d', s', none)) {sync : ℝ} (hs : SyncFlag c sync) :
    ∃ m f scl drive phi, FieldOf files c m ∧ c "f" = some (.num f) ∧ c "scl_fac" = some (.num scl) ∧ c "phi" = some (.num phi) ∧
      (f ≠ 0 → Crossed m f scl drive s.payload.ref.recalc s'.payload.ref ∧
        List.Forall₂ (Crossed m f scl drive) (s.payload.real.map Particle.recalc) s'.payload.real) ∧
      (sync < 1 → drive = phi * Real.pi / 180) ∧
      (1 ≤ sync → ∃ lag, f / s.payload.ref.SampleFreq * s.payload.ref.phis + drive = phi * Real.pi / 180 - lag ∧
        LagOf files c sync scl s.payload.ref.IonZ (s.payload.ref.IonEk / 1000000) lag) ∧
      (∃ turns : ℤ, drive * 180 / Real.pi = s'.payload.last_caviphi0 + turns * 360) ∧ |s'.payload.last_caviphi0| < 360 ∧
      0 ≤ drive * s'.payload.last_caviphi0 := by
  obtain rfl := syncFlag_unique hs
  obtain ⟨d0, cav, h0, hl, rfl⟩ := loadCavity_ok hb
  obtain ⟨-, b1, b3, -⟩ := build_length h0
  obtain ⟨l1, l2, l3, l4⟩ := loadCavity_map hl
  obtain ⟨⟨phi0, y1, y2⟩, y3⟩ := loadCavity_sync hl rfl
  obtain ⟨cav0, cav1, ref, phi, l, hc0, hre, hrec, e1, e2, e3⟩ := forward_fresh hr (by exact b3) h
  have hsign : 0 ≤ phi * fmod (phi * 180 / Real.pi) 360 := by
    have h1 := (fmod_spec (phi * 180 / Real.pi) (y := 360) (by norm_num)).2.2
    generalize fmod (phi * 180 / Real.pi) 360 = y at *
    have h2 : phi * y = phi * 180 / Real.pi * y * (Real.pi / 180) := by
      field_simp
    rw [h2]
    exact mul_nonneg h1 (by positivity)
  rw [e1, e2, e3]
  clear h e1 e2 e3 hb
  cases hc0
  dsimp only at hre hrec
  rw [b1, reload_same l3 l4] at hre
  have k1 : cav1.cavData = cav.cavData := (congrArg (fun q => q.1.cavData) hre).symm
  have k2 : cav1.fRF = cav.fRF := (congrArg (fun q => q.1.fRF) hre).symm
  have k3 : cav1.ionFys = cav.ionFys := (congrArg (fun q => q.1.ionFys) hre).symm
  have k4 : cav1.cavi = cav.cavi := (congrArg (fun q => q.1.cavi) hre).symm
  have k5 : syncOf cav1 = syncOf cav := (congrArg (fun q => syncOf q.1) hre).symm
  rw [b1] at hrec
  have hp' : ∀ p ∈ s.payload.recalc.real, Moving p := by
    intro p hx
    obtain ⟨q, hq, rfl⟩ := List.mem_map.1 (show p ∈ s.payload.real.map Particle.recalc from hx)
    exact hp q hq
  obtain ⟨scl, hscl⟩ := recompute_scale hrec
  have hn := recomputeCav_points hrec
  rw [k1] at hn
  refine ⟨mapOf cav.cavData, cav.fRF, scl, phi, phi0, l2 hn, l1, hscl, y1, fun hf => ?_, ?_⟩
  rotate_left
  · refine and_assoc.mp ⟨?_, (fmod_spec _ (by norm_num)).1, (fmod_spec _ (by norm_num)).2.1, hsign⟩
    clear hsign
    unfold recomputeCav at hrec
    split at hrec
    · cases hrec
    rename_i r1 f1 hlong
    split at hrec
    · cases hrec
    cases hrec
    unfold propagateLong at hlong
    dsimp only at hlong
    split at hlong
    · cases hlong
    rename_i scl' hscl'
    have := getNum_some hscl'
    rw [hscl] at this
    cases this
    split at hlong
    · cases hlong
    rename_i drive hdrive
    split at hlong
    · cases hlong
    cases hlong
    obtain ⟨a1, a2⟩ := drive_ok hdrive
    constructor
    · intro hlt
      obtain ⟨x, hx, hx'⟩ := a1 hlt
      have := getNum_some hx
      rw [y1] at this
      cases this
      exact hx'
    · intro hge
      obtain ⟨lag, c1, c2, c3⟩ := a2 hge
      rw [k2, k3, y2] at c1
      rw [k4, k5] at c2
      rw [k4] at c3
      have hE : s.payload.ref.recalc.IonW - s.payload.ref.recalc.IonEs = s.payload.ref.IonEk := by
        rw [hm.ionW]
        simp [Particle.recalc]
      refine ⟨lag, c1, ?_⟩
      rcases y3 with ⟨ty, lab, z1, z2⟩ | ⟨z1, z2, dir, f, top, els, z3, z4, z5, z6, z7, z8⟩
      · obtain ⟨-, g, hg⟩ := shipped_lag z2
        refine ⟨ty, z1, .inl ⟨g, hg, ?_⟩⟩
        rw [← hE]
        exact c3 ty lab g z2 hg
      · refine ⟨_, z1, .inr ⟨rfl, dir, f, top, els, syncOf cav, z3, z4, z5, z6, z7, z8, ?_⟩⟩
        rw [← hE]
        exact c2 z2
  · obtain ⟨scl', e, hc1, hc2⟩ := recompute_crossed hm hp' (by rw [k2]; exact hf) hrec
    rw [hscl] at e
    cases e
    rw [k1, k2] at hc1 hc2
    exact ⟨hc1, hc2⟩

/-- The hypotheses are met; the cavity is synchronised. -/
example (env : Env) (junk : Mat) : ∃ d d' s', buildCavity env exFiles junk exFull = .ok d ∧
    advanceCavity env exFiles d (exState false) = (d', s', none) ∧ (exState false).retreat = false ∧
    Moving (exState false).payload.ref.recalc ∧ (∀ p ∈ (exState false).payload.real, Moving p.recalc) ∧ SyncFlag exFull 1 := by
  obtain ⟨d, d', s', h1, h2, h3, h4, h5⟩ := exFull_runs env junk
  exact ⟨d, d', s', h1, h2, h3, h4, h5, .inr ⟨rfl, by simp [exFull, exSet]⟩⟩

end Flame.Cavity
