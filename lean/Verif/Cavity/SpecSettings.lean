import Verif.Cavity.Model

/-! # What the settings and files of a cavity say -/

namespace Flame.Cavity.Settings

open Flame.Linear (LCfg)
open Flame.Moment (Env RawParams Cav Table)

/-- A number that is written as a number or as a text. -/
def Says (env : Env) (c : LCfg) (k : String) (x : ℝ) : Prop :=
  c k = some (.num x) ∨ ∃ t, c k = some (.str t) ∧ env.parse t = some x

/-- The value of a switch. -/
def Switch (env : Env) (c : LCfg) (k : String) (dflt n : ℕ) : Prop :=
  Says env c k n ∨ n = dflt ∧ ¬ ∃ x, Says env c k x

/-- The value of a number that may be left out. -/
def Number (c : LCfg) (k : String) (dflt x : ℝ) : Prop :=
  c k = some (.num x) ∨ x = dflt ∧ ∀ y, c k ≠ some (.num y)

/-- The directory of the files. -/
def Dir (c : LCfg) (dir : String) : Prop :=
  c "Eng_Data_Dir" = some (.str dir) ∨ dir = "." ∧ ∀ x, c "Eng_Data_Dir" ≠ some (.str x)

/-- The types with files of their own, the numbers by which they are known, and the labels in the names of the files. -/
def types : List (String × ℕ × String) :=
  [("0.041QWR", 1, "41"), ("0.085QWR", 2, "85"), ("0.29HWR", 3, "29"), ("0.53HWR", 4, "53")]

/-- A cavity of one of these types: field map, multipoles and pieces. -/
structure FromTables (files : Files) (c : LCfg) (dir : String) (i : ℕ) (lab : String) (cav : Cav) : Prop where
  type : cav.cavi = i
  map : files.table (dir ++ "/axisData_" ++ lab ++ ".txt") = .ok cav.cavData
  map_fits : cav.cavData.rows ≠ [] ∧ 2 ≤ cav.cavData.cols
  poles : files.table (dir ++ "/Multipole" ++ lab ++ "/CaviMlp_" ++ lab ++ ".txt") = .ok cav.mlptable
  poles_fit : cav.mlptable.rows ≠ [] ∧ 7 ≤ cav.mlptable.cols
  pieces : files.lines (dir ++ "/Multipole" ++ lab ++ "/thinlenlon_" ++ lab ++ ".txt") = .ok cav.lattice
  radius : Number c "Rm" 0 cav.cRm

/-- An element of the data file of a generic cavity as a piece of it. -/
def IsPiece (e : LCfg) (p : RawParams) : Prop :=
  e "type" = some (.str p.type) ∧ e "L" = some (.num p.length) ∧
  (p.type = "drift" → p.E0 = 0 ∧ p.Tfit = [] ∧ p.Sfit = []) ∧
  (p.type ≠ "drift" → e "V0" = some (.num p.E0) ∧ p.Tfit.length = 10 ∧ p.Sfit.length = 10 ∧
    ∃ more, e "attr" = some (.vec (p.Tfit ++ p.Sfit ++ more)))

/-- What the first gap says of the phase of the cavity; nothing without a gap. -/
inductive Phase : List LCfg → List ℝ → Prop
  | none : Phase [] []
  | skip {e es l} (h : e "type" ≠ some (.str "AccGap")) (hs : Phase es l) : Phase (e :: es) l
  | gap {e es front a b c more} (h : e "type" = some (.str "AccGap")) (hf : front.length = 20)
      (ha : e "attr" = some (.vec (front ++ a :: b :: c :: more))) : Phase (e :: es) [a, b, c]

/-- A generic cavity: its data file. -/
structure FromFile (files : Files) (c : LCfg) (dir : String) (cav : Cav) : Prop where
  type : cav.cavi = 0
  file : ∃ f top els, c "datafile" = some (.str f) ∧ files.generic (dir ++ "/" ++ f) = .ok (top, els) ∧
    List.Forall₂ IsPiece els cav.lattice ∧ Phase els cav.synAccTab ∧
    cav.cavData.cols = 2 ∧ (∀ r ∈ cav.cavData.rows, r.length = 2) ∧ top "Ez" = some (.vec cav.cavData.rows.flatten) ∧
    (top "Rm" = some (.num cav.cRm) ∨ (∀ x, top "Rm" ≠ some (.num x)) ∧ Number c "Rm" 0 cav.cRm) ∧
    (∀ x, cav.refNrm = some x ↔ top "RefNorm" = some (.num x)) ∧
    (∀ l, cav.synComplex = some l ↔ top "SyncFit" = some (.vec l))

/-- A cavity as its settings and files ask for it. -/
structure Asked (env : Env) (files : Files) (c : LCfg) (cav : Cav) : Prop where
  frequency : c "f" = some (.num cav.fRF)
  phase : ∃ phi, c "phi" = some (.num phi) ∧ cav.ionFys = phi * Real.pi / 180
  level : Switch env c "MpoleLevel" 2 cav.mpoleLevel ∧ cav.mpoleLevel ≤ 2
  growth : Switch env c "EmitGrowth" 0 cav.emitGrowth ∧ cav.emitGrowth ≤ 1
  force : cav.forcettfcalc = true ↔ ∃ x, c "forcettfcalc" = some (.num x) ∧ x ≠ 0
  type : c "cavtype" = some (.str cav.cavType)
  data : ∃ dir, Dir c dir ∧
    ((∃ i lab, (cav.cavType, i, lab) ∈ types ∧ FromTables files c dir i lab cav) ∨
     (cav.cavType = "Generic" ∧ FromFile files c dir cav))

end Flame.Cavity.Settings
