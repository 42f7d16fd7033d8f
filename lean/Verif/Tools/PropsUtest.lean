import Verif.Tools.Utest
import Verif.Tools.Record

/-! # C71 -/

namespace Flame.Tools

open Flame.Util (Mem Info InShape)
open Flame.Arrays (AType AInfo Got Cell Is)
open Flame.H5.Spec (Values Follows)

/-- What is printed stands for the values `f`. -/
def Represents (f : Values) : Printed → Prop
  | .number c => ∀ d, f d = if d = [] then some c else none
  | .list l => ∀ d, f d = match d with
    | [i] => l[i]?
    | _ => none
  | .rows l => ∀ d, f d = match d with
    | [i, j] => (l[i]?).bind (·[j]?)
    | _ => none
  | .none => False

/-- Parameters that can be printed: numbers, and vectors and matrices of reals. -/
def Printable (x : String × AType × Nat) : Prop := x.2.2 = 0 ∨ (x.2.1 = .double ∧ x.2.2 ≤ 2)

theorem represents {mem : Mem Cell} {a : Info} {f : Values} (h : Is mem a f) (hd : a.dim.length ≤ 2) : Represents f (printed mem a) := by
  obtain ⟨ptr, dim, stride⟩ := a
  match dim, hd with
  | [], _ =>
    intro d
    by_cases hd : d = []
    · subst hd
      rw [if_pos rfl, (h []).1 .nil]
      simp [Info.raw, Flame.Util.offset]
    · rw [if_neg hd, (h d).2]
      intro hc
      cases hc
      exact hd rfl
  | [n], _ =>
    intro d
    match d with
    | [] => exact (h []).2 (fun hc => by cases hc)
    | [i] =>
      dsimp only
      by_cases hi : i < n
      · rw [(h [i]).1 (.cons hi .nil)]
        simp [hi]
      · rw [(h [i]).2 (fun hc => by cases hc with | cons h1 _ => exact hi h1)]
        simp [hi]
    | _ :: _ :: _ => exact (h _).2 (fun hc => by cases hc with | cons _ h2 => cases h2)
  | [n, k], _ =>
    intro d
    match d with
    | [] => exact (h []).2 (fun hc => by cases hc)
    | [i] => exact (h _).2 (fun hc => by cases hc with | cons _ h2 => cases h2)
    | [i, j] =>
      dsimp only
      by_cases hi : i < n
      · by_cases hj : j < k
        · rw [(h [i, j]).1 (.cons hi (.cons hj .nil))]
          simp [hi, hj]
        · rw [(h [i, j]).2 (fun hc => by cases hc with | cons _ h1 => cases h1 with | cons h1 _ => exact hj h1)]
          simp [hi, hj]
      · rw [(h [i, j]).2 (fun hc => by cases hc with | cons h1 _ => exact hi h1)]
        simp [hi]
    | _ :: _ :: _ :: _ => exact (h _).2 (fun hc => by cases hc with | cons _ h2 => cases h2 with | cons _ h2 => cases h2)

/-- What `lookup` finds. -/
theorem lookupFrom_spec {sig : List (String × AType × Nat)} (hn : (sig.map (·.1)).Nodup) {get : Nat → Got} (hf : Follows sig get) :
    ∀ (fuel i : Nat) (L : String → Option Nat), sig.length < i + fuel → i ≤ sig.length →
      (∀ n k, L n = some k ↔ k < i ∧ ∃ x, sig[k]? = some x ∧ x.1 = n ∧ Printable x) →
      ∃ L', lookupFrom get fuel i L = some L' ∧ ∀ n k, L' n = some k ↔ ∃ x, sig[k]? = some x ∧ x.1 = n ∧ Printable x
  | 0, i, L, h, hi, _ => by omega
  | fuel + 1, i, L, h, hi, hL => by
    rw [lookupFrom]
    by_cases hend : i = sig.length
    · rw [(hf i).2 (by rw [hend]; simp)]
      refine ⟨L, rfl, fun n k => ?_⟩
      rw [hL n k]
      constructor
      · exact fun h => h.2
      · rintro ⟨x, hx, h⟩
        exact ⟨by rw [hend]; exact (List.getElem?_eq_some_iff.1 hx).1, x, hx, h⟩
    · have hlt : i < sig.length := by omega
      have hx : sig[i]? = some sig[i] := List.getElem?_eq_getElem hlt
      generalize sig[i] = x at hx
      obtain ⟨a, ha, hxa, -⟩ := (hf i).1 x hx
      rw [ha]
      dsimp only
      have hpr : Printable x ↔ ¬ ((a.type = .sizet ∧ a.arr.dim.length ≠ 0) ∨ a.arr.dim.length > 2) := by
        rw [hxa]
        unfold Printable
        dsimp only
        cases a.type <;> grind
      by_cases hs : (a.type = .sizet ∧ a.arr.dim.length ≠ 0) ∨ a.arr.dim.length > 2
      · rw [if_pos hs]
        refine lookupFrom_spec hn hf fuel (i + 1) L (by omega) (by omega) (fun n k => ?_)
        rw [hL n k]
        constructor
        · exact fun h => ⟨by omega, h.2⟩
        · rintro ⟨h1, y, hy, h2, h3⟩
          refine ⟨?_, y, hy, h2, h3⟩
          by_contra hk
          obtain rfl : k = i := by omega
          rw [hx] at hy
          cases hy
          exact hpr.1 h3 hs
      · rw [if_neg hs]
        refine lookupFrom_spec hn hf fuel (i + 1) _ (by omega) (by omega) (fun n k => ?_)
        by_cases hna : n = a.name
        · rw [if_pos hna]
          constructor
          · intro h
            cases h
            exact ⟨by omega, x, hx, by rw [hxa, hna], hpr.2 hs⟩
          · rintro ⟨h1, y, hy, h2, h3⟩
            have h1' : (sig.map (·.1))[k]? = some n := by rw [List.getElem?_map, hy, Option.map_some, h2]
            have h2' : (sig.map (·.1))[i]? = some n := by rw [List.getElem?_map, hx, Option.map_some, hxa, hna]
            have hil : i < (sig.map (·.1)).length := by simpa using hlt
            exact congrArg some ((List.getElem?_inj hil hn).1 (h2'.trans h1'.symm))
        · rw [if_neg hna, hL n k]
          constructor
          · exact fun h => ⟨by omega, h.2⟩
          · rintro ⟨h1, y, hy, h2, h3⟩
            refine ⟨?_, y, hy, h2, h3⟩
            by_contra hk
            obtain rfl : k = i := by omega
            rw [hx] at hy
            cases hy
            rw [hxa] at h2
            exact hna h2.symm

/-- The entries printed for a state: each requested parameter with its values. -/
def Shows (sig : List (String × AType × Nat)) (s : Mem Cell × (Nat → Got)) (names : List String) (out : List (String × Printed)) : Prop :=
  List.Forall₂ (fun n e => e.1 = n ∧ ∀ (i : Nat) x a f, sig[i]? = some x → x.1 = n → s.2 i = .yes a → Is s.1 a.arr f →
    Represents f e.2) names out

theorem printAll_spec {sig : List (String × AType × Nat)} (hn : (sig.map (·.1)).Nodup) {s : Mem Cell × (Nat → Got)}
    (hf : Follows sig s.2) {L : String → Option Nat} (hL : ∀ n k, L n = some k ↔ ∃ x, sig[k]? = some x ∧ x.1 = n ∧ Printable x) :
    ∀ names : List String, (∀ n ∈ names, ∃ x ∈ sig, x.1 = n ∧ Printable x) →
      ∃ out, printAll s.1 s.2 (indices names L) = some out ∧ Shows sig s names out
  | [], _ => ⟨[], rfl, .nil⟩
  | n :: names, h => by
    obtain ⟨out, h1, h2⟩ := printAll_spec hn hf hL names (fun x hx => h x (by simp [hx]))
    obtain ⟨x, hx, hxn, hxp⟩ := h n (by simp)
    obtain ⟨k, hk⟩ := List.getElem?_of_mem hx
    have hLn := (hL n k).2 ⟨x, hk, hxn, hxp⟩
    obtain ⟨a, ha, hxa, -⟩ := (hf k).1 x hk
    refine ⟨(a.name, printed s.1 a.arr) :: out, ?_, .cons ⟨?_, ?_⟩ h2⟩
    · show printAll s.1 s.2 ((L n).getD 0 :: indices names L) = _
      rw [hLn, Option.getD_some, printAll, ha]
      dsimp only
      rw [h1]
      rfl
    · rw [← hxn, hxa]
    · intro i y b f hy hyn hb hI
      have h1' : (sig.map (·.1))[k]? = some n := by rw [List.getElem?_map, hk, Option.map_some, hxn]
      have h2' : (sig.map (·.1))[i]? = some n := by rw [List.getElem?_map, hy, Option.map_some, hyn]
      have hil : i < (sig.map (·.1)).length := by simpa using (List.getElem?_eq_some_iff.1 hy).1
      obtain rfl : i = k := (List.getElem?_inj hil hn).1 (h2'.trans h1'.symm)
      rw [ha] at hb
      cases hb
      refine represents hI ?_
      have : Printable (a.name, a.type, a.arr.dim.length) := by rw [← hxa]; exact hxp
      unfold Printable at this
      dsimp only at this
      omega

/-- **C71**, for any kind of state: each requested parameter that can be printed is printed for every state under its name with
its values. -/
theorem C71_printed (sig : List (String × AType × Nat)) (hn : (sig.map (·.1)).Nodup) (names : List String)
    (hnames : ∀ n ∈ names, ∃ x ∈ sig, x.1 = n ∧ Printable x) (fuel : Nat) (hfu : sig.length < fuel)
    (ss : List (Mem Cell × (Nat → Got))) (hf : ∀ s ∈ ss, Follows sig s.2) :
    ∃ outs, utestViews names fuel [] ss = some outs ∧ List.Forall₂ (fun s out => Shows sig s names out) ss outs := by
  have key : ∀ (ss : List (Mem Cell × (Nat → Got))), (∀ s ∈ ss, Follows sig s.2) → ∀ known : List Nat,
      (known.length = names.length → ∃ L, known = indices names L ∧
        ∀ n k, L n = some k ↔ ∃ x, sig[k]? = some x ∧ x.1 = n ∧ Printable x) →
      ∃ outs, utestViews names fuel known ss = some outs ∧ List.Forall₂ (fun s out => Shows sig s names out) ss outs := by
    intro ss
    induction ss with
    | nil => exact fun _ known _ => ⟨[], rfl, .nil⟩
    | cons s ss ih =>
      intro hf known hk
      have one : ∃ L out, utestView names fuel s.1 s.2 known = some (indices names L, out) ∧ Shows sig s names out ∧
          ∀ n k, L n = some k ↔ ∃ x, sig[k]? = some x ∧ x.1 = n ∧ Printable x := by
        unfold utestView
        by_cases hl : known.length = names.length
        · rw [if_neg (by simpa using hl)]
          obtain ⟨L, rfl, hL⟩ := hk hl
          obtain ⟨out, h1, h2⟩ := printAll_spec hn (hf s (by simp)) hL names hnames
          exact ⟨L, out, by rw [h1]; rfl, h2, hL⟩
        · rw [if_pos hl]
          obtain ⟨L, h0, hL⟩ := lookupFrom_spec hn (hf s (by simp)) fuel 0 (fun _ => none) (by omega) (by omega) (by simp)
          obtain ⟨out, h1, h2⟩ := printAll_spec hn (hf s (by simp)) hL names hnames
          exact ⟨L, out, by rw [h0]; dsimp only; rw [h1]; rfl, h2, hL⟩
      obtain ⟨L, out, h1, h2, hL⟩ := one
      obtain ⟨outs, h3, h4⟩ := ih (fun x hx => hf x (by simp [hx])) (indices names L) (fun _ => ⟨L, rfl, hL⟩)
      refine ⟨out :: outs, ?_, .cons h2 h4⟩
      rw [utestViews, h1]
      dsimp only
      rw [h3]
      rfl
  refine key ss hf [] (fun hl => ?_)
  have : names = [] := List.length_eq_zero_iff.1 hl.symm
  subst this
  classical
  refine ⟨fun n => if h : ∃ k x, sig[k]? = some x ∧ x.1 = n ∧ Printable x then some h.choose else none, rfl, fun n k => ?_⟩
  dsimp only
  constructor
  · intro h
    split at h
    · rename_i hex
      cases h
      exact hex.choose_spec
    · cases h
  · rintro ⟨x, hx, hxn, hxp⟩
    have hex : ∃ k x, sig[k]? = some x ∧ x.1 = n ∧ Printable x := ⟨k, x, hx, hxn, hxp⟩
    rw [dif_pos hex]
    obtain ⟨y, hy, hyn, -⟩ := hex.choose_spec
    have h1' : (sig.map (·.1))[k]? = some n := by rw [List.getElem?_map, hx, Option.map_some, hxn]
    have h2' : (sig.map (·.1))[hex.choose]? = some n := by rw [List.getElem?_map, hy, Option.map_some, hyn]
    have hil : hex.choose < (sig.map (·.1)).length := by simpa using (List.getElem?_eq_some_iff.1 hy).1
    exact congrArg some ((List.getElem?_inj hil hn).1 (h2'.trans h1'.symm))

/-- The values of a parameter of a state of type `Vector`. -/
def vecValue (x : Flame.H5.Linear (Fin 6 → ℝ)) (n : String) : Values :=
  if n = "state" then Flame.H5.vec6 x.val
  else if n = "next_elem" then Flame.Arrays.Spec.single (.nat x.next)
  else Flame.Arrays.Spec.single (.num x.pos)

/-- **C71** for simulations of type `Vector`. -/
theorem C71_vector (names : List String) (hnames : ∀ n ∈ names, n ∈ ["state", "next_elem", "pos"])
    (rs : List (Flame.H5.Linear (Fin 6 → ℝ))) (hr : ∀ x ∈ rs, Flame.H5.HoldsVec x) :
    ∃ outs, utestViews names 4 [] (rs.map (fun x => (x.mem, Flame.Arrays.vectorArray x.lay x.state))) = some outs ∧
      List.Forall₂ (fun r out => List.Forall₂ (fun n e => e.1 = n ∧ Represents (vecValue r n) e.2) names out) rs outs := by
  have hp : ∀ n ∈ ["state", "next_elem", "pos"], ∃ x ∈ [("state", AType.double, 1), ("next_elem", .sizet, 0), ("pos", .double, 0)],
      x.1 = n ∧ (x.2.2 = 0 ∨ (x.2.1 = .double ∧ x.2.2 ≤ 2)) := by decide +kernel
  obtain ⟨outs, h1, h2⟩ := C71_printed [("state", .double, 1), ("next_elem", .sizet, 0), ("pos", .double, 0)] (by decide +kernel)
    names (fun n hn => hp n (hnames n hn)) 4 (by simp) (rs.map (fun x => (x.mem, Flame.Arrays.vectorArray x.lay x.state))) (by
      intro s hs i
      obtain ⟨r, hr', rfl⟩ := List.mem_map.1 hs
      rcases i with _ | _ | _ | i
      · exact ⟨fun x hx => by cases hx; exact ⟨_, rfl, rfl, by simp⟩, fun hx => by cases hx⟩
      · exact ⟨fun x hx => by cases hx; exact ⟨_, rfl, rfl, by simp⟩, fun hx => by cases hx⟩
      · exact ⟨fun x hx => by cases hx; exact ⟨_, rfl, rfl, by simp⟩, fun hx => by cases hx⟩
      · exact ⟨fun x hx => by simp at hx, fun _ => rfl⟩)
  refine ⟨outs, h1, ?_⟩
  rw [List.forall₂_map_left_iff] at h2
  refine (List.forall₂_iff_get.2 ⟨(List.forall₂_iff_get.1 h2).1, fun q q1 q2 => ?_⟩)
  have h := (List.forall₂_iff_get.1 h2).2 q q1 q2
  obtain ⟨hh1, hh2, hh3⟩ := hr _ (List.get_mem rs ⟨q, q1⟩)
  generalize rs.get ⟨q, q1⟩ = r at h hh1 hh2 hh3
  refine (List.forall₂_iff_get.2 ⟨(List.forall₂_iff_get.1 h).1, fun k k1 k2 => ?_⟩)
  obtain ⟨e1, e2⟩ := (List.forall₂_iff_get.1 h).2 k k1 k2
  refine ⟨e1, ?_⟩
  have hnm := hnames _ (List.get_mem names ⟨k, k1⟩)
  generalize names.get ⟨k, k1⟩ = n at e1 e2 hnm
  simp only [List.mem_cons, List.not_mem_nil, or_false] at hnm
  rcases hnm with rfl | rfl | rfl
  · exact e2 0 _ _ _ rfl rfl rfl (Flame.H5.is_vec6 hh3)
  · exact e2 1 _ _ _ rfl rfl rfl (Flame.Arrays.is_single hh1)
  · exact e2 2 _ _ _ rfl rfl rfl (Flame.Arrays.is_single hh2)

/-- The parameters of a moment state that are not matrices for each charge state. -/
def flat : List String := Flame.H5.wholeBeam ++ ["moment0", "IonZ", "IonQ", "IonEs", "IonW", "gamma", "beta", "bg", "SampleFreq",
  "SampleIonK", "phis", "IonEk"]

theorem flat_printable : ∀ n ∈ flat, ∃ x ∈ Flame.Arrays.momentSig, x.1 = n ∧ (x.2.2 = 0 ∨ (x.2.1 = .double ∧ x.2.2 ≤ 2)) := by
  decide +kernel

/-- **C71** for moment simulations, any number of charge states.  Missing: `moment1` and `transmat`, and names of no parameter
(`C71_instead`). -/
theorem C71_moment_partial (names : List String) (hnames : ∀ n ∈ names, n ∈ flat) (rs : List Flame.H5.Moments)
    (hr : ∀ x ∈ rs, Flame.Arrays.Spec.Filled x.st ∧ Flame.Arrays.Spec.Holds x.mem x.lay x.next x.st) :
    ∃ outs, utestViews names 32 [] (rs.map Flame.H5.source) = some outs ∧
      List.Forall₂ (fun r out => List.Forall₂ (fun n e => e.1 = n ∧ Represents (Flame.H5.valueOf n r) e.2) names out) rs outs := by
  have hnd : (Flame.Arrays.momentSig.map (·.1)).Nodup := by decide +kernel
  obtain ⟨outs, h1, h2⟩ := C71_printed Flame.Arrays.momentSig hnd names (fun n hn => flat_printable n (hnames n hn)) 32
    (by decide +kernel) (rs.map Flame.H5.source) (by
      intro s hs
      obtain ⟨r, hr', rfl⟩ := List.mem_map.1 hs
      exact Flame.H5.moment_follows r (hr r hr').1)
  refine ⟨outs, h1, ?_⟩
  rw [List.forall₂_map_left_iff] at h2
  clear h1
  induction h2 with
  | nil => exact .nil
  | @cons r out rs outs h _ ih =>
    refine .cons ?_ (ih (fun x hx => hr x (by simp [hx])))
    obtain ⟨hf, hh⟩ := hr r (by simp)
    refine (List.forall₂_iff_get.2 ?_)
    have h' := List.forall₂_iff_get.1 h
    refine ⟨h'.1, fun k k1 k2 => ?_⟩
    obtain ⟨e1, e2⟩ := h'.2 k k1 k2
    refine ⟨e1, ?_⟩
    have hnm : names.get ⟨k, k1⟩ ∈ flat := hnames _ (List.get_mem _ _)
    generalize names.get ⟨k, k1⟩ = n at e1 e2 hnm
    obtain ⟨x, hx, hxn, -⟩ := flat_printable n hnm
    obtain ⟨i, hi⟩ := List.getElem?_of_mem hx
    have hi31 : i < 31 := (List.getElem?_eq_some_iff.1 hi).1
    obtain ⟨a, f, b1, b2, b3⟩ := Flame.Arrays.moment_is hf hh i hi31
    obtain ⟨b, c1, c2, -⟩ := (Flame.H5.moment_follows r hf i).1 x hi
    have hba : b = a := by
      have := c1.symm.trans b1
      cases this
      rfl
    subst hba
    have hv : Flame.H5.valueOf n r = f := by
      unfold Flame.H5.valueOf
      rw [← hxn, c2]
      dsimp only
      rw [Flame.H5.lookup_place hi31 b2]
      rfl
    rw [hv]
    exact e2 i x b f hi hxn c1 b3

/-- A name that is none of the parameters that can be printed gives the first parameter instead, under the name of that. -/
theorem C71_instead (n : String) (hn : n ∉ flat) (r : Flame.H5.Moments) (hf : Flame.Arrays.Spec.Filled r.st) :
    ∃ v, utestViews [n] 32 [] [Flame.H5.source r] = some [[("moment1_env", v)]] := by
  have hnd : (Flame.Arrays.momentSig.map (·.1)).Nodup := by decide +kernel
  obtain ⟨L, h0, hL⟩ := lookupFrom_spec hnd (Flame.H5.moment_follows r hf) 32 0 (fun _ => none) (by decide +kernel) (by omega) (by simp)
  have hno : ∀ x ∈ Flame.Arrays.momentSig, (x.2.2 = 0 ∨ (x.2.1 = .double ∧ x.2.2 ≤ 2)) → x.1 ∈ flat := by decide +kernel
  have hLn : L n = none := by
    cases h : L n with
    | none => rfl
    | some k =>
      obtain ⟨x, hx, rfl, hp⟩ := (hL n k).1 h
      exact absurd (hno x (List.mem_of_getElem? hx) hp) hn
  obtain ⟨a, ha, hxa, -⟩ := (Flame.H5.moment_follows r hf 0).1 ("moment1_env", .double, 2) rfl
  refine ⟨printed (Flame.H5.source r).1 a.arr, ?_⟩
  rw [utestViews]
  unfold utestView
  rw [if_pos (by simp), h0]
  dsimp only
  have : indices [n] L = [0] := by
    show [(L n).getD 0] = [0]
    rw [hLn]
    rfl
  rw [this, printAll, ha]
  dsimp only
  have hnm : a.name = "moment1_env" := (congrArg (·.1) hxa).symm
  rw [hnm]
  rfl

/-- **C71 is false** for a misspelt name, and for `moment1`. -/
theorem C71_false : ∃ r : Flame.H5.Moments, Flame.Arrays.Spec.Filled r.st ∧ Flame.Arrays.Spec.Holds r.mem r.lay r.next r.st ∧
    (∃ v, utestViews ["IonEK"] 32 [] [Flame.H5.source r] = some [[("moment1_env", v)]]) ∧
    (∃ v, utestViews ["moment1"] 32 [] [Flame.H5.source r] = some [[("moment1_env", v)]]) :=
  ⟨Flame.H5.exR 3 Flame.H5.exTwo, (Flame.H5.exTwo_ok 3).1, (Flame.H5.exTwo_ok 3).2,
    C71_instead "IonEK" (by decide +kernel) _ (Flame.H5.exTwo_ok 3).1, C71_instead "moment1" (by decide +kernel) _ (Flame.H5.exTwo_ok 3).1⟩

/-- The hypotheses of `C71_moment_partial` hold of two states with two charge states. -/
example : (∀ n ∈ ["moment0_env", "IonEk", "next_elem"], n ∈ flat) ∧
    ∀ x ∈ [Flame.H5.exR 3 Flame.H5.exTwo, Flame.H5.exR 4 Flame.H5.exTwo],
      Flame.Arrays.Spec.Filled x.st ∧ Flame.Arrays.Spec.Holds x.mem x.lay x.next x.st := by
  refine ⟨by decide +kernel, ?_⟩
  intro x hx
  simp only [List.mem_cons, List.not_mem_nil, or_false] at hx
  rcases hx with rfl | rfl
  · exact Flame.H5.exTwo_ok 3
  · exact Flame.H5.exTwo_ok 4

end Flame.Tools
