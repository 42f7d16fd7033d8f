import Verif.Tools.Plot
import Verif.Tools.Output
import Verif.Tools.PropsLoadcav

/-!
# C115: The data file names the kind of simulation, and the plot shows the recorded states
-/

namespace Flame.Plot

open Flame.Tools (Str comps)
open Flame.H5 (DSet)
open Flame.H5.Spec (Rows)
open Flame.Arrays (Cell)
open Flame.Arrays.Spec (single vec)

/-! ## the kind of simulation -/

theorem strip_append (a : Str) (n : Nat) (h : a.getLast? ≠ some nul) : strip (a ++ List.replicate n nul) = a := by
  unfold strip
  rw [List.reverse_append, List.reverse_replicate]
  have e : ∀ n, (List.replicate n nul ++ a.reverse).dropWhile (· = nul) = a.reverse := by
    intro n
    induction n with
    | zero =>
      rw [List.replicate_zero, List.nil_append]
      cases hb : a.reverse with
      | nil => rfl
      | cons c t =>
        have : a.getLast? = some c := by rw [← List.head?_reverse, hb]; rfl
        rw [List.dropWhile_cons_of_neg]
        simpa using fun hc => h (by rw [this, hc])
    | succ n ih =>
      rw [List.replicate_succ, List.cons_append, List.dropWhile_cons_of_pos (by simp)]
      exact ih
  rw [e, List.reverse_reverse]

theorem strip_spec (s : Str) : ∃ n, s = strip s ++ List.replicate n nul := by
  unfold strip
  have e : ∀ t : Str, ∃ n, t = List.replicate n nul ++ t.dropWhile (· = nul) := by
    intro t
    induction t with
    | nil => exact ⟨0, rfl⟩
    | cons c t ih =>
      by_cases hc : c = nul
      · obtain ⟨n, hn⟩ := ih
        refine ⟨n + 1, ?_⟩
        rw [List.dropWhile_cons_of_pos (by simpa using hc), List.replicate_succ, List.cons_append, ← hn, hc]
      · exact ⟨0, by rw [List.dropWhile_cons_of_neg (by simpa using hc)]; rfl⟩
  obtain ⟨n, hn⟩ := e s.reverse
  refine ⟨n, ?_⟩
  have := congrArg List.reverse hn
  rwa [List.reverse_reverse, List.reverse_append, List.reverse_replicate] at this

/-- **C115**, the name of the kind of simulation: it is read back as it was given if and only if the memory behind it, up to the sixteenth
byte, holds nothing but NUL characters. -/
theorem C115_kind (val : Str) (hv : nul ∉ val) (junk : Nat → Char) :
    strip (stored val junk) = val ↔ ∀ i, val.length < i → i < 16 → junk i = nul := by
  have hlen : (stored val junk).length = max 16 val.length := by simp [stored]
  have hget : ∀ i, i < max 16 val.length → (stored val junk)[i]? =
      some (if i < val.length then val.getD i nul else if i = val.length then nul else junk i) := by
    intro i hi
    simp [stored, hi]
  constructor
  · intro h i h1 h2
    obtain ⟨n, hn⟩ := strip_spec (stored val junk)
    rw [h] at hn
    have hi := hget i (by omega)
    rw [hn, if_neg (by omega), if_neg (by omega), List.getElem?_append_right (by omega)] at hi
    exact (List.eq_of_mem_replicate (List.mem_of_getElem? hi))
  · intro h
    have e : stored val junk = val ++ List.replicate (max 16 val.length - val.length) nul := by
      apply List.ext_getElem?
      intro i
      by_cases hi : i < max 16 val.length
      · rw [hget i hi]
        by_cases h1 : i < val.length
        · rw [if_pos h1, List.getElem?_append_left h1, List.getD_eq_getElem?_getD, List.getElem?_eq_getElem h1]
          rfl
        · have h3 : (if i = val.length then nul else junk i) = nul := by
            by_cases h2 : i = val.length
            · rw [if_pos h2]
            · rw [if_neg h2, h i (by omega) (by omega)]
          rw [if_neg h1, h3, List.getElem?_append_right (by omega), List.getElem?_replicate, if_pos (by omega)]
      · rw [List.getElem?_eq_none (by omega), List.getElem?_eq_none (by simp; omega)]
    rw [e, strip_append _ _ (fun hl => hv (List.mem_of_getLast? hl))]

/-- The name of a simulation of type `Vector` or `MomentMatrix` need not be read back (/repo/src/h5writer.cpp:247-249). -/
theorem C115_kind_false : ∃ junk, strip (stored "Vector".toList junk) ≠ "Vector".toList ∧
    strip (stored "MomentMatrix".toList junk) ≠ "MomentMatrix".toList := by
  refine ⟨fun _ => 'x', fun h => ?_, fun h => ?_⟩
  · have := (C115_kind _ (by decide +kernel) _).1 h 7 (by decide +kernel) (by omega)
    revert this
    decide +kernel
  · have := (C115_kind _ (by decide +kernel) _).1 h 13 (by decide +kernel) (by omega)
    revert this
    decide +kernel

/-- A name of fifteen characters or more is always read back. -/
example (junk : Nat → Char) : strip (stored "TransferMatrix2".toList junk) = "TransferMatrix2".toList :=
  (C115_kind _ (by decide +kernel) junk).2 (fun i h1 h2 => absurd h1 (by
    have : "TransferMatrix2".toList.length = 15 := by decide +kernel
    omega))

/-! ## which file and group -/

/-- **C115**, the argument: the file is named by what is before the first colon, the group by what is behind it. -/
theorem C115_argument (f g : Str) (hf : ':' ∉ f) : partition (f ++ ':' :: g) = (f, g) ∧ partition f = (f, []) := by
  induction f with
  | nil => exact ⟨rfl, rfl⟩
  | cons c f ih =>
    have hc : c ≠ ':' := fun h => hf (by simp [h])
    obtain ⟨h1, h2⟩ := ih (fun h => hf (List.mem_cons_of_mem _ h))
    refine ⟨?_, ?_⟩
    · rw [List.cons_append]
      simp only [partition]
      rw [if_neg hc, h1]
    · simp only [partition]
      rw [if_neg hc, h2]

/-- A file with a group. -/
example : partition "run.h5:a/b".toList = ("run.h5".toList, "a/b".toList) :=
  (C115_argument "run.h5".toList "a/b".toList (by decide +kernel)).1

/-! ## curves -/

theorem rows_line {α : Type} {G : String → Option DSet} {name : String} {l : List α} {p : α → ℝ}
    (h : Rows G name (l.map (fun q => single (.num (p q))))) (hne : l ≠ []) :
    ∃ ds, G name = some ds ∧ line ds = some (l.map p) := by
  obtain ⟨ds, h1, h2, h3, -, h5⟩ := h
  refine ⟨ds, h1, ?_⟩
  have h0 : ∃ c, ds.data [0] = some c := by
    obtain ⟨x, t, rfl⟩ := List.exists_cons_of_ne_nil hne
    exact ⟨.num (p x), by rw [h3 0 (single (.num (p x))) rfl]; rfl⟩
  obtain ⟨c, h0⟩ := h0
  have hin : List.Forall₂ (· < ·) [0] ds.dim := h5 _ _ h0
  obtain ⟨n, hn⟩ : ∃ n, ds.dim = [n] := List.length_eq_one_iff.1 hin.length_eq.symm
  rw [hn, List.head?_cons, Option.some_inj, List.length_map] at h2
  unfold line
  rw [hn]
  simp only [Option.some_inj]
  apply List.ext_getElem?
  intro k
  rw [List.getElem?_map, List.getElem?_map]
  by_cases hk : k < l.length
  · rw [List.getElem?_range (by omega), Option.map_some, List.getElem?_eq_getElem hk, Option.map_some]
    rw [h3 k (single (.num (p l[k]))) (by rw [List.getElem?_map, List.getElem?_eq_getElem hk]; rfl)]
    rfl
  · rw [List.getElem?_eq_none (by simp; omega), List.getElem?_eq_none (by omega)]
    rfl

theorem rows_column {α : Type} {G : String → Option DSet} {name : String} {l : List α} {f : α → Flame.H5.Spec.Values} {c : Nat}
    {v : α → Nat → ℝ} (hf : ∀ a i, i < c → f a [i] = some (.num (v a i))) (h : Rows G name (l.map f)) (hne : l ≠ []) :
    ∃ ds, G name = some ds ∧ ∀ i, i < c → column ds i = some (l.map (fun q => v q i)) := by
  obtain ⟨ds, h1, h2, h3, -, h5⟩ := h
  refine ⟨ds, h1, ?_⟩
  intro i hi
  have h0 : ∃ c, ds.data [0, i] = some c := by
    obtain ⟨x, t, rfl⟩ := List.exists_cons_of_ne_nil hne
    exact ⟨.num (v x i), by rw [h3 0 (f x) rfl, hf x i hi]⟩
  obtain ⟨y, h0⟩ := h0
  have hin : List.Forall₂ (· < ·) [0, i] ds.dim := h5 _ _ h0
  obtain ⟨n, w, hn⟩ : ∃ n w, ds.dim = [n, w] := List.length_eq_two.1 hin.length_eq.symm
  rw [hn] at hin
  have hw : i < w := by
    cases hin with
    | cons _ t => cases t with
      | cons t _ => exact t
  rw [hn, List.head?_cons, Option.some_inj, List.length_map] at h2
  unfold column
  rw [hn]
  simp only [if_pos hw, Option.some_inj]
  apply List.ext_getElem?
  intro k
  rw [List.getElem?_map, List.getElem?_map]
  by_cases hk : k < l.length
  · rw [List.getElem?_range (by omega), Option.map_some, List.getElem?_eq_getElem hk, Option.map_some]
    rw [h3 k (f l[k]) (by rw [List.getElem?_map, List.getElem?_eq_getElem hk]; rfl), hf _ i hi]
    rfl
  · rw [List.getElem?_eq_none (by simp; omega), List.getElem?_eq_none (by omega)]
    rfl

theorem curve_map {α : Type} (l : List α) (p q : α → ℝ) : curve (l.map p) (l.map q) = some (l.map (fun a => (p a, q a))) := by
  unfold curve
  rw [if_pos (by simp), List.zip_map']

theorem band_map {α : Type} {avg rms : DSet} {l : List α} {p a r : α → ℝ} {i : Nat} (h1 : column avg i = some (l.map a))
    (h2 : column rms i = some (l.map r)) :
    band (l.map p) avg rms i =
      some [l.map (fun q => (p q, a q + r q)), l.map (fun q => (p q, a q)), l.map (fun q => (p q, a q - r q))] := by
  unfold band
  rw [h1, h2]
  simp only [List.zipWith_map, List.zipWith_self, curve_map]

/-- The coordinates a plot shows. -/
def six : List (Fin 7) := [0, 1, 2, 3, 4, 5]

theorem showMoment_columns {α : Type} {g : Grp} {l : List α} {p : α → ℝ} {a r : α → Nat → ℝ} {pos avg rms : DSet}
    (e1 : g.sets "pos" = some pos) (e2 : g.sets "moment0_env" = some avg) (e3 : g.sets "moment0_rms" = some rms)
    (h1 : line pos = some (l.map p)) (h2 : ∀ i, i < 6 → column avg i = some (l.map (fun q => a q i)))
    (h3 : ∀ i, i < 6 → column rms i = some (l.map (fun q => r q i))) (hd : avg.dim = rms.dim) :
    showMoment g = some (six.map (fun i => [l.map (fun q => (p q, a q i.val + r q i.val)), l.map (fun q => (p q, a q i.val)),
      l.map (fun q => (p q, a q i.val - r q i.val))])) := by
  unfold showMoment
  rw [e1, e2, e3]
  simp only [h1, if_pos hd]
  have hb : ∀ i, i < 6 → band (l.map p) avg rms i = some [l.map (fun q => (p q, a q i + r q i)), l.map (fun q => (p q, a q i)),
      l.map (fun q => (p q, a q i - r q i))] := fun i hi => band_map (h2 i hi) (h3 i hi)
  have hr : List.range 6 = [0, 1, 2, 3, 4, 5] := by decide
  rw [hr]
  simp only [List.mapM_cons, List.mapM_nil, hb 0 (by omega), hb 1 (by omega), hb 2 (by omega), hb 3 (by omega), hb 4 (by omega),
    hb 5 (by omega)]
  rfl

/-- The attribute as the command line tool leaves it (/repo/tools/cli.cpp:334-337) and Python 2 recognises it. -/
def Marked (g : Grp) (kind : Str) : Prop :=
  ∃ junk, g.attr = some (.bytes (strip (stored kind junk))) ∧ ∀ i, kind.length < i → i < 16 → junk i = nul

/-- **C115**, moment simulations: for each of the six coordinates a panel with three curves over the position, the centre of the beam and one RMS
size above and below it, point by point those of the recorded states.  With Python 2, if the memory behind the name of the simulation is empty
(otherwise see `C115_python3_false` and `C115_kind_false`). -/
theorem C115_moment_partial (files : Str → Option File) (f g : Str) (hf : ':' ∉ f) (F : File) (hF : files f = some F) (grp : Grp)
    (hg : F (comps g) = some grp) (hk : Marked grp "MomentMatrix".toList) (ps : List Flame.Moment.MSt) (hne : ps ≠ [])
    (h1 : Rows grp.sets "pos" (ps.map (fun q => single (.num q.pos))))
    (h2 : Rows grp.sets "moment0_env" (ps.map (fun q => vec q.moment0_env)))
    (h3 : Rows grp.sets "moment0_rms" (ps.map (fun q => vec q.moment0_rms)))
    (hd : (grp.sets "moment0_env").map (·.dim) = (grp.sets "moment0_rms").map (·.dim)) :
    plotsim false files (f ++ ':' :: g) = some (six.map (fun i =>
      [ps.map (fun q => (q.pos, q.moment0_env i + q.moment0_rms i)), ps.map (fun q => (q.pos, q.moment0_env i)),
       ps.map (fun q => (q.pos, q.moment0_env i - q.moment0_rms i))])) := by
  obtain ⟨junk, k1, k2⟩ := hk
  rw [(C115_kind _ (by decide +kernel) junk).2 k2] at k1
  obtain ⟨pos, p1, p2⟩ := rows_line h1 hne
  have hv : ∀ (v : Flame.Moment.MSt → Fin 7 → ℝ) (a : Flame.Moment.MSt) (i : Nat), i < 7 →
      vec (v a) [i] = some (.num (if h : i < 7 then v a ⟨i, h⟩ else 0)) := by
    intro v a i hi
    simp [vec, Flame.Arrays.Spec.comp, hi]
  obtain ⟨avg, a1, a2⟩ := rows_column (hv (·.moment0_env)) h2 hne
  obtain ⟨rms, r1, r2⟩ := rows_column (hv (·.moment0_rms)) h3 hne
  rw [a1, r1] at hd
  unfold plotsim
  rw [(C115_argument f g hf).1, hF]
  simp only [hg]
  unfold showsim
  rw [k1]
  have hne : ¬ (some "MomentMatrix".toList = some "Vector".toList) := by decide +kernel
  simp only [Bool.false_eq_true, if_false, hne, if_true]
  rw [showMoment_columns p1 a1 r1 p2 (fun i hi => a2 i (by omega)) (fun i hi => r2 i (by omega)) (by simpa using hd)]
  congr 1

/-- **C115**, simulations of type `Vector`: two panels, the components 0, 2, 4 and the components 1, 3, 5 of the recorded states over the position. -/
theorem C115_vector_partial (files : Str → Option File) (f g : Str) (hf : ':' ∉ f) (F : File) (hF : files f = some F) (grp : Grp)
    (hg : F (comps g) = some grp) (hk : Marked grp "Vector".toList) {α : Type} (pos : α → ℝ) (state : α → Fin 6 → ℝ) (ps : List α)
    (hne : ps ≠ []) (h1 : Rows grp.sets "pos" (ps.map (fun q => single (.num (pos q)))))
    (h2 : Rows grp.sets "state" (ps.map (fun q => Flame.H5.vec6 (state q)))) :
    plotsim false files (f ++ ':' :: g) = some
      [[ps.map (fun q => (pos q, state q 0)), ps.map (fun q => (pos q, state q 2)), ps.map (fun q => (pos q, state q 4))],
       [ps.map (fun q => (pos q, state q 1)), ps.map (fun q => (pos q, state q 3)), ps.map (fun q => (pos q, state q 5))]] := by
  obtain ⟨junk, k1, k2⟩ := hk
  rw [(C115_kind _ (by decide +kernel) junk).2 k2] at k1
  obtain ⟨P, p1, p2⟩ := rows_line h1 hne
  have hv : ∀ (a : α) (i : Nat), i < 6 → Flame.H5.vec6 (state a) [i] = some (.num (if h : i < 6 then state a ⟨i, h⟩ else 0)) := by
    intro a i hi
    simp [Flame.H5.vec6, hi]
  obtain ⟨S, a1, a2⟩ := rows_column hv h2 hne
  unfold plotsim
  rw [(C115_argument f g hf).1, hF]
  simp only [hg]
  unfold showsim
  rw [k1]
  simp only [Bool.false_eq_true, if_false, if_true]
  unfold showVector
  rw [p1, a1]
  simp only [p2, a2 0 (by omega), a2 1 (by omega), a2 2 (by omega), a2 3 (by omega), a2 4 (by omega), a2 5 (by omega), Option.bind_some,
    curve_map]
  rfl

open Flame.Mach Flame.Tools Flame.Tools.Spec in
/-- **C115**, from the simulation to the plot, simulations of type `Vector`: what is plotted of a run of the command line tool with HDF5
output are the states after the selected elements.  A machine, a selection and a way to store the states as required are in the examples
of `Flame.Tools.C70_vector_file` (Output.lean); a marked group is in the examples below. -/
theorem C115_run_partial {C X : Type} (cv : CView C) (w : World C X (Flame.Linear.LSt Flame.Linear.Vec)) (c : C)
    (ma : Machine C X (Flame.Linear.LSt Flame.Linear.Vec)) (hm : Machine.new cv w c = .ok ma) (hn : ma.elems.length ≤ sizeMod)
    (file : Flame.Tools.Str) (p : Picks) (s : St (Flame.Linear.LSt Flame.Linear.Vec)) (max : Int)
    (r : Run C X (Flame.Linear.LSt Flame.Linear.Vec)) (hr : propagate ma.elems s 0 max = some r)
    (rep : St (Flame.Linear.LSt Flame.Linear.Vec) → Flame.H5.Linear (Fin 6 → ℝ))
    (hrep : ∀ q, (rep q).next = q.nextElem ∧ (rep q).pos = q.payload.pos ∧ (rep q).val = q.payload.state ∧ Flame.H5.HoldsVec (rep q))
    (m : Flame.H5.Ext) (g0 : String → Option DSet) (hg : g0 "state" = none ∧ g0 "next_elem" = none ∧ g0 "pos" = none)
    (ps : List (Nat × St (Flame.Linear.LSt Flame.Linear.Vec)))
    (hps : ps = wanted p ma.elems (passages max.natAbs ma.elems { s with nextElem := 0, retreat := decide (max < 0) }))
    (hne : ps ≠ []) (a : Attr) (f g : Flame.Tools.Str) (hf : ':' ∉ f) :
    ∃ d wr, cliRun (.hdf5 (some file)) p ma s max false = some d ∧
      recording (fun q => ((rep q).mem, Flame.Arrays.vectorArray (rep q).lay (rep q).state)) m 4 g0 d = (wr, .ok) ∧
      ∀ (files : Flame.Tools.Str → Option File) (F : File), files f = some F → F (comps g) = some ⟨some a, wr.group⟩ →
        Marked ⟨some a, wr.group⟩ "Vector".toList →
        plotsim false files (f ++ ':' :: g) = some
          [[0, 2, 4].map (fun i : Fin 6 => ps.map (fun q => (q.2.payload.pos, q.2.payload.state i))),
           [1, 3, 5].map (fun i : Fin 6 => ps.map (fun q => (q.2.payload.pos, q.2.payload.state i)))] := by
  obtain ⟨d, wr, h1, h2, h3, -, h5⟩ := C70_vector_file cv w c ma hm hn file p s max r hr rep hrep m g0 hg ps hps hne
  refine ⟨d, wr, h1, h2, ?_⟩
  intro files F hF hG hk
  exact C115_vector_partial files f g hf F hF _ hG hk (fun q : Nat × St (Flame.Linear.LSt Flame.Linear.Vec) => q.2.payload.pos)
    (fun q => q.2.payload.state) ps hne h5 h3

/-- A data set with given rows. -/
def rowsSet (c : List Nat) (fs : List Flame.H5.Spec.Values) : DSet :=
  ⟨.double, fs.length :: c, fun d => match d with
    | k :: d => fs[k]?.bind (fun f => f d)
    | [] => none⟩

theorem rowsSet_rows {c : List Nat} {fs : List Flame.H5.Spec.Values} (h : ∀ f ∈ fs, ∀ d x, f d = some x → Flame.Util.InShape c d)
    {G : String → Option DSet} {name : String} (hG : G name = some (rowsSet c fs)) : Rows G name fs := by
  refine ⟨_, hG, rfl, ?_, ?_, ?_⟩
  · intro k f hk d
    simp only [rowsSet, hk, Option.bind_some]
  · intro k hk d
    simp only [rowsSet, List.getElem?_eq_none hk, Option.bind_none]
  · intro d x hx
    cases d with
    | nil => cases hx
    | cons k d =>
      simp only [rowsSet] at hx
      obtain ⟨f, f1, f2⟩ := Option.bind_eq_some_iff.1 hx
      exact List.Forall₂.cons (List.getElem?_eq_some_iff.1 f1).1 (h f (List.mem_of_getElem? f1) d x f2)

theorem single_shape (c : Cell) (d : List Nat) (x : Cell) (h : single c d = some x) : Flame.Util.InShape [] d := by
  cases d with
  | nil => exact List.Forall₂.nil
  | cons => cases h

theorem vec_shape (v : Fin 7 → ℝ) (d : List Nat) (x : Cell) (h : vec v d = some x) : Flame.Util.InShape [7] d := by
  match d with
  | [] => cases h
  | [i] =>
    by_cases hi : i < 7
    · exact List.Forall₂.cons hi List.Forall₂.nil
    · simp [vec, Flame.Arrays.Spec.comp, hi] at h
  | _ :: _ :: _ => cases h

theorem vec6_shape (v : Fin 6 → ℝ) (d : List Nat) (x : Cell) (h : Flame.H5.vec6 v d = some x) : Flame.Util.InShape [6] d := by
  match d with
  | [] => cases h
  | [i] =>
    by_cases hi : i < 6
    · exact List.Forall₂.cons hi List.Forall₂.nil
    · simp [Flame.H5.vec6, hi] at h
  | _ :: _ :: _ => cases h

/-- A group as the command line tool writes it. -/
def exGrp (kind : Str) (sets : String → Option DSet) : Grp := ⟨some (.bytes (strip (stored kind (fun _ => nul)))), sets⟩

theorem exGrp_marked (kind : Str) (sets : String → Option DSet) : Marked (exGrp kind sets) kind := ⟨fun _ => nul, rfl, fun _ _ _ => rfl⟩

/-- Two states of a moment simulation in the group `/a` of a file. -/
example (s1 s2 : Flame.Moment.MSt) : ∃ (F : File) (p : List Panel), plotsim false (fun n => if n = "r.h5".toList then some F else none)
    ("r.h5".toList ++ ':' :: "/a".toList) = some p ∧
    p[4]? = some [[(s1.pos, s1.moment0_env 4 + s1.moment0_rms 4), (s2.pos, s2.moment0_env 4 + s2.moment0_rms 4)],
      [(s1.pos, s1.moment0_env 4), (s2.pos, s2.moment0_env 4)],
      [(s1.pos, s1.moment0_env 4 - s1.moment0_rms 4), (s2.pos, s2.moment0_env 4 - s2.moment0_rms 4)]] := by
  let l := [s1, s2]
  let sets : String → Option DSet := fun n =>
    if n = "pos" then some (rowsSet [] (l.map (fun q => single (.num q.pos))))
    else if n = "moment0_env" then some (rowsSet [7] (l.map (fun q => vec q.moment0_env)))
    else if n = "moment0_rms" then some (rowsSet [7] (l.map (fun q => vec q.moment0_rms)))
    else none
  refine ⟨fun p => if p = ["a".toList] then some (exGrp "MomentMatrix".toList sets) else none, _,
    C115_moment_partial _ "r.h5".toList "/a".toList (by decide +kernel) _ (if_pos rfl) (exGrp "MomentMatrix".toList sets)
      (if_pos (by decide +kernel)) (exGrp_marked _ _) l (by simp [l])
      (rowsSet_rows (c := []) ?_ rfl) (rowsSet_rows (c := [7]) ?_ rfl) (rowsSet_rows (c := [7]) ?_ rfl) rfl, rfl⟩
  · intro f hf d x hx
    obtain ⟨q, -, rfl⟩ := List.mem_map.1 hf
    exact single_shape _ d x hx
  · intro f hf d x hx
    obtain ⟨q, -, rfl⟩ := List.mem_map.1 hf
    exact vec_shape _ d x hx
  · intro f hf d x hx
    obtain ⟨q, -, rfl⟩ := List.mem_map.1 hf
    exact vec_shape _ d x hx

/-- Two states of type `Vector` in the root group. -/
example (v1 v2 : Fin 6 → ℝ) : ∃ F : File, plotsim false (fun n => if n = "r.h5".toList then some F else none)
    ("r.h5".toList ++ ':' :: "/".toList) = some
      [[[(0, v1 0), (2, v2 0)], [(0, v1 2), (2, v2 2)], [(0, v1 4), (2, v2 4)]],
       [[(0, v1 1), (2, v2 1)], [(0, v1 3), (2, v2 3)], [(0, v1 5), (2, v2 5)]]] := by
  let l : List (ℝ × (Fin 6 → ℝ)) := [(0, v1), (2, v2)]
  let sets : String → Option DSet := fun n =>
    if n = "pos" then some (rowsSet [] (l.map (fun q => single (.num q.1))))
    else if n = "state" then some (rowsSet [6] (l.map (fun q => Flame.H5.vec6 q.2)))
    else none
  refine ⟨fun p => if p = [] then some (exGrp "Vector".toList sets) else none,
    C115_vector_partial _ "r.h5".toList "/".toList (by decide +kernel) _ (if_pos rfl) (exGrp "Vector".toList sets)
      (if_pos (by decide +kernel)) (exGrp_marked _ _) (fun q => q.1) (fun q => q.2) l (by simp [l])
      (rowsSet_rows (c := []) ?_ rfl) (rowsSet_rows (c := [6]) ?_ rfl)⟩
  · intro f hf d x hx
    obtain ⟨q, -, rfl⟩ := List.mem_map.1 hf
    exact single_shape _ d x hx
  · intro f hf d x hx
    obtain ⟨q, -, rfl⟩ := List.mem_map.1 hf
    exact vec6_shape _ d x hx

/-! ## what cannot be plotted -/

/-- With Python 3 no file of the command line tool can be plotted: the name arrives as bytes, and no key of the table is one
(/repo/tools/h5plotsim.py:61-66). -/
theorem C115_python3_false (files : Str → Option File) (f g : Str) (hf : ':' ∉ f) (F : File) (hF : files f = some F) (grp : Grp)
    (hg : F (comps g) = some grp) (kind : Str) (hk : Marked grp kind) : plotsim true files (f ++ ':' :: g) = none := by
  obtain ⟨junk, k1, -⟩ := hk
  unfold plotsim
  rw [(C115_argument f g hf).1, hF]
  simp only [hg]
  unfold showsim
  rw [k1]
  simp

/-- A simulation of another type, such as `TransferMatrix`, cannot be plotted: the script ends with an exception instead of the message it has for
this case (/repo/tools/h5plotsim.py:58-66). -/
theorem C115_other_false (py3 : Bool) (files : Str → Option File) (f g : Str) (hf : ':' ∉ f) (F : File) (hF : files f = some F) (grp : Grp)
    (hg : F (comps g) = some grp) (kind : Str) (hn : nul ∉ kind) (h1 : kind ≠ "Vector".toList) (h2 : kind ≠ "MomentMatrix".toList)
    (hk : Marked grp kind) : plotsim py3 files (f ++ ':' :: g) = none := by
  obtain ⟨junk, k1, k2⟩ := hk
  rw [(C115_kind _ hn junk).2 k2] at k1
  unfold plotsim
  rw [(C115_argument f g hf).1, hF]
  simp only [hg]
  unfold showsim
  rw [k1]
  cases py3
  · simp only [Bool.false_eq_true, if_false, Option.some_inj, h1, h2]
  · simp

/-- A transfer matrix simulation, and a file of any kind with Python 3. -/
example (sets : String → Option DSet) :
    plotsim false (fun _ => some (fun _ => some (exGrp "TransferMatrix".toList sets))) ("r.h5".toList ++ ':' :: "a".toList) = none ∧
    plotsim true (fun _ => some (fun _ => some (exGrp "MomentMatrix".toList sets))) ("r.h5".toList ++ ':' :: "a".toList) = none :=
  ⟨C115_other_false false _ _ _ (by decide +kernel) _ rfl _ rfl _ (by decide +kernel) (by decide +kernel) (by decide +kernel) (exGrp_marked _ _),
   C115_python3_false _ _ _ (by decide +kernel) _ rfl _ rfl _ (exGrp_marked _ _)⟩

/-! ## packed tables -/

theorem line_one (t : Table) (j : Nat) : line (oneColumn t j) = some ((List.range t.rows).map (fun k => t.entry k j)) := by
  simp only [line, oneColumn, Option.some_inj]
  refine List.map_congr_left (fun k hk => ?_)
  rw [if_pos (List.mem_range.1 hk)]
  rfl

theorem column_six (t : Table) (i : Nat) (hi : i < 6) :
    column (sixColumns t) i = some ((List.range t.rows).map (fun k => t.entry k (i + 1))) := by
  simp only [column, sixColumns, if_pos (show i < 7 by omega), Option.some_inj]
  refine List.map_congr_left (fun k hk => ?_)
  rw [if_pos ⟨List.mem_range.1 hk, hi⟩]
  rfl

/-- **C115**, packing tables: the data sets, in the group that is given or in the root group, hold the columns of the tables; the seventh column is
zero.  With Python 3 nothing is packed. -/
theorem C115_packed_data (group : Option Str) (hg : ∀ g, group = some g → comps g ≠ []) (cen rms rf : Table) (hc : cen.cols = 7)
    (hr : rms.cols = 7) (hf : 3 ≤ rf.cols) :
    pack true group (some cen) (some rms) (some rf) = none ∧
    ∃ F grp, pack false group (some cen) (some rms) (some rf) = some F ∧ F (comps (group.getD [])) = some grp ∧
      (∀ t j n, (n, t, j) ∈ [("pos", cen, 0), ("IonEk_env", rf, 1), ("phis_env", rf, 2)] →
        (grp.sets n).bind line = some ((List.range t.rows).map (fun k => t.entry k j))) ∧
      (∀ t n, (n, t) ∈ [("moment0_env", cen), ("moment0_rms", rms)] →
        (∀ i, i < 6 → (grp.sets n).bind (column · i) = some ((List.range t.rows).map (fun k => t.entry k (i + 1)))) ∧
        (grp.sets n).bind (column · 6) = some (List.replicate t.rows 0) ∧ (grp.sets n).bind (column · 7) = none) := by
  have h0 : ¬ (((false : Bool) = true) ∨ cen.cols ≠ 7 ∨ rms.cols ≠ 7 ∨ rf.cols < 3) := by
    rintro (h | h | h | h)
    · cases h
    · exact h hc
    · exact h hr
    · omega
  have h6 : ∀ t : Table, column (sixColumns t) 6 = some (List.replicate t.rows 0) := by
    intro t
    simp only [column, sixColumns, if_pos (show 6 < 7 by omega), Option.some_inj, lt_self_iff_false, and_false, if_false, num]
    rw [List.map_const', List.length_range]
  have h7 : ∀ t : Table, column (sixColumns t) 7 = none := fun t => rfl
  have key : ∀ grp : Grp, grp.sets "pos" = some (oneColumn cen 0) → grp.sets "IonEk_env" = some (oneColumn rf 1) →
      grp.sets "phis_env" = some (oneColumn rf 2) → grp.sets "moment0_env" = some (sixColumns cen) →
      grp.sets "moment0_rms" = some (sixColumns rms) →
      (∀ t j n, (n, t, j) ∈ [("pos", cen, 0), ("IonEk_env", rf, 1), ("phis_env", rf, 2)] →
        (grp.sets n).bind line = some ((List.range t.rows).map (fun k => t.entry k j))) ∧
      (∀ t n, (n, t) ∈ [("moment0_env", cen), ("moment0_rms", rms)] →
        (∀ i, i < 6 → (grp.sets n).bind (column · i) = some ((List.range t.rows).map (fun k => t.entry k (i + 1)))) ∧
        (grp.sets n).bind (column · 6) = some (List.replicate t.rows 0) ∧ (grp.sets n).bind (column · 7) = none) := by
    intro grp e1 e2 e3 e4 e5
    refine ⟨?_, ?_⟩
    · intro t j n h
      simp only [List.mem_cons, Prod.mk.injEq, List.not_mem_nil, or_false] at h
      rcases h with ⟨rfl, rfl, rfl⟩ | ⟨rfl, rfl, rfl⟩ | ⟨rfl, rfl, rfl⟩
      · rw [e1]; exact line_one _ _
      · rw [e2]; exact line_one _ _
      · rw [e3]; exact line_one _ _
    · intro t n h
      simp only [List.mem_cons, Prod.mk.injEq, List.not_mem_nil, or_false] at h
      rcases h with ⟨rfl, rfl⟩ | ⟨rfl, rfl⟩
      · rw [e4]; exact ⟨fun i hi => column_six _ i hi, h6 t, h7 t⟩
      · rw [e5]; exact ⟨fun i hi => column_six _ i hi, h6 t, h7 t⟩
  refine ⟨by simp [pack], ?_⟩
  cases group with
  | none =>
    have hz : comps [] = [] := by decide +kernel
    refine ⟨_, _, by unfold pack; simp only [if_neg h0]; rfl, if_pos hz, ?_⟩
    exact key _ rfl rfl rfl rfl rfl
  | some g =>
    have hg' := hg g rfl
    refine ⟨_, _, by unfold pack; simp only [if_neg h0, if_neg hg']; rfl, (if_neg hg').trans (if_pos rfl), ?_⟩
    exact key _ rfl rfl rfl rfl rfl

/-- Tables with two rows, packed into a group inside another. -/
example : ∃ F grp, pack false (some "a/b".toList) (some ⟨2, 7, fun k j => k + j⟩) (some ⟨2, 7, fun k _ => k⟩) (some ⟨2, 3, fun k j => k * j⟩) = some F ∧
    F (comps "a/b".toList) = some grp ∧ (grp.sets "phis_env").bind line = some [0, 2] := by
  obtain ⟨-, F, grp, h1, h2, h3, -⟩ := C115_packed_data (some "a/b".toList) (by
    intro g hg
    cases hg
    decide +kernel) ⟨2, 7, fun k j => k + j⟩ ⟨2, 7, fun k _ => k⟩ ⟨2, 3, fun k j => k * j⟩ rfl rfl (by simp)
  refine ⟨F, grp, h1, h2, ?_⟩
  rw [h3 _ 2 "phis_env" (List.mem_cons_of_mem _ (List.mem_cons_of_mem _ List.mem_cons_self))]
  have hr : List.range 2 = [0, 1] := by decide
  simp [hr]

/-- **C115**, tables of the other program: packed without a group and plotted, they give for each coordinate the centre and one RMS size above and
below it over the position in the first table.  With Python 2, and tables of the same number of rows. -/
theorem C115_packed_partial (cen rms rf : Table) (hc : cen.cols = 7) (hr : rms.cols = 7) (hf : 3 ≤ rf.cols) (hn : cen.rows = rms.rows)
    (f : Str) (hc' : ':' ∉ f) (files : Str → Option File) (hF : files f = pack false none (some cen) (some rms) (some rf)) :
    plotsim false files f = some (six.map (fun i =>
      [(List.range cen.rows).map (fun k => (cen.entry k 0, cen.entry k (i.val + 1) + rms.entry k (i.val + 1))),
       (List.range cen.rows).map (fun k => (cen.entry k 0, cen.entry k (i.val + 1))),
       (List.range cen.rows).map (fun k => (cen.entry k 0, cen.entry k (i.val + 1) - rms.entry k (i.val + 1)))])) := by
  unfold plotsim
  rw [(C115_argument f [] hc').2, hF]
  unfold pack
  have h0 : ¬ (((false : Bool) = true) ∨ cen.cols ≠ 7 ∨ rms.cols ≠ 7 ∨ rf.cols < 3) := by
    rintro (h | h | h | h)
    · cases h
    · exact h hc
    · exact h hr
    · omega
  have hz : comps [] = [] := by decide +kernel
  simp only [if_neg h0, hz, if_true]
  unfold showsim
  have hne : ¬ (some "MomentMatrix".toList = some "Vector".toList) := by decide +kernel
  simp only [hne, if_false, if_true]
  exact showMoment_columns (l := List.range cen.rows) (p := fun k => cen.entry k 0) (a := fun k i => cen.entry k (i + 1))
    (r := fun k i => rms.entry k (i + 1)) (pos := oneColumn cen 0) (avg := sixColumns cen) (rms := sixColumns rms) rfl rfl rfl
    (line_one cen 0) (column_six cen) (fun i hi => by rw [column_six rms i hi, hn]) (by simp [sixColumns, hn])

/-- Packed into a group, they cannot be plotted: the name of the kind of simulation is put on the root group (/repo/tools/tlm2h5.py:19-21),
and the script looks for it in the group. -/
theorem C115_packed_group_false (py3 : Bool) (cen rms rf : Table) (hc : cen.cols = 7) (hr : rms.cols = 7) (hf : 3 ≤ rf.cols) (f g : Str)
    (hc' : ':' ∉ f) (hg : comps g ≠ []) :
    ∃ F, pack false (some g) (some cen) (some rms) (some rf) = some F ∧
      ∀ files : Str → Option File, files f = some F → plotsim py3 files (f ++ ':' :: g) = none := by
  have h0 : ¬ (((false : Bool) = true) ∨ cen.cols ≠ 7 ∨ rms.cols ≠ 7 ∨ rf.cols < 3) := by
    rintro (h | h | h | h)
    · cases h
    · exact h hc
    · exact h hr
    · omega
  unfold pack
  simp only [if_neg h0, if_neg hg]
  refine ⟨_, rfl, ?_⟩
  intro files hF
  unfold plotsim
  rw [(C115_argument f g hc').1, hF]
  simp only [if_neg hg, if_true]
  rfl

/-- Tables with two rows, packed into the group `tlm`. -/
example : ∃ F, pack false (some "tlm".toList) (some ⟨2, 7, fun k j => k + j⟩) (some ⟨2, 7, fun k _ => k⟩) (some ⟨2, 3, fun k _ => k⟩) = some F ∧
    ∀ files : Str → Option File, files "a.h5".toList = some F → plotsim false files ("a.h5".toList ++ ':' :: "tlm".toList) = none :=
  C115_packed_group_false false _ _ _ rfl rfl (by simp) _ _ (by decide +kernel) (by decide +kernel)

/-- RMS sizes at other positions are plotted at the positions of the centre: a difference is reported but not refused
(/repo/tools/tlm2h5.py:32-33). -/
theorem C115_positions_false : ∃ cen rms rf : Table, (∀ k, cen.entry k 0 ≠ rms.entry k 0) ∧
    ∃ F, pack false none (some cen) (some rms) (some rf) = some F ∧ (plotsim false (fun _ => some F) "a.h5".toList).isSome = true := by
  refine ⟨⟨2, 7, fun k _ => k⟩, ⟨2, 7, fun k _ => k + 1⟩, ⟨2, 3, fun k _ => k⟩, fun k => by simp, ?_⟩
  have h := C115_packed_partial ⟨2, 7, fun k _ => k⟩ ⟨2, 7, fun k _ => k + 1⟩ ⟨2, 3, fun k _ => k⟩ rfl rfl (by simp) rfl "a.h5".toList
    (by decide +kernel) (fun _ => pack false none (some ⟨2, 7, fun k _ => k⟩) (some ⟨2, 7, fun k _ => k + 1⟩)
      (some ⟨2, 3, fun k _ => k⟩)) rfl
  cases hp : pack false none (some ⟨2, 7, fun k _ => k⟩) (some ⟨2, 7, fun k _ => k + 1⟩) (some ⟨2, 3, fun k _ => k⟩) with
  | none =>
    rw [hp] at h
    cases h
  | some F =>
    rw [hp] at h
    exact ⟨F, rfl, by rw [h]; rfl⟩

end Flame.Plot
