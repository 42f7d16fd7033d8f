import Verif.Tools.PropsPlot

/-!
# C115: from a moment simulation to its plot
-/

namespace Flame.Plot

open Flame.Mach Flame.Tools Flame.Tools.Spec
open Flame.H5 (DSet Moments)
open Flame.H5.Spec (Rows)
open Flame.Arrays.Spec (single vec)
open Flame.Moment (MSt)

/-- The dimensions after rows of the same size, if the library sets dimensions. -/
theorem recAll_dim (D : List Nat) : ∀ (ss : List (Flame.Util.Mem Flame.Arrays.Cell × Flame.Util.Info)) (ds : DSet) (row : Nat), ss ≠ [] →
    (∀ s ∈ ss, s.2.dim = D) → (Flame.H5.recAll .set ds row ss).dim = (row + ss.length) :: D
  | [], _, _, h, _ => absurd rfl h
  | [s], ds, row, _, h => by
    show (row + 1) :: s.2.dim = _
    rw [h s (by simp)]
    rfl
  | s :: t :: ss, ds, row, _, h => by
    have ih := recAll_dim D (t :: ss) (Flame.H5.rec1 .set ds row s) (row + 1) (by simp) (fun x hx => h x (List.mem_cons_of_mem _ hx))
    show (Flame.H5.recAll .set (Flame.H5.rec1 .set ds row s) (row + 1) (t :: ss)).dim = _
    rw [ih, show row + 1 + (t :: ss).length = row + (s :: t :: ss).length by simp only [List.length_cons]; omega]

/-- The data sets of centres and RMS sizes in a recording have the same dimensions. -/
theorem recorded_dims (g0 : String → Option DSet) (hg : ∀ n ∈ Flame.H5.wholeBeam ++ Flame.H5.perCharge, g0 n = none) (l : List Moments)
    (hne : l ≠ []) (hl : ∀ x ∈ l, Flame.Arrays.Spec.Filled x.st) (w : Flame.H5.Writer)
    (h : (Flame.H5.fresh g0).appendAll .set 32 (l.map Flame.H5.source) = (w, .ok)) :
    (w.group "moment0_env").map (·.dim) = (w.group "moment0_rms").map (·.dim) := by
  obtain ⟨r, rs, rfl⟩ := List.exists_cons_of_ne_nil hne
  have hnames : ∀ n ∈ Flame.Arrays.momentSig.map (·.1), n ∈ Flame.H5.wholeBeam ++ Flame.H5.perCharge := by decide +kernel
  obtain ⟨w', h1, h2⟩ := Flame.H5.appendAll_full .set Flame.Arrays.momentSig (by decide +kernel) (by simp [Flame.Arrays.momentSig]) g0
    (fun x hx => hg _ (hnames _ (List.mem_map_of_mem hx))) 32 (by decide +kernel) (Flame.H5.source r) (rs.map Flame.H5.source) (by
      intro x hx
      rw [← List.map_cons] at hx
      obtain ⟨q, hq, rfl⟩ := List.mem_map.1 hx
      exact Flame.H5.moment_follows q (hl q hq))
  rw [← List.map_cons, h] at h1
  cases h1
  have key : ∀ i x, Flame.Arrays.momentSig[i]? = some x → (∀ q : Moments, (Flame.H5.arr (Flame.H5.source q) i).2.dim = [7]) →
      (w.group x.1).map (·.dim) = some [(r :: rs).length, 7] := by
    intro i x hi hd
    obtain ⟨a, -, -, c⟩ := (h2 []).slot i x hi
    have hlt := (List.getElem?_eq_some_iff.1 hi).1
    rw [if_pos hlt] at c
    rw [c, Option.map_some, recAll_dim [7] _ _ _ (by simp) (by
      intro s hs
      obtain ⟨y, hy, rfl⟩ := List.mem_map.1 hs
      rw [← List.map_cons] at hy
      obtain ⟨q, -, rfl⟩ := List.mem_map.1 hy
      exact hd q)]
    simp
  rw [key 3 ("moment0_env", .double, 1) rfl (fun q => rfl), key 4 ("moment0_rms", .double, 1) rfl (fun q => rfl)]

/-- **C115**, from the simulation to the plot, moment simulations: what is plotted of a run of the command line tool with HDF5 output are, for each of
the six coordinates, the centre of the beam after each of the selected elements, and one RMS size above and below it.  For a library that
sets the dimensions of data sets (HDF5 since 1.8) and a name that is read back.  States in memory as required are in the examples of
`Flame.Tools.C70_moment_file_partial` (Output.lean), a marked group in those of `C115_moment_partial`. -/
theorem C115_moment_run_partial {C X : Type} (cv : CView C) (w : World C X MSt) (c : C) (ma : Machine C X MSt)
    (hm : Machine.new cv w c = .ok ma) (hn : ma.elems.length ≤ sizeMod) (file : Flame.Tools.Str) (p : Picks) (s : St MSt) (max : Int)
    (r : Run C X MSt) (hr : propagate ma.elems s 0 max = some r) (rep : St MSt → Moments) (ps : List (Nat × St MSt))
    (hps : ps = wanted p ma.elems (passages max.natAbs ma.elems { s with nextElem := 0, retreat := decide (max < 0) }))
    (hrep : ∀ q ∈ ps, (rep q.2).st = q.2.payload ∧ (rep q.2).next = q.2.nextElem ∧ Flame.Arrays.Spec.Filled (rep q.2).st ∧
      Flame.Arrays.Spec.Holds (rep q.2).mem (rep q.2).lay (rep q.2).next (rep q.2).st)
    (g0 : String → Option DSet) (hg : ∀ n ∈ Flame.H5.wholeBeam ++ Flame.H5.perCharge, g0 n = none) (hne : ps ≠ []) (a : Attr)
    (f g : Flame.Tools.Str) (hf : ':' ∉ f) :
    ∃ d wr, cliRun (.hdf5 (some file)) p ma s max false = some d ∧
      recording (fun q => Flame.H5.source (rep q)) .set 32 g0 d = (wr, .ok) ∧
      ∀ (files : Flame.Tools.Str → Option File) (F : File), files f = some F → F (comps g) = some ⟨some a, wr.group⟩ →
        Marked ⟨some a, wr.group⟩ "MomentMatrix".toList →
        plotsim false files (f ++ ':' :: g) = some (six.map (fun i =>
          [ps.map (fun q => (q.2.payload.pos, q.2.payload.moment0_env i + q.2.payload.moment0_rms i)),
           ps.map (fun q => (q.2.payload.pos, q.2.payload.moment0_env i)),
           ps.map (fun q => (q.2.payload.pos, q.2.payload.moment0_env i - q.2.payload.moment0_rms i))])) := by
  obtain ⟨d, wr, h1, h2, h3, -⟩ := C70_moment_file_partial cv w c ma hm hn file p s max r hr rep ps hps hrep .set g0 hg hne
  refine ⟨d, wr, h1, h2, ?_⟩
  obtain ⟨d', d1, -, -, d4⟩ := C70_shown cv w c ma hm hn (.hdf5 (some file)) (by simp) p s max r hr
  rw [h1] at d1
  cases d1
  rw [← hps] at d4
  have e : d.seen.map (fun q => Flame.H5.source (rep q.2.2)) = (ps.map (fun q => rep q.2)).map Flame.H5.source := by
    rw [← d4, List.map_map, List.map_map]
    rfl
  unfold recording at h2
  rw [e] at h2
  have hd := recorded_dims g0 hg (ps.map (fun q => rep q.2)) (by simpa using hne) (by
    intro x hx
    obtain ⟨q, hq, rfl⟩ := List.mem_map.1 hx
    exact (hrep q hq).2.2.1) wr h2
  intro files F hF hG hk
  have hrow : ∀ (n : String) (v : MSt → Flame.H5.Spec.Values), n ∈ Flame.H5.wholeBeam →
      (∀ q : Nat × St MSt, ((Flame.Arrays.Spec.shown q.2.nextElem q.2.payload).lookup n).getD (fun _ => none) = v q.2.payload) →
      Rows wr.group n ((ps.map (fun q => q.2.payload)).map v) := by
    intro n v hn hv
    have := h3 n hn
    rw [List.map_map]
    rwa [show (fun q : Nat × St MSt => ((Flame.Arrays.Spec.shown q.2.nextElem q.2.payload).lookup n).getD (fun _ => none)) =
      v ∘ fun q => q.2.payload from funext hv] at this
  have := C115_moment_partial files f g hf F hF _ hG hk (ps.map (fun q => q.2.payload)) (by simpa using hne)
    (hrow "pos" (fun q => single (.num q.pos)) (by decide +kernel) (fun _ => rfl))
    (hrow "moment0_env" (fun q => vec q.moment0_env) (by decide +kernel) (fun _ => rfl))
    (hrow "moment0_rms" (fun q => vec q.moment0_rms) (by decide +kernel) (fun _ => rfl)) hd
  rw [this]
  simp only [List.map_map]
  rfl

end Flame.Plot
