import Verif.Tools.PropsSelect
import Verif.Tools.PropsCli
import Verif.Linear.Props

/-! # C70: output formats, and what is in the file -/

namespace Flame.Tools

open Flame.Mach Spec
open Flame.H5 (Ext DSet Writer fresh)
open Flame.H5.Spec (Rows)

/-! ## formats -/

theorem stripPrefix_iff : ∀ (p c r : Str), stripPrefix p c = some r ↔ c = p ++ r
  | [], c, r => by simp [stripPrefix]
  | a :: p, [], r => by simp [stripPrefix]
  | a :: p, b :: c, r => by
    rw [stripPrefix]
    by_cases h : a = b
    · rw [if_pos h, stripPrefix_iff p c r, h]
      simp
    · rw [if_neg h]
      simp only [List.cons_append, List.cons.injEq, false_iff, reduceCtorEq]
      exact fun hc => h hc.1.symm

theorem stripPrefix_none (p c : Str) : stripPrefix p c = none ↔ ¬ p <+: c := by
  constructor
  · rintro h ⟨r, rfl⟩
    rw [(stripPrefix_iff p _ r).2 rfl] at h
    cases h
  · intro h
    cases hs : stripPrefix p c with
    | none => rfl
    | some r => exact absurd ⟨r, ((stripPrefix_iff p c r).1 hs).symm⟩ h

theorem h5Options_none : ∀ (cmds : List Str) (file : Option Str), (∀ c ∈ cmds, ¬ "file=".toList <+: c) →
    h5Options cmds file = .hdf5 file
  | [], _, _ => rfl
  | c :: cmds, file, h => by
    rw [h5Options, (stripPrefix_none _ _).2 (h c (by simp))]
    exact h5Options_none cmds file (fun x hx => h x (by simp [hx]))

theorem h5Options_last (pre post : List Str) (name : Str) (h : ∀ c ∈ post, ¬ "file=".toList <+: c) : ∀ file : Option Str,
    h5Options (pre ++ ("file=".toList ++ name) :: post) file = .hdf5 (some name) := by
  induction pre with
  | nil =>
    intro file
    rw [List.nil_append, h5Options, (stripPrefix_iff _ _ name).2 rfl]
    exact h5Options_none post _ h
  | cons c pre ih =>
    intro file
    rw [List.cons_append, h5Options]
    split
    · exact ih _
    · exact ih _

/-- The level of detail an option asks for: `some none` if it is no number. -/
def level (int : Str → Option Int) (c : Str) : Option (Option Int) :=
  if c = "verbose".toList then some (some 1)
  else (stripPrefix "verbose=".toList c).map int

theorem file_not_level {int : Str → Option Int} {c r : Str} (h : stripPrefix "file=".toList c = some r) : level int c = none := by
  obtain rfl := (stripPrefix_iff _ _ _).1 h
  rfl

theorem txtOptions_ok (int : Str → Option Int) : ∀ (cmds : List Str) (file : Option Str) (detail : Int),
    (∀ c ∈ cmds, level int c ≠ some none) →
    txtOptions int cmds file detail = .ok (.txt (cmds.foldl (fun a c => (stripPrefix "file=".toList c).or a) file)
      (cmds.foldl (fun a c => ((level int c).join).getD a) detail))
  | [], _, _, _ => rfl
  | c :: cmds, file, detail, h => by
    have ih := fun f d => txtOptions_ok int cmds f d (fun x hx => h x (by simp [hx]))
    have hc := h c (by simp)
    rw [txtOptions, List.foldl_cons, List.foldl_cons]
    cases hf : stripPrefix "file=".toList c with
    | some name =>
      dsimp only
      rw [ih, file_not_level hf]
      rfl
    | none =>
      dsimp only
      by_cases hv : c = "verbose".toList
      · rw [if_pos hv, ih]
        unfold level
        rw [if_pos hv]
        rfl
      · rw [if_neg hv]
        unfold level at hc ⊢
        rw [if_neg hv] at hc ⊢
        cases hs : stripPrefix "verbose=".toList c with
        | none =>
          dsimp only
          rw [ih]
          rfl
        | some n =>
          rw [hs] at hc
          cases hi : int n with
          | none => rw [Option.map_some, hi] at hc; exact absurd rfl hc
          | some d =>
            dsimp only
            rw [hi]
            dsimp only
            rw [ih, Option.map_some, hi]
            rfl

theorem txtOptions_bad (int : Str → Option Int) : ∀ (cmds : List Str) (file : Option Str) (detail : Int),
    (∃ c ∈ cmds, level int c = some none) → txtOptions int cmds file detail = .error .badNumber
  | [], _, _, h => by obtain ⟨c, hc, -⟩ := h; cases hc
  | c :: cmds, file, detail, h => by
    have ih := fun f d hx => txtOptions_bad int cmds f d hx
    rw [txtOptions]
    have tail : level int c ≠ some none → ∃ c ∈ cmds, level int c = some none := by
      intro hc
      obtain ⟨x, hx, hl⟩ := h
      rcases List.mem_cons.1 hx with rfl | hx
      · exact absurd hl hc
      · exact ⟨x, hx, hl⟩
    cases hf : stripPrefix "file=".toList c with
    | some name => exact ih _ _ (tail (by rw [file_not_level hf]; simp))
    | none =>
      dsimp only
      by_cases hv : c = "verbose".toList
      · rw [if_pos hv]
        exact ih _ _ (tail (by unfold level; rw [if_pos hv]; simp))
      · rw [if_neg hv]
        cases hs : stripPrefix "verbose=".toList c with
        | none => exact ih _ _ (tail (by unfold level; rw [if_neg hv, hs]; simp))
        | some n =>
          dsimp only
          cases hi : int n with
          | none => rfl
          | some d => exact ih _ _ (tail (by unfold level; rw [if_neg hv, hs, Option.map_some, hi]; simp))

/-- A fold that keeps the last value has the value of the last item that has one. -/
theorem foldl_last {α : Type} (g : Str → Option α) (d : α) (cmds : List Str) :
    ((∀ c ∈ cmds, g c = none) ∧ cmds.foldl (fun a c => (g c).getD a) d = d) ∨
    ∃ pre c post v, cmds = pre ++ c :: post ∧ g c = some v ∧ (∀ x ∈ post, g x = none) ∧
      cmds.foldl (fun a c => (g c).getD a) d = v := by
  induction cmds generalizing d with
  | nil => exact .inl ⟨by simp, rfl⟩
  | cons c cmds ih =>
    rw [List.foldl_cons]
    rcases ih ((g c).getD d) with ⟨h1, h2⟩ | ⟨pre, x, post, v, h1, h2, h3, h4⟩
    · cases hc : g c with
      | none =>
        refine .inl ⟨?_, by rw [hc] at h2; exact h2⟩
        intro x hx
        rcases List.mem_cons.1 hx with rfl | hx
        · exact hc
        · exact h1 x hx
      | some v => exact .inr ⟨[], c, cmds, v, rfl, hc, h1, by rw [hc] at h2; exact h2⟩
    · exact .inr ⟨c :: pre, x, post, v, by rw [h1]; rfl, h2, h3, h4⟩

/-- **C70**, formats.  Of a text `format,option,...`: `txt` writes to the last file named, or the screen, with the last level of
detail given, or 1, and is refused if a level is no number; `hdf5` writes to the last file named or nowhere; `utest` prints the
parameters named; anything else is refused. -/
theorem C70_formats (h5 : Bool) (int : Str → Option Int) (s : Str) (f : Str) (cmds : List Str) (ht : tokenize s = f :: cmds) :
    (f = "txt".toList →
      ((∃ n, "verbose=".toList ++ n ∈ cmds ∧ int n = none) → parseFormat h5 int s = .error .badNumber) ∧
      ((∀ n, "verbose=".toList ++ n ∈ cmds → int n ≠ none) → ∃ file detail, parseFormat h5 int s = .ok (.txt file detail) ∧
        (file = none ∧ (∀ n, "file=".toList ++ n ∉ cmds) ∨
          ∃ pre n post, cmds = pre ++ ("file=".toList ++ n) :: post ∧ (∀ n, "file=".toList ++ n ∉ post) ∧ file = some n) ∧
        (detail = 1 ∧ (∀ n, "verbose=".toList ++ n ∉ cmds) ∨
          ∃ pre c post, cmds = pre ++ c :: post ∧ "verbose".toList ∉ post ∧ (∀ n, "verbose=".toList ++ n ∉ post) ∧
            (c = "verbose".toList ∧ detail = 1 ∨ ∃ n, c = "verbose=".toList ++ n ∧ int n = some detail)))) ∧
    (f = "hdf5".toList → h5 = true → ∃ file, parseFormat h5 int s = .ok (.hdf5 file) ∧
        (file = none ∧ (∀ n, "file=".toList ++ n ∉ cmds) ∨
          ∃ pre n post, cmds = pre ++ ("file=".toList ++ n) :: post ∧ (∀ n, "file=".toList ++ n ∉ post) ∧ file = some n)) ∧
    (f = "utest".toList → ∃ names, parseFormat h5 int s = .ok (.utest names) ∧ names = cmds.filter (fun c => '=' ∉ c)) ∧
    (f ≠ "txt".toList → f ≠ "utest".toList → (f ≠ "hdf5".toList ∨ h5 = false) → parseFormat h5 int s = .error .unknown) := by
  have hlv : ∀ n, level int ("verbose=".toList ++ n) = some (int n) := fun n => rfl
  have hlv' : ∀ c v, level int c = some v → (c = "verbose".toList ∧ v = some 1) ∨ ∃ n, c = "verbose=".toList ++ n ∧ v = int n := by
    intro c v h
    unfold level at h
    split at h
    · rename_i hc
      cases h
      exact .inl ⟨hc, rfl⟩
    · cases hs : stripPrefix "verbose=".toList c with
      | none => rw [hs] at h; cases h
      | some n =>
        rw [hs] at h
        cases h
        exact .inr ⟨n, (stripPrefix_iff _ _ _).1 hs, rfl⟩
  have e1 : "hdf5".toList ≠ "txt".toList := by decide
  have e2 : "utest".toList ≠ "txt".toList := by decide
  have e3 : "utest".toList ≠ "hdf5".toList := by decide
  refine ⟨?_, ?_, ?_, ?_⟩
  · rintro rfl
    constructor
    · rintro ⟨n, hn, hi⟩
      unfold parseFormat
      rw [ht]
      dsimp only
      rw [if_pos rfl]
      exact txtOptions_bad int cmds none 1 ⟨_, hn, by rw [hlv, hi]⟩
    · intro hok
      have hl : ∀ c ∈ cmds, level int c ≠ some none := by
        intro c hc h
        rcases hlv' c none h with ⟨-, h'⟩ | ⟨n, rfl, h'⟩
        · cases h'
        · exact hok n hc h'.symm
      have hp : parseFormat h5 int s = txtOptions int cmds none 1 := by
        unfold parseFormat
        rw [ht]
        dsimp only
        rw [if_pos rfl]
      refine ⟨_, _, hp.trans (txtOptions_ok int cmds none 1 hl), ?_, ?_⟩
      · have hg : (fun (a : Option Str) c => (stripPrefix "file=".toList c).or a) =
            fun a c => ((stripPrefix "file=".toList c).map some).getD a := by
          funext a c
          cases stripPrefix "file=".toList c <;> rfl
        rw [hg]
        rcases foldl_last (fun c => (stripPrefix "file=".toList c).map some) none cmds with ⟨h1, h2⟩ | ⟨pre, c, post, v, h1, h2, h3, h4⟩
        · refine .inl ⟨h2, fun n hn => ?_⟩
          have := h1 _ hn
          rw [(stripPrefix_iff _ _ n).2 rfl] at this
          cases this
        · obtain ⟨n, hn, hv⟩ := Option.map_eq_some_iff.1 h2
          refine .inr ⟨pre, n, post, ?_, ?_, ?_⟩
          · rw [h1, (stripPrefix_iff _ _ _).1 hn]
          · intro n' hn'
            have := h3 _ hn'
            rw [(stripPrefix_iff _ _ n').2 rfl] at this
            cases this
          · rw [h4, hv]
      · rcases foldl_last (fun c => (level int c).join) 1 cmds with ⟨h1, h2⟩ | ⟨pre, c, post, v, h1, h2, h3, h4⟩
        · refine .inl ⟨h2, fun n hn => ?_⟩
          have := h1 _ hn
          rw [hlv] at this
          exact hok n hn this
        · have hpost : ∀ x ∈ post, level int x = none := by
            intro x hx
            have := h3 x hx
            cases hx' : level int x with
            | none => rfl
            | some o =>
              rw [hx'] at this
              exact absurd (by rw [hx']; cases o with
                | none => rfl
                | some _ => cases this) (hl x (by rw [h1]; simp [hx]))
          refine .inr ⟨pre, c, post, h1, ?_, ?_, ?_⟩
          · intro hc
            have := hpost _ hc
            cases this
          · intro n hn
            have := hpost _ hn
            rw [hlv] at this
            cases this
          · rw [h4]
            have h2' : level int c = some (some v) := by
              cases hx' : level int c with
              | none => rw [hx'] at h2; cases h2
              | some o => rw [hx'] at h2; exact congrArg some h2
            rcases hlv' c _ h2' with ⟨hc, h⟩ | ⟨n, hc, h⟩
            · cases h
              exact .inl ⟨hc, rfl⟩
            · exact .inr ⟨n, hc, h.symm⟩
  · rintro rfl rfl
    have hp : parseFormat true int s = .ok (h5Options cmds none) := by
      unfold parseFormat
      rw [ht]
      dsimp only
      rw [if_neg e1, if_pos ⟨rfl, rfl⟩]
    by_cases hex : ∃ pre n post, cmds = pre ++ ("file=".toList ++ n) :: post ∧ (∀ n, "file=".toList ++ n ∉ post)
    · obtain ⟨pre, n, post, h1, h2⟩ := hex
      refine ⟨some n, hp.trans ?_, .inr ⟨pre, n, post, h1, h2, rfl⟩⟩
      rw [h1, h5Options_last]
      rintro c hc ⟨r, rfl⟩
      exact h2 r hc
    · have hno : ∀ c ∈ cmds, ¬ "file=".toList <+: c := by
        clear hp ht
        induction cmds with
        | nil => simp
        | cons c cmds ih =>
          have hno : ∀ c ∈ cmds, ¬ "file=".toList <+: c := ih (fun ⟨pre, n, post, h1, h2⟩ =>
            hex ⟨c :: pre, n, post, by rw [h1]; rfl, h2⟩)
          intro x hx
          rcases List.mem_cons.1 hx with rfl | hx
          · rintro ⟨r, rfl⟩
            exact hex ⟨[], r, cmds, rfl, fun n hn => hno _ hn ⟨n, rfl⟩⟩
          · exact hno x hx
      exact ⟨none, hp.trans (by rw [h5Options_none _ _ hno]), .inl ⟨rfl, fun n hn => hno _ hn ⟨n, rfl⟩⟩⟩
  · rintro rfl
    refine ⟨_, ?_, rfl⟩
    unfold parseFormat
    rw [ht]
    dsimp only
    rw [if_neg e2, if_neg (fun h => e3 h.2), if_pos rfl]
    unfold utestOptions
    simp
  · intro h1 h2 h3
    unfold parseFormat
    rw [ht]
    dsimp only
    rw [if_neg h1, if_neg (by rintro ⟨a, b⟩; rcases h3 with h3 | h3; exact h3 b; rw [a] at h3; cases h3), if_neg h2]

/-- Examples: a file and a level; the last file; no file. -/
example (int : Str → Option Int) (h : int "3".toList = some 3) :
    tokenize "txt,file=a.txt,verbose=3".toList = ["txt".toList, "file=a.txt".toList, "verbose=3".toList] ∧
    parseFormat true int "txt,file=a.txt,verbose=3".toList = .ok (.txt (some "a.txt".toList) 3) ∧
    parseFormat true int "hdf5,file=a.h5,file=b.h5".toList = .ok (.hdf5 (some "b.h5".toList)) ∧
    parseFormat true int "hdf5".toList = .ok (.hdf5 none) ∧ parseFormat false int "hdf5".toList = .error .unknown := by
  refine ⟨by decide, ?_, rfl, rfl, rfl⟩
  have : parseFormat true int "txt,file=a.txt,verbose=3".toList =
      (match int "3".toList with
        | none => .error .badNumber
        | some d => .ok (.txt (some "a.txt".toList) d)) := rfl
  rw [this, h]

/-! ## the file -/

/-- What `H5Observer::view` appends in turn (/repo/tools/cli.cpp:345-348), with `src` giving memory and parameters of a state. -/
def recording {S : Type} (src : St S → Flame.Util.Mem Flame.Arrays.Cell × (Nat → Flame.Arrays.Got)) (m : Ext) (fuel : Nat)
    (g0 : String → Option DSet) (d : Done S) : Writer × Flame.H5.Res :=
  (fresh g0).appendAll m fuel (d.seen.map (fun q => src q.2.2))

/-- **C70**, HDF5 output of simulations of type `Vector`: row by row the states after the selected elements. -/
theorem C70_vector_file {C X : Type} (cv : CView C) (w : World C X (Flame.Linear.LSt Flame.Linear.Vec)) (c : C)
    (ma : Machine C X (Flame.Linear.LSt Flame.Linear.Vec)) (hm : Machine.new cv w c = .ok ma) (hn : ma.elems.length ≤ sizeMod)
    (file : Str) (p : Picks) (s : St (Flame.Linear.LSt Flame.Linear.Vec)) (max : Int) (r : Run C X (Flame.Linear.LSt Flame.Linear.Vec))
    (hr : propagate ma.elems s 0 max = some r)
    (rep : St (Flame.Linear.LSt Flame.Linear.Vec) → Flame.H5.Linear (Fin 6 → ℝ))
    (hrep : ∀ q, (rep q).next = q.nextElem ∧ (rep q).pos = q.payload.pos ∧ (rep q).val = q.payload.state ∧ Flame.H5.HoldsVec (rep q))
    (m : Ext) (g0 : String → Option DSet) (hg : g0 "state" = none ∧ g0 "next_elem" = none ∧ g0 "pos" = none)
    (ps : List (Nat × St (Flame.Linear.LSt Flame.Linear.Vec)))
    (hps : ps = wanted p ma.elems (passages max.natAbs ma.elems { s with nextElem := 0, retreat := decide (max < 0) }))
    (hne : ps ≠ []) :
    ∃ d wr, cliRun (.hdf5 (some file)) p ma s max false = some d ∧
      recording (fun q => ((rep q).mem, Flame.Arrays.vectorArray (rep q).lay (rep q).state)) m 4 g0 d = (wr, .ok) ∧
      Rows wr.group "state" (ps.map (fun q => Flame.H5.vec6 q.2.payload.state)) ∧
      Rows wr.group "next_elem" (ps.map (fun q => Flame.Arrays.Spec.single (.nat q.2.nextElem))) ∧
      Rows wr.group "pos" (ps.map (fun q => Flame.Arrays.Spec.single (.num q.2.payload.pos))) := by
  obtain ⟨d, d1, -, -, d4⟩ := C70_shown cv w c ma hm hn (.hdf5 (some file)) (by simp) p s max r hr
  rw [← hps] at d4
  obtain ⟨x, xs, rfl⟩ := List.exists_cons_of_ne_nil hne
  obtain ⟨wr, w1, w2, w3, w4, -⟩ := Flame.H5.C69_vector m g0 hg (rep x.2) (xs.map (fun q => rep q.2)) (by
    intro y hy
    rcases List.mem_cons.1 hy with rfl | hy
    · exact (hrep _).2.2.2
    · obtain ⟨q, -, rfl⟩ := List.mem_map.1 hy
      exact (hrep _).2.2.2)
  refine ⟨d, wr, d1, ?_, ?_, ?_, ?_⟩
  · have e : d.seen.map (fun q => ((rep q.2.2).mem, Flame.Arrays.vectorArray (rep q.2.2).lay (rep q.2.2).state)) =
        ((d.seen.map (·.2)).map (fun q => rep q.2)).map (fun x => (x.mem, Flame.Arrays.vectorArray x.lay x.state)) := by
      rw [List.map_map, List.map_map]
      rfl
    unfold recording
    rw [e, d4]
    exact w1
  · have e : (fun q : Nat × St (Flame.Linear.LSt Flame.Linear.Vec) => Flame.H5.vec6 q.2.payload.state) =
        (fun y => Flame.H5.vec6 y.val) ∘ fun q => rep q.2 := by
      funext q
      rw [Function.comp, (hrep q.2).2.2.1]
    rw [e, ← List.map_map]
    exact w2
  · have e : (fun q : Nat × St (Flame.Linear.LSt Flame.Linear.Vec) => Flame.Arrays.Spec.single (.nat q.2.nextElem)) =
        (fun y => Flame.Arrays.Spec.single (.nat y.next)) ∘ fun q => rep q.2 := by
      funext q
      rw [Function.comp, (hrep q.2).1]
    rw [e, ← List.map_map]
    exact w3
  · have e : (fun q : Nat × St (Flame.Linear.LSt Flame.Linear.Vec) => Flame.Arrays.Spec.single (.num q.2.payload.pos)) =
        (fun y => Flame.Arrays.Spec.single (.num y.pos)) ∘ fun q => rep q.2 := by
      funext q
      rw [Function.comp, (hrep q.2).2.1]
    rw [e, ← List.map_map]
    exact w4

/-- **C70**, HDF5 output of moment simulations: row by row the states after the selected elements; for parameters with one entry per
charge state only if there is one charge state (see `Flame.H5.C69_several_false`). -/
theorem C70_moment_file_partial {C X : Type} (cv : CView C) (w : World C X Flame.Moment.MSt) (c : C)
    (ma : Machine C X Flame.Moment.MSt) (hm : Machine.new cv w c = .ok ma) (hn : ma.elems.length ≤ sizeMod)
    (file : Str) (p : Picks) (s : St Flame.Moment.MSt) (max : Int) (r : Run C X Flame.Moment.MSt)
    (hr : propagate ma.elems s 0 max = some r) (rep : St Flame.Moment.MSt → Flame.H5.Moments)
    (ps : List (Nat × St Flame.Moment.MSt))
    (hps : ps = wanted p ma.elems (passages max.natAbs ma.elems { s with nextElem := 0, retreat := decide (max < 0) }))
    (hrep : ∀ q ∈ ps, (rep q.2).st = q.2.payload ∧ (rep q.2).next = q.2.nextElem ∧ Flame.Arrays.Spec.Filled (rep q.2).st ∧
      Flame.Arrays.Spec.Holds (rep q.2).mem (rep q.2).lay (rep q.2).next (rep q.2).st)
    (m : Ext) (g0 : String → Option DSet) (hg : ∀ n ∈ Flame.H5.wholeBeam ++ Flame.H5.perCharge, g0 n = none)
    (hne : ps ≠ []) :
    ∃ d wr, cliRun (.hdf5 (some file)) p ma s max false = some d ∧
      recording (fun q => Flame.H5.source (rep q)) m 32 g0 d = (wr, .ok) ∧
      (∀ n ∈ Flame.H5.wholeBeam, Rows wr.group n
        (ps.map (fun q => ((Flame.Arrays.Spec.shown q.2.nextElem q.2.payload).lookup n).getD (fun _ => none)))) ∧
      ((∀ q ∈ ps, Flame.H5.One q.2.payload) → ∀ n ∈ Flame.H5.wholeBeam ++ Flame.H5.perCharge, Rows wr.group n
        (ps.map (fun q => ((Flame.Arrays.Spec.shown q.2.nextElem q.2.payload).lookup n).getD (fun _ => none)))) := by
  obtain ⟨d, d1, -, -, d4⟩ := C70_shown cv w c ma hm hn (.hdf5 (some file)) (by simp) p s max r hr
  rw [← hps] at d4
  clear hps
  obtain ⟨x, xs, rfl⟩ := List.exists_cons_of_ne_nil hne
  obtain ⟨wr, w1, -, w2, w3⟩ := Flame.H5.C69_moment_partial m g0 hg (rep x.2) (xs.map (fun q => rep q.2)) (by
    intro y hy
    rcases List.mem_cons.1 hy with rfl | hy
    · exact (hrep x (by simp)).2.2
    · obtain ⟨q, hq, rfl⟩ := List.mem_map.1 hy
      exact (hrep q (by simp [hq])).2.2)
  have e : ∀ n, (x :: xs).map (fun q => ((Flame.Arrays.Spec.shown q.2.nextElem q.2.payload).lookup n).getD (fun _ => none)) =
      (rep x.2 :: xs.map (fun q => rep q.2)).map (Flame.H5.valueOf n) := by
    intro n
    rw [← List.map_cons (f := fun q : Nat × St Flame.Moment.MSt => rep q.2), List.map_map]
    refine List.map_congr_left (fun q hq => ?_)
    rw [Function.comp, Flame.H5.valueOf, (hrep q hq).1, (hrep q hq).2.1]
  refine ⟨d, wr, d1, ?_, ?_, ?_⟩
  · have e : d.seen.map (fun q => Flame.H5.source (rep q.2.2)) =
        ((d.seen.map (·.2)).map (fun q => rep q.2)).map Flame.H5.source := by
      rw [List.map_map, List.map_map]
      rfl
    unfold recording
    rw [e, d4]
    exact w1
  · intro n hn
    rw [e n]
    exact w2 n hn
  · intro ho n hn
    rw [e n]
    refine w3 ?_ n hn
    intro y hy
    rcases List.mem_cons.1 hy with rfl | hy
    · rw [(hrep x (by simp)).1]
      exact ho x (by simp)
    · obtain ⟨q, hq, rfl⟩ := List.mem_map.1 hy
      rw [(hrep q (by simp [hq])).1]
      exact ho q (by simp [hq])

open Flame.Linear in
/-- A machine, a selection with output, and a way to store the states in memory as in `C70_vector_file`. -/
example : ∃ m, Machine.new exView (registry vector 0 "Vector") (fun k => if k = "sim_type" then some (.str "Vector") else none) = .ok m ∧
    m.elems.length ≤ sizeMod ∧
    wanted ⟨true, [], [], false⟩ m.elems (passages 2 m.elems ⟨0, false, ⟨0, 0⟩⟩) ≠ [] ∧
    ∃ rep : St (LSt Vec) → Flame.H5.Linear (Fin 6 → ℝ),
      ∀ q, (rep q).next = q.nextElem ∧ (rep q).pos = q.payload.pos ∧ (rep q).val = q.payload.state ∧ Flame.H5.HoldsVec (rep q) := by
  refine ⟨_, rfl, by decide, ?_, fun q => ⟨fun a => if a = 8 then .nat q.nextElem else if a = 16 then .num q.payload.pos else
      .num (q.payload.state (Fin.ofNat 6 ((a - 1000) / 8).toNat)), ⟨8, 16⟩, 1000, q.nextElem, q.payload.pos, q.payload.state⟩, ?_⟩
  · have h : ∀ (els : List (Elem LCfg (LDat Vec) (LSt Vec))) e l t, els[0]? = some e →
        wanted ⟨true, [], [], false⟩ els ((0, t) :: l) ≠ [] := by
      intro els e l t he
      have : Chosen ⟨true, [], [], false⟩ els 0 := ⟨e, he, .inl rfl⟩
      simp [wanted, this]
    exact h _ _ _ _ rfl
  · intro q
    refine ⟨rfl, rfl, rfl, rfl, rfl, fun i => ?_⟩
    have h1 : ((1000 + 8 * (i.val : Int) - 1000) / 8).toNat = i.val := by omega
    dsimp only
    rw [if_neg (by omega), if_neg (by omega), h1, Fin.ofNat_val_eq_self]

/-- A way to store moment states as in `C70_moment_file_partial`. -/
example (q : St Flame.Moment.MSt) (hf : Flame.Arrays.Spec.Filled q.payload)
    (hl : q.payload.real.length ≤ 10 ∧ q.payload.moment0.length ≤ 10 ∧ q.payload.moment1.length ≤ 10 ∧ q.payload.transmat.length ≤ 10) :
    ∃ rep : St Flame.Moment.MSt → Flame.H5.Moments, (rep q).st = q.payload ∧ (rep q).next = q.nextElem ∧
      Flame.Arrays.Spec.Filled (rep q).st ∧ Flame.Arrays.Spec.Holds (rep q).mem (rep q).lay (rep q).next (rep q).st :=
  ⟨fun q => Flame.H5.exR q.nextElem q.payload, rfl, rfl, hf, Flame.Arrays.exMem_holds q.nextElem q.payload hl⟩

end Flame.Tools
