import Verif.Arrays.Spec
import Verif.Util.PropsArray
import Mathlib.Tactic.IntervalCases

/-! # Introspection: C40 -/

namespace Flame.Arrays

open Spec
open Flame.Util (Info Mem InShape Separate PyArr)
open Flame.Moment (MSt Particle)

/-! ## the table -/

def momentSig : List (String × AType × Nat) :=
  [("moment1_env", .double, 2), ("moment1", .double, 3), ("transmat", .double, 3), ("moment0_env", .double, 1),
   ("moment0_rms", .double, 1), ("moment0", .double, 2), ("ref_IonZ", .double, 0), ("ref_IonQ", .double, 0),
   ("ref_IonEs", .double, 0), ("ref_IonW", .double, 0), ("ref_gamma", .double, 0), ("ref_beta", .double, 0),
   ("ref_bg", .double, 0), ("ref_SampleFreq", .double, 0), ("ref_SampleIonK", .double, 0), ("ref_phis", .double, 0),
   ("ref_IonEk", .double, 0), ("IonZ", .double, 1), ("IonEs", .double, 1), ("IonW", .double, 1), ("gamma", .double, 1),
   ("beta", .double, 1), ("bg", .double, 1), ("SampleFreq", .double, 1), ("SampleIonK", .double, 1),
   ("phis", .double, 1), ("IonEk", .double, 1), ("IonQ", .double, 1), ("last_caviphi0", .double, 0),
   ("next_elem", .sizet, 0), ("pos", .double, 0)]

theorem member_filled {L : Layout} {s : MSt} (h : s.real ≠ []) (name : String) (off : Int) :
    member L s name off = .yes ⟨name, .double, ⟨L.real + off, [s.real.length], [szP]⟩⟩ := by
  unfold member
  split
  · contradiction
  · rfl

theorem matrices_filled {L : Layout} {α : Type} {l : List α} (h : l ≠ []) (name : String) (ptr : Int) :
    matrices L name ptr l = .yes ⟨name, .double, ⟨ptr, [7, 7, l.length], [8 * 7, 8, L.szM]⟩⟩ := by
  unfold matrices
  split
  · contradiction
  · rfl

theorem vectors_filled {L : Layout} {α : Type} {l : List α} (h : l ≠ []) (name : String) (ptr : Int) :
    vectors L name ptr l = .yes ⟨name, .double, ⟨ptr, [7, l.length], [8, L.szV]⟩⟩ := by
  unfold vectors
  split
  · contradiction
  · rfl

theorem moment_get {L : Layout} {s : MSt} (h : Filled s) (idx : Nat) (hi : idx < 31) :
    ∃ a, momentArray L s idx = .yes a ∧ momentSig[idx]? = some (a.name, a.type, a.arr.dim.length) ∧
      a.arr.stride.length = a.arr.dim.length ∧ ∀ l ∈ a.arr.dim, 0 < l := by
  obtain ⟨h1, h2, h3, h4⟩ := h
  have p1 := List.length_pos_iff.2 h1
  have p2 := List.length_pos_iff.2 h2
  have p3 := List.length_pos_iff.2 h3
  have p4 := List.length_pos_iff.2 h4
  interval_cases idx <;>
    simp only [momentArray, baseArray, scalar, member_filled h1, matrices_filled h3, matrices_filled h4, vectors_filled h2] <;>
    exact ⟨_, rfl, rfl, rfl, by simp [*]⟩

theorem moment_end (L : Layout) (s : MSt) (idx : Nat) (hi : 31 ≤ idx) : momentArray L s idx = .no := by
  obtain ⟨n, rfl⟩ : ∃ n, idx = n + 31 := ⟨idx - 31, by omega⟩
  rfl

/-- **C40** for the moment simulation: there is one list of names, types and numbers of dimensions, without repeated names,
that the tables of all states follow. -/
theorem C40_moment : ∃ sig : List (String × AType × Nat), (sig.map (·.1)).Nodup ∧ ∀ (L : Layout) (s : MSt), Filled s → ∀ idx,
    (∀ x, sig[idx]? = some x → ∃ a, momentArray L s idx = .yes a ∧ x = (a.name, a.type, a.arr.dim.length) ∧
      a.arr.stride.length = a.arr.dim.length ∧ a.arr.dim.length ≤ 3) ∧
    (sig[idx]? = none → momentArray L s idx = .no) := by
  refine ⟨momentSig, by decide +kernel, fun L s h idx => ⟨fun x hx => ?_, fun hx => ?_⟩⟩
  · have hi : idx < 31 := (List.getElem?_eq_some_iff.1 hx).1
    obtain ⟨a, h1, h2, h3, -⟩ := moment_get (L := L) h idx hi
    rw [hx] at h2
    cases h2
    refine ⟨a, h1, rfl, h3, ?_⟩
    have : ∀ y ∈ momentSig, y.2.2 ≤ 3 := by decide +kernel
    exact this _ (List.mem_of_getElem? hx)
  · exact moment_end L s idx (List.getElem?_eq_none_iff.1 hx)

/-- **C40** for the linear simulations. -/
theorem C40_linear : ∃ sig : Nat → List (String × AType × Nat), (∀ k, ((sig k).map (·.1)).Nodup) ∧
    ∀ (L : BaseLayout) (st : Int) (idx : Nat),
    ((∀ x, (sig 2)[idx]? = some x → ∃ a, matrixArray L st idx = .yes a ∧ x = (a.name, a.type, a.arr.dim.length)) ∧
      ((sig 2)[idx]? = none → matrixArray L st idx = .no)) ∧
    ((∀ x, (sig 1)[idx]? = some x → ∃ a, vectorArray L st idx = .yes a ∧ x = (a.name, a.type, a.arr.dim.length)) ∧
      ((sig 1)[idx]? = none → vectorArray L st idx = .no)) := by
  refine ⟨fun k => [("state", .double, k), ("next_elem", .sizet, 0), ("pos", .double, 0)], ?_, ?_⟩
  · intro k
    show ["state", "next_elem", "pos"].Nodup
    decide +kernel
  · intro L st idx
    rcases idx with _ | _ | _ | n
    · exact ⟨⟨fun x hx => ⟨_, rfl, by cases hx; rfl⟩, fun hx => by cases hx⟩,
        ⟨fun x hx => ⟨_, rfl, by cases hx; rfl⟩, fun hx => by cases hx⟩⟩
    · exact ⟨⟨fun x hx => ⟨_, rfl, by cases hx; rfl⟩, fun hx => by cases hx⟩,
        ⟨fun x hx => ⟨_, rfl, by cases hx; rfl⟩, fun hx => by cases hx⟩⟩
    · exact ⟨⟨fun x hx => ⟨_, rfl, by cases hx; rfl⟩, fun hx => by cases hx⟩,
        ⟨fun x hx => ⟨_, rfl, by cases hx; rfl⟩, fun hx => by cases hx⟩⟩
    · exact ⟨⟨fun x hx => by simp at hx, fun _ => rfl⟩, ⟨fun x hx => by simp at hx, fun _ => rfl⟩⟩

/-! ## values -/

/-- The array `a` in memory is the indexed family `f`. -/
def Is (mem : Mem Cell) (a : Info) (f : List Nat → Option Cell) : Prop :=
  ∀ d, (InShape a.dim d → f d = some (mem (a.raw d))) ∧ (¬ InShape a.dim d → f d = none)

theorem is_single {mem : Mem Cell} {p : Int} {c : Cell} (h : mem p = c) : Is mem ⟨p, [], []⟩ (single c) := by
  intro d
  constructor
  · intro hd
    cases hd
    simp [single, Info.raw, Flame.Util.offset, h]
  · intro hd
    cases d with
    | nil => exact absurd .nil hd
    | cons _ _ => rfl

theorem is_each {mem : Mem Cell} {p : Int} {real : List Particle} {off : Int} {f : Particle → ℝ}
    (h : ∀ (k : Nat) x, real[k]? = some x → mem (p + k * 96 + off) = .num (f x)) :
    Is mem ⟨p + off, [real.length], [szP]⟩ (each real f) := by
  intro d
  constructor
  · intro hd
    cases hd with
    | @cons k _ _ _ hk hd =>
      cases hd
      have hk' : real[k]? = some real[k] := List.getElem?_eq_getElem hk
      simp only [each, hk', Option.map_some, Info.raw, Flame.Util.offset, szP]
      rw [← h k _ hk']
      congr 2
      ring
  · intro hd
    match d with
    | [] => rfl
    | [k] =>
      have : real.length ≤ k := by
        by_contra hc
        exact hd (.cons (by omega) .nil)
      simp [each, List.getElem?_eq_none this]
    | _ :: _ :: _ => rfl

theorem is_vec {mem : Mem Cell} {p : Int} {v : Fin 7 → ℝ} (h : VecAt mem p v) : Is mem ⟨p, [7], [8]⟩ (vec v) := by
  intro d
  constructor
  · intro hd
    cases hd with
    | @cons k _ _ _ hk hd =>
      cases hd
      simp only [vec, comp, dif_pos hk, Option.map_some, Info.raw, Flame.Util.offset]
      rw [← h ⟨k, hk⟩]
      congr 2
      simp only
      ring
  · intro hd
    match d with
    | [] => rfl
    | [k] =>
      have : ¬ k < 7 := fun hc => hd (.cons hc .nil)
      simp [vec, comp, this]
    | _ :: _ :: _ => rfl

theorem is_mat {mem : Mem Cell} {p : Int} {M : Matrix (Fin 7) (Fin 7) ℝ} (h : MatAt mem p M) :
    Is mem ⟨p, [7, 7], [8 * 7, 8]⟩ (mat M) := by
  intro d
  constructor
  · intro hd
    cases hd with
    | @cons i _ _ _ hi hd =>
      cases hd with
      | @cons j _ _ _ hj hd =>
        cases hd
        simp only [mat, entry, dif_pos (And.intro hi hj), Option.map_some, Info.raw, Flame.Util.offset]
        rw [← h ⟨i, hi⟩ ⟨j, hj⟩]
        congr 2
        simp only
        ring
  · intro hd
    match d with
    | [] => rfl
    | [k] => rfl
    | [i, j] =>
      have : ¬ (i < 7 ∧ j < 7) := fun hc => hd (.cons hc.1 (.cons hc.2 .nil))
      simp [mat, entry, this]
    | _ :: _ :: _ :: _ => rfl

theorem is_vecs {mem : Mem Cell} {p sz : Int} {l : List (Fin 7 → ℝ)} (h : ArrayAt (VecAt mem) p sz l) :
    Is mem ⟨p, [7, l.length], [8, sz]⟩ (vecs l) := by
  intro d
  constructor
  · intro hd
    cases hd with
    | @cons i _ _ _ hi hd =>
      cases hd with
      | @cons k _ _ _ hk hd =>
        cases hd
        have hk' : l[k]? = some l[k] := List.getElem?_eq_getElem hk
        simp only [vecs, hk', Option.bind_some, comp, dif_pos hi, Option.map_some, Info.raw, Flame.Util.offset]
        rw [← h k _ hk' ⟨i, hi⟩]
        congr 2
        simp only
        ring
  · intro hd
    match d with
    | [] => rfl
    | [k] => rfl
    | [i, k] =>
      cases hk : l[k]? with
      | none => simp [vecs, hk]
      | some v =>
        have : ¬ i < 7 := fun hc => hd (.cons hc (.cons (List.getElem?_eq_some_iff.1 hk).1 .nil))
        simp [vecs, comp, hk, this]
    | _ :: _ :: _ :: _ => rfl

theorem is_mats {mem : Mem Cell} {p sz : Int} {l : List (Matrix (Fin 7) (Fin 7) ℝ)} (h : ArrayAt (MatAt mem) p sz l) :
    Is mem ⟨p, [7, 7, l.length], [8 * 7, 8, sz]⟩ (mats l) := by
  intro d
  constructor
  · intro hd
    cases hd with
    | @cons i _ _ _ hi hd =>
      cases hd with
      | @cons j _ _ _ hj hd =>
        cases hd with
        | @cons k _ _ _ hk hd =>
          cases hd
          have hk' : l[k]? = some l[k] := List.getElem?_eq_getElem hk
          simp only [mats, hk', Option.bind_some, entry, dif_pos (And.intro hi hj), Option.map_some, Info.raw,
            Flame.Util.offset]
          rw [← h k _ hk' ⟨i, hi⟩ ⟨j, hj⟩]
          congr 2
          simp only
          ring
  · intro hd
    match d with
    | [] => rfl
    | [k] => rfl
    | [_, _] => rfl
    | [i, j, k] =>
      cases hk : l[k]? with
      | none => simp [mats, hk]
      | some v =>
        have : ¬ (i < 7 ∧ j < 7) := fun hc => hd (.cons hc.1 (.cons hc.2 (.cons (List.getElem?_eq_some_iff.1 hk).1 .nil)))
        simp [mats, entry, hk, this]
    | _ :: _ :: _ :: _ :: _ => rfl

/-- The place in `shown` of the parameter with a given index. -/
def place : List Nat := [8, 4, 5, 6, 7, 3, 10, 12, 14, 16, 18, 20, 22, 24, 26, 28, 30, 9, 13, 15, 17, 19, 21, 23, 25, 27, 29,
  11, 2, 0, 1]

theorem moment_is {mem : Mem Cell} {L : Layout} {next : Nat} {s : MSt} (hf : Filled s) (hm : Holds mem L next s)
    (idx : Nat) (hi : idx < 31) :
    ∃ a f, momentArray L s idx = .yes a ∧ (shown next s)[place.getD idx 0]? = some (a.name, f) ∧ Is mem a.arr f := by
  obtain ⟨h1, h2, h3, h4⟩ := hf
  obtain ⟨r0, r1, r2, r3, r4, r5, r6, r7, r8, r9, r10, r11⟩ := hm.ref
  have hreal := hm.real
  unfold ArrayAt ParticleAt at hreal
  interval_cases idx <;>
    simp only [momentArray, baseArray, scalar, member_filled h1, matrices_filled h3, matrices_filled h4, vectors_filled h2]
  · exact ⟨_, _, rfl, rfl, is_mat hm.env1⟩
  · exact ⟨_, _, rfl, rfl, is_mats hm.m1⟩
  · exact ⟨_, _, rfl, rfl, is_mats hm.tm⟩
  · exact ⟨_, _, rfl, rfl, is_vec hm.env0⟩
  · exact ⟨_, _, rfl, rfl, is_vec hm.rms⟩
  · exact ⟨_, _, rfl, rfl, is_vecs hm.m0⟩
  · exact ⟨_, _, rfl, rfl, is_single (by rw [add_zero]; exact r0)⟩
  · exact ⟨_, _, rfl, rfl, is_single r1⟩
  · exact ⟨_, _, rfl, rfl, is_single r2⟩
  · exact ⟨_, _, rfl, rfl, is_single r3⟩
  · exact ⟨_, _, rfl, rfl, is_single r4⟩
  · exact ⟨_, _, rfl, rfl, is_single r5⟩
  · exact ⟨_, _, rfl, rfl, is_single r6⟩
  · exact ⟨_, _, rfl, rfl, is_single r7⟩
  · exact ⟨_, _, rfl, rfl, is_single r9⟩
  · exact ⟨_, _, rfl, rfl, is_single r10⟩
  · exact ⟨_, _, rfl, rfl, is_single r11⟩
  · exact ⟨_, _, rfl, rfl, is_each (fun k x hx => by rw [add_zero]; exact (hreal k x hx).1)⟩
  · exact ⟨_, _, rfl, rfl, is_each (fun k x hx => (hreal k x hx).2.2.1)⟩
  · exact ⟨_, _, rfl, rfl, is_each (fun k x hx => (hreal k x hx).2.2.2.1)⟩
  · exact ⟨_, _, rfl, rfl, is_each (fun k x hx => (hreal k x hx).2.2.2.2.1)⟩
  · exact ⟨_, _, rfl, rfl, is_each (fun k x hx => (hreal k x hx).2.2.2.2.2.1)⟩
  · exact ⟨_, _, rfl, rfl, is_each (fun k x hx => (hreal k x hx).2.2.2.2.2.2.1)⟩
  · exact ⟨_, _, rfl, rfl, is_each (fun k x hx => (hreal k x hx).2.2.2.2.2.2.2.1)⟩
  · exact ⟨_, _, rfl, rfl, is_each (fun k x hx => (hreal k x hx).2.2.2.2.2.2.2.2.2.1)⟩
  · exact ⟨_, _, rfl, rfl, is_each (fun k x hx => (hreal k x hx).2.2.2.2.2.2.2.2.2.2.1)⟩
  · exact ⟨_, _, rfl, rfl, is_each (fun k x hx => (hreal k x hx).2.2.2.2.2.2.2.2.2.2.2)⟩
  · exact ⟨_, _, rfl, rfl, is_each (fun k x hx => (hreal k x hx).2.1)⟩
  · exact ⟨_, _, rfl, rfl, is_single hm.cavi⟩
  · exact ⟨_, _, rfl, rfl, is_single hm.nextElem⟩
  · exact ⟨_, _, rfl, rfl, is_single hm.pos⟩

/-! ## attributes -/

/-- The names of the parameters. -/
def nm (j : Nat) : String := (momentSig.getD j ("", .double, 0)).1

theorem nm_inj : ∀ i < 31, ∀ j < 31, nm i = nm j → i = j := by decide +kernel

theorem wrap_spec {L : Layout} {s : MSt} (h : Filled s) : ∀ (fuel i : Nat) (at0 at1 : Attrs), i ≤ 31 →
    wrapFrom (momentArray L s) fuel i at0 = some at1 →
    (∀ j, i ≤ j → j < 31 → at1 (nm j) = some j) ∧ ∀ k, (∀ j, i ≤ j → j < 31 → nm j ≠ k) → at1 k = at0 k
  | 0, _, _, _, _, hw => by cases hw
  | fuel + 1, i, at0, at1, hi, hw => by
    unfold wrapFrom at hw
    by_cases hlt : i < 31
    · obtain ⟨a, h1, h2, -, -⟩ := moment_get (L := L) h i hlt
      have hn : a.name = nm i := by simp [nm, h2]
      have hd : ¬ a.arr.dim.length > 3 := by
        have : ∀ y ∈ momentSig, y.2.2 ≤ 3 := by decide +kernel
        have := this _ (List.mem_of_getElem? h2)
        simpa using this
      rw [h1] at hw
      dsimp only at hw
      rw [if_neg hd] at hw
      obtain ⟨k1, k2⟩ := wrap_spec h fuel (i + 1) _ at1 (by omega) hw
      constructor
      · intro j hj1 hj2
        rcases Nat.eq_or_lt_of_le hj1 with rfl | hj
        · rw [k2 (nm i) (fun j hj hj' he => by have := nm_inj j hj' i hlt he; omega), if_pos hn.symm]
        · exact k1 j hj hj2
      · intro k hk
        rw [k2 k (fun j hj hj' => hk j (by omega) hj'), if_neg (by rw [hn]; exact fun he => hk i le_rfl hlt he.symm)]
    · have : i = 31 := by omega
      subst this
      rw [moment_end L s 31 le_rfl] at hw
      cases hw
      exact ⟨fun j h1 h2 => by omega, fun k _ => rfl⟩

theorem wrap_ends {L : Layout} {s : MSt} (h : Filled s) : ∀ (fuel i : Nat) (at0 : Attrs), i ≤ 31 → 31 - i < fuel →
    ∃ at1, wrapFrom (momentArray L s) fuel i at0 = some at1
  | 0, _, _, _, hf => by omega
  | fuel + 1, i, at0, hi, hf => by
    unfold wrapFrom
    by_cases hlt : i < 31
    · obtain ⟨a, h1, -, -, -⟩ := moment_get (L := L) h i hlt
      rw [h1]
      dsimp only
      split
      · exact wrap_ends h fuel (i + 1) _ (by omega) (by omega)
      · exact wrap_ends h fuel (i + 1) _ (by omega) (by omega)
    · have : i = 31 := by omega
      subst this
      rw [moment_end L s 31 le_rfl]
      exact ⟨_, rfl⟩

theorem place_perm : ∀ i < 31, place.getD i 0 < 31 ∧ ∀ j < 31, place.getD i 0 = place.getD j 0 → i = j := by decide +kernel

theorem place_surj : ∀ k < 31, ∃ i < 31, place.getD i 0 = k := by decide +kernel

theorem shown_names (next : Nat) (s : MSt) : ∀ i < 31, ∃ f, (shown next s)[place.getD i 0]? = some (nm i, f) := by
  intro i hi
  interval_cases i <;> exact ⟨_, rfl⟩

theorem mem_shown {next : Nat} {s : MSt} {name : String} {f : List Nat → Option Cell} (h : (name, f) ∈ shown next s) :
    ∃ i < 31, (shown next s)[place.getD i 0]? = some (name, f) ∧ name = nm i := by
  obtain ⟨k, hk⟩ := List.getElem?_of_mem h
  have hk' : k < 31 := (List.getElem?_eq_some_iff.1 hk).1
  obtain ⟨i, hi, rfl⟩ := place_surj k hk'
  obtain ⟨g, hg⟩ := shown_names next s i hi
  rw [hk] at hg
  cases hg
  exact ⟨i, hi, hk, rfl⟩

/-- Making a Python object of a state ends. -/
theorem C40_wrap (L : Layout) (s : MSt) (h : Filled s) :
    ∃ attrs, wrapFrom (momentArray L s) 32 0 (fun _ => none) = some attrs := wrap_ends h 32 0 _ (by omega) (by omega)

/-- **C40**: reading an attribute in Python gives the parameter of that name, all of it, however the state has changed since
the attributes were collected; there are no other attributes. -/
theorem C40_read {mem junk : Mem Cell} {L0 L : Layout} {next fuel : Nat} {s0 s : MSt} {attrs : Attrs} (h0 : Filled s0)
    (hw : wrapFrom (momentArray L0 s0) fuel 0 (fun _ => none) = some attrs) (h : Filled s) (hm : Holds mem L next s) :
    (∀ name f, (name, f) ∈ shown next s →
      (∃ c, f [] = some c ∧ getattr attrs (momentArray L s) mem junk name = .scalar c) ∨
      (f [] = none ∧ ∃ a, getattr attrs (momentArray L s) mem junk name = .array a ∧
        ∀ d, (InShape a.info.dim d → f d = some (a.entry d)) ∧ (¬ InShape a.info.dim d → f d = none))) ∧
    ∀ name, name ∉ (shown next s).map (·.1) → getattr attrs (momentArray L s) mem junk name = .generic := by
  obtain ⟨k1, k2⟩ := wrap_spec h0 fuel 0 _ _ (by omega) hw
  constructor
  · intro name f hf
    obtain ⟨i, hi, he, rfl⟩ := mem_shown hf
    obtain ⟨a, g, h1, h2, h3⟩ := moment_is h hm i hi
    obtain ⟨a', h1', -, -, h4⟩ := moment_get (L := L) h i hi
    rw [h1] at h1'
    cases h1'
    rw [he, Option.some.injEq, Prod.mk.injEq] at h2
    obtain ⟨-, rfl⟩ := h2
    unfold getattr
    rw [k1 i (by omega) hi]
    simp only [h1]
    by_cases hd : a.arr.dim.length = 0
    · left
      rw [if_pos hd]
      have hd' : a.arr.dim = [] := List.length_eq_zero_iff.1 hd
      refine ⟨mem a.arr.ptr, ?_, rfl⟩
      rw [(h3 []).1 (by rw [hd']; exact .nil)]
      congr 2
      unfold Info.raw Flame.Util.offset
      split <;> simp_all
    · right
      rw [if_neg hd]
      refine ⟨(h3 []).2 (fun hc => hd (by cases hc' : a.arr.dim with
        | nil => rfl
        | cons x y => rw [hc'] at hc; cases hc)), _, rfl, fun d => ?_⟩
      refine ⟨fun hd' => ?_, fun hd' => (h3 d).2 hd'⟩
      obtain ⟨e1, e2⟩ := Flame.Util.C41_read mem a.arr junk h4 d hd'
      rw [e2]
      exact (h3 d).1 hd'
  · intro name hn
    unfold getattr
    rw [k2 name ?_]
    intro j _ hj he
    obtain ⟨f, hf⟩ := shown_names next s j hj
    exact hn (List.mem_map.2 ⟨_, List.mem_of_getElem? hf, he⟩)

/-! ## writing -/

def blocks (L : Layout) (s : MSt) : List (Int × Int) :=
  [(L.env1, 8 * 49), (L.m1, s.moment1.length * L.szM), (L.tm, s.transmat.length * L.szM), (L.env0, 56), (L.rms, 56),
   (L.m0, s.moment0.length * L.szV), (L.ref, 96), (L.real, s.real.length * 96), (L.cavi, 8), (L.nextElem, 8),
   (L.pos, 8)]

/-- The block of a parameter, and its place in a particle. -/
def blk : List Nat := [0, 1, 2, 3, 4, 5, 6, 6, 6, 6, 6, 6, 6, 6, 6, 6, 6, 7, 7, 7, 7, 7, 7, 7, 7, 7, 7, 7, 8, 9, 10]

def offs : List Int := [0, 0, 0, 0, 0, 0, 0, 8, 16, 24, 32, 40, 48, 56, 72, 80, 88, 0, 16, 24, 32, 40, 48, 56, 72, 80, 88, 8,
  0, 0, 0]

theorem offs_spec : ∀ i < 31, 0 ≤ offs.getD i 0 ∧ offs.getD i 0 + 8 ≤ 96 ∧
    ∀ j < 31, blk.getD i 0 = blk.getD j 0 → offs.getD i 0 = offs.getD j 0 → i = j := by decide +kernel

theorem mul_le_of_lt {k n : Nat} {sz : Int} (h : k < n) (hs : 0 ≤ sz) : (k : Int) * sz + sz ≤ n * sz := by
  have : (k : Int) + 1 ≤ n := by exact_mod_cast h
  nlinarith

theorem same_object {k k' : Nat} {r r' sz : Int} (h1 : 0 ≤ r) (h2 : r < sz) (h3 : 0 ≤ r') (h4 : r' < sz)
    (h : r + k * sz = r' + k' * sz) : k = k' ∧ r = r' := by
  have hk : k = k' := by
    rcases Nat.lt_trichotomy k k' with hlt | heq | hlt
    · have := mul_le_of_lt hlt (sz := sz) (by omega)
      omega
    · exact heq
    · have := mul_le_of_lt hlt (sz := sz) (by omega)
      omega
  subst hk
  exact ⟨rfl, by omega⟩

/-- The addresses of a parameter: within its block, at its place in a particle, and different for different indices. -/
theorem address {L : Layout} {s : MSt} (hf : Filled s) (hM : 8 * 49 ≤ L.szM) (hV : 8 * 7 ≤ L.szV) (i : Nat) (hi : i < 31) :
    ∃ a b, momentArray L s i = .yes a ∧ (blocks L s)[blk.getD i 0]? = some b ∧
      (∀ d, InShape a.arr.dim d → b.1 ≤ a.arr.raw d ∧ a.arr.raw d + 8 ≤ b.1 + b.2) ∧
      (blk.getD i 0 = 6 ∨ blk.getD i 0 = 7 → ∀ d, InShape a.arr.dim d → ∃ k : Nat, a.arr.raw d = b.1 + offs.getD i 0 + k * 96) ∧
      Separate a.arr.dim a.arr.raw := by
  obtain ⟨h1, h2, h3, h4⟩ := hf
  have sc : ∀ p q : Int, q = p → (∀ d, InShape [] d → q ≤ Info.raw ⟨p, [], []⟩ d ∧ Info.raw ⟨p, [], []⟩ d + 8 ≤ q + 8) := by
    intro p q hq d hd
    cases hd
    simp [Info.raw, Flame.Util.offset, hq]
  have scr : ∀ (o : Int), 0 ≤ o → o + 8 ≤ 96 → (∀ d, InShape [] d →
      L.ref ≤ Info.raw ⟨L.ref + o, [], []⟩ d ∧ Info.raw ⟨L.ref + o, [], []⟩ d + 8 ≤ L.ref + 96) := by
    intro o h0 h8 d hd
    cases hd
    simp only [Info.raw, Flame.Util.offset]
    omega
  have sck : ∀ (p o : Int), ∀ d, InShape [] d → ∃ k : Nat, Info.raw ⟨p + o, [], []⟩ d = p + o + k * 96 := by
    intro p o d hd
    cases hd
    exact ⟨0, by simp [Info.raw, Flame.Util.offset]⟩
  have ssep : ∀ p : Int, Separate [] (Info.raw ⟨p, [], []⟩) := by
    intro p d e hd he _
    cases hd
    cases he
    rfl
  have me : ∀ (o : Int) (n : Nat), 0 ≤ o → o + 8 ≤ 96 → (∀ d, InShape [n] d →
      L.real ≤ Info.raw ⟨L.real + o, [n], [szP]⟩ d ∧ Info.raw ⟨L.real + o, [n], [szP]⟩ d + 8 ≤ L.real + n * 96) := by
    intro o n h0 h8 d hd
    cases hd with
    | cons hk hd =>
      cases hd
      simp only [Info.raw, Flame.Util.offset, szP]
      omega
  have mek : ∀ (o : Int) (n : Nat), (∀ d, InShape [n] d → ∃ k : Nat,
      Info.raw ⟨L.real + o, [n], [szP]⟩ d = L.real + o + k * 96) := by
    intro o n d hd
    cases hd with
    | @cons k _ _ _ hk hd =>
      cases hd
      exact ⟨k, by simp [Info.raw, Flame.Util.offset, szP]⟩
  have vsep : ∀ (p sz : Int) (n : Nat), 0 < sz → Separate [n] (Info.raw ⟨p, [n], [sz]⟩) := by
    intro p sz n hsz d e hd he h
    cases hd with
    | @cons k _ _ _ hk hd =>
      cases hd
      cases he with
      | @cons k' _ _ _ hk' he =>
        cases he
        simp only [Info.raw, Flame.Util.offset] at h
        have : (k : Int) * sz = k' * sz := by omega
        have := Int.eq_of_mul_eq_mul_right (by omega) this
        congr 1
        omega
  have ve : ∀ (p : Int), (∀ d, InShape [7] d → p ≤ Info.raw ⟨p, [7], [8]⟩ d ∧ Info.raw ⟨p, [7], [8]⟩ d + 8 ≤ p + 56) := by
    intro p d hd
    cases hd with
    | cons hk hd =>
      cases hd
      simp only [Info.raw, Flame.Util.offset]
      omega
  have ma : ∀ (p : Int), (∀ d, InShape [7, 7] d →
      p ≤ Info.raw ⟨p, [7, 7], [8 * 7, 8]⟩ d ∧ Info.raw ⟨p, [7, 7], [8 * 7, 8]⟩ d + 8 ≤ p + 8 * 49) := by
    intro p d hd
    cases hd with
    | cons hk hd =>
      cases hd with
      | cons hk hd =>
        cases hd
        simp only [Info.raw, Flame.Util.offset]
        omega
  have masep : ∀ (p : Int), Separate [7, 7] (Info.raw ⟨p, [7, 7], [8 * 7, 8]⟩) := by
    intro p d e hd he h
    cases hd with
    | cons a1 hd => cases hd with
      | cons a2 hd => cases hd; cases he with
        | cons b1 he => cases he with
          | cons b2 he =>
            cases he
            simp only [Info.raw, Flame.Util.offset] at h
            congr 1
            · omega
            · congr 1
              omega
  have vs : ∀ (p : Int) (n : Nat), (∀ d, InShape [7, n] d →
      p ≤ Info.raw ⟨p, [7, n], [8, L.szV]⟩ d ∧ Info.raw ⟨p, [7, n], [8, L.szV]⟩ d + 8 ≤ p + n * L.szV) := by
    intro p n d hd
    cases hd with
    | cons hi hd =>
      cases hd with
      | @cons k _ _ _ hk hd =>
        cases hd
        simp only [Info.raw, Flame.Util.offset]
        have e1 := mul_le_of_lt hk (sz := L.szV) (by omega)
        have e2 : 0 ≤ (k : Int) * L.szV := mul_nonneg (Int.natCast_nonneg k) (by omega)
        omega
  have vssep : ∀ (p : Int) (n : Nat), Separate [7, n] (Info.raw ⟨p, [7, n], [8, L.szV]⟩) := by
    intro p n d e hd he h
    cases hd with
    | @cons x _ _ _ a1 hd => cases hd with
      | @cons y _ _ _ a2 hd => cases hd; cases he with
        | @cons x' _ _ _ b1 he => cases he with
          | @cons y' _ _ _ b2 he =>
            cases he
            simp only [Info.raw, Flame.Util.offset] at h
            obtain ⟨rfl, h'⟩ := same_object (k := y) (k' := y') (r := (x : Int) * 8) (r' := (x' : Int) * 8) (sz := L.szV) (by omega) (by omega)
              (by omega) (by omega) (by linarith)
            congr 1
            omega
  have ms : ∀ (p : Int) (n : Nat), (∀ d, InShape [7, 7, n] d →
      p ≤ Info.raw ⟨p, [7, 7, n], [8 * 7, 8, L.szM]⟩ d ∧
      Info.raw ⟨p, [7, 7, n], [8 * 7, 8, L.szM]⟩ d + 8 ≤ p + n * L.szM) := by
    intro p n d hd
    cases hd with
    | cons hi hd =>
      cases hd with
      | cons hj hd =>
        cases hd with
        | @cons k _ _ _ hk hd =>
          cases hd
          simp only [Info.raw, Flame.Util.offset]
          have e1 := mul_le_of_lt hk (sz := L.szM) (by omega)
          have e2 : 0 ≤ (k : Int) * L.szM := mul_nonneg (Int.natCast_nonneg k) (by omega)
          omega
  have mssep : ∀ (p : Int) (n : Nat), Separate [7, 7, n] (Info.raw ⟨p, [7, 7, n], [8 * 7, 8, L.szM]⟩) := by
    intro p n d e hd he h
    cases hd with
    | @cons x _ _ _ a1 hd => cases hd with
      | @cons z _ _ _ a2 hd => cases hd with
        | @cons y _ _ _ a3 hd => cases hd; cases he with
          | @cons x' _ _ _ b1 he => cases he with
            | @cons z' _ _ _ b2 he => cases he with
              | @cons y' _ _ _ b3 he =>
                cases he
                simp only [Info.raw, Flame.Util.offset] at h
                obtain ⟨rfl, h'⟩ := same_object (k := y) (k' := y') (r := (z : Int) * 8 + (x : Int) * (8 * 7))
                  (r' := (z' : Int) * 8 + (x' : Int) * (8 * 7)) (sz := L.szM) (by omega) (by omega)
                  (by omega) (by omega) (by linarith)
                congr 1
                · omega
                · congr 1
                  omega
  interval_cases i <;>
    simp only [momentArray, baseArray, scalar, member_filled h1, matrices_filled h3, matrices_filled h4, vectors_filled h2]
  · exact ⟨_, _, rfl, rfl, ma _, fun h67 => absurd h67 (by decide), masep _⟩
  · exact ⟨_, _, rfl, rfl, ms _ _, fun h67 => absurd h67 (by decide), mssep _ _⟩
  · exact ⟨_, _, rfl, rfl, ms _ _, fun h67 => absurd h67 (by decide), mssep _ _⟩
  · exact ⟨_, _, rfl, rfl, ve _, fun h67 => absurd h67 (by decide), vsep _ _ _ (by norm_num)⟩
  · exact ⟨_, _, rfl, rfl, ve _, fun h67 => absurd h67 (by decide), vsep _ _ _ (by norm_num)⟩
  · exact ⟨_, _, rfl, rfl, vs _ _, fun h67 => absurd h67 (by decide), vssep _ _⟩
  iterate 11 exact ⟨_, _, rfl, rfl, scr _ (by norm_num) (by norm_num), fun _ => sck _ _, ssep _⟩
  iterate 11 exact ⟨_, _, rfl, rfl, me _ _ (by norm_num) (by norm_num), fun _ => mek _ _, vsep _ _ _ (by decide)⟩
  iterate 3 exact ⟨_, _, rfl, rfl, sc _ _ rfl, fun h67 => absurd h67 (by decide), ssep _⟩

/-- All addresses of a state are different. -/
theorem address_inj {L : Layout} {s : MSt} (hf : Filled s) (hA : Apart L s) {i j : Nat} (hi : i < 31) (hj : j < 31)
    {a b : AInfo} (ha : momentArray L s i = .yes a) (hb : momentArray L s j = .yes b) {d e : List Nat}
    (hd : InShape a.arr.dim d) (he : InShape b.arr.dim e) (h : a.arr.raw d = b.arr.raw e) : i = j := by
  obtain ⟨hp, hM, hV⟩ := hA
  obtain ⟨a', u, ha', hu, iu, ku, -⟩ := address hf hM hV i hi
  obtain ⟨b', v, hb', hv, iv, kv, -⟩ := address hf hM hV j hj
  rw [ha] at ha'
  cases ha'
  rw [hb] at hb'
  cases hb'
  have iu := iu d hd
  have iv := iv e he
  by_cases hbl : blk.getD i 0 = blk.getD j 0
  · rw [← hbl, hu] at hv
    cases hv
    by_cases h67 : blk.getD i 0 = 6 ∨ blk.getD i 0 = 7
    · obtain ⟨k, hk⟩ := ku h67 d hd
      obtain ⟨k', hk'⟩ := kv (by rw [← hbl]; exact h67) e he
      obtain ⟨o1, o2, o3⟩ := offs_spec i hi
      obtain ⟨o4, o5, -⟩ := offs_spec j hj
      exact o3 j hj hbl (by omega)
    · have : ∀ i < 31, ∀ j < 31, blk.getD i 0 = blk.getD j 0 → ¬ (blk.getD i 0 = 6 ∨ blk.getD i 0 = 7) → i = j := by
        decide +kernel
      exact this i hi j hj hbl h67
  · exfalso
    have key : ∀ {l : List (Int × Int)}, l.Pairwise (fun a b => a.1 + a.2 ≤ b.1 ∨ b.1 + b.2 ≤ a.1) →
        ∀ {m n : Nat} {x y : Int × Int}, l[m]? = some x → l[n]? = some y → m < n →
          x.1 + x.2 ≤ y.1 ∨ y.1 + y.2 ≤ x.1 := by
      intro l hl m n x y hx hy hmn
      obtain ⟨h1, rfl⟩ := List.getElem?_eq_some_iff.1 hx
      obtain ⟨h2, rfl⟩ := List.getElem?_eq_some_iff.1 hy
      exact List.pairwise_iff_getElem.1 hl m n h1 h2 hmn
    rcases Nat.lt_or_gt_of_ne hbl with hlt | hlt
    · rcases key hp hu hv hlt with h' | h' <;> omega
    · rcases key hp hv hu hlt with h' | h' <;> omega

/-- **C40**: setting an attribute in Python changes that parameter, as far as the value says, and no other. -/
theorem C40_write {mem mem' junk : Mem Cell} {L0 L : Layout} {fuel : Nat} {s0 s : MSt} {attrs : Attrs} (h0 : Filled s0)
    (hw : wrapFrom (momentArray L0 s0) fuel 0 (fun _ => none) = some attrs) (h : Filled s) (hA : Apart L s)
    (name : String) (val : Cell ⊕ PyArr Cell) (hset : setattr attrs (momentArray L s) mem name val = some mem') :
    (∀ c, val = .inl c → getattr attrs (momentArray L s) mem' junk name = .scalar c) ∧
    (∀ v, val = .inr v → ∃ a, getattr attrs (momentArray L s) mem' junk name = .array a ∧ a.info.dim = v.info.dim ∧
      ∀ d, InShape v.info.dim d → a.entry d = v.entry d) ∧
    ∀ other, other ≠ name →
      getattr attrs (momentArray L s) mem' junk other = getattr attrs (momentArray L s) mem junk other := by
  obtain ⟨k1, k2⟩ := wrap_spec h0 fuel 0 _ _ (by omega) hw
  have names : ∀ {n i}, attrs n = some i → i < 31 ∧ n = nm i := by
    intro n i hn
    by_cases hc : ∀ j, 0 ≤ j → j < 31 → nm j ≠ n
    · rw [k2 n hc] at hn
      cases hn
    · push Not at hc
      obtain ⟨j, -, hj, rfl⟩ := hc
      rw [k1 j (by omega) hj] at hn
      cases hn
      exact ⟨hj, rfl⟩
  unfold setattr at hset
  cases hn : attrs name with
  | none => rw [hn] at hset; cases hset
  | some i =>
    obtain ⟨hi, rfl⟩ := names hn
    obtain ⟨a, u, ha, hu, -, -, hsep⟩ := address h hA.2.1 hA.2.2 i hi
    obtain ⟨a', ha', -, -, hpos⟩ := moment_get (L := L) h i hi
    rw [ha] at ha'
    cases ha'
    rw [hn] at hset
    simp only [ha] at hset
    -- the addresses outside the array keep their contents
    have outside : (∀ p, (∀ d, InShape a.arr.dim d → a.arr.raw d ≠ p) → mem' p = mem p) →
        ∀ other, other ≠ nm i →
          getattr attrs (momentArray L s) mem' junk other = getattr attrs (momentArray L s) mem junk other := by
      intro hout other ho
      unfold getattr
      cases hno : attrs other with
      | none => rfl
      | some j =>
        obtain ⟨hj, rfl⟩ := names hno
        obtain ⟨b, -, hb, -, -, -, -⟩ := address h hA.2.1 hA.2.2 j hj
        obtain ⟨b', hb', -, -, hposb⟩ := moment_get (L := L) h j hj
        rw [hb] at hb'
        cases hb'
        simp only [hb]
        have hne : ∀ e, InShape b.arr.dim e → mem' (b.arr.raw e) = mem (b.arr.raw e) := by
          intro e he
          refine hout _ fun d hd heq => ho ?_
          rw [address_inj h hA hi hj ha hb hd he heq]
        split
        · rename_i hz
          have hz' : b.arr.dim = [] := List.length_eq_zero_iff.1 hz
          have := hne [] (by rw [hz']; exact .nil)
          have hraw : b.arr.raw [] = b.arr.ptr := by
            unfold Info.raw Flame.Util.offset
            split <;> simp_all
          rw [hraw] at this
          rw [this]
        · congr 1
          unfold Flame.Util.getArr
          dsimp only
          congr 1
          refine List.foldl_ext _ _ _ fun m e he => ?_
          rw [hne e ((Flame.Util.visits_spec hposb).1 e |>.1 he)]
    cases val with
    | inl c =>
      dsimp only at hset
      split at hset
      · rename_i hz
        have hz' : a.arr.dim = [] := List.length_eq_zero_iff.1 hz
        cases hset
        have hraw : a.arr.raw [] = a.arr.ptr := by
          unfold Info.raw Flame.Util.offset
          split <;> simp_all
        refine ⟨?_, ?_, outside ?_⟩
        · intro c' hc
          cases hc
          unfold getattr
          rw [hn]
          simp only [ha]
          rw [if_pos hz]
          simp [Mem.put]
        · intro v hv
          cases hv
        · intro p hp
          have : p ≠ a.arr.ptr := by
            rw [← hraw]
            exact (hp [] (by rw [hz']; exact .nil)).symm
          simp [Mem.put, this]
      · cases hset
    | inr v =>
      dsimp only at hset
      split at hset
      · cases hset
      · rename_i hz
        obtain ⟨w1, w2⟩ := Flame.Util.C41_write mem a.arr v hpos hsep
        by_cases hdim : v.info.dim = a.arr.dim
        · obtain ⟨m'', e1, e2, e3⟩ := w2 hdim
          rw [hset] at e1
          cases e1
          refine ⟨(by intro c hc; cases hc), ?_, outside e3⟩
          intro v' hv
          cases hv
          refine ⟨Flame.Util.getArr mem' a.arr junk, ?_, hdim.symm, ?_⟩
          · unfold getattr
            rw [hn]
            simp only [ha]
            rw [if_neg hz]
          · intro d hd
            rw [hdim] at hd
            rw [(Flame.Util.C41_read mem' a.arr junk hpos d hd).2, e2 d hd]
        · rw [w1 hdim] at hset
          cases hset

end Flame.Arrays
