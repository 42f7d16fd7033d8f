import Verif.Tools.Loader
import Verif.Tools.LoaderSpec
import Verif.Tools.Record

/-! # Recorded parameters can be read back: C105 -/

namespace Flame.H5

open Spec
open Flame.Util (InShape)
open Flame.Arrays (Cell)
open Flame.Arrays.Spec (shown Holds)

theorem says_number : ∀ c : Option Cell, Says c (number c)
  | some (.num x) => .num x
  | some (.nat n) => .nat n
  | none => .fill

theorem says_unique {c : Option Cell} {x y : ℝ} (h1 : Says c x) (h2 : Says c y) : x = y := by
  cases h1 <;> cases h2 <;> rfl

theorem nth_two {r c i j : Nat} (hj : j < c) : nth [r, c] (i * c + j) = [i, j] := by
  have h1 : (i * c + j) / c = i := by
    rw [Nat.add_comm, Nat.add_mul_div_right _ _ (by omega), Nat.div_eq_of_lt hj, Nat.zero_add]
  have h2 : (i * c + j) % c = j := by
    rw [Nat.add_comm, Nat.add_mul_mod_self_right, Nat.mod_eq_of_lt hj]
  simp [nth, h1, h2]

theorem index_lt {r c i j : Nat} (hi : i < r) (hj : j < c) : i * c + j < r * c := by
  calc i * c + j < i * c + c := by omega
    _ = (i + 1) * c := by ring
    _ ≤ r * c := Nat.mul_le_mul_right _ hi

/-- **C105**: a data set is read as the matrix it pictures. -/
theorem C105_load {group : String → Option DSet} {name : String} {M : Loaded} (h : load group name = .ok M) :
    ∃ ds, group name = some ds ∧ Pictures ds M.rows M.cols M.at := by
  unfold load at h
  split at h
  · cases h
  · rename_i ds hds
    refine ⟨ds, hds, ?_⟩
    split at h
    · cases h
    · rename_i r c hx
      split at h
      · cases h
      · cases h
        have get : ∀ i j, i < r → j < c → Loaded.at ⟨r, c, (List.range (r * c)).map (fun k => number (ds.data (nth ds.dim k)))⟩ i j
            = some (number (ds.data (nth ds.dim (i * c + j)))) := by
          intro i j hi hj
          simp [Loaded.at, hi, hj, index_lt hi hj]
        refine ⟨fun i j => ?_, ?_⟩
        · by_cases hij : i < r ∧ j < c
          · exact .inl hij
          · exact .inr (if_neg hij)
        · unfold extents at hx
          split at hx
          · rename_i hd
            cases hx
            refine .inl ⟨hd, rfl, rfl, _, get 0 0 one_pos one_pos, ?_⟩
            rw [hd]
            exact says_number _
          · rename_i a hd
            cases hx
            refine .inr (.inl ⟨hd, rfl, fun i hi => ⟨_, get i 0 hi one_pos, ?_⟩⟩)
            rw [hd]
            simp only [nth, List.prod_nil, Nat.mul_one, Nat.add_zero, Nat.div_one]
            exact says_number _
          · rename_i a b hd
            cases hx
            refine .inr (.inr ⟨hd, fun i j hi hj => ⟨_, get i j hi hj, ?_⟩⟩)
            rw [hd, nth_two hj]
            exact says_number _
          · cases hx

/-- **C105**, what can be read: the data sets with at most two dimensions that are not empty.  Missing ones and those with more
dimensions are refused. -/
theorem C105_readable (group : String → Option DSet) (name : String) :
    ((∃ M, load group name = .ok M) ↔ ∃ ds, group name = some ds ∧ ds.dim.length ≤ 2 ∧ 0 ∉ ds.dim) ∧
    ((∃ e, load group name = .err e) ↔ ∀ ds, group name = some ds → 2 < ds.dim.length) := by
  unfold load
  cases hg : group name with
  | none => simp
  | some ds =>
    obtain ⟨ty, dim, data⟩ := ds
    match dim with
    | [] => simp [extents]
    | [a] => by_cases h : a = 0 <;> simp [extents, h, eq_comm]
    | [a, b] => by_cases h : a = 0 <;> by_cases h' : b = 0 <;> simp [extents, h, h', eq_comm]
    | _ :: _ :: _ :: _ => simp [extents]

theorem shape_pos : ∀ {l d : List Nat}, InShape l d → 0 ∉ l
  | _, _, .nil => by simp
  | _, _, .cons h t => by
    simp only [List.mem_cons, not_or]
    exact ⟨by omega, shape_pos t⟩

theorem shape_length : ∀ {l d : List Nat}, InShape l d → l.length = d.length
  | _, _, .nil => rfl
  | _, _, .cons _ t => by simp [shape_length t]

/-- **C105**, recordings: a parameter that is a number for each state is read back as a column, in the order of the states. -/
theorem C105_column {group : String → Option DSet} {name : String} {fs : List Values} (h : Rows group name fs) (hne : fs ≠ [])
    (hs : ∀ f ∈ fs, ∃ c, f [] = some c) :
    ∃ M, load group name = .ok M ∧ M.rows = fs.length ∧ M.cols = 1 ∧
      ∀ (k : Nat) f, fs[k]? = some f → ∃ x, M.at k 0 = some x ∧ Says (f []) x := by
  obtain ⟨ds, h1, h2, h3, -, h5⟩ := h
  obtain ⟨f0, rest, rfl⟩ := List.exists_cons_of_ne_nil hne
  obtain ⟨c0, hc0⟩ := hs f0 (by simp)
  have hsh := h5 [0] c0 (by rw [h3 0 f0 rfl]; exact hc0)
  have hlen := shape_length hsh
  obtain ⟨M, hM⟩ := (C105_readable group name).1.2 ⟨ds, h1, by rw [hlen]; simp, shape_pos hsh⟩
  obtain ⟨ds', e1, -, e | e | e⟩ := C105_load hM
  · rw [h1] at e1; cases e1
    rw [e.1] at hlen; simp at hlen
  · rw [h1] at e1; cases e1
    rw [e.1] at h2
    refine ⟨M, hM, by simpa using h2, e.2.1, fun k f hk => ?_⟩
    have hk' : k < M.rows := by
      have : M.rows = (f0 :: rest).length := by simpa using h2
      rw [this]
      exact (List.getElem?_eq_some_iff.1 hk).1
    obtain ⟨x, x1, x2⟩ := e.2.2 k hk'
    rw [h3 k f hk] at x2
    exact ⟨x, x1, x2⟩
  · rw [h1] at e1; cases e1
    rw [e.1] at hlen; simp at hlen

/-- **C105**, recordings: a parameter that is a list of numbers for each state is read back with one row for each state, in the
order of the states (and zeros where a state has no entry). -/
theorem C105_table {group : String → Option DSet} {name : String} {fs : List Values} (h : Rows group name fs)
    (hs : ∃ f ∈ fs, ∃ j c, f [j] = some c) :
    ∃ M, load group name = .ok M ∧ M.rows = fs.length ∧
      ∀ (k : Nat) f, fs[k]? = some f →
        (∀ j, f [j] ≠ none → j < M.cols) ∧ ∀ j, j < M.cols → ∃ x, M.at k j = some x ∧ Says (f [j]) x := by
  obtain ⟨ds, h1, h2, h3, -, h5⟩ := h
  obtain ⟨f0, hf0, j0, c0, hc0⟩ := hs
  obtain ⟨k0, hk0⟩ := List.getElem?_of_mem hf0
  have hsh := h5 [k0, j0] c0 (by rw [h3 k0 f0 hk0]; exact hc0)
  have hlen := shape_length hsh
  obtain ⟨M, hM⟩ := (C105_readable group name).1.2 ⟨ds, h1, by rw [hlen]; simp, shape_pos hsh⟩
  obtain ⟨ds', e1, -, e | e | e⟩ := C105_load hM
  · rw [h1] at e1; cases e1
    rw [e.1] at hlen; simp at hlen
  · rw [h1] at e1; cases e1
    rw [e.1] at hlen; simp at hlen
  · rw [h1] at e1; cases e1
    rw [e.1] at h2
    have hr : M.rows = fs.length := by simpa using h2
    refine ⟨M, hM, hr, fun k f hk => ⟨fun j hj => ?_, fun j hj => ?_⟩⟩
    · obtain ⟨c, hc⟩ := Option.ne_none_iff_exists'.1 hj
      have := h5 [k, j] c (by rw [h3 k f hk]; exact hc)
      rw [e.1] at this
      cases this with
      | cons _ t => cases t with
        | cons hj _ => exact hj
    · have hk' : k < M.rows := by
        rw [hr]
        exact (List.getElem?_eq_some_iff.1 hk).1
      obtain ⟨x, x1, x2⟩ := e.2 k j hk' hj
      rw [h3 k f hk] at x2
      exact ⟨x, x1, x2⟩

/-- **C105**, recordings: a parameter with more indices is refused. -/
theorem C105_refused {group : String → Option DSet} {name : String} {fs : List Values} (h : Rows group name fs)
    (hs : ∃ f ∈ fs, ∃ d c, f d = some c ∧ 2 ≤ d.length) : ∃ e, load group name = .err e := by
  obtain ⟨ds, h1, h2, h3, -, h5⟩ := h
  obtain ⟨f0, hf0, d0, c0, hc0, hd⟩ := hs
  obtain ⟨k0, hk0⟩ := List.getElem?_of_mem hf0
  have hsh := h5 (k0 :: d0) c0 (by rw [h3 k0 f0 hk0]; exact hc0)
  refine (C105_readable group name).2.2 (fun ds' e => ?_)
  rw [h1] at e
  cases e
  rw [shape_length hsh]
  simp
  omega

/-- **C105**, recordings of a simulation of type `Vector`: what is read back. -/
theorem C105_vector (m : Ext) (g0 : String → Option DSet)
    (hg : g0 "state" = none ∧ g0 "next_elem" = none ∧ g0 "pos" = none) (r : Linear (Fin 6 → ℝ)) (rs : List (Linear (Fin 6 → ℝ)))
    (hr : ∀ x ∈ r :: rs, HoldsVec x) :
    ∃ w S N P, (fresh g0).appendAll m 4 ((r :: rs).map (fun x => (x.mem, Flame.Arrays.vectorArray x.lay x.state))) = (w, .ok) ∧
      load w.group "state" = .ok S ∧ load w.group "next_elem" = .ok N ∧ load w.group "pos" = .ok P ∧
      S.rows = rs.length + 1 ∧ N.rows = rs.length + 1 ∧ P.rows = rs.length + 1 ∧
      ∀ (k : Nat) x, (r :: rs)[k]? = some x →
        (∀ j : Fin 6, S.at k j.val = some (x.val j)) ∧ N.at k 0 = some (x.next : ℝ) ∧ P.at k 0 = some x.pos := by
  obtain ⟨w, h1, hS, hN, hP, -⟩ := C69_vector m g0 hg r rs hr
  obtain ⟨S, s1, s2, s3⟩ := C105_table hS ⟨_, List.mem_map_of_mem List.mem_cons_self, 0, .num (r.val 0), by simp [vec6]⟩
  obtain ⟨N, n1, n2, -, n3⟩ := C105_column hN (by simp) (by simp [Flame.Arrays.Spec.single])
  obtain ⟨P, p1, p2, -, p3⟩ := C105_column hP (by simp) (by simp [Flame.Arrays.Spec.single])
  refine ⟨w, S, N, P, h1, s1, n1, p1, by simpa using s2, by simpa using n2, by simpa using p2, fun k x hk => ⟨fun j => ?_, ?_, ?_⟩⟩
  · obtain ⟨t1, t2⟩ := s3 k (vec6 x.val) (by rw [List.getElem?_map, hk]; rfl)
    obtain ⟨y, y1, y2⟩ := t2 j.val (t1 _ (by simp [vec6]))
    simp only [vec6, Fin.is_lt, dif_pos] at y2
    cases y2
    exact y1
  · obtain ⟨y, y1, y2⟩ := n3 k (Flame.Arrays.Spec.single (.nat x.next)) (by rw [List.getElem?_map, hk]; rfl)
    cases y2
    exact y1
  · obtain ⟨y, y1, y2⟩ := p3 k (Flame.Arrays.Spec.single (.num x.pos)) (by rw [List.getElem?_map, hk]; rfl)
    cases y2
    exact y1

/-- **C105**, recordings of a simulation of type `TransferMatrix`: the matrices themselves are refused, positions are read. -/
theorem C105_matrix (m : Ext) (g0 : String → Option DSet)
    (hg : g0 "state" = none ∧ g0 "next_elem" = none ∧ g0 "pos" = none) (r : Linear (Matrix (Fin 6) (Fin 6) ℝ))
    (rs : List (Linear (Matrix (Fin 6) (Fin 6) ℝ))) (hr : ∀ x ∈ r :: rs, HoldsMat x) :
    ∃ w P, (fresh g0).appendAll m 4 ((r :: rs).map (fun x => (x.mem, Flame.Arrays.matrixArray x.lay x.state))) = (w, .ok) ∧
      (∃ e, load w.group "state" = .err e) ∧ load w.group "pos" = .ok P ∧ P.rows = rs.length + 1 ∧
      ∀ (k : Nat) x, (r :: rs)[k]? = some x → P.at k 0 = some x.pos := by
  obtain ⟨w, h1, hS, hN, hP, -⟩ := C69_matrix m g0 hg r rs hr
  obtain ⟨P, p1, p2, -, p3⟩ := C105_column hP (by simp) (by simp [Flame.Arrays.Spec.single])
  refine ⟨w, P, h1, C105_refused hS ⟨_, List.mem_map_of_mem List.mem_cons_self, [0, 0], .num (r.val 0 0), by simp [mat6], by simp⟩,
    p1, by simpa using p2, fun k x hk => ?_⟩
  obtain ⟨y, y1, y2⟩ := p3 k (Flame.Arrays.Spec.single (.num x.pos)) (by rw [List.getElem?_map, hk]; rfl)
  cases y2
  exact y1

/-- The parameters of a moment state that are one number. -/
def numbers : List (String × (Moments → ℝ)) :=
  [("next_elem", fun x => x.next), ("pos", fun x => x.st.pos), ("last_caviphi0", fun x => x.st.last_caviphi0),
   ("ref_IonZ", fun x => x.st.ref.IonZ), ("ref_IonQ", fun x => x.st.ref.IonQ), ("ref_IonEs", fun x => x.st.ref.IonEs),
   ("ref_IonW", fun x => x.st.ref.IonW), ("ref_gamma", fun x => x.st.ref.gamma), ("ref_beta", fun x => x.st.ref.beta),
   ("ref_bg", fun x => x.st.ref.bg), ("ref_SampleFreq", fun x => x.st.ref.SampleFreq),
   ("ref_SampleIonK", fun x => x.st.ref.SampleIonK), ("ref_phis", fun x => x.st.ref.phis), ("ref_IonEk", fun x => x.st.ref.IonEk)]

/-- **C105**, recordings of a moment simulation with any number of charge states: the reference particle, the position, and the
centroid and size of the whole beam are read back; its covariance matrix is refused. -/
theorem C105_moment (m : Ext) (g0 : String → Option DSet) (hg : ∀ n ∈ wholeBeam ++ perCharge, g0 n = none) (r : Moments)
    (rs : List Moments) (hr : ∀ x ∈ r :: rs, Flame.Arrays.Spec.Filled x.st ∧ Holds x.mem x.lay x.next x.st) :
    ∃ w C R, (fresh g0).appendAll m 32 ((r :: rs).map source) = (w, .ok) ∧
      load w.group "moment0_env" = .ok C ∧ load w.group "moment0_rms" = .ok R ∧ (∃ e, load w.group "moment1_env" = .err e) ∧
      C.rows = rs.length + 1 ∧ R.rows = rs.length + 1 ∧
      (∀ (k : Nat) x, (r :: rs)[k]? = some x → ∀ j : Fin 7,
        C.at k j.val = some (x.st.moment0_env j) ∧ R.at k j.val = some (x.st.moment0_rms j)) ∧
      ∀ q ∈ numbers, ∃ P, load w.group q.1 = .ok P ∧ P.rows = rs.length + 1 ∧ P.cols = 1 ∧
        ∀ (k : Nat) x, (r :: rs)[k]? = some x → P.at k 0 = some (q.2 x) := by
  obtain ⟨w, h1, -, h3, -⟩ := C69_moment_partial m g0 hg r rs hr
  have v0 : ∀ x : Moments, valueOf "moment0_env" x = Flame.Arrays.Spec.vec x.st.moment0_env := fun _ => rfl
  have v1 : ∀ x : Moments, valueOf "moment0_rms" x = Flame.Arrays.Spec.vec x.st.moment0_rms := fun _ => rfl
  have v2 : ∀ x : Moments, valueOf "moment1_env" x = Flame.Arrays.Spec.mat x.st.moment1_env := fun _ => rfl
  obtain ⟨C, s1, s2, s3⟩ := C105_table (h3 "moment0_env" (by simp [wholeBeam]))
    ⟨_, List.mem_map_of_mem List.mem_cons_self, 0, .num (r.st.moment0_env 0), by rw [v0]; simp [Flame.Arrays.Spec.vec, Flame.Arrays.Spec.comp]⟩
  obtain ⟨R, q1, q2, q3⟩ := C105_table (h3 "moment0_rms" (by simp [wholeBeam]))
    ⟨_, List.mem_map_of_mem List.mem_cons_self, 0, .num (r.st.moment0_rms 0), by rw [v1]; simp [Flame.Arrays.Spec.vec, Flame.Arrays.Spec.comp]⟩
  refine ⟨w, C, R, h1, s1, q1, C105_refused (h3 "moment1_env" (by simp [wholeBeam]))
    ⟨_, List.mem_map_of_mem List.mem_cons_self, [0, 0], .num (r.st.moment1_env 0 0), by rw [v2]; simp [Flame.Arrays.Spec.mat, Flame.Arrays.Spec.entry], by simp⟩,
    by simpa using s2, by simpa using q2, fun k x hk j => ⟨?_, ?_⟩, fun i hi => ?_⟩
  · obtain ⟨t1, t2⟩ := s3 k _ (by rw [List.getElem?_map, hk]; rfl)
    obtain ⟨y, y1, y2⟩ := t2 j.val (t1 _ (by rw [v0]; simp [Flame.Arrays.Spec.vec, Flame.Arrays.Spec.comp]))
    rw [v0] at y2
    simp only [Flame.Arrays.Spec.vec, Flame.Arrays.Spec.comp, Fin.is_lt, dif_pos, Option.map_some] at y2
    cases y2
    exact y1
  · obtain ⟨t1, t2⟩ := q3 k _ (by rw [List.getElem?_map, hk]; rfl)
    obtain ⟨y, y1, y2⟩ := t2 j.val (t1 _ (by rw [v1]; simp [Flame.Arrays.Spec.vec, Flame.Arrays.Spec.comp]))
    rw [v1] at y2
    simp only [Flame.Arrays.Spec.vec, Flame.Arrays.Spec.comp, Fin.is_lt, dif_pos, Option.map_some] at y2
    cases y2
    exact y1
  · have one : ∀ nm, nm ∈ wholeBeam → ∀ v : Moments → Cell, (∀ x, valueOf nm x = Flame.Arrays.Spec.single (v x)) →
        ∀ u : Moments → ℝ, (∀ x, Says (some (v x)) (u x)) →
        ∃ P, load w.group nm = .ok P ∧ P.rows = rs.length + 1 ∧ P.cols = 1 ∧
          ∀ (k : Nat) x, (r :: rs)[k]? = some x → P.at k 0 = some (u x) := by
      intro nm hnm v hv u hu
      obtain ⟨P, p1, p2, p3, p4⟩ := C105_column (h3 nm hnm) (by simp) (by
        intro f hf
        obtain ⟨x, -, rfl⟩ := List.mem_map.1 hf
        exact ⟨v x, by rw [hv]; rfl⟩)
      refine ⟨P, p1, by simpa using p2, p3, fun k x hk => ?_⟩
      obtain ⟨y, y1, y2⟩ := p4 k _ (by rw [List.getElem?_map, hk]; rfl)
      rw [hv] at y2
      rw [y1, says_unique y2 (hu x)]
    have num : ∀ nm, nm ∈ wholeBeam → ∀ u : Moments → ℝ, (∀ x, valueOf nm x = Flame.Arrays.Spec.single (.num (u x))) →
        ∃ P, load w.group nm = .ok P ∧ P.rows = rs.length + 1 ∧ P.cols = 1 ∧
          ∀ (k : Nat) x, (r :: rs)[k]? = some x → P.at k 0 = some (u x) :=
      fun nm hnm u hu => one nm hnm (fun x => .num (u x)) hu u (fun x => .num _)
    simp only [numbers, List.mem_cons, List.not_mem_nil, or_false] at hi
    rcases hi with rfl | rfl | rfl | rfl | rfl | rfl | rfl | rfl | rfl | rfl | rfl | rfl | rfl | rfl
    · exact one _ (by simp [wholeBeam]) (fun x => .nat x.next) (fun _ => rfl) _ (fun x => .nat _)
    all_goals exact num _ (by simp [wholeBeam]) _ (fun _ => rfl)

/-- A table of two rows and three columns, with one entry that was never written, is read as it is (`C105_load`,
`C105_readable`). -/
example : ∃ M, load (fun n => if n = "t" then some ⟨.double, [2, 3], fun d =>
      if d = [1, 2] then none else if d = [0, 1] then some (.num 5) else some (.num 7)⟩ else none) "t" = .ok M ∧
    M.rows = 2 ∧ M.cols = 3 ∧ M.at 0 1 = some 5 ∧ M.at 1 0 = some 7 ∧ M.at 1 2 = some 0 ∧ M.at 2 0 = none := by
  refine ⟨_, rfl, rfl, rfl, ?_, ?_, ?_, ?_⟩ <;> simp [Loaded.at, nth, number, List.range_succ]

/-- The hypotheses of `C105_vector`, `C105_matrix` and `C105_moment` hold of states in an empty group (see `C69_vector`,
`C69_moment_partial`); those of `C105_column`, `C105_table` and `C105_refused` then follow, as their proofs show. -/
example (n : Nat) (v u : Fin 6 → ℝ) : ∃ w S N P,
    (fresh (fun _ => none)).appendAll .set 4 ([exLinVec n v, exLinVec (n + 1) u].map
      (fun x => (x.mem, Flame.Arrays.vectorArray x.lay x.state))) = (w, .ok) ∧
    load w.group "state" = .ok S ∧ load w.group "next_elem" = .ok N ∧ load w.group "pos" = .ok P ∧
    S.at 0 3 = some (v 3) ∧ S.at 1 5 = some (u 5) ∧ N.at 1 0 = some ((n + 1 : Nat) : ℝ) ∧ P.at 0 0 = some 2 := by
  have hv : ∀ n v, HoldsVec (exLinVec n v) := by
    intro n v
    refine ⟨rfl, rfl, fun i => ?_⟩
    have h1 : ((1000 + 8 * (i.val : Int) - 1000) / 8).toNat = i.val := by omega
    simp only [exLinVec]
    rw [if_neg (by omega), if_neg (by omega), h1, Fin.ofNat_val_eq_self]
  obtain ⟨w, S, N, P, h1, h2, h3, h4, -, -, -, h5⟩ := C105_vector .set (fun _ => none) ⟨rfl, rfl, rfl⟩ (exLinVec n v)
    [exLinVec (n + 1) u] (by
      intro x hx
      simp only [List.mem_cons, List.not_mem_nil, or_false] at hx
      rcases hx with rfl | rfl
      · exact hv _ _
      · exact hv _ _)
  exact ⟨w, S, N, P, h1, h2, h3, h4, (h5 0 _ rfl).1 3, (h5 1 _ rfl).1 5, (h5 1 _ rfl).2.1, (h5 0 _ rfl).2.2⟩

example : ∃ w C R, (fresh (fun _ => none)).appendAll .grow 32 ([exR 3 exTwo, exR 4 exTwo].map source) = (w, .ok) ∧
    load w.group "moment0_env" = .ok C ∧ load w.group "moment0_rms" = .ok R ∧ C.rows = 2 := by
  obtain ⟨w, C, R, h1, h2, h3, -, h4, -⟩ := C105_moment .grow (fun _ => none) (fun _ _ => rfl) (exR 3 exTwo) [exR 4 exTwo] (by
    intro x hx
    simp only [List.mem_cons, List.not_mem_nil, or_false] at hx
    rcases hx with rfl | rfl
    · exact exTwo_ok 3
    · exact exTwo_ok 4)
  exact ⟨w, C, R, h1, h2, h3, h4⟩

end Flame.H5
