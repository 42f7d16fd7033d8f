import Verif.Tools.PropsWriter

/-! # What a recording contains: C69 -/

namespace Flame.H5

open Spec
open Flame.Util (Mem Info offset cStrides InShape)
open Flame.Arrays (AType AInfo Got Cell Is)
open Flame.Arrays.Spec (shown Holds)
open Flame.Moment (MSt Particle)

/-- The entries follow each other without gaps, the last index fastest. -/
def Dense (a : Info) : Prop := ∀ d, InShape a.dim d → a.raw d = a.ptr + offset (cStrides a.dim) d

/-- The dimensions of parameter `i` never shrink. -/
def Widening (i : Nat) (ss : List (Mem Cell × (Nat → Got))) : Prop :=
  ss.Pairwise (fun s t => ∀ a b, s.2 i = .yes a → t.2 i = .yes b → List.Forall₂ (· ≤ ·) a.arr.dim b.arr.dim)

theorem inside_mono : ∀ {a b d : List Nat}, List.Forall₂ (· ≤ ·) a b → inside a d = true → inside b d = true
  | _, _, _, .nil, h => h
  | _ :: _, _ :: _, [], .cons _ _, h => by simp [inside] at h
  | _ :: _, _ :: _, _ :: _, .cons h1 h2, h => by
    simp only [inside, Bool.and_eq_true, decide_eq_true_eq] at h ⊢
    exact ⟨by omega, inside_mono h2 h.2⟩

theorem blank_seen (a : AInfo) : Seen (blank a) := fun d c h => by simp [blank] at h

/-- The rows of one parameter. -/
theorem full_row {m : Ext} {sig : List (String × AType × Nat)} {g0 : String → Option DSet}
    {h : List (Mem Cell × (Nat → Got))} {w : Writer} (hw : Full m sig g0 h w) (hf : ∀ s ∈ h, Follows sig s.2)
    {i : Nat} {x : String × AType × Nat} (hi : sig[i]? = some x) :
    ∃ ds, w.group x.1 = some ds ∧ ds.type = x.2.1 ∧ ds.dim.head? = some h.length ∧ Seen ds ∧
      (∀ k d, h.length ≤ k → ds.data (k :: d) = none) ∧
      (∀ (k : Nat) s, h[k]? = some s → ∀ d,
        (inside (arr s i).2.dim d = true ∧ Lasts m ((h.drop (k + 1)).map (arr · i)) d →
          ds.data (k :: d) = some (taken (arr s i) d)) ∧
        (¬ (inside (arr s i).2.dim d = true ∧ Lasts m ((h.drop (k + 1)).map (arr · i)) d) → ds.data (k :: d) = none)) := by
  have hlt := (List.getElem?_eq_some_iff.1 hi).1
  obtain ⟨a, c1, c2, c3⟩ := (hw h).slot i x hi
  rw [if_pos hlt] at c3
  have hlen : ∀ s ∈ h.map (arr · i), a.arr.dim.length = s.2.dim.length := by
    intro s hs
    obtain ⟨t, ht, rfl⟩ := List.mem_map.1 hs
    obtain ⟨b, d1, d2, -⟩ := (hf t ht i).1 x hi
    have e : arr t i = (t.1, b.arr) := by
      unfold arr
      rw [d1]
    rw [e]
    have := c2.symm.trans d2
    simp only [Prod.mk.injEq] at this
    exact this.2.2
  obtain ⟨D', b1, b2, b3, b4, b5, b6⟩ := recAll_spec m (h.map (arr · i)) (blank a) 0 a.arr.dim rfl hlen (blank_seen a)
  refine ⟨_, c3, ?_, ?_, b3, ?_, ?_⟩
  · rw [b4, c2]
    rfl
  · rw [b1]
    simp
  · intro k d hk
    cases hd : (recAll m (blank a) 0 (h.map (arr · i))).data (k :: d) with
    | none => rfl
    | some c =>
      have := b3 _ _ hd
      rw [b1] at this
      simp only [inside, Bool.and_eq_true, decide_eq_true_eq, List.length_map] at this
      omega
  · intro k s hs d
    have := b6 k (arr s i) (by rw [List.getElem?_map, hs]; rfl) d
    rw [Nat.zero_add, ← List.map_drop] at this
    exact this

/-- **C69**, for any kind of state: of a sequence of states appended to a group without data sets of these names, each
parameter that lies in memory without gaps is recorded completely, row by row, if its dimensions do not shrink or if
the library does not shrink data sets.  Other data sets of the group stay as they are. -/
theorem C69_recorded (m : Ext) (sig : List (String × AType × Nat)) (hn : (sig.map (·.1)).Nodup) (hne : sig ≠ [])
    (g0 : String → Option DSet) (hg : ∀ x ∈ sig, g0 x.1 = none) (fuel : Nat) (hfu : sig.length < fuel)
    (s : Mem Cell × (Nat → Got)) (ss : List (Mem Cell × (Nat → Got))) (hf : ∀ x ∈ s :: ss, Follows sig x.2) :
    ∃ w, (fresh g0).appendAll m fuel (s :: ss) = (w, .ok) ∧
      (∀ n, n ∉ sig.map (·.1) → w.group n = g0 n) ∧
      ∀ i x fs, sig[i]? = some x →
        List.Forall₂ (fun s f => ∃ a, s.2 i = .yes a ∧ Is s.1 a.arr f ∧ Dense a.arr) (s :: ss) fs →
        (m = .grow ∨ Widening i (s :: ss)) → Rows w.group x.1 fs := by
  obtain ⟨w, h1, h2⟩ := appendAll_full m sig hn hne g0 hg fuel hfu s ss hf
  refine ⟨w, h1, (h2 []).other, ?_⟩
  intro i x fs hi hfs hm
  obtain ⟨ds, c1, c2, c3, c4, c5, c6⟩ := full_row h2 hf hi
  have hlen : (s :: ss).length = fs.length := hfs.length_eq
  refine ⟨ds, c1, by rw [c3, hlen], ?_, fun k hk d => c5 k d (by omega), fun d c h => inside_iff.1 (c4 d c h)⟩
  intro k f hk d
  have hkl : k < (s :: ss).length := by
    rw [hlen]
    exact (List.getElem?_eq_some_iff.1 hk).1
  obtain ⟨t, hs, a, ha, his, hde⟩ : ∃ t, (s :: ss)[k]? = some t ∧ ∃ a, t.2 i = .yes a ∧ Is t.1 a.arr f ∧ Dense a.arr := by
    have hkf := (List.getElem?_eq_some_iff.1 hk)
    have := (List.forall₂_iff_get.1 hfs).2 k hkl hkf.1
    rw [List.get_eq_getElem, List.get_eq_getElem] at this
    refine ⟨(s :: ss)[k], List.getElem?_eq_getElem hkl, ?_⟩
    have e : fs[k]'hkf.1 = f := hkf.2
    rw [← e]
    exact this
  obtain ⟨e1, e2⟩ := c6 k t hs d
  have har : arr t i = (t.1, a.arr) := by
    unfold arr
    rw [ha]
  rw [har] at e1 e2
  by_cases hd : inside a.arr.dim d = true
  · have hsh := inside_iff.1 hd
    rw [e1 ⟨hd, ?_⟩, (his d).1 hsh, taken, hde d hsh]
    rcases hm with hm | hm
    · exact .inl hm
    · refine .inr ?_
      intro q hq
      obtain ⟨u, hu, rfl⟩ := List.mem_map.1 hq
      have hmem : u ∈ s :: ss := List.mem_of_mem_drop hu
      obtain ⟨b, hb, -, -⟩ := (hf u hmem i).1 x hi
      have hbr : arr u i = (u.1, b.arr) := by
        unfold arr
        rw [hb]
      rw [hbr]
      obtain ⟨j, hj⟩ := List.getElem?_of_mem hu
      rw [List.getElem?_drop] at hj
      have hjl := (List.getElem?_eq_some_iff.1 hj)
      have hkl' := (List.getElem?_eq_some_iff.1 hs)
      have := (List.pairwise_iff_getElem.1 hm) k (k + 1 + j) hkl hjl.1 (by omega) a b
        (by rw [hkl'.2]; exact ha) (by rw [hjl.2]; exact hb)
      exact inside_mono this hd
  · rw [e2 (fun h => hd h.1), (his d).2 (fun h => hd (inside_iff.2 h))]

theorem widening_same {i : Nat} {ss : List (Mem Cell × (Nat → Got))} (D : List Nat)
    (h : ∀ s ∈ ss, ∀ a, s.2 i = .yes a → a.arr.dim = D) : Widening i ss := by
  unfold Widening
  rw [List.pairwise_iff_getElem]
  intro k l hk hl _ a b ha hb
  rw [h _ (List.getElem_mem hk) a ha, h _ (List.getElem_mem hl) b hb]
  exact List.forall₂_same.2 (fun _ _ => le_refl _)

/-- The same for recordings of a family `src` of states, for the parameters whose dimensions never change. -/
theorem recorded_map {α : Type} (src : α → Mem Cell × (Nat → Got)) (m : Ext) (sig : List (String × AType × Nat))
    (hn : (sig.map (·.1)).Nodup) (hne : sig ≠ []) (g0 : String → Option DSet) (hg : ∀ x ∈ sig, g0 x.1 = none) (fuel : Nat)
    (hfu : sig.length < fuel) (r : α) (rs : List α) (hf : ∀ x ∈ r :: rs, Follows sig (src x).2) :
    ∃ w, (fresh g0).appendAll m fuel ((r :: rs).map src) = (w, .ok) ∧
      (∀ n, n ∉ sig.map (·.1) → w.group n = g0 n) ∧
      ∀ (i : Nat) (x : String × AType × Nat) (f : α → Values) (D : List Nat), sig[i]? = some x →
        (∀ q ∈ r :: rs, ∃ a, (src q).2 i = .yes a ∧ Is (src q).1 a.arr (f q) ∧ Dense a.arr ∧ a.arr.dim = D) →
        Rows w.group x.1 ((r :: rs).map f) := by
  have hfol : ∀ x ∈ src r :: rs.map src, Follows sig x.2 := by
    intro x hx
    rw [← List.map_cons] at hx
    obtain ⟨q, hq, rfl⟩ := List.mem_map.1 hx
    exact hf q hq
  obtain ⟨w, h1, h2, h3⟩ := C69_recorded m sig hn hne g0 hg fuel hfu _ _ hfol
  refine ⟨w, h1, h2, ?_⟩
  intro i x f D hi hq
  refine h3 i x _ hi ?_ (.inr (widening_same D ?_))
  · rw [← List.map_cons, List.forall₂_map_left_iff, List.forall₂_map_right_iff, List.forall₂_same]
    intro q hqm
    obtain ⟨a, e1, e2, e3, -⟩ := hq q hqm
    exact ⟨a, e1, e2, e3⟩
  · intro s hs a ha
    rw [← List.map_cons] at hs
    obtain ⟨q, hqm, rfl⟩ := List.mem_map.1 hs
    obtain ⟨b, e1, -, -, e4⟩ := hq q hqm
    rw [e1] at ha
    cases ha
    exact e4

/-! ## linear simulations -/

/-- The values of a vector and of a matrix of six dimensions. -/
def vec6 (v : Fin 6 → ℝ) : Values
  | [i] => if h : i < 6 then some (.num (v ⟨i, h⟩)) else none
  | _ => none

def mat6 (M : Matrix (Fin 6) (Fin 6) ℝ) : Values
  | [i, j] => if h : i < 6 ∧ j < 6 then some (.num (M ⟨i, h.1⟩ ⟨j, h.2⟩)) else none
  | _ => none

theorem is_vec6 {mem : Mem Cell} {p : Int} {v : Fin 6 → ℝ} (h : ∀ i : Fin 6, mem (p + 8 * i.val) = .num (v i)) :
    Is mem ⟨p, [6], [8]⟩ (vec6 v) := by
  intro d
  constructor
  · intro hd
    cases hd with
    | @cons k _ _ _ hk hd =>
      cases hd
      simp only [vec6, dif_pos hk, Info.raw, Flame.Util.offset]
      rw [← h ⟨k, hk⟩]
      congr 2
      simp only
      ring
  · intro hd
    match d with
    | [] => rfl
    | [k] =>
      have : ¬ k < 6 := fun hc => hd (.cons hc .nil)
      simp [vec6, this]
    | _ :: _ :: _ => rfl

theorem is_mat6 {mem : Mem Cell} {p : Int} {M : Matrix (Fin 6) (Fin 6) ℝ}
    (h : ∀ i j : Fin 6, mem (p + 8 * (6 * i.val + j.val)) = .num (M i j)) : Is mem ⟨p, [6, 6], [8 * 6, 8]⟩ (mat6 M) := by
  intro d
  constructor
  · intro hd
    cases hd with
    | @cons i _ _ _ hi hd =>
      cases hd with
      | @cons j _ _ _ hj hd =>
        cases hd
        simp only [mat6, dif_pos (And.intro hi hj), Info.raw, Flame.Util.offset]
        rw [← h ⟨i, hi⟩ ⟨j, hj⟩]
        congr 2
        simp only
        ring
  · intro hd
    match d with
    | [] => rfl
    | [k] => rfl
    | [i, j] =>
      have : ¬ (i < 6 ∧ j < 6) := fun hc => hd (.cons hc.1 (.cons hc.2 .nil))
      simp [mat6, this]
    | _ :: _ :: _ :: _ => rfl

theorem dense_c (p : Int) (dim : List Nat) : Dense ⟨p, dim, cStrides dim⟩ := fun _ _ => rfl

/-- A linear state in memory: where it lies, `next_elem`, `pos` and the vector or matrix. -/
structure Linear (V : Type) where
  mem : Mem Cell
  lay : Flame.Arrays.BaseLayout
  state : Int
  next : Nat
  pos : ℝ
  val : V

/-- The memory holds the state. -/
def HoldsVec (r : Linear (Fin 6 → ℝ)) : Prop :=
  r.mem r.lay.nextElem = .nat r.next ∧ r.mem r.lay.pos = .num r.pos ∧ ∀ i : Fin 6, r.mem (r.state + 8 * i.val) = .num (r.val i)

def HoldsMat (r : Linear (Matrix (Fin 6) (Fin 6) ℝ)) : Prop :=
  r.mem r.lay.nextElem = .nat r.next ∧ r.mem r.lay.pos = .num r.pos ∧
    ∀ i j : Fin 6, r.mem (r.state + 8 * (6 * i.val + j.val)) = .num (r.val i j)

/-- **C69** for simulations of type `Vector`, complete. -/
theorem C69_vector (m : Ext) (g0 : String → Option DSet)
    (hg : g0 "state" = none ∧ g0 "next_elem" = none ∧ g0 "pos" = none) (r : Linear (Fin 6 → ℝ)) (rs : List (Linear (Fin 6 → ℝ)))
    (hr : ∀ x ∈ r :: rs, HoldsVec x) :
    ∃ w, (fresh g0).appendAll m 4 ((r :: rs).map (fun x => (x.mem, Flame.Arrays.vectorArray x.lay x.state))) = (w, .ok) ∧
      Rows w.group "state" ((r :: rs).map (fun x => vec6 x.val)) ∧
      Rows w.group "next_elem" ((r :: rs).map (fun x => Flame.Arrays.Spec.single (.nat x.next))) ∧
      Rows w.group "pos" ((r :: rs).map (fun x => Flame.Arrays.Spec.single (.num x.pos))) ∧
      ∀ n, n ≠ "state" → n ≠ "next_elem" → n ≠ "pos" → w.group n = g0 n := by
  have hfol : ∀ x ∈ r :: rs, Follows [("state", .double, 1), ("next_elem", .sizet, 0), ("pos", .double, 0)]
      (Flame.Arrays.vectorArray x.lay x.state) := by
    intro x _ i
    rcases i with _ | _ | _ | i
    · exact ⟨fun x hx => by cases hx; exact ⟨_, rfl, rfl, by simp⟩, fun hx => by cases hx⟩
    · exact ⟨fun x hx => by cases hx; exact ⟨_, rfl, rfl, by simp⟩, fun hx => by cases hx⟩
    · exact ⟨fun x hx => by cases hx; exact ⟨_, rfl, rfl, by simp⟩, fun hx => by cases hx⟩
    · exact ⟨fun x hx => by simp at hx, fun _ => rfl⟩
  obtain ⟨w, h1, h2, key⟩ := recorded_map (fun x => (x.mem, Flame.Arrays.vectorArray x.lay x.state)) m
    [("state", .double, 1), ("next_elem", .sizet, 0), ("pos", .double, 0)] (by decide +kernel) (by simp) g0
    (by simpa using hg) 4 (by simp) r rs hfol
  refine ⟨w, h1, ?_, ?_, ?_, fun n n1 n2 n3 => h2 n (by simp [n1, n2, n3])⟩
  · exact key 0 _ _ [6] rfl (fun q hq => ⟨_, rfl, is_vec6 (hr q hq).2.2, dense_c _ _, rfl⟩)
  · exact key 1 _ _ [] rfl (fun q hq => ⟨_, rfl, Flame.Arrays.is_single (hr q hq).1, dense_c _ _, rfl⟩)
  · exact key 2 _ _ [] rfl (fun q hq => ⟨_, rfl, Flame.Arrays.is_single (hr q hq).2.1, dense_c _ _, rfl⟩)

/-- **C69** for simulations of type `TransferMatrix`, complete. -/
theorem C69_matrix (m : Ext) (g0 : String → Option DSet)
    (hg : g0 "state" = none ∧ g0 "next_elem" = none ∧ g0 "pos" = none) (r : Linear (Matrix (Fin 6) (Fin 6) ℝ))
    (rs : List (Linear (Matrix (Fin 6) (Fin 6) ℝ))) (hr : ∀ x ∈ r :: rs, HoldsMat x) :
    ∃ w, (fresh g0).appendAll m 4 ((r :: rs).map (fun x => (x.mem, Flame.Arrays.matrixArray x.lay x.state))) = (w, .ok) ∧
      Rows w.group "state" ((r :: rs).map (fun x => mat6 x.val)) ∧
      Rows w.group "next_elem" ((r :: rs).map (fun x => Flame.Arrays.Spec.single (.nat x.next))) ∧
      Rows w.group "pos" ((r :: rs).map (fun x => Flame.Arrays.Spec.single (.num x.pos))) ∧
      ∀ n, n ≠ "state" → n ≠ "next_elem" → n ≠ "pos" → w.group n = g0 n := by
  have hfol : ∀ x ∈ r :: rs, Follows [("state", .double, 2), ("next_elem", .sizet, 0), ("pos", .double, 0)]
      (Flame.Arrays.matrixArray x.lay x.state) := by
    intro x _ i
    rcases i with _ | _ | _ | i
    · exact ⟨fun x hx => by cases hx; exact ⟨_, rfl, rfl, by simp⟩, fun hx => by cases hx⟩
    · exact ⟨fun x hx => by cases hx; exact ⟨_, rfl, rfl, by simp⟩, fun hx => by cases hx⟩
    · exact ⟨fun x hx => by cases hx; exact ⟨_, rfl, rfl, by simp⟩, fun hx => by cases hx⟩
    · exact ⟨fun x hx => by simp at hx, fun _ => rfl⟩
  obtain ⟨w, h1, h2, key⟩ := recorded_map (fun x => (x.mem, Flame.Arrays.matrixArray x.lay x.state)) m
    [("state", .double, 2), ("next_elem", .sizet, 0), ("pos", .double, 0)] (by decide +kernel) (by simp) g0
    (by simpa using hg) 4 (by simp) r rs hfol
  refine ⟨w, h1, ?_, ?_, ?_, fun n n1 n2 n3 => h2 n (by simp [n1, n2, n3])⟩
  · exact key 0 _ _ [6, 6] rfl (fun q hq => ⟨_, rfl, is_mat6 (hr q hq).2.2, dense_c _ [6, 6], rfl⟩)
  · exact key 1 _ _ [] rfl (fun q hq => ⟨_, rfl, Flame.Arrays.is_single (hr q hq).1, dense_c _ _, rfl⟩)
  · exact key 2 _ _ [] rfl (fun q hq => ⟨_, rfl, Flame.Arrays.is_single (hr q hq).2.1, dense_c _ _, rfl⟩)

/-! ## moment simulations -/

/-- A moment state in memory. -/
structure Moments where
  mem : Mem Cell
  lay : Flame.Arrays.Layout
  next : Nat
  st : MSt

/-- The values of the parameter `name`. -/
def valueOf (name : String) (r : Moments) : Values := ((shown r.next r.st).lookup name).getD (fun _ => none)

/-- What is recorded of a state. -/
def source (r : Moments) : Mem Cell × (Nat → Got) := (r.mem, Flame.Arrays.momentArray r.lay r.st)

theorem moment_follows (r : Moments) (h : Flame.Arrays.Spec.Filled r.st) : Follows Flame.Arrays.momentSig (source r).2 := by
  intro i
  constructor
  · intro x hx
    have hi : i < 31 := (List.getElem?_eq_some_iff.1 hx).1
    obtain ⟨a, h1, h2, -, h4⟩ := Flame.Arrays.moment_get (L := r.lay) h i hi
    rw [hx] at h2
    cases h2
    exact ⟨a, h1, rfl, h4⟩
  · intro hx
    exact Flame.Arrays.moment_end r.lay r.st i (List.getElem?_eq_none_iff.1 hx)

/-- The parameters of the beam as a whole: all but those with one entry for each charge state. -/
def common : List Nat := [0, 3, 4, 6, 7, 8, 9, 10, 11, 12, 13, 14, 15, 16, 28, 29, 30]

/-- There is one charge state. -/
def One (s : MSt) : Prop := s.real.length = 1 ∧ s.moment0.length = 1 ∧ s.moment1.length = 1 ∧ s.transmat.length = 1

theorem lookup_place {next : Nat} {s : MSt} {i : Nat} {nm : String} {f : Values} (hi : i < 31)
    (h : (shown next s)[Flame.Arrays.place.getD i 0]? = some (nm, f)) : (shown next s).lookup nm = some f := by
  interval_cases i <;> (cases h; rfl)

theorem one_of_length {s : MSt} (h : One s) : Flame.Arrays.Spec.Filled s := by
  obtain ⟨h1, h2, h3, h4⟩ := h
  refine ⟨?_, ?_, ?_, ?_⟩ <;> (intro hc; simp_all)

theorem dense_each (p : Int) (n : Nat) (sz : Int) (h : n = 1) : Dense ⟨p, [n], [sz]⟩ := by
  subst h
  intro d hd
  cases hd with
  | @cons k _ _ _ hk hd =>
    cases hd
    obtain rfl : k = 0 := by omega
    simp [Info.raw, Flame.Util.offset, cStrides]

theorem dense_vecs (p : Int) (n : Nat) (sz : Int) (h : n = 1) : Dense ⟨p, [7, n], [8, sz]⟩ := by
  subst h
  intro d hd
  cases hd with
  | @cons i _ _ _ hi hd =>
    cases hd with
    | @cons k _ _ _ hk hd =>
      cases hd
      obtain rfl : k = 0 := by omega
      simp [Info.raw, Flame.Util.offset, cStrides]

theorem dense_mats (p : Int) (n : Nat) (sz : Int) (h : n = 1) : Dense ⟨p, [7, 7, n], [8 * 7, 8, sz]⟩ := by
  subst h
  intro d hd
  cases hd with
  | @cons i _ _ _ hi hd =>
    cases hd with
    | @cons j _ _ _ hj hd =>
      cases hd with
      | @cons k _ _ _ hk hd =>
        cases hd
        obtain rfl : k = 0 := by omega
        simp [Info.raw, Flame.Util.offset, cStrides]

/-- Where the parameters lie, and their dimensions. -/
theorem moment_dense (i : Nat) (hi : i < 31) : ∃ D : List Nat, ∀ r : Moments, Flame.Arrays.Spec.Filled r.st →
    (i ∈ common ∨ One r.st) → ∀ a, (source r).2 i = .yes a → Dense a.arr ∧ a.arr.dim = D := by
  have hM : ∀ i, i = 1 ∨ i = 2 → ∀ r : Moments, Flame.Arrays.Spec.Filled r.st → One r.st → ∀ a, (source r).2 i = .yes a →
      Dense a.arr ∧ a.arr.dim = [7, 7, 1] := by
    intro i hi r ⟨h1, h2, h3, h4⟩ ⟨o1, o2, o3, o4⟩ a ha
    rcases hi with rfl | rfl
    · simp only [source, Flame.Arrays.momentArray, Flame.Arrays.matrices_filled h3] at ha
      cases ha
      exact ⟨dense_mats _ _ _ o3, by rw [o3]⟩
    · simp only [source, Flame.Arrays.momentArray, Flame.Arrays.matrices_filled h4] at ha
      cases ha
      exact ⟨dense_mats _ _ _ o4, by rw [o4]⟩
  have hV : ∀ r : Moments, Flame.Arrays.Spec.Filled r.st → One r.st → ∀ a, (source r).2 5 = .yes a →
      Dense a.arr ∧ a.arr.dim = [7, 1] := by
    intro r ⟨h1, h2, h3, h4⟩ ⟨o1, o2, o3, o4⟩ a ha
    simp only [source, Flame.Arrays.momentArray, Flame.Arrays.vectors_filled h2] at ha
    cases ha
    exact ⟨dense_vecs _ _ _ o2, by rw [o2]⟩
  have hE : ∀ i, 17 ≤ i → i ≤ 27 → ∀ r : Moments, Flame.Arrays.Spec.Filled r.st → One r.st → ∀ a, (source r).2 i = .yes a →
      Dense a.arr ∧ a.arr.dim = [1] := by
    intro i hi hi' r ⟨h1, h2, h3, h4⟩ ⟨o1, o2, o3, o4⟩ a ha
    interval_cases i <;>
      (simp only [source, Flame.Arrays.momentArray, Flame.Arrays.member_filled h1] at ha
       cases ha
       exact ⟨dense_each _ _ _ o1, by rw [o1]⟩)
  by_cases hc : i ∈ common
  · have hi' : i = 0 ∨ i = 3 ∨ i = 4 ∨ (6 ≤ i ∧ i ≤ 16) ∨ 28 ≤ i := by
      simp only [common, List.mem_cons, List.not_mem_nil, or_false] at hc
      omega
    rcases hi' with rfl | rfl | rfl | ⟨h6, h16⟩ | h28
    · exact ⟨[7, 7], fun r _ _ a ha => by cases ha; exact ⟨dense_c _ [7, 7], rfl⟩⟩
    · exact ⟨[7], fun r _ _ a ha => by cases ha; exact ⟨dense_c _ [7], rfl⟩⟩
    · exact ⟨[7], fun r _ _ a ha => by cases ha; exact ⟨dense_c _ [7], rfl⟩⟩
    · refine ⟨[], fun r _ _ a ha => ?_⟩
      interval_cases i <;> (cases ha; exact ⟨dense_c _ [], rfl⟩)
    · refine ⟨[], fun r _ _ a ha => ?_⟩
      interval_cases i <;> (cases ha; exact ⟨dense_c _ [], rfl⟩)
  · have hi' : (i = 1 ∨ i = 2) ∨ i = 5 ∨ (17 ≤ i ∧ i ≤ 27) := by
      simp only [common, List.mem_cons, List.not_mem_nil, or_false] at hc
      omega
    rcases hi' with h | rfl | ⟨h1, h2⟩
    · exact ⟨_, fun r hf ho a ha => hM i h r hf (ho.resolve_left hc) a ha⟩
    · exact ⟨_, fun r hf ho a ha => hV r hf (ho.resolve_left hc) a ha⟩
    · exact ⟨_, fun r hf ho a ha => hE i h1 h2 r hf (ho.resolve_left hc) a ha⟩

/-- The names of the parameters of the beam as a whole. -/
def wholeBeam : List String :=
  ["next_elem", "pos", "last_caviphi0", "moment0_env", "moment0_rms", "moment1_env", "ref_IonZ", "ref_IonQ", "ref_IonEs",
   "ref_IonW", "ref_gamma", "ref_beta", "ref_bg", "ref_SampleFreq", "ref_SampleIonK", "ref_phis", "ref_IonEk"]

/-- The names of the parameters with one entry for each charge state. -/
def perCharge : List String :=
  ["moment0", "moment1", "transmat", "IonZ", "IonQ", "IonEs", "IonW", "gamma", "beta", "bg", "SampleFreq", "SampleIonK", "phis",
   "IonEk"]

theorem where_common : ∀ n ∈ wholeBeam, ∃ i, i < 31 ∧ i ∈ common ∧ ∃ x, Flame.Arrays.momentSig[i]? = some x ∧ x.1 = n := by
  decide +kernel

theorem where_all : ∀ n ∈ wholeBeam ++ perCharge, ∃ i, i < 31 ∧ ∃ x, Flame.Arrays.momentSig[i]? = some x ∧ x.1 = n := by
  decide +kernel

/-- **C69** for moment simulations.  Of states appended in turn, the parameters of the beam as a whole are recorded completely,
row by row; if the beam has one charge state throughout, so are all parameters.  Missing: beams of several charge states,
for which it is wrong (`C69_several_false`). -/
theorem C69_moment_partial (m : Ext) (g0 : String → Option DSet) (hg : ∀ n ∈ wholeBeam ++ perCharge, g0 n = none) (r : Moments)
    (rs : List Moments) (hr : ∀ x ∈ r :: rs, Flame.Arrays.Spec.Filled x.st ∧ Holds x.mem x.lay x.next x.st) :
    ∃ w, (fresh g0).appendAll m 32 ((r :: rs).map source) = (w, .ok) ∧
      (∀ n, n ∉ wholeBeam ++ perCharge → w.group n = g0 n) ∧
      (∀ n ∈ wholeBeam, Rows w.group n ((r :: rs).map (valueOf n))) ∧
      ((∀ x ∈ r :: rs, One x.st) → ∀ n ∈ wholeBeam ++ perCharge, Rows w.group n ((r :: rs).map (valueOf n))) := by
  have hnames : ∀ n, n ∈ Flame.Arrays.momentSig.map (·.1) ↔ n ∈ wholeBeam ++ perCharge := by
    have h1 : ∀ n ∈ Flame.Arrays.momentSig.map (·.1), n ∈ wholeBeam ++ perCharge := by decide +kernel
    have h2 : ∀ n ∈ wholeBeam ++ perCharge, n ∈ Flame.Arrays.momentSig.map (·.1) := by decide +kernel
    exact fun n => ⟨h1 n, h2 n⟩
  obtain ⟨w, h1, h2, key⟩ := recorded_map source m Flame.Arrays.momentSig (by decide +kernel) (by simp [Flame.Arrays.momentSig])
    g0 (fun x hx => hg _ ((hnames _).1 (List.mem_map_of_mem hx))) 32 (by decide +kernel) r rs
    (fun x hx => moment_follows x (hr x hx).1)
  have all : ∀ i, i < 31 → (∀ x ∈ r :: rs, i ∈ common ∨ One x.st) → ∀ x, Flame.Arrays.momentSig[i]? = some x →
      Rows w.group x.1 ((r :: rs).map (valueOf x.1)) := by
    intro i hi hc x hx
    obtain ⟨D, hD⟩ := moment_dense i hi
    refine key i x _ D hx ?_
    intro q hq
    obtain ⟨a, f, e1, e2, e3⟩ := Flame.Arrays.moment_is (hr q hq).1 (hr q hq).2 i hi
    obtain ⟨b, d1, d2, -⟩ := (moment_follows q (hr q hq).1 i).1 x hx
    have hab : b = a := by
      have := d1.symm.trans e1
      cases this
      rfl
    subst hab
    have hv : valueOf x.1 q = f := by
      unfold valueOf
      rw [d2]
      dsimp only
      rw [lookup_place hi e2]
      rfl
    obtain ⟨u1, u2⟩ := hD q (hr q hq).1 (hc q hq) b d1
    exact ⟨b, d1, by rw [hv]; exact e3, u1, u2⟩
  refine ⟨w, h1, fun n hn => h2 n (fun h => hn ((hnames n).1 h)), ?_, ?_⟩
  · intro n hn
    obtain ⟨i, hi, hc, x, hx, rfl⟩ := where_common n hn
    exact all i hi (fun _ _ => .inl hc) x hx
  · intro ho n hn
    obtain ⟨i, hi, x, hx, rfl⟩ := where_all n hn
    exact all i hi (fun q hq => .inr (ho q hq)) x hx

/-- What the record of a beam of several charge states contains instead: after one state, the entry of `IonZ` for the second
charge state is the weight `IonQ` of the first, and that of `IonEk` is `IonZ` of the second. -/
theorem C69_several (m : Ext) (g0 : String → Option DSet) (hg : ∀ n ∈ wholeBeam ++ perCharge, g0 n = none) (r : Moments)
    (hf : Flame.Arrays.Spec.Filled r.st) (hh : Holds r.mem r.lay r.next r.st) (p q : Particle) (l : List Particle)
    (hl : r.st.real = p :: q :: l) :
    ∃ w, (fresh g0).appendAll m 32 [source r] = (w, .ok) ∧
      (∃ ds, w.group "IonZ" = some ds ∧ ds.data [0, 1] = some (.num p.IonQ)) ∧
      (∃ ds, w.group "IonEk" = some ds ∧ ds.data [0, 1] = some (.num q.IonZ)) := by
  have hnames : ∀ n ∈ Flame.Arrays.momentSig.map (·.1), n ∈ wholeBeam ++ perCharge := by decide +kernel
  have hfo : ∀ x ∈ [source r], Follows Flame.Arrays.momentSig x.2 := by
    intro x hx
    rw [List.mem_singleton.1 hx]
    exact moment_follows r hf
  obtain ⟨w, h1, h2⟩ := appendAll_full m Flame.Arrays.momentSig (by decide +kernel) (by simp [Flame.Arrays.momentSig]) g0
    (fun x hx => hg _ (hnames _ (List.mem_map_of_mem hx))) 32 (by decide +kernel) (source r) [] hfo
  have hreal := hh.real
  have hp := hreal 0 p (by rw [hl]; rfl)
  have hq := hreal 1 q (by rw [hl]; rfl)
  have hin : inside [r.st.real.length] [1] = true := by
    rw [hl]
    simp [inside]
  have key : ∀ (i : Nat) (nm : String) (off : Int), Flame.Arrays.momentSig[i]? = some (nm, .double, 1) →
      (source r).2 i = Flame.Arrays.member r.lay r.st nm off →
      ∃ ds, w.group nm = some ds ∧ ds.data [0, 1] = some (r.mem (r.lay.real + off + 8)) := by
    intro i nm off hi he
    rw [Flame.Arrays.member_filled hf.1] at he
    obtain ⟨ds, c1, -, -, -, -, c6⟩ := full_row h2 hfo hi
    have har : arr (source r) i = (r.mem, ⟨r.lay.real + off, [r.st.real.length], [Flame.Arrays.szP]⟩) := by
      unfold arr
      rw [he]
      rfl
    have := (c6 0 (source r) rfl [1]).1 ⟨by rw [har]; exact hin, by simp [Lasts]⟩
    rw [har] at this
    refine ⟨ds, c1, this.trans ?_⟩
    simp [taken, Flame.Util.offset, cStrides]
  refine ⟨w, h1, ?_, ?_⟩
  · obtain ⟨ds, c1, c2⟩ := key 17 "IonZ" 0 rfl rfl
    refine ⟨ds, c1, c2.trans ?_⟩
    rw [← hp.2.1]
    congr 2
  · obtain ⟨ds, c1, c2⟩ := key 26 "IonEk" 88 rfl rfl
    refine ⟨ds, c1, c2.trans ?_⟩
    rw [← hq.1]
    congr 2
    push_cast
    ring

/-- When the library shrinks data sets, charge states that later rows do not have are lost from earlier rows: here a state with
several charge states followed by one with a single charge state. -/
theorem C69_shrink (g0 : String → Option DSet) (hg : ∀ n ∈ wholeBeam ++ perCharge, g0 n = none) (r t : Moments)
    (hf : Flame.Arrays.Spec.Filled r.st) (ht : Flame.Arrays.Spec.Filled t.st) (ho : t.st.real.length = 1) :
    ∃ w, (fresh g0).appendAll .set 32 [source r, source t] = (w, .ok) ∧
      ∃ ds, w.group "IonZ" = some ds ∧ ∀ k, 1 ≤ k → ds.data [0, k] = none := by
  have hnames : ∀ n ∈ Flame.Arrays.momentSig.map (·.1), n ∈ wholeBeam ++ perCharge := by decide +kernel
  have hfo : ∀ x ∈ [source r, source t], Follows Flame.Arrays.momentSig x.2 := by
    intro x hx
    simp only [List.mem_cons, List.not_mem_nil, or_false] at hx
    rcases hx with rfl | rfl
    · exact moment_follows r hf
    · exact moment_follows t ht
  obtain ⟨w, h1, h2⟩ := appendAll_full .set Flame.Arrays.momentSig (by decide +kernel) (by simp [Flame.Arrays.momentSig]) g0
    (fun x hx => hg _ (hnames _ (List.mem_map_of_mem hx))) 32 (by decide +kernel) (source r) [source t] hfo
  obtain ⟨ds, c1, -, -, -, -, c6⟩ := full_row h2 hfo (i := 17) (x := ("IonZ", .double, 1)) rfl
  refine ⟨w, h1, ds, c1, fun k hk => ?_⟩
  refine (c6 0 (source r) rfl [k]).2 ?_
  rintro ⟨-, h | h⟩
  · cases h
  · have he : (source t).2 17 = Flame.Arrays.member t.lay t.st "IonZ" 0 := rfl
    rw [Flame.Arrays.member_filled ht.1] at he
    have := h _ (List.mem_map.2 ⟨source t, by simp, rfl⟩)
    unfold arr at this
    rw [he] at this
    simp [inside, ho] at this
    omega

/-! ## examples -/

open Flame.Moment (exMixed exTri exParticle exState) in
/-- A beam of two charge states of the weights 5 and 3. -/
noncomputable def exTwo : MSt :=
  { exMixed.payload with real := [{ exParticle with IonQ := 5 }, { exParticle with IonEk := 7, IonQ := 3 }] }

/-- States in memory. -/
noncomputable def exR (next : Nat) (s : MSt) : Moments := ⟨Flame.Arrays.exMem next s, Flame.Arrays.exLayout, next, s⟩

theorem exTwo_ok (n : Nat) : Flame.Arrays.Spec.Filled (exR n exTwo).st ∧
    Holds (exR n exTwo).mem (exR n exTwo).lay (exR n exTwo).next (exR n exTwo).st := by
  have h2 : ∀ {α : Type} (a b : α), [a, b].length ≤ 10 := fun a b => (by decide : 2 ≤ 10)
  exact ⟨by simp [Flame.Arrays.Spec.Filled, exR, exTwo, Flame.Moment.exMixed, Flame.Moment.exTri],
    Flame.Arrays.exMem_holds n _ ⟨h2 _ _, h2 _ _, h2 _ _, h2 _ _⟩⟩

theorem exOne_ok (n : Nat) (b : Bool) : Flame.Arrays.Spec.Filled (exR n (Flame.Moment.exState b).payload).st ∧
    Holds (exR n (Flame.Moment.exState b).payload).mem (exR n (Flame.Moment.exState b).payload).lay n
      (exR n (Flame.Moment.exState b).payload).st := by
  have h1 : ∀ {α : Type} (a : α), [a].length ≤ 10 := fun a => (by decide : 1 ≤ 10)
  exact ⟨by simp [Flame.Arrays.Spec.Filled, exR, Flame.Moment.exState],
    Flame.Arrays.exMem_holds n _ ⟨h1 _, h1 _, h1 _, h1 _⟩⟩

/-- **C69 is false** for beams of several charge states, even for a single state and however the library extends data sets. -/
theorem C69_several_false : ¬ ∀ (m : Ext) (g0 : String → Option DSet), (∀ n ∈ wholeBeam ++ perCharge, g0 n = none) →
    ∀ (r : Moments) (rs : List Moments), (∀ x ∈ r :: rs, Flame.Arrays.Spec.Filled x.st ∧ Holds x.mem x.lay x.next x.st) →
    ∃ w, (fresh g0).appendAll m 32 ((r :: rs).map source) = (w, .ok) ∧
      ∀ n ∈ wholeBeam ++ perCharge, Rows w.group n ((r :: rs).map (valueOf n)) := by
  intro hall
  obtain ⟨w, h1, h2⟩ := hall .grow (fun _ => none) (fun _ _ => rfl) (exR 3 exTwo) []
    (by simpa using exTwo_ok 3)
  obtain ⟨w', e1, ⟨ds, e2, e3⟩, -⟩ := C69_several .grow (fun _ => none) (fun _ _ => rfl) (exR 3 exTwo) (exTwo_ok 3).1
    (exTwo_ok 3).2 _ _ [] rfl
  obtain rfl : w = w' := congrArg Prod.fst (h1.symm.trans e1)
  obtain ⟨ds', d1, -, d3, -, -⟩ := h2 "IonZ" (by decide +kernel)
  obtain rfl : ds = ds' := Option.some.inj (e2.symm.trans d1)
  have h4 := d3 0 _ rfl [1]
  rw [e3] at h4
  have h5 : valueOf "IonZ" (exR 3 exTwo) [1] = some (.num 1) := rfl
  rw [h5] at h4
  simp at h4

/-- **C69 is false** also for the number of charge states alone: after a stripper that leaves one charge state, the second charge
state of the first row is lost, with `H5Dset_extent`. -/
theorem C69_shrink_false : ¬ ∀ (g0 : String → Option DSet), (∀ n ∈ wholeBeam ++ perCharge, g0 n = none) →
    ∀ (r : Moments) (rs : List Moments), (∀ x ∈ r :: rs, Flame.Arrays.Spec.Filled x.st ∧ Holds x.mem x.lay x.next x.st) →
    ∃ w, (fresh g0).appendAll .set 32 ((r :: rs).map source) = (w, .ok) ∧
      ∃ ds, w.group "IonZ" = some ds ∧
        ∀ (k : Nat) x, (r :: rs)[k]? = some x → ∀ j, j < x.st.real.length → ds.data [k, j] ≠ none := by
  intro hall
  obtain ⟨w, h1, ds', d1, d2⟩ := hall (fun _ => none) (fun _ _ => rfl) (exR 3 exTwo) [exR 4 (Flame.Moment.exState false).payload]
    (by
      intro x hx
      simp only [List.mem_cons, List.not_mem_nil, or_false] at hx
      rcases hx with rfl | rfl
      · exact exTwo_ok 3
      · exact exOne_ok 4 false)
  obtain ⟨w', e1, ds, e2, e3⟩ := C69_shrink (fun _ => none) (fun _ _ => rfl) (exR 3 exTwo) (exR 4 (Flame.Moment.exState false).payload)
    (exTwo_ok 3).1 (exOne_ok 4 false).1 rfl
  obtain rfl : w = w' := congrArg Prod.fst (h1.symm.trans e1)
  obtain rfl : ds = ds' := Option.some.inj (e2.symm.trans d1)
  exact d2 0 _ rfl 1 (by decide : 1 < 2) (e3 1 (le_refl _))

/-- The hypotheses of `C69_moment_partial` hold of two states of one charge state, and of two charge states, in an empty group. -/
example : (∀ x ∈ [exR 3 (Flame.Moment.exState false).payload, exR 4 (Flame.Moment.exState true).payload],
      Flame.Arrays.Spec.Filled x.st ∧ Holds x.mem x.lay x.next x.st) ∧
    (∀ x ∈ [exR 3 (Flame.Moment.exState false).payload, exR 4 (Flame.Moment.exState true).payload], One x.st) ∧
    (∀ x ∈ [exR 3 exTwo, exR 4 exTwo], Flame.Arrays.Spec.Filled x.st ∧ Holds x.mem x.lay x.next x.st) := by
  refine ⟨?_, ?_, ?_⟩ <;> intro x hx <;> simp only [List.mem_cons, List.not_mem_nil, or_false] at hx <;> rcases hx with rfl | rfl
  · exact exOne_ok 3 false
  · exact exOne_ok 4 true
  · exact ⟨rfl, rfl, rfl, rfl⟩
  · exact ⟨rfl, rfl, rfl, rfl⟩
  · exact exTwo_ok 3
  · exact exTwo_ok 4

/-- A vector in memory; a matrix in memory. -/
noncomputable def exLinVec (next : Nat) (v : Fin 6 → ℝ) : Linear (Fin 6 → ℝ) :=
  ⟨fun a => if a = 8 then .nat next else if a = 16 then .num 2 else .num (v (Fin.ofNat 6 ((a - 1000) / 8).toNat)),
   ⟨8, 16⟩, 1000, next, 2, v⟩

noncomputable def exLinMat (next : Nat) (M : Matrix (Fin 6) (Fin 6) ℝ) : Linear (Matrix (Fin 6) (Fin 6) ℝ) :=
  ⟨fun a => if a = 8 then .nat next else if a = 16 then .num 2
    else .num (M (Fin.ofNat 6 ((a - 1000) / 8 / 6).toNat) (Fin.ofNat 6 ((a - 1000) / 8 % 6).toNat)),
   ⟨8, 16⟩, 1000, next, 2, M⟩

/-- The hypotheses of `C69_vector` and `C69_matrix` hold of any vectors and matrices at some place in memory. -/
example (n : Nat) (v : Fin 6 → ℝ) (M : Matrix (Fin 6) (Fin 6) ℝ) : HoldsVec (exLinVec n v) ∧ HoldsMat (exLinMat n M) := by
  refine ⟨⟨rfl, rfl, fun i => ?_⟩, rfl, rfl, fun i j => ?_⟩
  · have h1 : ((1000 + 8 * (i.val : Int) - 1000) / 8).toNat = i.val := by omega
    simp only [exLinVec]
    rw [if_neg (by omega), if_neg (by omega), h1, Fin.ofNat_val_eq_self]
  · have h1 : ((1000 + 8 * (6 * (i.val : Int) + j.val) - 1000) / 8 / 6).toNat = i.val := by omega
    have h2 : ((1000 + 8 * (6 * (i.val : Int) + j.val) - 1000) / 8 % 6).toNat = j.val := by omega
    simp only [exLinMat]
    rw [if_neg (by omega), if_neg (by omega), h1, h2, Fin.ofNat_val_eq_self, Fin.ofNat_val_eq_self]

end Flame.H5
