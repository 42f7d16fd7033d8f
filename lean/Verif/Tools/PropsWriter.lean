import Verif.Tools.WriterSpec
import Verif.Arrays.Run

/-! # Recording states in an HDF5 file: C69 -/

namespace Flame.H5

open Spec
open Flame.Util (Mem Info offset cStrides InShape)
open Flame.Arrays (AType AInfo Got Cell)
open Flame.Mach (Err)

/-! ## one data set -/

theorem inside_length : ∀ {l d : List Nat}, inside l d = true → l.length = d.length
  | [], [], _ => rfl
  | l :: ls, i :: is, h => by
    simp only [inside, Bool.and_eq_true] at h
    simp [inside_length h.2]

theorem inside_max : ∀ {A B d : List Nat}, A.length = B.length → (inside A d = true ∨ inside B d = true) →
    inside (List.zipWith max A B) d = true
  | [], [], d, _, h => by simpa [inside] using h
  | a :: A, b :: B, [], _, h => by simp [inside] at h
  | a :: A, b :: B, i :: d, hl, h => by
    simp only [inside, Bool.and_eq_true, decide_eq_true_eq, List.zipWith_cons_cons] at h ⊢
    simp only [List.length_cons, Nat.add_right_cancel_iff] at hl
    rcases h with h | h
    · exact ⟨by omega, inside_max hl (.inl h.2)⟩
    · exact ⟨by omega, inside_max hl (.inr h.2)⟩

theorem inside_iff {l d : List Nat} : inside l d = true ↔ InShape l d := by
  constructor
  · intro h
    induction l generalizing d with
    | nil =>
      cases d with
      | nil => exact .nil
      | cons _ _ => simp [inside] at h
    | cons a l ih =>
      cases d with
      | nil => simp [inside] at h
      | cons i d =>
        simp only [inside, Bool.and_eq_true, decide_eq_true_eq] at h
        exact .cons h.1 (ih h.2)
  · intro h
    unfold InShape at h
    induction h with
    | nil => rfl
    | cons h _ ih => simp [inside, h, ih]

/-- Data only where a reader sees it. -/
def Seen (ds : DSet) : Prop := ∀ d c, ds.data d = some c → inside ds.dim d = true

/-- A row more. -/
def rec1 (m : Ext) (ds : DSet) (row : Nat) (s : Mem Cell × Info) : DSet :=
  (ds.extend m ((row + 1) :: s.2.dim)).write s.1 s.2.ptr row s.2.dim

def recAll (m : Ext) : DSet → Nat → List (Mem Cell × Info) → DSet
  | ds, _, [] => ds
  | ds, row, s :: ss => recAll m (rec1 m ds row s) (row + 1) ss

/-- Whether an entry outlives later rows. -/
def Lasts (m : Ext) (later : List (Mem Cell × Info)) (d : List Nat) : Prop :=
  m = .grow ∨ ∀ s ∈ later, inside s.2.dim d = true

/-- What is written for an index. -/
def taken (s : Mem Cell × Info) (d : List Nat) : Cell := s.1 (s.2.ptr + offset (cStrides s.2.dim) d)

theorem rec1_spec (m : Ext) (ds : DSet) (row : Nat) (D : List Nat) (s : Mem Cell × Info) (hd : ds.dim = row :: D)
    (hl : D.length = s.2.dim.length) (hs : Seen ds) :
    ∃ D', (rec1 m ds row s).dim = (row + 1) :: D' ∧ D'.length = s.2.dim.length ∧ Seen (rec1 m ds row s) ∧
      (rec1 m ds row s).type = ds.type ∧
      (∀ k d, k ≠ row → (Lasts m [s] d → (rec1 m ds row s).data (k :: d) = ds.data (k :: d)) ∧
        (¬ Lasts m [s] d → (rec1 m ds row s).data (k :: d) = none)) ∧
      (∀ d, (inside s.2.dim d = true → (rec1 m ds row s).data (row :: d) = some (taken s d)) ∧
        (inside s.2.dim d = false → (rec1 m ds row s).data (row :: d) = none)) := by
  have hout : ∀ k d, row ≤ k → ds.data (k :: d) = none := by
    intro k d hk
    cases h : ds.data (k :: d) with
    | none => rfl
    | some c =>
      have := hs _ _ h
      rw [hd] at this
      simp only [inside, Bool.and_eq_true, decide_eq_true_eq] at this
      omega
  cases m with
  | set =>
    refine ⟨s.2.dim, rfl, rfl, ?_, rfl, ?_, ?_⟩
    · intro d c h
      cases d with
      | nil => simp [rec1, DSet.extend, DSet.write, inside] at h
      | cons k d =>
        show inside ((row + 1) :: s.2.dim) (k :: d) = true
        by_cases hk : k = row ∧ inside s.2.dim d = true
        · simp [inside, hk.1, hk.2]
        · by_cases hi : inside ((row + 1) :: s.2.dim) (k :: d) = true
          · exact hi
          · simp [rec1, DSet.extend, DSet.write, hk, hi] at h
    · intro k d hk
      have e : (rec1 .set ds row s).data (k :: d) =
          if inside ((row + 1) :: s.2.dim) (k :: d) then ds.data (k :: d) else none := by
        simp [rec1, DSet.extend, DSet.write, hk]
      rw [e]
      constructor
      · rintro (h | h)
        · cases h
        · have h := h s (by simp)
          by_cases hk' : k < row + 1
          · simp [inside, h, hk']
          · simp [inside, hk', hout k d (by omega)]
      · intro h
        have : inside s.2.dim d = false := by
          by_contra hc
          exact h (.inr (by simpa using hc))
        simp [inside, this]
    · intro d
      constructor
      · intro h
        simp [rec1, DSet.extend, DSet.write, h, taken]
      · intro h
        simp [rec1, DSet.extend, DSet.write, h, inside]
  | grow =>
    have hdim : (rec1 .grow ds row s).dim = (row + 1) :: List.zipWith max D s.2.dim := by
      simp only [rec1, DSet.extend, DSet.write, hd, List.zipWith_cons_cons]
      congr 1
      omega
    have hdat : ∀ k d, (rec1 .grow ds row s).data (k :: d) =
        if k = row ∧ inside s.2.dim d = true then some (taken s d)
        else if inside ((row + 1) :: List.zipWith max D s.2.dim) (k :: d) then ds.data (k :: d) else none := by
      intro k d
      have : (rec1 .grow ds row s).data (k :: d) = if k = row ∧ inside s.2.dim d = true then some (taken s d)
        else if inside (rec1 .grow ds row s).dim (k :: d) then ds.data (k :: d) else none := rfl
      rw [this, hdim]
    have hkeep : ∀ k d, (if inside ((row + 1) :: List.zipWith max D s.2.dim) (k :: d) then ds.data (k :: d) else none) =
        ds.data (k :: d) := by
      intro k d
      split
      · rfl
      · rename_i hc
        cases h : ds.data (k :: d) with
        | none => rfl
        | some c =>
          exfalso
          apply hc
          have := hs _ _ h
          rw [hd] at this
          simp only [inside, Bool.and_eq_true, decide_eq_true_eq] at this ⊢
          exact ⟨by omega, inside_max hl (.inl this.2)⟩
    refine ⟨_, hdim, by simp [hl], ?_, rfl, ?_, ?_⟩
    · intro d c h
      rw [hdim]
      cases d with
      | nil =>
        have : (rec1 .grow ds row s).data [] = if inside (rec1 .grow ds row s).dim [] then ds.data [] else none := rfl
        rw [this, hdim] at h
        simp [inside] at h
      | cons k d =>
        rw [hdat] at h
        split at h
        · rename_i hk
          simp only [inside, Bool.and_eq_true, decide_eq_true_eq]
          exact ⟨by omega, inside_max hl (.inr hk.2)⟩
        · split at h
          · assumption
          · cases h
    · intro k d hk
      rw [hdat, if_neg (fun h => hk h.1), hkeep]
      exact ⟨fun _ => rfl, fun h => absurd (.inl rfl) h⟩
    · intro d
      rw [hdat, hkeep]
      constructor
      · intro h
        rw [if_pos ⟨rfl, h⟩]
      · intro h
        rw [if_neg (by simp [h]), hout _ _ (le_refl _)]

theorem lasts_cons {m : Ext} {s : Mem Cell × Info} {ss : List (Mem Cell × Info)} {d : List Nat} :
    Lasts m (s :: ss) d ↔ Lasts m [s] d ∧ Lasts m ss d := by
  unfold Lasts
  constructor
  · rintro (h | h)
    · exact ⟨.inl h, .inl h⟩
    · exact ⟨.inr (fun x hx => h x (by simp at hx; simp [hx])), .inr (fun x hx => h x (by simp [hx]))⟩
  · rintro ⟨h1 | h1, h2 | h2⟩
    · exact .inl h1
    · exact .inl h1
    · exact .inl h2
    · refine .inr (fun x hx => ?_)
      rcases List.mem_cons.1 hx with rfl | hx
      · exact h1 _ (by simp)
      · exact h2 x hx

theorem recAll_spec (m : Ext) : ∀ (ss : List (Mem Cell × Info)) (ds : DSet) (row : Nat) (D : List Nat), ds.dim = row :: D →
    (∀ s ∈ ss, D.length = s.2.dim.length) → Seen ds →
    ∃ D', (recAll m ds row ss).dim = (row + ss.length) :: D' ∧ D'.length = D.length ∧ Seen (recAll m ds row ss) ∧
      (recAll m ds row ss).type = ds.type ∧
      (∀ k d, k < row → (Lasts m ss d → (recAll m ds row ss).data (k :: d) = ds.data (k :: d)) ∧
        (¬ Lasts m ss d → (recAll m ds row ss).data (k :: d) = none)) ∧
      (∀ j s, ss[j]? = some s → ∀ d,
        (inside s.2.dim d = true ∧ Lasts m (ss.drop (j + 1)) d →
          (recAll m ds row ss).data ((row + j) :: d) = some (taken s d)) ∧
        (¬ (inside s.2.dim d = true ∧ Lasts m (ss.drop (j + 1)) d) →
          (recAll m ds row ss).data ((row + j) :: d) = none))
  | [], ds, row, D, hd, _, hs => by
    refine ⟨D, by simpa [recAll] using hd, rfl, hs, rfl, ?_, by simp⟩
    intro k d _
    exact ⟨fun _ => rfl, fun h => absurd (.inr (by simp)) h⟩
  | s :: ss, ds, row, D, hd, hl, hs => by
    obtain ⟨D1, a1, a2, a3, a4, a5, a6⟩ := rec1_spec m ds row D s hd (hl s (by simp)) hs
    have hlen : D1.length = D.length := by rw [a2, hl s (by simp)]
    obtain ⟨D', b1, b2, b3, b4, b5, b6⟩ := recAll_spec m ss (rec1 m ds row s) (row + 1) D1 a1
      (fun x hx => by rw [hlen, hl x (by simp [hx])]) a3
    refine ⟨D', ?_, by rw [b2, hlen], b3, b4.trans a4, ?_, ?_⟩
    · show (recAll m (rec1 m ds row s) (row + 1) ss).dim = _
      rw [b1]
      simp only [List.length_cons]
      congr 1
      omega
    · intro k d hk
      show (Lasts m (s :: ss) d → (recAll m (rec1 m ds row s) (row + 1) ss).data (k :: d) = _) ∧ _
      obtain ⟨c1, c2⟩ := b5 k d (by omega)
      obtain ⟨e1, e2⟩ := a5 k d (by omega)
      rw [lasts_cons]
      constructor
      · rintro ⟨h1, h2⟩
        rw [c1 h2, e1 h1]
      · intro h
        by_cases h2 : Lasts m ss d
        · exact (c1 h2).trans (e2 (fun h1 => h ⟨h1, h2⟩))
        · exact c2 h2
    · intro j x hx d
      cases j with
      | zero =>
        cases hx
        obtain ⟨c1, c2⟩ := b5 row d (by omega)
        obtain ⟨e1, e2⟩ := a6 d
        show (_ ∧ Lasts m ss d → (recAll m (rec1 m ds row s) (row + 1) ss).data (row :: d) = _) ∧
          (_ → (recAll m (rec1 m ds row s) (row + 1) ss).data (row :: d) = none)
        constructor
        · rintro ⟨h1, h2⟩
          rw [c1 h2, e1 h1]
        · intro h
          by_cases h2 : Lasts m ss d
          · refine (c1 h2).trans (e2 ?_)
            by_contra hc
            exact h ⟨by simpa using hc, h2⟩
          · exact c2 h2
      | succ j =>
        have := b6 j x hx d
        have e : row + 1 + j = row + (j + 1) := by omega
        rw [e] at this
        exact this

/-! ## the whole writer -/

/-- The array of parameter `i`. -/
def arr (s : Mem Cell × (Nat → Got)) (i : Nat) : Mem Cell × Info :=
  (s.1, match s.2 i with
    | .yes a => a.arr
    | _ => ⟨0, [], []⟩)

/-- An empty data set for an array. -/
def blank (a : AInfo) : DSet := ⟨a.type, 0 :: a.arr.dim, fun _ => none⟩

/-- The writer while a state is appended: the first `k` parameters have the rows `h1`, the others `h2`. -/
structure Mid (m : Ext) (sig : List (String × AType × Nat)) (g0 : String → Option DSet)
    (h1 h2 : List (Mem Cell × (Nat → Got))) (k : Nat) (w : Writer) : Prop where
  len : w.elements.length = sig.length
  slot : ∀ i x, sig[i]? = some x → ∃ a, w.elements[i]? = some ⟨i, a, (if i < k then h1 else h2).length⟩ ∧
    x = (a.name, a.type, a.arr.dim.length) ∧
    w.group x.1 = some (recAll m (blank a) 0 ((if i < k then h1 else h2).map (arr · i)))
  other : ∀ n, n ∉ sig.map (·.1) → w.group n = g0 n

theorem recAll_snoc (m : Ext) : ∀ (ss : List (Mem Cell × Info)) (ds : DSet) (row : Nat) (s : Mem Cell × Info),
    recAll m ds row (ss ++ [s]) = rec1 m (recAll m ds row ss) (row + ss.length) s
  | [], _, _, _ => rfl
  | x :: ss, ds, row, s => by
    show recAll m (rec1 m ds row x) (row + 1) (ss ++ [s]) = _
    rw [recAll_snoc m ss]
    show rec1 m (recAll m (rec1 m ds row x) (row + 1) ss) (row + 1 + ss.length) s = _
    rw [show row + 1 + ss.length = row + (x :: ss).length by simp only [List.length_cons]; omega]
    rfl

theorem sig_inj {sig : List (String × AType × Nat)} (hn : (sig.map (·.1)).Nodup) {i j : Nat} {x y : String × AType × Nat}
    (hx : sig[i]? = some x) (hy : sig[j]? = some y) (h : x.1 = y.1) : i = j := by
  have hi := (List.getElem?_eq_some_iff.1 hx).1
  refine (List.getElem?_inj (by simpa using hi) hn).1 ?_
  simp [hx, hy, h]

theorem append_step (m : Ext) (sig : List (String × AType × Nat)) (hn : (sig.map (·.1)).Nodup) (g0 : String → Option DSet)
    (h : List (Mem Cell × (Nat → Got))) (s : Mem Cell × (Nat → Got)) (hf : Follows sig s.2) (k : Nat) (hk : k < sig.length)
    (w : Writer) (hw : Mid m sig g0 (h ++ [s]) h k w) :
    ∃ w', w.appendOne m s.1 s.2 k = (w', .ok) ∧ Mid m sig g0 (h ++ [s]) h (k + 1) w' := by
  have hx : sig[k]? = some sig[k] := List.getElem?_eq_getElem hk
  obtain ⟨a, c1, c2, c3⟩ := hw.slot k _ hx
  obtain ⟨b, d1, d2, -⟩ := (hf k).1 _ hx
  rw [if_neg (lt_irrefl k)] at c1 c3
  have hname : sig[k].1 = a.name := by rw [c2]
  have e : a.name = b.name ∧ a.type = b.type ∧ a.arr.dim.length = b.arr.dim.length := by
    have := c2.symm.trans d2
    simpa using this
  rw [hname] at c3
  have hr : w.appendOne m s.1 s.2 k = ({
      group := fun n => if n = a.name then
          some (((recAll m (blank a) 0 (h.map (arr · k))).extend m ((h.length + 1) :: b.arr.dim)).write s.1 b.arr.ptr h.length
            b.arr.dim) else w.group n
      elements := w.elements.set k ⟨k, a, h.length + 1⟩ }, .ok) := by
    unfold Writer.appendOne
    rw [c1]
    dsimp only
    rw [d1]
    dsimp only
    rw [if_neg (by rw [e.2.2, e.2.1]; simp), c3]
  refine ⟨_, hr, ?_, ?_, ?_⟩
  · simpa using hw.len
  · intro i x hi
    have hlt := (List.getElem?_eq_some_iff.1 hi).1
    by_cases hik : i = k
    · subst hik
      have hxe : x = sig[i] := by rw [hx] at hi; cases hi; rfl
      subst hxe
      refine ⟨a, ?_, c2, ?_⟩
      · show (w.elements.set i _)[i]? = _
        rw [List.getElem?_set_self (by rw [hw.len]; exact hlt), if_pos (by omega)]
        simp
      · show (if sig[i].1 = a.name then _ else _) = _
        rw [if_pos hname, if_pos (by omega), List.map_append, List.map_cons, List.map_nil, recAll_snoc]
        simp only [Nat.zero_add, List.length_map]
        have : arr s i = (s.1, b.arr) := by
          unfold arr
          rw [d1]
        rw [this]
        rfl
    · obtain ⟨a', f1, f2, f3⟩ := hw.slot i x hi
      have hc : (i < k + 1) = (i < k) := by
        apply propext
        omega
      refine ⟨a', ?_, f2, ?_⟩
      · show (w.elements.set k _)[i]? = _
        rw [List.getElem?_set_ne (Ne.symm hik)]
        simp only [hc]
        exact f1
      · show (if x.1 = a.name then _ else _) = _
        rw [if_neg (fun hne => hik (sig_inj hn hi hx (hne.trans hname.symm)))]
        simp only [hc]
        exact f3
  · intro n hnn
    show (if n = a.name then _ else _) = _
    rw [if_neg ?_]
    · exact hw.other n hnn
    · rintro rfl
      exact hnn (List.mem_map.2 ⟨sig[k], List.getElem_mem hk, hname⟩)

theorem append_loop (m : Ext) (sig : List (String × AType × Nat)) (hn : (sig.map (·.1)).Nodup) (g0 : String → Option DSet)
    (h : List (Mem Cell × (Nat → Got))) (s : Mem Cell × (Nat → Got)) (hf : Follows sig s.2) :
    ∀ (n k : Nat) (w : Writer), n + k = sig.length → Mid m sig g0 (h ++ [s]) h k w →
    ∃ w', w.appendFrom m s.1 s.2 n k = (w', .ok) ∧ Mid m sig g0 (h ++ [s]) h sig.length w'
  | 0, k, w, hk, hw => ⟨w, rfl, by rw [Nat.zero_add] at hk; rwa [hk] at hw⟩
  | n + 1, k, w, hk, hw => by
    obtain ⟨w1, h1, h2⟩ := append_step m sig hn g0 h s hf k (by omega) w hw
    obtain ⟨w2, h3, h4⟩ := append_loop m sig hn g0 h s hf n (k + 1) w1 (by omega) h2
    refine ⟨w2, ?_, h4⟩
    show (match w.appendOne m s.1 s.2 k with
      | (w, .ok) => Writer.appendFrom m s.1 s.2 n (k + 1) w
      | (w, r) => (w, r)) = _
    rw [h1]
    exact h3

/-- All parameters have the rows `h`. -/
def Full (m : Ext) (sig : List (String × AType × Nat)) (g0 : String → Option DSet) (h : List (Mem Cell × (Nat → Got)))
    (w : Writer) : Prop := ∀ h', Mid m sig g0 h h' sig.length w

theorem full_of_mid {m : Ext} {sig : List (String × AType × Nat)} {g0 : String → Option DSet}
    {h h2 : List (Mem Cell × (Nat → Got))} {w : Writer} (hw : Mid m sig g0 h h2 sig.length w) : Full m sig g0 h w := by
  intro h'
  refine ⟨hw.len, fun i x hi => ?_, hw.other⟩
  have hlt := (List.getElem?_eq_some_iff.1 hi).1
  obtain ⟨a, c⟩ := hw.slot i x hi
  rw [if_pos hlt] at c ⊢
  exact ⟨a, c⟩

theorem mid_of_full {m : Ext} {sig : List (String × AType × Nat)} {g0 : String → Option DSet}
    {h : List (Mem Cell × (Nat → Got))} {w : Writer} (hw : Full m sig g0 h w) (h' : List (Mem Cell × (Nat → Got))) :
    Mid m sig g0 h' h 0 w := by
  have hw := hw h
  refine ⟨hw.len, fun i x hi => ?_, hw.other⟩
  have hlt := (List.getElem?_eq_some_iff.1 hi).1
  obtain ⟨a, c⟩ := hw.slot i x hi
  rw [if_pos hlt] at c
  rw [if_neg (Nat.not_lt_zero i)]
  exact ⟨a, c⟩

/-- The writer while the data sets are created. -/
structure Prep (sig : List (String × AType × Nat)) (g0 : String → Option DSet) (k : Nat) (w : Writer) : Prop where
  len : w.elements.length = k
  le : k ≤ sig.length
  slot : ∀ i x, sig[i]? = some x → i < k → ∃ a, w.elements[i]? = some ⟨i, a, 0⟩ ∧
    x = (a.name, a.type, a.arr.dim.length) ∧ w.group x.1 = some (blank a)
  free : ∀ i x, sig[i]? = some x → k ≤ i → w.group x.1 = none
  other : ∀ n, n ∉ sig.map (·.1) → w.group n = g0 n

theorem prepare_loop (sig : List (String × AType × Nat)) (hn : (sig.map (·.1)).Nodup) (g0 : String → Option DSet)
    (get : Nat → Got) (hf : Follows sig get) : ∀ (fuel k : Nat) (w : Writer), sig.length < fuel + k → Prep sig g0 k w →
    ∃ w', w.prepareFrom get fuel k = (w', .ok) ∧ Prep sig g0 sig.length w'
  | 0, k, w, hk, hw => absurd hw.le (by omega)
  | fuel + 1, k, w, hk, hw => by
    by_cases hlt : k < sig.length
    · have hx : sig[k]? = some sig[k] := List.getElem?_eq_getElem hlt
      obtain ⟨b, d1, d2, d3⟩ := (hf k).1 _ hx
      have hname : sig[k].1 = b.name := by rw [d2]
      have hfree := hw.free k _ hx (le_refl k)
      rw [hname] at hfree
      have hcr : w.create k b = ({
          group := fun n => if n = b.name then some (blank b) else w.group n
          elements := w.elements ++ [⟨k, b, 0⟩] }, .ok) := by
        unfold Writer.create
        rw [if_neg]
        · rfl
        · rw [hfree]
          simp only [Option.isSome_none, Bool.false_eq_true, false_or]
          intro h0
          exact absurd (d3 0 h0) (lt_irrefl 0)
      have hprep : Prep sig g0 (k + 1) {
          group := fun n => if n = b.name then some (blank b) else w.group n
          elements := w.elements ++ [⟨k, b, 0⟩] } := by
        refine ⟨by simp [hw.len], hlt, ?_, ?_, ?_⟩
        · intro i x hi hik
          by_cases hie : i = k
          · subst hie
            have hxe : x = sig[i] := by rw [hx] at hi; cases hi; rfl
            subst hxe
            refine ⟨b, ?_, d2, ?_⟩
            · show (w.elements ++ _)[i]? = _
              rw [List.getElem?_append_right (by rw [hw.len])]
              simp [hw.len]
            · show (if _ then _ else _) = _
              rw [if_pos hname]
          · obtain ⟨a, c1, c2, c3⟩ := hw.slot i x hi (by omega)
            refine ⟨a, ?_, c2, ?_⟩
            · show (w.elements ++ _)[i]? = _
              rw [List.getElem?_append_left (by rw [hw.len]; omega)]
              exact c1
            · show (if _ then _ else _) = _
              rw [if_neg (fun hne => hie (sig_inj hn hi hx (hne.trans hname.symm)))]
              exact c3
        · intro i x hi hik
          show (if _ then _ else _) = _
          rw [if_neg (fun hne => by have := sig_inj hn hi hx (hne.trans hname.symm); omega)]
          exact hw.free i x hi (by omega)
        · intro n hnn
          show (if _ then _ else _) = _
          rw [if_neg]
          · exact hw.other n hnn
          · rintro rfl
            exact hnn (List.mem_map.2 ⟨sig[k], List.getElem_mem hlt, hname⟩)
      obtain ⟨w', e1, e2⟩ := prepare_loop sig hn g0 get hf fuel (k + 1) _ (by omega) hprep
      refine ⟨w', ?_, e2⟩
      unfold Writer.prepareFrom
      rw [d1]
      dsimp only
      rw [hcr]
      exact e1
    · have hke : k = sig.length := le_antisymm hw.le (by omega)
      refine ⟨w, ?_, hke ▸ hw⟩
      unfold Writer.prepareFrom
      rw [(hf k).2 (List.getElem?_eq_none_iff.2 (by omega))]

/-- A writer whose group has none of the parameters, before the first state. -/
def fresh (g0 : String → Option DSet) : Writer := ⟨g0, []⟩

theorem append_first (m : Ext) (sig : List (String × AType × Nat)) (hn : (sig.map (·.1)).Nodup) (hne : sig ≠ [])
    (g0 : String → Option DSet) (hg : ∀ x ∈ sig, g0 x.1 = none) (fuel : Nat) (hfu : sig.length < fuel)
    (s : Mem Cell × (Nat → Got)) (hf : Follows sig s.2) :
    ∃ w, (fresh g0).append m fuel s.1 s.2 = (w, .ok) ∧ Full m sig g0 [s] w := by
  have hp0 : Prep sig g0 0 (fresh g0) := by
    refine ⟨rfl, Nat.zero_le _, fun i _ _ h => absurd h (Nat.not_lt_zero i), fun i x hi _ => ?_, fun _ _ => rfl⟩
    exact hg x (List.mem_of_getElem? hi)
  obtain ⟨w1, h1, h2⟩ := prepare_loop sig hn g0 s.2 hf fuel 0 (fresh g0) (by omega) hp0
  have hpos : 0 < sig.length := List.length_pos_iff.2 hne
  have hprep : (fresh g0).prepare s.2 fuel = (w1, .ok) := by
    unfold Writer.prepare
    rw [h1]
    dsimp only
    rw [if_neg]
    rw [List.isEmpty_iff]
    intro hc
    have := h2.len
    rw [hc] at this
    simp at this
    omega
  have hmid : Mid m sig g0 ([] ++ [s]) [] 0 w1 := by
    refine ⟨h2.len, fun i x hi => ?_, h2.other⟩
    have hlt := (List.getElem?_eq_some_iff.1 hi).1
    rw [if_neg (Nat.not_lt_zero i)]
    exact h2.slot i x hi hlt
  obtain ⟨w2, h3, h4⟩ := append_loop m sig hn g0 [] s hf sig.length 0 w1 (by omega) hmid
  refine ⟨w2, ?_, full_of_mid h4⟩
  show (match (if true then (fresh g0).prepare s.2 fuel else ((fresh g0), Res.ok)) with
    | (w, .ok) => w.appendFrom m s.1 s.2 w.elements.length 0
    | (w, r) => (w, r)) = _
  rw [if_pos rfl, hprep]
  dsimp only
  rw [h2.len]
  exact h3

theorem append_next (m : Ext) (sig : List (String × AType × Nat)) (hn : (sig.map (·.1)).Nodup) (hne : sig ≠ [])
    (g0 : String → Option DSet) (fuel : Nat) (h : List (Mem Cell × (Nat → Got)))
    (s : Mem Cell × (Nat → Got)) (hf : Follows sig s.2) (w : Writer) (hw : Full m sig g0 h w) :
    ∃ w', w.append m fuel s.1 s.2 = (w', .ok) ∧ Full m sig g0 (h ++ [s]) w' := by
  have hlen := (hw []).len
  have hpos : 0 < sig.length := List.length_pos_iff.2 hne
  obtain ⟨w2, h3, h4⟩ := append_loop m sig hn g0 h s hf sig.length 0 w (by omega) (mid_of_full hw _)
  refine ⟨w2, ?_, full_of_mid h4⟩
  unfold Writer.append
  have : w.elements.isEmpty = false := by
    rw [Bool.eq_false_iff, Ne, List.isEmpty_iff]
    intro hc
    rw [hc] at hlen
    simp at hlen
    omega
  rw [this, if_neg (by simp)]
  dsimp only
  rw [hlen]
  exact h3

theorem appendAll_next (m : Ext) (sig : List (String × AType × Nat)) (hn : (sig.map (·.1)).Nodup) (hne : sig ≠ [])
    (g0 : String → Option DSet) (fuel : Nat) : ∀ (ss h : List (Mem Cell × (Nat → Got))),
    (∀ s ∈ ss, Follows sig s.2) → ∀ w : Writer, Full m sig g0 h w →
    ∃ w', w.appendAll m fuel ss = (w', .ok) ∧ Full m sig g0 (h ++ ss) w'
  | [], h, _, w, hw => ⟨w, rfl, by rwa [List.append_nil]⟩
  | s :: ss, h, hf, w, hw => by
    obtain ⟨w1, a1, a2⟩ := append_next m sig hn hne g0 fuel h s (hf s (by simp)) w hw
    obtain ⟨w2, b1, b2⟩ := appendAll_next m sig hn hne g0 fuel ss (h ++ [s]) (fun x hx => hf x (by simp [hx])) w1 a2
    refine ⟨w2, ?_, by simpa using b2⟩
    show (match w.append m fuel s.1 s.2 with
      | (w, .ok) => Writer.appendAll m fuel ss w
      | (w, r) => (w, r)) = _
    rw [a1]
    exact b1

theorem appendAll_full (m : Ext) (sig : List (String × AType × Nat)) (hn : (sig.map (·.1)).Nodup) (hne : sig ≠ [])
    (g0 : String → Option DSet) (hg : ∀ x ∈ sig, g0 x.1 = none) (fuel : Nat) (hfu : sig.length < fuel)
    (s : Mem Cell × (Nat → Got)) (ss : List (Mem Cell × (Nat → Got))) (hf : ∀ x ∈ s :: ss, Follows sig x.2) :
    ∃ w, (fresh g0).appendAll m fuel (s :: ss) = (w, .ok) ∧ Full m sig g0 (s :: ss) w := by
  obtain ⟨w1, a1, a2⟩ := append_first m sig hn hne g0 hg fuel hfu s (hf s (by simp))
  obtain ⟨w2, b1, b2⟩ := appendAll_next m sig hn hne g0 fuel ss [s] (fun x hx => hf x (by simp [hx])) w1 a2
  refine ⟨w2, ?_, b2⟩
  show (match (fresh g0).append m fuel s.1 s.2 with
    | (w, .ok) => Writer.appendAll m fuel ss w
    | (w, r) => (w, r)) = _
  rw [a1]
  exact b1

end Flame.H5
