import Verif.Machine.Build
import Verif.Machine.Registry
import Verif.Machine.Run
import Verif.Machine.Copies

/-! # Properties C18-C26 and C52: machines, propagation, registry -/

set_option linter.unusedSimpArgs false

namespace Flame.Mach

variable {C X S : Type}

/-! ## A small concrete world used by the examples -/

namespace Toy

/-- Toy configurations: lattice entries and a top level. -/
inductive TC
  | entry (name type : String) (val : Int)
  | top (sim : String) (es : List TC)

/-- How the toy configurations are read. -/
def view : CView TC where
  str c k := match c with
    | .entry n t _ => if k = "name" then .ok n else if k = "type" then .ok t else .error .keyError
    | .top s _ => if k = "sim_type" then .ok s else .error .keyError
  elems c := match c with
    | .entry _ _ _ => .error .keyError
    | .top _ es => .ok es

/-- A class that appends its value to the state and counts its passages in a cache. -/
def adder (id : Nat) (ty : String) : Cls TC (Int × Nat) (List Int) where
  id := id
  typeName := ty
  build c := match c with
    | .entry _ _ v => if v < 0 then .error .badCast else .ok (v, 0)
    | .top _ _ => .error .keyError
  assign _ n := n
  advance x s := ((x.1, x.2 + 1), { s with payload := s.payload ++ [x.1] }, none)

/-- A class that sends the beam back to element 0: an endless loop. -/
def jumper : Cls TC (Int × Nat) (List Int) where
  id := 7
  typeName := "jump"
  build _ := .ok (0, 0)
  assign _ n := n
  advance x s := (x, { s with nextElem := 0 }, none)

/-- The registry of the toy world. -/
def world : World TC (Int × Nat) (List Int) :=
  WOp.runAll World.empty
    [.state "Toy" 1, .element "Toy" "drift" (adder 1 "drift"), .element "Toy" "quad" (adder 2 "quad"),
     .element "Toy" "jump" jumper]

/-- The lattice `a b a`. -/
def lattice : TC :=
  .top "Toy" [.entry "a" "drift" 1, .entry "b" "quad" 2, .entry "a" "drift" 3]

/-- Its elements. -/
def elems : List (Elem TC (Int × Nat) (List Int)) :=
  [⟨adder 1 "drift", "a", 0, .entry "a" "drift" 1, none, (1, 0)⟩,
   ⟨adder 2 "quad", "b", 1, .entry "b" "quad" 2, none, (2, 0)⟩,
   ⟨adder 1 "drift", "a", 2, .entry "a" "drift" 3, none, (3, 0)⟩]

theorem builds : ∃ m, Machine.new view world lattice = .ok m ∧ m.elems = elems :=
  ⟨_, rfl, rfl⟩

end Toy

/-! ## C18 -/

/-- A constructed machine has exactly one element per entry of 'elements', in order; element `i`
has index `i`, the configured name and type, its configuration, the subclass data its class builds
from that configuration, no observer, and its class is the registered one. -/
theorem C18_machine_matches_lattice (cv : CView C) (w : World C X S) (c : C) (m : Machine C X S)
    (h : Machine.new cv w c = .ok m) :
    ∃ sim es, cv.str c "sim_type" = .ok sim ∧ cv.elems c = .ok es ∧ m.conf = c ∧ m.simtype = sim ∧
      m.elems.length = es.length ∧
      ∀ i ec, es[i]? = some ec → ∃ e k, m.elems[i]? = some e ∧
        Registered w sim e.cls.typeName k ∧ MadeFrom cv k i ec e := by
  obtain ⟨_, hc, hs, hi, es, hes, hl, hall⟩ := new_ok h
  refine ⟨m.simtype, es, hs, hes, hc, rfl, hl, ?_⟩
  intro i ec hec
  have hlt := (List.getElem?_eq_some_iff.1 hec).1
  have he : m.elems[i]? = some m.elems[i] := List.getElem?_eq_getElem (by omega)
  obtain ⟨p, k, hp, hk, hm⟩ := hall i hlt _ he
  have : es[i] = ec := by
    rw [List.getElem?_eq_getElem hlt] at hec
    exact Option.some.inj hec
  rw [this] at hm
  exact ⟨_, k, he, ⟨m.info, p, hi, hp, hk⟩, hm⟩

/-- Construction succeeds exactly when the sim_type is known, 'elements' exists and an element can
be built for every entry. -/
theorem C18_success_iff (cv : CView C) (w : World C X S) (c : C) :
    (∃ m, Machine.new cv w c = .ok m) ↔
      ∃ sim es, cv.str c "sim_type" = .ok sim ∧ KnownSim w sim ∧ cv.elems c = .ok es ∧
        ∀ ec ∈ es, GoodEntry cv w sim ec := by
  constructor
  · rintro ⟨m, h⟩
    obtain ⟨_, hc, hs, hi, es, hes, hl, hall⟩ := new_ok h
    refine ⟨m.simtype, es, hs, ⟨_, hi⟩, hes, ?_⟩
    intro ec hec
    obtain ⟨i, hlt, rfl⟩ := List.getElem_of_mem hec
    have he : m.elems[i]? = some m.elems[i] := List.getElem?_eq_getElem (by omega)
    obtain ⟨p, k, hp, hk, hm⟩ := hall i hlt _ he
    have hcls := hm.cls
    exact ⟨_, k, _, _, hm.type, ⟨m.info, p, hi, hp, hk⟩, by rw [hcls], hm.name, hm.dat⟩
  · rintro ⟨sim, es, hs, ⟨i, hi⟩, hes, hall⟩
    have hg : ∀ ec ∈ es, ∃ ty p k nm x, cv.str ec "type" = .ok ty ∧ i.elements.find ty = some p ∧
        w.deref p = some k ∧ k.typeName = ty ∧ cv.str ec "name" = .ok nm ∧ k.build ec = .ok x := by
      intro ec hec
      obtain ⟨ty, k, nm, x, h1, ⟨i', p, h2, h3, h4⟩, h5, h6, h7⟩ := hall ec hec
      rw [hi] at h2
      cases h2
      exact ⟨ty, p, k, nm, x, h1, h3, h4, h5, h6, h7⟩
    obtain ⟨r, hr⟩ := buildAll_good es hg 0 ⟨[], [], []⟩
    unfold Machine.new
    simp only [hs, hi, hes, hr]
    exact ⟨_, rfl⟩

/-- After any history of registrations, construction is never undefined behaviour: when it does not
succeed it throws. -/
theorem C18_otherwise_throws (cv : CView C) (h : List (WOp C X S)) (c : C) :
    (∃ m, Machine.new cv (WOp.runAll World.empty h) c = .ok m) ∨
      ∃ e, Machine.new cv (WOp.runAll World.empty h) c = .err e := by
  have hl := live_runAll h World.empty live_empty
  cases hr : Machine.new cv (WOp.runAll World.empty h) c with
  | ok m => exact Or.inl ⟨m, rfl⟩
  | err e => exact Or.inr ⟨e, rfl⟩
  | ub =>
    exfalso
    unfold Machine.new at hr
    split at hr
    · cases hr
    · split at hr
      · cases hr
      · rename_i info hinfo
        split at hr
        · cases hr
        · split at hr
          · cases hr
          · rename_i hb
            exact buildAll_not_ub (fun ty p hp => hl _ _ _ _ hinfo hp) _ _ _ hb
          · cases hr

example : ∃ m, Machine.new Toy.view Toy.world Toy.lattice = .ok m := ⟨_, rfl⟩
example : Machine.new Toy.view Toy.world (.top "Toy" [.entry "a" "drift" (-1)]) = .err .runtime := rfl
example : Machine.new Toy.view Toy.world (.top "Toy" [.entry "a" "nosuch" 1]) = .err .keyError := rfl
example : Machine.new Toy.view Toy.world (.top "Other" []) = .err .keyError := rfl

/-! ## C19 -/

/-- Lookups of a freshly built machine are exact: by name and by type the positions of exactly the
matching elements in beamline order, `find` the n-th of them, and all_range every element exactly
once.  (`sizeMod` = 2^64: a machine cannot have more elements.) -/
theorem C19_lookups_exact (cv : CView C) (w : World C X S) (c : C) (m : Machine C X S)
    (h : Machine.new cv w c = .ok m) (hn : m.elems.length ≤ sizeMod) :
    (∀ name, m.equalRange name = positions m.elems (fun e => e.name = name)) ∧
    (∀ ty, m.equalRangeType ty = positions m.elems (fun e => e.cls.typeName = ty)) ∧
    (∀ name n, m.find name n = (positions m.elems (fun e => e.name = name))[n]?) ∧
    List.Perm m.allRange (List.range m.elems.length) := by
  have hb := (new_ok h).1
  refine ⟨fun name => hb.byName.range hn name, fun ty => hb.byType.range hn ty, ?_, hb.byName.all⟩
  intro name n
  unfold Machine.find
  rw [findLoop_eq _ _ _ (Nat.zero_le _), hb.byName.range hn name]
  simp

/-- The Python `find` returns the same positions (as element indices) and refuses two criteria. -/
theorem C19_python_find (cv : CView C) (w : World C X S) (c : C) (m : Machine C X S)
    (h : Machine.new cv w c = .ok m) (hn : m.elems.length ≤ sizeMod) (name ty : String) :
    m.pyFind (some name) none = .ok (positions m.elems (fun e => e.name = name)) ∧
    m.pyFind none (some ty) = .ok (positions m.elems (fun e => e.cls.typeName = ty)) ∧
    (∃ l, m.pyFind none none = .ok l ∧ List.Perm l (List.range m.elems.length)) ∧
    m.pyFind (some name) (some ty) = .error .invalidArg := by
  obtain ⟨h1, h2, _, h4⟩ := C19_lookups_exact cv w c m h hn
  have hb := (new_ok h).1
  have key : ∀ l : List Nat, (∀ i ∈ l, i < m.elems.length) →
      l.filterMap (fun p => (m.elems[p]?).map Elem.index) = l := by
    intro l hl
    induction l with
    | nil => rfl
    | cons i l ih =>
      have hi := hl i (by simp)
      have he : m.elems[i]? = some m.elems[i] := List.getElem?_eq_getElem hi
      rw [List.filterMap_cons, he]
      simp only [Option.map_some]
      rw [hb.indexed i _ he, ih (fun j hj => hl j (by simp [hj]))]
  have hpos : ∀ p, ∀ i ∈ positions m.elems p, i < m.elems.length := by
    intro p i hi
    obtain ⟨e, he, _⟩ := (mem_positions _ _ _).1 hi
    exact (List.getElem?_eq_some_iff.1 he).1
  refine ⟨?_, ?_, ?_, rfl⟩
  · simp only [Machine.pyFind, h1]
    rw [key _ (hpos _)]
  · simp only [Machine.pyFind, h2]
    rw [key _ (hpos _)]
  · refine ⟨m.allRange, ?_, h4⟩
    simp only [Machine.pyFind]
    rw [key]
    intro i hi
    simpa using h4.subset hi

example : ∃ m, Machine.new Toy.view Toy.world Toy.lattice = .ok m ∧ m.elems.length ≤ sizeMod ∧
    m.equalRange "a" = [0, 2] ∧ m.find "a" 1 = some 2 ∧ m.find "a" 2 = none ∧
    m.equalRangeType "quad" = [1] ∧ m.allRange = [0, 2, 1] := by
  refine ⟨_, rfl, by decide, ?_⟩
  decide +kernel

/-! ## C21 (before C20, which uses it) -/

/-- Complete description of reconfigure: either nothing changes and it does not return normally, or
exactly element `idx` is replaced: it keeps its class and observer, has index `idx`, the new name
and configuration, and its data are `assign old fresh` where `fresh` is what the class registered
for the requested type builds from `c`. -/
theorem C21_reconfigure_one_or_nothing (cv : CView C) (w : World C X S) (m : Machine C X S)
    (idx : Nat) (c : C) :
    ((m.reconfigure cv w idx c).1 = m ∧ (m.reconfigure cv w idx c).2 ≠ .ok ()) ∨
    (∃ old k ty p fresh nm, m.elems[idx]? = some old ∧ cv.str c "type" = .ok ty ∧
      m.info.elements.find ty = some p ∧ w.deref p = some k ∧ k.id = old.cls.id ∧
      cv.str c "name" = .ok nm ∧ k.build c = .ok fresh ∧
      (m.reconfigure cv w idx c).2 = .ok () ∧
      (m.reconfigure cv w idx c).1 = { m with elems := (m.elems.set idx
        (Elem.mk old.cls nm idx c old.obs (old.cls.assign old.dat fresh))) }) := by
  have hset : ∀ o, m.elems[idx]? = some o → Machine.mk m.info m.conf m.simtype (m.elems.set idx o) m.byName m.byType = m := by
    intro o ho
    have : m.elems.set idx o = m.elems := by
      apply List.ext_getElem?
      intro j
      rw [List.getElem?_set]
      split
      · subst_vars
        rw [if_pos (List.getElem?_eq_some_iff.1 ho).1, ho]
      · rfl
    rw [this]
  unfold Machine.reconfigure
  cases he : m.elems[idx]? with
  | none => exact Or.inl ⟨rfl, by simp⟩
  | some o =>
    dsimp only
    cases hty : cv.str c "type" with
    | error e => exact Or.inl ⟨rfl, by simp⟩
    | ok ty =>
      dsimp only
      cases hp : m.info.elements.find ty with
      | none => exact Or.inl ⟨rfl, by simp⟩
      | some p =>
        dsimp only
        cases hk : w.deref p with
        | none => exact Or.inl ⟨rfl, by simp⟩
        | some k =>
          dsimp only
          unfold rebuild Cls.new
          cases hnm : cv.str c "name" with
          | error e => exact Or.inl ⟨hset o he, by simp⟩
          | ok nm =>
            dsimp only
            cases hb : k.build c with
            | error e => exact Or.inl ⟨hset o he, by simp⟩
            | ok x =>
              dsimp only
              by_cases hid : o.cls.id = k.id
              · right
                refine ⟨o, k, ty, p, x, nm, rfl, rfl, hp, hk, hid.symm, rfl, hb, ?_⟩
                simp [hid]
              · left
                simp only [ne_eq, hid, not_false_eq_true, if_true]
                exact ⟨hset o he, by simp⟩

/-- For classes whose `assign` copies all their data, a successful reconfigure makes element `idx`
equal to a freshly built element of the same class at that index with the old observer.
Partial with respect to C21: it needs `hassign`, which the `source` element of sim_types Vector
and TransferMatrix violates (see `C21_false`). -/
theorem C21_reconfigure_fresh_partial (cv : CView C) (w : World C X S) (m : Machine C X S)
    (idx : Nat) (c : C) (old : Elem C X S) (ho : m.elems[idx]? = some old)
    (hassign : ∀ a b, old.cls.assign a b = b)
    (hcoherent : ∀ p k, w.deref p = some k → k.id = old.cls.id → k = old.cls)
    (hok : (m.reconfigure cv w idx c).2 = .ok ()) :
    ∃ fresh, old.cls.new cv c = .ok fresh ∧
      (m.reconfigure cv w idx c).1.elems[idx]? = some { fresh with index := idx, obs := old.obs } ∧
      ∀ j, j ≠ idx → (m.reconfigure cv w idx c).1.elems[j]? = m.elems[j]? := by
  rcases C21_reconfigure_one_or_nothing cv w m idx c with ⟨_, h⟩ | ⟨o, k, ty, p, x, nm, h1, h2, h3, h4, h5, h6, h7, _, h9⟩
  · exact absurd hok h
  · rw [ho] at h1
    cases h1
    have hk := hcoherent p k h4 h5
    subst hk
    refine ⟨⟨old.cls, nm, 0, c, none, x⟩, by simp [Cls.new, h6, h7], ?_, ?_⟩
    · rw [h9]
      have := (List.getElem?_eq_some_iff.1 ho).1
      simp [this, hassign]
    · intro j hj
      rw [h9]
      simp [List.getElem?_set, hj.symm]

/-- Any reconfigure history keeps the number of elements, every element's class (hence its type),
index and observer, the machine's configuration and its lookup maps. -/
theorem C21_history_keeps_structure (cv : CView C) (w : World C X S) (h : RHist C) :
    ∀ m : Machine C X S, Indexed m.elems →
      (reconfAll cv w m h).elems.map (fun e => (e.cls, e.index, e.obs)) =
        m.elems.map (fun e => (e.cls, e.index, e.obs)) ∧
      (reconfAll cv w m h).info = m.info ∧ (reconfAll cv w m h).conf = m.conf ∧
      (reconfAll cv w m h).byName = m.byName ∧ (reconfAll cv w m h).byType = m.byType := by
  induction h with
  | nil => intro m _; exact ⟨rfl, rfl, rfl, rfl, rfl⟩
  | cons q h ih =>
    intro m hi
    simp only [reconfAll, List.foldl_cons]
    rcases C21_reconfigure_one_or_nothing cv w m q.1 q.2 with ⟨h0, _⟩ | ⟨o, k, ty, p, x, nm, h1, _, _, _, _, _, _, _, h9⟩
    · rw [h0]
      exact ih m hi
    · have hmap : (m.reconfigure cv w q.1 q.2).1.elems.map (fun e => (e.cls, e.index, e.obs)) =
          m.elems.map (fun e => (e.cls, e.index, e.obs)) := by
        rw [h9]
        apply List.ext_getElem?
        intro j
        simp only [List.getElem?_map, List.getElem?_set]
        by_cases hqj : q.1 = j
        · subst hqj
          rw [if_pos rfl]
          have hx : o.index = q.1 := hi _ _ h1
          rw [if_pos (List.getElem?_eq_some_iff.1 h1).1, h1]
          simp [hx]
        · rw [if_neg hqj]
      have hi' : Indexed (m.reconfigure cv w q.1 q.2).1.elems := by
        intro j e he
        have := congrArg (fun l => l[j]?) hmap
        simp only [List.getElem?_map, he, Option.map_some] at this
        cases hj : m.elems[j]? with
        | none => simp [hj] at this
        | some e0 =>
          simp only [hj, Option.map_some, Option.some.injEq, Prod.mk.injEq] at this
          rw [this.2.1]
          exact hi j e0 hj
      obtain ⟨i1, i2, i3, i4, i5⟩ := ih _ hi'
      simp only [reconfAll] at i1 i2 i3 i4 i5
      refine ⟨i1.trans hmap, ?_, ?_, ?_, ?_⟩
      · rw [i2, h9]
      · rw [i3, h9]
      · rw [i4, h9]
      · rw [i5, h9]

/-- The `assign` methods of MomentMatrix elements without extra members, of the source and of the
bend, and of the linear elements without extra members copy every member that influences
propagation (`scratch` is overwritten before use); those of a source's initial state keep only the
control fields, which `advance` of the source does not read.  That of the cavity leaves out the type, the data file and what was read
with it (see `C21_cavity` for what becomes of that). -/
theorem C21_shipped_classes_assign_all {D P V M L T : Type} :
    (∀ t o : Copies.MomentElem D P M,
      Copies.momentElemAssign t o = { o with scratch := t.scratch }) ∧
    (∀ t o : Copies.MomentSource D P V M,
      Copies.momentSourceAssign t o =
        { base := { o.base with scratch := t.base.scratch },
          istate := { t.istate with payload := o.istate.payload } }) ∧
    (∀ t o : Copies.MomentSBend D P M,
      Copies.momentSBendAssign t o = { o with base := { o.base with scratch := t.base.scratch } }) ∧
    (∀ t o : Copies.RFCavity D P M L T,
      Copies.rfCavityAssign t o =
        { o with base := { o.base with scratch := t.base.scratch }, cavType := t.cavType, dataFile := t.dataFile, synAccTab := t.synAccTab,
                 refNrm := t.refNrm, synComplex := t.synComplex, ekLim := t.ekLim, nrLim := t.nrLim }) ∧
    (∀ t o : Copies.LinElem D M, Copies.linElemAssign t o = o) :=
  ⟨fun _ _ => rfl, fun _ _ => rfl, fun _ _ => rfl, fun _ _ => rfl, fun _ _ => rfl⟩

/-- A Vector source built from the toy configuration: its initial state is the configured value. -/
def linSourceCls : Cls Toy.TC (Copies.LinSource Int Int Unit) (Copies.LinFields Int Int) where
  id := 1
  typeName := "source"
  build c := match c with
    | .entry _ _ v => .ok { base := { length := 0, transfer := () },
                            istate := { nextElem := 0, retreat := false, payload := ⟨0, v⟩ } }
    | .top _ _ => .error .keyError
  assign := Copies.linSourceAssign
  advance x s := (x, Copies.linAssign s x.istate, none)

/-- C21 fails for the `source` element of sim_types Vector and TransferMatrix: after a successful
reconfigure of element 0 with a new initial state, propagation still starts from the old one. -/
theorem C21_false :
    ∃ (w : World Toy.TC (Copies.LinSource Int Int Unit) (Copies.LinFields Int Int)) (m m' : _) (r r' : _),
      Machine.new Toy.view w (.top "Vector" [.entry "S" "source" 5]) = .ok m ∧
      m.reconfigure Toy.view w 0 (.entry "S" "source" 9) = (m', .ok ()) ∧
      propagate m.elems ⟨0, false, ⟨0, 0⟩⟩ 0 1 = some r ∧ propagate m'.elems ⟨0, false, ⟨0, 0⟩⟩ 0 1 = some r' ∧
      r.st.payload.state = 5 ∧ r'.st.payload.state = 5 :=
  ⟨WOp.runAll World.empty [.state "Vector" 0, .element "Vector" "source" linSourceCls],
    _, _, _, _, rfl, rfl, propagate_eq _ _ _ _ (by decide), propagate_eq _ _ _ _ (by decide), rfl, rfl⟩

example : ∃ m, Machine.new Toy.view Toy.world Toy.lattice = .ok m ∧
    (m.reconfigure Toy.view Toy.world 2 (.entry "c" "drift" 8)).2 = .ok () ∧
    (m.reconfigure Toy.view Toy.world 2 (.entry "c" "quad" 8)).2 = .err .runtime ∧
    (m.reconfigure Toy.view Toy.world 2 (.entry "c" "drift" (-8))).2 = .err .badCast ∧
    (m.reconfigure Toy.view Toy.world 3 (.entry "c" "drift" 8)).2 = .err .invalidArg ∧
    (∀ a b, (Toy.adder 1 "drift").assign a b = b) ∧
    (∀ p k, Toy.world.deref p = some k → k.id = (Toy.adder 1 "drift").id → k = Toy.adder 1 "drift") := by
  refine ⟨_, rfl, rfl, rfl, rfl, rfl, fun _ _ => rfl, ?_⟩
  intro p k hk hid
  match p, hk with
  | 0, hk => cases hk; rfl
  | 1, hk => cases hk; cases hid
  | 2, hk => cases hk; cases hid
  | n + 3, hk => cases hk

/-! ## C20 -/

/-- The type lookup stays exact after any reconfigure history; the name lookup stays exact as long
as no reconfigure changes a name.  Partial with respect to C20: with renaming the name lookup goes
stale, see `C20_false`. -/
theorem C20_lookups_after_reconfigure_partial (cv : CView C) (w w' : World C X S) (c : C)
    (m : Machine C X S) (hm : Machine.new cv w c = .ok m) (hn : m.elems.length ≤ sizeMod)
    (h : RHist C) :
    (∀ ty, (reconfAll cv w' m h).equalRangeType ty =
      positions (reconfAll cv w' m h).elems (fun e => e.cls.typeName = ty)) ∧
    (KeepsNames cv m.elems h → ∀ name,
      (reconfAll cv w' m h).equalRange name =
        positions (reconfAll cv w' m h).elems (fun e => e.name = name) ∧
      ∀ n, (reconfAll cv w' m h).find name n =
        (positions (reconfAll cv w' m h).elems (fun e => e.name = name))[n]?) := by
  have hb := (new_ok hm).1
  obtain ⟨hmap, _, _, hbn, hbt⟩ := C21_history_keeps_structure cv w' h m hb.indexed
  have hpos : ∀ {T : Type} [DecidableEq T] (f : Elem C X S → T) (els els' : List (Elem C X S)) (t : T),
      els'.map f = els.map f →
      positions els' (fun e => f e = t) = positions els (fun e => f e = t) := by
    intro T _ f els els' t hf
    have hl : els'.length = els.length := by simpa using congrArg List.length hf
    unfold positions
    rw [hl]
    apply List.filter_congr
    intro i _
    have := congrArg (fun l => l[i]?) hf
    simp only [List.getElem?_map] at this
    cases h1 : els'[i]? <;> cases h2 : els[i]? <;> simp_all
  constructor
  · intro ty
    have hf : (reconfAll cv w' m h).elems.map (fun e => e.cls.typeName) =
        m.elems.map (fun e => e.cls.typeName) := by
      have := congrArg (List.map (fun q : Cls C X S × Nat × Option Nat => q.1.typeName)) hmap
      rw [List.map_map, List.map_map] at this
      exact this
    rw [hpos (fun e => e.cls.typeName) _ _ ty hf]
    unfold Machine.equalRangeType
    rw [hbt]
    exact hb.byType.range hn ty
  · intro hk name
    have hnames : ∀ (h : RHist C) (m' : Machine C X S),
        m'.elems.map Elem.name = m.elems.map Elem.name → KeepsNames cv m.elems h →
        (reconfAll cv w' m' h).elems.map Elem.name = m.elems.map Elem.name := by
      intro h
      induction h with
      | nil => intro m' hm' _; exact hm'
      | cons q h ih =>
        intro m' hm' hk
        simp only [reconfAll, List.foldl_cons]
        refine ih _ ?_ (fun q' hq' => hk q' (by simp [hq']))
        rcases C21_reconfigure_one_or_nothing cv w' m' q.1 q.2 with ⟨h0, _⟩ | ⟨o, k, ty, p, x, nm, h1, _, _, _, _, h6, _, _, h9⟩
        · rw [h0]; exact hm'
        · rw [h9, ← hm']
          apply List.ext_getElem?
          intro j
          simp only [List.getElem?_map, List.getElem?_set]
          by_cases hqj : q.1 = j
          · subst hqj
            rw [if_pos rfl, if_pos (List.getElem?_eq_some_iff.1 h1).1, h1]
            simp only [Option.map_some, Option.some.injEq]
            have hj := congrArg (fun l => l[q.1]?) hm'
            simp only [List.getElem?_map, h1, Option.map_some] at hj
            cases h2 : m.elems[q.1]? with
            | none => simp [h2] at hj
            | some e =>
              simp only [h2, Option.map_some, Option.some.injEq] at hj
              have := hk q (by simp) e h2
              rw [h6] at this
              injection this with this
              rw [this, hj]
          · rw [if_neg hqj]
    have hf := hnames h m rfl hk
    have hr : (reconfAll cv w' m h).equalRange name =
        positions (reconfAll cv w' m h).elems (fun e => e.name = name) := by
      rw [hpos Elem.name _ _ name hf]
      unfold Machine.equalRange
      rw [hbn]
      exact hb.byName.range hn name
    refine ⟨hr, ?_⟩
    intro n
    rw [← hr]
    unfold Machine.find Machine.equalRange
    rw [findLoop_eq _ _ _ (Nat.zero_le _)]
    simp

/-- After a reconfigure that renames element 0 from "a" to "z", `find("z")` finds nothing and
`find("a")` still returns the renamed element. -/
theorem C20_false :
    ∃ (m m' : Machine Toy.TC (Int × Nat) (List Int)) (e : _),
      Machine.new Toy.view Toy.world Toy.lattice = .ok m ∧
      m.reconfigure Toy.view Toy.world 0 (.entry "z" "drift" 1) = (m', .ok ()) ∧
      m'.elems[0]? = some e ∧ e.name = "z" ∧ m'.find "z" 0 = none ∧ m'.find "a" 0 = some 0 :=
  ⟨_, _, _, rfl, rfl, rfl, rfl, by decide +kernel, by decide +kernel⟩

example : ∃ m : Machine Toy.TC (Int × Nat) (List Int), Machine.new Toy.view Toy.world Toy.lattice = .ok m ∧
    m.elems.length ≤ sizeMod ∧
    KeepsNames Toy.view m.elems [(2, .entry "a" "drift" 7), (1, .entry "b" "quad" 4)] := by
  refine ⟨_, rfl, by decide, ?_⟩
  intro q hq e he
  rcases List.mem_cons.1 hq with rfl | hq
  · cases he; rfl
  · rcases List.mem_cons.1 hq with rfl | hq
    · cases he; rfl
    · simp at hq

/-! ## C22 -/

/-- Forward propagation through elements that do not redirect the beam passes exactly elements
start, start+1, ..., min(start+max, size)-1 in this order, leaves `next_elem` at the following
index, has exactly the effect of passing those elements one after the other, and throws nothing. -/
theorem C22_forward (els : List (Elem C X S)) (s : St S) (start : Nat) (max : Int)
    (hs : ∀ e ∈ els, Straight e.cls) (hl : els.length < sizeMod) (h0 : 0 ≤ max) :
    ∃ r, propagate els s start max = some r ∧ r.err = none ∧
      visits r.trace = List.range' start (min max.toNat (els.length - start)) ∧
      r.st.nextElem = start + min max.toNat (els.length - start) ∧
      (r.elems, r.st) = passAll (fun i => i + 1) els { s with nextElem := start, retreat := false }
        (List.range' start (min max.toNat (els.length - start))) := by
  have hne : max ≠ -2 ^ 31 := by intro h; rw [h] at h0; exact absurd h0 (by decide)
  refine ⟨_, propagate_eq els s start max hne, ?_⟩
  have hd : decide (max < 0) = false := by simp [h0]
  have hN : max.natAbs = max.toNat := by omega
  rw [hd, hN]
  exact run_forward max.toNat els { s with nextElem := start, retreat := false } hs hl rfl

example : ∀ e ∈ Toy.elems, Straight e.cls := by
  intro e he
  simp only [Toy.elems, List.mem_cons, List.not_mem_nil, or_false] at he
  rcases he with rfl | rfl | rfl <;> exact fun _ _ => ⟨rfl, rfl, rfl⟩
example : ((propagate Toy.elems ⟨0, false, []⟩ 1 5).map (fun r => (r.st.payload, visits r.trace, r.st.nextElem))) =
    some ([2, 3], [1, 2], 3) := by
  rw [propagate_eq _ _ _ _ (by decide)]; decide +kernel

/-! ## C23 -/

/-- Splitting at the place the first part reached: for elements that may redirect the beam and may
throw (but not reverse its direction), `propagate(s, a)` followed by `propagate(S.next_elem, b)`
equals `propagate(s, a+b)` in state, element caches, events and outcome, forward and backward. -/
theorem C23_split_anywhere (els : List (Elem C X S)) (s : St S) (start : Nat) (a b : Int)
    (hk : ∀ e ∈ els, KeepsDir e.cls) (r : Run C X S)
    (hsign : (0 ≤ a ∧ 0 ≤ b) ∨ (a < 0 ∧ b < 0)) (hrange : -2 ^ 31 < a + b)
    (hr : propagate els s start a = some r) (herr : r.err = none) :
    ∃ q, propagate r.elems r.st r.st.nextElem b = some q ∧
      propagate els s start (a + b) = some { q with trace := r.trace ++ q.trace } := by
  have ha : a ≠ -2 ^ 31 := by omega
  have hb : b ≠ -2 ^ 31 := by omega
  have hab : a + b ≠ -2 ^ 31 := by omega
  rw [propagate_eq els s start a ha] at hr
  cases hr
  refine ⟨_, propagate_eq _ _ _ b hb, ?_⟩
  rw [propagate_eq els s start (a + b) hab]
  have hN : (a + b).natAbs = a.natAbs + b.natAbs := by omega
  have hd : decide (a + b < 0) = decide (a < 0) := by
    rcases hsign with h | h
    · rw [decide_eq_false (by omega), decide_eq_false (by omega)]
    · rw [decide_eq_true (by omega), decide_eq_true (by omega)]
  have hd2 : decide (b < 0) = decide (a < 0) := by
    rcases hsign with h | h
    · rw [decide_eq_false (by omega), decide_eq_false (by omega)]
    · rw [decide_eq_true (by omega), decide_eq_true (by omega)]
  have hret := run_retreat a.natAbs els { s with nextElem := start, retreat := decide (a < 0) } hk
  rw [hN, hd, run_add, herr]
  simp only [Option.isSome_none, Bool.false_eq_true, if_false]
  rw [hd2]
  have hst : ∀ t : St S, t.retreat = decide (a < 0) →
      ({ t with nextElem := t.nextElem, retreat := decide (a < 0) } : St S) = t := by
    intro t ht
    cases t
    simp only at ht
    subst ht
    rfl
  rw [hst _ hret]

/-- Splitting at start+a through elements that do not redirect the beam, as long as the first part
does not run past the end of the machine. -/
theorem C23_split_straight (els : List (Elem C X S)) (s : St S) (start a b : Nat)
    (hs : ∀ e ∈ els, Straight e.cls) (hl : els.length < sizeMod) (hin : start + a ≤ els.length)
    (hab : a + b < 2 ^ 31) :
    ∃ r q, propagate els s start a = some r ∧ propagate r.elems r.st (start + a) b = some q ∧
      propagate els s start (a + b : Int) = some { q with trace := r.trace ++ q.trace } := by
  obtain ⟨r, hr, herr, _, hnext, _⟩ := C22_forward els s start a hs hl (by omega)
  have hk : ∀ e ∈ els, KeepsDir e.cls := fun e he x s => (hs e he x s).2.1
  obtain ⟨q, hq, hall⟩ := C23_split_anywhere els s start a b hk r (by omega) (by omega) hr herr
  have : r.st.nextElem = start + a := by
    rw [hnext]
    have : min (a : Int).toNat (els.length - start) = a := by
      rw [Int.toNat_natCast]; omega
    omega
  rw [this] at hq
  exact ⟨r, q, hr, hq, hall⟩

/-- If the first part does run past the end, splitting still gives the same final beam state, except
that `next_elem` is left at the (out of range) start of the second part. -/
theorem C23_split_past_end (els : List (Elem C X S)) (s : St S) (start a b : Nat)
    (hs : ∀ e ∈ els, Straight e.cls) (hl : els.length < sizeMod) (hin : els.length < start + a)
    (hab : a + b < 2 ^ 31) :
    ∃ r q t, propagate els s start a = some r ∧ propagate r.elems r.st (start + a) b = some q ∧
      propagate els s start (a + b : Int) = some t ∧
      q.st.payload = t.st.payload ∧ q.elems = t.elems ∧ t.trace = r.trace ∧ q.trace = [] ∧
      q.st.nextElem = start + a := by
  obtain ⟨r, hr, herr, hv, hnext, hpass⟩ := C22_forward els s start a hs hl (by omega)
  obtain ⟨t, ht, _, htv, _, htp⟩ := C22_forward els s start (a + b : Int) hs hl (by omega)
  have hk : ∀ e ∈ els, KeepsDir e.cls := fun e he x s => (hs e he x s).2.1
  obtain ⟨q0, hq0, hall⟩ := C23_split_anywhere els s start a b hk r (by omega) (by omega) hr herr
  have hrl : r.elems.length = els.length := by
    rw [propagate_eq _ _ _ _ (by omega)] at hr
    cases hr
    exact run_length _ _ _
  have hstop : ∀ (n : Nat) (els' : List (Elem C X S)) (s' : St S), els'.length ≤ s'.nextElem →
      run n els' s' = { elems := els', st := s', trace := [], err := none } := by
    intro n els' s' hge
    cases n with
    | zero => rfl
    | succ n => exact run_succ_none (List.getElem?_eq_none hge)
  have hq := propagate_eq r.elems r.st (start + a) (b : Int) (by omega)
  rw [hstop _ _ _ (show r.elems.length ≤ start + a by omega)] at hq
  have hnx : els.length ≤ r.st.nextElem := by
    rw [hnext, Int.toNat_natCast]
    omega
  rw [propagate_eq r.elems r.st r.st.nextElem (b : Int) (by omega), hstop _ _ _ (by simp; omega)] at hq0
  cases hq0
  rw [hall] at ht
  cases ht
  exact ⟨r, _, _, hr, hq, hall, rfl, rfl, by simp, rfl, rfl⟩

example : ∀ e ∈ Toy.elems, KeepsDir e.cls := by
  intro e he
  simp only [Toy.elems, List.mem_cons, List.not_mem_nil, or_false] at he
  rcases he with rfl | rfl | rfl <;> exact fun _ _ => rfl
example : Toy.elems.length < sizeMod ∧ 1 + 1 ≤ Toy.elems.length := by decide

/-! ## C24 -/

/-- Whatever the elements do (redirect, reverse, throw, loop), propagate performs at most |max|
element passages; the only undefined call is max = INT_MIN. -/
theorem C24_bounded (els : List (Elem C X S)) (s : St S) (start : Nat) (max : Int) :
    (max ≠ -2 ^ 31 → ∃ r, propagate els s start max = some r ∧ (visits r.trace).length ≤ max.natAbs) ∧
    (max = -2 ^ 31 → propagate els s start max = none) := by
  constructor
  · intro h
    exact ⟨_, propagate_eq els s start max h, run_visits_le _ _ _⟩
  · rintro rfl
    simp [propagate, cAbs]

/-- A retreating propagation from `start` passes start, start-1, ... and stops after |max| elements
or after element 0; `next_elem` is then the index before the last one passed, wrapping to SIZE_MAX
below element 0. -/
theorem C24_backward (els : List (Elem C X S)) (s : St S) (start : Nat) (max : Int)
    (hs : ∀ e ∈ els, Straight e.cls) (hl : els.length < sizeMod) (hst : start < els.length)
    (hneg : max < 0) (hmin : max ≠ -2 ^ 31) :
    ∃ r, propagate els s start max = some r ∧ r.err = none ∧
      visits r.trace = (List.range (min max.natAbs (start + 1))).map (fun j => start - j) ∧
      r.st.nextElem = (if max.natAbs ≤ start then start - max.natAbs else sizeMod - 1) ∧
      (r.elems, r.st) = passAll (fun i => if i = 0 then sizeMod - 1 else i - 1) els
        { s with nextElem := start, retreat := true }
        ((List.range (min max.natAbs (start + 1))).map (fun j => start - j)) := by
  refine ⟨_, propagate_eq els s start max hmin, ?_⟩
  rw [decide_eq_true hneg]
  exact run_backward max.natAbs els { s with nextElem := start, retreat := true } hs hl rfl hst

/-- An endless loop of elements: element 1 jumps back to element 0 forever. -/
example : (propagate [⟨Toy.adder 1 "drift", "a", 0, .entry "a" "drift" 1, none, (1, 0)⟩,
      ⟨Toy.jumper, "j", 1, .entry "j" "jump" 1, none, (0, 0)⟩] ⟨0, false, []⟩ 0 5).map
        (fun r => visits r.trace) = some [0, 1, 0, 1, 0] := by
  rw [propagate_eq _ _ _ _ (by decide)]; decide +kernel
example : (propagate Toy.elems ⟨0, false, []⟩ 2 (-5)).map (fun r => (visits r.trace, r.st.payload)) =
    some ([2, 1, 0], [3, 2, 1]) := by
  rw [propagate_eq _ _ _ _ (by decide)]; decide +kernel

/-! ## C25 -/

/-- Each completed passage through an observed element produces exactly one observer call, directly
after the passage, with the element's index and the state at its exit; unobserved elements and
passages ended by an exception produce none. -/
theorem C25_one_view_per_passage (els : List (Elem C X S)) (s : St S) (start : Nat) (max : Int)
    (hi : Indexed els) (r : Run C X S) (hr : propagate els s start max = some r) :
    ∃ ps tail, ps = passages max.natAbs els { s with nextElem := start, retreat := decide (max < 0) } ∧
      r.trace = ps.flatMap (fun q => .visit q.1 :: (match (els[q.1]?).bind Elem.obs with
        | none => []
        | some o => [.view o q.1 q.2])) ++ tail ∧
      (if r.err.isSome then ∃ j, tail = [.visit j] else tail = []) ∧
      views r.trace = ps.filterMap (fun q => ((els[q.1]?).bind Elem.obs).map (fun o => (o, q.1, q.2))) := by
  have hm : max ≠ -2 ^ 31 := by
    rintro rfl
    simp [propagate, cAbs] at hr
  rw [propagate_eq els s start max hm] at hr
  cases hr
  obtain ⟨tail, h1, h2⟩ := run_trace max.natAbs els
    { s with nextElem := start, retreat := decide (max < 0) } hi
  refine ⟨_, tail, rfl, h1, h2, ?_⟩
  rw [h1, views_append, views_flatMap]
  have : views tail = [] := by
    split at h2
    · obtain ⟨j, rfl⟩ := h2
      rfl
    · rw [h2]; rfl
  rw [this, List.append_nil]

/-- Observers never influence a propagation: two element lists that differ only in the installed
observers yield the same state, exception, passages and element caches. -/
theorem C25_observers_do_not_influence (els els' : List (Elem C X S)) (s : St S) (start : Nat)
    (max : Int) (h : List.Forall₂ SameButObs els els') (r r' : Run C X S)
    (hr : propagate els s start max = some r) (hr' : propagate els' s start max = some r') :
    r.st = r'.st ∧ r.err = r'.err ∧ visits r.trace = visits r'.trace ∧
      clearObs r.elems = clearObs r'.elems := by
  have hc : clearObs els = clearObs els' := by
    clear hr hr'
    unfold clearObs
    induction h with
    | nil => rfl
    | cons h _ ih =>
      rename_i a b _ _ _
      obtain ⟨h1, h2, h3, h4, h5⟩ := h
      cases a
      cases b
      simp only at h1 h2 h3 h4 h5
      subst h1 h2 h3 h4 h5
      simp [ih]
  have hm : max ≠ -2 ^ 31 := by
    rintro rfl
    simp [propagate, cAbs] at hr
  rw [propagate_eq _ s start max hm] at hr hr'
  cases hr
  cases hr'
  obtain ⟨h1, h2, h3, h4⟩ := run_clearObs max.natAbs els { s with nextElem := start, retreat := decide (max < 0) }
  obtain ⟨k1, k2, k3, k4⟩ := run_clearObs max.natAbs els' { s with nextElem := start, retreat := decide (max < 0) }
  rw [hc] at h1 h2 h3 h4
  exact ⟨h2.symm.trans k2, h3.symm.trans k3, h4.symm.trans k4, h1.symm.trans k1⟩

/-- The Python `observe` argument: with valid indices the result holds exactly one entry per
completed passage of a listed index, in visiting order, with a clone of the state at its exit; the
final state is that of an unobserved propagation; no observer remains installed.  `o` is the fresh
observer object of the call. -/
theorem C25_python_observe (o : Nat) (els : List (Elem C X S)) (s : St S) (start : Nat) (max : Int)
    (observe : List Nat) (hi : Indexed els) (hfresh : ∀ e ∈ els, e.obs ≠ some o)
    (hin : ∀ i ∈ observe, i < els.length) (r : Run C X S) (hr : propagate els s start max = some r) :
    ∃ p, pyPropagate o els s start max observe = some p ∧ p.st = r.st ∧
      p.elems = clearObs r.elems ∧ (∀ e ∈ p.elems, e.obs = none) ∧
      p.result = (match r.err with
        | some e => .error e
        | none => .ok (((passages max.natAbs els { s with nextElem := start, retreat := decide (max < 0) }).filter
            (fun q => q.1 ∈ observe)).map (fun q => (q.1, q.2.clone)))) := by
  have hm : max ≠ -2 ^ 31 := by
    rintro rfl
    simp [propagate, cAbs] at hr
  obtain ⟨h1, h2, h3, h4⟩ := installObs_ok o observe els hin
  rw [propagate_eq _ s start max hm] at hr
  cases hr
  generalize hs0 : ({ s with nextElem := start, retreat := decide (max < 0) } : St S) = s0
  have hins : installObs o els observe = ((installObs o els observe).1, none) := by
    rw [← h1]
  generalize hE : (installObs o els observe).1 = els' at *
  unfold pyPropagate
  rw [hins]
  dsimp only
  rw [propagate_eq _ s start max hm, hs0]
  obtain ⟨a1, a2, a3, a4⟩ := run_clearObs max.natAbs els s0
  obtain ⟨b1, b2, b3, b4⟩ := run_clearObs max.natAbs els' s0
  rw [h2] at b1 b2 b3 b4
  refine ⟨_, rfl, b2.symm.trans a2, b1.symm.trans a1, ?_, ?_⟩
  · intro e he
    simp only [clearObs, List.mem_map] at he
    obtain ⟨e0, _, rfl⟩ := he
    rfl
  · dsimp only
    have herr : (run max.natAbs els' s0).err = (run max.natAbs els s0).err := b3.symm.trans a3
    rw [herr]
    cases hE' : (run max.natAbs els s0).err with
    | some x => rfl
    | none =>
      have hidx : Indexed els' := by
        intro i e he
        have := congrArg (fun l => l[i]?) h2
        simp only [clearObs_get, he, Option.map_some] at this
        cases hj : els[i]? with
        | none => simp [hj] at this
        | some e0 =>
          simp only [hj, Option.map_some, Option.some.injEq] at this
          injection this with _ _ hx _ _ _
          rw [hx]
          exact hi i e0 hj
      obtain ⟨tail, t1, t2⟩ := run_trace max.natAbs els' s0 hidx
      rw [herr, hE'] at t2
      simp only [Option.isSome_none, Bool.false_eq_true, if_false] at t2
      dsimp only
      rw [t1, t2, List.append_nil, stored_flatMap]
      have hp : passages max.natAbs els' s0 = passages max.natAbs els s0 := by
        rw [← passages_clearObs, h2, passages_clearObs]
      rw [hp]
      congr 2
      apply List.filter_congr
      intro q _
      rw [h4 q.1]
      by_cases hq : q.1 ∈ observe
      · simp [hq]
      · simp only [hq, if_false]
        cases hj : els[q.1]? with
        | none => simp
        | some e0 =>
          have := hfresh e0 (List.mem_of_getElem? hj)
          simpa using this

/-- An index out of range: nothing is propagated, an error is reported and no observer remains. -/
theorem C25_python_bad_index (o : Nat) (els : List (Elem C X S)) (s : St S) (start : Nat) (max : Int)
    (observe : List Nat) (hbad : ∃ i ∈ observe, els.length ≤ i) :
    pyPropagate o els s start max observe =
      some { elems := clearObs els, st := s, result := .error .runtime } := by
  obtain ⟨h1, h2⟩ := installObs_err o observe els hbad
  have hins : installObs o els observe = ((installObs o els observe).1, some .runtime) := by
    rw [← h1]
  unfold pyPropagate
  rw [hins]
  dsimp only
  rw [h2]

example : Indexed Toy.elems ∧ (∀ e ∈ Toy.elems, e.obs ≠ some 4) ∧ (∀ i ∈ [2, 0], i < Toy.elems.length) := by
  refine ⟨?_, by decide, by decide⟩
  intro i e he
  match i, he with
  | 0, he => cases he; rfl
  | 1, he => cases he; rfl
  | 2, he => cases he; rfl
  | n + 3, he => cases he
example : (pyPropagate 4 Toy.elems ⟨0, false, []⟩ 0 100 [2, 0]).map (fun p => p.result.toOption) =
    some (some [(0, ⟨0, false, [1]⟩), (2, ⟨0, false, [1, 2, 3]⟩)]) := by
  unfold pyPropagate
  rw [show installObs 4 Toy.elems [2, 0] = (_, none) from rfl]
  dsimp only
  rw [propagate_eq _ _ _ _ (by decide)]
  decide +kernel

/-! ## C26 -/

/-- Refinement: after any history the registry means what the abstract registry means, in which a
taken simulation type name or element type name is refused and a refused registration changes
nothing; and every further operation has the abstract outcome. -/
theorem C26_registry_refines (h : List (WOp C X S)) :
    (WOp.runAll World.empty h).abs = WOp.specAll (fun _ => none) h ∧
    ∀ o : WOp C X S, (o.run (WOp.runAll World.empty h)).2 = (o.spec (WOp.specAll (fun _ => none) h)).2 := by
  have h0 : (World.empty : World C X S).abs = fun _ => none := by
    funext s
    simp [World.abs, World.empty]
  have h1 := abs_runAll h World.empty live_empty
  rw [h0] at h1
  refine ⟨h1, ?_⟩
  intro o
  have := abs_run _ (live_runAll h World.empty live_empty) o
  rw [h1] at this
  exact congrArg Prod.snd this

/-- What is registered for a simulation type depends only on the registrations for that type (and
on cleanups), so unrelated registrations can be added, removed or interleaved freely. -/
theorem C26_unrelated_registrations (s : String) (h : List (WOp C X S)) :
    (WOp.runAll World.empty h).abs s = (WOp.runAll World.empty (h.filter (WOp.about s))).abs s := by
  rw [(C26_registry_refines h).1, (C26_registry_refines _).1]
  exact specAll_filter s h _ _ rfl

/-- Later registrations do not change what an existing machine does on reconfigure (propagation
does not consult the registry at all). -/
theorem C26_existing_machines_unaffected (cv : CView C) (h0 h : List (WOp C X S)) (hc : NoCleanup h)
    (c : C) (m : Machine C X S) (hm : Machine.new cv (WOp.runAll World.empty h0) c = .ok m)
    (idx : Nat) (c' : C) :
    m.reconfigure cv (WOp.runAll World.empty (h0 ++ h)) idx c' =
      m.reconfigure cv (WOp.runAll World.empty h0) idx c' := by
  have hl := live_runAll h0 World.empty live_empty
  have hi := (new_ok hm).2.2.2.1
  have hrun : WOp.runAll World.empty (h0 ++ h) = WOp.runAll (WOp.runAll World.empty h0) h := by
    simp [WOp.runAll]
  rw [hrun]
  generalize WOp.runAll World.empty h0 = w at *
  unfold Machine.reconfigure
  cases m.elems[idx]? with
  | none => rfl
  | some o =>
    dsimp only
    cases cv.str c' "type" with
    | error e => rfl
    | ok ty =>
      dsimp only
      cases hp : m.info.elements.find ty with
      | none => rfl
      | some p =>
        obtain ⟨k, hk⟩ := hl _ _ _ _ hi hp
        dsimp only
        rw [deref_runAll h hc hk, hk]

/-- After `registeryCleanup`, reconfigure of an existing machine with a type it knows uses a deleted
object: undefined behaviour. -/
theorem C26_cleanup_breaks_existing_machines (cv : CView C) (h0 h : List (WOp C X S)) (hc : NoCleanup h)
    (c : C) (m : Machine C X S) (hm : Machine.new cv (WOp.runAll World.empty h0) c = .ok m)
    (idx : Nat) (hidx : idx < m.elems.length) (c' : C) (ty : String) (k : Cls C X S)
    (hty : cv.str c' "type" = .ok ty) (hreg : Registered (WOp.runAll World.empty h0) m.simtype ty k) :
    (m.reconfigure cv (WOp.runAll World.empty (h0 ++ h ++ [.cleanup])) idx c').2 = .ub := by
  have hi := (new_ok hm).2.2.2.1
  obtain ⟨i, p, h1, h2, _⟩ := hreg
  have hrun : WOp.runAll World.empty (h0 ++ h ++ [.cleanup]) =
      registeryCleanup (WOp.runAll (WOp.runAll World.empty h0) h) := by
    simp [WOp.runAll, WOp.run]
  rw [hrun]
  rw [hi] at h1
  cases h1
  obtain ⟨i', h3, h4⟩ := infos_runAll h hc hi h2
  unfold Machine.reconfigure
  rw [List.getElem?_eq_getElem hidx, hty]
  dsimp only
  rw [h2]
  dsimp only
  rw [cleanup_kills h3 h4]

example : NoCleanup ([.state "Other" 2, .element "Toy" "drift" Toy.jumper] :
    List (WOp Toy.TC (Int × Nat) (List Int))) := by
  intro o ho he
  subst he
  simp at ho
example : (WOp.run Toy.world (.element "Toy" "drift" Toy.jumper)).2 = some .logic := rfl
example : (WOp.run Toy.world (.element "Toy" "bpm" Toy.jumper)).2 = none := rfl
example : Registered Toy.world "Toy" "drift" (Toy.adder 1 "drift") := ⟨_, _, rfl, rfl, rfl⟩

/-! ## C52 -/

/-- Clones and assigned states carry every field of the source: for MomentState, VectorState and
MatrixState the member-wise code equals the whole-payload copy.  The control fields `next_elem` and `retreat` are
reset in a clone and kept by an assignment. -/
theorem C52_copies_complete {D P V M : Type} :
    (∀ s : St (Copies.MomentFields D P V M), Copies.momentClone s = { nextElem := 0, retreat := false, payload := s.payload }) ∧
    (∀ t s : St (Copies.MomentFields D P V M), Copies.momentAssign t s = { t with payload := s.payload }) ∧
    (∀ s : St (Copies.LinFields D V), Copies.linClone s = { nextElem := 0, retreat := false, payload := s.payload }) ∧
    (∀ t s : St (Copies.LinFields D V), Copies.linAssign t s = { t with payload := s.payload }) :=
  ⟨fun _ => rfl, fun _ _ => rfl, fun _ => rfl, fun _ _ => rfl⟩

/-- A clone and an assigned state propagate exactly like the original: same state, events, caches
and outcome. -/
theorem C52_copies_propagate_alike (els : List (Elem C X S)) (s t : St S) (start : Nat) (max : Int) :
    propagate els s.clone start max = propagate els s start max ∧
    propagate els (t.assign s) start max = propagate els s start max := by
  unfold propagate St.clone St.assign
  exact ⟨rfl, rfl⟩

/-- Variables holding states, as a history of clone / assign / propagate operations on them. -/
inductive SOp | clone (dst src : Nat) | assign (dst src : Nat) | propagate (i start : Nat) (max : Int)

/-- One operation on a store of states and the shared element list. -/
def SOp.run (w : List (Elem C X S) × (Nat → Option (St S))) : SOp → List (Elem C X S) × (Nat → Option (St S))
  | .clone d s => (w.1, fun i => if i = d then (w.2 s).map St.clone else w.2 i)
  | .assign d s => (w.1, fun i => if i = d then (w.2 d).bind (fun t => (w.2 s).map t.assign) else w.2 i)
  | .propagate j st mx =>
    match (w.2 j).bind (fun s => Mach.propagate w.1 s st mx) with
    | none => w
    | some r => (r.elems, fun i => if i = j then some r.st else w.2 i)

/-- The variable an operation writes. -/
def SOp.target : SOp → Nat
  | .clone d _ => d
  | .assign d _ => d
  | .propagate j _ _ => j

/-- No operation on other states ever changes a state: clones share nothing with their originals. -/
theorem C52_copies_independent (h : List SOp) (i : Nat) (hi : ∀ o ∈ h, o.target ≠ i)
    (w : List (Elem C X S) × (Nat → Option (St S))) : (h.foldl SOp.run w).2 i = w.2 i := by
  induction h generalizing w with
  | nil => rfl
  | cons o h ih =>
    rw [List.foldl_cons, ih (fun o' ho' => hi o' (by simp [ho']))]
    have := hi o (by simp)
    cases o with
    | clone d s => simp [SOp.run, SOp.target] at *; intro h; exact absurd h.symm this
    | assign d s => simp [SOp.run, SOp.target] at *; intro h; exact absurd h.symm this
    | propagate j st mx =>
      simp only [SOp.run, SOp.target] at *
      split
      · rfl
      · simp [Ne.symm this]

/-- Taken literally C52 fails: the observable `next_elem` is not cloned and not assigned. -/
theorem C52_false :
    ∃ s t : St Int, s.clone.nextElem ≠ s.nextElem ∧ (t.assign s).nextElem ≠ s.nextElem :=
  ⟨⟨3, false, 0⟩, ⟨1, false, 0⟩, by decide, by decide⟩

example : ∀ o ∈ ([.clone 1 0, .propagate 1 0 3, .assign 2 1] : List SOp), o.target ≠ 0 := by decide

end Flame.Mach
