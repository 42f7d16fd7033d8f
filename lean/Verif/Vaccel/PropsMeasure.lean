import Verif.Vaccel.MeasureLemmas
import Verif.Util.PropsArray

/-! # C77, C78 -/

namespace Flame.Vaccel

open Flame.Mach
open Flame.Arrays (Cell)
open Flame.Util (InShape C41_inbounds)
open Spec

variable {C X S : Type}

/-! ## the search for a parameter -/

theorem paramIndex_ok {get : Nat → Flame.Arrays.Got} {param : String} {n : Nat} : ∀ {fuel idx k : Nat},
    paramIndex get param n fuel idx = .ok k → ∃ a, get k = .yes a ∧ a.name = param ∧ a.type = .double ∧ a.arr.dim.length = n
  | 0, _, _, h => by cases h
  | fuel + 1, idx, k, h => by
    unfold paramIndex at h
    split at h
    · cases h
    · cases h
    · rename_i a ha
      split at h
      · split at h
        · cases h
        · rename_i h1 h2
          split at h
          · cases h
          · rename_i h3
            cases h
            exact ⟨a, ha, h1, by simpa using h2, by simpa using h3⟩
      · exact paramIndex_ok h

/-- Where the search ends. -/
theorem paramIndex_find {get : Nat → Flame.Arrays.Got} {param : String} {n N : Nat} (hN : ∀ j < N, ∃ a, get j = .yes a)
    (hE : ∀ j, N ≤ j → get j = .no) (once : ∀ i j a a', get i = .yes a → get j = .yes a' → a.name = a'.name → i = j) :
    ∀ (fuel idx : Nat), N < fuel + idx → idx ≤ N → (∀ j < idx, ∀ a, get j = .yes a → a.name ≠ param) →
    (∀ k a, get k = .yes a → a.name = param → a.type = .double → a.arr.dim.length = n → paramIndex get param n fuel idx = .ok k) ∧
    ((¬ ∃ k a, get k = .yes a ∧ a.name = param ∧ a.type = .double ∧ a.arr.dim.length = n) →
      paramIndex get param n fuel idx = .thrown)
  | 0, idx, h, h', _ => by omega
  | fuel + 1, idx, h, h', hb => by
    unfold paramIndex
    rcases Nat.lt_or_ge idx N with hlt | hge
    · obtain ⟨a, ha⟩ := hN idx hlt
      rw [ha]
      dsimp only
      by_cases hname : a.name = param
      · rw [if_pos hname]
        constructor
        · intro k a' hk h1 h2 h3
          have := once idx k a a' ha hk (hname.trans h1.symm)
          subst this
          rw [ha] at hk
          cases hk
          simp [h2, h3]
        · intro hno
          by_cases h2 : a.type = .double
          · by_cases h3 : a.arr.dim.length = n
            · exact absurd ⟨idx, a, ha, hname, h2, h3⟩ hno
            · simp [h2, h3]
          · simp [h2]
      · rw [if_neg hname]
        refine paramIndex_find hN hE once fuel (idx + 1) (by omega) (by omega) ?_
        intro j hj b hjb
        rcases Nat.lt_succ_iff_lt_or_eq.1 hj with hj | rfl
        · exact hb j hj b hjb
        · rw [ha] at hjb
          cases hjb
          exact hname
    · rw [hE idx hge]
      refine ⟨fun k a hk h1 => ?_, fun _ => rfl⟩
      rcases Nat.lt_or_ge k N with hk' | hk'
      · exact absurd h1 (hb k (by omega) a hk)
      · rw [hE k hk'] at hk
        cases hk

/-- The parameter of a record. -/
def ParamAt (W : World C X S) (param : String) (idx ndim : Nat) : Prop :=
  ∃ s a, W.alloc = .ok s ∧ W.v.get s idx = .yes a ∧ a.name = param ∧ a.type = .double ∧ a.arr.dim.length = ndim

theorem lookupParam_ok {W : World C X S} {param : String} {n idx : Nat} (h : lookupParam W.v W.alloc param n = .ok idx) :
    ParamAt W param idx n := by
  unfold lookupParam at h
  split at h
  · cases h
  · rename_i s hs
    obtain ⟨a, ha⟩ := paramIndex_ok h
    exact ⟨s, a, hs, ha⟩

theorem lookupParam_find {W : World C X S} {good : S → Prop} {shown : Shown S} (hP : Presents W.v good shown)
    (hC : ∀ s, W.alloc = .ok s → Complete W.v s) (param : String) (n : Nat) :
    (HasParam W param n → ∃ k, lookupParam W.v W.alloc param n = .ok k) ∧
    (¬ HasParam W param n → lookupParam W.v W.alloc param n = .thrown) := by
  unfold lookupParam
  cases hs : W.alloc with
  | error e => exact ⟨fun ⟨s, k, a, h, _⟩ => (by rw [hs] at h; cases h), fun _ => rfl⟩
  | ok s =>
    obtain ⟨N, h0, h1, h2⟩ := hC s hs
    obtain ⟨k1, k2⟩ := paramIndex_find (param := param) (n := n) h1 h2 (fun i j a a' => hP.once s i j a a') (2 ^ 32) 0
      (by omega) (by omega) (by omega)
    refine ⟨?_, fun h => k2 ?_⟩
    · rintro ⟨s', k, a, h, ha, hb, hc, hd⟩
      rw [hs] at h
      cases h
      exact ⟨k, k1 k a ha hb hc hd⟩
    · rintro ⟨k, a, ha, hb⟩
      exact h ⟨s, k, a, hs, ha, hb⟩

/-! ## what a kept state gives -/

theorem shown_unique {shown : Shown S} {s : S} (h : ((shown s).map (·.1)).Nodup) {n : String} {f f' : List Nat → Option Cell}
    (hf : (n, f) ∈ shown s) (hf' : (n, f') ∈ shown s) : f = f' := by
  have := List.inj_on_of_nodup_map h hf hf' rfl
  cases this
  rfl

theorem fetch_value {W : World C X S} {good : S → Prop} {shown : Shown S} (hP : Presents W.v good shown) {param : String}
    {idx : Nat} {dims : List Nat} (h : ParamAt W param idx dims.length) (l : St S) (hg : good l.payload) :
    (∃ x, ValueOf shown l.payload param dims (.num x) ∧ fetch W.v (some l) idx dims = .value x) ∨
    ((∀ c, ¬ ValueOf shown l.payload param dims c) ∧ fetch W.v (some l) idx dims = .nothing) := by
  obtain ⟨s0, a0, -, h0, h1, h2, h3⟩ := h
  obtain ⟨a, ha⟩ := hP.has s0 l.payload idx a0 h0 hg
  obtain ⟨e1, e2, e3⟩ := hP.same _ _ idx _ _ h0 ha
  obtain ⟨f, f1, f2⟩ := hP.val _ idx a hg ha
  rw [← e1, h1] at f1
  unfold fetch
  dsimp only
  rw [ha]
  dsimp only
  have hlen : dims.length = a.arr.dim.length := by rw [← e3, h3]
  by_cases hs : InShape a.arr.dim dims
  · obtain ⟨x, hx⟩ := hP.num _ idx a dims hg ha (by rw [← e2]; exact h2) hs
    rw [if_pos ⟨hlen, (C41_inbounds a.arr dims hlen).2 hs⟩, hx]
    exact .inl ⟨x, ⟨f, f1, by rw [(f2 dims).1 hs, hx]⟩, rfl⟩
  · rw [if_neg (fun hc => hs ((C41_inbounds a.arr dims hlen).1 hc.2))]
    refine .inr ⟨fun c hc => ?_, rfl⟩
    obtain ⟨f', g1, g2⟩ := hc
    rw [shown_unique (hP.names _) g1 f1, (f2 dims).2 hs] at g2
    cases g2

theorem valueOf_unique {W : World C X S} {good : S → Prop} {shown : Shown S} (hP : Presents W.v good shown) {s : S}
    {param : String} {dims : List Nat} {c c' : Cell} (h : ValueOf shown s param dims c) (h' : ValueOf shown s param dims c') :
    c = c' := by
  obtain ⟨f, f1, f2⟩ := h
  obtain ⟨g, g1, g2⟩ := h'
  rw [shown_unique (hP.names s) f1 g1, g2] at f2
  cases f2
  rfl

/-! ## histories -/

/-- The records are connected to observers of their elements. -/
structure Wired (W : World C X S) (m0 : Machine C X S) (q : Ioc C X S) : Prop where
  sound : Sound m0 q.sim
  meas : ∀ p ∈ q.meas, p.elem < m0.elems.length ∧ q.sim.measures p.elem = some p.measure ∧
    ParamAt W p.param p.paramIndex p.dims.length
  orbits : ∀ p ∈ q.orbits, (∀ i ∈ p.elems, i < m0.elems.length ∧ (q.sim.measures i).isSome) ∧
    ParamAt W p.param p.paramIndex p.dims.length

theorem Wired.later {W : World C X S} {m0 : Machine C X S} {q : Ioc C X S} (h : Wired W m0 q) {s : Sim C X S} (hs : Sound m0 s)
    (hl : ∀ i o, q.sim.measures i = some o → s.measures i = some o) : Wired W m0 { q with sim := s } := by
  refine ⟨hs, fun p hp => ?_, fun p hp => ⟨fun i hi => ?_, (h.orbits p hp).2⟩⟩
  · obtain ⟨h1, h2, h3⟩ := h.meas p hp
    exact ⟨h1, hl _ _ h2, h3⟩
  · obtain ⟨h1, h2⟩ := (h.orbits p hp).1 i hi
    obtain ⟨o, ho⟩ := Option.isSome_iff_exists.1 h2
    exact ⟨h1, by dsimp only; rw [hl _ _ ho]; rfl⟩

/-- How links find elements. -/
structure Finds (m0 : Machine C X S) : Prop where
  byName : ∀ name n, m0.find name n = (positions m0.elems (fun e => e.name = name))[n]?
  byType : ∀ ty, m0.equalRangeType ty = positions m0.elems (fun e => e.cls.typeName = ty)

theorem positions_lt {els : List (Elem C X S)} {P : Elem C X S → Bool} {i : Nat} (h : i ∈ positions els P) : i < els.length := by
  unfold positions at h
  exact List.mem_range.1 (List.mem_of_mem_filter h)

theorem find_same {m0 : Machine C X S} {q : Sim C X S} (h : Sound m0 q) (name : String) (n : Nat) : q.m.find name n = m0.find name n := by
  unfold Machine.find
  rw [h.byName]

theorem range_same {m0 : Machine C X S} {q : Sim C X S} (h : Sound m0 q) (ty : String) :
    q.m.equalRangeType ty = m0.equalRangeType ty := by
  unfold Machine.equalRangeType
  rw [h.byType]

/-- What a link of a measurement asks for. -/
structure Asks (W : World C X S) (m0 : Machine C X S) (name : String) (g : MeasGroups) (elem : Nat) (dims : List Nat) : Prop where
  ofSim : String.ofList g.sim = name
  ofElem : ∃ n, instOf g.inst = some n ∧ (positions m0.elems (fun e => e.name = String.ofList g.elem))[n]? = some elem
  ofDims : dimsOf g.dim0 g.dim1 = some dims
  ofParam : HasParam W (String.ofList g.param) dims.length

theorem measureInit_spec {W : World C X S} {m0 : Machine C X S} (hF : Finds m0) {q : Sim C X S} (h : Sound m0 q) (g : MeasGroups)
    {good : S → Prop} {shown : Shown S} (hP : Presents W.v good shown) (hC : ∀ s, W.alloc = .ok s → Complete W.v s) :
    ∃ q', Sound m0 q' ∧ Later q q' ∧
      ((∃ p, measureInit W.v W.alloc q g = (q', .ok p) ∧ Asks W m0 q.name g p.elem p.dims ∧ p.param = String.ofList g.param ∧
        p.elem < m0.elems.length ∧ q'.measures p.elem = some p.measure ∧ ParamAt W p.param p.paramIndex p.dims.length) ∨
      (measureInit W.v W.alloc q g = (q', .thrown) ∧ ∀ e d, ¬ Asks W m0 q.name g e d)) := by
  unfold measureInit
  by_cases hn : String.ofList g.sim = q.name
  · rw [if_neg (by simpa using hn)]
    cases hi : instOf g.inst with
    | none => exact ⟨q, h, Later.refl q, .inr ⟨rfl, fun e d ha => by obtain ⟨n, h1, -⟩ := ha.ofElem; rw [hi] at h1; cases h1⟩⟩
    | some n =>
      cases hd : dimsOf g.dim0 g.dim1 with
      | none => exact ⟨q, h, Later.refl q, .inr ⟨rfl, fun e d ha => by have := ha.ofDims; rw [hd] at this; cases this⟩⟩
      | some dims =>
        dsimp only
        rw [find_same h, hF.byName]
        cases hp : (positions m0.elems (fun e => e.name = String.ofList g.elem))[n]? with
        | none =>
          refine ⟨q, h, Later.refl q, .inr ⟨rfl, fun e d ha => ?_⟩⟩
          obtain ⟨n', h1, h2⟩ := ha.ofElem
          rw [hi] at h1
          cases h1
          rw [hp] at h2
          cases h2
        | some pos =>
          dsimp only
          have hpos := positions_lt (List.mem_of_getElem? hp)
          obtain ⟨e, he⟩ : ∃ e, q.m.elems[pos]? = some e := ⟨_, List.getElem?_eq_getElem (by rw [h.len]; exact hpos)⟩
          rw [he]
          dsimp only
          rw [(h.idx pos e he).1]
          obtain ⟨q', o, g1, g2, g3, g4⟩ := getMeasure_sound h hpos
          rw [g1]
          dsimp only
          obtain ⟨l1, l2⟩ := lookupParam_find hP hC (String.ofList g.param) dims.length
          refine ⟨q', g2, g3, ?_⟩
          by_cases hh : HasParam W (String.ofList g.param) dims.length
          · obtain ⟨k, hk⟩ := l1 hh
            rw [hk]
            exact .inl ⟨_, rfl, ⟨hn, ⟨n, hi, hp⟩, hd, hh⟩, rfl, hpos, g4, lookupParam_ok hk⟩
          · rw [l2 hh]
            refine .inr ⟨rfl, fun e d ha => hh ?_⟩
            have := ha.ofDims
            rw [hd] at this
            cases this
            exact ha.ofParam
  · rw [if_pos (by simpa using hn)]
    exact ⟨q, h, Later.refl q, .inr ⟨rfl, fun e d ha => hn ha.ofSim⟩⟩

/-- What a link of an orbit asks for: all elements of a type. -/
structure AsksAll (W : World C X S) (m0 : Machine C X S) (name : String) (g : OrbitGroups) (elems dims : List Nat) : Prop where
  ofSim : String.ofList g.sim = name
  ofType : elems = positions m0.elems (fun e => e.cls.typeName = String.ofList g.type)
  atLeast : elems ≠ []
  ofDims : dimsOf g.dim0 g.dim1 = some dims
  ofParam : HasParam W (String.ofList g.param) dims.length

theorem orbitInit_spec {W : World C X S} {m0 : Machine C X S} (hF : Finds m0) {q : Sim C X S} (h : Sound m0 q) (g : OrbitGroups)
    {good : S → Prop} {shown : Shown S} (hP : Presents W.v good shown) (hC : ∀ s, W.alloc = .ok s → Complete W.v s) :
    ∃ q', Sound m0 q' ∧ Later q q' ∧
      ((∃ p, orbitInit W.v W.alloc q g = (q', .ok p) ∧ AsksAll W m0 q.name g p.elems p.dims ∧ p.param = String.ofList g.param ∧
        (∀ i ∈ p.elems, i < m0.elems.length ∧ (q'.measures i).isSome) ∧ ParamAt W p.param p.paramIndex p.dims.length) ∨
      (orbitInit W.v W.alloc q g = (q', .thrown) ∧ ∀ e d, ¬ AsksAll W m0 q.name g e d)) := by
  unfold orbitInit
  by_cases hn : String.ofList g.sim = q.name
  · rw [if_neg (by simpa using hn)]
    cases hd : dimsOf g.dim0 g.dim1 with
    | none => exact ⟨q, h, Later.refl q, .inr ⟨rfl, fun e d ha => by have := ha.ofDims; rw [hd] at this; cases this⟩⟩
    | some dims =>
      dsimp only
      rw [range_same h, hF.byType]
      by_cases hr : positions m0.elems (fun e => e.cls.typeName = String.ofList g.type) = []
      · rw [if_pos hr]
        exact ⟨q, h, Later.refl q, .inr ⟨rfl, fun e d ha => ha.atLeast (ha.ofType.trans hr)⟩⟩
      · rw [if_neg hr]
        obtain ⟨q', g1, g2, g3, g4⟩ := measureAll_sound _ h
          (fun i hi => positions_lt (els := m0.elems) (P := fun e => e.cls.typeName = String.ofList g.type) hi)
        rw [g1]
        dsimp only
        obtain ⟨l1, l2⟩ := lookupParam_find hP hC (String.ofList g.param) dims.length
        refine ⟨q', g2, g3, ?_⟩
        by_cases hh : HasParam W (String.ofList g.param) dims.length
        · obtain ⟨k, hk⟩ := l1 hh
          rw [hk]
          exact .inl ⟨_, rfl, ⟨hn, rfl, hr, hd, hh⟩, rfl, fun i hi => ⟨positions_lt hi, g4 i hi⟩, lookupParam_ok hk⟩
        · rw [l2 hh]
          refine .inr ⟨rfl, fun e d ha => hh ?_⟩
          have := ha.ofDims
          rw [hd] at this
          cases this
          exact ha.ofParam
  · rw [if_pos (by simpa using hn)]
    exact ⟨q, h, Later.refl q, .inr ⟨rfl, fun e d ha => hn ha.ofSim⟩⟩

/-- What an IOC is made of: a machine from a lattice, elements that do not redirect the beam, states whose parameters can be
listed. -/
structure Setup (W : World C X S) (m0 : Machine C X S) (good : S → Prop) (shown : Shown S) : Prop where
  built : ∃ c, Machine.new W.cv W.w c = .ok m0
  len : m0.elems.length ≤ 2 ^ 31 - 1
  steady : ∀ e ∈ m0.elems, Steady e.cls
  shows : Presents W.v good shown
  complete : ∀ s, W.alloc = .ok s → Complete W.v s

theorem Setup.finds {W : World C X S} {m0 : Machine C X S} {good : S → Prop} {shown : Shown S} (H : Setup W m0 good shown) :
    Finds m0 := by
  obtain ⟨c, hc⟩ := H.built
  have : m0.elems.length ≤ sizeMod := by
    have h1 : (2 ^ 31 - 1 : Nat) < sizeMod := by decide
    have h2 := H.len
    omega
  obtain ⟨-, h2, h3, -⟩ := C19_lookups_exact W.cv W.w c m0 hc this
  exact ⟨h3, h2⟩

/-- The IOC after its start. -/
def Ioc.fresh (name : String) (m : Machine C X S) : Ioc C X S := ⟨Sim.fresh name m, [], []⟩

theorem wired_fresh {W : World C X S} {m0 : Machine C X S} {good : S → Prop} {shown : Shown S} (H : Setup W m0 good shown)
    (name : String) : Wired W m0 (Ioc.fresh name m0) := by
  obtain ⟨c, hc⟩ := H.built
  exact ⟨sound_fresh W.cv W.w c m0 hc name, fun p hp => by simp [Ioc.fresh] at hp, fun p hp => by simp [Ioc.fresh] at hp⟩

theorem simulate_keeps {W : World C X S} {m0 : Machine C X S} {good : S → Prop} {shown : Shown S} (H : Setup W m0 good shown)
    {q q' : Sim C X S} (h : Sound m0 q) (hq : q.simulate W.alloc = some q') :
    Sound m0 q' ∧ q'.name = q.name ∧ q'.measures = q.measures ∧ q'.seen.length = q.seen.length := by
  cases hs : W.alloc with
  | error e =>
    rw [hs] at hq
    simp only [Sim.simulate, Option.some.injEq] at hq
    subst hq
    exact ⟨⟨h.byName, h.byType, h.len, h.idx, h.inside, h.own⟩, rfl, rfl, rfl⟩
  | ok s =>
    rw [hs] at hq
    obtain ⟨a1, a2, a3, a4, -⟩ := simulate_sound h H.steady H.len hq
    exact ⟨a1, a2, a3, a4⟩

/-- One step of an IOC. -/
theorem step_wired {W : World C X S} {m0 : Machine C X S} {good : S → Prop} {shown : Shown S} (H : Setup W m0 good shown)
    {q q' : Ioc C X S} (h : Wired W m0 q) {op : Op C} (hq : q.step W op = some q') :
    Wired W m0 q' ∧ q'.sim.name = q.sim.name ∧ (∀ i o, q.sim.measures i = some o → q'.sim.measures i = some o) ∧
      (op ≠ .simulate → Later q.sim q'.sim) := by
  cases op with
  | measure g =>
    obtain ⟨s, s1, s2, s3⟩ := measureInit_spec H.finds h.sound g H.shows H.complete
    have hw := h.later s1 s2.kept
    unfold Ioc.step at hq
    dsimp only at hq
    rcases s3 with ⟨p, e, a1, a2, a3, a4, a5⟩ | ⟨e, -⟩
    · rw [e] at hq
      cases hq
      refine ⟨⟨s1, fun p' hp' => ?_, hw.orbits⟩, s2.name, s2.kept, fun _ => s2⟩
      rcases List.mem_append.1 hp' with hp' | hp'
      · exact hw.meas p' hp'
      · rw [List.mem_singleton.1 hp']
        exact ⟨a3, a4, a5⟩
    · rw [e] at hq
      cases hq
      exact ⟨hw, s2.name, s2.kept, fun _ => s2⟩
  | orbit g =>
    obtain ⟨s, s1, s2, s3⟩ := orbitInit_spec H.finds h.sound g H.shows H.complete
    have hw := h.later s1 s2.kept
    unfold Ioc.step at hq
    dsimp only at hq
    rcases s3 with ⟨p, e, a1, a2, a3, a4⟩ | ⟨e, -⟩
    · rw [e] at hq
      cases hq
      refine ⟨⟨s1, hw.meas, fun p' hp' => ?_⟩, s2.name, s2.kept, fun _ => s2⟩
      rcases List.mem_append.1 hp' with hp' | hp'
      · exact hw.orbits p' hp'
      · rw [List.mem_singleton.1 hp']
        exact ⟨a3, a4⟩
    · rw [e] at hq
      cases hq
      exact ⟨hw, s2.name, s2.kept, fun _ => s2⟩
  | change idx c =>
    unfold Ioc.step at hq
    dsimp only at hq
    split at hq
    · cases hq
    · rename_i m' r hne hr
      cases hq
      have hs := change_sound h.sound hr
      exact ⟨h.later hs (fun _ _ h => h), rfl, fun _ _ h => h, fun _ => ⟨rfl, rfl, fun _ _ h => h, fun _ _ => rfl,
        fun o l ho hl => (by dsimp only at hl; rw [List.getElem?_eq_none ho] at hl; cases hl), le_rfl, fun _ _ h _ => h⟩⟩
  | simulate =>
    unfold Ioc.step at hq
    dsimp only at hq
    cases hs : q.sim.simulate W.alloc with
    | none => rw [hs] at hq; cases hq
    | some s =>
      rw [hs] at hq
      cases hq
      obtain ⟨a1, a2, a3, a4⟩ := simulate_keeps H h.sound hs
      exact ⟨h.later a1 (fun _ _ h => by rw [a3]; exact h), a2, fun _ _ h => by dsimp only; rw [a3]; exact h,
        fun hc => absurd rfl hc⟩

theorem runs_append {W : World C X S} : ∀ (a b : List (Op C)) (q : Ioc C X S),
    q.runs W (a ++ b) = (q.runs W a).bind (fun q' => q'.runs W b)
  | [], b, q => rfl
  | o :: a, b, q => by
    have hc : ∀ (l : List (Op C)) (q : Ioc C X S), q.runs W (o :: l) = (q.step W o).bind (fun q' => q'.runs W l) := by
      intro l q
      rw [Ioc.runs]
      cases q.step W o <;> rfl
    rw [List.cons_append, hc, hc, Option.bind_assoc]
    congr 1
    funext q'
    exact runs_append a b q'

theorem runs_wired {W : World C X S} {m0 : Machine C X S} {good : S → Prop} {shown : Shown S} (H : Setup W m0 good shown) :
    ∀ (l : List (Op C)) {q q' : Ioc C X S}, Wired W m0 q → q.runs W l = some q' → Wired W m0 q' ∧ q'.sim.name = q.sim.name ∧
      (∀ i o, q.sim.measures i = some o → q'.sim.measures i = some o) ∧ (.simulate ∉ l → Later q.sim q'.sim)
  | [], q, q', h, hq => by
    cases hq
    exact ⟨h, rfl, fun _ _ h => h, fun _ => Later.refl _⟩
  | o :: l, q, q', h, hq => by
    unfold Ioc.runs at hq
    split at hq
    · cases hq
    · rename_i q1 h1
      obtain ⟨a1, a2, a3, a4⟩ := step_wired H h h1
      obtain ⟨b1, b2, b3, b4⟩ := runs_wired H l a1 hq
      refine ⟨b1, b2.trans a2, fun i o ho => b3 i o (a3 i o ho), fun hn => ?_⟩
      rw [List.mem_cons, not_or] at hn
      exact (a4 (fun hc => hn.1 hc.symm)).trans (b4 hn.2)

/-- What the last simulation leaves. -/
theorem after_last {W : World C X S} {m0 : Machine C X S} {good : S → Prop} {shown : Shown S} (H : Setup W m0 good shown)
    {name : String} {ops a : List (Op C)} {q qa : Ioc C X S} (hq : (Ioc.fresh name m0).runs W ops = some q)
    (hl : LastRun W (Ioc.fresh name m0) ops a qa) :
    (q.sim.valid = true → ∃ s, W.alloc = .ok s ∧ Through qa s) ∧
    ∀ s, W.alloc = .ok s → Through qa s → q.sim.valid = true ∧
      (∀ i o, qa.sim.measures i = some o → ∃ l t, q.sim.seen[o]? = some (some l) ∧ l.payload = t.payload ∧
        (i, t) ∈ behind qa s) ∧
      (∀ i o l, q.sim.measures i = some o → q.sim.seen[o]? = some (some l) → ∃ t, l.payload = t.payload ∧ (i, t) ∈ behind qa s) := by
  obtain ⟨⟨b, hb, hn⟩, hs⟩ := hl
  rw [hb, runs_append, hs, Option.bind_some] at hq
  unfold Ioc.runs at hq
  have hwa := (runs_wired H a (wired_fresh H name) hs).1
  cases h1 : qa.step W .simulate with
  | none => rw [h1] at hq; cases hq
  | some q1 =>
    rw [h1] at hq
    dsimp only at hq
    obtain ⟨w1, -, w3, -⟩ := step_wired H hwa h1
    obtain ⟨w4, -, -, w5⟩ := runs_wired H b w1 hq
    have hL := w5 hn
    unfold Ioc.step at h1
    dsimp only at h1
    cases h2 : qa.sim.simulate W.alloc with
    | none => rw [h2] at h1; cases h1
    | some s1 =>
      rw [h2] at h1
      cases h1
      dsimp only at *
      cases hal : W.alloc with
      | error e =>
        rw [hal] at h2
        simp only [Sim.simulate, Option.some.injEq] at h2
        refine ⟨fun hv => ?_, fun s hs => by cases hs⟩
        rw [hL.valid, ← h2] at hv
        cases hv
      | ok s =>
        rw [hal] at h2
        obtain ⟨c1, c2, c3, c4, c5, c6⟩ := simulate_sound hwa.sound H.steady H.len h2
        refine ⟨fun hv => ⟨s, rfl, c5.1 (by rw [← hL.valid]; exact hv)⟩, fun s' hs' ht => ?_⟩
        cases hs'
        have hv := c5.2 ht
        refine ⟨by rw [hL.valid]; exact hv, fun i o ho => ?_, fun i o l hi hl => ?_⟩
        · obtain ⟨l, t, e1, e2, e3⟩ := c6 hv i o ho
          have ho' := (hwa.sound.inside i o ho).2
          exact ⟨l, t, by rw [hL.seen o (by rw [c4]; exact ho')]; exact e1, e2, e3⟩
        · by_cases ho : o < s1.seen.length
          · have hk := hL.back i o hi ho
            rw [c3] at hk
            obtain ⟨l', t, e1, e2, e3⟩ := c6 hv i o hk
            rw [hL.seen o ho, e1] at hl
            cases hl
            exact ⟨t, e2, e3⟩
          · have := hL.fresh o _ (by omega) hl
            cases this

/-- Without a simulation there is no valid result. -/
theorem no_run {W : World C X S} {m0 : Machine C X S} {good : S → Prop} {shown : Shown S} (H : Setup W m0 good shown)
    {name : String} {ops : List (Op C)} {q : Ioc C X S} (hq : (Ioc.fresh name m0).runs W ops = some q) (hn : .simulate ∉ ops) :
    q.sim.valid = false := by
  have := ((runs_wired H ops (wired_fresh H name) hq).2.2.2 hn).valid
  rw [this]
  rfl

theorem last_exists {W : World C X S} {q0 q : Ioc C X S} {ops : List (Op C)} (hq : q0.runs W ops = some q)
    (h : .simulate ∈ ops) : ∃ a qa, LastRun W q0 ops a qa := by
  obtain ⟨a, b, e, hn⟩ : ∃ a b, ops = a ++ .simulate :: b ∧ .simulate ∉ b := by
    clear hq
    induction ops with
    | nil => simp at h
    | cons o l ih =>
      by_cases hl : Op.simulate ∈ l
      · obtain ⟨a, b, e, hn⟩ := ih hl
        exact ⟨o :: a, b, by rw [e]; rfl, hn⟩
      · rcases List.mem_cons.1 h with rfl | h
        · exact ⟨[], l, rfl, hl⟩
        · exact absurd h hl
  rw [e, runs_append] at hq
  cases hs : q0.runs W a with
  | none => rw [hs] at hq; cases hq
  | some qa => exact ⟨a, qa, ⟨b, e, hn⟩, hs⟩

/-! ## C77 -/

/-- **C77**: a record is connected if and only if its link names the simulation, an element, and a parameter with as many
indices as it has dimensions; initialisation never fails otherwise. -/
theorem C77_connect {W : World C X S} {m0 : Machine C X S} {good : S → Prop} {shown : Shown S} (H : Setup W m0 good shown)
    {name : String} {ops : List (Op C)} {q : Ioc C X S} (hq : (Ioc.fresh name m0).runs W ops = some q) (g : MeasGroups) :
    ∃ q', q.step W (.measure g) = some q' ∧
      (∀ e d, Asks W m0 name g e d → ∃ p, q'.meas = q.meas ++ [p] ∧ p.elem = e ∧ p.dims = d ∧ p.param = String.ofList g.param) ∧
      ((∀ e d, ¬ Asks W m0 name g e d) → q'.meas = q.meas) := by
  obtain ⟨hw, hname, -, -⟩ := runs_wired H ops (wired_fresh H name) hq
  obtain ⟨s, s1, s2, s3⟩ := measureInit_spec H.finds hw.sound g H.shows H.complete
  rw [show q.sim.name = name from hname] at s3
  unfold Ioc.step
  dsimp only
  rcases s3 with ⟨p, e, a1, a2, a3, a4, a5⟩ | ⟨e, hno⟩
  · rw [e]
    refine ⟨_, rfl, fun i d ha => ⟨p, rfl, ?_, ?_, a2⟩, fun hno => absurd a1 (hno _ _)⟩
    · obtain ⟨n, n1, n2⟩ := ha.ofElem
      obtain ⟨n', n3, n4⟩ := a1.ofElem
      rw [n1] at n3
      cases n3
      rw [n2] at n4
      cases n4
      rfl
    · have := ha.ofDims.symm.trans a1.ofDims
      cases this
      rfl
  · rw [e]
    exact ⟨_, rfl, fun i d ha => absurd ha (hno i d), fun _ => rfl⟩

/-- **C77**: a reading without alarm is the value that the parameter had behind the element in the last simulation, and that
simulation went through. -/
theorem C77_reading {W : World C X S} {m0 : Machine C X S} {good : S → Prop} {shown : Shown S} (H : Setup W m0 good shown)
    {name : String} {ops : List (Op C)} {q : Ioc C X S} (hq : (Ioc.fresh name m0).runs W ops = some q) {p : Meas} (hp : p ∈ q.meas)
    (r : Rec ℝ) {val : ℝ} (hr : measureRead W.v q.sim p r = some ⟨val, false⟩) :
    ∃ a qa s t, LastRun W (Ioc.fresh name m0) ops a qa ∧ W.alloc = .ok s ∧ Through qa s ∧ (p.elem, t) ∈ behind qa s ∧
      (good t.payload → ∃ x, ValueOf shown t.payload p.param p.dims (.num x) ∧ val = r.toVal x) := by
  obtain ⟨hw, -, -, -⟩ := runs_wired H ops (wired_fresh H name) hq
  obtain ⟨-, p2, p3⟩ := hw.meas p hp
  have hv : q.sim.valid = true := by
    unfold measureRead at hr
    split at hr
    · cases hr
    · split at hr
      · cases hr
      · cases hv : q.sim.valid
        · rw [hv] at hr
          cases hr
        · rfl
      · cases hr
  have hsim : .simulate ∈ ops := by
    by_contra hc
    rw [no_run H hq hc] at hv
    cases hv
  obtain ⟨a, qa, hl⟩ := last_exists hq hsim
  obtain ⟨h1, h2⟩ := after_last H hq hl
  obtain ⟨s, s1, s2⟩ := h1 hv
  obtain ⟨-, -, h3⟩ := h2 s s1 s2
  have ho := (hw.sound.inside _ _ p2).2
  unfold measureRead at hr
  cases hsn : q.sim.seen[p.measure]? with
  | none => rw [List.getElem?_eq_none_iff] at hsn; omega
  | some last =>
    rw [hsn] at hr
    dsimp only at hr
    cases last with
    | none => simp [fetch] at hr
    | some l =>
      obtain ⟨t, t1, t2⟩ := h3 _ _ l p2 hsn
      refine ⟨a, qa, s, t, hl, s1, s2, t2, fun hg => ?_⟩
      rw [← t1] at hg ⊢
      rcases fetch_value H.shows p3 l hg with ⟨x, x1, x2⟩ | ⟨-, x2⟩
      · rw [x2, hv] at hr
        dsimp only at hr
        cases hr
        exact ⟨x, x1, rfl⟩
      · rw [x2] at hr
        cases hr

/-- **C77**: if the last simulation went through and the record was connected before, it shows the value of the parameter
behind its element, or an alarm if there is no such entry. -/
theorem C77_shows {W : World C X S} {m0 : Machine C X S} {good : S → Prop} {shown : Shown S} (H : Setup W m0 good shown)
    {name : String} {ops a : List (Op C)} {q qa : Ioc C X S} (hq : (Ioc.fresh name m0).runs W ops = some q)
    (hl : LastRun W (Ioc.fresh name m0) ops a qa) {p : Meas} (hp : p ∈ qa.meas) (r : Rec ℝ) {s : S} (hs : W.alloc = .ok s)
    (ht : Through qa s) :
    ∃ t, (p.elem, t) ∈ behind qa s ∧ (∀ t', (p.elem, t') ∈ behind qa s → t' = t) ∧
      (good t.payload → ∀ c, ValueOf shown t.payload p.param p.dims c → ∃ x, c = .num x ∧
        measureRead W.v q.sim p r = some ⟨r.toVal x, false⟩) ∧
      (good t.payload → (∀ c, ¬ ValueOf shown t.payload p.param p.dims c) →
        measureRead W.v q.sim p r = some ⟨r.toVal 0, true⟩) := by
  obtain ⟨hw, -, -, -⟩ := runs_wired H a (wired_fresh H name) hl.start
  obtain ⟨-, p2, p3⟩ := hw.meas p hp
  obtain ⟨hv, h2, -⟩ := (after_last H hq hl).2 s hs ht
  obtain ⟨l, t, l1, l2, l3⟩ := h2 _ _ p2
  refine ⟨t, l3, fun t' ht' => ?_, fun hg c hc => ?_, fun hg hno => ?_⟩
  · have hn : ((behind qa s).map (·.1)).Nodup := by rw [show _ = _ from ht]; exact List.nodup_range
    have := List.inj_on_of_nodup_map hn ht' l3 rfl
    cases this
    rfl
  · rw [← l2] at hg hc
    unfold measureRead
    rw [l1]
    dsimp only
    rcases fetch_value H.shows p3 l hg with ⟨x, x1, x2⟩ | ⟨x1, -⟩
    · refine ⟨x, valueOf_unique H.shows hc x1, ?_⟩
      rw [x2, hv]
      rfl
    · exact absurd hc (x1 c)
  · rw [← l2] at hg hno
    unfold measureRead
    rw [l1]
    dsimp only
    rcases fetch_value H.shows p3 l hg with ⟨x, x1, -⟩ | ⟨-, x2⟩
    · exact absurd x1 (hno _)
    · rw [x2]

/-- **C77**: before the first simulation, and after one that did not go through, there is an alarm. -/
theorem C77_alarm {W : World C X S} {m0 : Machine C X S} {good : S → Prop} {shown : Shown S} (H : Setup W m0 good shown)
    {name : String} {ops : List (Op C)} {q : Ioc C X S} (hq : (Ioc.fresh name m0).runs W ops = some q)
    (h : .simulate ∉ ops ∨ ∃ a qa, LastRun W (Ioc.fresh name m0) ops a qa ∧ ∀ s, W.alloc = .ok s → ¬ Through qa s)
    (p : Meas) (r : Rec ℝ) {x : Reading} (hr : measureRead W.v q.sim p r = some x) : x.alarm = true := by
  have hv : q.sim.valid = false := by
    rcases h with h | ⟨a, qa, hl, hs⟩
    · exact no_run H hq h
    · by_contra hc
      rw [Bool.not_eq_false] at hc
      obtain ⟨s, s1, s2⟩ := (after_last H hq hl).1 hc
      exact hs s s1 s2
  unfold measureRead at hr
  rw [hv] at hr
  split at hr
  · cases hr
  · split at hr
    · cases hr
    · cases hr
      rfl
    · cases hr
      rfl

/-! ## C78 -/

/-- **C78**: a waveform is connected if and only if its link names the simulation, a type with at least one element, and a
parameter with as many indices as it has dimensions; it then has all elements of the type in the order of the beamline. -/
theorem C78_connect {W : World C X S} {m0 : Machine C X S} {good : S → Prop} {shown : Shown S} (H : Setup W m0 good shown)
    {name : String} {ops : List (Op C)} {q : Ioc C X S} (hq : (Ioc.fresh name m0).runs W ops = some q) (g : OrbitGroups) :
    ∃ q', q.step W (.orbit g) = some q' ∧
      (∀ l d, AsksAll W m0 name g l d → ∃ p, q'.orbits = q.orbits ++ [p] ∧ p.elems = l ∧ p.dims = d ∧
        p.param = String.ofList g.param) ∧
      ((∀ l d, ¬ AsksAll W m0 name g l d) → q'.orbits = q.orbits) := by
  obtain ⟨hw, hname, -, -⟩ := runs_wired H ops (wired_fresh H name) hq
  obtain ⟨s, s1, s2, s3⟩ := orbitInit_spec H.finds hw.sound g H.shows H.complete
  rw [show q.sim.name = name from hname] at s3
  unfold Ioc.step
  dsimp only
  rcases s3 with ⟨p, e, a1, a2, a3, a4⟩ | ⟨e, hno⟩
  · rw [e]
    refine ⟨_, rfl, fun l d ha => ⟨p, rfl, a1.ofType.trans ha.ofType.symm, ?_, a2⟩, fun hno => absurd a1 (hno _ _)⟩
    have := ha.ofDims.symm.trans a1.ofDims
    cases this
    rfl
  · rw [e]
    exact ⟨_, rfl, fun i d ha => absurd ha (hno i d), fun _ => rfl⟩

/-- The loop of a waveform, as far as it does not end in an alarm. -/
theorem orbitLoop_quiet {v : Params S} {q : Sim C X S} {k : Nat} {dims : List Nat} : ∀ (l : List Nat) (i : Nat) (buf : List ℝ)
    (valid : Bool) {w : Wave}, orbitLoop v q k dims l i buf valid = some w → w.alarm = false → i ≤ buf.length →
    valid = true ∧ w.nord = i + l.length ∧ w.nord ≤ buf.length ∧ w.buf.length = buf.length ∧ (∀ j < i, w.buf[j]? = buf[j]?) ∧
    (∀ j, w.nord ≤ j → w.buf[j]? = buf[j]?) ∧
    ∀ j pos, l[j]? = some pos → ∃ e o last x, q.m.elems[pos]? = some e ∧ q.measures e.index = some o ∧
      q.seen[o]? = some last ∧ fetch v last k dims = .value x ∧ w.buf[i + j]? = some x
  | [], i, buf, valid, w, h, ha, hi => by
    unfold orbitLoop at h
    cases h
    exact ⟨by simpa using ha, rfl, hi, rfl, fun _ _ => rfl, fun _ _ => rfl, fun j pos hj => (by simp at hj)⟩
  | pos :: l, i, buf, valid, w, h, ha, hi => by
    unfold orbitLoop at h
    split at h
    · cases h
    · rename_i e he
      split at h
      · cases h
        cases ha
      · rename_i hne
        split at h
        · cases h
        · rename_i last hlast
          obtain ⟨o, o1, o2⟩ := Option.bind_eq_some_iff.1 hlast
          split at h
          · cases h
          · rename_i x hx
            obtain ⟨a1, a2, a3, a4, a5, a6, a7⟩ := orbitLoop_quiet l (i + 1) _ valid h ha (by rw [List.length_set]; omega)
            rw [List.length_set] at a3 a4
            refine ⟨a1, by rw [a2, List.length_cons]; omega, a3, a4, fun j hj => ?_, fun j hj => ?_, fun j p hj => ?_⟩
            · rw [a5 j (by omega), List.getElem?_set_ne (by omega)]
            · rw [a6 j hj, List.getElem?_set_ne (by omega)]
            · cases j with
              | zero =>
                cases hj
                exact ⟨e, o, last, x, he, o1, o2, hx, by
                  rw [Nat.add_zero, a5 i (by omega), List.getElem?_set_self (by omega)]⟩
              | succ j =>
                obtain ⟨e', o', last', x', b⟩ := a7 j p hj
                exact ⟨e', o', last', x', by rw [show i + (j + 1) = i + 1 + j by omega]; exact b⟩
          · obtain ⟨a1, -⟩ := orbitLoop_quiet l (i + 1) _ false h ha (by omega)
            cases a1

/-- The loop of a waveform when every element has an observer. -/
theorem orbitLoop_all {v : Params S} {q : Sim C X S} {k : Nat} {dims : List Nat} (val : Nat → Option ℝ) : ∀ (l : List Nat) (i : Nat)
    (buf : List ℝ) (valid : Bool), i ≤ buf.length → (∀ pos ∈ l, ∃ e o last, q.m.elems[pos]? = some e ∧
      q.measures e.index = some o ∧ q.seen[o]? = some last ∧ (∀ x, val pos = some x → fetch v last k dims = .value x) ∧
      (val pos = none → fetch v last k dims = .nothing)) →
    ∃ w, orbitLoop v q k dims l i buf valid = some w ∧ w.nord = min (i + l.length) buf.length ∧ w.buf.length = buf.length ∧
      (w.alarm = false ↔ valid = true ∧ i + l.length ≤ buf.length ∧ ∀ pos ∈ l, val pos ≠ none) ∧
      (∀ j < i, w.buf[j]? = buf[j]?) ∧
      ∀ j pos, l[j]? = some pos → i + j < buf.length → w.buf[i + j]? = (val pos).or buf[i + j]?
  | [], i, buf, valid, hi, h => by
    refine ⟨_, rfl, ?_, rfl, ?_, fun _ _ => rfl, fun j pos hj => (by simp at hj)⟩
    · simp [hi]
    · simp [hi]
  | pos :: l, i, buf, valid, hi, h => by
    obtain ⟨e, o, last, h1, h2, h3, h4, h5⟩ := h pos (by simp)
    unfold orbitLoop
    rw [h1]
    dsimp only
    by_cases hne : i = buf.length
    · rw [if_pos hne]
      refine ⟨_, rfl, by dsimp only; omega, rfl, ⟨fun hc => (by cases hc), fun hc => ?_⟩, fun _ _ => rfl, fun j p hj hlt => by omega⟩
      have := hc.2.1
      rw [List.length_cons] at this
      omega
    · rw [if_neg hne, h2, Option.bind_some, h3]
      dsimp only
      cases hv : val pos with
      | some x =>
        rw [h4 x hv]
        dsimp only
        obtain ⟨w, b1, b2, b3, b4, b5, b6⟩ := orbitLoop_all val l (i + 1) (buf.set i x) valid (by rw [List.length_set]; omega)
          (fun p hp => h p (by simp [hp]))
        rw [List.length_set] at b2 b3 b4
        refine ⟨w, b1, by rw [b2, List.length_cons]; congr 1; omega, b3, ?_, fun j hj => ?_, fun j p hj hlt => ?_⟩
        · rw [b4, List.length_cons]
          simp only [List.mem_cons, forall_eq_or_imp, hv]
          constructor
          · rintro ⟨c1, c2, c3⟩
            exact ⟨c1, by omega, by simp, c3⟩
          · rintro ⟨c1, c2, -, c3⟩
            exact ⟨c1, by omega, c3⟩
        · rw [b5 j (by omega), List.getElem?_set_ne (by omega)]
        · cases j with
          | zero =>
            cases hj
            rw [Nat.add_zero, b5 i (by omega), List.getElem?_set_self (by omega), hv]
            rfl
          | succ j =>
            have := b6 j p hj (by rw [List.length_set]; omega)
            rw [List.getElem?_set_ne (by omega)] at this
            rw [show i + (j + 1) = i + 1 + j by omega]
            exact this
      | none =>
        rw [h5 hv]
        dsimp only
        obtain ⟨w, b1, b2, b3, b4, b5, b6⟩ := orbitLoop_all val l (i + 1) buf false (by omega) (fun p hp => h p (by simp [hp]))
        refine ⟨w, b1, by rw [b2, List.length_cons]; congr 1; omega, b3, ?_, fun j hj => b5 j (by omega), fun j p hj hlt => ?_⟩
        · rw [b4]
          constructor
          · rintro ⟨c1, -⟩
            cases c1
          · rintro ⟨-, -, c3⟩
            exact absurd hv (c3 pos (by simp))
        · cases j with
          | zero =>
            cases hj
            rw [Nat.add_zero, b5 i (by omega), hv]
            rfl
          | succ j =>
            have := b6 j p hj (by omega)
            rw [show i + (j + 1) = i + 1 + j by omega]
            exact this

/-- **C78**: a waveform without alarm has one entry for every element of its type, in order, and that is the value of the
parameter behind this element in the last simulation, which went through.  Entries behind `nord` are not touched. -/
theorem C78_reading {W : World C X S} {m0 : Machine C X S} {good : S → Prop} {shown : Shown S} (H : Setup W m0 good shown)
    {name : String} {ops : List (Op C)} {q : Ioc C X S} (hq : (Ioc.fresh name m0).runs W ops = some q) {p : Orbit}
    (hp : p ∈ q.orbits) (buf : List ℝ) {w : Wave} (hr : orbitRead W.v q.sim p buf = some w) (ha : w.alarm = false) :
    w.nord = p.elems.length ∧ p.elems.length ≤ buf.length ∧ w.buf.length = buf.length ∧
    (∀ j, p.elems.length ≤ j → w.buf[j]? = buf[j]?) ∧
    (∃ a qa s, LastRun W (Ioc.fresh name m0) ops a qa ∧ W.alloc = .ok s ∧ Through qa s ∧
      ∀ (j i : Nat), p.elems[j]? = some i → ∃ t, (i, t) ∈ behind qa s ∧
        (good t.payload → ∃ x, ValueOf shown t.payload p.param p.dims (.num x) ∧ w.buf[j]? = some x)) := by
  obtain ⟨hw, -, -, -⟩ := runs_wired H ops (wired_fresh H name) hq
  obtain ⟨p2, p3⟩ := hw.orbits p hp
  unfold orbitRead at hr
  obtain ⟨a1, a2, a3, a4, -, a6, a7⟩ := orbitLoop_quiet _ _ _ _ hr ha (Nat.zero_le _)
  rw [Nat.zero_add] at a2
  rw [a2] at a6 a3
  have hv := a1
  refine ⟨a2, a3, a4, a6, ?_⟩
  have hsim : .simulate ∈ ops := by
    by_contra hc
    rw [no_run H hq hc] at hv
    cases hv
  obtain ⟨a, qa, hl⟩ := last_exists hq hsim
  obtain ⟨h1, h2⟩ := after_last H hq hl
  obtain ⟨s, s1, s2⟩ := h1 hv
  obtain ⟨-, -, h3⟩ := h2 s s1 s2
  refine ⟨a, qa, s, hl, s1, s2, fun j i hj => ?_⟩
  obtain ⟨e, o, last, x, e1, e2, e3, e4, e5⟩ := a7 j i hj
  rw [(hw.sound.idx i e e1).1] at e2
  cases last with
  | none => simp [fetch] at e4
  | some l =>
    obtain ⟨t, t1, t2⟩ := h3 i o l e2 e3
    refine ⟨t, t2, fun hg => ⟨x, ?_, by rw [Nat.zero_add] at e5; exact e5⟩⟩
    rw [← t1] at hg ⊢
    rcases fetch_value H.shows p3 l hg with ⟨y, y1, y2⟩ | ⟨-, y2⟩
    · rw [y2] at e4
      cases e4
      exact y1
    · rw [y2] at e4
      cases e4

/-- **C78**: if the last simulation went through and the waveform was connected before, it has as many entries as elements of
its type, or as there is room for; entry `j` is the value of the parameter behind the `j`-th element, or what it was before if
there is no such value.  There is an alarm if and only if there is no room for all, or a value is missing. -/
theorem C78_shows {W : World C X S} {m0 : Machine C X S} {good : S → Prop} {shown : Shown S} (H : Setup W m0 good shown)
    {name : String} {ops a : List (Op C)} {q qa : Ioc C X S} (hq : (Ioc.fresh name m0).runs W ops = some q)
    (hl : LastRun W (Ioc.fresh name m0) ops a qa) {p : Orbit} (hp : p ∈ qa.orbits) (buf : List ℝ) {s : S} (hs : W.alloc = .ok s)
    (ht : Through qa s) (hg : ∀ i t, (i, t) ∈ behind qa s → good t.payload) :
    ∃ w, orbitRead W.v q.sim p buf = some w ∧ w.nord = min p.elems.length buf.length ∧ w.buf.length = buf.length ∧
      (w.alarm = true ↔ buf.length < p.elems.length ∨
        ∃ i ∈ p.elems, ∃ t, (i, t) ∈ behind qa s ∧ ∀ c, ¬ ValueOf shown t.payload p.param p.dims c) ∧
      ∀ j i t, p.elems[j]? = some i → j < buf.length → (i, t) ∈ behind qa s →
        (∀ c, ValueOf shown t.payload p.param p.dims c → ∃ x, c = .num x ∧ w.buf[j]? = some x) ∧
        ((∀ c, ¬ ValueOf shown t.payload p.param p.dims c) → w.buf[j]? = buf[j]?) := by
  classical
  obtain ⟨hwa, -, -, -⟩ := runs_wired H a (wired_fresh H name) hl.start
  obtain ⟨hw, -, -, -⟩ := runs_wired H ops (wired_fresh H name) hq
  obtain ⟨p2, p3⟩ := hwa.orbits p hp
  obtain ⟨hv, h2, h3⟩ := (after_last H hq hl).2 s hs ht
  have hn : ((behind qa s).map (·.1)).Nodup := by rw [show _ = _ from ht]; exact List.nodup_range
  have uniq : ∀ {i t t'}, (i, t) ∈ behind qa s → (i, t') ∈ behind qa s → t = t' := by
    intro i t t' h h'
    have := List.inj_on_of_nodup_map hn h h' rfl
    cases this
    rfl
  have kept : ∀ i o, qa.sim.measures i = some o → q.sim.measures i = some o := by
    obtain ⟨b, hb, -⟩ := hl.split
    rw [hb, runs_append, hl.start, Option.bind_some] at hq
    exact (runs_wired H _ hwa hq).2.2.1
  have each : ∀ i ∈ p.elems, ∃ t, (i, t) ∈ behind qa s ∧ ∃ o last, q.sim.measures i = some o ∧ q.sim.seen[o]? = some last ∧
      ((∃ x, ValueOf shown t.payload p.param p.dims (.num x) ∧ fetch W.v last p.paramIndex p.dims = .value x) ∨
       ((∀ c, ¬ ValueOf shown t.payload p.param p.dims c) ∧ fetch W.v last p.paramIndex p.dims = .nothing)) := by
    intro i hi
    obtain ⟨o, ho⟩ := Option.isSome_iff_exists.1 (p2 i hi).2
    obtain ⟨l, t, l1, l2, l3⟩ := h2 i o ho
    refine ⟨t, l3, o, some l, kept i o ho, l1, ?_⟩
    rw [← l2]
    exact fetch_value H.shows p3 l (by rw [l2]; exact hg i t l3)
  obtain ⟨val, hval⟩ : ∃ val : Nat → Option ℝ, ∀ i ∈ p.elems, ∃ t, (i, t) ∈ behind qa s ∧ ∃ o last, q.sim.measures i = some o ∧
      q.sim.seen[o]? = some last ∧
      ((∃ x, val i = some x ∧ ValueOf shown t.payload p.param p.dims (.num x) ∧ fetch W.v last p.paramIndex p.dims = .value x) ∨
       (val i = none ∧ (∀ c, ¬ ValueOf shown t.payload p.param p.dims c) ∧ fetch W.v last p.paramIndex p.dims = .nothing)) := by
    have : ∀ i, ∃ y : Option ℝ, i ∈ p.elems → ∃ t, (i, t) ∈ behind qa s ∧ ∃ o last, q.sim.measures i = some o ∧
      q.sim.seen[o]? = some last ∧
      ((∃ x, y = some x ∧ ValueOf shown t.payload p.param p.dims (.num x) ∧ fetch W.v last p.paramIndex p.dims = .value x) ∨
       (y = none ∧ (∀ c, ¬ ValueOf shown t.payload p.param p.dims c) ∧ fetch W.v last p.paramIndex p.dims = .nothing)) := by
      intro i
      by_cases hi : i ∈ p.elems
      · obtain ⟨t, t1, o, last, o1, o2, ⟨x, x1, x2⟩ | ⟨x1, x2⟩⟩ := each i hi
        · exact ⟨some x, fun _ => ⟨t, t1, o, last, o1, o2, .inl ⟨x, rfl, x1, x2⟩⟩⟩
        · exact ⟨none, fun _ => ⟨t, t1, o, last, o1, o2, .inr ⟨rfl, x1, x2⟩⟩⟩
      · exact ⟨none, fun h => absurd h hi⟩
    choose val hval using this
    exact ⟨val, hval⟩
  obtain ⟨w, w1, w2, w3, w4, -, w6⟩ := orbitLoop_all (v := W.v) (q := q.sim) (k := p.paramIndex) (dims := p.dims) val p.elems 0 buf
    q.sim.valid (Nat.zero_le _) (fun pos hpos => by
      obtain ⟨t, -, o, last, o1, o2, h⟩ := hval pos hpos
      obtain ⟨e, he⟩ : ∃ e, q.sim.m.elems[pos]? = some e :=
        ⟨_, List.getElem?_eq_getElem (by rw [hw.sound.len]; exact (p2 pos hpos).1)⟩
      refine ⟨e, o, last, he, by rw [(hw.sound.idx pos e he).1]; exact o1, o2, fun x hx => ?_, fun hx => ?_⟩
      · rcases h with ⟨y, y1, -, y2⟩ | ⟨y1, -⟩
        · rw [y1] at hx
          cases hx
          exact y2
        · rw [y1] at hx
          cases hx
      · rcases h with ⟨y, y1, -⟩ | ⟨-, -, y2⟩
        · rw [y1] at hx
          cases hx
        · exact y2)
  rw [Nat.zero_add] at w2 w4
  refine ⟨w, w1, w2, w3, ?_, fun j i t hj hlt hit => ?_⟩
  · rw [← Bool.not_eq_false, w4, hv]
    constructor
    · intro hc
      by_contra hcc
      rw [not_or, not_lt] at hcc
      refine hc ⟨rfl, hcc.1, fun i hi => ?_⟩
      obtain ⟨t, t1, o, last, -, -, ⟨x, x1, -⟩ | ⟨-, x2, -⟩⟩ := hval i hi
      · rw [x1]
        simp
      · exact absurd ⟨i, hi, t, t1, x2⟩ hcc.2
    · rintro hc ⟨-, c2, c3⟩
      rcases hc with hc | ⟨i, hi, t, ht1, ht2⟩
      · omega
      · obtain ⟨t', t1, o, last, -, -, ⟨x, -, x2, -⟩ | ⟨x1, -⟩⟩ := hval i hi
        · rw [uniq t1 ht1] at x2
          exact ht2 _ x2
        · exact c3 i hi x1
  · have hi := List.mem_of_getElem? hj
    have h6 := w6 j i hj (by omega)
    rw [Nat.zero_add] at h6
    obtain ⟨t', t1, o, last, -, -, h⟩ := hval i hi
    rw [uniq t1 hit] at h
    rcases h with ⟨x, x1, x2, -⟩ | ⟨x1, x2, -⟩
    · refine ⟨fun c hc => ⟨x, valueOf_unique H.shows hc x2, by rw [h6, x1]; rfl⟩, fun hno => absurd x2 (hno _)⟩
    · exact ⟨fun c hc => absurd hc (x2 c), fun _ => by rw [h6, x1]; rfl⟩

/-- **C78**: before the first simulation, and after one that did not go through, a waveform has an alarm. -/
theorem C78_alarm {W : World C X S} {m0 : Machine C X S} {good : S → Prop} {shown : Shown S} (H : Setup W m0 good shown)
    {name : String} {ops : List (Op C)} {q : Ioc C X S} (hq : (Ioc.fresh name m0).runs W ops = some q)
    (h : .simulate ∉ ops ∨ ∃ a qa, LastRun W (Ioc.fresh name m0) ops a qa ∧ ∀ s, W.alloc = .ok s → ¬ Through qa s)
    (p : Orbit) (buf : List ℝ) {w : Wave} (hr : orbitRead W.v q.sim p buf = some w) : w.alarm = true := by
  have hv : q.sim.valid = false := by
    rcases h with h | ⟨a, qa, hl, hs⟩
    · exact no_run H hq h
    · by_contra hc
      rw [Bool.not_eq_false] at hc
      obtain ⟨s, s1, s2⟩ := (after_last H hq hl).1 hc
      exact hs s s1 s2
  by_contra hc
  rw [Bool.not_eq_true] at hc
  have := (orbitLoop_quiet _ _ _ _ hr hc (Nat.zero_le _)).1
  rw [hv] at this
  cases this

theorem indexLoop_all {q : Sim C X S} : ∀ (l : List Nat) (i : Nat) (buf : List ℝ), i ≤ buf.length →
    (∀ pos ∈ l, ∃ e, q.m.elems[pos]? = some e ∧ e.index = pos) →
    ∃ w, indexLoop q l i buf = some w ∧ w.nord = min (i + l.length) buf.length ∧ w.buf.length = buf.length ∧
      (w.alarm = true ↔ buf.length < i + l.length) ∧ (∀ j < i, w.buf[j]? = buf[j]?) ∧
      ∀ (j pos : Nat), l[j]? = some pos → i + j < buf.length → w.buf[i + j]? = some (pos : ℝ)
  | [], i, buf, hi, h => ⟨_, rfl, by simp [hi], rfl, by simp [hi], fun _ _ => rfl, fun j pos hj => (by simp at hj)⟩
  | pos :: l, i, buf, hi, h => by
    obtain ⟨e, h1, h2⟩ := h pos (by simp)
    unfold indexLoop
    by_cases hne : i = buf.length
    · rw [if_pos hne]
      exact ⟨_, rfl, by dsimp only; omega, rfl, by simp [hne], fun _ _ => rfl, fun j p hj hlt => by omega⟩
    · rw [if_neg hne, h1]
      dsimp only
      obtain ⟨w, b1, b2, b3, b4, b5, b6⟩ := indexLoop_all l (i + 1) (buf.set i (e.index : ℝ)) (by rw [List.length_set]; omega)
        (fun p hp => h p (by simp [hp]))
      rw [List.length_set] at b2 b3 b4
      refine ⟨w, b1, by rw [b2, List.length_cons]; congr 1; omega, b3, by rw [b4, List.length_cons]; omega, fun j hj => ?_,
        fun j p hj hlt => ?_⟩
      · rw [b5 j (by omega), List.getElem?_set_ne (by omega)]
      · cases j with
        | zero =>
          cases hj
          rw [Nat.add_zero, b5 i (by omega), List.getElem?_set_self (by omega), h2]
        | succ j =>
          have := b6 j p hj (by rw [List.length_set]; omega)
          rw [show i + (j + 1) = i + 1 + j by omega]
          exact this

/-- **C78**: the waveform of positions has the index of the `j`-th element of the type as entry `j`; there is an alarm if and
only if there is no room for all. -/
theorem C78_indices {W : World C X S} {m0 : Machine C X S} {good : S → Prop} {shown : Shown S} (H : Setup W m0 good shown)
    {name : String} {ops : List (Op C)} {q : Ioc C X S} (hq : (Ioc.fresh name m0).runs W ops = some q) {p : Orbit}
    (hp : p ∈ q.orbits) (buf : List ℝ) :
    ∃ w, indexRead q.sim p buf = some w ∧ w.nord = min p.elems.length buf.length ∧
      (w.alarm = true ↔ buf.length < p.elems.length) ∧
      ∀ (j i : Nat), p.elems[j]? = some i → j < buf.length → w.buf[j]? = some (i : ℝ) := by
  obtain ⟨hw, -, -, -⟩ := runs_wired H ops (wired_fresh H name) hq
  obtain ⟨p2, -⟩ := hw.orbits p hp
  obtain ⟨w, w1, w2, -, w4, -, w6⟩ := indexLoop_all (q := q.sim) p.elems 0 buf (Nat.zero_le _) (fun pos hpos => by
    obtain ⟨e, he⟩ : ∃ e, q.sim.m.elems[pos]? = some e :=
      ⟨_, List.getElem?_eq_getElem (by rw [hw.sound.len]; exact (p2 pos hpos).1)⟩
    exact ⟨e, he, (hw.sound.idx pos e he).1⟩)
  rw [Nat.zero_add] at w2 w4
  refine ⟨w, w1, w2, w4, fun j i hj hlt => ?_⟩
  have := w6 j i hj (by omega)
  rw [Nat.zero_add] at this
  exact this

end Flame.Vaccel
