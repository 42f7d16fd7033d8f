import Verif.Whole.Spec
import Verif.Whole.Transfer
import Verif.Glps.PropsPrint
import Verif.Glps.PropsFill
import Verif.Machine.Props
import Verif.Cavity.Pass

/-! # C90: what is simulated is what was written -/

namespace Flame.Whole

open Flame.Glps (Name CV Cf Val File IsCfgs IsMap IsElem Result Selected Runs Text Arith parseText glpsPrint AllPrint LabelsClear
  parse_iff parsed_printable printable_parse plain_find plainPart reread IsKw Outcome)
open Flame.Linear (LCfg LVal)
open Flame.Linear.Spec (passed)
open Flame.Python (cfView)
open Flame.Mach
open Flame.Moment (MDat MSt Env Mat registry stripperCls)
open Flame.Moment.Spec (lengthOf)
open Flame.Cavity (Files cavityCls C30_moment_full)
open Spec

variable {N X S : Type}

/-- The strings of a configuration of lookups; its elements are given. -/
def lview (es : List LCfg) : CView LCfg where
  str c k := match c k with
    | some (.str s) => .ok s
    | _ => .error .keyError
  elems _ := .ok es

theorem key_ne {k : String} {l : String} (h : k ≠ l) : k.toList ≠ l.toList := fun h' => h (String.toList_inj.1 h')

theorem lview_str (val : N → ℝ) (es : List LCfg) (c : Cf N) {k : String} (hk : k ≠ "elements") :
    cfView.str c k = (lview es).str (asL val c) k := by
  unfold cfView lview asL
  dsimp only
  rw [if_neg hk]
  cases c.look k.toList with
  | none => rfl
  | some v => cases v <;> rfl

/-- The machine of a configuration and that of what its elements see of it. -/
theorem machine_both (val : N → ℝ) (w : World LCfg X S) {c : Cf N} {es : List (Cf N)}
    (h : c.look "elements".toList = some (.cfgs es)) :
    Both (SameMach (asL val)) (Machine.new cfView (overWorld (asL val) w) c)
      (Machine.new (lview (es.map (asL val))) w (asL val c)) := by
  refine new_both (es := es) ?_ rfl (lview_str val _ c (by decide))
    fun ec _ => ⟨lview_str val _ ec (by decide), lview_str val _ ec (by decide)⟩
  unfold cfView
  dsimp only
  rw [h]

theorem Same.type {C C' : Type} {f : C' → C} {e' : Elem C' X S} {e : Elem C X S} (h : Same f e' e) :
    e'.cls.typeName = e.cls.typeName := by
  rw [h.cls]
  rfl

theorem map_same {C C' β : Type} {f : C' → C} {g' : Elem C' X S → β} {g : Elem C X S → β}
    (hg : ∀ e' e, Same f e' e → g' e' = g e) {els' : List (Elem C' X S)} {els : List (Elem C X S)}
    (h : List.Forall₂ (Same f) els' els) : els'.map g' = els.map g := by
  induction h with
  | nil => rfl
  | cons hh _ ih => rw [List.map_cons, List.map_cons, ih, hg _ _ hh]

theorem propagate_same {C C' : Type} {f : C' → C} {els' : List (Elem C' X S)} {els : List (Elem C X S)}
    (h : List.Forall₂ (Same f) els' els) (s : St S) (start : Nat) (max : Int) :
    (propagate els' s start max).map (fun r => (r.st, r.err, r.trace)) =
      (propagate els s start max).map (fun r => (r.st, r.err, r.trace)) := by
  by_cases hm : max = -2 ^ 31
  · subst hm
    rfl
  · rw [propagate_eq els' s start max hm, propagate_eq els s start max hm]
    obtain ⟨r1, r2, r3, -⟩ := run_same max.natAbs _ _ { s with nextElem := start, retreat := decide (max < 0) } h
    dsimp only [Option.map_some]
    rw [r1, r2, r3]

/-- Two machines that are the same as a third one. -/
theorem alike {val : N → ℝ} {m m' : Machine (Cf N) X S} {q : Machine LCfg X S} (h : SameMach (asL val) m q)
    (h' : SameMach (asL val) m' q) : Alike m m' where
  simtype := by rw [h.simtype, h'.simtype]
  names := by
    rw [map_same (g := (·.name)) (fun _ _ h => h.name) h.elems, map_same (g := (·.name)) (fun _ _ h => h.name) h'.elems]
  types := by
    rw [map_same (g := (·.cls.typeName)) (fun _ _ h => h.type) h.elems,
      map_same (g := (·.cls.typeName)) (fun _ _ h => h.type) h'.elems]
  results s start max := by rw [propagate_same h.elems, propagate_same h'.elems]

/-! ## parameters -/

theorem seen_reads (val : N → ℝ) {v : Val N} {x : CV N} (h : v.toCV = some x) : Reads val v (seen val x) := by
  cases v <;> simp only [Val.toCV, Option.some.injEq, reduceCtorEq] at h <;> subst h <;> constructor

/-- The variables of a file are no beamlines. -/
theorem vars_plain {a : Arith N} {f f' : File N} {ss : List (Flame.Glps.Stmt N)} (h : Runs a f ss f')
    (hf : ∀ p ∈ f.vars, p.2.toCV ≠ none) : ∀ p ∈ f'.vars, p.2.toCV ≠ none := by
  induction h with
  | nil => exact hf
  | cons hd _ ih =>
    apply ih
    cases hd with
    | @assign n e v hv hl hn =>
      intro p hp
      rcases List.mem_append.1 hp with hp | hp
      · exact hf p hp
      · rw [List.mem_singleton] at hp
        subst hp
        dsimp only
        cases v with
        | line l => exact absurd rfl (hl l)
        | _ => simp [Val.toCV]
    | _ => exact hf

theorem ofVars_plain (m : SMap Name (CV N)) : ∀ p ∈ (File.ofVars m).vars, p.2.toCV ≠ none := by
  intro p hp
  unfold File.ofVars at hp
  dsimp only at hp
  rw [List.mem_filterMap] at hp
  obtain ⟨⟨k, v⟩, -, hq⟩ := hp
  cases v <;> simp only [Option.some.injEq, reduceCtorEq] at hq <;> subst hq <;> simp [Val.toCV]

theorem mem_of_lookup {β : Type} {k : Name} : ∀ {l : List (Name × β)} {v : β}, l.lookup k = some v → ∃ p ∈ l, p.2 = v
  | [], _, h => by cases h
  | (k', v') :: l, v, h => by
    rw [List.lookup_cons] at h
    split at h
    · cases h
      exact ⟨_, List.mem_cons_self .., rfl⟩
    · obtain ⟨p, hp, rfl⟩ := mem_of_lookup h
      exact ⟨p, List.mem_cons_of_mem _ hp, rfl⟩

theorem written_of {val : N → ℝ} {f : File N} (hf : ∀ p ∈ f.vars, p.2.toCV ≠ none) {n : Name} {e : Cf N} (h : IsElem f n e) :
    ∃ t qs, (n, t, qs) ∈ f.elems ∧ Written val f n t qs (asL val e) ∧ cfView.str e "name" = .ok (String.ofList n) ∧
      cfView.str e "type" = .ok (String.ofList t) := by
  obtain ⟨hinh, t, qs, hm, hq, hown⟩ := h
  have own : ∀ k, e.own.find k = if k = "name".toList then some (.str n)
      else if k = "type".toList then some (.str t) else (List.lookup k qs).bind Val.toCV := hown.2
  have hname : e.look "name".toList = some (.str n) := by
    unfold Cf.look
    rw [own, if_pos rfl]
  have htype : e.look "type".toList = some (.str t) := by
    unfold Cf.look
    rw [own, if_neg (by decide), if_pos rfl]
  refine ⟨t, qs, hm, ⟨?_, ?_, ?_, ?_⟩, ?_, ?_⟩
  · unfold asL
    rw [if_neg (by decide), hname]
    rfl
  · unfold asL
    rw [if_neg (by decide), htype]
    rfl
  · intro k v h1 h2 h3 hv
    have hx : ∃ x, v.toCV = some x := by
      have := hq _ _ hv
      cases hx : v.toCV with
      | none => exact absurd hx this
      | some x => exact ⟨x, rfl⟩
    obtain ⟨x, hx⟩ := hx
    refine ⟨seen val x, ?_, seen_reads val hx⟩
    unfold asL Cf.look
    rw [if_neg h3, own, if_neg (key_ne h1), if_neg (key_ne h2), hv]
    show Option.map _ (match v.toCV with | some v => some v | none => _) = _
    rw [hx]
    rfl
  · intro k h1 h2 h3 hv
    have : asL val e k = (f.var k.toList).map (seen val) := by
      unfold asL Cf.look
      rw [if_neg h3, own, if_neg (key_ne h1), if_neg (key_ne h2), hv, ← hinh.2]
      rfl
    rw [this]
    unfold File.var
    cases hl : f.vars.lookup k.toList with
    | none => exact trivial
    | some v =>
      obtain ⟨p, hp, rfl⟩ := mem_of_lookup hl
      cases hx : p.2.toCV with
      | none => exact absurd hx (hf p hp)
      | some x =>
        show ReadsOpt val (some p.2) (Option.map (seen val) (p.2.toCV))
        rw [hx]
        exact seen_reads val hx
  · unfold cfView
    dsimp only
    rw [hname]
  · unfold cfView
    dsimp only
    rw [htype]

/-- C90: a machine built from the text of a lattice has one element for each member of the beamline that is used, in order.  Element `i` has
the label of member `i` as its name, is of the class registered for its type, and was made from the parameters that are written.  It
is run by this class, and also reconfigured by it. -/
theorem C90_written (a : Arith N) (strtod : Name → Option N) (val : N → ℝ) (vars : SMap Name (CV N)) (hv : SMap.Sorted vars)
    (w : World LCfg X S) (text : Name) (c : Cf N) (h : parseText a strtod vars text true = .ok c) (m : Machine (Cf N) X S)
    (hm : Machine.new cfView (overWorld (asL val) w) c = .ok m) :
    ∃ ss f label ns, Text strtod text ss ∧ Runs a (File.ofVars vars) ss f ∧ Selected f label ns ∧
      f.vars.lookup "sim_type".toList = some (.str m.simtype.toList) ∧ m.elems.length = ns.length ∧
      ∀ (i : Nat) (n : Name), ns[i]? = some n → ∃ e k p t qs, m.elems[i]? = some e ∧ (n, t, qs) ∈ f.elems ∧
        e.name = String.ofList n ∧ e.cls.typeName = String.ofList t ∧ Registered w m.simtype (String.ofList t) k ∧
        Written val f n t qs p ∧ k.build p = .ok e.dat ∧ (∀ d s, e.cls.advance d s = k.advance d s) ∧
        (∀ d d', e.cls.assign d d' = k.assign d d') ∧ ∀ q, e.cls.build q = k.build (asL val q) := by
  obtain ⟨ss, f, ht, hr, hres⟩ := (parse_iff a strtod vars hv text true c).1 h
  have hf := vars_plain hr (ofVars_plain vars)
  cases hres with
  | @lattice own label ns es hs hn he hmap =>
    obtain ⟨-, -, h1, h2, es', h3, h4, h5⟩ := new_ok hm
    have hmap : ∀ k, own.find k = if k = "elements".toList then some (.cfgs es)
        else if k = "name".toList then some (.str label) else f.var k := hmap.2
    have hlook : (Cf.mk own []).look "elements".toList = some (.cfgs es) := by
      unfold Cf.look
      show (match own.find _ with | some v => some v | none => _) = _
      rw [hmap, if_pos rfl]
    have hes : es' = es := by
      unfold cfView at h3
      dsimp only at h3
      rw [hlook] at h3
      exact (Except.ok.inj h3).symm
    subst hes
    refine ⟨ss, f, label, ns, ht, hr, hs, ?_, by rw [h4, he.length_eq], ?_⟩
    · have hl : (Cf.mk own []).look "sim_type".toList = f.var "sim_type".toList := by
        unfold Cf.look
        show (match own.find _ with | some v => some v | none => _) = _
        rw [hmap, if_neg (by decide), if_neg (by decide)]
        cases f.var "sim_type".toList with
        | none => rfl
        | some v => rfl
      unfold cfView at h1
      dsimp only at h1
      rw [hl] at h1
      unfold File.var at h1
      cases hq : f.vars.lookup "sim_type".toList with
      | none => rw [hq] at h1; cases h1
      | some v =>
        rw [hq] at h1
        cases v with
        | str s =>
          have : String.ofList s = m.simtype := Except.ok.inj h1
          rw [← this, String.toList_ofList]
        | num x => cases h1
        | vec x => cases h1
        | line x => cases h1
        | conf x => cases h1
    · intro i n hi
      obtain ⟨ec, hec, hel⟩ : ∃ ec, es'[i]? = some ec ∧ IsElem f n ec := by
        have hlt := (List.getElem?_eq_some_iff.1 hi).1
        have hlt' : i < es'.length := by rw [← he.length_eq]; exact hlt
        refine ⟨_, List.getElem?_eq_getElem hlt', ?_⟩
        have := (List.forall₂_iff_get.1 he).2 i hlt hlt'
        rw [List.getElem?_eq_getElem hlt] at hi
        cases hi
        exact this
      obtain ⟨t, qs, k1, k2, k3, k4⟩ := written_of (val := val) hf hel
      obtain ⟨hlt, hec'⟩ := List.getElem?_eq_some_iff.1 hec
      have he' : m.elems[i]? = some m.elems[i] := List.getElem?_eq_getElem (by omega)
      obtain ⟨p, k, hp, hk, hmade⟩ := h5 i hlt _ he'
      rw [hec'] at hmade
      rw [deref_over, Option.map_eq_some_iff] at hk
      obtain ⟨k0, hk0, rfl⟩ := hk
      have hty : m.elems[i].cls.typeName = String.ofList t := Except.ok.inj (hmade.type.symm.trans k4)
      refine ⟨_, k0, asL val ec, t, qs, he', k1, Except.ok.inj (hmade.name.symm.trans k3), hty, ?_, k2, hmade.dat, ?_⟩
      · exact ⟨m.info, p, h2, by rw [← hty]; exact hp, hk0⟩
      · rw [hmade.cls]
        exact ⟨fun d s => rfl, fun d d' => rfl, fun q => rfl⟩

/-! ## lengths -/

theorem ofList_eq {t : Name} {l : String} : String.ofList t = l ↔ t = l.toList := by
  constructor
  · rintro rfl
    rw [String.toList_ofList]
  · rintro rfl
    rw [String.ofList_toList]

theorem long_of {val : N → ℝ} {f : File N} {n t : Name} {qs : List (Name × Val N)} {p : LCfg} (h : (n, t, qs) ∈ f.elems)
    (hp : Written val f n t qs p) : Long val f n (lengthOf (String.ofList t) p) := by
  unfold lengthOf
  simp only [ofList_eq]
  by_cases ht : t = "marker".toList ∨ t = "bpm".toList ∨ t = "orbtrim".toList ∨ t = "stripper".toList
  · rw [if_pos ht]
    exact .thin h ht
  · rw [if_neg ht]
    have ht : t ≠ "marker".toList ∧ t ≠ "bpm".toList ∧ t ≠ "orbtrim".toList ∧ t ≠ "stripper".toList := by tauto
    cases hq : qs.lookup "L".toList with
    | some v =>
      obtain ⟨x, hx, hr⟩ := hp.property "L" v (by decide) (by decide) (by decide) hq
      rw [hx]
      cases hr with
      | num x => exact .property h ht hq
      | vec x => exact .nothing h ht (by rw [hq]; simp) (.inl (by rw [hq]; simp))
      | str x => exact .nothing h ht (by rw [hq]; simp) (.inl (by rw [hq]; simp))
      | conf x => exact .nothing h ht (by rw [hq]; simp) (.inl (by rw [hq]; simp))
    | none =>
      have hr := hp.inherited "L" (by decide) (by decide) (by decide) hq
      generalize hx : p "L" = x at hr
      cases hl : f.vars.lookup "L".toList with
      | none =>
        rw [hl] at hr
        cases x with
        | some x => exact hr.elim
        | none => exact .nothing h ht (by rw [hq]; simp) (.inr (by rw [hl]; simp))
      | some v =>
        rw [hl] at hr
        cases x with
        | none => exact hr.elim
        | some x =>
          cases hr with
          | num x => exact .inherited h ht hq hl
          | vec x => exact .nothing h ht (by rw [hq]; simp) (.inr (by rw [hl]; simp))
          | str x => exact .nothing h ht (by rw [hq]; simp) (.inr (by rw [hl]; simp))
          | conf x => exact .nothing h ht (by rw [hq]; simp) (.inr (by rw [hl]; simp))

/-- The type that is looked up. -/
def typeAt (p : LCfg) : String :=
  match p "type" with
  | some (.str s) => s
  | _ => ""

theorem zip_lengths (es : List LCfg) : ∀ {l : List LCfg} {tys : List String},
    List.Forall₂ (fun ec ty => (lview es).str ec "type" = .ok ty) l tys →
    List.zipWith lengthOf tys l = l.map (fun p => lengthOf (typeAt p) p)
  | _, _, .nil => rfl
  | p :: l, ty :: tys, .cons h ht => by
    rw [List.zipWith_cons_cons, List.map_cons, zip_lengths es ht]
    have : typeAt p = ty := by
      unfold lview at h
      dsimp only at h
      unfold typeAt
      split at h
      · exact Except.ok.inj h
      · cases h
    rw [this]

/-- C90, lengths: the moment simulation of a lattice without sources moves the position by the lengths that are written for the members of
the beamline in the range that is passed, backward with the opposite sign. -/
theorem C90_position (a : Arith N) (strtod : Name → Option N) (val : N → ℝ) (vars : SMap Name (CV N)) (hv : SMap.Sorted vars)
    {env : Env} {files : Files} {junk : Mat} {base : Nat} (text : Name) (c : Cf N) (h : parseText a strtod vars text true = .ok c)
    (m : Machine (Cf N) MDat MSt)
    (hm : Machine.new cfView
      (overWorld (asL val) (registry env junk base (cavityCls env files junk base) (stripperCls env junk base))) c = .ok m) :
    ∃ ss f label ns lengths, Text strtod text ss ∧ Runs a (File.ofVars vars) ss f ∧ Selected f label ns ∧
      List.Forall₂ (Long val f) ns lengths ∧
      ((∀ e ∈ m.elems, e.cls.typeName ≠ "source") → m.elems.length < sizeMod →
        ∀ (s : St MSt) (start : Nat) (max : Int), max ≠ -2 ^ 31 → ∃ r, propagate m.elems s start max = some r ∧
          (r.err = none → r.st.payload.pos = s.payload.pos + (if 0 ≤ max then 1 else -1) * (passed lengths start max).sum)) := by
  obtain ⟨ss, f, ht, hr, hres⟩ := (parse_iff a strtod vars hv text true c).1 h
  have hf := vars_plain hr (ofVars_plain vars)
  cases hres with
  | @lattice own label ns es hs hn he hmap =>
    have hmap : ∀ k, own.find k = if k = "elements".toList then some (.cfgs es)
        else if k = "name".toList then some (.str label) else f.var k := hmap.2
    have hlook : (Cf.mk own []).look "elements".toList = some (.cfgs es) := by
      unfold Cf.look
      show (match own.find _ with | some v => some v | none => _) = _
      rw [hmap, if_pos rfl]
    have hboth := machine_both val (registry env junk base (cavityCls env files junk base) (stripperCls env junk base)) hlook
    rw [hm] at hboth
    generalize hnew : Machine.new (lview (es.map (asL val)))
      (registry env junk base (cavityCls env files junk base) (stripperCls env junk base)) (asL val (Cf.mk own [])) = x at hboth
    cases hboth with
    | @ok _ ml hsame =>
      refine ⟨ss, f, label, ns, (es.map (asL val)).map (fun p => lengthOf (typeAt p) p), ht, hr, hs, ?_, ?_⟩
      · rw [List.map_map]
        rw [List.forall₂_map_right_iff]
        refine he.imp ?_
        intro n e hel
        obtain ⟨t, qs, k1, k2, -, -⟩ := written_of (val := val) hf hel
        have := long_of k1 k2
        have hty : typeAt (asL val e) = String.ofList t := by
          unfold typeAt
          rw [k2.type]
        show Long val f n (lengthOf (typeAt (asL val e)) (asL val e))
        rw [hty]
        exact this
      · intro hsrc hlen s start max hmax
        obtain ⟨r, h1, h2⟩ := C30_moment_full (lview (es.map (asL val))) _ ml hnew (es.map (asL val)) rfl (by
          intro ec hec hty
          obtain ⟨i, hi, rfl⟩ := List.getElem_of_mem hec
          obtain ⟨-, -, -, -, es', k1, k2, k3⟩ := new_ok hnew
          cases k1
          have hi' : i < ml.elems.length := by rw [k2]; exact hi
          obtain ⟨p, k, -, -, hmade⟩ := k3 i hi _ (List.getElem?_eq_getElem hi')
          rcases same_get hsame.elems i with ⟨-, q2⟩ | ⟨e', e, q1, q2, q3⟩
          · rw [List.getElem?_eq_getElem hi'] at q2
            cases q2
          · rw [List.getElem?_eq_getElem hi'] at q2
            cases q2
            refine hsrc e' (List.mem_of_getElem? q1) ?_
            rw [q3.type]
            exact Except.ok.inj (hmade.type.symm.trans hty)) (by
              obtain ⟨-, -, -, -, es', k1, k2, k3⟩ := new_ok hnew
              cases k1
              rw [← k2, ← hsame.elems.length_eq]
              exact hlen) s start max hmax
        have hp := propagate_same hsame.elems s start max
        rw [h1] at hp
        cases hq : propagate m.elems s start max with
        | none => rw [hq] at hp; cases hp
        | some r' =>
          rw [hq] at hp
          simp only [Option.map_some, Option.some.injEq, Prod.mk.injEq] at hp
          refine ⟨r', rfl, fun hx => ?_⟩
          obtain ⟨tys, h3, h4⟩ := h2 (by rw [← hp.2.1]; exact hx)
          rw [hp.1, h4, zip_lengths _ h3, Linear.passed_map]

/-! ## saving and loading -/

theorem seen_same {own : SMap Name (CV N)} (hs : SMap.Sorted own) {k : Name} (h : ∀ v, own.find k = some v → ¬ IsCfgs v) :
    (plainPart own).find k = own.find k := by
  rw [plain_find hs]
  cases hf : own.find k with
  | none => rfl
  | some v => simp only [if_neg (h v hf)]

/-- C90, saving: the text printed for a lattice describes the same simulation.  It can be parsed; whatever registry of simulations is used,
a machine can be built from what was parsed exactly if it can be built from the lattice itself, otherwise the exception is the same;
and the two machines cannot be told apart by simulations.  The settings for the initial state are the same, too.  Conditions are those
of C17, and that there are no nested configurations. -/
theorem C90_saved (a : Arith N) (strtod : Name → Option N) (fmt : N → Name) (val : N → ℝ) (vars : SMap Name (CV N))
    (hv : SMap.Sorted vars) (hk : ∀ p ∈ vars, IsKw p.1) (text : Name) (c : Cf N)
    (h : parseText a strtod vars text true = .ok c) (hp : AllPrint a strtod fmt c) (hl : LabelsClear c) (hflat : Flat c) :
    ∃ text' c', glpsPrint fmt c = some text' ∧ parseText a strtod [] text' true = .ok c' ∧ asL val c' = asL val c ∧
      ∀ (X S : Type) (w : World LCfg X S),
        Both Alike (Machine.new cfView (overWorld (asL val) w) c) (Machine.new cfView (overWorld (asL val) w) c') := by
  obtain ⟨own, top, es, lname, rfl, hpr, hinh, htop⟩ := parsed_printable hv hk h hp hl
  obtain ⟨text', h1, h2⟩ := printable_parse (inh := []) hpr
  have hlook : (Cf.mk own []).look "elements".toList = some (.cfgs es) := by
    unfold Cf.look
    show (match own.find _ with | some v => some v | none => _) = _
    rw [hpr.elements]
  have hown : ∀ k, k ≠ "elements".toList → (plainPart own).find k = own.find k := by
    intro k hk
    refine seen_same hpr.sorted fun v hv => hflat.1 k v hk ?_
    unfold Cf.look
    show (match own.find _ with | some v => some v | none => _) = _
    rw [hv]
  have htopsame : asL val (reread own es) = asL val (Cf.mk own []) := by
    funext k
    unfold asL
    by_cases hk : k = "elements"
    · rw [if_pos hk, if_pos hk]
    · rw [if_neg hk, if_neg hk]
      congr 1
      unfold reread Cf.look
      simp only [Cf.own, Cf.inh, SMap.find_insert, if_neg (key_ne hk), hown _ (key_ne hk)]
  refine ⟨text', reread own es, h1, h2, htopsame, ?_⟩
  have hlook' : (reread own es).look "elements".toList = some (.cfgs (es.map (fun e => Cf.mk (plainPart e.own) (plainPart own)))) := by
    unfold reread Cf.look
    simp only [Cf.own, SMap.find_insert_self]
  have hes : (es.map (fun e => Cf.mk (plainPart e.own) (plainPart own))).map (asL val) = es.map (asL val) := by
    rw [List.map_map]
    refine List.map_congr_left fun e hme => ?_
    obtain ⟨n, t, hok, -⟩ := hpr.elems e hme
    funext k
    show asL val _ k = asL val e k
    unfold asL
    by_cases hk : k = "elements"
    · rw [if_pos hk, if_pos hk]
    · rw [if_neg hk, if_neg hk]
      congr 1
      have hplain : (plainPart e.own).find k.toList = e.own.find k.toList := by
        refine seen_same hok.sorted fun v hv => hflat.2 es e k.toList v hlook hme (key_ne hk) ?_
        unfold Cf.look
        rw [hv]
      unfold Cf.look
      show (match (plainPart e.own).find _ with | some v => some v | none => (plainPart own).find _) = _
      rw [hplain]
      cases hf : e.own.find k.toList with
      | some v => rfl
      | none =>
        show (plainPart own).find _ = e.inh.find _
        rw [hown _ (key_ne hk), hinh e hme]
        refine htop _ (key_ne hk) fun hn => ?_
        rw [hn, hok.name] at hf
        cases hf
  intro X S w
  have b1 := machine_both val w hlook
  have b2 := machine_both val w hlook'
  rw [htopsame, hes] at b2
  generalize Machine.new (lview (es.map (asL val))) w (asL val (Cf.mk own [])) = q at b1 b2
  generalize Machine.new cfView (overWorld (asL val) w) (Cf.mk own []) = x at b1
  generalize Machine.new cfView (overWorld (asL val) w) (reread own es) = y at b2
  cases b1 with
  | err e => cases b2; exact .err e
  | ub => cases b2; exact .ub
  | ok s1 =>
    cases b2 with
    | ok s2 => exact .ok (alike s1 s2)

/-! ## a case -/

open Flame.Glps (exA exNum exFmt chkCf chkCf_ok Outcome.of_okWith)

/-- A lattice of drifts and a marker, with the length as a property or as a variable. -/
def exText : Name :=
  "sim_type = \"MomentMatrix\"; L = 3; d: drift, L = 2*2; e: drift; m: marker; B: LINE = (d, 2*e, m, d);".toList

/-- The number that is meant. -/
noncomputable def exVal (x : Option Int) : ℝ := (x.getD 0 : ℤ)

/-- A value that is no configuration. -/
def plainVal : CV (Option Int) → Bool
  | .cfgs _ => false
  | _ => true

/-- The entries that the case needs. -/
def exTest (c : Cf (Option Int)) : Bool :=
  chkCf exNum exFmt c && (c.own ++ c.inh).all (fun p => decide (p.1 = "elements".toList) || plainVal p.2) &&
  (match c.look "sim_type".toList with
    | some (.str s) => decide (s = "MomentMatrix".toList)
    | _ => false) &&
  match c.look "elements".toList with
  | some (.cfgs es) => decide (es.length = 5) && es.all (fun e => (e.own ++ e.inh).all (fun p => plainVal p.2) &&
      match e.look "type".toList, e.look "name".toList with
      | some (.str t), some (.str _) => decide (t = "drift".toList ∨ t = "marker".toList)
      | _, _ => false)
  | _ => false

theorem plain_look {c : Cf (Option Int)} {k : Name} {v : CV (Option Int)} (h : c.look k = some v) : (k, v) ∈ c.own ++ c.inh := by
  unfold Cf.look at h
  split at h
  · rename_i hf
    cases h
    exact List.mem_append_left _ (SMap.find_some_mem _ _ _ hf)
  · exact List.mem_append_right _ (SMap.find_some_mem _ _ _ h)

theorem plainVal_ok {v : CV (Option Int)} (h : plainVal v = true) : ¬ IsCfgs v := by
  cases v <;> simp_all [plainVal, IsCfgs]

/-- All hypotheses of `C90_written`, `C90_position` and `C90_saved` hold for this lattice. -/
example (env : Env) (files : Files) (junk : Mat) : ∃ (c : Cf (Option Int)) (m : Machine (Cf (Option Int)) MDat MSt),
    parseText exA exNum [] exText true = .ok c ∧ AllPrint exA exNum exFmt c ∧ LabelsClear c ∧ Flat c ∧
    Machine.new cfView (overWorld (asL exVal) (registry env junk 0 (cavityCls env files junk 0) (stripperCls env junk 0))) c = .ok m ∧
    m.elems.length = 5 ∧ ∀ e ∈ m.elems, e.cls.typeName ≠ "source" := by
  have h : (parseText exA exNum [] exText true).okWith exTest = true := by decide +kernel
  obtain ⟨c, h1, h2⟩ := Outcome.of_okWith h
  unfold exTest at h2
  rw [Bool.and_eq_true, Bool.and_eq_true, Bool.and_eq_true] at h2
  obtain ⟨⟨⟨t1, t2⟩, t3⟩, t4⟩ := h2
  obtain ⟨es, hes⟩ : ∃ es, c.look "elements".toList = some (.cfgs es) := by
    split at t4
    · rename_i es he
      exact ⟨es, he⟩
    · cases t4
  rw [hes] at t4
  obtain ⟨t5, t4⟩ := Bool.and_eq_true_iff.1 t4
  have t4 : ∀ e ∈ es, _ := List.all_eq_true.1 t4
  refine ⟨c, ?_⟩
  obtain ⟨hk, hreg⟩ := Flame.Moment.registered_shipped env junk 0 (cavityCls env files junk 0) (stripperCls env junk 0)
  have hb := machine_both exVal (registry env junk 0 (cavityCls env files junk 0) (stripperCls env junk 0)) hes
  obtain ⟨ml, hml⟩ : ∃ ml, Machine.new (lview (es.map (asL exVal)))
      (registry env junk 0 (cavityCls env files junk 0) (stripperCls env junk 0)) (asL exVal c) = .ok ml := by
    refine (C18_success_iff _ _ _).2 ⟨"MomentMatrix", _, ?_, hk, rfl, ?_⟩
    · unfold lview asL
      dsimp only
      rw [if_neg (by decide)]
      split at t3
      · rename_i s hs
        rw [hs, of_decide_eq_true t3]
        rfl
      · cases t3
    · intro p hp
      obtain ⟨e, hme, rfl⟩ := List.mem_map.1 hp
      have he := t4 e hme
      rw [Bool.and_eq_true] at he
      have he := he.2
      split at he
      · rename_i t n ht hn
        have htype : (lview (es.map (asL exVal))).str (asL exVal e) "type" = .ok (String.ofList t) := by
          unfold lview asL
          dsimp only
          rw [if_neg (by decide), ht]
          rfl
        have hname : (lview (es.map (asL exVal))).str (asL exVal e) "name" = .ok (String.ofList n) := by
          unfold lview asL
          dsimp only
          rw [if_neg (by decide), hn]
          rfl
        rcases of_decide_eq_true he with rfl | rfl
        · exact ⟨_, Flame.Moment.cls env junk 0 .drift, _, _, htype, hreg "drift" _ rfl, rfl, hname, rfl⟩
        · exact ⟨_, Flame.Moment.cls env junk 0 .marker, _, _, htype, hreg "marker" _ rfl, rfl, hname, rfl⟩
      · cases he
  rw [hml] at hb
  generalize hx : Machine.new cfView (overWorld (asL exVal)
    (registry env junk 0 (cavityCls env files junk 0) (stripperCls env junk 0))) c = x at hb
  cases hb with
  | @ok m _ _ =>
    obtain ⟨-, -, -, -, es', k1, k2, k3⟩ := new_ok hx
    have hes' : es' = es := by
      unfold cfView at k1
      dsimp only at k1
      rw [hes] at k1
      exact (Except.ok.inj k1).symm
    subst hes'
    refine ⟨m, h1, (chkCf_ok t1).1, (chkCf_ok t1).2, ⟨fun k v hk hv => ?_, fun es' e k v hes' hme _ hv => ?_⟩, rfl,
      by rw [k2]; exact of_decide_eq_true t5, fun e hme hty => ?_⟩
    · have := List.all_eq_true.1 t2 _ (plain_look hv)
      rw [Bool.or_eq_true] at this
      rcases this with this | this
      · exact absurd (of_decide_eq_true this) hk
      · exact plainVal_ok this
    · rw [hes] at hes'
      cases hes'
      have he := t4 e hme
      rw [Bool.and_eq_true] at he
      exact plainVal_ok (List.all_eq_true.1 he.1 _ (plain_look hv))
    · obtain ⟨i, hi, rfl⟩ := List.getElem_of_mem hme
      obtain ⟨p, k, -, -, hmade⟩ := k3 i (by omega) _ (List.getElem?_eq_getElem hi)
      have he := t4 _ (List.getElem_mem (l := es') (n := i) (by omega))
      rw [Bool.and_eq_true] at he
      have he := he.2
      have hmt := hmade.type
      rw [hty] at hmt
      split at he
      · rename_i t n ht hn
        unfold cfView at hmt
        dsimp only at hmt
        rw [ht] at hmt
        have := ofList_eq.1 (Except.ok.inj hmt)
        subst this
        exact absurd (of_decide_eq_true he) (by decide)
      · cases he

end Flame.Whole
