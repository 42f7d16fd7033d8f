import Verif.Python.Calls
import Verif.Python.CallsSpec
import Verif.Python.PropsConvert
import Verif.Machine.Props
import Verif.Glps.PropsFill

/-!
# C82: calls from Python
-/

namespace Flame.Python

open Flame.Glps (Name CV Cf Arith Exp Means Text IsGap CV.toVal parseText setVar Val)
open Flame.Mach (CView World Machine Elem C21_reconfigure_one_or_nothing)

variable {N X S : Type}

theorem upToNul_cstr (s : Name) : UpToNul s (cstr s) := by
  induction s with
  | nil => exact ⟨by simp [cstr], .inl rfl⟩
  | cons c s ih =>
    by_cases hc : c = '\x00'
    · subst hc
      exact ⟨by simp [cstr], .inr ⟨s, rfl⟩⟩
    · have he : cstr (c :: s) = c :: cstr s := by
        unfold cstr
        rw [List.takeWhile_cons, if_pos (by simpa using hc)]
      rw [he]
      refine ⟨?_, ?_⟩
      · intro h
        rcases List.mem_cons.1 h with h | h
        · exact hc h.symm
        · exact ih.1 h
      · rcases ih.2 with h | ⟨r, h⟩
        · exact .inl (by rw [← h])
        · exact .inr ⟨r, by rw [List.cons_append, ← h]⟩

theorem upToNul_unique {s t : Name} (h : UpToNul s t) : t = cstr s := by
  rcases h.2 with h2 | ⟨r, h2⟩
  · subst h2
    exact (cstr_id h.1).symm
  · have h1 := h.1
    subst h2
    clear h
    induction t with
    | nil => rfl
    | cons c t ih =>
      have hc : (c != '\x00') = true := by simpa using fun h' : c = '\x00' => h1 (h' ▸ List.mem_cons_self ..)
      have := ih (fun h' => h1 (List.mem_cons_of_mem _ h'))
      unfold cstr at this ⊢
      rw [List.cons_append, List.takeWhile_cons, if_pos hc, ← this]

/-- Values of a dictionary for one element: the plain ones, and what is meant by them. -/
theorem convVal_plain (c : Cf N) (v : Py N) (w : CV N) : convVal (list2Config 0) c v = .ok w ↔ Plain v w := by
  unfold Plain Scalar
  cases v with
  | num x =>
    simp only [convVal, Except.ok.injEq]
    exact ⟨fun h => .inl (.inl ⟨x, rfl, h.symm⟩), by
      rintro ((⟨y, h, rfl⟩ | ⟨_, _, h, _⟩) | ⟨_, _, h, _⟩ | ⟨h | h, _⟩) <;> cases h; rfl⟩
  | badNum =>
    simp only [convVal]
    exact ⟨(fun h => nomatch h), by rintro ((⟨y, h, rfl⟩ | ⟨_, _, h, _⟩) | ⟨_, _, h, _⟩ | ⟨h | h, _⟩) <;> cases h⟩
  | arr sh xs =>
    simp only [convVal]
    constructor
    · intro h
      split at h
      · cases h
      · rename_i hs
        cases h
        exact .inr (.inl ⟨sh, xs, rfl, by omega, rfl⟩)
    · rintro ((⟨y, h, rfl⟩ | ⟨_, _, h, _⟩) | ⟨sh', xs', h, hl, rfl⟩ | ⟨h | h, _⟩) <;> cases h
      rw [if_neg (by omega)]
  | badArr =>
    simp only [convVal]
    exact ⟨(fun h => nomatch h), by rintro ((⟨y, h, rfl⟩ | ⟨_, _, h, _⟩) | ⟨_, _, h, _⟩ | ⟨h | h, _⟩) <;> cases h⟩
  | str s =>
    simp only [convVal, Except.ok.injEq]
    constructor
    · rintro rfl
      exact .inl (.inr ⟨s, _, rfl, upToNul_cstr s, rfl⟩)
    · rintro ((⟨y, h, rfl⟩ | ⟨s', t, h, ht, rfl⟩) | ⟨_, _, h, _⟩ | ⟨h | h, _⟩) <;> cases h
      rw [upToNul_unique ht]
  | list l =>
    constructor
    · intro h
      cases l with
      | nil =>
        refine .inr (.inr ⟨.inl rfl, ?_⟩)
        simpa [convVal, convElems, Except.map, eq_comm] using h
      | cons e l =>
        exfalso
        simp only [convVal, convElems] at h
        cases hi : elemItems e with
        | none => rw [hi] at h; cases h
        | some its => rw [hi] at h; cases h
    · rintro ((⟨y, h, rfl⟩ | ⟨_, _, h, _⟩) | ⟨_, _, h, _⟩ | ⟨h | h, rfl⟩) <;> cases h
      rfl
  | tuple l =>
    constructor
    · intro h
      cases l with
      | nil =>
        refine .inr (.inr ⟨.inr rfl, ?_⟩)
        simpa [convVal, convElems, Except.map, eq_comm] using h
      | cons e l =>
        exfalso
        simp only [convVal, convElems] at h
        cases hi : elemItems e with
        | none => rw [hi] at h; cases h
        | some its => rw [hi] at h; cases h
    · rintro ((⟨y, h, rfl⟩ | ⟨_, _, h, _⟩) | ⟨_, _, h, _⟩ | ⟨h | h, rfl⟩) <;> cases h
      rfl
  | dict l =>
    simp only [convVal]
    exact ⟨(fun h => nomatch h), by rintro ((⟨y, h, rfl⟩ | ⟨_, _, h, _⟩) | ⟨_, _, h, _⟩ | ⟨h | h, _⟩) <;> cases h⟩
  | other =>
    simp only [convVal]
    exact ⟨(fun h => nomatch h), by rintro ((⟨y, h, rfl⟩ | ⟨_, _, h, _⟩) | ⟨_, _, h, _⟩ | ⟨h | h, _⟩) <;> cases h⟩

theorem mem_items {d : List (Py N × Py N)} {k : Name} {v : Py N} : pair k v ∈ items d ↔ (.str k, v) ∈ d := by
  unfold items pair
  rw [List.mem_map]
  constructor
  · rintro ⟨⟨p, q⟩, h, he⟩
    simp only [Py.tuple.injEq, List.cons.injEq, and_true] at he
    obtain ⟨rfl, rfl⟩ := he
    exact h
  · intro h
    exact ⟨_, h, rfl⟩

/-- Exactly the plain dictionaries are accepted for one element. -/
theorem items_plain : ∀ (d : List (Py N × Py N)) (c : Cf N),
    (∃ c', convItems (list2Config 0) (items d) c = .ok c') ↔ PlainDict d
  | [], c => ⟨(fun _ p hp => nomatch hp), fun _ => ⟨c, rfl⟩⟩
  | (k, v) :: d, c => by
    rw [show items ((k, v) :: d) = .tuple [k, v] :: items d from rfl, convItems]
    constructor
    · rintro ⟨c', h⟩
      split at h
      · cases h
      · rename_i k' v' hk
        obtain ⟨e1, e2⟩ := parseItem_some hk
        simp only [pair, Py.tuple.injEq, List.cons.injEq, and_true] at e1
        obtain ⟨rfl, rfl⟩ := e1
        split at h
        · cases h
        · rename_i w hw
          intro p hp
          rcases List.mem_cons.1 hp with rfl | hp
          · exact ⟨k', w, rfl, e2, (convVal_plain c v w).1 hw⟩
          · exact (items_plain d _).1 ⟨c', h⟩ p hp
    · intro h
      obtain ⟨k', w, h1, h2, h3⟩ := h (k, v) (List.mem_cons_self ..)
      dsimp only at h1 h3
      subst h1
      have e : parseItem (.tuple [.str k', v]) = some (k', v) := parseItem_pair v h2
      rw [e]
      dsimp only
      rw [(convVal_plain c v w).2 h3]
      exact (items_plain d _).2 (fun p hp => h p (List.mem_cons_of_mem _ hp))

/-- The settings after reading a dictionary, at any depth. -/
theorem look_entry (n : Nat) (d : List (Py N × Py N)) (c c' : Cf N) (h : list2Config n (items d) c = .ok c') :
    (∀ k, (∀ v, (.str k, v) ∉ d) → c'.look k = c.look k) ∧
    ∀ k v, Entry d k v → ∃ w, c'.look k = some w ∧ (∀ w', Plain v w' → w = w') ∧
      (n = 1 → Plain v w) := by
  refine ⟨fun k hk => (C50_values n _ c c' h).1 k (fun v hv => hk v (mem_items.1 hv)), ?_⟩
  rintro k v ⟨a, b, rfl, hb⟩
  cases n with
  | zero => cases h
  | succ n =>
    rw [list2Config] at h
    have hs : items (a ++ (Py.str k, v) :: b) = items a ++ pair k v :: items b := by simp [items, pair]
    rw [hs] at h
    obtain ⟨m, _, h2⟩ := items_append _ _ _ c c' h
    rw [convItems] at h2
    split at h2
    · cases h2
    · rename_i k' v' hk
      obtain ⟨e1, _⟩ := parseItem_some hk
      simp only [pair, Py.tuple.injEq, List.cons.injEq, Py.str.injEq, and_true] at e1
      obtain ⟨rfl, rfl⟩ := e1
      split at h2
      · cases h2
      · rename_i w hw
        obtain ⟨h3, h4⟩ := items_other _ _ _ c' h2
        refine ⟨w, ?_, ?_, ?_⟩
        · have h5 : c'.own.find k = some w := by
            rw [h4 k (fun v hv => hb v (mem_items.1 hv))]
            exact SMap.find_insert_self ..
          simp only [Cf.look, h5]
        · rintro w' ((⟨x, rfl, rfl⟩ | ⟨s, t, rfl, ht, rfl⟩) | ⟨sh, xs, rfl, hl, rfl⟩ | ⟨rfl | rfl, rfl⟩)
          · simpa [convVal, eq_comm] using hw
          · rw [upToNul_unique ht]
            simpa [convVal, eq_comm] using hw
          · rw [convVal, if_neg (by omega)] at hw
            simpa [eq_comm] using hw
          · simpa [convVal, convElems, Except.map, eq_comm] using hw
          · simpa [convVal, convElems, Except.map, eq_comm] using hw
        · intro hn
          have : n = 0 := by omega
          subst this
          exact (convVal_plain m v w).1 hw

theorem override_of {d : List (Py N × Py N)} {c c' : Cf N} (h : list2Config 1 (items d) c = .ok c') :
    Override d c.look c'.look := by
  obtain ⟨h1, h2⟩ := look_entry 1 d c c' h
  refine ⟨fun k v hv => ?_, h1⟩
  obtain ⟨w, g1, _, g3⟩ := h2 k v hv
  exact ⟨w, g3 rfl, g1⟩

theorem cfView_str {c : Cf N} {k : String} {s : String} :
    cfView.str c k = .ok s ↔ c.look k.toList = some (.str s.toList) := by
  unfold cfView
  dsimp only
  constructor
  · intro h
    split at h
    · rename_i t ht
      rw [ht]
      cases h
      rw [String.toList_ofList]
    · cases h
  · intro h
    rw [h]
    simp only [String.ofList_toList]

/-- What has to hold of the new settings of an element: name and type are texts, the type is registered for the class of
the element, and the class accepts the settings, with this result. -/
def Fits (w : World (Cf N) X S) (m : Machine (Cf N) X S) (old : Elem (Cf N) X S) (c : Cf N) (name : String) (fresh : X) : Prop :=
  ∃ ty p k, c.look "type".toList = some (.str (String.toList ty)) ∧ m.info.elements.find ty = some p ∧ w.deref p = some k ∧
    k.id = old.cls.id ∧ c.look "name".toList = some (.str name.toList) ∧ k.build c = .ok fresh

/-- **C82.** `reconfigure` from Python.  Without an element at the index, and with a dictionary that contains anything but
plain settings, nothing changes and an exception is raised.  Otherwise the new settings are those of the element (none
with `replace`) with the entries of the dictionary put in front.  If they fit, exactly this element is changed: it keeps
class, observer and index, has the new settings, the name they contain and the data its class builds from them;
otherwise nothing changes. -/
theorem C82_reconfigure (w : World (Cf N) X S) (m : Machine (Cf N) X S) (i : Int) (d : List (Py N × Py N)) (replace : Bool) :
    (m.elems[ulong i]? = none → pyReconfigure w m i d replace = (m, .exc .value)) ∧
    ∀ old, m.elems[ulong i]? = some old →
      (¬ PlainDict d → ∃ e, pyReconfigure w m i d replace = (m, .exc e)) ∧
      (PlainDict d → ∃ c : Cf N, Override d (if replace then noSettings else old.conf.look) c.look ∧
        ((∃ name fresh, Fits w m old c name fresh ∧ pyReconfigure w m i d replace =
            ({ m with elems := m.elems.set (ulong i) ⟨old.cls, name, ulong i, c, old.obs, old.cls.assign old.dat fresh⟩ },
              .ok ())) ∨
         ((¬ ∃ name fresh, Fits w m old c name fresh) ∧ (pyReconfigure w m i d replace).1 = m ∧
            (pyReconfigure w m i d replace).2 ≠ .ok ()))) := by
  refine ⟨fun h => by rw [pyReconfigure, h], fun old ho => ⟨fun hd => ?_, fun hd => ?_⟩⟩
  · rw [pyReconfigure, ho]
    dsimp only
    cases hc : list2Config 1 (items d) (if replace then .mk [] [] else old.conf) with
    | error e => exact ⟨_, rfl⟩
    | ok c => exact absurd ((items_plain d _).1 ⟨c, hc⟩) hd
  · obtain ⟨c, hc⟩ := (items_plain d (if replace then .mk [] [] else old.conf)).2 hd
    have hc' : list2Config 1 (items d) (if replace then .mk [] [] else old.conf) = .ok c := hc
    refine ⟨c, ?_, ?_⟩
    · have := override_of hc'
      cases replace with
      | true => exact this
      | false => exact this
    · have hpy : pyReconfigure w m i d replace = (match m.reconfigure cfView w (ulong i) c with
        | (m', .ok _) => (m', .ok ())
        | (m', .err e) => (m', .exc (machExc e))
        | (m', .ub) => (m', .crash)) := by
        rw [pyReconfigure, ho]
        dsimp only
        rw [hc']
        rfl
      rcases C21_reconfigure_one_or_nothing cfView w m (ulong i) c with ⟨h1, h2⟩ |
        ⟨o, k, ty, p, x, nm, h1, h2, h3, h4, h5, h6, h7, h8, h9⟩
      · right
        refine ⟨?_, ?_, ?_⟩
        · rintro ⟨name, fresh, ty, p, k, g1, g2, g3, g4, g5, g6⟩
          apply h2
          have g1' : cfView.str c "type" = .ok ty := cfView_str.2 g1
          have g5' : cfView.str c "name" = .ok name := cfView_str.2 g5
          unfold Machine.reconfigure
          rw [ho]
          dsimp only
          rw [g1']
          dsimp only
          rw [g2]
          dsimp only
          rw [g3]
          dsimp only
          unfold Flame.Mach.rebuild Flame.Mach.Cls.new
          rw [g5']
          dsimp only
          rw [g6]
          dsimp only
          rw [if_neg (by rw [g4]; simp)]
        · rw [hpy]
          generalize m.reconfigure cfView w (ulong i) c = r at h1 h2
          obtain ⟨m', _ | _ | _⟩ := r <;> exact h1
        · rw [hpy]
          generalize m.reconfigure cfView w (ulong i) c = r at h1 h2
          obtain ⟨m', o⟩ := r
          cases o with
          | ok u => exact absurd rfl h2
          | err e => simp
          | ub => simp
      · left
        rw [ho] at h1
        cases h1
        refine ⟨nm, x, ⟨ty, p, k, cfView_str.1 h2, h3, h4, h5, cfView_str.1 h6, h7⟩, ?_⟩
        rw [hpy]
        generalize m.reconfigure cfView w (ulong i) c = r at h8 h9
        obtain ⟨m', o⟩ := r
        dsimp only at h8 h9
        subst h8 h9
        rfl

/-- One call of `reconfigure`. -/
structure Call (N : Type) where
  index : Int
  dict : List (Py N × Py N)
  replace : Bool

/-- A history of calls; calls that raise an exception are part of it. -/
def callAll (w : World (Cf N) X S) : Machine (Cf N) X S → List (Call N) → Machine (Cf N) X S
  | m, [] => m
  | m, c :: l => callAll w (pyReconfigure w m c.index c.dict c.replace).1 l

theorem callAll_append (w : World (Cf N) X S) : ∀ (a b : List (Call N)) (m : Machine (Cf N) X S),
    callAll w m (a ++ b) = callAll w (callAll w m a) b
  | [], _, _ => rfl
  | _ :: a, b, _ => callAll_append w a b _

/-- One call as seen from outside: nothing changes, or the call succeeds and one element gets the settings asked for. -/
theorem call_step (w : World (Cf N) X S) (m : Machine (Cf N) X S) (c : Call N) :
    ((pyReconfigure w m c.index c.dict c.replace).1 = m ∧ (pyReconfigure w m c.index c.dict c.replace).2 ≠ .ok ()) ∨
    ∃ old new, m.elems[ulong c.index]? = some old ∧
      (pyReconfigure w m c.index c.dict c.replace) = ({ m with elems := m.elems.set (ulong c.index) new }, .ok ()) ∧
      Override c.dict (if c.replace then noSettings else old.conf.look) new.conf.look ∧
      new.cls = old.cls ∧ new.obs = old.obs ∧ new.index = ulong c.index ∧
      new.conf.look "name".toList = some (.str new.name.toList) := by
  obtain ⟨h1, h2⟩ := C82_reconfigure w m c.index c.dict c.replace
  cases ho : m.elems[ulong c.index]? with
  | none =>
    left
    rw [h1 ho]
    exact ⟨rfl, by simp⟩
  | some old =>
    obtain ⟨h3, h4⟩ := h2 old ho
    by_cases hd : PlainDict c.dict
    · obtain ⟨cf, g1, ⟨name, fresh, g2, g3⟩ | ⟨_, g3, g4⟩⟩ := h4 hd
      · right
        obtain ⟨_, _, _, _, _, _, _, g5, _⟩ := g2
        exact ⟨old, _, rfl, g3, g1, rfl, rfl, rfl, g5⟩
      · exact .inl ⟨g3, g4⟩
    · obtain ⟨e, he⟩ := h3 hd
      left
      rw [he]
      exact ⟨rfl, by simp⟩

theorem callAll_keeps (w : World (Cf N) X S) (j : Nat) (k : Name) : ∀ (l : List (Call N)) (m : Machine (Cf N) X S)
    (e : Elem (Cf N) X S), m.elems[j]? = some e →
    (∀ c ∈ l, ulong c.index = j → c.replace = false ∧ ∀ v, (.str k, v) ∉ c.dict) →
    ∃ e', (callAll w m l).elems[j]? = some e' ∧ e'.conf.look k = e.conf.look k
  | [], _, e, h, _ => ⟨e, h, rfl⟩
  | c :: l, m, e, h, hl => by
    have hl' := fun c' hc' => hl c' (List.mem_cons_of_mem _ hc')
    rw [callAll]
    rcases call_step w m c with ⟨h1, _⟩ | ⟨old, new, h1, h2, h3, _⟩
    · rw [h1]
      exact callAll_keeps w j k l m e h hl'
    · rw [h2]
      by_cases hj : ulong c.index = j
      · obtain ⟨hr, hk⟩ := hl c (List.mem_cons_self ..) hj
        have hn : (m.elems.set (ulong c.index) new)[j]? = some new := by
          rw [hj, List.getElem?_set_self (List.getElem?_eq_some_iff.1 h).1]
        obtain ⟨e', g1, g2⟩ := callAll_keeps w j k l { m with elems := m.elems.set (ulong c.index) new } new hn hl'
        refine ⟨e', g1, ?_⟩
        rw [g2, h3.2 k hk, hr, if_neg (by simp)]
        rw [hj, h] at h1
        cases h1
        rfl
      · have hn : (m.elems.set (ulong c.index) new)[j]? = some e := by
          rw [List.getElem?_set_ne hj, h]
        exact callAll_keeps w j k l { m with elems := m.elems.set (ulong c.index) new } e hn hl'

/-- **C82.** Over a whole history of calls, successful or not, a setting of an element is the one asked for in the last
successful call for this element that names it, as long as later calls for this element do not use `replace`. -/
theorem C82_last (w : World (Cf N) X S) (m m' : Machine (Cf N) X S) (a b : List (Call N)) (c : Call N)
    (hc : pyReconfigure w (callAll w m a) c.index c.dict c.replace = (m', .ok ()))
    (hb : ∀ c' ∈ b, ulong c'.index = ulong c.index → c'.replace = false) (k : Name) (v : Py N) (hv : Entry c.dict k v)
    (hk : ∀ c' ∈ b, ulong c'.index = ulong c.index → ∀ v', (.str k, v') ∉ c'.dict) :
    ∃ e x, (callAll w m (a ++ c :: b)).elems[ulong c.index]? = some e ∧ Plain v x ∧ e.conf.look k = some x := by
  rw [callAll_append, callAll]
  rcases call_step w (callAll w m a) c with ⟨_, h1⟩ | ⟨old, new, h1, h2, h3, _⟩
  · rw [hc] at h1
    exact absurd rfl h1
  · rw [h2]
    have hn : ((callAll w m a).elems.set (ulong c.index) new)[ulong c.index]? = some new :=
      List.getElem?_set_self (List.getElem?_eq_some_iff.1 h1).1
    obtain ⟨e, g1, g2⟩ := callAll_keeps w (ulong c.index) k b
      { callAll w m a with elems := (callAll w m a).elems.set (ulong c.index) new } new hn
      (fun c' hc' he => ⟨hb c' hc' he, hk c' hc' he⟩)
    obtain ⟨x, g3, g4⟩ := h3.1 k v hv
    exact ⟨e, x, g1, g3, by rw [g2, g4]⟩

/-- **C82.** A setting that no call for the element names keeps its value over every history without `replace`; elements,
their classes, observers and order, and the configuration of the machine stay. -/
theorem C82_others (w : World (Cf N) X S) (m : Machine (Cf N) X S) (l : List (Call N)) :
    (callAll w m l).conf = m.conf ∧ (callAll w m l).info = m.info ∧ (callAll w m l).elems.length = m.elems.length ∧
    ∀ j e, m.elems[j]? = some e → ∃ e', (callAll w m l).elems[j]? = some e' ∧ e'.cls = e.cls ∧ e'.obs = e.obs ∧
      ((∀ c ∈ l, ulong c.index ≠ j) → e' = e) ∧
      ∀ k, (∀ c ∈ l, ulong c.index = j → c.replace = false ∧ ∀ v, (.str k, v) ∉ c.dict) → e'.conf.look k = e.conf.look k := by
  have hrest : ∀ (l : List (Call N)) (m : Machine (Cf N) X S), (callAll w m l).conf = m.conf ∧
      (callAll w m l).info = m.info ∧ (callAll w m l).elems.length = m.elems.length ∧
      ∀ j e, m.elems[j]? = some e → ∃ e', (callAll w m l).elems[j]? = some e' ∧ e'.cls = e.cls ∧ e'.obs = e.obs ∧
        ((∀ c ∈ l, ulong c.index ≠ j) → e' = e) := by
    intro l
    induction l with
    | nil => intro m; exact ⟨rfl, rfl, rfl, fun j e h => ⟨e, h, rfl, rfl, fun _ => rfl⟩⟩
    | cons c l ih =>
      intro m
      rw [callAll]
      rcases call_step w m c with ⟨h1, _⟩ | ⟨old, new, h1, h2, _, h4, h5, _⟩
      · rw [h1]
        obtain ⟨g1, g2, g3, g4⟩ := ih m
        refine ⟨g1, g2, g3, fun j e h => ?_⟩
        obtain ⟨e', q1, q2, q3, q4⟩ := g4 j e h
        exact ⟨e', q1, q2, q3, fun hc => q4 (fun c' hc' => hc c' (List.mem_cons_of_mem _ hc'))⟩
      · rw [h2]
        obtain ⟨g1, g2, g3, g4⟩ := ih { m with elems := m.elems.set (ulong c.index) new }
        refine ⟨g1, g2, by rw [g3]; exact List.length_set, fun j e h => ?_⟩
        by_cases hj : ulong c.index = j
        · subst hj
          rw [h] at h1
          cases h1
          obtain ⟨e', q1, q2, q3, q4⟩ := g4 (ulong c.index) new (List.getElem?_set_self (List.getElem?_eq_some_iff.1 h).1)
          exact ⟨e', q1, q2.trans h4, q3.trans h5, fun hc => absurd rfl (hc c (List.mem_cons_self ..))⟩
        · obtain ⟨e', q1, q2, q3, q4⟩ := g4 j e (by
            show (m.elems.set (ulong c.index) new)[j]? = some e
            rw [List.getElem?_set_ne hj, h])
          exact ⟨e', q1, q2, q3, fun hc => q4 (fun c' hc' => hc c' (List.mem_cons_of_mem _ hc'))⟩
  obtain ⟨h1, h2, h3, h4⟩ := hrest l m
  refine ⟨h1, h2, h3, fun j e h => ?_⟩
  obtain ⟨e', q1, q2, q3, q4⟩ := h4 j e h
  refine ⟨e', q1, q2, q3, q4, fun k hk => ?_⟩
  obtain ⟨e'', g1, g2⟩ := callAll_keeps w j k l m e h hk
  rw [q1] at g1
  cases g1
  exact g2

/-- **C82**, the index.  An integer of 64 bits, with or without sign, is refused if it is not the index of an element. -/
theorem C82_index_partial (w : World (Cf N) X S) (m : Machine (Cf N) X S) (i : Int) (d : List (Py N × Py N)) (replace : Bool)
    (hm : m.elems.length ≤ 2 ^ 63) (h1 : -2 ^ 63 ≤ i) (h2 : i < 2 ^ 64) (hi : i < 0 ∨ (m.elems.length : Int) ≤ i) :
    pyReconfigure w m i d replace = (m, .exc .value) := by
  apply (C82_reconfigure w m i d replace).1
  rw [List.getElem?_eq_none_iff]
  unfold ulong
  omega

/-- **C82** is false for other integers: there is no machine that refuses the index 18446744073709551616 unless it would
refuse 0. -/
theorem C82_index_false (w : World (Cf N) X S) (m : Machine (Cf N) X S) (d : List (Py N × Py N)) (replace : Bool) :
    pyReconfigure w m 18446744073709551616 d replace = pyReconfigure w m 0 d replace := rfl

/-- **C82**, `allocState`.  Without argument the state is made from the settings of the machine.  With a dictionary it is
made from the entries of the dictionary, in front of the settings of the machine if `inherit` is given, otherwise from
nothing else. -/
theorem C82_alloc (conf : Cf N) (d : Option (Py N)) (inherit : Bool) :
    (d = none → pyAllocConf conf d inherit = .ok conf) ∧
    (∀ l, d = some (.dict l) → (PlainDict l → ∃ c, pyAllocConf conf d inherit = .ok c) ∧
      ∀ c, pyAllocConf conf d inherit = .ok c →
        (∀ k v, Entry l k v → ∃ x, c.look k = some x ∧ ∀ x', Plain v x' → x = x') ∧
        ∀ k, (∀ v, (.str k, v) ∉ l) → c.look k = if inherit then conf.look k else none) ∧
    ∀ o, d = some o → (∀ l, o ≠ .dict l) → pyAllocConf conf d inherit = .error .value := by
  refine ⟨?_, ?_, ?_⟩
  · rintro rfl
    rfl
  · rintro l rfl
    constructor
    · intro hl
      have key : ∀ (l : List (Py N × Py N)) (c : Cf N), PlainDict l → ∃ c', list2Config 4 (items l) c = .ok c' := by
        intro l
        induction l with
        | nil => intro c _; exact ⟨c, rfl⟩
        | cons p l ih =>
          obtain ⟨k, v⟩ := p
          intro c h
          obtain ⟨k', w, h1, h2, h3⟩ := h (k, v) (List.mem_cons_self ..)
          dsimp only at h1 h3
          subst h1
          have hw : convVal (list2Config 3) c v = .ok w := by
            rcases h3 with (⟨x, rfl, rfl⟩ | ⟨s, t, rfl, ht, rfl⟩) | ⟨sh, xs, rfl, hs, rfl⟩ | ⟨rfl | rfl, rfl⟩
            · rfl
            · rw [upToNul_unique ht]; rfl
            · rw [convVal, if_neg (by omega)]
            · rfl
            · rfl
          have e : parseItem (.tuple [.str k', v]) = some (k', v) := parseItem_pair v h2
          obtain ⟨c', hc'⟩ := ih (setVal c k' w) (fun p hp => h p (List.mem_cons_of_mem _ hp))
          refine ⟨c', ?_⟩
          rw [list2Config, show items ((Py.str k', v) :: l) = .tuple [.str k', v] :: items l from rfl, convItems, e]
          dsimp only
          rw [hw]
          exact hc'
      obtain ⟨c, hc⟩ := key l (if inherit then pushScope conf else .mk [] []) hl
      exact ⟨c, by rw [pyAllocConf, hc]⟩
    · intro c hc
      rw [pyAllocConf] at hc
      split at hc
      · cases hc
      · rename_i c' hc'
        cases hc
        obtain ⟨h1, h2⟩ := look_entry 4 l _ c hc'
        refine ⟨fun k v hv => ?_, fun k hk => ?_⟩
        · obtain ⟨x, g1, g2, _⟩ := h2 k v hv
          exact ⟨x, g1, g2⟩
        · rw [h1 k hk]
          cases inherit with
          | true =>
            rw [if_pos rfl, if_pos rfl]
            obtain ⟨o, i⟩ := conf
            simp only [pushScope, Cf.look, Cf.own, Cf.inh, SMap.find_nil, SMap.find_merge]
            cases SMap.find o k <;> rfl
          | false => rfl
  · rintro o rfl ho
    cases o with
    | dict l => exact absurd rfl (ho l)
    | _ => rfl

theorem entry_cons {p : Py N × Py N} {d : List (Py N × Py N)} {k : Name} {v : Py N} :
    Entry (p :: d) k v ↔ Entry d k v ∨ (p = (.str k, v) ∧ ∀ v', (.str k, v') ∉ d) := by
  constructor
  · rintro ⟨a, b, h, hb⟩
    cases a with
    | nil =>
      rw [List.nil_append, List.cons.injEq] at h
      obtain ⟨rfl, rfl⟩ := h
      exact .inr ⟨rfl, hb⟩
    | cons q a =>
      rw [List.cons_append, List.cons.injEq] at h
      exact .inl ⟨a, b, h.2, hb⟩
  · rintro (⟨a, b, rfl, hb⟩ | ⟨rfl, hb⟩)
    · exact ⟨p :: a, b, rfl, hb⟩
    · exact ⟨[], d, rfl, hb⟩

/-- A dictionary of numbers and texts. -/
def ScalarDict (d : List (Py N × Py N)) : Prop := ∀ p ∈ d, ∃ k w, p.1 = .str k ∧ '\x00' ∉ k ∧ Scalar p.2 w

theorem extraLoop_ok : ∀ (l : List (Py N × Py N)) (m : SMap Name (CV N)), SMap.Sorted m → ScalarDict l →
    ∃ m', extraLoop l m = .ok m' ∧ SMap.Sorted m' ∧
      (∀ k v w, Entry l k v → Scalar v w → m'.find k = some w) ∧ ∀ k, (∀ v, (.str k, v) ∉ l) → m'.find k = m.find k
  | [], m, hm, _ => ⟨m, rfl, hm, (fun k v w ⟨a, b, h, _⟩ _ => by cases a <;> cases h), fun _ _ => rfl⟩
  | (key, v) :: l, m, hm, h => by
    obtain ⟨k0, w0, h1, h2, h3⟩ := h (key, v) (List.mem_cons_self ..)
    dsimp only at h1 h3
    subst h1
    have hl : ScalarDict l := fun p hp => h p (List.mem_cons_of_mem _ hp)
    obtain ⟨m', g1, g2, g3, g4⟩ := extraLoop_ok l (setVar m k0 w0) (Flame.Glps.setVar_sorted m hm k0 w0) hl
    have hstep : extraLoop ((Py.str k0, v) :: l) m = extraLoop l (setVar m k0 w0) := by
      rcases h3 with ⟨x, rfl, rfl⟩ | ⟨s, t, rfl, ht, rfl⟩
      · rw [extraLoop, cstr_id h2]
      · rw [extraLoop, cstr_id h2, ← upToNul_unique ht]
    refine ⟨m', by rw [hstep, g1], g2, ?_, ?_⟩
    · intro k v' w' he hw
      rcases entry_cons.1 he with he | ⟨he, hno⟩
      · exact g3 k v' w' he hw
      · rw [Prod.mk.injEq, Py.str.injEq] at he
        obtain ⟨rfl, rfl⟩ := he
        rw [g4 k0 hno, setVar, SMap.find_insert_self]
        rcases h3 with ⟨x, rfl, rfl⟩ | ⟨s, t, rfl, ht, rfl⟩
        · rcases hw with ⟨y, hy, rfl⟩ | ⟨_, _, hy, _⟩ <;> cases hy
          rfl
        · rcases hw with ⟨y, hy, rfl⟩ | ⟨s', t', hy, ht', rfl⟩ <;> cases hy
          rw [upToNul_unique ht, upToNul_unique ht']
    · intro k hk
      rw [g4 k (fun v' hv' => hk v' (List.mem_cons_of_mem _ hv')), setVar, SMap.find_insert_ne]
      rintro rfl
      exact hk v (List.mem_cons_self ..)

theorem scalar_val {v : Py N} {w : CV N} (h : Scalar v w) : ∃ x, w.toVal = some x ∧ Val.toCV x = some w := by
  rcases h with ⟨x, _, rfl⟩ | ⟨_, t, _, _, rfl⟩
  · exact ⟨.num x, rfl, rfl⟩
  · exact ⟨.str t, rfl, rfl⟩

theorem entry_exists (k : Name) : ∀ (l : List (Py N × Py N)), (∃ v, (.str k, v) ∈ l) → ∃ v, Entry l k v
  | [], ⟨_, h⟩ => nomatch h
  | p :: l, ⟨v, h⟩ => by
    by_cases hl : ∃ v, (.str k, v) ∈ l
    · obtain ⟨v', h'⟩ := entry_exists k l hl
      exact ⟨v', entry_cons.2 (.inl h')⟩
    · rcases List.mem_cons.1 h with rfl | h
      · exact ⟨v, entry_cons.2 (.inr ⟨rfl, fun v' hv' => hl ⟨v', hv'⟩⟩)⟩
      · exact absurd ⟨v, h⟩ hl

/-- **C82**, `extra` for texts.  Extra definitions mean the same as these definitions written in front of the text, in any
order and with each value as any expression that means it; so with `GLPSParse` as with `Machine`. -/
theorem C82_extra_partial (a : Arith N) (strtod : Name → Option N) (l : List (Py N × Py N)) (hl : ScalarDict l)
    (d g text : Name) (ds : List (Name × Exp N)) (hd : Text strtod d (ds.map (fun p => .assign p.1 p.2)))
    (hg : IsGap g) (hg0 : g ≠ []) (hnd : (ds.map (·.1)).Nodup)
    (hkeys : ∀ n, n ∈ ds.map (·.1) ↔ ∃ v, (.str n, v) ∈ l)
    (hvals : ∀ p ∈ ds, ∃ v w x, Entry l p.1 v ∧ Scalar v w ∧ Val.toCV x = some w ∧ Means a (fun _ => none) p.2 x)
    (w : World (Cf N) X S) :
    (pyParse a strtod (.bytes text) (some (.dict l)) = pyParse a strtod (.bytes (d ++ (g ++ text))) none ∧
      pyMachine a strtod w (.bytes text) (some (.dict l)) = pyMachine a strtod w (.bytes (d ++ (g ++ text))) none) ∧
    (pyParse a strtod (.file (some text)) (some (.dict l)) = pyParse a strtod (.file (some (d ++ (g ++ text)))) none ∧
      pyMachine a strtod w (.file (some text)) (some (.dict l)) =
        pyMachine a strtod w (.file (some (d ++ (g ++ text)))) none) := by
  obtain ⟨m, h1, h2, h3, h4⟩ := extraLoop_ok l [] SMap.sorted_nil hl
  have hex : extraVars (some (.dict l)) = .ok m := h1
  have key := Flame.Glps.C15_setVar_is_definition a strtod m h2 d g text ds hd hg hg0 hnd ?_ ?_ true
  · have e1 : parse2Config a strtod (.bytes text) (some (.dict l)) =
        parse2Config a strtod (.bytes (d ++ (g ++ text))) none := by
      simp only [parse2Config, hex, key]
      rfl
    have e2 : parse2Config a strtod (.file (some text)) (some (.dict l)) =
        parse2Config a strtod (.file (some (d ++ (g ++ text)))) none := by
      simp only [parse2Config, hex, key]
      rfl
    exact ⟨⟨by rw [pyParse, e1]; rfl, by rw [pyMachine, e1]; rfl⟩, ⟨by rw [pyParse, e2]; rfl, by rw [pyMachine, e2]; rfl⟩⟩
  · intro n
    rw [hkeys n]
    constructor
    · rintro hv
      obtain ⟨v, hv⟩ := entry_exists n l hv
      obtain ⟨a', b, hab, _⟩ := id hv
      obtain ⟨k, w', q1, _, q2⟩ := hl (.str n, v) (by rw [hab]; simp)
      obtain ⟨x, hx, _⟩ := scalar_val q2
      exact ⟨w', x, h3 n v w' hv q2, hx⟩
    · rintro ⟨v, w', hv, _⟩
      by_contra hno
      rw [h4 n (fun v hv => hno ⟨v, hv⟩)] at hv
      cases hv
  · intro p hp
    obtain ⟨v, w', x, q1, q2, q3, q4⟩ := hvals p hp
    obtain ⟨x', hx, hx'⟩ := scalar_val q2
    refine ⟨w', x, h3 p.1 v w' q1 q2, ?_, q4⟩
    rw [hx]
    rcases q2 with ⟨y, _, rfl⟩ | ⟨_, t, _, _, rfl⟩
    · cases x <;> cases x' <;> simp_all [Val.toCV]
    · cases x <;> cases x' <;> simp_all [Val.toCV]

/-- **C82** is false for dictionaries and lists as configuration: extra definitions are accepted and have no effect. -/
theorem C82_extra_false (a : Arith N) (strtod : Name → Option N) (l : List (Py N × Py N)) (hl : ScalarDict l) (o : Py N)
    (w : World (Cf N) X S) :
    pyParse a strtod (.obj o) (some (.dict l)) = pyParse a strtod (.obj o) none ∧
    pyMachine a strtod w (.obj o) (some (.dict l)) = pyMachine a strtod w (.obj o) none := by
  obtain ⟨m, h1, _⟩ := extraLoop_ok l [] SMap.sorted_nil hl
  have hex : extraVars (some (.dict l)) = .ok m := h1
  have e : parse2Config a strtod (.obj o) (some (.dict l)) = parse2Config a strtod (.obj o) none := by
    simp only [parse2Config, hex]
    cases o <;> rfl
  exact ⟨by rw [pyParse, e]; rfl, by rw [pyMachine, e]; rfl⟩

theorem extraLoop_sorted : ∀ (l : List (Py N × Py N)) (m m' : SMap Name (CV N)), SMap.Sorted m →
    extraLoop l m = .ok m' → SMap.Sorted m'
  | [], m, m', hm, h => by
    cases h
    exact hm
  | (k, v) :: l, m, m', hm, h => by
    unfold extraLoop at h
    split at h
    · split at h
      · exact extraLoop_sorted l _ m' (Flame.Glps.setVar_sorted m hm _ _) h
      · exact extraLoop_sorted l _ m' (Flame.Glps.setVar_sorted m hm _ _) h
      · cases h
      · cases h
      · cases h
      · exact extraLoop_sorted l _ m' (Flame.Glps.setVar_sorted m hm _ _) h
      · cases h
    · cases h

theorem extraLoop_ne_ub : ∀ (l : List (Py N × Py N)) (m : SMap Name (CV N)), extraLoop l m ≠ .error .ub
  | [], _ => by simp [extraLoop]
  | (k, v) :: l, m => by
    unfold extraLoop
    split
    · split
      · exact extraLoop_ne_ub l _
      · exact extraLoop_ne_ub l _
      · simp
      · simp
      · simp
      · exact extraLoop_ne_ub l _
      · simp
    · simp

theorem parse2Config_ne_ub (a : Arith N) (strtod : Name → Option N) (conf : Src N) (extra : Option (Py N)) :
    parse2Config a strtod conf extra ≠ .error .ub := by
  have hof : ∀ vars text, SMap.Sorted vars → ofOutcome (parseText a strtod vars text true) ≠ .error .ub := by
    intro vars text hv
    have := Flame.Glps.C10_no_missing_element a strtod vars hv text true
    generalize parseText a strtod vars text true = o at this
    cases o with
    | ub => exact absurd rfl this
    | _ => simp [ofOutcome]
  have hmap : ∀ x : Except Err (Cf N), x.mapError (fun e => Fail.throws (convExc e)) ≠ .error .ub := by
    intro x
    cases x <;> simp [Except.mapError]
  rw [parse2Config]
  cases hx : extraVars extra with
  | error e =>
    dsimp only
    rintro h
    cases h
    cases extra with
    | none => cases hx
    | some o =>
      cases o with
      | dict l => exact extraLoop_ne_ub l [] hx
      | _ => cases hx
  | ok vars =>
    have hv : SMap.Sorted vars := by
      cases extra with
      | none => cases hx; exact SMap.sorted_nil
      | some o =>
        cases o with
        | dict l => exact extraLoop_sorted l [] vars SMap.sorted_nil hx
        | _ => cases hx
    dsimp only
    cases conf with
    | file s =>
      cases s with
      | none => simp
      | some s => exact hof vars s hv
    | bytes s => exact hof vars s hv
    | text s => exact hof vars _ hv
    | obj o =>
      cases o with
      | dict l => exact hmap _
      | list l => exact hmap _
      | _ => simp

/-- **C82**, no crash.  Making a machine from Python never runs into undefined behaviour if `extra` is missing or a
dictionary of numbers and texts, and a given file returns bytes.  For all such texts and objects, valid or not. -/
theorem C82_no_crash_partial (a : Arith N) (strtod : Name → Option N) (w : World (Cf N) X S) (conf : Src N)
    (extra : Option (Py N)) (hw : ∀ sim info, w.infos.find sim = some info → ∀ ty p, info.elements.find ty = some p →
      ∃ k, w.deref p = some k)
    (hx : extra = none ∨ ∃ l, extra = some (.dict l) ∧ ScalarDict l) (hc : conf ≠ .file none) :
    pyMachine a strtod w conf extra ≠ .crash := by
  have hno := parse2Config_ne_ub a strtod conf extra
  have hnull : ∀ e, parse2Config a strtod conf extra ≠ .error (.null e) := by
    intro e
    have hvars : ∃ vars, extraVars extra = .ok vars := by
      rcases hx with rfl | ⟨l, rfl, hl⟩
      · exact ⟨_, rfl⟩
      · obtain ⟨m, h1, _⟩ := extraLoop_ok l [] SMap.sorted_nil hl
        exact ⟨m, h1⟩
    obtain ⟨vars, hv⟩ := hvars
    have hof : ∀ o : Flame.Glps.Outcome N, ofOutcome o ≠ .error (.null e) := by
      intro o
      cases o <;> simp [ofOutcome]
    have hmap : ∀ x : Except Err (Cf N), x.mapError (fun e => Fail.throws (convExc e)) ≠ .error (.null e) := by
      intro x
      cases x <;> simp [Except.mapError]
    rw [parse2Config, hv]
    dsimp only
    cases conf with
    | file s =>
      cases s with
      | none => exact absurd rfl hc
      | some s => exact hof _
    | bytes s => exact hof _
    | text s => exact hof _
    | obj o =>
      cases o with
      | dict l => exact hmap _
      | list l => exact hmap _
      | _ => simp
  rw [pyMachine]
  generalize parse2Config a strtod conf extra = r at hno hnull
  cases r with
  | error f =>
    cases f with
    | throws e => simp
    | null e => exact absurd rfl (hnull e)
    | ub => exact absurd rfl hno
  | ok c =>
    dsimp only
    have hnew : Machine.new cfView w c ≠ .ub := by
      unfold Machine.new
      split
      · simp
      · split
        · simp
        · rename_i info hinfo
          split
          · simp
          · split
            · simp
            · rename_i hub
              exact absurd hub (Flame.Mach.buildAll_not_ub (hw _ info hinfo) _ _ _)
            · simp
    generalize Machine.new cfView w c = r at hnew
    cases r with
    | ub => exact absurd rfl hnew
    | _ => simp

/-- **C82**, the kind of exception.  With proper `extra`, something that is no text, buffer, file, dictionary or list makes `Machine` raise
`ValueError`, but `GLPSParse` never does: it raises `RuntimeError` for the same argument. -/
theorem C82_parse_kinds (a : Arith N) (strtod : Name → Option N) (w : World (Cf N) X S) (extra : Option (Py N))
    (hx : extra = none ∨ ∃ l, extra = some (.dict l) ∧ ScalarDict l) :
    (∀ o : Py N, (∀ l, o ≠ .dict l) → (∀ l, o ≠ .list l) →
      pyMachine a strtod w (.obj o) extra = .exc .value ∧ pyParse a strtod (.obj o) extra = .exc .runtime) ∧
    ∀ conf, pyParse a strtod conf extra ≠ .exc .value := by
  have hvars : ∃ vars, extraVars extra = .ok vars := by
    rcases hx with rfl | ⟨l, rfl, hl⟩
    · exact ⟨_, rfl⟩
    · obtain ⟨m, h1, _⟩ := extraLoop_ok l [] SMap.sorted_nil hl
      exact ⟨m, h1⟩
  obtain ⟨vars, hv⟩ := hvars
  constructor
  · intro o h1 h2
    have : parse2Config a strtod (.obj o) extra = .error (.throws .value) := by
      rw [parse2Config, hv]
      cases o with
      | dict l => exact absurd rfl (h1 l)
      | list l => exact absurd rfl (h2 l)
      | _ => rfl
    rw [pyMachine, pyParse, this]
    exact ⟨rfl, rfl⟩
  · intro conf
    have hnull : parse2Config a strtod conf extra ≠ .error (.null .value) := by
      rw [parse2Config, hv]
      have hof : ∀ o : Flame.Glps.Outcome N, ofOutcome o ≠ .error (.null .value) := by
        intro o
        cases o <;> simp [ofOutcome]
      have hmap : ∀ x : Except Err (Cf N), x.mapError (fun e => Fail.throws (convExc e)) ≠ .error (.null .value) := by
        intro x
        cases x <;> simp [Except.mapError]
      dsimp only
      cases conf with
      | file s =>
        cases s with
        | none => simp
        | some s => exact hof _
      | bytes s => exact hof _
      | text s => exact hof _
      | obj o =>
        cases o with
        | dict l => exact hmap _
        | list l => exact hmap _
        | _ => simp
    rw [pyParse]
    generalize parse2Config a strtod conf extra = r at hnull
    cases r with
    | ok c => simp
    | error f =>
      cases f with
      | ub => simp
      | null e => cases e <;> simp_all
      | throws e => cases e <;> simp

/-- Example: a number as `config`. -/
example (a : Arith (Option Int)) (strtod : Name → Option (Option Int)) (w : World (Cf (Option Int)) X S) :
    pyMachine a strtod w (.obj (.num (some 1))) none = .exc .value ∧ pyParse a strtod (.obj (.num (some 1))) none = .exc .runtime :=
  (C82_parse_kinds a strtod w none (Or.inl rfl)).1 _ (fun _ h => by cases h) (fun _ h => by cases h)

/-- **C82** is false without these conditions: a file opened as text, or anything but a dictionary as `extra`, crashes
`Machine`, while `GLPSParse` raises an exception for the same arguments. -/
theorem C82_crash_false (a : Arith N) (strtod : Name → Option N) (w : World (Cf N) X S) :
    (pyMachine a strtod w (.file none) none = .crash ∧ pyParse a strtod (.file none) none = .exc .raised) ∧
    ∀ conf o, (∀ l, o ≠ .dict l) → pyMachine a strtod w conf (some o) = .crash ∧ pyParse a strtod conf (some o) = .exc .value := by
  refine ⟨⟨rfl, rfl⟩, fun conf o ho => ?_⟩
  cases o with
  | dict l => exact absurd rfl (ho l)
  | _ => exact ⟨rfl, rfl⟩

/-! ### Examples -/

/-- A class that stores its setting `L`. -/
def exDrift : Flame.Mach.Cls (Cf (Option Int)) Int Int where
  id := 1
  typeName := "drift"
  build c := match c.look "L".toList with
    | some (.num (some x)) => .ok x
    | _ => .error .keyError
  assign _ n := n
  advance x s := (x, { s with payload := s.payload + x }, none)

/-- A registry with this class. -/
def exWorld : World (Cf (Option Int)) Int Int where
  heap := [some exDrift]
  infos := [("Toy", ⟨"Toy", 0, [("drift", 0)]⟩)]

/-- A text as Python object. -/
abbrev tx (s : String) : Py (Option Int) := .str s.toList

/-- A number as Python object. -/
abbrev nm (x : Int) : Py (Option Int) := .num (some x)

/-- `{"sim_type": "Toy", "B": 5, "elements": [{"name": "a", "type": "drift", "L": 3}, {"name": "b", …, "L": 4}]}` -/
def exConf : Py (Option Int) :=
  .dict [(tx "sim_type", tx "Toy"), (tx "B", nm 5), (tx "elements", .list
    [.dict [(tx "name", tx "a"), (tx "type", tx "drift"), (tx "L", nm 3)],
     .dict [(tx "name", tx "b"), (tx "type", tx "drift"), (tx "L", nm 4)]])]

/-- A setting that is a number, otherwise -1. -/
def exGet (c : Cf (Option Int)) (k : String) : Int :=
  match c.look k.toList with
  | some (.num (some x)) => x
  | _ => -1

/-- Names, data and the settings `L` and `B` of all elements. -/
def exShow (m : Machine (Cf (Option Int)) Int Int) : List (String × Int × Int × Int) :=
  m.elems.map (fun e => (e.name, e.dat, exGet e.conf "L", exGet e.conf "B"))

/-- The outcome of making the machine and a history of calls. -/
def exRun (l : List (Call (Option Int))) : Option (List (String × Int × Int × Int)) :=
  match pyMachine Flame.Glps.exA Flame.Glps.exNum exWorld (.obj exConf) none with
  | .ok m => some (exShow (callAll exWorld m l))
  | _ => none

/-- Example for `C82_reconfigure` and `C82_last`: the second call succeeds, the third does not (it gives no type), the
fourth neither (it gives elements), the last is for another element.  `B` is inherited and kept. -/
example : exRun [⟨1, [(tx "L", nm 6)], false⟩, ⟨1, [(tx "L", nm 7), (tx "name", tx "c")], false⟩,
      ⟨1, [(tx "L", nm 8)], true⟩, ⟨1, [(tx "L", nm 9), (tx "x", .list [.dict []])], false⟩, ⟨0, [(tx "L", nm 10)], false⟩] =
    some [("a", 10, 10, 5), ("c", 7, 7, 5)] := by decide +kernel

/-- With `replace` the inherited setting is gone. -/
example : exRun [⟨1, [(tx "type", tx "drift"), (tx "L", nm 6), (tx "name", tx "c")], true⟩] =
    some [("a", 3, 3, 5), ("c", 6, 6, -1)] := by decide +kernel

/-- Example for `C82_reconfigure`: the dictionary of the first call is plain and its entry for `L` is 6. -/
example : PlainDict [(tx "L", nm 6)] ∧ Entry [(tx "L", nm 6)] "L".toList (nm 6) := by
  refine ⟨fun p hp => ?_, [], [], rfl, by simp⟩
  rw [List.mem_singleton] at hp
  subst hp
  exact ⟨_, _, rfl, by decide, .inl (.inl ⟨_, rfl, rfl⟩)⟩

/-- Example for `C82_index_partial`. -/
example : exRun [⟨-1, [(tx "L", nm 6)], false⟩, ⟨2, [(tx "L", nm 6)], false⟩] = exRun [] := by decide +kernel

/-- Example for `C82_index_false`: the call changes the first element. -/
example : exRun [⟨18446744073709551616, [(tx "L", nm 6)], false⟩] =
    some [("a", 6, 6, 5), ("b", 4, 4, 5)] := by decide +kernel

/-- Example for `C82_alloc`: with `inherit` the settings of the machine are still there. -/
example : (match pyAllocConf (.mk [("B".toList, .num (some (5 : Int)))] []) (some (.dict [(tx "E", nm 7)])) true,
      pyAllocConf (.mk [("B".toList, .num (some (5 : Int)))] []) (some (.dict [(tx "E", nm 7)])) false with
    | .ok c, .ok c' => (c.look "B".toList).isSome && (c.look "E".toList).isSome && !(c'.look "B".toList).isSome
    | _, _ => false) = true := by decide +kernel

/-- Example for `C82_extra_partial`: `extra={"x": 7, "s": "ab"}` and `s = "ab"; x = -(-7);` in front. -/
example (text : Name) (w : World (Cf (Option Int)) Int Int) :
    pyMachine Flame.Glps.exA Flame.Glps.exNum w (.bytes text) (some (.dict [(tx "x", nm 7), (tx "s", tx "ab")])) =
      pyMachine Flame.Glps.exA Flame.Glps.exNum w (.bytes ("s = \"ab\"; x = -(-7);".toList ++ ("\n".toList ++ text))) none := by
  have hs : ScalarDict [(tx "x", nm 7), (tx "s", tx "ab")] := by
    intro p hp
    simp only [List.mem_cons, List.not_mem_nil, or_false] at hp
    rcases hp with rfl | rfl
    · exact ⟨_, _, rfl, by decide, .inl ⟨_, rfl, rfl⟩⟩
    · exact ⟨_, _, rfl, by decide, .inr ⟨_, _, rfl, ⟨by decide, .inl rfl⟩, rfl⟩⟩
  refine (C82_extra_partial Flame.Glps.exA Flame.Glps.exNum _ hs _ _ text
    [(['s'], .str "ab".toList), (['x'], .neg (.neg (.num (some 7))))] ?_
    (Flame.Glps.isGap_of_blank (.blank (by decide))) (by decide) (by decide) ?_ ?_ w).1.2
  · rw [Flame.Glps.text_iff]
    exact ⟨by decide +kernel, by decide +kernel⟩
  · intro n
    simp only [List.map_cons, List.map_nil, List.mem_cons, List.not_mem_nil, or_false, Prod.mk.injEq, Py.str.injEq]
    constructor
    · rintro (rfl | rfl)
      · exact ⟨tx "ab", .inr ⟨rfl, rfl⟩⟩
      · exact ⟨nm 7, .inl ⟨rfl, rfl⟩⟩
    · rintro ⟨v, ⟨rfl, _⟩ | ⟨rfl, _⟩⟩
      · exact .inr rfl
      · exact .inl rfl
  · intro p hp
    simp only [List.mem_cons, List.not_mem_nil, or_false] at hp
    rcases hp with rfl | rfl
    · exact ⟨tx "ab", _, .str "ab".toList, ⟨[(tx "x", nm 7)], [], rfl, by simp⟩, .inr ⟨_, _, rfl, ⟨by decide, .inl rfl⟩, rfl⟩,
        rfl, .str _⟩
    · refine ⟨nm 7, _, .num (some 7), ⟨[], [(tx "s", tx "ab")], rfl, ?_⟩, .inl ⟨_, rfl, rfl⟩, rfl,
        .neg (x := some (-7)) (.neg (x := some 7) (.num _))⟩
      intro v' h
      simp at h

/-- Example for `C82_extra_false`: a dictionary with `B` and `extra={"B": 7}`; `B` stays 5. -/
example : (match pyMachine Flame.Glps.exA Flame.Glps.exNum exWorld (.obj exConf) (some (.dict [(tx "B", nm 7)])) with
    | .ok m => some (exShow m)
    | _ => none) = exRun [] := by decide +kernel

/-- Example for `C82_no_crash_partial`: the registry of the examples has no deleted builders. -/
example : ∀ sim info, exWorld.infos.find sim = some info → ∀ ty p, info.elements.find ty = some p →
    ∃ k, exWorld.deref p = some k := by
  intro sim info h ty p hp
  simp only [exWorld, SMap.find_cons, SMap.find_nil] at h
  split at h
  · cases h
    simp only [SMap.find_cons, SMap.find_nil] at hp
    split at hp
    · cases hp
      exact ⟨exDrift, rfl⟩
    · cases hp
  · cases h

end Flame.Python
