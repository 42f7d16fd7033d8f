import Verif.Python.PropsCalls

/-!
# C82: kinds of exceptions, and definitions for texts of Python
-/

namespace Flame.Python

open Flame.Glps (Name CV Cf Arith Exp Means Text IsGap CV.toVal parseText setVar Val)
open Flame.Mach (CView World Machine Elem)

variable {N X S : Type}

/-- **C82**, missing settings.  A dictionary that `GLPSParse` accepts, but without the entry `sim_type` or without the entry
`elements`, makes `Machine` raise `KeyError`. -/
theorem C82_missing (a : Arith N) (strtod : Name → Option N) (w : World (Cf N) X S) (l : List (Py N × Py N)) (o : Py N)
    (ho : pyParse a strtod (.obj (.dict l)) none = .ok o)
    (hl : (∀ v, (.str "sim_type".toList, v) ∉ l) ∨ ∀ v, (.str "elements".toList, v) ∉ l) :
    pyMachine a strtod w (.obj (.dict l)) none = .exc .key := by
  have hp : ∀ r, parse2Config a strtod (.obj (.dict l)) none = r →
      r = (list2conf (.list (items l))).mapError (fun e => .throws (convExc e)) := fun r h => by rw [← h]; rfl
  unfold pyMachine
  unfold pyParse at ho
  generalize hr : parse2Config a strtod (.obj (.dict l)) none = r at ho ⊢
  have hr' := hp _ hr
  cases r with
  | error f =>
    exfalso
    obtain e | e | - := f
    · cases e <;> cases ho
    · cases ho
    · cases ho
  | ok c =>
    dsimp only
    have hc : list2Config 4 (items l) (.mk [] []) = .ok c := by
      have e : list2conf (Py.list (items l)) = list2Config 4 (items l) (.mk [] []) := rfl
      rw [e] at hr'
      generalize list2Config 4 (items l) (.mk [] []) = q at hr' ⊢
      cases q with
      | error => cases hr'
      | ok x => cases hr'; rfl
    have hlook := (look_entry 4 l (.mk [] []) c hc).1
    have hnone : ∀ k : Name, (∀ v, (.str k, v) ∉ l) → c.look k = none := fun k hk => by
      rw [hlook k hk]
      rfl
    have key : Machine.new cfView w c = .err .keyError := by
      unfold Machine.new
      rcases hl with hl | hl
      · have : cfView.str c "sim_type" = .error .keyError := by
          unfold cfView
          dsimp only
          rw [hnone _ hl]
        rw [this]
      · have he : cfView.elems c = .error .keyError := by
          unfold cfView
          dsimp only
          rw [hnone _ hl]
        rw [he]
        cases hs : cfView.str c "sim_type" with
        | error e =>
          have : e = .keyError := by
            unfold cfView at hs
            dsimp only at hs
            split at hs <;> cases hs
            rfl
          rw [this]
        | ok ty =>
          dsimp only
          cases w.infos.find ty <;> rfl
    rw [key]
    rfl

/-- Example for `C82_missing`: `{"B": 5}`. -/
example : (match pyParse Flame.Glps.exA Flame.Glps.exNum (.obj (.dict [(tx "B", nm 5)])) none with
      | .ok _ => true
      | _ => false) = true ∧
    ∀ v, (.str "sim_type".toList, v) ∉ [(tx "B", nm 5)] := by
  refine ⟨by decide +kernel, fun v h => ?_⟩
  simp at h

/-- **C82**, kinds of exceptions of `reconfigure`.  `KeyError` is never raised.  A type that is missing or not registered is
reported as `RuntimeError`, what the class objects to as `ValueError` if it throws `std::invalid_argument`, otherwise as
`RuntimeError`; in particular a missing setting, for which `Machine` raises `KeyError`. -/
theorem C82_kinds (w : World (Cf N) X S) (m : Machine (Cf N) X S) (i : Int) (d : List (Py N × Py N)) (replace : Bool) :
    (pyReconfigure w m i d replace).2 ≠ .exc .key ∧
    ∀ old, m.elems[ulong i]? = some old → PlainDict d →
      ∃ c : Cf N, Override d (if replace then noSettings else old.conf.look) c.look ∧
        ((∀ ty : String, c.look "type".toList = some (.str ty.toList) → m.info.elements.find ty = none) →
          pyReconfigure w m i d replace = (m, .exc .runtime)) ∧
        ∀ (ty name : String) p k e, c.look "type".toList = some (.str ty.toList) → m.info.elements.find ty = some p →
          w.deref p = some k → c.look "name".toList = some (.str name.toList) → k.build c = .error e →
          pyReconfigure w m i d replace = (m, .exc (if e = .invalidArg then .value else .runtime)) := by
  constructor
  · unfold pyReconfigure
    split
    · simp
    · split
      · rename_i e _
        cases e <;> simp [convExc]
      · split
        · simp
        · rename_i e _
          cases e <;> simp [machExc]
        · simp
  · intro old ho hd
    obtain ⟨c, hc⟩ := (items_plain d (if replace then .mk [] [] else old.conf)).2 hd
    have hc' : list2Config 1 (items d) (if replace then .mk [] [] else old.conf) = .ok c := hc
    have hpy : pyReconfigure w m i d replace = (match m.reconfigure cfView w (ulong i) c with
      | (m', .ok _) => (m', .ok ())
      | (m', .err e) => (m', .exc (machExc e))
      | (m', .ub) => (m', .crash)) := by
      rw [pyReconfigure, ho]
      dsimp only
      rw [hc']
      rfl
    have hset : ∀ {x : Elem (Cf N) X S}, x = old → ({ m with elems := m.elems.set (ulong i) x } : Machine (Cf N) X S) = m := by
      rintro _ rfl
      obtain ⟨h1, h2⟩ := List.getElem?_eq_some_iff.1 ho
      subst h2
      rw [List.set_getElem_self h1]
    refine ⟨c, ?_, fun h => ?_, fun ty name p k e h1 h2 h3 h4 h5 => ?_⟩
    · have := override_of hc'
      cases replace with
      | true => exact this
      | false => exact this
    · have : m.reconfigure cfView w (ulong i) c = (m, .err .keyError) := by
        unfold Machine.reconfigure
        rw [ho]
        dsimp only
        cases hs : cfView.str c "type" with
        | error e =>
          have : e = .keyError := by
            unfold cfView at hs
            dsimp only at hs
            split at hs <;> cases hs
            rfl
          rw [this]
        | ok ty =>
          dsimp only
          rw [h ty (cfView_str.1 hs)]
      rw [hpy, this]
      rfl
    · have : m.reconfigure cfView w (ulong i) c = (m, .err e) := by
        unfold Machine.reconfigure
        rw [ho]
        dsimp only
        rw [cfView_str.2 h1]
        dsimp only
        rw [h2]
        dsimp only
        rw [h3]
        dsimp only
        unfold Flame.Mach.rebuild Flame.Mach.Cls.new
        rw [cfView_str.2 h4]
        dsimp only
        rw [h5]
        dsimp only
        rw [hset rfl]
      rw [hpy, this]
      cases e <;> rfl

/-- What a call of `reconfigure` reports. -/
def exReport (c : Call (Option Int)) : Option (Res Unit) :=
  match pyMachine Flame.Glps.exA Flame.Glps.exNum exWorld (.obj exConf) none with
  | .ok m => some (pyReconfigure exWorld m c.index c.dict c.replace).2
  | _ => none

/-- Example for `C82_kinds`: settings with name and registered type, but without the length that the class requires.  The same
settings in a new machine raise `KeyError`. -/
example : exReport ⟨1, [(tx "type", tx "drift"), (tx "name", tx "c")], true⟩ = some (.exc .runtime) ∧
    pyMachine Flame.Glps.exA Flame.Glps.exNum exWorld (.obj (.dict [(tx "sim_type", tx "Toy"), (tx "elements", .list
      [.dict [(tx "type", tx "drift"), (tx "name", tx "c")]])])) none = .exc .key := ⟨rfl, rfl⟩

/-- Example for `C82_kinds`: an unknown type. -/
example : exReport ⟨1, [(tx "type", tx "quadrupole")], false⟩ = some (.exc .runtime) := rfl

/-- **C82**, kinds of exceptions of `allocState`: `ValueError` for anything but a dictionary, `RuntimeError` for whatever the
constructor of the state objects to and for a dictionary with values of wrong kind; otherwise the state is made from the settings
that `C82_alloc` describes. -/
theorem C82_alloc_kinds (alloc : Cf N → Except Flame.Mach.Err S) (conf : Cf N) (d : Option (Py N)) (inherit : Bool) :
    (∀ o, d = some o → (∀ l, o ≠ .dict l) → pyAllocState alloc conf d inherit = .error .value) ∧
    (∀ l, d = some (.dict l) → pyAllocState alloc conf d inherit ≠ .error .value ∧ pyAllocState alloc conf d inherit ≠ .error .key) ∧
    (d = none → ∀ e, alloc conf = .error e → pyAllocState alloc conf d inherit = .error .runtime) ∧
    ∀ c, pyAllocConf conf d inherit = .ok c → ∀ s, alloc c = .ok s → pyAllocState alloc conf d inherit = .ok s := by
  refine ⟨?_, ?_, ?_, ?_⟩
  · rintro o rfl ho
    rw [pyAllocState, (C82_alloc conf (some o) inherit).2.2 o rfl ho]
  · rintro l rfl
    unfold pyAllocState
    cases h : pyAllocConf conf (some (.dict l)) inherit with
    | error e =>
      have he : ∃ x, e = convExcOnly x := by
        unfold pyAllocConf at h
        dsimp only at h
        split at h
        · cases h
          exact ⟨_, rfl⟩
        · cases h
      obtain ⟨x, rfl⟩ := he
      cases x <;> simp [convExcOnly, convExc]
    | ok c =>
      dsimp only
      split <;> simp
  · rintro rfl e he
    rw [pyAllocState, (C82_alloc conf none inherit).1 rfl]
    dsimp only
    rw [he]
  · intro c hc s hs
    rw [pyAllocState, hc]
    dsimp only
    rw [hs]

/-- Example for `C82_alloc_kinds`: a constructor that asks for `E`. -/
example : pyAllocState (fun c => if (c.look "E".toList).isSome then .ok (exGet c "E") else .error .keyError)
      (.mk [("B".toList, .num (some (5 : Int)))] []) (some (.dict [(tx "E", nm 7)])) true = .ok 7 ∧
    pyAllocState (fun c => if (c.look "E".toList).isSome then .ok (exGet c "E") else .error .keyError)
      (.mk [("B".toList, .num (some (5 : Int)))] []) none true = .error .runtime := by
  decide +kernel

/-- **C82**, `extra` for texts of Python (`str`), which are read up to the first NUL. -/
theorem C82_extra_text_partial (a : Arith N) (strtod : Name → Option N) (l : List (Py N × Py N)) (hl : ScalarDict l)
    (d g text : Name) (ds : List (Name × Exp N)) (hd : Text strtod d (ds.map (fun p => .assign p.1 p.2)))
    (hg : IsGap g) (hg0 : g ≠ []) (hnd : (ds.map (·.1)).Nodup)
    (hkeys : ∀ n, n ∈ ds.map (·.1) ↔ ∃ v, (.str n, v) ∈ l)
    (hvals : ∀ p ∈ ds, ∃ v w x, Entry l p.1 v ∧ Scalar v w ∧ Val.toCV x = some w ∧ Means a (fun _ => none) p.2 x)
    (h0 : '\x00' ∉ d ++ (g ++ text)) (w : World (Cf N) X S) :
    pyParse a strtod (.text text) (some (.dict l)) = pyParse a strtod (.text (d ++ (g ++ text))) none ∧
      pyMachine a strtod w (.text text) (some (.dict l)) = pyMachine a strtod w (.text (d ++ (g ++ text))) none := by
  have ht : '\x00' ∉ text := fun h => h0 (by simp [h])
  have e : ∀ s x, '\x00' ∉ s → parse2Config a strtod (.text s) x = parse2Config a strtod (.bytes s) x := by
    intro s x hs
    unfold parse2Config
    dsimp only
    rw [cstr_id hs]
  have key := (C82_extra_partial a strtod l hl d g text ds hd hg hg0 hnd hkeys hvals w).1
  refine ⟨?_, ?_⟩
  · rw [pyParse, pyParse, e _ _ ht, e _ _ h0]
    exact key.1
  · rw [pyMachine, pyMachine, e _ _ ht, e _ _ h0]
    exact key.2

end Flame.Python
