import Verif.Util.Stamped
import Mathlib.Tactic.Common

/-!
# C91: data files of cavities and curves are up to date
-/

namespace Flame.Util.Stamped

/-! ### What the user sees -/

namespace Spec

variable {C T : Type}

/-- What a file says at a moment, read without any cache: `none` if it is missing or no text of the grammar. -/
def Says (parse : C → Option T) (past : List (Disk C)) (j : Nat) (p : String) (r : Option T) : Prop :=
  ∃ d, past[j]? = some d ∧ r = (d p).bind (fun f => parse f.2)

/-- Time stamps of a file tell the truth: they never go back, and as long as they are the same the file is unchanged. -/
def Honest (past : List (Disk C)) (p : String) : Prop :=
  ∀ (i j : Nat) (d d' : Disk C) (m m' : Int) (c c' : C), i ≤ j → past[i]? = some d → past[j]? = some d' → d p = some (m, c) → d' p = some (m', c') →
    m ≤ m' ∧ (m = m' → c = c')

end Spec

open Spec

/-! ### Keys -/

theorem digits_no_bar (m : Int) : '|' ∉ (toString m).toList := by
  have hn : ∀ n : Nat, '|' ∉ (toString n).toList := by
    intro n h
    have h1 : (toString n).toList = Nat.toDigits 10 n := by
      show (Nat.repr n).toList = _
      simp [Nat.repr]
    rw [h1] at h
    have := Nat.isDigit_of_mem_toDigits (b := 10) (by decide) (by decide) h
    revert this; decide
  cases m with
  | ofNat n => exact hn n
  | negSucc n =>
    show '|' ∉ (("-" ++ Nat.repr (n + 1)) : String).toList
    rw [String.toList_append]
    intro h
    rcases List.mem_append.1 h with h | h
    · revert h; decide
    · exact hn (n + 1) h

theorem toString_nat (n : Nat) : (toString n).toList = Nat.toDigits 10 n := by
  show (Nat.repr n).toList = _
  simp [Nat.repr]

theorem dash_not_digit (n : Nat) : '-' ∉ (toString n).toList := by
  intro h
  rw [toString_nat] at h
  have := Nat.isDigit_of_mem_toDigits (b := 10) (by decide) (by decide) h
  revert this; decide

theorem nat_inj {a b : Nat} (h : toString a = toString b) : a = b := by
  have h1 : Nat.toDigits 10 a = Nat.toDigits 10 b := by rw [← toString_nat, ← toString_nat, h]
  have := congrArg (fun l => Nat.ofDigitChars 10 l 0) h1
  simpa [Nat.ofDigitChars_toDigits (b := 10) (by decide) (by decide)] using this

theorem int_inj {a b : Int} (h : toString a = toString b) : a = b := by
  cases a with
  | ofNat a =>
    cases b with
    | ofNat b => exact congrArg Int.ofNat (nat_inj h)
    | negSucc b =>
      exfalso
      refine dash_not_digit a ?_
      have h' : toString a = "-" ++ Nat.repr (b + 1) := h
      rw [h', String.toList_append]
      exact List.mem_append_left _ (by decide)
  | negSucc a =>
    cases b with
    | ofNat b =>
      exfalso
      refine dash_not_digit b ?_
      have h' : "-" ++ Nat.repr (a + 1) = toString b := h
      rw [← h', String.toList_append]
      exact List.mem_append_left _ (by decide)
    | negSucc b =>
      have h' : "-" ++ Nat.repr (a + 1) = "-" ++ Nat.repr (b + 1) := h
      have h2 := congrArg String.toList h'
      rw [String.toList_append, String.toList_append] at h2
      have h3 := String.toList_injective (List.append_cancel_left h2)
      have := nat_inj (a := a + 1) (b := b + 1) h3
      have : a = b := by omega
      rw [this]

theorem split_bar {a b c d : List Char} (hb : '|' ∉ b) (hd : '|' ∉ d) (h : a ++ '|' :: b = c ++ '|' :: d) :
    a = c ∧ b = d := by
  rcases List.append_eq_append_iff.1 h with ⟨e, h1, h2⟩ | ⟨e, h1, h2⟩
  · cases e with
    | nil => simp_all
    | cons x e =>
      exfalso
      simp only [List.cons_append, List.cons.injEq] at h2
      exact hb (h2.2 ▸ (by simp))
  · cases e with
    | nil => simp_all
    | cons x e =>
      exfalso
      simp only [List.cons_append, List.cons.injEq] at h2
      exact hd (h2.2 ▸ (by simp))

/-- **C91**: whatever the paths are, different paths or times have different keys. -/
theorem C91_key {p q : String} {m n : Int} (h : key p m = key q n) : p = q ∧ m = n := by
  have h1 := congrArg String.toList h
  unfold key at h1
  rw [String.toList_append, String.toList_append, String.toList_append, String.toList_append, List.append_assoc,
    List.append_assoc] at h1
  have h2 : ("|" : String).toList = ['|'] := by decide
  rw [h2] at h1
  obtain ⟨h3, h4⟩ := split_bar (digits_no_bar m) (digits_no_bar n) h1
  exact ⟨String.toList_injective h3, int_inj (String.toList_injective h4)⟩

example : key "a|1" 2 ≠ key "a" 12 := by decide

/-! ### Invariant -/

variable {C T : Type}

/-- What is known about an entry of the map. -/
def Entry (parse : C → Option T) (past : List (Disk C)) (k : String) (v : Option T) : Prop :=
  ∃ (p : String) (m : Int) (c : C) (i j : Nat) (d : Disk C), k = key p m ∧ i ≤ j ∧ past[i]? = some d ∧ d p = some (m, c) ∧
    Says parse past j p v

/-- What is known about a finished call; `null`: null pointers may be stored. -/
def Done (null : Bool) (parse : C → Option T) (past : List (Disk C)) (r : Ret T) : Prop :=
  r.start ≤ r.stop ∧ (Honest past r.path → match r.out with
    | .data t => ∃ j, r.start ≤ j ∧ j ≤ r.stop ∧ Says parse past j r.path (some t)
    | .refused => ∃ j, r.start ≤ j ∧ j ≤ r.stop ∧ Says parse past j r.path none
    | .crash => null = true ∧ ∃ j, j ≤ r.stop ∧ Says parse past j r.path none)

structure Inv (null : Bool) (parse : C → Option T) (s : Sys C T) : Prop where
  last : s.past[s.now]? = some s.disk
  ne : 0 < s.past.length
  map : ∀ k v, s.map.find k = some v → (v = none → null = true) ∧ Entry parse s.past k v
  rets : ∀ r ∈ s.rets, r.stop < s.past.length ∧ Done null parse s.past r

theorem get_mono {past l : List (Disk C)} {j : Nat} {d : Disk C} (h : past[j]? = some d) : (past ++ l)[j]? = some d := by
  have hj : j < past.length := by
    by_contra hc
    rw [List.getElem?_eq_none (by omega)] at h
    exact absurd h (by simp)
  rw [List.getElem?_append_left hj]; exact h

theorem get_back {past l : List (Disk C)} {j : Nat} {d : Disk C} (hj : j < past.length) (h : (past ++ l)[j]? = some d) :
    past[j]? = some d := by
  rw [List.getElem?_append_left hj] at h; exact h

theorem Says.mono {parse : C → Option T} {past : List (Disk C)} {j : Nat} {p : String} {r : Option T}
    (h : Says parse past j p r) (l : List (Disk C)) : Says parse (past ++ l) j p r := by
  obtain ⟨d, h1, h2⟩ := h
  exact ⟨d, get_mono h1, h2⟩

theorem Honest.back {past l : List (Disk C)} {p : String} (h : Honest (past ++ l) p) : Honest past p :=
  fun i j d d' m m' c c' hij h1 h2 h3 h4 => h i j d d' m m' c c' hij (get_mono h1) (get_mono h2) h3 h4

theorem Entry.mono {parse : C → Option T} {past : List (Disk C)} {k : String} {v : Option T} (h : Entry parse past k v)
    (l : List (Disk C)) : Entry parse (past ++ l) k v := by
  obtain ⟨p, m, c, i, j, d, h1, h2, h3, h4, h5⟩ := h
  exact ⟨p, m, c, i, j, d, h1, h2, get_mono h3, h4, Says.mono h5 l⟩

theorem Done.mono {null : Bool} {parse : C → Option T} {past : List (Disk C)} {r : Ret T} (h : Done null parse past r)
    (l : List (Disk C)) : Done null parse (past ++ l) r := by
  refine ⟨h.1, fun hh => ?_⟩
  have h2 := h.2 (Honest.back hh)
  cases ho : r.out with
  | data t =>
    rw [ho] at h2
    obtain ⟨j, a, b, c⟩ := h2
    exact ⟨j, a, b, Says.mono c l⟩
  | refused =>
    rw [ho] at h2
    obtain ⟨j, a, b, c⟩ := h2
    exact ⟨j, a, b, Says.mono c l⟩
  | crash =>
    rw [ho] at h2
    obtain ⟨n, j, a, c⟩ := h2
    exact ⟨n, j, a, Says.mono c l⟩

theorem write_inv {null : Bool} {parse : C → Option T} {s : Sys C T} (h : Inv null parse s) (w : Write C) :
    Inv null parse (s.write w) := by
  refine ⟨?_, ?_, ?_, ?_⟩
  · have : (s.write w).now = s.past.length := by
      show (s.past ++ [_]).length - 1 = _
      simp
    rw [this]
    show (s.past ++ [_])[s.past.length]? = _
    simp [Sys.write]
  · show 0 < (s.past ++ [_]).length
    simp
  · intro k v hk
    obtain ⟨h1, h2⟩ := h.map k v hk
    exact ⟨h1, h2.mono _⟩
  · intro r hr
    obtain ⟨h1, h2⟩ := h.rets r hr
    refine ⟨?_, h2.mono _⟩
    show r.stop < (s.past ++ [_]).length
    simp; omega

theorem writes_inv {null : Bool} {parse : C → Option T} (l : List (Write C)) {s : Sys C T} (h : Inv null parse s) :
    Inv null parse (l.foldl Sys.write s) ∧ (l.foldl Sys.write s).map = s.map ∧
      (∃ more, (l.foldl Sys.write s).past = s.past ++ more) := by
  induction l generalizing s with
  | nil => exact ⟨h, rfl, [], by simp⟩
  | cons w l ih =>
    obtain ⟨h1, hm, more, h2⟩ := ih (write_inv h w)
    refine ⟨h1, hm, (s.write w).disk :: more, ?_⟩
    rw [List.foldl_cons, h2]
    show (s.past ++ [_]) ++ more = _
    simp [Sys.write]

/-- A fetch with the facts both functions share. -/
structure Fetch (null : Bool) (parse : C → Option T) (fetch : String → Disk C → Disk C → Map T → Map T × Out T) : Prop where
  missing : ∀ p d1 d2 m, d1 p = none → fetch p d1 d2 m = (m, .refused)
  hit : ∀ p d1 d2 m time c t, d1 p = some (time, c) → m.find (key p time) = some (some t) → fetch p d1 d2 m = (m, .data t)
  bad : ∀ p d1 d2 m time c, d1 p = some (time, c) → m.find (key p time) = some none → fetch p d1 d2 m = (m, .crash)
  miss : ∀ p d1 d2 m time c t, d1 p = some (time, c) → m.find (key p time) = none →
    (d2 p).bind (fun f => parse f.2) = some t → fetch p d1 d2 m = ((key p time, some t) :: m, .data t)
  fail : ∀ p d1 d2 m time c, d1 p = some (time, c) → m.find (key p time) = none →
    (d2 p).bind (fun f => parse f.2) = none →
    fetch p d1 d2 m = if null then ((key p time, none) :: m, .crash) else (m, .refused)

theorem cavity_fetch (parse : C → Option T) : Fetch true parse (cavityFile parse) := by
  refine ⟨?_, ?_, ?_, ?_, ?_⟩
  · intro p d1 d2 m h; simp [cavityFile, h]
  · intro p d1 d2 m time c t h h2; simp [cavityFile, h, h2]
  · intro p d1 d2 m time c h h2; simp [cavityFile, h, h2]
  · intro p d1 d2 m time c t h h2 h3; simp [cavityFile, h, h2, h3]
  · intro p d1 d2 m time c h h2 h3; simp [cavityFile, h, h2, h3]

theorem curve_fetch (parse : C → Option T) : Fetch false parse (curveFile parse) := by
  refine ⟨?_, ?_, ?_, ?_, ?_⟩
  · intro p d1 d2 m h; simp [curveFile, h]
  · intro p d1 d2 m time c t h h2; simp [curveFile, h, h2]
  · intro p d1 d2 m time c h h2; simp [curveFile, h, h2]
  · intro p d1 d2 m time c t h h2 h3; simp [curveFile, h, h2, h3]
  · intro p d1 d2 m time c h h2 h3; simp [curveFile, h, h2, h3]

theorem find_cons {m : Map T} {k k' : String} {v : Option T} {w : Option T} (h : Map.find k' ((k, v) :: m) = some w) :
    (k = k' ∧ v = w) ∨ m.find k' = some w := by
  unfold Map.find at h
  split at h
  · rename_i hk
    exact Or.inl ⟨hk, Option.some.inj h⟩
  · exact Or.inr h

/-- A hit is what the file says now. -/
theorem hit_says {parse : C → Option T} {p : String} {time : Int} {c : C}
    {past : List (Disk C)} {v : Option T} {n : Nat} {d : Disk C} (hn : past[n]? = some d) (hlen : past.length = n + 1)
    (hd : d p = some (time, c)) (hv : Entry parse past (key p time) v) (hh : Honest past p) :
    v = none ∨ Says parse past n p v := by
  obtain ⟨q, m, c0, i, j, d0, h1, h2, h3, h4, d', h5, h6⟩ := hv
  obtain ⟨rfl, rfl⟩ := C91_key h1
  cases hv : d' p with
  | none => left; rw [h6, hv]; rfl
  | some f =>
    obtain ⟨m', c'⟩ := f
    have hj : j < past.length := by
      by_contra hc
      rw [List.getElem?_eq_none (by omega)] at h5
      exact absurd h5 (by simp)
    have e1 := hh i j d0 d' _ m' c0 c' h2 h3 h5 h4 hv
    have e2 := hh j n d' d m' _ c' c (by omega) h5 hn hv hd
    have e3 : m' = time := by omega
    right
    refine ⟨d, hn, ?_⟩
    rw [h6, hv, hd, e2.2 e3]
    rfl

theorem fetch_inv {null : Bool} {parse : C → Option T} {fetch : String → Disk C → Disk C → Map T → Map T × Out T}
    (hf : Fetch null parse fetch) {s : Sys C T} (h : Inv null parse s) (p : String) (during : List (Write C)) :
    Inv null parse (step fetch s (.fetch p during)) := by
  obtain ⟨h', hmap, more, hp⟩ := writes_inv during h
  have hlen : s.past.length = s.now + 1 := by unfold Sys.now; have := h.ne; omega
  unfold step
  dsimp only
  generalize during.foldl Sys.write s = s' at h' hp hmap
  have hlen' : s'.past.length = s'.now + 1 := by unfold Sys.now; have := h'.ne; omega
  have hle : s.now ≤ s'.now := by
    have := congrArg List.length hp
    rw [List.length_append] at this
    omega
  have hst : s'.past[s.now]? = some s.disk := by rw [hp]; exact get_mono h.last
  have key1 : ∀ r : Map T × Out T, fetch p s.disk s'.disk s'.map = r →
      (∀ k v, r.1.find k = some v → (v = none → null = true) ∧ Entry parse s'.past k v) →
      Done null parse s'.past ⟨p, s.now, s'.now, r.2⟩ →
      Inv null parse { s' with
        map := (fetch p s.disk s'.disk s'.map).1
        rets := s'.rets ++ [⟨p, s.now, s'.now, (fetch p s.disk s'.disk s'.map).2⟩] } := by
    intro r hr h1 h2
    rw [hr]
    refine ⟨h'.last, h'.ne, h1, ?_⟩
    intro x hx
    rcases List.mem_append.1 hx with hx | hx
    · exact h'.rets x hx
    · rw [List.mem_singleton.1 hx]
      refine ⟨?_, h2⟩
      show s'.now < s'.past.length
      omega
  cases hd : s.disk p with
  | none =>
    refine key1 _ (hf.missing p _ _ _ hd) h'.map ⟨hle, fun _ => ⟨s.now, le_refl _, hle, s.disk, hst, ?_⟩⟩
    rw [hd]; rfl
  | some f =>
    obtain ⟨time, c⟩ := f
    cases hm : s'.map.find (key p time) with
    | some v =>
      obtain ⟨e1, e2⟩ := h.map _ _ (hmap ▸ hm)
      cases v with
      | some t =>
        refine key1 _ (hf.hit p _ _ _ time c t hd hm) h'.map ⟨hle, fun hh => ⟨s.now, le_refl _, hle, ?_⟩⟩
        rw [hp] at hh ⊢
        rcases hit_says h.last hlen hd e2 (Honest.back hh) with hc | hc
        · exact absurd hc (by simp)
        · exact Says.mono hc more
      | none =>
        refine key1 _ (hf.bad p _ _ _ time c hd hm) h'.map ⟨hle, fun hh => ⟨e1 rfl, ?_⟩⟩
        obtain ⟨q, m, c0, i, j, d0, h1, h2, h3, h4, d', h5, h6⟩ := e2
        obtain ⟨rfl, rfl⟩ := C91_key h1
        have hj : j < s.past.length := by
          by_contra hc
          rw [List.getElem?_eq_none (by omega)] at h5
          exact absurd h5 (by simp)
        refine ⟨j, by show j ≤ s'.now; omega, ?_⟩
        rw [hp]
        exact Says.mono ⟨d', h5, h6⟩ more
    | none =>
      have hE : ∀ v, Says parse s'.past s'.now p v → Entry parse s'.past (key p time) v :=
        fun v hv => ⟨p, time, c, s.now, s'.now, s.disk, rfl, hle, hst, hd, hv⟩
      have hS : Says parse s'.past s'.now p ((s'.disk p).bind (fun f => parse f.2)) := ⟨s'.disk, h'.last, rfl⟩
      cases hb : (s'.disk p).bind (fun f => parse f.2) with
      | some t =>
        rw [hb] at hS
        refine key1 _ (hf.miss p _ _ _ time c t hd hm hb) ?_ ⟨hle, fun hh => ⟨s'.now, hle, le_refl _, hS⟩⟩
        intro k v hk
        rcases find_cons hk with ⟨rfl, rfl⟩ | hk
        · exact ⟨fun h => by simp at h, hE _ hS⟩
        · exact h'.map k v hk
      | none =>
        rw [hb] at hS
        have e := hf.fail p s.disk s'.disk s'.map time c hd hm hb
        cases null with
        | true =>
          rw [if_pos rfl] at e
          refine key1 _ e ?_ ⟨hle, fun hh => ⟨rfl, s'.now, le_refl _, hS⟩⟩
          intro k v hk
          rcases find_cons hk with ⟨rfl, rfl⟩ | hk
          · exact ⟨fun _ => rfl, hE _ hS⟩
          · exact h'.map k v hk
        | false =>
          rw [if_neg (by simp)] at e
          exact key1 _ e h'.map ⟨hle, fun hh => ⟨s'.now, hle, le_refl _, hS⟩⟩

theorem run_inv {null : Bool} {parse : C → Option T} {fetch : String → Disk C → Disk C → Map T → Map T × Out T}
    (hf : Fetch null parse fetch) (d : Disk C) (l : List (Ev C)) : Inv null parse (run fetch d l) := by
  have h : ∀ (l : List (Ev C)) (s : Sys C T), Inv null parse s → Inv null parse (l.foldl (step fetch) s) := by
    intro l
    induction l with
    | nil => intro s h; exact h
    | cons e l ih =>
      intro s h
      refine ih _ ?_
      cases e with
      | write w => exact write_inv h w
      | fetch p during => exact fetch_inv hf h p during
  refine h l _ ⟨rfl, by simp [Sys.start], ?_, ?_⟩
  · intro k v hk; simp [Sys.start, Map.find] at hk
  · intro r hr; simp [Sys.start] at hr

/-- **C91**: the curves an element gets, and the refusal, are what its file says at a moment between the time stamp and the end
of the call - whatever happened before, and also if the file is changed in the meantime - provided its time stamps are honest. -/
theorem C91_curves (parse : C → Option T) (d : Disk C) (l : List (Ev C)) (r : Ret T)
    (hr : r ∈ (run (curveFile parse) d l).rets) (hh : Honest (run (curveFile parse) d l).past r.path) :
    ∃ j said, r.start ≤ j ∧ j ≤ r.stop ∧ Says parse (run (curveFile parse) d l).past j r.path said ∧
      r.out = match said with
        | some t => .data t
        | none => .refused := by
  have h := (((run_inv (curve_fetch parse) d l).rets r hr).2).2 hh
  cases ho : r.out with
  | data t =>
    rw [ho] at h
    obtain ⟨j, a, b, c⟩ := h
    exact ⟨j, some t, a, b, c, rfl⟩
  | refused =>
    rw [ho] at h
    obtain ⟨j, a, b, c⟩ := h
    exact ⟨j, none, a, b, c, rfl⟩
  | crash =>
    rw [ho] at h
    exact absurd h.1 (by simp)

/-- **C91**: the data of a generic cavity, likewise, except that the program crashes when the file is or was missing or faulty.
In particular the data are always those of the file if the file has been there and well formed from the start of the program
on. -/
theorem C91_cavity_partial (parse : C → Option T) (d : Disk C) (l : List (Ev C)) (r : Ret T)
    (hr : r ∈ (run (cavityFile parse) d l).rets) (hh : Honest (run (cavityFile parse) d l).past r.path) :
    (∃ j t, r.start ≤ j ∧ j ≤ r.stop ∧ Says parse (run (cavityFile parse) d l).past j r.path (some t) ∧ r.out = .data t) ∨
    (∃ j, r.start ≤ j ∧ j ≤ r.stop ∧ Says parse (run (cavityFile parse) d l).past j r.path none ∧ r.out = .refused) ∨
    (∃ j, j ≤ r.stop ∧ Says parse (run (cavityFile parse) d l).past j r.path none ∧ r.out = .crash) := by
  have h := (((run_inv (cavity_fetch parse) d l).rets r hr).2).2 hh
  cases ho : r.out with
  | data t =>
    rw [ho] at h
    obtain ⟨j, a, b, c⟩ := h
    exact Or.inl ⟨j, t, a, b, c, rfl⟩
  | refused =>
    rw [ho] at h
    obtain ⟨j, a, b, c⟩ := h
    exact Or.inr (Or.inl ⟨j, a, b, c, rfl⟩)
  | crash =>
    rw [ho] at h
    obtain ⟨_, j, a, c⟩ := h
    exact Or.inr (Or.inr ⟨j, a, c, rfl⟩)

/-- **C91, false** for generic cavities: after every history a file that is no text of the grammar crashes the program instead of
being refused. -/
theorem C91_faulty_false (parse : C → Option T) (d : Disk C) (l : List (Ev C)) (p : String) (m : Int) (c : C)
    (hd : (run (cavityFile parse) d l).disk p = some (m, c)) (hc : parse c = none)
    (hh : Honest (run (cavityFile parse) d l).past p) :
    ∃ r, (run (cavityFile parse) d (l ++ [.fetch p []])).rets = (run (cavityFile parse) d l).rets ++ [r] ∧ r.path = p ∧
      r.out = .crash := by
  have hi := run_inv (cavity_fetch parse) d l
  have e : run (cavityFile parse) d (l ++ [.fetch p []]) = step (cavityFile parse) (run (cavityFile parse) d l) (.fetch p []) := by
    unfold run
    rw [List.foldl_append]
    rfl
  rw [e]
  generalize run (cavityFile parse) d l = s at hd hh hi
  refine ⟨_, rfl, rfl, ?_⟩
  show (cavityFile parse p s.disk s.disk s.map).2 = .crash
  cases hm : s.map.find (key p m) with
  | none =>
    rw [(cavity_fetch parse).fail p s.disk s.disk s.map m c hd hm (by rw [hd]; exact hc)]
    rfl
  | some v =>
    cases v with
    | none => rw [(cavity_fetch parse).bad p s.disk s.disk s.map m c hd hm]
    | some t =>
      exfalso
      have hlen : s.past.length = s.now + 1 := by unfold Sys.now; have := hi.ne; omega
      rcases hit_says hi.last hlen hd (hi.map _ _ hm).2 hh with h | ⟨d', h1, h2⟩
      · exact absurd h (by simp)
      · rw [hi.last] at h1
        obtain rfl := Option.some.inj h1
        rw [hd] at h2
        exact absurd (h2.trans hc) (by simp)

/-! ### Examples

The content of a file is a number, odd numbers are faulty texts. -/

/-- A parser for the examples. -/
def exParse (c : Nat) : Option Nat := if c % 2 = 0 then some (c / 2) else none

/-- One file, written at second 10. -/
def exDisk : Disk Nat := fun p => if p = "./cav.dat" then some (10, 8) else none

/-- The file is used twice, rewritten while it is used (second 12), and used again. -/
def exEvents : List (Ev Nat) :=
  [.fetch "./cav.dat" [], .fetch "./cav.dat" [], .write ⟨"./cav.dat", some (11, 6)⟩,
   .fetch "./cav.dat" [⟨"./cav.dat", some (12, 20)⟩], .fetch "./cav.dat" [], .fetch "./other.dat" []]

/-- The order of two versions of a file. -/
def later : Option (Int × Nat) → Option (Int × Nat) → Bool
  | some (m, c), some (m', c') => decide (m < m') || (decide (m = m') && decide (c = c'))
  | _, _ => true

theorem honest_of {past : List (Disk Nat)} {p : String} (h : (past.map (fun d => d p)).Pairwise (fun a b => later a b = true)) :
    Honest past p := by
  intro i j d d' m m' c c' hij h1 h2 h3 h4
  rcases Nat.lt_or_ge i j with hlt | hge
  · obtain ⟨hi, e1⟩ := List.getElem?_eq_some_iff.1 h1
    obtain ⟨hj, e2⟩ := List.getElem?_eq_some_iff.1 h2
    have := List.pairwise_iff_getElem.1 h i j (by simpa using hi) (by simpa using hj) hlt
    rw [List.getElem_map, List.getElem_map, e1, e2, h3, h4] at this
    simp only [later, Bool.or_eq_true, Bool.and_eq_true, decide_eq_true_eq] at this
    rcases this with hl | ⟨rfl, rfl⟩
    · exact ⟨le_of_lt hl, fun e => by omega⟩
    · exact ⟨le_refl _, fun _ => rfl⟩
  · obtain rfl : i = j := by omega
    rw [h1] at h2
    obtain rfl := Option.some.inj h2
    rw [h3] at h4
    obtain ⟨rfl, rfl⟩ := Prod.mk.inj (Option.some.inj h4)
    exact ⟨le_refl _, fun _ => rfl⟩

/-- What the calls give. -/
def outs (s : Sys Nat Nat) : List (Out Nat) := s.rets.map Ret.out

example : outs (run (cavityFile exParse) exDisk exEvents) = [.data 4, .data 4, .data 10, .data 10, .refused] := by decide
example : outs (run (curveFile exParse) exDisk exEvents) = [.data 4, .data 4, .data 10, .data 10, .refused] := by decide

/-- The hypothesis of the theorems is met by this history. -/
example : ∀ r ∈ (run (cavityFile exParse) exDisk exEvents).rets,
    Honest (run (cavityFile exParse) exDisk exEvents).past r.path := by
  intro r _
  apply honest_of
  have h : (run (cavityFile exParse) exDisk exEvents).past.map (fun d => d r.path) =
      [if r.path = "./cav.dat" then some (10, 8) else none, if r.path = "./cav.dat" then some (11, 6) else none,
       if r.path = "./cav.dat" then some (12, 20) else none] := by
    simp only [run, exEvents, List.foldl, step, Sys.write, Sys.start, exDisk, List.map, List.cons_append,
      List.nil_append, List.map_cons]
    split <;> simp
  rw [h]
  split <;> decide

/-- **C91, false** for a file that is changed twice within a second: the second change is never seen. -/
theorem C91_second_false : outs (run (curveFile exParse) exDisk
    [.fetch "./cav.dat" [], .write ⟨"./cav.dat", some (10, 2)⟩, .fetch "./cav.dat" []]) = [.data 4, .data 4] ∧
    exParse 2 = some 1 := by decide

example : outs (run (cavityFile exParse) exDisk [.write ⟨"./cav.dat", some (11, 3)⟩, .fetch "./cav.dat" []]) = [.crash] ∧
    outs (run (curveFile exParse) exDisk [.write ⟨"./cav.dat", some (11, 3)⟩, .fetch "./cav.dat" []]) = [.refused] := by decide

/-- **C91, false** if an older version comes back with its old time stamp after a change during a call: the newer one is
used. -/
theorem C91_restored_false : outs (run (curveFile exParse) exDisk
    [.fetch "./cav.dat" [⟨"./cav.dat", some (12, 20)⟩], .write ⟨"./cav.dat", some (10, 8)⟩, .fetch "./cav.dat" []]) =
      [.data 10, .data 10] ∧ exParse 8 = some 4 := by decide

end Flame.Util.Stamped
