import Verif.Util.Cache
import Mathlib.Order.Basic
import Mathlib.Tactic.Common

/-!
# C43: the table cache
-/

namespace Flame.Util.Cache

variable {P C T : Type}

/-! ### What the user sees -/

/-- At moment `j` the file `p` had time stamp `m` and content `c`. -/
def Had (h : List (Files P C)) (j : Nat) (p : P) (m : Nat) (c : C) : Prop := ∃ f, h[j]? = some f ∧ f p = some (m, c)

/-- Time stamps tell the truth: they never go back, and a file with the same time stamp is unchanged. -/
def Honest (h : List (Files P C)) (p : P) : Prop :=
  ∀ i j m m' c c', i ≤ j → Had h i p m c → Had h j p m' c' → m ≤ m' ∧ (m = m' → c = c')

/-- No file is changed by others between the moment `fetch` has read it and the moment `fetch` takes its
second time stamp. -/
def Quiet (s : Sys P C T) : Ev P C → Prop
  | .write p _ => ∀ i st t, s.phase i ≠ .stamping p st t
  | _ => True

/-! ### Invariant -/

variable [DecidableEq P]

/-- The invariant; `q` says that the run is quiet. -/
structure Inv (q : Prop) (parse : C → Option T) (s : Sys P C T) : Prop where
  last : s.hist[s.now]? = some s.files
  ne : 0 < s.hist.length
  cl : s.cleared ≤ s.now
  wait : ∀ i p m st, s.phase i = .waiting p m st → ∃ c, Had s.hist st p m c
  read : ∀ i p st, s.phase i = .reading p st → s.busy = some i ∧ st ≤ s.now
  stmp : ∀ i p st t, s.phase i = .stamping p st t → s.busy = some i ∧ ∃ j m c, st ≤ j ∧ s.cleared ≤ j ∧
    Had s.hist j p m c ∧ parse c = some t ∧ (q → s.files p = some (m, c))
  cach : ∀ p l t, s.cache p = some (l, t) → ∃ j m c, s.cleared ≤ j ∧ Had s.hist j p m c ∧ parse c = some t ∧
    (q → l ≤ m)
  rets : ∀ r ∈ s.rets, ∀ t, r.res = some t → ∃ j m c, r.cleared ≤ j ∧ Had s.hist j r.path m c ∧ parse c = some t ∧
    (q → r.start ≤ j ∨ ∃ m0 c0, Had s.hist r.start r.path m0 c0 ∧ m0 ≤ m)

theorem Had.mono {h : List (Files P C)} {j : Nat} {p : P} {m : Nat} {c : C} (x : Had h j p m c) (l : List (Files P C)) :
    Had (h ++ l) j p m c := by
  obtain ⟨f, h1, h2⟩ := x
  have hj : j < h.length := by
    by_contra hn
    rw [List.getElem?_eq_none (by omega)] at h1
    cases h1
  exact ⟨f, by rw [List.getElem?_append_left hj, h1], h2⟩

theorem Had.lt {h : List (Files P C)} {j : Nat} {p : P} {m : Nat} {c : C} (x : Had h j p m c) : j < h.length := by
  obtain ⟨f, h1, h2⟩ := x
  by_contra hn
  rw [List.getElem?_eq_none (by omega)] at h1
  cases h1

theorem now_tick (s : Sys P C T) : s.tick.now = s.hist.length := by simp [Sys.now, Sys.tick]

theorem inv_tick {q : Prop} {parse : C → Option T} {s : Sys P C T}
    (ne : 0 < s.hist.length)
    (cl : s.cleared ≤ s.now)
    (wait : ∀ i p m st, s.phase i = .waiting p m st → ∃ c, Had s.hist st p m c)
    (read : ∀ i p st, s.phase i = .reading p st → s.busy = some i ∧ st ≤ s.now)
    (stmp : ∀ i p st t, s.phase i = .stamping p st t → s.busy = some i ∧ ∃ j m c, st ≤ j ∧ s.cleared ≤ j ∧
      Had s.hist j p m c ∧ parse c = some t ∧ (q → s.files p = some (m, c)))
    (cach : ∀ p l t, s.cache p = some (l, t) → ∃ j m c, s.cleared ≤ j ∧ Had s.hist j p m c ∧ parse c = some t ∧
      (q → l ≤ m))
    (rets : ∀ r ∈ s.rets, ∀ t, r.res = some t → ∃ j m c, r.cleared ≤ j ∧ Had s.hist j r.path m c ∧ parse c = some t ∧
      (q → r.start ≤ j ∨ ∃ m0 c0, Had s.hist r.start r.path m0 c0 ∧ m0 ≤ m)) :
    Inv q parse s.tick := by
  have hnow : s.now ≤ s.tick.now := by rw [now_tick]; unfold Sys.now; omega
  refine ⟨?_, ?_, Nat.le_trans cl hnow, ?_, ?_, ?_, ?_, ?_⟩
  · rw [now_tick]
    simp [Sys.tick]
  · simp [Sys.tick]
  · intro i p m st h
    obtain ⟨c, hc⟩ := wait i p m st h
    exact ⟨c, hc.mono _⟩
  · intro i p st h
    obtain ⟨h1, h2⟩ := read i p st h
    exact ⟨h1, Nat.le_trans h2 hnow⟩
  · intro i p st t h
    obtain ⟨h1, j, m, c, h2, h3, h4, h5, h6⟩ := stmp i p st t h
    exact ⟨h1, j, m, c, h2, h3, h4.mono _, h5, h6⟩
  · intro p l t h
    obtain ⟨j, m, c, h2, h4, h5, h6⟩ := cach p l t h
    exact ⟨j, m, c, h2, h4.mono _, h5, h6⟩
  · intro r hr t h
    obtain ⟨j, m, c, h2, h4, h5, h6⟩ := rets r hr t h
    refine ⟨j, m, c, h2, h4.mono _, h5, fun hq => ?_⟩
    rcases h6 hq with h | ⟨m0, c0, h7, h8⟩
    · exact .inl h
    · exact .inr ⟨m0, c0, h7.mono _, h8⟩

/-- Phases after one of them has changed. -/
theorem setPhase_eq {s : Sys P C T} {i j : Nat} {ph : Phase P T} :
    (s.setPhase i ph).phase j = if j = i then ph else s.phase j := rfl

theorem inv_step {q : Prop} {abs : P → Bool} {parse : C → Option T} {s s' : Sys P C T} {e : Ev P C}
    (h : Inv q parse s) (hq : q → Quiet s e) (hs : step abs parse s e = some s') : Inv q parse s'.tick := by
  have hnow : ∀ p m c, s.files p = some (m, c) → Had s.hist s.now p m c := fun p m c hf => ⟨s.files, h.last, hf⟩
  -- a call that fails
  have fail : ∀ i p st (b : Option Nat), (b = s.busy ∨ s.busy = some i) → (b = s.busy → ∀ p st t, s.phase i ≠ .stamping p st t) →
      (b = s.busy → ∀ p st, s.phase i ≠ .reading p st) →
      Inv q parse ({ s.ret i p st none with busy := b } : Sys P C T).tick := by
    intro i p st b hb n1 n2
    refine inv_tick h.ne h.cl ?_ ?_ ?_ h.cach ?_
    · intro j p' m st' hj
      simp only [Sys.ret, setPhase_eq] at hj
      split at hj
      · cases hj
      · exact h.wait j p' m st' hj
    · intro j p' st' hj
      simp only [Sys.ret, setPhase_eq] at hj
      split at hj
      · cases hj
      · rename_i hji
        have := h.read j p' st' hj
        rcases hb with hb | hb
        · exact ⟨by rw [← this.1]; exact hb, this.2⟩
        · rw [this.1] at hb
          injection hb with hb
          exact absurd hb hji
    · intro j p' st' t hj
      simp only [Sys.ret, setPhase_eq] at hj
      split at hj
      · cases hj
      · rename_i hji
        have := h.stmp j p' st' t hj
        rcases hb with hb | hb
        · exact ⟨by rw [← this.1]; exact hb, this.2⟩
        · rw [this.1] at hb
          injection hb with hb
          exact absurd hb hji
    · intro r hr t ht
      simp only [Sys.ret] at hr
      rcases List.mem_append.1 hr with hr | hr
      · exact h.rets r hr t ht
      · rw [List.mem_singleton.1 hr] at ht
        cases ht
  cases e with
  | write p v =>
    simp only [step, Option.some.injEq] at hs
    subst hs
    refine inv_tick h.ne h.cl h.wait h.read ?_ h.cach h.rets
    intro i p' st t hi
    obtain ⟨h1, j, m, c, h2, h3, h4, h5, h6⟩ := h.stmp i p' st t hi
    refine ⟨h1, j, m, c, h2, h3, h4, h5, fun q' => ?_⟩
    have hne : p' ≠ p := by
      rintro rfl
      exact hq q' i st t hi
    simp only [if_neg hne]
    exact h6 q'
  | call i p =>
    simp only [step] at hs
    split at hs
    · rename_i hidle
      have hf := fail i p s.now s.busy (.inl rfl) (fun _ _ _ _ => by rw [hidle]; intro hc; cases hc)
        (fun _ _ _ => by rw [hidle]; intro hc; cases hc)
      split at hs
      · split at hs
        · cases hs
          exact hf
        · rename_i m c hfile
          cases hs
          refine inv_tick h.ne h.cl ?_ ?_ ?_ h.cach h.rets
          · intro j p' m' st' hj
            rw [setPhase_eq] at hj
            split at hj
            · cases hj
              exact ⟨c, hnow _ _ _ hfile⟩
            · exact h.wait j p' m' st' hj
          · intro j p' st' hj
            rw [setPhase_eq] at hj
            split at hj
            · cases hj
            · exact h.read j p' st' hj
          · intro j p' st' t hj
            rw [setPhase_eq] at hj
            split at hj
            · cases hj
            · exact h.stmp j p' st' t hj
      · cases hs
        exact hf
    · cases hs
  | enter i =>
    simp only [step] at hs
    split at hs
    · rename_i p m st hph hbusy
      have noR : ∀ j p' st', s.phase j ≠ .reading p' st' := by
        intro j p' st' hj
        have := (h.read j p' st' hj).1
        rw [hbusy] at this
        cases this
      have noS : ∀ j p' st' t, s.phase j ≠ .stamping p' st' t := by
        intro j p' st' t hj
        have := (h.stmp j p' st' t hj).1
        rw [hbusy] at this
        cases this
      obtain ⟨c0, hc0⟩ := h.wait i p m st hph
      have miss : Inv q parse ({ s.setPhase i (.reading p st) with busy := some i } : Sys P C T).tick := by
        refine inv_tick h.ne h.cl ?_ ?_ ?_ h.cach h.rets
        · intro j p' m' st' hj
          simp only [setPhase_eq] at hj
          split at hj
          · cases hj
          · exact h.wait j p' m' st' hj
        · intro j p' st' hj
          simp only [setPhase_eq] at hj
          split at hj
          · rename_i hji
            cases hj
            refine ⟨by rw [hji], ?_⟩
            have := hc0.lt
            simp only [Sys.now, Sys.setPhase]
            omega
          · exact absurd hj (noR j p' st')
        · intro j p' st' t hj
          simp only [setPhase_eq] at hj
          split at hj
          · cases hj
          · exact absurd hj (noS j p' st' t)
      split at hs
      · rename_i lastmod t hcache
        split at hs
        · cases hs
          exact miss
        · rename_i hle
          cases hs
          obtain ⟨j, m', c, h2, h4, h5, h6⟩ := h.cach p lastmod t hcache
          refine inv_tick h.ne h.cl ?_ ?_ ?_ h.cach ?_
          · intro j p' m' st' hj
            simp only [Sys.ret, setPhase_eq] at hj
            split at hj
            · cases hj
            · exact h.wait j p' m' st' hj
          · intro j p' st' hj
            simp only [Sys.ret, setPhase_eq] at hj
            split at hj
            · cases hj
            · exact h.read j p' st' hj
          · intro j p' st' t hj
            simp only [Sys.ret, setPhase_eq] at hj
            split at hj
            · cases hj
            · exact h.stmp j p' st' t hj
          · intro r hr t' ht
            simp only [Sys.ret] at hr
            rcases List.mem_append.1 hr with hr | hr
            · exact h.rets r hr t' ht
            · rw [List.mem_singleton.1 hr] at ht ⊢
              injection ht with ht
              subst ht
              refine ⟨j, m', c, h2, h4, h5, fun hq' => .inr ⟨m, c0, hc0, ?_⟩⟩
              have := h6 hq'
              omega
      · cases hs
        exact miss
    · cases hs
  | load i =>
    simp only [step] at hs
    split at hs
    · rename_i p st hph
      obtain ⟨hb, hst⟩ := h.read i p st hph
      split at hs
      · cases hs
        exact fail i p st none (.inr hb) (fun hc => by rw [hb] at hc; cases hc)
          (fun hc => by rw [hb] at hc; cases hc)
      · rename_i t hparse
        cases hs
        obtain ⟨⟨m, c⟩, hfile, hpc⟩ := Option.bind_eq_some_iff.1 hparse
        refine inv_tick h.ne h.cl ?_ ?_ ?_ h.cach h.rets
        · intro j p' m' st' hj
          rw [setPhase_eq] at hj
          split at hj
          · cases hj
          · exact h.wait j p' m' st' hj
        · intro j p' st' hj
          rw [setPhase_eq] at hj
          split at hj
          · cases hj
          · exact h.read j p' st' hj
        · intro j p' st' t' hj
          rw [setPhase_eq] at hj
          split at hj
          · rename_i hji
            cases hj
            exact ⟨by rw [hji]; exact hb, s.now, m, c, hst, h.cl, hnow _ _ _ hfile, hpc, fun _ => hfile⟩
          · exact h.stmp j p' st' t' hj
    · cases hs
  | stamp i =>
    simp only [step] at hs
    split at hs
    · rename_i p st t hph
      obtain ⟨hb, j, m, c, h2, h3, h4, h5, h6⟩ := h.stmp i p st t hph
      split at hs
      · cases hs
        exact fail i p st none (.inr hb) (fun hc => by rw [hb] at hc; cases hc)
          (fun hc => by rw [hb] at hc; cases hc)
      · rename_i m' c' hfile
        cases hs
        refine inv_tick h.ne h.cl ?_ ?_ ?_ ?_ ?_
        · intro k p' m'' st' hj
          simp only [Sys.ret, setPhase_eq] at hj
          split at hj
          · cases hj
          · exact h.wait k p' m'' st' hj
        · intro k p' st' hj
          simp only [Sys.ret, setPhase_eq] at hj
          split at hj
          · cases hj
          · rename_i hki
            have := (h.read k p' st' hj).1
            rw [hb] at this
            injection this with this
            exact absurd this.symm hki
        · intro k p' st' t' hj
          simp only [Sys.ret, setPhase_eq] at hj
          split at hj
          · cases hj
          · rename_i hki
            have := (h.stmp k p' st' t' hj).1
            rw [hb] at this
            injection this with this
            exact absurd this.symm hki
        · intro p' l t' hc
          simp only at hc
          split at hc
          · rename_i hpp
            injection hc with hc
            injection hc with hl ht
            subst hl ht hpp
            refine ⟨j, m, c, h3, h4, h5, fun hq' => ?_⟩
            have := h6 hq'
            rw [hfile] at this
            injection this with this
            injection this with this _
            omega
          · exact h.cach p' l t' hc
        · intro r hr t' ht
          simp only [Sys.ret] at hr
          rcases List.mem_append.1 hr with hr | hr
          · exact h.rets r hr t' ht
          · rw [List.mem_singleton.1 hr] at ht ⊢
            injection ht with ht
            subst ht
            exact ⟨j, m, c, h3, h4, h5, fun _ => .inl h2⟩
    · cases hs
  | clear =>
    simp only [step] at hs
    split at hs
    · rename_i hbusy
      cases hs
      refine inv_tick h.ne (Nat.le_refl _) h.wait h.read ?_ ?_ h.rets
      · intro k p' st' t' hj
        have := (h.stmp k p' st' t' hj).1
        rw [hbusy] at this
        cases this
      · intro p l t hc
        cases hc
    · cases hs

theorem inv_reach {q : Prop} {abs : P → Bool} {parse : C → Option T} {ok : Sys P C T → Ev P C → Prop}
    (hok : ∀ s e, ok s e → q → Quiet s e) {s : Sys P C T} (h : Reach abs parse ok s) : Inv q parse s := by
  induction h with
  | start files =>
    refine ⟨rfl, by simp [Sys.start], by simp [Sys.start, Sys.now], ?_, ?_, ?_, ?_, ?_⟩
    · intro i p m st h; cases h
    · intro i p st h; cases h
    · intro i p st t h; cases h
    · intro p l t h; cases h
    · intro r hr; cases hr
  | step _ ho hs ih => exact inv_step ih (hok _ _ ho) hs

/-! ### C43 -/

/-- **C43.** Whatever happens, a fetch that succeeds returns the table of a content that the file with this path
had at some moment, and not before the last `clear`. -/
theorem C43_own_path (abs : P → Bool) (parse : C → Option T) (s : Sys P C T)
    (h : Reach abs parse (fun _ _ => True) s) (r : Ret P T) (hr : r ∈ s.rets) (t : T) (ht : r.res = some t) :
    ∃ j m c, r.cleared ≤ j ∧ Had s.hist j r.path m c ∧ parse c = some t := by
  obtain ⟨j, m, c, h1, h2, h3, _⟩ := (inv_reach (q := False) (fun _ _ _ hf => hf.elim) h).rets r hr t ht
  exact ⟨j, m, c, h1, h2, h3⟩

/-- **C43**, for runs in which no file is changed between the reading of the file and the second time stamp
of the same fetch: if time stamps are honest, a fetch returns the table of a content that the file had at a
moment during the call.  Without that condition the claim is false (`C43_false`). -/
theorem C43_current_partial (abs : P → Bool) (parse : C → Option T) (s : Sys P C T)
    (h : Reach abs parse Quiet s) (r : Ret P T) (hr : r ∈ s.rets) (t : T) (ht : r.res = some t)
    (hh : Honest s.hist r.path) :
    ∃ j m c, r.start ≤ j ∧ Had s.hist j r.path m c ∧ parse c = some t := by
  obtain ⟨j, m, c, _, h2, h3, h4⟩ := (inv_reach (q := True) (fun _ _ ho _ => ho) h).rets r hr t ht
  rcases h4 trivial with h5 | ⟨m0, c0, h5, h6⟩
  · exact ⟨j, m, c, h5, h2, h3⟩
  · by_cases hj : r.start ≤ j
    · exact ⟨j, m, c, hj, h2, h3⟩
    · obtain ⟨h7, h8⟩ := hh j r.start m m0 c c0 (by omega) h2 h5
      have hm : m = m0 := by omega
      subst hm
      have hc := h8 rfl
      subst hc
      exact ⟨r.start, m, c, Nat.le_refl _, h5, h3⟩

/-- **C43.** A fetch that fails, and any step of a fetch of another path, leaves an entry of the cache as it
is. -/
theorem C43_entries_kept (abs : P → Bool) (parse : C → Option T) (s s' : Sys P C T) (e : Ev P C)
    (hs : step abs parse s e = some s') (he : e ≠ .clear) :
    (∀ p, s'.cache p = s.cache p ∨ ∃ st t, s'.rets = s.rets ++ [⟨p, st, s.cleared, some t⟩]) ∧
    ((∃ r, s'.rets = s.rets ++ [r] ∧ r.res = none) → s'.cache = s.cache) := by
  cases e with
  | clear => exact absurd rfl he
  | write p v =>
    simp only [step, Option.some.injEq] at hs
    subst hs
    exact ⟨fun _ => .inl rfl, fun _ => rfl⟩
  | call i p =>
    simp only [step] at hs
    split at hs
    · split at hs
      · split at hs <;> cases hs <;> exact ⟨fun _ => .inl rfl, fun _ => rfl⟩
      · cases hs; exact ⟨fun _ => .inl rfl, fun _ => rfl⟩
    · cases hs
  | enter i =>
    simp only [step] at hs
    split at hs
    · split at hs
      · split at hs <;> cases hs <;> exact ⟨fun _ => .inl rfl, fun _ => rfl⟩
      · cases hs; exact ⟨fun _ => .inl rfl, fun _ => rfl⟩
    · cases hs
  | load i =>
    simp only [step] at hs
    split at hs
    · split at hs <;> cases hs <;> exact ⟨fun _ => .inl rfl, fun _ => rfl⟩
    · cases hs
  | stamp i =>
    simp only [step] at hs
    split at hs
    · rename_i p st t hph
      split at hs
      · cases hs; exact ⟨fun _ => .inl rfl, fun _ => rfl⟩
      · cases hs
        refine ⟨?_, ?_⟩
        · intro p'
          by_cases hp : p' = p
          · subst hp
            exact .inr ⟨st, t, rfl⟩
          · exact .inl (by simp only [if_neg hp])
        · rintro ⟨r, h1, h2⟩
          have := List.append_cancel_left (show s.rets ++ [(⟨p, st, s.cleared, some t⟩ : Ret P T)] = s.rets ++ [r] from h1)
          injection this with this _
          subst this
          cases h2
    · cases hs

/-! ### Concrete runs -/

/-- Performing steps one after the other, files being changed only while nobody holds the lock. -/
def runQ (abs : P → Bool) (parse : C → Option T) : List (Ev P C) → Sys P C T → Option (Sys P C T)
  | [], s => some s
  | .write p v :: es, s =>
    if s.busy = none then (step abs parse s (.write p v)).bind (fun s' => runQ abs parse es s'.tick) else none
  | e :: es, s => (step abs parse s e).bind (fun s' => runQ abs parse es s'.tick)

/-- Performing steps one after the other. -/
def run (abs : P → Bool) (parse : C → Option T) : List (Ev P C) → Sys P C T → Option (Sys P C T)
  | [], s => some s
  | e :: es, s => (step abs parse s e).bind (fun s' => run abs parse es s'.tick)

theorem run_reach {abs : P → Bool} {parse : C → Option T} :
    ∀ (es : List (Ev P C)) (s s' : Sys P C T), Reach abs parse (fun _ _ => True) s → run abs parse es s = some s' →
      Reach abs parse (fun _ _ => True) s'
  | [], s, s', h, hr => by simp only [run, Option.some.injEq] at hr; rwa [← hr]
  | e :: es, s, s', h, hr => by
    obtain ⟨s1, h1, h2⟩ := Option.bind_eq_some_iff.1 hr
    exact run_reach es _ _ (.step h trivial h1) h2

theorem quiet_of_free {abs : P → Bool} {parse : C → Option T} {s : Sys P C T} (h : Reach abs parse Quiet s)
    (hb : s.busy = none) (e : Ev P C) : Quiet s e := by
  cases e with
  | write p v =>
    intro i st t hi
    have := ((inv_reach (q := False) (fun _ _ _ hf => hf.elim) h).stmp i p st t hi).1
    rw [hb] at this
    cases this
  | _ => trivial

theorem runQ_reach {abs : P → Bool} {parse : C → Option T} :
    ∀ (es : List (Ev P C)) (s s' : Sys P C T), Reach abs parse Quiet s → runQ abs parse es s = some s' →
      Reach abs parse Quiet s'
  | [], s, s', h, hr => by simp only [runQ, Option.some.injEq] at hr; rwa [← hr]
  | e :: es, s, s', h, hr => by
    cases e with
    | write p v =>
      simp only [runQ] at hr
      split at hr
      · rename_i hb
        obtain ⟨s1, h1, h2⟩ := Option.bind_eq_some_iff.1 hr
        exact runQ_reach es _ _ (.step h (quiet_of_free h hb _) h1) h2
      · cases hr
    | _ =>
      simp only [runQ] at hr
      obtain ⟨s1, h1, h2⟩ := Option.bind_eq_some_iff.1 hr
      refine runQ_reach es _ _ (.step h ?_ h1) h2
      trivial

omit [DecidableEq P] in
theorem had_iff {h : List (Files P C)} {j : Nat} {p : P} {m : Nat} {c : C} :
    Had h j p m c ↔ (h.map (· p))[j]? = some (some (m, c)) := by
  rw [List.getElem?_map, Option.map_eq_some_iff]
  rfl

/-- Files of the examples: file 0 exists, file 1 does not. -/
def exFiles : Files Nat Nat := fun p => if p = 0 then some (0, 10) else none

/-- A run: thread 0 fetches file 0, the file is replaced by a newer one, thread 1 fetches it, a missing file
is asked for, and thread 0 fetches it again from the cache. -/
def exRun : List (Ev Nat Nat) :=
  [.call 0 0, .enter 0, .load 0, .stamp 0, .write 0 (some (1, 20)), .call 1 0, .enter 1, .load 1, .stamp 1,
   .call 0 1, .call 0 0, .enter 0]

/-- Example for `C43_current_partial` (and `C43_own_path`): a run with a miss, a reload and a hit; the three
results are 10, 20 and 20, the failing call is an exception. -/
example : ∃ s, Reach (fun _ => true) some Quiet s ∧ s.rets.map (·.res) = [some 10, some 20, none, some 20] ∧
    Honest s.hist 0 := by
  have hr : (runQ (fun _ => true) some exRun (Sys.start exFiles)).isSome = true := by decide
  obtain ⟨s, hs⟩ := Option.isSome_iff_exists.1 hr
  refine ⟨s, runQ_reach _ _ _ (.start exFiles) hs, ?_, ?_⟩
  · have : (runQ (fun _ => true) some exRun (Sys.start exFiles)).map (fun s => s.rets.map (·.res)) =
        some [some 10, some 20, none, some 20] := by decide
    rw [hs] at this
    simpa using this
  · have : (runQ (fun _ => true) some exRun (Sys.start exFiles)).map (fun s => s.hist.map (· 0)) =
        some (List.replicate 5 (some (0, 10)) ++ List.replicate 8 (some (1, 20))) := by decide
    rw [hs] at this
    simp only [Option.map_some, Option.some.injEq] at this
    intro i j m m' c c' hij h1 h2
    rw [had_iff, this, List.getElem?_append] at h1 h2
    simp only [List.length_replicate, List.getElem?_replicate] at h1 h2
    split at h1 <;> split at h2 <;> (try split at h1) <;> (try split at h2) <;> simp at h1 h2 <;> omega

/-- **C43 is false** without that condition: thread 0 reads the file, then the file is replaced, then thread 0
takes the second time stamp.  The call of thread 1 after that returns the old content, although the new
content was in the file during the whole call. -/
theorem C43_false : ∃ (s : Sys Nat Nat Nat) (r : Ret Nat Nat) (t : Nat),
    Reach (fun _ => true) some (fun _ _ => True) s ∧ Honest s.hist r.path ∧ r ∈ s.rets ∧ r.res = some t ∧
    ∀ j m c, r.start ≤ j → Had s.hist j r.path m c → some c ≠ some t := by
  let es : List (Ev Nat Nat) :=
    [.call 0 0, .enter 0, .load 0, .write 0 (some (1, 20)), .stamp 0, .call 1 0, .enter 1]
  have hr : (run (fun _ => true) some es (Sys.start exFiles)).isSome = true := by decide
  obtain ⟨s, hs⟩ := Option.isSome_iff_exists.1 hr
  have h1 : (run (fun _ => true) some es (Sys.start exFiles)).map
      (fun s => s.rets.map (fun r => (r.path, r.start, r.cleared, r.res))) =
      some [(0, 0, 0, some 10), (0, 5, 0, some 10)] := by decide
  have h2 : (run (fun _ => true) some es (Sys.start exFiles)).map (fun s => s.hist.map (· 0)) =
      some (List.replicate 4 (some (0, 10)) ++ List.replicate 4 (some (1, 20))) := by decide
  rw [hs] at h1 h2
  simp only [Option.map_some, Option.some.injEq] at h1 h2
  refine ⟨s, ⟨0, 5, 0, some 10⟩, 10, run_reach _ _ _ (.start exFiles) hs, ?_, ?_, rfl, ?_⟩
  · intro i j m m' c c' hij h3 h4
    rw [had_iff, h2, List.getElem?_append] at h3 h4
    simp only [List.length_replicate, List.getElem?_replicate] at h3 h4
    split at h3 <;> split at h4 <;> (try split at h3) <;> (try split at h4) <;> simp at h3 h4 <;> omega
  · have : ((0, 5, 0, some 10) : Nat × Nat × Nat × Option Nat) ∈
        s.rets.map (fun r => (r.path, r.start, r.cleared, r.res)) := by rw [h1]; decide
    obtain ⟨r, hr, he⟩ := List.mem_map.1 this
    cases r
    simp only [Prod.mk.injEq] at he
    obtain ⟨rfl, rfl, rfl, rfl⟩ := he
    exact hr
  · intro j m c hj h3
    rw [had_iff, h2, List.getElem?_append] at h3
    simp only [List.length_replicate, List.getElem?_replicate] at h3
    simp only at hj
    rw [if_neg (by omega)] at h3
    split at h3
    · simp only [Option.some.injEq, Prod.mk.injEq] at h3
      obtain ⟨_, rfl⟩ := h3
      decide
    · cases h3

end Flame.Util.Cache
