import Verif.Glps.PropsNested

/-! # C108: files that are missing or wrong -/

namespace Flame.Glps

variable {N : Type}

/-- A question about files gets no answer. -/
def Refused (a : Arith N) (p : Name × Name) : Prop :=
  (p.1 = "parse".toList ∧ a.parse p.2 = none) ∨
  ((p.1 = "file".toList ∨ p.1 = "dir".toList) ∧ ∀ q, a.file p.2 ≠ some (some q)) ∨
  (p.1 = "h5file".toList ∧ ∀ q, a.h5file p.2 ≠ some (some q))

theorem pathOp_refused {f : Name → Option (Option Name)} {s : Name} (h : ∀ q, f s ≠ some (some q)) :
    ∀ v, pathOp (N := N) f [.str s] ≠ .ok v := by
  intro v
  cases hf : f s with
  | none => simp [pathOp, hf]
  | some o =>
    cases o with
    | none => simp [pathOp, hf]
    | some q => exact absurd hf (h q)

theorem addOp_refused {a : Arith N} {name : Name} {args : List (TV N)} {p : Name × Name} (hp : p ∈ askedOp name args)
    (hr : Refused a p) : ∃ f, addOp a name args = .error f := by
  have hargs : ∃ s, args = [⟨.string, .str s⟩] ∧ p = (name, s) := by
    unfold askedOp at hp
    split at hp
    · rename_i s
      split at hp
      · exact ⟨s, rfl, by simpa using hp⟩
      · simp at hp
    · simp at hp
  obtain ⟨s, rfl, rfl⟩ := hargs
  rcases hr with ⟨h1, h2⟩ | ⟨h1 | h1, h2⟩ | ⟨h1, h2⟩
  · dsimp only at h1 h2
    subst h1
    refine ⟨.soft .exception, ?_⟩
    simp [addOp, opTable, parseOp, h2]
  · dsimp only at h1 h2
    subst h1
    have h3 := pathOp_refused (N := N) h2
    simp only [addOp, opTable, List.map_cons, List.map_nil]
    simp [List.find?_cons]
    split <;> simp_all
  · dsimp only at h1 h2
    subst h1
    have h3 := pathOp_refused (N := N) h2
    simp only [addOp, opTable, List.map_cons, List.map_nil]
    simp [List.find?_cons]
    split <;> simp_all
  · dsimp only at h1 h2
    subst h1
    have h3 := pathOp_refused (N := N) h2
    simp only [addOp, opTable, List.map_cons, List.map_nil]
    simp [List.find?_cons]
    split <;> simp_all

mutual
theorem evalE_refused {a : Arith N} {c : Ctx N} {p : Name × Name} (hr : Refused a p) :
    ∀ e : Exp N, p ∈ asksE a c e → ∃ f, evalE a c e = .error f
  | .num x, h => by simp [asksE] at h
  | .str s, h => by simp [asksE] at h
  | .var n, h => by simp [asksE] at h
  | .bin op l r, h => by
    simp only [asksE, List.mem_append] at h
    simp only [evalE]
    cases hv : evalE a c l with
    | error e => exact ⟨e, rfl⟩
    | ok x =>
      rw [hv] at h
      rcases h with h | h
      · obtain ⟨f, hf⟩ := evalE_refused hr l h
        rw [hv] at hf
        simp at hf
      · obtain ⟨f, hf⟩ := evalE_refused hr r h
        exact ⟨f, by simp only [hf]⟩
  | .neg e, h => by
    simp only [asksE] at h
    obtain ⟨f, hf⟩ := evalE_refused hr e h
    exact ⟨f, by simp only [evalE, hf]⟩
  | .call g e, h => by
    simp only [asksE, List.mem_append] at h
    simp only [evalE]
    cases hv : evalE a c e with
    | error e => exact ⟨e, rfl⟩
    | ok x =>
      rw [hv] at h
      rcases h with h | h
      · obtain ⟨f, hf⟩ := evalE_refused hr e h
        rw [hv] at hf
        simp at hf
      · exact addOp_refused h hr
  | .vec es, h => by
    simp only [asksE] at h
    obtain ⟨f, hf⟩ := evalEs_refused hr es h
    exact ⟨f, by simp only [evalE, hf]⟩
theorem evalEs_refused {a : Arith N} {c : Ctx N} {p : Name × Name} (hr : Refused a p) :
    ∀ es : Exps N, p ∈ asksEs a c es → ∃ f, evalEs a c es = .error f
  | .nil, h => by simp [asksEs] at h
  | .cons e es, h => by
    simp only [asksEs, List.mem_append] at h
    simp only [evalEs]
    cases hv : evalE a c e with
    | error e => exact ⟨e, rfl⟩
    | ok x =>
      rw [hv] at h
      rcases h with h | h
      · obtain ⟨f, hf⟩ := evalE_refused hr e h
        rw [hv] at hf
        simp at hf
      · obtain ⟨f, hf⟩ := evalEs_refused hr es h
        exact ⟨f, by simp only [hf]⟩
end

theorem evalList_refused {a : Arith N} {c : Ctx N} {p : Name × Name} (hr : Refused a p) :
    ∀ es : List (Exp N), p ∈ asksList a c es → ∃ f, evalList a c es = .error f
  | [], h => by simp [asksList] at h
  | e :: es, h => by
    simp only [asksList, List.mem_append] at h
    simp only [evalList]
    cases hv : evalE a c e with
    | error e => exact ⟨e, rfl⟩
    | ok x =>
      rw [hv] at h
      rcases h with h | h
      · obtain ⟨f, hf⟩ := evalE_refused hr e h
        rw [hv] at hf
        simp at hf
      · obtain ⟨f, hf⟩ := evalList_refused hr es h
        exact ⟨f, by simp only [hf]⟩

theorem evalProps_refused {a : Arith N} {c : Ctx N} {p : Name × Name} (hr : Refused a p) :
    ∀ ps : List (Name × Exp N), p ∈ asksList a c (ps.map Prod.snd) → ∃ f, evalProps a c ps = .error f
  | [], h => by simp [asksList] at h
  | (k, e) :: es, h => by
    simp only [List.map_cons, asksList, List.mem_append] at h
    simp only [evalProps]
    cases hv : evalE a c e with
    | error e => exact ⟨e, rfl⟩
    | ok x =>
      rw [hv] at h
      rcases h with h | h
      · obtain ⟨f, hf⟩ := evalE_refused hr e h
        rw [hv] at hf
        simp at hf
      · obtain ⟨f, hf⟩ := evalProps_refused hr es h
        exact ⟨f, by simp only [hf]⟩

theorem exec_refused {a : Arith N} {c : Ctx N} {p : Name × Name} (hr : Refused a p) (s : Stmt N) (h : p ∈ asksStmt a c s) :
    ∃ f, exec a c s = (c.abort f, false) := by
  cases s with
  | assign n e =>
    obtain ⟨f, hf⟩ := evalE_refused hr e h
    exact ⟨f, by simp only [exec, hf]⟩
  | element l t ps =>
    obtain ⟨f, hf⟩ := evalProps_refused hr ps h
    exact ⟨f, by simp only [exec, hf]⟩
  | line l t es =>
    obtain ⟨f, hf⟩ := evalList_refused hr es h
    exact ⟨f, by simp only [exec, hf]⟩
  | func g e =>
    obtain ⟨f, hf⟩ := evalE_refused hr e h
    exact ⟨f, by simp only [exec, hf]⟩
  | command k => simp [asksStmt] at h

theorem execAll_refused {a : Arith N} {p : Name × Name} (hr : Refused a p) :
    ∀ (ss : List (Stmt N)) (c : Ctx N), p ∈ asksAll a c ss → ∃ c' f, execAll a c ss = (Ctx.abort c' f, false)
  | [], _, h => by simp [asksAll] at h
  | s :: ss, c, h => by
    simp only [asksAll, List.mem_append] at h
    simp only [execAll]
    rcases h with h | h
    · obtain ⟨f, hf⟩ := exec_refused hr s h
      exact ⟨c, f, by simp only [hf]⟩
    · cases hv : exec a c s with
      | mk c' ok =>
        rw [hv] at h
        cases ok with
        | false => simp at h
        | true => exact execAll_refused hr ss c' h

/-- A text with a question that gets no answer is an error. -/
theorem parseText_refused {a : Arith N} {strtod : Name → Option N} {vars : SMap Name (CV N)} {text : Name} {p : Name × Name}
    (hr : Refused a p) (hp : p ∈ asksText a strtod vars text) (lattice : Bool) :
    ∃ e, parseText a strtod vars text lattice = .perr e := by
  obtain ⟨c', f, h⟩ := execAll_refused hr _ _ hp
  simp only [parseText, parseCtx, h, finish]
  cases f with
  | soft e =>
    simp only [Ctx.abort, Ctx.note]
    cases c'.err with
    | none => exact ⟨_, rfl⟩
    | some e' => exact ⟨_, rfl⟩
  | hard e => exact ⟨e, rfl⟩

theorem done_inj {o o' : Outcome N} (h : Loaded.done o = Loaded.done o') : o = o' := by cases h; rfl

/-- C108: a file gives a configuration exactly if every file it asks for with `parse` is there and gives a configuration itself, when it is
parsed on its own, and the text gives the configuration with those. -/
theorem C108_needs (a : Arith N) (strtod : Name → Option N) (fs : Files) (vars : SMap Name (CV N)) (fname : Option Name)
    (lattice : Bool) {dir text : Name} (hs : fs.source fname = some (dir, text)) (c : Cf N) :
    Ends a strtod fs vars fname lattice (.done (.ok c)) ↔
      ∃ sub : Name → Cf N,
        (∀ s, ("parse".toList, s) ∈ asksText (within a fs dir (fun q => some (sub q))) strtod vars text →
          ∃ q, fs.canon dir s = some q ∧ Ends a strtod fs [] (some q) true (.done (.ok (sub q)))) ∧
        parseText (within a fs dir (fun q => some (sub q))) strtod vars text lattice = .ok c := by
  rw [C108_meaning a strtod fs vars fname lattice hs]
  constructor
  · rintro ⟨sub0, h1, h2⟩
    have h2 := done_inj h2
    have hn : ∀ p ∈ asksText (within a fs dir sub0) strtod vars text, ¬ Refused (within a fs dir sub0) p := by
      intro p hp hr
      obtain ⟨e, he⟩ := parseText_refused hr hp lattice
      rw [he] at h2
      cases h2
    have hq : ∀ s, ("parse".toList, s) ∈ asksText (within a fs dir sub0) strtod vars text →
        ∃ q c', fs.canon dir s = some q ∧ sub0 q = some c' ∧ Ends a strtod fs [] (some q) true (.done (.ok c')) := by
      intro s hp
      have := hn _ hp
      cases hc : fs.canon dir s with
      | none => exact absurd (Or.inl ⟨rfl, by simp only [within, hc]⟩) this
      | some q =>
        cases hq : sub0 q with
        | none => exact absurd (Or.inl ⟨rfl, by simp only [within, hc, hq]⟩) this
        | some c' =>
          refine ⟨q, c', rfl, hq, ?_⟩
          obtain ⟨r', hr', he⟩ := h1 s hp q hc
          rw [hq] at he
          cases r' with
          | fileError => simp [handed] at he
          | done o =>
            cases o with
            | ok c'' =>
              simp only [handed, Option.some.injEq] at he
              rw [he]
              exact hr'
            | _ => simp [handed] at he
    have hag := parseText_same (within_numbers a fs fs dir dir sub0 (fun q => some ((sub0 q).getD (.mk [] [])))) strtod vars text (by
      intro p hp
      apply within_answers
      intro e q hc
      obtain ⟨k, s⟩ := p
      dsimp only at e hc
      subst e
      obtain ⟨q', c', h3, h4, -⟩ := hq s hp
      rw [hc, Option.some.injEq] at h3
      subst h3
      simp [h4])
    refine ⟨fun q => (sub0 q).getD (.mk [] []), ?_, by rw [hag.1, ← h2]⟩
    intro s hp
    rw [hag.2] at hp
    obtain ⟨q, c', h3, h4, h5⟩ := hq s hp
    exact ⟨q, h3, by simpa [h4] using h5⟩
  · rintro ⟨sub, h1, h2⟩
    refine ⟨fun q => some (sub q), ?_, by rw [h2]⟩
    intro s hp q hc
    obtain ⟨q', h3, h4⟩ := h1 s hp
    rw [hc, Option.some.injEq] at h3
    subst h3
    exact ⟨_, h4, rfl⟩

/-- C108: a file gives a configuration only if every file it names with `file`, `dir` or `h5file` is there. -/
theorem C108_paths (a : Arith N) (strtod : Name → Option N) (fs : Files) (vars : SMap Name (CV N)) (lattice : Bool) (dir text : Name)
    (sub : Name → Option (Cf N)) (c : Cf N) (h : parseText (within a fs dir sub) strtod vars text lattice = .ok c) (s : Name) :
    (("file".toList, s) ∈ asksText (within a fs dir sub) strtod vars text → ∃ q, fs.canon dir s = some q) ∧
    (("dir".toList, s) ∈ asksText (within a fs dir sub) strtod vars text → ∃ q, fs.canon dir s = some q) ∧
    (("h5file".toList, s) ∈ asksText (within a fs dir sub) strtod vars text → ∃ q, fs.h5 dir s = some (some q)) := by
  have hn : ∀ p ∈ asksText (within a fs dir sub) strtod vars text, ¬ Refused (within a fs dir sub) p := by
    intro p hp hr
    obtain ⟨e, he⟩ := parseText_refused hr hp lattice
    rw [he] at h
    cases h
  refine ⟨fun hp => ?_, fun hp => ?_, fun hp => ?_⟩
  · by_contra hc
    refine hn _ hp (Or.inr (Or.inl ⟨Or.inl rfl, fun q => ?_⟩))
    cases hq : fs.canon dir s with
    | none => simp [within, hq]
    | some q => exact absurd ⟨q, hq⟩ hc
  · by_contra hc
    refine hn _ hp (Or.inr (Or.inl ⟨Or.inr rfl, fun q => ?_⟩))
    cases hq : fs.canon dir s with
    | none => simp [within, hq]
    | some q => exact absurd ⟨q, hq⟩ hc
  · by_contra hc
    exact hn _ hp (Or.inr (Or.inr ⟨rfl, fun q hq => hc ⟨q, hq⟩⟩))

/-- C108: a name is reported as wrong exactly if there is no such file, or it cannot be read; nothing else is read in its place. -/
theorem C108_unreadable (a : Arith N) (strtod : Name → Option N) (fs : Files) (vars : SMap Name (CV N)) (lattice : Bool) (n : Name) :
    Ends a strtod fs vars (some n) lattice .fileError ↔
      fs.canon fs.cwd n = none ∨ ∃ p, fs.canon fs.cwd n = some p ∧ n ≠ "-".toList ∧ fs.text p = none := by
  have key : Ends a strtod fs vars (some n) lattice .fileError ↔ fs.source (some n) = none := by
    constructor
    · rintro ⟨k, hk⟩
      cases k with
      | zero => simp [load] at hk
      | succ k =>
        cases hs : fs.source (some n) with
        | none => rfl
        | some p =>
          obtain ⟨dir, text⟩ := p
          have := ((load_done hs _).mp hk).2
          cases this
    · intro hs
      exact ⟨1, by simp only [load, hs]⟩
  rw [key]
  cases hc : fs.canon fs.cwd n with
  | none => simp [Files.source, hc]
  | some p =>
    by_cases hd : n = "-".toList
    · subst hd
      simp only [Files.source, hc]
      simp
    · cases ht : fs.text p <;> simp only [Files.source, hc, hd, ht, if_false] <;> simp_all

/-! ## Examples -/

/-- The files of the first example without the second one. -/
def exHole : Files := { exFs "/d".toList with text := fun p => if p = "/d/top.lat".toList then some exTop else none }

/-- Example: the second file is named but cannot be read; so the first one gives no configuration, whatever the depth. -/
example (vars : SMap Name (CV (Option Int))) (c : Cf (Option Int)) :
    ¬ Ends exA exNum exHole vars (some "/d/top.lat".toList) true (.done (.ok c)) := by
  rw [C108_needs exA exNum exHole vars _ true (dir := "/d".toList) (text := exTop) (by decide +kernel)]
  rintro ⟨sub, h, -⟩
  obtain ⟨q, h1, h2⟩ := h "sub/in.lat".toList (by rw [exTop_asks]; simp)
  have h3 : exHole.canon "/d".toList "sub/in.lat".toList = some "/d/sub/in.lat".toList := by decide +kernel
  rw [h3, Option.some.injEq] at h1
  subst h1
  have h4 := (C108_unreadable exA exNum exHole [] true "/d/sub/in.lat".toList).mpr
    (Or.inr ⟨"/d/sub/in.lat".toList, by decide +kernel, by decide, by decide +kernel⟩)
  cases C108_unique h2 h4

/-- Example: with both files it gives one. -/
example : ∃ c, Ends exA exNum (exFs "/d".toList) [] (some "/d/top.lat".toList) true (.done (.ok c)) := by
  have h : (match load exA exNum (exFs "/d".toList) 2 [] (some "/d/top.lat".toList) true with
      | some (.done (.ok _)) => true | _ => false) = true := by decide +kernel
  revert h
  cases hl : load exA exNum (exFs "/d".toList) 2 [] (some "/d/top.lat".toList) true with
  | none => simp
  | some r =>
    cases r with
    | fileError => simp
    | done o =>
      cases o with
      | ok c => exact fun _ => ⟨c, 2, hl⟩
      | _ => simp

end Flame.Glps
