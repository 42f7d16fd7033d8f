import Verif.Config.PropsShow
import Verif.Glps.PropsPrint
import Verif.Glps.PropsNested

/-! # The listing of a configuration that was read from a lattice file (C116) -/

namespace Flame.Listing

open Flame.Glps (Name CV Cf Arith Exp Exps Stmt Tok File Means Does Runs Result IsElem IsMap IsKw StrOk Reads DerE DerU DerP DerS DerF parseText)

variable {N : Type}

mutual
/-- The value that is listed; `num` is the number that is shown for a number of the parser (/repo/src/flame/config.h:70-75). -/
def toVal (num : N → ℝ) : CV N → Val
  | .num x => .num (num x)
  | .vec xs => .vec (xs.map num)
  | .str s => .str s
  | .cfgs l => .cfgs (toCfgs num l)

/-- The entries that are listed: `Config::show` goes over `*values` only (/repo/src/config.cpp:187-195). -/
def toCfg (num : N → ℝ) : Cf N → Cfg
  | .mk own _ => toEntries num own

/-- The entries of a map in order. -/
def toEntries (num : N → ℝ) : List (Name × CV N) → Cfg
  | [] => .nil
  | (k, v) :: r => .cons k (toVal num v) (toEntries num r)

/-- The configurations of a vector in order. -/
def toCfgs (num : N → ℝ) : List (Cf N) → Cfgs
  | [] => .nil
  | c :: l => .cons (toCfg num c) (toCfgs num l)
end

/-! ## texts written in a file have no line breaks -/

theorem reads_str {strtod : Name → Option N} {s : Name} {ts : List (Tok N)} {b : Bool} (h : Reads strtod s ts b) :
    ∀ k, Tok.str k ∈ ts → StrOk k := by
  induction h with
  | done => intro k hk; cases hk
  | @tok pk p s t ts b hl hm _ ih =>
    intro k hk
    rcases List.mem_cons.1 hk with h | h
    · subst h
      have hf := hl.1
      cases pk with
      | kw => simp [Glps.meaning] at hm
      | num =>
        simp only [Glps.meaning] at hm
        cases hs : strtod p with
        | none => rw [hs] at hm; cases hm
        | some x => rw [hs] at hm; simp at hm
      | str =>
        cases hf with
        | str hs =>
          simp only [Glps.meaning, Option.some.injEq, Tok.str.injEq, List.tail_cons, List.dropLast_concat] at hm
          rwa [← hm]
      | sym =>
        simp only [Glps.meaning, Option.some.injEq] at hm
        cases p <;> simp at hm
      | blank => simp [Glps.meaning] at hm
    · exact ih k h
  | skip _ _ _ ih => exact ih
  | range => intro k hk; cases hk
  | stuck => intro k hk; cases hk

theorem derE_str (n : Nat) : ∀ (ts : List (Tok N)) (p : Nat) (s : Name), ts.length < n → DerE p ts (.str s) → Tok.str s ∈ ts := by
  induction n with
  | zero => intro ts p s h; omega
  | succ n ih =>
    intro ts p s h hd
    cases hd with
    | unary hu =>
      cases hu with
      | str => exact List.mem_singleton.2 rfl
      | @paren ts' _ h' =>
        have := ih ts' 0 s (by simp at h; omega) h'
        simp [this]

theorem derP_texts {ts : List (Tok N)} {ps : List (Name × Exp N)} (h : DerP ts ps) :
    ∀ k s, (k, Exp.str s) ∈ ps → Tok.str s ∈ ts := by
  induction h with
  | nil => intro k s hk; cases hk
  | @cons k te e tp ps hd _ ih =>
    intro k' s hk
    rcases List.mem_cons.1 hk with h | hk
    · cases h
      have := derE_str _ te 0 s (Nat.lt_succ_self _) hd
      simp [this]
    · have := ih k' s hk
      simp [this]

theorem derF_assign {ts : List (Tok N)} {ss : List (Stmt N)} (h : DerF ts ss) :
    (∀ n s, Stmt.assign n (.str s) ∈ ss → Tok.str s ∈ ts) ∧
    ∀ l t ps k s, Stmt.element l t ps ∈ ss → (k, Exp.str s) ∈ ps → Tok.str s ∈ ts := by
  induction h with
  | nil => exact ⟨by simp, by simp⟩
  | @cons ts s ts' ss hd _ ih =>
    constructor
    · intro n x hs
      rcases List.mem_cons.1 hs with rfl | hs
      · cases hd with
        | @assign _ te _ he =>
          have := derE_str _ te 0 x (Nat.lt_succ_self _) he
          simp [this]
      · exact List.mem_append_right _ (ih.1 n x hs)
    · intro l t ps k x hs hk
      rcases List.mem_cons.1 hs with rfl | hs
      · cases hd with
        | element _ _ hp =>
          have := derP_texts hp k x hk
          simp [this]
      · exact List.mem_append_right _ (ih.2 l t ps k x hs hk)

/-! ## values -/

/-- What the outside world may give: paths without line breaks and, from nested files, configurations that can be listed. -/
structure World (num : N → ℝ) (a : Arith N) : Prop where
  file : ∀ s p, a.file s = some (some p) → '\n' ∉ p
  h5file : ∀ s p, a.h5file s = some (some p) → '\n' ∉ p
  parse : ∀ s c, a.parse s = some c → (toCfg num c).Clean

/-- A value without line breaks. -/
def Plain (num : N → ℝ) : Glps.Val N → Prop
  | .str s => '\n' ∉ s
  | .conf c => (toCfg num c).Clean
  | _ => True

theorem means_plain {num : N → ℝ} {a : Arith N} (w : World num a) {ρ : Name → Option (Glps.Val N)} (hρ : ∀ n v, ρ n = some v → Plain num v)
    {e : Exp N} {v : Glps.Val N} (he : ∀ s, e = .str s → '\n' ∉ s) (h : Means a ρ e v) : Plain num v := by
  cases h with
  | str s => exact he s rfl
  | var h => exact hρ _ _ h
  | parse _ hc => exact w.parse _ _ hc
  | file _ _ hp => exact w.file _ _ hp
  | h5file _ hp => exact w.h5file _ _ hp
  | dash h => cases h <;> trivial
  | _ => trivial

/-- All values of the definitions are without line breaks. -/
structure PlainFile (num : N → ℝ) (f : File N) : Prop where
  vars : ∀ p ∈ f.vars, Plain num p.2
  elems : ∀ x ∈ f.elems, ∀ q ∈ x.2.2, Plain num q.2

theorem env_plain {num : N → ℝ} {a : Arith N} {f : File N} (hf : PlainFile num f) (n : Name) (v : Glps.Val N) (h : f.env a n = some v) :
    Plain num v := by
  unfold File.env at h
  cases h1 : f.vars.lookup n with
  | some w =>
    rw [h1] at h
    cases h
    exact hf.vars _ (Glps.lookup_mem _ _ _ h1)
  | none =>
    rw [h1] at h
    cases h2 : f.lines.lookup n with
    | some l =>
      rw [h2] at h
      dsimp only at h
      split at h <;> cases h <;> trivial
    | none =>
      rw [h2] at h
      dsimp only at h
      split at h
      · cases h
        trivial
      · split at h
        · cases h
          trivial
        · cases h

theorem runs_plain {num : N → ℝ} {a : Arith N} (w : World num a) {f f' : File N} {ss : List (Stmt N)} (h : Runs a f ss f') (hf : PlainFile num f)
    (h1 : ∀ n s, Stmt.assign n (.str s) ∈ ss → '\n' ∉ s)
    (h2 : ∀ l t ps k s, Stmt.element l t ps ∈ ss → (k, Exp.str s) ∈ ps → '\n' ∉ s) : PlainFile num f' := by
  induction h with
  | nil => exact hf
  | @cons f f' f'' s ss hd _ ih =>
    refine ih ?_ (fun n s hs => h1 n s (List.mem_cons_of_mem _ hs)) (fun l t ps k s hs => h2 l t ps k s (List.mem_cons_of_mem _ hs))
    cases hd with
    | @assign n e v hv hl hn =>
      refine ⟨?_, hf.elems⟩
      intro p hp
      rcases List.mem_append.1 hp with hp | hp
      · exact hf.vars p hp
      · rw [List.mem_singleton.1 hp]
        exact means_plain w (env_plain hf) (fun s hs => h1 n s (by rw [hs]; exact List.mem_cons_self ..)) hv
    | @element l t ps qs hl ht hn hp =>
      refine ⟨hf.vars, ?_⟩
      intro x hx
      rcases List.mem_append.1 hx with hx | hx
      · exact hf.elems x hx
      · rw [List.mem_singleton.1 hx]
        intro q hq
        have key : ∀ (ps' : List (Name × Exp N)) (qs' : List (Name × Glps.Val N)),
            List.Forall₂ (fun p q => p.1 = q.1 ∧ Means a (f.env a) p.2 q.2) ps' qs' → (∀ p ∈ ps', p ∈ ps) → ∀ q ∈ qs', Plain num q.2 := by
          intro ps' qs' hF
          induction hF with
          | nil => intro _ q hq; cases hq
          | @cons p q' _ _ g1 _ ih' =>
            intro hsub q hq
            rcases List.mem_cons.1 hq with rfl | hq
            · refine means_plain w (env_plain hf) (fun s hs => h2 l t ps p.1 s (List.mem_cons_self ..) ?_) g1.2
              rw [← hs]
              exact hsub p (List.mem_cons_self ..)
            · exact ih' (fun p hp => hsub p (List.mem_cons_of_mem _ hp)) q hq
        exact key ps qs hp (fun _ h => h) q hq
    | line => exact ⟨hf.vars, hf.elems⟩
    | print => exact ⟨hf.vars, hf.elems⟩
    | fin => exact hf

theorem ofVars_plain (num : N → ℝ) (vars : SMap Name (CV N)) (h : ∀ p ∈ vars, ∀ s, p.2 = .str s → '\n' ∉ s) :
    PlainFile num (File.ofVars vars) := by
  refine ⟨?_, by simp [File.ofVars, File.empty]⟩
  intro p hp
  simp only [File.ofVars, List.mem_filterMap] at hp
  obtain ⟨q, hq, he⟩ := hp
  have := h q hq
  obtain ⟨k, v⟩ := q
  cases v <;> simp only [Option.some.injEq, reduceCtorEq] at he <;> rw [← he]
  · trivial
  · trivial
  · exact this _ rfl

/-! ## configurations -/

theorem kw_name {k : Name} (h : IsKw k) : k ≠ [] ∧ ' ' ∉ k := by
  obtain ⟨c, r, rfl, hc, hr, -⟩ := h
  refine ⟨by simp, ?_⟩
  intro hm
  rcases List.mem_cons.1 hm with rfl | hm
  · exact absurd hc (by decide)
  · exact absurd (hr _ hm) (by decide)

theorem kw_text {k : Name} (h : IsKw k) : '\n' ∉ k := by
  obtain ⟨c, r, rfl, hc, hr, -⟩ := h
  intro hm
  rcases List.mem_cons.1 hm with rfl | hm
  · exact absurd hc (by decide)
  · exact absurd (hr _ hm) (by decide)

theorem toEntries_clean (num : N → ℝ) : ∀ (m : List (Name × CV N)), (∀ p ∈ m, IsKw p.1 ∧ (toVal num p.2).Clean) → (toEntries num m).Clean
  | [], _ => by simp [toEntries, Cfg.Clean]
  | (k, v) :: r, h => by
    simp only [toEntries, Cfg.Clean]
    exact ⟨kw_name (h _ (List.mem_cons_self ..)).1, (h _ (List.mem_cons_self ..)).2,
      toEntries_clean num r (fun p hp => h p (List.mem_cons_of_mem _ hp))⟩

theorem toCfgs_clean (num : N → ℝ) : ∀ (l : List (Cf N)), (∀ c ∈ l, (toCfg num c).Clean) → (toCfgs num l).Clean
  | [], _ => by simp [toCfgs, Cfgs.Clean]
  | c :: l, h => by
    simp only [toCfgs, Cfgs.Clean]
    exact ⟨h _ (List.mem_cons_self ..), toCfgs_clean num l (fun p hp => h p (List.mem_cons_of_mem _ hp))⟩

theorem toCV_clean (num : N → ℝ) {v : Glps.Val N} {c : CV N} (h : v.toCV = some c) (hp : Plain num v) : (toVal num c).Clean := by
  cases v <;> simp only [Glps.Val.toCV, Option.some.injEq, reduceCtorEq] at h <;> subst h
  · simp [toVal, Val.Clean]
  · simp [toVal, Val.Clean]
  · simp only [toVal, Val.Clean]
    exact hp
  · simp only [toVal, Val.Clean, toCfgs, Cfgs.Clean]
    exact ⟨hp, trivial⟩

/-- A map given by its lookups. -/
theorem map_clean (num : N → ℝ) {m : SMap Name (CV N)} {g : Name → Option (CV N)} (h : IsMap m g)
    (hg : ∀ k v, g k = some v → IsKw k ∧ (toVal num v).Clean) : (toEntries num m).Clean := by
  refine toEntries_clean num m ?_
  intro p hp
  have := SMap.mem_find_of_sorted _ h.1 p.1 p.2 hp
  rw [h.2] at this
  exact hg _ _ this

/-- The lookups of a list of definitions. -/
theorem lookup_clean (num : N → ℝ) {qs : List (Name × Glps.Val N)} (h1 : ∀ q ∈ qs, IsKw q.1) (h2 : ∀ q ∈ qs, Plain num q.2) (k : Name) (v : CV N)
    (h : (qs.lookup k).bind Glps.Val.toCV = some v) : IsKw k ∧ (toVal num v).Clean := by
  cases e : qs.lookup k with
  | none => rw [e] at h; cases h
  | some w =>
    rw [e] at h
    have := Glps.lookup_mem _ _ _ e
    exact ⟨h1 _ this, toCV_clean num h (h2 _ this)⟩

/-- What is read from a file can be listed. -/
theorem parsed_clean {num : N → ℝ} {a : Arith N} (w : World num a) {strtod : Name → Option N} {vars : SMap Name (CV N)} (hv : SMap.Sorted vars)
    (hk : ∀ p ∈ vars, IsKw p.1) (hs : ∀ p ∈ vars, ∀ s, p.2 = .str s → '\n' ∉ s) {text : Name} {lattice : Bool} {c : Cf N}
    (h : parseText a strtod vars text lattice = .ok c) : (toCfg num c).Clean := by
  obtain ⟨ss, f, ⟨ts, hr, hd⟩, hrun, hres⟩ := (Glps.parse_iff a strtod vars hv text lattice c).1 h
  have hf : f.Kws := Glps.runs_kws hrun (Glps.ofVars_kws vars hk)
    (fun s hs k hk' => Glps.reads_kw hr k (Glps.derF_kws hd s hs k hk'))
  have hp : PlainFile num f := runs_plain w hrun (ofVars_plain num vars hs)
    (fun n s hm hn => (reads_str hr s ((derF_assign hd).1 n s hm) _ hn).2.1 rfl)
    (fun l t ps k s hm hq hn => (reads_str hr s ((derF_assign hd).2 l t ps k s hm hq) _ hn).2.1 rfl)
  have hvar : ∀ k v, f.var k = some v → IsKw k ∧ (toVal num v).Clean := fun k v h => lookup_clean num hf.vars hp.vars k v h
  cases hres with
  | vars hm =>
    simp only [toCfg]
    exact map_clean num hm hvar
  | @lattice own label ns es hsel hn he hm =>
    simp only [toCfg]
    have hes : ∀ e ∈ es, (toCfg num e).Clean := by
      intro e hme
      obtain ⟨n, -, hi, t, qs, hq, -, hq3⟩ : ∃ n ∈ ns, IsElem f n e := by
        clear hm hn hsel h
        induction he with
        | nil => cases hme
        | @cons n e' ns es h1 _ ih =>
          rcases List.mem_cons.1 hme with rfl | hme
          · exact ⟨n, List.mem_cons_self .., h1⟩
          · obtain ⟨m, h2, h3⟩ := ih hme
            exact ⟨m, List.mem_cons_of_mem _ h2, h3⟩
      obtain ⟨k1, k2, k3⟩ := hf.elems _ hq
      obtain ⟨eown, einh⟩ := e
      simp only [toCfg]
      refine map_clean num hq3 ?_
      intro k v hkv
      split at hkv
      · rename_i h1
        cases hkv
        rw [h1]
        exact ⟨Glps.isKw_lit_name, by simp only [toVal, Val.Clean]; exact kw_text k1⟩
      · split at hkv
        · rename_i h1
          cases hkv
          rw [h1]
          exact ⟨Glps.isKw_lit_type, by simp only [toVal, Val.Clean]; exact kw_text k2⟩
        · exact lookup_clean num k3 (hp.elems _ hq) k v hkv
    refine map_clean num hm ?_
    intro k v hkv
    split at hkv
    · rename_i h1
      cases hkv
      rw [h1]
      exact ⟨Glps.isKw_lit_elements, by simp only [toVal, Val.Clean]; exact toCfgs_clean num es hes⟩
    · split at hkv
      · rename_i h1
        cases hkv
        rw [h1]
        have : (label, ns) ∈ f.lines := by
          cases hsel with
          | use _ hl => exact hl
          | last _ hl => exact List.mem_of_getLast? hl
        exact ⟨Glps.isKw_lit_name, by simp only [toVal, Val.Clean]; exact kw_text (hf.lines _ this)⟩
      · exact hvar k v hkv

/-- **C116** for lattice files: two files that were read, as lattices or as lists of variables and with any variables given before, have the same
listing if and only if their configurations agree in everything that is listed but digits that are not shown.  Asked of the outside world:
paths have no line breaks, and files read by `parse` give configurations that can be listed (which `C116_loaded` shows for them). -/
theorem C116_parsed {num : N → ℝ} {fmt : ℝ → Str} (hd : Digits fmt) {a : Arith N} (w : World num a) (strtod : Name → Option N)
    (vars vars' : SMap Name (CV N)) (hv : SMap.Sorted vars) (hv' : SMap.Sorted vars')
    (hk : ∀ p ∈ vars, IsKw p.1) (hk' : ∀ p ∈ vars', IsKw p.1)
    (hs : ∀ p ∈ vars, ∀ s, p.2 = .str s → '\n' ∉ s) (hs' : ∀ p ∈ vars', ∀ s, p.2 = .str s → '\n' ∉ s)
    (text text' : Name) (lattice lattice' : Bool) (c c' : Cf N)
    (h : parseText a strtod vars text lattice = .ok c) (h' : parseText a strtod vars' text' lattice' = .ok c') :
    shown fmt 0 (toCfg num c) = shown fmt 0 (toCfg num c') ↔ SameC fmt (toCfg num c) (toCfg num c') :=
  C116_listing_partial hd _ _ (parsed_clean w hv hk hs h) (parsed_clean w hv' hk' hs' h')

/-- What a file and all files that it uses give can be listed. -/
theorem loaded_clean {num : N → ℝ} {a : Arith N} {strtod : Name → Option N} {fs : Glps.Files}
    (hc : ∀ d s p, fs.canon d s = some p → '\n' ∉ p) (hh : ∀ d s p, fs.h5 d s = some (some p) → '\n' ∉ p) :
    ∀ (n : Nat) (vars : SMap Name (CV N)) (fname : Option Name) (lattice : Bool) (c : Cf N), SMap.Sorted vars → (∀ p ∈ vars, IsKw p.1) →
      (∀ p ∈ vars, ∀ s, p.2 = .str s → '\n' ∉ s) → Glps.load a strtod fs n vars fname lattice = some (.done (.ok c)) → (toCfg num c).Clean
  | 0, _, _, _, _, _, _, _, h => by simp [Glps.load] at h
  | n + 1, vars, fname, lattice, c, hv, hk, hs, h => by
    unfold Glps.load at h
    cases hsrc : fs.source fname with
    | none => rw [hsrc] at h; simp at h
    | some dt =>
      obtain ⟨dir, text⟩ := dt
      rw [hsrc] at h
      dsimp only at h
      split at h
      · cases h
      · simp only [Option.some.injEq, Glps.Loaded.done.injEq] at h
        refine parsed_clean (a := Glps.within a fs dir (fun q => Glps.handed (Glps.load a strtod fs n [] (some q) true))) ⟨?_, ?_, ?_⟩ hv hk hs h
        · intro s p hp
          simp only [Glps.within] at hp
          cases e : fs.canon dir s with
          | none => rw [e] at hp; cases hp
          | some q =>
            rw [e] at hp
            cases hp
            exact hc _ _ _ e
        · intro s p hp
          exact hh dir s p hp
        · intro s c' hp
          simp only [Glps.within] at hp
          cases e : fs.canon dir s with
          | none => rw [e] at hp; cases hp
          | some q =>
            rw [e] at hp
            dsimp only at hp
            cases e2 : Glps.load a strtod fs n [] (some q) true with
            | none => rw [e2] at hp; cases hp
            | some r =>
              rw [e2] at hp
              cases r with
              | fileError => cases hp
              | done o =>
                cases o with
                | ok c2 =>
                  cases hp
                  exact loaded_clean hc hh n [] (some q) true _ List.Pairwise.nil (by simp) (by simp) e2
                | _ => cases hp

/-- **C116** for whole lattices: two lattices are read from files, with all the files that they use in turn (`parse`), and with any variables given before.
They have the same listing if and only if their configurations agree in everything that is listed but digits that are not shown.
No file of the file system has a line break in its path. -/
theorem C116_loaded {num : N → ℝ} {fmt : ℝ → Str} (hd : Digits fmt) (a : Arith N) (strtod : Name → Option N) (fs : Glps.Files)
    (hc : ∀ d s p, fs.canon d s = some p → '\n' ∉ p) (hh : ∀ d s p, fs.h5 d s = some (some p) → '\n' ∉ p)
    (vars vars' : SMap Name (CV N)) (hv : SMap.Sorted vars) (hv' : SMap.Sorted vars')
    (hk : ∀ p ∈ vars, IsKw p.1) (hk' : ∀ p ∈ vars', IsKw p.1)
    (hs : ∀ p ∈ vars, ∀ s, p.2 = .str s → '\n' ∉ s) (hs' : ∀ p ∈ vars', ∀ s, p.2 = .str s → '\n' ∉ s)
    (n n' : Nat) (fname fname' : Option Name) (lattice lattice' : Bool) (c c' : Cf N)
    (h : Glps.load a strtod fs n vars fname lattice = some (.done (.ok c)))
    (h' : Glps.load a strtod fs n' vars' fname' lattice' = some (.done (.ok c'))) :
    shown fmt 0 (toCfg num c) = shown fmt 0 (toCfg num c') ↔ SameC fmt (toCfg num c) (toCfg num c') :=
  C116_listing_partial hd _ _ (loaded_clean hc hh n vars fname lattice c hv hk hs h) (loaded_clean hc hh n' vars' fname' lattice' c' hv' hk' hs' h')

/-- A case of `C116_parsed`: two lattices with variables, texts, a vector and repeated members. -/
example : World (fun x : Option Int => ((x.getD 0 : Int) : ℝ)) Glps.exA ∧
    (∃ c, parseText Glps.exA Glps.exNum [] Glps.exLattice true = .ok c) ∧
    ∃ c', parseText Glps.exA Glps.exNum [("x".toList, .num (some 3))] "y = \"a\"; d: drift, L = x; M: LINE = (2*d);".toList true = .ok c' := by
  refine ⟨⟨by simp [Glps.exA], by simp [Glps.exA], by simp [Glps.exA]⟩, ?_, ?_⟩
  · have h : (parseText Glps.exA Glps.exNum [] Glps.exLattice true).okWith (fun _ => true) = true := by decide +kernel
    obtain ⟨c, h1, -⟩ := Glps.Outcome.of_okWith h
    exact ⟨c, h1⟩
  · have h : (parseText Glps.exA Glps.exNum [("x".toList, .num (some 3))] "y = \"a\"; d: drift, L = x; M: LINE = (2*d);".toList true).okWith
        (fun _ => true) = true := by decide +kernel
    obtain ⟨c, h1, -⟩ := Glps.Outcome.of_okWith h
    exact ⟨c, h1⟩

/-- The file was read. -/
def isRead : Option (Glps.Loaded N) → Bool
  | some (.done (.ok _)) => true
  | _ => false

theorem of_isRead {o : Option (Glps.Loaded N)} (h : isRead o = true) : ∃ c, o = some (.done (.ok c)) := by
  match o, h with
  | some (.done (.ok c)), _ => exact ⟨c, rfl⟩

/-- A case of `C116_loaded`: a file that uses another one. -/
example : (∀ d s p, (Glps.exFs "/d".toList).canon d s = some p → '\n' ∉ p) ∧ (∀ d s p, (Glps.exFs "/d".toList).h5 d s = some (some p) → '\n' ∉ p) ∧
    ∃ c, Glps.load Glps.exA Glps.exNum (Glps.exFs "/d".toList) 2 [] (some "/d/top.lat".toList) true = some (.done (.ok c)) := by
  have hload : isRead (Glps.load Glps.exA Glps.exNum (Glps.exFs "/d".toList) 2 [] (some "/d/top.lat".toList) true) = true := by decide +kernel
  refine ⟨?_, ?_, of_isRead hload⟩
  case refine_2 =>
    intro d s p h
    unfold Glps.exFs at h
    cases h
  intro d s p h
  unfold Glps.exFs at h
  dsimp only at h
  split_ifs at h with h1 h2 h3
  · rw [← Option.some.inj h, h1]
    decide +kernel
  · rw [← Option.some.inj h, h2]
    decide +kernel
  · rw [← Option.some.inj h]
    decide +kernel

end Flame.Listing
