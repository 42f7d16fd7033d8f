import Verif.Mirror.Props

/-! # C95 in the linear simulations -/

namespace Flame.Mirror

open Flame.Mach (Cls St Err CView Machine propagate sizeMod Elem Run run propagate_eq)
open Flame.Linear (LVal LCfg getNum getNumD LDat LSt LType Kind Lawful cc ss)
open Flame.Moment (Keeps getNum_ok)
open Flame.Mirror.Spec

/-- Turning round. -/
def R6 : Linear.Mat := Matrix.diagonal sign6

/-- `B` is `A` seen from the other end. -/
def Mir6 (A B : Linear.Mat) : Prop := B * (R6 * A) = R6

theorem mir6_undoes {A B : Linear.Mat} : Mir6 A B ↔ Undoes6 A B := by
  constructor
  · intro h i j
    have := congrFun (congrFun h i) j
    rw [Matrix.mul_apply] at this
    simpa only [R6, Matrix.diagonal_mul, Matrix.diagonal_apply] using this
  · intro h
    ext i j
    rw [Matrix.mul_apply]
    simpa only [R6, Matrix.diagonal_mul, Matrix.diagonal_apply] using h i j

theorem mir6_vec {A B : Linear.Mat} : Mir6 A B ↔ ∀ v, B.mulVec (fun i => sign6 i * A.mulVec v i) = fun i => sign6 i * v i := by
  have r : ∀ v : Linear.Vec, R6.mulVec v = fun i => sign6 i * v i := fun v => funext fun i => by rw [R6, Matrix.mulVec_diagonal]
  have e : ∀ v, B.mulVec (fun i => sign6 i * A.mulVec v i) = (B * (R6 * A)).mulVec v := fun v => by
    rw [← r, Matrix.mulVec_mulVec, Matrix.mulVec_mulVec, Matrix.mul_assoc]
  constructor
  · intro h v
    rw [e, h, r]
  · intro h
    refine Matrix.ext_of_mulVec_single fun j => ?_
    rw [← e, h, r]

theorem mir6_one : Mir6 1 1 := by unfold Mir6; simp

theorem mir6_drift (L : ℝ) : Mir6 (Linear.driftT L) (Linear.driftT L) := by
  rw [mir6_vec]
  intro v
  funext i
  fin_cases i <;> simp [Linear.driftT, Linear.setAt, Matrix.mulVec, dotProduct, Fin.sum_univ_six, Matrix.one_apply, sign6]

theorem mir6_planes (L K K' : ℝ) : Mir6 (Linear.get2by2 L K' 2 3 (Linear.get2by2 L K 0 1 1)) (Linear.get2by2 L K' 2 3 (Linear.get2by2 L K 0 1 1)) := by
  rw [mir6_vec, Linear.get2by2_eq, Linear.get2by2_eq]
  intro v
  have a := Flame.Linear.cc_ss K L
  have b := Flame.Linear.cc_ss K' L
  generalize cc K L = c at *
  generalize ss K L = s at *
  generalize cc K' L = c' at *
  generalize ss K' L = s' at *
  funext i
  fin_cases i <;>
    simp [Linear.setAt, Matrix.mulVec, dotProduct, Fin.sum_univ_six, Matrix.one_apply, sign6]
  · linear_combination v 0 * a
  · linear_combination -v 1 * a
  · linear_combination v 2 * b
  · linear_combination -v 3 * b

theorem mir6_solenoid (L K : ℝ) : Mir6 (Linear.solenoidT L K) (Linear.solenoidT L (-K)) := by
  rw [mir6_vec]
  intro v
  unfold Linear.solenoidT
  have a := Real.sin_sq_add_cos_sq (K * L)
  have e1 : Real.cos (-K * L) = Real.cos (K * L) := by rw [neg_mul, Real.cos_neg]
  have e2 : Real.sin (-K * L) = -Real.sin (K * L) := by rw [neg_mul, Real.sin_neg]
  simp only [e1, e2]
  by_cases hK : K = 0
  · subst hK
    simp at *
    funext i
    fin_cases i <;>
      simp [Linear.setAt, Matrix.mulVec, dotProduct, Fin.sum_univ_six, Matrix.one_apply, sign6]
  · have hK' : -K ≠ 0 := neg_ne_zero.2 hK
    simp only [if_pos hK, if_pos hK']
    generalize Real.cos (K * L) = c at *
    generalize Real.sin (K * L) = s at *
    have a2 : (s ^ 2 + c ^ 2) ^ 2 = 1 := by rw [a]; norm_num
    funext i
    fin_cases i <;>
      simp [Linear.setAt, Matrix.mulVec, dotProduct, Fin.sum_univ_six, Matrix.one_apply, sign6] <;> field_simp
    · linear_combination K * v 0 * a2
    · linear_combination -v 1 * a2
    · linear_combination K * v 2 * a2
    · linear_combination -v 3 * a2

theorem reflect6 {c c' : LCfg} {t : LType} {N N' : Linear.Mat} (h : Reflected6 c c' t.name) (hN : Linear.transferOf t c = .ok N)
    (hN' : Linear.transferOf t c' = .ok N') : t ≠ .source ∧ getNumD c' "L" 0 = getNumD c "L" 0 ∧ Mir6 N N' := by
  generalize hty : t.name = ty at h
  cases h with
  | drift h1 =>
    cases t <;> simp only [LType.name, String.reduceEq] at hty
    have e := alike_num h1 "L" (by simp) (by simp) 0
    cases hN; cases hN'
    rw [e]
    exact ⟨by simp, rfl, mir6_drift _⟩
  | marker h1 =>
    cases t <;> simp only [LType.name, String.reduceEq] at hty
    have e := alike_num h1 "L" (by simp) (by simp) 0
    cases hN; cases hN'
    exact ⟨by simp, e, mir6_one⟩
  | quadrupole h1 =>
    cases t <;> simp only [LType.name, String.reduceEq] at hty
    have e := alike_num h1 "L" (by simp) (by simp) 0
    have e2 := alike_num h1 "K" (by simp) (by simp) 0
    cases hN; cases hN'
    rw [e, e2]
    exact ⟨by simp, rfl, mir6_planes _ _ _⟩
  | sbend L phi h1 h2 h3 h4 =>
    cases t <;> simp only [LType.name, String.reduceEq] at hty
    have e := alike_num h1 "L" (by simp) (by simp) 0
    have e2 := alike_num h1 "K" (by simp) (by simp) 0
    simp only [Linear.transferOf, getNum_ok.2 h4] at hN
    simp only [Linear.transferOf, getNum_ok.2 ((h1 "phi" (by simp) (by simp)).trans h4)] at hN'
    cases hN; cases hN'
    rw [e, e2]
    exact ⟨by simp, rfl, mir6_planes _ _ _⟩
  | solenoid K h1 h2 h3 =>
    cases t <;> simp only [LType.name, String.reduceEq] at hty
    have e := alike_num h1 "L" (by simp) (by simp) 0
    cases hN; cases hN'
    have e2 : getNumD c "K" 0 = K := by simp [getNumD, h2]
    have e3 : getNumD c' "K" 0 = -K := by simp [getNumD, h3]
    rw [e, e2, e3, neg_div]
    exact ⟨by simp, rfl, mir6_solenoid _ _⟩

theorem lname_inj {t t' : LType} (h : t'.name = t.name) : t' = t := by
  cases t <;> cases t' <;> simp [LType.name] at h ⊢

/-- The matrix of a run of elements. -/
noncomputable def upTo (N : Nat → Linear.Mat) : Nat → Linear.Mat
  | 0 => 1
  | j + 1 => N j * upTo N j

theorem upTo_back {N N' : Nat → Linear.Mat} {n : Nat} (h : ∀ j, j < n → Mir6 (N j) (N' (n - 1 - j))) :
    ∀ j, j ≤ n → upTo N' j * (R6 * upTo N n) = R6 * upTo N (n - j)
  | 0, _ => by rw [upTo, Matrix.one_mul, Nat.sub_zero]
  | j + 1, hj => by
    have e := h (n - 1 - j) (by omega)
    rw [show n - 1 - (n - 1 - j) = j by omega] at e
    rw [upTo, Matrix.mul_assoc, upTo_back h j (by omega), show n - j = (n - 1 - j) + 1 by omega, upTo,
      show n - (j + 1) = n - 1 - j by omega]
    unfold Mir6 at e
    rw [← Matrix.mul_assoc R6, ← Matrix.mul_assoc, e]

/-- C95 for the linear simulations: let the elements of a lattice from `start` on, `n` of them, be those of another lattice from
`start'` on in the reverse order, each seen from the other end.  There are matrices `A` and `B` by which the two runs multiply every
state, the runs take the same length, and `B` undoes `A` for particles that are turned round in between. -/
theorem C95_linear {σ : Type} {k : Kind σ} (hkind : Lawful k) {base base' : Nat} {sim sim' : String} (cv : CView LCfg) (c c' : LCfg)
    (m m' : Machine LCfg (LDat σ) (LSt σ)) (h : Machine.new cv (Linear.registry k base sim) c = .ok m)
    (h' : Machine.new cv (Linear.registry k base' sim') c' = .ok m')
    (es es' : List LCfg) (hes : cv.elems c = .ok es) (hes' : cv.elems c' = .ok es') (hl : es.length < sizeMod)
    (hl' : es'.length < sizeMod) (start start' n : Nat) (hn : start + n ≤ es.length) (hn' : start' + n ≤ es'.length)
    (hmir : ∀ (j : Nat) ec ec' ty, j < n → es[start + j]? = some ec → es'[start' + (n - 1 - j)]? = some ec' → cv.str ec "type" = .ok ty →
      cv.str ec' "type" = .ok ty ∧ Reflected6 ec ec' ty) :
    ∃ A B, Undoes6 A B ∧ ∀ s s' : St (LSt σ), ∃ r r', propagate m.elems s start n = some r ∧ propagate m'.elems s' start' n = some r' ∧
      r.err = none ∧ r'.err = none ∧ r.st.payload.state = k.prod A s.payload.state ∧ r'.st.payload.state = k.prod B s'.payload.state ∧
      r.st.payload.pos - s.payload.pos = r'.st.payload.pos - s'.payload.pos := by
  have hF := Agree.machine_linear h hes
  have hF' := Agree.machine_linear h' hes'
  have hall := fun j e (hj : m.elems[j]? = some e) => Cavity.forall₂_get hF hj
  have hall' := fun j e (hj : m'.elems[j]? = some e) => Cavity.forall₂_get hF' hj
  have hlen : m.elems.length = es.length := hF.length_eq.symm
  have hlen' : m'.elems.length = es'.length := hF'.length_eq.symm
  let N : Nat → Linear.Mat := fun j => match m.elems[start + j]? with | some e => e.dat.transfer | none => 1
  let N' : Nat → Linear.Mat := fun j => match m'.elems[start' + j]? with | some e => e.dat.transfer | none => 1
  let D : Nat → ℝ := fun j => match m.elems[start + j]? with | some e => e.dat.length | none => 0
  let D' : Nat → ℝ := fun j => match m'.elems[start' + j]? with | some e => e.dat.length | none => 0
  have key : ∀ (j : Nat) e e', j < n → m.elems[start + j]? = some e → m'.elems[start' + (n - 1 - j)]? = some e' →
      ∃ t, e.cls = Linear.cls k base t ∧ e'.cls = Linear.cls k base' t ∧ e.dat.istate = none ∧ e'.dat.istate = none ∧
        e'.dat.length = e.dat.length ∧ Mir6 e.dat.transfer e'.dat.transfer := by
    intro j e e' hj he he'
    obtain ⟨ec, hec, t, hty, g1, g2⟩ := hall _ e he
    obtain ⟨ec', hec', t', hty', g1', g2'⟩ := hall' _ e' he'
    obtain ⟨ht, hM⟩ := hmir j ec ec' _ hj hec hec' hty
    rw [hty'] at ht
    obtain rfl := lname_inj (Except.ok.inj ht)
    obtain ⟨b1, b2, b3⟩ := Linear.build_ok g2
    obtain ⟨b1', b2', b3'⟩ := Linear.build_ok g2'
    obtain ⟨q1, q2, q3⟩ := reflect6 hM b1 b1'
    exact ⟨t', g1, g1', b3 q1, b3' q1, by rw [b2, b2', q2], q3⟩
  have other : ∀ (j : Nat), j < n → ∃ e, m'.elems[start' + j]? = some e := fun j hj => ⟨_, List.getElem?_eq_getElem (by omega)⟩
  have one : ∀ (j : Nat), j < n → ∃ e, m.elems[start + j]? = some e := fun j hj => ⟨_, List.getElem?_eq_getElem (by omega)⟩
  have hkeeps : ∀ base t, Keeps (Linear.cls k base t) := fun base t x s => by
    obtain ⟨a, b, -⟩ := Linear.cls_straight k base t x s
    exact ⟨a, b⟩
  have hmirror : ∀ j, j < n → Mir6 (N j) (N' (n - 1 - j)) ∧ D' (n - 1 - j) = D j := by
    intro j hj
    obtain ⟨e, he⟩ := one j hj
    obtain ⟨e', he'⟩ := other (n - 1 - j) (by omega)
    obtain ⟨t, -, -, -, -, h5, h6⟩ := key j e e' hj he he'
    simp only [N, N', D, D', he, he']
    exact ⟨h6, h5⟩
  have hprop : ∀ (els : List (Elem LCfg (LDat σ) (LSt σ))) (s : St (LSt σ)) (start : Nat),
      propagate els s start n = some (run n els { s with nextElem := start, retreat := false }) := by
    intro els s start
    rw [propagate_eq els s start n (by omega)]
    have : decide ((n : Int) < 0) = false := by simp
    rw [this, Int.natAbs_natCast]
  have elin : ∀ (d : LDat σ) (x : St (LSt σ)), d.istate = none → Linear.advance k d x = (d, { x with payload :=
      ⟨x.payload.pos + d.length, k.prod d.transfer x.payload.state⟩ }, none) := by
    intro d x hd
    unfold Linear.advance
    rw [hd]
  have back := upTo_back (fun j hj => (hmirror j hj).1) n (le_refl _)
  rw [Nat.sub_self, upTo, Matrix.mul_one] at back
  refine ⟨upTo N n, upTo N' n, mir6_undoes.1 back, fun s s' => ?_⟩
  obtain ⟨r1, r2, r3⟩ := run_go (start := start) (N := n) (els0 := m.elems)
    (I := fun j X => X.state = k.prod (upTo N j) s.payload.state ∧ X.pos = s.payload.pos + ∑ i ∈ Finset.range j, D i)
    (fun j e hj he => by
      obtain ⟨e', he'⟩ := other (n - 1 - j) (by omega)
      obtain ⟨t, h1, -⟩ := key j e e' hj he he'
      rw [h1]
      exact hkeeps _ _)
    (fun j e x hj he hr hI => by
      obtain ⟨e', he'⟩ := other (n - 1 - j) (by omega)
      obtain ⟨t, h1, -, h3, -⟩ := key j e e' hj he he'
      rw [h1]
      show (Linear.advance k e.dat x).2.2 = none ∧ (Linear.advance k e.dat x).2.1.payload.state = _ ∧ (Linear.advance k e.dat x).2.1.payload.pos = _
      rw [elin _ _ h3]
      refine ⟨rfl, ?_, ?_⟩
      · dsimp only
        rw [hI.1, ← hkind.mul]
        simp only [upTo, N, he]
      · dsimp only
        rw [hI.2, Finset.sum_range_succ, add_assoc]
        simp only [D, he])
    (by rw [hlen]; exact hn) (by rw [hlen]; exact hl) n 0 m.elems { s with nextElem := start, retreat := false } (by omega) rfl
    (fun i _ => rfl) rfl rfl ⟨(hkind.one _).symm, by simp⟩
  obtain ⟨w1, w2, w3⟩ := run_go (start := start') (N := n) (els0 := m'.elems)
    (I := fun j X => X.state = k.prod (upTo N' j) s'.payload.state ∧ X.pos = s'.payload.pos + ∑ i ∈ Finset.range j, D' i)
    (fun j e' hj he' => by
      obtain ⟨e, he⟩ := one (n - 1 - j) (by omega)
      obtain ⟨t, -, h1, -⟩ := key (n - 1 - j) e e' (by omega) he (by rw [show n - 1 - (n - 1 - j) = j by omega]; exact he')
      rw [h1]
      exact hkeeps _ _)
    (fun j e' x hj he' hr hI => by
      obtain ⟨e, he⟩ := one (n - 1 - j) (by omega)
      obtain ⟨t, -, h1, -, h3, -⟩ := key (n - 1 - j) e e' (by omega) he (by rw [show n - 1 - (n - 1 - j) = j by omega]; exact he')
      rw [h1]
      show (Linear.advance k e'.dat x).2.2 = none ∧ (Linear.advance k e'.dat x).2.1.payload.state = _ ∧ (Linear.advance k e'.dat x).2.1.payload.pos = _
      rw [elin _ _ h3]
      refine ⟨rfl, ?_, ?_⟩
      · dsimp only
        rw [hI.1, ← hkind.mul]
        simp only [upTo, N', he']
      · dsimp only
        rw [hI.2, Finset.sum_range_succ, add_assoc]
        simp only [D', he'])
    (by rw [hlen']; exact hn') (by rw [hlen']; exact hl') n 0 m'.elems { s' with nextElem := start', retreat := false } (by omega) rfl
    (fun i _ => rfl) rfl rfl ⟨(hkind.one _).symm, by simp⟩
  refine ⟨_, _, hprop _ _ _, hprop _ _ _, r1, w1, r2, w2, ?_⟩
  rw [r3, w3, add_sub_cancel_left, add_sub_cancel_left, ← Finset.sum_range_reflect D']
  refine Finset.sum_congr rfl fun j hj => ?_
  exact ((hmirror j (Finset.mem_range.1 hj)).2).symm

/-- C95 for the simulation "Vector": a particle that is turned round behind the lattice and sent through the mirrored one comes
back. -/
theorem C95_vector {base base' : Nat} (cv : CView LCfg) (c c' : LCfg) (m m' : Machine LCfg (LDat Linear.Vec) (LSt Linear.Vec))
    (h : Machine.new cv (Linear.registry Linear.vector base "Vector") c = .ok m)
    (h' : Machine.new cv (Linear.registry Linear.vector base' "Vector") c' = .ok m')
    (es es' : List LCfg) (hes : cv.elems c = .ok es) (hes' : cv.elems c' = .ok es') (hl : es.length < sizeMod)
    (hl' : es'.length < sizeMod) (start start' n : Nat) (hn : start + n ≤ es.length) (hn' : start' + n ≤ es'.length)
    (hmir : ∀ (j : Nat) ec ec' ty, j < n → es[start + j]? = some ec → es'[start' + (n - 1 - j)]? = some ec' → cv.str ec "type" = .ok ty →
      cv.str ec' "type" = .ok ty ∧ Reflected6 ec ec' ty)
    (s s' : St (LSt Linear.Vec)) : ∃ r r', propagate m.elems s start n = some r ∧ propagate m'.elems s' start' n = some r' ∧
      r.err = none ∧ r'.err = none ∧ ((∀ i, s'.payload.state i = sign6 i * r.st.payload.state i) →
        ∀ i, r'.st.payload.state i = sign6 i * s.payload.state i) := by
  obtain ⟨A, B, hAB, hall⟩ := C95_linear Linear.lawful_vector cv c c' m m' h h' es es' hes hes' hl hl' start start' n hn hn' hmir
  obtain ⟨r, r', h1, h2, h3, h4, h5, h6, -⟩ := hall s s'
  refine ⟨r, r', h1, h2, h3, h4, fun hs i => ?_⟩
  have e := congrFun (mir6_vec.1 (mir6_undoes.2 hAB) s.payload.state) i
  rw [h6]
  show B.mulVec s'.payload.state i = _
  rw [← e, show s'.payload.state = fun i => sign6 i * A.mulVec s.payload.state i from funext fun i => by
    rw [hs i, h5]
    rfl]

end Flame.Mirror
