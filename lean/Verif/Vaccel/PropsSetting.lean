import Verif.Vaccel.Setting
import Mathlib.Tactic.FieldSimp
import Mathlib.Tactic.Ring
import Mathlib.Algebra.Field.Rat

/-!
# C47: setting then reading back
-/

namespace Flame.Vaccel

variable {K : Type} [Field K] [DecidableEq K] {Name Other : Type} [DecidableEq Name]

/-- The two records convert alike; only whether LINR is zero matters. -/
def Alike (r s : Rec K) : Prop :=
  r.aslo = s.aslo ∧ r.aoff = s.aoff ∧ r.eslo = s.eslo ∧ r.eoff = s.eoff ∧ (r.linr = 0 ↔ s.linr = 0)

theorem toVal_ofVal (r : Rec K) (v : K) : r.toVal (r.ofVal v) = v := by
  unfold Rec.toVal Rec.ofVal
  by_cases h1 : r.aslo = 0 <;> by_cases h2 : r.linr = 0 <;> by_cases h3 : r.eslo = 0 <;> simp [h1, h2, h3]

theorem ofVal_toVal (r : Rec K) (x : K) : r.ofVal (r.toVal x) = x := by
  unfold Rec.toVal Rec.ofVal
  by_cases h1 : r.aslo = 0 <;> by_cases h2 : r.linr = 0 <;> by_cases h3 : r.eslo = 0 <;> simp [h1, h2, h3]

theorem alike_toVal {r s : Rec K} (h : Alike r s) (x : K) : r.toVal x = s.toVal x := by
  obtain ⟨h1, h2, h3, h4, h5⟩ := h
  unfold Rec.toVal
  rw [h1, h2, h3, h4]
  simp only [ne_eq, h5]

/-- What a successful change does to the machine. -/
theorem change_some {accept : Nat → Conf K Other Name → Bool} {r : Rec K} {v : K} {m m' : Mach K Other Name} {i : Nat}
    {p : Name} (h : settingChange accept r v m i p = some m') :
    ∃ c, m[i]? = some c ∧ i < m.length ∧ m' = m.set i (c.setNum p (r.ofVal v)) := by
  unfold settingChange reconfigure at h
  split at h
  · cases h
  · rename_i c hc
    split at h
    · rename_i hi
      exact ⟨c, hc, hi.1, by injection h with h; exact h.symm⟩
    · cases h

/-- **C47.** A value that was set successfully is read back unchanged, whatever the scaling parameters. -/
theorem C47_roundtrip (accept : Nat → Conf K Other Name → Bool) (ao ai : Rec K) (ha : Alike ao ai) (v : K)
    (m m' : Mach K Other Name) (i : Nat) (p : Name) (h : settingChange accept ao v m i p = some m') :
    settingReadback ai m' i p = some v := by
  obtain ⟨c, _, hi, rfl⟩ := change_some h
  have hv : ai.toVal (ao.ofVal v) = v := by rw [← alike_toVal ha, toVal_ofVal]
  unfold settingReadback
  rw [List.getElem?_set_self hi]
  have hg : (c.setNum p (ao.ofVal v)).getNum p = some (ao.ofVal v) := by
    simp [Conf.getNum, Conf.setNum]
  simp only [hg]
  exact congrArg some hv

example : Alike (⟨2, 3, 0, 7, 1⟩ : Rec ℚ) ⟨2, 3, 0, 7, 2⟩ ∧
    (settingChange (Other := Unit) (fun _ _ => true) (⟨2, 3, 0, 7, 1⟩ : Rec ℚ) 11 [fun _ => none, fun _ => some (.num 5)] 1
      'k').isSome = true := by
  constructor
  · simp [Alike]
  · rfl

/-- **C47.** The initial value of a record is the value a readback gives. -/
theorem C47_initial (r : Rec K) (m : Mach K Other Name) (i : Nat) (p : Name) :
    settingInit r m i p = settingReadback r m i p := by
  unfold settingInit settingReadback
  cases m[i]? with
  | none => rfl
  | some c =>
    simp only
    cases c.getNum p <;> rfl

/-- **C47.** Writing the initial value, or any value just read back, leaves the parameter as it is. -/
theorem C47_write_back (accept : Nat → Conf K Other Name → Bool) (ao ai : Rec K) (ha : Alike ao ai) (v : K)
    (m m' : Mach K Other Name) (i : Nat) (p : Name) (hv : settingReadback ai m i p = some v)
    (h : settingChange accept ao v m i p = some m') : m' = m := by
  obtain ⟨c, hc, hi, rfl⟩ := change_some h
  unfold settingReadback at hv
  simp only [hc] at hv
  split at hv
  · cases hv
  · rename_i x hx
    have hv' : ao.toVal x = v := by
      rw [alike_toVal ha]
      injection hv
    have hcp : c p = some (.num x) := by
      unfold Conf.getNum at hx
      split at hx
      · rename_i y hy
        injection hx with hx
        rw [hy, hx]
      · cases hx
    have : c.setNum p (ao.ofVal v) = c := by
      rw [← hv', ofVal_toVal]
      funext q
      unfold Conf.setNum
      split
      · rename_i hq
        rw [hq, hcp]
      · rfl
    rw [this]
    obtain ⟨hlt, hget⟩ := List.getElem?_eq_some_iff.1 hc
    rw [← hget]
    exact List.set_getElem_self hlt

example : settingReadback (Other := Unit) (⟨2, 3, 4, 7, 1⟩ : Rec ℚ) [fun _ => none, fun _ => some (.num 5)] 1 'k' = some 59 ∧
    (settingChange (Other := Unit) (fun _ _ => true) (⟨2, 3, 4, 7, 1⟩ : Rec ℚ) 59 [fun _ => none, fun _ => some (.num 5)] 1
      'k').isSome = true := by
  constructor
  · simp [settingReadback, Conf.getNum]
    norm_num
  · rfl

/-- **C47.** Setting a value changes no other parameter and no other element; a refused value changes nothing (there is
no new machine). -/
theorem C47_others (accept : Nat → Conf K Other Name → Bool) (ao : Rec K) (v : K)
    (m m' : Mach K Other Name) (i : Nat) (p : Name) (h : settingChange accept ao v m i p = some m') :
    m'.length = m.length ∧ (∀ j, j ≠ i → m'[j]? = m[j]?) ∧
    (∀ q, q ≠ p → ∀ c c', m[i]? = some c → m'[i]? = some c' → c' q = c q) := by
  obtain ⟨c, hc, hi, rfl⟩ := change_some h
  refine ⟨by simp, ?_, ?_⟩
  · intro j hj
    rw [List.getElem?_set_ne (fun h => hj h.symm)]
  · intro q hq c0 c' h1 h2
    rw [List.getElem?_set_self hi] at h2
    injection h2 with h2
    rw [hc] at h1
    injection h1 with h1
    rw [← h2, ← h1]
    unfold Conf.setNum
    rw [if_neg hq]

end Flame.Vaccel
