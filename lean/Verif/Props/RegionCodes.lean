import Verif.Model.Select
import Verif.Lemmas.Ideal
import Verif.Spec.Units

/-!
# C07-C11: which region codes the selectors can return

All statements hold in every arithmetic `F` and for all floats, NaN and infinities included.
-/

namespace PyX

open Classical Py

/-- specification: at least one warning was logged -/
def Warned (l : List LogRec) : Prop := ∃ r ∈ l, r.level = .warning

@[simp] theorem Warned.nil : ¬ Warned [] := by simp [Warned]
@[simp] theorem Warned.append (l l' : List LogRec) : Warned (l ++ l') ↔ Warned l ∨ Warned l' := by
  simp [Warned, or_and_right, exists_or]
@[simp] theorem Warned.cons (r : LogRec) (l : List LogRec) :
    Warned (r :: l) ↔ r.level = .warning ∨ Warned l := by
  simp [Warned]

/-- walk over all paths of a selector; unknown subcalls may do anything -/
macro "walk_codes" : tactic => `(tactic|
  repeat' (first
    | apply Post.ret
    | (apply Post.ite <;> intro _)
    | (apply Post.bind; apply Post.warn)
    | (apply Post.bind; refine Post.any (fun _ _ => ?_) (fun _ => trivial) trivial)))

/-- C08: whatever `region_ph` returns is a documented code; 0 comes with a warning; outside the pressure
range the answer is 0; region 3 needs p ≥ 16.5292 and region 5 needs p ≤ 10. -/
theorem C08_region_ph (F : FP) (p h : Num) (r : ℤ)
    (hr : (RegionSelection.region_ph F p h).out = .ok r) :
    r ∈ ({0, 1, 2, 3, 4, 5} : Set ℤ) ∧
    (r = 0 → Warned (RegionSelection.region_ph F p h).logs) ∧
    ((p < F.lit 0.000611657 ∨ p > Num.ofInt 100) → r = 0) ∧
    (r = 3 → ¬ p < F.lit 16.5292) ∧
    (r = 5 → p < F.lit 16.5292 ∧ ¬ p > Num.ofInt 10) := by
  refine Post.elim (Q := fun l r => r ∈ ({0, 1, 2, 3, 4, 5} : Set ℤ) ∧ (r = 0 → Warned l) ∧
    ((p < F.lit 0.000611657 ∨ p > Num.ofInt 100) → r = 0) ∧ (r = 3 → ¬ p < F.lit 16.5292) ∧
    (r = 5 → p < F.lit 16.5292 ∧ ¬ p > Num.ofInt 10)) (E := fun _ => True) (D := True) ?_ hr
  unfold RegionSelection.region_ph RegionSelection.region_ph.rest
  walk_codes
  all_goals simp_all

/-- C09: the same for `region_ps`; region 3 needs p > 16.529, region 5 needs p ≤ 10 -/
theorem C09_region_ps (F : FP) (p s : Num) (r : ℤ)
    (hr : (RegionSelection.region_ps F p s).out = .ok r) :
    r ∈ ({0, 1, 2, 3, 4, 5} : Set ℤ) ∧
    (r = 0 → Warned (RegionSelection.region_ps F p s).logs) ∧
    ((p < F.lit 0.000611657 ∨ p > Num.ofInt 100 ∨ s < Num.ofInt 0) → r = 0) ∧
    (r = 3 → p > F.lit 16.529) ∧
    (r = 5 → p ≤ Num.ofInt 10) := by
  refine Post.elim (Q := fun l r => r ∈ ({0, 1, 2, 3, 4, 5} : Set ℤ) ∧ (r = 0 → Warned l) ∧
    ((p < F.lit 0.000611657 ∨ p > Num.ofInt 100 ∨ s < Num.ofInt 0) → r = 0) ∧
    (r = 3 → p > F.lit 16.529) ∧ (r = 5 → p ≤ Num.ofInt 10)) (E := fun _ => True) (D := True) ?_ hr
  unfold RegionSelection.region_ps
  by_cases hout : p < F.lit 0.000611657 ∨ p > Num.ofInt 100 ∨ s < Num.ofInt 0
  · apply Post.bind
    refine Post.mono (Q := fun _ b => b = true) (E := fun _ => True) (D := True) ?_ ?_
      (fun _ h => h) (fun h => h)
    · rcases hout with h | h | h
      · rw [if_pos h]; exact rfl
      · by_cases h1 : p < F.lit 0.000611657
        · rw [if_pos h1]; exact rfl
        · rw [if_neg h1, if_pos h]; exact rfl
      · by_cases h1 : p < F.lit 0.000611657
        · rw [if_pos h1]; exact rfl
        · by_cases h2 : p > Num.ofInt 100
          · rw [if_neg h1, if_pos h2]; exact rfl
          · rw [if_neg h1, if_neg h2, if_pos h]; exact rfl
    · intro l b hb
      rw [if_pos hb]
      walk_codes
      simp
  · walk_codes
    all_goals simp_all

/-- C10: `region_hs` never answers 5, and 0 comes with a warning -/
theorem C10_region_hs (F : FP) (h s : Num) (r : ℤ)
    (hr : (RegionSelection.region_hs F h s).out = .ok r) :
    r ∈ ({0, 1, 2, 3, 4} : Set ℤ) ∧
    (r = 0 → Warned (RegionSelection.region_hs F h s).logs) := by
  refine Post.elim (Q := fun l r => r ∈ ({0, 1, 2, 3, 4} : Set ℤ) ∧ (r = 0 → Warned l))
    (E := fun _ => True) (D := True) ?_ hr
  unfold RegionSelection.region_hs
  walk_codes
  all_goals simp

/-- C11: `region_prho` -/
theorem C11_region_prho (F : FP) (p rho : Num) (r : ℤ)
    (hr : (RegionSelection.region_prho F p rho).out = .ok r) :
    r ∈ ({0, 1, 2, 3, 4, 5} : Set ℤ) ∧
    (r = 0 → Warned (RegionSelection.region_prho F p rho).logs) ∧
    ((p < F.lit 0.000611657 ∨ p > Num.ofInt 100) → r = 0) ∧
    (r = 3 → ¬ p < F.lit 16.5292) ∧
    (r = 5 → p < F.lit 16.5292 ∧ ¬ p > Num.ofInt 10) := by
  refine Post.elim (Q := fun l r => r ∈ ({0, 1, 2, 3, 4, 5} : Set ℤ) ∧ (r = 0 → Warned l) ∧
    ((p < F.lit 0.000611657 ∨ p > Num.ofInt 100) → r = 0) ∧ (r = 3 → ¬ p < F.lit 16.5292) ∧
    (r = 5 → p < F.lit 16.5292 ∧ ¬ p > Num.ofInt 10)) (E := fun _ => True) (D := True) ?_ hr
  unfold RegionSelection.region_prho RegionSelection.region_prho.rest
  walk_codes
  all_goals simp_all

end PyX
