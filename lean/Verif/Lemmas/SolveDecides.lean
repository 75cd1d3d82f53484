import Verif.Lemmas.Solve

/-!
# If the solver answers, there is only one answer
-/

set_option autoImplicit false

namespace SD

open Spec

theorem NDMat.solve_injective {M : NDMat} {f v : List ℝ} (h : M.solve f = some v) {w : ℕ → ℝ}
    (hw : LinRel M.get M.rows w fun _ => 0) : ∀ i < M.rows, w i = 0 := by
  unfold NDMat.solve at h
  split_ifs at h with hc
  have := Matrix.eq_zero_of_mulVec_eq_zero (M := M.toMatrix) hc.2.2 (v := fun i => w i) (by
    funext i
    have := hw i i.2
    simp only [Finset.sum_range] at this
    exact this)
  intro i hi
  exact congrFun this ⟨i, hi⟩

/-- Loads and strains that are prescribed decide the motion: there is no motion but rest without loads in the prescribed
places and without prescribed strains. -/
theorem solve_decides {form : InputForm} (hform : form = .fts ∨ form = .fte) {e : Bool} {Ns Nd : ℕ} {R : NDMat}
    {x : Inputs} {p : Outputs} (hR : R.rows = 11 * Ns + 6 * Nd) (hS : Symm R.get (11 * Ns + 6 * Nd))
    (h : solveForm form e Ns Nd R x = some p) {w g : ℕ → ℝ} (hw : LinRel R.get (11 * Ns + 6 * Nd) w g)
    (h0 : ∀ i < 11 * Ns + 6 * Nd, (form = .fte ∧ stressIdx Ns i → w i = 0) ∧ (¬ (form = .fte ∧ stressIdx Ns i) → g i = 0)) :
    ∀ i < 11 * Ns + 6 * Nd, w i = 0 := by
  rcases hform with rfl | rfl
  · obtain ⟨fv, -, h⟩ := Option.bind_eq_some_iff.mp h
    obtain ⟨vv, hvv, -⟩ := Option.bind_eq_some_iff.mp h
    rw [← hR]
    refine NDMat.solve_injective hvv ?_
    rw [hR]
    refine (LinRel.congr (fun _ _ _ _ => rfl) (fun _ _ => rfl) fun i hi => ?_).mp hw
    exact (h0 i hi).2 fun g => by cases g.1
  · obtain ⟨R', hR', h⟩ := Option.bind_eq_some_iff.mp h
    obtain ⟨fv, -, h⟩ := Option.bind_eq_some_iff.mp h
    obtain ⟨vv, hvv, -⟩ := Option.bind_eq_some_iff.mp h
    obtain ⟨hpiv, hrows, -⟩ := fte_pivotEntries hS hR'
    have hz : ∀ i < 11 * Ns + 6 * Nd, swapOn (stressIdx Ns) g w i = 0 := by
      intro i hi
      unfold swapOn
      split_ifs with c
      · exact (h0 i hi).1 ⟨rfl, c⟩
      · exact (h0 i hi).2 fun g => c g.2
    have hz' := NDMat.solve_injective hvv (w := swapOn (stressIdx Ns) w g) (by
      rw [hrows, hR]
      exact (LinRel.congr (fun _ _ _ _ => rfl) (fun _ _ => rfl) hz).mp ((hpiv w g).mp hw))
    rw [hrows, hR] at hz'
    intro i hi
    have a := hz i hi
    have b := hz' i hi
    unfold swapOn at a b
    split_ifs at a b
    · exact a
    · exact b

end SD
