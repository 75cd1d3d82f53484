import Verif.Lemmas.IsotropySystem
import Verif.Props.FarField

/-!
C17: far-field interactions are isotropic.
-/

set_option autoImplicit false

namespace SD

open Spec

/-! ## The transformation rules are the right ones -/

/-- **C17** (meaning of the rules). `turnComp` turns the five components of any symmetric traceless matrix
`S` to those of `Q S Qᵀ`, and the moment `r × F` of a force to the moment of the turned force at the turned
point. -/
theorem C17_components {Q : Fin 3 → Fin 3 → ℝ} (hQ : Orthogonal Q) :
    (∀ S, SymTraceless S → ∀ F : Comp → ℝ, (∀ q, F (.s q) = five S q) →
      ∀ p, turnComp Q (.s p) F = five (turnMat Q S) p) ∧
    (∀ r f : Fin 3 → ℝ, ∀ F : Comp → ℝ, (∀ i, F (.t i) = ∑ j, ∑ k, eps i j k * r j * f k) →
      ∀ i, turnComp Q (.t i) F = ∑ j, ∑ k, eps i j k * turnVec Q r j * turnVec Q f k) := by
  constructor
  · intro S hS F hF p
    have hs : SymTraceless (turnMat Q S) := by
      constructor
      · intro i j
        unfold turnMat
        rw [Finset.sum_comm]
        refine Finset.sum_congr rfl fun a _ => Finset.sum_congr rfl fun b _ => ?_
        rw [hS.1 b a]; ring
      · have e : turnMat Q S 0 0 + turnMat Q S 1 1 + turnMat Q S 2 2
            = ∑ i, ∑ j, S i j * ∑ k, Q k i * Q k j := by
          simp only [turnMat, Fin.sum_univ_three]; ring
        rw [e]
        simp only [orth_col hQ]
        have := hS.2
        simpa [dlt, Fin.sum_univ_three] using this
    rw [← basis5_contract _ hs, turnComp_s]
    simp only [hF, rep5_eq hQ]
    rw [← back_contract]
    simp only [fun i j => basis5_expand (back_symTraceless hQ (basis5_symm p)) i j]
    simp only [← basis5_contract S hS]
    simp only [Fin.sum_univ_three, Fin.sum_univ_five]
    ring
  · intro r f F hF i
    have dd := det_sq hQ
    have h1 : ∀ x, ∑ i, x i * (∑ j, ∑ k, eps i j k * turnVec Q r j * turnVec Q f k)
        = vol x (turnVec Q r) (turnVec Q f) := by
      intro x; simp only [vol, Fin.sum_univ_three]; ring
    have h2 : ∀ x, ∑ a, x a * (∑ j, ∑ k, eps a j k * r j * f k) = vol x r f := by
      intro x; simp only [vol, Fin.sum_univ_three]; ring
    have h3 := h1 (dlt i)
    rw [← turn_row hQ i, vol_turn, ← h2, turn_row hQ i] at h3
    have h4 : ∑ i', dlt i i' * (∑ j, ∑ k, eps i' j k * turnVec Q r j * turnVec Q f k)
        = ∑ j, ∑ k, eps i j k * turnVec Q r j * turnVec Q f k := by simp [dlt]
    rw [h4] at h3
    rw [h3, Finset.mul_sum]
    simp only [turnComp, hF]
    exact Finset.sum_congr rfl fun a _ => by ring

/-! ## Pairs -/

/-- **C17** (pairs). The six pair couplings computed by the code at the turned displacement `Q r` are the
turned couplings at `r`: `M(Qr) = Q M(r) Qᵀ` for velocity-force and rotation-torque, with the sign `det Q`
for velocity-torque and rotation-stresslet, and with one factor `Q` for each index of a stresslet. -/
theorem C17_pair {Q : Fin 3 → Fin 3 → ℝ} (hQ : Orthogonal Q) {r : Fin 3 → ℝ} (h : eps10 < len r)
    (a b c mu : ℝ) (i j k l : Fin 3) :
    M11 (turnVec Q r i) (turnVec Q r j) (len (turnVec Q r)) a b i j c mu
      = ∑ x, ∑ y, Q i x * Q j y * M11 (r x) (r y) (len r) a b x y c mu ∧
    M12 (turnVec Q r) (len (turnVec Q r)) a b i j c mu
      = det3 Q * ∑ x, ∑ y, Q i x * Q j y * M12 r (len r) a b x y c mu ∧
    M22 (turnVec Q r) (len (turnVec Q r)) a b i j c mu
      = ∑ x, ∑ y, Q i x * Q j y * M22 r (len r) a b x y c mu ∧
    M13 (turnVec Q r) (len (turnVec Q r)) a b i j k c mu
      = ∑ x, ∑ y, ∑ z, Q i x * Q j y * Q k z * M13 r (len r) a b x y z c mu ∧
    M23 (turnVec Q r) (len (turnVec Q r)) a b i j k c mu
      = det3 Q * ∑ x, ∑ y, ∑ z, Q i x * Q j y * Q k z * M23 r (len r) a b x y z c mu ∧
    M33 (turnVec Q r) (len (turnVec Q r)) a b i j k l c mu
      = ∑ x, ∑ y, ∑ z, ∑ w, Q i x * Q j y * Q k z * Q l w * M33 r (len r) a b x y z w c mu := by
  have hr : r ≠ 0 := by
    rintro rfl
    rw [len_zero] at h
    exact absurd h (by unfold eps10; norm_num)
  have hr' := turn_ne hQ hr
  have h' : len (turnVec Q r) > eps10 := by rw [len_turn hQ]; exact h
  refine ⟨?_, ?_, ?_, ?_, ?_, ?_⟩
  · simp only [M11_resp hr h, M11_resp hr' h', turn_FF hQ hr, Finset.mul_sum]
    refine Finset.sum_congr rfl fun _ _ => Finset.sum_congr rfl fun _ _ => by ring
  · simp only [M12_resp hr h, M12_resp hr' h', turn_FT hQ hr, Finset.mul_sum]
    refine Finset.sum_congr rfl fun _ _ => Finset.sum_congr rfl fun _ _ => by ring
  · simp only [M22_resp hr h, M22_resp hr' h', turn_TT hQ hr, Finset.mul_sum]
    refine Finset.sum_congr rfl fun _ _ => Finset.sum_congr rfl fun _ _ => by ring
  · simp only [M13_resp hr h, M13_resp hr' h', turn_FS hQ hr, Finset.mul_sum]
    refine Finset.sum_congr rfl fun _ _ => Finset.sum_congr rfl fun _ _ => Finset.sum_congr rfl fun _ _ => by
      ring
  · simp only [M23_resp hr h, M23_resp hr' h', turn_TS hQ hr, Finset.mul_sum]
    refine Finset.sum_congr rfl fun _ _ => Finset.sum_congr rfl fun _ _ => Finset.sum_congr rfl fun _ _ => by
      ring
  · simp only [M33_resp hr, M33_resp hr', turn_SS hQ hr, Finset.mul_sum]
    refine Finset.sum_congr rfl fun _ _ => Finset.sum_congr rfl fun _ _ => Finset.sum_congr rfl fun _ _ =>
      Finset.sum_congr rfl fun _ _ => by ring

/-- **C17** (matrix). Turning a whole configuration of spheres and dumbbells turns every block of the
far-field matrix. -/
theorem C17_matrix {P : PosData} (hP : Sensible P) {Q : Fin 3 → Fin 3 → ℝ} (hQ : Orthogonal Q) (mu : ℝ)
    (bb : Bool) {x y : ℕ} {c1 c2 : Comp} (hx : HasRow P.Ns P.Nd x c1) (hy : HasRow P.Ns P.Nd y c2) :
    (generate_Minfinity_loop (NDMat.zeros (side P) (side P)) (turned P Q)
      (1 / (8 * Real.pi * mu)) mu bb).get (row P.Ns x c1) (row P.Ns y c2)
    = turnComp Q c1 fun d1 => turnComp Q c2 fun d2 =>
      (generate_Minfinity_loop (NDMat.zeros (side P) (side P)) P (1 / (8 * Real.pi * mu)) mu bb).get
        (row P.Ns x d1) (row P.Ns y d2) := by
  have e := C48_entry (turned_sensible hP hQ) mu bb (x := x) (y := y) (c1 := c1) (c2 := c2) hx hy
  refine Eq.trans e ?_
  have hc : centre (turned P Q) = fun u => turnVec Q (centre P u) := funext fun u => centre_turned P Q u
  have hxn : x < beads P := owns_lt (owns_kind hx)
  have hyn : y < beads P := owns_lt (owns_kind hy)
  rw [hc]
  refine Eq.trans (systemMob_turn hQ P.Ns bb (centre P) (radius P) mu x y c1 c2 fun hxy =>
    (sep_ne (hP.radius_pos x hxn) (hP.radius_pos y hyn) (hP.apart x hxn y hyn hxy)).1) ?_
  have key : ∀ d1 d2, HasRow P.Ns P.Nd x d1 → HasRow P.Ns P.Nd y d2 →
      systemMob P.Ns bb (centre P) (radius P) mu x d1 y d2
        = (generate_Minfinity_loop (NDMat.zeros (side P) (side P)) P (1 / (8 * Real.pi * mu)) mu bb).get
          (row P.Ns x d1) (row P.Ns y d2) := fun d1 d2 h1 h2 => (C48_entry hP mu bb h1 h2).symm
  cases c1 with
  | f i =>
    refine Finset.sum_congr rfl fun a _ => congrArg (Q i a * ·) ?_
    cases c2 with
    | f j => exact Finset.sum_congr rfl fun b _ => congrArg (Q j b * ·) (key _ _ hx hy)
    | t j => exact Finset.sum_congr rfl fun b _ => congrArg (det3 Q * Q j b * ·) (key _ _ hx hy)
    | s q => exact Finset.sum_congr rfl fun b _ => congrArg (_ * ·) (key _ _ hx hy)
  | t i =>
    refine Finset.sum_congr rfl fun a _ => congrArg (det3 Q * Q i a * ·) ?_
    cases c2 with
    | f j => exact Finset.sum_congr rfl fun b _ => congrArg (Q j b * ·) (key _ _ hx hy)
    | t j => exact Finset.sum_congr rfl fun b _ => congrArg (det3 Q * Q j b * ·) (key _ _ hx hy)
    | s q => exact Finset.sum_congr rfl fun b _ => congrArg (_ * ·) (key _ _ hx hy)
  | s p =>
    refine Finset.sum_congr rfl fun a _ => congrArg (_ * ·) ?_
    cases c2 with
    | f j => exact Finset.sum_congr rfl fun b _ => congrArg (Q j b * ·) (key _ _ hx hy)
    | t j => exact Finset.sum_congr rfl fun b _ => congrArg (det3 Q * Q j b * ·) (key _ _ hx hy)
    | s q => exact Finset.sum_congr rfl fun b _ => congrArg (_ * ·) (key _ _ hx hy)

/-! ## Examples -/

/-- A rotation about the third axis. -/
noncomputable def demoQ : Fin 3 → Fin 3 → ℝ := ![![3 / 5, -4 / 5, 0], ![4 / 5, 3 / 5, 0], ![0, 0, 1]]

theorem demoQ_orth : Orthogonal demoQ := by
  intro i j
  fin_cases i <;> fin_cases j <;> simp [demoQ, Fin.sum_univ_three, dlt] <;> norm_num

/-- A reflection combined with an exchange of axes. -/
theorem mirror_orth : Orthogonal ![![0, 1, 0], ![1, 0, 0], ![0, 0, 1]] := by
  intro i j
  fin_cases i <;> fin_cases j <;> simp [Fin.sum_univ_three, dlt]

example : det3 demoQ = 1 := by simp [det3, demoQ]; norm_num
example : det3 ![![0, 1, 0], ![1, 0, 0], ![0, 0, 1]] = -1 := by simp [det3]

example := C17_components demoQ_orth
example := C17_pair demoQ_orth (r := ![5, 0, 0])
  (by
    have : len ![5, 0, 0] = 5 := by
      rw [show (5:ℝ) = Real.sqrt (5 ^ 2) from (Real.sqrt_sq (by norm_num)).symm]
      simp [len, Fin.sum_univ_three, pow_two]
    rw [this]; norm_num [eps10]) 1 2 3 4 0 1 2 0
example := C17_matrix demoP_sensible mirror_orth 3 true (x := 1) (y := 3) (c1 := .s 4) (c2 := .f 1)
  (by simp [HasRow, demoP]) (by simp [HasRow, demoP])

end SD
