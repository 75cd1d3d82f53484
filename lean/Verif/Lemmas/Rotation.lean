import Verif.Model.Timestep
import Verif.Spec.Motion
import Mathlib.Tactic.FieldSimp
import Mathlib.Tactic.LinearCombination
import Mathlib.Tactic.Positivity

set_option autoImplicit false
set_option linter.unusedSimpArgs false

namespace SD

open Spec

theorem len_eq_norm (w : Vec3) : len w = Real.sqrt (w 0 ^ 2 + w 1 ^ 2 + w 2 ^ 2) := by
  unfold len
  simp only [Fin.sum_univ_three]

theorem len_pos_of_ne {w : Vec3} (h : w ≠ 0) : 0 < len w := by
  rw [len_eq_norm]
  apply Real.sqrt_pos.mpr
  by_contra hc
  apply h
  have h0 := sq_nonneg (w 0)
  have h1 := sq_nonneg (w 1)
  have h2 := sq_nonneg (w 2)
  have e0 : w 0 = 0 := by nlinarith
  have e1 : w 1 = 0 := by nlinarith
  have e2 : w 2 = 0 := by nlinarith
  funext k
  fin_cases k <;> assumption

theorem len_sq' (w : Vec3) : len w ^ 2 = w 0 ^ 2 + w 1 ^ 2 + w 2 ^ 2 := by
  rw [len_eq_norm, Real.sq_sqrt (by positivity)]

theorem matVec3_eq (A : Mat3) (x : Vec3) (i : Fin 3) :
    matVec3 A x i = A i 0 * x 0 + A i 1 * x 1 + A i 2 * x 2 := by
  simp [matVec3, Fin.sum_univ_three]

theorem inv3_some {A : Mat3} (h : (Matrix.of A).det ≠ 0) : ∃ B, inv3 A = some B ∧
    (∀ v, matVec3 A (matVec3 B v) = v) ∧ (∀ v, matVec3 B (matVec3 A v) = v) ∧
    (∀ v, vecMat3 (vecMat3 v A) B = v) ∧ (∀ v, vecMat3 (vecMat3 v B) A = v) := by
  have e : ∀ (C : Mat3) v, matVec3 C v = (Matrix.of C).mulVec v := fun C v => by
    funext i; simp [matVec3, Matrix.mulVec, dotProduct]
  have e' : ∀ (C : Mat3) v, vecMat3 v C = Matrix.vecMul v (Matrix.of C) := fun C v => by
    funext i; simp [vecMat3, Matrix.vecMul, dotProduct]
  have hu : IsUnit (Matrix.of A).det := isUnit_iff_ne_zero.mpr h
  refine ⟨_, if_neg h, fun v => ?_, fun v => ?_, fun v => ?_, fun v => ?_⟩
  · rw [e, e, Matrix.mulVec_mulVec]
    exact (congrArg (fun M => Matrix.mulVec M v) (Matrix.mul_nonsing_inv _ hu)).trans
      (Matrix.one_mulVec v)
  · rw [e, e, Matrix.mulVec_mulVec]
    exact (congrArg (fun M => Matrix.mulVec M v) (Matrix.nonsing_inv_mul _ hu)).trans
      (Matrix.one_mulVec v)
  · rw [e', e', Matrix.vecMul_vecMul]
    exact (congrArg (fun M => Matrix.vecMul v M) (Matrix.mul_nonsing_inv _ hu)).trans
      (Matrix.vecMul_one v)
  · rw [e', e', Matrix.vecMul_vecMul]
    exact (congrArg (fun M => Matrix.vecMul v M) (Matrix.nonsing_inv_mul _ hu)).trans
      (Matrix.vecMul_one v)

theorem inv3_none {A : Mat3} (h : (Matrix.of A).det = 0) : inv3 A = none := if_pos h

theorem det3 (A : Mat3) : (Matrix.of A).det
    = A 0 0 * (A 1 1 * A 2 2 - A 1 2 * A 2 1) - A 0 1 * (A 1 0 * A 2 2 - A 1 2 * A 2 0)
      + A 0 2 * (A 1 0 * A 2 1 - A 1 1 * A 2 0) := by
  rw [Matrix.det_fin_three]
  simp only [Matrix.of_apply]
  ring

/-- The spherical-coordinate round trip: turning the longitude by `α`. -/
theorem longitude (x y z α r : ℝ) (hr : r = Real.sqrt (x ^ 2 + y ^ 2 + z ^ 2)) (h : r ≠ 0) :
    r * Real.sin (Real.arccos (z / r))
        * Real.cos ((if x = 0 ∧ y = 0 then 0 else Complex.arg ⟨x, y⟩) + α)
      = x * Real.cos α - y * Real.sin α ∧
    r * Real.sin (Real.arccos (z / r))
        * Real.sin ((if x = 0 ∧ y = 0 then 0 else Complex.arg ⟨x, y⟩) + α)
      = x * Real.sin α + y * Real.cos α ∧
    r * Real.cos (Real.arccos (z / r)) = z := by
  have hr0 : 0 < r := lt_of_le_of_ne (by rw [hr]; exact Real.sqrt_nonneg _) (Ne.symm h)
  have hsq : r ^ 2 = x ^ 2 + y ^ 2 + z ^ 2 := by rw [hr]; exact Real.sq_sqrt (by positivity)
  have hz : |z / r| ≤ 1 := by
    rw [abs_div, abs_of_pos hr0, div_le_one hr0]
    exact abs_le_of_sq_le_sq (by nlinarith [sq_nonneg x, sq_nonneg y]) hr0.le
  obtain ⟨hz1, hz2⟩ := abs_le.mp hz
  have hs : r * Real.sin (Real.arccos (z / r)) = Real.sqrt (x ^ 2 + y ^ 2) := by
    rw [Real.sin_arccos, ← Real.sqrt_sq hr0.le, ← Real.sqrt_mul (by positivity), Real.sqrt_sq hr0.le]
    congr 1
    field_simp
    rw [hsq]; ring
  have hc : r * Real.cos (Real.arccos (z / r)) = z := by
    rw [Real.cos_arccos hz1 hz2]; field_simp
  have hp : Real.sqrt (x ^ 2 + y ^ 2)
        * Real.cos (if x = 0 ∧ y = 0 then 0 else Complex.arg ⟨x, y⟩) = x ∧
      Real.sqrt (x ^ 2 + y ^ 2)
        * Real.sin (if x = 0 ∧ y = 0 then 0 else Complex.arg ⟨x, y⟩) = y := by
    have hn : ‖(⟨x, y⟩ : ℂ)‖ = Real.sqrt (x ^ 2 + y ^ 2) := by
      rw [Complex.norm_def, Complex.normSq_mk]; congr 1; ring
    by_cases h0 : x = 0 ∧ y = 0
    · rw [if_pos h0, h0.1, h0.2]; simp
    · rw [if_neg h0, ← hn]
      have hne : (⟨x, y⟩ : ℂ) ≠ 0 := fun hc => h0 ⟨congrArg Complex.re hc, congrArg Complex.im hc⟩
      have hpos : ‖(⟨x, y⟩ : ℂ)‖ ≠ 0 := norm_ne_zero_iff.mpr hne
      constructor
      · rw [Complex.cos_arg hne]; field_simp
      · rw [Complex.sin_arg]; field_simp
  refine ⟨?_, ?_, hc⟩
  · rw [hs, Real.cos_add]
    linear_combination Real.cos α * hp.1 - Real.sin α * hp.2
  · rw [hs, Real.sin_add]
    linear_combination Real.sin α * hp.1 + Real.cos α * hp.2

/-- The three columns of `rot_matrix`, for a helper vector `p` not parallel to the angular velocity. -/
theorem rot_matrix_cols {w : Vec3} (hw : w ≠ 0) : ∃ p : Vec3,
    (∀ i j, rot_matrix w i j
      = ![npCross w p i / len w, npCross w (npCross w p) i / len w ^ 2, w i / len w] j) ∧
    npCross w p 0 ^ 2 + npCross w p 1 ^ 2 + npCross w p 2 ^ 2 ≠ 0 := by
  classical
  have hO := len_pos_of_ne hw
  have hsq := len_sq' w
  have hw' : ¬ w = ![0, 0, 0] := fun h => hw (by rw [h]; funext k; fin_cases k <;> rfl)
  have hr : rot_matrix w = fun i j =>
      ![npCross w (if npAllclose3 (fun k => |w k / len w|) ![1, 0, 0] then ![0, 0, 1] else ![1, 0, 0]) i
            / len w,
        npCross w (npCross w
          (if npAllclose3 (fun k => |w k / len w|) ![1, 0, 0] then ![0, 0, 1] else ![1, 0, 0])) i
            / len w ^ 2,
        w i / len w] j := by
    rw [len_eq_norm]
    exact if_neg hw'
  refine ⟨_, fun i j => congrFun (congrFun hr i) j, ?_⟩
  by_cases hc : npAllclose3 (fun k => |w k / len w|) ![1, 0, 0]
  · rw [if_pos hc]
    have h0 := hc 0
    simp only [Matrix.cons_val_zero, abs_one] at h0
    have hw0 : w 0 ≠ 0 := by
      intro h
      rw [h] at h0
      norm_num at h0
    have : 0 < w 0 ^ 2 := by positivity
    simp only [npCross, Matrix.cons_val]
    nlinarith [sq_nonneg (w 1)]
  · rw [if_neg hc]
    simp only [npCross, Matrix.cons_val]
    intro h
    apply hc
    have h1 : w 1 = 0 := by nlinarith [sq_nonneg (w 1), sq_nonneg (w 2)]
    have h2 : w 2 = 0 := by nlinarith [sq_nonneg (w 1), sq_nonneg (w 2)]
    have h3 : |w 0 / len w| = 1 := by
      rw [abs_div, abs_of_pos hO, div_eq_one_iff_eq hO.ne', ← abs_of_pos hO]
      apply (sq_eq_sq_iff_abs_eq_abs _ _).mp
      rw [hsq, h1, h2]; ring
    intro k
    fin_cases k
    · simp only [Fin.zero_eta, h3, Matrix.cons_val_zero]; norm_num
    · simp [h1]
    · simp [h2]

theorem rot_matrix_det {w : Vec3} (hw : w ≠ 0) : (Matrix.of (rot_matrix w)).det ≠ 0 := by
  obtain ⟨p, hp, hn⟩ := rot_matrix_cols hw
  have hO := (len_pos_of_ne hw).ne'
  have hsq := len_sq' w
  rw [det3]
  simp only [hp, Matrix.cons_val]
  have : npCross w p 0 / len w * (npCross w (npCross w p) 1 / len w ^ 2 * (w 2 / len w)
        - w 1 / len w * (npCross w (npCross w p) 2 / len w ^ 2))
      - npCross w (npCross w p) 0 / len w ^ 2 * (npCross w p 1 / len w * (w 2 / len w)
        - w 1 / len w * (npCross w p 2 / len w))
      + w 0 / len w * (npCross w p 1 / len w * (npCross w (npCross w p) 2 / len w ^ 2)
        - npCross w (npCross w p) 1 / len w ^ 2 * (npCross w p 2 / len w))
      = (npCross w p 0 ^ 2 + npCross w p 1 ^ 2 + npCross w p 2 ^ 2) / len w ^ 2 := by
    generalize hX : npCross w p = X at *
    have hX0 : w 0 * X 0 + w 1 * X 1 + w 2 * X 2 = 0 := by
      rw [← hX]; simp only [npCross, Matrix.cons_val]; ring
    simp only [npCross, Matrix.cons_val]
    field_simp
    rw [hsq]
    linear_combination (-(w 0 * X 0 + w 1 * X 1 + w 2 * X 2)) * hX0
  intro h
  have h2 : (npCross w p 0 ^ 2 + npCross w p 1 ^ 2 + npCross w p 2 ^ 2) / len w ^ 2 = 0 := by
    rw [← this]; linear_combination h
  rw [div_eq_zero_iff] at h2
  rcases h2 with h2 | h2
  · exact hn h2
  · exact hO (by simpa using h2)

/-- Multiplying by `rot_matrix` after turning the longitude is turning about the axis. -/
theorem rot_matrix_turn {w : Vec3} (hw : w ≠ 0) (α x y z : ℝ) :
    matVec3 (rot_matrix w) ![x * Real.cos α - y * Real.sin α, x * Real.sin α + y * Real.cos α, z]
      = turn (fun k => w k / len w) α (matVec3 (rot_matrix w) ![x, y, z]) := by
  obtain ⟨p, hp, -⟩ := rot_matrix_cols hw
  have hO := (len_pos_of_ne hw).ne'
  have hsq := len_sq' w
  funext i
  unfold turn
  have hm : ∀ v i, matVec3 (rot_matrix w) v i = npCross w p i / len w * v 0
      + npCross w (npCross w p) i / len w ^ 2 * v 1 + w i / len w * v 2 := by
    intro v i
    rw [matVec3_eq, hp, hp, hp]
    rfl
  have hd : dotp (fun k => w k / len w) (matVec3 (rot_matrix w) ![x, y, z]) = z := by
    simp only [dotp, hm, npCross, Matrix.cons_val]
    field_simp
    linear_combination (-(len w) * z) * hsq
  have hc : cross (fun k => w k / len w) (matVec3 (rot_matrix w) ![x, y, z]) i
      = npCross w (npCross w p) i / len w ^ 2 * x - npCross w p i / len w * y := by
    fin_cases i
    · simp only [cross, hm, npCross, Matrix.cons_val, Fin.zero_eta, Fin.mk_one, Fin.reduceFinMk]
      field_simp
      linear_combination (y * (w 1 * p 2 - w 2 * p 1)) * hsq
    · simp only [cross, hm, npCross, Matrix.cons_val, Fin.zero_eta, Fin.mk_one, Fin.reduceFinMk]
      field_simp
      linear_combination (y * (w 2 * p 0 - w 0 * p 2)) * hsq
    · simp only [cross, hm, npCross, Matrix.cons_val, Fin.zero_eta, Fin.mk_one, Fin.reduceFinMk]
      field_simp
      linear_combination (y * (w 0 * p 1 - w 1 * p 0)) * hsq
  rw [hd, hc, hm, hm]
  simp only [Matrix.cons_val]
  ring

theorem rot_matrix_zero : rot_matrix 0 = fun i j => if i = j then 1 else 0 := by
  have : (0 : Vec3) = ![0, 0, 0] := by funext k; fin_cases k <;> rfl
  exact if_pos this

theorem spin_zero (t : ℝ) (v : Vec3) : spin 0 t v = v := by
  funext k
  have : len (0 : Vec3) = 0 := by rw [len_eq_norm]; simp
  simp [spin, turn, this]

/-- One arrow: it turns with the angular velocity about the centre, and moves with the centre. -/
theorem rotate_arrow_some (R0 rb0 R w : Vec3) (dt : ℝ) (h : rb0 ≠ R0) :
    rotate_arrow R0 rb0 R w dt = some fun k => R k + spin w dt (fun m => rb0 m - R0 m) k := by
  have hdet : (Matrix.of (rot_matrix w)).det ≠ 0 := by
    by_cases hw : w = 0
    · rw [hw, rot_matrix_zero]
      rw [det3]; simp
    · exact rot_matrix_det hw
  obtain ⟨B, hB, hAB, hBA, -, -⟩ := inv3_some hdet
  unfold rotate_arrow
  dsimp only
  rw [hB, Option.bind_eq_bind, Option.bind_some]
  generalize hs : matVec3 B (fun k => rb0 k - R0 k) = s
  have hv : (fun k => rb0 k - R0 k) = matVec3 (rot_matrix w) s := by rw [← hs, hAB]
  have hr : Real.sqrt (s 0 ^ 2 + s 1 ^ 2 + s 2 ^ 2) ≠ 0 := by
    rw [← len_eq_norm]
    refine (len_pos_of_ne fun h0 => h ?_).ne'
    funext k
    have := congrFun hv k
    rw [h0, matVec3_eq] at this
    simp at this
    linarith
  rw [if_neg hr]
  obtain ⟨e1, e2, e3⟩ := longitude (s 0) (s 1) (s 2)
    (dt * Real.sqrt (w 0 ^ 2 + w 1 ^ 2 + w 2 ^ 2)) _ rfl hr
  rw [e1, e2, e3]
  congr 1
  funext k
  congr 1
  rw [← len_eq_norm]
  have hs3 : ![s 0, s 1, s 2] = s := by funext k; fin_cases k <;> rfl
  by_cases hw : w = 0
  · rw [hv, hw, spin_zero]
    have : len (0 : Vec3) = 0 := by rw [len_eq_norm]; simp
    rw [this]
    simp [hs3]
  · rw [rot_matrix_turn hw, hs3, hv, spin, mul_comm dt]

/-- A degenerate arrow (its end is the centre) makes the update fail. -/
theorem rotate_arrow_none (R0 R w : Vec3) (dt : ℝ) : rotate_arrow R0 R0 R w dt = none := by
  unfold rotate_arrow
  dsimp only
  cases hB : inv3 (rot_matrix w) with
  | none => rfl
  | some B =>
    rw [Option.bind_eq_bind, Option.bind_some]
    refine if_pos ?_
    simp [matVec3]

end SD
