import Verif.Model.Graphics
import Verif.Spec.Graphics
import Mathlib.Tactic.LinearCombination
import Mathlib.Tactic.FieldSimp
import Mathlib.Tactic.FinCases
import Mathlib.Tactic.IntervalCases

/-!
# C79: spheres and beads are drawn as discs that face the camera
-/

set_option autoImplicit false

namespace SD

open Spec

theorem norm3_sq (d : Vec3) : norm3 d ^ 2 = d 0 ^ 2 + d 1 ^ 2 + d 2 ^ 2 :=
  Real.sq_sqrt (by positivity)

theorem norm3_len (d : Vec3) : norm3 d = len d := by
  unfold norm3 len
  rw [Fin.sum_univ_three]

/-- The matrix turns by the angle whose sine is the length of `d`, about `d`, left-handedly; and it leaves
everything if `d` is zero. -/
theorem C79_rotation (d : Vec3) (h1 : len d ≤ 1) (v : Vec3) :
    app (rotation_matrix d) v
      = if d = 0 then v else turn (fun k => d k / len d) (-Real.arcsin (len d)) v := by
  have hn := norm3_len d
  by_cases hd : d = 0
  · rw [if_pos hd]
    have h0 : norm3 d = 0 := by rw [hd]; simp [norm3]
    unfold rotation_matrix
    simp only [if_pos h0]
    funext k
    fin_cases k <;> simp [app, dotp]
  · rw [if_neg hd]
    have h0 : norm3 d ≠ 0 := by
      intro h0
      apply hd
      have hs := norm3_sq d
      rw [h0] at hs
      funext k
      fin_cases k <;> simp <;> nlinarith [sq_nonneg (d 0), sq_nonneg (d 1), sq_nonneg (d 2)]
    have hnn : 0 ≤ len d := Real.sqrt_nonneg _
    unfold rotation_matrix
    simp only [if_neg h0]
    unfold turn
    rw [Real.cos_neg, Real.sin_neg, Real.cos_arcsin, Real.sin_arcsin (by linarith) h1, hn]
    funext k
    fin_cases k <;> simp [app, dotp, cross] <;> ring

/-- The turning preserves lengths and angles. -/
theorem rot_dot {d : Vec3} (h1 : len d ≤ 1) (v w : Vec3) :
    dotp (app (rotation_matrix d) v) (app (rotation_matrix d) w) = dotp v w := by
  rw [C79_rotation d h1, C79_rotation d h1]
  by_cases hd : d = 0
  · simp only [if_pos hd]
  · simp only [if_neg hd]
    have hl : len d ≠ 0 := by
      intro h0
      apply hd
      have hs := norm3_sq d
      rw [norm3_len, h0] at hs
      funext k
      fin_cases k <;> simp <;> nlinarith [sq_nonneg (d 0), sq_nonneg (d 1), sq_nonneg (d 2)]
    generalize ha : -Real.arcsin (len d) = a
    have hsq : (d 0 / len d) ^ 2 + (d 1 / len d) ^ 2 + (d 2 / len d) ^ 2 = 1 := by
      have hs := norm3_sq d
      rw [norm3_len] at hs
      field_simp
      linarith
    have hcs := Real.sin_sq_add_cos_sq a
    generalize hx : d 0 / len d = x at hsq
    generalize hy : d 1 / len d = y at hsq
    generalize hz : d 2 / len d = z at hsq
    generalize hS : Real.sin a = S at hcs
    generalize hC : Real.cos a = C at hcs
    simp only [turn, dotp, cross, Matrix.cons_val_zero, Matrix.cons_val_one, Matrix.cons_val, hx, hy, hz,
      hS, hC]
    obtain ⟨v0, hv0⟩ : ∃ t, v 0 = t := ⟨_, rfl⟩
    obtain ⟨v1, hv1⟩ : ∃ t, v 1 = t := ⟨_, rfl⟩
    obtain ⟨v2, hv2⟩ : ∃ t, v 2 = t := ⟨_, rfl⟩
    obtain ⟨w0, hw0⟩ : ∃ t, w 0 = t := ⟨_, rfl⟩
    obtain ⟨w1, hw1⟩ : ∃ t, w 1 = t := ⟨_, rfl⟩
    obtain ⟨w2, hw2⟩ : ∃ t, w 2 = t := ⟨_, rfl⟩
    rw [hv0, hv1, hv2, hw0, hw1, hw2]
    have hS2 : S ^ 2 = 1 - C ^ 2 := by linarith
    have hz2 : z ^ 2 = 1 - x ^ 2 - y ^ 2 := by linarith
    linear_combination (v0 * w0 + v1 * w1 + v2 * w2) * hcs
      + ((1 - C) ^ 2 * (x * v0 + y * v1 + z * v2) * (x * w0 + y * w1 + z * w2)
          + S ^ 2 * (v0 * w0 + v1 * w1 + v2 * w2)) * hsq
      + (-(x * v0 + y * v1 + z * v2) * (x * w0 + y * w1 + z * w2)) * hcs

/-! ## The disc -/

theorem plotNormal_unit (elev azim : ℝ) : norm3 (plotNormal elev azim) = 1 := by
  unfold norm3 plotNormal
  rw [Real.sqrt_eq_one]
  simp only [Matrix.cons_val_zero, Matrix.cons_val_one, Matrix.cons_val]
  have h1 := Real.sin_sq_add_cos_sq (from0topi (elev * Real.pi / 180))
  have h2 := Real.sin_sq_add_cos_sq (azim * Real.pi / 180)
  linear_combination (Real.cos (from0topi (elev * Real.pi / 180))) ^ 2 * h2 + h1

/-- The direction used for drawing is towards the camera, or away from it if the camera is below the
horizontal plane. -/
theorem plotNormal_camera (elev azim : ℝ) (k : Fin 3) :
    plotNormal elev azim k = (if elev < 0 then -1 else 1) * toCamera elev azim k := by
  have ha : azim * Real.pi / 180 = azim / 180 * Real.pi := by ring
  unfold plotNormal toCamera from0topi
  by_cases h : elev < 0
  · have h' : elev * Real.pi / 180 < 0 := by
      have := mul_neg_of_neg_of_pos h Real.pi_pos
      linarith
    have he : elev * Real.pi / 180 + Real.pi = elev / 180 * Real.pi + Real.pi := by ring
    simp only [if_pos h, if_pos h', ha, he, Real.cos_add_pi, Real.sin_add_pi]
    fin_cases k <;> simp
  · have h' : ¬ elev * Real.pi / 180 < 0 := by
      have := mul_nonneg (not_lt.mp h) Real.pi_pos.le
      linarith
    have he : elev * Real.pi / 180 = elev / 180 * Real.pi := by ring
    simp only [if_neg h, if_neg h', ha]
    rw [he]
    simp

theorem plotNormal_up {elev : ℝ} (h1 : -180 ≤ elev) (h2 : elev ≤ 180) (azim : ℝ) :
    0 ≤ plotNormal elev azim 2 := by
  rw [plotNormal_camera]
  have hp := Real.pi_pos
  by_cases h : elev < 0
  · rw [if_pos h]
    have : Real.sin (elev / 180 * Real.pi) ≤ 0 :=
      Real.sin_nonpos_of_nonpos_of_neg_pi_le (by nlinarith) (by nlinarith)
    simp [toCamera]
    exact this
  · rw [if_neg h]
    have : 0 ≤ Real.sin (elev / 180 * Real.pi) :=
      Real.sin_nonneg_of_nonneg_of_le_pi (by nlinarith [not_lt.mp h]) (by nlinarith)
    simp [toCamera]
    exact this

section
variable {n : Vec3} (hn : norm3 n = 1)
include hn

theorem cross_up (h : norm3 (npCross n ![0, 0, 1]) ^ 2 = n 0 ^ 2 + n 1 ^ 2 := by
    rw [norm3_sq]; simp [npCross]; ring) : len (npCross n ![0, 0, 1]) ≤ 1 := by
  have hs := norm3_sq n
  rw [hn] at hs
  rw [norm3_len] at h
  nlinarith [sq_nonneg (n 2), sq_nonneg (len (npCross n ![0, 0, 1]) - 1), Real.sqrt_nonneg (∑ i, (npCross n ![0, 0, 1]) i ^ 2)]

theorem patchVertex_unit (p : Vec3) (x y : ℝ) : patchVertex n p x y
    = fun k => app (rotation_matrix (npCross n ![0, 0, 1])) ![x, y, 0] k + p k := by
  unfold patchVertex
  have : (fun k => n k / norm3 n) = n := by rw [hn]; funext k; exact div_one _
  simp only [this]
  funext k
  unfold matVec3 app dotp
  rw [Fin.sum_univ_three]

/-- The entries of the matrix, for the axis at right angles to the vertical. -/
theorem rot_entries (v : Vec3) : app (rotation_matrix (npCross n ![0, 0, 1])) v
    = if n 0 = 0 ∧ n 1 = 0 then v else
      let s2 := n 0 ^ 2 + n 1 ^ 2
      let w := (n 1 * v 0 - n 0 * v 1) / s2
      ![w * n 1 + |n 2| * (v 0 - w * n 1) + v 2 * n 0, -w * n 0 + |n 2| * (v 1 + w * n 0) + v 2 * n 1,
        |n 2| * v 2 - (n 0 * v 0 + n 1 * v 1)] := by
  have hs := norm3_sq n
  rw [hn] at hs
  have hd : norm3 (npCross n ![0, 0, 1]) ^ 2 = n 0 ^ 2 + n 1 ^ 2 := by
    rw [norm3_sq]; simp [npCross]; ring
  by_cases h : n 0 = 0 ∧ n 1 = 0
  · rw [if_pos h]
    have h0 : norm3 (npCross n ![0, 0, 1]) = 0 := by
      rw [h.1, h.2] at hd
      nlinarith
    unfold rotation_matrix
    simp only [if_pos h0]
    funext k
    fin_cases k <;> simp [app, dotp]
  · rw [if_neg h]
    have hpos : 0 < n 0 ^ 2 + n 1 ^ 2 := by
      rcases not_and_or.mp h with h' | h'
      · have := sq_pos_of_ne_zero h'; nlinarith [sq_nonneg (n 1)]
      · have := sq_pos_of_ne_zero h'; nlinarith [sq_nonneg (n 0)]
    have h0 : norm3 (npCross n ![0, 0, 1]) ≠ 0 := by
      intro h0
      rw [h0] at hd
      simp at hd
      linarith
    have hc : Real.sqrt (1 - norm3 (npCross n ![0, 0, 1]) ^ 2) = |n 2| := by
      rw [hd, ← Real.sqrt_sq_eq_abs]
      congr 1
      linarith
    unfold rotation_matrix
    simp only [if_neg h0, hc]
    generalize hS : norm3 (npCross n ![0, 0, 1]) = S at hd h0
    rw [← hd]
    funext k
    fin_cases k <;> simp [app, dotp, npCross] <;> field_simp <;> ring

/-- The vertical is turned to the normal, if that does not point down. -/
theorem rot_up (h2 : 0 ≤ n 2) : app (rotation_matrix (npCross n ![0, 0, 1])) ![0, 0, 1] = n := by
  have hs := norm3_sq n
  rw [hn] at hs
  rw [rot_entries hn]
  by_cases h : n 0 = 0 ∧ n 1 = 0
  · rw [if_pos h]
    rw [h.1, h.2] at hs
    have : n 2 = 1 := by nlinarith
    funext k
    fin_cases k <;> simp [h.1, h.2, this]
  · rw [if_neg h, abs_of_nonneg h2]
    funext k
    fin_cases k <;> simp

/-- The turning reaches every vector. -/
theorem rot_onto (h2 : 0 ≤ n 2) {w : Vec3} (hw : dotp w n = 0) :
    ∃ x y : ℝ, app (rotation_matrix (npCross n ![0, 0, 1])) ![x, y, 0] = w := by
  have hs := norm3_sq n
  rw [hn] at hs
  unfold dotp at hw
  by_cases h : n 0 = 0 ∧ n 1 = 0
  · refine ⟨w 0, w 1, ?_⟩
    rw [rot_entries hn, if_pos h]
    rw [h.1, h.2] at hs hw
    have h2 : n 2 ≠ 0 := by
      intro h0
      rw [h0] at hs
      norm_num at hs
    have : w 2 = 0 := by
      have : w 2 * n 2 = 0 := by linarith
      exact (mul_eq_zero.mp this).resolve_right h2
    funext k
    fin_cases k <;> simp [this]
  · have hpos : n 0 ^ 2 + n 1 ^ 2 ≠ 0 := by
      intro h0
      apply h
      constructor <;> nlinarith [sq_nonneg (n 0), sq_nonneg (n 1)]
    -- the components along the axis and across it
    refine ⟨(n 1 * (n 1 * w 0 - n 0 * w 1) - n 0 * w 2) / (n 0 ^ 2 + n 1 ^ 2),
      (-n 0 * (n 1 * w 0 - n 0 * w 1) - n 1 * w 2) / (n 0 ^ 2 + n 1 ^ 2), ?_⟩
    rw [rot_entries hn, if_neg h, abs_of_nonneg h2]
    funext k
    fin_cases k
    · simp
      field_simp
      linear_combination (-(n 0) * (n 0 ^ 2 + n 1 ^ 2)) * hw
    · simp
      field_simp
      linear_combination (-(n 1) * (n 0 ^ 2 + n 1 ^ 2)) * hw
    · simp
      field_simp
      ring

end

theorem dot_camera (elev azim : ℝ) (w : Vec3) :
    dotp w (plotNormal elev azim) = 0 ↔ dotp w (toCamera elev azim) = 0 := by
  have h : dotp w (plotNormal elev azim) = (if elev < 0 then -1 else 1) * dotp w (toCamera elev azim) := by
    unfold dotp
    rw [plotNormal_camera, plotNormal_camera, plotNormal_camera]
    ring
  rw [h]
  by_cases he : elev < 0
  · rw [if_pos he]; constructor <;> intro h <;> linarith
  · rw [if_neg he, one_mul]

/-- A sphere or bead is drawn as the disc of its radius about its centre that faces the camera, from every
viewing angle between straight up and over to straight down and over. -/
theorem C79_disc {elev : ℝ} (h1 : -180 ≤ elev) (h2 : elev ≤ 180) (azim : ℝ) (p : Vec3) (r : ℝ) :
    {q | ∃ x y : ℝ, x ^ 2 + y ^ 2 ≤ r ^ 2 ∧ q = patchVertex (plotNormal elev azim) p x y}
      = facingDisc (toCamera elev azim) p r := by
  have hn := plotNormal_unit elev azim
  have hu := plotNormal_up h1 h2 azim
  have hc := cross_up hn
  ext q
  constructor
  · rintro ⟨x, y, hxy, rfl⟩
    rw [patchVertex_unit hn]
    have e : (fun k => app (rotation_matrix (npCross (plotNormal elev azim) ![0, 0, 1])) ![x, y, 0] k + p k - p k)
        = app (rotation_matrix (npCross (plotNormal elev azim) ![0, 0, 1])) ![x, y, 0] := by
      funext k; ring
    constructor
    · simp only
      rw [e, ← dot_camera]
      have h3 := rot_dot hc ![x, y, 0] ![0, 0, 1]
      rw [rot_up hn hu] at h3
      rw [h3]
      simp [dotp]
    · have := rot_dot hc ![x, y, 0] ![x, y, 0]
      simp only [add_sub_cancel_right]
      rw [Fin.sum_univ_three]
      simp only [dotp, Matrix.cons_val_zero, Matrix.cons_val_one, Matrix.cons_val] at this
      nlinarith
  · rintro ⟨ha, hb⟩
    rw [← dot_camera] at ha
    obtain ⟨x, y, hxy⟩ := rot_onto hn hu ha
    refine ⟨x, y, ?_, ?_⟩
    · have := rot_dot hc ![x, y, 0] ![x, y, 0]
      rw [hxy] at this
      rw [Fin.sum_univ_three] at hb
      simp only [dotp, Matrix.cons_val_zero, Matrix.cons_val_one, Matrix.cons_val] at this
      nlinarith
    · rw [patchVertex_unit hn, hxy]
      funext k; ring

/-- Beyond that the disc is not seen from the front: some of its points are nearer to the camera than its
centre, unless the camera is straight below. -/
theorem C79_disc_beyond {elev : ℝ} (h1 : 180 < elev) (h2 : elev < 360) (h3 : elev ≠ 270) (azim : ℝ) (p : Vec3)
    {r : ℝ} (hr : 0 < r) :
    ∃ x y : ℝ, x ^ 2 + y ^ 2 ≤ r ^ 2 ∧
      patchVertex (plotNormal elev azim) p x y ∉ facingDisc (toCamera elev azim) p r := by
  have hn := plotNormal_unit elev azim
  have hs := norm3_sq (plotNormal elev azim)
  rw [hn] at hs
  have hcam : plotNormal elev azim = toCamera elev azim := by
    funext k
    rw [plotNormal_camera, if_neg (by linarith), one_mul]
  have hp := Real.pi_pos
  have hz : plotNormal elev azim 2 < 0 := by
    rw [hcam]
    have e : Real.sin (elev / 180 * Real.pi) = Real.sin (elev / 180 * Real.pi - 2 * Real.pi) := by
      rw [Real.sin_sub_two_pi]
    have : Real.sin (elev / 180 * Real.pi - 2 * Real.pi) < 0 :=
      Real.sin_neg_of_neg_of_neg_pi_lt (by nlinarith) (by nlinarith)
    simp [toCamera]
    linarith
  have hz1 : plotNormal elev azim 2 ≠ -1 := by
    intro h
    rw [hcam] at h
    have hsin : Real.sin (elev / 180 * Real.pi) = -1 := by simpa [toCamera] using h
    have hcos : Real.cos (elev / 180 * Real.pi) = 0 := by
      have := Real.sin_sq_add_cos_sq (elev / 180 * Real.pi)
      rw [hsin] at this
      nlinarith
    obtain ⟨k, hk⟩ := Real.cos_eq_zero_iff.mp hcos
    have hk' : elev = 90 * (2 * k + 1) := by
      field_simp at hk
      linarith
    have hk1 : (0 : ℝ) < k := by linarith
    have hk2 : (k : ℝ) < 2 := by linarith
    have hk3 : k = 1 := by
      have a1 : 0 < k := by exact_mod_cast hk1
      have a2 : k < 2 := by exact_mod_cast hk2
      omega
    apply h3
    rw [hk', hk3]
    norm_num
  have hpos : 0 < plotNormal elev azim 0 ^ 2 + plotNormal elev azim 1 ^ 2 := by
    have h4 : plotNormal elev azim 2 ^ 2 < 1 := by
      have h5 : -1 ≤ plotNormal elev azim 2 := by
        nlinarith [sq_nonneg (plotNormal elev azim 0), sq_nonneg (plotNormal elev azim 1)]
      have h6 : -1 < plotNormal elev azim 2 := lt_of_le_of_ne h5 (Ne.symm hz1)
      nlinarith
    linarith
  generalize hN : plotNormal elev azim = N at *
  refine ⟨r * N 0, r * N 1, ?_, ?_⟩
  · nlinarith [mul_nonneg (sq_nonneg r) (sq_nonneg (N 2))]
  · intro hf
    have hd := hf.1
    rw [← hcam, patchVertex_unit hn, rot_entries hn, if_neg (by
      rintro ⟨a, b⟩; rw [a, b] at hpos; norm_num at hpos), abs_of_neg hz] at hd
    simp [dotp] at hd
    have hw : N 1 * (r * N 0) - N 0 * (r * N 1) = 0 := by ring
    rw [hw] at hd
    have : r * (N 0 ^ 2 + N 1 ^ 2) * N 2 = 0 := by linear_combination (-1 / 2 : ℝ) * hd
    have h7 := mul_pos hr hpos
    rcases mul_eq_zero.mp this with h8 | h8
    · exact absurd h8 h7.ne'
    · exact absurd h8 hz.ne

/-- The default view, from the front and level: discs stand upright. -/
example : {q : Vec3 | ∃ x y : ℝ, x ^ 2 + y ^ 2 ≤ 1 ^ 2 ∧ q = patchVertex (plotNormal 0 (-90)) ![3, 4, 5] x y}
    = {q | q 1 = 4 ∧ ∑ k, (q k - ![3, 4, 5] k) ^ 2 ≤ (1 : ℝ) ^ 2} := by
  rw [C79_disc (by norm_num) (by norm_num) (-90) ![3, 4, 5] 1]
  have h : (-90 : ℝ) / 180 * Real.pi = -(Real.pi / 2) := by ring
  ext q
  refine and_congr_left fun _ => ?_
  simp [dotp, toCamera, h]
  constructor <;> intro h <;> linarith

example : ∃ x y : ℝ, x ^ 2 + y ^ 2 ≤ 1 ^ 2 ∧
    patchVertex (plotNormal 210 0) ![0, 0, 0] x y ∉ facingDisc (toCamera 210 0) ![0, 0, 0] 1 :=
  C79_disc_beyond (by norm_num) (by norm_num) (by norm_num) 0 _ (by norm_num)

/-- The two beads of a dumbbell are drawn where the rest of the program has them. -/
theorem C79_beads (P : PosData) {i : ℕ} (hi : i < P.Nd) :
    dumbbellEnds (P.dumbPos i) (P.dumbDx i) = (P.beadPos (P.Ns + i), P.beadPos (P.Ns + P.Nd + i)) := by
  unfold dumbbellEnds PosData.beadPos
  rw [if_neg (by omega), if_pos (by omega), if_neg (by omega), if_neg (by omega)]
  have h1 : P.Ns + i - P.Ns = i := by omega
  have h2 : P.Ns + P.Nd + i - P.Ns - P.Nd = i := by omega
  rw [h1, h2]
  rfl

end SD
