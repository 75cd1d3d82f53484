import Verif.Props.SolveTurn
import Verif.Props.Cache
import Verif.Lemmas.Frame
import Verif.Lemmas.Rotation
import Verif.Spec.Moved

/-!
# Rigid motions of configurations, stages, steps and runs
-/

set_option autoImplicit false

namespace SD.Move

open Spec Cov

/-! ## Vectors -/

section
variable {Q : Fin 3 → Fin 3 → ℝ}

theorem turn_zero (Q : Fin 3 → Fin 3 → ℝ) : turnVec Q 0 = 0 := by
  funext i; simp [turnVec]

theorem turnM_zero (Q : Fin 3 → Fin 3 → ℝ) : turnMat Q 0 = 0 := by
  funext i j; simp [turnMat]

theorem axial_zero (Q : Fin 3 → Fin 3 → ℝ) : turnAxial Q 0 = 0 := by
  funext i; simp [turnAxial, turn_zero]

theorem move_sub (Q : Fin 3 → Fin 3 → ℝ) (t x c : Vec3) :
    (fun m => movePoint Q t x m - movePoint Q t c m) = turnVec Q fun m => x m - c m := by
  funext i
  simp only [movePoint, turnVec, Fin.sum_univ_three]
  ring

theorem npCross_eq (x y : Vec3) : npCross x y = cross x y := rfl

theorem matVec3_eq (A : Mat3) (x : Vec3) : matVec3 A x = app A x := by
  funext i; simp [matVec3, app, dotp, Fin.sum_univ_three]

variable (hQ : Orthogonal Q)
include hQ

theorem cross_axial (O d : Vec3) : cross (turnAxial Q O) (turnVec Q d) = turnVec Q (cross O d) := by
  funext i
  have h1 := cross_turn hQ O d i
  have h2 : cross (turnAxial Q O) (turnVec Q d) i = Spec.det3 Q * cross (turnVec Q O) (turnVec Q d) i := by
    fin_cases i <;> simp [cross, turnAxial] <;> ring
  rw [h2, h1, ← mul_assoc, det_sq hQ, one_mul]

theorem len_axial (w : Vec3) : len (turnAxial Q w) = len w := by
  rw [← len_turn hQ w]
  unfold len
  congr 1
  refine Finset.sum_congr rfl fun i _ => ?_
  simp only [turnAxial]
  have := det_sq hQ
  linear_combination (turnVec Q w i) ^ 2 * this

theorem spin_turn (w : Vec3) (dt : ℝ) (v : Vec3) : spin (turnAxial Q w) dt (turnVec Q v) = turnVec Q (spin w dt v) := by
  unfold spin
  rw [len_axial hQ]
  have e : (fun k => turnAxial Q w k / len w) = turnAxial Q fun k => w k / len w := by
    funext i
    simp only [turnAxial, turnVec, Fin.sum_univ_three]; ring
  rw [e]
  generalize (fun k => w k / len w) = u
  have e2 : dotp (turnAxial Q u) (turnVec Q v) = Spec.det3 Q * dotp u v := by
    rw [← dotp_turn hQ u v]; simp only [dotp, turnAxial]; ring
  funext k
  unfold turn
  rw [cross_axial hQ, e2]
  have := det_sq hQ
  simp only [turnAxial, turnVec, Fin.sum_univ_three]
  linear_combination (1 - Real.cos (len w * dt)) * dotp u v * (Q k 0 * u 0 + Q k 1 * u 1 + Q k 2 * u 2) * this

theorem move_inj (t : Vec3) {x y : Vec3} : movePoint Q t x = movePoint Q t y ↔ x = y := by
  constructor
  · intro h
    have h0 : turnVec Q (fun m => x m - y m) = 0 := by
      rw [← move_sub Q t, h]; funext i; simp
    have h1 : len (fun m => x m - y m) = 0 := by
      rw [← len_turn hQ, h0]; simp [len]
    by_contra hne
    exact (len_pos_of_ne fun h => hne (funext fun i => sub_eq_zero.mp (congrFun h i))).ne' h1
  · rintro rfl; rfl

/-! ## Rotation of arrows -/

theorem rotate_moved (t R0 rb0 R w : Vec3) (dt : ℝ) :
    rotate_arrow (movePoint Q t R0) (movePoint Q t rb0) (movePoint Q t R) (turnAxial Q w) dt
      = (rotate_arrow R0 rb0 R w dt).map (movePoint Q t) := by
  by_cases h : rb0 = R0
  · rw [h, rotate_arrow_none, rotate_arrow_none]; rfl
  · rw [rotate_arrow_some _ _ _ _ _ h, rotate_arrow_some _ _ _ _ _ (fun e => h ((move_inj hQ t).mp e)), move_sub,
      spin_turn hQ, Option.map_some]
    congr 1
    funext k
    simp only [movePoint, turnVec, Fin.sum_univ_three]; ring

theorem rotation_moved (t : Vec3) (n : ℕ) (pos : ℕ → Vec3) (rots : Rots) (new Oa : ℕ → Vec3) (dt : ℝ) :
    euler_timestep_rotation n (fun i => movePoint Q t (pos i)) (fun i j => movePoint Q t (rots i j))
      (fun i => movePoint Q t (new i)) (fun i => turnAxial Q (Oa i)) dt
      = (euler_timestep_rotation n pos rots new Oa dt).map fun r i j => movePoint Q t (r i j) := by
  unfold euler_timestep_rotation
  dsimp only
  simp only [rotate_moved hQ, Option.isSome_map]
  by_cases h : ∀ i < n, ∀ j, (rotate_arrow (pos i) (rots i j) (new i) (Oa i) dt).isSome = true
  · rw [if_pos h, if_pos h, Option.map_some]
    congr 1
    funext i j
    by_cases hi : i < n
    · obtain ⟨r, hr⟩ := Option.isSome_iff_exists.mp (h i hi j)
      simp only [if_pos hi, hr, Option.map_some, Option.getD_some]
    · simp only [if_neg hi]
  · rw [if_neg h, if_neg h]; rfl

theorem ab2_rotation_moved (t : Vec3) (n : ℕ) (pos : ℕ → Vec3) (rots : Rots) (new Oa Ob : ℕ → Vec3) (dt : ℝ) :
    ab2_timestep_rotation n (fun i => movePoint Q t (pos i)) (fun i j => movePoint Q t (rots i j))
      (fun i => movePoint Q t (new i)) (fun i => turnAxial Q (Oa i)) (fun i => turnAxial Q (Ob i)) dt
      = (ab2_timestep_rotation n pos rots new Oa Ob dt).map fun r i j => movePoint Q t (r i j) := by
  unfold ab2_timestep_rotation
  rw [← rotation_moved hQ]
  congr 1
  funext i k
  simp only [turnAxial, turnVec, Fin.sum_univ_three]; ring

omit hQ in
theorem euler_moved (t : Vec3) (x u : ℕ → Vec3) (dt : ℝ) :
    euler_timestep (fun i => movePoint Q t (x i)) (fun i => turnVec Q (u i)) dt
      = fun i => movePoint Q t (euler_timestep x u dt i) := by
  funext i k
  simp only [euler_timestep, movePoint, turnVec, Fin.sum_univ_three]; ring

omit hQ in
theorem euler_turned (x u : ℕ → Vec3) (dt : ℝ) :
    euler_timestep (fun i => turnVec Q (x i)) (fun i => turnVec Q (u i)) dt
      = fun i => turnVec Q (euler_timestep x u dt i) := by
  funext i k
  simp only [euler_timestep, turnVec, Fin.sum_univ_three]; ring

omit hQ in
theorem ab2_moved (t : Vec3) (x u u' : ℕ → Vec3) (dt : ℝ) :
    ab2_timestep (fun i => movePoint Q t (x i)) (fun i => turnVec Q (u i)) (fun i => turnVec Q (u' i)) dt
      = fun i => movePoint Q t (ab2_timestep x u u' dt i) := by
  funext i k
  simp only [ab2_timestep, movePoint, turnVec, Fin.sum_univ_three]; ring

omit hQ in
theorem two_turned (v : ℕ → Vec3) :
    (fun i k => 2 * turnVec Q (v i) k) = fun i => turnVec Q fun k => 2 * v i k := by
  funext i k
  simp only [turnVec, Fin.sum_univ_three]; ring

theorem wrong_turned (e : Bool) (n : ℕ) (dx : ℕ → Vec3) (ep : Bool) :
    did_something_go_wrong_with_dumbells e n (fun i => turnVec Q (dx i)) ep
      = did_something_go_wrong_with_dumbells e n dx ep := by
  unfold did_something_go_wrong_with_dumbells
  have : ∀ r : Vec3, norm3 (turnVec Q r) = norm3 r := fun r => by
    rw [norm3_eq_len, norm3_eq_len, len_turn hQ]
  simp only [this]

omit hQ in
theorem zeroY_turned (h : ∀ j, j ≠ 1 → Q 1 j = 0 ∧ Q j 1 = 0) (u : ℕ → Vec3) :
    zeroY (fun i => turnVec Q (u i)) = fun i => turnVec Q (zeroY u i) := by
  funext i k
  have h0 := h 0 (by decide)
  have h2 := h 2 (by decide)
  simp only [zeroY, turnVec, Fin.sum_univ_three]
  fin_cases k <;> simp [h0, h2]

omit hQ in
theorem blend_turned (a b c d : ℕ → Vec3) :
    blend (fun i => turnVec Q (a i)) (fun i => turnVec Q (b i)) (fun i => turnVec Q (c i)) (fun i => turnVec Q (d i))
      = fun i => turnVec Q (blend a b c d i) := by
  funext i k
  simp only [blend, turnVec, Fin.sum_univ_three]; ring

omit hQ in
theorem blend_axial (a b c d : ℕ → Vec3) :
    blend (fun i => turnAxial Q (a i)) (fun i => turnAxial Q (b i)) (fun i => turnAxial Q (c i))
        (fun i => turnAxial Q (d i))
      = fun i => turnAxial Q (blend a b c d i) := by
  funext i k
  simp only [blend, turnAxial, turnVec, Fin.sum_univ_three]; ring

omit hQ in
theorem getD_map0 (l : List Vec3) (i : ℕ) : (l.map (turnVec Q)).getD i 0 = turnVec Q (l.getD i 0) := by
  have := List.getD_map (l := l) (d := (0 : Vec3)) (f := turnVec Q) (n := i)
  rwa [turn_zero] at this

omit hQ in
theorem getD_mapA (l : List Vec3) (i : ℕ) : (l.map (turnAxial Q)).getD i 0 = turnAxial Q (l.getD i 0) := by
  have := List.getD_map (l := l) (d := (0 : Vec3)) (f := turnAxial Q) (n := i)
  rwa [axial_zero] at this

omit hQ in
theorem getD_mapM (l : List Mat3) (i : ℕ) : (l.map (turnMat Q)).getD i 0 = turnMat Q (l.getD i 0) := by
  have := List.getD_map (l := l) (d := (0 : Mat3)) (f := turnMat Q) (n := i)
  rwa [turnM_zero] at this

omit hQ in
theorem blendRows_turned (a b c d : List Vec3) :
    blendRows (a.map (turnVec Q)) (b.map (turnVec Q)) (c.map (turnVec Q)) (d.map (turnVec Q))
      = (blendRows a b c d).map (turnVec Q) := by
  unfold blendRows
  rw [List.map_map, List.length_map]
  refine List.map_congr_left fun i _ => ?_
  simp only [getD_map0]
  funext k
  simp only [Function.comp, turnVec, Fin.sum_univ_three]; ring

omit hQ in
theorem blendMats_turned (a b c d : List Mat3) :
    blendMats (a.map (turnMat Q)) (b.map (turnMat Q)) (c.map (turnMat Q)) (d.map (turnMat Q))
      = (blendMats a b c d).map (turnMat Q) := by
  unfold blendMats
  rw [List.map_map, List.length_map]
  refine List.map_congr_left fun i _ => ?_
  simp only [getD_mapM]
  funext k l
  simp only [Function.comp, turnMat, Fin.sum_univ_three]; ring

end

end SD.Move
