import Verif.Lemmas.EwaldSplitIndep
import Verif.Props.LayersAnswers

/-!
# C83: where the sums are split makes no difference

The code splits the interactions in the infinite array into a sum over images and a sum over waves. The parameter that
says where they are split is `√π / L`.
-/

set_option autoImplicit false

namespace SD

open Spec Filter Topology

section
variable {a b : Fin 3} (hab : a ≠ b) {d : Fin 3 → ℝ} (hd : ∀ i, 0 < d i) (g : ℝ)
include hab hd

/-- **C83** (the flow). At every point not on an image of the point force, the flow in the infinite array is the same
for any two values of the parameter. -/
theorem C83_flow {lam lam' : ℝ} (hl : 0 < lam) (hl' : 0 < lam') (i j : Fin 3) {r : Vec3}
    (hr : ∀ v, InLattice (shearedBox d a b g) v → (fun m => r m + v m) ≠ 0) :
    arrayGreen lam (d 0 * d 1 * d 2) (shearedBox d a b g) i j r
      = arrayGreen lam' (d 0 * d 1 * d 2) (shearedBox d a b g) i j r :=
  Ewald.arrayGreen_indep hab hd g hl hl' i j ((Ewald.off_iff hab hd g).mpr hr)

/-- **C83** (term by term). Summing the responses through each image and each wave gives the response through the flow
in the array, whatever the parameter and the volume that the waves are divided by. -/
theorem C83_termwise {lam : ℝ} (hl : 0 < lam) (V ra rb : ℝ) (l1 l2 : Load) {r : Vec3}
    (hr : ∀ v, InLattice (shearedBox d a b g) v → (fun m => r m + v m) ≠ 0) :
    arrayResp lam V (shearedBox d a b g) ra rb l1 l2 r
      = greenResponse (arrayGreen lam V (shearedBox d a b g)) ra rb l1 l2 r :=
  (Ewald.arrayGreen_response hab hd g hl V ra rb l1 l2 ((Ewald.off_iff hab hd g).mpr hr)).symm

/-- **C83** (the motion). Every component of the motion of one particle due to every load on another is the same for
any two values of the parameter. -/
theorem C83_motion {lam lam' : ℝ} (hl : 0 < lam) (hl' : 0 < lam') (ra rb : ℝ) (c1 c2 : Comp) {r : Vec3}
    (hr : ∀ v, InLattice (shearedBox d a b g) v → (fun m => r m + v m) ≠ 0) :
    arrayMob lam (d 0 * d 1 * d 2) (shearedBox d a b g) ra rb c1 c2 r
      = arrayMob lam' (d 0 * d 1 * d 2) (shearedBox d a b g) ra rb c1 c2 r := by
  unfold arrayMob
  congr 1
  funext l1 l2
  exact Ewald.arrayResp_indep hab hd g hl hl' ra rb l1 l2 ((Ewald.off_iff hab hd g).mpr hr)

/-- **C83** (a particle's own images). What its images add to a particle's own motion is the same for any two values of
the parameter. -/
theorem C83_own {lam lam' : ℝ} (hl : 0 < lam) (hl' : 0 < lam') (ra rb : ℝ) (c1 c2 : Comp) (v : ℝ) :
    ArrayAdds lam (d 0 * d 1 * d 2) (shearedBox d a b g) ra rb c1 c2 v
      ↔ ArrayAdds lam' (d 0 * d 1 * d 2) (shearedBox d a b g) ra rb c1 c2 v := by
  unfold ArrayAdds
  refine tendsto_congr' ?_
  filter_upwards [Ewald.off_near hab hd g] with r hr
  rw [C83_motion hab hd g hl hl' ra rb c1 c2 ((Ewald.off_iff hab hd g).mp hr)]

end

section
variable {bl tr Ot : Vec3} {Et : Mat3} {a b : Fin 3} {g : ℝ} {P : PosData} (hP : InArray bl tr Ot Et a b g P)
include hP

theorem InArray.splitting_pos : 0 < splitting fun i => tr i - bl i := by
  have h0 := sub_pos.mpr (hP.lt 0)
  have h1 := sub_pos.mpr (hP.lt 1)
  have h2 := sub_pos.mpr (hP.lt 2)
  unfold splitting
  have := Real.pi_pos
  positivity

/-- **C83** (the code, two particles). The limit of the code's entries, as layers are added, is the motion in the
infinite array computed with any value of the parameter. So the code's choice of it has no effect on the limit. -/
theorem C83_pair (mu : ℝ) (bb : Bool) {x y : ℕ} {c1 c2 : Comp} (hx : HasRow P.Ns P.Nd x c1) (hy : HasRow P.Ns P.Nd y c2)
    (hxy : x ≠ y) (hs : bb = true ∨ x < P.Ns ∨ y < P.Ns ∨ x + P.Nd = y ∨ y + P.Nd = x)
    (hc : (∃ i j, c1 = .f i ∧ c2 = .f j) ∨ (∃ i j, c1 = .t i ∧ c2 = .t j) ∨ ∃ p q, c1 = .s p ∧ c2 = .s q)
    {lam : ℝ} (hl : 0 < lam) :
    RapidTo (fun n => (boxMatrix n bl tr Ot Et P mu bb).get (row P.Ns x c1) (row P.Ns y c2))
      (1 / (8 * Real.pi * mu) * arrayMob lam ((tr 0 - bl 0) * (tr 1 - bl 1) * (tr 2 - bl 2))
        (shearedBox (fun i => tr i - bl i) a b g) (radius P x) (radius P y) c1 c2 (gap P x y)) := by
  have h := C82_pair hP mu bb hx hy hxy hs hc
  rwa [C83_motion hP.axes (fun i => sub_pos.mpr (hP.lt i)) g hP.splitting_pos hl] at h
  intro v hv
  rw [← hP.lattice] at hv
  exact hP.clear (owns_lt (owns_kind hx)) (owns_lt (owns_kind hy)) hxy v hv

/-- **C83** (the code, a particle's own force or stress). -/
theorem C83_self (mu : ℝ) (bb : Bool) {x : ℕ} {c1 c2 : Comp} (hx : HasRow P.Ns P.Nd x c1) (hy : HasRow P.Ns P.Nd x c2)
    (hc : (∃ i j, c1 = .f i ∧ c2 = .f j) ∨ ∃ p q, c1 = .s p ∧ c2 = .s q) {lam : ℝ} (hl : 0 < lam) : ∃ v,
    ArrayAdds lam ((tr 0 - bl 0) * (tr 1 - bl 1) * (tr 2 - bl 2))
      (shearedBox (fun i => tr i - bl i) a b g) (radius P x) (radius P x) c1 c2 v ∧
    RapidTo (fun n => (boxMatrix n bl tr Ot Et P mu bb).get (row P.Ns x c1) (row P.Ns x c2))
      (selfMob mu (radius P x) c1 c2 + 1 / (8 * Real.pi * mu) * v) := by
  obtain ⟨v, h1, h2⟩ := C82_own hP mu bb hx hy hc
  exact ⟨v, (C83_own hP.axes (fun i => sub_pos.mpr (hP.lt i)) g hP.splitting_pos hl _ _ _ _ v).mp h1, h2⟩

end

/-! ## Instances -/

/-- A box with sides 2, 3 and 5, sheared by 1/2, and a point in the middle of an edge. -/
theorem brick_off : ∀ v, InLattice (shearedBox ![2, 3, 5] 0 1 (1 / 2)) v → (fun m => (![1, 0, 0] : Vec3) m + v m) ≠ 0 := by
  rintro v ⟨m, rfl⟩ e
  have h1 := congrFun e 1
  have h0 := congrFun e 0
  simp [combine, shearedBox] at h0 h1
  rw [h1] at h0
  have : (1 : ℝ) + 2 * m 0 = 0 := by simpa [mul_comm] using h0
  have : (1 : ℤ) + 2 * m 0 = 0 := by exact_mod_cast this
  omega

theorem brick_pos : ∀ i, 0 < (![2, 3, 5] : Vec3) i := fun i => by fin_cases i <;> simp

example := C83_flow (by decide) brick_pos (1 / 2) (lam := 1) (lam' := 7) (by norm_num) (by norm_num) 0 1 brick_off
example := C83_termwise (by decide) brick_pos (1 / 2) (lam := 3) (by norm_num) 30 1 2 (.torque 0) (.stress 0 1) brick_off
example := C83_motion (by decide) brick_pos (1 / 2) (lam := 1) (lam' := 7) (by norm_num) (by norm_num) 1 2 (.t 0) (.s 4)
  brick_off
example := C83_own (a := 0) (b := 1) (by decide) brick_pos (1 / 2) (lam := 1) (lam' := 7) (by norm_num) (by norm_num) 1 1
  (.t 0) (.t 0) 3
example := C83_pair demoP_array 3 false (x := 0) (y := 1) (c1 := .s 0) (c2 := .s 1) (by simp [HasRow, demoP])
  (by simp [HasRow, demoP]) (by decide) (by simp [demoP]) (.inr (.inr ⟨0, 1, rfl, rfl⟩)) (lam := 2) (by norm_num)
example := C83_self demoP_array 3 false (x := 1) (c1 := .s 2) (c2 := .s 2) (by simp [HasRow, demoP])
  (by simp [HasRow, demoP]) (.inr ⟨2, 2, rfl, rfl⟩) (lam := 2) (by norm_num)

end SD
