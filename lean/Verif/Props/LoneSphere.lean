import Verif.Props.FarField
import Verif.Lemmas.Dilute
import Verif.Lemmas.Origin

/-!
# The flow around a single sphere (C103)

The interactions of beads are made of the flows of forces, torques and stresslets on a sphere, and the diagonal blocks of the matrix
are the laws of Stokes and Einstein. Both belong together: each of the flows is a Stokes flow, and on the surface of the sphere it
moves exactly with the velocity, angular velocity and strain that the diagonal blocks give.
-/

set_option autoImplicit false

namespace SD

open Spec

/-- The pressure of the flow of a load (times `8 pi`; the velocities `flow` are times `8 pi mu`). -/
noncomputable def Spec.pressure (ld : Load) (r : Fin 3 → ℝ) : ℝ :=
  match ld with
  | .force j => 2 * r j / len r ^ 3
  | .torque _ => 0
  | .stress j k => 6 * r j * r k / len r ^ 5 - 2 * dlt j k / len r ^ 3

/-- The flow of a unit component of the load on a sphere of radius `a` (times `8 pi mu`). -/
noncomputable def Spec.loadFlow (a : ℝ) (c : Comp) (m : Fin 3) (r : Fin 3 → ℝ) : ℝ :=
  match c with
  | .f j => flow a (.force j) m r
  | .t j => flow a (.torque j) m r
  | .s q => ∑ j, ∑ k, basis5 q j k * flow a (.stress j k) m r

/-- The velocity of a point at `r` from the centre of a body with the velocity, angular velocity and rate of strain `w`. -/
noncomputable def Spec.bodyVelocity (w : Comp → ℝ) (m : Fin 3) (r : Fin 3 → ℝ) : ℝ :=
  w (.f m) + ∑ k, ∑ l, eps m k l * w (.t k) * r l + ∑ k, (∑ p, w (.s p) * basis5 p m k) * r k

/-! ## Lemmas -/

section
variable {r : Vec3}

theorem div_force (b : ℝ) (j : Fin 3) (h : r ≠ 0) : ∑ m, pd m (flow b (.force j) m) r = 0 := by
  have h1 := D_J_trace h j
  have h2 := DLap_J_trace h j
  simp only [pd_flow_force b j _ _ h, Fin.sum_univ_three]
  have e : ∀ m, DLap_J r (len r) m m j = DLap_J r (len r) j m m := fun m => by rw [DLap_J_symm, DLap_J_symm']
  rw [e, e, e, D_J_symm r _ 0 0, D_J_symm r _ 1 1, D_J_symm r _ 2 2]
  linear_combination h1 + b ^ 2 / 6 * h2

theorem DD_div (p n : Fin 3) (h : r ≠ 0) : DD_J r (len r) 0 p 0 n + DD_J r (len r) 1 p 1 n + DD_J r (len r) 2 p 2 n = 0 := by
  have h1 := DD_J_trace h p n
  rw [DD_J_symm' r _ 0 p, DD_J_symm' r _ 1 p, DD_J_symm' r _ 2 p, DD_J_symm r _ p 0, DD_J_symm r _ p 1, DD_J_symm r _ p 2]
  exact h1

theorem div_torque (b : ℝ) (j : Fin 3) (h : r ≠ 0) : ∑ m, pd m (flow b (.torque j) m) r = 0 := by
  simp only [pd_flow_torque b j _ _ h, D_R_eq, ← Finset.mul_sum]
  rw [Finset.sum_comm]
  simp only [Finset.sum_comm (γ := Fin 3) (s := Finset.univ (α := Fin 3)) (f := fun m n => eps j _ n * DD_J r (len r) m _ m n)]
  simp only [← Finset.mul_sum, Fin.sum_univ_three, DD_div _ _ h, mul_zero, add_zero]

theorem div_stress (b : ℝ) (j k : Fin 3) (h : r ≠ 0) : ∑ m, pd m (flow b (.stress j k) m) r = 0 := by
  have h1 := DD_div k j h
  have h2 := DD_div j k h
  have h3 := DLap_K_trace h j k
  simp only [pd_flow_stress b j k _ _ h, Fin.sum_univ_three, D_K]
  have e : ∀ m, DLap_K r (len r) m m j k = DLap_K r (len r) j k m m := fun m => by
    rw [DLap_K_symm2, DLap_K_symm1, DLap_K_symm3, DLap_K_symm2]
  rw [e, e, e]
  linear_combination -(1 / 2) * h1 - (1 / 2) * h2 - b ^ 2 / 10 * h3

/-- The trace of the Oseen tensor gives the pressure of a force. -/
theorem pressure_force (j m : Fin 3) (h : r ≠ 0) : pd m (pressure (.force j)) r = Lap_J (r m) (r j) m j (len r) := by
  have e : ∀ r : Vec3, r ≠ 0 → pressure (.force j) r = -(1 / 2) * ∑ i, pd j (oseen i i) r := by
    intro r h
    have hs := len_pos h
    have h2 := len_sq r
    simp only [pd_oseen h, pressure, D_J, Fin.sum_univ_three]
    fin_cases j <;> simp [kron] <;> field_simp <;> rw [h2] <;> ring
  rw [pd_congr e h, pd_const_mul _ (DifferentiableAt.fun_sum fun i _ => ((oseen_sm i i).pd j).diff h),
    pd_sum _ (fun i _ => ((oseen_sm i i).pd j).diff h)]
  have hs := len_pos h
  have h2 := len_sq r
  simp only [pd_pd_oseen h, Fin.sum_univ_three, DD_J, Lap_J, kronkron_mul]
  fin_cases j <;> fin_cases m <;> simp [kron] <;> field_simp <;>
    (try rw [show len r ^ 4 = (len r ^ 2) ^ 2 by ring]) <;> (try rw [h2]) <;> ring

theorem pressure_stress (j k m : Fin 3) (h : r ≠ 0) : pd m (pressure (.stress j k)) r = -DLap_J r (len r) m j k := by
  have e : ∀ r : Vec3, r ≠ 0 → pressure (.stress j k) r = (-1) * lap (oseen j k) r := by
    intro r h
    rw [lap_oseen h]
    simp only [pressure, Lap_J, dlt, kron]
    ring
  rw [pd_congr e h, pd_const_mul _ ((oseen_sm j k).lap.diff h), pd_lap_oseen h]
  ring

/-! ## On the surface -/

theorem surface_force {a : ℝ} (ha : 0 < a) (hr : len r = a) (j m : Fin 3) :
    flow a (.force j) m r = if m = j then 4 / (3 * a) else 0 := by
  have h : r ≠ 0 := by rintro rfl; rw [len_zero] at hr; linarith
  rw [flow_force a j m h, hr]
  simp only [oseenJ, Lap_J, kron]
  split_ifs <;> field_simp <;> ring

theorem surface_torque {a : ℝ} (ha : 0 < a) (hr : len r = a) (j m : Fin 3) :
    flow a (.torque j) m r = ∑ l, eps m j l * r l / a ^ 3 := by
  have h : r ≠ 0 := by rintro rfl; rw [len_zero] at hr; linarith
  rw [flow_torque a j m h, hr, rotletR_eq]
  fin_cases j <;> fin_cases m <;> simp [Fin.sum_univ_three, eps, D_J, kron] <;> ring

theorem surface_stress {a : ℝ} (ha : 0 < a) (hr : len r = a) (j k m : Fin 3) :
    flow a (.stress j k) m r = 6 / (5 * a ^ 3) * ((dlt m j * r k + dlt m k * r j) / 2 - dlt j k * r m / 3) := by
  have h : r ≠ 0 := by rintro rfl; rw [len_zero] at hr; linarith
  rw [flow_stress a j k m h, hr]
  simp only [tensorK, D_J, DLap_J, kron, dlt, eq_comm (a := j) (b := m), eq_comm (a := k) (b := m), eq_comm (a := k) (b := j)]
  split_ifs <;> field_simp <;> ring

theorem strain_sum {T : Fin 3 → Fin 3 → ℝ} (hT : SymTraceless T) (m : Fin 3) :
    ∑ j, ∑ k, T j k * ((dlt m j * r k + dlt m k * r j) / 2 - dlt j k * r m / 3) = ∑ k, T m k * r k := by
  obtain ⟨hs, ht⟩ := hT
  have h1 := hs 1 0
  have h2 := hs 2 0
  have h3 := hs 2 1
  fin_cases m <;> simp [dlt, Fin.sum_univ_three, h1, h2, h3] <;> linear_combination (-1 / 3 * r _) * ht

/-- On the surface of a sphere the flow of a load moves with the sphere. -/
theorem surface_self {a mu : ℝ} (ha : 0 < a) (hmu : 0 < mu) (hr : len r = a) (c : Comp) (m : Fin 3) :
    1 / (8 * Real.pi * mu) * loadFlow a c m r = bodyVelocity (fun c' => selfMob mu a c' c) m r := by
  have hpi := Real.pi_pos
  cases c with
  | f j =>
    simp only [loadFlow, bodyVelocity, surface_force ha hr, selfMob, mul_zero, zero_mul, Finset.sum_const_zero, add_zero]
    split_ifs <;> field_simp <;> ring
  | t j =>
    simp only [loadFlow, bodyVelocity, surface_torque ha hr, selfMob, zero_mul, Finset.sum_const_zero, add_zero, zero_add]
    rw [Finset.sum_eq_single j (fun k _ hk => Finset.sum_eq_zero fun l _ => by rw [if_neg hk]; ring) (by simp), Finset.mul_sum]
    refine Finset.sum_congr rfl fun l _ => ?_
    rw [if_pos rfl]
    field_simp
  | s q =>
    simp only [loadFlow, bodyVelocity, surface_stress ha hr, selfMob, zero_mul, mul_zero, Finset.sum_const_zero, zero_add, ite_mul,
      Finset.sum_ite_eq', Finset.mem_univ, if_true]
    have e : ∀ j k, basis5 q j k * (6 / (5 * a ^ 3) * ((dlt m j * r k + dlt m k * r j) / 2 - dlt j k * r m / 3))
        = 6 / (5 * a ^ 3) * (basis5 q j k * ((dlt m j * r k + dlt m k * r j) / 2 - dlt j k * r m / 3)) := fun j k => by ring
    simp only [e, ← Finset.mul_sum]
    rw [strain_sum (basis5_symm q) m, Finset.mul_sum, Finset.mul_sum]
    refine Finset.sum_congr rfl fun k _ => ?_
    field_simp
    ring

end

/-! ## The property -/

/-- **C103** (Stokes flow). The flow of each load on a sphere is a Stokes flow everywhere but at the centre of the sphere: it is
incompressible, and the pressure balances the viscous stress. -/
theorem C103_stokes (b : ℝ) (ld : Load) {r : Fin 3 → ℝ} (h : r ≠ 0) :
    ∑ m, pd m (flow b ld m) r = 0 ∧ ∀ m, lap (flow b ld m) r = pd m (pressure ld) r := by
  cases ld with
  | force j => exact ⟨div_force b j h, fun m => by rw [lap_flow_force b j m h, pressure_force j m h]⟩
  | torque j => exact ⟨div_torque b j h, fun m => by
      rw [lap_flow_torque b j m h, show pressure (.torque j) = fun _ => 0 from rfl, pd_zero]⟩
  | stress j k => exact ⟨div_stress b j k h, fun m => by rw [lap_flow_stress b j k m h, pressure_stress j k m h]⟩

/-- **C103** (spheres). Take any sphere of a suspension of spheres and dumbbells, and any component of the load on it. The flow of this
load, on the surface of the sphere, is the motion of the sphere with the velocity, angular velocity and strain that
its own block of the far-field matrix gives. -/
theorem C103_sphere {P : PosData} (hP : Sensible P) {mu : ℝ} (hmu : 0 < mu) (bb : Bool) {x : ℕ} (hx : x < P.Ns) (c : Comp) (m : Fin 3)
    {r : Fin 3 → ℝ} (hr : len r = radius P x) :
    1 / (8 * Real.pi * mu) * loadFlow (radius P x) c m r
      = bodyVelocity (fun c' => (generate_Minfinity_loop (NDMat.zeros (side P) (side P)) P (1 / (8 * Real.pi * mu)) mu bb).get
          (row P.Ns x c') (row P.Ns x c)) m r := by
  have hrow : ∀ c, HasRow P.Ns P.Nd x c := fun c => by cases c <;> simp only [HasRow] <;> omega
  simp only [C48_entry hP mu bb (hrow _) (hrow c), systemMob, if_true]
  exact surface_self (hP.radius_pos x (by unfold beads; omega)) hmu hr c m

/-- **C103** (beads). A bead of a dumbbell carries forces only, and moves without turning with the velocity of the fluid on its surface. -/
theorem C103_bead {P : PosData} (hP : Sensible P) {mu : ℝ} (hmu : 0 < mu) (bb : Bool) {x : ℕ} (hx : x < beads P) (j m : Fin 3)
    {r : Fin 3 → ℝ} (hr : len r = radius P x) :
    1 / (8 * Real.pi * mu) * flow (radius P x) (.force j) m r
      = (generate_Minfinity_loop (NDMat.zeros (side P) (side P)) P (1 / (8 * Real.pi * mu)) mu bb).get
          (row P.Ns x (.f m)) (row P.Ns x (.f j)) := by
  rw [C48_entry hP mu bb (x := x) (y := x) (c1 := .f m) (c2 := .f j) hx hx]
  have h := surface_self (hP.radius_pos x hx) hmu hr (.f j) m
  simp only [loadFlow, bodyVelocity, selfMob, mul_zero, zero_mul, Finset.sum_const_zero, add_zero] at h
  rw [h]
  simp only [systemMob, if_true, selfMob]

/-- **C103** (rest). Far away the fluid is at rest: outside of the sphere, the flow of a force falls off at least as the inverse distance from
the centre, and those of torques and stresslets as its square. -/
theorem C103_rest {b : ℝ} (hb : 0 < b) {r : Fin 3 → ℝ} (hr : b ≤ len r) (m : Fin 3) :
    (∀ j, |flow b (.force j) m r| ≤ 4 / len r) ∧ (∀ j, |flow b (.torque j) m r| ≤ 6 / len r ^ 2) ∧
    ∀ j k, |flow b (.stress j k) m r| ≤ 11 / len r ^ 2 := by
  have h : r ≠ 0 := by rintro rfl; rw [len_zero] at hr; linarith
  have hs := len_pos h
  have hq : b ^ 2 ≤ len r ^ 2 := pow_le_pow_left₀ hb.le hr 2
  refine ⟨fun j => ?_, fun j => ?_, fun j k => ?_⟩
  · rw [flow_force b j m h]
    have h1 := oseenJ_le h m j
    have h2 := Lap_J_le h m j
    calc _ ≤ |oseenJ (r m) (r j) m j (len r)| + |b ^ 2 / 6 * Lap_J (r m) (r j) m j (len r)| := abs_add_le _ _
      _ = |oseenJ (r m) (r j) m j (len r)| + b ^ 2 / 6 * |Lap_J (r m) (r j) m j (len r)| := by
          rw [abs_mul, abs_of_nonneg (by positivity : 0 ≤ b ^ 2 / 6)]
      _ ≤ 2 / len r + len r ^ 2 / 6 * (8 / len r ^ 3) := by gcongr
      _ = (10 / 3) / len r := by field_simp; ring
      _ ≤ _ := by gcongr; norm_num
  · rw [flow_torque b j m h]
    exact rotletR_le h m j
  · rw [flow_stress b j k m h, abs_neg]
    have h1 := tensorK_le h m j k
    have h2 := DLap_J_le h m j k
    calc _ ≤ |tensorK r (len r) m j k| + |b ^ 2 / 10 * DLap_J r (len r) m j k| := abs_add_le _ _
      _ = |tensorK r (len r) m j k| + b ^ 2 / 10 * |DLap_J r (len r) m j k| := by
          rw [abs_mul, abs_of_nonneg (by positivity : 0 ≤ b ^ 2 / 10)]
      _ ≤ 6 / len r ^ 2 + len r ^ 2 / 10 * (48 / len r ^ 4) := by gcongr
      _ = (54 / 5) / len r ^ 2 := by field_simp; ring
      _ ≤ _ := by gcongr; norm_num

/-! ## Cases -/

example : ∑ m, pd m (flow 2 (.force 0) m) ![1, 2, 2] = 0 ∧ lap (flow 2 (.force 0) 1) ![1, 2, 2] = pd 1 (pressure (.force 0)) ![1, 2, 2] :=
  have h := C103_stokes 2 (.force 0) (r := ![1, 2, 2]) (fun h => by simpa using congrFun h 0)
  ⟨h.1, h.2 1⟩

/-- The upper of two unit spheres, strained by a stresslet, at a point of its surface off the axes. -/
example (bb : Bool) : 1 / (8 * Real.pi * 1) * loadFlow 1 (.s 3) 0 ![2 / 3, 2 / 3, 1 / 3]
    = bodyVelocity (fun c' => (generate_Minfinity_loop (NDMat.zeros 22 22) Ship.towerP (1 / (8 * Real.pi * 1)) 1 bb).get
        (row 2 1 c') (row 2 1 (.s 3))) 0 ![2 / 3, 2 / 3, 1 / 3] := by
  have h1 : radius Ship.towerP 1 = 1 := Ship.towerP_radius (by decide)
  have h := C103_sphere Ship.towerP_sensible one_pos bb (x := 1) (by decide) (.s 3) 0 (r := ![2 / 3, 2 / 3, 1 / 3])
    (by rw [h1]; norm_num [len, Fin.sum_univ_three, show (![2 / 3, 2 / 3, 1 / 3] : Fin 3 → ℝ) 2 = 1 / 3 from rfl])
  rw [h1] at h
  exact h

example (bb : Bool) : 1 / (8 * Real.pi * 1) * flow 1 (.force 2) 2 ![1, 0, 0]
    = (generate_Minfinity_loop (NDMat.zeros 22 22) Ship.towerP (1 / (8 * Real.pi * 1)) 1 bb).get (row 2 0 (.f 2)) (row 2 0 (.f 2)) := by
  have h1 : radius Ship.towerP 0 = 1 := Ship.towerP_radius (by decide)
  have h := C103_bead Ship.towerP_sensible one_pos bb (x := 0) (by decide) 2 2 (r := ![1, 0, 0])
    (by rw [h1]; norm_num [len, Fin.sum_univ_three, show (![1, 0, 0] : Fin 3 → ℝ) 2 = 0 from rfl])
  rw [h1] at h
  exact h

example : |flow 1 (.force 0) 0 ![3, 4, 0]| ≤ 4 / 5 := by
  have hl : len (![3, 4, 0] : Fin 3 → ℝ) = 5 := by
    rw [len, Real.sqrt_eq_iff_mul_self_eq_of_pos (by norm_num)]
    norm_num [Fin.sum_univ_three, show (![3, 4, 0] : Fin 3 → ℝ) 2 = 0 from rfl]
  have h := (C103_rest one_pos (r := ![3, 4, 0]) (by rw [hl]; norm_num) 0).1 0
  rwa [hl] at h

end SD
