import Verif.Lemmas.Smooth
import Verif.Lemmas.Minfinity

/-!
# The closed forms are the Faxén response to the multipole fields
-/

set_option autoImplicit false

namespace SD

open Spec

theorem levi_eps (j k l : Fin 3) : levi j k l = eps j k l := by
  fin_cases j <;> fin_cases k <;> fin_cases l <;> simp [levi, eps]

theorem eps_filter (j k l : Fin 3) (x : ℝ) :
    (if k ≠ l ∧ j ≠ k ∧ j ≠ l then levi j k l * x else 0) = eps j k l * x := by
  rw [levi_eps]
  split_ifs with h
  · rfl
  · have : eps j k l = 0 := by
      fin_cases j <;> fin_cases k <;> fin_cases l <;> simp [eps] at h ⊢
    rw [this, zero_mul]

theorem eps_filter' (j k l : Fin 3) (x : ℝ) :
    (if k ≠ l ∧ k ≠ j ∧ l ≠ j then levi j k l * x else 0) = eps j k l * x := by
  rw [← eps_filter]
  refine if_congr ?_ rfl rfl
  tauto

theorem eps_filter2 (j k l : Fin 3) (x : ℝ) :
    (if k ≠ l ∧ j ≠ k ∧ j ≠ k then levi j k l * x else 0) = eps j k l * x := by
  rw [levi_eps]
  split_ifs with h
  · rfl
  · have : eps j k l = 0 := by
      fin_cases j <;> fin_cases k <;> fin_cases l <;> simp [eps] at h ⊢
    rw [this, zero_mul]

theorem kronkron_mul (x y u v : Fin 3) : kronkron x y u v = kron x y * kron u v := by
  unfold kronkron kron; split_ifs <;> simp

theorem kron_comm (x y : Fin 3) : kron x y = kron y x := by unfold kron; simp [eq_comm]

theorem D_J_symm (r : Vec3) (s : ℝ) (l i j : Fin 3) : D_J r s l i j = D_J r s l j i := by
  unfold D_J; rw [kron_comm i j]; ring

theorem DLap_J_symm (r : Vec3) (s : ℝ) (k i j : Fin 3) : DLap_J r s k i j = DLap_J r s k j i := by
  unfold DLap_J; rw [kron_comm i j]; ring

theorem DLap_J_symm' (r : Vec3) (s : ℝ) (k i j : Fin 3) : DLap_J r s k i j = DLap_J r s i k j := by
  unfold DLap_J; rw [kron_comm i j, kron_comm i k, kron_comm j k]; ring

theorem DD_J_symm (r : Vec3) (s : ℝ) (m l i j : Fin 3) : DD_J r s m l i j = DD_J r s m l j i := by
  unfold DD_J; simp only [kronkron_mul]; rw [kron_comm i j]; ring

theorem DD_J_symm' (r : Vec3) (s : ℝ) (m l i j : Fin 3) : DD_J r s m l i j = DD_J r s l m i j := by
  unfold DD_J; simp only [kronkron_mul]
  rw [kron_comm l m]; ring

theorem DLap_K_symm1 (r : Vec3) (s : ℝ) (l i j k : Fin 3) :
    DLap_K r s l i j k = DLap_K r s i l j k := by
  unfold DLap_K; simp only [kronkron_mul]
  rw [kron_comm i l, kron_comm j l, kron_comm k l, kron_comm i j, kron_comm i k]; ring

theorem DLap_K_symm2 (r : Vec3) (s : ℝ) (l i j k : Fin 3) :
    DLap_K r s l i j k = DLap_K r s l j i k := by
  unfold DLap_K; simp only [kronkron_mul]
  rw [kron_comm i j]; ring

theorem DLap_K_symm3 (r : Vec3) (s : ℝ) (l i j k : Fin 3) :
    DLap_K r s l i j k = DLap_K r s l i k j := by
  unfold DLap_K; simp only [kronkron_mul]
  rw [kron_comm j k]; ring

theorem eps_anti (j k l : Fin 3) : eps j k l = -eps j l k := by
  fin_cases j <;> fin_cases k <;> fin_cases l <;> simp [eps]

/-- The curl of a symmetric expression vanishes. -/
theorem eps_symm_sum (j : Fin 3) (f : Fin 3 → Fin 3 → ℝ) (h : ∀ k l, f k l = f l k) :
    ∑ k, ∑ l, eps j k l * f k l = 0 := by
  have : ∑ k, ∑ l, eps j k l * f k l = -∑ k, ∑ l, eps j k l * f k l := by
    conv_lhs => rw [Finset.sum_comm]
    rw [← Finset.sum_neg_distrib]
    refine Finset.sum_congr rfl fun k _ => ?_
    rw [← Finset.sum_neg_distrib]
    refine Finset.sum_congr rfl fun l _ => ?_
    rw [eps_anti j l k, h l k]; ring
  linarith

theorem Lap_R_zero (r : Vec3) (s : ℝ) (i j : Fin 3) : Lap_R r s i j = 0 := by
  unfold Lap_R
  simp only [eps_filter2]
  rw [eps_symm_sum, mul_zero]
  intro k l
  rw [DLap_J_symm, DLap_J_symm', DLap_J_symm]

theorem rotletR_eq (r : Vec3) (s : ℝ) (i j : Fin 3) :
    rotletR r s i j = -(1 / 2) * ∑ k, ∑ l, eps j k l * D_J r s k i l := by
  unfold rotletR; simp only [eps_filter]

theorem D_R_eq (r : Vec3) (s : ℝ) (l i j : Fin 3) :
    D_R r s l i j = -(1 / 2) * ∑ m, ∑ n, eps j m n * DD_J r s l m i n := by
  unfold D_R; simp only [eps_filter']

/-! ## The fields -/

theorem flow_force_sm (b : ℝ) (j m : Fin 3) : Sm (flow b (.force j) m) :=
  (oseen_sm m j).add (Sm.const_mul _ (oseen_sm m j).lap)

theorem flow_torque_sm (b : ℝ) (j m : Fin 3) : Sm (flow b (.torque j) m) :=
  Sm.const_mul _ (Sm.sum _ fun k _ => Sm.sum _ fun l _ => Sm.const_mul _ ((oseen_sm m l).pd k))

/-- The stresslet field rewritten as a sum. -/
theorem flow_stress_eq (b : ℝ) (j k m : Fin 3) : flow b (.stress j k) m = fun r =>
    -(1 / 2) * (pd k (oseen m j) r + pd j (oseen m k) r)
      + -(b ^ 2 / 20) * (lap (pd k (oseen m j)) r + lap (pd j (oseen m k)) r) := by
  funext r; simp only [flow]; ring

theorem flow_stress_sm (b : ℝ) (j k m : Fin 3) : Sm (flow b (.stress j k) m) := by
  rw [flow_stress_eq]
  exact (Sm.const_mul _ (((oseen_sm m j).pd k).add ((oseen_sm m k).pd j))).add
    (Sm.const_mul _ ((((oseen_sm m j).pd k).lap).add (((oseen_sm m k).pd j).lap)))

variable {r : Vec3}

theorem flow_force (b : ℝ) (j m : Fin 3) (h : r ≠ 0) : flow b (.force j) m r
    = oseenJ (r m) (r j) m j (len r) + b ^ 2 / 6 * Lap_J (r m) (r j) m j (len r) := by
  simp only [flow, lap_oseen h]; rfl

theorem pd_flow_force (b : ℝ) (j m l : Fin 3) (h : r ≠ 0) : pd l (flow b (.force j) m) r
    = D_J r (len r) l m j + b ^ 2 / 6 * DLap_J r (len r) l m j := by
  rw [show flow b (.force j) m = fun r => oseen m j r + b ^ 2 / 6 * lap (oseen m j) r from rfl,
    pd_add ((oseen_sm m j).diff h) ((Sm.const_mul _ (oseen_sm m j).lap).diff h),
    pd_const_mul _ ((oseen_sm m j).lap.diff h), pd_oseen h, pd_lap_oseen h]

theorem lap_flow_force (b : ℝ) (j m : Fin 3) (h : r ≠ 0) : lap (flow b (.force j) m) r
    = Lap_J (r m) (r j) m j (len r) := by
  rw [show flow b (.force j) m = fun r => oseen m j r + b ^ 2 / 6 * lap (oseen m j) r from rfl,
    lap_add (oseen_sm m j) (Sm.const_mul _ (oseen_sm m j).lap) h,
    lap_const_mul _ (oseen_sm m j).lap h, lap_oseen h, lap_lap_oseen h]; ring

theorem flow_torque (b : ℝ) (j m : Fin 3) (h : r ≠ 0) :
    flow b (.torque j) m r = rotletR r (len r) m j := by
  simp only [flow, pd_oseen h, rotletR_eq]

theorem pd_flow_torque (b : ℝ) (j m l : Fin 3) (h : r ≠ 0) :
    pd l (flow b (.torque j) m) r = D_R r (len r) l m j := by
  rw [show flow b (.torque j) m
      = fun r => -(1 / 2) * ∑ k, ∑ l, eps j k l * pd k (oseen m l) r from rfl,
    pd_const_mul _ ((Sm.sum _ fun k _ => Sm.sum _ fun l _ =>
      Sm.const_mul _ ((oseen_sm m l).pd k)).diff h),
    pd_sum _ (fun k _ => (Sm.sum _ fun l _ => Sm.const_mul _ ((oseen_sm m l).pd k)).diff h), D_R_eq]
  congr 1
  refine Finset.sum_congr rfl fun k _ => ?_
  rw [pd_sum _ (fun l _ => (Sm.const_mul _ ((oseen_sm m l).pd k)).diff h)]
  refine Finset.sum_congr rfl fun n _ => ?_
  rw [pd_const_mul _ (((oseen_sm m n).pd k).diff h), pd_pd_oseen h]

theorem lap_flow_torque (b : ℝ) (j m : Fin 3) (h : r ≠ 0) :
    lap (flow b (.torque j) m) r = 0 := by
  rw [show flow b (.torque j) m
      = fun r => -(1 / 2) * ∑ k, ∑ l, eps j k l * pd k (oseen m l) r from rfl,
    lap_const_mul _ (Sm.sum _ fun k _ => Sm.sum _ fun l _ =>
      Sm.const_mul _ ((oseen_sm m l).pd k)) h,
    lap_sum _ (fun k _ => (Sm.sum _ fun l _ => Sm.const_mul _ ((oseen_sm m l).pd k))) h]
  rw [← Lap_R_zero r (len r) m j]
  unfold Lap_R
  simp only [eps_filter2]
  congr 1
  refine Finset.sum_congr rfl fun k _ => ?_
  rw [lap_sum _ (fun l _ => (Sm.const_mul _ ((oseen_sm m l).pd k))) h]
  refine Finset.sum_congr rfl fun n _ => ?_
  rw [lap_const_mul _ ((oseen_sm m n).pd k) h, lap_pd (oseen_sm m n) k h, pd_lap_oseen h]

theorem flow_stress (b : ℝ) (j k m : Fin 3) (h : r ≠ 0) : flow b (.stress j k) m r
    = -(tensorK r (len r) m j k + b ^ 2 / 10 * DLap_J r (len r) m j k) := by
  simp only [flow_stress_eq, pd_oseen h, lap_pd (oseen_sm _ _) _ h, pd_lap_oseen h, tensorK]
  rw [DLap_J_symm' r (len r) k m j, DLap_J_symm r (len r) m k j, DLap_J_symm' r (len r) j m k]
  ring

theorem pd_flow_stress (b : ℝ) (j k m l : Fin 3) (h : r ≠ 0) : pd l (flow b (.stress j k) m) r
    = -(D_K r (len r) l m j k + b ^ 2 / 10 * DLap_K r (len r) l m j k) := by
  have e1 := (oseen_sm m j).pd k
  have e2 := (oseen_sm m k).pd j
  rw [flow_stress_eq, pd_add ((Sm.const_mul _ (e1.add e2)).diff h)
      ((Sm.const_mul _ (e1.lap.add e2.lap)).diff h),
    pd_const_mul _ ((e1.add e2).diff h), pd_const_mul _ ((e1.lap.add e2.lap).diff h),
    pd_add (e1.diff h) (e2.diff h), pd_add (e1.lap.diff h) (e2.lap.diff h),
    pd_pd_oseen h, pd_pd_oseen h,
    pd_congr (g := pd k (lap (oseen m j))) (fun r hr => lap_pd (oseen_sm m j) k hr) h,
    pd_congr (g := pd j (lap (oseen m k))) (fun r hr => lap_pd (oseen_sm m k) j hr) h,
    pd_pd_lap_oseen h, pd_pd_lap_oseen h]
  rw [DLap_K_symm2 r (len r) l k m j, DLap_K_symm3 r (len r) l m k j,
    DLap_K_symm2 r (len r) l j m k, D_K]
  ring

theorem lap_flow_stress (b : ℝ) (j k m : Fin 3) (h : r ≠ 0) : lap (flow b (.stress j k) m) r
    = -DLap_J r (len r) m j k := by
  have e1 := (oseen_sm m j).pd k
  have e2 := (oseen_sm m k).pd j
  have z : ∀ i j k, lap (lap (pd k (oseen i j))) r = 0 := by
    intro i j k
    rw [lap_congr (g := pd k (lap (oseen i j))) (fun r hr => lap_pd (oseen_sm i j) k hr) h,
      lap_pd (oseen_sm i j).lap k h,
      pd_congr (g := fun _ => 0) (fun r hr => lap_lap_oseen hr i j) h, pd_zero]
  rw [flow_stress_eq, lap_add (Sm.const_mul _ (e1.add e2)) (Sm.const_mul _ (e1.lap.add e2.lap)) h,
    lap_const_mul _ (e1.add e2) h, lap_const_mul _ (e1.lap.add e2.lap) h,
    lap_add e1 e2 h, lap_add e1.lap e2.lap h, z, z, lap_pd (oseen_sm _ _) _ h,
    lap_pd (oseen_sm _ _) _ h, pd_lap_oseen h, pd_lap_oseen h,
    DLap_J_symm' r (len r) k m j, DLap_J_symm r (len r) m k j, DLap_J_symm' r (len r) j m k]
  ring

/-! ## The responses -/

theorem resp_FF (a b : ℝ) (i j : Fin 3) (h : r ≠ 0) : response a b (.force i) (.force j) r
    = oseenJ (r i) (r j) i j (len r) + (a ^ 2 + b ^ 2) / 6 * Lap_J (r i) (r j) i j (len r) := by
  simp only [response, faxen, flow_force b j i h, lap_flow_force b j i h]; ring

theorem resp_FT (a b : ℝ) (i j : Fin 3) (h : r ≠ 0) : response a b (.force i) (.torque j) r
    = rotletR r (len r) i j := by
  simp only [response, faxen, flow_torque b j i h, lap_flow_torque b j i h]; ring

theorem resp_FS (a b : ℝ) (i j k : Fin 3) (h : r ≠ 0) : response a b (.force i) (.stress j k) r
    = -(tensorK r (len r) i j k + (a ^ 2 / 6 + b ^ 2 / 10) * Lap_K r (len r) i j k) := by
  simp only [response, faxen, flow_stress b j k i h, lap_flow_stress b j k i h, Lap_K]; ring

theorem resp_TF (a b : ℝ) (i j : Fin 3) (h : r ≠ 0) : response a b (.torque i) (.force j) r
    = -rotletR r (len r) j i := by
  simp only [response, faxen, pd_flow_force b j _ _ h, rotletR_eq]
  simp only [mul_add, Finset.sum_add_distrib]
  have : ∑ k, ∑ l, eps i k l * (b ^ 2 / 6 * DLap_J r (len r) k l j) = 0 := by
    apply eps_symm_sum
    intro k l; rw [DLap_J_symm']
  rw [this]
  simp only [D_J_symm r (len r) _ j _]
  ring

theorem resp_TT (a b : ℝ) (i j : Fin 3) (h : r ≠ 0) : response a b (.torque i) (.torque j) r
    = 1 / 2 * ∑ k, ∑ l, eps i k l * D_R r (len r) k l j := by
  simp only [response, faxen, pd_flow_torque b j _ _ h]

theorem resp_TS (a b : ℝ) (i j k : Fin 3) (h : r ≠ 0) : response a b (.torque i) (.stress j k) r
    = -(1 / 2) * ∑ l, ∑ m, eps i l m * D_K r (len r) l m j k := by
  simp only [response, faxen, pd_flow_stress b j k _ _ h]
  have : ∑ l, ∑ m, eps i l m * (b ^ 2 / 10 * DLap_K r (len r) l m j k) = 0 := by
    apply eps_symm_sum
    intro k l; rw [DLap_K_symm1]
  simp only [mul_neg, mul_add, neg_add, Finset.sum_add_distrib, Finset.sum_neg_distrib, this]
  ring

theorem resp_SF (a b : ℝ) (i j k : Fin 3) (h : r ≠ 0) : response a b (.stress i j) (.force k) r
    = tensorK r (len r) k i j + (b ^ 2 / 6 + a ^ 2 / 10) * Lap_K r (len r) k i j := by
  simp only [response, faxen, pd_flow_force b k _ _ h]
  rw [lap_pd (flow_force_sm b k i) j h, lap_pd (flow_force_sm b k j) i h,
    pd_congr (f := lap (flow b (.force k) i)) (g := lap (oseen i k))
      (fun r hr => by rw [lap_flow_force b k i hr, lap_oseen hr]) h,
    pd_congr (f := lap (flow b (.force k) j)) (g := lap (oseen j k))
      (fun r hr => by rw [lap_flow_force b k j hr, lap_oseen hr]) h,
    pd_lap_oseen h, pd_lap_oseen h]
  rw [D_J_symm r (len r) j i k, D_J_symm r (len r) i j k, DLap_J_symm r (len r) j i k,
    DLap_J_symm r (len r) i j k, DLap_J_symm' r (len r) j k i, DLap_J_symm' r (len r) i k j,
    DLap_J_symm r (len r) k j i, Lap_K, tensorK]
  ring

theorem resp_ST (a b : ℝ) (i j k : Fin 3) (h : r ≠ 0) : response a b (.stress i j) (.torque k) r
    = -(1 / 2) * ∑ l, ∑ m, eps k l m * D_K r (len r) l m i j := by
  simp only [response, faxen, pd_flow_torque b k _ _ h]
  rw [lap_pd (flow_torque_sm b k i) j h, lap_pd (flow_torque_sm b k j) i h,
    pd_congr (g := fun _ => 0) (fun r hr => lap_flow_torque b k i hr) h,
    pd_congr (g := fun _ => 0) (fun r hr => lap_flow_torque b k j hr) h, pd_zero, pd_zero]
  simp only [D_R_eq, D_K, mul_add, Finset.sum_add_distrib, Finset.mul_sum]
  have e : ∀ x y : Fin 3, ∀ l m, DD_J r (len r) x l y m = DD_J r (len r) l x m y := by
    intro x y l m; rw [DD_J_symm', DD_J_symm]
  simp only [e]
  simp only [← Finset.mul_sum, add_zero, mul_zero]
  have f : ∀ x y : Fin 3, ∑ l, ∑ m, eps k l m * (1 / 2 * DD_J r (len r) x l y m)
      = 1 / 2 * ∑ l, ∑ m, eps k l m * DD_J r (len r) x l y m := by
    intro x y
    simp only [Finset.mul_sum]
    refine Finset.sum_congr rfl fun _ _ => Finset.sum_congr rfl fun _ _ => by ring
  rw [f, f]
  ring

theorem resp_SS (a b : ℝ) (i j k l : Fin 3) (h : r ≠ 0) :
    response a b (.stress i j) (.stress k l) r
    = -(1 / 2) * ((D_K r (len r) j i k l + D_K r (len r) i j k l)
        + (a ^ 2 + b ^ 2) / 10 * (DLap_K r (len r) j i k l + DLap_K r (len r) i j k l)) := by
  simp only [response, faxen, pd_flow_stress b k l _ _ h]
  have e : ∀ x y, pd y (lap (flow b (.stress k l) x)) r = -DLap_K r (len r) y x k l := by
    intro x y
    rw [pd_congr (g := fun r => (-1) * lap (pd x (oseen k l)) r) (fun r hr => by
        rw [lap_flow_stress b k l x hr, lap_pd (oseen_sm k l) x hr, pd_lap_oseen hr]; ring) h,
      pd_const_mul _ (((oseen_sm k l).pd x).lap.diff h),
      pd_congr (g := pd x (lap (oseen k l))) (fun r hr => lap_pd (oseen_sm k l) x hr) h,
      pd_pd_lap_oseen h]
    ring
  rw [lap_pd (flow_stress_sm b k l i) j h, lap_pd (flow_stress_sm b k l j) i h, e, e]
  ring

end SD
