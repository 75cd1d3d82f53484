import Verif.Model.Minfinity

/-!
# The far-field matrix is inversely proportional to the viscosity
-/

set_option autoImplicit false

namespace SD

section
variable (k c mu : ℝ)

theorem M11_visc (ri rj s a1 a2 : ℝ) (i j : Fin 3) :
    M11 ri rj s a1 a2 i j (k⁻¹ * c) (k * mu) = k⁻¹ * M11 ri rj s a1 a2 i j c mu := by
  unfold M11
  split_ifs
  · ring
  · simp only [div_eq_mul_inv, mul_inv]; ring

theorem M12_visc (r : Vec3) (s a1 a2 : ℝ) (i j : Fin 3) :
    M12 r s a1 a2 i j (k⁻¹ * c) (k * mu) = k⁻¹ * M12 r s a1 a2 i j c mu := by
  unfold M12
  split_ifs <;> ring

theorem M13_visc (r : Vec3) (s a1 a2 : ℝ) (i j l : Fin 3) :
    M13 r s a1 a2 i j l (k⁻¹ * c) (k * mu) = k⁻¹ * M13 r s a1 a2 i j l c mu := by
  unfold M13
  split_ifs <;> ring

theorem M22_visc (r : Vec3) (s a1 a2 : ℝ) (i j : Fin 3) :
    M22 r s a1 a2 i j (k⁻¹ * c) (k * mu) = k⁻¹ * M22 r s a1 a2 i j c mu := by
  unfold M22
  by_cases h : |r 0| + |r 1| + |r 2| > eps10
  · rw [if_pos h, if_pos h]; ring
  · rw [if_neg h, if_neg h]; simp only [div_eq_mul_inv, mul_inv]; ring

theorem M23_visc (r : Vec3) (s a1 a2 : ℝ) (i j l : Fin 3) :
    M23 r s a1 a2 i j l (k⁻¹ * c) (k * mu) = k⁻¹ * M23 r s a1 a2 i j l c mu := by
  unfold M23
  by_cases h : |r 0| + |r 1| + |r 2| > eps10
  · rw [if_pos h, if_pos h]; ring
  · rw [if_neg h, if_neg h]; ring

theorem M33_visc (r : Vec3) (s a1 a2 : ℝ) (i j l m : Fin 3) :
    M33 r s a1 a2 i j l m (k⁻¹ * c) (k * mu) = k⁻¹ * M33 r s a1 a2 i j l m c mu := by
  unfold M33
  ring

theorem con_M13_visc (r : Vec3) (s a1 a2 : ℝ) (i : Fin 3) (p : Fin 5) :
    con_M13_row r s a1 a2 i (k⁻¹ * c) (k * mu) p = k⁻¹ * con_M13_row r s a1 a2 i c mu p := by
  unfold con_M13_row
  simp only [M13_visc]
  fin_cases p <;> simp <;> ring

theorem con_M23_visc (r : Vec3) (s a1 a2 : ℝ) (i : Fin 3) (p : Fin 5) :
    con_M23_row r s a1 a2 i (k⁻¹ * c) (k * mu) p = k⁻¹ * con_M23_row r s a1 a2 i c mu p := by
  unfold con_M23_row
  simp only [M23_visc]
  fin_cases p <;> simp <;> ring

theorem condense55_mul (f : Fin 3 → Fin 3 → Fin 3 → Fin 3 → ℝ) (p q : Fin 5) :
    condense55 (fun i j l m => k * f i j l m) p q = k * condense55 f p q := by
  simp only [condense55, Finset.mul_sum, Finset.sum_mul]
  exact Finset.sum_congr rfl fun _ _ => Finset.sum_congr rfl fun _ _ => by ring

theorem condense53_mul (f : Fin 3 → Fin 3 → Fin 3 → ℝ) (p : Fin 5) (j : Fin 3) :
    condense53 (fun i j l => k * f i j l) p j = k * condense53 f p j := by
  simp only [condense53, Finset.mul_sum]
  exact Finset.sum_congr rfl fun _ _ => by ring

/-- Writing scaled values into a scaled matrix. -/
theorem writeAt_smul (D : NDMat) (rc : ℕ × ℕ) (h w : ℕ) (f : ℕ → ℕ → ℝ) :
    writeAt (NDMat.smul k D) rc h w (fun i j => k * f i j) = NDMat.smul k (writeAt D rc h w f) := by
  simp only [writeAt, NDMat.setBlock, NDMat.smul, NDMat.mk.injEq, true_and]
  funext i j
  split_ifs <;> rfl

theorem writeAt_smul' (D : NDMat) (rc : ℕ × ℕ) (h w : ℕ) {f g : ℕ → ℕ → ℝ} (e : ∀ i j, g i j = k * f i j) :
    writeAt (NDMat.smul k D) rc h w g = NDMat.smul k (writeAt D rc h w f) := by
  rw [← writeAt_smul]
  congr 1
  funext i j
  exact e i j

theorem foldl_smul {α : Type} (f g : NDMat → α → NDMat)
    (h : ∀ D a, g (NDMat.smul k D) a = NDMat.smul k (f D a)) (l : List α) (D : NDMat) :
    l.foldl g (NDMat.smul k D) = NDMat.smul k (l.foldl f D) := by
  induction l generalizing D with
  | nil => rfl
  | cons a l ih => rw [List.foldl_cons, List.foldl_cons, h, ih]

theorem blkM11_visc (r : Vec3) (s a1 a2 : ℝ) (i j : ℕ) :
    blkM11 r s a1 a2 (k⁻¹ * c) (k * mu) i j = k⁻¹ * blkM11 r s a1 a2 c mu i j := by
  unfold blkM11; exact M11_visc k c mu ..

theorem sphereSphere_visc (D : NDMat) (K : Coords) (r : Vec3) (s a1 a2 : ℝ) :
    minfSphereSphere (NDMat.smul k⁻¹ D) K r s a1 a2 (k⁻¹ * c) (k * mu)
      = NDMat.smul k⁻¹ (minfSphereSphere D K r s a1 a2 c mu) := by
  unfold minfSphereSphere
  dsimp only
  rw [writeAt_smul' k⁻¹ _ _ _ _ (blkM11_visc k c mu r s a1 a2),
    writeAt_smul' k⁻¹ _ _ _ _ (fun i j => M12_visc k c mu r s a1 a2 (f3 i) (f3 j)),
    writeAt_smul' k⁻¹ _ _ _ _ (fun i j => M22_visc k c mu r s a1 a2 (f3 i) (f3 j)),
    foldl_smul k⁻¹ _ _ (fun D i => writeAt_smul' k⁻¹ D _ _ _
      (fun _ j => con_M13_visc k c mu r s a1 a2 (f3 i) (f5 j))),
    foldl_smul k⁻¹ _ _ (fun D i => writeAt_smul' k⁻¹ D _ _ _
      (fun _ j => con_M23_visc k c mu r s a1 a2 (f3 i) (f5 j)))]
  have e5 : ∀ D : NDMat, (if s ≤ eps10 then
      (List.range 5).foldl (fun D i =>
        writeAt D (K.M.1 + i, K.M.2 + i) 1 1 fun _ _ => 1 / (20 / 3 * Real.pi * (k * mu) * a1 ^ 3))
        (NDMat.smul k⁻¹ D)
    else
      writeAt (NDMat.smul k⁻¹ D) K.M 5 5 fun i j =>
        condense55 (fun i j l m => M33 r s a1 a2 i j l m (k⁻¹ * c) (k * mu)) (f5 i) (f5 j))
    = NDMat.smul k⁻¹ (if s ≤ eps10 then
      (List.range 5).foldl (fun D i =>
        writeAt D (K.M.1 + i, K.M.2 + i) 1 1 fun _ _ => 1 / (20 / 3 * Real.pi * mu * a1 ^ 3)) D
    else
      writeAt D K.M 5 5 fun i j =>
        condense55 (fun i j l m => M33 r s a1 a2 i j l m c mu) (f5 i) (f5 j)) := by
    intro D
    by_cases h : s ≤ eps10
    · rw [if_pos h, if_pos h]
      refine foldl_smul k⁻¹ _ _ (fun D i => writeAt_smul' k⁻¹ D _ _ _ fun _ _ => ?_) _ _
      simp only [one_div, mul_inv]; ring
    · rw [if_neg h, if_neg h]
      refine writeAt_smul' k⁻¹ _ _ _ _ fun i j => ?_
      rw [← condense55_mul]
      simp only [M33_visc]
  rw [e5]
  by_cases h : a1 = a2
  · rw [if_pos h, if_pos h]
    have w : ∀ (D : NDMat) (rc q : ℕ × ℕ) (h w : ℕ),
        writeAt (NDMat.smul k⁻¹ D) rc h w (fun i j => -(NDMat.smul k⁻¹ D).get (q.1 + i) (q.2 + j))
          = NDMat.smul k⁻¹ (writeAt D rc h w fun i j => -D.get (q.1 + i) (q.2 + j)) :=
      fun D rc q h w => writeAt_smul' k⁻¹ _ _ _ _ fun i j => by simp only [NDMat.smul]; ring
    have w' : ∀ (D : NDMat) (rc q : ℕ × ℕ) (h w : ℕ),
        writeAt (NDMat.smul k⁻¹ D) rc h w (fun i j => (NDMat.smul k⁻¹ D).get (q.1 + i) (q.2 + j))
          = NDMat.smul k⁻¹ (writeAt D rc h w fun i j => D.get (q.1 + i) (q.2 + j)) :=
      fun D rc q h w => writeAt_smul' k⁻¹ _ _ _ _ fun i j => by simp only [NDMat.smul]
    rw [w, w, w']
  · rw [if_neg h, if_neg h, writeAt_smul' k⁻¹ _ _ _ _
      (fun i j => M12_visc k c mu (-r) s a2 a1 (f3 i) (f3 j))]
    refine foldl_smul k⁻¹ _ _ (fun D i => ?_) _ _
    rw [writeAt_smul' k⁻¹ _ _ _ _ (fun _ j => con_M13_visc k c mu (-r) s a2 a1 (f3 i) (f5 j)),
      writeAt_smul' k⁻¹ _ _ _ _ (fun _ j => con_M23_visc k c mu (-r) s a2 a1 (f3 i) (f5 j))]

theorem sphereBead_visc (D : NDMat) (K1 K2 K3 : ℕ × ℕ) (r : Vec3) (s a1 a2 : ℝ) :
    minfSphereBead (NDMat.smul k⁻¹ D) K1 K2 K3 r s a1 a2 (k⁻¹ * c) (k * mu)
      = NDMat.smul k⁻¹ (minfSphereBead D K1 K2 K3 r s a1 a2 c mu) := by
  unfold minfSphereBead
  dsimp only
  rw [writeAt_smul' k⁻¹ _ _ _ _ (blkM11_visc k c mu r s a1 a2),
    writeAt_smul' k⁻¹ _ _ _ _ (fun i j => M12_visc k c mu (-r) s a2 a1 (f3 j) (f3 i))]
  refine writeAt_smul' k⁻¹ _ _ _ _ fun i j => ?_
  rw [← condense53_mul]
  simp only [M13_visc]

theorem minfStep_visc (P : PosData) (bb : Bool) (D : NDMat) (uv : ℕ × ℕ) :
    minfStep P (k⁻¹ * c) (k * mu) bb (NDMat.smul k⁻¹ D) uv = NDMat.smul k⁻¹ (minfStep P c mu bb D uv) := by
  unfold minfStep
  dsimp only
  simp only [sphereSphere_visc, sphereBead_visc,
    fun (D : NDMat) rc r s a1 a2 => writeAt_smul' k⁻¹ D rc 3 3 (blkM11_visc k c mu r s a1 a2)]
  split_ifs <;> rfl

end

/-- Entrywise product of two matrices `L M Lᵀ` with a scaled middle. -/
theorem dot_smul_dot (L A R : NDMat) (k : ℝ) :
    (L.dot (NDMat.smul k A)).dot R = NDMat.smul k ((L.dot A).dot R) := by
  simp only [NDMat.dot, NDMat.smul, NDMat.mk.injEq, true_and]
  funext i j
  rw [Finset.mul_sum]
  refine Finset.sum_congr rfl fun x _ => ?_
  rw [← mul_assoc, Finset.mul_sum]
  congr 1
  exact Finset.sum_congr rfl fun y _ => by ring

theorem symmetrise_smul (k : ℝ) (D : NDMat) : symmetrise (NDMat.smul k D) = NDMat.smul k (symmetrise D) := by
  simp only [symmetrise, NDMat.smul, NDMat.mk.injEq, true_and]
  funext i j
  split_ifs <;> ring

theorem Minfinity_visc (P : PosData) (k mu : ℝ) (bb : Bool) :
    generate_Minfinity P (k * mu) bb = NDMat.smul k⁻¹ (generate_Minfinity P mu bb) := by
  have hc : 1 / (8 * Real.pi * (k * mu)) = k⁻¹ * (1 / (8 * Real.pi * mu)) := by
    simp only [one_div, mul_inv]; ring
  have hz : ∀ n, NDMat.zeros n n = NDMat.smul k⁻¹ (NDMat.zeros n n) := fun n => by
    simp [NDMat.zeros, NDMat.smul]
  have hl : ∀ n, generate_Minfinity_loop (NDMat.zeros n n) P (1 / (8 * Real.pi * (k * mu))) (k * mu) bb
      = NDMat.smul k⁻¹ (generate_Minfinity_loop (NDMat.zeros n n) P (1 / (8 * Real.pi * mu)) mu bb) := by
    intro n
    unfold generate_Minfinity_loop
    rw [hc]
    conv_lhs => rw [hz n]
    rw [foldl_smul k⁻¹ _ _ (fun D uv => minfStep_visc k _ mu P bb D uv), symmetrise_smul]
  unfold generate_Minfinity
  dsimp only
  rw [hl]
  split_ifs
  · rw [dot_smul_dot]
  · rfl

end SD
