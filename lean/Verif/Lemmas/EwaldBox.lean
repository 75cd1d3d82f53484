import Verif.Lemmas.EwaldSelf
import Mathlib.Data.List.Perm.Basic
import Mathlib.Data.List.Nodup

/-!
# The grid of images and waves
-/

set_option autoImplicit false

namespace SD.Ewald

open Spec

theorem mem_gridpoints {N : ℕ} {n : Fin 3 → ℤ} : n ∈ gridpoints N ↔ ∀ a, -(N : ℤ) ≤ n a ∧ n a ≤ N := by
  have hg : ∀ z : ℤ, z ∈ (List.range (2 * N + 1)).map (fun k : ℕ => (k : ℤ) - (N : ℤ)) ↔ -(N : ℤ) ≤ z ∧ z ≤ N := by
    intro z
    simp only [List.mem_map, List.mem_range]
    constructor
    · rintro ⟨k, hk, rfl⟩; omega
    · rintro ⟨h1, h2⟩
      exact ⟨(z + N).toNat, by omega, by omega⟩
  simp only [gridpoints, List.mem_flatMap]
  constructor
  · rintro ⟨x, hx, y, hy, hz⟩
    obtain ⟨z, hz', rfl⟩ := List.mem_map.mp hz
    rw [hg] at hx hy hz'
    intro a
    fin_cases a
    · exact hx
    · exact hy
    · exact hz'
  · intro h
    exact ⟨n 0, (hg _).mpr (h 0), n 1, (hg _).mpr (h 1), List.mem_map.mpr ⟨n 2, (hg _).mpr (h 2), by
      funext a; fin_cases a <;> rfl⟩⟩

theorem gridpoints_nodup (N : ℕ) : (gridpoints N).Nodup := by
  have hg : ((List.range (2 * N + 1)).map (fun k : ℕ => (k : ℤ) - (N : ℤ))).Nodup :=
    List.Nodup.map (fun a b h => by simpa using h) List.nodup_range
  simp only [gridpoints]
  rw [List.nodup_flatMap]
  refine ⟨fun x _ => ?_, ?_⟩
  · rw [List.nodup_flatMap]
    refine ⟨fun y _ => hg.map fun a b h => by simpa using congrFun h 2, ?_⟩
    refine hg.imp_of_mem fun {a b} _ _ hab => ?_
    rw [Function.onFun, List.disjoint_left]
    intro v hv hv'
    obtain ⟨c, -, rfl⟩ := List.mem_map.mp hv
    obtain ⟨d, -, hd⟩ := List.mem_map.mp hv'
    exact hab (by simpa using (congrFun hd 1).symm)
  · refine hg.imp_of_mem fun {a b} _ _ hab => ?_
    rw [Function.onFun, List.disjoint_left]
    intro v hv hv'
    obtain ⟨c, -, hv⟩ := List.mem_flatMap.mp hv
    obtain ⟨c', -, rfl⟩ := List.mem_map.mp hv
    obtain ⟨d, -, hv'⟩ := List.mem_flatMap.mp hv'
    obtain ⟨d', -, hd⟩ := List.mem_map.mp hv'
    exact hab (by simpa using (congrFun hd 0).symm)

theorem gridVec_neg (B : Mat3) (n : Fin 3 → ℤ) : gridVec B (-n) = -gridVec B n := by
  funext i; simp only [gridVec, vecMat3, Pi.neg_apply, Fin.sum_univ_three]; push_cast; ring

theorem gridVec_sub (B : Mat3) (n m : Fin 3 → ℤ) : gridVec B (n - m) = gridVec B n - gridVec B m := by
  funext i; simp only [gridVec, vecMat3, Pi.sub_apply, Fin.sum_univ_three]; push_cast; ring

theorem gridVec_zero (B : Mat3) : gridVec B 0 = 0 := by
  funext i; simp [gridVec, vecMat3]

theorem norm3_neg (y : Vec3) : norm3 (-y) = norm3 y := by simp [norm3]

theorem norm3_nonneg (y : Vec3) : 0 ≤ norm3 y := Real.sqrt_nonneg _

theorem norm3_pos_iff {y : Vec3} : norm3 y > 0 ↔ y ≠ 0 := by
  constructor
  · rintro h rfl; simp [norm3] at h
  · intro h; rw [norm3_eq_len]; exact len_pos h

/-- The grid reversed is the grid. -/
theorem gridpoints_neg (N : ℕ) : ((gridpoints N).map fun n => -n).Perm (gridpoints N) := by
  refine (List.perm_ext_iff_of_nodup ((gridpoints_nodup N).map neg_injective) (gridpoints_nodup N)).mpr ?_
  intro n
  rw [List.mem_map, mem_gridpoints]
  constructor
  · rintro ⟨m, hm, rfl⟩ a
    have := mem_gridpoints.mp hm a
    simp only [Pi.neg_apply]; omega
  · intro h
    refine ⟨-n, mem_gridpoints.mpr fun a => ?_, neg_neg n⟩
    have := h a
    simp only [Pi.neg_apply]; omega

/-- A filtered image of the grid is symmetric if the filter is. -/
theorem grid_symm (N : ℕ) (B : Mat3) (q : (Fin 3 → ℤ) → Bool) (hq : ∀ n, q (-n) = q n) :
    ((((gridpoints N).filter q).map (gridVec B)).map fun x => -x).Perm
      (((gridpoints N).filter q).map (gridVec B)) := by
  have h1 := ((gridpoints_neg N).filter q).map (gridVec B)
  have e : (((gridpoints N).map fun n => -n).filter q).map (gridVec B)
      = (((gridpoints N).filter q).map (gridVec B)).map fun x => -x := by
    rw [List.filter_map, List.map_map, List.map_map]
    have : (q ∘ fun n => -n) = q := funext hq
    rw [this]
    exact List.map_congr_left fun n _ => gridVec_neg B n
  rw [e] at h1
  exact h1

section
variable (n : ℕ) (bl tr Ot : Vec3) (Et : Mat3)

/-- The basis of the box. -/
noncomputable def boxBasis : Mat3 :=
  shear_basis_vectors (basis_canonical fun i => tr i - bl i) (fun i => tr i - bl i) Ot Et

theorem boxLattice_X : (boxLattice n bl tr Ot Et).X
    = ((gridpoints n).filter fun g => decide (norm3 (gridVec (boxBasis bl tr Ot Et) g)
      ≤ 1.4142 * n * (boxLattice n bl tr Ot Et).L)).map (gridVec (boxBasis bl tr Ot Et)) := by
  simp only [boxLattice, boxBasis]
  rw [List.filter_map]
  rfl

theorem boxLattice_X_symm :
    ((boxLattice n bl tr Ot Et).X.map fun x => -x).Perm (boxLattice n bl tr Ot Et).X := by
  rw [boxLattice_X]
  exact grid_symm n _ _ fun m => by rw [gridVec_neg, norm3_neg]

theorem boxLattice_K_symm :
    ((boxLattice n bl tr Ot Et).K.map fun x => -x).Perm (boxLattice n bl tr Ot Et).K := by
  simp only [boxLattice]
  exact grid_symm n _ _ fun m => by rw [gridVec_neg, norm3_neg]

/-- No combination of the edges of the box vanishes. -/
def Independent (B : Mat3) : Prop := ∀ n : Fin 3 → ℤ, gridVec B n = 0 → n = 0

theorem boxLattice_L_nonneg (h : ∀ i, bl i < tr i) : 0 < (boxLattice n bl tr Ot Et).L := by
  simp only [boxLattice]
  have h0 := h 0; have h1 := h 1; have h2 := h 2
  exact Real.rpow_pos_of_pos (mul_pos (mul_pos (by linarith) (by linarith)) (by linarith)) _

theorem boxLattice_X_nodup (hB : Independent (boxBasis bl tr Ot Et)) :
    (boxLattice n bl tr Ot Et).X.Nodup := by
  rw [boxLattice_X]
  refine List.Nodup.map (fun a b h => ?_) ((gridpoints_nodup n).filter _)
  have : gridVec (boxBasis bl tr Ot Et) (a - b) = 0 := by rw [gridVec_sub, h, sub_self]
  exact sub_eq_zero.mp (hB _ this)

theorem boxLattice_zero_mem (h : ∀ i, bl i < tr i) : (0 : Vec3) ∈ (boxLattice n bl tr Ot Et).X := by
  rw [boxLattice_X]
  refine List.mem_map.mpr ⟨0, List.mem_filter.mpr ⟨mem_gridpoints.mpr fun a => by simp, ?_⟩, gridVec_zero _⟩
  rw [gridVec_zero]
  have : norm3 (0 : Vec3) = 0 := by simp [norm3]
  rw [this]
  have := boxLattice_L_nonneg n bl tr Ot Et h
  simp only [decide_eq_true_eq]
  positivity

/-- The images are the particle itself and the proper images. -/
theorem boxLattice_X_split (h : ∀ i, bl i < tr i) (hB : Independent (boxBasis bl tr Ot Et)) :
    (boxLattice n bl tr Ot Et).X.Perm (0 :: (boxLattice n bl tr Ot Et).Xdash) := by
  have hn := boxLattice_X_nodup n bl tr Ot Et hB
  refine (List.perm_ext_iff_of_nodup hn ?_).mpr fun x => ?_
  · refine List.nodup_cons.mpr ⟨?_, hn.filter _⟩
    simp [Lattice.Xdash, norm3]
  · rw [List.mem_cons, Lattice.Xdash, List.mem_filter]
    by_cases hx : x = 0
    · subst hx; simpa using boxLattice_zero_mem n bl tr Ot Et h
    · simp [hx, norm3_pos_iff]

end

theorem Xdash_ne_zero (W : Lattice) : ∀ x ∈ W.Xdash, x ≠ 0 := by
  intro x hx
  have := (List.mem_filter.mp hx).2
  exact norm3_pos_iff.mp (by simpa using this)

end SD.Ewald
