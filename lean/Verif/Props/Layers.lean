import Verif.Lemmas.EwaldLayers
import Verif.Props.LargeBoxGrand

/-!
# C82: enough layers of images are as good as all of them

The number of layers that the far field in a box sums over is a setting. The sums over all images and over all waves
are specified in `Spec/Layers`.
-/

set_option autoImplicit false

namespace SD

open Spec Filter Topology

/-- Particles in a box that has been sheared by any amount, and no particle on an image of another. These are
the conditions of `Boxed`, asked of every image. -/
structure InArray (bl tr Ot : Vec3) (Et : Mat3) (a b : Fin 3) (g : ℝ) (P : PosData) : Prop where
  sensible : Sensible P
  edges : ∀ i, bl i + 1 / 10 ^ 10 < tr i
  axes : a ≠ b
  shear : IsShear Ot Et a b g
  apart : ∀ x < beads P, ∀ y < beads P, x ≠ y → ∀ v, InLattice (shearedBox (fun i => tr i - bl i) a b g) v →
    1 / 10 ^ 10 < len fun m => gap P x y m + v m

section
variable {bl tr Ot : Vec3} {Et : Mat3} {a b : Fin 3} {g : ℝ} {P : PosData} (hP : InArray bl tr Ot Et a b g P)
include hP

theorem InArray.lt (i : Fin 3) : bl i < tr i := by
  have := hP.edges i
  have : (0 : ℝ) < 1 / 10 ^ 10 := by positivity
  linarith

theorem InArray.folded : FoldedBox (fun i => tr i - bl i) Ot Et (Ewald.boxBasis bl tr Ot Et) :=
  shear_basis_folded fun i => sub_pos.mpr (hP.lt i)

theorem InArray.lattice :
    InLattice (Ewald.boxBasis bl tr Ot Et) = InLattice (shearedBox (fun i => tr i - bl i) a b g) := by
  funext v
  exact propext ((C30_simple_shear (fun i => sub_pos.mpr (hP.lt i)) hP.axes hP.shear hP.folded).2 v)

theorem InArray.cube : Ewald.boxL bl tr Ot Et ^ 3 = (tr 0 - bl 0) * (tr 1 - bl 1) * (tr 2 - bl 2) := by
  have h := fun i => sub_pos.mpr (hP.lt i)
  have h0 : 0 ≤ (tr 0 - bl 0) * (tr 1 - bl 1) * (tr 2 - bl 2) := by
    have := h 0; have := h 1; have := h 2; positivity
  show (((tr 0 - bl 0) * (tr 1 - bl 1) * (tr 2 - bl 2)) ^ (1 / 3 : ℝ)) ^ 3 = _
  rw [← Real.rpow_natCast, ← Real.rpow_mul h0]
  norm_num

theorem InArray.volume : Ewald.vol (Ewald.boxBasis bl tr Ot Et) = Ewald.boxL bl tr Ot Et ^ 3 := by
  rw [hP.cube]
  exact C53_shear_volume (fun i => sub_pos.mpr (hP.lt i)) hP.axes hP.shear hP.folded

/-- Such particles are admissible whatever the number of layers. -/
theorem InArray.boxed (n : ℕ) : Boxed n bl tr Ot Et P := by
  refine ⟨hP.sensible, hP.edges, ⟨a, b, g, hP.axes, hP.shear⟩, fun x hx y hy e v hv => hP.apart x hx y hy e v ?_⟩
  rw [Ewald.boxLattice_X] at hv
  obtain ⟨m, -, rfl⟩ := List.mem_map.mp hv
  rw [← hP.lattice]
  exact (Ewald.inLattice_grid _).mpr ⟨m, rfl⟩

theorem InArray.clear {x y : ℕ} (hx : x < beads P) (hy : y < beads P) (hxy : x ≠ y) (v : Vec3)
    (hv : InLattice (Ewald.boxBasis bl tr Ot Et) v) : (fun m => gap P x y m + v m) ≠ 0 := by
  rw [hP.lattice] at hv
  intro e
  have := hP.apart x hx y hy hxy v hv
  rw [e] at this
  have h0 : len (0 : Vec3) = 0 := by simp [len]
  rw [h0] at this
  exact absurd this (not_lt.mpr (by positivity))

/-- What the entries tend to. -/
noncomputable def arrayEntry (bl tr Ot : Vec3) (Et : Mat3) (P : PosData) (mu : ℝ) (bb : Bool) (x : ℕ) (c1 : Comp) (y : ℕ)
    (c2 : Comp) : ℝ :=
  open Classical in if Ewald.Silent P bb x y then 0
    else if x = y then Ewald.arraySelf bl tr Ot Et (1 / (8 * Real.pi * mu)) mu (radius P x) c1 c2
    else 1 / (8 * Real.pi * mu) * Ewald.arrayCode (Ewald.boxLamb bl tr Ot Et) (Ewald.boxL bl tr Ot Et ^ 3)
      (Ewald.boxBasis bl tr Ot Et) (decide (x < P.Ns ∧ y < P.Ns)) (radius P x) (radius P y) c1 c2 (gap P x y)

theorem entry_rapid (mu : ℝ) (bb : Bool) {x y : ℕ} {c1 c2 : Comp} (hx : HasRow P.Ns P.Nd x c1) (hy : HasRow P.Ns P.Nd y c2) :
    RapidTo (fun n => (boxMatrix n bl tr Ot Et P mu bb).get (row P.Ns x c1) (row P.Ns y c2))
      (arrayEntry bl tr Ot Et P mu bb x c1 y c2) := by
  have hxb : x < beads P := owns_lt (owns_kind hx)
  have hyb : y < beads P := owns_lt (owns_kind hy)
  have key : RapidTo (fun n => Ewald.codeEntry (Ewald.boxLattice n bl tr Ot Et) P (1 / (8 * Real.pi * mu)) mu bb x c1 y c2)
      (arrayEntry bl tr Ot Et P mu bb x c1 y c2) := by
    unfold Ewald.codeEntry arrayEntry
    rw [beadSize_eq, beadPos_eq]
    split_ifs with h1 h2
    · exact Ewald.rapid_const 0
    · exact Ewald.codeSelf_rapid hP.lt hP.volume (fun n => (hP.boxed n).proper.1) _ _ _ _ _
    · exact (Ewald.codeMob_rapid hP.lt hP.volume (hP.clear hxb hyb h2) _ _ _ _ _).const_mul _
  exact key.congr fun n _ => boxEntry (hP.boxed n) mu bb hx hy

theorem pair_rapid (mu : ℝ) (bb : Bool) {x y : ℕ} {c1 c2 : Comp} (hx : HasRow P.Ns P.Nd x c1) (hy : HasRow P.Ns P.Nd y c2)
    (hxy : x ≠ y) (hs : bb = true ∨ x < P.Ns ∨ y < P.Ns ∨ x + P.Nd = y ∨ y + P.Nd = x) :
    RapidTo (fun n => (boxMatrix n bl tr Ot Et P mu bb).get (row P.Ns x c1) (row P.Ns y c2))
      (1 / (8 * Real.pi * mu) * Ewald.arrayCode (splitting fun i => tr i - bl i)
        ((tr 0 - bl 0) * (tr 1 - bl 1) * (tr 2 - bl 2))
      (shearedBox (fun i => tr i - bl i) a b g) (decide (x < P.Ns ∧ y < P.Ns)) (radius P x) (radius P y) c1 c2 (gap P x y)) := by
  have h := entry_rapid hP mu bb hx hy
  have hc : ∀ ss c1 c2, Ewald.arrayCode (Ewald.boxLamb bl tr Ot Et) (Ewald.boxL bl tr Ot Et ^ 3)
      (Ewald.boxBasis bl tr Ot Et) ss (radius P x) (radius P y) c1 c2 (gap P x y)
      = Ewald.arrayCode (splitting fun i => tr i - bl i) ((tr 0 - bl 0) * (tr 1 - bl 1) * (tr 2 - bl 2))
      (shearedBox (fun i => tr i - bl i) a b g) ss (radius P x) (radius P y) c1 c2 (gap P x y) := by
    intro ss c1 c2
    rw [← hP.cube]
    cases c1 <;> cases c2 <;> simp only [Ewald.arrayCode, Ewald.arrayMob_congr hP.lattice, Ewald.imagesMob_congr hP.lattice] <;> rfl
  unfold arrayEntry at h
  rw [if_neg, if_neg hxy, hc] at h
  · exact h
  · rintro ⟨h1, h2, h3, -, h4, h5⟩
    rcases hs with h | h | h | h | h
    · rw [h1] at h; cases h
    · omega
    · omega
    · exact h4 h
    · exact h5 h

/-- **C82** (two particles). For two distinct beads that interact, the velocity due to a force tends to that in the
infinite array, and so do the angular velocity due to a torque and the rate of strain due to a stress. With `n` layers
the error is below every power of `1 / n`. The array is the box sheared by the whole strain so far, not folded. -/
theorem C82_pair (mu : ℝ) (bb : Bool) {x y : ℕ} {c1 c2 : Comp} (hx : HasRow P.Ns P.Nd x c1) (hy : HasRow P.Ns P.Nd y c2)
    (hxy : x ≠ y) (hs : bb = true ∨ x < P.Ns ∨ y < P.Ns ∨ x + P.Nd = y ∨ y + P.Nd = x)
    (hc : (∃ i j, c1 = .f i ∧ c2 = .f j) ∨ (∃ i j, c1 = .t i ∧ c2 = .t j) ∨ ∃ p q, c1 = .s p ∧ c2 = .s q) :
    RapidTo (fun n => (boxMatrix n bl tr Ot Et P mu bb).get (row P.Ns x c1) (row P.Ns y c2))
      (1 / (8 * Real.pi * mu) * arrayMob (splitting fun i => tr i - bl i) ((tr 0 - bl 0) * (tr 1 - bl 1) * (tr 2 - bl 2))
        (shearedBox (fun i => tr i - bl i) a b g) (radius P x) (radius P y) c1 c2 (gap P x y)) := by
  have h := pair_rapid hP mu bb hx hy hxy hs
  rcases hc with ⟨i, j, rfl, rfl⟩ | ⟨i, j, rfl, rfl⟩ | ⟨i, j, rfl, rfl⟩ <;> exact h

/-- **C82** (velocity of a sphere due to a torque or stress on another). The waves are left out of these entries, and
they tend to the sum over the images alone. -/
theorem C82_velocity (mu : ℝ) (bb : Bool) {x y : ℕ} (hx : x < P.Ns) (hy : y < P.Ns) (hxy : x ≠ y) (i : Fin 3) (c : Comp)
    (hc : ∀ j, c ≠ .f j) :
    RapidTo (fun n => (boxMatrix n bl tr Ot Et P mu bb).get (row P.Ns x (.f i)) (row P.Ns y c))
      (1 / (8 * Real.pi * mu) * imagesMob (splitting fun i => tr i - bl i)
        (shearedBox (fun i => tr i - bl i) a b g) (radius P x) (radius P y) (.f i) c (gap P x y)) := by
  have hc' : HasRow P.Ns P.Nd y c := by
    cases c with
    | f j => exact absurd rfl (hc j)
    | t j => exact hy
    | s j => exact hy
  have h := pair_rapid hP mu bb (c1 := .f i) (show x < P.Ns + 2 * P.Nd by omega) hc' hxy (.inr (.inl hx))
  rw [decide_eq_true ⟨hx, hy⟩] at h
  cases c with
  | f j => exact absurd rfl (hc j)
  | t j => exact h
  | s j => exact h

/-- **C82** (angular velocity of a sphere due to a stress on another). The limit is the one for a stress carried by a
sphere of `√(5/3)` times the radius. -/
theorem C82_torque_stress (mu : ℝ) (bb : Bool) {x y : ℕ} (hx : x < P.Ns) (hy : y < P.Ns) (hxy : x ≠ y) (i : Fin 3)
    (q : Fin 5) : RapidTo (fun n => (boxMatrix n bl tr Ot Et P mu bb).get (row P.Ns x (.t i)) (row P.Ns y (.s q)))
      (1 / (8 * Real.pi * mu) * arrayMob (splitting fun i => tr i - bl i) ((tr 0 - bl 0) * (tr 1 - bl 1) * (tr 2 - bl 2))
        (shearedBox (fun i => tr i - bl i) a b g) (radius P x) (Real.sqrt (5 / 3) * radius P y) (.t i) (.s q)
        (gap P x y)) :=
  pair_rapid hP mu bb (c1 := .t i) (c2 := .s q) hx hy hxy (.inr (.inl hx))

/-- **C82** (a sphere and a bead of a dumbbell). The angular velocity or rate of strain of a sphere due to a force on a
bead tends to the sum over the images alone, with the two radii exchanged. -/
theorem C82_sphere_bead (mu : ℝ) (bb : Bool) {x y : ℕ} (hx : x < P.Ns) (hy : P.Ns ≤ y) (hy' : y < beads P) (c : Comp)
    (hc : ∀ j, c ≠ .f j) (j : Fin 3) :
    RapidTo (fun n => (boxMatrix n bl tr Ot Et P mu bb).get (row P.Ns x c) (row P.Ns y (.f j)))
      (1 / (8 * Real.pi * mu) * imagesMob (splitting fun i => tr i - bl i)
        (shearedBox (fun i => tr i - bl i) a b g) (radius P y) (radius P x) c (.f j) (gap P x y)) := by
  have hc' : HasRow P.Ns P.Nd x c := by
    cases c with
    | f j => exact absurd rfl (hc j)
    | t j => exact hx
    | s j => exact hx
  have h := pair_rapid hP mu bb (c2 := .f j) hc' (show y < P.Ns + 2 * P.Nd from hy') (by omega) (.inr (.inl hx))
  rw [decide_eq_false (by omega)] at h
  cases c with
  | f j => exact absurd rfl (hc j)
  | t j => exact h
  | s j => exact h

theorem own_rapid (mu : ℝ) (bb : Bool) {x : ℕ} {c1 c2 : Comp} (hx : HasRow P.Ns P.Nd x c1) (hy : HasRow P.Ns P.Nd x c2) :
    RapidTo (fun n => (boxMatrix n bl tr Ot Et P mu bb).get (row P.Ns x c1) (row P.Ns x c2))
      (Ewald.arraySelf bl tr Ot Et (1 / (8 * Real.pi * mu)) mu (radius P x) c1 c2) := by
  have h := entry_rapid hP mu bb hx hy
  unfold arrayEntry at h
  rwa [if_neg (fun h => h.2.2.2.1 rfl), if_pos rfl] at h

theorem own_adds (s t : ℝ) (c1 c2 : Comp) : ArrayAdds (splitting fun i => tr i - bl i)
    ((tr 0 - bl 0) * (tr 1 - bl 1) * (tr 2 - bl 2)) (shearedBox (fun i => tr i - bl i) a b g) s t c1 c2
    (mobOf (Ewald.arrayRest bl tr Ot Et s t) c1 c2) := by
  rw [← hP.cube]
  exact Ewald.arrayAdds_congr hP.lattice (Ewald.arrayAdds hP.lt hP.volume s t c1 c2)

/-- **C82** (a particle's own force or stress). The limit is the motion of an isolated sphere plus what all its images
add. -/
theorem C82_own (mu : ℝ) (bb : Bool) {x : ℕ} {c1 c2 : Comp} (hx : HasRow P.Ns P.Nd x c1) (hy : HasRow P.Ns P.Nd x c2)
    (hc : (∃ i j, c1 = .f i ∧ c2 = .f j) ∨ ∃ p q, c1 = .s p ∧ c2 = .s q) : ∃ v,
    ArrayAdds (splitting fun i => tr i - bl i) ((tr 0 - bl 0) * (tr 1 - bl 1) * (tr 2 - bl 2))
      (shearedBox (fun i => tr i - bl i) a b g) (radius P x) (radius P x) c1 c2 v ∧
    RapidTo (fun n => (boxMatrix n bl tr Ot Et P mu bb).get (row P.Ns x c1) (row P.Ns x c2))
      (selfMob mu (radius P x) c1 c2 + 1 / (8 * Real.pi * mu) * v) := by
  refine ⟨_, own_adds hP _ _ _ _, ?_⟩
  have h := own_rapid hP mu bb hx hy
  rcases hc with ⟨i, j, rfl, rfl⟩ | ⟨i, j, rfl, rfl⟩ <;> exact h

/-- **C82** (a sphere's own torque). The limit is too large by a constant, which more layers do not remove. -/
theorem C82_own_torque (mu : ℝ) (bb : Bool) {x : ℕ} (hx : x < P.Ns) (i j : Fin 3) : ∃ v,
    ArrayAdds (splitting fun i => tr i - bl i) ((tr 0 - bl 0) * (tr 1 - bl 1) * (tr 2 - bl 2))
      (shearedBox (fun i => tr i - bl i) a b g) (radius P x) (radius P x) (.t i) (.t j) v ∧
    RapidTo (fun n => (boxMatrix n bl tr Ot Et P mu bb).get (row P.Ns x (.t i)) (row P.Ns x (.t j)))
      (selfMob mu (radius P x) (.t i) (.t j) + 1 / (8 * Real.pi * mu) * v
        + 1 / (8 * Real.pi * mu)
          * (if i = j then 40 * splitting (fun i => tr i - bl i) ^ 3 / (3 * Real.sqrt Real.pi) else 0)) :=
  ⟨_, own_adds hP _ _ _ _, own_rapid hP mu bb (c1 := .t i) (c2 := .t j) hx hx⟩

/-- **C82** (whole matrix). Every entry of the far-field mobility matrix, with dumbbells in their own coordinates,
tends to a limit with an error below every power of `1 / n`. The limit is symmetric. -/
theorem C82_matrix (mu : ℝ) (bb : Bool) : ∃ A : NDMat, A.rows = side P ∧ A.cols = side P ∧
    (∀ i < side P, ∀ j < side P,
      RapidTo (fun n => (Ewald.generate_Minfinity_periodic n P bl tr mu Ot Et bb).get i j) (A.get i j)) ∧
    ∀ i < side P, ∀ j < side P, A.get i j = A.get j i := by
  have key : ∀ i < side P, ∀ j < side P, ∃ l, RapidTo (fun n => (boxMatrix n bl tr Ot Et P mu bb).get i j) l := by
    intro i hi j hj
    obtain ⟨u, c1, hu, rfl⟩ := (C48_rows P).1 i hi
    obtain ⟨v, c2, hv, rfl⟩ := (C48_rows P).1 j hj
    exact ⟨_, entry_rapid hP mu bb hu hv⟩
  have all : ∀ i < side P, ∀ j < side P, ∃ l,
      RapidTo (fun n => (Ewald.generate_Minfinity_periodic n P bl tr mu Ot Et bb).get i j) l := by
    intro i hi j hj
    unfold Ewald.generate_Minfinity_periodic
    dsimp only
    by_cases hN : P.Nd > 0
    · simp only [if_pos hN]
      have c1 : ∀ n, (Ewald.generate_Minfinity_loop (Ewald.boxLattice n bl tr Ot Et)
          (NDMat.zeros (11 * P.Ns + 6 * P.Nd) (11 * P.Ns + 6 * P.Nd)) P (1 / (8 * Real.pi * mu)) mu bb).cols = side P :=
        fun n => (Ewald.loop_dims _ P _ mu bb _).2
      simp only [NDMat.dot, NDMat.transpose, c1]
      choose! l hl using key
      refine ⟨_, RapidTo.sum _ fun k hk => RapidTo.congr (RapidTo.const_mul (RapidTo.sum _ fun m hm =>
        RapidTo.const_mul (hl m (Finset.mem_range.mp hm) k (Finset.mem_range.mp hk)) _) _) fun n _ => mul_comm _ _⟩
    · simp only [if_neg hN]
      exact key i hi j hj
  choose! l hl using all
  refine ⟨⟨side P, side P, l⟩, rfl, rfl, hl, fun i hi j hj => ?_⟩
  refine tendsto_nhds_unique (hl i hi j hj).tendsto ((hl j hj i hi).tendsto.congr fun n => ?_)
  exact (C54_symmetric n _ _ _ _ P _ bb j i).2.1

end

end SD
