import Verif.Lemmas.EwaldScale
import Verif.Props.FarField

/-!
# C54: the periodic far-field matrix

`Boxed` collects the conditions on the box and the particles. `greenMob G a b c1 c2 r` is the component `c1` of the
motion of a sphere of radius `a` due to the component `c2` of the load on a sphere of radius `b`, through the Green's
function `G`; `boxJ` is the Green's function of the box, `imageSum` its real-space half.
-/

set_option autoImplicit false

namespace SD

open Spec

/-- Sensible particles in a box of positive edges, in simple shear or at rest, with no bead on an image of another. -/
structure Boxed (n : ℕ) (bl tr Ot : Vec3) (Et : Mat3) (P : PosData) : Prop where
  sensible : Sensible P
  edges : ∀ i, bl i + 1 / 10 ^ 10 < tr i
  shear : ∃ a b g, a ≠ b ∧ IsShear Ot Et a b g
  apart : ImagesApart (Ewald.boxLattice n bl tr Ot Et).X (centre P) (radius P) (beads P)

theorem Boxed.proper {n : ℕ} {bl tr Ot : Vec3} {Et : Mat3} {P : PosData} (h : Boxed n bl tr Ot Et P) :
    Proper (Ewald.boxLattice n bl tr Ot Et) ∧
    ((Ewald.boxLattice n bl tr Ot Et).X.map fun x => -x).Perm (Ewald.boxLattice n bl tr Ot Et).X := by
  obtain ⟨a, b, g, hab, hs⟩ := h.shear
  exact C52_box_proper n h.edges hab hs

theorem Boxed.fits {n : ℕ} {bl tr Ot : Vec3} {Et : Mat3} {P : PosData} (h : Boxed n bl tr Ot Et P) :
    Ewald.Fits (Ewald.boxLattice n bl tr Ot Et) P := by
  refine ⟨h.proper.1, h.proper.2, ?_, ?_, ?_⟩
  · rw [beadSize_eq]; exact h.sensible.radius_pos
  · rw [beadPos_eq]; exact h.sensible.apart
  · rw [beadPos_eq, beadSize_eq]
    intro x hx y hy e v hv
    rw [norm3_eq_len]
    exact h.apart x hx y hy e v hv

section
variable {n : ℕ} {bl tr Ot : Vec3} {Et : Mat3} {P : PosData} (hP : Boxed n bl tr Ot Et P) (mu : ℝ) (bb : Bool)
  {x y : ℕ}

/-- The matrix in bead coordinates. -/
noncomputable abbrev boxMatrix (n : ℕ) (bl tr Ot : Vec3) (Et : Mat3) (P : PosData) (mu : ℝ) (bb : Bool) : NDMat :=
  Ewald.generate_Minfinity_loop (Ewald.boxLattice n bl tr Ot Et) (NDMat.zeros (side P) (side P)) P
    (1 / (8 * Real.pi * mu)) mu bb

/-- The Green's function of the box. -/
noncomputable abbrev boxGreen (n : ℕ) (bl tr Ot : Vec3) (Et : Mat3) : Green :=
  boxJ (Ewald.boxLattice n bl tr Ot Et).lamb ((Ewald.boxLattice n bl tr Ot Et).L ^ 3)
    (Ewald.boxLattice n bl tr Ot Et).X (Ewald.boxLattice n bl tr Ot Et).K

/-- Its real-space half. -/
noncomputable abbrev boxImages (n : ℕ) (bl tr Ot : Vec3) (Et : Mat3) : Green :=
  imageSum (Ewald.boxLattice n bl tr Ot Et).lamb (Ewald.boxLattice n bl tr Ot Et).X

/-- The displacement used for beads `x` and `y`. -/
noncomputable abbrev gap (P : PosData) (x y : ℕ) : Vec3 :=
  sep (fun i => centre P x i - centre P y i) (radius P x) (radius P y)

include hP

theorem boxEntry {c1 c2 : Comp} (hx : HasRow P.Ns P.Nd x c1) (hy : HasRow P.Ns P.Nd y c2) :
    (boxMatrix n bl tr Ot Et P mu bb).get (row P.Ns x c1) (row P.Ns y c2)
      = Ewald.codeEntry (Ewald.boxLattice n bl tr Ot Et) P (1 / (8 * Real.pi * mu)) mu bb x c1 y c2 :=
  Ewald.minf_entry hP.fits _ mu bb hx hy _ _

theorem boxPair {c1 c2 : Comp} (hx : HasRow P.Ns P.Nd x c1) (hy : HasRow P.Ns P.Nd y c2) (hxy : x ≠ y)
    (hs : bb = true ∨ x < P.Ns ∨ y < P.Ns ∨ x + P.Nd = y ∨ y + P.Nd = x) :
    (boxMatrix n bl tr Ot Et P mu bb).get (row P.Ns x c1) (row P.Ns y c2)
      = 1 / (8 * Real.pi * mu) * Ewald.codeMob (Ewald.boxLattice n bl tr Ot Et) (decide (x < P.Ns ∧ y < P.Ns))
          (radius P x) (radius P y) c1 c2 (gap P x y) := by
  rw [boxEntry hP mu bb hx hy, Ewald.codeEntry, if_neg, if_neg hxy, beadSize_eq, beadPos_eq]
  · rfl
  · rintro ⟨h1, h2, h3, -, h4, h5⟩
    rcases hs with h | h | h | h | h
    · rw [h1] at h; cases h
    · omega
    · omega
    · exact h4 h
    · exact h5 h

/-- **C54** (velocity and force). For any two distinct beads that interact, the velocity of one due to a force on the
other is the Faxén response through the Green's function of the box. -/
theorem C54_force_force (hx : x < beads P) (hy : y < beads P) (hxy : x ≠ y)
    (hs : bb = true ∨ x < P.Ns ∨ y < P.Ns ∨ x + P.Nd = y ∨ y + P.Nd = x) (i j : Fin 3) :
    (boxMatrix n bl tr Ot Et P mu bb).get (row P.Ns x (.f i)) (row P.Ns y (.f j))
      = 1 / (8 * Real.pi * mu) * greenMob (boxGreen n bl tr Ot Et) (radius P x) (radius P y) (.f i) (.f j)
          (gap P x y) :=
  boxPair hP mu bb (c1 := .f i) (c2 := .f j) hx hy hxy hs

/-- **C54** (angular velocity and torque, rate of strain and stress). The same for two spheres. -/
theorem C54_torque_torque (hx : x < P.Ns) (hy : y < P.Ns) (hxy : x ≠ y) (i j : Fin 3) :
    (boxMatrix n bl tr Ot Et P mu bb).get (row P.Ns x (.t i)) (row P.Ns y (.t j))
      = 1 / (8 * Real.pi * mu) * greenMob (boxGreen n bl tr Ot Et) (radius P x) (radius P y) (.t i) (.t j)
          (gap P x y) :=
  boxPair hP mu bb (c1 := .t i) (c2 := .t j) hx hy hxy (Or.inr (Or.inl hx))

/-- **C54** (rate of strain and stress). -/
theorem C54_stress_stress (hx : x < P.Ns) (hy : y < P.Ns) (hxy : x ≠ y) (p q : Fin 5) :
    (boxMatrix n bl tr Ot Et P mu bb).get (row P.Ns x (.s p)) (row P.Ns y (.s q))
      = 1 / (8 * Real.pi * mu) * greenMob (boxGreen n bl tr Ot Et) (radius P x) (radius P y) (.s p) (.s q)
          (gap P x y) :=
  boxPair hP mu bb (c1 := .s p) (c2 := .s q) hx hy hxy (Or.inr (Or.inl hx))

/-- **C54** (velocity and torque or stress, between spheres), partial: through the real-space half of the Green's
function only. Missing: the waves (see `C51_force_torque_waves`, `C51_force_stress_waves`). -/
theorem C54_velocity_partial (hx : x < P.Ns) (hy : y < P.Ns) (hxy : x ≠ y) (i : Fin 3) (c : Comp)
    (hc : ∀ j, c ≠ .f j) :
    (boxMatrix n bl tr Ot Et P mu bb).get (row P.Ns x (.f i)) (row P.Ns y c)
      = 1 / (8 * Real.pi * mu) * greenMob (boxImages n bl tr Ot Et) (radius P x) (radius P y) (.f i) c
          (gap P x y) := by
  cases c with
  | f j => exact absurd rfl (hc j)
  | t j =>
    rw [boxPair hP mu bb (c1 := .f i) (c2 := .t j) (show x < _ by omega) hy hxy (Or.inr (Or.inl hx))]
    simp only [Ewald.codeMob]
    rw [if_pos (by simp [hx, hy])]
  | s q =>
    rw [boxPair hP mu bb (c1 := .f i) (c2 := .s q) (show x < _ by omega) hy hxy (Or.inr (Or.inl hx))]
    simp only [Ewald.codeMob]
    rw [if_pos (by simp [hx, hy])]

/-- **C54** (angular velocity and stress), partial: for a stress carried by a sphere of `√(5/3)` times the radius.
Missing: the radius itself (see `C51_torque_stress_defect`). -/
theorem C54_torque_stress_partial (hx : x < P.Ns) (hy : y < P.Ns) (hxy : x ≠ y) (i : Fin 3) (q : Fin 5) :
    (boxMatrix n bl tr Ot Et P mu bb).get (row P.Ns x (.t i)) (row P.Ns y (.s q))
      = 1 / (8 * Real.pi * mu) * greenMob (boxGreen n bl tr Ot Et) (radius P x) (Real.sqrt (5 / 3) * radius P y)
          (.t i) (.s q) (gap P x y) :=
  boxPair hP mu bb (c1 := .t i) (c2 := .s q) hx hy hxy (Or.inr (Or.inl hx))

/-- **C54** (sphere and bead), partial: the angular velocity or rate of strain of a sphere due to a force on a bead is
computed with the two radii exchanged, and without the waves. Missing: unequal radii (see `C54_sphere_bead_wrong`)
and the waves. -/
theorem C54_sphere_bead_partial (hx : x < P.Ns) (hy : P.Ns ≤ y) (hy' : y < beads P) (c : Comp)
    (hc : ∀ j, c ≠ .f j) (j : Fin 3) :
    (boxMatrix n bl tr Ot Et P mu bb).get (row P.Ns x c) (row P.Ns y (.f j))
      = 1 / (8 * Real.pi * mu) * greenMob (boxImages n bl tr Ot Et) (radius P y) (radius P x) c (.f j)
          (gap P x y) := by
  cases c with
  | f j => exact absurd rfl (hc j)
  | t i =>
    rw [boxPair hP mu bb (c1 := .t i) (c2 := .f j) hx hy' (by omega) (Or.inr (Or.inl hx))]
    simp only [Ewald.codeMob]
    rw [if_neg (by simp; omega)]
  | s q =>
    rw [boxPair hP mu bb (c1 := .s q) (c2 := .f j) hx hy' (by omega) (Or.inr (Or.inl hx))]
    simp only [Ewald.codeMob]
    rw [if_neg (by simp; omega)]

/-- **C54** (switch). With bead-bead interactions off, beads of different dumbbells do not interact; beads of the same
dumbbell still do. (The open code drops those too, see `C48_entry`.) -/
theorem C54_switch (hx : P.Ns ≤ x) (hy : P.Ns ≤ y) (hx' : x < beads P) (hy' : y < beads P) (hxy : x ≠ y) (i j : Fin 3) :
    (boxMatrix n bl tr Ot Et P mu false).get (row P.Ns x (.f i)) (row P.Ns y (.f j))
      = if x + P.Nd = y ∨ y + P.Nd = x then (boxMatrix n bl tr Ot Et P mu true).get (row P.Ns x (.f i))
          (row P.Ns y (.f j)) else 0 := by
  have r1 : HasRow P.Ns P.Nd x (.f i) := hx'
  have r2 : HasRow P.Ns P.Nd y (.f j) := hy'
  rw [boxEntry hP mu false r1 r2, boxEntry hP mu true r1 r2]
  have ht : ¬ Ewald.Silent P true x y := fun h => by cases h.1
  split_ifs with h
  · unfold Ewald.codeEntry
    rw [if_neg ht, if_neg fun h' => by
      rcases h with h | h
      · exact h'.2.2.2.2.1 h
      · exact h'.2.2.2.2.2 h]
  · unfold Ewald.codeEntry
    rw [if_pos ⟨rfl, hx, hy, hxy, fun e => h (Or.inl e), fun e => h (Or.inr e)⟩]

theorem boxOwn {c1 c2 : Comp} (hx : HasRow P.Ns P.Nd x c1) (hy : HasRow P.Ns P.Nd x c2) :
    (boxMatrix n bl tr Ot Et P mu bb).get (row P.Ns x c1) (row P.Ns x c2)
      = Ewald.codeSelf (Ewald.boxLattice n bl tr Ot Et) (1 / (8 * Real.pi * mu)) mu (radius P x) c1 c2 := by
  rw [boxEntry hP mu bb hx hy, Ewald.codeEntry, if_neg (fun h => h.2.2.2.1 rfl), if_pos rfl, beadSize_eq]

/-- **C54** (a particle's own block). The velocity of a bead due to its own force, and the rate of strain of a sphere
due to its own stress, are those of an isolated sphere plus what its images add. A sphere's own torque and stress do
not move it, and its images add nothing to that. -/
theorem C54_own (c1 c2 : Comp) (hx : HasRow P.Ns P.Nd x c1) (hy : HasRow P.Ns P.Nd x c2)
    (hc : (∃ i j, c1 = .f i ∧ c2 = .f j) ∨ (∃ p q, c1 = .s p ∧ c2 = .s q) ∨ (∃ i j, c1 = .f i ∧ c2 = .t j)
      ∨ ∃ i q, c1 = .f i ∧ c2 = .s q) : ∃ v,
    ImagesAddComp (Ewald.boxLattice n bl tr Ot Et).lamb ((Ewald.boxLattice n bl tr Ot Et).L ^ 3)
      (Ewald.boxLattice n bl tr Ot Et).X (Ewald.boxLattice n bl tr Ot Et).K (radius P x) (radius P x) c1 c2 v ∧
    (boxMatrix n bl tr Ot Et P mu bb).get (row P.Ns x c1) (row P.Ns x c2)
      = selfMob mu (radius P x) c1 c2 + 1 / (8 * Real.pi * mu) * v := by
  have hl := Ewald.imagesAddComp_rest hP.proper.1 hP.proper.2 (radius P x) (radius P x) c1 c2
  refine ⟨_, hl, ?_⟩
  rw [boxOwn hP mu bb hx hy]
  have odd : ∀ i j, (c1 = .f i ∧ c2 = .t j) ∨ (∃ q, c1 = .f i ∧ c2 = .s q) →
      Ewald.restMob (Ewald.boxLattice n bl tr Ot Et) (radius P x) (radius P x) c1 c2 = 0 := by
    rintro i j (⟨rfl, rfl⟩ | ⟨q, rfl, rfl⟩)
    · exact Ewald.rest_odd hP.proper.2 _ _ _ rfl (by rw [Ewald.smooth_zero])
    · simp only [Ewald.restMob]
      have : ∀ j k, Ewald.rest (Ewald.boxLattice n bl tr Ot Et).lamb ((Ewald.boxLattice n bl tr Ot Et).L ^ 3)
          (Ewald.boxLattice n bl tr Ot Et).Xdash (Ewald.boxLattice n bl tr Ot Et).K (radius P x) (radius P x)
          (.force i) (.stress j k) = 0 :=
        fun j k => Ewald.rest_odd hP.proper.2 _ _ _ rfl (by rw [Ewald.smooth_zero])
      simp only [this]
      fin_cases q <;> simp [five]
  rcases hc with ⟨i, j, rfl, rfl⟩ | ⟨p, q, rfl, rfl⟩ | ⟨i, j, rfl, rfl⟩ | ⟨i, q, rfl, rfl⟩
  · rfl
  · rfl
  · rw [odd i j (Or.inl ⟨rfl, rfl⟩)]; simp [Ewald.codeSelf, selfMob]
  · rw [odd i 0 (Or.inr ⟨q, rfl, rfl⟩)]; simp [Ewald.codeSelf, selfMob]

/-- **C54** (a sphere's own torque), partial: too much by a constant. Missing: equality without the last term (see
`C52_torque_torque_wrong`). -/
theorem C54_own_torque_partial (hx : x < P.Ns) (i j : Fin 3) : ∃ v,
    ImagesAddComp (Ewald.boxLattice n bl tr Ot Et).lamb ((Ewald.boxLattice n bl tr Ot Et).L ^ 3)
      (Ewald.boxLattice n bl tr Ot Et).X (Ewald.boxLattice n bl tr Ot Et).K (radius P x) (radius P x)
      (.t i) (.t j) v ∧
    (boxMatrix n bl tr Ot Et P mu bb).get (row P.Ns x (.t i)) (row P.Ns x (.t j))
      = selfMob mu (radius P x) (.t i) (.t j) + 1 / (8 * Real.pi * mu) * v
        + 1 / (8 * Real.pi * mu)
          * (if i = j then 40 * (Ewald.boxLattice n bl tr Ot Et).lamb ^ 3 / (3 * Real.sqrt Real.pi) else 0) :=
  ⟨_, Ewald.imagesAddComp_rest hP.proper.1 hP.proper.2 _ _ _ _, boxOwn hP mu bb (c1 := .t i) (c2 := .t j) hx hx⟩

/-- **C54** (a sphere's own stress and angular velocity), partial: for a stress carried by a sphere of `√(5/3)` times
the radius. Missing: the radius itself. -/
theorem C54_own_torque_stress_partial (hx : x < P.Ns) (i : Fin 3) (q : Fin 5) : ∃ v,
    ImagesAddComp (Ewald.boxLattice n bl tr Ot Et).lamb ((Ewald.boxLattice n bl tr Ot Et).L ^ 3)
      (Ewald.boxLattice n bl tr Ot Et).X (Ewald.boxLattice n bl tr Ot Et).K (radius P x)
      (Real.sqrt (5 / 3) * radius P x) (.t i) (.s q) v ∧
    (boxMatrix n bl tr Ot Et P mu bb).get (row P.Ns x (.t i)) (row P.Ns x (.s q)) = 1 / (8 * Real.pi * mu) * v :=
  ⟨_, Ewald.imagesAddComp_rest hP.proper.1 hP.proper.2 _ _ _ _, boxOwn hP mu bb (c1 := .t i) (c2 := .s q) hx hx⟩

/-- **C54** (viscosity). Multiplying the viscosity by `k` divides the matrix by `k`. -/
theorem C54_viscosity (k : ℝ) {i j : ℕ} (hi : i < side P) (hj : j < side P) :
    (boxMatrix n bl tr Ot Et P (k * mu) bb).get i j = (boxMatrix n bl tr Ot Et P mu bb).get i j / k := by
  obtain ⟨u, c1, hu, rfl⟩ := (C48_rows P).1 i hi
  obtain ⟨v, c2, hv, rfl⟩ := (C48_rows P).1 j hj
  rw [boxEntry hP (k * mu) bb hu hv, boxEntry hP mu bb hu hv]
  have hc : 1 / (8 * Real.pi * (k * mu)) = 1 / (8 * Real.pi * mu) / k := by
    rw [div_div]; congr 1; ring
  have hsm : ∀ a c1 c2, selfMob (k * mu) a c1 c2 = selfMob mu a c1 c2 / k := by
    intro a c1 c2
    cases c1 <;> cases c2 <;> simp only [selfMob, zero_div] <;> split_ifs <;>
      first
        | (rw [div_div]; congr 1; ring)
        | simp
  rw [hc]
  unfold Ewald.codeEntry
  split_ifs
  · simp
  · cases c1 <;> cases c2 <;> simp only [Ewald.codeSelf, hsm] <;> ring
  · ring

end

/-- **C54** (symmetry and size), in bead coordinates and in the coordinates that are returned. -/
theorem C54_symmetric (n : ℕ) (bl tr Ot : Vec3) (Et : Mat3) (P : PosData) (mu : ℝ) (bb : Bool) (i j : ℕ) :
    (boxMatrix n bl tr Ot Et P mu bb).get i j = (boxMatrix n bl tr Ot Et P mu bb).get j i ∧
    (Ewald.generate_Minfinity_periodic n P bl tr mu Ot Et bb).get i j
      = (Ewald.generate_Minfinity_periodic n P bl tr mu Ot Et bb).get j i ∧
    (Ewald.generate_Minfinity_periodic n P bl tr mu Ot Et bb).rows = side P ∧
    (Ewald.generate_Minfinity_periodic n P bl tr mu Ot Et bb).cols = side P := by
  refine ⟨symmetrise_symm _ i j, ?_⟩
  unfold Ewald.generate_Minfinity_periodic
  dsimp only
  split_ifs
  · exact ⟨dot_dot_symm _ _ (11 * P.Ns + 6 * P.Nd) ⟨rfl, rfl⟩
      (Ewald.loop_dims _ P _ mu bb (NDMat.zeros _ _)) (symmetrise_symm _) i j, rfl, rfl⟩
  · exact ⟨symmetrise_symm _ i j, Ewald.loop_dims _ P _ mu bb _⟩

/-- **C54** (translation). Moving every particle by the same vector changes nothing. -/
theorem C54_translation (n : ℕ) (bl tr Ot : Vec3) (Et : Mat3) (P : PosData) (mu : ℝ) (bb : Bool) (t : Vec3) :
    Ewald.generate_Minfinity_periodic n (shift P t) bl tr mu Ot Et bb
      = Ewald.generate_Minfinity_periodic n P bl tr mu Ot Et bb := by
  have e : ∀ x y, (shift P t).beadPos x - (shift P t).beadPos y = P.beadPos x - P.beadPos y := by
    intro x y
    rw [beadPos_eq, beadPos_eq, centre_shift, centre_shift]
    funext i; simp
  unfold Ewald.generate_Minfinity_periodic Ewald.generate_Minfinity_loop
  dsimp only
  rw [Ewald.minfStep_congr (P := P) (P' := shift P t) rfl rfl rfl e]
  rfl

/-- **C54** (dumbbell coordinates). The matrix returned acts on dumbbell forces and gives dumbbell velocities exactly
as the bead-coordinate matrix acts on bead forces and gives bead velocities. -/
theorem C54_dumbbell_coordinates (n : ℕ) (bl tr Ot : Vec3) (Et : Mat3) (P : PosData) (mu : ℝ) (bb : Bool) (φ : ℕ → ℝ)
    {i : ℕ} (hi : i < side P) :
    mulVec (side P) (Ewald.generate_Minfinity_periodic n P bl tr mu Ot Et bb).get (toDumbForce P.Ns P.Nd φ) i
      = toDumbVel P.Ns P.Nd (mulVec (side P) (boxMatrix n bl tr Ot Et P mu bb).get φ) i :=
  dumb_mulVec P _ (Ewald.loop_dims _ P _ mu bb (NDMat.zeros _ _)) φ hi

/-- **C54** (sphere and bead of different sizes: wrong). In every cube, for every sphere and bead of different radii
whose displacement is along an edge and short compared with the box, the rate of strain of the sphere due to a force
on the bead is not the Faxén response, even when the waves are left out. -/
theorem C54_sphere_bead_wrong (n : ℕ) : ∃ κ > 0, ∀ (o : Vec3) (L : ℝ) (P : PosData) (mu : ℝ) (bb : Bool) (x y : ℕ)
    (t : ℝ), 0 < L → mu ≠ 0 → Boxed n o (fun i => o i + L) 0 0 P → x < P.Ns → P.Ns ≤ y → y < beads P →
    radius P x ≠ radius P y → gap P x y = ![t, 0, 0] → 0 < t → t < κ * L →
    (boxMatrix n o (fun i => o i + L) 0 0 P mu bb).get (row P.Ns x (.s 1)) (row P.Ns y (.f 1))
      ≠ 1 / (8 * Real.pi * mu) * greenMob (boxImages n o (fun i => o i + L) 0 0) (radius P x) (radius P y)
          (.s 1) (.f 1) (gap P x y) := by
  obtain ⟨κ, hκ, h⟩ := Ewald.cube_swap n
  refine ⟨κ, hκ, fun o L P mu bb x y t hL hmu hP hx hy hy' hne hg ht htk => ?_⟩
  rw [C54_sphere_bead_partial hP mu bb hx hy hy' (.s 1) (fun j => by simp)]
  have hpos := hP.sensible.radius_pos
  have hrx := hpos x (by unfold beads; omega)
  have hry := hpos y hy'
  have hcl : gap P x y ∈ Ewald.Clear (Ewald.boxLattice n o (fun i => o i + L) 0 0).X := by
    have := hP.fits.apart x (by omega) y hy' (by omega)
    rw [beadPos_eq, beadSize_eq] at this
    exact this.clear
  have h0 := h o L t hL ht htk
  have key : ∀ a b, greenMob (boxImages n o (fun i => o i + L) 0 0) a b (.s 1) (.f 1) (gap P x y)
      = Real.sqrt 2 * ((Ewald.boxLattice n o (fun i => o i + L) 0 0).X.map fun v =>
        Ewald.nearResp (Ewald.boxLattice n o (fun i => o i + L) 0 0).lamb a b (.stress 0 1) (.force 1)
          fun m => gap P x y m + v m).sum := by
    intro a b
    simp only [greenMob, greenTo]
    rw [← Ewald.imageSum_response _ _ _ _ _ _ hcl]
    simp [five]
  intro e
  have hp := Real.pi_pos
  have hcc : (1 / (8 * Real.pi * mu)) ≠ 0 := by positivity
  have e' := mul_left_cancel₀ hcc e
  rw [key, key] at e'
  have hs2 : Real.sqrt 2 ≠ 0 := by positivity
  have e2 := sub_eq_zero.mpr (mul_left_cancel₀ hs2 e')
  have hsub : ∀ (l : List Vec3) (f g : Vec3 → ℝ), (l.map f).sum - (l.map g).sum = (l.map fun v => f v - g v).sum := by
    intro l f g
    induction l with
    | nil => simp
    | cons v l ih => simp only [List.map_cons, List.sum_cons, ← ih]; ring
  rw [hsub] at e2
  simp only [Ewald.nearResp_chain, Ewald.swap_chain, List.sum_map_mul_left, hg] at e2
  rcases mul_eq_zero.mp e2 with e3 | e3
  · have : (radius P y - radius P x) * (radius P y + radius P x) = 0 := by linarith
    rcases mul_eq_zero.mp this with h1 | h1
    · exact hne (by linarith)
    · linarith
  · exact h0 e3

/-! ## The conditions are met -/

theorem images_far {L : ℝ} (n : ℕ) (o r : Vec3) (i : Fin 3) (h1 : 1 / 10 ^ 10 < |r i|)
    (h2 : |r i| + 1 / 10 ^ 10 < L) {v : Vec3} (hv : v ∈ (Ewald.boxLattice n o (fun a => o a + L) 0 0).X) :
    1 / 10 ^ 10 < len fun m => r m + v m := by
  obtain ⟨g, rfl⟩ := Ewald.cube_X n o hv
  refine lt_of_lt_of_le ?_ (le_len _ i)
  have he : (0 : ℝ) < 1 / 10 ^ 10 := by positivity
  generalize (1 : ℝ) / 10 ^ 10 = e at *
  simp only
  have hL : 0 < L := by linarith [abs_nonneg (r i)]
  by_cases hg : g i = 0
  · rw [hg]; simpa using h1
  · have h3 : (1 : ℝ) ≤ |(g i : ℝ)| := by exact_mod_cast Int.one_le_abs hg
    have h4 : L ≤ |(g i : ℝ) * L| := by
      rw [abs_mul, abs_of_pos hL]; nlinarith
    have h5 : |(g i : ℝ) * L| - |r i| ≤ |r i + g i * L| := by
      have := abs_sub_abs_le_abs_sub ((g i : ℝ) * L) (-r i)
      rw [abs_neg, sub_neg_eq_add, add_comm ((g i : ℝ) * L)] at this
      exact this
    linarith

/-- Two spheres and a dumbbell in a cube of edge 10. -/
theorem demoP_boxed : Boxed 2 0 (fun i => (0 : Vec3) i + 10) 0 0 demoP := by
  refine ⟨demoP_sensible, fun i => by norm_num, ⟨0, 2, 0, by decide, rest_is_shear⟩, ?_⟩
  intro x hx y hy e v hv
  have hx' : x < 4 := hx
  have hy' : y < 4 := hy
  have ns : ∀ (r : Vec3) (a b : ℝ) (i : Fin 3), 2.001 * ((a + b) / 2) ≤ |r i| → sep r a b = r := by
    intro r a b i h
    unfold sep
    rw [if_neg (not_lt.mpr (h.trans (le_len r i)))]
  have hc : ∃ i, 2.001 * ((radius demoP x + radius demoP y) / 2) ≤ |centre demoP x i - centre demoP y i|
      ∧ 1 ≤ |centre demoP x i - centre demoP y i| ∧ |centre demoP x i - centre demoP y i| ≤ 5 := by
    interval_cases x <;> interval_cases y <;> first
      | exact absurd rfl e
      | (refine ⟨0, ?_⟩; norm_num [centre, demoP, radius]; done)
      | (refine ⟨1, ?_⟩; norm_num [centre, demoP, radius]; done)
      | (refine ⟨2, ?_⟩; norm_num [centre, demoP, radius]; simp only [Matrix.cons_val]; norm_num; done)
  obtain ⟨i, h1, h2, h3⟩ := hc
  rw [ns (fun i => centre demoP x i - centre demoP y i) _ _ i h1]
  refine images_far 2 0 _ i ?_ ?_ hv
  · exact lt_of_lt_of_le (by norm_num) h2
  · have : |centre demoP x i - centre demoP y i| + 1 / 10 ^ 10 ≤ 5 + 1 / 10 ^ 10 := by linarith
    exact lt_of_le_of_lt this (by norm_num)

example := C54_force_force demoP_boxed 3 false (x := 2) (y := 3) (by simp [beads, demoP]) (by simp [beads, demoP])
  (by decide) (by simp [demoP]) 0 1
example := C54_torque_torque demoP_boxed 3 false (x := 0) (y := 1) (by simp [demoP]) (by simp [demoP]) (by decide) 0 1
example := C54_stress_stress demoP_boxed 3 false (x := 0) (y := 1) (by simp [demoP]) (by simp [demoP]) (by decide) 0 1
example := C54_velocity_partial demoP_boxed 3 false (x := 0) (y := 1) (by simp [demoP]) (by simp [demoP]) (by decide) 0
  (.t 1) (fun j => by simp)
example := C54_torque_stress_partial demoP_boxed 3 false (x := 0) (y := 1) (by simp [demoP]) (by simp [demoP])
  (by decide) 0 3
example := C54_sphere_bead_partial demoP_boxed 3 false (x := 0) (y := 3) (by simp [demoP]) (by simp [demoP])
  (by simp [beads, demoP]) (.s 1) (fun j => by simp) 2
example := C54_switch demoP_boxed 3 (x := 2) (y := 3) (by simp [demoP]) (by simp [demoP])
  (by simp [beads, demoP]) (by simp [beads, demoP]) (by decide) 0 0
example := C54_own demoP_boxed 3 false (x := 1) (.s 2) (.s 2) (by simp [HasRow, demoP]) (by simp [HasRow, demoP])
  (Or.inr (Or.inl ⟨2, 2, rfl, rfl⟩))
example := C54_own_torque_partial demoP_boxed 3 false (x := 1) (by simp [demoP]) 0 0
example := C54_own_torque_stress_partial demoP_boxed 3 false (x := 1) (by simp [demoP]) 0 0
example := C54_viscosity demoP_boxed 3 false 2 (i := 4) (j := 27) (by simp [side, demoP]) (by simp [side, demoP])
example := C54_dumbbell_coordinates 2 0 (fun i => (0 : Vec3) i + 10) 0 0 demoP 3 false (fun i => i) (i := 25)
  (by simp [side, demoP])

/-- A small sphere at `(1,0,0)`, and a dumbbell with smaller beads at the origin and at `(0,1,0)`. -/
noncomputable def thinP : PosData where
  Ns := 1
  Nd := 1
  sphereSize := fun _ => 1 / 4
  spherePos := fun _ => ![1, 0, 0]
  dumbSize := fun _ => 1 / 8
  dumbPos := fun _ => ![0, 1 / 2, 0]
  dumbDx := fun _ => ![0, 1, 0]

theorem thinP_boxed {L : ℝ} (hL : 2 < L) : Boxed 2 0 (fun i => (0 : Vec3) i + L) 0 0 thinP := by
  have hc : ∀ x < 3, ∀ y < 3, x ≠ y → ∃ i, |centre thinP x i - centre thinP y i| = 1 ∧
      radius thinP x + radius thinP y ≤ 1 / 2 := by
    intro x hx y hy e
    interval_cases x <;> interval_cases y <;> first
      | exact absurd rfl e
      | (refine ⟨0, ?_⟩; norm_num [centre, thinP, radius]; done)
      | (refine ⟨1, ?_⟩; norm_num [centre, thinP, radius]; done)
  refine ⟨⟨?_, ?_⟩, fun i => ?_, ⟨0, 2, 0, by decide, rest_is_shear⟩, ?_⟩
  · intro x hx
    have hx' : x < 3 := hx
    interval_cases x <;> norm_num [radius, thinP]
  · intro x hx y hy e
    obtain ⟨i, h, -⟩ := hc x hx y hy e
    refine lt_of_lt_of_le ?_ (le_len _ i)
    rw [h]; norm_num
  · have : (1 : ℝ) / 10 ^ 10 < 2 := by norm_num
    simp only [Pi.zero_apply, zero_add]; linarith
  · intro x hx y hy e v hv
    obtain ⟨i, h, h2⟩ := hc x hx y hy e
    have : sep (fun i => centre thinP x i - centre thinP y i) (radius thinP x) (radius thinP y)
        = fun i => centre thinP x i - centre thinP y i := by
      unfold sep
      rw [if_neg (not_lt.mpr (le_trans ?_ (le_len _ i)))]
      rw [h]
      linarith
    rw [this]
    refine images_far 2 0 _ i ?_ ?_ hv
    · rw [h]; norm_num
    · rw [h]
      have : (1 : ℝ) / 10 ^ 10 < 1 := by norm_num
      linarith

/-- In a large enough cube the sphere and the bead show the defect. -/
theorem C54_sphere_bead_example : ∃ L : ℝ, Boxed 2 0 (fun i => (0 : Vec3) i + L) 0 0 thinP ∧
    (boxMatrix 2 0 (fun i => (0 : Vec3) i + L) 0 0 thinP 1 true).get (row 1 0 (.s 1)) (row 1 1 (.f 1))
      ≠ 1 / (8 * Real.pi * 1) * greenMob (boxImages 2 0 (fun i => (0 : Vec3) i + L) 0 0) (radius thinP 0)
          (radius thinP 1) (.s 1) (.f 1) (gap thinP 0 1) := by
  obtain ⟨κ, hκ, h⟩ := C54_sphere_bead_wrong 2
  have hL : 2 < 3 + 1 / κ := by have : 0 < 1 / κ := by positivity
                                linarith
  have hg : gap thinP 0 1 = ![1, 0, 0] := by
    have e : (fun i => centre thinP 0 i - centre thinP 1 i) = ![1, 0, 0] := by
      funext i; fin_cases i <;> norm_num [centre, thinP]
    unfold gap
    rw [e]
    unfold sep
    rw [if_neg]
    have := le_len (![1, 0, 0] : Vec3) 0
    norm_num [radius, thinP] at this ⊢
    linarith
  refine ⟨3 + 1 / κ, thinP_boxed hL, ?_⟩
  refine h 0 _ thinP 1 true 0 1 1 (by linarith) one_ne_zero (thinP_boxed hL) (by simp [thinP]) (by simp [thinP])
    (by simp [beads, thinP]) (by norm_num [radius, thinP]) hg one_pos ?_
  rw [mul_add, mul_one_div_cancel hκ.ne']
  linarith

end SD
