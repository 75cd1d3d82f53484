import Verif.Props.LargeBox

/-!
# C77, continued: the matrices, the rate, and the answers
-/

set_option autoImplicit false

namespace SD

open Spec Filter Topology

section
variable {d Ot : Vec3} {Et : Mat3} (hd : ∀ i, 0 < d i) (hsh : ∃ a b g, a ≠ b ∧ IsShear Ot Et a b g)
  {P : PosData} (hP : Sensible P) (n : ℕ) (o : Vec3) (mu : ℝ) {bb : Bool}
include hd hsh hP

/-- **C77** (far field). As the box grows, every entry of the far-field mobility matrix that is returned tends to
that of the matrix for an unbounded fluid. -/
theorem C77_matrix (hbb : bb = true ∨ P.Nd = 0) (h1 : OneSize P) {i j : ℕ} (hi : i < side P) (hj : j < side P) :
    Tendsto (fun L => (Ewald.generate_Minfinity_periodic n P o (farCorner o d L) mu Ot Et bb).get i j) atTop
      (𝓝 ((generate_Minfinity P mu bb).get i j)) := by
  have key : ∀ i < side P, ∀ j < side P, Tendsto (fun L => (boxMatrix n o (farCorner o d L) Ot Et P mu bb).get i j) atTop
      (𝓝 ((generate_Minfinity_loop (NDMat.zeros (side P) (side P)) P (1 / (8 * Real.pi * mu)) mu bb).get i j)) := by
    intro i hi j hj
    obtain ⟨u, c1, hu, rfl⟩ := (C48_rows P).1 i hi
    obtain ⟨v, c2, hv, rfl⟩ := (C48_rows P).1 j hj
    rw [C48_entry hP mu bb hu hv]
    have hub : u < beads P := owns_lt (owns_kind hu)
    have hvb : v < beads P := owns_lt (owns_kind hv)
    refine C77_entry hd hsh hP n o mu bb hu hv ?_ (h1.rad hub hvb)
    rcases hbb with h | h
    · exact Or.inl h
    · right; left; unfold beads at hub; omega
  unfold Ewald.generate_Minfinity_periodic generate_Minfinity
  dsimp only
  by_cases hN : P.Nd > 0
  · simp only [if_pos hN]
    have c1 : ∀ L, (Ewald.generate_Minfinity_loop (Ewald.boxLattice n o (farCorner o d L) Ot Et)
        (NDMat.zeros (11 * P.Ns + 6 * P.Nd) (11 * P.Ns + 6 * P.Nd)) P (1 / (8 * Real.pi * mu)) mu bb).cols = side P :=
      fun L => (Ewald.loop_dims _ P _ mu bb _).2
    have c2 : (generate_Minfinity_loop (NDMat.zeros (11 * P.Ns + 6 * P.Nd) (11 * P.Ns + 6 * P.Nd)) P
        (1 / (8 * Real.pi * mu)) mu bb).cols = side P := (loop_dims P _ mu bb _).2
    simp only [NDMat.dot, NDMat.transpose, c1, c2]
    refine tendsto_finsetSum _ fun k hk => Tendsto.mul_const _ (tendsto_finsetSum _ fun l hl => Tendsto.const_mul _ ?_)
    exact key l (Finset.mem_range.mp hl) k (Finset.mem_range.mp hk)
  · simp only [if_neg hN]
    exact key i hi j hj

/-- **C77** (dissipation). So for spheres and beads that are not too close, the far-field mobility matrix of every
large enough box is positive definite. -/
theorem C77_mobility (hS : Separate P) {mu : ℝ} (hmu : 0 < mu) (hbb : bb = true ∨ P.Nd = 0) (h1 : OneSize P) :
    ∀ᶠ L in atTop, PosDef (Ewald.generate_Minfinity_periodic n P o (farCorner o d L) mu Ot Et bb).get (side P) :=
  Perturb.posDef_eventually (fun _ hi _ hj => C77_matrix hd hsh hP n o mu hbb h1 hi hj) (C59_mobility hP hS hmu hbb)

end

/-- **C77** (rate). For the velocities due to forces, the error is in proportion to `1 / L`, with the same constant
for all pairs of beads, and for a bead's own force: the velocity at a point due to the images of a force there, in
the box with sides `d`. -/
theorem C77_rate {d Ot : Vec3} {Et : Mat3} (hd : ∀ i, 1 / 10 ^ 10 < d i)
    (hsh : ∃ a b g, a ≠ b ∧ IsShear Ot Et a b g) (n : ℕ) (i j : Fin 3) : ∃ v,
    ImagesAddComp (Ewald.boxLattice n 0 d Ot Et).lamb ((Ewald.boxLattice n 0 d Ot Et).L ^ 3)
      (Ewald.boxLattice n 0 d Ot Et).X (Ewald.boxLattice n 0 d Ot Et).K 0 0 (.f i) (.f j) v ∧
    ∀ {P : PosData}, Sensible P → ∀ (o : Vec3) (mu : ℝ) (bb : Bool) {x y : ℕ}, x < beads P → y < beads P →
      (bb = true ∨ x < P.Ns ∨ y < P.Ns ∨ x = y) →
      Tendsto (fun L => L * ((boxMatrix n o (farCorner o d L) Ot Et P mu bb).get (row P.Ns x (.f i)) (row P.Ns y (.f j))
          - systemMob P.Ns bb (centre P) (radius P) mu x (.f i) y (.f j))) atTop
        (𝓝 (1 / (8 * Real.pi * mu) * v)) := by
  have hp : (0 : ℝ) < 1 / 10 ^ 10 := by positivity
  have hd0 : ∀ i, 0 < d i := fun i => hp.trans (hd i)
  obtain ⟨a, b, g, hab, hs⟩ := hsh
  have hU := C52_box_proper n (bl := 0) (tr := d) (fun i => by simpa using hd i) hab hs
  refine ⟨_, Ewald.imagesAddComp_rest hU.1 hU.2 0 0 (.f i) (.f j), fun {P} hP o mu bb x y hx hy hbb => ?_⟩
  set U := Ewald.boxLattice n 0 d Ot Et with hUd
  have hsh' : ∃ a b g, a ≠ b ∧ IsShear Ot Et a b g := ⟨a, b, g, hab, hs⟩
  have hsplit : U.X.Perm (0 :: U.Xdash) := unit_split hd0 hsh' n
  have hX := Ewald.Xdash_ne_zero U
  by_cases hxy : x = y
  · subst hxy
    have h := (Ewald.slack_tendsto U.lamb (U.L ^ 3) hX U.K (.force i) (.force j)
      (Ewald.div_tendsto_zero (radius P x)) (Ewald.div_tendsto_zero (radius P x))
      (tendsto_const_nhds (x := (0 : Vec3)))).const_mul (1 / (8 * Real.pi * mu))
    refine h.congr' ?_
    filter_upwards [boxed_eventually hd0 hsh' n o hP, eventually_gt_atTop 0] with L hB hL
    rw [boxOwn hB mu bb (c1 := .f i) (c2 := .f j) hx hx]
    unfold farCorner
    rw [Ewald.box_enlarged n hL o hd0]
    simp only [Ewald.codeSelf, systemMob, if_true, Ewald.restMob, ← hUd]
    rw [Ewald.enlarged_Xdash hL]
    have e := Ewald.rest_scaled hL U.lamb (U.L ^ 3) U.Xdash U.K (radius P x) (radius P x) (.force i) (.force j)
    rw [← mul_pow] at e
    have e' : Ewald.rest (Ewald.enlarged L U).lamb ((Ewald.enlarged L U).L ^ 3) (U.Xdash.map fun x m => L * x m)
        (Ewald.enlarged L U).K (radius P x) (radius P x) (.force i) (.force j) = _ := e
    rw [e']
    simp only [Ewald.deg]
    field_simp
    ring
  · have hne := (sep_ne (hP.radius_pos x hx) (hP.radius_pos y hy) (hP.apart x hx y hy hxy)).1
    have h := (Ewald.slack_tendsto U.lamb (U.L ^ 3) hX U.K (.force i) (.force j)
      (Ewald.div_tendsto_zero (radius P x)) (Ewald.div_tendsto_zero (radius P y))
      (Ewald.vec_div_tendsto_zero (gap P x y))).const_mul (1 / (8 * Real.pi * mu))
    refine h.congr' ?_
    filter_upwards [boxed_eventually hd0 hsh' n o hP, eventually_gt_atTop 0, Ewald.clear_eventually hsplit hne]
      with L hB hL hc
    have hbb' : bb = true ∨ x < P.Ns ∨ y < P.Ns ∨ x + P.Nd = y ∨ y + P.Nd = x := by
      rcases hbb with h | h | h | h
      · exact Or.inl h
      · exact Or.inr (Or.inl h)
      · exact Or.inr (Or.inr (Or.inl h))
      · exact absurd h hxy
    rw [boxPair hB mu bb (c1 := .f i) (c2 := .f j) hx hy hxy hbb']
    unfold farCorner
    rw [Ewald.box_enlarged n hL o hd0]
    have hsys : systemMob P.Ns bb (centre P) (radius P) mu x (.f i) y (.f j)
        = 1 / (8 * Real.pi * mu) * response (radius P x) (radius P y) (.force i) (.force j) (gap P x y) := by
      unfold systemMob
      rw [if_neg hxy, if_neg]
      · rfl
      · rintro ⟨h1, h2, h3⟩
        rcases hbb with h | h | h | h
        · rw [h1] at h; cases h
        · omega
        · omega
        · exact hxy h
    have e := Ewald.box_response_scaled hL U.lamb (U.L ^ 3) hsplit U.K (radius P x) (radius P y) (.force i) (.force j) hc
    rw [← mul_pow] at e
    have e' : Ewald.codeMob (Ewald.enlarged L U) (decide (x < P.Ns ∧ y < P.Ns)) (radius P x) (radius P y) (.f i) (.f j)
        (gap P x y) = _ := e
    rw [hsys, e']
    simp only [Ewald.deg]
    field_simp
    ring

end SD
