import Verif.Lemmas.Repulsion
import Verif.Spec.Motion
import Mathlib.Analysis.SpecialFunctions.Trigonometric.Deriv

/-!
# C32, C33: shear flows and repulsion forces
-/

set_option autoImplicit false
set_option linter.unusedSimpArgs false

namespace SD

open Spec

/-! ## C32 -/

/-- Constant shear: the flow is simple shear of the stated rate along x, growing along z, about the given
centre, the strain is symmetric and traceless and given to every sphere (at least one copy), and the
accumulated rotation and strain are simple shear of size rate times time. -/
theorem C32_constant (gammadot frameno timestep : ℝ) (c : Vec3) (n : ℕ) :
    ∃ E, AllStrains (constant_shear gammadot frameno timestep c n).Ea_in n E ∧ SymTraceless E ∧
      (constant_shear gammadot frameno timestep c n).centre_of_background_flow = c ∧
      (∀ x, affineFlow (constant_shear gammadot frameno timestep c n).U_infinity
          (constant_shear gammadot frameno timestep c n).O_infinity c E x
        = ![gammadot * (x 2 - c 2), 0, 0]) ∧
      IsShear (constant_shear gammadot frameno timestep c n).Ot_infinity
        (constant_shear gammadot frameno timestep c n).Et_infinity 0 2 (gammadot * (frameno * timestep)) := by
  refine ⟨![![0, 0, 0.5 * gammadot], ![0, 0, 0], ![0.5 * gammadot, 0, 0]], ⟨?_, ?_⟩, ⟨?_, ?_⟩, rfl, ?_, ?_⟩
  · simp [constant_shear]
  · intro F hF
    exact List.eq_of_mem_replicate hF
  · intro i j
    fin_cases i <;> fin_cases j <;> rfl
  · simp
  · intro x
    funext k
    fin_cases k <;> simp [affineFlow, constant_shear, cross, app, dotp]; ring
  · intro x k
    fin_cases k <;> simp [constant_shear, cross, app, dotp]; ring

/-- Constant shear: the accumulated rotation and strain have the rates as time derivatives and start from
zero. -/
theorem C32_constant_integral (gammadot frameno timestep : ℝ) (c : Vec3) (n : ℕ) (k m : Fin 3) :
    HasDerivAt (fun f => (constant_shear gammadot f timestep c n).Ot_infinity k)
      (timestep * (constant_shear gammadot frameno timestep c n).O_infinity k) frameno ∧
    (∀ E ∈ (constant_shear gammadot frameno timestep c n).Ea_in,
      HasDerivAt (fun f => (constant_shear gammadot f timestep c n).Et_infinity k m)
        (timestep * E k m) frameno) ∧
    (constant_shear gammadot 0 timestep c n).Ot_infinity k = 0 ∧
    (constant_shear gammadot 0 timestep c n).Et_infinity k m = 0 := by
  have hd : HasDerivAt (fun f : ℝ => 0.5 * gammadot * (f * timestep)) (timestep * (0.5 * gammadot))
      frameno := by
    have := ((hasDerivAt_id frameno).mul_const timestep).const_mul (0.5 * gammadot)
    have e : 0.5 * gammadot * (1 * timestep) = timestep * (0.5 * gammadot) := by ring
    rw [e] at this
    exact this
  have h0 : HasDerivAt (fun _ : ℝ => (0 : ℝ)) (timestep * 0) frameno := by
    rw [mul_zero]; exact hasDerivAt_const _ _
  refine ⟨?_, ?_, ?_, ?_⟩
  · fin_cases k
    · exact h0
    · exact hd
    · exact h0
  · intro E hE
    rw [List.eq_of_mem_replicate hE]
    fin_cases k <;> fin_cases m
    · exact h0
    · exact h0
    · exact hd
    · exact h0
    · exact h0
    · exact h0
    · exact hd
    · exact h0
    · exact h0
  · fin_cases k <;> simp [constant_shear]
  · fin_cases k <;> fin_cases m <;> simp [constant_shear]

/-- Oscillatory shear with a nonzero period, looking along axis 1 or 2: the flow is simple shear in the
requested plane with the rate `amplitude * ω * cos (ω t + phase)`, the strain is symmetric and traceless and
given to every sphere, and the accumulated rotation and strain are simple shear of size
`amplitude * sin (ω t + phase)`. -/
theorem C32_oscillatory (amplitude period frameno timestep phase : ℝ) (c : Vec3) (n ax : ℕ)
    (tr op : Bool) (hp : period ≠ 0) (hax : ax = 1 ∨ ax = 2) :
    ∃ s E, oscillatory_shear amplitude period frameno timestep phase c n ax tr op = some s ∧
      AllStrains s.Ea_in n E ∧ SymTraceless E ∧ s.centre_of_background_flow = c ∧
      (∀ x k, affineFlow s.U_infinity s.O_infinity c E x k
        = if k = (shearPlane ax tr op).1 then (shearPlane ax tr op).2.2
            * (amplitude * (2 * Real.pi / period)
              * Real.cos (2 * Real.pi / period * (frameno * timestep) + phase))
            * (x (shearPlane ax tr op).2.1 - c (shearPlane ax tr op).2.1) else 0) ∧
      IsShear s.Ot_infinity s.Et_infinity (shearPlane ax tr op).1 (shearPlane ax tr op).2.1
        ((shearPlane ax tr op).2.2
          * (amplitude * Real.sin (2 * Real.pi / period * (frameno * timestep) + phase))) := by
  have e : frameno * timestep * (2 * Real.pi / period) = 2 * Real.pi / period * (frameno * timestep) := by
    ring
  unfold oscillatory_shear
  rw [if_neg hp]
  dsimp only
  rw [e]
  generalize amplitude * (2 * Real.pi / period)
    * Real.cos (2 * Real.pi / period * (frameno * timestep) + phase) = g
  generalize amplitude * Real.sin (2 * Real.pi / period * (frameno * timestep) + phase) = G
  rcases hax with rfl | rfl
  · rw [if_pos rfl]
    refine ⟨_, ![![0, 0, 0.5 * g], ![0, 0, 0], ![0.5 * g, 0, 0]], rfl, ⟨?_, ?_⟩, ⟨?_, ?_⟩, rfl, ?_, ?_⟩
    · simp
    · intro F hF
      exact List.eq_of_mem_replicate hF
    · intro i j
      fin_cases i <;> fin_cases j <;> rfl
    · simp
    · intro x k
      cases tr <;> fin_cases k <;> simp [affineFlow, shearPlane, cross, app, dotp] <;> ring
    · intro x k
      cases tr <;> fin_cases k <;> simp [shearPlane, cross, app, dotp] <;> ring
  · rw [if_neg (by decide), if_pos rfl]
    refine ⟨_, ![![0, (if op then -1 else 1) * 0.5 * g, 0], ![(if op then -1 else 1) * 0.5 * g, 0, 0],
      ![0, 0, 0]], rfl, ⟨?_, ?_⟩, ⟨?_, ?_⟩, rfl, ?_, ?_⟩
    · simp
    · intro F hF
      exact List.eq_of_mem_replicate hF
    · intro i j
      fin_cases i <;> fin_cases j <;> rfl
    · simp
    · intro x k
      cases tr <;> cases op <;> fin_cases k <;> simp [affineFlow, shearPlane, cross, app, dotp] <;> ring
    · intro x k
      cases tr <;> cases op <;> fin_cases k <;> simp [shearPlane, cross, app, dotp] <;> ring

/-- Oscillatory shear: the accumulated rotation and strain have the rates as time derivatives. -/
theorem C32_oscillatory_integral (amplitude period frameno timestep phase : ℝ) (c : Vec3) (n ax : ℕ)
    (tr op : Bool) (s : ℝ → ShearFlow)
    (hs : ∀ f, oscillatory_shear amplitude period f timestep phase c n ax tr op = some (s f))
    (k m : Fin 3) :
    HasDerivAt (fun f => (s f).Ot_infinity k) (timestep * (s frameno).O_infinity k) frameno ∧
    ∀ E ∈ (s frameno).Ea_in,
      HasDerivAt (fun f => (s f).Et_infinity k m) (timestep * E k m) frameno := by
  have hp : period ≠ 0 := by
    intro h
    have := hs 0
    rw [oscillatory_shear, if_pos h] at this
    simp at this
  have hd : ∀ a : ℝ, HasDerivAt
      (fun f : ℝ => a * (amplitude * Real.sin (f * timestep * (2 * Real.pi / period) + phase)))
      (timestep * (a * (amplitude * (2 * Real.pi / period)
        * Real.cos (frameno * timestep * (2 * Real.pi / period) + phase)))) frameno := by
    intro a
    have h1 : HasDerivAt (fun f : ℝ => f * timestep * (2 * Real.pi / period) + phase)
        (1 * timestep * (2 * Real.pi / period)) frameno :=
      (((hasDerivAt_id frameno).mul_const timestep).mul_const _).add_const _
    have h2 := ((h1.sin).const_mul amplitude).const_mul a
    refine h2.congr_deriv ?_
    ring
  have h0 : HasDerivAt (fun _ : ℝ => (0 : ℝ)) (timestep * 0) frameno := by
    rw [mul_zero]; exact hasDerivAt_const _ _
  have hs' : ∀ f, some (s f) = _ := fun f => (hs f).symm
  unfold oscillatory_shear at hs'
  simp only [if_neg hp] at hs'
  by_cases h1 : ax = 1
  · simp only [if_pos h1, Option.some.injEq] at hs'
    obtain rfl : s = _ := funext hs'
    constructor
    · fin_cases k
      · exact h0
      · exact hd _
      · exact h0
    · intro E hE
      rw [List.eq_of_mem_replicate hE]
      fin_cases k <;> fin_cases m
      · exact h0
      · exact h0
      · exact hd _
      · exact h0
      · exact h0
      · exact h0
      · exact hd _
      · exact h0
      · exact h0
  · by_cases h2 : ax = 2
    · simp only [if_neg h1, if_pos h2, Option.some.injEq] at hs'
      obtain rfl : s = _ := funext hs'
      constructor
      · fin_cases k
        · exact h0
        · exact h0
        · exact hd _
      · intro E hE
        rw [List.eq_of_mem_replicate hE]
        fin_cases k <;> fin_cases m
        · exact h0
        · exact hd _
        · exact h0
        · exact hd _
        · exact h0
        · exact h0
        · exact h0
        · exact h0
        · exact h0
    · simp only [if_neg h1, if_neg h2] at hs'
      exact absurd (hs' 0) (by simp)

/-- The flow exists for every frame exactly when the period is nonzero and the axis is 1 or 2. -/
theorem C32_oscillatory_stops (amplitude period frameno timestep phase : ℝ) (c : Vec3) (n ax : ℕ)
    (tr op : Bool) :
    (oscillatory_shear amplitude period frameno timestep phase c n ax tr op).isSome
      ↔ period ≠ 0 ∧ (ax = 1 ∨ ax = 2) := by
  unfold oscillatory_shear
  by_cases hp : period = 0
  · simp [hp]
  · by_cases h1 : ax = 1
    · simp [hp, h1]
    · by_cases h2 : ax = 2
      · simp [hp, h2]
      · simp [hp, h1, h2]

/-- A disagreement with its name: looking along axis 1 the flag `opposite_direction` does nothing. -/
theorem C32_opposite_ignored (amplitude period frameno timestep phase : ℝ) (c : Vec3) (n : ℕ)
    (tr : Bool) :
    oscillatory_shear amplitude period frameno timestep phase c n 1 tr true
      = oscillatory_shear amplitude period frameno timestep phase c n 1 tr false := by
  unfold oscillatory_shear
  simp

/-- A concrete oscillatory flow: the one of input 3, seen from above, transposed. -/
example : ∃ s E, oscillatory_shear (1 / 3) 10 5 (1 / 10) 0 ![9 / 4, 0, 9 / 4] 3 2 true true = some s ∧
    AllStrains s.Ea_in 3 E ∧ SymTraceless E := by
  obtain ⟨s, E, h1, h2, h3, -⟩ := C32_oscillatory (1 / 3) 10 5 (1 / 10) 0 ![9 / 4, 0, 9 / 4] 3 2 true true
    (by norm_num) (Or.inr rfl)
  exact ⟨s, E, h1, h2, h3⟩

/-! ## C33 -/

/-- Every sphere outside the lids gets, on top of its input force, the sum of the repulsions from all other
beads; the lid spheres get nothing; a dumbbell's force gets the sum and its force difference the difference
of the repulsions on its two beads. -/
theorem C33_forces (strength tau : ℝ) (P : PosData) (lid : ℕ) (Fa Fb DFb : ℕ → Vec3) :
    (∀ i < P.Ns, ∀ k, (repulsion_forces strength tau P lid Fa Fb DFb).1 i k
      = Fa i k + if 2 * lid ≤ i then pushTotal strength tau P i k else 0) ∧
    (∀ i < P.Nd, ∀ k, (repulsion_forces strength tau P lid Fa Fb DFb).2.1 i k
      = Fb i k + (pushTotal strength tau P (P.Ns + i) k + pushTotal strength tau P (P.Ns + P.Nd + i) k)) ∧
    (∀ i < P.Nd, ∀ k, (repulsion_forces strength tau P lid Fa Fb DFb).2.2 i k
      = DFb i k + (pushTotal strength tau P (P.Ns + P.Nd + i) k
        - pushTotal strength tau P (P.Ns + i) k)) := by
  unfold repulsion_forces
  dsimp only
  refine ⟨fun i hi k => ?_, fun i hi k => ?_, fun i hi k => ?_⟩
  · by_cases h : 2 * lid ≤ i
    · rw [if_pos ⟨h, hi⟩, if_pos h, bead_force_eq _ _ _ (by unfold beads; omega)]; ring
    · rw [if_neg fun hc => h hc.1, if_neg h, add_zero]
  · rw [bead_force_eq _ _ _ (by unfold beads; omega), bead_force_eq _ _ _ (by unfold beads; omega)]; ring
  · rw [bead_force_eq _ _ _ (by unfold beads; omega), bead_force_eq _ _ _ (by unfold beads; omega)]; ring

theorem pushTotal_sum (strength tau : ℝ) (P : PosData) (k : Fin 3) :
    ∑ u ∈ Finset.range (beads P), pushTotal strength tau P u k = 0 := by
  have h : ∑ u ∈ Finset.range (beads P), pushTotal strength tau P u k
      = -∑ u ∈ Finset.range (beads P), pushTotal strength tau P u k := by
    unfold pushTotal
    conv_lhs => rw [Finset.sum_comm]
    rw [← Finset.sum_neg_distrib]
    refine Finset.sum_congr rfl fun u _ => ?_
    rw [← Finset.sum_neg_distrib]
    exact Finset.sum_congr rfl fun v _ => push_antisymm _ _ _ _ _ _
  linarith

/-- With no lids the repulsion changes the total force on the suspension by nothing. -/
theorem C33_total (strength tau : ℝ) (P : PosData) (Fa Fb DFb : ℕ → Vec3) (k : Fin 3) :
    ∑ i ∈ Finset.range P.Ns, (repulsion_forces strength tau P 0 Fa Fb DFb).1 i k
        + ∑ i ∈ Finset.range P.Nd, (repulsion_forces strength tau P 0 Fa Fb DFb).2.1 i k
      = ∑ i ∈ Finset.range P.Ns, Fa i k + ∑ i ∈ Finset.range P.Nd, Fb i k := by
  obtain ⟨h1, h2, -⟩ := C33_forces strength tau P 0 Fa Fb DFb
  rw [Finset.sum_congr rfl fun i hi => h1 i (Finset.mem_range.mp hi) k,
    Finset.sum_congr rfl fun i hi => h2 i (Finset.mem_range.mp hi) k]
  have h := pushTotal_sum strength tau P k
  unfold beads at h
  rw [show P.Ns + 2 * P.Nd = P.Ns + P.Nd + P.Nd by ring, Finset.sum_range_add, Finset.sum_range_add] at h
  simp only [Finset.sum_add_distrib, mul_zero, Nat.zero_le, if_true]
  linarith

/-- The force between two beads: equal and opposite; along the line of centres; never attractive for a
nonnegative strength; strictly repulsive, of the stated size, exactly when the beads are close and not
coincident. -/
theorem C33_pair (strength tau : ℝ) (P : PosData) (u v : ℕ) (hs : 0 < strength)
    (hu : 0 < radius P u) (hv : 0 < radius P v) :
    (∀ k, push strength tau P u v k = -push strength tau P v u k) ∧
    (∃ c, 0 ≤ c ∧ ∀ k, push strength tau P u v k = c * away P u v k) ∧
    (Feels P u v → len (push strength tau P u v) = pushSize strength tau P u v ∧
      0 < dotp (push strength tau P u v) (away P u v)) ∧
    (¬ Feels P u v → push strength tau P u v = 0) := by
  have hpos : 0 < pushSize strength tau P u v := by
    unfold pushSize; positivity
  refine ⟨push_antisymm _ _ _ _ _, ?_, fun hF => ?_, fun hF => ?_⟩
  · by_cases hF : Feels P u v
    · refine ⟨pushSize strength tau P u v / len (away P u v), div_nonneg hpos.le (len_nonneg _), fun k => ?_⟩
      unfold push
      rw [if_pos hF]; ring
    · exact ⟨0, le_rfl, fun k => by unfold push; rw [if_neg hF, zero_mul]⟩
  · have hl : 0 < len (away P u v) := by
      have h1 := hF.1
      unfold gapRatio at h1
      rcases (len_nonneg (away P u v)).lt_or_eq with h | h
      · exact h
      · rw [← h, zero_div] at h1; exact absurd h1 (lt_irrefl _)
    have hpush : push strength tau P u v
        = fun k => (pushSize strength tau P u v / len (away P u v)) * away P u v k := by
      funext k
      unfold push
      rw [if_pos hF]; ring
    rw [hpush]
    constructor
    · rw [len_smul (div_nonneg hpos.le hl.le)]
      field_simp
    · have : dotp (fun k => pushSize strength tau P u v / len (away P u v) * away P u v k) (away P u v)
          = pushSize strength tau P u v * len (away P u v) := by
        have h2 := len_sq (away P u v)
        unfold dotp
        field_simp
        rw [h2]
      rw [this]
      positivity
  · funext k
    exact if_neg hF

/-- Two unit spheres at distance 2.1 with a gap, and a dumbbell further away. -/
noncomputable def closeP : PosData where
  Ns := 2
  Nd := 1
  sphereSize := fun _ => 1
  spherePos := fun i => if i = 0 then ![0, 0, 0] else ![21 / 10, 0, 0]
  dumbSize := fun _ => 1
  dumbPos := fun _ => ![0, 10, 0]
  dumbDx := fun _ => ![4, 0, 0]

example : Feels closeP 0 1 ∧ 0 < radius closeP 0 ∧ 0 < radius closeP 1 := by
  have h : away closeP 0 1 = ![-(21 / 10), 0, 0] := by
    funext k
    fin_cases k <;> simp [away, centre, closeP]
  have hl : len (away closeP 0 1) = 21 / 10 := by
    rw [h]
    unfold len
    rw [Fin.sum_univ_three]
    simp only [Matrix.cons_val]
    rw [show ((-(21 / 10 : ℝ)) ^ 2 + 0 ^ 2 + 0 ^ 2) = (21 / 10) ^ 2 by norm_num]
    exact Real.sqrt_sq (by norm_num)
  refine ⟨?_, ?_, ?_⟩
  · unfold Feels gapRatio
    rw [hl]
    simp [radius, closeP]
    norm_num
  · simp [radius, closeP]
  · simp [radius, closeP]

end SD
