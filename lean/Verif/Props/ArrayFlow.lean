import Verif.Lemmas.EwaldStokes
import Verif.Props.Splitting

/-!
# C84: the far field in a box is that of a flow that solves the Stokes equations

`Spec/ArrayFlow` says what the flow due to an array of point forces is, by the equations that it solves.
-/

set_option autoImplicit false

namespace SD

open Spec Filter Topology

section
variable {a b : Fin 3} (hab : a ≠ b) {d : Fin 3 → ℝ} (hd : ∀ i, 0 < d i) (g : ℝ)
include hab hd

/-- **C84** (the flow). With a pressure, the sum over images and waves solves the Stokes equations for an array of
point forces balanced by a uniform force. This holds in every sheared box, and for every place to split the sum. -/
theorem C84_flow {lam : ℝ} (hl : 0 < lam) : ∃ p, IsArrayFlow (shearedBox d a b g) (d 0 * d 1 * d 2)
    (arrayGreen lam (d 0 * d 1 * d 2) (shearedBox d a b g)) p := by
  have off : ∀ r, OffLattice (shearedBox d a b g) r → r ∈ Ewald.Off (shearedBox d a b g) := fun r h =>
    (Ewald.off_iff hab hd g).mpr h
  have hU := Ewald.isOpen_off (Ewald.spans_box hab hd g)
  have jet := Ewald.arrayGreen_jet hab hd g hl (d 0 * d 1 * d 2)
  refine ⟨Ewald.arrayPressure lam (d 0 * d 1 * d 2) (shearedBox d a b g), ?_⟩
  exact {
    periodic := fun v hv i j r => Ewald.arrayGreen_shift lam _ hv i j r
    periodic_pressure := fun v hv j r => Ewald.arrayPressure_shift lam _ hv j r
    smooth := fun r hr i j l => ⟨((jet i j).one r (off r hr) l).differentiableAt, fun m =>
      (((jet i j).two r (off r hr) m l).congr_on hU (off r hr)
        fun r hr => ((jet i j).one r hr l).pd).differentiableAt⟩
    smooth_pressure := fun r hr j l => (Ewald.arrayPressure_pd hab hd g hl _ j l (off r hr)).differentiableAt
    incompressible := fun r hr j => Ewald.arrayGreen_div hab hd g hl _ j (off r hr)
    balance := fun r hr i j => Ewald.arrayGreen_balance hab hd g hl i j (off r hr)
    point_force := fun i j => Ewald.arrayGreen_point hab hd g hl _ i j
    point_force_pressure := fun j => Ewald.arrayPressure_point hab hd g hl _ j }

/-- The motion of particles in the array is the motion in that flow. -/
theorem greenMob_array {lam : ℝ} (hl : 0 < lam) (V ra rb : ℝ) (c1 c2 : Comp) {r : Vec3}
    (hr : OffLattice (shearedBox d a b g) r) :
    greenMob (arrayGreen lam V (shearedBox d a b g)) ra rb c1 c2 r = arrayMob lam V (shearedBox d a b g) ra rb c1 c2 r := by
  have h : ∀ G : Green, greenMob G ra rb c1 c2 r = mobOf (fun l1 l2 => greenResponse G ra rb l1 l2 r) c1 c2 := by
    intro G; cases c1 <;> cases c2 <;> rfl
  rw [h]
  unfold arrayMob
  congr 1
  funext l1 l2
  exact (C83_termwise hab hd g hl V ra rb l1 l2 hr).symm

end

section
variable {bl tr Ot : Vec3} {Et : Mat3} {a b : Fin 3} {g : ℝ} {P : PosData} (hP : InArray bl tr Ot Et a b g P)
include hP

/-- **C84** (the code). There is a flow that solves the Stokes equations for an array of point forces, such that, as
layers are added:
* for two distinct beads that interact, the velocity due to a force, the angular velocity due to a torque and the rate
  of strain due to a stress tend to those of one sphere in that flow made by the load on the other;
* the velocity of a bead due to its own force and the rate of strain due to its own stress tend to those of an isolated
  sphere, plus what is left of that flow at the sphere when the flow in an unbounded fluid is taken away. -/
theorem C84_code : ∃ G p, IsArrayFlow (shearedBox (fun i => tr i - bl i) a b g)
      ((tr 0 - bl 0) * (tr 1 - bl 1) * (tr 2 - bl 2)) G p ∧
    (∀ (mu : ℝ) (bb : Bool) (x y : ℕ) (c1 c2 : Comp), HasRow P.Ns P.Nd x c1 → HasRow P.Ns P.Nd y c2 → x ≠ y →
      (bb = true ∨ x < P.Ns ∨ y < P.Ns ∨ x + P.Nd = y ∨ y + P.Nd = x) →
      ((∃ i j, c1 = .f i ∧ c2 = .f j) ∨ (∃ i j, c1 = .t i ∧ c2 = .t j) ∨ ∃ p q, c1 = .s p ∧ c2 = .s q) →
      RapidTo (fun n => (boxMatrix n bl tr Ot Et P mu bb).get (row P.Ns x c1) (row P.Ns y c2))
        (1 / (8 * Real.pi * mu) * greenMob G (radius P x) (radius P y) c1 c2 (gap P x y))) ∧
    ∀ (mu : ℝ) (bb : Bool) (x : ℕ) (c1 c2 : Comp), HasRow P.Ns P.Nd x c1 → HasRow P.Ns P.Nd x c2 →
      ((∃ i j, c1 = .f i ∧ c2 = .f j) ∨ ∃ p q, c1 = .s p ∧ c2 = .s q) → ∃ v,
      Tendsto (fun r => greenMob G (radius P x) (radius P x) c1 c2 r - pairMob (radius P x) (radius P x) c1 c2 r)
        (𝓝[≠] 0) (𝓝 v) ∧
      RapidTo (fun n => (boxMatrix n bl tr Ot Et P mu bb).get (row P.Ns x c1) (row P.Ns x c2))
        (selfMob mu (radius P x) c1 c2 + 1 / (8 * Real.pi * mu) * v) := by
  have hd : ∀ i, 0 < tr i - bl i := fun i => sub_pos.mpr (hP.lt i)
  obtain ⟨p, hp⟩ := C84_flow hP.axes hd g hP.splitting_pos
  refine ⟨_, p, hp, fun mu bb x y c1 c2 hx hy hxy hs hc => ?_, fun mu bb x c1 c2 hx hy hc => ?_⟩
  · rw [greenMob_array hP.axes hd g hP.splitting_pos]
    · exact C82_pair hP mu bb hx hy hxy hs hc
    · intro v hv
      rw [← hP.lattice] at hv
      exact hP.clear (owns_lt (owns_kind hx)) (owns_lt (owns_kind hy)) hxy v hv
  · obtain ⟨v, h1, h2⟩ := C82_own hP mu bb hx hy hc
    refine ⟨v, h1.congr' ?_, h2⟩
    filter_upwards [Ewald.off_near hP.axes hd g] with r hr
    rw [greenMob_array hP.axes hd g hP.splitting_pos _ _ _ _ _ ((Ewald.off_iff hP.axes hd g).mp hr)]

end

/-! ## Instances -/

example := C84_flow (a := 0) (b := 1) (by decide) brick_pos (1 / 2) (lam := 3) (by norm_num)
example := C84_code demoP_array

end SD
