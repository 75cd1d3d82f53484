import Verif.Model.Frame

/-!
# Specification: a simulation in a plane
-/

set_option autoImplicit false

namespace SD.Spec

/-- Particles and arrows lie in the plane `y = 0`. (The arrays of the model go on behind the last particle; the setups
fill them with zeros.) -/
structure InPlane (c : Config) : Prop where
  spheres : ∀ i, c.P.spherePos i 1 = 0
  dumbs : ∀ i, c.P.dumbPos i 1 = 0 ∧ c.P.dumbDx i 1 = 0
  arrows : ∀ i j, c.rots i j 1 = 0

/-- Forces in the plane `y = 0`, and stresslets that do not shear it. -/
structure ForcesInPlane (f : Forces) : Prop where
  spheres : ∀ v ∈ f.Fa, v 1 = 0
  dumbs : (∀ v ∈ f.Fb, v 1 = 0) ∧ ∀ v ∈ f.DFb, v 1 = 0
  stress : ∀ m ∈ f.Sa, m 0 1 = 0 ∧ m 1 0 = 0 ∧ m 1 2 = 0 ∧ m 2 1 = 0

end SD.Spec
