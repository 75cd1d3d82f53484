import Verif.Spec.Placement

/-!
# Specification: periodic images
-/

set_option autoImplicit false

namespace SD.Spec

/-- An image of a point: moved by whole numbers of periods. -/
def imageOf (D : Fin 3 → ℝ) (m : Fin 3 → ℤ) (q : Fin 3 → ℝ) : Fin 3 → ℝ := fun c => q c + m c * D c

end SD.Spec
