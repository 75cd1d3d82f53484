import Verif.Model.Layout

/-!
# The blocks the pair loops write
-/

set_option autoImplicit false

namespace SD

/-- A rectangular block: corner, height, width (the slices `X_c[0]:X_c[0]+h, X_c[1]:X_c[1]+w` of
`functions/generate_Minfinity.py` lines 377-498). -/
structure Block where
  corner : ℕ × ℕ
  h : ℕ
  w : ℕ

/-- Which slices are assigned for the pair `(a1, a2)`: the branches of
`functions/generate_Minfinity.py` lines 373-498 and `functions/generate_R2Bexact.py` lines 401-657
(both loops have the same branches). -/
def blocksOf (Ns Nd a1 a2 : ℕ) : List Block :=
  let K := submatrix_coords_tuple a1 a2 Ns Nd
  if is_sphere a1 Ns && is_sphere a2 Ns then
    [⟨K.A, 3, 3⟩, ⟨K.Bt, 3, 3⟩, ⟨K.C, 3, 3⟩, ⟨K.Gt, 3, 5⟩, ⟨K.Ht, 3, 5⟩, ⟨K.M, 5, 5⟩,
      ⟨K.Bt21, 3, 3⟩, ⟨K.Gt21, 3, 5⟩, ⟨K.Ht21, 3, 5⟩]
  else if is_sphere a1 Ns && is_dumbbell_bead_1 a2 Ns Nd then
    [⟨K.M14, 3, 3⟩, ⟨K.M24, 3, 3⟩, ⟨K.M34, 5, 3⟩]
  else if is_sphere a1 Ns then [⟨K.M15, 3, 3⟩, ⟨K.M25, 3, 3⟩, ⟨K.M35, 5, 3⟩]
  else if is_dumbbell_bead_1 a1 Ns Nd && is_dumbbell_bead_1 a2 Ns Nd then [⟨K.M44, 3, 3⟩]
  else if is_dumbbell_bead_1 a1 Ns Nd && is_dumbbell_bead_2 a2 Ns Nd then [⟨K.M45, 3, 3⟩]
  else [⟨K.M55, 3, 3⟩]

end SD
