import Verif.Model.Green

/-!
# `close_particles` in an unbounded domain
-/

set_option autoImplicit false

namespace SD

/-- One entry of the four parallel arrays returned by `close_particles`: `functions/shared.py` lines
516-517. -/
structure ClosePair where
  i : ℕ
  j : ℕ
  disp : Vec3
  dist : ℝ
  ratio : ℝ

/-- `average_size[a, b]`: `functions/shared.py` line 504. -/
noncomputable def averageSize (size : ℕ → ℝ) (a b : ℕ) : ℝ := 0.5 * (size b + size a)

/-- `distance_over_average_size[a, b]`: `functions/shared.py` lines 503 and 505 (`pdist` is the Euclidean
distance). -/
noncomputable def distanceOverAverage (pos : ℕ → Vec3) (size : ℕ → ℝ) (a b : ℕ) : ℝ :=
  norm3 (pos a - pos b) / averageSize size a b

open Classical in
/-- `close_particles` for a non-periodic domain: `functions/shared.py` lines 447 and 500-514.
`np.where` lists the index pairs row by row; `n` is the number of beads. -/
noncomputable def close_particles (n : ℕ) (pos : ℕ → Vec3) (size : ℕ → ℝ) (cutoff_factor : ℝ) :
    List ClosePair :=
  let cutoff := 2 * cutoff_factor
  let all := (List.range n).flatMap fun a => (List.range n).map fun b => (a, b)
  let closer := all.filter fun f => decide (distanceOverAverage pos size f.1 f.2 < cutoff)
  let closer := closer.filter fun f => decide (f.1 ≤ f.2)
  closer.map fun f =>
    { i := f.1
      j := f.2
      disp := fun k => 2 * (pos f.2 k - pos f.1 k) / (size f.1 + size f.2)
      dist := distanceOverAverage pos size f.1 f.2
      ratio := size f.2 / size f.1 }

end SD
