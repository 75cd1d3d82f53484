import Verif.Lemmas.EqualRows

/-!
# The table that comes with the program, for equal beads (C85)

The condition of C60 on a table of resistance scalars is decided here for the numbers in
`scalars_general_resistance_d.npy`, for beads of one size: it holds at all distances but in a narrow range, and in
that range it fails.
-/

set_option autoImplicit false

namespace SD

open Spec Near

/-- All beads have the radius `a`. -/
def Spec.EqualBeads (P : PosData) (a : ℝ) : Prop := ∀ x < beads P, radius P x = a

/-- Distance of two beads in radii. -/
noncomputable def Spec.radiiApart (P : PosData) (a : ℝ) (x y : ℕ) : ℝ :=
  len (fun i => centre P y i - centre P x i) / a

theorem equal_tabulated {P : PosData} {a : ℝ} (ha : 0 < a) (hE : EqualBeads P a) (k : ℝ) :
    Tabulated shippedTable.lam P k := by
  intro x hx y hy _
  rw [hE x hx, hE y hy, div_self ha.ne']
  exact ⟨1, by simp [shippedTable], by norm_num⟩

theorem equal_link {P : PosData} {a : ℝ} (hE : EqualBeads P a) {k : ℝ} {x y : ℕ} (hx : x < beads P)
    (hy : y < beads P) {d : Fin 3 → ℝ} {s : ℝ} (h : openLink k (centre P) (radius P) x y = some (d, s)) :
    s = radiiApart P a x y := by
  unfold openLink at h
  dsimp only at h
  split at h
  · simp only [Option.some.injEq, Prod.mk.injEq] at h
    rw [← h.2, hE x hx, hE y hy, radiiApart]
    congr 1; ring
  · exact absurd h (by simp)

/-- **C85** (no gain). Beads of one size, no two of which are between 2.0092 and 2.0231 radii apart: with the table
that comes with the program the near-field matrix is found, symmetric and positive semidefinite, for any number of
spheres and dumbbells, any cutoff and either setting of the bead-bead switch. -/
theorem C85_dissipates {P : PosData} {a : ℝ} (ha : 0 < a) (hE : EqualBeads P a) (hP : Sensible P)
    (hgap : ∀ x < beads P, ∀ y < beads P, x ≠ y → radiiApart P a x y ≤ 2.0092 ∨ 2.0231 ≤ radiiApart P a x y)
    {k : ℝ} (hk : 0 < k) {mu : ℝ} (hmu : 0 ≤ mu) (bb : Bool) :
    ∃ R, generate_R2Bexact shippedTable P k mu bb = some R ∧ R.rows = side P ∧ R.cols = side P ∧
      (∀ i j, R.get i j = R.get j i) ∧
      ∀ v : ℕ → ℝ, 0 ≤ ∑ i ∈ Finset.range (side P), v i * mulVec (side P) R.get v i := by
  refine C60_near hP hk (equal_tabulated ha hE k) hmu bb fun x hx y hy hxy d s hl => ?_
  rw [hE x hx, hE y hy, div_self ha.ne', equal_link hE hx hy hl]
  exact shipped_dissipative (hgap x hx y hy hxy.ne) ha

/-- **C85** (gain). Two equal spheres between 2.0093 and 2.0230 radii apart, within the cutoff: with the table that
comes with the program the near-field matrix has motions in which the fluid does work on the spheres. -/
theorem C85_gain {P : PosData} (h2 : P.Ns = 2) (h0 : P.Nd = 0) {a : ℝ} (ha : 0 < a) (hE : EqualBeads P a)
    (hP : Sensible P) (h1 : 2.0093 ≤ radiiApart P a 0 1) (h3 : radiiApart P a 0 1 ≤ 2.0230) {k : ℝ}
    (hk : 1.0115 < k) {mu : ℝ} (hmu : 0 < mu) (bb : Bool) :
    ∃ R, generate_R2Bexact shippedTable P k mu bb = some R ∧
      ∃ v : ℕ → ℝ, ∑ i ∈ Finset.range (side P), v i * mulVec (side P) R.get v i < 0 := by
  have hb : beads P = 2 := by unfold beads; omega
  have hx : 0 < beads P := by omega
  have hy : 1 < beads P := by omega
  have hm : (radius P 0 + radius P 1) / 2 = a := by rw [hE 0 hx, hE 1 hy]; ring
  have hl : openLink k (centre P) (radius P) 0 1 = some
      (fun i => (centre P 1 i - centre P 0 i) / len (fun i => centre P 1 i - centre P 0 i), radiiApart P a 0 1) := by
    unfold openLink
    dsimp only
    rw [hm, if_pos]
    · rfl
    · show radiiApart P a 0 1 < 2 * k
      norm_num at h3 hk; linarith
  obtain ⟨R, e1, e2⟩ := C60_pair h2 h0 hP (by norm_num at hk; linarith) (equal_tabulated ha hE k) hmu bb hl
  refine ⟨R, e1, ?_⟩
  by_contra hc
  push Not at hc
  have hd := e2.mp hc
  rw [hE 0 hx, hE 1 hy, div_self ha.ne'] at hd
  obtain ⟨p, q, r, hg⟩ := shipped_gains h1 h3 ha
  exact absurd (hd.shear (a * p) (a * p) q (-q) r (-r)) (not_le.mpr hg)

/-! ## Examples -/

/-- Two spheres of radius 1 whose centres are `r` apart. -/
noncomputable def apartP (r : ℝ) : PosData where
  Ns := 2
  Nd := 0
  sphereSize := fun _ => 1
  spherePos := fun i => if i = 0 then 0 else ![r, 0, 0]
  dumbSize := fun _ => 1
  dumbPos := fun _ => 0
  dumbDx := fun _ => 0

theorem apartP_equal (r : ℝ) : EqualBeads (apartP r) 1 := by
  intro x hx
  have : x < 2 := hx
  interval_cases x <;> simp [radius, apartP]

theorem apartP_len {r : ℝ} (hr : 0 ≤ r) {x y : ℕ} (hx : x < 2) (hy : y < 2) (hxy : x ≠ y) :
    len (fun i => centre (apartP r) y i - centre (apartP r) x i) = r := by
  unfold len
  rw [Fin.sum_univ_three]
  interval_cases x <;> interval_cases y <;> first
    | exact absurd rfl hxy
    | (simp [centre, apartP, Real.sqrt_sq hr])

theorem apartP_sensible {r : ℝ} (hr : 1 / 10 ^ 8 < r) : Sensible (apartP r) := by
  refine ⟨fun x hx => ?_, fun x hx y hy hxy => ?_⟩
  · rw [apartP_equal r x hx]; norm_num
  · rw [apartP_len (le_trans (by positivity) hr.le) hy hx hxy.symm]; exact hr

theorem apartP_radii {r : ℝ} (hr : 0 ≤ r) {x y : ℕ} (hx : x < 2) (hy : y < 2) (hxy : x ≠ y) :
    radiiApart (apartP r) 1 x y = r := by
  rw [radiiApart, apartP_len hr hx hy hxy, div_one]

example : ∃ R, generate_R2Bexact shippedTable (apartP 2.015) 2 1 true = some R ∧
    ∃ v : ℕ → ℝ, ∑ i ∈ Finset.range 22, v i * mulVec 22 R.get v i < 0 :=
  C85_gain (P := apartP 2.015) rfl rfl one_pos (apartP_equal _) (apartP_sensible (by norm_num))
    (by rw [apartP_radii (by norm_num) (by norm_num) (by norm_num) (by norm_num)]; norm_num)
    (by rw [apartP_radii (by norm_num) (by norm_num) (by norm_num) (by norm_num)]; norm_num) (by norm_num) one_pos true

example : ∃ R, generate_R2Bexact shippedTable (apartP 2.005) 2 1 true = some R ∧
    ∀ v : ℕ → ℝ, 0 ≤ ∑ i ∈ Finset.range 22, v i * mulVec 22 R.get v i := by
  obtain ⟨R, h1, -, -, -, h2⟩ := C85_dissipates (P := apartP 2.005) one_pos (apartP_equal _)
    (apartP_sensible (by norm_num)) (fun x hx y hy hxy => .inl (by
      rw [apartP_radii (by norm_num) hx hy hxy]; norm_num)) (k := 2) (by norm_num) (mu := 1) (by norm_num) true
  exact ⟨R, h1, h2⟩

end SD
