import Verif.Lemmas.Lattice
import Mathlib.Analysis.SpecialFunctions.Trigonometric.Deriv

/-!
# C28, C30, C31: rotations, periodic wrap, background flow
-/

set_option autoImplicit false
set_option linter.unusedSimpArgs false

namespace SD

open Spec

/-! ## C28 -/

/-- When no arrow has zero length, the Euler step turns every arrow about its sphere's angular velocity,
right-handedly, through the angle `|Ω| dt`, and carries it along with the centre. -/
theorem C28_rotation (n : ℕ) (pos : ℕ → Vec3) (rots : Rots) (newpos Oa : ℕ → Vec3) (dt : ℝ)
    (h : ∀ i < n, ∀ j, rots i j ≠ pos i) :
    ∃ r, euler_timestep_rotation n pos rots newpos Oa dt = some r ∧
      ∀ i < n, ∀ j k, r i j k = newpos i k + spin (Oa i) dt (fun m => rots i j m - pos i m) k := by
  unfold euler_timestep_rotation
  dsimp only
  rw [if_pos fun i hi j => by rw [rotate_arrow_some _ _ _ _ _ (h i hi j)]; rfl]
  refine ⟨_, rfl, fun i hi j k => ?_⟩
  rw [if_pos hi, rotate_arrow_some _ _ _ _ _ (h i hi j)]
  rfl

/-- The second-order step is the same with the extrapolated angular velocity. -/
theorem C28_rotation_ab2 (n : ℕ) (pos : ℕ → Vec3) (rots : Rots) (newpos Oa Oa' : ℕ → Vec3) (dt : ℝ)
    (h : ∀ i < n, ∀ j, rots i j ≠ pos i) :
    ∃ r, ab2_timestep_rotation n pos rots newpos Oa Oa' dt = some r ∧
      ∀ i < n, ∀ j k, r i j k = newpos i k
        + spin (fun m => (3 * Oa i m - Oa' i m) / 2) dt (fun m => rots i j m - pos i m) k := by
  obtain ⟨r, hr, e⟩ := C28_rotation n pos rots newpos (fun i k => 1.5 * Oa i k - 0.5 * Oa' i k) dt h
  refine ⟨r, hr, fun i hi j k => ?_⟩
  rw [e i hi j k]
  have : (fun m => 1.5 * Oa i m - 0.5 * Oa' i m) = fun m => (3 * Oa i m - Oa' i m) / 2 := by
    funext m; norm_num; ring
  rw [this]

theorem turn_dotp {u : Vec3} (hu : dotp u u = 1) (α : ℝ) (v v' : Vec3) :
    dotp (turn u α v) (turn u α v') = dotp v v' := by
  have hcs := Real.sin_sq_add_cos_sq α
  simp only [dotp, turn, cross, Fin.sum_univ_three, Matrix.cons_val] at hu ⊢
  linear_combination
    ((v 0 * v' 0 + v 1 * v' 1 + v 2 * v' 2)
      - (u 0 * v 0 + u 1 * v 1 + u 2 * v 2) * (u 0 * v' 0 + u 1 * v' 1 + u 2 * v' 2)) * hcs
    + (Real.sin α ^ 2 * (v 0 * v' 0 + v 1 * v' 1 + v 2 * v' 2)
      + (1 - Real.cos α) ^ 2 * ((u 0 * v 0 + u 1 * v 1 + u 2 * v 2)
        * (u 0 * v' 0 + u 1 * v' 1 + u 2 * v' 2))) * hu

theorem unit_axis {w : Vec3} (hw : w ≠ 0) :
    dotp (fun k => w k / len w) (fun k => w k / len w) = 1 := by
  have hO := (len_pos_of_ne hw).ne'
  have hsq := len_sq' w
  simp only [dotp, Fin.sum_univ_three]
  field_simp
  linarith

/-- Rotation keeps all inner products, hence lengths and angles. -/
theorem spin_dotp (w : Vec3) (t : ℝ) (v v' : Vec3) : dotp (spin w t v) (spin w t v') = dotp v v' := by
  by_cases hw : w = 0
  · rw [hw, spin_zero, spin_zero]
  · exact turn_dotp (unit_axis hw) _ _ _

/-- The two arrows of a sphere keep their lengths and the angle between them. -/
theorem C28_rigid (n : ℕ) (pos : ℕ → Vec3) (rots : Rots) (newpos Oa : ℕ → Vec3) (dt : ℝ) (r : Rots)
    (h : euler_timestep_rotation n pos rots newpos Oa dt = some r) (i : ℕ) (hi : i < n) (j j' : Fin 2) :
    dotp (fun k => r i j k - newpos i k) (fun k => r i j' k - newpos i k)
      = dotp (fun k => rots i j k - pos i k) (fun k => rots i j' k - pos i k) := by
  have hne : ∀ i < n, ∀ j, rots i j ≠ pos i := by
    intro i hi j hc
    have : ¬ ∀ i < n, ∀ j, (rotate_arrow (pos i) (rots i j) (newpos i) (Oa i) dt).isSome := by
      intro hall
      have := hall i hi j
      rw [hc, rotate_arrow_none] at this
      exact absurd this (by simp)
    unfold euler_timestep_rotation at h
    dsimp only at h
    rw [if_neg this] at h
    exact absurd h (by simp)
  obtain ⟨r', hr', e⟩ := C28_rotation n pos rots newpos Oa dt hne
  obtain rfl : r = r' := Option.some.inj (h.symm.trans hr')
  rw [← spin_dotp (Oa i) dt (fun k => rots i j k - pos i k)]
  congr 1
  · funext k; rw [e i hi j k]; ring
  · funext k; rw [e i hi j' k]; ring

/-- The specification of the rotation is the solution of `dv/dt = Ω × v`, so the step is exact for a constant
angular velocity. -/
theorem C28_flow (w v : Vec3) (t : ℝ) (k : Fin 3) :
    HasDerivAt (fun s => spin w s v k) (cross w (spin w t v) k) t ∧ spin w 0 v = v := by
  by_cases hw : w = 0
  · have : (fun s => spin w s v k) = fun _ => v k := by
      funext s; rw [hw, spin_zero]
    rw [this, hw, spin_zero]
    refine ⟨?_, spin_zero _ _⟩
    have e : cross (0 : Vec3) v k = 0 := by fin_cases k <;> simp [cross]
    rw [e]
    exact hasDerivAt_const _ _
  · have hO := (len_pos_of_ne hw).ne'
    constructor
    · have h1 : HasDerivAt (fun s : ℝ => len w * s) (len w) t := by
        simpa using (hasDerivAt_id t).const_mul (len w)
      have hc := h1.cos
      have hs := h1.sin
      have := ((hc.mul_const (v k)).add (hs.mul_const (cross (fun k => w k / len w) v k))).add
        ((((hasDerivAt_const t (1 : ℝ)).sub hc).mul_const (dotp (fun k => w k / len w) v)).mul_const
          (w k / len w))
      refine (this.congr_deriv ?_)
      have hsq := len_sq' w
      have h2 : len w * len w = w 0 ^ 2 + w 1 ^ 2 + w 2 ^ 2 := by rw [← hsq]; ring
      fin_cases k <;>
      · simp [spin, turn, cross, dotp, Fin.sum_univ_three]
        field_simp
        first
          | linear_combination (-Real.sin (len w * t) * len w * v 0) * hsq
          | linear_combination (-Real.sin (len w * t) * len w * v 1) * hsq
          | linear_combination (-Real.sin (len w * t) * len w * v 2) * hsq
    · funext k
      simp [spin, turn]

/-- With no angular velocity the arrows only move with the centre. -/
theorem C28_still (n : ℕ) (pos : ℕ → Vec3) (rots : Rots) (newpos Oa : ℕ → Vec3) (dt : ℝ) (r : Rots)
    (h : euler_timestep_rotation n pos rots newpos Oa dt = some r)
    (hne : ∀ i < n, ∀ j, rots i j ≠ pos i) (i : ℕ) (hi : i < n) (hO : Oa i = 0) (j : Fin 2) (k : Fin 3) :
    r i j k - newpos i k = rots i j k - pos i k := by
  obtain ⟨r', hr', e⟩ := C28_rotation n pos rots newpos Oa dt hne
  obtain rfl : r = r' := Option.some.inj (h.symm.trans hr')
  rw [e i hi j k, hO, spin_zero]
  ring

/-- A sphere with an arrow of zero length stops the step. -/
theorem C28_degenerate (n : ℕ) (pos : ℕ → Vec3) (rots : Rots) (newpos Oa : ℕ → Vec3) (dt : ℝ)
    (i : ℕ) (hi : i < n) (j : Fin 2) (h : rots i j = pos i) :
    euler_timestep_rotation n pos rots newpos Oa dt = none := by
  unfold euler_timestep_rotation
  dsimp only
  refine if_neg fun hall => ?_
  have := hall i hi j
  rw [h, rotate_arrow_none] at this
  exact absurd this (by simp)

/-- A quarter turn about the z axis takes an arrow along x to one along y, at the new centre. -/
example : ∃ r, euler_timestep_rotation 1 (fun _ => ![1, 2, 3]) (fun _ j => if j = 0 then ![2, 2, 3] else ![1, 2, 4])
    (fun _ => ![5, 5, 5]) (fun _ => ![0, 0, 1]) (Real.pi / 2) = some r ∧ r 0 0 = ![5, 6, 5] := by
  obtain ⟨r, hr, e⟩ := C28_rotation 1 (fun _ => ![1, 2, 3])
    (fun _ j => if j = 0 then ![2, 2, 3] else ![1, 2, 4]) (fun _ => ![5, 5, 5]) (fun _ => ![0, 0, 1])
    (Real.pi / 2) (by
      intro i _ j h
      fin_cases j
      · have := congrFun h 0; norm_num at this
      · have := congrFun h 2
        simp only [Fin.mk_one, if_neg (by decide : ¬ (1 : Fin 2) = 0), Matrix.cons_val] at this
        norm_num at this)
  refine ⟨r, hr, ?_⟩
  have hl : len ![0, 0, 1] = 1 := by rw [len_eq_norm]; simp
  funext k
  rw [e 0 (by norm_num) 0 k]
  fin_cases k <;> simp [spin, turn, hl, cross, dotp, Fin.sum_univ_three] <;> norm_num

/-! ## C30 -/

theorem npMod_range {x m : ℝ} (hm : 0 < m) : 0 ≤ npMod x m ∧ npMod x m < m := by
  unfold npMod
  have a := Int.floor_le (x / m)
  have b := Int.lt_floor_add_one (x / m)
  rw [le_div_iff₀ hm] at a
  rw [div_lt_iff₀ hm] at b
  constructor
  · linarith
  · nlinarith

/-- The code's box vectors are the folded box. -/
theorem shear_basis_folded {L Ot : Vec3} {Et : Mat3} (hL : ∀ i, 0 < L i) :
    FoldedBox L Ot Et (shear_basis_vectors (basis_canonical L) L Ot Et) := by
  have hb : ∀ k, basis_canonical L k = edge L k := by
    intro k; funext i
    unfold basis_canonical edge
    by_cases h : k = i
    · rw [if_pos h, if_pos h.symm]
    · rw [if_neg h, if_neg fun h' => h h'.symm]
  intro k i
  unfold shear_basis_vectors
  rw [hb, add_sub_cancel_left]
  refine ⟨npMod_range (hL i), ⌊(npCross Ot (edge L k) i + matVec3 Et (edge L k) i) / L i⌋, ?_⟩
  unfold npMod
  have : matVec3 Et (edge L k) i = app Et (edge L k) i := by
    rw [matVec3_eq]; rfl
  rw [this]
  have : npCross Ot (edge L k) i = cross Ot (edge L k) i := rfl
  rw [this]; ring

theorem folded_unique {L O : Vec3} {E B B' : Mat3} (h : FoldedBox L O E B) (h' : FoldedBox L O E B') :
    B = B' := by
  funext k i
  obtain ⟨⟨a, b⟩, n, hn⟩ := h k i
  obtain ⟨⟨a', b'⟩, n', hn'⟩ := h' k i
  have hL : 0 < L i := lt_of_le_of_lt a b
  have e : B k i - B' k i = ((n' - n : ℤ) : ℝ) * L i := by push_cast; linarith
  have h1 : ((n' - n : ℤ) : ℝ) < 1 := by
    by_contra hc
    push Not at hc
    nlinarith
  have h2 : (-1 : ℝ) < ((n' - n : ℤ) : ℝ) := by
    by_contra hc
    push Not at hc
    nlinarith
  have h3 : n' - n < 1 := by exact_mod_cast h1
  have h4 : -1 < n' - n := by exact_mod_cast h2
  have h5 : n' - n = 0 := by omega
  rw [h5] at e
  push_cast at e
  linarith

/-- A box with positive sides has exactly one folded box. -/
theorem C30_folded_box {L : Vec3} (hL : ∀ i, 0 < L i) (Ot : Vec3) (Et : Mat3) :
    ∃! B, FoldedBox L Ot Et B :=
  ⟨_, shear_basis_folded hL, fun _ h => folded_unique h (shear_basis_folded hL)⟩

section
variable {bl tr Ot : Vec3} {Et B : Mat3} (hL : ∀ i, bl i < tr i)
  (hB : FoldedBox (fun i => tr i - bl i) Ot Et B)
include hL hB

theorem wrap_basis (x : Vec3) : wrap_around x bl tr Ot Et
    = (inv3 B).map fun Bi => vecMat3 (fun i => npMod (vecMat3 x Bi i + 0.5) 1 - 0.5) B := by
  rw [folded_unique hB (shear_basis_folded fun i => sub_pos.mpr (hL i))]
  rfl

/-- The wrapped point lies in the cell of the folded box centred on the origin and differs from the original
by an integer combination of the box vectors; it is the only such point. -/
theorem C30_wrap (hs : Spans B) (x : Vec3) :
    ∃ y, wrap_around x bl tr Ot Et = some y ∧ InCell B y ∧ InLattice B (fun k => x k - y k) ∧
      ∀ y', InCell B y' → InLattice B (fun k => x k - y' k) → y' = y := by
  obtain ⟨Bi, hBi, hc, hl⟩ := fold_coords hs x
  refine ⟨_, by rw [wrap_basis hL hB, hBi]; rfl, hc, hl, fun y' hc' hl' => ?_⟩
  apply cell_unique hs hc' hc
  have := inLattice_add hl (inLattice_neg hl')
  refine (congrArg (InLattice B) ?_).mp this
  funext k; ring

/-- Points that differ by box vectors wrap to the same point. -/
theorem C30_images (hs : Spans B) (x x' : Vec3) (h : InLattice B fun k => x k - x' k) :
    wrap_around x bl tr Ot Et = wrap_around x' bl tr Ot Et := by
  obtain ⟨y, hy, hc, hl, -⟩ := C30_wrap hL hB hs x
  obtain ⟨y', hy', hc', hl', -⟩ := C30_wrap hL hB hs x'
  rw [hy, hy']
  congr 1
  apply cell_unique hs hc hc'
  have := inLattice_add (inLattice_add (inLattice_neg hl) h) hl'
  refine (congrArg (InLattice B) ?_).mp this
  funext k; ring

/-- Wrapping twice is wrapping once. -/
theorem C30_idempotent (hs : Spans B) (x : Vec3) :
    (wrap_around x bl tr Ot Et).bind (fun y => wrap_around y bl tr Ot Et)
      = wrap_around x bl tr Ot Et := by
  obtain ⟨y, hy, hc, hl, -⟩ := C30_wrap hL hB hs x
  rw [hy, Option.bind_some, ← hy]
  exact (C30_images hL hB hs x y hl).symm

/-- Points already in the cell stay. -/
theorem C30_fixed (hs : Spans B) (x : Vec3) (hc : InCell B x) : wrap_around x bl tr Ot Et = some x := by
  obtain ⟨y, hy, -, -, hu⟩ := C30_wrap hL hB hs x
  rw [hy, hu x hc]
  have : (fun k => x k - x k) = fun _ => 0 := by funext k; ring
  rw [this]
  exact inLattice_zero

/-- A degenerate box stops the program. -/
theorem C30_degenerate (hs : ¬ Spans B) (x : Vec3) : wrap_around x bl tr Ot Et = none := by
  rw [wrap_basis hL hB, inv3_none]
  · rfl
  · by_contra hc
    exact hs ((spans_iff B).mpr hc)

end

theorem folded_shear {L Ot : Vec3} {Et B : Mat3} {a b : Fin 3} {g : ℝ} (hL : ∀ i, 0 < L i)
    (hs : IsShear Ot Et a b g) (hB : FoldedBox L Ot Et B) (k i : Fin 3) :
    B k i = (if i = k then L k else 0) + if k = b ∧ i = a then npMod (g * L b) (L a) else 0 := by
  rw [folded_unique hB (shear_basis_folded hL)]
  exact shear_basis_shear hs k i

/-- Simple shear of any size, along one axis and growing along another: the folded box always spans space,
and it generates the same lattice as the box that has been sheared without folding. -/
theorem C30_simple_shear {L Ot : Vec3} {Et B : Mat3} {a b : Fin 3} {g : ℝ} (hL : ∀ i, 0 < L i)
    (hab : a ≠ b) (hs : IsShear Ot Et a b g) (hB : FoldedBox L Ot Et B) :
    Spans B ∧ ∀ v, InLattice B v ↔ InLattice (shearedBox L a b g) v := by
  have hf := folded_shear hL hs hB
  constructor
  · have h0 := (hL 0).ne'
    have h1 := (hL 1).ne'
    have h2 := (hL 2).ne'
    unfold Spans
    simp only [hf]
    fin_cases a <;> fin_cases b <;> simp at hab ⊢ <;> simp [h0, h1, h2]
  · have key : ∀ n : Fin 3 → ℝ, combine B n
        = combine (shearedBox L a b g) (fun i => if i = a then n a - n b * ⌊g * L b / L a⌋ else n i) := by
      intro n
      funext k
      simp only [combine, hf, shearedBox, npMod]
      fin_cases a <;> fin_cases b <;> fin_cases k <;> simp at hab ⊢ <;> ring
    have key' : ∀ n : Fin 3 → ℝ, combine (shearedBox L a b g) n
        = combine B (fun i => if i = a then n a + n b * ⌊g * L b / L a⌋ else n i) := by
      intro n
      funext k
      simp only [combine, hf, shearedBox, npMod]
      fin_cases a <;> fin_cases b <;> fin_cases k <;> simp at hab ⊢ <;> ring
    intro v
    constructor
    · rintro ⟨n, rfl⟩
      refine ⟨fun i => if i = a then n a - n b * ⌊g * L b / L a⌋ else n i, ?_⟩
      rw [key]
      congr 1
      funext i
      by_cases hi : i = a
      · simp only [if_pos hi]; push_cast; rfl
      · simp only [if_neg hi]
    · rintro ⟨n, rfl⟩
      refine ⟨fun i => if i = a then n a + n b * ⌊g * L b / L a⌋ else n i, ?_⟩
      rw [key']
      congr 1
      funext i
      by_cases hi : i = a
      · simp only [if_pos hi]; push_cast; rfl
      · simp only [if_neg hi]

/-- With the default arguments (no rotation, the identity as strain) the box is not sheared. -/
theorem C30_default {L : Vec3} (hL : ∀ i, 0 < L i) :
    FoldedBox L ![0, 0, 0] ![![1, 0, 0], ![0, 1, 0], ![0, 0, 1]] (edge L) := by
  intro k i
  rw [sub_self]
  refine ⟨⟨le_rfl, hL i⟩, if i = k then 1 else 0, ?_⟩
  fin_cases k <;> fin_cases i <;> simp [edge, cross, app, dotp, Fin.sum_univ_three]

/-- A box of sides 4, 5, 6 under shear 0.7 along x, growing along z. -/
example : ∃ y, wrap_around ![100, -3, 17] ![-2, 0, 0] ![2, 5, 6] ![0, 7 / 20, 0]
    ![![0, 0, 7 / 20], ![0, 0, 0], ![7 / 20, 0, 0]] = some y ∧
    InLattice (shearedBox ![4, 5, 6] 0 2 (7 / 10)) (fun k => ![100, -3, 17] k - y k) := by
  have hsh : IsShear ![0, 7 / 20, 0] ![![0, 0, 7 / 20], ![0, 0, 0], ![7 / 20, 0, 0]] 0 2 (7 / 10) := by
    intro x k
    fin_cases k <;> simp [cross, app, dotp, Fin.sum_univ_three] <;> ring
  have hL : ∀ i, (![-2, 0, 0] : Vec3) i < (![2, 5, 6] : Vec3) i := by
    intro i; fin_cases i <;> norm_num
  have e : (fun i => (![2, 5, 6] : Vec3) i - (![-2, 0, 0] : Vec3) i) = ![4, 5, 6] := by
    funext i; fin_cases i <;> norm_num
  have hL' : ∀ i, 0 < (![4, 5, 6] : Vec3) i := by
    intro i; fin_cases i <;> norm_num
  obtain ⟨B, hB, -⟩ := C30_folded_box hL' ![0, 7 / 20, 0] ![![0, 0, 7 / 20], ![0, 0, 0], ![7 / 20, 0, 0]]
  obtain ⟨hs, hlat⟩ := C30_simple_shear hL' (by decide) hsh hB
  obtain ⟨y, hy, -, hl, -⟩ := C30_wrap hL (e ▸ hB) hs ![100, -3, 17]
  exact ⟨y, hy, (hlat _).mp hl⟩

/-! ## C31 -/

/-- Spheres are advected by the affine field and spun by its angular velocity. -/
theorem C31_spheres (Ua Oa : ℕ → Vec3) (E : ℕ → Mat3) (U O : Vec3) (x : ℕ → Vec3) (c : Vec3)
    (i : ℕ) (k : Fin 3) :
    (add_background_flow_spheres Ua Oa E U O x c).1 i k = Ua i k + affineFlow U O c (E i) (x i) k ∧
    (add_background_flow_spheres Ua Oa E U O x c).2 i k = Oa i k + O k := by
  refine ⟨?_, rfl⟩
  simp only [add_background_flow_spheres, affineFlow, matVec3_eq, npCross, cross, app, dotp,
    Fin.sum_univ_three]
  ring

/-- Dumbbells are advected by the same affine field: adding the background flow to a dumbbell's mean and
half-difference velocity adds the field at each bead to that bead's velocity. -/
theorem C31_dumbbells (Ub HalfDUb : ℕ → Vec3) (E : Mat3) (U O : Vec3) (xbar deltax : ℕ → Vec3) (c : Vec3)
    (i : ℕ) (k : Fin 3) :
    (add_background_flow_dumbbells Ub HalfDUb E U O xbar deltax c).1 i k
        - (add_background_flow_dumbbells Ub HalfDUb E U O xbar deltax c).2 i k
      = (Ub i k - HalfDUb i k) + affineFlow U O c E (fun m => xbar i m - deltax i m / 2) k ∧
    (add_background_flow_dumbbells Ub HalfDUb E U O xbar deltax c).1 i k
        + (add_background_flow_dumbbells Ub HalfDUb E U O xbar deltax c).2 i k
      = (Ub i k + HalfDUb i k) + affineFlow U O c E (fun m => xbar i m + deltax i m / 2) k := by
  simp only [add_background_flow_dumbbells, affineFlow, matVec3_eq, npCross, cross, app, dotp,
    Fin.sum_univ_three]
  constructor <;> fin_cases k <;> simp <;> ring

/-- So a dumbbell whose two beads move with the flow stays a pair of tracers: its centre moves with the field
at its centre and its displacement with the field's difference. -/
theorem C31_tracer (E : Mat3) (U O : Vec3) (xbar deltax : ℕ → Vec3) (c : Vec3) (i : ℕ) (k : Fin 3) :
    (add_background_flow_dumbbells (fun _ _ => 0) (fun _ _ => 0) E U O xbar deltax c).1 i k
      = affineFlow U O c E (xbar i) k ∧
    2 * (add_background_flow_dumbbells (fun _ _ => 0) (fun _ _ => 0) E U O xbar deltax c).2 i k
      = affineFlow U O c E (fun m => xbar i m + deltax i m / 2) k
        - affineFlow U O c E (fun m => xbar i m - deltax i m / 2) k := by
  simp only [add_background_flow_dumbbells, affineFlow, matVec3_eq, npCross, cross, app, dotp,
    Fin.sum_univ_three]
  constructor <;> fin_cases k <;> simp <;> ring

example : (add_background_flow_spheres (fun _ => ![1, 0, 0]) (fun _ => 0)
    (fun _ => ![![0, 0, 1], ![0, 0, 0], ![1, 0, 0]]) ![0, 0, 0] ![0, 1, 0] (fun _ => ![5, 5, 5]) ![0, 0, 2]).1 7 0
    = 7 := by
  rw [(C31_spheres _ _ _ _ _ _ _ _ _).1]
  simp [affineFlow, cross, app, dotp, Fin.sum_univ_three]
  norm_num

end SD
