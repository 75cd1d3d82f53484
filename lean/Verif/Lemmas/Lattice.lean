import Verif.Lemmas.Rotation
import Mathlib.Tactic.FinCases

set_option autoImplicit false
set_option linter.unusedSimpArgs false

namespace SD

open Spec

theorem npMod_one (x : ℝ) : npMod x 1 = x - ⌊x⌋ := by simp [npMod]

theorem vecMat3_eq (c : Vec3) (B : Mat3) : vecMat3 c B = combine B c := by
  funext k; simp [vecMat3, combine, Fin.sum_univ_three]

theorem spans_iff (B : Mat3) : Spans B ↔ (Matrix.of B).det ≠ 0 := by
  rw [det3]; rfl

theorem combine_sub (B : Mat3) (c d : Vec3) (k : Fin 3) :
    combine B (fun i => c i - d i) k = combine B c k - combine B d k := by
  simp only [combine]; ring

theorem combine_inj {B : Mat3} (h : Spans B) {c d : Vec3} (e : combine B c = combine B d) : c = d := by
  obtain ⟨Bi, -, -, -, h1, -⟩ := inv3_some ((spans_iff B).mp h)
  rw [← h1 c, ← h1 d, vecMat3_eq c, vecMat3_eq d, e]

/-- Folding coordinates into `[-1/2, 1/2)`. -/
theorem fold_coords {B : Mat3} (h : Spans B) (x : Vec3) : ∃ Bi, inv3 B = some Bi ∧
    InCell B (vecMat3 (fun i => npMod (vecMat3 x Bi i + 0.5) 1 - 0.5) B) ∧
    InLattice B (fun k => x k - vecMat3 (fun i => npMod (vecMat3 x Bi i + 0.5) 1 - 0.5) B k) := by
  obtain ⟨Bi, hBi, -, -, h1, h2⟩ := inv3_some ((spans_iff B).mp h)
  refine ⟨Bi, hBi, ⟨_, fun i => ?_, vecMat3_eq _ _⟩, fun i => ⌊vecMat3 x Bi i + 0.5⌋, ?_⟩
  · rw [npMod_one]
    have a := Int.floor_le (vecMat3 x Bi i + 0.5)
    have b := Int.lt_floor_add_one (vecMat3 x Bi i + 0.5)
    have e : (0.5 : ℝ) = 1 / 2 := by norm_num
    constructor
    · linarith
    · linarith
  · funext k
    have hx : x = combine B (vecMat3 x Bi) := by rw [← vecMat3_eq, h2]
    rw [vecMat3_eq]
    conv_lhs => enter [1]; rw [hx]
    rw [← combine_sub]
    congr 1
    funext i
    rw [npMod_one]; ring

theorem cell_unique {B : Mat3} (h : Spans B) {y y' : Vec3} (hy : InCell B y) (hy' : InCell B y')
    (hl : InLattice B fun k => y k - y' k) : y = y' := by
  obtain ⟨c, hc, rfl⟩ := hy
  obtain ⟨d, hd, rfl⟩ := hy'
  obtain ⟨n, hn⟩ := hl
  have e : (fun i => c i - d i) = fun i => (n i : ℝ) := by
    apply combine_inj h
    rw [← hn]
    funext k
    rw [combine_sub]
  have : c = d := by
    funext i
    have ei := congrFun e i
    have h1 : ((n i : ℤ) : ℝ) < 1 := by linarith [(hc i).2, (hd i).1]
    have h2 : (-1 : ℝ) < ((n i : ℤ) : ℝ) := by linarith [(hc i).1, (hd i).2]
    have h3 : n i < 1 := by exact_mod_cast h1
    have h4 : -1 < n i := by exact_mod_cast h2
    have h5 : n i = 0 := by omega
    rw [h5] at ei
    push_cast at ei
    linarith
  rw [this]

theorem inLattice_add {B : Mat3} {u v : Vec3} (hu : InLattice B u) (hv : InLattice B v) :
    InLattice B fun k => u k + v k := by
  obtain ⟨m, rfl⟩ := hu
  obtain ⟨n, rfl⟩ := hv
  refine ⟨fun i => m i + n i, ?_⟩
  funext k
  simp only [combine]; push_cast; ring

theorem inLattice_neg {B : Mat3} {u : Vec3} (hu : InLattice B u) : InLattice B fun k => -u k := by
  obtain ⟨m, rfl⟩ := hu
  refine ⟨fun i => -m i, ?_⟩
  funext k
  simp only [combine]; push_cast; ring

theorem inLattice_zero {B : Mat3} : InLattice B fun _ => 0 := by
  refine ⟨fun _ => 0, ?_⟩
  funext k
  simp [combine]

/-- The sheared basis for a simple shear strain. -/
theorem shear_basis_shear {L Ot : Vec3} {Et : Mat3} {a b : Fin 3} {g : ℝ}
    (hs : IsShear Ot Et a b g) (k i : Fin 3) :
    shear_basis_vectors (basis_canonical L) L Ot Et k i
      = (if i = k then L k else 0) + if k = b ∧ i = a then npMod (g * L b) (L a) else 0 := by
  unfold shear_basis_vectors
  have h := hs (basis_canonical L k) i
  have e : npCross Ot (basis_canonical L k) i + matVec3 Et (basis_canonical L k) i
      = if i = a then g * basis_canonical L k b else 0 := by
    rw [← h]
    rw [matVec3_eq]
    rfl
  rw [e]
  congr 1
  · unfold basis_canonical
    by_cases hk : k = i
    · rw [if_pos hk, if_pos hk.symm]
    · rw [if_neg hk, if_neg fun h => hk h.symm]
  · by_cases hi : i = a
    · by_cases hk : k = b
      · rw [if_pos hi, if_pos ⟨hk, hi⟩, hi]
        simp [basis_canonical, hk]
      · rw [if_pos hi, if_neg fun h => hk h.1]
        simp [basis_canonical, hk, npMod]
    · rw [if_neg hi, if_neg fun h => hi h.2]
      simp [npMod]

end SD
