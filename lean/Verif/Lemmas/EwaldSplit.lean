import Verif.Lemmas.LatticeDeriv
import Verif.Lemmas.GaussLattice
import Verif.Lemmas.EwaldScale

/-!
# The sum over images and waves does not depend on where it is split: the Gaussians
-/

set_option autoImplicit false

namespace SD.Ewald

open Spec Filter Topology

/-- The chain of the Gaussian. -/
noncomputable def gaussChain (c : ℝ) (n : ℕ) (s : ℝ) : ℝ := (-2 * c) ^ n * Real.exp (-(c * s ^ 2))

/-- The chain of the square of the distance times the Gaussian. -/
noncomputable def sqChain (c : ℝ) (n : ℕ) (s : ℝ) : ℝ :=
  ((-2 * c) ^ n * s ^ 2 + 2 * n * (-2 * c) ^ (n - 1)) * Real.exp (-(c * s ^ 2))

theorem gauss_hd (c s : ℝ) : HasDerivAt (fun s => Real.exp (-(c * s ^ 2))) (-(2 * c * s) * Real.exp (-(c * s ^ 2))) s := by
  have h1 := ((((hasDerivAt_id s).fun_pow 2).const_mul c).fun_neg).exp
  refine hd_congr h1 (fun _ => rfl) ?_
  simp
  ring

theorem gaussChain_chain (c : ℝ) : Chain (gaussChain c) := fun n s _ => by
  refine hd_congr ((gauss_hd c s).const_mul ((-2 * c) ^ n)) (fun _ => rfl) ?_
  unfold gaussChain
  rw [pow_succ]
  ring

theorem sqChain_chain (c : ℝ) : Chain (sqChain c) := fun n s _ => by
  have h1 : HasDerivAt (fun s : ℝ => (-2 * c) ^ n * s ^ 2 + 2 * n * (-2 * c) ^ (n - 1)) ((-2 * c) ^ n * (2 * s)) s := by
    have := (((hasDerivAt_id s).fun_pow 2).const_mul ((-2 * c) ^ n)).add_const (2 * n * (-2 * c) ^ (n - 1))
    refine hd_congr this (fun _ => rfl) ?_
    simp
  refine hd_congr (h1.fun_mul (gauss_hd c s)) (fun _ => rfl) ?_
  unfold sqChain
  cases n with
  | zero => simp; ring
  | succ n => simp only [Nat.add_sub_cancel]; push_cast; rw [pow_succ, pow_succ]; ring

theorem gaussChain_quick {β : Type} {c : ℝ} (hc : 0 < c) (n : ℕ) : Quick fun y : β × Vec3 => gaussChain c n (len y.2) :=
  (gauss_quick hc).const_mul _

theorem sqChain_quick {β : Type} {c : ℝ} (hc : 0 < c) (n : ℕ) : Quick fun y : β × Vec3 => sqChain c n (len y.2) :=
  (((mild_const _).mul (mild_len.pow 2)).add (mild_const _)).mul_quick (gauss_quick hc)

theorem wave_quick {A : Vec3 → ℝ} (hA : Quick fun y : Vec3 × Vec3 => A y.2) :
    Quick fun y : Vec3 × Vec3 => Real.cos (inner3 y.2 y.1) * A y.2 :=
  (mild_bounded fun _ => Real.abs_cos_le_one _).mul_quick hA

section
variable {B K : Mat3} (hB : Spans B) (hK : Spans K)
include hB hK

/-- Second derivatives of a radial field and of its waves. -/
theorem Pois.second {g : ℕ → ℝ → ℝ} (hg : Chain g) (hq : ∀ n, Quick fun y : Unit × Vec3 => g n (len y.2)) {A : Vec3 → ℝ}
    (hA : Quick fun y : Vec3 × Vec3 => A y.2) (h : Pois B K (fun y => g 0 (len y)) fun k r => Real.cos (inner3 k r) * A k)
    (m l : Fin 3) : Pois B K (fun y => dlt l m * g 1 (len y) + y l * y m * g 2 (len y))
      fun k r => -(k m * k l * (Real.cos (inner3 k r) * A k)) := by
  have hs : Mild fun k : Vec3 × Vec3 => Real.sin (inner3 k.2 k.1) := mild_bounded fun _ => Real.abs_sin_le_one _
  have h1 : Pois B K (fun y => y l * g 1 (len y)) fun k r => -(k l * Real.sin (inner3 k r) * A k) :=
    h.pd hB hK (l := l) (fun y hy => hg.hasPd 0 hy l) (fun k r => (wave_jet k (A k)).one r (Set.mem_univ _) l)
      ((mild_coord l).mul_quick (hq 1)) ((((mild_coord l).mul hs).mul_quick hA).neg)
  exact h1.pd hB hK (l := m) (fun y hy => HasPd.congr ((hasPd_coord y m l).mul (hg.hasPd 1 hy m)) (by ring))
    (fun k r => (wave_jet k (A k)).two r (Set.mem_univ _) m l)
    (((hq 1).const_mul _).add (((mild_coord l).mul (mild_coord m)).mul_quick (hq 2)))
    ((((mild_coord m).mul (mild_coord l)).mul_quick (wave_quick hA)).neg)

/-- The Laplacian. -/
theorem Pois.laplace {g : ℕ → ℝ → ℝ} (hg : Chain g) (hq : ∀ n, Quick fun y : Unit × Vec3 => g n (len y.2)) {A : Vec3 → ℝ}
    (hA : Quick fun y : Vec3 × Vec3 => A y.2) (h : Pois B K (fun y => g 0 (len y)) fun k r => Real.cos (inner3 k r) * A k) :
    Pois B K (fun y => bump 3 g 0 (len y)) fun k r => Real.cos (inner3 k r) * (-(len k ^ 2) * A k) := by
  have s := fun l => h.second hB hK hg hq hA l l
  refine (((s 0).add hB hK (s 1)).add hB hK (s 2)).congr (fun y => ?_) fun k r => ?_
  · unfold bump
    rw [sq_len, Fin.sum_univ_three]
    simp [dlt]
    ring
  · rw [sq_len, Fin.sum_univ_three]; ring

/-- The Stokes operator. -/
theorem Pois.stokes {g : ℕ → ℝ → ℝ} (hg : Chain g) (hq : ∀ n, Quick fun y : Unit × Vec3 => g n (len y.2)) {A : Vec3 → ℝ}
    (hA : Quick fun y : Vec3 × Vec3 => A y.2) (h : Pois B K (fun y => g 0 (len y)) fun k r => Real.cos (inner3 k r) * A k)
    (i j : Fin 3) : Pois B K (fun y => T0 (pOf g) (qOf g) i j y)
      fun k r => Real.cos (inner3 k r) * ((k i * k j - dlt i j * len k ^ 2) * A k) := by
  have h1 := (h.laplace hB hK hg hq hA).const_mul (dlt i j)
  have h2 := (h.second hB hK hg hq hA i j).const_mul (-1)
  refine (h1.add hB hK h2).congr (fun y => ?_) fun k r => ?_
  · unfold T0 pOf qOf bump
    rw [show dlt j i = dlt i j from dlt_comm j i]
    simp
    ring
  · ring

end

/-- The waves of the Gaussian. -/
noncomputable def gaussWave (V c : ℝ) (k : Vec3) : ℝ := Real.sqrt (Real.pi / c) ^ 3 / V * Real.exp (-(1 / (4 * c) * len k ^ 2))

theorem gaussWave_quick {β : Type} (V : ℝ) {c : ℝ} (hc : 0 < c) : Quick fun y : β × Vec3 => gaussWave V c y.2 :=
  (gauss_quick (by positivity)).const_mul _

section
variable {a b : Fin 3} (hab : a ≠ b) {d : Fin 3 → ℝ} (hd : ∀ i, 0 < d i) (γ : ℝ)
include hab hd

theorem gauss_pois {c : ℝ} (hc : 0 < c) : Pois (shearedBox d a b γ) (dualBox d a b γ) (fun y => gaussChain c 0 (len y))
    fun k r => Real.cos (inner3 k r) * gaussWave (d 0 * d 1 * d 2) c k := by
  refine ⟨gaussChain_quick hc 0, wave_quick (gaussWave_quick _ hc), fun r _ => ?_⟩
  have h := poisson_box hab hd γ hc r
  unfold gaussChain gaussWave
  simp only [pow_zero, one_mul]
  rw [h, ← tsum_mul_left]
  exact tsum_congr fun g => by ring

theorem sq_pois {c : ℝ} (hc : 0 < c) : Pois (shearedBox d a b γ) (dualBox d a b γ) (fun y => sqChain c 0 (len y))
    fun k r => Real.cos (inner3 k r) * ((6 * c - len k ^ 2) / (4 * c ^ 2) * gaussWave (d 0 * d 1 * d 2) c k) := by
  have hB := spans_box hab hd γ
  have hK := spans_dualBox hab hd γ
  have h0 := gauss_pois hab hd γ hc
  have h1 := h0.laplace hB hK (gaussChain_chain c) (gaussChain_quick hc) (gaussWave_quick _ hc)
  refine ((h1.add hB hK (h0.const_mul (6 * c))).const_mul (1 / (4 * c ^ 2))).congr (fun y => ?_) fun k r => ?_
  · simp only [sqChain, gaussChain, bump]
    simp
    field_simp
    ring
  · field_simp
    ring

/-- The Stokes tensor of the square of the distance times the Gaussian, summed over images. -/
theorem stokes_pois {c : ℝ} (hc : 0 < c) (i j : Fin 3) : Pois (shearedBox d a b γ) (dualBox d a b γ)
    (fun y => T0 (pOf (sqChain c)) (qOf (sqChain c)) i j y)
    fun k r => Real.cos (inner3 k r) * ((k i * k j - dlt i j * len k ^ 2)
      * ((6 * c - len k ^ 2) / (4 * c ^ 2) * gaussWave (d 0 * d 1 * d 2) c k)) := by
  refine (sq_pois hab hd γ hc).stokes (spans_box hab hd γ) (spans_dualBox hab hd γ) (sqChain_chain c) (sqChain_quick hc) ?_ i j
  refine (Mild.mul_quick (f := fun y : Vec3 × Vec3 => (6 * c - len y.2 ^ 2) / (4 * c ^ 2)) ?_ (gaussWave_quick _ hc))
  have : Mild fun y : Vec3 × Vec3 => (6 * c + -1 * len y.2 ^ 2) * (4 * c ^ 2)⁻¹ :=
    ((mild_const _).add ((mild_const _).mul (mild_len.pow 2))).mul (mild_const _)
  refine (show (fun y : Vec3 × Vec3 => (6 * c - len y.2 ^ 2) / (4 * c ^ 2)) = _ from ?_) ▸ this
  funext y
  ring

end

end SD.Ewald
