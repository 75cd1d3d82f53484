import Verif.Props.Twist
import Verif.Lemmas.AxialTwist
import Verif.Props.Dissipation
import Verif.Lemmas.Origin

/-!
# The far field of two spheres that turn about their line of centres (C102)

The far-field mobility matrix of the code keeps few multipoles. For turning about the line of centres the exact torques
are known (C101), and the angular velocities that the matrix gives for them differ from the exact ones only by high powers
of the radii over the distance.
-/

set_option autoImplicit false

namespace SD

open Spec Twist

/-- A vector along the line with the direction of `d`, of the given size, among the components of a bead: as a torque, or as an
angular velocity. All other components vanish. -/
noncomputable def Spec.alongLine (d : Fin 3 → ℝ) (size : ℝ) : Comp → ℝ
  | .t i => size * (d i / len d)
  | _ => 0

/-- A grand vector of two spheres consists of vectors along their line of centres, of the given sizes, and nothing else. -/
def Spec.Axial (P : PosData) (size : Fin 2 → ℝ) (v : ℕ → ℝ) : Prop :=
  ∀ x : Fin 2, ∀ c, v (row P.Ns x c) = alongLine (fun i => centre P 1 i - centre P 0 i) (size x) c

/-- Torques on two spheres, about their line of centres, are those of the exact flow around a sphere that turns with unit angular
velocity and one that is held, up to errors between multiples of high powers of the radii over the distance. -/
def Spec.NearlyExact (a b r mu : ℝ) (torque : Fin 2 → ℝ) : Prop :=
  (3 * a ^ 6 * b ^ 5 / r ^ 8 ≤ ownTorque a b r - torque 0 / (8 * Real.pi * mu) ∧
    ownTorque a b r - torque 0 / (8 * Real.pi * mu) ≤ 1008 * a ^ 6 * b ^ 5 / r ^ 8) ∧
  3 * a ^ 6 * b ^ 6 * (a ^ 2 + b ^ 2) / r ^ 11 ≤ torque 1 / (8 * Real.pi * mu) - farTorque a b r ∧
  torque 1 / (8 * Real.pi * mu) - farTorque a b r ≤ 7168 * a ^ 6 * b ^ 6 * (a ^ 2 + b ^ 2) / r ^ 11

/-! ## Lemmas -/

section

variable {a b r : ℝ}

/-- How much faster the fluid turns at the distance `r - x` than at the distance `r`. -/
noncomputable def extra (r x : ℝ) : ℝ := 1 / (r - x) ^ 3 - 1 / r ^ 3

theorem extra_bounds (hr : 0 < r) {x : ℝ} (h0 : 0 ≤ x) (h1 : x ≤ r / 2) : 3 * x / r ^ 4 ≤ extra r x ∧ extra r x ≤ 14 * x / r ^ 4 := by
  have ht : 0 < r - x := by linarith
  have e : extra r x = x * (r ^ 2 + r * (r - x) + (r - x) ^ 2) / ((r - x) ^ 3 * r ^ 3) := by
    unfold extra; field_simp; ring
  obtain ⟨t, rfl⟩ : ∃ t, x = r - t := ⟨r - x, by ring⟩
  rw [e]
  have ht : 0 < t := by linarith
  have h2 : t ≤ r := by linarith
  have h3 : r ≤ 2 * t := by linarith
  simp only [sub_sub_cancel]
  constructor
  · rw [div_le_div_iff₀ (by positivity) (by positivity)]
    have k : 3 * t ^ 3 ≤ r * (r ^ 2 + r * t + t ^ 2) := by
      nlinarith [mul_nonneg (sub_nonneg.2 h2) (by positivity : 0 ≤ r ^ 2 + 2 * r * t + 3 * t ^ 2)]
    have := mul_le_mul_of_nonneg_left k (by positivity : 0 ≤ (r - t) * r ^ 3)
    nlinarith [this]
  · rw [div_le_div_iff₀ (by positivity) (by positivity)]
    have k : r * (r ^ 2 + r * t + t ^ 2) ≤ 14 * t ^ 3 := by
      nlinarith [mul_nonneg (sub_nonneg.2 h3) (by positivity : 0 ≤ r ^ 2 + 3 * r * t + 7 * t ^ 2)]
    have := mul_le_mul_of_nonneg_left k (by positivity : 0 ≤ (r - t) * r ^ 3)
    nlinarith [this]

theorem own_succ (k : ℕ) : ownImages a b r (k + 1) = (farImages a b r k).image a r := by
  simp only [ownImages, farImages, Function.iterate_succ_apply', Rotlet.back]

/-- Where the images are, and how strong, if the spheres are far apart. -/
theorem far_apart (ha : 0 < a) (hb : 0 < b) (hr : 2 * (a + b) ≤ r) (k : ℕ) :
    (0 ≤ (ownImages a b r k).offset ∧ (ownImages a b r k).offset ≤ 2 * a ^ 2 / r ∧ (ownImages a b r k).offset ≤ r / 2) ∧
    (0 ≤ (farImages a b r k).offset ∧ (farImages a b r k).offset ≤ 2 * b ^ 2 / r ∧ (farImages a b r k).offset ≤ r / 2) := by
  have hr' : a + b < r := by linarith
  have h1 := own_offset ha hb hr' k
  have h2 := far_offset ha hb hr' k
  have h3 := edge_lt ha hr'
  have h4 := edge_lt hb (by linarith : b + a < r)
  have h5 : a ^ 2 / (r - b) ≤ 2 * a ^ 2 / r := by
    rw [div_le_div_iff₀ (by linarith) (by linarith)]; nlinarith [sq_nonneg a]
  have h6 : b ^ 2 / (r - a) ≤ 2 * b ^ 2 / r := by
    rw [div_le_div_iff₀ (by linarith) (by linarith)]; nlinarith [sq_nonneg b]
  exact ⟨⟨h1.1, by linarith, by linarith⟩, h2.1.le, by linarith, by linarith⟩

theorem cube_frac {p c : ℝ} (hr : 0 < r) (hc : 0 < c) (h1 : r / 2 ≤ p) : (c / p) ^ 3 ≤ 8 * c ^ 3 / r ^ 3 := by
  have hp : 0 < p := by linarith
  calc (c / p) ^ 3 ≤ (2 * c / r) ^ 3 := by
        refine pow_le_pow_left₀ (by positivity) ?_ 3
        rw [div_le_div_iff₀ hp hr]; nlinarith
    _ = _ := by rw [div_pow]; ring

theorem far_small (ha : 0 < a) (hb : 0 < b) (hr : 2 * (a + b) ≤ r) (k : ℕ) :
    0 ≤ -(farImages a b r k).strength ∧ -(farImages a b r k).strength ≤ (ownImages a b r k).strength * (8 * b ^ 3 / r ^ 3) := by
  have hr' : a + b < r := by linarith
  refine ⟨by have := (far_bound ha hb hr' k).1; linarith, ?_⟩
  have e : -(farImages a b r k).strength = (ownImages a b r k).strength * (b / (r - (ownImages a b r k).offset)) ^ 3 := by
    simp only [farImages, Rotlet.image]; ring
  rw [e]
  exact mul_le_mul_of_nonneg_left (cube_frac (by linarith) hb (by have := (far_apart ha hb hr k).1.2.2; linarith))
    (own_bound ha hb hr' k).1.le

theorem own_small (ha : 0 < a) (hb : 0 < b) (hr : 2 * (a + b) ≤ r) (k : ℕ) :
    (ownImages a b r (k + 1)).strength ≤ (ownImages a b r k).strength * (64 * a ^ 3 * b ^ 3 / r ^ 6) := by
  have hr' : a + b < r := by linarith
  have hr0 : 0 < r := by linarith
  obtain ⟨h1, h2⟩ := far_small ha hb hr k
  have e : (ownImages a b r (k + 1)).strength = -(farImages a b r k).strength * (a / (r - (farImages a b r k).offset)) ^ 3 := by
    rw [own_succ]; rfl
  have h3 := cube_frac hr0 ha (p := r - (farImages a b r k).offset) (by have := (far_apart ha hb hr k).2.2.2; linarith)
  have h4 : 0 ≤ 8 * a ^ 3 / r ^ 3 := by positivity
  calc _ = _ := e
    _ ≤ -(farImages a b r k).strength * (8 * a ^ 3 / r ^ 3) := mul_le_mul_of_nonneg_left h3 h1
    _ ≤ (ownImages a b r k).strength * (8 * b ^ 3 / r ^ 3) * (8 * a ^ 3 / r ^ 3) := mul_le_mul_of_nonneg_right h2 h4
    _ = _ := by field_simp; ring

theorem own_zero : ownImages a b r 0 = ⟨a ^ 3, 0⟩ := rfl

theorem own_total (ha : 0 < a) (hb : 0 < b) (hr : 2 * (a + b) ≤ r) : ∑' k, (ownImages a b r k).strength ≤ 2 * a ^ 3 := by
  have hr' : a + b < r := by linarith
  have hr0 : 0 < r := by linarith
  have hq : 64 * a ^ 3 * b ^ 3 / r ^ 6 ≤ 1 / 2 := by
    have h : 16 * (a * b) ≤ r ^ 2 := by nlinarith [sq_nonneg (a - b)]
    have h3 := pow_le_pow_left₀ (by positivity) h 3
    rw [div_le_iff₀ (by positivity)]
    nlinarith [mul_pow a b 3, (by positivity : 0 < (a * b) ^ 3)]
  have hk : ∀ k, (ownImages a b r k).strength ≤ a ^ 3 * (1 / 2) ^ k := by
    intro k
    induction k with
    | zero => simp [own_zero]
    | succ k ih =>
      have h1 := own_small ha hb hr k
      have h2 := (own_bound ha hb hr' k).1
      have h3 := mul_le_mul_of_nonneg_left hq h2.le
      have e : a ^ 3 * (1 / 2 : ℝ) ^ (k + 1) = a ^ 3 * (1 / 2) ^ k * (1 / 2) := by rw [pow_succ]; ring
      rw [e]
      linarith
  have hg : Summable fun k : ℕ => a ^ 3 * (1 / 2 : ℝ) ^ k := summable_geometric_two.mul_left _
  calc _ ≤ ∑' k : ℕ, a ^ 3 * (1 / 2 : ℝ) ^ k := (own_summable ha hb hr').tsum_le_tsum hk hg
    _ = _ := by rw [tsum_mul_left, tsum_geometric_two]; ring

/-- The angular velocity of sphere 1. -/
theorem own_turns (ha : 0 < a) (hb : 0 < b) (hr : 2 * (a + b) ≤ r) :
    1 + 3 * a ^ 3 * b ^ 5 / r ^ 8 ≤ ownTorque a b r / a ^ 3 + farTorque a b r / r ^ 3 ∧
    ownTorque a b r / a ^ 3 + farTorque a b r / r ^ 3 ≤ 1 + 448 * a ^ 3 * b ^ 5 / r ^ 8 := by
  have hr' : a + b < r := by linarith
  have hr0 : 0 < r := by linarith
  have so := own_summable ha hb hr'
  have sf := far_summable ha hb hr'
  set t : ℕ → ℝ := fun k => -(farImages a b r k).strength * extra r (farImages a b r k).offset with ht
  have et : ∀ k, t k = (ownImages a b r (k + 1)).strength / a ^ 3 + (farImages a b r k).strength / r ^ 3 := by
    intro k
    have := (far_apart ha hb hr k).2.2.2
    have h : 0 < r - (farImages a b r k).offset := by linarith
    rw [own_succ]
    simp only [ht, extra, Rotlet.image]
    field_simp
    ring
  have hsum : ownTorque a b r / a ^ 3 + farTorque a b r / r ^ 3 = 1 + ∑' k, t k := by
    simp only [et]
    rw [Summable.tsum_add (((summable_nat_add_iff 1).2 so).div_const _) (sf.div_const _), tsum_div_const, tsum_div_const,
      ownTorque, so.tsum_eq_zero_add, own_zero, farTorque]
    field_simp
    ring
  have hle : ∀ k, 0 ≤ t k ∧ t k ≤ (ownImages a b r k).strength * (224 * b ^ 5 / r ^ 8) := by
    intro k
    obtain ⟨-, h1, h2, h3⟩ := far_apart ha hb hr k
    obtain ⟨h4, h5⟩ := far_small ha hb hr k
    obtain ⟨h6, h7⟩ := extra_bounds hr0 h1 h3
    have h8 : 0 ≤ extra r (farImages a b r k).offset := le_trans (by positivity) h6
    refine ⟨mul_nonneg h4 h8, ?_⟩
    have h9 : extra r (farImages a b r k).offset ≤ 28 * b ^ 2 / r ^ 5 := by
      calc _ ≤ _ := h7
        _ ≤ 14 * (2 * b ^ 2 / r) / r ^ 4 := by gcongr
        _ = _ := by field_simp; ring
    have h10 := own_bound ha hb hr' k
    calc t k ≤ (ownImages a b r k).strength * (8 * b ^ 3 / r ^ 3) * (28 * b ^ 2 / r ^ 5) :=
          mul_le_mul h5 h9 h8 (mul_nonneg h10.1.le (by positivity))
      _ = _ := by field_simp; ring
  have st : Summable t := (so.mul_right _).of_nonneg_of_le (fun k => (hle k).1) fun k => (hle k).2
  rw [hsum]
  constructor
  · have h0 : t 0 ≤ ∑' k, t k := st.le_tsum 0 fun k _ => (hle k).1
    have hx := far_apart ha hb hr 0
    have e1 : -(farImages a b r 0).strength = a ^ 3 * b ^ 3 / r ^ 3 := by
      simp only [farImages, own_zero, Rotlet.image, sub_zero]; rw [div_pow]; ring
    have e2 : (farImages a b r 0).offset = b ^ 2 / r := by simp only [farImages, own_zero, Rotlet.image, sub_zero]
    have h1 := (extra_bounds hr0 hx.2.1 hx.2.2.2).1
    have h2 : 3 * a ^ 3 * b ^ 5 / r ^ 8 ≤ t 0 := by
      calc _ = a ^ 3 * b ^ 3 / r ^ 3 * (3 * (b ^ 2 / r) / r ^ 4) := by field_simp
        _ ≤ a ^ 3 * b ^ 3 / r ^ 3 * extra r (b ^ 2 / r) := by
            rw [e2] at h1
            exact mul_le_mul_of_nonneg_left h1 (by positivity)
        _ = t 0 := by simp only [ht, e1, e2]
    linarith
  · have h1 : ∑' k, t k ≤ ∑' k, (ownImages a b r k).strength * (224 * b ^ 5 / r ^ 8) :=
      st.tsum_le_tsum (fun k => (hle k).2) (so.mul_right _)
    rw [tsum_mul_right] at h1
    have h2 := mul_le_mul_of_nonneg_right (own_total ha hb hr) (by positivity : 0 ≤ 224 * b ^ 5 / r ^ 8)
    have h3 : 2 * a ^ 3 * (224 * b ^ 5 / r ^ 8) = 448 * a ^ 3 * b ^ 5 / r ^ 8 := by ring
    linarith

/-- The angular velocity of sphere 2. -/
theorem far_turns (ha : 0 < a) (hb : 0 < b) (hr : 2 * (a + b) ≤ r) :
    3 * a ^ 8 * b ^ 3 / r ^ 11 ≤ -(ownTorque a b r / r ^ 3 + farTorque a b r / b ^ 3) ∧
    -(ownTorque a b r / r ^ 3 + farTorque a b r / b ^ 3) ≤ 3584 * a ^ 8 * b ^ 3 / r ^ 11 := by
  have hr' : a + b < r := by linarith
  have hr0 : 0 < r := by linarith
  have so := own_summable ha hb hr'
  have so1 := (summable_nat_add_iff 1).2 so
  have sf := far_summable ha hb hr'
  set t : ℕ → ℝ := fun k => (ownImages a b r k).strength * extra r (ownImages a b r k).offset with ht
  have et : ∀ k, t k = -((ownImages a b r k).strength / r ^ 3 + (farImages a b r k).strength / b ^ 3) := by
    intro k
    have := (far_apart ha hb hr k).1.2.2
    have h : 0 < r - (ownImages a b r k).offset := by linarith
    simp only [ht, extra, farImages, Rotlet.image]
    field_simp
    ring
  have st0 : Summable t := by
    simp only [funext et]
    exact ((so.div_const _).add (sf.div_const _)).neg
  have t0 : t 0 = 0 := by simp [ht, own_zero, extra]
  have hsum : -(ownTorque a b r / r ^ 3 + farTorque a b r / b ^ 3) = ∑' k, t (k + 1) := by
    have h := st0.tsum_eq_zero_add
    rw [t0, zero_add] at h
    rw [← h]
    simp only [et]
    rw [tsum_neg, Summable.tsum_add (so.div_const _) (sf.div_const _), tsum_div_const, tsum_div_const, ownTorque, farTorque]
  have hle : ∀ k, 0 ≤ t (k + 1) ∧ t (k + 1) ≤ (ownImages a b r k).strength * (1792 * a ^ 5 * b ^ 3 / r ^ 11) := by
    intro k
    obtain ⟨⟨h1, h2, h3⟩, -⟩ := far_apart ha hb hr (k + 1)
    have h5 := own_small ha hb hr k
    obtain ⟨h6, h7⟩ := extra_bounds hr0 h1 h3
    have h8 : 0 ≤ extra r (ownImages a b r (k + 1)).offset := le_trans (by positivity) h6
    refine ⟨mul_nonneg (own_bound ha hb hr' _).1.le h8, ?_⟩
    have h9 : extra r (ownImages a b r (k + 1)).offset ≤ 28 * a ^ 2 / r ^ 5 := by
      calc _ ≤ _ := h7
        _ ≤ 14 * (2 * a ^ 2 / r) / r ^ 4 := by gcongr
        _ = _ := by field_simp; ring
    have h10 := own_bound ha hb hr' k
    calc t (k + 1) ≤ (ownImages a b r k).strength * (64 * a ^ 3 * b ^ 3 / r ^ 6) * (28 * a ^ 2 / r ^ 5) :=
          mul_le_mul h5 h9 h8 (mul_nonneg h10.1.le (by positivity))
      _ = _ := by field_simp; ring
  have st : Summable fun k => t (k + 1) := (summable_nat_add_iff 1).2 st0
  rw [hsum]
  constructor
  · have h0 : t 1 ≤ ∑' k, t (k + 1) := st.le_tsum 0 fun k _ => (hle k).1
    obtain ⟨⟨h1, h2, h3⟩, -⟩ := far_apart ha hb hr 1
    have h4 := (extra_bounds hr0 h1 h3).1
    have hx := far_apart ha hb hr 0
    have hq : 0 < r - (farImages a b r 0).offset := by linarith [hx.2.2.2]
    have e0 : -(farImages a b r 0).strength = a ^ 3 * b ^ 3 / r ^ 3 := by
      simp only [farImages, own_zero, Rotlet.image, sub_zero]; rw [div_pow]; ring
    have e1 : a ^ 6 * b ^ 3 / r ^ 6 ≤ (ownImages a b r 1).strength := by
      have : (ownImages a b r 1).strength = -(farImages a b r 0).strength * (a / (r - (farImages a b r 0).offset)) ^ 3 := by
        rw [own_succ]; rfl
      rw [this, e0]
      have h : (a / r) ^ 3 ≤ (a / (r - (farImages a b r 0).offset)) ^ 3 := by
        refine pow_le_pow_left₀ (by positivity) ?_ 3
        exact div_le_div_of_nonneg_left ha.le hq (by linarith [hx.2.1])
      calc _ = a ^ 3 * b ^ 3 / r ^ 3 * (a / r) ^ 3 := by field_simp
        _ ≤ _ := mul_le_mul_of_nonneg_left h (by positivity)
    have e2 : a ^ 2 / r ≤ (ownImages a b r 1).offset := by
      rw [own_succ]
      exact div_le_div_of_nonneg_left (by positivity) hq (by linarith [hx.2.1])
    have h5 : 3 * (a ^ 2 / r) / r ^ 4 ≤ extra r (ownImages a b r 1).offset := le_trans (by gcongr) h4
    have h6 : 3 * a ^ 8 * b ^ 3 / r ^ 11 ≤ t 1 := by
      calc _ = a ^ 6 * b ^ 3 / r ^ 6 * (3 * (a ^ 2 / r) / r ^ 4) := by field_simp
        _ ≤ t 1 := mul_le_mul e1 h5 (by positivity) (own_bound ha hb hr' _).1.le
    linarith
  · have h1 : ∑' k, t (k + 1) ≤ ∑' k, (ownImages a b r k).strength * (1792 * a ^ 5 * b ^ 3 / r ^ 11) :=
      st.tsum_le_tsum (fun k => (hle k).2) (so.mul_right _)
    rw [tsum_mul_right] at h1
    have h2 := mul_le_mul_of_nonneg_right (own_total ha hb hr) (by positivity : 0 ≤ 1792 * a ^ 5 * b ^ 3 / r ^ 11)
    have h3 : 2 * a ^ 3 * (1792 * a ^ 5 * b ^ 3 / r ^ 11) = 3584 * a ^ 8 * b ^ 3 / r ^ 11 := by ring
    linarith

end

/-- The far-field motion of two spheres with torques along their line of centres. -/
theorem axial_motion {P : PosData} (hP : Sensible P) (hN : P.Ns = 2) (hD : P.Nd = 0) {r : ℝ}
    (hr : len (fun i => centre P 1 i - centre P 0 i) = r) (hfar : 2 * (radius P 0 + radius P 1) ≤ r) (mu : ℝ) (bb : Bool)
    {x y : ℝ} {f : ℕ → ℝ} (hf : Axial P ![x, y] f) :
    Axial P ![1 / (8 * Real.pi * mu) * (x / radius P 0 ^ 3 + y / r ^ 3), 1 / (8 * Real.pi * mu) * (y / radius P 1 ^ 3 + x / r ^ 3)]
      (mulVec (side P) (generate_Minfinity P mu bb).get f) := by
  have hbd : beads P = 2 := by unfold beads; omega
  have h0 := hP.radius_pos 0 (by omega)
  have h1 := hP.radius_pos 1 (by omega)
  have hr0 : 0 < r := by linarith
  set d : Vec3 := fun i => centre P 1 i - centre P 0 i with hd
  have hS : Separate P := by
    have k : len (fun i => centre P 0 i - centre P 1 i) = r := by
      rw [← hr, ← len_neg]; congr 1; funext i; simp [hd]
    intro u hu w hw huw
    rw [hbd] at hu hw
    obtain ⟨rfl, rfl⟩ | ⟨rfl, rfl⟩ : (u = 0 ∧ w = 1) ∨ (u = 1 ∧ w = 0) := by omega
    · rw [k]; norm_num; linarith
    · rw [hr]; norm_num; linarith
  have hrow : ∀ u < 2, ∀ c, HasRow P.Ns P.Nd u c := by
    intro u hu c
    cases c <;> simp only [HasRow] <;> omega
  have ax : ∀ (t : ℝ) c, alongLine d t c = axialTo d (t / r) c := by
    intro t c
    cases c <;> simp [alongLine, axialTo, hr, div_eq_mul_inv]; ring
  have key := fun (u : ℕ) (hu : u < 2) c => far_twist hN hD hP hS mu bb d hd (fun u => if u = 0 then x / r else y / r) f
    (fun u c hu => by
      have hu2 : u < 2 := by cases c <;> simp only [HasRow] at hu <;> omega
      have := hf ⟨u, hu2⟩ c
      rw [this, ax]
      obtain rfl | rfl : u = 0 ∨ u = 1 := by omega
      · rfl
      · rfl) (hrow u hu c)
  intro u c
  rw [ax, key u u.2 c, hr]
  congr 1
  fin_cases u <;> simp <;> ring

/-- A vector of two spheres is determined by its components. -/
theorem axial_ext {P : PosData} (hN : P.Ns = 2) (hD : P.Nd = 0) {s : Fin 2 → ℝ} {v w : ℕ → ℝ} (hv : Axial P s v) (hw : Axial P s w)
    {i : ℕ} (hi : i < side P) : v i = w i := by
  obtain ⟨u, c, h, rfl⟩ := (C48_rows P).1 i hi
  have hu : u < 2 := by cases c <;> simp only [HasRow] at h <;> omega
  exact (hv ⟨u, hu⟩ c).trans (hw ⟨u, hu⟩ c).symm

/-! ## The property -/

/-- **C102**. Two spheres of any sizes, anywhere, at least the sum of their radii apart. The torques about the line of centres that
in the exact flow (C101) turn the first with unit angular velocity and hold the second are given to the far-field
mobility matrix that the code returns, and no other loads. Then the first turns about the line, too fast by a multiple of the
eighth power of the radii over the distance; the second turns backwards, by a multiple of the eleventh power; and
nothing else moves: no sphere moves along, turns about another axis or is strained. -/
theorem C102_mobility {P : PosData} (hP : Sensible P) (hN : P.Ns = 2) (hD : P.Nd = 0) {a b r : ℝ} (ha : radius P 0 = a)
    (hb : radius P 1 = b) (hr : len (fun i => centre P 1 i - centre P 0 i) = r) (hfar : 2 * (a + b) ≤ r) {mu : ℝ} (hmu : 0 < mu)
    (bb : Bool) {f : ℕ → ℝ} (hf : Axial P ![8 * Real.pi * mu * ownTorque a b r, 8 * Real.pi * mu * farTorque a b r] f) :
    ∃ turn, Axial P turn (mulVec (side P) (generate_Minfinity P mu bb).get f) ∧
      1 + 3 * a ^ 3 * b ^ 5 / r ^ 8 ≤ turn 0 ∧ turn 0 ≤ 1 + 448 * a ^ 3 * b ^ 5 / r ^ 8 ∧
      -(3584 * a ^ 8 * b ^ 3 / r ^ 11) ≤ turn 1 ∧ turn 1 ≤ -(3 * a ^ 8 * b ^ 3 / r ^ 11) := by
  have hbd : beads P = 2 := by unfold beads; omega
  have pa : 0 < a := ha ▸ hP.radius_pos 0 (by omega)
  have pb : 0 < b := hb ▸ hP.radius_pos 1 (by omega)
  have hr0 : 0 < r := by linarith
  have hpi := Real.pi_pos
  refine ⟨_, axial_motion hP hN hD hr (by rw [ha, hb]; exact hfar) mu bb hf, ?_⟩
  have e1 : 1 / (8 * Real.pi * mu) * (8 * Real.pi * mu * ownTorque a b r / radius P 0 ^ 3 + 8 * Real.pi * mu * farTorque a b r / r ^ 3)
      = ownTorque a b r / a ^ 3 + farTorque a b r / r ^ 3 := by
    rw [ha]; field_simp
  have e2 : 1 / (8 * Real.pi * mu) * (8 * Real.pi * mu * farTorque a b r / radius P 1 ^ 3 + 8 * Real.pi * mu * ownTorque a b r / r ^ 3)
      = ownTorque a b r / r ^ 3 + farTorque a b r / b ^ 3 := by
    rw [hb]; field_simp; ring
  simp only [e1, e2, Matrix.cons_val_zero, Matrix.cons_val_one]
  obtain ⟨h1, h2⟩ := own_turns pa pb hfar
  obtain ⟨h3, h4⟩ := far_turns pa pb hfar
  exact ⟨h1, h2, by linarith, by linarith⟩

/-- The torques `X` and `Y` that the far field asks for, and how far they are from torques `A` and `B` with which it is almost right. -/
theorem torque_errors {a b r : ℝ} (pa : 0 < a) (pb : 0 < b) (hfar : 2 * (a + b) ≤ r) :
    ∃ X Y : ℝ, X / a ^ 3 + Y / r ^ 3 = 1 ∧ Y / b ^ 3 + X / r ^ 3 = 0 ∧ ∀ A B : ℝ, ∃ D, a ^ 3 * b ^ 3 ≤ D ∧ D ≤ 2 * (a ^ 3 * b ^ 3) ∧
      A - X = D * ((A / a ^ 3 + B / r ^ 3 - 1) / b ^ 3 + -(A / r ^ 3 + B / b ^ 3) / r ^ 3) ∧
      Y - B = D * (-(A / r ^ 3 + B / b ^ 3) / a ^ 3 + (A / a ^ 3 + B / r ^ 3 - 1) / r ^ 3) := by
  have hr0 : 0 < r := by linarith
  have hq : 4096 * (a ^ 3 * b ^ 3) ≤ r ^ 6 := by
    have h : 16 * (a * b) ≤ r ^ 2 := by nlinarith [sq_nonneg (a - b)]
    have h3 := pow_le_pow_left₀ (by positivity) h 3
    nlinarith [mul_pow a b 3]
  have hab : 0 < a ^ 3 * b ^ 3 := by positivity
  have hne : 0 < r ^ 6 - a ^ 3 * b ^ 3 := by nlinarith
  obtain ⟨D, hDd⟩ : ∃ D, D = a ^ 3 * b ^ 3 * r ^ 6 / (r ^ 6 - a ^ 3 * b ^ 3) := ⟨_, rfl⟩
  have D1 : a ^ 3 * b ^ 3 ≤ D := by rw [hDd, le_div_iff₀ hne]; nlinarith
  have D2 : D ≤ 2 * (a ^ 3 * b ^ 3) := by rw [hDd, div_le_iff₀ hne]; nlinarith
  have hD : D * ((a ^ 3)⁻¹ * (b ^ 3)⁻¹ - (r ^ 3)⁻¹ ^ 2) = 1 := by
    rw [hDd]; field_simp
  clear hDd
  simp only [div_eq_mul_inv]
  generalize (a ^ 3)⁻¹ = α at *
  generalize (b ^ 3)⁻¹ = β at *
  generalize (r ^ 3)⁻¹ = ρ at *
  refine ⟨D * β, -(D * ρ), by linear_combination hD, by ring, fun A B => ⟨D, D1, D2, ?_, ?_⟩⟩
  · linear_combination -A * hD
  · linear_combination B * hD

theorem error_bounds {a b r D p q : ℝ} (pa : 0 < a) (pb : 0 < b) (hfar : 2 * (a + b) ≤ r) (D1 : a ^ 3 * b ^ 3 ≤ D)
    (D2 : D ≤ 2 * (a ^ 3 * b ^ 3)) (p1 : 3 * a ^ 3 * b ^ 5 / r ^ 8 ≤ p) (p2 : p ≤ 448 * a ^ 3 * b ^ 5 / r ^ 8)
    (q1 : 3 * a ^ 8 * b ^ 3 / r ^ 11 ≤ q) (q2 : q ≤ 3584 * a ^ 8 * b ^ 3 / r ^ 11) :
    (3 * a ^ 6 * b ^ 5 / r ^ 8 ≤ D * (p / b ^ 3 + q / r ^ 3) ∧ D * (p / b ^ 3 + q / r ^ 3) ≤ 1008 * a ^ 6 * b ^ 5 / r ^ 8) ∧
    3 * a ^ 6 * b ^ 6 * (a ^ 2 + b ^ 2) / r ^ 11 ≤ D * (q / a ^ 3 + p / r ^ 3) ∧
    D * (q / a ^ 3 + p / r ^ 3) ≤ 7168 * a ^ 6 * b ^ 6 * (a ^ 2 + b ^ 2) / r ^ 11 := by
  have hr0 : 0 < r := by linarith
  have p0 : 0 ≤ p := le_trans (by positivity) p1
  have q0 : 0 ≤ q := le_trans (by positivity) q1
  have D0 : 0 ≤ D := le_trans (by positivity) D1
  have small : a ^ 5 * b ≤ r ^ 6 / 64 := by
    have i1 : a ≤ r / 2 := by linarith
    have i2 : b ≤ r / 2 := by linarith
    calc a ^ 5 * b ≤ (r / 2) ^ 5 * (r / 2) := by gcongr
      _ = _ := by ring
  refine ⟨⟨?_, ?_⟩, ?_, ?_⟩
  · calc 3 * a ^ 6 * b ^ 5 / r ^ 8 = a ^ 3 * b ^ 3 * (3 * a ^ 3 * b ^ 5 / r ^ 8 / b ^ 3 + 0) := by field_simp; ring
      _ ≤ D * (p / b ^ 3 + q / r ^ 3) := by gcongr; positivity
  · calc D * (p / b ^ 3 + q / r ^ 3)
        ≤ 2 * (a ^ 3 * b ^ 3) * (448 * a ^ 3 * b ^ 5 / r ^ 8 / b ^ 3 + 3584 * a ^ 8 * b ^ 3 / r ^ 11 / r ^ 3) := by gcongr
      _ = 896 * a ^ 6 * b ^ 5 / r ^ 8 + 7168 * (a ^ 6 * b ^ 5 / r ^ 14) * (a ^ 5 * b) := by field_simp; ring
      _ ≤ 896 * a ^ 6 * b ^ 5 / r ^ 8 + 7168 * (a ^ 6 * b ^ 5 / r ^ 14) * (r ^ 6 / 64) := by gcongr
      _ = _ := by field_simp; ring
  · calc 3 * a ^ 6 * b ^ 6 * (a ^ 2 + b ^ 2) / r ^ 11
        = a ^ 3 * b ^ 3 * (3 * a ^ 8 * b ^ 3 / r ^ 11 / a ^ 3 + 3 * a ^ 3 * b ^ 5 / r ^ 8 / r ^ 3) := by field_simp
      _ ≤ D * (q / a ^ 3 + p / r ^ 3) := by gcongr
  · calc D * (q / a ^ 3 + p / r ^ 3)
        ≤ 2 * (a ^ 3 * b ^ 3) * (3584 * a ^ 8 * b ^ 3 / r ^ 11 / a ^ 3 + 448 * a ^ 3 * b ^ 5 / r ^ 8 / r ^ 3) := by gcongr
      _ = 7168 * a ^ 8 * b ^ 6 / r ^ 11 + 896 * (a ^ 6 * b ^ 8) / r ^ 11 := by field_simp; ring
      _ ≤ 7168 * a ^ 8 * b ^ 6 / r ^ 11 + 7168 * (a ^ 6 * b ^ 8) / r ^ 11 := by gcongr; norm_num
      _ = _ := by ring

/-- **C102** (torques). The other way round: the far-field matrix has an inverse, as the code needs. If the first of the two spheres
is to turn with unit angular velocity about the line of centres, the second is to be held and there is no other motion, this asks for
torques about the line of centres and no other loads, and they are the exact ones up to multiples of `a^6 b^5 / r^8` and
`a^6 b^6 (a^2 + b^2) / r^11`: that on the first is too small, that on the second does not hold it back enough. -/
theorem C102_torques {P : PosData} (hP : Sensible P) (hN : P.Ns = 2) (hD : P.Nd = 0) {a b r : ℝ} (ha : radius P 0 = a)
    (hb : radius P 1 = b) (hr : len (fun i => centre P 1 i - centre P 0 i) = r) (hfar : 2 * (a + b) ≤ r) {mu : ℝ} (hmu : 0 < mu)
    (bb : Bool) {v : ℕ → ℝ} (hv : Axial P ![1, 0] v) :
    ∃ C torque, (generate_Minfinity P mu bb).inv = some C ∧ Axial P torque (mulVec (side P) C.get v) ∧
      NearlyExact a b r mu torque := by
  have hbd : beads P = 2 := by unfold beads; omega
  have pa : 0 < a := ha ▸ hP.radius_pos 0 (by omega)
  have pb : 0 < b := hb ▸ hP.radius_pos 1 (by omega)
  have hr0 : 0 < r := by linarith
  have hpi := Real.pi_pos
  have hS : Separate P := by
    have k : len (fun i => centre P 0 i - centre P 1 i) = r := by
      rw [← hr, ← len_neg]; congr 1; funext i; simp
    intro u hu w hw huw
    rw [hbd] at hu hw
    obtain ⟨rfl, rfl⟩ | ⟨rfl, rfl⟩ : (u = 0 ∧ w = 1) ∨ (u = 1 ∧ w = 0) := by omega
    · rw [k, ha, hb]; norm_num; linarith
    · rw [hr, ha, hb]; norm_num; linarith
  obtain ⟨C, hC, -⟩ := C59_inverse hP hS hmu (bb := bb) (Or.inr hD)
  obtain ⟨X, Y, s1, s2, hXY⟩ := torque_errors pa pb hfar
  obtain ⟨f, hf⟩ := exists_rows P fun u => alongLine (fun i => centre P 1 i - centre P 0 i)
    (![8 * Real.pi * mu * X, 8 * Real.pi * mu * Y] (if u = 0 then 0 else 1))
  have hfA : Axial P ![8 * Real.pi * mu * X, 8 * Real.pi * mu * Y] f := by
    intro u c
    rw [hf u c (by have := u.2; cases c <;> simp only [HasRow] <;> omega)]
    fin_cases u <;> rfl
  have hM := axial_motion hP hN hD hr (by rw [ha, hb]; exact hfar) mu bb hfA
  have e1 : 1 / (8 * Real.pi * mu) * (8 * Real.pi * mu * X / radius P 0 ^ 3 + 8 * Real.pi * mu * Y / r ^ 3) = 1 := by
    rw [ha]
    calc _ = X / a ^ 3 + Y / r ^ 3 := by field_simp
      _ = 1 := s1
  have e2 : 1 / (8 * Real.pi * mu) * (8 * Real.pi * mu * Y / radius P 1 ^ 3 + 8 * Real.pi * mu * X / r ^ 3) = 0 := by
    rw [hb]
    calc _ = Y / b ^ 3 + X / r ^ 3 := by field_simp
      _ = 0 := s2
  rw [e1, e2] at hM
  have hrows : (generate_Minfinity P mu bb).rows = side P := (Minfinity_dims P mu bb).1
  have hCv : ∀ i < side P, mulVec (side P) C.get v i = f i := by
    intro i hi
    have h := (inv_mulVec hC f (i := i) (by rw [hrows]; exact hi)).1
    rw [hrows] at h
    rw [← h]
    exact mulVec_congr (fun k hk => axial_ext hN hD hv hM hk) _
  refine ⟨C, ![8 * Real.pi * mu * X, 8 * Real.pi * mu * Y], hC, fun u c => ?_, ?_⟩
  · rw [hCv _ ((C48_rows P).2.1 u c (by have := u.2; cases c <;> simp only [HasRow] <;> omega))]
    exact hfA u c
  obtain ⟨h1, h2⟩ := own_turns pa pb hfar
  obtain ⟨h3, h4⟩ := far_turns pa pb hfar
  have c1 : 8 * Real.pi * mu * X / (8 * Real.pi * mu) = X := by field_simp
  have c2 : 8 * Real.pi * mu * Y / (8 * Real.pi * mu) = Y := by field_simp
  simp only [NearlyExact, Matrix.cons_val_zero, Matrix.cons_val_one, c1, c2]
  obtain ⟨D, D1, D2, k1, k2⟩ := hXY (ownTorque a b r) (farTorque a b r)
  have p1 : 3 * a ^ 3 * b ^ 5 / r ^ 8 ≤ ownTorque a b r / a ^ 3 + farTorque a b r / r ^ 3 - 1 := by linarith
  have p2 : ownTorque a b r / a ^ 3 + farTorque a b r / r ^ 3 - 1 ≤ 448 * a ^ 3 * b ^ 5 / r ^ 8 := by linarith
  rw [k1, k2]
  exact error_bounds pa pb hfar D1 D2 p1 p2 h3 h4

/-- **C102** (resistance). So if the near field is switched off, or does not reach from one sphere to the other, the resistance matrix
that the code builds, from any table with the size ratios, gives the exact torques up to these errors. -/
theorem C102_resistance {P : PosData} (hP : Sensible P) (hN : P.Ns = 2) (hD : P.Nd = 0) {a b r : ℝ} (ha : radius P 0 = a)
    (hb : radius P 1 = b) (hr : len (fun i => centre P 1 i - centre P 0 i) = r) (hfar : 2 * (a + b) ≤ r) {mu : ℝ} (hmu : 0 < mu)
    (bb : Bool) {T : ScalarTable} {k : ℝ} (hk : 0 < k) (hT : Tabulated T.lam P k) (only : Bool)
    (hreach : only = false → 2 * k ≤ r / ((a + b) / 2)) (last : NDMat) {v : ℕ → ℝ} (hv : Axial P ![1, 0] v) :
    ∃ R C torque, generate_grand_resistance_matrix T P last true k false only mu bb = some (R, C) ∧
      Axial P torque (mulVec (side P) R.get v) ∧ NearlyExact a b r mu torque := by
  obtain ⟨C, torque, hC, hA, hE⟩ := C102_torques hP hN hD ha hb hr hfar hmu bb hv
  have hbd : beads P = 2 := by unfold beads; omega
  cases only
  · have hr' : len (fun i => centre P 0 i - centre P 1 i) = r := by
      rw [← hr, ← len_neg]; congr 1; funext i; simp
    obtain ⟨N, hNN, n1, n2, n3, n4⟩ := near_zero hP hk hT (fun x hx y hy hxy => by
      unfold openLink
      dsimp only
      rw [hbd] at hx hy
      rw [if_neg]
      rw [not_lt]
      obtain ⟨rfl, rfl⟩ | ⟨rfl, rfl⟩ : (x = 0 ∧ y = 1) ∨ (x = 1 ∧ y = 0) := by omega
      · rw [hr, ha, hb]; exact hreach rfl
      · rw [hr', ha, hb, add_comm b]; exact hreach rfl) mu bb
    refine ⟨N.add C, C, torque, ?_, fun u c => ?_, hE⟩
    · unfold generate_grand_resistance_matrix
      simp only [if_true, Option.bind_eq_bind]
      rw [hC, Option.bind_some, hNN, Option.bind_some]
    · rw [← hA u c]
      have hi := (C48_rows P).2.1 u c (by have := u.2; cases c <;> simp only [HasRow] <;> omega)
      have h0 := n4 v _ hi
      have : mulVec (side P) (N.add C).get v (row P.Ns u c)
          = mulVec (side P) N.get v (row P.Ns u c) + mulVec (side P) C.get v (row P.Ns u c) := by
        unfold mulVec
        rw [← Finset.sum_add_distrib]
        exact Finset.sum_congr rfl fun j _ => by simp only [NDMat.add]; ring
      rw [this, h0, zero_add]
  · refine ⟨C, C, torque, ?_, hA, hE⟩
    unfold generate_grand_resistance_matrix
    simp [hC]

/-- **C102** (the effect). The errors are small beside what they are errors of: the second sphere makes the first harder to turn by
between multiples of `a^6 b^3 / r^6`, and has to be held back with a torque between multiples of `a^3 b^3 / r^3`. -/
theorem C102_effect {a b r : ℝ} (ha : 0 < a) (hb : 0 < b) (hfar : 2 * (a + b) ≤ r) :
    a ^ 6 * b ^ 3 / r ^ 6 ≤ ownTorque a b r - a ^ 3 ∧ ownTorque a b r - a ^ 3 ≤ 128 * a ^ 6 * b ^ 3 / r ^ 6 ∧
    a ^ 3 * b ^ 3 / r ^ 3 ≤ -farTorque a b r ∧ -farTorque a b r ≤ 16 * a ^ 3 * b ^ 3 / r ^ 3 := by
  have hr' : a + b < r := by linarith
  have hr0 : 0 < r := by linarith
  have so := own_summable ha hb hr'
  have so1 := (summable_nat_add_iff 1).2 so
  have sf := (far_summable ha hb hr').neg
  have tot := own_total ha hb hfar
  have hx := far_apart ha hb hfar 0
  have e0 : -(farImages a b r 0).strength = a ^ 3 * b ^ 3 / r ^ 3 := by
    simp only [farImages, own_zero, Rotlet.image, sub_zero]; rw [div_pow]; ring
  have eo : ownTorque a b r - a ^ 3 = ∑' k, (ownImages a b r (k + 1)).strength := by
    rw [ownTorque, so.tsum_eq_zero_add, own_zero]; ring
  have ef : -farTorque a b r = ∑' k, -(farImages a b r k).strength := by rw [farTorque, tsum_neg]
  rw [eo, ef]
  refine ⟨?_, ?_, ?_, ?_⟩
  · have e1 : (ownImages a b r (0 + 1)).strength = a ^ 3 * b ^ 3 / r ^ 3 * (a / (r - (farImages a b r 0).offset)) ^ 3 := by
      rw [← e0, own_succ]; rfl
    have h : (a / r) ^ 3 ≤ (a / (r - (farImages a b r 0).offset)) ^ 3 := by
      refine pow_le_pow_left₀ (by positivity) ?_ 3
      exact div_le_div_of_nonneg_left ha.le (by linarith [hx.2.2.2]) (by linarith [hx.2.1])
    calc a ^ 6 * b ^ 3 / r ^ 6 = a ^ 3 * b ^ 3 / r ^ 3 * (a / r) ^ 3 := by field_simp
      _ ≤ a ^ 3 * b ^ 3 / r ^ 3 * (a / (r - (farImages a b r 0).offset)) ^ 3 := mul_le_mul_of_nonneg_left h (by positivity)
      _ = (ownImages a b r (0 + 1)).strength := e1.symm
      _ ≤ _ := so1.le_tsum 0 fun k _ => (own_bound ha hb hr' _).1.le
  · calc _ ≤ ∑' k, (ownImages a b r k).strength * (64 * a ^ 3 * b ^ 3 / r ^ 6) :=
          so1.tsum_le_tsum (own_small ha hb hfar) (so.mul_right _)
      _ = (∑' k, (ownImages a b r k).strength) * (64 * a ^ 3 * b ^ 3 / r ^ 6) := tsum_mul_right
      _ ≤ 2 * a ^ 3 * (64 * a ^ 3 * b ^ 3 / r ^ 6) := mul_le_mul_of_nonneg_right tot (by positivity)
      _ = _ := by ring
  · rw [← e0]
    exact sf.le_tsum 0 fun k _ => (far_small ha hb hfar k).1
  · calc _ ≤ ∑' k, (ownImages a b r k).strength * (8 * b ^ 3 / r ^ 3) :=
          sf.tsum_le_tsum (fun k => (far_small ha hb hfar k).2) (so.mul_right _)
      _ = (∑' k, (ownImages a b r k).strength) * (8 * b ^ 3 / r ^ 3) := tsum_mul_right
      _ ≤ 2 * a ^ 3 * (8 * b ^ 3 / r ^ 3) := mul_le_mul_of_nonneg_right tot (by positivity)
      _ = _ := by ring

example : 1 / 10 ^ 6 ≤ ownTorque 1 1 10 - 1 ∧ 1 / 1000 ≤ -farTorque 1 1 10 := by
  obtain ⟨h1, -, h3, -⟩ := C102_effect (a := 1) (b := 1) (r := 10) one_pos one_pos (by norm_num)
  norm_num at h1 h3 ⊢
  exact ⟨h1, h3⟩

/-- Two unit spheres, one above the other, two radii apart. -/
example (bb : Bool) : ∃ f turn, Axial Ship.towerP ![8 * Real.pi * 1 * ownTorque 1 1 4, 8 * Real.pi * 1 * farTorque 1 1 4] f ∧
    Axial Ship.towerP turn (mulVec (side Ship.towerP) (generate_Minfinity Ship.towerP 1 bb).get f) ∧
    1 < turn 0 ∧ turn 0 < 1 + 1 / 100 ∧ -1 / 1000 < turn 1 ∧ turn 1 < 0 := by
  obtain ⟨f, hf⟩ := exists_rows Ship.towerP fun u => alongLine (fun i => centre Ship.towerP 1 i - centre Ship.towerP 0 i)
    (![8 * Real.pi * 1 * ownTorque 1 1 4, 8 * Real.pi * 1 * farTorque 1 1 4] (if u = 0 then 0 else 1))
  have hA : Axial Ship.towerP ![8 * Real.pi * 1 * ownTorque 1 1 4, 8 * Real.pi * 1 * farTorque 1 1 4] f := by
    intro u c
    rw [hf u c (by have := u.2; have h2 : Ship.towerP.Ns = 2 := rfl; cases c <;> simp only [HasRow] <;> omega)]
    fin_cases u <;> rfl
  obtain ⟨turn, h, h1, h2, h3, h4⟩ := C102_mobility Ship.towerP_sensible rfl rfl (Ship.towerP_radius (x := 0) (by decide))
    (Ship.towerP_radius (x := 1) (by decide)) (Ship.towerP_len (by decide) (by decide) (by decide)) (by norm_num)
    (one_pos : (0 : ℝ) < 1) bb hA
  refine ⟨f, turn, hA, h, ?_, ?_, ?_, ?_⟩ <;> norm_num at h1 h2 h3 h4 ⊢ <;> linarith

example (bb : Bool) : ∃ v C torque, Axial Ship.towerP ![1, 0] v ∧ (generate_Minfinity Ship.towerP 1 bb).inv = some C ∧
    Axial Ship.towerP torque (mulVec (side Ship.towerP) C.get v) ∧ torque 0 / (8 * Real.pi * 1) < ownTorque 1 1 4 := by
  obtain ⟨v, hv⟩ := exists_rows Ship.towerP fun u => alongLine (fun i => centre Ship.towerP 1 i - centre Ship.towerP 0 i)
    (![1, 0] (if u = 0 then 0 else 1))
  have hA : Axial Ship.towerP ![1, 0] v := by
    intro u c
    rw [hv u c (by have := u.2; have h2 : Ship.towerP.Ns = 2 := rfl; cases c <;> simp only [HasRow] <;> omega)]
    fin_cases u <;> rfl
  obtain ⟨C, torque, hC, h, ⟨h1, -⟩, -⟩ := C102_torques Ship.towerP_sensible rfl rfl (Ship.towerP_radius (x := 0) (by decide))
    (Ship.towerP_radius (x := 1) (by decide)) (Ship.towerP_len (by decide) (by decide) (by decide)) (by norm_num)
    (one_pos : (0 : ℝ) < 1) bb hA
  refine ⟨v, C, torque, hA, hC, h, ?_⟩
  norm_num at h1 ⊢
  linarith

example (bb : Bool) : ∃ v R C torque, Axial Ship.towerP ![1, 0] v ∧
    generate_grand_resistance_matrix dampT Ship.towerP (NDMat.zeros 1 1) true 2 false false 1 bb = some (R, C) ∧
    Axial Ship.towerP torque (mulVec (side Ship.towerP) R.get v) ∧ NearlyExact 1 1 4 1 torque := by
  obtain ⟨v, hv⟩ := exists_rows Ship.towerP fun u => alongLine (fun i => centre Ship.towerP 1 i - centre Ship.towerP 0 i)
    (![1, 0] (if u = 0 then 0 else 1))
  have hA : Axial Ship.towerP ![1, 0] v := by
    intro u c
    rw [hv u c (by have := u.2; have h2 : Ship.towerP.Ns = 2 := rfl; cases c <;> simp only [HasRow] <;> omega)]
    fin_cases u <;> rfl
  obtain ⟨R, C, torque, h⟩ := C102_resistance Ship.towerP_sensible rfl rfl (Ship.towerP_radius (x := 0) (by decide))
    (Ship.towerP_radius (x := 1) (by decide)) (Ship.towerP_len (by decide) (by decide) (by decide)) (by norm_num)
    (one_pos : (0 : ℝ) < 1) bb (by norm_num : (0 : ℝ) < 2) (Ship.towerP_tabulated 2) false (fun _ => by norm_num) (NDMat.zeros 1 1) hA
  exact ⟨v, R, C, torque, hA, h⟩

end SD
