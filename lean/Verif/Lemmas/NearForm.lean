import Verif.Lemmas.NearDissipation

/-!
The quadratic form of a whole near-field matrix as a sum over pairs.
-/

set_option autoImplicit false

namespace SD.Near

open SD SD.Spec SD.Cov

/-! ## Motions of one kind -/

/-- The motion with given velocity, angular velocity and rate of strain. -/
noncomputable def motion (U O : Fin 3 → ℝ) (E : Fin 3 → Fin 3 → ℝ) : Comp → ℝ
  | .f i => U i
  | .t i => O i
  | .s p => five E p

theorem vel_motion (U O : Fin 3 → ℝ) (E : Fin 3 → Fin 3 → ℝ) : vel (motion U O E) = U := rfl
theorem spin_motion (U O : Fin 3 → ℝ) (E : Fin 3 → Fin 3 → ℝ) : spin (motion U O E) = O := rfl
theorem strain_motion (U O : Fin 3 → ℝ) {E : Fin 3 → Fin 3 → ℝ} (hE : SymTraceless E) :
    strain (motion U O E) = E := by
  funext i j
  exact (basis5_expand hE i j).symm

/-- A unit vector across a given one. -/
theorem exists_perp (d : Fin 3 → ℝ) : ∃ n : Fin 3 → ℝ, dotp n n = 1 ∧ dotp d n = 0 := by
  by_cases h : d 0 ^ 2 + d 1 ^ 2 = 0
  · have h0 : d 0 = 0 := by nlinarith [sq_nonneg (d 0), sq_nonneg (d 1)]
    exact ⟨![1, 0, 0], by simp [dotp], by simp [dotp, h0]⟩
  · have hp : 0 < d 0 ^ 2 + d 1 ^ 2 := lt_of_le_of_ne (by positivity) (Ne.symm h)
    have hs := Real.sq_sqrt hp.le
    have hsp := Real.sqrt_pos.mpr hp
    refine ⟨![-d 1 / Real.sqrt (d 0 ^ 2 + d 1 ^ 2), d 0 / Real.sqrt (d 0 ^ 2 + d 1 ^ 2), 0], ?_, ?_⟩
    · simp only [dotp]
      simp
      field_simp
      rw [hs]; ring
    · simp only [dotp]
      simp
      field_simp
      ring

section
variable {d : Fin 3 → ℝ} (hd : dotp d d = 1) {z1 z2 z12 z21 : Scalars} {a b : ℝ}
  (h : ∀ w1 w2, 0 ≤ pairPower z1 z2 z12 z21 a b d w1 w2)
include hd h

theorem axial_of_power (u1 u2 e1 e2 : ℝ) : 0 ≤ axialPower z1 z2 z12 z21 a b u1 u2 e1 e2 := by
  have hE : ∀ e : ℝ, SymTraceless fun i j => e * (3 / 2 * (d i * d j - dlt i j / 3)) := by
    intro e
    refine ⟨fun i j => by dsimp only; rw [show dlt i j = dlt j i by simp [dlt, eq_comm]]; ring, ?_⟩
    simp only [dlt, if_true]
    simp only [dotp] at hd
    linear_combination e * (3 / 2) * hd
  have hA : ∀ e : ℝ, app (fun i j => e * (3 / 2 * (d i * d j - dlt i j / 3))) d = fun i => e * d i := by
    intro e
    funext i
    simp only [dotp] at hd
    fin_cases i <;> simp [app, dotp, dlt]
    · linear_combination e * (3 / 2) * d 0 * hd
    · linear_combination e * (3 / 2) * d 1 * hd
    · linear_combination e * (3 / 2) * d 2 * hd
  have hx : ∀ c : ℝ, dotp d (fun i => c * d i) = c := by
    intro c
    simp only [dotp] at hd ⊢
    linear_combination c * hd
  have hp : ∀ c : ℝ, perp d (fun i => c * d i) = fun _ => 0 := by
    intro c
    funext i
    simp only [perp, hx]
    ring
  have hz : ∀ e : ℝ, across d (fun i j => e * (3 / 2 * (d i * d j - dlt i j / 3))) = fun _ _ => 0 := by
    intro e
    funext i j
    simp only [across, hA, hx]
    ring
  have h0 : cross d (0 : Fin 3 → ℝ) = fun _ => 0 := by
    funext i; fin_cases i <;> simp [cross]
  have := h (motion (fun i => u1 * d i) 0 (fun i j => e1 * (3 / 2 * (d i * d j - dlt i j / 3))))
    (motion (fun i => u2 * d i) 0 (fun i j => e2 * (3 / 2 * (d i * d j - dlt i j / 3))))
  rw [pairPower_split d hd] at this
  simp only [vel_motion, spin_motion, strain_motion _ _ (hE _), hA, hx, hp, hz, h0] at this
  refine le_of_le_of_eq this ?_
  simp [twistPower, shearPower, planePower, dotp]

theorem twist_of_power (o1 o2 : ℝ) : 0 ≤ twistPower z1 z2 z12 a b o1 o2 := by
  have hx : ∀ c : ℝ, dotp d (fun i => c * d i) = c := by
    intro c
    simp only [dotp] at hd ⊢
    linear_combination c * hd
  have h0 : ∀ c : ℝ, cross d (fun i => c * d i) = fun _ => 0 := by
    intro c
    funext i; fin_cases i <;> simp [cross] <;> ring
  have := h (motion 0 (fun i => o1 * d i) 0) (motion 0 (fun i => o2 * d i) 0)
  rw [pairPower_split d hd] at this
  simp only [vel_motion, spin_motion, strain_motion _ _ zero_symm, hx, h0] at this
  refine le_of_le_of_eq this ?_
  simp [axialPower, shearPower, planePower, dotp, perp, across, app]

theorem shear_of_power (p1 p2 q1 q2 s1 s2 : ℝ) : 0 ≤ shearPower z1 z2 z12 z21 a b p1 p2 q1 q2 s1 s2 := by
  obtain ⟨n, hn, hdn⟩ := exists_perp d
  have hE : ∀ s : ℝ, SymTraceless fun i j => s * (d i * n j + n i * d j) := by
    intro s
    refine ⟨fun i j => by ring, ?_⟩
    simp only [dotp] at hdn
    linear_combination 2 * s * hdn
  have hA : ∀ s : ℝ, app (fun i j => s * (d i * n j + n i * d j)) d = fun i => s * n i := by
    intro s
    funext i
    simp only [dotp] at hd hdn
    simp only [app, dotp]
    linear_combination s * d i * hdn + s * n i * hd
  have hx : ∀ c : ℝ, dotp d (fun i => c * n i) = 0 := by
    intro c
    simp only [dotp] at hdn ⊢
    linear_combination c * hdn
  have hp : ∀ c : ℝ, perp d (fun i => c * n i) = fun i => c * n i := by
    intro c
    funext i
    simp only [perp, hx]
    ring
  have hz : ∀ s : ℝ, across d (fun i j => s * (d i * n j + n i * d j)) = fun _ _ => 0 := by
    intro s
    funext i j
    simp only [across, hA, hx]
    ring
  have ho : ∀ q : ℝ, dotp d (fun i => q * cross n d i) = 0 := by
    intro q
    simp [dotp, cross]
    ring
  have hc : ∀ q : ℝ, cross d (fun i => q * cross n d i) = fun i => q * n i := by
    intro q
    funext i
    simp only [dotp] at hd hdn
    fin_cases i <;> simp [cross]
    · linear_combination q * n 0 * hd - q * d 0 * hdn
    · linear_combination q * n 1 * hd - q * d 1 * hdn
    · linear_combination q * n 2 * hd - q * d 2 * hdn
  have := h (motion (fun i => p1 * n i) (fun i => q1 * cross n d i) (fun i j => s1 * (d i * n j + n i * d j)))
    (motion (fun i => p2 * n i) (fun i => q2 * cross n d i) (fun i j => s2 * (d i * n j + n i * d j)))
  rw [pairPower_split d hd] at this
  simp only [vel_motion, spin_motion, strain_motion _ _ (hE _), hA, hx, hp, hz, ho, hc] at this
  refine le_of_le_of_eq this ?_
  simp only [dotp] at hn
  have hk : ∀ t : ℝ, shearPower z1 z2 z12 z21 a b (p1 * t) (p2 * t) (q1 * t) (q2 * t) (s1 * t) (s2 * t)
      = t * t * shearPower z1 z2 z12 z21 a b p1 p2 q1 q2 s1 s2 := by
    intro t
    unfold shearPower
    ring
  have h1 : axialPower z1 z2 z12 z21 a b 0 0 0 0 = 0 := by unfold axialPower; ring
  have h2 : twistPower z1 z2 z12 a b 0 0 = 0 := by unfold twistPower; ring
  have h3 : planePower z1 z2 z12 a b 0 0 = 0 := by unfold planePower; ring
  simp only [Fin.sum_univ_three, hk, h1, h2, h3]
  linear_combination shearPower z1 z2 z12 z21 a b p1 p2 q1 q2 s1 s2 * hn

theorem plane_of_power (h1 h2 : ℝ) : 0 ≤ planePower z1 z2 z12 a b h1 h2 := by
  obtain ⟨n, hn, hdn⟩ := exists_perp d
  have hm : dotp (cross d n) (cross d n) = 1 := by rw [cross_dot d hd, hn, hdn]; ring
  have hdm : dotp d (cross d n) = 0 := by simp [dotp, cross]; ring
  have hnm : dotp n (cross d n) = 0 := by simp [dotp, cross]; ring
  generalize cross d n = m at *
  have hE : ∀ s : ℝ, SymTraceless fun i j => s * (n i * m j + m i * n j) := by
    intro s
    refine ⟨fun i j => by ring, ?_⟩
    simp only [dotp] at hnm
    linear_combination 2 * s * hnm
  have hA : ∀ s : ℝ, app (fun i j => s * (n i * m j + m i * n j)) d = fun _ => 0 := by
    intro s
    funext i
    simp only [dotp] at hdm hdn
    simp only [app, dotp]
    linear_combination s * n i * hdm + s * m i * hdn
  have hx : dotp d (fun _ => 0) = 0 := by simp [dotp]
  have hx' : dotp d 0 = 0 := by simp [dotp]
  have hp : perp d (fun _ => 0) = fun _ => 0 := by funext i; simp [perp, dotp]
  have hp' : perp d 0 = fun _ => 0 := by funext i; simp [perp, dotp]
  have h0 : cross d (0 : Fin 3 → ℝ) = fun _ => 0 := by
    funext i; fin_cases i <;> simp [cross]
  have hz : ∀ s : ℝ, across d (fun i j => s * (n i * m j + m i * n j)) = fun i j => s * (n i * m j + m i * n j) := by
    intro s
    funext i j
    simp only [across, hA, hx]
    ring
  have := h (motion 0 0 (fun i j => h1 * (n i * m j + m i * n j))) (motion 0 0 (fun i j => h2 * (n i * m j + m i * n j)))
  rw [pairPower_split d hd] at this
  simp only [vel_motion, spin_motion, strain_motion _ _ (hE _), hA, hx, hx', hp, hp', hz, h0] at this
  have hk : ∀ t : ℝ, planePower z1 z2 z12 a b (h1 * t) (h2 * t) = t * t * planePower z1 z2 z12 a b h1 h2 := by
    intro t
    unfold planePower
    ring
  have e1 : axialPower z1 z2 z12 z21 a b 0 0 0 0 = 0 := by unfold axialPower; ring
  have e2 : twistPower z1 z2 z12 a b 0 0 = 0 := by unfold twistPower; ring
  have e3 : shearPower z1 z2 z12 z21 a b 0 0 0 0 0 0 = 0 := by unfold shearPower; ring
  simp only [Fin.sum_univ_three, hk, e1, e2, e3] at this
  simp only [dotp] at hn hm hnm
  have : 0 ≤ 2 * planePower z1 z2 z12 a b h1 h2 := by
    refine le_of_le_of_eq this ?_
    linear_combination planePower z1 z2 z12 a b h1 h2 * (2 * (m 0 * m 0 + m 1 * m 1 + m 2 * m 2) * hn + 2 * hm
      + 2 * (n 0 * m 0 + n 1 * m 1 + n 2 * m 2) * hnm)
  linarith

/-- If no motion of a pair gains energy, then none of the four kinds does. -/
theorem dissipative_of_power : Dissipative z1 z2 z12 z21 a b :=
  ⟨axial_of_power hd h, twist_of_power hd h, shear_of_power hd h, plane_of_power hd h⟩

end

/-! ## All pairs -/

open Classical in
/-- The motion of bead `x`: components it does not have count as zero. -/
noncomputable def moves (Ns Nd : ℕ) (v : ℕ → ℝ) (x : ℕ) (c : Comp) : ℝ :=
  if HasRow Ns Nd x c then v (row Ns x c) else 0

theorem sum_moves (Ns Nd : ℕ) (v : ℕ → ℝ) (g : ℕ → Comp → ℝ) (G : ℕ → ℝ)
    (hG : ∀ x c, HasRow Ns Nd x c → G (row Ns x c) = g x c) :
    ∑ i ∈ Finset.range (11 * Ns + 6 * Nd), v i * G i
      = ∑ x ∈ Finset.range (Ns + 2 * Nd), overComps fun c => moves Ns Nd v x c * g x c := by
  rw [sum_rows, Finset.range_eq_Ico, ← Finset.sum_Ico_consecutive _ (Nat.zero_le Ns) (by omega : Ns ≤ Ns + 2 * Nd),
    ← Finset.sum_Ico_consecutive _ (Nat.zero_le Ns) (by omega : Ns ≤ Ns + 2 * Nd), ← Finset.range_eq_Ico]
  have e1 : ∀ x < Ns, overComps (fun c => moves Ns Nd v x c * g x c)
      = (∑ k : Fin 3, v (row Ns x (.f k)) * G (row Ns x (.f k))) + (∑ k : Fin 3, v (row Ns x (.t k)) * G (row Ns x (.t k)))
        + ∑ k : Fin 5, v (row Ns x (.s k)) * G (row Ns x (.s k)) := by
    intro x hx
    have hf : ∀ k, HasRow Ns Nd x (.f k) := fun k => Nat.lt_of_lt_of_le hx (by omega)
    have ht : ∀ k, HasRow Ns Nd x (.t k) := fun k => hx
    have hs : ∀ k, HasRow Ns Nd x (.s k) := fun k => hx
    simp only [overComps, moves, hf, ht, hs, if_true, hG _ _ (hf _), hG _ _ (ht _), hG _ _ (hs _)]
  have e2 : ∀ x, Ns ≤ x → x < Ns + 2 * Nd → overComps (fun c => moves Ns Nd v x c * g x c)
      = ∑ k : Fin 3, v (row Ns x (.f k)) * G (row Ns x (.f k)) := by
    intro x hx hx'
    have hf : ∀ k, HasRow Ns Nd x (.f k) := fun k => hx'
    have ht : ∀ k, ¬ HasRow Ns Nd x (.t k) := fun k => Nat.not_lt.mpr hx
    have hs : ∀ k, ¬ HasRow Ns Nd x (.s k) := fun k => Nat.not_lt.mpr hx
    simp [overComps, moves, hf, ht, hs, hG _ _ (hf _)]
  rw [Finset.sum_congr rfl fun x hx => e1 x (Finset.mem_range.mp hx),
    Finset.sum_congr (g := fun x => ∑ k : Fin 3, v (row Ns x (.f k)) * G (row Ns x (.f k))) rfl fun x hx =>
      e2 x (Finset.mem_Ico.mp hx).1 (Finset.mem_Ico.mp hx).2]
  simp only [Finset.sum_add_distrib]
  ring

theorem overComps_add (g h : Comp → ℝ) : overComps (fun c => g c + h c) = overComps g + overComps h := by
  simp only [overComps, Finset.sum_add_distrib]; ring

theorem overComps_sum {ι : Type} (s : Finset ι) (g : ι → Comp → ℝ) :
    overComps (fun c => ∑ x ∈ s, g x c) = ∑ x ∈ s, overComps (g x) := by
  simp only [overComps, Finset.sum_add_distrib]
  rw [Finset.sum_comm, Finset.sum_comm (s := Finset.univ) (t := s), Finset.sum_comm (s := Finset.univ) (t := s)]

theorem overComps_mul (k : ℝ) (g : Comp → ℝ) : overComps (fun c => k * g c) = k * overComps g := by
  simp only [overComps, Finset.mul_sum, mul_add]

theorem overComps_comm (g : Comp → Comp → ℝ) :
    overComps (fun c1 => overComps fun c2 => g c1 c2) = overComps fun c2 => overComps fun c1 => g c1 c2 := by
  simp only [overComps, Finset.sum_add_distrib]
  rw [Finset.sum_comm (f := fun i j => g (.f i) (.t j)), Finset.sum_comm (f := fun i j => g (.f i) (.f j)),
    Finset.sum_comm (f := fun i j => g (.f i) (.s j)), Finset.sum_comm (f := fun i j => g (.t i) (.t j)),
    Finset.sum_comm (f := fun i j => g (.t i) (.f j)), Finset.sum_comm (f := fun i j => g (.t i) (.s j)),
    Finset.sum_comm (f := fun i j => g (.s i) (.t j)), Finset.sum_comm (f := fun i j => g (.s i) (.f j)),
    Finset.sum_comm (f := fun i j => g (.s i) (.s j))]
  ring

/-- The form of a matrix given by its entries, as a sum over beads. -/
theorem form_beads {Ns Nd : ℕ} {M : ℕ → ℕ → ℝ} {N : ℕ → Comp → ℕ → Comp → ℝ}
    (hM : ∀ x c1 y c2, HasRow Ns Nd x c1 → HasRow Ns Nd y c2 → M (row Ns x c1) (row Ns y c2) = N x c1 y c2)
    (v : ℕ → ℝ) :
    ∑ i ∈ Finset.range (11 * Ns + 6 * Nd), v i * mulVec (11 * Ns + 6 * Nd) M v i
      = ∑ x ∈ Finset.range (Ns + 2 * Nd), ∑ y ∈ Finset.range (Ns + 2 * Nd),
          overComps fun c1 => overComps fun c2 => moves Ns Nd v x c1 * N x c1 y c2 * moves Ns Nd v y c2 := by
  rw [sum_moves Ns Nd v (fun x c1 => ∑ y ∈ Finset.range (Ns + 2 * Nd), overComps fun c2 =>
    moves Ns Nd v y c2 * N x c1 y c2)]
  · refine Finset.sum_congr rfl fun x _ => ?_
    rw [← overComps_sum]
    congr 1
    funext c1
    rw [Finset.mul_sum]
    refine Finset.sum_congr rfl fun y _ => ?_
    rw [← overComps_mul]
    congr 1
    funext c2
    ring
  · intro x c hx
    unfold mulVec
    rw [← sum_moves Ns Nd v (fun y c2 => N x c y c2) (fun j => M (row Ns x c) j) (fun y c2 hy => hM x c y c2 hx hy)]
    exact Finset.sum_congr rfl fun j _ => mul_comm _ _

section
variable {Ns n : ℕ} {bb : Bool} {radius : ℕ → ℝ} {scal : ℕ → ℝ → ℝ → Scalars}
  {link : ℕ → ℕ → Option ((Fin 3 → ℝ) × ℝ)}

/-- The share of the pair `x`, `y` in the rows of `x`. -/
noncomputable def share (Ns : ℕ) (bb : Bool) (radius : ℕ → ℝ) (scal : ℕ → ℝ → ℝ → Scalars)
    (link : ℕ → ℕ → Option ((Fin 3 → ℝ) × ℝ)) (m : ℕ → Comp → ℝ) (x y : ℕ) : ℝ :=
  if x = y then 0 else
  match link x y with
  | none => 0
  | some (d, s) =>
    overComps (fun c1 => overComps fun c2 => m x c1 * nearSelf (scal 0 (radius y / radius x) s) (radius x) d c1 c2 * m x c2)
    + if bb = false ∧ Ns ≤ x ∧ Ns ≤ y then 0 else
      overComps (fun c1 => overComps fun c2 => m x c1 *
        nearPair (scal 1 (radius y / radius x) s) (scal 1 (radius x / radius y) s) (x < y) (radius x) (radius y) d c1 c2
        * m y c2)

theorem overComps_zero : overComps (fun _ => 0) = 0 := by simp [overComps]

theorem form_shares (m : ℕ → Comp → ℝ) :
    ∑ x ∈ Finset.range n, ∑ y ∈ Finset.range n, (overComps fun c1 => overComps fun c2 =>
        m x c1 * systemNear Ns n bb radius scal link x c1 y c2 * m y c2)
      = ∑ x ∈ Finset.range n, ∑ y ∈ Finset.range n, share Ns bb radius scal link m x y := by
  refine Finset.sum_congr rfl fun x hx => ?_
  rw [← Finset.add_sum_erase _ _ hx, ← Finset.add_sum_erase _ (fun y => share Ns bb radius scal link m x y) hx]
  have e0 : share Ns bb radius scal link m x x = 0 := by unfold share; rw [if_pos rfl]
  have e1 : (overComps fun c1 => overComps fun c2 => m x c1 * systemNear Ns n bb radius scal link x c1 x c2 * m x c2)
      = ∑ y ∈ (Finset.range n).erase x, match link x y with
        | none => 0
        | some (d, s) => overComps fun c1 => overComps fun c2 =>
            m x c1 * nearSelf (scal 0 (radius y / radius x) s) (radius x) d c1 c2 * m x c2 := by
    have : ∀ c1 c2, m x c1 * systemNear Ns n bb radius scal link x c1 x c2 * m x c2
        = ∑ y ∈ (Finset.range n).erase x, match link x y with
          | none => 0
          | some (d, s) => m x c1 * nearSelf (scal 0 (radius y / radius x) s) (radius x) d c1 c2 * m x c2 := by
      intro c1 c2
      unfold systemNear
      rw [if_pos rfl, ← Finset.add_sum_erase _ _ hx, if_pos rfl, zero_add, Finset.mul_sum, Finset.sum_mul]
      refine Finset.sum_congr rfl fun y hy => ?_
      rw [if_neg (Finset.ne_of_mem_erase hy)]
      cases link x y <;> simp
    simp only [this, overComps_sum]
    refine Finset.sum_congr rfl fun y hy => ?_
    cases link x y with
    | none => simp only [overComps_zero]
    | some q => rfl
  rw [e0, e1, zero_add, ← Finset.sum_add_distrib]
  refine Finset.sum_congr rfl fun y hy => ?_
  have hxy : x ≠ y := (Finset.ne_of_mem_erase hy).symm
  unfold share systemNear
  simp only [if_neg hxy]
  cases link x y with
  | none => simp [overComps_zero]
  | some q =>
    dsimp only
    congr 1
    by_cases hb : bb = false ∧ Ns ≤ x ∧ Ns ≤ y
    · simp only [if_pos hb, mul_zero, zero_mul, overComps_zero]
    · simp only [if_neg hb]

theorem nearPair_swap (zab zba : Scalars) {p q : Prop} [Decidable p] [Decidable q] (hp : p) (hq : ¬ q) (a b : ℝ)
    (d : Fin 3 → ℝ) (c1 c2 : Comp) :
    nearPair zba zab q b a (fun k => -d k) c2 c1 = nearPair zab zba True a b d c1 c2 := by
  unfold nearPair
  simp only [hq, and_false, or_false, and_true, neg_neg]
  by_cases h : order c1 < order c2
  · rw [if_pos h, if_neg (by omega)]
  · rw [if_neg h, if_pos (by omega)]

/-- The two shares of a pair together. -/
theorem shares_pair (m : ℕ → Comp → ℝ) {x y : ℕ} (hxy : x < y) {d : Fin 3 → ℝ} {s : ℝ}
    (h1 : link x y = some (d, s)) (h2 : link y x = some (fun k => -d k, s)) :
    share Ns bb radius scal link m x y + share Ns bb radius scal link m y x
      = if bb = false ∧ Ns ≤ x ∧ Ns ≤ y then
          pairPower (scal 0 (radius y / radius x) s) (scal 0 (radius x / radius y) s) (scal 1 (radius y / radius x) s)
            (scal 1 (radius x / radius y) s) (radius x) (radius y) d (m x) (fun _ => 0)
          + pairPower (scal 0 (radius y / radius x) s) (scal 0 (radius x / radius y) s) (scal 1 (radius y / radius x) s)
            (scal 1 (radius x / radius y) s) (radius x) (radius y) d (fun _ => 0) (m y)
        else pairPower (scal 0 (radius y / radius x) s) (scal 0 (radius x / radius y) s)
          (scal 1 (radius y / radius x) s) (scal 1 (radius x / radius y) s) (radius x) (radius y) d (m x) (m y) := by
  unfold share
  rw [if_neg hxy.ne, if_neg hxy.ne', h1, h2]
  dsimp only
  by_cases hb : bb = false ∧ Ns ≤ x ∧ Ns ≤ y
  · have hb' : bb = false ∧ Ns ≤ y ∧ Ns ≤ x := ⟨hb.1, hb.2.2, hb.2.1⟩
    rw [if_pos hb, if_pos hb', if_pos hb]
    simp [pairPower, overComps_zero]
  · have hb' : ¬ (bb = false ∧ Ns ≤ y ∧ Ns ≤ x) := fun h => hb ⟨h.1, h.2.2, h.2.1⟩
    rw [if_neg hb, if_neg hb', if_neg hb]
    have e1 : overComps (fun c1 => overComps fun c2 => m x c1 * nearPair (scal 1 (radius y / radius x) s)
          (scal 1 (radius x / radius y) s) (x < y) (radius x) (radius y) d c1 c2 * m y c2)
        = overComps (fun c1 => overComps fun c2 => m x c1 * nearPair (scal 1 (radius y / radius x) s)
          (scal 1 (radius x / radius y) s) True (radius x) (radius y) d c1 c2 * m y c2) := by
      unfold nearPair
      simp only [hxy]
    have e2 : overComps (fun c1 => overComps fun c2 => m y c1 * nearPair (scal 1 (radius x / radius y) s)
          (scal 1 (radius y / radius x) s) (y < x) (radius y) (radius x) (fun k => -d k) c1 c2 * m x c2)
        = overComps (fun c1 => overComps fun c2 => m x c1 * nearPair (scal 1 (radius y / radius x) s)
          (scal 1 (radius x / radius y) s) True (radius x) (radius y) d c1 c2 * m y c2) := by
      rw [overComps_comm]
      congr 1
      funext c2
      congr 1
      funext c1
      rw [nearPair_swap _ _ (p := x < y) hxy (by omega)]
      ring
    rw [e1, e2]
    unfold pairPower
    ring

theorem double_nonneg (f : ℕ → ℕ → ℝ) (h : ∀ x < n, ∀ y < n, 0 ≤ f x y + f y x) :
    0 ≤ ∑ x ∈ Finset.range n, ∑ y ∈ Finset.range n, f x y := by
  have e : ∑ x ∈ Finset.range n, ∑ y ∈ Finset.range n, f x y
      = 1 / 2 * ∑ x ∈ Finset.range n, ∑ y ∈ Finset.range n, (f x y + f y x) := by
    simp only [Finset.sum_add_distrib]
    rw [Finset.sum_comm (f := fun x y => f y x)]
    ring
  rw [e]
  exact mul_nonneg (by norm_num) (Finset.sum_nonneg fun x hx => Finset.sum_nonneg fun y hy =>
    h x (Finset.mem_range.mp hx) y (Finset.mem_range.mp hy))

/-- If no pair gains energy, then the whole does not. -/
theorem form_nonneg (hM : Mutual n link)
    (hD : ∀ x < n, ∀ y < n, x < y → ∀ d s, link x y = some (d, s) →
      Dissipative (scal 0 (radius y / radius x) s) (scal 0 (radius x / radius y) s)
          (scal 1 (radius y / radius x) s) (scal 1 (radius x / radius y) s) (radius x) (radius y))
    (m : ℕ → Comp → ℝ) :
    0 ≤ ∑ x ∈ Finset.range n, ∑ y ∈ Finset.range n, share Ns bb radius scal link m x y := by
  have key : ∀ x < n, ∀ y < n, x < y →
      0 ≤ share Ns bb radius scal link m x y + share Ns bb radius scal link m y x := by
    intro x hx y hy hxy
    rcases hM x hx y hy hxy.ne with ⟨h1, h2⟩ | ⟨d, s, hd, h1, h2⟩
    · unfold share
      rw [if_neg hxy.ne, if_neg hxy.ne', h1, h2]
      simp
    · rw [shares_pair m hxy h1 h2]
      have h := hD x hx y hy hxy d s h1
      split_ifs
      · exact add_nonneg (pairPower_nonneg d hd h _ _) (pairPower_nonneg d hd h _ _)
      · exact pairPower_nonneg d hd h _ _
  refine double_nonneg _ fun x hx y hy => ?_
  rcases lt_trichotomy x y with h | h | h
  · exact key x hx y hy h
  · subst h
    unfold share
    simp
  · rw [add_comm]
    exact key y hy x hx h

end

end SD.Near
