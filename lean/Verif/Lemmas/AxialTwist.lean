import Verif.Props.Dissipation
import Verif.Lemmas.NearForm

/-!
# Two spheres turning about their line of centres
-/

set_option autoImplicit false

namespace SD

open Spec Near

section
variable {r : Fin 3 → ℝ}

theorem len_sq3 (r : Fin 3 → ℝ) : len r ^ 2 = r 0 ^ 2 + r 1 ^ 2 + r 2 ^ 2 := by
  unfold len
  rw [Real.sq_sqrt (Finset.sum_nonneg fun i _ => sq_nonneg _), Fin.sum_univ_three]

theorem axial_F (i : Fin 3) : ∑ j, rotletR r (len r) i j * r j = 0 := by
  simp only [rotletR_eq, D_J, Fin.sum_univ_three]
  generalize len r = L
  fin_cases i <;> simp [eps, kron] <;> ring

theorem axial_T (hr : 0 < len r) (i : Fin 3) :
    ∑ j, (1 / 2 * ∑ k, ∑ l, eps i k l * D_R r (len r) k l j) * r j = r i / len r ^ 3 := by
  have h := len_sq3 r
  simp only [D_R_eq, DD_J, Fin.sum_univ_three]
  generalize len r = L at *
  have hL : L ≠ 0 := hr.ne'
  have h2 : r 0 ^ 2 = L ^ 2 - r 1 ^ 2 - r 2 ^ 2 := by linarith
  fin_cases i <;> simp [eps, kron, kronkron] <;> field_simp <;> ring_nf

theorem axial_S (i j : Fin 3) : ∑ k, (-(1 / 2) * ∑ l, ∑ m, eps k l m * D_K r (len r) l m i j) * r k = 0 := by
  simp only [D_K, DD_J, Fin.sum_univ_three]
  generalize len r = L
  fin_cases i <;> fin_cases j <;> simp [eps, kron, kronkron] <;> ring

/-- The motion of a sphere next to another one on which an axial torque acts. -/
noncomputable def axialTo (r : Fin 3 → ℝ) (x : ℝ) : Comp → ℝ
  | .f _ => 0
  | .t i => x * r i
  | .s _ => 0

theorem axial_mob (hr : 0 < len r) (a b : ℝ) (c : Comp) :
    ∑ j, pairMob a b c (.t j) r * r j = axialTo r (1 / len r ^ 3) c := by
  have h0 : r ≠ 0 := by
    rintro rfl
    simp [len] at hr
  cases c with
  | f i =>
    simp only [pairMob, respTo, resp_FT _ _ _ _ h0, axial_F, axialTo]
  | t i =>
    simp only [pairMob, respTo, resp_TT _ _ _ _ h0, axial_T hr, axialTo]
    ring
  | s p =>
    simp only [pairMob, respTo, resp_ST _ _ _ _ _ h0, axialTo]
    have e : ∀ (X : Fin 3 → Fin 3 → Fin 3 → ℝ), (∀ i j, ∑ k, X k i j * r k = 0) → ∑ k, five (X k) p * r k = 0 := by
      intro X hX
      have : ∑ k, five (X k) p * r k = five (fun i j => ∑ k, X k i j * r k) p := by
        simp only [Fin.sum_univ_three]
        fin_cases p <;> simp [five] <;> ring
      rw [this]
      simp only [hX]
      fin_cases p <;> simp [five]
    exact e (fun k i j => -(1 / 2) * ∑ l, ∑ m, eps k l m * D_K r (len r) l m i j) axial_S

theorem axial_mob_neg (hr : 0 < len r) (a b : ℝ) (c : Comp) :
    ∑ j, pairMob a b c (.t j) (fun i => -r i) * r j = axialTo r (1 / len r ^ 3) c := by
  have hl : len (fun i => -r i) = len r := by
    unfold len
    exact congrArg _ (Finset.sum_congr rfl fun i _ => by ring)
  have h := axial_mob (r := fun i => -r i) (by rw [hl]; exact hr) a b c
  rw [hl] at h
  have e : ∑ j, pairMob a b c (.t j) (fun i => -r i) * r j = -∑ j, pairMob a b c (.t j) (fun i => -r i) * -r j := by
    rw [← Finset.sum_neg_distrib]
    exact Finset.sum_congr rfl fun j _ => by ring
  rw [e, h]
  cases c <;> simp [axialTo]

theorem axial_self (mu a : ℝ) (c : Comp) :
    ∑ j, selfMob mu a c (.t j) * r j = axialTo r (1 / (8 * Real.pi * mu * a ^ 3)) c := by
  cases c with
  | f i => simp [selfMob, axialTo]
  | t i => simp [selfMob, axialTo]
  | s p => simp [selfMob, axialTo]

end

/-- A grand vector with given components. -/
theorem exists_rows (P : PosData) (m : ℕ → Comp → ℝ) :
    ∃ v : ℕ → ℝ, ∀ x c, HasRow P.Ns P.Nd x c → v (row P.Ns x c) = m x c := by
  obtain ⟨rsurj, rlt, rinj⟩ := C48_rows P
  have : Nonempty Comp := ⟨.f 0⟩
  choose! bd cp hrow hbc using rsurj
  refine ⟨fun i => m (bd i) (cp i), fun x c hx => ?_⟩
  have hi := rlt x c hx
  obtain ⟨i1, i2⟩ := rinj _ _ _ _ (hrow _ hi) hx (hbc _ hi)
  dsimp only
  rw [i1, i2]

/-- The far-field motion under torques about the line of centres. -/
theorem far_twist {P : PosData} (h2 : P.Ns = 2) (h0 : P.Nd = 0) (hP : Sensible P) (hS : Separate P) (mu : ℝ) (bb : Bool)
    (r : Fin 3 → ℝ) (hr : r = fun i => centre P 1 i - centre P 0 i) (T : ℕ → ℝ) (f : ℕ → ℝ)
    (hf : ∀ x c, HasRow P.Ns P.Nd x c → f (row P.Ns x c) = axialTo r (T x) c) {x : ℕ} {c : Comp}
    (hx : HasRow P.Ns P.Nd x c) :
    mulVec (side P) (generate_Minfinity P mu bb).get f (row P.Ns x c)
      = axialTo r (1 / (8 * Real.pi * mu) * (T x / radius P x ^ 3 + T (1 - x) / len r ^ 3)) c := by
  set L := generate_Minfinity_loop (NDMat.zeros (side P) (side P)) P (1 / (8 * Real.pi * mu)) mu bb with hL
  have hb : beads P = 2 := by unfold beads; omega
  have hn : side P = 11 * P.Ns := by unfold side; omega
  have hx2 : x < 2 := by cases c <;> simp only [HasRow] at hx <;> omega
  have hi : row P.Ns x c < side P := (C48_rows P).2.1 x c hx
  have hlen : 0 < len r := by
    rw [hr]
    exact lt_trans (by positivity) (hP.apart 1 (by omega) 0 (by omega) (by omega))
  have e0 : mulVec (side P) (generate_Minfinity P mu bb).get f (row P.Ns x c) = mulVec (side P) L.get f (row P.Ns x c) := by
    have h := C11_mobility P mu bb f hi
    rw [toDumbVel, if_pos (by omega)] at h
    rw [← h]
    exact mulVec_congr (fun k hk => by unfold toDumbForce; rw [if_pos (by omega)]) _
  have hent : ∀ u k, u < 2 → L.get (row P.Ns x c) (row P.Ns u (.t k))
      = systemMob P.Ns bb (centre P) (radius P) mu x c u (.t k) := fun u k hu =>
    C48_entry hP mu bb hx (by simp only [HasRow]; omega)
  have hsep : ∀ u < 2, x ≠ u → sep (fun i => centre P x i - centre P u i) (radius P x) (radius P u)
      = fun i => centre P x i - centre P u i := by
    intro u hu hxu
    unfold sep
    rw [if_neg (not_lt.mpr (hS x (by omega) u (by omega) hxu))]
  have own : ∑ k, L.get (row P.Ns x c) (row P.Ns x (.t k)) * (T x * r k)
      = T x * axialTo r (1 / (8 * Real.pi * mu * radius P x ^ 3)) c := by
    rw [← axial_self, Finset.mul_sum]
    refine Finset.sum_congr rfl fun k _ => ?_
    rw [hent x k hx2, systemMob, if_pos rfl]
    ring
  have other : ∑ k, L.get (row P.Ns x c) (row P.Ns (1 - x) (.t k)) * (T (1 - x) * r k)
      = T (1 - x) * (1 / (8 * Real.pi * mu)) * axialTo r (1 / len r ^ 3) c := by
    have hne : x ≠ 1 - x := by omega
    have hu : 1 - x < 2 := by omega
    have e1 : ∑ k, L.get (row P.Ns x c) (row P.Ns (1 - x) (.t k)) * (T (1 - x) * r k)
        = T (1 - x) * (1 / (8 * Real.pi * mu)) * ∑ k, pairMob (radius P x) (radius P (1 - x)) c (.t k)
          (fun i => centre P x i - centre P (1 - x) i) * r k := by
      rw [Finset.mul_sum]
      refine Finset.sum_congr rfl fun k _ => ?_
      rw [hent (1 - x) k hu, systemMob, if_neg hne, if_neg (by omega), hsep _ hu hne]
      ring
    rw [e1]
    congr 1
    obtain rfl | rfl : x = 0 ∨ x = 1 := by omega
    · rw [show (fun i => centre P 0 i - centre P (1 - 0) i) = fun i => -r i by
        funext i; rw [hr]; simp]
      exact axial_mob_neg hlen _ _ c
    · rw [show (fun i => centre P 1 i - centre P (1 - 1) i) = r by rw [hr]]
      exact axial_mob hlen _ _ c
  rw [e0, mulVec, show side P = 11 * P.Ns + 6 * P.Nd from rfl, sum_rows]
  have hrow : ∀ u < 2, ∀ c, HasRow P.Ns P.Nd u c := by
    intro u hu c
    cases c <;> simp only [HasRow] <;> omega
  have z1 : ∑ u ∈ Finset.range (P.Ns + 2 * P.Nd), ∑ k : Fin 3,
      L.get (row P.Ns x c) (row P.Ns u (.f k)) * f (row P.Ns u (.f k)) = 0 := by
    refine Finset.sum_eq_zero fun u hu => Finset.sum_eq_zero fun k _ => ?_
    rw [hf u (.f k) (hrow u (by have := Finset.mem_range.mp hu; omega) _)]
    simp [axialTo]
  rw [z1, zero_add]
  have z2 : ∀ u ∈ Finset.range P.Ns, (∑ k : Fin 3, L.get (row P.Ns x c) (row P.Ns u (.t k)) * f (row P.Ns u (.t k))
      + ∑ p : Fin 5, L.get (row P.Ns x c) (row P.Ns u (.s p)) * f (row P.Ns u (.s p)))
      = ∑ k : Fin 3, L.get (row P.Ns x c) (row P.Ns u (.t k)) * (T u * r k) := by
    intro u hu
    have hu2 : u < 2 := by have := Finset.mem_range.mp hu; omega
    have : ∑ p : Fin 5, L.get (row P.Ns x c) (row P.Ns u (.s p)) * f (row P.Ns u (.s p)) = 0 :=
      Finset.sum_eq_zero fun p _ => by rw [hf u (.s p) (hrow u hu2 _)]; simp [axialTo]
    rw [this, add_zero]
    exact Finset.sum_congr rfl fun k _ => by rw [hf u (.t k) (hrow u hu2 _)]; rfl
  rw [Finset.sum_congr rfl z2]
  have z3 : ∀ g : ℕ → ℝ, ∑ u ∈ Finset.range P.Ns, g u = g x + g (1 - x) := by
    intro g
    rw [h2, Finset.sum_range_succ, Finset.sum_range_one]
    obtain rfl | rfl : x = 0 ∨ x = 1 := by omega
    · rfl
    · simp [add_comm]
  rw [z3, own, other]
  cases c with
  | f i => simp [axialTo]
  | t i =>
    simp only [axialTo]
    by_cases hm : mu = 0
    · simp [hm]
    have hpi := Real.pi_pos.ne'
    have := (hP.radius_pos x (by omega)).ne'
    have := hlen.ne'
    field_simp
  | s p => simp [axialTo]

/-- Power of a pair one of which turns about the line of centres. -/
theorem pair_twist {d : Fin 3 → ℝ} (hd : dotp d d = 1) (z1 z2 z12 z21 : Scalars) (a b x l : ℝ) (r : Fin 3 → ℝ)
    (hr : r = fun i => l * d i) :
    pairPower z1 z2 z12 z21 a b d (axialTo r x) (fun _ => 0) = 8 * Real.pi * (a ^ 3 * z1.XC * (x * l) ^ 2) := by
  have v0 : vel (axialTo r x) = fun _ => 0 := by funext i; rfl
  have s0 : strain (axialTo r x) = fun _ _ => 0 := by funext i j; simp [strain, axialTo]
  have o0 : spin (axialTo r x) = fun i => x * l * d i := by funext i; simp [spin, axialTo, hr]; ring
  have v1 : vel (fun _ => 0) = fun _ => 0 := by funext i; rfl
  have s1 : strain (fun _ => 0) = fun _ _ => 0 := by funext i j; simp [strain]
  have o1 : spin (fun _ => 0) = fun _ => 0 := by funext i; rfl
  have hx : dotp d (fun i => x * l * d i) = x * l := by
    simp only [dotp] at hd ⊢
    linear_combination x * l * hd
  have hc : cross d (fun i => x * l * d i) = fun _ => 0 := by
    funext i; fin_cases i <;> simp [cross] <;> ring
  rw [pairPower_split d hd, v0, s0, o0, v1, s1, o1, hx, hc]
  simp [axialPower, shearPower, planePower, twistPower, dotp, perp, across, app, cross, Fin.sum_univ_three]

end SD
