import Verif.Lemmas.StrainBound
import Verif.Props.Dissipation

/-!
# The far field resists straining
-/

set_option autoImplicit false

namespace SD

open Spec

/-- Loads that are stresslets only: the far-field mobility form is bounded by the sum of their squares. -/
theorem stresslet_form {P : PosData} (hP : Sensible P) (hS : Separate P) {mu : ℝ} (hmu : 0 < mu) {bb : Bool}
    (hbb : bb = true ∨ P.Nd = 0) (g : ℕ → ℝ)
    (hg : ∀ x c, HasRow P.Ns P.Nd x c → (∀ p, c ≠ .s p) → g (row P.Ns x c) = 0) :
    ∑ i ∈ Finset.range (side P), g i * mulVec (side P) (generate_Minfinity P mu bb).get g i
      ≤ 3 / (8 * Real.pi * mu) * ∑ x ∈ Finset.range P.Ns, ∑ p : Fin 5, g (row P.Ns x (.s p)) ^ 2 / radius P x ^ 3 := by
  classical
  set L := generate_Minfinity_loop (NDMat.zeros (side P) (side P)) P (1 / (8 * Real.pi * mu)) mu bb with hL
  have hpi := Real.pi_pos
  obtain ⟨rsurj, rlt, rinj⟩ := C48_rows P
  have : Nonempty Comp := ⟨.f 0⟩
  choose! bd cp hrow hbc using rsurj
  have hbd : ∀ i < side P, bd i < beads P := fun i hi => owns_lt (owns_kind (hrow i hi))
  have hfar : ∀ x < beads P, ∀ y < beads P, x ≠ y →
      sep (fun i => centre P x i - centre P y i) (radius P x) (radius P y) = fun i => centre P x i - centre P y i := by
    intro x hx y hy hxy
    unfold sep
    rw [if_neg (not_lt.mpr (hS x hx y hy hxy))]
  have hlen : ∀ x < beads P, ∀ y < beads P, x ≠ y →
      radius P x + radius P y ≤ len (fun i => centre P x i - centre P y i) := by
    intro x hx y hy hxy
    have ha := hP.radius_pos x hx
    have hb := hP.radius_pos y hy
    rw [← hfar x hx y hy hxy, sep_len ha hb (lt_trans (by positivity) (hP.apart x hx y hy hxy))]
    refine le_trans ?_ (le_max_right _ _)
    norm_num
    linarith
  have hent : ∀ i < side P, ∀ j < side P, L.get i j = 1 / (8 * Real.pi ^ 2 * mu) *
      Sph.covl (radius P (bd i)) (radius P (bd j)) (cp i) (cp j) (fun m => centre P (bd i) m - centre P (bd j) m) := by
    intro i hi j hj
    have h := C48_entry hP mu bb (hrow i hi) (hrow j hj)
    rw [hbc i hi, hbc j hj] at h
    rw [hL, h]
    have ha := hP.radius_pos _ (hbd i hi)
    have hb := hP.radius_pos _ (hbd j hj)
    unfold systemMob
    by_cases hx : bd i = bd j
    · rw [if_pos hx, ← hx]
      have e0 : (fun m => centre P (bd i) m - centre P (bd i) m) = 0 := by funext m; simp
      rw [e0, ← Sph.self_overlap hmu ha]
      field_simp
    · have hoff : ¬ (bb = false ∧ P.Ns ≤ bd i ∧ P.Ns ≤ bd j) := by
        rintro ⟨h1, h2, h3⟩
        rcases hbb with h | h
        · rw [h] at h1; exact Bool.noConfusion h1
        · have := hbd i hi
          unfold beads at this
          omega
      rw [if_neg hx, if_neg hoff, hfar _ (hbd i hi) _ (hbd j hj) hx,
        ← Sph.pair_overlap ha hb (hlen _ (hbd i hi) _ (hbd j hj) hx)]
      field_simp
  have hstr : ∀ i < side P, g i ≠ 0 → ∃ p, cp i = .s p := by
    intro i hi h
    by_contra hc
    push Not at hc
    apply h
    rw [← hbc i hi]
    exact hg _ _ (hrow i hi) hc
  have key := Sph.qf_strain (N := side P) bd (radius P) (centre P) cp g (fun i hi => hP.radius_pos _ (hbd i hi))
    (fun i hi j hj hne => hlen _ (hbd i hi) _ (hbd j hj) hne)
    (fun i hi j hj h1 h2 => by rw [← hbc i hi, ← hbc j hj, h1, h2]) hstr
  have e : ∑ i ∈ Finset.range (side P), g i * mulVec (side P) L.get g i
      = 1 / (8 * Real.pi ^ 2 * mu) * Sph.qf (side P) (fun i => radius P (bd i)) (fun i => centre P (bd i)) cp g := by
    unfold Sph.qf mulVec
    rw [Finset.mul_sum]
    refine Finset.sum_congr rfl fun i hi => ?_
    rw [Finset.mul_sum, Finset.mul_sum]
    refine Finset.sum_congr rfl fun j hj => ?_
    rw [hent i (Finset.mem_range.mp hi) j (Finset.mem_range.mp hj)]
    ring
  -- the returned matrix and the loop agree on such loads
  have hzero : ∀ i, 11 * P.Ns ≤ i → i < side P → g i = 0 := by
    intro i h1 h2
    by_contra h
    obtain ⟨p, hp⟩ := hstr i h2 h
    have h3 := hrow i h2
    have h4 := hbc i h2
    rw [hp] at h3 h4
    simp only [HasRow] at h3
    simp only [row] at h4
    have := p.isLt
    omega
  have hconv : ∀ i < side P, toDumbForce P.Ns P.Nd g i = g i := by
    intro i hi
    unfold side at hi hzero
    unfold toDumbForce
    split_ifs with h1 h2
    · rfl
    · rw [hzero i (by omega) hi, hzero _ (by omega) (by omega)]; ring
    · rw [hzero i (by omega) hi, hzero _ (by omega) (by omega)]; ring
  have h1 : ∑ i ∈ Finset.range (side P), g i * mulVec (side P) (generate_Minfinity P mu bb).get g i
      = ∑ i ∈ Finset.range (side P), g i * mulVec (side P) L.get g i := by
    have := C11_power P.Ns P.Nd g (mulVec (side P) L.get g)
    refine Eq.trans ?_ this
    refine Finset.sum_congr rfl fun j hj => ?_
    have hj' := Finset.mem_range.mp hj
    rw [← C11_mobility P mu bb g hj', hconv j hj', mulVec_congr (fun k hk => (hconv k hk).symm)]
  have hsum : ∑ i ∈ Finset.range (side P), g i ^ 2 / radius P (bd i) ^ 3
      = ∑ x ∈ Finset.range P.Ns, ∑ p : Fin 5, g (row P.Ns x (.s p)) ^ 2 / radius P x ^ 3 := by
    have own : ∀ x c, HasRow P.Ns P.Nd x c → bd (row P.Ns x c) = x := fun x c h =>
      (rinj _ _ _ _ (hrow _ (rlt x c h)) h (hbc _ (rlt x c h))).1
    rw [show side P = 11 * P.Ns + 6 * P.Nd from rfl, sum_rows]
    rw [Finset.sum_eq_zero, zero_add]
    · refine Finset.sum_congr rfl fun x hx => ?_
      have hx' := Finset.mem_range.mp hx
      rw [Finset.sum_eq_zero, zero_add]
      · exact Finset.sum_congr rfl fun p _ => by rw [own x (.s p) hx']
      · intro k _
        rw [hg x (.t k) hx' (by simp)]; simp
    · intro x hx
      have hx' := Finset.mem_range.mp hx
      exact Finset.sum_eq_zero fun k _ => by rw [hg x (.f k) hx' (by simp)]; simp
  rw [h1, e, ← hsum]
  have : 1 / (8 * Real.pi ^ 2 * mu) * (3 * Real.pi * ∑ i ∈ Finset.range (side P), g i ^ 2 / radius P (bd i) ^ 3)
      = 3 / (8 * Real.pi * mu) * ∑ i ∈ Finset.range (side P), g i ^ 2 / radius P (bd i) ^ 3 := by
    generalize ∑ i ∈ Finset.range (side P), g i ^ 2 / radius P (bd i) ^ 3 = S
    field_simp
  rw [← this]
  exact mul_le_mul_of_nonneg_left key (by positivity)

/-- The power needed to strain the spheres, in the far field. -/
theorem strain_power {P : PosData} (hP : Sensible P) (hS : Separate P) {mu : ℝ} (hmu : 0 < mu) {bb : Bool}
    (hbb : bb = true ∨ P.Nd = 0) {C : NDMat} (hC : (generate_Minfinity P mu bb).inv = some C) (v : ℕ → ℝ) :
    8 * Real.pi * mu / 3 * ∑ x ∈ Finset.range P.Ns, ∑ p : Fin 5, radius P x ^ 3 * v (row P.Ns x (.s p)) ^ 2
      ≤ ∑ i ∈ Finset.range (side P), v i * mulVec (side P) C.get v i := by
  classical
  have hpi := Real.pi_pos
  set M := generate_Minfinity P mu bb with hM
  have hr : M.rows = side P := (Minfinity_dims P mu bb).1
  obtain ⟨rsurj, rlt, rinj⟩ := C48_rows P
  have : Nonempty Comp := ⟨.f 0⟩
  choose! bd cp hrow hbc using rsurj
  have own : ∀ x c, HasRow P.Ns P.Nd x c → bd (row P.Ns x c) = x ∧ cp (row P.Ns x c) = c := fun x c h =>
    rinj _ _ _ _ (hrow _ (rlt x c h)) h (hbc _ (rlt x c h))
  set k := 8 * Real.pi * mu / 3 with hk
  have hkp : 0 < k := by positivity
  set g : ℕ → ℝ := fun i => if ∃ p, cp i = .s p then k * radius P (bd i) ^ 3 * v i else 0 with hgdef
  have gs : ∀ x < P.Ns, ∀ p, g (row P.Ns x (.s p)) = k * radius P x ^ 3 * v (row P.Ns x (.s p)) := by
    intro x hx p
    have h := own x (.s p) hx
    simp only [hgdef, h.1, h.2]
    rw [if_pos ⟨p, rfl⟩]
  have g0 : ∀ x c, HasRow P.Ns P.Nd x c → (∀ p, c ≠ .s p) → g (row P.Ns x c) = 0 := by
    intro x c h hc
    simp only [hgdef, (own x c h).2]
    rw [if_neg]
    rintro ⟨p, hp⟩
    exact hc p hp
  set S := ∑ x ∈ Finset.range P.Ns, ∑ p : Fin 5, radius P x ^ 3 * v (row P.Ns x (.s p)) ^ 2 with hSdef
  set n := side P with hn
  set u := mulVec n C.get v with hu
  have hMu : ∀ i < n, mulVec n M.get u i = v i := by
    intro i hi
    have := (inv_mulVec hC v (i := i) (by rw [hr]; exact hi)).2
    rwa [hr] at this
  have pos : 0 ≤ ∑ i ∈ Finset.range n, (u i - g i) * mulVec n M.get (fun j => u j - g j) i := by
    by_cases h : ∃ i < n, u i - g i ≠ 0
    · exact (posDef_iff.mp (C59_mobility hP hS hmu hbb) _ h).le
    · push Not at h
      rw [Finset.sum_eq_zero fun i hi => by rw [h i (Finset.mem_range.mp hi), zero_mul]]
  have lin : ∀ i, mulVec n M.get (fun j => u j - g j) i = mulVec n M.get u i - mulVec n M.get g i := by
    intro i
    unfold mulVec
    rw [← Finset.sum_sub_distrib]
    exact Finset.sum_congr rfl fun j _ => by ring
  have sym : ∑ i ∈ Finset.range n, u i * mulVec n M.get g i = ∑ i ∈ Finset.range n, g i * mulVec n M.get u i := by
    unfold mulVec
    simp only [Finset.mul_sum]
    rw [Finset.sum_comm]
    refine Finset.sum_congr rfl fun i _ => Finset.sum_congr rfl fun j _ => ?_
    rw [hM, Minfinity_symm P mu bb j i]; ring
  have gv : ∑ i ∈ Finset.range n, g i * mulVec n M.get u i = k * S := by
    rw [Finset.sum_congr rfl fun i hi => by rw [hMu i (Finset.mem_range.mp hi)], hn,
      show side P = 11 * P.Ns + 6 * P.Nd from rfl, sum_rows, Finset.sum_eq_zero, zero_add, hSdef, Finset.mul_sum]
    · refine Finset.sum_congr rfl fun x hx => ?_
      have hx' := Finset.mem_range.mp hx
      rw [Finset.sum_eq_zero, zero_add, Finset.mul_sum]
      · exact Finset.sum_congr rfl fun p _ => by rw [gs x hx' p]; ring
      · intro j _
        rw [g0 x (.t j) hx' (by simp)]; simp
    · intro x hx
      exact Finset.sum_eq_zero fun j _ => by rw [g0 x (.f j) (Finset.mem_range.mp hx) (by simp)]; simp
  have gg : ∑ i ∈ Finset.range n, g i * mulVec n M.get g i ≤ k * S := by
    refine (stresslet_form hP hS hmu hbb g g0).trans (le_of_eq ?_)
    have : ∑ x ∈ Finset.range P.Ns, ∑ p : Fin 5, g (row P.Ns x (.s p)) ^ 2 / radius P x ^ 3 = k ^ 2 * S := by
      rw [hSdef, Finset.mul_sum]
      refine Finset.sum_congr rfl fun x hx => ?_
      rw [Finset.mul_sum]
      refine Finset.sum_congr rfl fun p _ => ?_
      have hx' := Finset.mem_range.mp hx
      have := hP.radius_pos x (by unfold beads; omega)
      rw [gs x hx' p]
      field_simp
    rw [this, hk]
    generalize S = S
    field_simp
  have uv : ∑ i ∈ Finset.range n, u i * mulVec n M.get u i = ∑ i ∈ Finset.range n, v i * u i :=
    Finset.sum_congr rfl fun i hi => by rw [hMu i (Finset.mem_range.mp hi), mul_comm]
  have e : ∑ i ∈ Finset.range n, (u i - g i) * mulVec n M.get (fun j => u j - g j) i
      = ∑ i ∈ Finset.range n, u i * mulVec n M.get u i - ∑ i ∈ Finset.range n, u i * mulVec n M.get g i
        - ∑ i ∈ Finset.range n, g i * mulVec n M.get u i + ∑ i ∈ Finset.range n, g i * mulVec n M.get g i := by
    rw [← Finset.sum_sub_distrib, ← Finset.sum_sub_distrib, ← Finset.sum_add_distrib]
    exact Finset.sum_congr rfl fun i _ => by rw [lin]; ring
  rw [e, sym, gv, uv] at pos
  linarith

end SD
