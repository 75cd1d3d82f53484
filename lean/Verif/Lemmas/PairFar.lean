import Verif.Lemmas.Axial
import Verif.Props.Scalars

/-!
# Far-field resistance of two spheres anywhere, from the far-field resistance of the script's pair
-/

set_option autoImplicit false

namespace SD.Cov

open Spec

/-- Every direction is the image of the first axis. -/
theorem exists_turn {d : Fin 3 → ℝ} (hd : dotp d d = 1) : ∃ Q, Orthogonal Q ∧ turnVec Q ex = d := by
  have hd' : d 0 * d 0 + d 1 * d 1 + d 2 * d 2 = 1 := hd
  by_cases h : d 0 = 1
  · refine ⟨fun i j => dlt i j, ?_, ?_⟩
    · intro i j
      fin_cases i <;> fin_cases j <;> simp [dlt, Fin.sum_univ_three]
    · have h1 : d 1 = 0 := by nlinarith [sq_nonneg (d 1), sq_nonneg (d 2)]
      have h2 : d 2 = 0 := by nlinarith [sq_nonneg (d 1), sq_nonneg (d 2)]
      funext i
      fin_cases i <;> simp [turnVec, dlt, ex, Fin.sum_univ_three, h, h1, h2]
  · have hne : 1 - d 0 ≠ 0 := fun e => h (by linarith)
    refine ⟨fun i j => dlt i j - (ex i - d i) * (ex j - d j) / (1 - d 0), ?_, ?_⟩
    · intro i j
      fin_cases i <;> fin_cases j <;> simp [dlt, Fin.sum_univ_three, ex] <;> field_simp <;>
        first
          | linear_combination (1 - d 0) ^ 2 * hd'
          | linear_combination d 1 ^ 2 * hd'
          | linear_combination d 2 ^ 2 * hd'
          | linear_combination -(1 - d 0) * d 1 * hd'
          | linear_combination -(1 - d 0) * d 2 * hd'
          | linear_combination d 1 * d 2 * hd'
          | linear_combination -d 1 * hd'
          | linear_combination -d 2 * hd'
          | linear_combination hd'
          | skip
    · funext i
      fin_cases i <;> simp [turnVec, dlt, ex, Fin.sum_univ_three] <;> field_simp <;> ring

/-- Two spheres of radii `a` and `b`; `d` points from the first to the second, `L` is the distance. -/
structure Two (P : PosData) (a b : ℝ) (d : Fin 3 → ℝ) (L : ℝ) : Prop where
  Ns : P.Ns = 2
  Nd : P.Nd = 0
  sens : Sensible P
  r0 : radius P 0 = a
  r1 : radius P 1 = b
  unit : dotp d d = 1
  pos : 0 < L
  apart : ∀ i, centre P 1 i - centre P 0 i = L * d i

theorem turn_axis {Q : Fin 3 → Fin 3 → ℝ} {d : Fin 3 → ℝ} (h : turnVec Q ex = d) (z : ℝ) :
    turnVec Q ![z, 0, 0] = fun i => z * d i := by
  subst h
  funext i
  simp [turnVec, ex, Fin.sum_univ_three]
  ring

theorem turn_origin (Q : Fin 3 → Fin 3 → ℝ) (i : Fin 3) : turnVec Q ![0, 0, 0] i = 0 := by
  simp [turnVec, Fin.sum_univ_three]

theorem renum_swap : Renum 2 0 fun u => 1 - u :=
  ⟨fun u hu => by omega, fun d hd => by omega, fun u hu v hv e => by omega⟩

section
variable {P : PosData} {a b L : ℝ} {d : Fin 3 → ℝ} (h : Two P a b d L)
include h

theorem Two.apos : 0 < a ∧ 0 < b := by
  have hb : beads P = 2 := by unfold beads; rw [h.Ns, h.Nd]
  have h1 := h.sens.radius_pos 0 (by omega)
  have h2 := h.sens.radius_pos 1 (by omega)
  rw [h.r0] at h1
  rw [h.r1] at h2
  exact ⟨h1, h2⟩

/-- From the view of the first sphere. -/
theorem similar_first {Q : Fin 3 → Fin 3 → ℝ} (hQ : Orthogonal Q) (hd : turnVec Q ex = d)
    (hs : Sensible (pairPosdata 1 (b / a) (L / ((a + b) / 2)))) :
    Similar (pairPosdata 1 (b / a) (L / ((a + b) / 2))) P (fun u => u) Q a (centre P 0) where
  Ns := h.Ns
  Nd := rfl
  Nd' := h.Nd
  renum := Renum.id _ _
  orth := hQ
  pos := h.apos.1
  sens := hs
  sens' := h.sens
  centre := by
    intro u hu i
    have hu' : u < 2 := hu
    obtain ⟨ha, hb⟩ := h.apos
    interval_cases u
    · rw [pair_centre0, turn_origin]; ring
    · rw [pair_centre1, turn_axis hd]
      have := h.apart i
      have e : a * (L / ((a + b) / 2) * (1 + 1 * (b / a)) * 0.5 * d i) = L * d i := by
        norm_num; field_simp
      rw [e]; linarith
  radius := by
    intro u hu
    have hu' : u < 2 := hu
    obtain ⟨ha, hb⟩ := h.apos
    interval_cases u
    · rw [pair_radius0, h.r0, mul_one]
    · rw [pair_radius1, h.r1]; field_simp

/-- From the view of the second sphere. -/
theorem similar_second {Q : Fin 3 → Fin 3 → ℝ} (hQ : Orthogonal Q) (hd : turnVec Q ex = fun i => -d i)
    (hs : Sensible (pairPosdata 1 (a / b) (L / ((a + b) / 2)))) :
    Similar (pairPosdata 1 (a / b) (L / ((a + b) / 2))) P (fun u => 1 - u) Q b (centre P 1) where
  Ns := h.Ns
  Nd := rfl
  Nd' := h.Nd
  renum := renum_swap
  orth := hQ
  pos := h.apos.2
  sens := hs
  sens' := h.sens
  centre := by
    intro u hu i
    have hu' : u < 2 := hu
    obtain ⟨ha, hb⟩ := h.apos
    interval_cases u
    · show _ = _ + b * turnVec Q (centre _ 1) i
      rw [pair_centre1, turn_axis hd]
      have := h.apart i
      have e : b * (L / ((a + b) / 2) * (1 + 1 * (a / b)) * 0.5 * -d i) = -(L * d i) := by
        rw [add_comm a b]; norm_num; field_simp
      rw [e]; linarith
    · show _ = _ + b * turnVec Q (centre _ 0) i
      rw [pair_centre0, turn_origin]; ring
  radius := by
    intro u hu
    have hu' : u < 2 := hu
    obtain ⟨ha, hb⟩ := h.apos
    interval_cases u
    · show _ = b * radius _ 1
      rw [pair_radius1, h.r0]; field_simp
    · show _ = b * radius _ 0
      rw [pair_radius0, h.r1, mul_one]

end

/-! ## The script's pair -/

section
variable {lam s : ℝ} (hs : Sensible (pairPosdata 1 lam s)) {C : NDMat}
  (hC : (generate_Minfinity (pairPosdata 1 lam s) 1 true).inv = some C)
include hs hC

theorem cell_axial {x y : ℕ} (hx : x < 2) (hy : y < 2) :
    Axial fun c1 c2 => C.get (row 2 x c1) (row 2 y c2) := by
  intro Q hQ he c1 c2
  have sim : Similar (pairPosdata 1 lam s) (pairPosdata 1 lam s) (fun u => u) Q 1 0 := by
    refine ⟨rfl, rfl, rfl, Renum.id _ _, hQ, one_pos, hs, hs, fun u hu i => ?_, fun u hu => by rw [one_mul]⟩
    have hu' : u < 2 := hu
    interval_cases u
    · rw [pair_centre0, turn_origin]; fin_cases i <;> simp
    · rw [pair_centre1, turn_axis he]; fin_cases i <;> simp [ex]
  obtain ⟨C', h1, h2⟩ := similar_inv sim true hC
  obtain rfl := Option.some.inj (hC.symm.trans h1)
  have := h2 x c1 y c2 hx hy
  simp only [one_pow, one_mul] at this
  exact this

omit hs in
theorem cell_symm (i j : ℕ) : C.get i j = C.get j i :=
  inv_symm hC (fun i j => (C12_symmetric _ _ _ i j).2.1) i j

end

/-- The scalars of the far field of the script's pair: of the first sphere's own motion (`g = 0`) and of the motion
of the second (`g = 1`). -/
noncomputable def farScal (C : NDMat) (g : ℕ) : Scalars :=
  axialScalars fun c1 c2 => C.get (row 2 0 c1) (row 2 g c2)

/-- They are what the script reads. -/
theorem farScal_nth {C : NDMat} (hC : ∀ i j, C.get i j = C.get j i) {κ g : ℕ} (hκ : κ < 11) (hg : g < 2) :
    (farScal C g).nth κ = extractScalar C 1 κ g := by
  interval_cases g <;> interval_cases κ <;>
    simp [farScal, axialScalars, Spec.Scalars.nth, extractScalar, row]
  · rw [hC]
  · rw [hC]
  · rw [hC]
  · rw [hC]
  · rw [hC]
  · rw [hC]
  · rw [hC]
  · rw [hC]

theorem nearSelf_scale {k : ℝ} (hk : 0 < k) (z : Scalars) (d : Fin 3 → ℝ) (c1 c2 : Comp) :
    nearSelf z k d c1 c2 = k * k ^ lengths c1 * k ^ lengths c2 * nearSelf z 1 d c1 c2 := by
  have e := fun c1 c2 => nearDirect_scale hk z 1 d c1 c2
  rw [mul_one] at e
  unfold nearSelf
  split_ifs
  · exact e c1 c2
  · rw [e c2 c1]; ring

/-- **The far-field resistance of two spheres** has the form of the near-field resistance, with the scalars the script
reads. -/
theorem two_far {P : PosData} {a b L : ℝ} {d : Fin 3 → ℝ} (h : Two P a b d L)
    (hs1 : Sensible (pairPosdata 1 (b / a) (L / ((a + b) / 2))))
    (hs2 : Sensible (pairPosdata 1 (a / b) (L / ((a + b) / 2)))) {C1 C2 : NDMat}
    (h1 : (generate_Minfinity (pairPosdata 1 (b / a) (L / ((a + b) / 2))) 1 true).inv = some C1)
    (h2 : (generate_Minfinity (pairPosdata 1 (a / b) (L / ((a + b) / 2))) 1 true).inv = some C2) (bb : Bool) :
    ∃ C, (generate_Minfinity P 1 bb).inv = some C ∧
      (∀ c1 c2, C.get (row 2 0 c1) (row 2 0 c2) = nearSelf (farScal C1 0) a d c1 c2) ∧
      (∀ c1 c2, C.get (row 2 1 c1) (row 2 1 c2) = nearSelf (farScal C2 0) b (fun i => -d i) c1 c2) ∧
      (∀ c1 c2, order c2 ≤ order c1 → C.get (row 2 0 c1) (row 2 1 c2) = nearDirect (farScal C1 1) a d c1 c2) ∧
      (∀ c1 c2, order c2 ≤ order c1 →
        C.get (row 2 1 c1) (row 2 0 c2) = nearDirect (farScal C2 1) b (fun i => -d i) c1 c2) := by
  have exu : dotp ex ex = 1 := by simp [dotp, ex]
  obtain ⟨ha, hb⟩ := h.apos
  have hdn : dotp (fun i => -d i) (fun i => -d i) = 1 := by
    have := h.unit
    simp only [dotp] at this ⊢
    linarith
  have view : ∀ {lam s k : ℝ} {Q : Fin 3 → Fin 3 → ℝ} {e : Fin 3 → ℝ} {C : NDMat}, Orthogonal Q → turnVec Q ex = e →
      0 < k → Sensible (pairPosdata 1 lam s) → (generate_Minfinity (pairPosdata 1 lam s) 1 true).inv = some C →
      (∀ c1 c2, k * k ^ lengths c1 * k ^ lengths c2 *
        (turnComp Q c1 fun d1 => turnComp Q c2 fun d2 => C.get (row 2 0 d1) (row 2 0 d2))
          = nearSelf (farScal C 0) k e c1 c2) ∧
      (∀ c1 c2, order c2 ≤ order c1 → k * k ^ lengths c1 * k ^ lengths c2 *
        (turnComp Q c1 fun d1 => turnComp Q c2 fun d2 => C.get (row 2 0 d1) (row 2 1 d2))
          = nearDirect (farScal C 1) k e c1 c2) := by
    intro lam s k Q e C hQ he hk hs hC
    subst he
    constructor
    · intro c1 c2
      rw [nearSelf_scale hk, nearSelf_turn hQ _ _ exu]
      congr 1
      refine turnComp_order hQ fun d1 e1 => turnComp_order hQ fun d2 e2 => ?_
      unfold nearSelf
      split_ifs with hc
      · exact axial_form (cell_axial hs hC (x := 0) (y := 0) (by norm_num) (by norm_num)) hc
      · rw [cell_symm hC]
        exact axial_form (cell_axial hs hC (x := 0) (y := 0) (by norm_num) (by norm_num)) (by omega)
    · intro c1 c2 hc
      have e := nearDirect_scale hk (farScal C 1) 1 (turnVec Q ex) c1 c2
      rw [mul_one] at e
      rw [e, nearDirect_turn hQ _ _ exu]
      congr 1
      refine turnComp_order hQ fun d1 e1 => turnComp_order hQ fun d2 e2 => ?_
      exact axial_form (cell_axial hs hC (x := 0) (y := 1) (by norm_num) (by norm_num)) (by omega)
  obtain ⟨Q, hQ, he⟩ := exists_turn h.unit
  obtain ⟨Q', hQ', he'⟩ := exists_turn hdn
  obtain ⟨C, hC, e1⟩ := similar_inv (similar_first h hQ he hs1) bb h1
  obtain ⟨C', hC', e2⟩ := similar_inv (similar_second h hQ' he' hs2) bb h2
  obtain rfl := Option.some.inj (hC.symm.trans hC')
  obtain ⟨v1, v2⟩ := view hQ he ha hs1 h1
  obtain ⟨w1, w2⟩ := view hQ' he' hb hs2 h2
  refine ⟨C, hC, fun c1 c2 => ?_, fun c1 c2 => ?_, fun c1 c2 hc => ?_, fun c1 c2 hc => ?_⟩
  · exact (e1 0 c1 0 c2 (by simp [pairPosdata]) (by simp [pairPosdata])).trans (v1 c1 c2)
  · exact (e2 1 c1 1 c2 (by simp [pairPosdata]) (by simp [pairPosdata])).trans (w1 c1 c2)
  · exact (e1 0 c1 1 c2 (by simp [pairPosdata]) (by simp [pairPosdata])).trans (v2 c1 c2 hc)
  · exact (e2 1 c1 0 c2 (by simp [pairPosdata]) (by simp [pairPosdata])).trans (w2 c1 c2 hc)

end SD.Cov
