import Verif.Lemmas.EwaldArray
import Verif.Props.Layers

/-!
# C82: consequences for whole configurations
-/

set_option autoImplicit false

namespace SD

open Spec Filter Topology

theorem gap_separate {P : PosData} (h : Separate P) {x y : ℕ} (hx : x < beads P) (hy : y < beads P) (hxy : x ≠ y) :
    gap P x y = fun i => centre P x i - centre P y i := by
  unfold gap sep
  rw [if_neg (not_lt.mpr (h x hx y hy hxy))]

theorem rapid_conj {N : ℕ} {u : ℕ → ℕ → ℕ → ℝ} (h : ∀ l < N, ∀ k < N, RapidTo (fun n => u l k n) 0) (p q : ℕ → ℝ) :
    RapidTo (fun n => ∑ k ∈ Finset.range N, (∑ l ∈ Finset.range N, p l * u l k n) * q k) 0 := by
  have h0 := RapidTo.sum (Finset.range N) fun k hk => ((RapidTo.sum (Finset.range N) fun l hl =>
    (h l (Finset.mem_range.mp hl) k (Finset.mem_range.mp hk)).const_mul (p l)).const_mul (q k))
  simp only [mul_zero, Finset.sum_const_zero] at h0
  exact h0.congr fun n _ => Finset.sum_congr rfl fun k _ => mul_comm _ _

/-! ## Particles moved by box vectors -/

section
variable {bl tr Ot : Vec3} {Et : Mat3} {a b : Fin 3} {g : ℝ} {P P' : PosData} {t : Vec3}
  (hP : InArray bl tr Ot Et a b g P)
  (hs : Separate P) (hs' : Separate P') (h : SameInBox (shearedBox (fun i => tr i - bl i) a b g) t P P')
include hP hs hs' h

theorem gap_images {x y : ℕ} (hx : x < beads P) (hy : y < beads P) (hxy : x ≠ y) : gap P' x y
    = fun m => gap P x y m + ((centre P' x m - centre P x m - t m) + -(centre P' y m - centre P y m - t m)) := by
  have hb : beads P' = beads P := by unfold beads; rw [h.spheres, h.dumbbells]
  rw [gap_separate hs hx hy hxy, gap_separate hs' (hb ▸ hx) (hb ▸ hy) hxy]
  funext m; ring

/-- The images of admissible particles are admissible. -/
theorem InArray.images (hP' : Sensible P') : InArray bl tr Ot Et a b g P' := by
  have hb : beads P' = beads P := by unfold beads; rw [h.spheres, h.dumbbells]
  refine ⟨hP', hP.edges, hP.axes, hP.shear, fun x hx y hy hxy v hv => ?_⟩
  rw [hb] at hx hy
  have := hP.apart x hx y hy hxy _ (Ewald.inLattice_add
    (Ewald.inLattice_add (h.centres x hx) (Ewald.inLattice_neg (h.centres y hy))) hv)
  rw [gap_images hP hs hs' h hx hy hxy]
  refine lt_of_lt_of_eq this (congrArg len ?_)
  funext m; ring

theorem arrayEntry_images (mu : ℝ) (bb : Bool) {x y : ℕ} (hx : x < beads P) (hy : y < beads P) (c1 c2 : Comp) :
    arrayEntry bl tr Ot Et P' mu bb x c1 y c2 = arrayEntry bl tr Ot Et P mu bb x c1 y c2 := by
  have hr : radius P' = radius P := by
    funext z
    unfold radius
    rw [h.spheres, h.dumbbells, h.sphereSize, h.dumbSize]
  have hq : Ewald.Silent P' bb x y ↔ Ewald.Silent P bb x y := by unfold Ewald.Silent; rw [h.spheres, h.dumbbells]
  unfold arrayEntry
  rw [hr, h.spheres]
  by_cases h1 : Ewald.Silent P bb x y
  · rw [if_pos h1, if_pos (hq.mpr h1)]
  · rw [if_neg h1, if_neg fun h' => h1 (hq.mp h')]
    by_cases h2 : x = y
    · rw [if_pos h2, if_pos h2]
    · rw [if_neg h2, if_neg h2]
      have hl := Ewald.inLattice_add (h.centres x hx) (Ewald.inLattice_neg (h.centres y hy))
      rw [← hP.lattice] at hl
      rw [gap_images hP hs hs' h hx hy h2, Ewald.arrayCode_translate hl]

/-- **C82** (images). Moving particles by box vectors, each by its own, and all of them by a common displacement,
changes the far-field matrix by less than every power of `1 / n`. -/
theorem C82_images (hP' : Sensible P') (mu : ℝ) (bb : Bool) {i j : ℕ} (hi : i < side P) (hj : j < side P) :
    RapidTo (fun n => (Ewald.generate_Minfinity_periodic n P' bl tr mu Ot Et bb).get i j
      - (Ewald.generate_Minfinity_periodic n P bl tr mu Ot Et bb).get i j) 0 := by
  have key : ∀ i < side P, ∀ j < side P, RapidTo (fun n => (boxMatrix n bl tr Ot Et P' mu bb).get i j
      - (boxMatrix n bl tr Ot Et P mu bb).get i j) 0 := by
    intro i hi j hj
    obtain ⟨u, c1, hu, rfl⟩ := (C48_rows P).1 i hi
    obtain ⟨v, c2, hv, rfl⟩ := (C48_rows P).1 j hj
    have e1 := entry_rapid hP mu bb hu hv
    have e2 := entry_rapid (hP.images hs hs' h hP') mu bb (x := u) (y := v) (c1 := c1) (c2 := c2) (by rw [h.spheres, h.dumbbells]; exact hu)
      (by rw [h.spheres, h.dumbbells]; exact hv)
    rw [arrayEntry_images hP hs hs' h mu bb (owns_lt (owns_kind hu)) (owns_lt (owns_kind hv)), h.spheres] at e2
    have e3 := e2.add (e1.const_mul (-1))
    rw [show arrayEntry bl tr Ot Et P mu bb u c1 v c2 + -1 * arrayEntry bl tr Ot Et P mu bb u c1 v c2 = 0 by ring] at e3
    exact e3.congr fun n _ => by ring
  unfold Ewald.generate_Minfinity_periodic
  dsimp only
  have hd : ∀ n (Q : PosData), Q.Ns = P.Ns → Q.Nd = P.Nd → (Ewald.generate_Minfinity_loop (Ewald.boxLattice n bl tr Ot Et)
      (NDMat.zeros (11 * P.Ns + 6 * P.Nd) (11 * P.Ns + 6 * P.Nd)) Q (1 / (8 * Real.pi * mu)) mu bb).cols = side P := by
    intro n Q _ _
    exact (Ewald.loop_dims _ Q _ mu bb _).2
  have key' : ∀ i < side P, ∀ j < side P, RapidTo (fun n => (Ewald.generate_Minfinity_loop (Ewald.boxLattice n bl tr Ot Et)
      (NDMat.zeros (11 * P.Ns + 6 * P.Nd) (11 * P.Ns + 6 * P.Nd)) P' (1 / (8 * Real.pi * mu)) mu bb).get i j
      - (Ewald.generate_Minfinity_loop (Ewald.boxLattice n bl tr Ot Et)
      (NDMat.zeros (11 * P.Ns + 6 * P.Nd) (11 * P.Ns + 6 * P.Nd)) P (1 / (8 * Real.pi * mu)) mu bb).get i j) 0 := by
    intro i hi j hj
    have := key i hi j hj
    unfold boxMatrix side at this
    rwa [h.spheres, h.dumbbells] at this
  rw [h.spheres, h.dumbbells]
  by_cases hN : P.Nd > 0
  · simp only [if_pos hN, NDMat.dot, NDMat.transpose, hd _ P rfl rfl, hd _ P' h.spheres h.dumbbells,
      ← Finset.sum_sub_distrib, ← sub_mul, ← mul_sub]
    exact rapid_conj key' _ _
  · simp only [if_neg hN]
    exact key' i hi j hj

end

/-! ## Large boxes -/

section
variable {d Ot : Vec3} {Et : Mat3} {a b : Fin 3} {g : ℝ} (hd : ∀ i, 0 < d i) (hab : a ≠ b) (hsh : IsShear Ot Et a b g)
  (o : Vec3)
include hd hab hsh

theorem unit_vol : Ewald.vol (Ewald.boxBasis 0 d Ot Et) = Ewald.boxL 0 d Ot Et ^ 3 := by
  have h0 : 0 ≤ d 0 * d 1 * d 2 := by have := hd 0; have := hd 1; have := hd 2; positivity
  have e : Ewald.boxL 0 d Ot Et ^ 3 = d 0 * d 1 * d 2 := by
    show (((d 0 - (0 : Vec3) 0) * (d 1 - (0 : Vec3) 1) * (d 2 - (0 : Vec3) 2)) ^ (1 / 3 : ℝ)) ^ 3 = _
    simp only [Pi.zero_apply, sub_zero]
    rw [← Real.rpow_natCast, ← Real.rpow_mul h0]
    norm_num
  rw [e]
  have hf : FoldedBox (fun i => d i - (0 : Vec3) i) Ot Et (Ewald.boxBasis 0 d Ot Et) :=
    shear_basis_folded fun i => by simpa using hd i
  have := C53_shear_volume (L := fun i => d i - (0 : Vec3) i) (fun i => by simpa using hd i) hab hsh hf
  simp only [Pi.zero_apply, sub_zero] at this
  exact this

/-- Whatever the particles, every box that is large enough is an admissible one. -/
theorem inArray_eventually {P : PosData} (hP : Sensible P) :
    ∀ᶠ L in atTop, InArray o (farCorner o d L) Ot Et a b g P := by
  have hedge : ∀ᶠ L : ℝ in atTop, ∀ i, o i + 1 / 10 ^ 10 < farCorner o d L i := by
    refine eventually_all.mpr fun i => ?_
    filter_upwards [eventually_gt_atTop (1 / d i)] with L hL
    rw [div_lt_iff₀ (hd i)] at hL
    unfold farCorner
    have : (1 : ℝ) / 10 ^ 10 < 1 := by norm_num
    linarith
  have happ : ∀ᶠ L : ℝ in atTop, ∀ x ∈ Finset.range (beads P), ∀ y ∈ Finset.range (beads P),
      ∀ v, InLattice (Ewald.boxBasis o (farCorner o d L) Ot Et) v → v ≠ 0 →
      1 / 10 ^ 10 < len fun i => gap P x y i + v i :=
    (eventually_all_finset _).mpr fun x hx => (eventually_all_finset _).mpr fun y hy =>
      Ewald.far_eventually hd (unit_vol hd hab hsh) o _ _
  filter_upwards [hedge, happ, eventually_gt_atTop 0] with L h1 h2 h0
  refine ⟨hP, h1, hab, hsh, fun x hx y hy hxy v hv => ?_⟩
  by_cases h3 : v = 0
  · subst h3
    simp only [Pi.zero_apply, add_zero]
    have := (sep_ne (hP.radius_pos x hx) (hP.radius_pos y hy) (hP.apart x hx y hy hxy)).2
    unfold eps10 at this
    exact this
  · have hside : ∀ i, 0 < farCorner o d L i - o i := fun i => by
      unfold farCorner; have := mul_pos h0 (hd i); linarith
    rw [← (C30_simple_shear hside hab hsh (shear_basis_folded hside)).2 v] at hv
    exact h2 x (Finset.mem_range.mpr hx) y (Finset.mem_range.mpr hy) v hv h3

/-- **C82** (large boxes). The limits for infinitely many layers tend, as the box grows, to the entries in an unbounded
fluid, so the order of the two limits does not matter. The exceptions are those of `C77_entry`. -/
theorem C82_large {P : PosData} (hP : Sensible P) (mu : ℝ) (bb : Bool) {x y : ℕ} {c1 c2 : Comp}
    (hx : HasRow P.Ns P.Nd x c1) (hy : HasRow P.Ns P.Nd y c2)
    (hown : bb = true ∨ x < P.Ns ∨ y < P.Ns ∨ (x + P.Nd ≠ y ∧ y + P.Nd ≠ x))
    (hrad : (x < P.Ns ↔ y < P.Ns) ∨ radius P x = radius P y) {A : ℝ → ℝ}
    (hA : ∀ᶠ L in atTop, Tendsto (fun n => (boxMatrix n o (farCorner o d L) Ot Et P mu bb).get (row P.Ns x c1)
      (row P.Ns y c2)) atTop (𝓝 (A L))) :
    Tendsto A atTop (𝓝 (systemMob P.Ns bb (centre P) (radius P) mu x c1 y c2)) := by
  have hxb : x < beads P := owns_lt (owns_kind hx)
  have hyb : y < beads P := owns_lt (owns_kind hy)
  have hV := unit_vol hd hab hsh
  have key : Tendsto (fun L => arrayEntry o (farCorner o d L) Ot Et P mu bb x c1 y c2) atTop
      (𝓝 (systemMob P.Ns bb (centre P) (radius P) mu x c1 y c2)) := by
    unfold arrayEntry systemMob
    by_cases hxy : x = y
    · have hq : ¬ Ewald.Silent P bb x y := fun h => h.2.2.2.1 hxy
      rw [if_pos hxy]
      simp only [if_neg hq, if_pos hxy]
      exact Ewald.arraySelf_large hd hV o _ _ _ _ _
    · rw [if_neg hxy]
      by_cases hs : bb = false ∧ P.Ns ≤ x ∧ P.Ns ≤ y
      · have hq : Ewald.Silent P bb x y := by
          refine ⟨hs.1, hs.2.1, hs.2.2, hxy, ?_⟩
          rcases hown with h | h | h | h
          · rw [hs.1] at h; cases h
          · omega
          · omega
          · exact h
        rw [if_pos hs]
        simp only [if_pos hq]
        exact tendsto_const_nhds
      · have hq : ¬ Ewald.Silent P bb x y := fun h => hs ⟨h.1, h.2.1, h.2.2.1⟩
        rw [if_neg hs]
        simp only [if_neg hq, if_neg hxy]
        have hne := (sep_ne (hP.radius_pos x hxb) (hP.radius_pos y hyb) (hP.apart x hxb y hyb hxy)).1
        have h := (Ewald.arrayCode_large hd hV o (decide (x < P.Ns ∧ y < P.Ns)) (radius P x) (radius P y) c1 c2
          hne).const_mul (1 / (8 * Real.pi * mu))
        convert h using 2
        congr 1
        by_cases hss : x < P.Ns ∧ y < P.Ns
        · rw [Ewald.limMob_eq _ _ _ _ _ _ (Or.inl (by simp [hss]))]
        · rcases hrad with hr | hr
          · have h1 : ¬ x < P.Ns := fun h => hss ⟨h, hr.mp h⟩
            have h2 : ¬ y < P.Ns := fun h => hss ⟨hr.mpr h, h⟩
            cases c1 with
            | t i => exact absurd hx h1
            | s i => exact absurd hx h1
            | f i =>
              cases c2 with
              | t j => exact absurd hy h2
              | s j => exact absurd hy h2
              | f j => rfl
          · rw [Ewald.limMob_eq _ _ _ _ _ _ (Or.inr hr)]
  refine key.congr' ?_
  filter_upwards [hA, inArray_eventually hd hab hsh o hP] with L h1 h2
  exact tendsto_nhds_unique (entry_rapid h2 mu bb hx hy).tendsto h1

theorem large_matrix {P : PosData} (hP : Sensible P) (mu : ℝ) {bb : Bool} (hbb : bb = true ∨ P.Nd = 0) (h1 : OneSize P)
    {A : ℝ → NDMat} (hA : ∀ᶠ L in atTop, ∀ i < side P, ∀ j < side P,
      Tendsto (fun n => (Ewald.generate_Minfinity_periodic n P o (farCorner o d L) mu Ot Et bb).get i j) atTop
        (𝓝 ((A L).get i j))) {i j : ℕ} (hi : i < side P) (hj : j < side P) :
    Tendsto (fun L => (A L).get i j) atTop (𝓝 ((generate_Minfinity P mu bb).get i j)) := by
  have key : ∀ i < side P, ∀ j < side P, ∃ l : ℝ → ℝ, (∀ᶠ L in atTop,
      Tendsto (fun n => (boxMatrix n o (farCorner o d L) Ot Et P mu bb).get i j) atTop (𝓝 (l L))) ∧
      Tendsto l atTop
      (𝓝 ((generate_Minfinity_loop (NDMat.zeros (side P) (side P)) P (1 / (8 * Real.pi * mu)) mu bb).get i j)) := by
    intro i hi j hj
    obtain ⟨u, c1, hu, rfl⟩ := (C48_rows P).1 i hi
    obtain ⟨v, c2, hv, rfl⟩ := (C48_rows P).1 j hj
    have hub : u < beads P := owns_lt (owns_kind hu)
    have hvb : v < beads P := owns_lt (owns_kind hv)
    have h2 : ∀ᶠ L in atTop, Tendsto (fun n => (boxMatrix n o (farCorner o d L) Ot Et P mu bb).get (row P.Ns u c1)
        (row P.Ns v c2)) atTop (𝓝 (arrayEntry o (farCorner o d L) Ot Et P mu bb u c1 v c2)) := by
      filter_upwards [inArray_eventually hd hab hsh o hP] with L h2
      exact (entry_rapid h2 mu bb hu hv).tendsto
    refine ⟨_, h2, ?_⟩
    rw [C48_entry hP mu bb hu hv]
    refine C82_large hd hab hsh o hP mu bb hu hv ?_ (h1.rad hub hvb) h2
    rcases hbb with h | h
    · exact Or.inl h
    · right; left; unfold beads at hub; omega
  choose! l hl hlim using key
  have hall : ∀ᶠ L in atTop, ∀ i ∈ Finset.range (side P), ∀ j ∈ Finset.range (side P),
      Tendsto (fun n => (boxMatrix n o (farCorner o d L) Ot Et P mu bb).get i j) atTop (𝓝 (l i j L)) :=
    (eventually_all_finset _).mpr fun i hi => (eventually_all_finset _).mpr fun j hj =>
      hl i (Finset.mem_range.mp hi) j (Finset.mem_range.mp hj)
  unfold Ewald.generate_Minfinity_periodic at hA
  unfold generate_Minfinity
  dsimp only at hA ⊢
  by_cases hN : P.Nd > 0
  · simp only [if_pos hN] at hA ⊢
    have c1 : ∀ n L, (Ewald.generate_Minfinity_loop (Ewald.boxLattice n o (farCorner o d L) Ot Et)
        (NDMat.zeros (11 * P.Ns + 6 * P.Nd) (11 * P.Ns + 6 * P.Nd)) P (1 / (8 * Real.pi * mu)) mu bb).cols = side P :=
      fun n L => (Ewald.loop_dims _ P _ mu bb _).2
    have c2 : (generate_Minfinity_loop (NDMat.zeros (11 * P.Ns + 6 * P.Nd) (11 * P.Ns + 6 * P.Nd)) P
        (1 / (8 * Real.pi * mu)) mu bb).cols = side P := (loop_dims P _ mu bb _).2
    simp only [NDMat.dot, NDMat.transpose, c1, c2] at hA ⊢
    have hT := tendsto_finsetSum (Finset.range (side P)) fun k hk => Tendsto.mul_const
      ((cooMatrix (11 * P.Ns + 6 * P.Nd) (dumbbellLEntries P.Ns P.Nd)).get j k) (tendsto_finsetSum (Finset.range (side P)) fun m hm =>
        Tendsto.const_mul ((cooMatrix (11 * P.Ns + 6 * P.Nd) (dumbbellLEntries P.Ns P.Nd)).get i m) (hlim m (Finset.mem_range.mp hm) k (Finset.mem_range.mp hk)))
    refine hT.congr' ?_
    filter_upwards [hA, hall] with L q1 q2
    refine tendsto_nhds_unique (tendsto_finsetSum _ fun k hk => Tendsto.mul_const _ (tendsto_finsetSum _ fun m hm =>
      Tendsto.const_mul _ (q2 m hm k hk))) (q1 i hi j hj)
  · simp only [if_neg hN] at hA ⊢
    refine (hlim i hi j hj).congr' ?_
    filter_upwards [hA, hall] with L q1 q2
    exact tendsto_nhds_unique (q2 i (Finset.mem_range.mpr hi) j (Finset.mem_range.mpr hj)) (q1 i hi j hj)

/-- **C82** (dissipation). For spheres and beads that are not too close, the limit for infinitely many layers is positive
definite in every large enough box. -/
theorem C82_mobility {P : PosData} (hP : Sensible P) (hS : Separate P) {mu : ℝ} (hmu : 0 < mu) {bb : Bool}
    (hbb : bb = true ∨ P.Nd = 0) (h1 : OneSize P) {A : ℝ → NDMat} (hA : ∀ᶠ L in atTop, ∀ i < side P, ∀ j < side P,
      Tendsto (fun n => (Ewald.generate_Minfinity_periodic n P o (farCorner o d L) mu Ot Et bb).get i j) atTop
        (𝓝 ((A L).get i j))) : ∀ᶠ L in atTop, PosDef (A L).get (side P) :=
  Perturb.posDef_eventually (fun _ hi _ hj => large_matrix hd hab hsh o hP mu hbb h1 hA hi hj) (C59_mobility hP hS hmu hbb)

end

end SD
