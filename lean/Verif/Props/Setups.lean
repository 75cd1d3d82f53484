import Verif.Lemmas.Setups
import Verif.Props.Placement
import Verif.Props.PlacementPeriodic
import Verif.Props.ShippedInputs
import Verif.Props.Still

/-!
# Properties: the listed position setups
-/

set_option autoImplicit false

namespace SD

open Spec Setup

/-! ## C72 -/

theorem spread_mono {κ κ' : ℝ} (h : κ' ≤ κ) {P : PosData} (hr : ∀ x < beads P, 0 ≤ radius P x) (hP : Spread κ P) :
    Spread κ' P := fun x hx y hy hxy =>
  (mul_le_mul_of_nonneg_right h (by linarith [hr x hx, hr y hy])).trans (hP x hx y hy hxy)

/-- All radii of a setup are among the listed ones. -/
theorem setup_radius {r : SetupRows} {s : Set ℝ} (h1 : ∀ a ∈ r.sphere_sizes, a ∈ s) (h2 : ∀ a ∈ r.dumbbell_sizes, a ∈ s)
    {x : ℕ} (hx : x < beads r.config.P) : radius r.config.P x ∈ s := by
  rcases bead_cases r.config.P hx with ⟨x1, -, x3⟩ | ⟨j, hj, e, -, -, x3⟩ <;> rw [x3]
  · have hi : x < r.sphere_sizes.length := x1
    show r.sphere_sizes.getD x 0 ∈ s
    rw [getD_eq hi]; exact h1 _ (List.getElem_mem _)
  · have hi : j < r.dumbbell_sizes.length := hj
    show r.dumbbell_sizes.getD j 0 ∈ s
    rw [getD_eq hi]; exact h2 _ (List.getElem_mem _)

theorem ones_getD {n i : ℕ} (h : i < n) : ((List.range n).map fun _ => (1 : ℝ)).getD i 0 = 1 := by
  rw [getD_eq (by rw [List.length_map, List.length_range]; exact h), List.getElem_map]

theorem sqrt_two : √2 * √2 = (2 : ℝ) ∧ 1 ≤ √2 ∧ √2 ≤ (3 / 2 : ℝ) :=
  ⟨Real.mul_self_sqrt (by norm_num), by rw [Real.one_le_sqrt]; norm_num,
    Real.sqrt_le_iff.2 ⟨by norm_num, by norm_num⟩⟩

theorem spread4 : Spread 3 setup4.config.P := by
  obtain ⟨s1, s2, s3⟩ := sqrt_two
  have e : ∀ a b c : ℝ, (![a, b, c] : Vec3) 2 = c := fun _ _ _ => rfl
  refine spread_of ?_ ?_ ?_ ?_
  · intro i hi j hj hij
    have hi : i < 2 := hi
    have hj : j < 2 := hj
    refine gap_of_sq ?_
    interval_cases i <;> interval_cases j <;> first | omega | (simp [setup4, SetupRows.config]; norm_num)
  · intro i hi j hj b
    have hi : i < 2 := hi
    have hj : j < 2 := hj
    refine gap_of_sq ?_
    interval_cases i <;> interval_cases j <;> cases b <;> simp [setup4, SetupRows.config, beadOf, e] <;> nlinarith
  · intro i hi j hj b b' hij
    have hi : i < 2 := hi
    have hj : j < 2 := hj
    refine gap_of_sq ?_
    interval_cases i <;> interval_cases j <;> first | omega |
      (cases b <;> cases b' <;> simp [setup4, SetupRows.config, beadOf, e] <;> nlinarith)
  · intro i hi
    have hi : i < 2 := hi
    unfold len
    refine Real.le_sqrt_of_sq_le ?_
    rw [Fin.sum_univ_three]
    interval_cases i <;> simp [setup4, SetupRows.config, e] <;> norm_num

theorem walls_off : setup6Walls.Pairwise (Off (2.00001 ^ 2)) := by
  unfold setup6Walls
  dsimp only
  rw [List.pairwise_append]
  exact ⟨row_off (by norm_num) le_rfl _ _ _, row_off (by norm_num) le_rfl _ _ _, rows_off (by norm_num)⟩

theorem spread5 {fuel k k' : ℕ} {w : ℕ → ℝ} {ps : List Vec3} (hw : Stream w) (h : setup5 fuel w k = .ok (ps, k')) :
    Spread 2 (setup5Rows ps).config.P := by
  obtain ⟨h1, -, h3⟩ := C41_setup5 hw h
  have hs : ∀ i < 41, (setup5Rows ps).config.P.sphereSize i = 1 := by
    intro i hi
    exact ones_getD hi
  refine spread_of ?_ ?_ ?_ ?_
  · intro i hi j hj hij
    have hi : i < 41 := by simpa [setup5Rows, SetupRows.config] using hi
    have hj : j < 41 := by simpa [setup5Rows, SetupRows.config] using hj
    rw [hs i hi, hs j hj]
    have e1 : (setup5Rows ps).config.P.spherePos i = ps[i]'(by omega) := getD_eq (l := ps) (by omega)
    have e2 : (setup5Rows ps).config.P.spherePos j = ps[j]'(by omega) := getD_eq (l := ps) (by omega)
    rw [e1, e2]
    have := h3 i j _ _ hij (List.getElem?_eq_getElem (by omega)) (List.getElem?_eq_getElem (by omega))
    linarith
  · intro i _ j hj; exact absurd hj (by simp [setup5Rows, SetupRows.config])
  · intro i hi; exact absurd hi (by simp [setup5Rows, SetupRows.config])
  · intro i hi; exact absurd hi (by simp [setup5Rows, SetupRows.config])

theorem spread6 {fuel k k' : ℕ} {w : ℕ → ℝ} {ds : List (Vec3 × Vec3)} (hw : Stream w)
    (h : randomise_dumbbells fuel w k setup6Args = .ok (ds, k')) : Spread 2 (setup6Rows ds).config.P := by
  obtain ⟨h1, h2, h3, h4⟩ := C42_setup6 hw h
  have hl : setup6Walls.length = 90 := by simp [setup6Walls]
  have hs : ∀ i < 90, (setup6Rows ds).config.P.sphereSize i = 1 := by
    intro i hi
    exact ones_getD hi
  have hsz : setup6Args.sizes = List.replicate 200 0.1 := rfl
  have hd : ∀ i < 200, (setup6Rows ds).config.P.dumbSize i = 0.1 := by
    intro i hi
    show setup6Args.sizes.getD i 0 = 0.1
    rw [hsz, getD_eq (by rw [List.length_replicate]; exact hi), List.getElem_replicate]
  have hNs : (setup6Rows ds).config.P.Ns = 90 := by simp [setup6Rows, SetupRows.config]
  have hNd : (setup6Rows ds).config.P.Nd = 200 := by
    show setup6Args.sizes.length = 200
    rw [hsz, List.length_replicate]
  have hb : ∀ i (hi : i < 200), ((setup6Rows ds).config.P.dumbPos i, (setup6Rows ds).config.P.dumbDx i)
      = ds[i]'(by omega) := by
    intro i hi
    show ((ds.getD i 0).1, (ds.getD i 0).2) = _
    rw [getD_eq (by omega)]
  have hp : ∀ i (hi : i < 90), (setup6Rows ds).config.P.spherePos i = setup6Walls[i]'(by omega) := fun i hi =>
    getD_eq (l := setup6Walls) (by omega)
  refine spread_of ?_ ?_ ?_ ?_
  · intro i hi j hj hij
    rw [hNs] at hi hj
    rw [hs i hi, hs j hj]
    refine gap_of_sq ?_
    have := pairwise_getD (d := 0) Off.symm walls_off (i := i) (j := j) (by omega) (by omega) hij
    refine le_trans ?_ this
    norm_num
  · intro i hi j hj e
    rw [hNs] at hi
    rw [hNd] at hj
    rw [hs i hi, hd j hj, hb j hj, hp i hi, gap_comm]
    have := h4 _ (List.getElem_mem (by omega : j < ds.length)) e _ (List.getElem_mem (by omega : i < setup6Walls.length))
    unfold Apart at this
    linarith
  · intro i hi j hj e e' hij
    rw [hNd] at hi hj
    rw [hd i hi, hd j hj, hb i hi, hb j hj]
    have := h3 i j _ _ e e' hij (List.getElem?_eq_getElem (by omega)) (List.getElem?_eq_getElem (by omega))
    linarith
  · intro i hi
    rw [hNd] at hi
    rw [hd i hi]
    have e1 : (setup6Rows ds).config.P.dumbDx i = (ds[i]'(by omega)).2 := congrArg Prod.snd (hb i hi)
    rw [e1, (h2 _ (List.getElem_mem _)).1]
    norm_num

/-- The cases of `pos_setup`. -/
theorem pos_setup_cases {file : Option Saved} {fuel : ℕ} {w : ℕ → ℝ} {n : ℕ} {c : Config}
    (h : pos_setup file fuel w n = .ok c) :
    (n = 1 ∧ c = setup1.config) ∨ (n = 2 ∧ c = setup2.config) ∨ (n = 3 ∧ c = setup3.config) ∨
    (n = 4 ∧ c = setup4.config) ∨ (n = 5 ∧ ∃ ps k, setup5 fuel w 0 = .ok (ps, k) ∧ c = (setup5Rows ps).config) ∨
    (n = 6 ∧ ∃ ds k, randomise_dumbbells fuel w 0 setup6Args = .ok (ds, k) ∧ c = (setup6Rows ds).config) ∨
    (n = 7 ∧ c = setup7.config) ∨ (n = 8 ∧ ∃ d, file = some d ∧ same_setup_as d 0 1 0.1 = some c) := by
  unfold pos_setup at h
  split_ifs at h with h1 h2 h3 h4 h5 h6 h7 h8
  · exact .inl ⟨h1, (Except.ok.inj h).symm⟩
  · exact .inr (.inl ⟨h2, (Except.ok.inj h).symm⟩)
  · exact .inr (.inr (.inl ⟨h3, (Except.ok.inj h).symm⟩))
  · exact .inr (.inr (.inr (.inl ⟨h4, (Except.ok.inj h).symm⟩)))
  · refine .inr (.inr (.inr (.inr (.inl ⟨h5, ?_⟩))))
    split at h
    · rename_i ps k e
      exact ⟨ps, k, e, (Except.ok.inj h).symm⟩
    · cases h
  · refine .inr (.inr (.inr (.inr (.inr (.inl ⟨h6, ?_⟩)))))
    split at h
    · rename_i ds k e
      exact ⟨ds, k, e, (Except.ok.inj h).symm⟩
    · cases h
  · exact .inr (.inr (.inr (.inr (.inr (.inr (.inl ⟨h7, (Except.ok.inj h).symm⟩))))))
  · refine .inr (.inr (.inr (.inr (.inr (.inr (.inr ⟨h8, ?_⟩))))))
    split at h
    · rename_i c' e
      obtain ⟨d, hd, e⟩ := Option.bind_eq_some_iff.1 e
      exact ⟨d, hd, by rw [e, Except.ok.inj h]⟩
    · cases h

/-- **C72** (no overlaps). Every listed setup that is built from numbers, the two random ones included, has the
listed numbers of particles, of radius 1 for spheres and 0.1 for beads of dumbbells, and no two beads overlap. -/
theorem C72_apart {file : Option Saved} {fuel : ℕ} {w : ℕ → ℝ} (hw : Stream w) {n : ℕ} (hn : n ≠ 8) {c : Config}
    (h : pos_setup file fuel w n = .ok c) :
    (c.P.Ns, c.P.Nd) = listedCounts n ∧ (∀ i < c.P.Ns, c.P.sphereSize i = 1) ∧ (∀ i < c.P.Nd, c.P.dumbSize i = 0.1) ∧
    Spread 2 c.P := by
  have ss : ∀ {r : SetupRows}, (∀ a ∈ r.sphere_sizes, a = 1) → ∀ i < r.config.P.Ns, r.config.P.sphereSize i = 1 := by
    intro r hr i hi
    have hi : i < r.sphere_sizes.length := hi
    show r.sphere_sizes.getD i 0 = 1
    rw [getD_eq hi]; exact hr _ (List.getElem_mem _)
  have sd : ∀ {r : SetupRows}, (∀ a ∈ r.dumbbell_sizes, a = 0.1) →
      ∀ i < r.config.P.Nd, r.config.P.dumbSize i = 0.1 := by
    intro r hr i hi
    have hi : i < r.dumbbell_sizes.length := hi
    show r.dumbbell_sizes.getD i 0 = 0.1
    rw [getD_eq hi]; exact hr _ (List.getElem_mem _)
  have pos : ∀ {r : SetupRows}, (∀ a ∈ r.sphere_sizes, a = 1) → (∀ a ∈ r.dumbbell_sizes, a = 0.1) →
      ∀ x < beads r.config.P, 0 ≤ radius r.config.P x := by
    intro r h1 h2 x hx
    refine setup_radius (s := {a | 0 ≤ a}) (fun a ha => ?_) (fun a ha => ?_) hx
    · rw [h1 a ha]; show (0 : ℝ) ≤ 1; norm_num
    · rw [h2 a ha]; show (0 : ℝ) ≤ 0.1; norm_num
  rcases pos_setup_cases h with ⟨rfl, rfl⟩ | ⟨rfl, rfl⟩ | ⟨rfl, rfl⟩ | ⟨rfl, rfl⟩ | ⟨rfl, ps, k, e, rfl⟩ |
    ⟨rfl, ds, k, e, rfl⟩ | ⟨rfl, rfl⟩ | ⟨rfl, -⟩
  · have a1 : ∀ a ∈ setup1.sphere_sizes, a = 1 := by simp [setup1]
    have a2 : ∀ a ∈ setup1.dumbbell_sizes, a = 0.1 := by simp [setup1]
    exact ⟨by simp [setup1, SetupRows.config, listedCounts], ss a1, sd a2, spread_mono (by norm_num) (pos a1 a2) spread1⟩
  · have a1 : ∀ a ∈ setup2.sphere_sizes, a = 1 := by simp [setup2]
    have a2 : ∀ a ∈ setup2.dumbbell_sizes, a = 0.1 := by simp [setup2]
    exact ⟨by simp [setup2, SetupRows.config, listedCounts], ss a1, sd a2, spread_mono (by norm_num) (pos a1 a2) spread2⟩
  · have a1 : ∀ a ∈ setup3.sphere_sizes, a = 1 := by simp [setup3]
    have a2 : ∀ a ∈ setup3.dumbbell_sizes, a = 0.1 := by simp [setup3]
    exact ⟨by simp [setup3, SetupRows.config, listedCounts], ss a1, sd a2, spread_mono (by norm_num) (pos a1 a2) spread3⟩
  · have a1 : ∀ a ∈ setup4.sphere_sizes, a = 1 := by simp [setup4]
    have a2 : ∀ a ∈ setup4.dumbbell_sizes, a = 0.1 := by simp [setup4]
    exact ⟨by simp [setup4, SetupRows.config, listedCounts], ss a1, sd a2, spread_mono (by norm_num) (pos a1 a2) spread4⟩
  · have a1 : ∀ a ∈ (setup5Rows ps).sphere_sizes, a = 1 := by simp [setup5Rows]
    have a2 : ∀ a ∈ (setup5Rows ps).dumbbell_sizes, a = 0.1 := by simp [setup5Rows]
    exact ⟨by simp [setup5Rows, SetupRows.config, listedCounts], ss a1, sd a2, spread5 hw e⟩
  · have a1 : ∀ a ∈ (setup6Rows ds).sphere_sizes, a = 1 := by simp [setup6Rows]
    have a2 : ∀ a ∈ (setup6Rows ds).dumbbell_sizes, a = 0.1 := by
      intro a ha
      have : a ∈ List.replicate 200 (0.1 : ℝ) := ha
      exact (List.mem_replicate.1 this).2
    refine ⟨?_, ss a1, sd a2, spread6 hw e⟩
    have : setup6Args.sizes.length = 200 := by
      have : setup6Args.sizes = List.replicate 200 0.1 := rfl
      rw [this, List.length_replicate]
    simp [setup6Rows, SetupRows.config, listedCounts, this]
  · have a1 : ∀ a ∈ setup7.sphere_sizes, a = 1 := by simp [setup7]
    have a2 : ∀ a ∈ setup7.dumbbell_sizes, a = 0.1 := by simp [setup7]
    exact ⟨by simp [setup7, SetupRows.config, listedCounts], ss a1, sd a2, spread_mono (by norm_num) (pos a1 a2) spread7⟩
  · exact absurd rfl hn

theorem setup_radii {file : Option Saved} {fuel : ℕ} {w : ℕ → ℝ} (hw : Stream w) {n : ℕ} (hn : n ≠ 8) {c : Config}
    (h : pos_setup file fuel w n = .ok c) {x : ℕ} (hx : x < beads c.P) :
    radius c.P x = 1 ∨ (radius c.P x = 0.1 ∧ (n = 4 ∨ n = 6)) := by
  obtain ⟨h1, h2, h3, -⟩ := C72_apart hw hn h
  rcases bead_cases c.P hx with ⟨x1, -, x3⟩ | ⟨j, hj, e, -, -, x3⟩ <;> rw [x3]
  · exact .inl (h2 x x1)
  · refine .inr ⟨h3 j hj, ?_⟩
    have h4 : c.P.Nd = (listedCounts n).2 := congrArg Prod.snd h1
    rcases pos_setup_cases h with ⟨rfl, -⟩ | ⟨rfl, -⟩ | ⟨rfl, -⟩ | ⟨rfl, -⟩ | ⟨rfl, -⟩ | ⟨rfl, -⟩ | ⟨rfl, -⟩ | ⟨rfl, -⟩
    all_goals first | (simp only [listedCounts] at h4; omega) | omega

/-- **C72** (room). In setups 1 to 4 the beads are more than one and a half mean diameters apart, hence fit for the
theorems about matrices and runs. -/
theorem C72_room {file : Option Saved} {fuel : ℕ} {w : ℕ → ℝ} (hw : Stream w) {n : ℕ} (hn : n ≤ 4) {c : Config}
    (h : pos_setup file fuel w n = .ok c) : Spread 3 c.P ∧ Sensible c.P ∧ Separate c.P ∧ ¬ Touching c.P := by
  have hr : ∀ x < beads c.P, 0.1 ≤ radius c.P x := by
    intro x hx
    rcases setup_radii hw (by omega) h hx with e | ⟨e, -⟩ <;> rw [e]
    norm_num
  have hr0 : ∀ x < beads c.P, 0 ≤ radius c.P x := fun x hx => le_trans (by norm_num) (hr x hx)
  have hs : Spread 3 c.P := by
    rcases pos_setup_cases h with ⟨rfl, rfl⟩ | ⟨rfl, rfl⟩ | ⟨rfl, rfl⟩ | ⟨rfl, rfl⟩ | ⟨rfl, -⟩ | ⟨rfl, -⟩ |
      ⟨rfl, -⟩ | ⟨rfl, -⟩
    · exact spread_mono (by norm_num) hr0 spread1
    · exact spread_mono (by norm_num) hr0 spread2
    · exact spread_mono (by norm_num) hr0 spread3
    · exact spread4
    all_goals omega
  have hsep : Separate c.P := fun x hx y hy hxy =>
    le_trans (mul_le_mul_of_nonneg_right (by norm_num) (by linarith [hr0 x hx, hr0 y hy])) (hs x hx y hy hxy)
  refine ⟨hs, ⟨fun x hx => lt_of_lt_of_le (by norm_num) (hr x hx), fun x hx y hy hxy => ?_⟩, hsep, ?_⟩
  · refine lt_of_lt_of_le ?_ (hs x hx y hy hxy)
    have e1 := hr x hx
    have e2 := hr y hy
    norm_num at e1 e2 ⊢
    linarith
  · rintro ⟨x, hx, y, hy, hxy, hlt⟩
    exact absurd (hsep x hx y hy hxy) (not_le.2 hlt)

/-- **C72** (the walls of setups 6 and 7 touch in the sense of the code). Neighbouring spheres of a wall are at 2.00001
radii, below the 2.001 from which on the far field is exact: the code treats them as overlapping. -/
theorem C72_walls_touch {file : Option Saved} {fuel : ℕ} {w : ℕ → ℝ} {n : ℕ} (hn : n = 6 ∨ n = 7) {c : Config}
    (h : pos_setup file fuel w n = .ok c) : Touching c.P := by
  have key : ∀ z : ℝ, len (fun i => (![2.00001 * ((0 : ℕ) : ℝ) - (45 / 2 : ℕ) * 2.00001, 0, z] : Vec3) i
      - (![2.00001 * ((1 : ℕ) : ℝ) - (45 / 2 : ℕ) * 2.00001, 0, z] : Vec3) i) < 2.001 * ((1 + 1) / 2) := by
    intro z
    unfold len
    have e : ∀ a b c : ℝ, (![a, b, c] : Vec3) 2 = c := fun _ _ _ => rfl
    rw [Real.sqrt_lt' (by norm_num), Fin.sum_univ_three]
    simp only [Matrix.cons_val_zero, Matrix.cons_val_one, e]
    norm_num
  rcases pos_setup_cases h with ⟨rfl, rfl⟩ | ⟨rfl, rfl⟩ | ⟨rfl, rfl⟩ | ⟨rfl, rfl⟩ | ⟨rfl, -⟩ | ⟨rfl, ds, k, -, rfl⟩ |
      ⟨rfl, rfl⟩ | ⟨rfl, -⟩
  all_goals try omega
  · have hN : (setup6Rows ds).config.P.Ns = 90 := by simp [setup6Rows, SetupRows.config]
    refine ⟨0, by unfold beads; omega, 1, by unfold beads; omega, by norm_num, ?_⟩
    have c0 : centre (setup6Rows ds).config.P 0 = (setup6Rows ds).config.P.spherePos 0 := by
      funext i; simp [centre, hN]
    have c1 : centre (setup6Rows ds).config.P 1 = (setup6Rows ds).config.P.spherePos 1 := by
      funext i; simp [centre, hN]
    have r0 : radius (setup6Rows ds).config.P 0 = 1 := by
      rw [radius, hN, if_pos (by norm_num)]; exact ones_getD (n := 45 * 2) (i := 0) (by norm_num)
    have r1 : radius (setup6Rows ds).config.P 1 = 1 := by
      rw [radius, hN, if_pos (by norm_num)]; exact ones_getD (n := 45 * 2) (i := 1) (by norm_num)
    rw [c0, c1, r0, r1]
    exact key 0
  · have hN : setup7.config.P.Ns = 99 := by simp [setup7, SetupRows.config]
    refine ⟨0, by unfold beads; omega, 1, by unfold beads; omega, by norm_num, ?_⟩
    have c0 : centre setup7.config.P 0 = setup7.config.P.spherePos 0 := by
      funext i; simp [centre, hN]
    have c1 : centre setup7.config.P 1 = setup7.config.P.spherePos 1 := by
      funext i; simp [centre, hN]
    have r0 : radius setup7.config.P 0 = 1 := by
      rw [radius, hN, if_pos (by norm_num)]; exact ones_getD (n := 45 * 2 + 9) (i := 0) (by norm_num)
    have r1 : radius setup7.config.P 1 = 1 := by
      rw [radius, hN, if_pos (by norm_num)]; exact ones_getD (n := 45 * 2 + 9) (i := 1) (by norm_num)
    rw [c0, c1, r0, r1]
    exact key (-5)

/-- **C72** (which numbers are listed). A setup can be built exactly for the numbers from 1 to 8; this includes that
the random placements of 5 and 6 can succeed. -/
theorem C72_listed (n : ℕ) :
    (∃ file fuel w c, Stream w ∧ pos_setup file fuel w n = .ok c) ↔ 1 ≤ n ∧ n ≤ 8 := by
  constructor
  · rintro ⟨file, fuel, w, c, -, h⟩
    rcases pos_setup_cases h with ⟨rfl, -⟩ | ⟨rfl, -⟩ | ⟨rfl, -⟩ | ⟨rfl, -⟩ | ⟨rfl, -⟩ | ⟨rfl, -⟩ | ⟨rfl, -⟩ | ⟨rfl, -⟩ <;>
      omega
  · rintro ⟨h1, h2⟩
    have hz : Stream fun _ => 0 := fun k => ⟨le_rfl, zero_lt_one⟩
    interval_cases n
    · exact ⟨none, 0, _, _, hz, rfl⟩
    · exact ⟨none, 0, _, _, hz, rfl⟩
    · exact ⟨none, 0, _, _, hz, rfl⟩
    · exact ⟨none, 0, _, _, hz, rfl⟩
    · obtain ⟨w, hw, e⟩ := setup5_finishes
      refine ⟨none, 1, w, (setup5Rows ((List.range 41).map latticePoint)).config, hw, ?_⟩
      simp only [pos_setup, e]
      rfl
    · obtain ⟨⟨ds, k⟩, e⟩ := setup6_finishes
      refine ⟨none, 1, rowStream, (setup6Rows ds).config, rowStream_ok, ?_⟩
      simp only [pos_setup, e]
      rfl
    · exact ⟨none, 0, _, _, hz, rfl⟩
    · exact ⟨some ⟨[starStart], []⟩, 0, _, _, hz, rfl⟩

/-- **C72** (a simple cubic array). The eight spheres and all their images in the box that goes with them are the points
of one cubic lattice with half the side of the box as its spacing. -/
theorem C72_lattice (s : ℝ) :
    {x | ∃ q ∈ simple_cubic_8 s, ∃ m,
      x = imageOf (fun c => (simple_cubic_8_box s).2 c - (simple_cubic_8_box s).1 c) m q}
      = cubicLattice (s / 2) fun _ => s / 4 := by
  have hmem : ∀ q : Vec3, q ∈ simple_cubic_8 s ↔ ∀ c, q c = -s / 4 ∨ q c = s / 4 := by
    intro q
    constructor
    · intro hq
      simp only [simple_cubic_8, List.mem_flatMap, List.mem_map, List.mem_cons, List.not_mem_nil, or_false] at hq
      obtain ⟨a, ha, b, hb, d, hd, rfl⟩ := hq
      intro c
      fin_cases c
      · exact ha
      · exact hb
      · exact hd
    · intro h
      simp only [simple_cubic_8, List.mem_flatMap, List.mem_map, List.mem_cons, List.not_mem_nil, or_false]
      refine ⟨q 0, h 0, q 1, h 1, q 2, h 2, ?_⟩
      funext c; fin_cases c <;> rfl
  ext x
  constructor
  · rintro ⟨q, hq, m, rfl⟩
    rw [hmem] at hq
    have : ∀ c, ∃ k : ℤ, imageOf (fun c => (simple_cubic_8_box s).2 c - (simple_cubic_8_box s).1 c) m q c
        = s / 4 + k * (s / 2) := by
      intro c
      rcases hq c with h | h
      · refine ⟨2 * m c - 1, ?_⟩
        simp only [imageOf, simple_cubic_8_box, h]; push_cast; ring
      · refine ⟨2 * m c, ?_⟩
        simp only [imageOf, simple_cubic_8_box, h]; push_cast; ring
    exact ⟨fun c => (this c).choose, fun c => (this c).choose_spec⟩
  · rintro ⟨k, hk⟩
    refine ⟨fun c => if k c % 2 = 0 then s / 4 else -s / 4, (hmem _).2 fun c => ?_,
      fun c => if k c % 2 = 0 then k c / 2 else k c / 2 + 1, ?_⟩
    · by_cases h : k c % 2 = 0
      · right; exact if_pos h
      · left; exact if_neg h
    · funext c
      have hd := Int.emod_add_mul_ediv (k c) 2
      rw [hk c]
      by_cases h : k c % 2 = 0
      · simp only [imageOf, simple_cubic_8_box, h, if_true]
        rw [h] at hd
        have : (k c : ℝ) = 2 * ((k c / 2 : ℤ) : ℝ) := by exact_mod_cast (by omega : k c = 2 * (k c / 2))
        rw [this]; ring
      · simp only [imageOf, simple_cubic_8_box, h, if_false]
        have : (k c : ℝ) = 2 * ((k c / 2 : ℤ) : ℝ) + 1 := by exact_mod_cast (by omega : k c = 2 * (k c / 2) + 1)
        rw [this]; push_cast; ring

/-- **C72** (density). With spheres of radius 1 no two of all these images overlap exactly if the side is at least
four; setup 3 and input 2 use the side eight. -/
theorem C72_cubic_apart {s : ℝ} (hs : 0 < s) :
    (∀ p ∈ cubicLattice (s / 2) fun _ => s / 4, ∀ q ∈ cubicLattice (s / 2) fun _ => s / 4, p ≠ q → Apart p 1 q 1) ↔
      4 ≤ s := by
  constructor
  · intro h
    have h1 : (fun _ => s / 4 : Fin 3 → ℝ) ∈ cubicLattice (s / 2) fun _ => s / 4 := ⟨0, fun c => by simp⟩
    have h2 : (![s / 4 + s / 2, s / 4, s / 4] : Fin 3 → ℝ) ∈ cubicLattice (s / 2) fun _ => s / 4 := by
      refine ⟨![1, 0, 0], fun c => ?_⟩
      fin_cases c <;> simp
    have := h _ h1 _ h2 (fun e => by
      have := congrFun e 0
      simp only [Matrix.cons_val_zero] at this
      linarith)
    unfold Apart gap len at this
    rw [Fin.sum_univ_three] at this
    have e : (![s / 4 + s / 2, s / 4, s / 4] : Fin 3 → ℝ) 2 = s / 4 := rfl
    simp only [Matrix.cons_val_zero, Matrix.cons_val_one, e] at this
    have e2 : (s / 4 - (s / 4 + s / 2)) ^ 2 + (s / 4 - s / 4) ^ 2 + (s / 4 - s / 4) ^ 2 = (s / 2) ^ 2 := by ring
    rw [e2, Real.sqrt_sq (by linarith)] at this
    linarith
  · rintro h p ⟨k, hk⟩ q ⟨l, hl⟩ hpq
    obtain ⟨c, hc⟩ : ∃ c, k c ≠ l c := by
      by_contra hno
      push Not at hno
      exact hpq (funext fun c => by rw [hk, hl, hno])
    refine apart_of_coord c ?_
    have e1 : p c - q c = ((k c - l c : ℤ) : ℝ) * (s / 2) := by
      rw [hk, hl]; push_cast; ring
    have e2 : (1 : ℝ) ≤ |((k c - l c : ℤ) : ℝ)| := by
      exact_mod_cast Int.one_le_abs (sub_ne_zero.2 hc)
    rw [e1, abs_mul, abs_of_pos (by linarith : 0 < s / 2)]
    nlinarith

/-- What a run has saved first is where it began. -/
theorem first_saved {W : World} {S : Settings} {bl tr : Vec3} (h0 : S.start = 0) (h1 : S.start_saving = 0)
    (hn : 0 < S.save_positions_every) {c : Config} {k : ℕ} {s : State}
    (h : runFrames W S bl tr (State.fresh c) (k + 1) = some s) : ∃ l, s.savedPos = some (c :: l) := by
  induction k generalizing s with
  | zero =>
    obtain ⟨s0, e0, e1⟩ := run_prev h
    obtain rfl := Option.some.inj e0
    obtain ⟨-, r, -, -, -, -, -, e2, -⟩ := frame_some rfl e1
    unfold savePositions at e2
    rw [h0, h1] at e2
    rw [if_pos ⟨hn, by simp, by omega⟩] at e2
    simp only [Nat.add_zero, if_true, Option.bind_eq_bind, Option.bind_some, Option.map_some] at e2
    split_ifs at e2
    · exact ⟨[r.new], (Option.some.inj e2).symm⟩
    · exact ⟨[], (Option.some.inj e2).symm⟩
  | succ k ih =>
    obtain ⟨s0, e0, e1⟩ := run_prev h
    obtain ⟨l, hl⟩ := ih e0
    by_cases he : s0.error = false
    · obtain ⟨-, r, -, -, -, -, -, e2, -⟩ := frame_some he e1
      unfold savePositions at e2
      rw [hl] at e2
      split_ifs at e2 with a1 a2 a3 a4 a5
      all_goals first
        | omega
        | (simp only [Option.map_some, Option.bind_eq_bind, Option.bind_some] at e2
           split_ifs at e2 <;> exact ⟨_, (Option.some.inj e2).symm⟩)
        | exact ⟨_, (Option.some.inj e2).symm⟩
    · rw [frame_error (by simpa using he)] at e1
      obtain rfl := Option.some.inj e1
      exact ⟨l, hl⟩

/-- **C72** (starting again from a file). Setup 8 with the file of an earlier run has the particles of that run in their
first positions. Radii are not in the file: they are 1 and 0.1 whatever they were, and the arrows are the default
ones. -/
theorem C72_replay {W : World} {S : Settings} (h0 : S.start = 0) (h1 : S.start_saving = 0)
    (hn : 0 < S.save_positions_every) (hN : 0 < S.num_frames) {c : Config} {d : Saved} {left : Option Saved}
    (h : program W S (State.fresh c) = some (some d, left)) (fuel : ℕ) (w : ℕ → ℝ) :
    ∃ c', pos_setup (some d) fuel w 8 = .ok c' ∧ c'.P.Ns = c.P.Ns ∧ c'.P.Nd = c.P.Nd ∧
      (∀ x < beads c.P, centre c'.P x = centre c.P x) ∧
      (∀ x < beads c.P, radius c'.P x = if x < c.P.Ns then 1 else 0.1) ∧
      c'.rots = defaultRots c.P.spherePos fun _ => 1 := by
  obtain ⟨u, -, h⟩ := Option.bind_eq_some_iff.mp h
  obtain ⟨s, hs, hfin⟩ := Option.bind_eq_some_iff.mp h
  rw [h0, Nat.sub_zero] at hs
  obtain ⟨k, hk⟩ : ∃ k, S.num_frames = k + 1 := ⟨S.num_frames - 1, by omega⟩
  rw [hk] at hs
  obtain ⟨l, hl⟩ := first_saved h0 h1 hn hs
  have hd : d.positions = c :: l := by
    unfold finalSave at hfin
    rw [if_pos (.inr hn)] at hfin
    obtain ⟨D, e1, e2⟩ := Option.map_eq_some_iff.mp hfin
    unfold savez at e1
    obtain ⟨p, f1, e1⟩ := Option.bind_eq_some_iff.mp e1
    obtain ⟨g, f2, e1⟩ := Option.bind_eq_some_iff.mp e1
    rw [hl] at f1
    obtain rfl := Option.some.inj f1
    simp only [Prod.mk.injEq] at e2
    obtain rfl := Option.some.inj e2.1
    obtain rfl := Option.some.inj e1
    rfl
  refine ⟨{ P := { c.P with sphereSize := fun _ => 1, dumbSize := fun _ => 0.1 },
            rots := defaultRots c.P.spherePos fun _ => 1 }, ?_, rfl, rfl, fun x _ => rfl, fun x _ => ?_, rfl⟩
  · obtain ⟨ps, fs⟩ := d
    obtain rfl : ps = c :: l := hd
    rfl
  · unfold radius
    by_cases hx : x < c.P.Ns
    · simp [hx]
    · simp [hx]

/-- The setups 1 to 4 are in order for an input that works without a periodic box. -/
theorem setup_steady {m : ℕ} {form : InputForm} {W : World} {S : Settings}
    (hW : Ships m form W) (hS : S.input_form = form) {file : Option Saved} {fuel : ℕ} {w : ℕ → ℝ} (hw : Stream w) {n : ℕ}
    (hn : n ≤ 4) {c : Config} (hc : pos_setup file fuel w n = .ok c)
    (hl : 1 ∈ W.table.lam) (hl4 : n = 4 → 1 / 10 ∈ W.table.lam ∧ 10 ∈ W.table.lam)
    (hb : S.bead_bead_interactions = true ∨ n ≠ 4) (hf : form ≠ .duf) (h2 : m ≠ 2) (h6 : m ≠ 6)
    (hm : Works m form c.P.Ns) : Arrows c ∧ Steady W S c := by
  have h8 : n ≠ 8 := by omega
  obtain ⟨g1, g2, g3, -⟩ := C72_apart hw h8 hc
  have hNs : 0 < c.P.Ns := by
    have : c.P.Ns = (listedCounts n).1 := congrArg Prod.fst g1
    rw [this]
    rcases pos_setup_cases hc with ⟨rfl, -⟩ | ⟨rfl, -⟩ | ⟨rfl, -⟩ | ⟨rfl, -⟩ | ⟨rfl, -⟩ | ⟨rfl, -⟩ | ⟨rfl, -⟩ | ⟨rfl, -⟩ <;>
      first | omega | simp [listedCounts]
  have hr := fun {x : ℕ} (hx : x < beads c.P) => setup_radii hw h8 hc hx
  refine ⟨?_, shipped_steady hW hS ?_ ?_ ?_ ?_ (by omega) h2 (fun e => absurd e h6) hm⟩
  · have hrots : c.rots = defaultRots c.P.spherePos c.P.sphereSize := by
      rcases pos_setup_cases hc with ⟨rfl, rfl⟩ | ⟨rfl, rfl⟩ | ⟨rfl, rfl⟩ | ⟨rfl, rfl⟩ | ⟨rfl, -⟩ | ⟨rfl, -⟩ | ⟨rfl, -⟩ |
        ⟨rfl, -⟩ <;> first | omega | rfl
    intro i hi j e
    rw [hrots] at e
    by_cases hj : j = 0
    · have := congrFun e 0
      simp [defaultRots, hj, g2 i hi] at this
    · have := congrFun e 2
      simp [defaultRots, hj, g2 i hi] at this
  · intro x hx
    rcases hr hx with e | ⟨e, -⟩ <;> rw [e] <;> norm_num
  · intro x hx y hy
    rcases hr hx with e | ⟨e, h4⟩ <;> rcases hr hy with e' | ⟨e', h4'⟩ <;> rw [e, e']
    · exact ⟨1, hl, by norm_num⟩
    · exact ⟨1 / 10, (hl4 (by omega)).1, by norm_num⟩
    · exact ⟨10, (hl4 (by omega)).2, by norm_num⟩
    · exact ⟨1, hl, by norm_num⟩
  · exact ⟨fun e => by omega, fun _ => hf⟩
  · rcases hb with hb | hb
    · exact .inl hb
    · right
      have : c.P.Nd = (listedCounts n).2 := congrArg Prod.snd g1
      rw [this]
      rcases pos_setup_cases hc with ⟨rfl, -⟩ | ⟨rfl, -⟩ | ⟨rfl, -⟩ | ⟨rfl, -⟩ | ⟨rfl, -⟩ | ⟨rfl, -⟩ | ⟨rfl, -⟩ | ⟨rfl, -⟩ <;>
        first | omega | simp [listedCounts]

/-- **C72** (setups and inputs together). A run that starts from one of the setups 1 to 4 with a dissipating table that
has the size ratios needed, and with an input that works without a periodic box, can only stop early because two beads
have come to touch. -/
theorem C72_runs {m : ℕ} {form : InputForm} {W : World} {S : Settings} (hD : TableDissipates W.table)
    (hW : Ships m form W) (hS : S.input_form = form) {file : Option Saved} {fuel : ℕ} {w : ℕ → ℝ} (hw : Stream w) {n : ℕ}
    (hn : n ≤ 4) {c : Config} (hc : pos_setup file fuel w n = .ok c) (hR : Runnable S c.P.Nd) (hk : 0 < S.num_frames)
    (hl : 1 ∈ W.table.lam) (hl4 : n = 4 → 1 / 10 ∈ W.table.lam ∧ 10 ∈ W.table.lam)
    (hb : S.bead_bead_interactions = true ∨ n ≠ 4) (hf : form ≠ .duf) (h2 : m ≠ 2) (h6 : m ≠ 6)
    (hm : Works m form c.P.Ns) (h : program W S (State.fresh c) = none) :
    ∃ u, W.input_ftsuoe c 0 0.1 Vel.blank none = some u ∧
      ∃ j < S.num_frames, ∃ s, runFrames W S u.bl u.tr (State.fresh c) j = some s ∧ s.error = false ∧
        ∃ d, Visits W S u.bl u.tr j s d ∧ SameSizes c d ∧ Touching d.P := by
  obtain ⟨ha, hst⟩ := setup_steady hW hS hw hn hc hl hl4 hb hf h2 h6 hm
  exact C65_stops hD hR ha hk hst (C72_room hw hn hc).2.2.2 h

/-! ## The hypotheses can be met -/

/-- Setup 6 for `C72_apart` and `C72_walls_touch`. -/
example : ∃ c, pos_setup none 1 rowStream 6 = .ok c ∧ Spread 2 c.P ∧ Touching c.P := by
  obtain ⟨⟨ds, k⟩, e⟩ := setup6_finishes
  have h : pos_setup none 1 rowStream 6 = .ok (setup6Rows ds).config := by
    simp only [pos_setup, e]
    rfl
  exact ⟨_, h, (C72_apart rowStream_ok (by norm_num) h).2.2.2, C72_walls_touch (.inl rfl) h⟩

/-- Three spheres falling from setup 2 can only be stopped by spheres that touch. -/
example (N : ℕ) (hN : 0 < N)
    (h : program (shippedWorld 1 .fts) (formSettings .fts N) (State.fresh setup2.config) = none) :
    ∃ u, (shippedWorld 1 .fts).input_ftsuoe setup2.config 0 0.1 Vel.blank none = some u ∧
      ∃ j < N, ∃ s, runFrames (shippedWorld 1 .fts) (formSettings .fts N) u.bl u.tr
          (State.fresh setup2.config) j = some s ∧ s.error = false ∧
        ∃ d, Visits (shippedWorld 1 .fts) (formSettings .fts N) u.bl u.tr j s d ∧
          SameSizes setup2.config d ∧ Touching d.P :=
  C72_runs (n := 2) (file := none) (fuel := 0) (w := fun _ => 0) dampT_dissipates (shippedWorld_ships 1 .fts) rfl
    (fun _ => ⟨le_rfl, zero_lt_one⟩) (by norm_num) rfl (formSettings_ok _ N _) hN
    (by show (1 : ℝ) ∈ ([1 / 4, 1 / 2, 1, 2, 4] : List ℝ); simp) (fun h => absurd h (by norm_num)) (.inr (by norm_num))
    (by simp) (by norm_num) (by norm_num)
    (show 1 ≤ 1 ∧ 1 ≤ 7 ∧ (setup2.config.P.Ns = 0 → 1 = 3 ∨ 1 = 7) from
      ⟨le_rfl, by norm_num, fun h => absurd h (by simp [setup2, SetupRows.config])⟩) h

/-- A run of which setup 8 takes the start again. -/
example (N : ℕ) (hN : 0 < N) : ∃ d c', program (shippedWorld 5 .fte) (formSettings .fte N) (State.fresh starStart)
    = some (some d, none) ∧ pos_setup (some d) 0 (fun _ => 0) 8 = .ok c' ∧
    ∀ x < beads starP, centre c'.P x = centre starP x := by
  have hst := star_steady 0 0 0 .rk4 N
  obtain ⟨d, hd, -⟩ := C67_velocities_ignored (.inr rfl) dampT_dissipates (shippedWorld_ships 5 .fte) rfl
    (formSettings_ok _ N _) starStart_arrows hN (by simp [starStart, starP])
    (steady_ready (shipped_steady (shippedWorld_ships 5 .fte) rfl hst.radii hst.ratios ⟨by simp [starStart, starP], by simp⟩
      (.inl rfl) (by simp [starStart, starP]) (by omega) (by omega) (show 1 ≤ 5 ∧ 5 ≤ 7 by omega)) ⟨rfl, rfl, rfl, rfl⟩
      star_apart)
  have hR := formSettings_ok .fte N 0
  obtain ⟨c', e, -, -, e2, -⟩ := C72_replay hR.start hR.first hR.pos hN hd 0 fun _ => 0
  exact ⟨d, c', hd, e, e2⟩

end SD
