import Verif.Lemmas.GrandResistance
import Verif.Spec.GrandResistance
import Verif.Spec.Linear
import Verif.Props.NearField

/-!
# C15, C19, C25: the grand resistance matrix
-/

set_option autoImplicit false

namespace SD

open Spec

/-! ## C25 -/

section
variable {T : ScalarTable} {P : PosData} {last : NDMat} {reg : Bool} {k : ℝ} {dragM only : Bool} {mu : ℝ}
  {bb : Bool} {R C : NDMat}

/-- The two steps of the function. -/
theorem grand_some
    (h : generate_grand_resistance_matrix T P last reg k dragM only mu bb = some (R, C)) :
    (if dragM = false then
      if reg then (generate_Minfinity P mu bb).inv else some last
    else some (NDMat.smul mu (npDiag (dragDiagonal P)))) = some C ∧
    (only = false → ∃ N, generate_R2Bexact T P k mu bb = some N ∧ R = N.add C) ∧
    (only = true → R = C) := by
  unfold generate_grand_resistance_matrix at h
  rw [Option.bind_eq_bind, Option.bind_eq_some_iff] at h
  obtain ⟨C', h1, h2⟩ := h
  cases only
  · rw [if_pos rfl, Option.bind_eq_some_iff] at h2
    obtain ⟨N, h3, h4⟩ := h2
    simp only [Option.some.injEq, Prod.mk.injEq] at h4
    obtain ⟨rfl, rfl⟩ := h4
    exact ⟨h1, fun _ => ⟨N, h3, rfl⟩, by simp⟩
  · rw [if_neg (by simp)] at h2
    simp only [Option.some.injEq, Prod.mk.injEq] at h2
    obtain ⟨rfl, rfl⟩ := h2
    exact ⟨h1, by simp, fun _ => rfl⟩

/-- **C25** (near field). With the near field switched on, the matrix is the sum of the far-field part, which
is also returned for later use, and the near-field matrix; otherwise it is the far-field part. -/
theorem C25_near_field
    (h : generate_grand_resistance_matrix T P last reg k dragM only mu bb = some (R, C)) :
    (only = false → ∃ N, generate_R2Bexact T P k mu bb = some N ∧
      ∀ i j, R.get i j = C.get i j + N.get i j) ∧
    (only = true → R = C) := by
  obtain ⟨-, h2, h3⟩ := grand_some h
  refine ⟨fun e => ?_, h3⟩
  obtain ⟨N, hN, rfl⟩ := h2 e
  exact ⟨N, hN, fun i j => add_comm _ _⟩

/-- **C25** (far field). Without the drag approximation, the far-field part is the inverse of the far-field
mobility matrix of the configuration, or the matrix passed in if it is not to be regenerated. -/
theorem C25_far_field
    (h : generate_grand_resistance_matrix T P last reg k false only mu bb = some (R, C)) :
    (reg = false → C = last) ∧
    (reg = true → ∀ (v : ℕ → ℝ) (i : ℕ), i < side P →
      mulVec (side P) C.get (mulVec (side P) (generate_Minfinity P mu bb).get v) i = v i ∧
      mulVec (side P) (generate_Minfinity P mu bb).get (mulVec (side P) C.get v) i = v i) := by
  obtain ⟨h1, -, -⟩ := grand_some h
  rw [if_pos rfl] at h1
  cases reg
  · rw [if_neg (by simp)] at h1
    exact ⟨fun _ => (Option.some.inj h1).symm, by simp⟩
  · rw [if_pos rfl] at h1
    refine ⟨by simp, fun _ v i hi => ?_⟩
    have := inv_mulVec h1 v (i := i) (by rw [(Minfinity_dims P mu bb).1]; exact hi)
    rwa [(Minfinity_dims P mu bb).1] at this

theorem dragDiagonal_length (P : PosData) : (dragDiagonal P).length = side P := by
  simp [dragDiagonal, side]
  omega

theorem dragDiagonal_getD (P : PosData) {i : ℕ} (hi : i < side P) :
    (dragDiagonal P).getD i 0 = drag P i := by
  have hm : ∀ (n : ℕ) (f : ℕ → ℝ) (i : ℕ), i < n → ((List.range n).map f)[i]?.getD 0 = f i := by
    intro n f i hi
    rw [List.getElem?_map, List.getElem?_range hi]
    rfl
  unfold side at hi
  unfold dragDiagonal drag
  rw [List.getD_eq_getElem?_getD]
  by_cases h1 : i < 3 * P.Ns
  · rw [if_pos h1, List.getElem?_append_left (by simp; omega), List.getElem?_append_left (by simp; omega),
      List.getElem?_append_left (by simp; omega), List.getElem?_append_left (by simp; omega), hm _ _ _ h1]
  rw [if_neg h1]
  by_cases h2 : i < 6 * P.Ns
  · rw [if_pos h2, List.getElem?_append_left (by simp; omega), List.getElem?_append_left (by simp; omega),
      List.getElem?_append_left (by simp; omega), List.getElem?_append_right (by simp; omega)]
    simp only [List.length_map, List.length_range]
    rw [hm _ _ _ (by omega)]
    norm_num
  rw [if_neg h2]
  by_cases h3 : i < 11 * P.Ns
  · rw [if_pos h3, List.getElem?_append_left (by simp; omega), List.getElem?_append_left (by simp; omega),
      List.getElem?_append_right (by simp; omega)]
    simp only [List.length_map, List.length_range, List.length_append]
    rw [hm _ _ _ (by omega), show i - (3 * P.Ns + 3 * P.Ns) = i - 6 * P.Ns by omega]
    norm_num
  rw [if_neg h3]
  by_cases h4 : i < 11 * P.Ns + 3 * P.Nd
  · rw [if_pos h4, List.getElem?_append_left (by simp; omega), List.getElem?_append_right (by simp; omega)]
    simp only [List.length_map, List.length_range, List.length_append]
    rw [hm _ _ _ (by omega), show i - (3 * P.Ns + 3 * P.Ns + 5 * P.Ns) = i - 11 * P.Ns by omega]
  · rw [if_neg h4, List.getElem?_append_right (by simp; omega)]
    simp only [List.length_map, List.length_range, List.length_append]
    rw [hm _ _ _ (by omega), show i - (3 * P.Ns + 3 * P.Ns + 5 * P.Ns + 3 * P.Nd)
      = i - (11 * P.Ns + 3 * P.Nd) by omega]

/-- **C25** (drag). With the drag approximation, the far-field part is diagonal, with the radius, 4/3 and 10/9
of its cube for the spheres and twice the radius for the dumbbells, times the viscosity; it is
positive for positive radii and viscosity. It does not depend on the matrix passed in. -/
theorem C25_drag
    (h : generate_grand_resistance_matrix T P last reg k true only mu bb = some (R, C)) :
    C.rows = side P ∧ C.cols = side P ∧
    (∀ i j, i ≠ j → C.get i j = 0) ∧ (∀ i < side P, C.get i i = mu * drag P i) ∧
    (0 < mu → (∀ i < P.Ns, 0 < P.sphereSize i) → (∀ i < P.Nd, 0 < P.dumbSize i) →
      ∀ i < side P, 0 < C.get i i) := by
  obtain ⟨h1, -, -⟩ := grand_some h
  rw [if_neg (by simp)] at h1
  obtain rfl := Option.some.inj h1
  have hd : ∀ i < side P, (NDMat.smul mu (npDiag (dragDiagonal P))).get i i = mu * drag P i := by
    intro i hi
    simp only [NDMat.smul, npDiag, if_true]
    rw [dragDiagonal_getD P hi]
  refine ⟨dragDiagonal_length P, dragDiagonal_length P, fun i j hij => ?_, hd, fun hmu hs hb i hi => ?_⟩
  · simp [NDMat.smul, npDiag, hij]
  · rw [hd i hi]
    refine mul_pos hmu ?_
    unfold side at hi
    unfold drag
    split_ifs
    · exact hs _ (by omega)
    · have := hs ((i - 3 * P.Ns) / 3) (by omega); positivity
    · have := hs ((i - 6 * P.Ns) / 5) (by omega); positivity
    · have := hb ((i - 11 * P.Ns) / 3) (by omega); positivity
    · have := hb ((i - (11 * P.Ns + 3 * P.Nd)) / 3) (by omega); positivity

/-- **C25** (symmetric). In every mode the matrix is symmetric, if the matrix passed in is (when it is used
at all). -/
theorem C25_symmetric (hP : Sensible P) (hk : 0 < k) (hT : Tabulated T.lam P k)
    (hl : dragM = false → reg = false → ∀ i j, last.get i j = last.get j i)
    (h : generate_grand_resistance_matrix T P last reg k dragM only mu bb = some (R, C)) (i j : ℕ) :
    R.get i j = R.get j i ∧ C.get i j = C.get j i := by
  obtain ⟨h1, h2, h3⟩ := grand_some h
  have hC : ∀ i j, C.get i j = C.get j i := by
    intro i j
    cases dragM
    · rw [if_pos rfl] at h1
      cases reg
      · rw [if_neg (by simp)] at h1
        rw [← Option.some.inj h1]
        exact hl rfl rfl i j
      · rw [if_pos rfl] at h1
        exact inv_symm h1 (Minfinity_symm P mu bb) i j
    · by_cases e : i = j
      · rw [e]
      · rw [(C25_drag h).2.2.1 i j e, (C25_drag h).2.2.1 j i (Ne.symm e)]
  refine ⟨?_, hC i j⟩
  cases only
  · obtain ⟨N, hN, rfl⟩ := h2 rfl
    obtain ⟨N', hN', -, -, hs⟩ := C20_symmetric hP hk hT mu bb
    rw [hN] at hN'
    obtain rfl := Option.some.inj hN'
    show N.get i j + C.get i j = N.get j i + C.get j i
    rw [hs i j, hC i j]
  · rw [h3 rfl]; exact hC i j

/-- **C25** (when it stops). The function fails exactly if the far-field matrix has to be inverted and has a
null vector, or the near field is switched on and a size ratio is missing. -/
theorem C25_stops :
    generate_grand_resistance_matrix T P last reg k dragM only mu bb = none ↔
      (dragM = false ∧ reg = true ∧ ∃ v : ℕ → ℝ, (∃ i < side P, v i ≠ 0) ∧
        ∀ i < side P, mulVec (side P) (generate_Minfinity P mu bb).get v i = 0) ∨
      (only = false ∧ generate_R2Bexact T P k mu bb = none) := by
  have hd := Minfinity_dims P mu bb
  have hinv := inv_isSome (M := generate_Minfinity P mu bb) (by rw [hd.1, hd.2])
  rw [hd.1] at hinv
  have hnone : (generate_Minfinity P mu bb).inv = none ↔ ∃ v : ℕ → ℝ, (∃ i < side P, v i ≠ 0) ∧
        ∀ i < side P, mulVec (side P) (generate_Minfinity P mu bb).get v i = 0 := by
    rw [← not_iff_not]
    rw [← Ne, Option.ne_none_iff_exists']
    rw [hinv]
    push Not
    constructor
    · intro h v ⟨i, hi, hv⟩
      by_contra hc
      push Not at hc
      exact hv (h v hc i hi)
    · intro h v hv i hi
      by_contra hc
      obtain ⟨j, hj, hne⟩ := h v ⟨i, hi, hc⟩
      exact hne (hv j hj)
  rw [← hnone]
  unfold generate_grand_resistance_matrix
  cases dragM <;> cases reg <;> cases only <;>
    rcases (generate_Minfinity P mu bb).inv with _ | X <;>
    rcases generate_R2Bexact T P k mu bb with _ | Y <;> simp

end

/-- The drag approximation of the example returns. -/
example : ∃ R C, generate_grand_resistance_matrix demoT demoP (NDMat.zeros 1 1) false 2 true false 3 true
    = some (R, C) := by
  obtain ⟨N, hN, -⟩ := C20_symmetric demoP_sensible (k := 2) (by norm_num) (demoT_tabulated 2) 3 true
  refine ⟨N.add (NDMat.smul 3 (npDiag (dragDiagonal demoP))),
    NDMat.smul 3 (npDiag (dragDiagonal demoP)), ?_⟩
  unfold generate_grand_resistance_matrix
  rw [if_neg (by simp), Option.bind_eq_bind, Option.bind_some, if_pos rfl, hN]
  rfl

/-! ## C15 -/

/-- **C15** (far field). Multiplying the viscosity by `k` divides the far-field mobility by `k`. -/
theorem C15_far (P : PosData) (k mu : ℝ) (bb : Bool) (i j : ℕ) :
    (generate_Minfinity P (k * mu) bb).get i j = (generate_Minfinity P mu bb).get i j / k := by
  rw [Minfinity_visc]
  simp only [NDMat.smul]
  rw [div_eq_inv_mul]

/-- **C15** (near field). Multiplying the viscosity by `k` multiplies the near-field resistance by `k`, and
does not affect whether there is a result. -/
theorem C15_near (T : ScalarTable) (P : PosData) (c k mu : ℝ) (bb : Bool) :
    (generate_R2Bexact T P c (k * mu) bb = none ↔ generate_R2Bexact T P c mu bb = none) ∧
    ∀ N N', generate_R2Bexact T P c mu bb = some N → generate_R2Bexact T P c (k * mu) bb = some N' →
      ∀ i j, N'.get i j = k * N.get i j := by
  rw [R2B_visc]
  refine ⟨Option.map_eq_none_iff, fun N N' h h' => ?_⟩
  rw [h] at h'
  obtain rfl := Option.some.inj h'
  exact fun _ _ => rfl

/-- **C15** (grand resistance). In every mode, multiplying the viscosity by `k` (and the matrix kept from an
earlier frame, if there is one) multiplies the grand resistance matrix by `k`. -/
theorem C15_grand (T : ScalarTable) (P : PosData) (last : NDMat) (reg : Bool) (c : ℝ)
    (dragM only : Bool) {k : ℝ} (hk : 0 < k) (mu : ℝ) (bb : Bool) {R C : NDMat}
    (h : generate_grand_resistance_matrix T P last reg c dragM only mu bb = some (R, C)) :
    ∃ R' C', generate_grand_resistance_matrix T P (NDMat.smul k last) reg c dragM only (k * mu) bb
        = some (R', C') ∧ (∀ i j, R'.get i j = k * R.get i j) ∧ ∀ i j, C'.get i j = k * C.get i j := by
  rw [grand_visc T P last reg c dragM only hk.ne' mu bb, h]
  exact ⟨_, _, rfl, fun _ _ => rfl, fun _ _ => rfl⟩

/-- **C15** (velocities). For given forces, multiplying the viscosity by `k` divides the solution by `k`, and
does not affect whether there is one. -/
theorem C15_velocities (T : ScalarTable) (P : PosData) (last : NDMat) (reg : Bool) (c : ℝ)
    (dragM only : Bool) {k : ℝ} (hk : 0 < k) (mu : ℝ) (bb : Bool) {R C R' C' : NDMat}
    (h : generate_grand_resistance_matrix T P last reg c dragM only mu bb = some (R, C))
    (h' : generate_grand_resistance_matrix T P (NDMat.smul k last) reg c dragM only (k * mu) bb
      = some (R', C')) (f : List ℝ) :
    R'.solve f = (R.solve f).map (List.map (· / k)) := by
  rw [grand_visc T P last reg c dragM only hk.ne' mu bb, h] at h'
  simp only [Option.map_some, Option.some.injEq, Prod.mk.injEq] at h'
  rw [← h'.1]
  exact solve_smul R hk.ne' f

example (i j : ℕ) : (generate_Minfinity demoP 6 true).get i j = (generate_Minfinity demoP 2 true).get i j / 3 := by
  have := C15_far demoP 3 2 true i j
  norm_num at this ⊢
  exact this

/-! ## C19 -/

/-- **C19**. A lone sphere of radius `a`: with or without the near field, the grand resistance matrix exists
and gives the force `6 π mu a U`, the torque `8 π mu a³ O` and the stresslet `20/3 π mu a³ E`. -/
theorem C19_lone_sphere {T : ScalarTable} {P : PosData} (h1 : P.Ns = 1) (h0 : P.Nd = 0) {a mu : ℝ}
    (ha : P.sphereSize 0 = a) (hpos : 0 < a) (hmu : 0 < mu) {k : ℝ} (hk : 0 < k)
    (hT : ∃ t ∈ T.lam, |t - 1| ≤ 1 / 10 ^ 8 + 1 / 10 ^ 5) (last : NDMat) (only bb : Bool) :
    ∃ R C, generate_grand_resistance_matrix T P last true k false only mu bb = some (R, C) ∧
      ∀ (v : ℕ → ℝ) (c : Comp), mulVec (side P) R.get v (row 1 0 c) = stokes mu a c * v (row 1 0 c) := by
  classical
  have hs : side P = 11 := by simp [side, h1, h0]
  have hb : beads P = 1 := by simp [beads, h1, h0]
  have hr : radius P 0 = a := by simp [radius, h1, ha]
  have hP : Sensible P := by
    refine ⟨fun x hx => ?_, fun x hx y hy e => ?_⟩
    · obtain rfl : x = 0 := by omega
      rw [hr]; exact hpos
    · omega
  have hTab : Tabulated T.lam P k := by
    intro x hx y hy _
    obtain rfl : x = 0 := by omega
    obtain rfl : y = 0 := by omega
    rw [div_self (by rw [hr]; exact hpos.ne')]
    simpa using hT
  have hrow : ∀ c, HasRow P.Ns P.Nd 0 c := fun c => by cases c <;> simp [HasRow, h1, h0]
  have hlt : ∀ c, row 1 0 c < 11 := fun c => by
    have := row_lt (hrow c)
    rwa [h1, h0] at this
  have hsurj : ∀ i < 11, ∃ c, row 1 0 c = i := by
    intro i hi
    obtain ⟨u, c, h, e⟩ := row_surj (Ns := 1) (Nd := 0) (i := i) (by omega)
    have : u = 0 := by cases c <;> simp only [HasRow] at h <;> omega
    subst this
    exact ⟨c, e⟩
  have hst : ∀ c, 0 < stokes mu a c := by
    have := Real.pi_pos
    intro c; cases c <;> simp only [stokes] <;> positivity
  have hinj : ∀ c1 c2, row 1 0 c1 = row 1 0 c2 → c1 = c2 := by
    intro c1 c2 e
    have g : ∀ c, HasRow 1 0 0 c := fun c => by cases c <;> simp [HasRow]
    exact (row_inj (g c1) (g c2) e).2
  -- the far-field matrix is diagonal
  have hM : ∀ c1 c2, (generate_Minfinity P mu bb).get (row 1 0 c1) (row 1 0 c2)
      = if c1 = c2 then (stokes mu a c1)⁻¹ else 0 := by
    intro c1 c2
    have e : generate_Minfinity P mu bb = generate_Minfinity_loop (NDMat.zeros 11 11) P
        (1 / (8 * Real.pi * mu)) mu bb := by
      unfold generate_Minfinity
      dsimp only
      rw [if_neg (by omega), h1, h0]
    have := entry_of_sensible hP mu bb (hrow c1) (hrow c2) 11 11
    rw [← e, h1] at this
    rw [this]
    unfold systemMob
    rw [if_pos rfl, hr]
    cases c1 <;> cases c2 <;> simp [selfMob, stokes]
  have hMv : ∀ v c, mulVec 11 (generate_Minfinity P mu bb).get v (row 1 0 c)
      = (stokes mu a c)⁻¹ * v (row 1 0 c) := by
    intro v c
    unfold mulVec
    rw [Finset.sum_eq_single (row 1 0 c)]
    · rw [hM, if_pos rfl]
    · intro j hj hne
      obtain ⟨c', rfl⟩ := hsurj j (Finset.mem_range.mp hj)
      rw [hM, if_neg (fun e => hne (by rw [e])), zero_mul]
    · intro h; exact absurd (Finset.mem_range.mpr (hlt c)) h
  -- the near-field matrix is zero
  obtain ⟨N, hN, hN0⟩ : ∃ N, generate_R2Bexact T P k mu bb = some N ∧
      ∀ c1 c2, N.get (row 1 0 c1) (row 1 0 c2) = 0 := by
    obtain ⟨M, e1, -, e3⟩ := C20_entry hP hk hTab bb
    refine ⟨NDMat.smul mu M, ?_, fun c1 c2 => ?_⟩
    · unfold generate_R2Bexact R2BexactOfPairs
      unfold side beads at e1
      dsimp only
      rw [e1, Option.bind_eq_bind, Option.bind_some, if_neg (by omega)]
    · have := e3 0 c1 0 c2 (hrow c1) (hrow c2)
      rw [h1, hb] at this
      simp only [NDMat.smul]
      rw [this]
      simp [systemNear]
  obtain ⟨C, hC⟩ : ∃ C, (generate_Minfinity P mu bb).inv = some C := by
    have hd := Minfinity_dims P mu bb
    rw [inv_isSome (by rw [hd.1, hd.2])]
    rw [hd.1, hs]
    intro v hv i hi
    obtain ⟨c, rfl⟩ := hsurj i hi
    have := hv _ hi
    rw [hMv] at this
    rcases mul_eq_zero.mp this with h | h
    · exact absurd h (inv_ne_zero (hst c).ne')
    · exact h
  have hCv : ∀ v c, mulVec 11 C.get v (row 1 0 c) = stokes mu a c * v (row 1 0 c) := by
    intro v c
    have hi := hlt c
    have := (inv_mulVec hC v (i := row 1 0 c) (by rw [(Minfinity_dims P mu bb).1, hs]; exact hi)).2
    rw [(Minfinity_dims P mu bb).1, hs, hMv] at this
    have h := hst c
    field_simp at this
    linarith
  rw [hs]
  cases only
  · refine ⟨N.add C, C, ?_, fun v c => ?_⟩
    · unfold generate_grand_resistance_matrix
      rw [if_pos rfl, if_pos rfl, hC, Option.bind_eq_bind, Option.bind_some, if_pos rfl, hN]
      rfl
    · rw [← hCv v c]
      unfold mulVec
      refine Finset.sum_congr rfl fun j hj => ?_
      obtain ⟨c', rfl⟩ := hsurj j (Finset.mem_range.mp hj)
      simp only [NDMat.add]
      rw [hN0, zero_add]
  · refine ⟨C, C, ?_, fun v c => hCv v c⟩
    unfold generate_grand_resistance_matrix
    rw [if_pos rfl, if_pos rfl, hC, Option.bind_eq_bind, Option.bind_some, if_neg (by simp)]

/-- A sphere of radius 3. -/
noncomputable def loneP : PosData where
  Ns := 1
  Nd := 0
  sphereSize := fun _ => 3
  spherePos := fun _ => ![1, 2, 3]
  dumbSize := fun _ => 0
  dumbPos := fun _ => 0
  dumbDx := fun _ => 0

example := C19_lone_sphere (T := demoT) (P := loneP) rfl rfl (a := 3) (mu := 2) rfl (by norm_num)
  (by norm_num) (k := 2) (by norm_num) ⟨1, by simp [demoT], by norm_num⟩ (NDMat.zeros 1 1) false true

end SD
