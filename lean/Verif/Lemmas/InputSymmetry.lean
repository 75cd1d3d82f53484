import Verif.Spec.InputSymmetry
import Verif.Lemmas.ShippedInputs
import Verif.Lemmas.MovedStage
import Verif.Lemmas.SolveRule
import Verif.Lemmas.IsotropySystem
import Verif.Props.Inputs

/-!
# Rigid motions of the listed inputs
-/

set_option autoImplicit false

namespace SD.Ship

open SD SD.Spec SD.Move

variable {Q : Fin 3 → Fin 3 → ℝ} {t : Vec3} {form : InputForm} {P : PosData} {n : ℕ} {f dt : ℝ} {u : UserInput}

/-! ## The defaults -/

theorem zip_rep {α : Type} (g : α → α → α) (k : ℕ) {a : α} (h : g a a = a) :
    List.zipWith g (List.replicate k a) (List.replicate k a) = List.replicate k a := by
  rw [List.zipWith_self, List.map_replicate, h]

theorem row_turned {g : Vec3 → Vec3 → Vec3} {v : Vec3} (h : g v v = v) : rows g (givenRow v) (givenRow v) = givenRow v := by
  rw [given_eq, rows_num, h]

theorem mat_turned {g : Mat3 → Mat3 → Mat3} {v : Mat3} (h : g v v = v) : mats g (givenMat v) (givenMat v) = givenMat v := by
  rw [givenMat_eq, mats_num, h]

theorem pippaMat_turned (g : Mat3 → Mat3 → Mat3) : mats g pippaMat pippaMat = pippaMat := by
  unfold mats numbers33
  rw [if_neg pippaMat_not]
  rfl

theorem pippa_turned (g : Vec3 → Vec3 → Vec3) : rows g pippaRow pippaRow = pippaRow := by
  rw [pippa_eq, rows_blank]

theorem default_turned (Q : Fin 3 → Fin 3 → ℝ) (form : InputForm) (P : PosData) :
    (turning Q).inputs (defaultInputs form P) (defaultInputs form P) = defaultInputs form P := by
  have hF := row_turned (g := (turning Q).F) (v := 0) (turn_zero Q)
  have hT := row_turned (g := (turning Q).T) (v := 0) (axial_zero Q)
  have hS := mat_turned (g := (turning Q).S) (v := 0) (turnM_zero Q)
  have hE := mat_turned (g := (turning Q).E) (v := 0) (turnM_zero Q)
  cases form <;>
    simp only [Rule.inputs, defaultInputs, empty_vectors, zip_rep _ _ hF, zip_rep _ _ hT, zip_rep _ _ hS, zip_rep _ _ hE,
      zip_rep _ _ (pippa_turned _), zip_rep _ _ (pippaMat_turned _)]

theorem default_moved (Q : Fin 3 → Fin 3 → ℝ) (t : Vec3) (form : InputForm) (P : PosData) :
    defaultInputs form (shift (turned P Q) t) = defaultInputs form P := by
  cases form <;> rfl

theorem default_still (hf : form ≠ .fts) (h : form = .fte ∨ form = .ufte) :
    ∀ m ∈ (defaultInputs form P).Ea, m = num33 0 := by
  intro m hm
  rcases h with rfl | rfl <;> exact List.eq_of_mem_replicate hm

/-! ## The repulsion -/

theorem away_moved (Q : Fin 3 → Fin 3 → ℝ) (t : Vec3) (P : PosData) (a b : ℕ) :
    away (shift (turned P Q) t) a b = turnVec Q (away P a b) := by
  funext k
  unfold away
  rw [Move.centre_shift, Move.centre_shift, centre_turned, centre_turned]
  simp only [turnVec, Fin.sum_univ_three]
  ring

theorem push_moved (hQ : Orthogonal Q) (s τ : ℝ) (P : PosData) (a b : ℕ) :
    push s τ (shift (turned P Q) t) a b = turnVec Q (push s τ P a b) := by
  have r : ∀ x, radius (shift (turned P Q) t) x = radius P x := fun _ => rfl
  have g : gapRatio (shift (turned P Q) t) a b = gapRatio P a b := by
    unfold gapRatio
    rw [away_moved, len_turn hQ, r, r]
  have z : pushSize s τ (shift (turned P Q) t) a b = pushSize s τ P a b := by
    unfold pushSize
    rw [g, r, r]
  have hF : Feels (shift (turned P Q) t) a b ↔ Feels P a b := by
    unfold Feels
    rw [g]
  funext k
  unfold push
  by_cases h : Feels P a b
  · rw [if_pos (hF.mpr h), z, away_moved, len_turn hQ]
    simp only [if_pos h, turnVec, Fin.sum_univ_three]
    ring
  · rw [if_neg fun c => h (hF.mp c)]
    simp only [if_neg h, turnVec, mul_zero, Finset.sum_const_zero]

theorem pushTotal_moved (hQ : Orthogonal Q) (s τ : ℝ) (P : PosData) (a : ℕ) :
    pushTotal s τ (shift (turned P Q) t) a = turnVec Q (pushTotal s τ P a) := by
  funext k
  unfold pushTotal
  show ∑ v ∈ Finset.range (beads P), _ = _
  simp only [push_moved hQ, turnVec, Fin.sum_univ_three, Finset.sum_add_distrib, Finset.mul_sum]

theorem zero_arr {l : List Vec3} (k : ℕ) {r : OVec3} (h : floatsL (List.replicate k r) = some l)
    (hr : r = givenRow 0 ∨ r = pippaRow) (i : ℕ) : asArr l i = 0 := by
  have e := floatsL_num h
  unfold asArr
  rw [List.getD_eq_getElem?_getD]
  rcases hx : l[i]? with _ | m
  · rfl
  · have hm : num3 m ∈ l.map num3 := List.mem_map_of_mem (List.mem_of_getElem? hx)
    rw [← e] at hm
    have := List.eq_of_mem_replicate hm
    rcases hr with rfl | rfl
    · exact num3_inj this
    · have := congrFun this 0
      simp [num3, pippaRow] at this

theorem default_rows (form : InputForm) (P : PosData) : ∃ a b c : OVec3,
    (defaultInputs form P).Fa = List.replicate P.Ns a ∧ (defaultInputs form P).Fb = List.replicate P.Nd b ∧
    (defaultInputs form P).DFb = List.replicate P.Nd c ∧ (a = givenRow 0 ∨ a = pippaRow) ∧
    (b = givenRow 0 ∨ b = pippaRow) ∧ (c = givenRow 0 ∨ c = pippaRow) := by
  cases form <;> exact ⟨_, _, _, rfl, rfl, rfl, by simp, by simp, by simp⟩

/-- Input 4: every sphere gets the sum of the repulsions, every dumbbell the sum and the difference. -/
theorem repulsion_input (h : input_ftsuoe 4 form P f dt = some u) :
    u = { defaultUserInput form P with inp := { defaultInputs form P with
      Fa := (List.range P.Ns).map fun i => givenRow (pushTotal 50 20 P i)
      Fb := (List.range P.Nd).map fun i => givenRow fun k =>
        pushTotal 50 20 P (P.Ns + i) k + pushTotal 50 20 P (P.Ns + P.Nd + i) k
      DFb := (List.range P.Nd).map fun i => givenRow fun k =>
        pushTotal 50 20 P (P.Ns + P.Nd + i) k - pushTotal 50 20 P (P.Ns + i) k } } := by
  unfold input_ftsuoe at h
  dsimp only at h
  rw [if_neg (by omega), if_neg (by omega), if_neg (by omega), if_pos rfl] at h
  obtain ⟨A, a1, h⟩ := Option.bind_eq_some_iff.mp h
  obtain ⟨B, a2, h⟩ := Option.bind_eq_some_iff.mp h
  obtain ⟨C, a3, h⟩ := Option.bind_eq_some_iff.mp h
  obtain rfl := Option.some.inj h
  obtain ⟨a, b, c, d1, d2, d3, z1, z2, z3⟩ := default_rows form P
  have e1 := zero_arr P.Ns (by rw [← d1]; exact a1) z1
  have e2 := zero_arr P.Nd (by rw [← d2]; exact a2) z2
  have e3 := zero_arr P.Nd (by rw [← d3]; exact a3) z3
  obtain ⟨r1, r2, r3⟩ := C33_forces 50 20 P 0 (asArr A) (asArr B) (asArr C)
  have q1 : (List.range P.Ns).map (fun i => givenRow ((repulsion_forces 50 20 P 0 (asArr A) (asArr B) (asArr C)).1 i))
      = (List.range P.Ns).map fun i => givenRow (pushTotal 50 20 P i) :=
    List.map_congr_left fun i hi => congrArg givenRow (funext fun k => by
      rw [r1 i (List.mem_range.mp hi) k, e1, if_pos (by omega)]; simp)
  have q2 : (List.range P.Nd).map (fun i => givenRow ((repulsion_forces 50 20 P 0 (asArr A) (asArr B) (asArr C)).2.1 i))
      = (List.range P.Nd).map fun i => givenRow fun k =>
        pushTotal 50 20 P (P.Ns + i) k + pushTotal 50 20 P (P.Ns + P.Nd + i) k :=
    List.map_congr_left fun i hi => congrArg givenRow (funext fun k => by
      rw [r2 i (List.mem_range.mp hi) k, e2]; simp)
  have q3 : (List.range P.Nd).map (fun i => givenRow ((repulsion_forces 50 20 P 0 (asArr A) (asArr B) (asArr C)).2.2 i))
      = (List.range P.Nd).map fun i => givenRow fun k =>
        pushTotal 50 20 P (P.Ns + P.Nd + i) k - pushTotal 50 20 P (P.Ns + i) k :=
    List.map_congr_left fun i hi => congrArg givenRow (funext fun k => by
      rw [r3 i (List.mem_range.mp hi) k, e3]; simp)
  rw [← q1, ← q2, ← q3]
  rfl

/-! ## The shear -/

theorem shear_matrix (hQ : Orthogonal Q) (h : ∀ x, turnVec Q (shearField x) = shearField (turnVec Q x)) :
    Q 0 1 = 0 ∧ Q 0 2 = 0 ∧ Q 1 0 = 0 ∧ Q 1 2 = 0 ∧ Q 2 0 = 0 ∧ Q 2 1 = 0 ∧ Q 2 2 = Q 0 0 ∧ Q 0 0 ^ 2 = 1 ∧
      Q 1 1 ^ 2 = 1 := by
  have g : ∀ x i, turnVec Q (shearField x) i = shearField (turnVec Q x) i := fun x i => congrFun (h x) i
  have a := g ![0, 0, 1] 0
  have b := g ![0, 0, 1] 1
  have c := g ![0, 0, 1] 2
  have d := g ![0, 1, 0] 0
  simp [turnVec, shearField, Fin.sum_univ_three] at a b c d
  have o : ∀ i j, Q i 0 * Q j 0 + Q i 1 * Q j 1 + Q i 2 * Q j 2 = dlt i j := by
    intro i j
    have := hQ i j
    rwa [Fin.sum_univ_three] at this
  have d' : Q 2 1 = 0 := by linarith
  have o22 : Q 2 0 * Q 2 0 + Q 2 1 * Q 2 1 + Q 2 2 * Q 2 2 = 1 := by rw [o]; simp [dlt]
  have o02 : Q 0 0 * Q 2 0 + Q 0 1 * Q 2 1 + Q 0 2 * Q 2 2 = 0 := by rw [o]; simp [dlt]
  have o12 : Q 1 0 * Q 2 0 + Q 1 1 * Q 2 1 + Q 1 2 * Q 2 2 = 0 := by rw [o]; simp [dlt]
  have o00 : Q 0 0 * Q 0 0 + Q 0 1 * Q 0 1 + Q 0 2 * Q 0 2 = 1 := by rw [o]; simp [dlt]
  have o11 : Q 1 0 * Q 1 0 + Q 1 1 * Q 1 1 + Q 1 2 * Q 1 2 = 1 := by rw [o]; simp [dlt]
  rw [c, d'] at o22 o02 o12
  have n : Q 2 2 ≠ 0 := by
    intro h0
    rw [h0] at o22
    norm_num at o22
  have e02 : Q 0 2 = 0 := by
    have : Q 0 2 * Q 2 2 = 0 := by linarith
    exact (mul_eq_zero.mp this).resolve_right n
  have e12 : Q 1 2 = 0 := by
    have : Q 1 2 * Q 2 2 = 0 := by linarith
    exact (mul_eq_zero.mp this).resolve_right n
  have e01 : Q 0 1 = 0 := by
    rw [e02, a] at o00
    have : Q 0 1 * Q 0 1 = 0 := by linarith
    exact mul_self_eq_zero.mp this
  refine ⟨e01, e02, b, e12, c, d', a.symm, ?_, ?_⟩
  · rw [a]; linarith [o22]
  · rw [b, e12] at o11; linarith [o11]

/-- The strain and the rotation of a shear flow, turned. -/
theorem shear_turned (hQ : Orthogonal Q) (h : ∀ x, turnVec Q (shearField x) = shearField (turnVec Q x)) (g r : ℝ) :
    turnMat Q ![![0, 0, g], ![0, 0, 0], ![g, 0, 0]] = ![![0, 0, g], ![0, 0, 0], ![g, 0, 0]] ∧
    turnAxial Q ![0, r, 0] = ![0, r, 0] := by
  obtain ⟨h1, h2, h3, h4, h5, h6, h7, h8, h9⟩ := shear_matrix hQ h
  constructor
  · funext i j
    fin_cases i <;> fin_cases j <;> simp [turnMat, Fin.sum_univ_three, h1, h2, h3, h4, h5, h6, h7] <;>
      linear_combination g * h8
  · funext i
    fin_cases i <;> simp [turnAxial, turnVec, Spec.det3, Fin.sum_univ_three, h1, h2, h3, h4, h5, h6, h7]
    linear_combination r * Q 0 0 ^ 2 * h9 + r * h8

/-- The spring force turned. -/
theorem spring_turned (hQ : Orthogonal Q) (d : Vec3) : springForce (turnVec Q d) = turnVec Q (springForce d) := by
  funext k
  simp only [springForce, norm3_eq_len, len_turn hQ, turnVec, Fin.sum_univ_three]
  ring

/-! ## Every listed input -/

theorem turn_neg_row {v : Vec3} (h : turnVec Q v = v) (a : ℝ) : turnVec Q (fun k => a * v k) = fun k => a * v k := by
  funext k
  have := congrFun h k
  simp only [turnVec, Fin.sum_univ_three] at this ⊢
  linear_combination a * this

theorem rep_rows {g : Vec3 → Vec3 → Vec3} {v : Vec3} (h : g v v = v) (k : ℕ) :
    List.zipWith (rows g) (List.replicate k (givenRow v)) (List.replicate k (givenRow v)) = List.replicate k (givenRow v) :=
  zip_rep _ _ (row_turned h)

theorem map_rows (g : Vec3 → Vec3) (G : Vec3 → Vec3 → Vec3) (h : ∀ v, G v v = g v) (k : ℕ) (a : ℕ → Vec3) :
    List.zipWith (rows G) ((List.range k).map fun i => givenRow (a i)) ((List.range k).map fun i => givenRow (a i))
      = (List.range k).map fun i => givenRow (g (a i)) := by
  rw [List.zipWith_self, List.map_map]
  refine List.map_congr_left fun i _ => ?_
  simp only [Function.comp, given_eq, rows_num, h]

theorem move_zero (Q : Fin 3 → Fin 3 → ℝ) : movePoint Q 0 0 = 0 := by
  funext i; simp [movePoint, turnVec]

theorem inputs_with_Fa (m : Rule) (x : Inputs) (l : List OVec3) :
    m.inputs { x with Fa := l } { x with Fa := l } = { m.inputs x x with Fa := List.zipWith (rows m.F) l l } := rfl

/-- Every listed input, asked about the moved configuration, answers with the moved values. -/
theorem input_moved (hQ : Orthogonal Q) (hk : Keeps n form Q t) (hform : form = .fts ∨ form = .fte ∨ form = .ufte)
    (h : input_ftsuoe n form P f dt = some u) :
    ∃ u', input_ftsuoe n form (shift (turned P Q) t) f dt = some u' ∧
      MovedInput (form = .fts ∨ n = 3 ∨ n = 7) form Q t u u' := by
  have D := default_turned Q form P
  have D' := default_moved Q t form P
  have hst : ¬ (form = .fts ∨ n = 3 ∨ n = 7) → form ≠ .fts ∧ ∀ m ∈ (defaultInputs form P).Ea, m = num33 0 := by
    intro hn
    have h1 : form ≠ .fts := fun e => hn (.inl e)
    exact ⟨h1, default_still h1 (hform.resolve_left h1)⟩
  have hc : (n ≠ 3 ∧ n ≠ 7) → (form = .fts → t = 0) → (form = .fts ∨ n = 3 ∨ n = 7) → (0 : Vec3) = movePoint Q t 0 := by
    intro h1 h2 h3
    rw [h2 (h3.resolve_right (by omega)), move_zero]
  unfold input_ftsuoe at h
  dsimp only at h
  by_cases h1 : n = 1
  · subst h1
    rw [if_pos rfl] at h
    obtain rfl := Option.some.inj h
    refine ⟨_, by unfold input_ftsuoe; rw [if_pos rfl], ?_⟩
    refine ⟨?_, (turn_zero Q).symm, (axial_zero Q).symm,
      hc (by omega) hk.2, fun hn => ⟨(hst hn).1, rfl, (hst hn).2⟩, rfl, rfl, rfl⟩
    show { defaultInputs form (shift (turned P Q) t) with Fa := List.replicate P.Ns (givenRow ![0, 0, -1]) } = _
    have e : turnVec Q ![0, 0, -1] = ![0, 0, -1] := by
      have := turn_neg_row hk.1 (-1)
      have v : (fun k => -1 * (![0, 0, 1] : Vec3) k) = ![0, 0, -1] := by funext k; fin_cases k <;> simp
      rwa [v] at this
    rw [D']
    show _ = { (turning Q).inputs (defaultInputs form P) (defaultInputs form P) with
      Fa := List.zipWith (rows (turning Q).F) (List.replicate P.Ns (givenRow ![0, 0, -1]))
        (List.replicate P.Ns (givenRow ![0, 0, -1])) }
    rw [D, rep_rows (g := (turning Q).F) e]
  rw [if_neg h1] at h
  by_cases h2 : n = 2
  · subst h2
    exact hk.elim
  rw [if_neg h2] at h
  by_cases h3 : n = 3
  · subst h3
    rw [if_pos rfl] at h
    by_cases hz : ∃ i < P.Nd, norm3 (P.dumbDx i) = 0
    · rw [if_pos hz] at h
      exact absurd h (by simp)
    rw [if_neg hz] at h
    have hz' : ¬ ∃ i < (shift (turned P Q) t).Nd, norm3 ((shift (turned P Q) t).dumbDx i) = 0 := by
      rintro ⟨i, hi, e⟩
      refine hz ⟨i, hi, ?_⟩
      rw [norm3_eq_len] at e ⊢
      rw [← len_turn hQ]
      exact e
    unfold oscillatory_shear at h
    rw [if_neg (by norm_num)] at h
    dsimp only at h
    rw [if_pos rfl, Option.map_some] at h
    obtain rfl := Option.some.inj h
    refine ⟨_, by
      unfold input_ftsuoe
      dsimp only
      rw [if_neg (by omega), if_neg (by omega), if_pos rfl, if_neg hz']
      unfold oscillatory_shear
      rw [if_neg (by norm_num)]
      dsimp only
      rw [if_pos rfl, Option.map_some], ?_⟩
    refine ⟨?_, ?_, ?_, fun _ => hk.2.symm, fun hn => absurd (.inr (.inl rfl)) hn, rfl, rfl, rfl⟩
    · dsimp only
      generalize (1 / 3 * (2 * Real.pi / 10) * Real.cos (f * dt * (2 * Real.pi / 10) + 0) : ℝ) = g
      show { defaultInputs form (shift (turned P Q) t) with
        DFb := (List.range P.Nd).map fun i => givenRow (springForce (turnVec Q (P.dumbDx i)))
        Ea := (List.replicate (max 1 P.Ns) ![![0, 0, 0.5 * g], ![0, 0, 0], ![0.5 * g, 0, 0]]).map givenMat } =
        { (turning Q).inputs (defaultInputs form P) (defaultInputs form P) with
          DFb := List.zipWith (rows (turning Q).F) ((List.range P.Nd).map fun i => givenRow (springForce (P.dumbDx i)))
            ((List.range P.Nd).map fun i => givenRow (springForce (P.dumbDx i)))
          Ea := List.zipWith (mats (turning Q).E)
            ((List.replicate (max 1 P.Ns) ![![0, 0, 0.5 * g], ![0, 0, 0], ![0.5 * g, 0, 0]]).map givenMat)
            ((List.replicate (max 1 P.Ns) ![![0, 0, 0.5 * g], ![0, 0, 0], ![0.5 * g, 0, 0]]).map givenMat) }
      rw [D', D, map_rows (turnVec Q) (turning Q).F (fun _ => rfl), List.map_replicate,
        zip_rep _ _ (mat_turned (g := (turning Q).E) (shear_turned hQ hk.1 (0.5 * g) 0).1)]
      simp only [spring_turned hQ]
    · show (![0, 0, 0] : Vec3) = turnVec Q ![0, 0, 0]
      have : (![0, 0, 0] : Vec3) = 0 := by funext i; fin_cases i <;> rfl
      rw [this, turn_zero]
    · exact (shear_turned hQ hk.1 0 _).2.symm
  rw [if_neg h3] at h
  by_cases h4 : n = 4
  · subst h4
    have hu := repulsion_input (form := form) (P := P) (f := f) (dt := dt) (u := u) (by
      unfold input_ftsuoe
      dsimp only
      rw [if_neg (by omega), if_neg (by omega), if_neg (by omega)]
      exact h)
    rw [if_pos rfl] at h
    obtain ⟨A, a1, h⟩ := Option.bind_eq_some_iff.mp h
    obtain ⟨B, a2, h⟩ := Option.bind_eq_some_iff.mp h
    obtain ⟨C, a3, h⟩ := Option.bind_eq_some_iff.mp h
    obtain ⟨u', hu'⟩ : ∃ u', input_ftsuoe 4 form (shift (turned P Q) t) f dt = some u' := by
      unfold input_ftsuoe
      dsimp only
      rw [if_neg (by omega), if_neg (by omega), if_neg (by omega), if_pos rfl]
      show ∃ u', ((floatsL (defaultInputs form (shift (turned P Q) t)).Fa).bind fun Fa =>
        (floatsL (defaultInputs form (shift (turned P Q) t)).Fb).bind fun Fb =>
        (floatsL (defaultInputs form (shift (turned P Q) t)).DFb).bind fun DFb => _) = some u'
      rw [D']
      have b1 : floatsL (defaultInputs form P).Fa = some A := a1
      have b2 : floatsL (defaultInputs form P).Fb = some B := a2
      have b3 : floatsL (defaultInputs form P).DFb = some C := a3
      rw [b1, Option.bind_some, b2, Option.bind_some, b3, Option.bind_some]
      exact ⟨_, rfl⟩
    refine ⟨u', hu', ?_⟩
    have hv := repulsion_input hu'
    clear hu' h
    subst hu hv
    refine ⟨?_, (turn_zero Q).symm, (axial_zero Q).symm,
      hc (by omega) hk, fun hn => ⟨(hst hn).1, rfl, (hst hn).2⟩, rfl, rfl, rfl⟩
    have hadd : ∀ a b : Vec3, (fun k => turnVec Q a k + turnVec Q b k) = turnVec Q fun k => a k + b k := by
      intro a b; funext k; simp only [turnVec, Fin.sum_univ_three]; ring
    have hsub : ∀ a b : Vec3, (fun k => turnVec Q a k - turnVec Q b k) = turnVec Q fun k => a k - b k := by
      intro a b; funext k; simp only [turnVec, Fin.sum_univ_three]; ring
    show { defaultInputs form (shift (turned P Q) t) with
        Fa := (List.range P.Ns).map fun i => givenRow (pushTotal 50 20 (shift (turned P Q) t) i)
        Fb := (List.range P.Nd).map fun i => givenRow fun k => pushTotal 50 20 (shift (turned P Q) t) (P.Ns + i) k
          + pushTotal 50 20 (shift (turned P Q) t) (P.Ns + P.Nd + i) k
        DFb := (List.range P.Nd).map fun i => givenRow fun k =>
          pushTotal 50 20 (shift (turned P Q) t) (P.Ns + P.Nd + i) k
          - pushTotal 50 20 (shift (turned P Q) t) (P.Ns + i) k } =
      { (turning Q).inputs (defaultInputs form P) (defaultInputs form P) with
        Fa := List.zipWith (rows (turning Q).F) ((List.range P.Ns).map fun i => givenRow (pushTotal 50 20 P i))
          ((List.range P.Ns).map fun i => givenRow (pushTotal 50 20 P i))
        Fb := List.zipWith (rows (turning Q).F)
          ((List.range P.Nd).map fun i => givenRow fun k =>
            pushTotal 50 20 P (P.Ns + i) k + pushTotal 50 20 P (P.Ns + P.Nd + i) k)
          ((List.range P.Nd).map fun i => givenRow fun k =>
            pushTotal 50 20 P (P.Ns + i) k + pushTotal 50 20 P (P.Ns + P.Nd + i) k)
        DFb := List.zipWith (rows (turning Q).F)
          ((List.range P.Nd).map fun i => givenRow fun k =>
            pushTotal 50 20 P (P.Ns + P.Nd + i) k - pushTotal 50 20 P (P.Ns + i) k)
          ((List.range P.Nd).map fun i => givenRow fun k =>
            pushTotal 50 20 P (P.Ns + P.Nd + i) k - pushTotal 50 20 P (P.Ns + i) k) }
    rw [D', D, map_rows (turnVec Q) (turning Q).F (fun _ => rfl), map_rows (turnVec Q) (turning Q).F (fun _ => rfl),
      map_rows (turnVec Q) (turning Q).F (fun _ => rfl)]
    simp only [pushTotal_moved hQ, hadd, hsub]
  rw [if_neg h4] at h
  by_cases h5 : n = 5
  · subst h5
    rw [if_pos rfl] at h
    obtain rfl := Option.some.inj h
    refine ⟨_, by
        unfold input_ftsuoe
        dsimp only
        rw [if_neg (by omega), if_neg (by omega), if_neg (by omega), if_neg (by omega), if_pos rfl], ?_⟩
    refine ⟨?_, (turn_zero Q).symm, (axial_zero Q).symm,
      hc (by omega) hk.2, fun hn => ⟨(hst hn).1, rfl, (hst hn).2⟩, rfl, rfl, rfl⟩
    have e : turnVec Q ![-1, 0, 0] = ![-1, 0, 0] := by
      have := turn_neg_row hk.1 (-1)
      have v : (fun k => -1 * (![1, 0, 0] : Vec3) k) = ![-1, 0, 0] := by funext k; fin_cases k <;> simp
      rwa [v] at this
    show { defaultInputs form (shift (turned P Q) t) with
        Ua := List.replicate (P.Ns / 2) (givenRow ![-1, 0, 0])
          ++ List.replicate (P.Ns - P.Ns / 2) (givenRow ![1, 0, 0]) } =
      { (turning Q).inputs (defaultInputs form P) (defaultInputs form P) with
        Ua := List.zipWith (rows (turning Q).U) (List.replicate (P.Ns / 2) (givenRow ![-1, 0, 0])
            ++ List.replicate (P.Ns - P.Ns / 2) (givenRow ![1, 0, 0]))
          (List.replicate (P.Ns / 2) (givenRow ![-1, 0, 0])
            ++ List.replicate (P.Ns - P.Ns / 2) (givenRow ![1, 0, 0])) }
    rw [D', D, List.zipWith_append rfl, rep_rows (g := (turning Q).U) e, rep_rows (g := (turning Q).U) hk.1]
  rw [if_neg h5] at h
  by_cases h6 : n = 6
  · subst h6
    rw [if_pos rfl] at h
    obtain rfl := Option.some.inj h
    refine ⟨_, by
        unfold input_ftsuoe
        dsimp only
        rw [if_neg (by omega), if_neg (by omega), if_neg (by omega), if_neg (by omega), if_neg (by omega), if_pos rfl], ?_⟩
    refine ⟨?_, (turn_zero Q).symm, (axial_zero Q).symm,
      hc (by omega) hk.2, fun hn => ⟨(hst hn).1, rfl, (hst hn).2⟩, rfl, rfl, rfl⟩
    have e : turnVec Q ![-1, 0, 0] = ![-1, 0, 0] := by
      have := turn_neg_row hk.1 (-1)
      have v : (fun k => -1 * (![1, 0, 0] : Vec3) k) = ![-1, 0, 0] := by funext k; fin_cases k <;> simp
      rwa [v] at this
    have e10 : turnVec Q ![10, 0, 0] = ![10, 0, 0] := by
      have := turn_neg_row hk.1 10
      have v : (fun k => 10 * (![1, 0, 0] : Vec3) k) = ![10, 0, 0] := by funext k; fin_cases k <;> simp
      rwa [v] at this
    have dU := congrArg Inputs.Ua D
    have dF := congrArg Inputs.Fa D
    simp only [Rule.inputs] at dU dF
    rw [List.zipWith_self] at dU dF
    show { defaultInputs form (shift (turned P Q) t) with
        Ua := (List.replicate 45 (givenRow ![-1, 0, 0]) ++ List.replicate 45 (givenRow ![1, 0, 0]))
          ++ (defaultInputs form (shift (turned P Q) t)).Ua.drop 90
        Fa := (defaultInputs form (shift (turned P Q) t)).Fa.take 90 ++ List.replicate 9 (givenRow ![10, 0, 0]) } =
      { (turning Q).inputs (defaultInputs form P) (defaultInputs form P) with
        Ua := List.zipWith (rows (turning Q).U)
          ((List.replicate 45 (givenRow ![-1, 0, 0]) ++ List.replicate 45 (givenRow ![1, 0, 0]))
            ++ (defaultInputs form P).Ua.drop 90)
          ((List.replicate 45 (givenRow ![-1, 0, 0]) ++ List.replicate 45 (givenRow ![1, 0, 0]))
            ++ (defaultInputs form P).Ua.drop 90)
        Fa := List.zipWith (rows (turning Q).F)
          ((defaultInputs form P).Fa.take 90 ++ List.replicate 9 (givenRow ![10, 0, 0]))
          ((defaultInputs form P).Fa.take 90 ++ List.replicate 9 (givenRow ![10, 0, 0])) }
    rw [D', D, List.zipWith_append rfl, List.zipWith_append rfl, List.zipWith_append rfl,
      rep_rows (g := (turning Q).U) e, rep_rows (g := (turning Q).U) hk.1, rep_rows (g := (turning Q).F) e10,
      List.zipWith_self, List.zipWith_self, List.map_drop, List.map_take, dU, dF]
  rw [if_neg h6] at h
  by_cases h7 : n = 7
  · subst h7
    rw [if_pos rfl] at h
    obtain rfl := Option.some.inj h
    refine ⟨_, by
        unfold input_ftsuoe
        dsimp only
        rw [if_neg (by omega), if_neg (by omega), if_neg (by omega), if_neg (by omega), if_neg (by omega),
          if_neg (by omega), if_pos rfl], ?_⟩
    refine ⟨?_, ?_, ?_, fun _ => ?_, fun hn => absurd (.inr (.inr rfl)) hn, rfl, rfl, rfl⟩
    · show { defaultInputs form (shift (turned P Q) t) with
          Ea := (List.replicate (max 1 P.Ns) ![![0, 0, 0.5 * 1], ![0, 0, 0], ![0.5 * 1, 0, 0]]).map givenMat } =
        { (turning Q).inputs (defaultInputs form P) (defaultInputs form P) with
          Ea := List.zipWith (mats (turning Q).E)
            ((List.replicate (max 1 P.Ns) ![![0, 0, 0.5 * 1], ![0, 0, 0], ![0.5 * 1, 0, 0]]).map givenMat)
            ((List.replicate (max 1 P.Ns) ![![0, 0, 0.5 * 1], ![0, 0, 0], ![0.5 * 1, 0, 0]]).map givenMat) }
      rw [D', D, List.map_replicate, zip_rep _ _ (mat_turned (g := (turning Q).E) (shear_turned hQ hk.1 (0.5 * 1) 0).1)]
    · show (![0, 0, 0] : Vec3) = turnVec Q ![0, 0, 0]
      have : (![0, 0, 0] : Vec3) = 0 := by funext i; fin_cases i <;> rfl
      rw [this, turn_zero]
    · exact (shear_turned hQ hk.1 0 _).2.symm
    · show (0 : Vec3) = movePoint Q t 0
      rw [hk.2, move_zero]
  rw [if_neg h7] at h
  exact absurd h (by simp)

end SD.Ship
