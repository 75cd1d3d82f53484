import Verif.Spec.ShippedInputs
import Verif.Lemmas.SolveExists
import Verif.Lemmas.SolveEcho
import Verif.Lemmas.Frame
import Verif.Lemmas.Green
import Verif.Props.Solve
import Verif.Spec.Superpose

/-!
# Lemmas on the listed inputs
-/

set_option autoImplicit false

namespace SD.Ship

open SD SD.Spec

variable {form : InputForm} {P : PosData} {f dt : ℝ} {u : UserInput} {n : ℕ}

theorem given_eq (v : Vec3) : givenRow v = num3 v := rfl

theorem givenMat_eq (m : Mat3) : givenMat m = num33 m := rfl

theorem pippa_eq : pippaRow = blank := rfl

theorem pippa_not : ¬ Given3 pippaRow := fun h => by simpa [pippaRow] using h 0

theorem pippaMat_not : ¬ Given33 pippaMat := fun h => by simpa [pippaMat] using h 0 0

theorem given_rep (k : ℕ) (v : Vec3) : ∀ w ∈ List.replicate k (givenRow v), Given3 w := by
  intro w hw
  rw [List.eq_of_mem_replicate hw]
  exact given_num3 v

theorem given_repM (k : ℕ) (m : Mat3) : ∀ w ∈ List.replicate k (givenMat m), Given33 w := by
  intro w hw
  rw [List.eq_of_mem_replicate hw]
  exact given_num33 m

theorem given_all {α : Type} (l : List α) (g : α → Vec3) : ∀ w ∈ l.map (fun i => givenRow (g i)), Given3 w := by
  intro w hw
  obtain ⟨i, -, rfl⟩ := List.mem_map.mp hw
  exact given_num3 _

theorem given_allM (l : List Mat3) : ∀ w ∈ l.map givenMat, Given33 w := by
  intro w hw
  obtain ⟨i, -, rfl⟩ := List.mem_map.mp hw
  exact given_num33 _

/-- The oscillatory flow of input 3. -/
theorem osc_some (f dt : ℝ) (Ns : ℕ) : ∃ w, oscillatory_shear (1 / 3) 10 f dt 0 ![2.25, 0, 2.25] Ns 1 false false = some w ∧
    ∃ g, w.Ea_in = List.replicate (max 1 Ns) ![![0, 0, 0.5 * g], ![0, 0, 0], ![0.5 * g, 0, 0]] := by
  unfold oscillatory_shear
  rw [if_neg (by norm_num)]
  exact ⟨_, rfl, _, rfl⟩

theorem default_sized (form : InputForm) (P : PosData) : Sized P.Ns P.Nd (defaultInputs form P) := by
  cases form <;> constructor <;> simp [defaultInputs, empty_vectors]

/-- What a listed input is, number by number. -/
theorem shipped_cases (h : input_ftsuoe n form P f dt = some u) :
    ((n = 1 ∨ n = 2) ∧ u.inp = { defaultInputs form P with Fa := List.replicate P.Ns (givenRow ![0, 0, -1]) }) ∨
    (n = 3 ∧ (∀ i < P.Nd, norm3 (P.dumbDx i) ≠ 0) ∧ ∃ g : ℝ, u.inp = { defaultInputs form P with
        DFb := (List.range P.Nd).map fun i => givenRow (springForce (P.dumbDx i))
        Ea := (List.replicate (max 1 P.Ns) ![![0, 0, 0.5 * g], ![0, 0, 0], ![0.5 * g, 0, 0]]).map givenMat }) ∨
    (n = 4 ∧ (∀ v ∈ (defaultInputs form P).Fa, Given3 v) ∧ (∀ v ∈ (defaultInputs form P).Fb, Given3 v) ∧
      (∀ v ∈ (defaultInputs form P).DFb, Given3 v) ∧ ∃ A B C : ℕ → Vec3, u.inp = { defaultInputs form P with
          Fa := (List.range P.Ns).map fun i => givenRow (A i)
          Fb := (List.range P.Nd).map fun i => givenRow (B i)
          DFb := (List.range P.Nd).map fun i => givenRow (C i) }) ∨
    (n = 5 ∧ u.inp = { defaultInputs form P with
        Ua := List.replicate (P.Ns / 2) (givenRow ![-1, 0, 0])
          ++ List.replicate (P.Ns - P.Ns / 2) (givenRow ![1, 0, 0]) }) ∨
    (n = 6 ∧ u.inp = { defaultInputs form P with
        Ua := (List.replicate 45 (givenRow ![-1, 0, 0]) ++ List.replicate 45 (givenRow ![1, 0, 0]))
          ++ (defaultInputs form P).Ua.drop 90
        Fa := (defaultInputs form P).Fa.take 90 ++ List.replicate 9 (givenRow ![10, 0, 0]) }) ∨
    (n = 7 ∧ u.inp = { defaultInputs form P with
        Ea := (List.replicate (max 1 P.Ns) ![![0, 0, 0.5 * 1], ![0, 0, 0], ![0.5 * 1, 0, 0]]).map givenMat }) := by
  unfold input_ftsuoe at h
  dsimp only at h
  by_cases h1 : n = 1
  · rw [if_pos h1] at h
    obtain rfl := Option.some.inj h
    exact .inl ⟨.inl h1, rfl⟩
  rw [if_neg h1] at h
  by_cases h2 : n = 2
  · rw [if_pos h2] at h
    obtain rfl := Option.some.inj h
    exact .inl ⟨.inr h2, rfl⟩
  rw [if_neg h2] at h
  by_cases h3 : n = 3
  · rw [if_pos h3] at h
    by_cases hz : ∃ i < P.Nd, norm3 (P.dumbDx i) = 0
    · rw [if_pos hz] at h
      exact absurd h (by simp)
    rw [if_neg hz] at h
    obtain ⟨w, hw, g, hg⟩ := osc_some f dt P.Ns
    rw [hw] at h
    obtain rfl := Option.some.inj h
    push Not at hz
    refine .inr (.inl ⟨h3, hz, g, ?_⟩)
    dsimp only
    rw [hg]
    rfl
  rw [if_neg h3] at h
  by_cases h4 : n = 4
  · rw [if_pos h4] at h
    obtain ⟨A, a1, h⟩ := Option.bind_eq_some_iff.mp h
    obtain ⟨B, a2, h⟩ := Option.bind_eq_some_iff.mp h
    obtain ⟨C, a3, h⟩ := Option.bind_eq_some_iff.mp h
    obtain rfl := Option.some.inj h
    exact .inr (.inr (.inl ⟨h4, floatsL_given a1, floatsL_given a2, floatsL_given a3, _, _, _, rfl⟩))
  rw [if_neg h4] at h
  by_cases h5 : n = 5
  · rw [if_pos h5] at h
    obtain rfl := Option.some.inj h
    exact .inr (.inr (.inr (.inl ⟨h5, rfl⟩)))
  rw [if_neg h5] at h
  by_cases h6 : n = 6
  · rw [if_pos h6] at h
    obtain rfl := Option.some.inj h
    exact .inr (.inr (.inr (.inr (.inl ⟨h6, rfl⟩))))
  rw [if_neg h6] at h
  by_cases h7 : n = 7
  · rw [if_pos h7] at h
    obtain rfl := Option.some.inj h
    exact .inr (.inr (.inr (.inr (.inr ⟨h7, rfl⟩))))
  rw [if_neg h7] at h
  exact absurd h (by simp)

/-- The viscosity and the box. -/
theorem shipped_box (h : input_ftsuoe n form P f dt = some u) : u.mu = 1 ∧ (u.bl = u.tr ↔ n ≠ 2) := by
  have e0 : ((0 : Vec3) = 0) := rfl
  unfold input_ftsuoe at h
  dsimp only at h
  by_cases h1 : n = 1
  · rw [if_pos h1] at h
    obtain rfl := Option.some.inj h
    exact ⟨rfl, iff_of_true rfl (by omega)⟩
  rw [if_neg h1] at h
  by_cases h2 : n = 2
  · rw [if_pos h2] at h
    obtain rfl := Option.some.inj h
    refine ⟨rfl, iff_of_false ?_ (by omega)⟩
    intro e
    have := congrFun e 0
    norm_num [simple_cubic_8_box] at this
  rw [if_neg h2] at h
  by_cases h3 : n = 3
  · rw [if_pos h3] at h
    by_cases hz : ∃ i < P.Nd, norm3 (P.dumbDx i) = 0
    · rw [if_pos hz] at h
      exact absurd h (by simp)
    rw [if_neg hz] at h
    obtain ⟨w, hw, g, hg⟩ := osc_some f dt P.Ns
    rw [hw] at h
    obtain rfl := Option.some.inj h
    exact ⟨rfl, iff_of_true rfl h2⟩
  rw [if_neg h3] at h
  by_cases h4 : n = 4
  · rw [if_pos h4] at h
    obtain ⟨A, a1, h⟩ := Option.bind_eq_some_iff.mp h
    obtain ⟨B, a2, h⟩ := Option.bind_eq_some_iff.mp h
    obtain ⟨C, a3, h⟩ := Option.bind_eq_some_iff.mp h
    obtain rfl := Option.some.inj h
    exact ⟨rfl, iff_of_true rfl h2⟩
  rw [if_neg h4] at h
  by_cases h5 : n = 5
  · rw [if_pos h5] at h
    obtain rfl := Option.some.inj h
    exact ⟨rfl, iff_of_true rfl h2⟩
  rw [if_neg h5] at h
  by_cases h6 : n = 6
  · rw [if_pos h6] at h
    obtain rfl := Option.some.inj h
    exact ⟨rfl, iff_of_true rfl h2⟩
  rw [if_neg h6] at h
  by_cases h7 : n = 7
  · rw [if_pos h7] at h
    obtain rfl := Option.some.inj h
    exact ⟨rfl, iff_of_true rfl h2⟩
  rw [if_neg h7] at h
  exact absurd h (by simp)

/-- One row per particle. -/
theorem shipped_sized (h : input_ftsuoe n form P f dt = some u) (h6 : n = 6 → P.Ns = 99) : Sized P.Ns P.Nd u.inp := by
  obtain ⟨s1, s2, s3, s4, s5, s6, s7, s8⟩ := default_sized form P
  rcases shipped_cases h with ⟨-, e⟩ | ⟨-, -, g, e⟩ | ⟨-, -, -, -, A, B, C, e⟩ | ⟨-, e⟩ | ⟨rfl, e⟩ | ⟨-, e⟩ <;> rw [e]
  · exact ⟨by simp, s2, s3, s4, s5, s6, s7, s8⟩
  · exact ⟨s1, s2, s3, s4, by simp, s6, s7, s8⟩
  · exact ⟨by simp, s2, s3, by simp, by simp, s6, s7, s8⟩
  · refine ⟨s1, s2, s3, s4, s5, ?_, s7, s8⟩
    simp
    omega
  · have := h6 rfl
    refine ⟨?_, s2, s3, s4, s5, ?_, s7, s8⟩
    · simp [s1]
      omega
    · simp [s6]
      omega
  · exact ⟨s1, s2, s3, s4, s5, s6, s7, s8⟩

/-- An answer is given for every listed number if the forces to which the repulsion is added are numbers. -/
theorem shipped_exists (hn : 1 ≤ n ∧ n ≤ 7) (h3 : n = 3 → ∀ i < P.Nd, norm3 (P.dumbDx i) ≠ 0)
    (h4 : n = 4 → (∀ v ∈ (defaultInputs form P).Fa, Given3 v) ∧ (∀ v ∈ (defaultInputs form P).Fb, Given3 v) ∧
      (∀ v ∈ (defaultInputs form P).DFb, Given3 v)) : ∃ u, input_ftsuoe n form P f dt = some u := by
  unfold input_ftsuoe
  dsimp only
  by_cases e1 : n = 1
  · exact ⟨_, if_pos e1⟩
  rw [if_neg e1]
  by_cases e2 : n = 2
  · exact ⟨_, if_pos e2⟩
  rw [if_neg e2]
  by_cases e3 : n = 3
  · rw [if_pos e3, if_neg (by push Not; exact h3 e3)]
    obtain ⟨w, hw, -⟩ := osc_some f dt P.Ns
    rw [hw]
    exact ⟨_, rfl⟩
  rw [if_neg e3]
  by_cases e4 : n = 4
  · rw [if_pos e4]
    obtain ⟨a, b, c⟩ := h4 e4
    obtain ⟨A, ha⟩ := floatsL_exists a
    obtain ⟨B, hb⟩ := floatsL_exists b
    obtain ⟨C, hc⟩ := floatsL_exists c
    exact ⟨_, Option.bind_eq_some_iff.mpr ⟨A, ha, Option.bind_eq_some_iff.mpr ⟨B, hb,
      Option.bind_eq_some_iff.mpr ⟨C, hc, rfl⟩⟩⟩⟩
  rw [if_neg e4]
  by_cases e5 : n = 5
  · exact ⟨_, if_pos e5⟩
  rw [if_neg e5]
  by_cases e6 : n = 6
  · exact ⟨_, if_pos e6⟩
  rw [if_neg e6]
  exact ⟨_, if_pos (by omega)⟩

/-! ## Complete inputs -/

theorem default_fts (P : PosData) : Complete .fts P.Ns P.Nd (defaultInputs .fts P) :=
  ⟨given_rep _ _, given_rep _ _, given_repM _ _, given_rep _ _, given_rep _ _, fun h m hm => by
    simp [defaultInputs, empty_vectors, h] at hm⟩

theorem default_fte (P : PosData) : Complete .fte P.Ns P.Nd (defaultInputs .fte P) :=
  ⟨given_rep _ _, given_rep _ _, ⟨by simp [defaultInputs], given_repM _ _⟩, given_rep _ _, given_rep _ _⟩

theorem long_enough (k : ℕ) (m : Mat3) : k ≤ ((List.replicate (max 1 k) m).map givenMat).length := by simp

theorem given_append {l m : List OVec3} (hl : ∀ v ∈ l, Given3 v) (hm : ∀ v ∈ m, Given3 v) : ∀ v ∈ l ++ m, Given3 v := by
  intro v hv
  rcases List.mem_append.mp hv with h | h
  · exact hl v h
  · exact hm v h

/-- In the form `fts` every listed input is complete. -/
theorem complete_fts (h : input_ftsuoe n .fts P f dt = some u) : Complete .fts P.Ns P.Nd u.inp := by
  obtain ⟨a1, a2, a3, a4, a5, a6⟩ := default_fts P
  rcases shipped_cases h with ⟨-, e⟩ | ⟨-, -, g, e⟩ | ⟨-, -, -, -, A, B, C, e⟩ | ⟨-, e⟩ | ⟨-, e⟩ | ⟨-, e⟩ <;> rw [e]
  · exact ⟨given_rep _ _, a2, a3, a4, a5, a6⟩
  · exact ⟨a1, a2, a3, a4, given_all _ _, fun _ => given_allM _⟩
  · exact ⟨given_all _ _, a2, a3, given_all _ _, given_all _ _, a6⟩
  · exact ⟨a1, a2, a3, a4, a5, a6⟩
  · exact ⟨given_append (fun v hv => a1 v (List.mem_of_mem_take hv)) (given_rep _ _), a2, a3, a4, a5, a6⟩
  · exact ⟨a1, a2, a3, a4, a5, fun _ => given_allM _⟩

/-- In the form `fte` every listed input is complete. -/
theorem complete_fte (h : input_ftsuoe n .fte P f dt = some u) : Complete .fte P.Ns P.Nd u.inp := by
  obtain ⟨a1, a2, a3, a4, a5⟩ := default_fte P
  rcases shipped_cases h with ⟨-, e⟩ | ⟨-, -, g, e⟩ | ⟨-, -, -, -, A, B, C, e⟩ | ⟨-, e⟩ | ⟨-, e⟩ | ⟨-, e⟩ <;> rw [e]
  · exact ⟨given_rep _ _, a2, a3, a4, a5⟩
  · exact ⟨a1, a2, ⟨long_enough _ _, given_allM _⟩, a4, given_all _ _⟩
  · exact ⟨given_all _ _, a2, a3, given_all _ _, given_all _ _⟩
  · exact ⟨a1, a2, a3, a4, a5⟩
  · exact ⟨given_append (fun v hv => a1 v (List.mem_of_mem_take hv)) (given_rep _ _), a2, a3, a4, a5⟩
  · exact ⟨a1, a2, ⟨long_enough _ _, given_allM _⟩, a4, a5⟩

/-- No number of leading placeholders is a number of velocities. -/
theorem no_leading {l : ℕ} {k : ℕ} (hk : k ≤ l) (h : ∀ v ∈ (List.replicate l pippaRow).take k, Given3 v) : k = 0 := by
  rcases Nat.eq_zero_or_pos k with h0 | h0
  · exact h0
  · refine absurd (h pippaRow ?_) pippa_not
    rw [List.take_replicate]
    exact List.mem_replicate.mpr ⟨by omega, rfl⟩

theorem not_all {l : ℕ} (hl : 0 < l) : ¬ ∀ v ∈ List.replicate l pippaRow, Given3 v := fun h =>
  pippa_not (h _ (List.mem_replicate.mpr ⟨by omega, rfl⟩))

/-- In the form `ufte` the listed inputs with forces on the spheres or with velocities are complete. -/
theorem complete_ufte (hN : 0 < P.Ns) (h : input_ftsuoe n .ufte P f dt = some u) (h6 : n = 6 → P.Ns = 99) :
    Complete .ufte P.Ns P.Nd u.inp ↔ n = 1 ∨ n = 2 ∨ n = 5 ∨ n = 6 := by
  have gT : ∀ v ∈ (defaultInputs .ufte P).Ta, Given3 v := given_rep _ _
  have gE : P.Ns ≤ (defaultInputs .ufte P).Ea.length ∧ ∀ m ∈ (defaultInputs .ufte P).Ea, Given33 m :=
    ⟨by simp [defaultInputs], given_repM _ _⟩
  have gF : ∀ v ∈ (defaultInputs .ufte P).Fb, Given3 v := given_rep _ _
  have gD : ∀ v ∈ (defaultInputs .ufte P).DFb, Given3 v := given_rep _ _
  rcases shipped_cases h with ⟨hn, e⟩ | ⟨hn, -, g, e⟩ | ⟨hn, hF, -⟩ | ⟨hn, e⟩ | ⟨hn, e⟩ | ⟨hn, e⟩
  · rw [e]
    refine iff_of_true ⟨0, Nat.zero_le _, by simp, ?_, given_rep _ _, gT, gE, gF, gD⟩ (by omega)
    intro v hv
    exact List.eq_of_mem_replicate hv
  · rw [e]
    refine iff_of_false ?_ (by omega)
    rintro ⟨k, hk, h1, -, h2, -⟩
    obtain rfl := no_leading hk h1
    exact not_all hN h2
  · exact absurd hF (not_all hN)
  · rw [e]
    refine iff_of_true ⟨P.Ns, le_rfl, ?_, ?_, ?_, gT, gE, gF, gD⟩ (by omega)
    · intro v hv
      exact given_append (given_rep _ _) (given_rep _ _) v (List.mem_of_mem_take hv)
    · intro v hv
      rw [List.drop_eq_nil_of_le (by simp; omega)] at hv
      simp at hv
    · intro v hv
      rw [List.drop_eq_nil_of_le (by simp [defaultInputs, empty_vectors])] at hv
      simp at hv
  · rw [e]
    have hN' := h6 hn
    refine iff_of_true ⟨90, by omega, ?_, ?_, ?_, gT, gE, gF, gD⟩ (by omega)
    · intro v hv
      rw [List.take_append_of_le_length (by simp), List.take_of_length_le (by simp)] at hv
      exact given_append (given_rep _ _) (given_rep _ _) v hv
    · intro v hv
      rw [List.drop_append_of_le_length (by simp), List.drop_of_length_le (by simp), List.nil_append] at hv
      exact List.eq_of_mem_replicate (List.mem_of_mem_drop hv)
    · intro v hv
      rw [List.drop_append, List.drop_of_length_le (by simp [defaultInputs, empty_vectors]), List.nil_append] at hv
      exact given_rep _ _ v (List.mem_of_mem_drop hv)
  · rw [e]
    refine iff_of_false ?_ (by omega)
    rintro ⟨k, hk, h1, -, h2, -⟩
    obtain rfl := no_leading hk h1
    exact not_all hN h2

/-- In the form `ufteu` no torque is ever given. -/
theorem complete_ufteu (hN : 0 < P.Ns) (h : input_ftsuoe n .ufteu P f dt = some u) :
    ¬ Complete .ufteu P.Ns P.Nd u.inp := by
  have hT : u.inp.Ta = List.replicate P.Ns pippaRow := by
    rcases shipped_cases h with ⟨hn, e⟩ | ⟨hn, -, g, e⟩ | ⟨hn, -, -, -, A, B, C, e⟩ | ⟨hn, e⟩ | ⟨hn, e⟩ | ⟨hn, e⟩ <;>
      rw [e] <;> rfl
  rintro ⟨k, -, kd, -, -, -, -, h2, -⟩
  rw [hT] at h2
  exact not_all hN h2

/-- In the form `duf` no force or velocity of a dumbbell is ever given. -/
theorem complete_duf (hN : 0 < P.Nd) (h : input_ftsuoe n .duf P f dt = some u) :
    ¬ Complete .duf P.Ns P.Nd u.inp := by
  have hT : u.inp.Ub = List.replicate P.Nd pippaRow ∧ u.inp.Fb = List.replicate P.Nd pippaRow := by
    rcases shipped_cases h with ⟨hn, e⟩ | ⟨hn, -, g, e⟩ | ⟨hn, -, hF, -⟩ | ⟨hn, e⟩ | ⟨hn, e⟩ | ⟨hn, e⟩
    · rw [e]; exact ⟨rfl, rfl⟩
    · rw [e]; exact ⟨rfl, rfl⟩
    · exact absurd hF (not_all hN)
    · rw [e]; exact ⟨rfl, rfl⟩
    · rw [e]; exact ⟨rfl, rfl⟩
    · rw [e]; exact ⟨rfl, rfl⟩
  rintro ⟨kd, hk, h1, -, -, h2, -⟩
  rw [hT.1] at h1
  obtain rfl := no_leading hk h1
  rw [hT.2] at h2
  exact not_all hN h2

theorem shear_traceless (g : ℝ) : SymTraceless ![![0, 0, 0.5 * g], ![0, 0, 0], ![0.5 * g, 0, 0]] := by
  refine ⟨fun i j => ?_, by simp⟩
  fin_cases i <;> fin_cases j <;> simp

theorem num_not_pippa {m : Mat3} {k : ℕ} (h : num33 m ∈ List.replicate k pippaMat) : False := by
  have := congrFun (congrFun (List.eq_of_mem_replicate h) 0) 0
  simp [num33, pippaMat] at this

theorem zero_rep {m : Mat3} {k : ℕ} (h : num33 m ∈ List.replicate k (givenMat 0)) : SymTraceless m := by
  have : m = 0 := num33_inj (List.eq_of_mem_replicate h)
  subst this
  exact ⟨fun i j => rfl, by simp⟩

theorem shear_rep {m : Mat3} {k : ℕ} {g : ℝ}
    (h : num33 m ∈ (List.replicate k ![![0, 0, 0.5 * g], ![0, 0, 0], ![0.5 * g, 0, 0]]).map givenMat) : SymTraceless m := by
  obtain ⟨x, hx, e⟩ := List.mem_map.mp h
  have : x = m := num33_inj e
  subst this
  rw [List.eq_of_mem_replicate hx]
  exact shear_traceless g

theorem default_traceless (form : InputForm) (P : PosData) : Traceless (defaultInputs form P) := by
  cases form
  · exact ⟨fun m h => zero_rep h, fun m h => (num_not_pippa h).elim⟩
  · exact ⟨fun m h => (num_not_pippa h).elim, fun m h => zero_rep h⟩
  · exact ⟨fun m h => (num_not_pippa h).elim, fun m h => zero_rep h⟩
  · exact ⟨fun m h => (num_not_pippa h).elim, fun m h => (num_not_pippa h).elim⟩
  · exact ⟨fun m h => (num_not_pippa h).elim, fun m h => (num_not_pippa h).elim⟩

theorem shipped_traceless (h : input_ftsuoe n form P f dt = some u) : Traceless u.inp := by
  obtain ⟨a, b⟩ := default_traceless form P
  rcases shipped_cases h with ⟨-, e⟩ | ⟨-, -, g, e⟩ | ⟨-, -, -, -, A, B, C, e⟩ | ⟨-, e⟩ | ⟨-, e⟩ | ⟨-, e⟩ <;> rw [e]
  · exact ⟨a, b⟩
  · exact ⟨a, fun m hm => shear_rep hm⟩
  · exact ⟨a, b⟩
  · exact ⟨a, b⟩
  · exact ⟨a, b⟩
  · exact ⟨a, fun m hm => shear_rep hm⟩

end SD.Ship
