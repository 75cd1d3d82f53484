import Verif.Spec.ListedForces
import Verif.Lemmas.InputSymmetry
import Verif.Lemmas.Origin
import Verif.Lemmas.Still
import Verif.Props.Step

/-!
# The loads of the project's own inputs, and unloaded spheres
-/

set_option autoImplicit false

namespace SD.Ship

open SD SD.Spec

variable {form : InputForm} {P : PosData} {f dt : ℝ} {u : UserInput}

theorem rep_range {α : Type} (n : ℕ) (a : α) : List.replicate n a = (List.range n).map fun _ => a := by
  rw [List.map_const', List.length_range]

theorem default_none (hform : form = .fts ∨ form = .fte) :
    (defaultInputs form P).Fa = (List.range P.Ns).map (fun _ => num3 0) ∧
    (defaultInputs form P).Ta = (List.range P.Ns).map (fun _ => num3 0) ∧
    (defaultInputs form P).Fb = (List.range P.Nd).map (fun _ => num3 0) ∧
    (defaultInputs form P).DFb = (List.range P.Nd).map (fun _ => num3 0) := by
  rcases hform with rfl | rfl <;> exact ⟨rep_range _ _, rep_range _ _, rep_range _ _, rep_range _ _⟩

theorem centre_first {i : ℕ} (h : i < P.Nd) :
    centre P (P.Ns + i) = fun k => P.dumbPos i k - P.dumbDx i k / 2 := by
  funext k
  unfold centre
  rw [if_neg (by omega), if_pos (by omega), Nat.add_sub_cancel_left]

theorem centre_second {i : ℕ} :
    centre P (P.Ns + P.Nd + i) = fun k => P.dumbPos i k + P.dumbDx i k / 2 := by
  funext k
  unfold centre
  rw [if_neg (by omega), if_neg (by omega), Nat.add_sub_cancel_left]

theorem hooke_second {i : ℕ} (h : i < P.Nd) : hooke P (P.Ns + P.Nd + i) = fun k =>
    -(1 / 2 * (len (P.dumbDx i) - 2) * (P.dumbDx i k / len (P.dumbDx i))) := by
  unfold hooke otherEnd
  rw [if_neg (by omega), if_neg (by omega), show P.Ns + P.Nd + i - P.Nd = P.Ns + i by omega, centre_first h,
    centre_second]
  have e : (fun k => P.dumbPos i k - P.dumbDx i k / 2 - (P.dumbPos i k + P.dumbDx i k / 2)) = fun k => -P.dumbDx i k := by
    funext k; ring
  have el : len (fun k => -P.dumbDx i k) = len (P.dumbDx i) := by
    unfold len; congr 1; exact Finset.sum_congr rfl fun k _ => by ring
  dsimp only
  rw [e, el]
  funext k
  ring

theorem hooke_first {i : ℕ} (h : i < P.Nd) : hooke P (P.Ns + i) = fun k =>
    1 / 2 * (len (P.dumbDx i) - 2) * (P.dumbDx i k / len (P.dumbDx i)) := by
  unfold hooke otherEnd
  rw [if_neg (by omega), if_pos (by omega), show P.Ns + i + P.Nd = P.Ns + P.Nd + i by omega, centre_first h,
    centre_second]
  have e : (fun k => P.dumbPos i k + P.dumbDx i k / 2 - (P.dumbPos i k - P.dumbDx i k / 2)) = P.dumbDx i := by
    funext k; ring
  dsimp only
  rw [e]
  funext k
  rw [show P.dumbPos i k + P.dumbDx i k / 2 - (P.dumbPos i k - P.dumbDx i k / 2) = P.dumbDx i k by ring]

/-! ## Nothing prescribed, nothing solved -/

theorem solve_zero {M : NDMat} {f v : List ℝ} (h : M.solve f = some v) (h0 : ∀ i, f.getD i 0 = 0) (i : ℕ) :
    v.getD i 0 = 0 := by
  unfold NDMat.solve at h
  split_ifs at h with hc
  obtain rfl := Option.some.inj h
  have : (fun i : Fin M.rows => f.getD i 0) = 0 := funext fun i => h0 i
  rw [this, Matrix.mulVec_zero]
  by_cases hi : i < M.rows
  · simp [hi]
  · simp [hi]

theorem floats_zero {l : List OVec3} {r : List Vec3} (h : floatsL l = some r) (h0 : ∀ v ∈ l, v = num3 0) (i : ℕ) :
    r.getD i 0 = 0 :=
  Move.getD_zero (fun x hx => num3_inj (h0 _ (by rw [floatsL_num h]; exact List.mem_map_of_mem hx))) i

theorem floats33_zero {l : List OMat3} {r : List Mat3} (h : l.mapM floats33 = some r) (h0 : ∀ v ∈ l, v = num33 0)
    (i : ℕ) : r.getD i 0 = 0 :=
  Move.getD_zero (fun x hx => num33_inj (h0 _ (by rw [floats33L_num h]; exact List.mem_map_of_mem hx))) i

theorem five_zero (c : Fin 5) : five 0 c = 0 := by
  fin_cases c <;> simp [five]

/-- Without loads `fts` solves for no motion and no strain. -/
theorem fts_zero {Ns Nd : ℕ} {R : NDMat} {inp : Inputs} {out : Outputs} (hsz : Sized Ns Nd inp)
    (hF : ∀ v ∈ inp.Fa, v = num3 0) (hT : ∀ v ∈ inp.Ta, v = num3 0) (hS : ∀ v ∈ inp.Sa, v = num33 0)
    (hFb : ∀ v ∈ inp.Fb, v = num3 0) (hD : ∀ v ∈ inp.DFb, v = num3 0)
    (h : solveFTS Ns Nd R inp = some out) :
    (∀ i, out.Ua.getD i 0 = 0) ∧ (∀ i, out.Oa.getD i 0 = 0) ∧ (0 < Ns → ∀ i, out.Ea.getD i 0 = 0) ∧
      (∀ i, out.Ub.getD i 0 = 0) ∧ (∀ i, out.HalfDUb.getD i 0 = 0) ∧
      (Ns = 0 → inp.Ea.mapM floats33 = some out.Ea) := by
  unfold solveFTS at h
  obtain ⟨fv, h1, h⟩ := Option.bind_eq_some_iff.mp h
  obtain ⟨vv, h2, h⟩ := Option.bind_eq_some_iff.mp h
  obtain ⟨Fa, -, h⟩ := Option.bind_eq_some_iff.mp h
  obtain ⟨Ta, -, h⟩ := Option.bind_eq_some_iff.mp h
  obtain ⟨Sa, -, h⟩ := Option.bind_eq_some_iff.mp h
  obtain ⟨Fb, -, h⟩ := Option.bind_eq_some_iff.mp h
  obtain ⟨DFb, -, h⟩ := Option.bind_eq_some_iff.mp h
  obtain ⟨Ea, h3, h⟩ := Option.bind_eq_some_iff.mp h
  obtain rfl := Option.some.inj h
  obtain ⟨f', t', s', fb', dfb', k1, k2, k3, -, k5, k6⟩ := construct?_some h1 hsz.Fa hsz.Ta hsz.Fb hsz.DFb
  have hz : ∀ i < 11 * Ns + 6 * Nd, fv.getD i 0 = 0 := by
    apply grand_cases
    · intro a ha c
      rw [k6 _ (by omega), pack_u _ _ _ _ _ ha, floats_zero (k1 (by omega)).1 hF]; rfl
    · intro a ha c
      rw [k6 _ (by omega), pack_o _ _ _ _ _ ha, floats_zero (k1 (by omega)).2 hT]; rfl
    · intro a ha c
      rw [k6 _ (by omega), pack_e _ _ _ _ _ ha, floats33_zero k2 fun v hv => hS v (List.mem_of_mem_take hv)]
      exact five_zero c
    · intro a ha c
      rw [k6 _ (by omega), pack_ub _ _ _ _ _ ha, floats_zero (k3 (by omega)).1 hFb]; rfl
    · intro a ha c
      rw [k6 _ (by omega), pack_hd _ _ _ _ _ ha, floats_zero (k3 (by omega)).2 hD]; rfl
  have hv := solve_zero h2 fun i => by
    by_cases hi : i < 11 * Ns + 6 * Nd
    · exact hz i hi
    · exact List.getD_eq_default _ _ (by omega)
  refine ⟨fun i => ?_, fun i => ?_, fun hN i => ?_, fun i => ?_, fun i => ?_, fun hN => ?_⟩
  · by_cases hi : i < Ns
    · funext c; exact (dec_u Ns Nd vv hi c).trans (hv _)
    · exact List.getD_eq_default _ _ (by rw [dec_u_len]; omega)
  · by_cases hi : i < Ns
    · funext c; exact (dec_o Ns Nd vv hi c).trans (hv _)
    · exact List.getD_eq_default _ _ (by rw [dec_o_len]; omega)
  · rw [if_neg (by omega)] at h3
    obtain rfl := Option.some.inj h3
    by_cases hi : i < Ns
    · have hl : i < (deconstruct_velocity_vector_for_fts Ns Nd vv).e.length := by rw [dec_e_len]; exact hi
      refine five_inj (dec_e_sym Ns Nd vv _ ?_) ⟨fun _ _ => rfl, by simp⟩ ?_
      · rw [List.getD_eq_getElem _ _ hl]; exact List.getElem_mem hl
      · funext c; rw [dec_e _ _ _ hi c, hv, five_zero]
    · exact List.getD_eq_default _ _ (by rw [dec_e_len]; omega)
  · by_cases hi : i < Nd
    · funext c; exact (dec_ub Ns Nd vv hi c).trans (hv _)
    · exact List.getD_eq_default _ _ (by rw [dec_ub_len]; omega)
  · by_cases hi : i < Nd
    · funext c; exact (dec_hd Ns Nd vv hi c).trans (hv _)
    · exact List.getD_eq_default _ _ (by rw [dec_hd_len]; omega)
  · rw [if_pos hN] at h3
    exact h3

theorem shear_input (form : InputForm) (P : PosData) (f dt : ℝ) : input_ftsuoe 7 form P f dt
    = some { defaultUserInput form P with
        inp := { defaultInputs form P with Ea := (constant_shear 1 f dt 0 P.Ns).Ea_in.map givenMat }
        U := (constant_shear 1 f dt 0 P.Ns).U_infinity
        O := (constant_shear 1 f dt 0 P.Ns).O_infinity
        centre := (constant_shear 1 f dt 0 P.Ns).centre_of_background_flow
        Ot := (constant_shear 1 f dt 0 P.Ns).Ot_infinity
        Et := (constant_shear 1 f dt 0 P.Ns).Et_infinity } := by
  unfold input_ftsuoe
  dsimp only
  rw [if_neg (by omega), if_neg (by omega), if_neg (by omega), if_neg (by omega), if_neg (by omega),
    if_neg (by omega), if_pos rfl]
  rfl

/-- What is solved for in the shear flow of input 7 with prescribed stresslets. -/
theorem shear_stage {W : World} {S : Settings} (hW : Ships 7 .fts W) (hform : S.input_form = .fts) {c : Config}
    {last : NDMat} {reg : Bool} {lv : Vel} {st : Stage}
    (h : generate_output_FTSUOE W S c f last reg lv = some st) :
    (∀ i, st.out.Ua.getD i 0 = 0) ∧ (0 < c.P.Ns → ∀ i, st.out.Ea.getD i 0 = 0) ∧
      (∀ i, st.out.Ub.getD i 0 = 0) ∧ (∀ i, st.out.HalfDUb.getD i 0 = 0) ∧
      (c.P.Ns = 0 → st.out.Ea.headD 0 = ![![0, 0, 0.5 * 1], ![0, 0, 0], ![0.5 * 1, 0, 0]]) ∧
      st.U = 0 ∧ st.O = ![0, 0.5 * 1, 0] ∧ st.centre = 0 := by
  obtain ⟨u, R, u2, h1, -, h2, -, h4, eU, eO, ec, -⟩ := output_some h
  obtain rfl := h2 (by rw [hform]; simp)
  rw [hW] at h1
  have hs := shipped_sized h1 (by simp)
  rw [shear_input] at h1
  obtain rfl := Option.some.inj h1
  rw [hform] at h4
  have hr : ∀ {n : ℕ}, ∀ v ∈ List.replicate n (givenRow 0), v = num3 0 := fun v hv => List.eq_of_mem_replicate hv
  obtain ⟨a1, -, a3, a4, a5, a6⟩ := fts_zero hs hr hr (fun v hv => List.eq_of_mem_replicate hv) hr hr h4
  refine ⟨a1, a3, a4, a5, fun h0 => ?_, ?_, eO, ec⟩
  · have := floats33L_num (a6 h0)
    rw [h0] at this
    have e : [num33 ![![0, 0, 0.5 * 1], ![0, 0, 0], ![0.5 * 1, 0, 0]]] = st.out.Ea.map num33 := this
    cases hE : st.out.Ea with
    | nil => rw [hE] at e; simp at e
    | cons m l =>
      rw [hE, List.map_cons, List.cons.injEq] at e
      exact (num33_inj e.1).symm
  · rw [eU]
    funext k
    fin_cases k <;> rfl

end SD.Ship
