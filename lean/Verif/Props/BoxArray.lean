import Verif.Props.BoxImage
import Verif.Props.Setups
import Verif.Props.ShippedRun
import Verif.Props.LargeBoxGrand

/-!
# C96: the cubic array of `simple_cubic_8`, and examples
-/

set_option autoImplicit false

namespace SD

open Spec Cov Reorder Move Ship Filter

/-! ## The cubic array -/

/-- Setup 3 with another side. -/
noncomputable def cubicRows (L : ℝ) : SetupRows := { setup3 with sphere_positions := simple_cubic_8 L }

theorem cubic_brick (L : ℝ) : Brick (cubicRows L).config.P 0 fun _ => L / 4 := by
  refine ⟨by simp [cubicRows, SetupRows.config, setup3], rfl, fun x hx => ?_, fun x hx => ?_⟩
  · interval_cases x <;> rfl
  · have : (cubicRows L).config.P.spherePos x = (simple_cubic_8 L).getD x 0 := rfl
    rw [this]
    funext j
    interval_cases x <;> fin_cases j <;> simp [simple_cubic_8, cornerSide] <;> ring

theorem cubic_size (L : ℝ) : EqualBeads (cubicRows L).config.P 1 := by
  intro x hx
  rw [brick_lt (cubic_brick L)] at hx
  rw [brick_radius (cubic_brick L) hx]
  rfl

theorem cubic_fits {L k : ℝ} (hL : 0 < L) (hk : 8 * k ^ 2 < L ^ 2) : BrickFits (fun _ => L) (fun _ => L / 4) k :=
  ⟨fun _ => by positivity, fun _ => by linarith, fun _ _ _ => .inr (by nlinarith)⟩

theorem cubic_apart (L : ℝ) {x y : ℕ} (hx : x < 8) (hy : y < 8) (hxy : x ≠ y) :
    ∃ j, centre (cubicRows L).config.P x j - centre (cubicRows L).config.P y j = L / 2 ∨
      centre (cubicRows L).config.P x j - centre (cubicRows L).config.P y j = -(L / 2) := by
  have hb : ∀ x y : Fin 8, x ≠ y → ∃ j : Fin 3,
      ¬ (y.val / 2 ^ (2 - j.val) % 2 = 1 ↔ x.val / 2 ^ (2 - j.val) % 2 = 1) := by decide
  obtain ⟨j, hj⟩ := hb ⟨x, hx⟩ ⟨y, hy⟩ (by simpa using hxy)
  refine ⟨j, ?_⟩
  rw [brick_centre (cubic_brick L) hx, brick_centre (cubic_brick L) hy]
  rcases side_cases j y x with ⟨-, e⟩ | ⟨e | e, -⟩
  · exact absurd e hj
  · left; simp only [Pi.zero_apply]; linear_combination L / 4 * e
  · right; simp only [Pi.zero_apply]; linear_combination L / 4 * e

theorem cubic_ready {L : ℝ} (hL : 4.002 ≤ L) (n : ℕ) {T : ScalarTable} {k : ℝ} (hk : 0 ≤ k)
    (hT : ∃ t ∈ T.lam, |t - 1| ≤ 1 / 10 ^ 8 + 1 / 10 ^ 5) {u : UserInput} (h1 : u.bl = (simple_cubic_8_box L).1)
    (h2 : u.tr = (simple_cubic_8_box L).2) (h3 : u.Ot = 0) (h4 : u.Et = 0) :
    BoxReady n T k u (edge fun _ => L) (cubicRows L).config.P := by
  have hb := cubic_brick L
  have h0 : 0 < L := by linarith
  have far : ∀ x < 8, ∀ y < 8, x ≠ y → ∃ j, |centre (cubicRows L).config.P x j - centre (cubicRows L).config.P y j| = L / 2 := by
    intro x hx y hy hxy
    obtain ⟨j, e | e⟩ := cubic_apart L hx hy hxy <;> refine ⟨j, ?_⟩ <;> rw [e]
    · exact abs_of_pos (by linarith)
    · rw [abs_neg]; exact abs_of_pos (by linarith)
  have tr : u.tr = fun i => u.bl i + L := by
    rw [h1, h2]
    funext i
    simp only [simple_cubic_8_box]
    ring
  have sens : Sensible (cubicRows L).config.P := by
    refine ⟨fun x hx => by rw [cubic_size L x hx]; exact one_pos, fun x hx y hy hxy => ?_⟩
    rw [brick_lt hb] at hx hy
    obtain ⟨j, e⟩ := far x hx y hy hxy
    refine lt_of_lt_of_le ?_ (le_len _ j)
    rw [e]
    norm_num at hL ⊢
    linarith
  refine ⟨⟨sens, fun i => ?_, ⟨0, 2, 0, by decide, by rw [h3, h4]; exact rest_is_shear⟩, ?_⟩, ?_, ⟨sens.radius_pos, ?_⟩, hk, ?_,
    equal_balanced T (cubic_size L)⟩
  · rw [tr]
    norm_num at hL ⊢
    linarith
  · intro x hx y hy hxy v hv
    rw [cubic_size L x hx, cubic_size L y hy]
    rw [brick_lt hb] at hx hy
    obtain ⟨j, e⟩ := far x hx y hy hxy
    have hs : sep (fun i => centre (cubicRows L).config.P x i - centre (cubicRows L).config.P y i) 1 1
        = fun i => centre (cubicRows L).config.P x i - centre (cubicRows L).config.P y i := by
      unfold sep
      rw [if_neg (not_lt.mpr ?_)]
      refine le_trans ?_ (le_len _ j)
      rw [e]
      norm_num at hL ⊢
      linarith
    rw [hs]
    rw [tr, h3, h4] at hv
    refine images_far n u.bl _ j ?_ ?_ hv
    · rw [e]
      norm_num at hL ⊢
      linarith
    · rw [e]
      norm_num at hL ⊢
      linarith
  · rw [h3, h4]
    have e : (fun i => u.tr i - u.bl i) = fun _ => L := by rw [tr]; funext i; simp
    rw [e]
    intro k i
    have e2 : cross 0 (edge (fun _ => L) k) i + app 0 (edge (fun _ => L) k) i = 0 := by
      fin_cases i <;> simp [cross, app, dotp]
    exact ⟨⟨by simp, by simpa using h0⟩, 0, by rw [e2]; simp⟩
  · intro x hx y hy hxy hlat
    rw [brick_lt hb] at hx hy
    obtain ⟨m, hm⟩ := hlat
    have hc : ∀ c : Vec3, combine (edge fun _ => L) c = fun j => c j * L := by
      intro c
      funext j
      simp only [combine, edge]
      fin_cases j <;> simp
    rw [hc] at hm
    obtain ⟨j, e⟩ := cubic_apart L hy hx (Ne.symm hxy)
    have hj := congrFun hm j
    rw [hj] at e
    have : (2 * m j : ℝ) = 1 ∨ (2 * m j : ℝ) = -1 := by
      refine e.imp (fun q => ?_) fun q => ?_
      · exact mul_right_cancel₀ h0.ne' (by linarith)
      · exact mul_right_cancel₀ h0.ne' (by linarith)
    rcases this with q | q
    · have : 2 * m j = 1 := by exact_mod_cast q
      omega
    · have : 2 * m j = -1 := by exact_mod_cast q
      omega
  · intro x hx y hy _
    rw [cubic_size L x hx, cubic_size L y hy]
    obtain ⟨t, ht, h⟩ := hT
    exact ⟨t, ht, by simpa using h⟩

/-- **C96** (cubic array). The eight spheres of `simple_cubic_8(L)` in its box are pulled alike along an axis, without
torques and without stresslets (or strains). If the spheres do not overlap and the diagonals of the array are out of the
range of the near field, then all spheres have the same velocity along the axis. -/
theorem C96_array {L : ℝ} (hL : 4.002 ≤ L) {n : ℕ} {T : ScalarTable}
    {input : Config → ℝ → ℝ → Vel → Option NDMat → Option UserInput} {bb : Bool} {S : Settings} (hk : 0 ≤ S.cutoff_factor)
    (hk2 : 8 * S.cutoff_factor ^ 2 < L ^ 2) (hT : ∃ t ∈ T.lam, |t - 1| ≤ 1 / 10 ^ 8 + 1 / 10 ^ 5) {last : NDMat} {u : UserInput}
    (h1 : u.bl = (simple_cubic_8_box L).1) (h2 : u.tr = (simple_cubic_8_box L).2) (h3 : u.Ot = 0) (h4 : u.Et = 0)
    {R C : NDMat} (h : generate_grand_resistance_matrix_periodic (boxWorld n T input bb) S (cubicRows L).config.P last true u
      = some (R, C))
    {form : InputForm} (hform : form = .fts ∨ form = .fte) {x : Inputs} {p : Outputs} (hx : Sized 8 0 x)
    (ho : solveForm form false 8 0 R x = some p) {F : Vec3} (hFa : x.Fa = List.replicate 8 (num3 F))
    (hTa : x.Ta = List.replicate 8 (num3 0)) (hSa : form = .fts → x.Sa = List.replicate 8 (num33 0))
    (hEa : form = .fte → x.Ea = List.replicate 8 (num33 0)) {e : Fin 3} (hF : ∀ k, k ≠ e → F k = 0) {i j : ℕ} (hi : i < 8)
    (hj : j < 8) : p.Ua.getD i 0 e = p.Ua.getD j 0 e := by
  have hb := cubic_brick L
  have eN := hb.Ns
  have eD := hb.Nd
  have hf : BrickFits (fun i => u.tr i - u.bl i) (fun _ => L / 4) S.cutoff_factor := by
    have e : (fun i => u.tr i - u.bl i) = fun _ => L := by
      rw [h1, h2]; funext i; simp only [simple_cubic_8_box]; ring
    rw [e]
    exact cubic_fits (by linarith) hk2
  exact C96_brick (cubic_ready hL n hk hT h1 h2 h3 h4) h hform (by rw [eN, eD]; exact hx) (by rw [eN, eD]; exact ho)
    (by rw [eN]; exact hFa) (by rw [eN]; exact hTa) (by rw [eN]; exact hSa) (by rw [eN]; exact hEa) hb h3 h4 hf hF hi hj

/-- **C96** (example c). Setup 3 with input 2 in the form `fte`, as example (c) of the documentation runs it, with a
range of the near field below `4 √2`: whenever the first stage gives an answer, all eight spheres fall at the same rate.
(The example reads off that of the first.) -/
theorem C96_example_c {n : ℕ} {T : ScalarTable} {input : Config → ℝ → ℝ → Vel → Option NDMat → Option UserInput} {bb : Bool}
    (hW : Ships 2 .fte (boxWorld n T input bb)) (hT : ∃ t ∈ T.lam, |t - 1| ≤ 1 / 10 ^ 8 + 1 / 10 ^ 5) {S : Settings}
    (hS : S.input_form = .fte) (hx : S.extract = false) (hk : 0 ≤ S.cutoff_factor) (hk2 : S.cutoff_factor ^ 2 < 8) {f : ℝ}
    {last : NDMat} {lv : Vel} {st : Stage}
    (h : generate_output_FTSUOE (boxWorld n T input bb) S setup3.config f last true lv = some st) {i j : ℕ} (hi : i < 8)
    (hj : j < 8) : st.out.Ua.getD i 0 2 = st.out.Ua.getD j 0 2 := by
  obtain ⟨u, R, u2, hu, hres, -, hfte, hsol, -⟩ := output_some h
  obtain ⟨X, -, hu2⟩ := hfte hS
  rw [hW] at hu hu2
  have eN : setup3.config.P.Ns = 8 := (cubic_brick 8).Ns
  have eD : setup3.config.P.Nd = 0 := rfl
  have hin : input_ftsuoe 2 .fte setup3.config.P f S.timestep = some
      { defaultUserInput .fte setup3.config.P with
        inp := { (defaultUserInput .fte setup3.config.P).inp with Fa := List.replicate setup3.config.P.Ns (givenRow ![0, 0, -1]) }
        bl := (simple_cubic_8_box 8).1
        tr := (simple_cubic_8_box 8).2 } := by
    unfold input_ftsuoe
    simp
  rw [hin] at hu hu2
  obtain rfl := Option.some.inj hu
  have hu2 := Option.some.inj hu2
  have per : isPeriodic (simple_cubic_8_box 8).1 (simple_cubic_8_box 8).2 := by
    unfold isPeriodic
    intro hh
    have := hh 0
    norm_num [simple_cubic_8_box] at this
  unfold stageResistance at hres
  rw [if_pos per] at hres
  split_ifs at hres with hE
  rw [hS, hx, eN, eD] at hsol
  refine C96_array (L := 8) (by norm_num) hk (by linarith) hT rfl rfl rfl rfl hres (.inr rfl) (x := u2.inp) ?_ hsol
    (F := ![0, 0, -1]) ?_ ?_ (by simp) (fun _ => ?_) (e := 2) (fun k hk => ?_) hi hj
  · rw [← hu2]
    constructor <;> simp [defaultUserInput, defaultInputs, empty_vectors, eN, eD]
  · rw [← hu2, ← eN]; rfl
  · rw [← hu2, ← eN]; rfl
  · rw [← hu2, ← eN]; rfl
  · fin_cases k
    · rfl
    · rfl
    · exact absurd rfl hk

/-! ## The hypotheses can be met -/

/-- The shipped table and the shipped range of the near field meet what `C96_example_c` asks of them. -/
example : (∃ t ∈ shippedTable.lam, |t - 1| ≤ 1 / 10 ^ 8 + 1 / 10 ^ 5) ∧ (0 : ℝ) ≤ 2 ∧ (2 : ℝ) ^ 2 < 8 :=
  ⟨⟨1, by simp [shippedTable], by norm_num⟩, by norm_num, by norm_num⟩

/-- In every large enough box, at rest or sheared, the conditions hold and there are answers. -/
theorem large_box {P : PosData} (hP : Sensible P) (hS : Separate P) (hE : EqualBeads P 1) (h0 : P.Nd = 0) {u : UserInput}
    (hsh : ∃ a b g, a ≠ b ∧ IsShear u.Ot u.Et a b g) (hmu : 0 < u.mu) {d : Vec3} (hd : ∀ i, 0 < d i) {S : Settings}
    (hk : 0 ≤ S.cutoff_factor) (hdr : S.use_drag_Minfinity = false) (n : ℕ)
    (input : Config → ℝ → ℝ → Vel → Option NDMat → Option UserInput) (last : NDMat) :
    ∀ᶠ L in atTop, BoxReady n dampT S.cutoff_factor (grow u d L) (Ewald.boxBasis u.bl (farCorner u.bl d L) u.Ot u.Et) P ∧
      ∃ R C, generate_grand_resistance_matrix_periodic (boxWorld n dampT input true) S P last true (grow u d L) = some (R, C) ∧
        ∀ {form : InputForm} {x : Inputs}, formAllowed form P.Ns → Sized P.Ns P.Nd x → Complete form P.Ns P.Nd x →
          ∃ p, solveForm form false P.Ns P.Nd R x = some p := by
  obtain ⟨a, b, g, hab, hs⟩ := hsh
  have f1 : FoldedBox (fun i => d i - (0 : Vec3) i) u.Ot u.Et (Ewald.boxBasis 0 d u.Ot u.Et) :=
    shear_basis_folded fun i => by simpa using hd i
  have s1 := (C30_simple_shear (fun i => by simpa using hd i) hab hs f1).1
  have one : OneSize P := fun x _ y hy hy' => by unfold beads at hy'; omega
  filter_upwards [C77_mobility hd ⟨a, b, g, hab, hs⟩ hP n u.bl hS hmu (.inl rfl) one, cellSensible_eventually s1 hP,
    boxed_eventually hd ⟨a, b, g, hab, hs⟩ n u.bl hP, eventually_gt_atTop 0] with L hM hC hbx hL
  have hside : ∀ i, 0 < farCorner u.bl d L i - u.bl i := fun i => by
    unfold farCorner; have := mul_pos hL (hd i); linarith
  have f2 : FoldedBox (fun i => farCorner u.bl d L i - u.bl i) u.Ot u.Et (Ewald.boxBasis u.bl (farCorner u.bl d L) u.Ot u.Et) :=
    shear_basis_folded hside
  have s2 := (C30_simple_shear hside hab hs f2).1
  have e : Ewald.boxBasis u.bl (farCorner u.bl d L) u.Ot u.Et = fun k i => L * Ewald.boxBasis 0 d u.Ot u.Et k i :=
    Ewald.basis_scale hL u.bl hd u.Ot u.Et
  rw [← e] at hC
  have hT : CellTabulated (Ewald.boxBasis u.bl (farCorner u.bl d L) u.Ot u.Et) dampT.lam P S.cutoff_factor :=
    fun x hx y hy _ => by
      rw [hE x hx, hE y hy]
      exact ⟨1, by norm_num [dampT], by norm_num⟩
  refine ⟨⟨hbx, f2, hC, hk, hT, equal_balanced _ hE⟩, ?_⟩
  obtain ⟨R, C, h1, -, -, h3⟩ := C76_solvable (n := n) (T := dampT) (input := input) (bb := true) (S := S) (P := P) (last := last)
    (u := grow u d L) (fun i => by
      have := hside i
      show u.bl i < farCorner u.bl d L i
      linarith) f2 s2 hC hk hT dampT_dissipates hmu.le hdr hM
  exact ⟨R, C, h1, h3⟩

/-- Spheres that are pulled alike. -/
noncomputable def pulled (m : ℕ) (F : Vec3) : Inputs where
  Fa := List.replicate m (num3 F)
  Ta := List.replicate m (num3 0)
  Sa := List.replicate m (num33 0)
  Fb := []
  DFb := []
  Ua := List.replicate m (num3 0)
  Ea := List.replicate m (num33 0)
  Ub := []
  HalfDUb := []

theorem pulled_sized (m : ℕ) (F : Vec3) : Sized m 0 (pulled m F) := by
  constructor <;> simp [pulled]

theorem pulled_complete (m : ℕ) (F : Vec3) : Complete .fte m 0 (pulled m F) := by
  refine ⟨?_, ?_, ⟨by simp [pulled], ?_⟩, by simp [pulled], by simp [pulled]⟩ <;>
    simp [pulled, Given3, Given33, num3, num33]

/-- A sphere alone in a large sheared box. -/
noncomputable def oneP : PosData where
  Ns := 1
  Nd := 0
  sphereSize := fun _ => 1
  spherePos := fun _ => ![3, 1, 4]
  dumbSize := fun _ => 1
  dumbPos := fun _ => 0
  dumbDx := fun _ => 0

example (F : Vec3) (n : ℕ) (input : Config → ℝ → ℝ → Vel → Option NDMat → Option UserInput) (last : NDMat) :
    ∀ᶠ L in atTop, ∃ R C p, generate_grand_resistance_matrix_periodic (boxWorld n dampT input true)
        (starSettings .euler 1) oneP last true (grow starShear ![2, 1, 1] L) = some (R, C) ∧
      solveForm .fte false 1 0 R (pulled 1 F) = some p ∧ p.Oa.getD 0 0 = 0 := by
  have hc : ∀ x < beads oneP, x = 0 := fun x hx => by unfold beads oneP at hx; simp only at hx; omega
  have hE : EqualBeads oneP 1 := fun x hx => by rw [hc x hx]; simp [radius, oneP]
  filter_upwards [large_box (P := oneP) ⟨fun x hx => by rw [hE x hx]; exact one_pos,
      fun x hx y hy e => absurd ((hc x hx).trans (hc y hy).symm) e⟩
    (fun x hx y hy e => absurd ((hc x hx).trans (hc y hy).symm) e) hE rfl (u := starShear) skew_is_shear
    (show (0 : ℝ) < 3 by norm_num) (d := ![2, 1, 1]) (fun i => by fin_cases i <;> simp) (S := starSettings .euler 1)
    (by norm_num [starSettings]) rfl n input last] with L hL
  obtain ⟨hB, R, C, h, hs⟩ := hL
  obtain ⟨p, hp⟩ := hs (form := .fte) (x := pulled 1 F) ⟨by simp [oneP], by simp⟩ (pulled_sized 1 F) (pulled_complete 1 F)
  exact ⟨R, C, p, h, hp, (C96_alone hB h (.inr rfl) (pulled_sized 1 F) hp (F := F) rfl rfl (by simp) (fun _ => rfl) rfl rfl).1⟩

/-- Two spheres in a large sheared box. -/
example (F : Vec3) (n : ℕ) (input : Config → ℝ → ℝ → Vel → Option NDMat → Option UserInput) (last : NDMat) :
    ∀ᶠ L in atTop, ∃ R C p, generate_grand_resistance_matrix_periodic (boxWorld n dampT input true)
        (starSettings .euler 1) (apartP 3) last true (grow starShear ![2, 1, 1] L) = some (R, C) ∧
      solveForm .fte false 2 0 R (pulled 2 F) = some p ∧ p.Ua.getD 0 0 = p.Ua.getD 1 0 := by
  filter_upwards [large_box (P := apartP 3) (apartP_sensible (by norm_num)) (apartP_separate (by norm_num)) (apartP_equal _)
    rfl (u := starShear) skew_is_shear
    (show (0 : ℝ) < 3 by norm_num) (d := ![2, 1, 1]) (fun i => by fin_cases i <;> simp) (S := starSettings .euler 1)
    (by norm_num [starSettings]) rfl n input last] with L hL
  obtain ⟨hB, R, C, h, hs⟩ := hL
  obtain ⟨p, hp⟩ := hs (form := .fte) (x := pulled 2 F) ⟨by simp [apartP], by simp⟩ (pulled_sized 2 F) (pulled_complete 2 F)
  exact ⟨R, C, p, h, hp, (C96_pair hB h (.inr rfl) (pulled_sized 2 F) hp (F := F) rfl rfl (by simp) (fun _ => rfl)
    ⟨rfl, rfl, rfl⟩).1⟩

/-- A box at rest. -/
noncomputable def restInput : UserInput := { defaultUserInput .fte oneP with mu := 1 }

/-- The eight spheres of setup 3 in a large box at rest, pulled down. -/
example (n : ℕ) (input : Config → ℝ → ℝ → Vel → Option NDMat → Option UserInput) (last : NDMat) :
    ∀ᶠ L in atTop, ∃ R C p, generate_grand_resistance_matrix_periodic (boxWorld n dampT input true)
        (starSettings .euler 1) (cubicRows 8).config.P last true (grow restInput ![1, 1, 1] L) = some (R, C) ∧
      solveForm .fte false 8 0 R (pulled 8 ![0, 0, -1]) = some p ∧
      ∀ i < 8, ∀ j < 8, p.Ua.getD i 0 2 = p.Ua.getD j 0 2 := by
  have hb := cubic_brick 8
  have eN := hb.Ns
  have eD := hb.Nd
  have far : ∀ x < beads (cubicRows 8).config.P, ∀ y < beads (cubicRows 8).config.P, x ≠ y →
      4 ≤ len fun i => centre (cubicRows 8).config.P x i - centre (cubicRows 8).config.P y i := by
    intro x hx y hy hxy
    rw [brick_lt hb] at hx hy
    obtain ⟨j, e⟩ := cubic_apart 8 hx hy hxy
    refine le_trans ?_ (le_len _ j)
    rcases e with e | e <;> rw [e] <;> norm_num
  have hsep : Separate (cubicRows 8).config.P := by
    intro x hx y hy hxy
    rw [cubic_size 8 x hx, cubic_size 8 y hy]
    exact le_trans (by norm_num) (far x hx y hy hxy)
  filter_upwards [large_box (P := (cubicRows 8).config.P) ⟨fun x hx => by rw [cubic_size 8 x hx]; exact one_pos,
      fun x hx y hy e => lt_of_lt_of_le (by norm_num) (far x hx y hy e)⟩ hsep (cubic_size 8) rfl (u := restInput)
    ⟨0, 2, 0, by decide, rest_is_shear⟩ (show (0 : ℝ) < 1 by norm_num) (d := ![1, 1, 1]) (fun i => by fin_cases i <;> simp)
    (S := starSettings .euler 1) (by norm_num [starSettings]) rfl n input last, eventually_gt_atTop 8] with L hL h8
  obtain ⟨hB, R, C, h, hs⟩ := hL
  rw [eN, eD] at hs
  obtain ⟨p, hp⟩ := hs (form := .fte) (x := pulled 8 ![0, 0, -1]) ⟨by simp, by simp⟩ (pulled_sized _ _) (pulled_complete _ _)
  refine ⟨R, C, p, h, hp, fun i hi j hj => ?_⟩
  refine C96_brick hB h (.inr rfl) (x := pulled 8 ![0, 0, -1]) (by rw [eN, eD]; exact pulled_sized 8 _) (by rw [eN, eD]; exact hp) (F := ![0, 0, -1])
    (by rw [eN]; rfl) (by rw [eN]; rfl) (by simp) (fun _ => by rw [eN]; rfl) hb rfl rfl
    ⟨fun _ => by norm_num, fun i => ?_, fun i j _ => .inl ⟨?_, ?_⟩⟩ (e := 2) (fun k hk => ?_) hi hj
  · have : (grow restInput ![1, 1, 1] L).tr i - (grow restInput ![1, 1, 1] L).bl i = L := by
      fin_cases i <;> simp [grow, farCorner]
    rw [this]; linarith
  · have : (grow restInput ![1, 1, 1] L).tr i - (grow restInput ![1, 1, 1] L).bl i = L := by
      fin_cases i <;> simp [grow, farCorner]
    rw [this]; linarith
  · have : (grow restInput ![1, 1, 1] L).tr j - (grow restInput ![1, 1, 1] L).bl j = L := by
      fin_cases j <;> simp [grow, farCorner]
    rw [this]; linarith
  · fin_cases k
    · rfl
    · rfl
    · exact absurd rfl hk

end SD
