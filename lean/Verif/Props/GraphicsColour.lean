import Verif.Props.GraphicsView
import Mathlib.Tactic.Positivity

/-!
# C80: what shades, colours and arrows show
-/

set_option autoImplicit false

namespace SD

open Spec

theorem between0and1_eq (x : ℝ) : between0and1 x = max 0 (min 1 x) := by
  unfold between0and1
  by_cases h : x < 0
  · rw [if_pos h, min_eq_right (by linarith), max_eq_left h.le]
  · rw [if_neg h]
    by_cases h1 : x > 1
    · rw [if_pos h1, min_eq_left h1.le, max_eq_right zero_le_one]
    · rw [if_neg h1, min_eq_right (not_lt.mp h1), max_eq_right (not_lt.mp h)]

/-! ## Shades -/

/-- Unless the view is level, the distance used is the one towards the camera. -/
theorem screen_camera {elev : ℝ} (h : elev ≠ 0) (azim : ℝ) (x : Vec3) :
    screenDistance elev azim x = dotp x (toCamera elev azim) := by
  have hs : plotSign elev = if elev < 0 then -1 else 1 := by
    unfold plotSign
    rcases lt_or_gt_of_ne h with h' | h'
    · rw [if_neg (not_lt.mpr h'.le), if_neg h, if_pos h']
    · rw [if_pos h', if_neg (not_lt.mpr h'.le)]
  unfold screenDistance Ewald.dot3 dotp
  rw [hs, plotNormal_camera, plotNormal_camera, plotNormal_camera]
  by_cases h' : elev < 0
  · simp only [if_pos h']; ring
  · simp only [if_neg h']; ring

theorem cauchy3 {x c : Vec3} {r : ℝ} (hr : 0 ≤ r) (hx : ∑ k, x k ^ 2 ≤ r ^ 2)
    (hc : c 0 ^ 2 + c 1 ^ 2 + c 2 ^ 2 = 1) : |dotp x c| ≤ r := by
  apply abs_le_of_sq_le_sq _ hr
  rw [Fin.sum_univ_three] at hx
  unfold dotp
  nlinarith [sq_nonneg (x 0 * c 1 - x 1 * c 0), sq_nonneg (x 0 * c 2 - x 2 * c 0),
    sq_nonneg (x 1 * c 2 - x 2 * c 1)]

theorem toCamera_unit (elev azim : ℝ) :
    toCamera elev azim 0 ^ 2 + toCamera elev azim 1 ^ 2 + toCamera elev azim 2 ^ 2 = 1 := by
  simp only [toCamera, Matrix.cons_val_zero, Matrix.cons_val_one, Matrix.cons_val]
  have h1 := Real.sin_sq_add_cos_sq (elev / 180 * Real.pi)
  have h2 := Real.sin_sq_add_cos_sq (azim / 180 * Real.pi)
  linear_combination (Real.cos (elev / 180 * Real.pi)) ^ 2 * h2 + h1

/-- The line from the centre of a sphere to a mark on it or in it is the lighter the nearer the mark is to
the camera: from black at the far side to half-way to white at the near side, in proportion. The view must
not be level. -/
theorem C80_shade {elev : ℝ} (h : elev ≠ 0) (azim : ℝ) (p mark : Vec3) {r : ℝ} (hr : 0 < r)
    (hm : ∑ k, (mark k - p k) ^ 2 ≤ r ^ 2) :
    lineShade elev azim p r mark = (1 + dotp (fun k => mark k - p k) (toCamera elev azim) / r) / 4 := by
  have hb := abs_le.mp (cauchy3 (x := fun k => mark k - p k) hr.le hm (toCamera_unit elev azim))
  have e : dotp (fun k => mark k - p k) (toCamera elev azim)
      = dotp mark (toCamera elev azim) - dotp p (toCamera elev azim) := by unfold dotp; ring
  unfold lineShade
  simp only [screen_camera h]
  rw [e] at hb ⊢
  generalize dotp mark (toCamera elev azim) = m at *
  generalize dotp p (toCamera elev azim) = q at *
  rw [between0and1_eq]
  have h2 : q + r - (q - r) = 2 * r := by ring
  rw [h2, min_eq_right, max_eq_right]
  · field_simp; ring
  · apply div_nonneg <;> linarith [hb.1]
  · rw [div_le_one (by linarith)]
    linarith [hb.2]

/-- In a level view, which is the default, the line has the same grey whatever side of the sphere the mark
is on. -/
theorem C80_shade_level (azim : ℝ) (p mark : Vec3) {r : ℝ} (hr : 0 < r) :
    lineShade 0 azim p r mark = 1 / 4 := by
  have h0 : plotSign 0 = 0 := by simp [plotSign]
  unfold lineShade screenDistance
  simp only [h0, mul_zero]
  have : (0 - (0 - r)) / (0 + r - (0 - r)) = 1 / 2 := by
    rw [show (0 - (0 - r)) = r by ring, show 0 + r - (0 - r) = 2 * r by ring]
    field_simp
  rw [this, between0and1_eq]
  norm_num

/-- Shades are shades: between black and half-way to white. -/
theorem C80_shade_range (elev azim : ℝ) (p mark : Vec3) (r : ℝ) :
    0 ≤ lineShade elev azim p r mark ∧ lineShade elev azim p r mark ≤ 1 / 2 := by
  unfold lineShade
  simp only [between0and1_eq]
  constructor
  · have := le_max_left (0 : ℝ) (min 1 ((screenDistance elev azim mark - (screenDistance elev azim p - r))
      / (screenDistance elev azim p + r - (screenDistance elev azim p - r))))
    linarith
  · have : max (0 : ℝ) (min 1 ((screenDistance elev azim mark - (screenDistance elev azim p - r))
      / (screenDistance elev azim p + r - (screenDistance elev azim p - r)))) ≤ 1 :=
      max_le zero_le_one (min_le_left _ _)
    linarith

/-- From above, the mark on top is lightest and the one underneath black. -/
example : lineShade 90 0 ![1, 2, 3] 2 ![1, 2, 5] = 1 / 2 ∧ lineShade 90 0 ![1, 2, 3] 2 ![1, 2, 1] = 0 := by
  have h : (90 : ℝ) / 180 * Real.pi = Real.pi / 2 := by ring
  constructor
  · rw [C80_shade (by norm_num) 0 _ _ (by norm_num) (by simp [Fin.sum_univ_three]; norm_num)]
    simp [dotp, toCamera, h]
    norm_num
  · rw [C80_shade (by norm_num) 0 _ _ (by norm_num) (by simp [Fin.sum_univ_three]; norm_num)]
    simp [dotp, toCamera, h]
    norm_num

/-! ## Colours -/

/-- The colour of a sphere goes from blue to red as its force grows to 1, and is red from there on. -/
theorem C80_sphere_colour (f : Vec3) :
    (len f ≤ 1 → sphereColour f = ![len f, 0, 1 - len f]) ∧ (1 ≤ len f → sphereColour f = ![1, 0, 0]) := by
  have h0 : 0 ≤ len f := Real.sqrt_nonneg _
  unfold sphereColour
  simp only [between0and1_eq, norm3_len]
  constructor <;> intro h
  · rw [min_eq_right h, max_eq_right h0]
  · rw [min_eq_left h, max_eq_right zero_le_one, sub_self]

theorem npMaxList_greatest : ∀ {l : List ℝ}, l ≠ [] →
    ∃ m, npMaxList l = some m ∧ m ∈ l ∧ ∀ x ∈ l, x ≤ m := by
  intro l hl
  cases l with
  | nil => exact absurd rfl hl
  | cons a l =>
    refine ⟨_, rfl, ?_⟩
    induction l using List.reverseRecOn with
    | nil => simp
    | append_singleton l b ih =>
      have ih := ih (by simp)
      rw [List.foldl_append]
      simp only [List.foldl_cons, List.foldl_nil]
      constructor
      · rcases max_choice (l.foldl max a) b with h | h
        · rw [h]
          rcases List.mem_cons.mp ih.1 with h' | h'
          · rw [h']; simp
          · exact List.mem_cons_of_mem _ (List.mem_append_left _ h')
        · rw [h]; simp
      · intro x hx
        rcases List.mem_cons.mp hx with h | h
        · exact le_trans (ih.2 x (by rw [h]; simp)) (le_max_left _ _)
        · rcases List.mem_append.mp h with h | h
          · exact le_trans (ih.2 x (List.mem_cons_of_mem _ h)) (le_max_left _ _)
          · rw [List.mem_singleton.mp h]; exact le_max_right _ _

theorem mem_rowEntries {n : ℕ} {f : ℕ → Vec3} {x : ℝ} :
    x ∈ rowEntries n f ↔ ∃ i < n, ∃ k, x = f i k := by
  unfold rowEntries
  simp only [List.mem_flatMap, List.mem_range]
  constructor
  · rintro ⟨i, hi, h⟩
    simp only [List.mem_cons, List.not_mem_nil, or_false] at h
    rcases h with h | h | h
    exacts [⟨i, hi, 0, h⟩, ⟨i, hi, 1, h⟩, ⟨i, hi, 2, h⟩]
  · rintro ⟨i, hi, k, h⟩
    refine ⟨i, hi, ?_⟩
    rw [h]
    fin_cases k <;> simp

theorem colours_largest {n : ℕ} (hn : 0 < n) (F DF : ℕ → Vec3) :
    ∃ m, LargestComponent n (beadForces F DF).1 (beadForces F DF).2 m ∧
      dumbbellColours n F DF = some fun i =>
        (![beadRed (0.5 * m) ((beadForces F DF).1 i), 1 - beadRed (0.5 * m) ((beadForces F DF).1 i), 0],
          ![beadRed (0.5 * m) ((beadForces F DF).2 i), 1 - beadRed (0.5 * m) ((beadForces F DF).2 i), 0]) := by
  have ne : ∀ f : ℕ → Vec3, rowEntries n f ≠ [] := by
    intro f h
    have : f 0 0 ∈ rowEntries n f := mem_rowEntries.mpr ⟨0, hn, 0, rfl⟩
    rw [h] at this
    exact List.not_mem_nil this
  obtain ⟨m1, h1, h1m, h1g⟩ := npMaxList_greatest (ne (beadForces F DF).1)
  obtain ⟨m2, h2, h2m, h2g⟩ := npMaxList_greatest (ne (beadForces F DF).2)
  refine ⟨max m1 m2, ⟨?_, ?_⟩, ?_⟩
  · obtain ⟨i, hi, k, hk⟩ := mem_rowEntries.mp h1m
    obtain ⟨j, hj, l, hl⟩ := mem_rowEntries.mp h2m
    rcases max_choice m1 m2 with h | h
    · exact ⟨i, hi, k, Or.inl (by rw [h, hk])⟩
    · exact ⟨j, hj, l, Or.inr (by rw [h, hl])⟩
  · intro i hi k
    exact ⟨le_trans (h1g _ (mem_rowEntries.mpr ⟨i, hi, k, rfl⟩)) (le_max_left _ _),
      le_trans (h2g _ (mem_rowEntries.mpr ⟨i, hi, k, rfl⟩)) (le_max_right _ _)⟩
  · unfold dumbbellColours
    simp only [h1, h2, Option.bind_some]

theorem largest_unique {n : ℕ} {f g : ℕ → Vec3} {m m' : ℝ} (h : LargestComponent n f g m)
    (h' : LargestComponent n f g m') : m = m' := by
  obtain ⟨⟨i, hi, k, hk⟩, hg⟩ := h
  obtain ⟨⟨j, hj, l, hl⟩, hg'⟩ := h'
  apply le_antisymm
  · rcases hk with hk | hk
    · rw [hk]; exact (hg' i hi k).1
    · rw [hk]; exact (hg' i hi k).2
  · rcases hl with hl | hl
    · rw [hl]; exact (hg j hj l).1
    · rw [hl]; exact (hg j hj l).2

/-- The forces on the two beads of each dumbbell, given the sum and the difference. -/
theorem bead_halves (f1 f2 : ℕ → Vec3) :
    beadForces (fun i k => f1 i k + f2 i k) (fun i k => f2 i k - f1 i k) = (f1, f2) := by
  unfold beadForces
  refine Prod.ext ?_ ?_ <;> funext i k <;> simp only <;> ring

/-- The colour of a bead goes from green to red with the square of its force, and is red from half of the
largest component of any force on. The measure is the largest component, with its sign, along the axes. If
that is not positive, every bead is green. Here `f1` and `f2` are the forces on the first and second beads. -/
theorem C80_bead_colour {n : ℕ} (hn : 0 < n) (f1 f2 : ℕ → Vec3) :
    ∃ c, dumbbellColours n (fun i k => f1 i k + f2 i k) (fun i k => f2 i k - f1 i k) = some c ∧
      ∀ m, LargestComponent n f1 f2 m →
        let red := fun f : Vec3 => if m ≤ 0 then 0 else if m / 2 ≤ len f then 1 else (len f / (m / 2)) ^ 2
        ∀ i, c i = (![red (f1 i), 1 - red (f1 i), 0], ![red (f2 i), 1 - red (f2 i), 0]) := by
  obtain ⟨m, hm, hc⟩ := colours_largest hn (fun i k => f1 i k + f2 i k) (fun i k => f2 i k - f1 i k)
  rw [bead_halves] at hm hc
  refine ⟨_, hc, fun m' hm' => ?_⟩
  rw [largest_unique hm' hm]
  have key : ∀ f : Vec3, beadRed (0.5 * m) f
      = if m ≤ 0 then 0 else if m / 2 ≤ len f then 1 else (len f / (m / 2)) ^ 2 := by
    intro f
    have hl : 0 ≤ len f := Real.sqrt_nonneg _
    have e : (0.5 : ℝ) * m = m / 2 := by ring
    unfold beadRed
    rw [e, between0and1_eq, norm3_len]
    rcases lt_trichotomy m 0 with h | h | h
    · rw [if_neg (by linarith), if_pos h.le]
      have : len f / (m / 2) ≤ 0 := div_nonpos_of_nonneg_of_nonpos hl (by linarith)
      rw [min_eq_right (by linarith), max_eq_left this]
      norm_num
    · rw [if_pos (by linarith), if_pos h.le]
    · rw [if_neg (by linarith), if_neg (by linarith)]
      have hm2 : 0 < m / 2 := by linarith
      by_cases h' : m / 2 ≤ len f
      · rw [if_pos h', min_eq_left ((one_le_div hm2).mpr h')]
        norm_num
      · rw [if_neg h', min_eq_right ((div_le_one hm2).mpr (not_le.mp h').le),
          max_eq_right (div_nonneg hl hm2.le)]
  intro red i
  simp only [key]
  rfl

/-- So the colours depend on the axes: the same force is drawn red if it points along `x`, and as no force
if it points against it. -/
theorem C80_bead_axes (a : ℝ) (ha : 0 < a) :
    (dumbbellColours 1 (fun _ => ![a, 0, 0]) fun _ => 0).map (fun c => c 0) = some (![1, 0, 0], ![1, 0, 0]) ∧
    (dumbbellColours 1 (fun _ => ![-a, 0, 0]) fun _ => 0).map (fun c => c 0) = some (![0, 1, 0], ![0, 1, 0]) := by
  have key : ∀ b : ℝ, (fun (i : ℕ) (k : Fin 3) => (fun _ : ℕ => ![b / 2, 0, 0]) i k + (fun _ : ℕ => ![b / 2, 0, 0]) i k)
      = (fun _ => ![b, 0, 0]) ∧ (fun (i : ℕ) (k : Fin 3) => (fun _ : ℕ => ![b / 2, 0, 0]) i k - (fun _ : ℕ => ![b / 2, 0, 0]) i k)
      = (fun _ => 0) := by
    intro b
    refine ⟨?_, ?_⟩ <;> funext i k <;> fin_cases k <;> simp
  have hlen : ∀ b : ℝ, len ![b, 0, 0] = |b| := by
    intro b
    unfold len
    rw [Fin.sum_univ_three]
    simp [Real.sqrt_sq_eq_abs]
  constructor
  · obtain ⟨c, hc, h⟩ := C80_bead_colour (n := 1) one_pos (fun _ => ![a / 2, 0, 0]) fun _ => ![a / 2, 0, 0]
    rw [(key a).1, (key a).2] at hc
    rw [hc]
    have := h (a / 2) ⟨⟨0, one_pos, 0, Or.inl (by simp)⟩, fun i _ k => by
      fin_cases k <;> simp <;> linarith⟩ 0
    simp only at this
    rw [if_neg (by linarith), if_pos (by rw [hlen, abs_of_pos (by linarith)]; linarith)] at this
    simp [this]
  · obtain ⟨c, hc, h⟩ := C80_bead_colour (n := 1) one_pos (fun _ => ![-a / 2, 0, 0]) fun _ => ![-a / 2, 0, 0]
    rw [(key (-a)).1, (key (-a)).2] at hc
    rw [hc]
    have := h 0 ⟨⟨0, one_pos, 1, Or.inl (by simp)⟩, fun i _ k => by
      fin_cases k <;> simp <;> linarith⟩ 0
    simp only at this
    rw [if_pos le_rfl] at this
    simp [this]

/-- With no dumbbells at all the function raises; the caller asks first. -/
theorem no_dumbbells_raise (F DF : ℕ → Vec3) : dumbbellColours 0 F DF = none := rfl

/-! ## Arrows -/

/-- The arrows of the forces: one for each sphere in the slab with a force. Its length is not that of the
force times a fixed number: it is multiplied by 6 for each arrow up to this one. -/
theorem C80_force_arrows (n : ℕ) (pos f : ℕ → Vec3) :
    (plot_all_force_lines n pos f).map Arrow.sphere
      = (List.range n).filter (fun i => @decide (f i ≠ 0 ∧ InSlab (pos i)) (Classical.dec _)) ∧
    ∀ a ∈ plot_all_force_lines n pos f,
      a.foot = pos a.sphere ∧ ∀ k, a.tip k - a.foot k = 6 ^ arrowsUpTo pos f a.sphere * f a.sphere k := by
  classical
  -- the state after `m` spheres
  have key : ∀ m, ∃ l : List Arrow,
      ((List.range m).foldl
        (fun (s : (ℕ → Vec3) × List Arrow) i =>
          if s.1 i ≠ ![0, 0, 0] ∧ pos i 1 < 0.05 ∧ pos i 1 > -1 then
            let f : ℕ → Vec3 := fun j k => s.1 j k * 6
            (f, s.2 ++ [⟨i, pos i, fun k => pos i k + f i k⟩])
          else s)
        (f, []))
      = (fun j k => 6 ^ ((Finset.range m).filter fun j => f j ≠ 0 ∧ InSlab (pos j)).card * f j k, l) ∧
      l.map Arrow.sphere = (List.range m).filter (fun i => decide (f i ≠ 0 ∧ InSlab (pos i))) ∧
      ∀ a ∈ l, a.foot = pos a.sphere ∧
        ∀ k, a.tip k - a.foot k = 6 ^ arrowsUpTo pos f a.sphere * f a.sphere k := by
    intro m
    induction m with
    | zero => exact ⟨[], by simp, by simp, by simp⟩
    | succ m ih =>
      obtain ⟨l, h1, h2, h3⟩ := ih
      rw [List.range_succ, List.foldl_append, List.foldl_cons, List.foldl_nil, h1]
      have h6 : (6 : ℝ) ^ ((Finset.range m).filter fun j => f j ≠ 0 ∧ InSlab (pos j)).card ≠ 0 :=
        pow_ne_zero _ (by norm_num)
      have hz : ((fun k => (6 : ℝ) ^ ((Finset.range m).filter fun j => f j ≠ 0 ∧ InSlab (pos j)).card * f m k)
          ≠ ![0, 0, 0]) ↔ f m ≠ 0 := by
        have e0 : (![0, 0, 0] : Vec3) = 0 := by funext k; fin_cases k <;> rfl
        rw [e0, not_iff_not]
        constructor
        · intro h
          funext k
          exact (mul_eq_zero.mp (congrFun h k)).resolve_left h6
        · intro h
          funext k
          rw [h]
          simp
      have hcond : ((fun k => (6 : ℝ) ^ ((Finset.range m).filter fun j => f j ≠ 0 ∧ InSlab (pos j)).card * f m k)
          ≠ ![0, 0, 0] ∧ pos m 1 < 0.05 ∧ pos m 1 > -1) ↔ (f m ≠ 0 ∧ InSlab (pos m)) := by
        rw [hz]
        unfold InSlab
        have : (0.05 : ℝ) = 1 / 20 := by norm_num
        rw [this]
        exact and_congr_right fun _ => and_comm
      by_cases hm : f m ≠ 0 ∧ InSlab (pos m)
      · rw [if_pos (hcond.mpr hm)]
        have hcard : ((Finset.range (m + 1)).filter fun j => f j ≠ 0 ∧ InSlab (pos j)).card
            = ((Finset.range m).filter fun j => f j ≠ 0 ∧ InSlab (pos j)).card + 1 := by
          rw [Finset.range_add_one, Finset.filter_insert, if_pos hm, Finset.card_insert_of_notMem (by simp)]
        refine ⟨_, Prod.ext ?_ rfl, ?_, ?_⟩
        · funext j k
          simp only
          rw [hcard, pow_succ]
          ring
        · simp only
          rw [List.map_append, h2, List.filter_append]
          simp [hm]
        · intro a ha
          simp only at ha
          rcases List.mem_append.mp ha with ha | ha
          · exact h3 a ha
          · rw [List.mem_singleton.mp ha]
            refine ⟨rfl, fun k => ?_⟩
            simp only
            unfold arrowsUpTo
            rw [hcard, pow_succ]
            ring
      · rw [if_neg (fun h => hm (hcond.mp h))]
        have hcard : ((Finset.range (m + 1)).filter fun j => f j ≠ 0 ∧ InSlab (pos j))
            = ((Finset.range m).filter fun j => f j ≠ 0 ∧ InSlab (pos j)) := by
          rw [Finset.range_add_one, Finset.filter_insert, if_neg hm]
        refine ⟨l, ?_, ?_, h3⟩
        · rw [hcard]
        · rw [h2, List.filter_append]
          simp [hm]
  obtain ⟨l, h1, h2, h3⟩ := key n
  have : plot_all_force_lines n pos f = l := by
    unfold plot_all_force_lines
    exact congrArg Prod.snd h1
  rw [this]
  refine ⟨?_, h3⟩
  rw [h2]
  congr!

/-- Two spheres side by side with the same force: the second arrow is six times as long as the first. -/
theorem C80_arrows_differ {pos : ℕ → Vec3} {F : Vec3} (hF : F ≠ 0) (h0 : InSlab (pos 0)) (h1 : InSlab (pos 1)) :
    ∃ a b, plot_all_force_lines 2 pos (fun _ => F) = [a, b] ∧
      ∀ k, b.tip k - b.foot k = 6 * (a.tip k - a.foot k) := by
  obtain ⟨hl, hs⟩ := C80_force_arrows 2 pos fun _ => F
  have h2 : List.range 2 = [0, 1] := rfl
  rw [h2] at hl
  simp [hF, h0, h1] at hl
  obtain ⟨a, l', e1, ea, hl'⟩ := List.map_eq_cons_iff.mp hl
  obtain ⟨b, l'', e2, eb, hl''⟩ := List.map_eq_cons_iff.mp hl'
  have e3 : l'' = [] := List.map_eq_nil_iff.mp hl''
  rw [e1, e2, e3] at hs ⊢
  refine ⟨a, b, rfl, fun k => ?_⟩
  rw [(hs a (by simp)).2 k, (hs b (by simp)).2 k, ea, eb]
  classical
  have c0 : arrowsUpTo pos (fun _ => F) 0 = 1 := by
    unfold arrowsUpTo
    rw [Finset.filter_true_of_mem]
    · simp
    · intro j hj
      simp at hj
      rw [hj]
      exact ⟨hF, h0⟩
  have c1 : arrowsUpTo pos (fun _ => F) 1 = 2 := by
    unfold arrowsUpTo
    rw [Finset.filter_true_of_mem]
    · simp
    · intro j hj
      simp at hj
      interval_cases j
      · exact ⟨hF, h0⟩
      · exact ⟨hF, h1⟩
  rw [c0, c1]
  ring

example : ∃ a b, plot_all_force_lines 2 (fun i => ![3 * i, 0, 0]) (fun _ => ![0, 0, -1]) = [a, b] ∧
    ∀ k, b.tip k - b.foot k = 6 * (a.tip k - a.foot k) :=
  C80_arrows_differ (by intro h; have := congrFun h 2; simp at this)
    (by unfold InSlab; simp) (by unfold InSlab; simp)

/-- The arrows of torques, velocities and angular velocities: one for each sphere that has any, as long as
the vector. -/
theorem C80_other_arrows (n : ℕ) (pos v : ℕ → Vec3) :
    (plot_all_lines n pos v).map Arrow.sphere
      = (List.range n).filter (fun i => @decide (v i ≠ 0) (Classical.dec _)) ∧
    ∀ a ∈ plot_all_lines n pos v, a.foot = pos a.sphere ∧ ∀ k, a.tip k - a.foot k = v a.sphere k := by
  classical
  have e0 : (![0, 0, 0] : Vec3) = 0 := by funext k; fin_cases k <;> rfl
  unfold plot_all_lines
  rw [e0]
  induction n with
  | zero => simp
  | succ m ih =>
    rw [List.range_succ, List.foldl_append, List.foldl_cons, List.foldl_nil, List.filter_append]
    by_cases hm : v m ≠ 0
    · rw [if_pos hm, List.map_append, ih.1]
      refine ⟨by simp [hm], fun a ha => ?_⟩
      rcases List.mem_append.mp ha with ha | ha
      · exact ih.2 a ha
      · rw [List.mem_singleton.mp ha]
        exact ⟨rfl, fun k => by simp⟩
    · rw [if_neg hm, ih.1]
      exact ⟨by simp [hm], ih.2⟩

end SD
