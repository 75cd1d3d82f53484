import Verif.Model.Graphics
import Verif.Spec.Graphics
import Verif.Props.Motion
import Verif.Lemmas.Green
import Mathlib.Tactic.IntervalCases
import Mathlib.Tactic.Positivity

/-!
# C81: what the frames of a video show
-/

set_option autoImplicit false

namespace SD

open Spec

/-! ## Which frames -/

/-- Without a range of its own, the video shows every `every`th saved frame, as many as there are. -/
theorem C81_frames {saved every : ℕ} (he : 0 < every) :
    ∃ n, videoFrames saved every 0 0 = some n ∧
      ∀ r, (∃ k < n, realFrame every 0 k = r) ↔ (every ∣ r ∧ r + every ≤ saved) := by
  refine ⟨saved / every, by simp [videoFrames, he.ne'], fun r => ?_⟩
  unfold realFrame
  constructor
  · rintro ⟨k, hk, rfl⟩
    refine ⟨⟨k, by ring⟩, ?_⟩
    have := (Nat.le_div_iff_mul_le he).mp hk
    calc k * every + 0 + every = (k + 1) * every := by ring
      _ ≤ saved := this
  · rintro ⟨⟨k, rfl⟩, h⟩
    refine ⟨k, ?_, by ring⟩
    apply (Nat.le_div_iff_mul_le he).mpr
    calc (k + 1) * every = every * k + every := by ring
      _ ≤ saved := h

/-- Before the last frame of the video, the forces drawn are those of the positions drawn only if the video
starts at the first frame, and shows every frame or is at its first. -/
theorem C81_forces {len num every start k : ℕ} (he : 0 < every) (hk : k + 1 < num) :
    forceFrame len num k = realFrame every start k ↔ start = 0 ∧ (every = 1 ∨ k = 0) := by
  unfold forceFrame realFrame
  rw [if_neg (by omega)]
  constructor
  · intro h
    have h1 : k * 1 ≤ k * every := Nat.mul_le_mul_left k he
    refine ⟨by omega, ?_⟩
    rcases Nat.eq_zero_or_pos k with h0 | h0
    · exact Or.inr h0
    · exact Or.inl (Nat.eq_of_mul_eq_mul_left h0 (by omega))
  · rintro ⟨rfl, rfl | rfl⟩ <;> simp

/-- A video of every second frame: its second frame shows the positions of frame 2 with the forces of
frame 1. -/
example : forceFrame 10 5 1 = 1 ∧ realFrame 2 0 1 = 2 ∧ forceFrame 10 5 1 ≠ realFrame 2 0 1 :=
  ⟨rfl, rfl, fun h => by
    have := (C81_forces (len := 10) (num := 5) (every := 2) (start := 0) (k := 1) two_pos (by norm_num)).mp h
    omega⟩

section
variable (centres : ℕ → ℕ → Vec3) (marks : ℕ → ℕ → Vec3 × Vec3) (Fa : ℕ → ℕ → Vec3)
  (Ns Nd saved savedF : ℕ) (input : ℕ → Vec3 × Mat3 × Vec3 × Vec3) (num every start k : ℕ)

/-- With any dumbbells there is no video, and no picture of a frame. -/
theorem C81_dumbbells (h : 0 < Nd) :
    video_frame centres marks Fa Ns Nd saved savedF input num every start k = none ∧
      plotPositions centres Fa Ns Nd saved savedF k = none := by
  unfold video_frame plotPositions
  simp only
  rw [if_neg (by omega), if_neg (by omega)]
  exact ⟨rfl, rfl⟩

/-- A video with a later start and no end of its own fails at the last frame, if it shows every frame. -/
theorem C81_overrun (hs : 0 < start) (hd : 0 < saved) :
    ∃ n, videoFrames saved 1 start 0 = some n ∧ 0 < n ∧
      video_frame centres marks Fa Ns Nd saved savedF input n 1 start (n - 1) = none := by
  refine ⟨saved, by simp [videoFrames], hd, ?_⟩
  unfold video_frame realFrame
  simp only
  rw [if_neg (by omega)]

variable {centres marks Fa Ns Nd saved savedF input num every start k}

/-- The spheres drawn in a frame, in order. -/
def VideoFrame.drawn (f : VideoFrame) : List (Vec3 × (Vec3 × Vec3) × ℝ × Vec3) :=
  f.spheres.zip (f.marks.zip (f.radii.zip f.forces))

theorem zip_flatMap {α β γ : Type} (Xs : List γ) (f : γ → List α) (g : γ → List β)
    (h : ∀ X, (f X).length = (g X).length) :
    (Xs.flatMap f).zip (Xs.flatMap g) = Xs.flatMap fun X => (f X).zip (g X) := by
  induction Xs with
  | nil => rfl
  | cons X Xs ih => rw [List.flatMap_cons, List.flatMap_cons, List.flatMap_cons, List.zip_append (h X), ih]

/-- The video of all saved frames of an unbounded suspension of spheres: frame `k` shows every sphere at its
saved place with its saved marks and the saved force of that frame. Its radius is 1 whatever it was in the
simulation. The last frame, for which no force is saved, has the forces of the one before. -/
theorem C81_unbounded (hbox : ∀ r, (input r).2.2.1 = (input r).2.2.2) (h0 : 0 < savedF) (hk : k ≤ savedF) :
    ∃ f, video_frame centres marks Fa Ns 0 (savedF + 1) savedF input (savedF + 1) 1 0 k = some f ∧
      f.drawn = (List.range Ns).map fun i =>
        (centres k i, marks k i, 1, Fa (if k = savedF then k - 1 else k) i) := by
  have hr : realFrame 1 0 k = k := by simp [realFrame]
  have hf : forceFrame savedF (savedF + 1) k = if k = savedF then k - 1 else k := by
    unfold forceFrame
    by_cases h : k = savedF
    · rw [if_pos (by omega), if_pos h, if_neg (by omega)]
    · rw [if_neg (by omega), if_neg h]
  have hlt : (if k = savedF then k - 1 else k) < savedF := by split <;> omega
  unfold video_frame
  simp only [hr, hf]
  rw [if_pos ⟨by omega, hlt, trivial⟩]
  rcases hin : input k with ⟨Ot, Et, bl, tr⟩
  have hb := hbox k
  rw [hin] at hb
  simp only at hb
  have hz : ¬ norm3 (fun i => tr i - bl i) > 0 := by
    rw [hb]
    simp [norm3]
  simp only [if_neg hz]
  refine ⟨_, rfl, ?_⟩
  unfold VideoFrame.drawn
  simp only [List.zip_map']

/-- In a periodic box the same, for every copy shown: copies of a sphere have its force. -/
theorem C81_periodic {Ot bl tr : Vec3} {Et : Mat3} (hin : input k = (Ot, Et, bl, tr)) (hL : ∀ i, bl i < tr i)
    (h0 : 0 < savedF) (hk : k ≤ savedF) :
    ∃ f, video_frame centres marks Fa Ns 0 (savedF + 1) savedF input (savedF + 1) 1 0 k = some f ∧
      f.drawn = (videoImages bl tr Ot Et).flatMap fun X => (List.range Ns).map fun i =>
        (fun j => centres k i j + X j, (fun j => (marks k i).1 j + X j, fun j => (marks k i).2 j + X j), 1,
          Fa (if k = savedF then k - 1 else k) i) := by
  have hr : realFrame 1 0 k = k := by simp [realFrame]
  have hf : forceFrame savedF (savedF + 1) k = if k = savedF then k - 1 else k := by
    unfold forceFrame
    by_cases h : k = savedF
    · rw [if_pos (by omega), if_pos h, if_neg (by omega)]
    · rw [if_neg (by omega), if_neg h]
  have hlt : (if k = savedF then k - 1 else k) < savedF := by split <;> omega
  have hz : norm3 (fun i => tr i - bl i) > 0 := by
    apply Real.sqrt_pos.mpr
    have := hL 0
    have : 0 < (tr 0 - bl 0) ^ 2 := by apply pow_pos; linarith
    positivity
  have hv : ¬ ∃ i, tr i - bl i = 0 := by
    rintro ⟨i, hi⟩
    have := hL i
    linarith
  unfold video_frame
  simp only [hr, hf]
  rw [if_pos ⟨by omega, hlt, trivial⟩, hin]
  simp only [if_pos hz]
  unfold videoCorners
  rw [if_neg hv]
  refine ⟨_, rfl, ?_⟩
  unfold VideoFrame.drawn overImages
  simp only [List.map_map]
  rw [zip_flatMap _ _ _ (by simp), zip_flatMap _ _ _ (by simp), zip_flatMap _ _ _ (by simp)]
  congr 1
  funext X
  simp only [List.zip_map']
  rfl

end

/-! ## The images and the box -/

section
variable {bl tr Ot : Vec3} {Et B : Mat3} (hL : ∀ i, bl i < tr i)
  (hB : FoldedBox (fun i => tr i - bl i) Ot Et B)
include hL hB

theorem videoBasis_eq : videoBasis bl tr Ot Et = B := by
  unfold videoBasis
  exact folded_unique (shear_basis_folded fun i => by linarith [hL i]) hB

/-- The copies shown are in the plane of `x` and `z`: those by one box vector or none along each of the two,
as far as they are nearer than 1.4142 times the cube root of the volume. -/
theorem C81_images (X : Vec3) : X ∈ videoImages bl tr Ot Et ↔
    ∃ l n : ℤ, |l| ≤ 1 ∧ |n| ≤ 1 ∧ X = combine B ![(l : ℝ), 0, (n : ℝ)] ∧
      len X ≤ 1.4142 * ((tr 0 - bl 0) * (tr 1 - bl 1) * (tr 2 - bl 2)) ^ ((1 : ℝ) / 3) := by
  have hg : ∀ l m n : ℤ, Ewald.gridVec B ![l, m, n] = combine B ![(l : ℝ), m, n] := by
    intro l m n
    funext k
    unfold Ewald.gridVec vecMat3 combine
    rw [Fin.sum_univ_three]
    rfl
  unfold videoImages
  simp only [videoBasis_eq hL hB, List.mem_filter, decide_eq_true_eq, mul_one, videoGridpoints,
    List.mem_map, List.mem_flatMap, List.mem_cons, List.not_mem_nil, or_false]
  constructor
  · rintro ⟨⟨g, ⟨l, hl, m, rfl, n, hn, rfl⟩, rfl⟩, hX⟩
    refine ⟨l, n, ?_, ?_, ?_, ?_⟩
    · rcases hl with rfl | rfl | rfl <;> norm_num
    · rcases hn with rfl | rfl | rfl <;> norm_num
    · rw [hg]; norm_num
    · rw [← norm3_eq_len]; exact hX
  · rintro ⟨l, n, hl, hn, rfl, hX⟩
    refine ⟨⟨![l, 0, n], ⟨l, ?_, 0, rfl, n, ?_, rfl⟩, ?_⟩, ?_⟩
    · rw [abs_le] at hl; omega
    · rw [abs_le] at hn; omega
    · rw [hg]; norm_num
    · rw [norm3_eq_len]; exact hX

/-- The box itself is always shown. -/
theorem C81_itself : (fun _ => 0) ∈ videoImages bl tr Ot Et := by
  rw [C81_images hL hB]
  refine ⟨0, 0, by norm_num, by norm_num, ?_, ?_⟩
  · funext k; simp [combine]
  · have : len (fun _ => 0) = 0 := by simp [len]
    rw [this]
    have : 0 ≤ (tr 0 - bl 0) * (tr 1 - bl 1) * (tr 2 - bl 2) := by
      have h0 := hL 0; have h1 := hL 1; have h2 := hL 2
      apply mul_nonneg (mul_nonneg _ _) <;> linarith
    positivity

/-- The place where corner `c` of the red box is put: the coordinates of the corner are combined with the
columns of the box vectors, instead of the rows. -/
theorem corners_drawn : ∃ d, videoCorners bl tr Ot Et = some d ∧ ∀ c k,
    d c k = combine (fun i j => B j i)
      (fun i => ![![bl 0, 0, bl 2], ![bl 0, 0, tr 2], ![tr 0, 0, tr 2], ![tr 0, 0, bl 2]] c i / (tr i - bl i)) k := by
  unfold videoCorners
  rw [if_neg]
  · refine ⟨_, rfl, fun c k => ?_⟩
    rw [videoBasis_eq hL hB]
    unfold matVec3 combine
    rw [Fin.sum_univ_three]
    ring
  · rintro ⟨i, hi⟩
    have := hL i
    linarith

/-- In simple shear along `x` growing along `z`, the red box is the cell of the suspension only while the
offset of the box is a whole number of boxes: else its top and bottom are drawn slanting, and its sides
upright, when it is the other way round. -/
theorem C81_box {g : ℝ} (hs : IsShear Ot Et 0 2 g) : ∃ d, videoCorners bl tr Ot Et = some d ∧
    ((∀ c, d c = combine B
      (fun i => ![![bl 0, 0, bl 2], ![bl 0, 0, tr 2], ![tr 0, 0, tr 2], ![tr 0, 0, bl 2]] c i / (tr i - bl i)))
        ↔ ∃ m : ℤ, g * (tr 2 - bl 2) = m * (tr 0 - bl 0)) ∧
    d 1 0 = d 0 0 ∧ d 2 0 = d 3 0 ∧
    d 3 2 - d 0 2 = npMod (g * (tr 2 - bl 2)) (tr 0 - bl 0) := by
  obtain ⟨d, hd, h⟩ := corners_drawn hL hB
  have hL' : ∀ i, 0 < (fun i => tr i - bl i) i := fun i => by simp only; linarith [hL i]
  have hf := folded_shear hL' hs hB
  have p0 : tr 0 - bl 0 ≠ 0 := (hL' 0).ne'
  have p2 : tr 2 - bl 2 ≠ 0 := (hL' 2).ne'
  generalize hS : npMod (g * (tr 2 - bl 2)) (tr 0 - bl 0) = S at hf
  refine ⟨d, hd, ?_, ?_, ?_, ?_⟩
  · have hm : (∃ m : ℤ, g * (tr 2 - bl 2) = m * (tr 0 - bl 0)) ↔ S = 0 := by
      rw [← hS]
      unfold npMod
      constructor
      · rintro ⟨m, hm⟩
        rw [hm, mul_div_cancel_right₀ _ p0]
        simp
        ring
      · intro h
        exact ⟨⌊g * (tr 2 - bl 2) / (tr 0 - bl 0)⌋, by linarith⟩
    rw [hm]
    constructor
    · intro hc
      have e0 := congrFun (hc 0) 0
      have e2 := congrFun (hc 1) 0
      rw [h] at e0 e2
      simp [combine, hf] at e0 e2
      have : S * (tr 2 - bl 2) / (tr 2 - bl 2) = 0 := by
        rcases e0 with e | e
        · rcases e2 with e' | e'
          · exfalso
            rcases e with e | e <;> rcases e' with e' | e' <;> first | exact p2 (by linarith) | exact absurd e p2 | exact absurd e' p2
          · rw [e']; simp
        · rw [e]; simp
      rwa [mul_div_cancel_right₀ _ p2] at this
    · intro h0 c
      funext k
      rw [h]
      unfold combine
      simp only [hf, h0]
      fin_cases k <;> simp
  · rw [h, h]; simp [combine, hf]
  · rw [h, h]; simp [combine, hf]
  · rw [h, h]; simp [combine, hf]
    field_simp

end

/-- A unit shear of a box twice as wide as it is high: the box is offset by half its width, and drawn
wrongly. -/
example : ∃ d, videoCorners ![0, 0, 0] ![2, 1, 1] ![0, 1 / 2, 0] ![![0, 0, 1 / 2], ![0, 0, 0], ![1 / 2, 0, 0]] = some d ∧
    d 3 2 - d 0 2 = 1 := by
  have hL : ∀ i : Fin 3, (![0, 0, 0] : Vec3) i < (![2, 1, 1] : Vec3) i := by intro i; fin_cases i <;> simp
  have hs : IsShear ![0, 1 / 2, 0] ![![0, 0, 1 / 2], ![0, 0, 0], ![1 / 2, 0, 0]] 0 2 1 := by
    intro x k
    fin_cases k <;> simp [cross, app, dotp] <;> ring
  obtain ⟨B, hB, -⟩ := C30_folded_box (L := fun i => (![2, 1, 1] : Vec3) i - (![0, 0, 0] : Vec3) i)
    (fun i => by linarith [hL i]) ![0, 1 / 2, 0] ![![0, 0, 1 / 2], ![0, 0, 0], ![1 / 2, 0, 0]]
  obtain ⟨d, hd, -, -, -, h⟩ := C81_box hL hB hs
  refine ⟨d, hd, ?_⟩
  rw [h]
  have : ⌊(1 : ℝ) / 2⌋ = 0 := by norm_num
  simp [npMod]
  norm_num

/-- In a cube at rest the red box is right, and the copies shown are the four next to it; those at its
corners are left out. -/
theorem C81_cube {bl tr : Vec3} {s : ℝ} (hs : 0 < s) (hc : ∀ i, tr i - bl i = s) (X : Vec3) :
    X ∈ videoImages bl tr (fun _ => 0) (fun _ _ => 0) ↔
      X = ![0, 0, 0] ∨ X = ![s, 0, 0] ∨ X = ![-s, 0, 0] ∨ X = ![0, 0, s] ∨ X = ![0, 0, -s] := by
  have hL : ∀ i, bl i < tr i := fun i => by linarith [hc i]
  have hL' : ∀ i, 0 < (fun i => tr i - bl i) i := fun i => by simp only; linarith [hL i]
  have hsh : IsShear (fun _ => 0) (fun _ _ => 0) 0 2 0 := by
    intro x k
    fin_cases k <;> simp [cross, app, dotp]
  obtain ⟨B, hB, -⟩ := C30_folded_box hL' (fun _ => 0) fun _ _ => 0
  have hf := folded_shear hL' hsh hB
  have hz : npMod (0 * (tr 2 - bl 2)) (tr 0 - bl 0) = 0 := by simp [npMod]
  simp only [hc] at hf
  rw [hc, hc] at hz
  simp only [hz] at hf
  rw [C81_images hL hB]
  have hv : ((tr 0 - bl 0) * (tr 1 - bl 1) * (tr 2 - bl 2)) ^ ((1 : ℝ) / 3) = s := by
    rw [hc, hc, hc, show s * s * s = s ^ (3 : ℕ) by ring, ← Real.rpow_natCast, ← Real.rpow_mul hs.le]
    norm_num
  rw [hv]
  have hcomb : ∀ l n : ℝ, combine B ![l, 0, n] = ![l * s, 0, n * s] := by
    intro l n
    funext k
    unfold combine
    simp only [hf]
    fin_cases k <;> simp
  have hlen : ∀ l n : ℝ, len ![l * s, 0, n * s] ≤ 1.4142 * s ↔ l ^ 2 + n ^ 2 ≤ 1.4142 ^ 2 := by
    intro l n
    unfold len
    rw [Fin.sum_univ_three, Real.sqrt_le_left (by positivity)]
    simp only [Matrix.cons_val_zero, Matrix.cons_val_one, Matrix.cons_val]
    rw [show (l * s) ^ 2 + 0 ^ 2 + (n * s) ^ 2 = (l ^ 2 + n ^ 2) * s ^ 2 by ring, mul_pow]
    exact mul_le_mul_iff_left₀ (by positivity)
  constructor
  · rintro ⟨l, n, hl, hn, rfl, hX⟩
    rw [hcomb, hlen] at hX
    rw [hcomb]
    rw [abs_le] at hl hn
    obtain ⟨l1, l2⟩ := hl
    obtain ⟨n1, n2⟩ := hn
    interval_cases l <;> interval_cases n <;> first | (exfalso; norm_num at hX; done) | simp
  · have key : ∀ l n : ℤ, |l| + |n| ≤ 1 → X = ![(l : ℝ) * s, 0, n * s] →
        ∃ l n : ℤ, |l| ≤ 1 ∧ |n| ≤ 1 ∧ X = combine B ![(l : ℝ), 0, (n : ℝ)] ∧ len X ≤ 1.4142 * s := by
      intro l n h hX
      refine ⟨l, n, by linarith [abs_nonneg n], by linarith [abs_nonneg l], by rw [hcomb, hX], ?_⟩
      rw [hX, hlen]
      have h1 : l ^ 2 + n ^ 2 ≤ 1 := by
        have a := abs_nonneg l
        have b := abs_nonneg n
        have : l ^ 2 = |l| ^ 2 := (sq_abs l).symm
        have : n ^ 2 = |n| ^ 2 := (sq_abs n).symm
        nlinarith
      have : ((l : ℝ) ^ 2 + (n : ℝ) ^ 2) ≤ 1 := by exact_mod_cast h1
      norm_num
      linarith
    rintro (h | h | h | h | h)
    · exact key 0 0 (by norm_num) (by rw [h]; simp)
    · exact key 1 0 (by norm_num) (by rw [h]; simp)
    · exact key (-1) 0 (by norm_num) (by rw [h]; simp)
    · exact key 0 1 (by norm_num) (by rw [h]; simp)
    · exact key 0 (-1) (by norm_num) (by rw [h]; simp)

/-- Three saved frames of two spheres, in a cube: the last shows the copy of the second sphere in the box on
the right. -/
example : ∃ f, video_frame (fun k i => ![k, 3 * i, 0]) (fun k i => (![k, 3 * i, 1], ![k + 1, 3 * i, 0]))
    (fun _ _ => ![0, 0, 1]) 2 0 3 2 (fun _ => (fun _ => 0, fun _ _ => 0, ![0, 0, 0], ![9, 9, 9])) 3 1 0 2 = some f ∧
    ∃ m, (![11, 3, 0], m) ∈ f.drawn := by
  obtain ⟨f, hf, hd⟩ := C81_periodic (centres := fun k i => ![k, 3 * i, 0])
    (marks := fun k i => (![k, 3 * i, 1], ![k + 1, 3 * i, 0])) (Fa := fun _ _ => ![0, 0, 1]) (Ns := 2) (savedF := 2)
    (input := fun _ => (fun _ => 0, fun _ _ => 0, ![0, 0, 0], ![9, 9, 9])) (k := 2) rfl
    (by intro i; fin_cases i <;> simp) two_pos le_rfl
  refine ⟨f, hf, ((fun j => ![(2 : ℝ), 3, 1] j + ![9, 0, 0] j, fun j => ![(3 : ℝ), 3, 0] j + ![9, 0, 0] j), 1,
    ![0, 0, 1]), ?_⟩
  rw [hd]
  refine List.mem_flatMap.mpr ⟨![9, 0, 0], ?_, ?_⟩
  · exact (C81_cube (s := 9) (by norm_num) (by intro i; fin_cases i <;> simp) _).mpr (Or.inr (Or.inl rfl))
  · refine List.mem_map.mpr ⟨1, by simp, ?_⟩
    refine Prod.ext ?_ (Prod.ext (Prod.ext ?_ ?_) rfl) <;> funext j <;> fin_cases j <;> simp <;> norm_num

end SD
