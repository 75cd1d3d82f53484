import Verif.Lemmas.EwaldScale
import Verif.Lemmas.EwaldOpen

/-!
# The periodic far field in a large box
-/

set_option autoImplicit false

namespace SD.Ewald

open Spec Filter Topology

/-! ## Change of the unit of length -/

/-- How many derivatives a load takes. -/
def deg : Load → ℕ
  | .force _ => 0
  | .torque _ => 1
  | .stress _ _ => 1

theorem respVal_scale (L c : ℝ) {G0 G0' : Fin 3 → Fin 3 → ℝ} {G1 G1' : Fin 3 → Fin 3 → Fin 3 → ℝ}
    {G2 G2' : Fin 3 → Fin 3 → Fin 3 → Fin 3 → ℝ} (h0 : ∀ i j, G0 i j = c * G0' i j)
    (h1 : ∀ i j l, G1 i j l = c / L * G1' i j l) (h2 : ∀ i j m l, G2 i j m l = c / L ^ 2 * G2' i j m l)
    (l1 l2 : Load) :
    respVal G0 G1 G2 l1 l2 = c / L ^ (deg l1 + deg l2) * respVal G0' G1' G2' l1 l2 := by
  cases l1 <;> cases l2 <;> simp only [respVal, deg, h0, h1, h2, Fin.sum_univ_three] <;> ring

/-- `g` is `g'` in another unit of length. -/
def Sc (L c : ℝ) (g g' : ℕ → ℝ → ℝ) : Prop := ∀ n s, g n (L * s) = c / L ^ (2 * n) * g' n s

theorem Sc.bump {L c : ℝ} (hL : L ≠ 0) {g g' : ℕ → ℝ → ℝ} (h : Sc L c g g') (a : ℝ) :
    Sc L (c / L ^ 2) (bump a g) (bump a g') := by
  intro n s
  simp only [Ewald.bump, h _ _]
  rw [show 2 * (n + 1) = 2 * n + 2 by ring, show 2 * (n + 2) = 2 * n + 4 by ring, pow_add, pow_add]
  field_simp

theorem Sc.pOf {L c : ℝ} (hL : L ≠ 0) {g g' : ℕ → ℝ → ℝ} (h : Sc L c g g') :
    Sc L (c / L ^ 2) (pOf g) (pOf g') := h.bump hL 2

theorem Sc.qOf {L c : ℝ} (hL : L ≠ 0) {g g' : ℕ → ℝ → ℝ} (h : Sc L c g g') :
    Sc L (c / L ^ 4) (qOf g) (qOf g') := by
  intro n s
  simp only [Ewald.qOf, h _ _]
  rw [show 2 * (n + 2) = 2 * n + 4 by ring, pow_add]
  field_simp

theorem Sc.lapP {L c : ℝ} (hL : L ≠ 0) {p p' q q' : ℕ → ℝ → ℝ} (hp : Sc L c p p') (hq : Sc L (c / L ^ 2) q q') :
    Sc L (c / L ^ 2) (lapP p q) (lapP p' q') := by
  intro n s
  simp only [Ewald.lapP, hp.bump hL 3 n s, hq n s]
  ring

theorem tensor_scale {L c : ℝ} (hL : 0 < L) {p p' q q' : ℕ → ℝ → ℝ} (hp : Sc L c p p') (hq : Sc L (c / L ^ 2) q q')
    (y : Vec3) (l1 l2 : Load) :
    respVal (fun i j => T0 p q i j fun m => L * y m) (fun i j l => T1 p q i j l fun m => L * y m)
      (fun i j m l => T2 p q i j m l fun m => L * y m) l1 l2
    = c / L ^ (deg l1 + deg l2) * respVal (fun i j => T0 p' q' i j y) (fun i j l => T1 p' q' i j l y)
      (fun i j m l => T2 p' q' i j m l y) l1 l2 := by
  have hl : len (fun m => L * y m) = L * len y := len_smul hL.le y
  refine respVal_scale L c (fun i j => ?_) (fun i j l => ?_) (fun i j m l => ?_) l1 l2
  · simp only [T0, hl, hp _ _, hq _ _]
    field_simp
    try ring
  · simp only [T1, hl, hp _ _, hq _ _]
    field_simp
    try ring
  · simp only [T2, hl, hp _ _, hq _ _]
    field_simp
    try ring

theorem chain_scale {L : ℝ} (hL : 0 < L) {g g' : ℕ → ℝ → ℝ} (h : Sc L L g g') (a b : ℝ) (l1 l2 : Load) (y : Vec3) :
    chainResp g a b l1 l2 (fun m => L * y m)
      = 1 / L ^ (1 + deg l1 + deg l2) * chainResp g' (a / L) (b / L) l1 l2 y := by
  have hL' := hL.ne'
  have hp := h.pOf hL'
  have hq : Sc L (L / L ^ 2 / L ^ 2) (qOf g) (qOf g') := by
    have := h.qOf hL'
    rwa [show L / L ^ 4 = L / L ^ 2 / L ^ 2 by field_simp] at this
  have hP := hp.lapP hL' hq
  have hQ : Sc L (L / L ^ 2 / L ^ 2 / L ^ 2) (lapQ (qOf g)) (lapQ (qOf g')) := hq.bump hL' 7
  unfold chainResp
  rw [tensor_scale hL hp hq, tensor_scale hL hP hQ]
  rw [show 1 + deg l1 + deg l2 = 1 + (deg l1 + deg l2) by ring]
  generalize deg l1 + deg l2 = n
  rw [pow_add, pow_one]
  field_simp

theorem waveJ_scale {L : ℝ} (hL : 0 < L) (lamb : ℝ) (i j : Fin 3) (k : Vec3) :
    waveJ (lamb / L) i j (fun m => k m / L) = L ^ 2 * waveJ lamb i j k := by
  have hl : len (fun m => k m / L) = len k / L := by
    have := len_smul (inv_nonneg.mpr hL.le) k
    rw [div_eq_inv_mul, ← this]
    congr 1
    funext m
    rw [div_eq_inv_mul]
  unfold waveJ
  rw [hl]
  have e1 : (len k / L) ^ 2 / (4 * (lamb / L) ^ 2) = len k ^ 2 / (4 * lamb ^ 2) := by
    rw [div_pow, div_pow, ← mul_div_assoc, div_div_div_cancel_right₀ (by positivity)]
  have e2 : (len k / L) ^ 4 / (8 * (lamb / L) ^ 4) = len k ^ 4 / (8 * lamb ^ 4) := by
    rw [div_pow, div_pow, ← mul_div_assoc, div_div_div_cancel_right₀ (by positivity)]
  have e3 : k i / L * (k j / L) / (len k / L) ^ 2 = k i * k j / len k ^ 2 := by
    rw [div_pow, div_mul_div_comm, ← pow_two, div_div_div_cancel_right₀ (by positivity)]
  have e4 : 8 * Real.pi / (len k / L) ^ 2 = L ^ 2 * (8 * Real.pi / len k ^ 2) := by
    rw [div_pow, div_div_eq_mul_div]; ring
  rw [e1, e2, e3, e4]
  ring

theorem waveResp_scale {L : ℝ} (hL : 0 < L) (lamb a b : ℝ) (l1 l2 : Load) (r k : Vec3) :
    waveResp (lamb / L) a b l1 l2 (fun m => L * r m) (fun m => k m / L)
      = L ^ 2 / L ^ (deg l1 + deg l2) * waveResp lamb (a / L) (b / L) l1 l2 r k := by
  have hi : inner3 (fun m => k m / L) (fun m => L * r m) = inner3 k r := by
    unfold inner3
    refine Finset.sum_congr rfl fun m _ => ?_
    field_simp
  have hl : len (fun m => k m / L) = len k / L := by
    have := len_smul (inv_nonneg.mpr hL.le) k
    rw [div_eq_inv_mul, ← this]
    congr 1
    funext m
    rw [div_eq_inv_mul]
  have h1 := respVal_scale L (L ^ 2)
    (G0 := fun i j => Real.cos (inner3 k r) * waveJ (lamb / L) i j fun m => k m / L)
    (G1 := fun i j l => -(k l / L * Real.sin (inner3 k r) * waveJ (lamb / L) i j fun m => k m / L))
    (G2 := fun i j m l => -(k m / L * (k l / L) * (Real.cos (inner3 k r) * waveJ (lamb / L) i j fun m => k m / L)))
    (G0' := fun i j => Real.cos (inner3 k r) * waveJ lamb i j k)
    (G1' := fun i j l => -(k l * Real.sin (inner3 k r) * waveJ lamb i j k))
    (G2' := fun i j m l => -(k m * k l * (Real.cos (inner3 k r) * waveJ lamb i j k)))
    (fun i j => by rw [waveJ_scale hL]; ring) (fun i j l => by rw [waveJ_scale hL]; field_simp)
    (fun i j m l => by rw [waveJ_scale hL]; field_simp) l1 l2
  have h2 := respVal_scale L 1
    (G0 := fun i j => -((len k / L) ^ 2 * (Real.cos (inner3 k r) * waveJ (lamb / L) i j fun m => k m / L)))
    (G1 := fun i j l => (len k / L) ^ 2 * (k l / L * Real.sin (inner3 k r) * waveJ (lamb / L) i j fun m => k m / L))
    (G2 := fun i j m l => (len k / L) ^ 2
      * (k m / L * (k l / L) * (Real.cos (inner3 k r) * waveJ (lamb / L) i j fun m => k m / L)))
    (G0' := fun i j => -(len k ^ 2 * (Real.cos (inner3 k r) * waveJ lamb i j k)))
    (G1' := fun i j l => len k ^ 2 * (k l * Real.sin (inner3 k r) * waveJ lamb i j k))
    (G2' := fun i j m l => len k ^ 2 * (k m * k l * (Real.cos (inner3 k r) * waveJ lamb i j k)))
    (fun i j => by rw [waveJ_scale hL]; field_simp) (fun i j l => by rw [waveJ_scale hL]; field_simp)
    (fun i j m l => by rw [waveJ_scale hL]; field_simp) l1 l2
  simp only [waveResp, hi, hl]
  rw [h1, h2]
  generalize deg l1 + deg l2 = n
  generalize respVal _ _ _ l1 l2 = A
  generalize respVal _ _ _ l1 l2 = B
  field_simp

/-! ## What a box adds to open space -/

/-- What images and waves add at displacement `r`. -/
noncomputable def slack (lamb V : ℝ) (X K : List Vec3) (a b : ℝ) (l1 l2 : Load) (r : Vec3) : ℝ :=
  (X.map fun x => nearResp lamb a b l1 l2 fun m => r m + x m).sum
    + 1 / V * (K.map fun k => waveResp lamb a b l1 l2 r k).sum - chainResp (smoothChain lamb) a b l1 l2 r

theorem slack_zero (lamb V : ℝ) (X K : List Vec3) (a b : ℝ) (l1 l2 : Load) :
    slack lamb V X K a b l1 l2 0 = rest lamb V X K a b l1 l2 := by
  unfold slack rest
  simp only [Pi.zero_apply, zero_add]

/-- The response through the lattice `X`, `K` in the unit of length `L`. -/
theorem box_response_scaled {L : ℝ} (hL : 0 < L) (lamb V : ℝ) {X X' : List Vec3} (hX : X.Perm (0 :: X')) (K : List Vec3)
    (a b : ℝ) (l1 l2 : Load) {r : Vec3} (hr : r ∈ Clear (X.map fun x m => L * x m)) :
    greenResponse (boxJ (lamb / L) (L ^ 3 * V) (X.map fun x m => L * x m) (K.map fun k m => k m / L)) a b l1 l2 r
      = response a b l1 l2 r
        + 1 / L ^ (1 + deg l1 + deg l2) * slack lamb V X' K (a / L) (b / L) l1 l2 fun m => r m / L := by
  have h0 : r ≠ 0 := by
    have := hr (fun m => L * (0 : Vec3) m) (List.mem_map.mpr ⟨0, hX.mem_iff.mpr (by simp), rfl⟩)
    simpa using this
  rw [boxJ_response _ _ _ _ _ _ _ _ hr, ← greenResponse_oseen a b l1 l2 h0, oseen_response a b l1 l2 h0,
    ((hX.map _).map _).sum_eq, List.map_cons, List.map_cons, List.sum_cons, List.map_map, List.map_map]
  have e : r = fun m => L * (r m / L) := by funext m; field_simp
  have e0 : (fun m => r m + L * (0 : Vec3) m) = r := by simp
  have e1 : ∀ x : Vec3, (fun m => r m + L * x m) = fun m => L * (r m / L + x m) := by
    intro x; funext m; field_simp
  rw [e0, nearResp_chain, scr_response]
  simp only [Function.comp_def]
  have n1 : ∀ x : Vec3, nearResp (lamb / L) a b l1 l2 (fun m => r m + L * x m)
      = 1 / L ^ (1 + deg l1 + deg l2) * nearResp lamb (a / L) (b / L) l1 l2 fun m => r m / L + x m := by
    intro x
    rw [e1, nearResp_chain, nearResp_chain]
    exact chain_scale hL (scr_scale hL lamb) a b l1 l2 fun m => r m / L + x m
  have n2 : ∀ k : Vec3, waveResp (lamb / L) a b l1 l2 r (fun m => k m / L)
      = L ^ 2 / L ^ (deg l1 + deg l2) * waveResp lamb (a / L) (b / L) l1 l2 (fun m => r m / L) k := by
    intro k
    have := waveResp_scale hL lamb a b l1 l2 (fun m => r m / L) k
    rwa [← e] at this
  have n3 : chainResp (smoothChain (lamb / L)) a b l1 l2 r
      = 1 / L ^ (1 + deg l1 + deg l2) * chainResp (smoothChain lamb) (a / L) (b / L) l1 l2 fun m => r m / L := by
    have := chain_scale hL (smoothChain_scale hL lamb) a b l1 l2 fun m => r m / L
    rwa [← e] at this
  simp only [n1, n2, n3, List.sum_map_mul_left]
  unfold slack
  have e2 : 1 / (L ^ 3 * V) * (L ^ 2 / L ^ (deg l1 + deg l2)) = 1 / L ^ (1 + deg l1 + deg l2) * (1 / V) := by
    rw [show 1 + deg l1 + deg l2 = 1 + (deg l1 + deg l2) by ring]
    generalize deg l1 + deg l2 = n
    rw [pow_add, pow_one]
    field_simp
  rw [← mul_assoc, e2]
  ring

/-- The same for the sum over images alone. -/
theorem image_response_scaled {L : ℝ} (hL : 0 < L) (lamb : ℝ) {X X' : List Vec3} (hX : X.Perm (0 :: X'))
    (a b : ℝ) (l1 l2 : Load) {r : Vec3} (hr : r ∈ Clear (X.map fun x m => L * x m)) :
    greenResponse (imageSum (lamb / L) (X.map fun x m => L * x m)) a b l1 l2 r
      = response a b l1 l2 r
        + 1 / L ^ (1 + deg l1 + deg l2) * slack lamb 1 X' [] (a / L) (b / L) l1 l2 fun m => r m / L := by
  rw [← box_response_scaled hL lamb 1 hX [] a b l1 l2 hr, boxJ_response _ _ _ _ _ _ _ _ hr,
    imageSum_response _ _ _ _ _ _ hr]
  simp

/-! ## Limits -/

theorem list_tendsto' {α β : Type} {F : Filter β} {f : α → β → ℝ} {d : α → ℝ} (X : List α)
    (h : ∀ x ∈ X, Tendsto (f x) F (𝓝 (d x))) :
    Tendsto (fun r => (X.map fun x => f x r).sum) F (𝓝 (X.map d).sum) := by
  induction X with
  | nil => simpa using tendsto_const_nhds
  | cons x X ih =>
    simp only [List.map_cons, List.sum_cons]
    exact (h x (by simp)).add (ih fun y hy => h y (by simp [hy]))

/-- Functions quadratic in the radii. -/
theorem quad_tendsto {f : ℝ → ℝ → Vec3 → ℝ}
    (hq : ∀ a b y, f a b y = f 0 0 y + a ^ 2 * (f 1 0 y - f 0 0 y) + b ^ 2 * (f 0 1 y - f 0 0 y)) {y : Vec3}
    (ht : ∀ a b, Tendsto (f a b) (𝓝 y) (𝓝 (f a b y))) {α : Type} {F : Filter α} {u v : α → ℝ} {w : α → Vec3}
    (hu : Tendsto u F (𝓝 0)) (hv : Tendsto v F (𝓝 0)) (hw : Tendsto w F (𝓝 y)) :
    Tendsto (fun z => f (u z) (v z) (w z)) F (𝓝 (f 0 0 y)) := by
  have h := (((ht 0 0).comp hw).add ((hu.pow 2).mul (((ht 1 0).comp hw).sub ((ht 0 0).comp hw)))).add
    ((hv.pow 2).mul (((ht 0 1).comp hw).sub ((ht 0 0).comp hw)))
  simp only [Function.comp_def, ne_eq, OfNat.ofNat_ne_zero, not_false_eq_true, zero_pow, zero_mul, add_zero] at h
  refine h.congr fun z => ?_
  rw [hq (u z) (v z) (w z)]

theorem chain_quad (g : ℕ → ℝ → ℝ) (l1 l2 : Load) (a b : ℝ) (y : Vec3) :
    chainResp g a b l1 l2 y = chainResp g 0 0 l1 l2 y + a ^ 2 * (chainResp g 1 0 l1 l2 y - chainResp g 0 0 l1 l2 y)
      + b ^ 2 * (chainResp g 0 1 l1 l2 y - chainResp g 0 0 l1 l2 y) := by
  simp only [chainResp]; ring

theorem slack_tendsto (lamb V : ℝ) {X : List Vec3} (hX : ∀ x ∈ X, x ≠ 0) (K : List Vec3) (l1 l2 : Load)
    {α : Type} {F : Filter α} {u v : α → ℝ} {w : α → Vec3} (hu : Tendsto u F (𝓝 0)) (hv : Tendsto v F (𝓝 0))
    (hw : Tendsto w F (𝓝 0)) :
    Tendsto (fun z => slack lamb V X K (u z) (v z) l1 l2 (w z)) F (𝓝 (rest lamb V X K 0 0 l1 l2)) := by
  refine ((list_tendsto' X fun x hx => ?_).add (Tendsto.const_mul _ (list_tendsto' K fun k _ => ?_))).sub ?_
  · refine quad_tendsto (f := fun a b y => nearResp lamb a b l1 l2 y) (fun a b y => chain_quad _ l1 l2 a b y)
      (fun a b => nearResp_tendsto lamb a b l1 l2 (hX x hx)) hu hv ?_
    have := hw.add_const x
    rwa [zero_add] at this
  · exact quad_tendsto (f := fun a b y => waveResp lamb a b l1 l2 y k)
      (fun a b y => by simp only [waveResp]; ring) (fun a b => waveResp_tendsto lamb a b l1 l2 k 0) hu hv hw
  · exact quad_tendsto (f := fun a b y => chainResp (smoothChain lamb) a b l1 l2 y)
      (fun a b y => chain_quad _ l1 l2 a b y) (fun a b => smooth_tendsto lamb a b l1 l2 0) hu hv hw

theorem div_tendsto_zero (a : ℝ) : Tendsto (fun L : ℝ => a / L) atTop (𝓝 0) :=
  tendsto_const_nhds.div_atTop tendsto_id

theorem vec_div_tendsto_zero (r : Vec3) : Tendsto (fun (L : ℝ) m => r m / L) atTop (𝓝 (0 : Vec3)) :=
  tendsto_pi_nhds.mpr fun m => div_tendsto_zero (r m)

/-- A box adds less and less. -/
theorem added_tendsto (lamb V : ℝ) {X : List Vec3} (hX : ∀ x ∈ X, x ≠ 0) (K : List Vec3) (a b : ℝ) (l1 l2 : Load)
    (r : Vec3) :
    Tendsto (fun L : ℝ => 1 / L ^ (1 + deg l1 + deg l2) * slack lamb V X K (a / L) (b / L) l1 l2 fun m => r m / L)
      atTop (𝓝 0) := by
  have h1 : Tendsto (fun L : ℝ => 1 / L ^ (1 + deg l1 + deg l2)) atTop (𝓝 0) :=
    tendsto_const_nhds.div_atTop (tendsto_pow_atTop (by omega))
  have h := h1.mul (slack_tendsto lamb V hX K l1 l2 (div_tendsto_zero a) (div_tendsto_zero b) (vec_div_tendsto_zero r))
  rwa [zero_mul] at h

end SD.Ewald
