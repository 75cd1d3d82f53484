import Verif.Lemmas.Green
import Verif.Spec.Ewald

/-!
# Derivatives of radial tensor fields

A chain is a sequence of functions of the distance, each the derivative of the one before divided by the
distance. The derivatives of fields built from a chain are polynomials in the coordinates and the chain.
-/

set_option autoImplicit false

namespace SD.Ewald

open Spec

/-- `f` has partial derivative `d` in coordinate `l` at `r`. -/
def HasPd (l : Fin 3) (f : Vec3 → ℝ) (d : ℝ) (r : Vec3) : Prop :=
  HasDerivAt (fun t => f (Function.update r l t)) d (r l)

theorem HasPd.pd {l : Fin 3} {f : Vec3 → ℝ} {d : ℝ} {r : Vec3} (h : HasPd l f d r) : pd l f r = d :=
  h.deriv

theorem HasPd.congr {l : Fin 3} {f : Vec3 → ℝ} {d e : ℝ} {r : Vec3} (h : HasPd l f d r) (he : e = d) :
    HasPd l f e r := he ▸ h

theorem HasPd.add {l : Fin 3} {f g : Vec3 → ℝ} {d e : ℝ} {r : Vec3} (h : HasPd l f d r)
    (h' : HasPd l g e r) : HasPd l (fun r => f r + g r) (d + e) r := HasDerivAt.fun_add h h'

theorem HasPd.sub {l : Fin 3} {f g : Vec3 → ℝ} {d e : ℝ} {r : Vec3} (h : HasPd l f d r)
    (h' : HasPd l g e r) : HasPd l (fun r => f r - g r) (d - e) r := HasDerivAt.fun_sub h h'

theorem HasPd.const_mul {l : Fin 3} {f : Vec3 → ℝ} {d : ℝ} {r : Vec3} (c : ℝ) (h : HasPd l f d r) :
    HasPd l (fun r => c * f r) (c * d) r := HasDerivAt.const_mul c h

theorem HasPd.mul {l : Fin 3} {f g : Vec3 → ℝ} {d e : ℝ} {r : Vec3} (h : HasPd l f d r)
    (h' : HasPd l g e r) : HasPd l (fun r => f r * g r) (d * g r + f r * e) r := by
  have := HasDerivAt.fun_mul h h'
  simp only [Function.update_eq_self] at this
  exact this

theorem hasPd_coord (r : Vec3) (l i : Fin 3) : HasPd l (fun r => r i) (dlt i l) r := coord_deriv r l i

theorem hasPd_const (r : Vec3) (l : Fin 3) (c : ℝ) : HasPd l (fun _ => c) 0 r := hasDerivAt_const _ _

theorem HasPd.list_sum {α : Type*} {l : Fin 3} {f : α → Vec3 → ℝ} {d : α → ℝ} {r : Vec3} (X : List α)
    (h : ∀ x ∈ X, HasPd l (f x) (d x) r) :
    HasPd l (fun r => (X.map fun x => f x r).sum) (X.map d).sum r := by
  induction X with
  | nil => simpa using hasPd_const r l 0
  | cons x X ih =>
    simp only [List.map_cons, List.sum_cons]
    exact (h x (by simp)).add (ih fun y hy => h y (by simp [hy]))

theorem HasPd.shift {l : Fin 3} {f : Vec3 → ℝ} {d : ℝ} {r : Vec3} (x : Vec3)
    (h : HasPd l f d (fun m => r m + x m)) : HasPd l (fun r => f fun m => r m + x m) d r := by
  unfold HasPd at h ⊢
  have e : ∀ t, (fun m => Function.update r l t m + x m)
      = Function.update (fun m => r m + x m) l (t + x l) := by
    intro t; funext m
    by_cases hm : m = l
    · subst hm; simp
    · simp [Function.update_of_ne hm]
  simp only [e]
  exact HasDerivAt.comp_add_const (r l) (x l) h

/-- A function equal to `f` on an open set has the same partial derivatives there. -/
theorem HasPd.congr_on {l : Fin 3} {f g : Vec3 → ℝ} {d : ℝ} {r : Vec3} {U : Set Vec3} (hU : IsOpen U)
    (hr : r ∈ U) (h : HasPd l f d r) (hg : ∀ r ∈ U, g r = f r) : HasPd l g d r := by
  unfold HasPd at h ⊢
  refine h.congr_of_eventuallyEq ?_
  have hc : Continuous fun t => Function.update r l t := continuous_const.update l continuous_id
  have : ∀ᶠ t in nhds (r l), Function.update r l t ∈ U :=
    hc.continuousAt.eventually_mem (hU.mem_nhds (by simpa using hr))
  filter_upwards [this] with t ht using hg _ ht

theorem pd_congr_on {l : Fin 3} {f g : Vec3 → ℝ} {r : Vec3} {U : Set Vec3} (hU : IsOpen U)
    (hr : r ∈ U) (hg : ∀ r ∈ U, g r = f r) : Spec.pd l g r = Spec.pd l f r := by
  unfold Spec.pd
  apply Filter.EventuallyEq.deriv_eq
  have hc : Continuous fun t => Function.update r l t := continuous_const.update l continuous_id
  have : ∀ᶠ t in nhds (r l), Function.update r l t ∈ U :=
    hc.continuousAt.eventually_mem (hU.mem_nhds (by simpa using hr))
  filter_upwards [this] with t ht using hg _ ht

/-! ## Jets -/

/-- On the open set `U`: `f` has first derivatives `f1 l` and second derivatives `f2 m l`, and its Laplacian
`g` has first derivatives `g1 l` and second derivatives `g2 m l`. -/
structure IsJet (U : Set Vec3) (f : Vec3 → ℝ) (f1 : Fin 3 → Vec3 → ℝ) (f2 : Fin 3 → Fin 3 → Vec3 → ℝ)
    (g : Vec3 → ℝ) (g1 : Fin 3 → Vec3 → ℝ) (g2 : Fin 3 → Fin 3 → Vec3 → ℝ) : Prop where
  one : ∀ r ∈ U, ∀ l, HasPd l f (f1 l r) r
  two : ∀ r ∈ U, ∀ m l, HasPd m (f1 l) (f2 m l r) r
  lap : ∀ r ∈ U, g r = ∑ l, f2 l l r
  three : ∀ r ∈ U, ∀ l, HasPd l g (g1 l r) r
  four : ∀ r ∈ U, ∀ m l, HasPd m (g1 l) (g2 m l r) r

section
variable {U V : Set Vec3} {f f' g g' : Vec3 → ℝ} {f1 f1' g1 g1' : Fin 3 → Vec3 → ℝ}
  {f2 f2' g2 g2' : Fin 3 → Fin 3 → Vec3 → ℝ}

theorem IsJet.mono (h : IsJet U f f1 f2 g g1 g2) (hV : V ⊆ U) : IsJet V f f1 f2 g g1 g2 :=
  ⟨fun r hr => h.one r (hV hr), fun r hr => h.two r (hV hr), fun r hr => h.lap r (hV hr),
    fun r hr => h.three r (hV hr), fun r hr => h.four r (hV hr)⟩

theorem IsJet.add (h : IsJet U f f1 f2 g g1 g2) (h' : IsJet U f' f1' f2' g' g1' g2') :
    IsJet U (fun r => f r + f' r) (fun l r => f1 l r + f1' l r) (fun m l r => f2 m l r + f2' m l r)
      (fun r => g r + g' r) (fun l r => g1 l r + g1' l r) (fun m l r => g2 m l r + g2' m l r) :=
  ⟨fun r hr l => (h.one r hr l).add (h'.one r hr l), fun r hr m l => (h.two r hr m l).add (h'.two r hr m l),
    fun r hr => by rw [h.lap r hr, h'.lap r hr, Finset.sum_add_distrib],
    fun r hr l => (h.three r hr l).add (h'.three r hr l),
    fun r hr m l => (h.four r hr m l).add (h'.four r hr m l)⟩

theorem IsJet.sub (h : IsJet U f f1 f2 g g1 g2) (h' : IsJet U f' f1' f2' g' g1' g2') :
    IsJet U (fun r => f r - f' r) (fun l r => f1 l r - f1' l r) (fun m l r => f2 m l r - f2' m l r)
      (fun r => g r - g' r) (fun l r => g1 l r - g1' l r) (fun m l r => g2 m l r - g2' m l r) :=
  ⟨fun r hr l => (h.one r hr l).sub (h'.one r hr l), fun r hr m l => (h.two r hr m l).sub (h'.two r hr m l),
    fun r hr => by rw [h.lap r hr, h'.lap r hr, Finset.sum_sub_distrib],
    fun r hr l => (h.three r hr l).sub (h'.three r hr l),
    fun r hr m l => (h.four r hr m l).sub (h'.four r hr m l)⟩

theorem IsJet.const_mul (c : ℝ) (h : IsJet U f f1 f2 g g1 g2) :
    IsJet U (fun r => c * f r) (fun l r => c * f1 l r) (fun m l r => c * f2 m l r)
      (fun r => c * g r) (fun l r => c * g1 l r) (fun m l r => c * g2 m l r) :=
  ⟨fun r hr l => (h.one r hr l).const_mul c, fun r hr m l => (h.two r hr m l).const_mul c,
    fun r hr => by rw [h.lap r hr, Finset.mul_sum],
    fun r hr l => (h.three r hr l).const_mul c,
    fun r hr m l => (h.four r hr m l).const_mul c⟩

theorem IsJet.shift (x : Vec3) (h : IsJet U f f1 f2 g g1 g2) :
    IsJet {r | (fun m => r m + x m) ∈ U} (fun r => f fun m => r m + x m)
      (fun l r => f1 l fun m => r m + x m) (fun m l r => f2 m l fun m => r m + x m)
      (fun r => g fun m => r m + x m) (fun l r => g1 l fun m => r m + x m)
      (fun m l r => g2 m l fun m => r m + x m) :=
  ⟨fun r hr l => (h.one _ hr l).shift x, fun r hr m l => (h.two _ hr m l).shift x,
    fun r hr => h.lap _ hr, fun r hr l => (h.three _ hr l).shift x,
    fun r hr m l => (h.four _ hr m l).shift x⟩

theorem IsJet.list_sum {α : Type*} {f g : α → Vec3 → ℝ} {f1 g1 : α → Fin 3 → Vec3 → ℝ}
    {f2 g2 : α → Fin 3 → Fin 3 → Vec3 → ℝ} (X : List α)
    (h : ∀ x ∈ X, IsJet U (f x) (f1 x) (f2 x) (g x) (g1 x) (g2 x)) :
    IsJet U (fun r => (X.map fun x => f x r).sum) (fun l r => (X.map fun x => f1 x l r).sum)
      (fun m l r => (X.map fun x => f2 x m l r).sum) (fun r => (X.map fun x => g x r).sum)
      (fun l r => (X.map fun x => g1 x l r).sum) (fun m l r => (X.map fun x => g2 x m l r).sum) := by
  refine ⟨fun r hr l => HasPd.list_sum X fun x hx => (h x hx).one r hr l,
    fun r hr m l => HasPd.list_sum X fun x hx => (h x hx).two r hr m l, fun r hr => ?_,
    fun r hr l => HasPd.list_sum X fun x hx => (h x hx).three r hr l,
    fun r hr m l => HasPd.list_sum X fun x hx => (h x hx).four r hr m l⟩
  induction X with
  | nil => simp
  | cons x X ih =>
    simp only [List.map_cons, List.sum_cons, Finset.sum_add_distrib]
    rw [(h x (by simp)).lap r hr, ih fun y hy => h y (by simp [hy])]

theorem IsJet.congr (hU : IsOpen U) (h : IsJet U f f1 f2 g g1 g2) (hf : ∀ r ∈ U, f' r = f r)
    (hf1 : ∀ r ∈ U, ∀ l, f1' l r = f1 l r) (hf2 : ∀ r ∈ U, ∀ m l, f2' m l r = f2 m l r)
    (hg : ∀ r ∈ U, g' r = g r) (hg1 : ∀ r ∈ U, ∀ l, g1' l r = g1 l r)
    (hg2 : ∀ r ∈ U, ∀ m l, g2' m l r = g2 m l r) : IsJet U f' f1' f2' g' g1' g2' :=
  ⟨fun r hr l => (h.one r hr l).congr_on hU hr hf |>.congr (hf1 r hr l),
    fun r hr m l => (h.two r hr m l).congr_on hU hr (fun r hr => hf1 r hr l) |>.congr (hf2 r hr m l),
    fun r hr => by rw [hg r hr, h.lap r hr]; exact Finset.sum_congr rfl fun l _ => (hf2 r hr l l).symm,
    fun r hr l => (h.three r hr l).congr_on hU hr hg |>.congr (hg1 r hr l),
    fun r hr m l => (h.four r hr m l).congr_on hU hr (fun r hr => hg1 r hr l) |>.congr (hg2 r hr m l)⟩

theorem IsJet.pd1 (h : IsJet U f f1 f2 g g1 g2) {r : Vec3} (hr : r ∈ U) (l : Fin 3) :
    Spec.pd l f r = f1 l r := (h.one r hr l).pd

theorem IsJet.pd2 (hU : IsOpen U) (h : IsJet U f f1 f2 g g1 g2) {r : Vec3} (hr : r ∈ U) (m l : Fin 3) :
    Spec.pd m (Spec.pd l f) r = f2 m l r := by
  rw [pd_congr_on hU hr fun r hr => h.pd1 hr l]; exact (h.two r hr m l).pd

theorem IsJet.lap0 (hU : IsOpen U) (h : IsJet U f f1 f2 g g1 g2) {r : Vec3} (hr : r ∈ U) :
    Spec.lap f r = g r := by
  unfold Spec.lap
  rw [h.lap r hr]; exact Finset.sum_congr rfl fun l _ => h.pd2 hU hr l l

theorem IsJet.lap1 (hU : IsOpen U) (h : IsJet U f f1 f2 g g1 g2) {r : Vec3} (hr : r ∈ U) (l : Fin 3) :
    Spec.pd l (Spec.lap f) r = g1 l r := by
  rw [pd_congr_on hU hr fun r hr => h.lap0 hU hr]; exact (h.three r hr l).pd

theorem IsJet.lap2 (hU : IsOpen U) (h : IsJet U f f1 f2 g g1 g2) {r : Vec3} (hr : r ∈ U) (m l : Fin 3) :
    Spec.pd m (Spec.pd l (Spec.lap f)) r = g2 m l r := by
  rw [pd_congr_on hU hr fun r hr => h.lap1 hU hr l]; exact (h.four r hr m l).pd

end

/-! ## Radial fields -/

/-- Each function is the derivative of the one before, divided by the distance. -/
def Chain (g : ℕ → ℝ → ℝ) : Prop := ∀ n s, 0 < s → HasDerivAt (g n) (s * g (n + 1) s) s

theorem Chain.hasPd {g : ℕ → ℝ → ℝ} (h : Chain g) (n : ℕ) {r : Vec3} (hr : r ≠ 0) (l : Fin 3) :
    HasPd l (fun r => g n (len r)) (r l * g (n + 1) (len r)) r := by
  have hs := len_pos hr
  have h1 : HasDerivAt (g n) (len r * g (n + 1) (len r)) (len (Function.update r l (r l))) := by
    rw [Function.update_eq_self]; exact h n _ hs
  have := HasDerivAt.comp (r l) h1 (len_deriv hr l)
  refine hd_congr this (fun t => rfl) ?_
  field_simp

theorem Chain.shift {g : ℕ → ℝ → ℝ} (h : Chain g) : Chain fun n => g (n + 1) := fun n s hs => h (n + 1) s hs

theorem Chain.lin {g g' : ℕ → ℝ → ℝ} (h : Chain g) (h' : Chain g') (a b : ℝ) :
    Chain fun n s => a * g n s + b * g' n s := fun n s hs => by
  refine hd_congr (((h n s hs).const_mul a).fun_add ((h' n s hs).const_mul b)) (fun t => rfl) ?_
  ring

theorem Chain.sub {g g' : ℕ → ℝ → ℝ} (h : Chain g) (h' : Chain g') :
    Chain fun n s => g n s - g' n s := fun n s hs => by
  refine hd_congr ((h n s hs).fun_sub (h' n s hs)) (fun t => rfl) ?_
  ring

/-- The chain that starts with `a g 1 + s² g 2`. -/
noncomputable def bump (a : ℝ) (g : ℕ → ℝ → ℝ) (n : ℕ) (s : ℝ) : ℝ := (a + 2 * n) * g (n + 1) s + s ^ 2 * g (n + 2) s

theorem Chain.bump {g : ℕ → ℝ → ℝ} (h : Chain g) (a : ℝ) : Chain (bump a g) := fun n s hs => by
  have h1 := (h (n + 1) s hs).const_mul (a + 2 * n)
  have h2 := ((hasDerivAt_id s).fun_pow 2).fun_mul (h (n + 2) s hs)
  refine hd_congr (h1.fun_add h2) (fun t => by simp [Ewald.bump]) ?_
  simp only [Ewald.bump, id]
  push_cast
  ring

theorem Chain.add {g g' : ℕ → ℝ → ℝ} (h : Chain g) (h' : Chain g') :
    Chain fun n s => g n s + g' n s := fun n s hs => by
  refine hd_congr ((h n s hs).fun_add (h' n s hs)) (fun t => rfl) ?_
  ring

theorem Chain.const_mul {g : ℕ → ℝ → ℝ} (h : Chain g) (a : ℝ) :
    Chain fun n s => a * g n s := fun n s hs => by
  refine hd_congr ((h n s hs).const_mul a) (fun t => rfl) ?_
  ring

/-- Two chains with the same start agree. -/
theorem Chain.unique {g g' : ℕ → ℝ → ℝ} (h : Chain g) (h' : Chain g') (h0 : ∀ s, 0 < s → g 0 s = g' 0 s)
    (n : ℕ) {s : ℝ} (hs : 0 < s) : g n s = g' n s := by
  induction n generalizing s with
  | zero => exact h0 s hs
  | succ n ih =>
    have e : g n =ᶠ[nhds s] g' n := by
      filter_upwards [lt_mem_nhds hs] with t ht using ih ht
    have := ((h n s hs).congr_of_eventuallyEq e.symm).unique (h' n s hs)
    exact mul_left_cancel₀ hs.ne' this

/-- The tensor `delta_ij p + r_i r_j q`. -/
noncomputable def T0 (p q : ℕ → ℝ → ℝ) (i j : Fin 3) (r : Vec3) : ℝ := dlt i j * p 0 (len r) + r i * r j * q 0 (len r)

/-- Its first derivatives. -/
noncomputable def T1 (p q : ℕ → ℝ → ℝ) (i j l : Fin 3) (r : Vec3) : ℝ :=
  dlt i j * (r l * p 1 (len r)) + (dlt i l * r j + dlt j l * r i) * q 0 (len r)
    + r i * r j * r l * q 1 (len r)

/-- Its second derivatives. -/
noncomputable def T2 (p q : ℕ → ℝ → ℝ) (i j m l : Fin 3) (r : Vec3) : ℝ :=
  dlt i j * (dlt l m * p 1 (len r) + r l * r m * p 2 (len r))
    + (dlt i l * dlt j m + dlt j l * dlt i m) * q 0 (len r)
    + (dlt i l * r j * r m + dlt j l * r i * r m + dlt i m * r j * r l + dlt j m * r i * r l
      + dlt l m * r i * r j) * q 1 (len r)
    + r i * r j * r l * r m * q 2 (len r)

/-- The diagonal part of its Laplacian. -/
noncomputable def lapP (p q : ℕ → ℝ → ℝ) (n : ℕ) (s : ℝ) : ℝ := bump 3 p n s + 2 * q n s

/-- The other part of its Laplacian. -/
noncomputable def lapQ (q : ℕ → ℝ → ℝ) (n : ℕ) (s : ℝ) : ℝ := bump 7 q n s

theorem T0_hasPd {p q : ℕ → ℝ → ℝ} (hp : Chain p) (hq : Chain q) (i j : Fin 3) {r : Vec3} (hr : r ≠ 0)
    (l : Fin 3) : HasPd l (T0 p q i j) (T1 p q i j l r) r := by
  have := ((hp.hasPd 0 hr l).const_mul (dlt i j)).add
    (((hasPd_coord r l i).mul (hasPd_coord r l j)).mul (hq.hasPd 0 hr l))
  refine HasPd.congr this ?_
  unfold T1
  ring

theorem T1_hasPd {p q : ℕ → ℝ → ℝ} (hp : Chain p) (hq : Chain q) (i j l : Fin 3) {r : Vec3} (hr : r ≠ 0)
    (m : Fin 3) : HasPd m (T1 p q i j l) (T2 p q i j m l r) r := by
  have ci := hasPd_coord r m i
  have cj := hasPd_coord r m j
  have cl := hasPd_coord r m l
  have := (((cl.mul (hp.hasPd 1 hr m)).const_mul (dlt i j)).add
    (((cj.const_mul (dlt i l)).add (ci.const_mul (dlt j l))).mul (hq.hasPd 0 hr m))).add
    (((ci.mul cj).mul cl).mul (hq.hasPd 1 hr m))
  refine HasPd.congr this ?_
  unfold T2
  ring

theorem T2_trace {p q : ℕ → ℝ → ℝ} (i j : Fin 3) (r : Vec3) :
    T0 (lapP p q) (lapQ q) i j r = ∑ l, T2 p q i j l l r := by
  have hl := len_sq r
  simp only [T0, T2, lapP, lapQ, bump, Fin.sum_univ_three, hl]
  fin_cases i <;> fin_cases j <;> simp [dlt] <;> ring

theorem T0_jet {p q : ℕ → ℝ → ℝ} (hp : Chain p) (hq : Chain q) (i j : Fin 3) :
    IsJet {r | r ≠ 0} (T0 p q i j) (T1 p q i j) (T2 p q i j) (T0 (lapP p q) (lapQ q) i j)
      (T1 (lapP p q) (lapQ q) i j) (T2 (lapP p q) (lapQ q) i j) := by
  have hP : Chain (lapP p q) := (hp.bump 3).add (hq.const_mul 2)
  have hQ : Chain (lapQ q) := hq.bump 7
  exact ⟨fun r hr l => T0_hasPd hp hq i j hr l, fun r hr m l => T1_hasPd hp hq i j l hr m,
    fun r _ => T2_trace i j r, fun r hr l => T0_hasPd hP hQ i j hr l,
    fun r hr m l => T1_hasPd hP hQ i j l hr m⟩

theorem isOpen_ne_zero : IsOpen {r : Vec3 | r ≠ 0} := isOpen_ne

/-- The Stokes operator applied to a radial field. -/
theorem stokesOp_radial {g : ℕ → ℝ → ℝ} (hg : Chain g) {f : Vec3 → ℝ} (hf : ∀ r, r ≠ 0 → f r = g 0 (len r))
    (i j : Fin 3) {r : Vec3} (hr : r ≠ 0) :
    stokesOp f i j r = T0 (bump 2 g) (fun n s => -g (n + 2) s) i j r := by
  have h1 : ∀ r : Vec3, r ≠ 0 → ∀ l, Spec.pd l f r = r l * g 1 (len r) := fun r hr l => by
    rw [pd_congr_on isOpen_ne_zero hr hf]; exact (hg.hasPd 0 hr l).pd
  have h2 : ∀ m l, Spec.pd m (Spec.pd l f) r = dlt l m * g 1 (len r) + r l * r m * g 2 (len r) := by
    intro m l
    rw [pd_congr_on isOpen_ne_zero hr fun r hr => h1 r hr l]
    refine (HasPd.congr ((hasPd_coord r m l).mul (hg.hasPd 1 hr m)) ?_).pd
    ring
  have hl := len_sq r
  simp only [stokesOp, Spec.lap, h2, T0, bump, Fin.sum_univ_three]
  rw [hl, dlt_comm j i]
  simp only [dlt, if_true]
  push_cast
  ring

end SD.Ewald
