import Verif.Props.Solve
import Verif.Spec.Superpose

/-!
# Lemmas on problems made from two problems
-/

set_option autoImplicit false

namespace SD

open Finset Spec

theorem numbers3_num (v : Vec3) : numbers3 (num3 v) = some v := by
  unfold numbers3
  rw [if_pos (given_num3 v)]
  rfl

theorem numbers33_num (v : Mat3) : numbers33 (num33 v) = some v := by
  unfold numbers33
  rw [if_pos (given_num33 v)]
  rfl

theorem rows_num (g : Vec3 → Vec3 → Vec3) (u v : Vec3) : rows g (num3 u) (num3 v) = num3 (g u v) := by
  simp [rows, numbers3_num]

theorem mats_num (g : Mat3 → Mat3 → Mat3) (u v : Mat3) : mats g (num33 u) (num33 v) = num33 (g u v) := by
  simp [mats, numbers33_num]

theorem rows_blank (g : Vec3 → Vec3 → Vec3) : rows g blank blank = blank := by
  have : numbers3 blank = none := by
    unfold numbers3
    rw [if_neg]
    intro h
    exact given_not_blank h rfl
  simp [rows, this]

theorem zip_map3 (g : Vec3 → Vec3 → Vec3) (r s : List Vec3) :
    List.zipWith (rows g) (r.map num3) (s.map num3) = (List.zipWith g r s).map num3 := by
  rw [List.zipWith_map, List.map_zipWith]
  simp only [rows_num]

theorem zip_map33 (g : Mat3 → Mat3 → Mat3) (r s : List Mat3) :
    List.zipWith (mats g) (r.map num33) (s.map num33) = (List.zipWith g r s).map num33 := by
  rw [List.zipWith_map, List.map_zipWith]
  simp only [mats_num]

theorem zip_blank {g : Vec3 → Vec3 → Vec3} {l m : List OVec3} {r s : List Vec3} {n k : ℕ} (hr : r.length = n)
    (hs : s.length = n) (h1 : l = (r.take k).map num3 ++ List.replicate (n - k) blank)
    (h2 : m = (s.take k).map num3 ++ List.replicate (n - k) blank) :
    List.zipWith (rows g) l m = ((List.zipWith g r s).take k).map num3 ++ List.replicate (n - k) blank := by
  rw [h1, h2, List.zipWith_append (by simp [hr, hs]), zip_map3, List.take_zipWith, List.zipWith_replicate, rows_blank]
  simp

theorem zip_drop {g : Vec3 → Vec3 → Vec3} {l m : List OVec3} {r s : List Vec3} {k : ℕ}
    (h1 : l.drop k = (r.drop k).map num3) (h2 : m.drop k = (s.drop k).map num3) :
    (List.zipWith (rows g) l m).drop k = ((List.zipWith g r s).drop k).map num3 := by
  rw [List.drop_zipWith, h1, h2, zip_map3, List.drop_zipWith]

theorem zip_take {g : Vec3 → Vec3 → Vec3} {l m : List OVec3} {r s : List Vec3} {k : ℕ}
    (h1 : l.take k = (r.take k).map num3) (h2 : m.take k = (s.take k).map num3) :
    (List.zipWith (rows g) l m).take k = ((List.zipWith g r s).take k).map num3 := by
  rw [List.take_zipWith, h1, h2, zip_map3, List.take_zipWith]

/-- Where the placeholders are tells how many values are given. -/
theorem same_fixed {l m : List OVec3} {r s : List Vec3} {n k k' : ℕ} (hr : r.length = n)
    (hs : s.length = n) (hk : k ≤ n) (hk' : k' ≤ n) (h1 : l = (r.take k).map num3 ++ List.replicate (n - k) blank)
    (h2 : m = (s.take k').map num3 ++ List.replicate (n - k') blank)
    (h : ∀ i, l.getD i blank = blank ↔ m.getD i blank = blank) : k = k' := by
  have key : ∀ {l : List OVec3} {r : List Vec3} {k : ℕ}, r.length = n → k ≤ n →
      l = (r.take k).map num3 ++ List.replicate (n - k) blank → ∀ i, l.getD i blank = blank ↔ k ≤ i := by
    intro l r k hr hk e i
    have hl : ((r.take k).map num3).length = k := by simp [hr, hk]
    rw [e]
    constructor
    · intro h
      by_contra hi
      have hi : i < k := by omega
      rw [List.getD_append _ _ _ _ (by omega), List.getD_eq_getElem _ _ (by omega)] at h
      exact given_not_blank (given_map _ _ (List.getElem_mem _)) h
    · intro hi
      rw [List.getD_append_right _ _ _ _ (by omega)]
      by_cases hj : i - ((r.take k).map num3).length < n - k
      · rw [List.getD_eq_getElem _ _ (by simpa using hj)]
        simp
      · rw [List.getD_eq_default]
        simpa using hj
  have a := (key hr hk h1 k').symm.trans ((h k').trans (key hs hk' h2 k'))
  have b := (key hr hk h1 k).symm.trans ((h k).trans (key hs hk' h2 k))
  omega

/-- What is echoed by two problems is echoed by the problem made from them. -/
theorem echo_rule {form : InputForm} {Ns Nd : ℕ} {x y : Inputs} {a b : Outputs} {R R' : NDMat} (m : Rule)
    (hf : SameFixed x y) (sa : Solves Ns Nd R a) (sb : Solves Ns Nd R' b) (ea : Echo form Ns Nd x a)
    (eb : Echo form Ns Nd y b) : Echo form Ns Nd (m.inputs x y) (m.outputs a b) := by
  cases form with
  | fts =>
    obtain ⟨x1, x2, x3, x4, x5⟩ := ea
    obtain ⟨y1, y2, y3, y4, y5⟩ := eb
    refine ⟨?_, ?_, ?_, ?_, ?_⟩ <;> simp only [Rule.inputs, Rule.outputs, x1, x2, x3, x4, x5, y1, y2, y3, y4, y5,
      zip_map3, zip_map33]
  | fte =>
    obtain ⟨x1, x2, x3, x4, x5⟩ := ea
    obtain ⟨y1, y2, y3, y4, y5⟩ := eb
    refine ⟨?_, ?_, ?_, ?_, ?_⟩ <;> simp only [Rule.inputs, Rule.outputs, x1, x2, x3, x4, x5, y1, y2, y3, y4, y5,
      zip_map3, zip_map33]
  | ufte =>
    obtain ⟨k, hk, x0, x1, x2, x3, x4, x5⟩ := ea
    obtain ⟨k', hk', y0, y1, y2, y3, y4, y5⟩ := eb
    obtain rfl := same_fixed sa.Ua sb.Ua hk hk' x0 y0 hf.1
    refine ⟨k, hk, zip_blank sa.Ua sb.Ua x0 y0, zip_drop x1 y1, ?_, ?_, ?_, ?_⟩ <;>
      simp only [Rule.inputs, Rule.outputs, x2, x3, x4, x5, y2, y3, y4, y5, zip_map3, zip_map33]
  | ufteu =>
    obtain ⟨k, hk, kd, hkd, x0, x1, x2, x3, x4, x5, x6, x7⟩ := ea
    obtain ⟨k', hk', kd', hkd', y0, y1, y2, y3, y4, y5, y6, y7⟩ := eb
    obtain rfl := same_fixed sa.Ua sb.Ua hk hk' x0 y0 hf.1
    obtain rfl := same_fixed sa.Ub sb.Ub hkd hkd' x4 y4 hf.2
    refine ⟨k, hk, kd, hkd, zip_blank sa.Ua sb.Ua x0 y0, zip_drop x1 y1, ?_, ?_, zip_blank sa.Ub sb.Ub x4 y4,
      zip_take x5 y5, zip_drop x6 y6, zip_drop x7 y7⟩ <;>
      simp only [Rule.inputs, Rule.outputs, x2, x3, y2, y3, zip_map3, zip_map33]
  | duf =>
    obtain ⟨kd, hkd, x4, x5, x6, x7⟩ := ea
    obtain ⟨kd', hkd', y4, y5, y6, y7⟩ := eb
    obtain rfl := same_fixed sa.Ub sb.Ub hkd hkd' x4 y4 hf.2
    exact ⟨kd, hkd, zip_blank sa.Ub sb.Ub x4 y4, zip_take x5 y5, zip_drop x6 y6, zip_drop x7 y7⟩

theorem sized_rule {Ns Nd : ℕ} {x y : Inputs} (m : Rule) (hx : Sized Ns Nd x) (hy : Sized Ns Nd y) :
    Sized Ns Nd (m.inputs x y) := by
  refine ⟨?_, ?_, ?_, ?_, ?_, ?_, ?_, ?_⟩ <;>
    simp [Rule.inputs, hx.Fa, hx.Ta, hx.Sa, hx.Fb, hx.DFb, hx.Ua, hx.Ub, hx.HalfDUb,
      hy.Fa, hy.Ta, hy.Sa, hy.Fb, hy.DFb, hy.Ua, hy.Ub, hy.HalfDUb]

/-- The stresslets and rates of strain returned by the solver are symmetric and traceless. -/
theorem out_traceless {form : InputForm} {Ns Nd : ℕ} {R : NDMat} {inp : Inputs} {out : Outputs}
    (hf : formAllowed form Ns) (hsz : Sized Ns Nd inp) (hR : R.rows = 11 * Ns + 6 * Nd)
    (hS : Symm R.get (11 * Ns + 6 * Nd)) (hi : Traceless inp)
    (h : solveForm form false Ns Nd R inp = some out) :
    (∀ m ∈ out.Sa, SymTraceless m) ∧ (∀ m ∈ out.Ea.take Ns, SymTraceless m) := by
  obtain ⟨s, e⟩ := solve_echo hf hsz hR hS h
  have fromS : inp.Sa = out.Sa.map num33 → ∀ m ∈ out.Sa, SymTraceless m := fun e m hm =>
    hi.1 m (e ▸ List.mem_map_of_mem hm)
  have fromE : inp.Ea = out.Ea.map num33 → ∀ m ∈ out.Ea.take Ns, SymTraceless m := fun e m hm =>
    hi.2 m (e ▸ List.mem_map_of_mem (List.mem_of_mem_take hm))
  cases form with
  | fts =>
    refine ⟨fromS e.2.2.1, ?_⟩
    rcases Nat.eq_zero_or_pos Ns with h0 | h0
    · rw [h0]; simp
    · exact fun m hm => (C05_fts_correct hsz hR h).2.2 h0 m (List.mem_of_mem_take hm)
  | fte => exact ⟨(C05_fte_correct hsz hR hS h).2.2, fromE e.2.2.1⟩
  | ufte =>
    obtain ⟨_, _, _, _, _, x3, _⟩ := e
    exact ⟨(C06_ufte_correct hsz hR hS h).2.2, fromE x3⟩
  | ufteu =>
    obtain ⟨_, _, _, _, _, _, _, x3, _⟩ := e
    exact ⟨(C07_ufteu_correct hsz hR hS h).2.2, fromE x3⟩
  | duf =>
    have h0 : Ns = 0 := by
      by_contra h0; exact hf.2 (Nat.pos_of_ne_zero h0) rfl
    have : out.Sa = [] := List.length_eq_zero_iff.mp (s.Sa.trans h0)
    subst h0
    rw [this]
    simp

theorem getD_zip {α : Type*} {g : α → α → α} {l m : List α} {i : ℕ} {d : α} (h1 : i < l.length)
    (h2 : i < m.length) : (List.zipWith g l m).getD i d = g (l.getD i d) (m.getD i d) := by
  rw [List.getD_eq_getElem _ _ (by simp; omega), List.getD_eq_getElem _ _ h1, List.getD_eq_getElem _ _ h2,
    List.getElem_zipWith]

/-- The answer to a problem made from two problems, given that the answer made from theirs obeys the resistance
relation. -/
theorem solve_rule {form : InputForm} {Ns Nd : ℕ} {R1 R2 R : NDMat} {x y : Inputs} {a b : Outputs} (m : Rule)
    (hf : formAllowed form Ns) (hx : Sized Ns Nd x) (hy : Sized Ns Nd y)
    (hr : R.rows = 11 * Ns + 6 * Nd) (hc : R.cols = 11 * Ns + 6 * Nd)
    (hS : Symm R.get (11 * Ns + 6 * Nd)) (hP : PosDef R.get (11 * Ns + 6 * Nd))
    (sa : Solves Ns Nd R1 a) (sb : Solves Ns Nd R2 b) (ea : Echo form Ns Nd x a) (eb : Echo form Ns Nd y b)
    (hxy : SameFixed x y) (h0 : Ns = 0 → (∀ m ∈ x.Ea, Given33 m) ∧ ∀ m ∈ y.Ea, Given33 m)
    (hs : Solves Ns Nd R (m.outputs a b)) (tS : ∀ s ∈ (m.outputs a b).Sa, SymTraceless s)
    (tE : ∀ s ∈ (m.outputs a b).Ea.take Ns, SymTraceless s) :
    ∃ z, solveForm form false Ns Nd R (m.inputs x y) = some z ∧ SameMotion Ns (m.outputs a b) z := by
  refine C09_forms_agree hf (sized_rule m hx hy) hr hc hS hP hs tS tE (echo_rule m hxy sa sb ea eb) fun h s hs => ?_
  obtain ⟨g1, g2⟩ := h0 h
  obtain ⟨p, hp, rfl⟩ := List.mem_iff_getElem.mp hs
  have hp' : p < x.Ea.length ∧ p < y.Ea.length := by simpa [Rule.inputs] using hp
  have e : (m.inputs x y).Ea[p] = mats m.E x.Ea[p] y.Ea[p] := by simp [Rule.inputs]
  have n1 : numbers33 x.Ea[p] = some _ := if_pos (g1 _ (List.getElem_mem hp'.1))
  have n2 : numbers33 y.Ea[p] = some _ := if_pos (g2 _ (List.getElem_mem hp'.2))
  rw [e, mats, n1, n2]
  exact given_num33 _

end SD
