import Verif.Lemmas.EqualRows

/-!
# How much energy equal spheres can gain from the shipped table

Adding a small resistance to relative straining to every row makes all rows for equal spheres dissipative. What is
gained is therefore at most what this resistance would dissipate.
-/

set_option autoImplicit false

namespace SD

open Spec Near

/-- Scalars with `e` added to the resistances to straining. -/
def bumpS (e : ℝ) (z : Scalars) : Scalars where
  XA := z.XA
  YA := z.YA
  YB := z.YB
  XC := z.XC
  YC := z.YC
  XG := z.XG
  YG := z.YG
  YH := z.YH
  XM := z.XM + e
  YM := z.YM + e
  ZM := z.ZM + e

theorem bump_mix (e t : ℝ) (z w : Scalars) : mixScal t (bumpS e z) (bumpS e w) = bumpS e (mixScal t z w) := by
  simp only [mixScal, bumpS, Scalars.mk.injEq]
  refine ⟨trivial, trivial, trivial, trivial, trivial, trivial, trivial, trivial, ?_, ?_, ?_⟩ <;> ring

theorem strain_dot (w w' : Comp → ℝ) : ddot (strain w) (strain w') = ∑ p, w (.s p) * w' (.s p) := by
  have h := five_contract w (strain_symm w')
  have e : ∀ p, five (strain w') p = w' (.s p) := by
    intro p
    have : five (strain w') p = ∑ q, w' (.s q) * five (basis5 q) p := by
      rw [show strain w' = fun i j => ∑ q, w' (.s q) * basis5 q i j from rfl,
        five_sum (fun q i j => w' (.s q) * basis5 q i j)]
      refine Finset.sum_congr rfl fun q _ => ?_
      generalize basis5 q = B
      fin_cases p <;> simp [five] <;> ring
    rw [this]
    simp [five_basis5]
  simp only [e] at h
  exact h.symm

theorem pairPower_bump {d : Fin 3 → ℝ} (hd : dotp d d = 1) (e : ℝ) (z1 z2 z12 z21 : Scalars) (a : ℝ)
    (w1 w2 : Comp → ℝ) :
    pairPower (bumpS e z1) (bumpS e z2) (bumpS (-e) z12) (bumpS (-e) z21) a a d w1 w2
      = pairPower z1 z2 z12 z21 a a d w1 w2
        + 20 / 3 * Real.pi * a ^ 3 * e * ∑ p, (w1 (.s p) - w2 (.s p)) ^ 2 := by
  have s1 := strain_symm w1
  have s2 := strain_symm w2
  have p11 := perp_dot d hd (app (strain w1) d) (app (strain w1) d)
  have p12 := perp_dot d hd (app (strain w1) d) (app (strain w2) d)
  have p22 := perp_dot d hd (app (strain w2) d) (app (strain w2) d)
  have a11 := across_dot d hd s1 s1
  have a12 := across_dot d hd s1 s2
  have a22 := across_dot d hd s2 s2
  rw [strain_dot] at a11 a12 a22
  have es : ∑ p, (w1 (.s p) - w2 (.s p)) ^ 2 = ∑ p, w1 (.s p) * w1 (.s p) - 2 * ∑ p, w1 (.s p) * w2 (.s p)
      + ∑ p, w2 (.s p) * w2 (.s p) := by
    rw [Finset.mul_sum, ← Finset.sum_sub_distrib, ← Finset.sum_add_distrib]
    exact Finset.sum_congr rfl fun p _ => by ring
  rw [pairPower_split d hd, pairPower_split d hd, es]
  generalize ∑ p, w1 (.s p) * w1 (.s p) = D11 at *
  generalize ∑ p, w1 (.s p) * w2 (.s p) = D12 at *
  generalize ∑ p, w2 (.s p) * w2 (.s p) = D22 at *
  generalize dotp d (app (strain w1) d) = x1 at *
  generalize dotp d (app (strain w2) d) = x2 at *
  generalize hv11 : dotp (app (strain w1) d) (app (strain w1) d) = v11 at *
  generalize hv12 : dotp (app (strain w1) d) (app (strain w2) d) = v12 at *
  generalize hv22 : dotp (app (strain w2) d) (app (strain w2) d) = v22 at *
  generalize perp d (app (strain w1) d) = q1 at *
  generalize perp d (app (strain w2) d) = q2 at *
  generalize across d (strain w1) = A1 at *
  generalize across d (strain w2) = A2 at *
  simp only [dotp] at p11 p12 p22
  simp only [ddot, Fin.sum_univ_three] at a11 a12 a22
  simp only [Fin.sum_univ_three, axialPower, twistPower, shearPower, planePower, bumpS]
  linear_combination (40 / 3 * Real.pi * a ^ 3 * e) * (p11 - 2 * p12 + p22)
    + (20 / 3 * Real.pi * a ^ 3 * e) * (a11 - 2 * a12 + a22)

/-! ## The rows of the shipped table with a resistance added -/

/-- A row with `e` added to the resistances to straining. -/
def bumpRow (e : ℤ) (z : ℕ → ℤ) : ℕ → ℤ := fun k => if 8 ≤ k then z k + e else z k

theorem bump_ok : ∀ n < 38, EqualOk (bumpRow 1475739525896764129280 (eqRow 0 n))
    (bumpRow (-1475739525896764129280) (eqRow 1 n)) := by
  decide +kernel

theorem bump_scal (e : ℤ) (g n : ℕ) :
    bumpS (1 / 2 ^ 78 * (e : ℝ)) (eqScal g n) = scalOf fun k => 1 / 2 ^ 78 * (bumpRow e (eqRow g n) k : ℝ) := by
  simp only [bumpS, eqScal, scalOf, bumpRow, Scalars.mk.injEq]
  norm_num
  refine ⟨?_, ?_, ?_⟩ <;> ring

theorem bump_node {n : ℕ} (hn : n < 38) {a : ℝ} (ha : 0 < a) :
    Dissipative (bumpS (5 / 1024) (eqScal 0 n)) (bumpS (5 / 1024) (eqScal 0 n)) (bumpS (-(5 / 1024)) (eqScal 1 n))
      (bumpS (-(5 / 1024)) (eqScal 1 n)) a a := by
  have e1 : (5 / 1024 : ℝ) = 1 / 2 ^ 78 * ((1475739525896764129280 : ℤ) : ℝ) := by norm_num
  have e2 : -(5 / 1024 : ℝ) = 1 / 2 ^ 78 * ((-1475739525896764129280 : ℤ) : ℝ) := by norm_num
  rw [e2, e1, bump_scal, bump_scal]
  exact ((bump_ok n hn).cast.scale (c := 1 / 2 ^ 78) (by norm_num)).dissipative ha

/-- With a resistance of 5/1024 to relative straining added, equal spheres gain no energy at any distance. -/
theorem bump_dissipative (s : ℝ) {a : ℝ} (ha : 0 < a) :
    Dissipative (bumpS (5 / 1024) (tableScal shippedTable 0 1 s)) (bumpS (5 / 1024) (tableScal shippedTable 0 1 s))
      (bumpS (-(5 / 1024)) (tableScal shippedTable 1 1 s)) (bumpS (-(5 / 1024)) (tableScal shippedTable 1 1 s)) a a := by
  rcases shipped_cell s with ⟨h, e⟩ | ⟨h, e⟩ | ⟨n, hn, h1, h2, e⟩
  · rw [e, e]; exact bump_node (by norm_num) ha
  · rw [e, e]; exact bump_node (by norm_num) ha
  · have hlt : (shippedDist.getD n 0 : ℝ) < shippedDist.getD (n + 1) 0 := by exact_mod_cast dist_lt hn
    rw [e, e]
    set t := (s - (shippedDist.getD n 0 : ℝ) / 100000)
        / ((shippedDist.getD (n + 1) 0 : ℝ) / 100000 - (shippedDist.getD n 0 : ℝ) / 100000) with ht
    have t0 : 0 ≤ t := div_nonneg (by linarith) (by linarith)
    have t1 : t ≤ 1 := by rw [ht, div_le_one (by linarith)]; linarith
    rw [← bump_mix, ← bump_mix]
    exact dissipative_mix t0 t1 (bump_node (by omega) ha) (bump_node hn ha)

/-- A bound on the energy gained. -/
theorem shipped_lower {d : Fin 3 → ℝ} (hd : dotp d d = 1) (s : ℝ) {a : ℝ} (ha : 0 < a) (w1 w2 : Comp → ℝ) :
    -(20 / 3 * Real.pi * a ^ 3 * (5 / 1024) * ∑ p, (w1 (.s p) - w2 (.s p)) ^ 2)
      ≤ pairPower (tableScal shippedTable 0 1 s) (tableScal shippedTable 0 1 s) (tableScal shippedTable 1 1 s)
        (tableScal shippedTable 1 1 s) a a d w1 w2 := by
  have h := pairPower_nonneg d hd (bump_dissipative s ha) w1 w2
  rw [pairPower_bump hd] at h
  linarith

end SD
