import Verif.Lemmas.Lubrication
import Verif.Props.MidfieldTable

/-!
The motions of a pair of spheres in a linear flow: in each, the parts that grow as the gap closes cancel between
the spheres.
-/

set_option autoImplicit false
set_option linter.all false

namespace SD.Lub

open Spec Nearfield

theorem X11A_lub (xi lam : ℝ) :
    X11A xi lam = lub (G1xa lam) (G2xa lam) (AX11 lam) (G3xa lam) xi := by
  simp only [X11A, lub] <;> ring

theorem X12A_lub (xi lam : ℝ) :
    X12A xi lam = lub (-G1xa lam) (-G2xa lam) (1 / 2 * (1 + lam) * AX12 lam) (-G3xa lam) xi := by
  simp only [X12A, lub] <;> ring

theorem Y11A_lub (xi lam : ℝ) :
    Y11A xi lam = lub 0 (G2ya lam) (AY11 lam) (G3ya lam) xi := by
  simp only [Y11A, lub] <;> ring

theorem Y12A_lub (xi lam : ℝ) :
    Y12A xi lam = lub 0 (-G2ya lam) (1 / 2 * (1 + lam) * AY12 lam) (-G3ya lam) xi := by
  simp only [Y12A, lub] <;> ring

theorem Y11B_lub (xi lam : ℝ) :
    Y11B xi lam = lub 0 (G2yb lam) (BY11 lam) (G3yb lam) xi := by
  simp only [Y11B, lub] <;> ring

theorem Y12B_lub (xi lam : ℝ) :
    Y12B xi lam = lub 0 (-G2yb lam) (1 / 4 * (1 + lam) ^ 2 * BY12 lam) (-G3yb lam) xi := by
  simp only [Y12B, lub] <;> ring

theorem X11C_lub (xi lam : ℝ) :
    X11C xi lam = lub 0 0 (lam ^ 3 / (1 + lam) ^ 3 * zeta3 (lam / (1 + lam))) (-(lam ^ 2 / (4 * (1 + lam)))) xi := by
  simp only [X11C, lub] <;> ring

theorem X12C_lub (xi lam : ℝ) :
    X12C xi lam = lub 0 0 (-lam ^ 3 / (1 + lam) ^ 3 * zeta3 1) ((lam ^ 2 / (4 * (1 + lam)))) xi := by
  simp only [X12C, lub] <;> ring

theorem Y11C_lub (xi lam : ℝ) :
    Y11C xi lam = lub 0 (G2yc lam) (CY11 lam) (G3yc lam) xi := by
  simp only [Y11C, lub] <;> ring

theorem Y12C_lub (xi lam : ℝ) :
    Y12C xi lam = lub 0 (G4yc lam) ((1 + lam) ^ 3 / 8 * CY12 lam) (G5yc lam) xi := by
  simp only [Y12C, lub] <;> ring

theorem X11G_lub (xi lam : ℝ) :
    X11G xi lam = lub (G1xg lam) (G2xg lam) (GX11 lam) (G3xg lam) xi := by
  simp only [X11G, lub] <;> ring

theorem X12G_lub (xi lam : ℝ) :
    X12G xi lam = lub (-G1xg lam) (-G2xg lam) (1 / 4 * (1 + lam) ^ 2 * GX12 lam) (-G3xg lam) xi := by
  simp only [X12G, lub] <;> ring

theorem Y11G_lub (xi lam : ℝ) :
    Y11G xi lam = lub 0 (G2yg lam) (GY11 lam) (G3yg lam) xi := by
  simp only [Y11G, lub] <;> ring

theorem Y12G_lub (xi lam : ℝ) :
    Y12G xi lam = lub 0 (-G2yg lam) (1 / 4 * (1 + lam) ^ 2 * GY12 lam) (-G3yg lam) xi := by
  simp only [Y12G, lub] <;> ring

theorem Y11H_lub (xi lam : ℝ) :
    Y11H xi lam = lub 0 (G2yh lam) (HY11 lam) (G3yh lam) xi := by
  simp only [Y11H, lub] <;> ring

theorem Y12H_lub (xi lam : ℝ) :
    Y12H xi lam = lub 0 (G5yh lam) ((1 + lam) ^ 3 / 8 * HY12 lam) (G6yh lam) xi := by
  simp only [Y12H, lub] <;> ring

theorem X11M_lub (xi lam : ℝ) :
    X11M xi lam = lub (G1xm lam) (G2xm lam) (MX11 lam) (G3xm lam) xi := by
  simp only [X11M, lub] <;> ring

theorem X12M_lub (xi lam : ℝ) :
    X12M xi lam = lub (G4xm lam) (G5xm lam) (1 / 8 * (1 + lam) ^ 3 * MX12 lam) (G6xm lam) xi := by
  simp only [X12M, lub] <;> ring

theorem Y11M_lub (xi lam : ℝ) :
    Y11M xi lam = lub 0 (G2ym lam) (MY11 lam) (G3ym lam) xi := by
  simp only [Y11M, lub] <;> ring

theorem Y12M_lub (xi lam : ℝ) :
    Y12M xi lam = lub 0 (G5ym lam) (1 / 8 * (1 + lam) ^ 3 * MY12 lam) (G6ym lam) xi := by
  simp only [Y12M, lub] <;> ring

theorem Z11M_lub (xi lam : ℝ) :
    Z11M xi lam = lub 0 0 (MZ11 lam) (G3zm lam) xi := by
  simp only [Z11M, lub] <;> ring

theorem Z12M_lub (xi lam : ℝ) :
    Z12M xi lam = lub 0 0 (1 / 8 * (1 + lam) ^ 3 * MZ12 lam) (-G3zm lam) xi := by
  simp only [Z12M, lub] <;> ring

/-- Scalars of the pair with dimensions, about the axis from the first sphere to the second. -/
noncomputable def gapR (a b xi : ℝ) : PairScalars where
  XA := ![![(dimS (nfOwn xi (b / a)) a).XA, (dimS (nfOther xi (b / a)) a).XA],
    ![(flipS (dimS (nfOther xi (a / b)) b)).XA, (flipS (dimS (nfOwn xi (a / b)) b)).XA]]
  YA := ![![(dimS (nfOwn xi (b / a)) a).YA, (dimS (nfOther xi (b / a)) a).YA],
    ![(flipS (dimS (nfOther xi (a / b)) b)).YA, (flipS (dimS (nfOwn xi (a / b)) b)).YA]]
  YB := ![![(dimS (nfOwn xi (b / a)) a).YB, (dimS (nfOther xi (b / a)) a).YB],
    ![(flipS (dimS (nfOther xi (a / b)) b)).YB, (flipS (dimS (nfOwn xi (a / b)) b)).YB]]
  XC := ![![(dimS (nfOwn xi (b / a)) a).XC, (dimS (nfOther xi (b / a)) a).XC],
    ![(flipS (dimS (nfOther xi (a / b)) b)).XC, (flipS (dimS (nfOwn xi (a / b)) b)).XC]]
  YC := ![![(dimS (nfOwn xi (b / a)) a).YC, (dimS (nfOther xi (b / a)) a).YC],
    ![(flipS (dimS (nfOther xi (a / b)) b)).YC, (flipS (dimS (nfOwn xi (a / b)) b)).YC]]
  XG := ![![(dimS (nfOwn xi (b / a)) a).XG, (dimS (nfOther xi (b / a)) a).XG],
    ![(flipS (dimS (nfOther xi (a / b)) b)).XG, (flipS (dimS (nfOwn xi (a / b)) b)).XG]]
  YG := ![![(dimS (nfOwn xi (b / a)) a).YG, (dimS (nfOther xi (b / a)) a).YG],
    ![(flipS (dimS (nfOther xi (a / b)) b)).YG, (flipS (dimS (nfOwn xi (a / b)) b)).YG]]
  YH := ![![(dimS (nfOwn xi (b / a)) a).YH, (dimS (nfOther xi (b / a)) a).YH],
    ![(flipS (dimS (nfOther xi (a / b)) b)).YH, (flipS (dimS (nfOwn xi (a / b)) b)).YH]]
  XM := ![![(dimS (nfOwn xi (b / a)) a).XM, (dimS (nfOther xi (b / a)) a).XM],
    ![(flipS (dimS (nfOther xi (a / b)) b)).XM, (flipS (dimS (nfOwn xi (a / b)) b)).XM]]
  YM := ![![(dimS (nfOwn xi (b / a)) a).YM, (dimS (nfOther xi (b / a)) a).YM],
    ![(flipS (dimS (nfOther xi (a / b)) b)).YM, (flipS (dimS (nfOwn xi (a / b)) b)).YM]]
  ZM := ![![(dimS (nfOwn xi (b / a)) a).ZM, (dimS (nfOther xi (b / a)) a).ZM],
    ![(flipS (dimS (nfOther xi (a / b)) b)).ZM, (flipS (dimS (nfOwn xi (a / b)) b)).ZM]]

variable {a b : ℝ}

theorem mode_XA0_mix (a b : ℝ) :
    (fun xi => ((gapR a b xi).XA 0 0) + ((gapR a b xi).XA 0 1))
    = mix 0 ((6 * Real.pi * a)) ((6 * Real.pi * a))
    0 0 0 0
    (G1xa (b / a)) (G2xa (b / a)) (AX11 (b / a)) (G3xa (b / a))
    (-G1xa (b / a)) (-G2xa (b / a)) (1 / 2 * (1 + (b / a)) * AX12 (b / a)) (-G3xa (b / a)) := by
  funext xi
  simp only [gapR, dimS, flipS, nfOwn, nfOther, Matrix.cons_val_zero, Matrix.cons_val_one, X11A_lub, X12A_lub, mix]
  ring

theorem mode_XA0 (ha : 0 < a) (hb : 0 < b) :
    SettlesSmoothly fun xi => ((gapR a b xi).XA 0 0) + ((gapR a b xi).XA 0 1) := by
  rw [mode_XA0_mix a b]
  refine mix_smooth ?_ ?_ ?_
  · first
      | ring1
      | (field_simp; ring1)
      | (simp only [G1xa, G2xa, G3xa, zpow_neg, zpow_ofNat, zpow_one]; field_simp; ring1)
  · first
      | ring1
      | (field_simp; ring1)
      | (simp only [G1xa, G2xa, G3xa, zpow_neg, zpow_ofNat, zpow_one]; field_simp; ring1)
  · first
      | ring1
      | (field_simp; ring1)
      | (simp only [G1xa, G2xa, G3xa, zpow_neg, zpow_ofNat, zpow_one]; field_simp; ring1)

theorem mode_YA0_mix (a b : ℝ) :
    (fun xi => ((gapR a b xi).YA 0 0) + ((gapR a b xi).YA 0 1))
    = mix 0 ((6 * Real.pi * a)) ((6 * Real.pi * a))
    0 0 0 0
    0 (G2ya (b / a)) (AY11 (b / a)) (G3ya (b / a))
    0 (-G2ya (b / a)) (1 / 2 * (1 + (b / a)) * AY12 (b / a)) (-G3ya (b / a)) := by
  funext xi
  simp only [gapR, dimS, flipS, nfOwn, nfOther, Matrix.cons_val_zero, Matrix.cons_val_one, Y11A_lub, Y12A_lub, mix]
  ring

theorem mode_YA0 (ha : 0 < a) (hb : 0 < b) :
    SettlesSmoothly fun xi => ((gapR a b xi).YA 0 0) + ((gapR a b xi).YA 0 1) := by
  rw [mode_YA0_mix a b]
  refine mix_smooth ?_ ?_ ?_
  · first
      | ring1
      | (field_simp; ring1)
      | (simp only [G2ya, G3ya, zpow_neg, zpow_ofNat, zpow_one]; field_simp; ring1)
  · first
      | ring1
      | (field_simp; ring1)
      | (simp only [G2ya, G3ya, zpow_neg, zpow_ofNat, zpow_one]; field_simp; ring1)
  · first
      | ring1
      | (field_simp; ring1)
      | (simp only [G2ya, G3ya, zpow_neg, zpow_ofNat, zpow_one]; field_simp; ring1)

theorem mode_YB0_mix (a b : ℝ) :
    (fun xi => ((gapR a b xi).YB 0 0) + ((gapR a b xi).YB 0 1))
    = mix 0 ((4 * Real.pi * a ^ 2)) ((4 * Real.pi * a ^ 2))
    0 0 0 0
    0 (G2yb (b / a)) (BY11 (b / a)) (G3yb (b / a))
    0 (-G2yb (b / a)) (1 / 4 * (1 + (b / a)) ^ 2 * BY12 (b / a)) (-G3yb (b / a)) := by
  funext xi
  simp only [gapR, dimS, flipS, nfOwn, nfOther, Matrix.cons_val_zero, Matrix.cons_val_one, Y11B_lub, Y12B_lub, mix]
  ring

theorem mode_YB0 (ha : 0 < a) (hb : 0 < b) :
    SettlesSmoothly fun xi => ((gapR a b xi).YB 0 0) + ((gapR a b xi).YB 0 1) := by
  rw [mode_YB0_mix a b]
  refine mix_smooth ?_ ?_ ?_
  · first
      | ring1
      | (field_simp; ring1)
      | (simp only [G2yb, G3yb, zpow_neg, zpow_ofNat, zpow_one]; field_simp; ring1)
  · first
      | ring1
      | (field_simp; ring1)
      | (simp only [G2yb, G3yb, zpow_neg, zpow_ofNat, zpow_one]; field_simp; ring1)
  · first
      | ring1
      | (field_simp; ring1)
      | (simp only [G2yb, G3yb, zpow_neg, zpow_ofNat, zpow_one]; field_simp; ring1)

theorem mode_XC0_mix (a b : ℝ) :
    (fun xi => ((gapR a b xi).XC 0 0) + ((gapR a b xi).XC 0 1))
    = mix 0 ((8 * Real.pi * a ^ 3)) ((8 * Real.pi * a ^ 3))
    0 0 0 0
    0 0 ((b / a) ^ 3 / (1 + (b / a)) ^ 3 * zeta3 ((b / a) / (1 + (b / a)))) (-((b / a) ^ 2 / (4 * (1 + (b / a)))))
    0 0 (-(b / a) ^ 3 / (1 + (b / a)) ^ 3 * zeta3 1) (((b / a) ^ 2 / (4 * (1 + (b / a))))) := by
  funext xi
  simp only [gapR, dimS, flipS, nfOwn, nfOther, Matrix.cons_val_zero, Matrix.cons_val_one, X11C_lub, X12C_lub, mix]
  ring

theorem mode_XC0 (ha : 0 < a) (hb : 0 < b) :
    SettlesSmoothly fun xi => ((gapR a b xi).XC 0 0) + ((gapR a b xi).XC 0 1) := by
  rw [mode_XC0_mix a b]
  refine mix_smooth ?_ ?_ ?_
  · first
      | ring1
      | (field_simp; ring1)
      | (simp only [zpow_neg, zpow_ofNat, zpow_one]; field_simp; ring1)
  · first
      | ring1
      | (field_simp; ring1)
      | (simp only [zpow_neg, zpow_ofNat, zpow_one]; field_simp; ring1)
  · first
      | ring1
      | (field_simp; ring1)
      | (simp only [zpow_neg, zpow_ofNat, zpow_one]; field_simp; ring1)

theorem mode_XG0_mix (a b : ℝ) :
    (fun xi => ((gapR a b xi).XG 0 0) + ((gapR a b xi).XG 0 1))
    = mix 0 ((4 * Real.pi * a ^ 2)) ((4 * Real.pi * a ^ 2))
    0 0 0 0
    (G1xg (b / a)) (G2xg (b / a)) (GX11 (b / a)) (G3xg (b / a))
    (-G1xg (b / a)) (-G2xg (b / a)) (1 / 4 * (1 + (b / a)) ^ 2 * GX12 (b / a)) (-G3xg (b / a)) := by
  funext xi
  simp only [gapR, dimS, flipS, nfOwn, nfOther, Matrix.cons_val_zero, Matrix.cons_val_one, X11G_lub, X12G_lub, mix]
  ring

theorem mode_XG0 (ha : 0 < a) (hb : 0 < b) :
    SettlesSmoothly fun xi => ((gapR a b xi).XG 0 0) + ((gapR a b xi).XG 0 1) := by
  rw [mode_XG0_mix a b]
  refine mix_smooth ?_ ?_ ?_
  · first
      | ring1
      | (field_simp; ring1)
      | (simp only [G1xg, G2xg, G3xg, zpow_neg, zpow_ofNat, zpow_one]; field_simp; ring1)
  · first
      | ring1
      | (field_simp; ring1)
      | (simp only [G1xg, G2xg, G3xg, zpow_neg, zpow_ofNat, zpow_one]; field_simp; ring1)
  · first
      | ring1
      | (field_simp; ring1)
      | (simp only [G1xg, G2xg, G3xg, zpow_neg, zpow_ofNat, zpow_one]; field_simp; ring1)

theorem mode_YG0_mix (a b : ℝ) :
    (fun xi => ((gapR a b xi).YG 0 0) + ((gapR a b xi).YG 0 1))
    = mix 0 ((4 * Real.pi * a ^ 2)) ((4 * Real.pi * a ^ 2))
    0 0 0 0
    0 (G2yg (b / a)) (GY11 (b / a)) (G3yg (b / a))
    0 (-G2yg (b / a)) (1 / 4 * (1 + (b / a)) ^ 2 * GY12 (b / a)) (-G3yg (b / a)) := by
  funext xi
  simp only [gapR, dimS, flipS, nfOwn, nfOther, Matrix.cons_val_zero, Matrix.cons_val_one, Y11G_lub, Y12G_lub, mix]
  ring

theorem mode_YG0 (ha : 0 < a) (hb : 0 < b) :
    SettlesSmoothly fun xi => ((gapR a b xi).YG 0 0) + ((gapR a b xi).YG 0 1) := by
  rw [mode_YG0_mix a b]
  refine mix_smooth ?_ ?_ ?_
  · first
      | ring1
      | (field_simp; ring1)
      | (simp only [G2yg, G3yg, zpow_neg, zpow_ofNat, zpow_one]; field_simp; ring1)
  · first
      | ring1
      | (field_simp; ring1)
      | (simp only [G2yg, G3yg, zpow_neg, zpow_ofNat, zpow_one]; field_simp; ring1)
  · first
      | ring1
      | (field_simp; ring1)
      | (simp only [G2yg, G3yg, zpow_neg, zpow_ofNat, zpow_one]; field_simp; ring1)

theorem mode_ZM0_mix (a b : ℝ) :
    (fun xi => ((gapR a b xi).ZM 0 0) + ((gapR a b xi).ZM 0 1))
    = mix 0 ((20 / 3 * Real.pi * a ^ 3)) ((20 / 3 * Real.pi * a ^ 3))
    0 0 0 0
    0 0 (MZ11 (b / a)) (G3zm (b / a))
    0 0 (1 / 8 * (1 + (b / a)) ^ 3 * MZ12 (b / a)) (-G3zm (b / a)) := by
  funext xi
  simp only [gapR, dimS, flipS, nfOwn, nfOther, Matrix.cons_val_zero, Matrix.cons_val_one, Z11M_lub, Z12M_lub, mix]
  ring

theorem mode_ZM0 (ha : 0 < a) (hb : 0 < b) :
    SettlesSmoothly fun xi => ((gapR a b xi).ZM 0 0) + ((gapR a b xi).ZM 0 1) := by
  rw [mode_ZM0_mix a b]
  refine mix_smooth ?_ ?_ ?_
  · first
      | ring1
      | (field_simp; ring1)
      | (simp only [G3zm, zpow_neg, zpow_ofNat, zpow_one]; field_simp; ring1)
  · first
      | ring1
      | (field_simp; ring1)
      | (simp only [G3zm, zpow_neg, zpow_ofNat, zpow_one]; field_simp; ring1)
  · first
      | ring1
      | (field_simp; ring1)
      | (simp only [G3zm, zpow_neg, zpow_ofNat, zpow_one]; field_simp; ring1)

theorem mode_YAB0_mix (a b : ℝ) :
    (fun xi => ((gapR a b xi).YA 0 1 * ((a + b) * (2 + xi) / 2)) + -((gapR a b xi).YB 0 0) + -((gapR a b xi).YB 1 0))
    = mix (((6 * Real.pi * a) * (a + b))) (-(4 * Real.pi * a ^ 2)) (-(-(4 * Real.pi * b ^ 2)))
    0 (-G2ya (b / a)) (1 / 2 * (1 + (b / a)) * AY12 (b / a)) (-G3ya (b / a))
    0 (G2yb (b / a)) (BY11 (b / a)) (G3yb (b / a))
    0 (-G2yb (a / b)) (1 / 4 * (1 + (a / b)) ^ 2 * BY12 (a / b)) (-G3yb (a / b)) := by
  funext xi
  simp only [gapR, dimS, flipS, nfOwn, nfOther, Matrix.cons_val_zero, Matrix.cons_val_one, Y11B_lub, Y12A_lub, Y12B_lub, mix]
  ring

theorem mode_YAB0 (ha : 0 < a) (hb : 0 < b) :
    SettlesSmoothly fun xi => ((gapR a b xi).YA 0 1 * ((a + b) * (2 + xi) / 2)) + -((gapR a b xi).YB 0 0) + -((gapR a b xi).YB 1 0) := by
  rw [mode_YAB0_mix a b]
  refine mix_smooth ?_ ?_ ?_
  · first
      | ring1
      | (field_simp; ring1)
      | (simp only [G2ya, G2yb, G3ya, G3yb, zpow_neg, zpow_ofNat, zpow_one]; field_simp; ring1)
  · first
      | ring1
      | (field_simp; ring1)
      | (simp only [G2ya, G2yb, G3ya, G3yb, zpow_neg, zpow_ofNat, zpow_one]; field_simp; ring1)
  · first
      | ring1
      | (field_simp; ring1)
      | (simp only [G2ya, G2yb, G3ya, G3yb, zpow_neg, zpow_ofNat, zpow_one]; field_simp; ring1)

theorem mode_XAG0_mix (a b : ℝ) :
    (fun xi => ((gapR a b xi).XA 0 1 * ((a + b) * (2 + xi) / 2)) + ((gapR a b xi).XG 0 0) + ((gapR a b xi).XG 1 0))
    = mix (((6 * Real.pi * a) * (a + b))) ((4 * Real.pi * a ^ 2)) ((-(4 * Real.pi * b ^ 2)))
    (-G1xa (b / a)) (-G2xa (b / a)) (1 / 2 * (1 + (b / a)) * AX12 (b / a)) (-G3xa (b / a))
    (G1xg (b / a)) (G2xg (b / a)) (GX11 (b / a)) (G3xg (b / a))
    (-G1xg (a / b)) (-G2xg (a / b)) (1 / 4 * (1 + (a / b)) ^ 2 * GX12 (a / b)) (-G3xg (a / b)) := by
  funext xi
  simp only [gapR, dimS, flipS, nfOwn, nfOther, Matrix.cons_val_zero, Matrix.cons_val_one, X11G_lub, X12A_lub, X12G_lub, mix]
  ring

theorem mode_XAG0 (ha : 0 < a) (hb : 0 < b) :
    SettlesSmoothly fun xi => ((gapR a b xi).XA 0 1 * ((a + b) * (2 + xi) / 2)) + ((gapR a b xi).XG 0 0) + ((gapR a b xi).XG 1 0) := by
  rw [mode_XAG0_mix a b]
  refine mix_smooth ?_ ?_ ?_
  · first
      | ring1
      | (field_simp; ring1)
      | (simp only [G1xa, G1xg, G2xa, G2xg, G3xa, G3xg, zpow_neg, zpow_ofNat, zpow_one]; field_simp; ring1)
  · first
      | ring1
      | (field_simp; ring1)
      | (simp only [G1xa, G1xg, G2xa, G2xg, G3xa, G3xg, zpow_neg, zpow_ofNat, zpow_one]; field_simp; ring1)
  · first
      | ring1
      | (field_simp; ring1)
      | (simp only [G1xa, G1xg, G2xa, G2xg, G3xa, G3xg, zpow_neg, zpow_ofNat, zpow_one]; field_simp; ring1)

theorem mode_YAG0_mix (a b : ℝ) :
    (fun xi => ((gapR a b xi).YA 0 1 * ((a + b) * (2 + xi) / 2)) + 2 * ((gapR a b xi).YG 0 0) + 2 * ((gapR a b xi).YG 1 0))
    = mix (((6 * Real.pi * a) * (a + b))) (2 * (4 * Real.pi * a ^ 2)) (2 * (-(4 * Real.pi * b ^ 2)))
    0 (-G2ya (b / a)) (1 / 2 * (1 + (b / a)) * AY12 (b / a)) (-G3ya (b / a))
    0 (G2yg (b / a)) (GY11 (b / a)) (G3yg (b / a))
    0 (-G2yg (a / b)) (1 / 4 * (1 + (a / b)) ^ 2 * GY12 (a / b)) (-G3yg (a / b)) := by
  funext xi
  simp only [gapR, dimS, flipS, nfOwn, nfOther, Matrix.cons_val_zero, Matrix.cons_val_one, Y11G_lub, Y12A_lub, Y12G_lub, mix]
  ring

theorem mode_YAG0 (ha : 0 < a) (hb : 0 < b) :
    SettlesSmoothly fun xi => ((gapR a b xi).YA 0 1 * ((a + b) * (2 + xi) / 2)) + 2 * ((gapR a b xi).YG 0 0) + 2 * ((gapR a b xi).YG 1 0) := by
  rw [mode_YAG0_mix a b]
  refine mix_smooth ?_ ?_ ?_
  · first
      | ring1
      | (field_simp; ring1)
      | (simp only [G2ya, G2yg, G3ya, G3yg, zpow_neg, zpow_ofNat, zpow_one]; field_simp; ring1)
  · first
      | ring1
      | (field_simp; ring1)
      | (simp only [G2ya, G2yg, G3ya, G3yg, zpow_neg, zpow_ofNat, zpow_one]; field_simp; ring1)
  · first
      | ring1
      | (field_simp; ring1)
      | (simp only [G2ya, G2yg, G3ya, G3yg, zpow_neg, zpow_ofNat, zpow_one]; field_simp; ring1)

theorem mode_YBC0_mix (a b : ℝ) :
    (fun xi => -((gapR a b xi).YB 0 1 * ((a + b) * (2 + xi) / 2)) + ((gapR a b xi).YC 0 0) + ((gapR a b xi).YC 0 1))
    = mix (-((4 * Real.pi * a ^ 2) * (a + b))) ((8 * Real.pi * a ^ 3)) ((8 * Real.pi * a ^ 3))
    0 (-G2yb (b / a)) (1 / 4 * (1 + (b / a)) ^ 2 * BY12 (b / a)) (-G3yb (b / a))
    0 (G2yc (b / a)) (CY11 (b / a)) (G3yc (b / a))
    0 (G4yc (b / a)) ((1 + (b / a)) ^ 3 / 8 * CY12 (b / a)) (G5yc (b / a)) := by
  funext xi
  simp only [gapR, dimS, flipS, nfOwn, nfOther, Matrix.cons_val_zero, Matrix.cons_val_one, Y11C_lub, Y12B_lub, Y12C_lub, mix]
  ring

theorem mode_YBC0 (ha : 0 < a) (hb : 0 < b) :
    SettlesSmoothly fun xi => -((gapR a b xi).YB 0 1 * ((a + b) * (2 + xi) / 2)) + ((gapR a b xi).YC 0 0) + ((gapR a b xi).YC 0 1) := by
  rw [mode_YBC0_mix a b]
  refine mix_smooth ?_ ?_ ?_
  · first
      | ring1
      | (field_simp; ring1)
      | (simp only [G2yb, G2yc, G3yb, G3yc, G4yc, G5yc, zpow_neg, zpow_ofNat, zpow_one]; field_simp; ring1)
  · first
      | ring1
      | (field_simp; ring1)
      | (simp only [G2yb, G2yc, G3yb, G3yc, G4yc, G5yc, zpow_neg, zpow_ofNat, zpow_one]; field_simp; ring1)
  · first
      | ring1
      | (field_simp; ring1)
      | (simp only [G2yb, G2yc, G3yb, G3yc, G4yc, G5yc, zpow_neg, zpow_ofNat, zpow_one]; field_simp; ring1)

theorem mode_YBH0_mix (a b : ℝ) :
    (fun xi => ((gapR a b xi).YB 0 1 * ((a + b) * (2 + xi) / 2)) + -2 * ((gapR a b xi).YH 0 0) + -2 * ((gapR a b xi).YH 1 0))
    = mix (((4 * Real.pi * a ^ 2) * (a + b))) (-2 * (8 * Real.pi * a ^ 3)) (-2 * (8 * Real.pi * b ^ 3))
    0 (-G2yb (b / a)) (1 / 4 * (1 + (b / a)) ^ 2 * BY12 (b / a)) (-G3yb (b / a))
    0 (G2yh (b / a)) (HY11 (b / a)) (G3yh (b / a))
    0 (G5yh (a / b)) ((1 + (a / b)) ^ 3 / 8 * HY12 (a / b)) (G6yh (a / b)) := by
  funext xi
  simp only [gapR, dimS, flipS, nfOwn, nfOther, Matrix.cons_val_zero, Matrix.cons_val_one, Y11H_lub, Y12B_lub, Y12H_lub, mix]
  ring

theorem mode_YBH0 (ha : 0 < a) (hb : 0 < b) :
    SettlesSmoothly fun xi => ((gapR a b xi).YB 0 1 * ((a + b) * (2 + xi) / 2)) + -2 * ((gapR a b xi).YH 0 0) + -2 * ((gapR a b xi).YH 1 0) := by
  rw [mode_YBH0_mix a b]
  refine mix_smooth ?_ ?_ ?_
  · first
      | ring1
      | (field_simp; ring1)
      | (simp only [G2yb, G2yh, G3yb, G3yh, G5yh, G6yh, zpow_neg, zpow_ofNat, zpow_one]; field_simp; ring1)
  · first
      | ring1
      | (field_simp; ring1)
      | (simp only [G2yb, G2yh, G3yb, G3yh, G5yh, G6yh, zpow_neg, zpow_ofNat, zpow_one]; field_simp; ring1)
  · first
      | ring1
      | (field_simp; ring1)
      | (simp only [G2yb, G2yh, G3yb, G3yh, G5yh, G6yh, zpow_neg, zpow_ofNat, zpow_one]; field_simp; ring1)

theorem mode_YGH0_mix (a b : ℝ) :
    (fun xi => ((gapR a b xi).YG 0 1 * ((a + b) * (2 + xi) / 2)) + ((gapR a b xi).YH 0 0) + ((gapR a b xi).YH 0 1))
    = mix (((4 * Real.pi * a ^ 2) * (a + b))) ((8 * Real.pi * a ^ 3)) ((8 * Real.pi * a ^ 3))
    0 (-G2yg (b / a)) (1 / 4 * (1 + (b / a)) ^ 2 * GY12 (b / a)) (-G3yg (b / a))
    0 (G2yh (b / a)) (HY11 (b / a)) (G3yh (b / a))
    0 (G5yh (b / a)) ((1 + (b / a)) ^ 3 / 8 * HY12 (b / a)) (G6yh (b / a)) := by
  funext xi
  simp only [gapR, dimS, flipS, nfOwn, nfOther, Matrix.cons_val_zero, Matrix.cons_val_one, Y11H_lub, Y12G_lub, Y12H_lub, mix]
  ring

theorem mode_YGH0 (ha : 0 < a) (hb : 0 < b) :
    SettlesSmoothly fun xi => ((gapR a b xi).YG 0 1 * ((a + b) * (2 + xi) / 2)) + ((gapR a b xi).YH 0 0) + ((gapR a b xi).YH 0 1) := by
  rw [mode_YGH0_mix a b]
  refine mix_smooth ?_ ?_ ?_
  · first
      | ring1
      | (field_simp; ring1)
      | (simp only [G2yg, G2yh, G3yg, G3yh, G5yh, G6yh, zpow_neg, zpow_ofNat, zpow_one]; field_simp; ring1)
  · first
      | ring1
      | (field_simp; ring1)
      | (simp only [G2yg, G2yh, G3yg, G3yh, G5yh, G6yh, zpow_neg, zpow_ofNat, zpow_one]; field_simp; ring1)
  · first
      | ring1
      | (field_simp; ring1)
      | (simp only [G2yg, G2yh, G3yg, G3yh, G5yh, G6yh, zpow_neg, zpow_ofNat, zpow_one]; field_simp; ring1)

theorem mode_XGM0_mix (a b : ℝ) :
    (fun xi => 2 / 3 * ((gapR a b xi).XG 0 1 * ((a + b) * (2 + xi) / 2)) + ((gapR a b xi).XM 0 0) + ((gapR a b xi).XM 0 1))
    = mix (2 / 3 * ((4 * Real.pi * a ^ 2) * (a + b))) ((20 / 3 * Real.pi * a ^ 3)) ((20 / 3 * Real.pi * a ^ 3))
    (-G1xg (b / a)) (-G2xg (b / a)) (1 / 4 * (1 + (b / a)) ^ 2 * GX12 (b / a)) (-G3xg (b / a))
    (G1xm (b / a)) (G2xm (b / a)) (MX11 (b / a)) (G3xm (b / a))
    (G4xm (b / a)) (G5xm (b / a)) (1 / 8 * (1 + (b / a)) ^ 3 * MX12 (b / a)) (G6xm (b / a)) := by
  funext xi
  simp only [gapR, dimS, flipS, nfOwn, nfOther, Matrix.cons_val_zero, Matrix.cons_val_one, X11M_lub, X12G_lub, X12M_lub, mix]
  ring

theorem mode_XGM0 (ha : 0 < a) (hb : 0 < b) :
    SettlesSmoothly fun xi => 2 / 3 * ((gapR a b xi).XG 0 1 * ((a + b) * (2 + xi) / 2)) + ((gapR a b xi).XM 0 0) + ((gapR a b xi).XM 0 1) := by
  rw [mode_XGM0_mix a b]
  refine mix_smooth ?_ ?_ ?_
  · first
      | ring1
      | (field_simp; ring1)
      | (simp only [G1xg, G1xm, G2xg, G2xm, G3xg, G3xm, G4xm, G5xm, G6xm, zpow_neg, zpow_ofNat, zpow_one]; field_simp; ring1)
  · first
      | ring1
      | (field_simp; ring1)
      | (simp only [G1xg, G1xm, G2xg, G2xm, G3xg, G3xm, G4xm, G5xm, G6xm, zpow_neg, zpow_ofNat, zpow_one]; field_simp; ring1)
  · first
      | ring1
      | (field_simp; ring1)
      | (simp only [G1xg, G1xm, G2xg, G2xm, G3xg, G3xm, G4xm, G5xm, G6xm, zpow_neg, zpow_ofNat, zpow_one]; field_simp; ring1)

theorem mode_YGM0_mix (a b : ℝ) :
    (fun xi => ((gapR a b xi).YG 0 1 * ((a + b) * (2 + xi) / 2)) + ((gapR a b xi).YM 0 0) + ((gapR a b xi).YM 0 1))
    = mix (((4 * Real.pi * a ^ 2) * (a + b))) ((20 / 3 * Real.pi * a ^ 3)) ((20 / 3 * Real.pi * a ^ 3))
    0 (-G2yg (b / a)) (1 / 4 * (1 + (b / a)) ^ 2 * GY12 (b / a)) (-G3yg (b / a))
    0 (G2ym (b / a)) (MY11 (b / a)) (G3ym (b / a))
    0 (G5ym (b / a)) (1 / 8 * (1 + (b / a)) ^ 3 * MY12 (b / a)) (G6ym (b / a)) := by
  funext xi
  simp only [gapR, dimS, flipS, nfOwn, nfOther, Matrix.cons_val_zero, Matrix.cons_val_one, Y11M_lub, Y12G_lub, Y12M_lub, mix]
  ring

theorem mode_YGM0 (ha : 0 < a) (hb : 0 < b) :
    Settles fun xi => ((gapR a b xi).YG 0 1 * ((a + b) * (2 + xi) / 2)) + ((gapR a b xi).YM 0 0) + ((gapR a b xi).YM 0 1) := by
  rw [mode_YGM0_mix a b]
  refine mix_settles ?_ ?_
  · first
      | ring1
      | (field_simp; ring1)
      | (simp only [G2yg, G2ym, G3yg, G3ym, G5ym, G6ym, zpow_neg, zpow_ofNat, zpow_one]; field_simp; ring1)
  · first
      | ring1
      | (field_simp; ring1)
      | (simp only [G2yg, G2ym, G3yg, G3ym, G5ym, G6ym, zpow_neg, zpow_ofNat, zpow_one]; field_simp; ring1)

theorem mode_XA1_mix (a b : ℝ) :
    (fun xi => ((gapR a b xi).XA 1 0) + ((gapR a b xi).XA 1 1))
    = mix 0 ((6 * Real.pi * b)) ((6 * Real.pi * b))
    0 0 0 0
    (-G1xa (a / b)) (-G2xa (a / b)) (1 / 2 * (1 + (a / b)) * AX12 (a / b)) (-G3xa (a / b))
    (G1xa (a / b)) (G2xa (a / b)) (AX11 (a / b)) (G3xa (a / b)) := by
  funext xi
  simp only [gapR, dimS, flipS, nfOwn, nfOther, Matrix.cons_val_zero, Matrix.cons_val_one, X11A_lub, X12A_lub, mix]
  ring

theorem mode_XA1 (ha : 0 < a) (hb : 0 < b) :
    SettlesSmoothly fun xi => ((gapR a b xi).XA 1 0) + ((gapR a b xi).XA 1 1) := by
  rw [mode_XA1_mix a b]
  refine mix_smooth ?_ ?_ ?_
  · first
      | ring1
      | (field_simp; ring1)
      | (simp only [G1xa, G2xa, G3xa, zpow_neg, zpow_ofNat, zpow_one]; field_simp; ring1)
  · first
      | ring1
      | (field_simp; ring1)
      | (simp only [G1xa, G2xa, G3xa, zpow_neg, zpow_ofNat, zpow_one]; field_simp; ring1)
  · first
      | ring1
      | (field_simp; ring1)
      | (simp only [G1xa, G2xa, G3xa, zpow_neg, zpow_ofNat, zpow_one]; field_simp; ring1)

theorem mode_YA1_mix (a b : ℝ) :
    (fun xi => ((gapR a b xi).YA 1 0) + ((gapR a b xi).YA 1 1))
    = mix 0 ((6 * Real.pi * b)) ((6 * Real.pi * b))
    0 0 0 0
    0 (-G2ya (a / b)) (1 / 2 * (1 + (a / b)) * AY12 (a / b)) (-G3ya (a / b))
    0 (G2ya (a / b)) (AY11 (a / b)) (G3ya (a / b)) := by
  funext xi
  simp only [gapR, dimS, flipS, nfOwn, nfOther, Matrix.cons_val_zero, Matrix.cons_val_one, Y11A_lub, Y12A_lub, mix]
  ring

theorem mode_YA1 (ha : 0 < a) (hb : 0 < b) :
    SettlesSmoothly fun xi => ((gapR a b xi).YA 1 0) + ((gapR a b xi).YA 1 1) := by
  rw [mode_YA1_mix a b]
  refine mix_smooth ?_ ?_ ?_
  · first
      | ring1
      | (field_simp; ring1)
      | (simp only [G2ya, G3ya, zpow_neg, zpow_ofNat, zpow_one]; field_simp; ring1)
  · first
      | ring1
      | (field_simp; ring1)
      | (simp only [G2ya, G3ya, zpow_neg, zpow_ofNat, zpow_one]; field_simp; ring1)
  · first
      | ring1
      | (field_simp; ring1)
      | (simp only [G2ya, G3ya, zpow_neg, zpow_ofNat, zpow_one]; field_simp; ring1)

theorem mode_YB1_mix (a b : ℝ) :
    (fun xi => ((gapR a b xi).YB 1 0) + ((gapR a b xi).YB 1 1))
    = mix 0 ((-(4 * Real.pi * b ^ 2))) ((-(4 * Real.pi * b ^ 2)))
    0 0 0 0
    0 (-G2yb (a / b)) (1 / 4 * (1 + (a / b)) ^ 2 * BY12 (a / b)) (-G3yb (a / b))
    0 (G2yb (a / b)) (BY11 (a / b)) (G3yb (a / b)) := by
  funext xi
  simp only [gapR, dimS, flipS, nfOwn, nfOther, Matrix.cons_val_zero, Matrix.cons_val_one, Y11B_lub, Y12B_lub, mix]
  ring

theorem mode_YB1 (ha : 0 < a) (hb : 0 < b) :
    SettlesSmoothly fun xi => ((gapR a b xi).YB 1 0) + ((gapR a b xi).YB 1 1) := by
  rw [mode_YB1_mix a b]
  refine mix_smooth ?_ ?_ ?_
  · first
      | ring1
      | (field_simp; ring1)
      | (simp only [G2yb, G3yb, zpow_neg, zpow_ofNat, zpow_one]; field_simp; ring1)
  · first
      | ring1
      | (field_simp; ring1)
      | (simp only [G2yb, G3yb, zpow_neg, zpow_ofNat, zpow_one]; field_simp; ring1)
  · first
      | ring1
      | (field_simp; ring1)
      | (simp only [G2yb, G3yb, zpow_neg, zpow_ofNat, zpow_one]; field_simp; ring1)

theorem mode_XC1_mix (a b : ℝ) :
    (fun xi => ((gapR a b xi).XC 1 0) + ((gapR a b xi).XC 1 1))
    = mix 0 ((8 * Real.pi * b ^ 3)) ((8 * Real.pi * b ^ 3))
    0 0 0 0
    0 0 (-(a / b) ^ 3 / (1 + (a / b)) ^ 3 * zeta3 1) (((a / b) ^ 2 / (4 * (1 + (a / b)))))
    0 0 ((a / b) ^ 3 / (1 + (a / b)) ^ 3 * zeta3 ((a / b) / (1 + (a / b)))) (-((a / b) ^ 2 / (4 * (1 + (a / b))))) := by
  funext xi
  simp only [gapR, dimS, flipS, nfOwn, nfOther, Matrix.cons_val_zero, Matrix.cons_val_one, X11C_lub, X12C_lub, mix]
  ring

theorem mode_XC1 (ha : 0 < a) (hb : 0 < b) :
    SettlesSmoothly fun xi => ((gapR a b xi).XC 1 0) + ((gapR a b xi).XC 1 1) := by
  rw [mode_XC1_mix a b]
  refine mix_smooth ?_ ?_ ?_
  · first
      | ring1
      | (field_simp; ring1)
      | (simp only [zpow_neg, zpow_ofNat, zpow_one]; field_simp; ring1)
  · first
      | ring1
      | (field_simp; ring1)
      | (simp only [zpow_neg, zpow_ofNat, zpow_one]; field_simp; ring1)
  · first
      | ring1
      | (field_simp; ring1)
      | (simp only [zpow_neg, zpow_ofNat, zpow_one]; field_simp; ring1)

theorem mode_XG1_mix (a b : ℝ) :
    (fun xi => ((gapR a b xi).XG 1 0) + ((gapR a b xi).XG 1 1))
    = mix 0 ((-(4 * Real.pi * b ^ 2))) ((-(4 * Real.pi * b ^ 2)))
    0 0 0 0
    (-G1xg (a / b)) (-G2xg (a / b)) (1 / 4 * (1 + (a / b)) ^ 2 * GX12 (a / b)) (-G3xg (a / b))
    (G1xg (a / b)) (G2xg (a / b)) (GX11 (a / b)) (G3xg (a / b)) := by
  funext xi
  simp only [gapR, dimS, flipS, nfOwn, nfOther, Matrix.cons_val_zero, Matrix.cons_val_one, X11G_lub, X12G_lub, mix]
  ring

theorem mode_XG1 (ha : 0 < a) (hb : 0 < b) :
    SettlesSmoothly fun xi => ((gapR a b xi).XG 1 0) + ((gapR a b xi).XG 1 1) := by
  rw [mode_XG1_mix a b]
  refine mix_smooth ?_ ?_ ?_
  · first
      | ring1
      | (field_simp; ring1)
      | (simp only [G1xg, G2xg, G3xg, zpow_neg, zpow_ofNat, zpow_one]; field_simp; ring1)
  · first
      | ring1
      | (field_simp; ring1)
      | (simp only [G1xg, G2xg, G3xg, zpow_neg, zpow_ofNat, zpow_one]; field_simp; ring1)
  · first
      | ring1
      | (field_simp; ring1)
      | (simp only [G1xg, G2xg, G3xg, zpow_neg, zpow_ofNat, zpow_one]; field_simp; ring1)

theorem mode_YG1_mix (a b : ℝ) :
    (fun xi => ((gapR a b xi).YG 1 0) + ((gapR a b xi).YG 1 1))
    = mix 0 ((-(4 * Real.pi * b ^ 2))) ((-(4 * Real.pi * b ^ 2)))
    0 0 0 0
    0 (-G2yg (a / b)) (1 / 4 * (1 + (a / b)) ^ 2 * GY12 (a / b)) (-G3yg (a / b))
    0 (G2yg (a / b)) (GY11 (a / b)) (G3yg (a / b)) := by
  funext xi
  simp only [gapR, dimS, flipS, nfOwn, nfOther, Matrix.cons_val_zero, Matrix.cons_val_one, Y11G_lub, Y12G_lub, mix]
  ring

theorem mode_YG1 (ha : 0 < a) (hb : 0 < b) :
    SettlesSmoothly fun xi => ((gapR a b xi).YG 1 0) + ((gapR a b xi).YG 1 1) := by
  rw [mode_YG1_mix a b]
  refine mix_smooth ?_ ?_ ?_
  · first
      | ring1
      | (field_simp; ring1)
      | (simp only [G2yg, G3yg, zpow_neg, zpow_ofNat, zpow_one]; field_simp; ring1)
  · first
      | ring1
      | (field_simp; ring1)
      | (simp only [G2yg, G3yg, zpow_neg, zpow_ofNat, zpow_one]; field_simp; ring1)
  · first
      | ring1
      | (field_simp; ring1)
      | (simp only [G2yg, G3yg, zpow_neg, zpow_ofNat, zpow_one]; field_simp; ring1)

theorem mode_ZM1_mix (a b : ℝ) :
    (fun xi => ((gapR a b xi).ZM 1 0) + ((gapR a b xi).ZM 1 1))
    = mix 0 ((20 / 3 * Real.pi * b ^ 3)) ((20 / 3 * Real.pi * b ^ 3))
    0 0 0 0
    0 0 (1 / 8 * (1 + (a / b)) ^ 3 * MZ12 (a / b)) (-G3zm (a / b))
    0 0 (MZ11 (a / b)) (G3zm (a / b)) := by
  funext xi
  simp only [gapR, dimS, flipS, nfOwn, nfOther, Matrix.cons_val_zero, Matrix.cons_val_one, Z11M_lub, Z12M_lub, mix]
  ring

theorem mode_ZM1 (ha : 0 < a) (hb : 0 < b) :
    SettlesSmoothly fun xi => ((gapR a b xi).ZM 1 0) + ((gapR a b xi).ZM 1 1) := by
  rw [mode_ZM1_mix a b]
  refine mix_smooth ?_ ?_ ?_
  · first
      | ring1
      | (field_simp; ring1)
      | (simp only [G3zm, zpow_neg, zpow_ofNat, zpow_one]; field_simp; ring1)
  · first
      | ring1
      | (field_simp; ring1)
      | (simp only [G3zm, zpow_neg, zpow_ofNat, zpow_one]; field_simp; ring1)
  · first
      | ring1
      | (field_simp; ring1)
      | (simp only [G3zm, zpow_neg, zpow_ofNat, zpow_one]; field_simp; ring1)

theorem mode_YAB1_mix (a b : ℝ) :
    (fun xi => ((gapR a b xi).YA 1 1 * ((a + b) * (2 + xi) / 2)) + -((gapR a b xi).YB 0 1) + -((gapR a b xi).YB 1 1))
    = mix (((6 * Real.pi * b) * (a + b))) (-(4 * Real.pi * a ^ 2)) (-(-(4 * Real.pi * b ^ 2)))
    0 (G2ya (a / b)) (AY11 (a / b)) (G3ya (a / b))
    0 (-G2yb (b / a)) (1 / 4 * (1 + (b / a)) ^ 2 * BY12 (b / a)) (-G3yb (b / a))
    0 (G2yb (a / b)) (BY11 (a / b)) (G3yb (a / b)) := by
  funext xi
  simp only [gapR, dimS, flipS, nfOwn, nfOther, Matrix.cons_val_zero, Matrix.cons_val_one, Y11A_lub, Y11B_lub, Y12B_lub, mix]
  ring

theorem mode_YAB1 (ha : 0 < a) (hb : 0 < b) :
    SettlesSmoothly fun xi => ((gapR a b xi).YA 1 1 * ((a + b) * (2 + xi) / 2)) + -((gapR a b xi).YB 0 1) + -((gapR a b xi).YB 1 1) := by
  rw [mode_YAB1_mix a b]
  refine mix_smooth ?_ ?_ ?_
  · first
      | ring1
      | (field_simp; ring1)
      | (simp only [G2ya, G2yb, G3ya, G3yb, zpow_neg, zpow_ofNat, zpow_one]; field_simp; ring1)
  · first
      | ring1
      | (field_simp; ring1)
      | (simp only [G2ya, G2yb, G3ya, G3yb, zpow_neg, zpow_ofNat, zpow_one]; field_simp; ring1)
  · first
      | ring1
      | (field_simp; ring1)
      | (simp only [G2ya, G2yb, G3ya, G3yb, zpow_neg, zpow_ofNat, zpow_one]; field_simp; ring1)

theorem mode_XAG1_mix (a b : ℝ) :
    (fun xi => ((gapR a b xi).XA 1 1 * ((a + b) * (2 + xi) / 2)) + ((gapR a b xi).XG 0 1) + ((gapR a b xi).XG 1 1))
    = mix (((6 * Real.pi * b) * (a + b))) ((4 * Real.pi * a ^ 2)) ((-(4 * Real.pi * b ^ 2)))
    (G1xa (a / b)) (G2xa (a / b)) (AX11 (a / b)) (G3xa (a / b))
    (-G1xg (b / a)) (-G2xg (b / a)) (1 / 4 * (1 + (b / a)) ^ 2 * GX12 (b / a)) (-G3xg (b / a))
    (G1xg (a / b)) (G2xg (a / b)) (GX11 (a / b)) (G3xg (a / b)) := by
  funext xi
  simp only [gapR, dimS, flipS, nfOwn, nfOther, Matrix.cons_val_zero, Matrix.cons_val_one, X11A_lub, X11G_lub, X12G_lub, mix]
  ring

theorem mode_XAG1 (ha : 0 < a) (hb : 0 < b) :
    SettlesSmoothly fun xi => ((gapR a b xi).XA 1 1 * ((a + b) * (2 + xi) / 2)) + ((gapR a b xi).XG 0 1) + ((gapR a b xi).XG 1 1) := by
  rw [mode_XAG1_mix a b]
  refine mix_smooth ?_ ?_ ?_
  · first
      | ring1
      | (field_simp; ring1)
      | (simp only [G1xa, G1xg, G2xa, G2xg, G3xa, G3xg, zpow_neg, zpow_ofNat, zpow_one]; field_simp; ring1)
  · first
      | ring1
      | (field_simp; ring1)
      | (simp only [G1xa, G1xg, G2xa, G2xg, G3xa, G3xg, zpow_neg, zpow_ofNat, zpow_one]; field_simp; ring1)
  · first
      | ring1
      | (field_simp; ring1)
      | (simp only [G1xa, G1xg, G2xa, G2xg, G3xa, G3xg, zpow_neg, zpow_ofNat, zpow_one]; field_simp; ring1)

theorem mode_YAG1_mix (a b : ℝ) :
    (fun xi => ((gapR a b xi).YA 1 1 * ((a + b) * (2 + xi) / 2)) + 2 * ((gapR a b xi).YG 0 1) + 2 * ((gapR a b xi).YG 1 1))
    = mix (((6 * Real.pi * b) * (a + b))) (2 * (4 * Real.pi * a ^ 2)) (2 * (-(4 * Real.pi * b ^ 2)))
    0 (G2ya (a / b)) (AY11 (a / b)) (G3ya (a / b))
    0 (-G2yg (b / a)) (1 / 4 * (1 + (b / a)) ^ 2 * GY12 (b / a)) (-G3yg (b / a))
    0 (G2yg (a / b)) (GY11 (a / b)) (G3yg (a / b)) := by
  funext xi
  simp only [gapR, dimS, flipS, nfOwn, nfOther, Matrix.cons_val_zero, Matrix.cons_val_one, Y11A_lub, Y11G_lub, Y12G_lub, mix]
  ring

theorem mode_YAG1 (ha : 0 < a) (hb : 0 < b) :
    SettlesSmoothly fun xi => ((gapR a b xi).YA 1 1 * ((a + b) * (2 + xi) / 2)) + 2 * ((gapR a b xi).YG 0 1) + 2 * ((gapR a b xi).YG 1 1) := by
  rw [mode_YAG1_mix a b]
  refine mix_smooth ?_ ?_ ?_
  · first
      | ring1
      | (field_simp; ring1)
      | (simp only [G2ya, G2yg, G3ya, G3yg, zpow_neg, zpow_ofNat, zpow_one]; field_simp; ring1)
  · first
      | ring1
      | (field_simp; ring1)
      | (simp only [G2ya, G2yg, G3ya, G3yg, zpow_neg, zpow_ofNat, zpow_one]; field_simp; ring1)
  · first
      | ring1
      | (field_simp; ring1)
      | (simp only [G2ya, G2yg, G3ya, G3yg, zpow_neg, zpow_ofNat, zpow_one]; field_simp; ring1)

theorem mode_YBC1_mix (a b : ℝ) :
    (fun xi => -((gapR a b xi).YB 1 1 * ((a + b) * (2 + xi) / 2)) + ((gapR a b xi).YC 1 0) + ((gapR a b xi).YC 1 1))
    = mix (-((-(4 * Real.pi * b ^ 2)) * (a + b))) ((8 * Real.pi * b ^ 3)) ((8 * Real.pi * b ^ 3))
    0 (G2yb (a / b)) (BY11 (a / b)) (G3yb (a / b))
    0 (G4yc (a / b)) ((1 + (a / b)) ^ 3 / 8 * CY12 (a / b)) (G5yc (a / b))
    0 (G2yc (a / b)) (CY11 (a / b)) (G3yc (a / b)) := by
  funext xi
  simp only [gapR, dimS, flipS, nfOwn, nfOther, Matrix.cons_val_zero, Matrix.cons_val_one, Y11B_lub, Y11C_lub, Y12C_lub, mix]
  ring

theorem mode_YBC1 (ha : 0 < a) (hb : 0 < b) :
    SettlesSmoothly fun xi => -((gapR a b xi).YB 1 1 * ((a + b) * (2 + xi) / 2)) + ((gapR a b xi).YC 1 0) + ((gapR a b xi).YC 1 1) := by
  rw [mode_YBC1_mix a b]
  refine mix_smooth ?_ ?_ ?_
  · first
      | ring1
      | (field_simp; ring1)
      | (simp only [G2yb, G2yc, G3yb, G3yc, G4yc, G5yc, zpow_neg, zpow_ofNat, zpow_one]; field_simp; ring1)
  · first
      | ring1
      | (field_simp; ring1)
      | (simp only [G2yb, G2yc, G3yb, G3yc, G4yc, G5yc, zpow_neg, zpow_ofNat, zpow_one]; field_simp; ring1)
  · first
      | ring1
      | (field_simp; ring1)
      | (simp only [G2yb, G2yc, G3yb, G3yc, G4yc, G5yc, zpow_neg, zpow_ofNat, zpow_one]; field_simp; ring1)

theorem mode_YBH1_mix (a b : ℝ) :
    (fun xi => ((gapR a b xi).YB 1 1 * ((a + b) * (2 + xi) / 2)) + -2 * ((gapR a b xi).YH 0 1) + -2 * ((gapR a b xi).YH 1 1))
    = mix (((-(4 * Real.pi * b ^ 2)) * (a + b))) (-2 * (8 * Real.pi * a ^ 3)) (-2 * (8 * Real.pi * b ^ 3))
    0 (G2yb (a / b)) (BY11 (a / b)) (G3yb (a / b))
    0 (G5yh (b / a)) ((1 + (b / a)) ^ 3 / 8 * HY12 (b / a)) (G6yh (b / a))
    0 (G2yh (a / b)) (HY11 (a / b)) (G3yh (a / b)) := by
  funext xi
  simp only [gapR, dimS, flipS, nfOwn, nfOther, Matrix.cons_val_zero, Matrix.cons_val_one, Y11B_lub, Y11H_lub, Y12H_lub, mix]
  ring

theorem mode_YBH1 (ha : 0 < a) (hb : 0 < b) :
    SettlesSmoothly fun xi => ((gapR a b xi).YB 1 1 * ((a + b) * (2 + xi) / 2)) + -2 * ((gapR a b xi).YH 0 1) + -2 * ((gapR a b xi).YH 1 1) := by
  rw [mode_YBH1_mix a b]
  refine mix_smooth ?_ ?_ ?_
  · first
      | ring1
      | (field_simp; ring1)
      | (simp only [G2yb, G2yh, G3yb, G3yh, G5yh, G6yh, zpow_neg, zpow_ofNat, zpow_one]; field_simp; ring1)
  · first
      | ring1
      | (field_simp; ring1)
      | (simp only [G2yb, G2yh, G3yb, G3yh, G5yh, G6yh, zpow_neg, zpow_ofNat, zpow_one]; field_simp; ring1)
  · first
      | ring1
      | (field_simp; ring1)
      | (simp only [G2yb, G2yh, G3yb, G3yh, G5yh, G6yh, zpow_neg, zpow_ofNat, zpow_one]; field_simp; ring1)

theorem mode_YGH1_mix (a b : ℝ) :
    (fun xi => ((gapR a b xi).YG 1 1 * ((a + b) * (2 + xi) / 2)) + ((gapR a b xi).YH 1 0) + ((gapR a b xi).YH 1 1))
    = mix (((-(4 * Real.pi * b ^ 2)) * (a + b))) ((8 * Real.pi * b ^ 3)) ((8 * Real.pi * b ^ 3))
    0 (G2yg (a / b)) (GY11 (a / b)) (G3yg (a / b))
    0 (G5yh (a / b)) ((1 + (a / b)) ^ 3 / 8 * HY12 (a / b)) (G6yh (a / b))
    0 (G2yh (a / b)) (HY11 (a / b)) (G3yh (a / b)) := by
  funext xi
  simp only [gapR, dimS, flipS, nfOwn, nfOther, Matrix.cons_val_zero, Matrix.cons_val_one, Y11G_lub, Y11H_lub, Y12H_lub, mix]
  ring

theorem mode_YGH1 (ha : 0 < a) (hb : 0 < b) :
    SettlesSmoothly fun xi => ((gapR a b xi).YG 1 1 * ((a + b) * (2 + xi) / 2)) + ((gapR a b xi).YH 1 0) + ((gapR a b xi).YH 1 1) := by
  rw [mode_YGH1_mix a b]
  refine mix_smooth ?_ ?_ ?_
  · first
      | ring1
      | (field_simp; ring1)
      | (simp only [G2yg, G2yh, G3yg, G3yh, G5yh, G6yh, zpow_neg, zpow_ofNat, zpow_one]; field_simp; ring1)
  · first
      | ring1
      | (field_simp; ring1)
      | (simp only [G2yg, G2yh, G3yg, G3yh, G5yh, G6yh, zpow_neg, zpow_ofNat, zpow_one]; field_simp; ring1)
  · first
      | ring1
      | (field_simp; ring1)
      | (simp only [G2yg, G2yh, G3yg, G3yh, G5yh, G6yh, zpow_neg, zpow_ofNat, zpow_one]; field_simp; ring1)

theorem mode_XGM1_mix (a b : ℝ) :
    (fun xi => 2 / 3 * ((gapR a b xi).XG 1 1 * ((a + b) * (2 + xi) / 2)) + ((gapR a b xi).XM 1 0) + ((gapR a b xi).XM 1 1))
    = mix (2 / 3 * ((-(4 * Real.pi * b ^ 2)) * (a + b))) ((20 / 3 * Real.pi * b ^ 3)) ((20 / 3 * Real.pi * b ^ 3))
    (G1xg (a / b)) (G2xg (a / b)) (GX11 (a / b)) (G3xg (a / b))
    (G4xm (a / b)) (G5xm (a / b)) (1 / 8 * (1 + (a / b)) ^ 3 * MX12 (a / b)) (G6xm (a / b))
    (G1xm (a / b)) (G2xm (a / b)) (MX11 (a / b)) (G3xm (a / b)) := by
  funext xi
  simp only [gapR, dimS, flipS, nfOwn, nfOther, Matrix.cons_val_zero, Matrix.cons_val_one, X11G_lub, X11M_lub, X12M_lub, mix]
  ring

theorem mode_XGM1 (ha : 0 < a) (hb : 0 < b) :
    SettlesSmoothly fun xi => 2 / 3 * ((gapR a b xi).XG 1 1 * ((a + b) * (2 + xi) / 2)) + ((gapR a b xi).XM 1 0) + ((gapR a b xi).XM 1 1) := by
  rw [mode_XGM1_mix a b]
  refine mix_smooth ?_ ?_ ?_
  · first
      | ring1
      | (field_simp; ring1)
      | (simp only [G1xg, G1xm, G2xg, G2xm, G3xg, G3xm, G4xm, G5xm, G6xm, zpow_neg, zpow_ofNat, zpow_one]; field_simp; ring1)
  · first
      | ring1
      | (field_simp; ring1)
      | (simp only [G1xg, G1xm, G2xg, G2xm, G3xg, G3xm, G4xm, G5xm, G6xm, zpow_neg, zpow_ofNat, zpow_one]; field_simp; ring1)
  · first
      | ring1
      | (field_simp; ring1)
      | (simp only [G1xg, G1xm, G2xg, G2xm, G3xg, G3xm, G4xm, G5xm, G6xm, zpow_neg, zpow_ofNat, zpow_one]; field_simp; ring1)

theorem mode_YGM1_mix (a b : ℝ) :
    (fun xi => ((gapR a b xi).YG 1 1 * ((a + b) * (2 + xi) / 2)) + ((gapR a b xi).YM 1 0) + ((gapR a b xi).YM 1 1))
    = mix (((-(4 * Real.pi * b ^ 2)) * (a + b))) ((20 / 3 * Real.pi * b ^ 3)) ((20 / 3 * Real.pi * b ^ 3))
    0 (G2yg (a / b)) (GY11 (a / b)) (G3yg (a / b))
    0 (G5ym (a / b)) (1 / 8 * (1 + (a / b)) ^ 3 * MY12 (a / b)) (G6ym (a / b))
    0 (G2ym (a / b)) (MY11 (a / b)) (G3ym (a / b)) := by
  funext xi
  simp only [gapR, dimS, flipS, nfOwn, nfOther, Matrix.cons_val_zero, Matrix.cons_val_one, Y11G_lub, Y11M_lub, Y12M_lub, mix]
  ring

theorem mode_YGM1 (ha : 0 < a) (hb : 0 < b) :
    Settles fun xi => ((gapR a b xi).YG 1 1 * ((a + b) * (2 + xi) / 2)) + ((gapR a b xi).YM 1 0) + ((gapR a b xi).YM 1 1) := by
  rw [mode_YGM1_mix a b]
  refine mix_settles ?_ ?_
  · first
      | ring1
      | (field_simp; ring1)
      | (simp only [G2yg, G2ym, G3yg, G3ym, G5ym, G6ym, zpow_neg, zpow_ofNat, zpow_one]; field_simp; ring1)
  · first
      | ring1
      | (field_simp; ring1)
      | (simp only [G2yg, G2ym, G3yg, G3ym, G5ym, G6ym, zpow_neg, zpow_ofNat, zpow_one]; field_simp; ring1)

end SD.Lub
