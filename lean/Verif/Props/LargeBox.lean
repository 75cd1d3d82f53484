import Verif.Lemmas.EwaldLimit
import Verif.Props.SolveStable
import Verif.Props.EwaldMatrix
import Verif.Props.PeriodicNear
import Verif.Props.NearDissipation

/-!
# C77: a large enough box is as good as none

The box has one corner at `o` and sides `L d`, with `d` fixed and `L` growing. The particles stay where they are.
-/

set_option autoImplicit false

namespace SD

open Spec Filter Topology

/-- The corner of the box opposite to `o`. -/
def farCorner (o d : Vec3) (L : ℝ) : Vec3 := fun i => o i + L * d i

section
variable {n : ℕ} {o d Ot : Vec3} {Et : Mat3} (hd : ∀ i, 0 < d i) (hsh : ∃ a b g, a ≠ b ∧ IsShear Ot Et a b g)
include hd hsh

theorem unit_split (n : ℕ) : (Ewald.boxLattice n 0 d Ot Et).X.Perm (0 :: (Ewald.boxLattice n 0 d Ot Et).Xdash) := by
  obtain ⟨a, b, g, hab, hs⟩ := hsh
  exact Ewald.boxLattice_X_split n 0 d Ot Et hd (Ewald.shear_independent hab hs hd)

/-- Whatever the particles, every box that is large enough is an admissible one. -/
theorem boxed_eventually (n : ℕ) (o : Vec3) {P : PosData} (hP : Sensible P) :
    ∀ᶠ L in atTop, Boxed n o (farCorner o d L) Ot Et P := by
  have hedge : ∀ᶠ L : ℝ in atTop, ∀ i, o i + 1 / 10 ^ 10 < farCorner o d L i := by
    refine eventually_all.mpr fun i => ?_
    filter_upwards [eventually_gt_atTop (1 / d i)] with L hL
    rw [div_lt_iff₀ (hd i)] at hL
    unfold farCorner
    have : (1 : ℝ) / 10 ^ 10 < 1 := by norm_num
    linarith
  have happ : ∀ᶠ L : ℝ in atTop, ∀ x ∈ Finset.range (beads P), ∀ y ∈ Finset.range (beads P), x ≠ y →
      ∀ v ∈ {v | v ∈ (Ewald.boxLattice n 0 d Ot Et).X}, 1 / 10 ^ 10 < len fun i => gap P x y i + L * v i := by
    refine (eventually_all_finset _).mpr fun x hx => (eventually_all_finset _).mpr fun y hy => ?_
    refine eventually_imp_distrib_left.mpr fun hxy => ?_
    refine (eventually_all_finite (List.finite_toSet _)).mpr fun v _ => ?_
    have hx' := Finset.mem_range.mp hx
    have hy' := Finset.mem_range.mp hy
    have hne := sep_ne (hP.radius_pos x hx') (hP.radius_pos y hy') (hP.apart x hx' y hy' hxy)
    by_cases hv : v = 0
    · refine Eventually.of_forall fun L => ?_
      subst hv
      simp only [Pi.zero_apply, mul_zero, add_zero]
      have := hne.2
      unfold eps10 at this
      exact this
    · obtain ⟨m, hm⟩ := Function.ne_iff.mp hv
      have hm' : 0 < |v m| := abs_pos.mpr hm
      filter_upwards [eventually_gt_atTop ((|gap P x y m| + 1) / |v m|), eventually_gt_atTop 0] with L hL h0
      rw [div_lt_iff₀ hm'] at hL
      have h1 : |gap P x y m + L * v m| ≤ len fun i => gap P x y i + L * v i := by
        unfold len
        exact Real.abs_le_sqrt (Finset.single_le_sum (f := fun i => (gap P x y i + L * v i) ^ 2)
          (fun _ _ => sq_nonneg _) (Finset.mem_univ m))
      have h2 : L * |v m| - |gap P x y m| ≤ |gap P x y m + L * v m| := by
        have := abs_sub_abs_le_abs_sub (L * v m) (-gap P x y m)
        rw [abs_neg, abs_mul, abs_of_pos h0, sub_neg_eq_add, add_comm (L * v m)] at this
        exact this
      have : (1 : ℝ) / 10 ^ 10 < 1 := by norm_num
      linarith
  filter_upwards [hedge, happ, eventually_gt_atTop 0] with L h1 h2 h0
  refine ⟨hP, h1, hsh, fun x hx y hy hxy v hv => ?_⟩
  unfold farCorner at hv
  rw [Ewald.box_enlarged n h0 o hd] at hv
  obtain ⟨u, hu, rfl⟩ := List.mem_map.mp hv
  exact h2 x (Finset.mem_range.mpr hx) y (Finset.mem_range.mpr hy) hxy u hu

section
variable {P : PosData} (hP : Sensible P) (n : ℕ) (o : Vec3) (mu : ℝ) (bb : Bool) {x y : ℕ} {c1 c2 : Comp}
include hP

theorem entry_tendsto (hx : HasRow P.Ns P.Nd x c1) (hy : HasRow P.Ns P.Nd y c2) :
    Tendsto (fun L => (boxMatrix n o (farCorner o d L) Ot Et P mu bb).get (row P.Ns x c1) (row P.Ns y c2)) atTop
      (𝓝 (open Classical in if Ewald.Silent P bb x y then 0 else if x = y then selfMob mu (radius P x) c1 c2
        else 1 / (8 * Real.pi * mu) * Ewald.limMob (decide (x < P.Ns ∧ y < P.Ns)) (radius P x) (radius P y) c1 c2
          (gap P x y))) := by
  have hxb : x < beads P := owns_lt (owns_kind hx)
  have hyb : y < beads P := owns_lt (owns_kind hy)
  have key : Tendsto (fun L => Ewald.codeEntry (Ewald.enlarged L (Ewald.boxLattice n 0 d Ot Et)) P
      (1 / (8 * Real.pi * mu)) mu bb x c1 y c2) atTop
      (𝓝 (open Classical in if Ewald.Silent P bb x y then 0 else if x = y then selfMob mu (radius P x) c1 c2
        else 1 / (8 * Real.pi * mu) * Ewald.limMob (decide (x < P.Ns ∧ y < P.Ns)) (radius P x) (radius P y) c1 c2
          (gap P x y))) := by
    unfold Ewald.codeEntry
    rw [beadSize_eq, beadPos_eq]
    split_ifs with h1 h2
    · exact tendsto_const_nhds
    · exact Ewald.codeSelf_tendsto _ _ _ _ _ _
    · exact (Ewald.codeMob_tendsto (unit_split hd hsh n) _ _ _ _ _
        (sep_ne (hP.radius_pos x hxb) (hP.radius_pos y hyb) (hP.apart x hxb y hyb h2)).1).const_mul _
  refine key.congr' ?_
  filter_upwards [boxed_eventually hd hsh n o hP, eventually_gt_atTop 0] with L hB h0
  rw [boxEntry hB mu bb hx hy]
  unfold farCorner
  rw [Ewald.box_enlarged n h0 o hd]

/-- **C77** (entries). As the box grows, the entry that joins two components of the particles tends to the one in
an unbounded fluid. Excepted are the two beads of one dumbbell when interactions between beads are off, and a sphere
and a bead of different radii. -/
theorem C77_entry (hx : HasRow P.Ns P.Nd x c1) (hy : HasRow P.Ns P.Nd y c2)
    (hown : bb = true ∨ x < P.Ns ∨ y < P.Ns ∨ (x + P.Nd ≠ y ∧ y + P.Nd ≠ x))
    (hrad : (x < P.Ns ↔ y < P.Ns) ∨ radius P x = radius P y) :
    Tendsto (fun L => (boxMatrix n o (farCorner o d L) Ot Et P mu bb).get (row P.Ns x c1) (row P.Ns y c2)) atTop
      (𝓝 (systemMob P.Ns bb (centre P) (radius P) mu x c1 y c2)) := by
  have h := entry_tendsto hd hsh hP n o mu bb hx hy
  convert h using 2
  unfold systemMob
  by_cases hxy : x = y
  · rw [if_pos hxy, if_neg (fun h => h.2.2.2.1 hxy), if_pos hxy]
  · rw [if_neg hxy]
    by_cases hs : bb = false ∧ P.Ns ≤ x ∧ P.Ns ≤ y
    · rw [if_pos hs, if_pos]
      refine ⟨hs.1, hs.2.1, hs.2.2, hxy, ?_⟩
      rcases hown with h | h | h | h
      · rw [hs.1] at h; cases h
      · omega
      · omega
      · exact h
    · rw [if_neg hs, if_neg (fun h => hs ⟨h.1, h.2.1, h.2.2.1⟩), if_neg hxy]
      congr 1
      by_cases hss : x < P.Ns ∧ y < P.Ns
      · rw [Ewald.limMob_eq _ _ _ _ _ _ (Or.inl (by simp [hss]))]
      · rcases hrad with hr | hr
        · have h1 : ¬ x < P.Ns := fun h => hss ⟨h, hr.mp h⟩
          have h2 : ¬ y < P.Ns := fun h => hss ⟨hr.mpr h, h⟩
          cases c1 with
          | t i => exact absurd hx h1
          | s i => exact absurd hx h1
          | f i =>
            cases c2 with
            | t j => exact absurd hy h2
            | s j => exact absurd hy h2
            | f j => rfl
        · rw [Ewald.limMob_eq _ _ _ _ _ _ (Or.inr hr)]

/-- **C77** (a sphere and a bead of another size). In a large box the angular velocity or rate of strain of a sphere
due to a force on a bead is not the one in an unbounded fluid but the one with the two radii exchanged. -/
theorem C77_exchanged (hx : x < P.Ns) (hy : P.Ns ≤ y) (hy' : y < beads P) (c : Comp) (hc : ∀ j, c ≠ .f j) (j : Fin 3) :
    Tendsto (fun L => (boxMatrix n o (farCorner o d L) Ot Et P mu bb).get (row P.Ns x c) (row P.Ns y (.f j))) atTop
      (𝓝 (1 / (8 * Real.pi * mu) * pairMob (radius P y) (radius P x) c (.f j) (gap P x y))) := by
  have hrow : HasRow P.Ns P.Nd x c := by
    cases c with
    | f i => exact absurd rfl (hc i)
    | t i => exact hx
    | s i => exact hx
  have h := entry_tendsto hd hsh hP n o mu bb hrow (show HasRow P.Ns P.Nd y (.f j) from hy')
  convert h using 2
  rw [if_neg (fun h => by have := h.2.1; omega), if_neg (by omega), decide_eq_false (by omega)]
  cases c with
  | f i => exact absurd rfl (hc i)
  | t i => rfl
  | s i => rfl

/-- **C77** (the beads of one dumbbell, with interactions between beads off). In a large box each bead still moves
the other one, as in an unbounded fluid with the interactions on; in an unbounded fluid it does not (`C48_entry`). -/
theorem C77_own_beads (hx : P.Ns ≤ x) (hxd : x < P.Ns + P.Nd) (i j : Fin 3) :
    Tendsto (fun L => (boxMatrix n o (farCorner o d L) Ot Et P mu false).get (row P.Ns x (.f i))
      (row P.Ns (x + P.Nd) (.f j))) atTop
      (𝓝 (1 / (8 * Real.pi * mu) * pairMob (radius P x) (radius P (x + P.Nd)) (.f i) (.f j) (gap P x (x + P.Nd)))) ∧
    systemMob P.Ns false (centre P) (radius P) mu x (.f i) (x + P.Nd) (.f j) = 0 := by
  constructor
  · have h := entry_tendsto hd hsh hP n o mu false (x := x) (y := x + P.Nd) (c1 := .f i) (c2 := .f j)
      (show x < P.Ns + 2 * P.Nd by omega) (show x + P.Nd < P.Ns + 2 * P.Nd by omega)
    convert h using 2
    rw [if_neg (fun h => h.2.2.2.2.1 rfl), if_neg (by omega)]
    rfl
  · unfold systemMob
    rw [if_neg (by omega), if_pos ⟨rfl, by omega, by omega⟩]

end

end

/-- Spheres have the radius of the beads, if there are both. -/
def OneSize (P : PosData) : Prop := ∀ x < P.Ns, ∀ y, P.Ns ≤ y → y < beads P → radius P x = radius P y

theorem OneSize.rad {P : PosData} (h : OneSize P) {x y : ℕ} (hx : x < beads P) (hy : y < beads P) :
    (x < P.Ns ↔ y < P.Ns) ∨ radius P x = radius P y := by
  by_cases h1 : x < P.Ns <;> by_cases h2 : y < P.Ns
  · exact Or.inl ⟨fun _ => h2, fun _ => h1⟩
  · exact Or.inr (h x h1 y (by omega) hy)
  · exact Or.inr (h y h2 x (by omega) hx).symm
  · exact Or.inl ⟨fun h => absurd h h1, fun h => absurd h h2⟩

end SD
