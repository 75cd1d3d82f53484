import Verif.Props.Nearby

/-!
# C95: the answer jumps when a pair of spheres crosses the range of the near field
-/

set_option autoImplicit false

namespace SD

open Spec Nearby Filter Topology

theorem near_spheres {T : ScalarTable} {P : PosData} (h0 : P.Nd = 0) {k : ℝ} (hP : Sensible P) (hk : 0 < k)
    (hT : Tabulated T.lam P k) (mu : ℝ) (bb : Bool) :
    ∃ N, generate_R2Bexact T P k mu bb = some N ∧
      ∀ x c1 y c2, HasRow P.Ns P.Nd x c1 → HasRow P.Ns P.Nd y c2 → N.get (row P.Ns x c1) (row P.Ns y c2)
        = mu * systemNear P.Ns (beads P) bb (radius P) (tableScal T) (openLink k (centre P) (radius P)) x c1 y c2 := by
  obtain ⟨M, h1, h2, h3, h4, h5⟩ := near_entry hP hk hT bb
  refine ⟨NDMat.smul mu M, ?_, fun x c1 y c2 hx hy => ?_⟩
  · unfold generate_R2Bexact R2BexactOfPairs
    have h1' : generate_R2Bexact_loop T (NDMat.zeros (11 * P.Ns + 6 * P.Nd) (11 * P.Ns + 6 * P.Nd)) P.Ns P.Nd P.beadSize bb
        (close_particles (P.Ns + 2 * P.Nd) P.beadPos P.beadSize k) = some M := h1
    dsimp only
    rw [h1', Option.bind_eq_bind, Option.bind_some, if_neg (by omega)]
  · show mu * _ = mu * _
    rw [h5 x c1 y c2 hx hy]

theorem apartP_diff {r : ℝ} (hr : 0 < r) : (fun i => (centre (apartP r) 1 i - centre (apartP r) 0 i) / r) = ![1, 0, 0] := by
  funext i
  fin_cases i <;> simp [centre, apartP, hr.ne']

theorem apartP_link {r k : ℝ} (hr : 0 < r) (h : r < 2 * k) :
    openLink k (centre (apartP r)) (radius (apartP r)) 0 1 = some (![1, 0, 0], r) := by
  unfold openLink
  dsimp only
  rw [apartP_len hr.le (by norm_num) (by norm_num) (by norm_num), apartP_equal r 0 (by simp [beads, apartP]),
    apartP_equal r 1 (by simp [beads, apartP]), apartP_diff hr, if_pos]
  · norm_num
  · norm_num
    exact h

theorem apartP_nolink {r k : ℝ} (hr : 0 ≤ r) (h : 2 * k ≤ r) {x y : ℕ} (hx : x < 2) (hy : y < 2) (hxy : x ≠ y) :
    openLink k (centre (apartP r)) (radius (apartP r)) x y = none := by
  unfold openLink
  dsimp only
  rw [apartP_len hr hx hy hxy, apartP_equal r x hx, apartP_equal r y hy, if_neg]
  norm_num
  exact h

theorem eqRow_XA : ∀ n < 38, 0 < eqRow 0 n 0 := by decide +kernel

theorem shipped_XA (s : ℝ) : 0 < (tableScal shippedTable 0 1 s).XA := by
  have node : ∀ n < 38, 0 < (eqScal 0 n).XA := fun n hn => by
    have : (0 : ℝ) < eqRow 0 n 0 := by exact_mod_cast eqRow_XA n hn
    show 0 < 1 / 2 ^ 78 * (eqRow 0 n 0 : ℝ)
    positivity
  rcases shipped_cell s with ⟨-, e⟩ | ⟨-, e⟩ | ⟨n, hn, h1, h2, e⟩
  · rw [e]; exact node 0 (by norm_num)
  · rw [e]; exact node 37 (by norm_num)
  · rw [e]
    have hd := h1.trans_lt h2
    set t := (s - (shippedDist.getD n 0 : ℝ) / 100000)
        / ((shippedDist.getD (n + 1) 0 : ℝ) / 100000 - (shippedDist.getD n 0 : ℝ) / 100000)
    have t0 : 0 ≤ t := div_nonneg (by linarith) (by linarith)
    have t1 : t < 1 := by rw [div_lt_one (by linarith)]; linarith
    have a := node n (by omega)
    have b := node (n + 1) hn
    show 0 < (1 - t) * (eqScal 0 n).XA + t * (eqScal 0 (n + 1)).XA
    have := mul_pos (sub_pos.mpr t1) a
    have := mul_nonneg t0 b.le
    linarith

/-- The first row of the near field of two spheres, times a motion in which the first sphere moves towards the second
with unit velocity, the other one stays, both turn in any way, and neither is strained. -/
theorem first_row {r k : ℝ} (hr : 1 / 10 ^ 8 < r) (h : r < 2 * k) (mu : ℝ) (bb : Bool) {N : NDMat}
    (hN : generate_R2Bexact shippedTable (apartP r) k mu bb = some N) {m : ℕ → ℝ} (h0 : m 0 = 1)
    (h1 : ∀ i, 1 ≤ i → i < 6 → m i = 0) (h2 : ∀ i, 12 ≤ i → i < 22 → m i = 0) :
    ∑ j ∈ Finset.range 22, N.get 0 j * m j = mu * (6 * Real.pi * (tableScal shippedTable 0 1 r).XA) := by
  have hr0 : 0 < r := lt_trans (by positivity) hr
  obtain ⟨N', e1, e2⟩ := near_spheres (T := shippedTable) (P := apartP r) rfl (apartP_sensible hr)
    (k := k) (by linarith) (equal_tabulated one_pos (apartP_equal r) k) mu bb
  obtain rfl := Option.some.inj (hN.symm.trans e1)
  have hl := apartP_link hr0 h
  have ra : radius (apartP r) 0 = 1 := apartP_equal r 0 (by simp [beads, apartP])
  have rb : radius (apartP r) 1 = 1 := apartP_equal r 1 (by simp [beads, apartP])
  have g0 : N.get 0 0 = mu * (6 * Real.pi * (tableScal shippedTable 0 1 r).XA) := by
    have := e2 0 (.f 0) 0 (.f 0) (by simp [HasRow, apartP]) (by simp [HasRow, apartP])
    have e : row (apartP r).Ns 0 (.f 0) = 0 := by simp [row, apartP]
    rw [e] at this
    rw [this]
    congr 1
    have hb : beads (apartP r) = 2 := rfl
    simp [systemNear, hb, Finset.sum_range_succ, hl, ra, rb, nearSelf, order, nearDirect, nearForce, dotp, unit, dlt]
  have gs : ∀ j : Fin 3, N.get 0 (6 + j) = 0 := by
    intro j
    have := e2 0 (.f 0) 0 (.t j) (by simp [HasRow, apartP]) (by simp [HasRow, apartP])
    have e : row (apartP r).Ns 0 (.f 0) = 0 := by simp [row, apartP]
    have e' : row (apartP r).Ns 0 (.t j) = 6 + j := by simp [row, apartP]
    rw [e, e'] at this
    rw [this]
    have hb : beads (apartP r) = 2 := rfl
    fin_cases j <;> simp [systemNear, hb, Finset.sum_range_succ, hl, nearSelf, order, nearDirect, nearTorque, dotp,
      unit, dlt, cross]
  have gp : ∀ j : Fin 3, N.get 0 (9 + j) = 0 := by
    intro j
    have := e2 0 (.f 0) 1 (.t j) (by simp [HasRow, apartP]) (by simp [HasRow, apartP])
    have e : row (apartP r).Ns 0 (.f 0) = 0 := by simp [row, apartP]
    have e' : row (apartP r).Ns 1 (.t j) = 9 + j := by simp [row, apartP]
    rw [e, e'] at this
    rw [this]
    have hs : ¬ (bb = false ∧ (apartP r).Ns ≤ 0 ∧ (apartP r).Ns ≤ 1) := by simp [apartP]
    unfold systemNear
    rw [if_neg (by norm_num), if_neg hs, hl]
    fin_cases j <;> simp [nearPair, order, nearDirect, nearTorque, dotp, unit, dlt, cross]
  rw [← g0, Finset.sum_eq_single 0, h0, mul_one]
  · intro j hj hne
    rw [Finset.mem_range] at hj
    by_cases c1 : j < 6
    · rw [h1 j (by omega) c1, mul_zero]
    by_cases c2 : 12 ≤ j
    · rw [h2 j c2 hj, mul_zero]
    by_cases c3 : j < 9
    · have := gs ⟨j - 6, by omega⟩
      rw [show 6 + (j - 6) = j by omega] at this
      rw [this, zero_mul]
    · have := gp ⟨j - 9, by omega⟩
      rw [show 9 + (j - 9) = j by omega] at this
      rw [this, zero_mul]
  · intro h; exact absurd (Finset.mem_range.mpr (by norm_num)) h

/-- Outside the range there is no near field. -/
theorem no_near {r k : ℝ} (hr : 1 / 10 ^ 8 < r) (hk : 0 < k) (h : 2 * k ≤ r) (mu : ℝ) (bb : Bool) {N : NDMat}
    (hN : generate_R2Bexact shippedTable (apartP r) k mu bb = some N) {i j : ℕ} (hi : i < 22) (hj : j < 22) :
    N.get i j = 0 := by
  have hr0 : 0 < r := lt_trans (by positivity) hr
  obtain ⟨N', e1, e2⟩ := near_spheres (T := shippedTable) (P := apartP r) rfl (apartP_sensible hr)
    (k := k) hk (equal_tabulated one_pos (apartP_equal r) k) mu bb
  obtain rfl := Option.some.inj (hN.symm.trans e1)
  obtain ⟨x, c1, hx, rfl⟩ := (C48_rows (apartP r)).1 i hi
  obtain ⟨y, c2, hy, rfl⟩ := (C48_rows (apartP r)).1 j hj
  rw [e2 x c1 y c2 hx hy]
  have hx2 : x < 2 := by cases c1 <;> simpa [HasRow, apartP] using hx
  have hy2 : y < 2 := by cases c2 <;> simpa [HasRow, apartP] using hy
  have hb : beads (apartP r) = 2 := rfl
  unfold systemNear
  split_ifs with a b
  · rw [Finset.sum_eq_zero, mul_zero]
    intro z hz
    rw [hb, Finset.mem_range] at hz
    split_ifs with c
    · rfl
    · rw [apartP_nolink hr0.le h hx2 hz (Ne.symm c)]
  · rw [mul_zero]
  · rw [apartP_nolink hr0.le h hx2 hy2 a, mul_zero]

/-- Inside both ranges it does not matter which of them is used. -/
theorem same_near {r k k' : ℝ} (hr : 0 ≤ r) (h : r < 2 * k) (h' : r < 2 * k') (mu : ℝ) (bb : Bool) :
    generate_R2Bexact shippedTable (apartP r) k mu bb = generate_R2Bexact shippedTable (apartP r) k' mu bb := by
  unfold generate_R2Bexact
  congr 1
  unfold close_particles
  dsimp only
  congr 2
  refine List.filter_congr fun f hf => ?_
  obtain ⟨a, ha, hf⟩ := List.mem_flatMap.mp hf
  obtain ⟨b, hb, rfl⟩ := List.mem_map.mp hf
  rw [List.mem_range] at ha hb
  have ha : a < 2 := ha
  have hb : b < 2 := hb
  have d : distanceOverAverage (apartP r).beadPos (apartP r).beadSize a b ≤ r := by
    rw [distance_eq, beadPos_eq, beadSize_eq, apartP_equal r a ha, apartP_equal r b hb]
    by_cases e : a = b
    · subst e
      simp [len, hr]
    · rw [apartP_len hr ha hb e]
      norm_num
  simp only [decide_eq_decide]
  exact ⟨fun _ => by linarith, fun _ => by linarith⟩

/-- What the driven pair is told shows in the motions of every answer. -/
theorem drivenPair_motion {R : NDMat} (hr : R.rows = 22) (hS : Symm R.get 22) {out : Outputs}
    (h : solveForm .ufte false 2 0 R drivenPair = some out) :
    LinRel R.get 22 (motion 2 0 out) (load 2 0 out) ∧ motion 2 0 out 0 = 1 ∧
      (∀ i, 1 ≤ i → i < 6 → motion 2 0 out i = 0) ∧ ∀ i, 12 ≤ i → i < 22 → motion 2 0 out i = 0 := by
  obtain ⟨h1, ⟨k, hk, u, -, -, e, -⟩, -⟩ := C06_ufte_correct drivenPair_sized hr hS h
  have inj : ∀ {a b : Fin 3 → ℝ}, num3 a = num3 b → a = b := fun {a b} q => by
    funext i; exact Option.some.inj (congrFun q i)
  have inj' : ∀ {a b : Fin 3 → Fin 3 → ℝ}, num33 a = num33 b → a = b := fun {a b} q => by
    funext i j; exact Option.some.inj (congrFun (congrFun q i) j)
  have hU : out.Ua = [![1, 0, 0], 0] := by
    have hl := h1.Ua
    match hq : out.Ua, hl with
    | [a, b], _ =>
      rw [hq] at u
      interval_cases k
      · simp [drivenPair] at u
        exact absurd (congrFun u.2 0) (by simp [num3, blank])
      · simp [drivenPair] at u
        exact absurd (congrFun u.2 0) (by simp [num3, blank])
      · simp only [drivenPair, List.take, List.map, List.append_nil, Nat.sub_self, List.replicate, List.cons.injEq,
          and_true] at u
        rw [inj u.1, inj u.2]
  have hE : out.Ea = [0, 0] := by
    match hq : out.Ea with
    | [] => rw [hq] at e; simp [drivenPair] at e
    | [_] => rw [hq] at e; simp [drivenPair] at e
    | _ :: _ :: _ :: _ => rw [hq] at e; simp [drivenPair] at e
    | [a, b] =>
      rw [hq] at e
      simp only [drivenPair, List.map, List.cons.injEq, and_true] at e
      rw [← inj' e.1, ← inj' e.2]
  refine ⟨h1.rel, ?_, fun i a b => ?_, fun i a b => ?_⟩
  · simp [motion, pack, hU]
  · interval_cases i <;> simp [motion, pack, hU]
  · interval_cases i <;> simp [motion, pack, hE, five]

/-- **C95** (jump). With the table that comes with the program this is not so for a pair at the range of the near
field. Let one of two unit spheres be driven with unit velocity towards the other one, which is held. For each range
`2 k` of the near field, the answers for distances just below the range have limits as the distance grows to the range,
and these are not the answer at the range. -/
theorem C95_jump {k : ℝ} (hk : 2.001 ≤ 2 * k) {mu : ℝ} (hmu : 0 < mu) (bb : Bool) (last : NDMat) :
    ∃ (R0 C0 : NDMat) (out0 out1 : Outputs) (R C : ℝ → NDMat) (out : ℝ → Outputs),
    (generate_grand_resistance_matrix shippedTable (apartP (2 * k)) last true k false false mu bb = some (R0, C0) ∧
      solveForm .ufte false 2 0 R0 drivenPair = some out0) ∧
    (∀ᶠ r in 𝓝[<] (2 * k), generate_grand_resistance_matrix shippedTable (apartP r) last true k false false mu bb
        = some (R r, C r) ∧ solveForm .ufte false 2 0 (R r) drivenPair = some (out r)) ∧
    (∀ i < 22, Tendsto (fun r => motion 2 0 (out r) i) (𝓝[<] (2 * k)) (𝓝 (motion 2 0 out1 i)) ∧
      Tendsto (fun r => load 2 0 (out r) i) (𝓝[<] (2 * k)) (𝓝 (load 2 0 out1 i))) ∧
    ∃ i < 22, motion 2 0 out1 i ≠ motion 2 0 out0 i ∨ load 2 0 out1 i ≠ load 2 0 out0 i := by
  have hk2 : 2 < 2 * k := by norm_num at hk; linarith
  have hsen : 1 / 10 ^ 8 < 2 * k := lt_trans (by norm_num) hk2
  have hf : formAllowed .ufte (apartP (2 * k)).Ns := by simp [formAllowed, apartP]
  obtain ⟨R0, C0, g0, s1, s2, s3⟩ := C86_solvable one_pos (apartP_equal (2 * k)) (apartP_sensible hsen)
    (apartP_separate hk) (k := k) (by linarith) hmu (bb := bb) (.inr rfl) last
  obtain ⟨out0, ho0⟩ := s3 hf drivenPair_sized drivenPair_complete
  obtain ⟨R1, C1, out1, R, C, out, ⟨g1, ho1⟩, e1, e2⟩ := C95_shipped (F := 𝓝[<] (2 * k))
    (apartP_approaches (2 * k) nhdsWithin_le_nhds) one_pos (apartP_equal (2 * k)) (apartP_sensible hsen)
    (apartP_separate hk) (k := k + 1) (by linarith) (apartP_range (by linarith) (by linarith)) hmu (bb := bb) (.inr rfl)
    last hf drivenPair_sized drivenPair_complete
  refine ⟨R0, C0, out0, out1, R, C, out, ⟨g0, ho0⟩, ?_, e2, ?_⟩
  · have hpos : ∀ᶠ r in 𝓝[<] (2 * k), 0 < r :=
      nhdsWithin_le_nhds (Ioi_mem_nhds (by linarith : (0 : ℝ) < 2 * k))
    filter_upwards [e1, hpos, self_mem_nhdsWithin] with r h1 h2 h3
    have h3 : r < 2 * k := h3
    refine ⟨?_, h1.2⟩
    rw [← h1.1]
    unfold generate_grand_resistance_matrix
    rw [same_near h2.le h3 (by linarith : r < 2 * (k + 1))]
  · by_contra hc
    push Not at hc
    obtain ⟨a1, a2, -⟩ := grand_some g0
    obtain ⟨b1, b2, -⟩ := grand_some g1
    obtain ⟨N0, hN0, rfl⟩ := a2 rfl
    obtain ⟨N1, hN1, rfl⟩ := b2 rfl
    obtain rfl : C0 = C1 := Option.some.inj (a1.symm.trans b1)
    have d0 : N0.rows = 22 ∧ Symm (N0.add C0).get 22 := by
      obtain ⟨N', q1, q2, -⟩ := C20_symmetric (T := shippedTable) (apartP_sensible hsen) (k := k) (by linarith)
        (equal_tabulated one_pos (apartP_equal (2 * k)) k) mu bb
      obtain rfl := Option.some.inj (hN0.symm.trans q1)
      exact ⟨q2, s1⟩
    have d1 : N1.rows = 22 ∧ Symm (N1.add C0).get 22 := by
      obtain ⟨N', q1, q2, -, q4⟩ := C20_symmetric (T := shippedTable) (apartP_sensible hsen) (k := k + 1) (by linarith)
        (equal_tabulated one_pos (apartP_equal (2 * k)) (k + 1)) mu bb
      obtain rfl := Option.some.inj (hN1.symm.trans q1)
      refine ⟨q2, fun i hi j hj => ?_⟩
      show N1.get i j + C0.get i j = N1.get j i + C0.get j i
      rw [q4 i j, inv_symm (by simpa using a1) (Minfinity_symm (apartP (2 * k)) mu bb) i j]
    obtain ⟨l0, -, -, -⟩ := drivenPair_motion (R := N0.add C0) d0.1 d0.2 ho0
    obtain ⟨l1, m1, m2, m3⟩ := drivenPair_motion (R := N1.add C0) d1.1 d1.2 ho1
    have q0 := l0 0 (by norm_num)
    have q1 := l1 0 (by norm_num)
    have fr := first_row hsen (by linarith : 2 * k < 2 * (k + 1)) mu bb hN1 m1 m2 m3
    have e0 : ∑ j ∈ Finset.range 22, (N0.add C0).get 0 j * motion 2 0 out0 j
        = ∑ j ∈ Finset.range 22, C0.get 0 j * motion 2 0 out1 j := by
      refine Finset.sum_congr rfl fun j hj => ?_
      rw [Finset.mem_range] at hj
      show (N0.get 0 j + C0.get 0 j) * _ = _
      rw [no_near hsen (by linarith) le_rfl mu bb hN0 (by norm_num) hj, zero_add, (hc j hj).1]
    have e1 : ∑ j ∈ Finset.range 22, (N1.add C0).get 0 j * motion 2 0 out1 j
        = ∑ j ∈ Finset.range 22, N1.get 0 j * motion 2 0 out1 j + ∑ j ∈ Finset.range 22, C0.get 0 j * motion 2 0 out1 j := by
      rw [← Finset.sum_add_distrib]
      refine Finset.sum_congr rfl fun j hj => ?_
      show (N1.get 0 j + C0.get 0 j) * _ = _
      ring
    rw [e0] at q0
    rw [e1, fr, (hc 0 (by norm_num)).2, ← q0] at q1
    have := shipped_XA (2 * k)
    have hp := Real.pi_pos
    have : 0 < mu * (6 * Real.pi * (tableScal shippedTable 0 1 (2 * k)).XA) := by positivity
    linarith

/-- The default range: the answer jumps at the distance 4. -/
example (last : NDMat) : ∃ (R0 C0 : NDMat) (out0 out1 : Outputs) (R C : ℝ → NDMat) (out : ℝ → Outputs),
    (generate_grand_resistance_matrix shippedTable (apartP (2 * 2)) last true 2 false false 1 true = some (R0, C0) ∧
      solveForm .ufte false 2 0 R0 drivenPair = some out0) ∧
    (∀ᶠ r in 𝓝[<] (2 * 2), generate_grand_resistance_matrix shippedTable (apartP r) last true 2 false false 1 true
        = some (R r, C r) ∧ solveForm .ufte false 2 0 (R r) drivenPair = some (out r)) ∧
    (∀ i < 22, Tendsto (fun r => motion 2 0 (out r) i) (𝓝[<] (2 * 2)) (𝓝 (motion 2 0 out1 i)) ∧
      Tendsto (fun r => load 2 0 (out r) i) (𝓝[<] (2 * 2)) (𝓝 (load 2 0 out1 i))) ∧
    ∃ i < 22, motion 2 0 out1 i ≠ motion 2 0 out0 i ∨ load 2 0 out1 i ≠ load 2 0 out0 i :=
  C95_jump (by norm_num) one_pos true last

end SD
