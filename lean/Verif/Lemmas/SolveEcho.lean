import Verif.Lemmas.SolveExists

/-!
# Prescribed values are echoed, placeholders are never used, forms agree
-/

set_option autoImplicit false

namespace SD

open Finset Spec

theorem floats3_num {v : OVec3} {w : Vec3} (h : floats3 v = some w) : v = num3 w := by
  unfold floats3 at h
  obtain ⟨a, ha, h⟩ := Option.bind_eq_some_iff.mp h
  obtain ⟨b, hb, h⟩ := Option.bind_eq_some_iff.mp h
  obtain ⟨c, hc, h⟩ := Option.bind_eq_some_iff.mp h
  obtain rfl := Option.some_inj.mp h
  funext k; fin_cases k
  · exact ha
  · exact hb
  · exact hc

theorem floats33_num {v : OMat3} {w : Mat3} (h : floats33 v = some w) : v = num33 w := by
  unfold floats33 at h
  obtain ⟨a, ha, h⟩ := Option.bind_eq_some_iff.mp h
  obtain ⟨b, hb, h⟩ := Option.bind_eq_some_iff.mp h
  obtain ⟨c, hc, h⟩ := Option.bind_eq_some_iff.mp h
  obtain rfl := Option.some_inj.mp h
  funext k; fin_cases k
  · exact floats3_num ha
  · exact floats3_num hb
  · exact floats3_num hc

theorem mapM_map {α β : Type*} {g : α → Option β} {q : β → α} (hg : ∀ {a b}, g a = some b → a = q b)
    {l : List α} {r : List β} (h : l.mapM g = some r) : l = r.map q := by
  induction l generalizing r with
  | nil => simp at h; subst h; rfl
  | cons a l ih =>
    obtain ⟨b, r', hb, hr', rfl⟩ := mapM_cons_some.mp h
    rw [List.map_cons, ← hg hb, ← ih hr']

theorem floatsL_num {l : List OVec3} {r : List Vec3} (h : floatsL l = some r) :
    l = r.map num3 := mapM_map floats3_num h

theorem floats33L_num {l : List OMat3} {r : List Mat3} (h : l.mapM floats33 = some r) :
    l = r.map num33 := mapM_map floats33_num h

theorem num3_inj : Function.Injective num3 := by
  intro a b h; funext c; have := congrFun h c; simpa [num3] using this

theorem num33_inj : Function.Injective num33 := by
  intro a b h; funext c d; have := congrFun (congrFun h c) d; simpa [num33] using this

theorem given_num3 (v : Vec3) : Given3 (num3 v) := fun _ => rfl
theorem given_num33 (v : Mat3) : Given33 (num33 v) := fun _ _ => rfl
theorem given_map (r : List Vec3) : ∀ v ∈ r.map num3, Given3 v := by
  intro v hv; obtain ⟨w, -, rfl⟩ := List.mem_map.mp hv; exact given_num3 w
theorem given_map33 (r : List Mat3) : ∀ v ∈ r.map num33, Given33 v := by
  intro v hv; obtain ⟨w, -, rfl⟩ := List.mem_map.mp hv; exact given_num33 w

theorem given_not_blank {v : OVec3} (h : Given3 v) : v ≠ blank := by
  rintro rfl; exact absurd (h 0) (by simp [blank])

theorem split_blank {l : List OVec3} {r : List Vec3} {n : ℕ} (hl : l.length = n)
    (h : floatsL (l.take (n - countPippa l)) = some (r.take (n - countPippa l))) :
    l = (r.take (n - countPippa l)).map num3
      ++ List.replicate (n - (n - countPippa l)) blank := by
  have h1 := rest_placeholder hl (floatsL_given h)
  conv_lhs => rw [← List.take_append_drop (n - countPippa l) l]
  rw [← floatsL_num h]
  congr 1
  refine List.eq_replicate_iff.mpr ⟨?_, h1⟩
  rw [List.length_drop, hl]

theorem solve_echo {form : InputForm} {e : Bool} {Ns Nd : ℕ} {R : NDMat} {inp : Inputs}
    {out : Outputs} (hf : formAllowed form Ns) (hsz : Sized Ns Nd inp)
    (hR : R.rows = 11 * Ns + 6 * Nd) (hS : Symm R.get (11 * Ns + 6 * Nd))
    (h : solveForm form e Ns Nd R inp = some out) :
    Solves Ns Nd R out ∧ Echo form Ns Nd inp out := by
  cases form with
  | fts =>
    obtain ⟨a, ⟨b1, b2, b3, b4, b5⟩, -⟩ := fts_solves hsz hR h
    exact ⟨a, floatsL_num b1, floatsL_num b2, floats33L_num b3, floatsL_num b4, floatsL_num b5⟩
  | fte =>
    obtain ⟨a, ⟨b1, b2, b3, b4, b5⟩, -⟩ := fte_solves hsz hR hS h
    exact ⟨a, floatsL_num b1, floatsL_num b2, floats33L_num b3, floatsL_num b4, floatsL_num b5⟩
  | ufte =>
    cases e with
    | true =>
      exfalso
      simp only [solveForm, solveUFTE, if_true] at h
      obtain ⟨_, -, h⟩ := Option.bind_eq_some_iff.mp h
      obtain ⟨_, -, h⟩ := Option.bind_eq_some_iff.mp h
      obtain ⟨_, -, h⟩ := Option.bind_eq_some_iff.mp h
      exact absurd h (by simp)
    | false =>
      obtain ⟨a, ⟨b1, b2, b3, b4, b5, b6⟩, -⟩ := ufte_solves hsz hR hS h
      exact ⟨a, Ns - countPippa inp.Ua, by omega, split_blank hsz.Ua b1, floatsL_num b2,
        floatsL_num b3, floats33L_num b4, floatsL_num b5, floatsL_num b6⟩
  | ufteu =>
    obtain ⟨a, ⟨b1, b2, b3, b4, b5, b6, b7, b8⟩, -⟩ := ufteu_solves hsz hR hS h
    exact ⟨a, Ns - countPippa inp.Ua, by omega, Nd - countPippa inp.Ub, by omega,
      split_blank hsz.Ua b1, floatsL_num b2,
      floatsL_num b3, floats33L_num b4, split_blank hsz.Ub b5, floatsL_num b7, floatsL_num b6,
      floatsL_num b8⟩
  | duf =>
    obtain rfl : Ns = 0 := by
      by_contra h0; exact hf.2 (Nat.pos_of_ne_zero h0) rfl
    obtain ⟨a, b5, b6, b7, b8⟩ := duf_solves hsz hR hS h
    exact ⟨a, Nd - countPippa inp.Ub, by omega,
      split_blank hsz.Ub b5, floatsL_num b7, floatsL_num b6, floatsL_num b8⟩

/-- Two lists of numbers followed by blanks that are equal as inputs have the same numbers. -/
theorem blank_split_inj {r r' : List Vec3} {n k k' : ℕ} (hr : r.length = n) (hr' : r'.length = n)
    (hk : k ≤ n) (hk' : k' ≤ n)
    (h : (r.take k).map num3 ++ List.replicate (n - k) blank
      = (r'.take k').map num3 ++ List.replicate (n - k') blank) :
    k = k' ∧ r.take k = r'.take k := by
  have c : ∀ (q : List Vec3) (m : ℕ), m ≤ n → q.length = n →
      ((q.take m).map num3 ++ List.replicate (n - m) blank).countP isPippa = n - m := by
    intro q m hm hq
    rw [List.countP_append, List.countP_replicate, if_pos ((isPippa_iff _).mpr rfl)]
    have : ((q.take m).map num3).countP isPippa = 0 := by
      rw [List.countP_eq_zero]
      intro v hv hp
      exact given_not_blank (given_map _ v hv) ((isPippa_iff v).mp hp)
    omega
  have e := congrArg (List.countP isPippa) h
  rw [c r k hk hr, c r' k' hk' hr'] at e
  obtain rfl : k = k' := by omega
  refine ⟨rfl, ?_⟩
  have := List.append_inj_left h (by simp [hr, hr'])
  exact List.map_injective_iff.mpr num3_inj this

theorem getD_of_take {α : Type*} {r r' : List α} {k a : ℕ} {d : α} (h : r.take k = r'.take k)
    (ha : a < k) : r.getD a d = r'.getD a d := by
  rw [← getD_take r k a d ha, h, getD_take r' k a d ha]

theorem getD_of_drop {α : Type*} {r r' : List α} {k a : ℕ} {d : α} (h : r.drop k = r'.drop k)
    (ha : k ≤ a) : r.getD a d = r'.getD a d := by
  have e : k + (a - k) = a := by omega
  rw [← e, ← getD_drop r k (a - k) d, h, getD_drop r' k (a - k) d]

theorem getD_tail {l : List OVec3} {r r' : List Vec3} {k a : ℕ}
    (h1 : l.drop k = (r.drop k).map num3) (h2 : l.drop k = (r'.drop k).map num3) (ha : k ≤ a) :
    r.getD a 0 = r'.getD a 0 :=
  getD_of_drop (List.map_injective_iff.mpr num3_inj (h1.symm.trans h2)) ha

theorem map3_inj {r r' : List Vec3} {l : List OVec3} (h1 : l = r.map num3) (h2 : l = r'.map num3) :
    r = r' := List.map_injective_iff.mpr num3_inj (h1.symm.trans h2)

theorem map33_inj {r r' : List Mat3} {l : List OMat3} (h1 : l = r.map num33)
    (h2 : l = r'.map num33) : r = r' := List.map_injective_iff.mpr num33_inj (h1.symm.trans h2)

/-- Two outputs echoing the same complete inputs agree at each index in velocity or in force. -/
theorem echo_agree {form : InputForm} {Ns Nd : ℕ} {inp : Inputs} {a b : Outputs} {R R' : NDMat}
    (hf : formAllowed form Ns) (ha : Solves Ns Nd R a) (hb : Solves Ns Nd R' b)
    (ea : Echo form Ns Nd inp a) (eb : Echo form Ns Nd inp b) :
    ∀ i < 11 * Ns + 6 * Nd,
      pack Ns Nd a.Ua a.Oa a.Ea a.Ub a.HalfDUb i = pack Ns Nd b.Ua b.Oa b.Ea b.Ub b.HalfDUb i ∨
      pack Ns Nd a.Fa a.Ta a.Sa a.Fb a.DFb i = pack Ns Nd b.Fa b.Ta b.Sa b.Fb b.DFb i := by
  cases form with
  | fts =>
    obtain ⟨x1, x2, x3, x4, x5⟩ := ea
    obtain ⟨y1, y2, y3, y4, y5⟩ := eb
    intro i _; right
    rw [map3_inj x1 y1, map3_inj x2 y2, map33_inj x3 y3, map3_inj x4 y4, map3_inj x5 y5]
  | fte =>
    obtain ⟨x1, x2, x3, x4, x5⟩ := ea
    obtain ⟨y1, y2, y3, y4, y5⟩ := eb
    have z1 := map3_inj x1 y1
    have z2 := map3_inj x2 y2
    have z3 := map33_inj x3 y3
    have z4 := map3_inj x4 y4
    have z5 := map3_inj x5 y5
    apply grand_cases
    · intro p hp c; right; rw [pack_u _ _ _ _ _ hp, pack_u _ _ _ _ _ hp, z1]
    · intro p hp c; right; rw [pack_o _ _ _ _ _ hp, pack_o _ _ _ _ _ hp, z2]
    · intro p hp c; left; rw [pack_e _ _ _ _ _ hp, pack_e _ _ _ _ _ hp, z3]
    · intro p hp c; right; rw [pack_ub _ _ _ _ _ hp, pack_ub _ _ _ _ _ hp, z4]
    · intro p hp c; right; rw [pack_hd _ _ _ _ _ hp, pack_hd _ _ _ _ _ hp, z5]
  | ufte =>
    obtain ⟨k, hk, x0, x1, x2, x3, x4, x5⟩ := ea
    obtain ⟨k', hk', y0, y1, y2, y3, y4, y5⟩ := eb
    obtain ⟨rfl, z0⟩ := blank_split_inj ha.Ua hb.Ua hk hk' (x0.symm.trans y0)
    have z2 := map3_inj x2 y2
    have z3 := map33_inj x3 y3
    have z4 := map3_inj x4 y4
    have z5 := map3_inj x5 y5
    apply grand_cases
    · intro p hp c
      by_cases hpk : p < k
      · left; rw [pack_u _ _ _ _ _ hp, pack_u _ _ _ _ _ hp, getD_of_take z0 hpk]
      · right; rw [pack_u _ _ _ _ _ hp, pack_u _ _ _ _ _ hp, getD_tail x1 y1 (by omega)]
    · intro p hp c; right; rw [pack_o _ _ _ _ _ hp, pack_o _ _ _ _ _ hp, z2]
    · intro p hp c; left; rw [pack_e _ _ _ _ _ hp, pack_e _ _ _ _ _ hp, z3]
    · intro p hp c; right; rw [pack_ub _ _ _ _ _ hp, pack_ub _ _ _ _ _ hp, z4]
    · intro p hp c; right; rw [pack_hd _ _ _ _ _ hp, pack_hd _ _ _ _ _ hp, z5]
  | ufteu =>
    obtain ⟨k, hk, kd, hkd, x0, x1, x2, x3, x4, x5, x6, x7⟩ := ea
    obtain ⟨k', hk', kd', hkd', y0, y1, y2, y3, y4, y5, y6, y7⟩ := eb
    obtain ⟨rfl, z0⟩ := blank_split_inj ha.Ua hb.Ua hk hk' (x0.symm.trans y0)
    obtain ⟨rfl, w0⟩ := blank_split_inj ha.Ub hb.Ub hkd hkd' (x4.symm.trans y4)
    have z2 := map3_inj x2 y2
    have z3 := map33_inj x3 y3
    have z5 := map3_inj x5 y5
    apply grand_cases
    · intro p hp c
      by_cases hpk : p < k
      · left; rw [pack_u _ _ _ _ _ hp, pack_u _ _ _ _ _ hp, getD_of_take z0 hpk]
      · right; rw [pack_u _ _ _ _ _ hp, pack_u _ _ _ _ _ hp, getD_tail x1 y1 (by omega)]
    · intro p hp c; right; rw [pack_o _ _ _ _ _ hp, pack_o _ _ _ _ _ hp, z2]
    · intro p hp c; left; rw [pack_e _ _ _ _ _ hp, pack_e _ _ _ _ _ hp, z3]
    · intro p hp c
      by_cases hpk : p < kd
      · left; rw [pack_ub _ _ _ _ _ hp, pack_ub _ _ _ _ _ hp, getD_of_take w0 hpk]
      · right; rw [pack_ub _ _ _ _ _ hp, pack_ub _ _ _ _ _ hp, getD_tail x6 y6 (by omega)]
    · intro p hp c
      by_cases hpk : p < kd
      · left; rw [pack_hd _ _ _ _ _ hp, pack_hd _ _ _ _ _ hp, getD_of_take z5 hpk]
      · right; rw [pack_hd _ _ _ _ _ hp, pack_hd _ _ _ _ _ hp, getD_tail x7 y7 (by omega)]
  | duf =>
    obtain rfl : Ns = 0 := by
      by_contra h0; exact hf.2 (Nat.pos_of_ne_zero h0) rfl
    obtain ⟨kd, hkd, x4, x5, x6, x7⟩ := ea
    obtain ⟨kd', hkd', y4, y5, y6, y7⟩ := eb
    obtain ⟨rfl, w0⟩ := blank_split_inj ha.Ub hb.Ub hkd hkd' (x4.symm.trans y4)
    have z5 := map3_inj x5 y5
    apply grand_cases
    · intro p hp; omega
    · intro p hp; omega
    · intro p hp; omega
    · intro p hp c
      by_cases hpk : p < kd
      · left; rw [pack_ub _ _ _ _ _ hp, pack_ub _ _ _ _ _ hp, getD_of_take w0 hpk]
      · right; rw [pack_ub _ _ _ _ _ hp, pack_ub _ _ _ _ _ hp, getD_tail x6 y6 (by omega)]
    · intro p hp c
      by_cases hpk : p < kd
      · left; rw [pack_hd _ _ _ _ _ hp, pack_hd _ _ _ _ _ hp, getD_of_take z5 hpk]
      · right; rw [pack_hd _ _ _ _ _ hp, pack_hd _ _ _ _ _ hp, getD_tail x7 y7 (by omega)]

theorem five_inj {m m' : Mat3} (h : SymTraceless m) (h' : SymTraceless m')
    (e : five m = five m') : m = m' := by
  rw [← uncondense_five m h, ← uncondense_five m' h', e]

theorem list_ext_getD {α : Type*} {l l' : List α} {n : ℕ} {d : α} (h : l.length = n)
    (h' : l'.length = n) (e : ∀ a < n, l.getD a d = l'.getD a d) : l = l' := by
  apply List.ext_getElem (h.trans h'.symm)
  intro i h1 h2
  have := e i (h ▸ h1)
  rwa [List.getD_eq_getElem _ _ h1, List.getD_eq_getElem _ _ h2] at this

/-- Equal grand vectors of per-particle lists mean equal lists. -/
theorem pack_inj {Ns Nd : ℕ} {u o ub hd u' o' ub' hd' : List Vec3} {e e' : List Mat3}
    (h1 : u.length = Ns) (h1' : u'.length = Ns) (h2 : o.length = Ns) (h2' : o'.length = Ns)
    (h3 : Ns ≤ e.length) (h3' : Ns ≤ e'.length) (h4 : ub.length = Nd) (h4' : ub'.length = Nd)
    (h5 : hd.length = Nd) (h5' : hd'.length = Nd)
    (s : ∀ m ∈ e.take Ns, SymTraceless m) (s' : ∀ m ∈ e'.take Ns, SymTraceless m)
    (h : ∀ i < 11 * Ns + 6 * Nd, pack Ns Nd u o e ub hd i = pack Ns Nd u' o' e' ub' hd' i) :
    u = u' ∧ o = o' ∧ e.take Ns = e'.take Ns ∧ ub = ub' ∧ hd = hd' := by
  refine ⟨list_ext_getD h1 h1' (d := 0) ?_, list_ext_getD h2 h2' (d := 0) ?_,
    list_ext_getD (n := Ns) (d := 0) (by simp [h3]) (by simp [h3']) ?_,
    list_ext_getD h4 h4' (d := 0) ?_, list_ext_getD h5 h5' (d := 0) ?_⟩
  · intro a ha; funext c
    have hc := c.isLt
    have := h (3 * a + c) (by omega)
    rwa [pack_u _ _ _ _ _ ha, pack_u _ _ _ _ _ ha] at this
  · intro a ha; funext c
    have hc := c.isLt
    have := h (3 * Ns + (3 * a + c)) (by omega)
    rwa [pack_o _ _ _ _ _ ha, pack_o _ _ _ _ _ ha] at this
  · intro a ha
    rw [getD_take _ _ _ _ ha, getD_take _ _ _ _ ha]
    have mem : ∀ {l : List Mat3}, Ns ≤ l.length → l.getD a 0 ∈ l.take Ns := by
      intro l hl
      rw [← getD_take _ _ _ _ ha, List.getD_eq_getElem _ _ (by simp; omega)]
      exact List.getElem_mem _
    apply five_inj (s _ (mem h3)) (s' _ (mem h3'))
    funext c
    have hc := c.isLt
    have := h (6 * Ns + (5 * a + c)) (by omega)
    rwa [pack_e _ _ _ _ _ ha, pack_e _ _ _ _ _ ha] at this
  · intro a ha; funext c
    have hc := c.isLt
    have := h (11 * Ns + (3 * a + c)) (by omega)
    rwa [pack_ub _ _ _ _ _ ha, pack_ub _ _ _ _ _ ha] at this
  · intro a ha; funext c
    have hc := c.isLt
    have := h (11 * Ns + 3 * Nd + (3 * a + c)) (by omega)
    rwa [pack_hd _ _ _ _ _ ha, pack_hd _ _ _ _ _ ha] at this

end SD
