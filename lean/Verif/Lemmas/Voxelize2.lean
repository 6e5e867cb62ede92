import Verif.Lemmas.Voxelize
import Verif.Spec.Voxelize
import Verif.Props.Raycast

set_option autoImplicit false

namespace VGT
open VGT.EDT VGT.Spec

theorem cellInGrid_iff {d : Dims} {i : IVec} : CellInGrid (axisCells d) i ↔
    (0 ≤ i 0 ∧ i 0 < d.nx) ∧ (0 ≤ i 1 ∧ i 1 < d.ny) ∧ (0 ≤ i 2 ∧ i 2 < d.nz) := by
  unfold CellInGrid
  rw [fin3_forall]
  rfl

theorem dataIndex_lt {d : Dims} {i : IVec} (h : CellInGrid (axisCells d) i) : dataIndex d i < d.total := by
  obtain ⟨⟨a0, a1⟩, ⟨b0, b1⟩, c0, c1⟩ := cellInGrid_iff.1 h
  unfold dataIndex Dims.total
  have ha : (i 0).toNat < d.nx := by omega
  have hb : (i 1).toNat < d.ny := by omega
  have hc : (i 2).toNat < d.nz := by omega
  have h1 : (i 0).toNat * d.ny + (i 1).toNat + 1 ≤ d.nx * d.ny := by
    have : ((i 0).toNat + 1) * d.ny ≤ d.nx * d.ny := Nat.mul_le_mul_right _ ha
    rw [Nat.add_mul] at this
    omega
  have h2 := Nat.mul_le_mul_right d.nz h1
  rw [Nat.add_mul] at h2
  omega

theorem dataIndex_inj {d : Dims} {i j : IVec} (hi : CellInGrid (axisCells d) i) (hj : CellInGrid (axisCells d) j)
    (h : dataIndex d i = dataIndex d j) : i = j := by
  obtain ⟨⟨a0, a1⟩, ⟨b0, b1⟩, c0, c1⟩ := cellInGrid_iff.1 hi
  obtain ⟨⟨a0', a1'⟩, ⟨b0', b1'⟩, c0', c1'⟩ := cellInGrid_iff.1 hj
  unfold dataIndex at h
  have hc : (i 2).toNat < d.nz := by omega
  have hc' : (j 2).toNat < d.nz := by omega
  have hb : (i 1).toNat < d.ny := by omega
  have hb' : (j 1).toNat < d.ny := by omega
  have e2 : (i 2).toNat = (j 2).toNat := by
    have := congrArg (· % d.nz) h
    simpa [Nat.mul_add_mod', Nat.mod_eq_of_lt hc, Nat.mod_eq_of_lt hc'] using this
  have e01 : (i 0).toNat * d.ny + (i 1).toNat = (j 0).toNat * d.ny + (j 1).toNat := by
    rw [e2] at h
    exact Nat.eq_of_mul_eq_mul_right (by omega : 0 < d.nz) (by omega)
  have e1 : (i 1).toNat = (j 1).toNat := by
    have := congrArg (· % d.ny) e01
    simpa [Nat.mul_add_mod', Nat.mod_eq_of_lt hb, Nat.mod_eq_of_lt hb'] using this
  have e0 : (i 0).toNat = (j 0).toNat := by
    rw [e1] at e01
    exact Nat.eq_of_mul_eq_mul_right (by omega : 0 < d.ny) (by omega)
  funext a
  have := fin3_forall (P := fun a => i a = j a)
  exact (this.2 ⟨by omega, by omega, by omega⟩) a

section
variable {K : Type} [Field K] [LinearOrder K] [IsStrictOrderedRing K] [FloorRing K]

/-- Whatever the ray, a cast that returns marked only grid cells, each at most once. -/
theorem raycast_marks {d : Dims} {s : K} {o p : Vec K} {L : K} {range : WithTop K} {ms : List Mark}
    (h : raycast d s o p L range = some ms) : (∀ m ∈ ms, CellInGrid (axisCells d) m.cell) ∧ (ms.map Mark.cell).Nodup := by
  unfold raycast at h
  simp only at h
  have key : ∀ q f ray clip, castFrom d s q f ray clip = some ms →
      (∀ m ∈ ms, CellInGrid (axisCells d) m.cell) ∧ (ms.map Mark.cell).Nodup := by
    intro q f ray clip hc
    obtain ⟨ms', h1, h2, h3, _⟩ := castFrom_total d s q f ray clip
    rw [h1] at hc
    cases hc
    exact ⟨h2, h3⟩
  split_ifs at h with h1 h2 h3 h4
  · exact key _ _ _ _ h
  · cases h; simp
  · cases hsl : slabs d s o (fun a => (p a - o a) / L) range with
    | none => rw [hsl] at h; cases h; simp
    | some tmin => rw [hsl] at h; exact key _ _ _ _ h

theorem pointMarks_marks {d : Dims} {s : K} {norm : Vec K → K} {c : Cloud K} {x : Option (Vec K)} {ms : List Mark}
    (h : pointMarks d s norm c x = some ms) : (∀ m ∈ ms, CellInGrid (axisCells d) m.cell) ∧ (ms.map Mark.cell).Nodup := by
  cases x with
  | none => cases h; simp
  | some x => exact raycast_marks h

theorem countP_nodup_cell {d : Dims} {ms : List Mark} (hg : ∀ m ∈ ms, CellInGrid (axisCells d) m.cell)
    (hnd : (ms.map Mark.cell).Nodup) {i : IVec} (hi : CellInGrid (axisCells d) i) :
    ms.countP (isFreeAt d (dataIndex d i)) = (if Mark.free i ∈ ms then 1 else 0) ∧
    ms.countP (isFilledAt d (dataIndex d i)) = (if Mark.filled i ∈ ms then 1 else 0) := by
  induction ms with
  | nil => simp
  | cons m ms ih =>
    rw [List.map_cons, List.nodup_cons] at hnd
    obtain ⟨ih1, ih2⟩ := ih (fun m' hm' => hg m' (List.mem_cons_of_mem _ hm')) hnd.2
    have hgm := hg m List.mem_cons_self
    rw [List.countP_cons, List.countP_cons, ih1, ih2]
    cases m with
    | free j =>
      by_cases hj : j = i
      · subst hj
        have n1 : Mark.free j ∉ ms := fun h => hnd.1 (List.mem_map.2 ⟨_, h, rfl⟩)
        have n2 : Mark.filled j ∉ ms := fun h => hnd.1 (List.mem_map.2 ⟨_, h, rfl⟩)
        simp [isFreeAt, isFilledAt, n1, n2]
      · have hne : dataIndex d j ≠ dataIndex d i := fun h => hj (dataIndex_inj hgm hi h)
        have hj' : i ≠ j := fun h => hj h.symm
        simp [isFreeAt, isFilledAt, hne, hj']
    | filled j =>
      by_cases hj : j = i
      · subst hj
        have n1 : Mark.free j ∉ ms := fun h => hnd.1 (List.mem_map.2 ⟨_, h, rfl⟩)
        have n2 : Mark.filled j ∉ ms := fun h => hnd.1 (List.mem_map.2 ⟨_, h, rfl⟩)
        simp [isFreeAt, isFilledAt, n1, n2]
      · have hne : dataIndex d j ≠ dataIndex d i := fun h => hj (dataIndex_inj hgm hi h)
        have hj' : i ≠ j := fun h => hj h.symm
        simp [isFreeAt, isFilledAt, hne, hj']

/-- The number of marks at a cell is the number of points that mark it. -/
theorem cloudMarks_count {d : Dims} {s : K} {norm : Vec K → K} {c : Cloud K} {i : IVec}
    (hi : CellInGrid (axisCells d) i) :
    (cloudMarks d s norm c).countP (isFreeAt d (dataIndex d i)) = hitCount d s norm c (.free i) ∧
    (cloudMarks d s norm c).countP (isFilledAt d (dataIndex d i)) = hitCount d s norm c (.filled i) ∧
    hitCount d s norm c (.free i) + hitCount d s norm c (.filled i) ≤ c.points.length := by
  classical
  unfold cloudMarks hitCount
  generalize c.points = l
  induction l with
  | nil => simp
  | cons x l ih =>
    obtain ⟨ih1, ih2, ih3⟩ := ih
    rw [List.flatMap_cons, List.countP_append, List.countP_append, ih1, ih2, List.countP_cons, List.countP_cons]
    cases hp : pointMarks d s norm c x with
    | none =>
      have n1 : ∀ m, ¬ Marks d s norm c m x := by
        rintro m ⟨ms, h, _⟩
        rw [hp] at h
        cases h
      simp [n1]
      omega
    | some ms =>
      obtain ⟨hg, hnd⟩ := pointMarks_marks hp
      obtain ⟨e1, e2⟩ := countP_nodup_cell hg hnd hi
      have n1 : ∀ m, Marks d s norm c m x ↔ m ∈ ms := by
        intro m
        constructor
        · rintro ⟨ms', h, hm⟩
          rw [hp] at h
          cases h
          exact hm
        · exact fun h => ⟨ms, hp, h⟩
      have hex : ¬ (Mark.free i ∈ ms ∧ Mark.filled i ∈ ms) := by
        rintro ⟨h1, h2⟩
        have := List.inj_on_of_nodup_map hnd h1 h2 rfl
        cases this
      simp only [Option.getD_some, n1, decide_eq_true_eq, e1, e2, List.length_cons]
      refine ⟨by omega, by omega, ?_⟩
      by_cases h1 : Mark.free i ∈ ms
      · have h2 : Mark.filled i ∉ ms := fun h2 => hex ⟨h1, h2⟩
        rw [if_pos h1, if_neg h2]
        omega
      · rw [if_neg h1]
        split_ifs <;> omega

theorem trackOf_cell {d : Dims} {s : K} {norm : Vec K → K} {c : Cloud K} (hlen : c.points.length < 2 ^ 31) {i : IVec}
    (hi : CellInGrid (axisCells d) i) : trackOf d (cloudMarks d s norm c) (dataIndex d i) =
      ((hitCount d s norm c (.free i) : ℤ), (hitCount d s norm c (.filled i) : ℤ)) := by
  obtain ⟨e1, e2, e3⟩ := cloudMarks_count (s := s) (norm := norm) (c := c) hi
  unfold trackOf
  rw [e1, e2, wrap32_small (by positivity) (by omega), wrap32_small (by positivity) (by omega)]

/-- Every data index belongs to a cell. -/
theorem exists_cell {d : Dims} {v : ℕ} (h : v < d.total) : ∃ i, CellInGrid (axisCells d) i ∧ dataIndex d i = v := by
  unfold Dims.total at h
  have hz : 0 < d.nz := Nat.pos_of_ne_zero fun h0 => by rw [h0] at h; omega
  have hy : 0 < d.ny := Nat.pos_of_ne_zero fun h0 => by rw [h0] at h; omega
  refine ⟨![((v / d.nz / d.ny : ℕ) : ℤ), ((v / d.nz % d.ny : ℕ) : ℤ), ((v % d.nz : ℕ) : ℤ)], ?_, ?_⟩
  · rw [cellInGrid_iff]
    have h1 : v / d.nz / d.ny < d.nx := by
      rw [Nat.div_div_eq_div_mul]
      rw [Nat.div_lt_iff_lt_mul (Nat.mul_pos hz hy)]
      calc v < d.nx * d.ny * d.nz := h
        _ = d.nx * (d.nz * d.ny) := by rw [Nat.mul_assoc, Nat.mul_comm d.ny]
    have h2 := Nat.mod_lt (v / d.nz) hy
    have h3 := Nat.mod_lt v hz
    exact ⟨⟨Int.natCast_nonneg _, Int.ofNat_lt.2 h1⟩, ⟨Int.natCast_nonneg _, Int.ofNat_lt.2 h2⟩, Int.natCast_nonneg _,
      Int.ofNat_lt.2 h3⟩
  · unfold dataIndex
    simp only [Matrix.cons_val_zero, Matrix.cons_val_one, Matrix.cons_val, Int.toNat_natCast]
    rw [Nat.div_add_mod' (v / d.nz) d.ny, Nat.div_add_mod' v d.nz]

theorem hits_ok {d : Dims} {s : K} {norm : Vec K → K} {clouds : List (Cloud K)}
    (hlen : ∀ c ∈ clouds, c.points.length < 2 ^ 31) {v : ℕ} (hv : v < d.total) :
    ∀ c ∈ hits d s norm clouds v, CountsOk c := by
  obtain ⟨i, hi, rfl⟩ := exists_cell hv
  intro x hx
  obtain ⟨c, hc, rfl⟩ := List.mem_map.1 hx
  rw [trackOf_cell (hlen c hc) hi]
  have := (cloudMarks_count (s := s) (norm := norm) (c := c) hi).2.2
  have := hlen c hc
  unfold CountsOk
  simp only
  omega

end

end VGT
