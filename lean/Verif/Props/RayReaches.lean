import Verif.Props.RayEntry
import Verif.Spec.Reaches

/-!
C73: the computed entry into the grid lies before the end of every ray that does not end before the grid.
-/
set_option autoImplicit false

namespace VGT
open VGT.EDT VGT.Spec

section
variable {R : ℚ → Fl} {u η M s n N E : ℚ} {g : RayGrid Fl} {o p : Fin 3 → ℚ} {L : ℚ}

/-- The time to the nearer plane is before a time at which the ray has passed the plane it moves towards. -/
theorem axis_early {w κ x S ds tl th t : ℚ} (hds : ds ≠ 0) (hds2 : |ds| ≤ 2) (hl : |tl * ds - (0 - x)| ≤ w) (hh : |th * ds - (S - x)| ≤ w)
    (hκ : w < κ) (h1 : 0 < ds → κ ≤ x + t * ds) (h2 : ds < 0 → x + t * ds ≤ S - κ) :
    tl + (κ - w) / 2 ≤ t ∨ th + (κ - w) / 2 ≤ t := by
  have l' := abs_le.1 hl
  have h' := abs_le.1 hh
  have d' := abs_le.1 hds2
  rcases lt_or_gt_of_ne hds with hneg | hpos
  · right
    have := h2 hneg
    have b1 : κ - w ≤ (t - th) * (-ds) := by nlinarith
    have c1 : 0 < t - th := by
      by_contra hc
      have := mul_nonpos_of_nonpos_of_nonneg (not_lt.1 hc) (neg_pos.2 hneg).le
      linarith
    have c3 : (t - th) * (-ds) ≤ (t - th) * 2 := mul_le_mul_of_nonneg_left (by linarith) c1.le
    linarith
  · left
    have := h1 hpos
    have b1 : κ - w ≤ (t - tl) * ds := by nlinarith
    have c1 : 0 < t - tl := by
      by_contra hc
      have := mul_nonpos_of_nonpos_of_nonneg (not_lt.1 hc) hpos.le
      linarith
    have c3 : (t - tl) * ds ≤ (t - tl) * 2 := mul_le_mul_of_nonneg_left (by linarith) c1.le
    linarith

/-- The interval of the slab loop starts at `0` or at least `k` before `t`. -/
def SlabEarly (t k : ℚ) (f : Fl) : Prop := ∃ m, f = .fin m ∧ (m = 0 ∨ m + k ≤ t)

/-- One axis of the slab loop, for a ray that at time `t` has passed the plane it moves towards. -/
theorem slab_axis_early (h : EntryScale u η M s n N E) (hR : Rounds R u η M) (bits : ℕ) {x r D len z S t κ : ℚ} {st st' : Fl × Fl}
    (hlen : 1 / 10 ^ 10 ≤ len) (hr : |r - D| ≤ u * |D| + η) (hD : |D| ≤ 2 * len) (hx : 8 * |x| ≤ n * s) (hS0 : 0 ≤ S) (hS : 8 * S ≤ n * s)
    (hz : |z - S| ≤ u * n * s) (hκ : 4 * (u * n * s) < κ)
    (h1 : 0 < D → κ ≤ x + t * (D / len)) (h2 : D < 0 → x + t * (D / len) ≤ S - κ) (hst : SlabEarly t ((κ - 4 * (u * n * s)) / 2) st.1)
    (h' : flSlabAxis (ieee R bits) (.fin x) (Fl.divR R (.fin r) (.fin len)) (.fin z) st = some st') :
    SlabEarly t ((κ - 4 * (u * n * s)) / 2) st'.1 := by
  have hu := h.scale.u_pos; have hw := h.scale.w_pos; have hws := h.scale.w_le
  have hs := h.scale.s_pos
  have hlen0 : 0 < len := lt_of_lt_of_le (by norm_num) hlen
  obtain ⟨d, hd, hdd, hds2⟩ := dir_near h hR hlen hr hD
  obtain ⟨y, hy, hy1, hy2⟩ := tiny_near h hR
  have h1' : 0 < D / len → κ ≤ x + t * (D / len) := fun h3 => h1 (by
    have := mul_pos h3 hlen0
    rwa [div_mul_cancel₀ _ hlen0.ne'] at this)
  have h2' : D / len < 0 → x + t * (D / len) ≤ S - κ := fun h3 => h2 (by
    have := mul_neg_of_neg_of_pos h3 hlen0
    rwa [div_mul_cancel₀ _ hlen0.ne'] at this)
  clear h1 h2
  generalize D / len = ds at *
  rw [hd] at h'
  unfold flSlabAxis at h'
  have htest : (ieee R bits).lt ((ieee R bits).abs (.fin d)) (ieee R bits).tiny = decide (|d| < y) := by
    show Fl.lt (.fin |d|) (R (1 / 10 ^ 10)) = _
    rw [hy]; rfl
  rw [htest] at h'
  by_cases hflat : |d| < y
  · rw [if_pos (by simpa using hflat)] at h'
    split_ifs at h'
    cases h'
    exact hst
  · rw [if_neg (by simpa using hflat)] at h'
    obtain ⟨hds0, v, hv, hv1, hv2⟩ := recip_near h hR (by linarith [not_lt.1 hflat]) hdd hds2
    have hx' := abs_le.1 (show |x| ≤ n * s / 8 by linarith)
    have hz' := abs_le.1 hz
    obtain ⟨tl, etl, btl⟩ := plane_near h hR (z := 0 - x) (by rw [zero_sub, abs_neg]; linarith [abs_nonneg x]) hv1 hv2 hds2
    obtain ⟨th, eth, bth⟩ := plane_near h hR (z := z - x) (by
      have h3 : |z - x| ≤ (n * s + s) / 4 := by
        rw [abs_le]
        constructor <;> linarith
      linarith) hv1 hv2 hds2
    have btl' := btl.trans (show 3 * (u * n * s) ≤ 4 * (u * n * s) by linarith)
    have bth' : |th * ds - (S - x)| ≤ 4 * (u * n * s) := by
      have b := abs_le.1 bth
      rw [abs_le]
      constructor <;> linarith
    have htimes := axis_early hds0 hds2 btl' bth' hκ h1' h2'
    have elow : (ieee R bits).mul ((ieee R bits).sub (ieee R bits).zero (.fin x)) ((ieee R bits).div (ieee R bits).one (.fin d)) = .fin tl := by
      show Fl.mulR R (R (0 - x)) (Fl.divR R (.fin 1) (.fin d)) = _
      rw [hv]; exact etl
    have ehigh : (ieee R bits).mul ((ieee R bits).sub (.fin z) (.fin x)) ((ieee R bits).div (ieee R bits).one (.fin d)) = .fin th := by
      show Fl.mulR R (R (z - x)) (Fl.divR R (.fin 1) (.fin d)) = _
      rw [hv]; exact eth
    have hle : (ieee R bits).le (.fin tl) (.fin th) = decide (tl ≤ th) := rfl
    dsimp only at h'
    rw [elow, ehigh, hle, Option.ite_none_left_eq_some] at h'
    obtain ⟨-, h'⟩ := h'
    cases h'
    dsimp only
    obtain ⟨m, e1, hm⟩ := hst
    by_cases hlh : tl ≤ th
    · simp only [hlh, decide_true, if_true]
      split_ifs
      · exact ⟨tl, rfl, .inr (by rcases htimes with h3 | h3 <;> linarith)⟩
      · exact ⟨m, e1, hm⟩
    · simp only [hlh, decide_false, if_false, Bool.false_eq_true]
      have := not_le.1 hlh
      split_ifs
      · exact ⟨th, rfl, .inr (by rcases htimes with h3 | h3 <;> linarith)⟩
      · exact ⟨m, e1, hm⟩

/-- The computed entry lies before every time at which the ray has passed the planes it moves towards. -/
theorem entry_early (h : EntryScale u η M s n N E) (hR : Rounds R u η M) (bits : ℕ) (hg : GridWith u s N g)
    (hdims : ∀ a, 8 * ((axisCells g.dims a : ℚ) + 2) ≤ n)
    (hsize : ∀ a, ∃ z, g.size a = .fin z ∧ |z - axisCells g.dims a * s| ≤ u * n * s) (ho : ∀ a, 8 * |o a| ≤ n * s)
    {r : Fin 3 → ℚ} (hr0 : ∀ a, Fl.subR R (.fin (p a)) (.fin (o a)) = .fin (r a))
    (hr1 : ∀ a, |r a - (p a - o a)| ≤ u * |p a - o a| + η) {len : ℚ} {range : Fl} (hD : ∀ a, |p a - o a| ≤ 2 * len) (hlen0 : 0 < len)
    (hlenM : 2 * len ≤ M) {i0 : IVec}
    (hi0 : flIndex (ieee R bits) g (fun a => .fin (o a)) = some i0) (hout : ¬ CellInGrid (axisCells g.dims) i0) {σ κ : ℚ}
    (hσ0 : 0 ≤ σ) (hσ1 : σ ≤ 1) (hκ : 6 * (u * n * s) + 5 / 10 ^ 10 * (1 + len) + 8 * (u * len) ≤ κ)
    (hnot : NotShort κ s (axisCells g.dims) o (onSeg o p σ)) {X : Fl}
    (hX : flEntry (ieee R bits) g (fun a => .fin (o a)) (fun a => .fin (p a)) (.fin len) range = some X) :
    ∃ T, X = .fin T ∧ 0 ≤ T ∧ T + 3 * (u * len) < σ * len := by
  have hu := h.scale.u_pos; have hu1 := h.u_le; have hw := h.scale.w_pos; have hs := h.scale.s_pos
  have hη0 := h.scale.η_nonneg; have hη := h.η_le
  have hul := mul_pos hu hlen0
  have hσl : σ * len ≤ len := mul_le_of_le_one_left hlen0.le hσ1
  have hσl0 : 0 ≤ σ * len := mul_nonneg hσ0 hlen0.le
  have hκ0 : 0 < κ := by linarith
  -- the sensor is away from the point
  have hfar : κ - 5 * (u * n * s) ≤ 2 * (σ * len) ∧ 1 / 10 ^ 10 ≤ len := by
    obtain ⟨v, hv, hv'⟩ := hg.inv
    have : ∃ a, ¬ (0 ≤ i0 a ∧ i0 a < axisCells g.dims a) := by
      by_contra hc
      push Not at hc
      exact hout fun a => by
        have := hc a
        omega
    obtain ⟨a, ha⟩ := this
    have hi := flIndex_axis hi0 a
    rw [hv] at hi
    have hcells : (0 : ℚ) ≤ axisCells g.dims a := Nat.cast_nonneg _
    obtain ⟨n1, n2⟩ := hnot a
    unfold onSeg at n1 n2
    have hσD : |σ * (p a - o a)| ≤ 2 * (σ * len) := by
      rw [abs_mul, abs_of_nonneg hσ0]
      have := mul_le_mul_of_nonneg_left (hD a) hσ0
      linarith
    have hσD' := abs_le.1 hσD
    have key : κ - 5 * (u * n * s) ≤ 2 * (σ * len) := by
      by_cases h0 : 0 ≤ i0 a
      · have h1 : (axisCells g.dims a : ℤ) ≤ i0 a := by
          by_contra hc
          exact ha ⟨h0, by omega⟩
        have := (index_final h.scale hR bits hv' hi (axisCells g.dims a : ℤ) (by omega) (by
          push_cast; linarith [hdims a])).1 h1
        push_cast at this
        rcases n2 with n2 | n2 | n2 <;> linarith
      · have := (index_final h.scale hR bits hv' hi 0 le_rfl (by push_cast; linarith [h.n_ge])).2 (by omega)
        push_cast at this
        rcases n1 with n1 | n1 | n1 <;> linarith
    exact ⟨key, by linarith⟩
  obtain ⟨hfar, hlen⟩ := hfar
  have haxis : ∀ (a : Fin 3) (st st' : Fl × Fl), SlabEarly (σ * len) ((κ - 4 * (u * n * s)) / 2) st.1 →
      flSlabAxis (ieee R bits) (.fin (o a)) ((ieee R bits).div ((ieee R bits).sub (.fin (p a)) (.fin (o a))) (.fin len)) (g.size a) st =
        some st' → SlabEarly (σ * len) ((κ - 4 * (u * n * s)) / 2) st'.1 := by
    intro a st st' hst h'
    obtain ⟨z, hz, hz'⟩ := hsize a
    have e0 : (ieee R bits).div ((ieee R bits).sub (.fin (p a)) (.fin (o a))) (.fin len) = Fl.divR R (.fin (r a)) (.fin len) := by
      show Fl.divR R (Fl.subR R (.fin (p a)) (.fin (o a))) (.fin len) = _
      rw [hr0 a]
    have hcells : (0 : ℚ) ≤ axisCells g.dims a := Nat.cast_nonneg _
    have e1 : o a + σ * len * ((p a - o a) / len) = onSeg o p σ a := by
      unfold onSeg
      field_simp
    have e2 : onSeg o p σ a = o a + σ * (p a - o a) := rfl
    obtain ⟨n1, n2⟩ := hnot a
    rw [e0, hz] at h'
    refine slab_axis_early h hR bits hlen (hr1 a) (hD a) (ho a) (mul_nonneg hcells hs.le) ?_ hz' (by linarith) (fun hp => ?_) (fun hp => ?_) hst h'
    · have := mul_le_mul_of_nonneg_right (hdims a) hs.le
      linarith
    · rw [e1]
      have := mul_nonneg hσ0 hp.le
      rcases n1 with n1 | n1 | n1 <;> linarith
    · rw [e1]
      have := mul_nonneg hσ0 (neg_nonneg.2 hp.le)
      rcases n2 with n2 | n2 | n2 <;> linarith
  unfold flEntry at hX
  obtain ⟨tmin, hslabs, hX⟩ := Option.map_eq_some_iff.1 hX
  have hnn := slabs_nonneg bits hslabs
  unfold flSlabs at hslabs
  obtain ⟨st0, g0, hslabs⟩ := Option.bind_eq_some_iff.1 hslabs
  obtain ⟨st1, g1, hslabs⟩ := Option.bind_eq_some_iff.1 hslabs
  obtain ⟨st2, g2, rfl⟩ := Option.map_eq_some_iff.1 hslabs
  obtain ⟨m, hm, hmt⟩ := haxis 2 st1 st2 (haxis 1 st0 st1 (haxis 0 _ st0 ⟨0, rfl, .inl rfl⟩ g0) g1) g2
  rw [hm] at hnn hX
  have hm0 : 0 ≤ m := hnn
  have hmt' : m + (κ - 5 * (u * n * s)) / 2 ≤ σ * len := by
    rcases hmt with rfl | hmt
    · linarith
    · linarith
  obtain ⟨y, hy, hy1, hy2⟩ := tiny_near h hR
  have hml : m ≤ len := by linarith
  have hM : 10 ^ 12 ≤ M := by
    have := h.M_ge
    have hns : 0 < n * s := mul_pos (by linarith [h.n_ge]) hs
    linarith
  have hum := mul_le_mul_of_nonneg_left hml hu.le
  have hX' : R (m + y) = X := by
    rw [← hX]
    show _ = Fl.addR R (.fin m) (R (1 / 10 ^ 10))
    rw [hy]
    rfl
  rcases hR (m + y) with ⟨T, eT, e2⟩ | ⟨-, e⟩ | ⟨-, e⟩
  · rw [abs_of_nonneg (a := m + y) (by linarith)] at e2
    have e2' := abs_le.1 e2
    have huy := mul_le_mul_of_nonneg_left hy2 hu.le
    have hmu := mul_le_mul_of_nonneg_right hu1 hm0
    have hymu := mul_le_mul_of_nonneg_right hu1 (show 0 ≤ y by linarith)
    exact ⟨T, hX'.symm.trans eT, by linarith, by linarith⟩
  · exfalso; linarith
  · exfalso; linarith

/-- Marks of a ray whose computed start is not in the grid: at most the cell of its end. -/
theorem cast_out_marks {A : Arith Fl} {start final ray : Fin 3 → Fl} {clip : Bool} {ms : List Mark} {i : IVec}
    (h : flCastFrom A g start final ray clip = some ms) (hi : flIndex A g start = some i) (hout : ¬ CellInGrid (axisCells g.dims) i) {m : Mark}
    (hm : m ∈ ms) : flIndex A g final = some m.cell ∧ CellInGrid (axisCells g.dims) m.cell := by
  obtain ⟨i', f, hi', hf, hmarks⟩ := flCastFrom_some _ _ h
  rw [hi] at hi'
  cases hi'
  obtain ⟨l, hl, hfree⟩ := hmarks.path
  have hnil : l = [] := hl.empty.2 (.inr hout)
  subst hnil
  cases m with
  | free c =>
    rcases (hfree c).1 hm with h1 | ⟨-, rfl, h2⟩
    · cases h1
    · exact ⟨hf, h2⟩
  | filled c =>
    obtain ⟨-, rfl, h2⟩ := (hmarks.filled c).1 hm
    exact ⟨hf, h2⟩

end

end VGT
