import Verif.Lemmas.RayRoundWalk
import Verif.Lemmas.IEEE
import Verif.Props.RaycastFloat

/-!
Raycasting with rounding: indices of points, the marks of one ray.
-/
set_option autoImplicit false

namespace VGT
open VGT.EDT VGT.Spec

section
variable {R : ℚ → Fl} {u η M s n N E lam : ℚ} {d : Dims} {i f : IVec} {x ρ r : Fin 3 → ℚ}

/-- A computed index belongs to a number near the coordinate divided by the edge of a cell. -/
theorem index_near (h : RayScale u η M s n N E) (hR : Rounds R u η M) (bits : ℕ) {inv x : ℚ} (hinv : |inv * s - 1| ≤ 5 / 2 * u) {i : ℤ}
    (hi : (ieee R bits).toInt ((ieee R bits).mul (.fin x) (.fin inv)) = some i) :
    ∃ y : ℚ, (i : ℚ) ≤ y ∧ y < i + 1 ∧ |y * s - x| ≤ 4 * (u * |x|) + u * s := by
  have hi' : Fl.floorInt bits (R (x * inv)) = some i := hi
  rcases hR (x * inv) with ⟨y, e, b⟩ | ⟨e, -⟩ | ⟨e, -⟩
  · rw [e] at hi'
    unfold Fl.floorInt at hi'
    dsimp only at hi'
    split_ifs at hi'
    cases hi'
    refine ⟨y, Int.floor_le y, Int.lt_floor_add_one y, ?_⟩
    have hs := h.s_pos
    have hu := h.u_pos
    have e1 : y * s - x = (y - x * inv) * s + x * (inv * s - 1) := by ring
    have h1 : |(y - x * inv) * s| ≤ (u * |x * inv| + η) * s := by
      rw [abs_mul, abs_of_pos hs]
      exact mul_le_mul_of_nonneg_right b hs.le
    have h2 : |x * (inv * s - 1)| ≤ |x| * (5 / 2 * u) := by
      rw [abs_mul]
      exact mul_le_mul_of_nonneg_left hinv (abs_nonneg _)
    have h3 : |x * inv| * s ≤ |x| * (1 + 5 / 2 * u) := by
      have : |x * inv| * s = |x| * |inv * s| := by
        rw [abs_mul, abs_mul, abs_of_pos hs, mul_assoc]
      rw [this]
      refine mul_le_mul_of_nonneg_left ?_ (abs_nonneg _)
      have := abs_sub_abs_le_abs_sub (inv * s) 1
      rw [abs_one] at this
      linarith
    have h4 := mul_le_mul_of_nonneg_left h3 hu.le
    have h5 := mul_le_mul_of_nonneg_right h.η_le hs.le
    have h6 : u * (|x| * (5 / 2 * u)) ≤ u * |x| * (1 / 2) := by
      have h7 : 5 / 2 * u ≤ 1 / 2 := by linarith [h.u_le, h.un_le]
      have := mul_le_mul_of_nonneg_left h7 (mul_nonneg hu.le (abs_nonneg x))
      linarith
    rw [e1]
    refine (abs_add_le _ _).trans ?_
    linarith
  · rw [e] at hi'
    simp [Fl.floorInt] at hi'
  · rw [e] at hi'
    simp [Fl.floorInt] at hi'

theorem index_ge (h : RayScale u η M s n N E) (hR : Rounds R u η M) (bits : ℕ) {inv x : ℚ} (hinv : |inv * s - 1| ≤ 5 / 2 * u) {i m : ℤ}
    (hi : (ieee R bits).toInt ((ieee R bits).mul (.fin x) (.fin inv)) = some i) (hm : 0 ≤ m) (hmn : (m : ℚ) ≤ n) (hmi : m ≤ i) :
    (m : ℚ) * s - (4 * (u * m * s) + 2 * (u * s)) ≤ x := by
  obtain ⟨y, y1, -, y3⟩ := index_near h hR bits hinv hi
  have hs := h.s_pos
  have hu := h.u_pos
  have hm' : (0 : ℚ) ≤ m := by exact_mod_cast hm
  have hmi' : (m : ℚ) ≤ i := by exact_mod_cast hmi
  have hys := mul_le_mul_of_nonneg_right (hmi'.trans y1) hs.le
  have hus : 0 < u * s := mul_pos hu hs
  have hu1 := h.u_le
  have hu2 := h.un_le
  have y3' := abs_le.1 y3
  have hums : 0 ≤ u * m * s := by positivity
  rcases lt_or_ge x 0 with hx | hx
  · rw [abs_of_neg hx] at y3'
    by_contra hcon
    push Not at hcon
    -- `x (1 - 4 u) ≥ m s - u s`
    have hms : 0 ≤ (m : ℚ) * s := by positivity
    have h1 : -(u * s) ≤ x * (1 - 4 * u) := by linarith
    have hm0 : m = 0 := by
      by_contra hne
      have h2 : (1 : ℚ) ≤ m := by exact_mod_cast (show 1 ≤ m by omega)
      have h3 := mul_le_mul_of_nonneg_right h2 hs.le
      have h4 := mul_le_mul_of_nonneg_right (show u ≤ 1 / 9 by linarith) hs.le
      have h5 : x * (1 - 4 * u) ≤ 0 := mul_nonpos_of_nonpos_of_nonneg hx.le (by linarith)
      linarith
    rw [hm0] at hcon
    simp only [Int.cast_zero, mul_zero, zero_mul, zero_sub, zero_add] at hcon
    have h6 : x * (1 - 4 * u) ≤ x * (1 / 2) := mul_le_mul_of_nonpos_left (by linarith) hx.le
    linarith
  · rw [abs_of_nonneg hx] at y3'
    rcases le_total ((m : ℚ) * s) x with h1 | h1
    · linarith
    · have := mul_le_mul_of_nonneg_left h1 hu.le
      linarith

theorem index_lt (h : RayScale u η M s n N E) (hR : Rounds R u η M) (bits : ℕ) {inv x : ℚ} (hinv : |inv * s - 1| ≤ 5 / 2 * u) {i m : ℤ}
    (hi : (ieee R bits).toInt ((ieee R bits).mul (.fin x) (.fin inv)) = some i) (hm : 0 ≤ m) (hmn : (m : ℚ) ≤ n) (hmi : i < m) :
    x ≤ (m : ℚ) * s + (4 * (u * m * s) + 2 * (u * s)) := by
  obtain ⟨y, -, y2, y3⟩ := index_near h hR bits hinv hi
  have hs := h.s_pos
  have hu := h.u_pos
  have hm' : (0 : ℚ) ≤ m := by exact_mod_cast hm
  have hmi' : (i : ℚ) + 1 ≤ m := by exact_mod_cast hmi
  have hys := mul_le_mul_of_nonneg_right (y2.le.trans hmi') hs.le
  have hus : 0 < u * s := mul_pos hu hs
  have hu1 := h.u_le
  have hu2 := h.un_le
  have y3' := abs_le.1 y3
  have hums : 0 ≤ u * m * s := by positivity
  have hms : 0 ≤ (m : ℚ) * s := by positivity
  rcases lt_or_ge x 0 with hx | hx
  · linarith
  · rw [abs_of_nonneg hx] at y3'
    by_contra hcon
    push Not at hcon
    have h1 : x * (1 - 4 * u) ≤ m * s + u * s := by linarith
    have h2 := mul_lt_mul_of_pos_right hcon (show 0 < 1 - 4 * u by linarith)
    have h3 : u * m ≤ u * n := mul_le_mul_of_nonneg_left hmn hu.le
    have h4 : (16 * (u * m) + 8 * u) * (u * s) ≤ 1 * (u * s) := mul_le_mul_of_nonneg_right (by linarith) hus.le
    have e : ((m : ℚ) * s + (4 * (u * m * s) + 2 * (u * s))) * (1 - 4 * u) =
        m * s + 2 * (u * s) - (16 * (u * m) + 8 * u) * (u * s) := by ring
    linarith

/-- A point and its computed cell. -/
theorem index_nearCell (h : RayScale u η M s n N E) (hR : Rounds R u η M) (bits : ℕ) {inv x : ℚ} (hinv : |inv * s - 1| ≤ 5 / 2 * u) {i : ℤ}
    (hi : (ieee R bits).toInt ((ieee R bits).mul (.fin x) (.fin inv)) = some i) (h0 : 0 ≤ i) (hn : (i : ℚ) + 3 ≤ n) :
    NearCell u s n i x := by
  have h1 := index_ge h hR bits hinv hi h0 (by linarith) le_rfl
  have h2 := index_lt h hR bits hinv hi (m := i + 1) (by omega) (by push_cast; linarith) (by omega)
  have hus := mul_pos h.u_pos h.s_pos
  have h3 := mul_le_mul_of_nonneg_right hn hus.le
  push_cast at h2
  constructor <;> nlinarith

/-- The end of a ray and its computed cell. -/
theorem index_final (h : RayScale u η M s n N E) (hR : Rounds R u η M) (bits : ℕ) {inv x : ℚ} (hinv : |inv * s - 1| ≤ 5 / 2 * u) {i : ℤ}
    (hi : (ieee R bits).toInt ((ieee R bits).mul (.fin x) (.fin inv)) = some i) (m : ℤ) (h0 : 0 ≤ m) (hn : (m : ℚ) ≤ n) :
    (m ≤ i → m * s - 5 * (u * n * s) ≤ x) ∧ (i < m → x ≤ m * s + 5 * (u * n * s)) := by
  have hus := mul_pos h.u_pos h.s_pos
  have h3 := mul_le_mul_of_nonneg_right hn hus.le
  have := h.us_le
  constructor
  · intro hmi
    have := index_ge h hR bits hinv hi h0 hn hmi
    linarith
  · intro hmi
    have := index_lt h hR bits hinv hi h0 hn hmi
    linarith

theorem flIndex_axis {A : Arith Fl} {g : RayGrid Fl} {p : Fin 3 → Fl} {i : IVec} (h : flIndex A g p = some i) (a : Fin 3) :
    A.toInt (A.mul (p a) g.inv) = some (i a) := axes3_some.1 h a

/-- What is needed of a ray between two computed points. -/
theorem setup_of (h : RayScale u η M s n N E) (hR : Rounds R u η M) (bits : ℕ) {g : RayGrid Fl} {inv : ℚ} (hg : g.inv = .fin inv)
    (hinv : |inv * s - 1| ≤ 5 / 2 * u) (hdims : ∀ a, (axisCells g.dims a : ℚ) + 2 ≤ N) {e : Fin 3 → ℚ}
    (hi : flIndex (ieee R bits) g (fun a => .fin (x a)) = some i) (hf : flIndex (ieee R bits) g (fun a => .fin (e a)) = some f)
    (hin : CellInGrid (axisCells g.dims) i) (hspeed : ∀ a, η * |r a| ≤ u * s) (hl : 0 < lam) (hl1 : lam ≤ 1)
    (halong : ∀ a, SpeedOf u s n lam (r a) (e a - x a)) :
    RaySetup u η M s n N E g.dims i f x (fun a => e a - x a) r lam := by
  have hi' := fun a => flIndex_axis hi a
  have hf' := fun a => flIndex_axis hf a
  rw [hg] at hi' hf'
  refine ⟨h, hdims, hin, fun a => ?_, halong, hl, hl1, fun a m h0 hn hmf => ?_, fun a m h0 hn hmf => ?_, hspeed⟩
  · obtain ⟨h1, h2⟩ := hin a
    have h3 : (i a : ℚ) + 1 ≤ axisCells g.dims a := by exact_mod_cast h2
    exact index_nearCell h hR bits hinv (hi' a) h1 (by linarith [hdims a, h.N_le])
  · have := (index_final h hR bits hinv (hf' a) m h0 (hn.trans h.N_le)).1 hmf
    linarith
  · have := (index_final h hR bits hinv (hf' a) m h0 (hn.trans h.N_le)).2 hmf
    linarith

/-- The marks of one ray. -/
theorem cast_marks (S : RaySetup u η M s n N E d i f x ρ r lam) (hR : Rounds R u η M) (bits : ℕ) {g : RayGrid Fl}
    (hd : g.dims = d) (hcell : g.cell = .fin s) {final : Fin 3 → Fl} {clip : Bool} {ms : List Mark}
    (hi : flIndex (ieee R bits) g (fun a => .fin (x a)) = some i) (hf : flIndex (ieee R bits) g final = some f)
    (hms : flCastFrom (ieee R bits) g (fun a => .fin (x a)) final (fun a => .fin (r a)) clip = some ms) :
    (∀ m ∈ ms, PassesWithin (32 * E) s x (fun a => x a + ρ a) m.cell) ∧
    ∀ c, CellInGrid (axisCells d) c → PassesDeep (32 * E) s x (fun a => x a + ρ a) c →
      Mark.free c ∈ ms ∨ (Mark.filled c ∈ ms ∧ c = f ∧ clip = false) := by
  unfold flCastFrom at hms
  rw [hi, Option.bind_some, hf, Option.bind_some] at hms
  rcases hx : axes3 fun a => (ieee R bits).intSub (f a) (i a) with _ | diff
  · rw [hx] at hms; cases hms
  have hdiff : diff = fun a => f a - i a := funext fun a => (intSub_axes_some _ hx a).2
  rw [hx, Option.bind_some, hdiff, hd, hcell] at hms
  dsimp only at hms
  obtain ⟨l, hl, rfl⟩ := Option.map_eq_some_iff.1 hms
  have h0 : after i f (fun _ => 0) = i := by funext a; simp [after]
  have hT : TimesAt u M s n N i x r (fun _ => 0) (fun a => flAxisT (ieee R bits) (.fin (x a)) (.fin (r a))
      ((ieee R bits).sub
        ((ieee R bits).mul ((ieee R bits).add ((ieee R bits).ofInt (i a)) (ieee R bits).half) (.fin s))
        ((ieee R bits).mul (.fin s) (ieee R bits).half))
      ((ieee R bits).add
        ((ieee R bits).mul ((ieee R bits).add ((ieee R bits).ofInt (i a)) (ieee R bits).half) (.fin s))
        ((ieee R bits).mul (.fin s) (ieee R bits).half))) := by
    intro a
    have := S.i_le a
    exact first_time S.scale hR bits this.1 (by linarith [S.scale.N_le]) (S.near a) (S.speed a)
  have hw := S.scale.w_pos
  have hnw := S.scale.w_nw
  have W : WalkInv s E i f x ρ r (fun _ => 0) 0 := by
    refine ⟨le_rfl, zero_le_one, fun a => Nat.zero_le _, fun a h => absurd h (lt_irrefl _), fun a => ?_⟩
    have := S.ahead_ge 0 a
    rw [zero_mul]
    linarith
  rw [← h0] at hl
  have hsound := walk_sound S hR bits hcell (walkFuel f (after i f fun _ => 0)) _ _ 0 l hT W (by rw [h0] at hl ⊢; exact hl)
  constructor
  · intro m hm
    rcases List.mem_append.1 hm with hm | hm
    · split_ifs at hm with h1 h2
      all_goals first | (exfalso; simp at hm; done) | skip
      all_goals
        rw [List.mem_singleton.1 hm]
        have hfin := inGrid_iff.1 h1
        refine ⟨1, zero_le_one, le_rfl, fun a => ?_⟩
        have e : onSeg x (fun a => x a + ρ a) 1 a = x a + ρ a := by unfold onSeg; ring
        rw [e]
        show ((f a : ℤ) : ℚ) * s - _ ≤ _ ∧ _ ≤ (((f a : ℤ) : ℚ) + 1) * s + _
        obtain ⟨h3, h4⟩ := hfin a
        have h5 : (f a : ℚ) + 1 ≤ axisCells d a := by exact_mod_cast h4
        have h6 := S.dims a
        have h7 := S.final_ge a (f a) h3 (by linarith) le_rfl
        have h8 := S.final_le a (f a + 1) (by omega) (by push_cast; linarith) (by omega)
        push_cast at h8
        constructor <;> linarith
    · obtain ⟨c, hc, rfl⟩ := List.mem_map.1 hm
      exact hsound c hc
  · intro c hc hdeep
    rcases walk_complete S hR bits hcell hc hdeep (walkFuel f (after i f fun _ => 0)) (fun _ => 0) _ l hT (fun a => Nat.zero_le _)
      (by rw [h0] at hl ⊢; exact hl) with h1 | h1
    · rw [if_pos (inGrid_iff.2 (h1 ▸ hc))]
      rcases hclip : clip with _ | _
      · exact .inr ⟨by simp [h1], h1, rfl⟩
      · exact .inl (by simp [h1])
    · exact .inl (List.mem_append_right _ (List.mem_map_of_mem h1))

end
end VGT
