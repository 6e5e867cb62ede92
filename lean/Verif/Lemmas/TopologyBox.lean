import Verif.Lemmas.TopologyCount
import Mathlib.Order.Interval.Finset.Basic
import Mathlib.Data.Int.Interval
import Mathlib.Data.Finset.Prod

/-!
A solid box: no contacts, Euler characteristic one, connected surface.
-/
set_option autoImplicit false

namespace VGT
open VGT.EDT VGT.Spec

theorem ncard_box {P : ZIdx → Prop} {x0 y0 z0 : ℤ} {a b c : ℕ} (h : ∀ v, P v ↔ boxSolid x0 y0 z0 a b c v) :
    Set.ncard {v | P v} = a * (b * c) := by
  have : {v | P v} = ((Finset.Ico x0 (x0 + a) ×ˢ (Finset.Ico y0 (y0 + b) ×ˢ Finset.Ico z0 (z0 + c)) : Finset ZIdx) : Set ZIdx) := by
    ext v
    simp only [Set.mem_ofPred_eq, h, boxSolid, Finset.coe_product, Finset.coe_Ico, Set.mem_prod, Set.mem_Ico]
  rw [this, Set.ncard_coe_finset, Finset.card_product, Finset.card_product]
  simp

section
variable {x0 y0 z0 : ℤ} {a b c : ℕ}

theorem axis_ext (ha : 1 ≤ a) (t : ℤ) : (∃ s, (x0 ≤ s ∧ s < x0 + a) ∧ (t = s ∨ t = s + 1)) ↔ x0 ≤ t ∧ t < x0 + (a + 1 : ℕ) := by
  constructor
  · rintro ⟨s, h1, h2⟩; push_cast; omega
  · intro h
    push_cast at h
    by_cases ht : t < x0 + a
    · exact ⟨t, ⟨h.1, ht⟩, Or.inl rfl⟩
    · exact ⟨t - 1, by omega, by omega⟩

/-- The Euler characteristic of a box. -/
theorem euler_box (ha : 1 ≤ a) (hb : 1 ≤ b) (hc : 1 ≤ c) : eulerChar (boxSolid x0 y0 z0 a b c) = 1 := by
  have X := axis_ext (x0 := x0) ha
  have Y := axis_ext (x0 := y0) hb
  have Z := axis_ext (x0 := z0) hc
  have h1 : Set.ncard {v | ∃ p, boxSolid x0 y0 z0 a b c p ∧ IsCorner v p} = (a + 1) * ((b + 1) * (c + 1)) := by
    apply ncard_box (x0 := x0) (y0 := y0) (z0 := z0)
    intro v
    unfold boxSolid
    rw [← X, ← Y, ← Z]
    constructor
    · rintro ⟨p, ⟨h1, h2, h3⟩, h4, h5, h6⟩; exact ⟨⟨_, h1, h4⟩, ⟨_, h2, h5⟩, ⟨_, h3, h6⟩⟩
    · rintro ⟨⟨s, h1, h4⟩, ⟨t, h2, h5⟩, ⟨u, h3, h6⟩⟩; exact ⟨(s, t, u), ⟨h1, h2, h3⟩, h4, h5, h6⟩
  have h2 : Set.ncard {v : ZIdx | ∃ p, boxSolid x0 y0 z0 a b c p ∧ v.1 = p.1 ∧ (v.2.1 = p.2.1 ∨ v.2.1 = p.2.1 + 1) ∧ (v.2.2 = p.2.2 ∨ v.2.2 = p.2.2 + 1)} = a * ((b + 1) * (c + 1)) := by
    apply ncard_box (x0 := x0) (y0 := y0) (z0 := z0)
    intro v
    unfold boxSolid
    rw [← Y, ← Z]
    constructor
    · rintro ⟨p, ⟨h1, h2, h3⟩, h4, h5, h6⟩; exact ⟨h4 ▸ h1, ⟨_, h2, h5⟩, ⟨_, h3, h6⟩⟩
    · rintro ⟨h1, ⟨t, h2, h5⟩, ⟨u, h3, h6⟩⟩; exact ⟨(v.1, t, u), ⟨h1, h2, h3⟩, rfl, h5, h6⟩
  have h3 : Set.ncard {v : ZIdx | ∃ p, boxSolid x0 y0 z0 a b c p ∧ (v.1 = p.1 ∨ v.1 = p.1 + 1) ∧ v.2.1 = p.2.1 ∧ (v.2.2 = p.2.2 ∨ v.2.2 = p.2.2 + 1)} = (a + 1) * (b * (c + 1)) := by
    apply ncard_box (x0 := x0) (y0 := y0) (z0 := z0)
    intro v
    unfold boxSolid
    rw [← X, ← Z]
    constructor
    · rintro ⟨p, ⟨h1, h2, h3⟩, h4, h5, h6⟩; exact ⟨⟨_, h1, h4⟩, h5 ▸ h2, ⟨_, h3, h6⟩⟩
    · rintro ⟨⟨s, h1, h4⟩, h2, ⟨u, h3, h6⟩⟩; exact ⟨(s, v.2.1, u), ⟨h1, h2, h3⟩, h4, rfl, h6⟩
  have h4 : Set.ncard {v : ZIdx | ∃ p, boxSolid x0 y0 z0 a b c p ∧ (v.1 = p.1 ∨ v.1 = p.1 + 1) ∧ (v.2.1 = p.2.1 ∨ v.2.1 = p.2.1 + 1) ∧ v.2.2 = p.2.2} = (a + 1) * ((b + 1) * c) := by
    apply ncard_box (x0 := x0) (y0 := y0) (z0 := z0)
    intro v
    unfold boxSolid
    rw [← X, ← Y]
    constructor
    · rintro ⟨p, ⟨h1, h2, h3⟩, h4, h5, h6⟩; exact ⟨⟨_, h1, h4⟩, ⟨_, h2, h5⟩, h6 ▸ h3⟩
    · rintro ⟨⟨s, h1, h4⟩, ⟨t, h2, h5⟩, h3⟩; exact ⟨(s, t, v.2.2), ⟨h1, h2, h3⟩, h4, h5, rfl⟩
  have h5 : Set.ncard {v : ZIdx | ∃ p, boxSolid x0 y0 z0 a b c p ∧ (v.1 = p.1 ∨ v.1 = p.1 + 1) ∧ v.2 = p.2} = (a + 1) * (b * c) := by
    apply ncard_box (x0 := x0) (y0 := y0) (z0 := z0)
    intro v
    unfold boxSolid
    rw [← X]
    constructor
    · rintro ⟨p, ⟨h1, h2, h3⟩, h4, h5⟩; exact ⟨⟨_, h1, h4⟩, h5 ▸ h2, h5 ▸ h3⟩
    · rintro ⟨⟨s, h1, h4⟩, h2, h3⟩; exact ⟨(s, v.2), ⟨h1, h2, h3⟩, h4, rfl⟩
  have h6 : Set.ncard {v : ZIdx | ∃ p, boxSolid x0 y0 z0 a b c p ∧ v.1 = p.1 ∧ (v.2.1 = p.2.1 ∨ v.2.1 = p.2.1 + 1) ∧ v.2.2 = p.2.2} = a * ((b + 1) * c) := by
    apply ncard_box (x0 := x0) (y0 := y0) (z0 := z0)
    intro v
    unfold boxSolid
    rw [← Y]
    constructor
    · rintro ⟨p, ⟨h1, h2, h3⟩, h4, h5, h6⟩; exact ⟨h4 ▸ h1, ⟨_, h2, h5⟩, h6 ▸ h3⟩
    · rintro ⟨h1, ⟨t, h2, h5⟩, h3⟩; exact ⟨(v.1, t, v.2.2), ⟨h1, h2, h3⟩, rfl, h5, rfl⟩
  have h7 : Set.ncard {v : ZIdx | ∃ p, boxSolid x0 y0 z0 a b c p ∧ v.1 = p.1 ∧ v.2.1 = p.2.1 ∧ (v.2.2 = p.2.2 ∨ v.2.2 = p.2.2 + 1)} = a * (b * (c + 1)) := by
    apply ncard_box (x0 := x0) (y0 := y0) (z0 := z0)
    intro v
    unfold boxSolid
    rw [← Z]
    constructor
    · rintro ⟨p, ⟨h1, h2, h3⟩, h4, h5, h6⟩; exact ⟨h4 ▸ h1, h5 ▸ h2, ⟨_, h3, h6⟩⟩
    · rintro ⟨h1, h2, ⟨u, h3, h6⟩⟩; exact ⟨(v.1, v.2.1, u), ⟨h1, h2, h3⟩, rfl, rfl, h6⟩
  have h8 : Set.ncard {p | boxSolid x0 y0 z0 a b c p} = a * (b * c) := ncard_box fun _ => Iff.rfl
  unfold eulerChar
  rw [h1, h2, h3, h4, h5, h6, h7, h8]
  push_cast
  ring

theorem box_noEdge : NoEdgeContact (boxSolid x0 y0 z0 a b c) := by
  intro x y z
  simp only [boxSolid]
  refine ⟨?_, ?_, ?_, ?_, ?_, ?_⟩ <;>
  · rintro ⟨h1, h2, h3, h4⟩
    apply h3
    refine ⟨⟨?_, ?_⟩, ⟨?_, ?_⟩, ⟨?_, ?_⟩⟩ <;> omega

theorem box_noPoint : NoPointContact (boxSolid x0 y0 z0 a b c) := by
  rintro ⟨x, y, z⟩ p q r
  simp only [boxSolid, around]
  constructor
  · rintro ⟨⟨h1, h2, h3⟩, ⟨h4, h5, h6⟩, h⟩
    have := h p q (!r) ⟨h1, h2, h6⟩
    simp at this
  · rintro ⟨h1, h2, h⟩
    by_cases hx : x0 ≤ x - (if p = true then 0 else 1) ∧ x - (if p = true then 0 else 1) < x0 + a
    · have := h (!p) q r
      by_cases hy : y0 ≤ y - (if q = true then 0 else 1) ∧ y - (if q = true then 0 else 1) < y0 + b
      · have hz : ¬ (z0 ≤ z - (if r = true then 0 else 1) ∧ z - (if r = true then 0 else 1) < z0 + c) := fun hz => h1 ⟨hx, hy, hz⟩
        have := this fun h' => hz h'.2.2
        simp at this
      · have := this fun h' => hy h'.2.1
        simp at this
    · have := h p (!q) r fun h' => hx h'.1
      simp at this

/-! ### The surface of a box is connected -/

/-- In the closed box. -/
def InClosed (x0 y0 z0 : ℤ) (a b c : ℕ) (v : ZIdx) : Prop :=
  (x0 ≤ v.1 ∧ v.1 ≤ x0 + a) ∧ (y0 ≤ v.2.1 ∧ v.2.1 ≤ y0 + b) ∧ (z0 ≤ v.2.2 ∧ v.2.2 ≤ z0 + c)

theorem box_surface {v : ZIdx} (h : SurfacePoint (boxSolid x0 y0 z0 a b c) v) : InClosed x0 y0 z0 a b c v ∧
    ((v.1 = x0 ∨ v.1 = x0 + a) ∨ (v.2.1 = y0 ∨ v.2.1 = y0 + b) ∨ (v.2.2 = z0 ∨ v.2.2 = z0 + c)) := by
  obtain ⟨p, q, ⟨c1, c2, c3⟩, ⟨d1, d2, d3⟩, ⟨s1, s2, s3⟩, hq⟩ := h
  refine ⟨⟨by omega, by omega, by omega⟩, ?_⟩
  by_contra hn
  push Not at hn
  obtain ⟨⟨n1, n2⟩, ⟨n3, n4⟩, n5, n6⟩ := hn
  apply hq
  refine ⟨by omega, by omega, by omega⟩

/-- An axis index next to a coordinate in the closed interval that lies inside. -/
theorem axis_in {x0 : ℤ} {a : ℕ} (ha : 1 ≤ a) {t : ℤ} (h : x0 ≤ t ∧ t ≤ x0 + a) : ∃ s, (t = s ∨ t = s + 1) ∧ x0 ≤ s ∧ s < x0 + a := by
  by_cases ht : t < x0 + a
  · exact ⟨t, Or.inl rfl, h.1, ht⟩
  · exact ⟨t - 1, by omega, by omega, by omega⟩

/-- An index outside next to an extreme coordinate. -/
theorem axis_out {x0 : ℤ} {a : ℕ} {t : ℤ} (h : t = x0 ∨ t = x0 + a) : ∃ s, (t = s ∨ t = s + 1) ∧ ¬ (x0 ≤ s ∧ s < x0 + a) := by
  rcases h with h | h
  · exact ⟨t - 1, by omega, by omega⟩
  · exact ⟨t, by omega, by omega⟩

theorem edge_x (hb : 1 ≤ b) (hc : 1 ≤ c) {x y z : ℤ} (hx : x0 ≤ x ∧ x < x0 + a) (hy : y0 ≤ y ∧ y ≤ y0 + b) (hz : z0 ≤ z ∧ z ≤ z0 + c)
    (h : (y = y0 ∨ y = y0 + b) ∨ (z = z0 ∨ z = z0 + c)) : SurfaceEdge (boxSolid x0 y0 z0 a b c) (x + 1, y, z) (x, y, z) := by
  obtain ⟨s, hs, hs'⟩ := axis_in hb hy
  obtain ⟨t, ht, ht'⟩ := axis_in hc hz
  refine ⟨Or.inl ⟨rfl, Or.inr rfl⟩, ?_⟩
  rcases h with h | h
  · obtain ⟨q, hq, hq'⟩ := axis_out h
    exact ⟨(x, s, t), (x, q, t), ⟨⟨by simp, hs, ht⟩, ⟨by simp, hs, ht⟩⟩, ⟨⟨by simp, hq, ht⟩, ⟨by simp, hq, ht⟩⟩, ⟨hx, hs', ht'⟩, fun h => hq' h.2.1⟩
  · obtain ⟨q, hq, hq'⟩ := axis_out h
    exact ⟨(x, s, t), (x, s, q), ⟨⟨by simp, hs, ht⟩, ⟨by simp, hs, ht⟩⟩, ⟨⟨by simp, hs, hq⟩, ⟨by simp, hs, hq⟩⟩, ⟨hx, hs', ht'⟩, fun h => hq' h.2.2⟩

theorem edge_y (ha : 1 ≤ a) (hc : 1 ≤ c) {x y z : ℤ} (hx : x0 ≤ x ∧ x ≤ x0 + a) (hy : y0 ≤ y ∧ y < y0 + b) (hz : z0 ≤ z ∧ z ≤ z0 + c)
    (h : (x = x0 ∨ x = x0 + a) ∨ (z = z0 ∨ z = z0 + c)) : SurfaceEdge (boxSolid x0 y0 z0 a b c) (x, y + 1, z) (x, y, z) := by
  obtain ⟨s, hs, hs'⟩ := axis_in ha hx
  obtain ⟨t, ht, ht'⟩ := axis_in hc hz
  refine ⟨Or.inr (Or.inl ⟨rfl, rfl, Or.inr rfl⟩), ?_⟩
  rcases h with h | h
  · obtain ⟨q, hq, hq'⟩ := axis_out h
    exact ⟨(s, y, t), (q, y, t), ⟨⟨hs, by simp, ht⟩, ⟨hs, by simp, ht⟩⟩, ⟨⟨hq, by simp, ht⟩, ⟨hq, by simp, ht⟩⟩, ⟨hs', hy, ht'⟩, fun h => hq' h.1⟩
  · obtain ⟨q, hq, hq'⟩ := axis_out h
    exact ⟨(s, y, t), (s, y, q), ⟨⟨hs, by simp, ht⟩, ⟨hs, by simp, ht⟩⟩, ⟨⟨hs, by simp, hq⟩, ⟨hs, by simp, hq⟩⟩, ⟨hs', hy, ht'⟩, fun h => hq' h.2.2⟩

theorem edge_z (ha : 1 ≤ a) (hb : 1 ≤ b) {x y z : ℤ} (hx : x0 ≤ x ∧ x ≤ x0 + a) (hy : y0 ≤ y ∧ y ≤ y0 + b) (hz : z0 ≤ z ∧ z < z0 + c)
    (h : (x = x0 ∨ x = x0 + a) ∨ (y = y0 ∨ y = y0 + b)) : SurfaceEdge (boxSolid x0 y0 z0 a b c) (x, y, z + 1) (x, y, z) := by
  obtain ⟨s, hs, hs'⟩ := axis_in ha hx
  obtain ⟨t, ht, ht'⟩ := axis_in hb hy
  refine ⟨Or.inr (Or.inr ⟨rfl, rfl, Or.inr rfl⟩), ?_⟩
  rcases h with h | h
  · obtain ⟨q, hq, hq'⟩ := axis_out h
    exact ⟨(s, t, z), (q, t, z), ⟨⟨hs, ht, by simp⟩, ⟨hs, ht, by simp⟩⟩, ⟨⟨hq, ht, by simp⟩, ⟨hq, ht, by simp⟩⟩, ⟨hs', ht', hz⟩, fun h => hq' h.1⟩
  · obtain ⟨q, hq, hq'⟩ := axis_out h
    exact ⟨(s, t, z), (s, q, z), ⟨⟨hs, ht, by simp⟩, ⟨hs, ht, by simp⟩⟩, ⟨⟨hs, hq, by simp⟩, ⟨hs, hq, by simp⟩⟩, ⟨hs', ht', hz⟩, fun h => hq' h.2.1⟩

theorem down_x (hb : 1 ≤ b) (hc : 1 ≤ c) {y z : ℤ} (hy : y0 ≤ y ∧ y ≤ y0 + b) (hz : z0 ≤ z ∧ z ≤ z0 + c)
    (h : (y = y0 ∨ y = y0 + b) ∨ (z = z0 ∨ z = z0 + c)) {x : ℤ} (h1 : x0 ≤ x) (h2 : x ≤ x0 + a) :
    SurfaceJoined (boxSolid x0 y0 z0 a b c) (x, y, z) (x0, y, z) := by
  induction x, h1 using Int.le_induction with
  | base => exact .refl
  | succ x hx ih => exact .head (edge_x hb hc ⟨hx, by omega⟩ hy hz h) (ih (by omega))

theorem down_y (ha : 1 ≤ a) (hc : 1 ≤ c) {x z : ℤ} (hx : x0 ≤ x ∧ x ≤ x0 + a) (hz : z0 ≤ z ∧ z ≤ z0 + c)
    (h : (x = x0 ∨ x = x0 + a) ∨ (z = z0 ∨ z = z0 + c)) {y : ℤ} (h1 : y0 ≤ y) (h2 : y ≤ y0 + b) :
    SurfaceJoined (boxSolid x0 y0 z0 a b c) (x, y, z) (x, y0, z) := by
  induction y, h1 using Int.le_induction with
  | base => exact .refl
  | succ y hy ih => exact .head (edge_y ha hc hx ⟨hy, by omega⟩ hz h) (ih (by omega))

theorem down_z (ha : 1 ≤ a) (hb : 1 ≤ b) {x y : ℤ} (hx : x0 ≤ x ∧ x ≤ x0 + a) (hy : y0 ≤ y ∧ y ≤ y0 + b)
    (h : (x = x0 ∨ x = x0 + a) ∨ (y = y0 ∨ y = y0 + b)) {z : ℤ} (h1 : z0 ≤ z) (h2 : z ≤ z0 + c) :
    SurfaceJoined (boxSolid x0 y0 z0 a b c) (x, y, z) (x, y, z0) := by
  induction z, h1 using Int.le_induction with
  | base => exact .refl
  | succ z hz ih => exact .head (edge_z ha hb hx hy ⟨hz, by omega⟩ h) (ih (by omega))

theorem box_joined_corner (ha : 1 ≤ a) (hb : 1 ≤ b) (hc : 1 ≤ c) {v : ZIdx} (h : SurfacePoint (boxSolid x0 y0 z0 a b c) v) :
    SurfaceJoined (boxSolid x0 y0 z0 a b c) v (x0, y0, z0) := by
  obtain ⟨⟨hx, hy, hz⟩, h⟩ := box_surface h
  obtain ⟨x, y, z⟩ := v
  dsimp only at hx hy hz h
  have bx : x0 ≤ x0 ∧ x0 ≤ x0 + (a : ℤ) := by omega
  have bY : y0 ≤ y0 ∧ y0 ≤ y0 + (b : ℤ) := by omega
  have bz : z0 ≤ z0 ∧ z0 ≤ z0 + (c : ℤ) := by omega
  rcases h with h | h | h
  · exact ((down_y ha hc hx hz (Or.inl h) hy.1 hy.2).trans (down_z ha hb hx bY (Or.inl h) hz.1 hz.2)).trans
      (down_x hb hc bY bz (Or.inl (Or.inl rfl)) hx.1 hx.2)
  · exact ((down_x hb hc hy hz (Or.inl h) hx.1 hx.2).trans (down_z ha hb bx hy (Or.inr h) hz.1 hz.2)).trans
      (down_y ha hc bx bz (Or.inl (Or.inl rfl)) hy.1 hy.2)
  · exact ((down_x hb hc hy hz (Or.inr h) hx.1 hx.2).trans (down_y ha hc bx hz (Or.inr h) hy.1 hy.2)).trans
      (down_z ha hb bx bY (Or.inl (Or.inl rfl)) hz.1 hz.2)

theorem surfaceJoined_symm {S : ZIdx → Prop} {v w : ZIdx} (h : SurfaceJoined S v w) : SurfaceJoined S w v := by
  induction h with
  | refl => exact .refl
  | tail _ hs ih => exact .head (surfaceEdge_symm hs) ih

theorem corner_surface (ha : 1 ≤ a) (hb : 1 ≤ b) (hc : 1 ≤ c) : SurfacePoint (boxSolid x0 y0 z0 a b c) (x0, y0, z0) := by
  refine ⟨(x0, y0, z0), (x0 - 1, y0, z0), by simp [IsCorner], by simp [IsCorner], ?_, ?_⟩
  · simp only [boxSolid]; omega
  · simp only [boxSolid]; omega

/-- The only right numbers for a box. -/
theorem box_topology (ha : 1 ≤ a) (hb : 1 ≤ b) (hc : 1 ≤ c) {holes voids : ℤ}
    (h : TopologyOf (boxSolid x0 y0 z0 a b c) holes voids) : holes = 0 ∧ voids = 0 := by
  obtain ⟨-, -, ⟨n, hn, label, l1, l2, l3⟩, he⟩ := h
  have he := he box_noEdge box_noPoint
  rw [euler_box ha hb hc] at he
  have hcorner := corner_surface (x0 := x0) (y0 := y0) (z0 := z0) ha hb hc
  have hall : ∀ v, SurfacePoint (boxSolid x0 y0 z0 a b c) v → label v = label (x0, y0, z0) := fun v hv =>
    (l3 v _ hv hcorner).2 (box_joined_corner ha hb hc hv)
  have h1 := l1 _ hcorner
  have hn1 : n = 1 := by
    by_contra hne
    obtain ⟨v, hv, e⟩ := l2 1 (by omega) (by omega)
    obtain ⟨w, hw, e'⟩ := l2 2 (by omega) (by omega)
    have := hall v hv
    have := hall w hw
    omega
  subst hn1
  constructor <;> push_cast at hn <;> omega

end
end VGT
