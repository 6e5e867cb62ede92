import Verif.Lemmas.TopologyEuler

/-!
What `ComputeHolesAndVoidsInSurface` reports when the vertices are the surface points.
-/
set_option autoImplicit false

namespace VGT
open VGT.EDT VGT.Spec

section
variable {k : ℕ} {g : ZIdx → ℤ}

open Classical in
theorem exposedEdge_xb (a b c e : ℤ) : exposedEdge k a b c e = xb (decide (a = k)) (decide (b = k)) (decide (c = k)) (decide (e = k)) := by
  unfold exposedEdge xb
  by_cases ha : a = k <;> by_cases hb : b = k <;> by_cases hc : c = k <;> by_cases he : e = k <;>
    simp [ha, hb, hc, he, eq_comm (a := (k : ℤ))]

/-- `edge_count` from the eight voxels. -/
theorem count_eq (v : ZIdx) : (connectivity k g v).count =
    degOf (cfg (fun p => g p = k) v false false false) (cfg (fun p => g p = k) v false false true) (cfg (fun p => g p = k) v false true false)
      (cfg (fun p => g p = k) v false true true) (cfg (fun p => g p = k) v true false false) (cfg (fun p => g p = k) v true false true)
      (cfg (fun p => g p = k) v true true false) (cfg (fun p => g p = k) v true true true) := by
  simp only [Conn.count, connectivity, exposedEdge_xb, degOf, cfg, around, if_true, Bool.false_eq_true, if_false, sub_zero]

theorem count_pos_surface {v : ZIdx} (h : (connectivity k g v).count ≠ 0) : SurfacePoint (fun p => g p = k) v := by
  have : ∃ w, w ∈ connected (connectivity k g v) v := by
    by_contra hn
    push Not at hn
    apply h
    unfold Conn.count
    have hb : ∀ w, w ∉ connected (connectivity k g v) v := hn
    simp only [mem_connected, not_or, not_and] at hb
    have z1 : (connectivity k g v).zm = false := by
      by_contra hc; exact (hb _).1 (by simpa using hc) rfl
    have z2 : (connectivity k g v).zp = false := by
      by_contra hc; exact (hb _).2.1 (by simpa using hc) rfl
    have z3 : (connectivity k g v).ym = false := by
      by_contra hc; exact (hb _).2.2.1 (by simpa using hc) rfl
    have z4 : (connectivity k g v).yp = false := by
      by_contra hc; exact (hb _).2.2.2.1 (by simpa using hc) rfl
    have z5 : (connectivity k g v).xm = false := by
      by_contra hc; exact (hb _).2.2.2.2.1 (by simpa using hc) rfl
    have z6 : (connectivity k g v).xp = false := by
      by_contra hc; exact (hb _).2.2.2.2.2 (by simpa using hc) rfl
    simp [z1, z2, z3, z4, z5, z6]
  obtain ⟨w, hw⟩ := this
  exact surfaceEdge_point (surfaceEdge_symm ((connected_iff v w).1 hw))

/-- A degree count as a sum over all corners. -/
theorem countDegree_sum {l : List ZIdx} (hnd : l.Nodup) (hl : ∀ v, v ∈ l ↔ SurfacePoint (fun p => g p = k) v) {K : Finset ZIdx}
    (hK : ∀ v, SurfacePoint (fun p => g p = k) v → v ∈ K) {n : ℕ} (hn : n ≠ 0) :
    (countDegree n (connectivity k g) l : ℤ) = ∑ v ∈ K, ((decide ((connectivity k g v).count = n)).toNat : ℤ) := by
  rw [← ncard_sum (P := fun v => (connectivity k g v).count = n)]
  · unfold countDegree
    rw [List.countP_eq_length_filter, ← List.toFinset_card_of_nodup (hnd.filter _), ← Set.ncard_coe_finset]
    congr 2
    ext v
    simp only [Finset.mem_coe, List.mem_toFinset, List.mem_filter, decide_eq_true_eq, Set.mem_ofPred_eq, hl]
    exact ⟨fun h => h.2, fun h => ⟨count_pos_surface (by rw [h]; exact hn), h⟩⟩
  · intro v; simp
  · intro v h
    rw [decide_eq_true_eq] at h
    exact hK v (count_pos_surface (by rw [h]; exact hn))

/-- The eight corners of a voxel. -/
def cornerList (c : ZIdx) : List ZIdx :=
  [cornerOf c false false false, cornerOf c false false true, cornerOf c false true false, cornerOf c false true true,
   cornerOf c true false false, cornerOf c true false true, cornerOf c true true false, cornerOf c true true true]

theorem mem_cornerList {v c : ZIdx} (h : IsCorner v c) : v ∈ cornerList c := by
  obtain ⟨a, b, e, rfl⟩ := isCorner_iff.1 h
  cases a <;> cases b <;> cases e <;> simp [cornerList]

/-- From the absence of contacts to the conditions on one point. -/
theorem squareOk_of {a b c e : Bool} (h1 : ¬ (a = true ∧ e = true ∧ ¬ b = true ∧ ¬ c = true)) (h2 : ¬ (b = true ∧ c = true ∧ ¬ a = true ∧ ¬ e = true)) :
    squareOk a b c e = true := by
  revert h1 h2
  cases a <;> cases b <;> cases c <;> cases e <;> simp [squareOk]

theorem bool_not {a a' : Bool} (h : ¬ a' = a) : a' = !a := by cases a <;> cases a' <;> simp_all

/-- Case split over the eight voxels seen from one of them. -/
theorem eight {Q : Bool → Bool → Bool → Prop} {a b c : Bool} (h1 : Q a b (!c)) (h2 : Q a (!b) c) (h3 : Q a (!b) (!c)) (h4 : Q (!a) b c)
    (h5 : Q (!a) b (!c)) (h6 : Q (!a) (!b) c) (a' b' c' : Bool) (h : ¬ Q a' b' c') :
    (a' = a ∧ b' = b ∧ c' = c) ∨ (a' = !a ∧ b' = !b ∧ c' = !c) := by
  by_cases ea : a' = a <;> by_cases eb : b' = b <;> by_cases ec : c' = c
  · exact Or.inl ⟨ea, eb, ec⟩
  · rw [ea, eb, bool_not ec] at h; exact absurd h1 h
  · rw [ea, bool_not eb, ec] at h; exact absurd h2 h
  · rw [ea, bool_not eb, bool_not ec] at h; exact absurd h3 h
  · rw [bool_not ea, eb, ec] at h; exact absurd h4 h
  · rw [bool_not ea, eb, bool_not ec] at h; exact absurd h5 h
  · rw [bool_not ea, bool_not eb, ec] at h; exact absurd h6 h
  · exact Or.inr ⟨bool_not ea, bool_not eb, bool_not ec⟩

theorem pairOk_of (p : Bool → Bool → Bool → Bool) (a b c : Bool)
    (h1 : ¬ (p a b c = true ∧ p (!a) (!b) (!c) = true ∧
      ∀ a' b' c', p a' b' c' = true → (a' = a ∧ b' = b ∧ c' = c) ∨ (a' = !a ∧ b' = !b ∧ c' = !c)))
    (h2 : ¬ (¬ p a b c = true ∧ ¬ p (!a) (!b) (!c) = true ∧
      ∀ a' b' c', ¬ p a' b' c' = true → (a' = a ∧ b' = b ∧ c' = c) ∨ (a' = !a ∧ b' = !b ∧ c' = !c))) :
    pairOk (p a b c) (p (!a) (!b) (!c)) (p a b (!c)) (p a (!b) c) (p a (!b) (!c)) (p (!a) b c) (p (!a) b (!c)) (p (!a) (!b) c) = true := by
  by_contra hn
  rw [Bool.not_eq_true] at hn
  unfold pairOk at hn
  rw [Bool.and_eq_false_iff] at hn
  rcases hn with hn | hn
  · apply h1
    simp only [Bool.not_eq_false', Bool.and_eq_true, Bool.not_eq_true', Bool.or_eq_false_iff] at hn
    obtain ⟨⟨q7, q8⟩, ⟨⟨⟨⟨q1, q2⟩, q3⟩, q4⟩, q5⟩, q6⟩ := hn
    exact ⟨q7, q8, fun a' b' c' h' => eight (Q := fun a b c => p a b c = false) q1 q2 q3 q4 q5 q6 a' b' c' (by rw [h']; simp)⟩
  · apply h2
    simp only [Bool.not_eq_false', Bool.and_eq_true, Bool.not_eq_true'] at hn
    obtain ⟨⟨q7, q8⟩, ⟨⟨⟨⟨q1, q2⟩, q3⟩, q4⟩, q5⟩, q6⟩ := hn
    exact ⟨by rw [q7]; simp, by rw [q8]; simp, fun a' b' c' h' => eight (Q := fun a b c => p a b c = true) q1 q2 q3 q4 q5 q6 a' b' c' h'⟩

/-- The conditions on the eight voxels around a point. -/
theorem contacts_ok {S : ZIdx → Prop} (hE : NoEdgeContact S) (hP : NoPointContact S) (v : ZIdx) :
    squareOk (cfg S v false false false) (cfg S v false false true) (cfg S v false true false) (cfg S v false true true) = true ∧
    squareOk (cfg S v true false false) (cfg S v true false true) (cfg S v true true false) (cfg S v true true true) = true ∧
    squareOk (cfg S v false false false) (cfg S v false false true) (cfg S v true false false) (cfg S v true false true) = true ∧
    squareOk (cfg S v false true false) (cfg S v false true true) (cfg S v true true false) (cfg S v true true true) = true ∧
    squareOk (cfg S v false false false) (cfg S v false true false) (cfg S v true false false) (cfg S v true true false) = true ∧
    squareOk (cfg S v false false true) (cfg S v false true true) (cfg S v true false true) (cfg S v true true true) = true ∧
    pairOk (cfg S v false false false) (cfg S v true true true) (cfg S v false false true) (cfg S v false true false) (cfg S v false true true) (cfg S v true false false) (cfg S v true false true) (cfg S v true true false) = true ∧
    pairOk (cfg S v false false true) (cfg S v true true false) (cfg S v false false false) (cfg S v false true true) (cfg S v false true false) (cfg S v true false true) (cfg S v true false false) (cfg S v true true true) = true ∧
    pairOk (cfg S v false true false) (cfg S v true false true) (cfg S v false true true) (cfg S v false false false) (cfg S v false false true) (cfg S v true true false) (cfg S v true true true) (cfg S v true false false) = true ∧
    pairOk (cfg S v false true true) (cfg S v true false false) (cfg S v false true false) (cfg S v false false true) (cfg S v false false false) (cfg S v true true true) (cfg S v true true false) (cfg S v true false true) = true := by
  obtain ⟨x, y, z⟩ := v
  have pair : ∀ a b c : Bool, pairOk (cfg S (x, y, z) a b c) (cfg S (x, y, z) (!a) (!b) (!c))
      (cfg S (x, y, z) a b (!c)) (cfg S (x, y, z) a (!b) c) (cfg S (x, y, z) a (!b) (!c)) (cfg S (x, y, z) (!a) b c)
      (cfg S (x, y, z) (!a) b (!c)) (cfg S (x, y, z) (!a) (!b) c) = true := by
    intro a b c
    have h := hP (x, y, z) a b c
    simp only [← cfg_iff] at h
    exact pairOk_of _ a b c h.1 h.2
  have p1 := pair false false false
  have p2 := pair false false true
  have p3 := pair false true false
  have p4 := pair false true true
  clear pair
  have e1 := hE (x - 1) (y - 1) (z - 1)
  have e2 := hE x (y - 1) (z - 1)
  have e3 := hE (x - 1) y (z - 1)
  have e4 := hE (x - 1) (y - 1) z
  simp only [sub_add_cancel] at e1 e2 e3 e4
  refine ⟨?_, ?_, ?_, ?_, ?_, ?_, ?_, ?_, ?_, ?_⟩
  · exact squareOk_of (by simp only [cfg_iff, around, if_true, Bool.false_eq_true, if_false, sub_zero]; exact fun h => e1.2.2.2.2.1 ⟨h.1, h.2.1, h.2.2.2, h.2.2.1⟩)
      (by simp only [cfg_iff, around, if_true, Bool.false_eq_true, if_false, sub_zero]; exact fun h => e1.2.2.2.2.2 ⟨h.2.1, h.1, h.2.2⟩)
  · exact squareOk_of (by simp only [cfg_iff, around, if_true, Bool.false_eq_true, if_false, sub_zero]; exact fun h => e2.2.2.2.2.1 ⟨h.1, h.2.1, h.2.2.2, h.2.2.1⟩)
      (by simp only [cfg_iff, around, if_true, Bool.false_eq_true, if_false, sub_zero]; exact fun h => e2.2.2.2.2.2 ⟨h.2.1, h.1, h.2.2⟩)
  · exact squareOk_of (by simp only [cfg_iff, around, if_true, Bool.false_eq_true, if_false, sub_zero]; exact fun h => e1.2.2.1 ⟨h.1, h.2.1, h.2.2.2, h.2.2.1⟩)
      (by simp only [cfg_iff, around, if_true, Bool.false_eq_true, if_false, sub_zero]; exact fun h => e1.2.2.2.1 ⟨h.2.1, h.1, h.2.2⟩)
  · exact squareOk_of (by simp only [cfg_iff, around, if_true, Bool.false_eq_true, if_false, sub_zero]; exact fun h => e3.2.2.1 ⟨h.1, h.2.1, h.2.2.2, h.2.2.1⟩)
      (by simp only [cfg_iff, around, if_true, Bool.false_eq_true, if_false, sub_zero]; exact fun h => e3.2.2.2.1 ⟨h.2.1, h.1, h.2.2⟩)
  · exact squareOk_of (by simp only [cfg_iff, around, if_true, Bool.false_eq_true, if_false, sub_zero]; exact fun h => e1.1 ⟨h.1, h.2.1, h.2.2.2, h.2.2.1⟩)
      (by simp only [cfg_iff, around, if_true, Bool.false_eq_true, if_false, sub_zero]; exact fun h => e1.2.1 ⟨h.2.1, h.1, h.2.2⟩)
  · exact squareOk_of (by simp only [cfg_iff, around, if_true, Bool.false_eq_true, if_false, sub_zero]; exact fun h => e4.1 ⟨h.1, h.2.1, h.2.2.2, h.2.2.1⟩)
      (by simp only [cfg_iff, around, if_true, Bool.false_eq_true, if_false, sub_zero]; exact fun h => e4.2.1 ⟨h.2.1, h.1, h.2.2⟩)
  · simpa only [Bool.not_false, Bool.not_true] using p1
  · simpa only [Bool.not_false, Bool.not_true] using p2
  · simpa only [Bool.not_false, Bool.not_true] using p3
  · simpa only [Bool.not_false, Bool.not_true] using p4

theorem curv_weight {S : ZIdx → Prop} (hE : NoEdgeContact S) (hP : NoPointContact S) (v : ZIdx) :
    curvOf (degOf (cfg S v false false false) (cfg S v false false true) (cfg S v false true false) (cfg S v false true true)
      (cfg S v true false false) (cfg S v true false true) (cfg S v true true false) (cfg S v true true true)) =
    eulerWeight (cfg S v false false false) (cfg S v false false true) (cfg S v false true false) (cfg S v false true true)
      (cfg S v true false false) (cfg S v true false true) (cfg S v true true false) (cfg S v true true true) := by
  obtain ⟨h1, h2, h3, h4, h5, h6, h7, h8, h9, h10⟩ := contacts_ok hE hP v
  exact curv_eq_euler _ _ _ _ _ _ _ _ h1 h2 h3 h4 h5 h6 h7 h8 h9 h10

end
end VGT
