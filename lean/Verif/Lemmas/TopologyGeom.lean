import Verif.Lemmas.Topology

set_option autoImplicit false

namespace VGT
open VGT.EDT VGT.Spec

section
variable {k : ℕ} {g : ZIdx → ℤ}

/-! ### Edges -/

theorem exposedEdge_iff (a b c e : ℤ) : exposedEdge k a b c e = true ↔
    (a = k ∨ b = k ∨ c = k ∨ e = k) ∧ (a ≠ k ∨ b ≠ k ∨ c ≠ k ∨ e ≠ k) := by
  unfold exposedEdge
  by_cases ha : a = k <;> by_cases hb : b = k <;> by_cases hc : c = k <;> by_cases he : e = k <;>
    simp [ha, hb, hc, he, eq_comm (a := (k : ℤ))]

theorem mem_connected {c : Conn} {v w : ZIdx} : w ∈ connected c v ↔
    (c.zm = true ∧ w = (v.1, v.2.1, v.2.2 - 1)) ∨ (c.zp = true ∧ w = (v.1, v.2.1, v.2.2 + 1)) ∨
    (c.ym = true ∧ w = (v.1, v.2.1 - 1, v.2.2)) ∨ (c.yp = true ∧ w = (v.1, v.2.1 + 1, v.2.2)) ∨
    (c.xm = true ∧ w = (v.1 - 1, v.2.1, v.2.2)) ∨ (c.xp = true ∧ w = (v.1 + 1, v.2.1, v.2.2)) := by
  unfold connected
  cases c.zm <;> cases c.zp <;> cases c.ym <;> cases c.yp <;> cases c.xm <;> cases c.xp <;> simp <;> tauto

/-- Four voxels `A B C D` are exactly those with both corners. -/
theorem edge_four {S : ZIdx → Prop} {v w A B C D : ZIdx} (h : ∀ p, (IsCorner v p ∧ IsCorner w p) ↔ p = A ∨ p = B ∨ p = C ∨ p = D) :
    (∃ p q, (IsCorner v p ∧ IsCorner w p) ∧ (IsCorner v q ∧ IsCorner w q) ∧ S p ∧ ¬ S q) ↔
      (S A ∨ S B ∨ S C ∨ S D) ∧ (¬ S A ∨ ¬ S B ∨ ¬ S C ∨ ¬ S D) := by
  constructor
  · rintro ⟨p, q, hp, hq, h1, h2⟩
    rw [h] at hp hq
    constructor
    · rcases hp with rfl | rfl | rfl | rfl <;> tauto
    · rcases hq with rfl | rfl | rfl | rfl <;> tauto
  · rintro ⟨h1, h2⟩
    have e1 : ∃ p, (IsCorner v p ∧ IsCorner w p) ∧ S p := by
      rcases h1 with h1 | h1 | h1 | h1
      · exact ⟨_, (h _).2 (by simp), h1⟩
      · exact ⟨_, (h _).2 (by simp), h1⟩
      · exact ⟨_, (h _).2 (by simp), h1⟩
      · exact ⟨_, (h _).2 (by simp), h1⟩
    have e2 : ∃ q, (IsCorner v q ∧ IsCorner w q) ∧ ¬ S q := by
      rcases h2 with h1 | h1 | h1 | h1
      · exact ⟨_, (h _).2 (by simp), h1⟩
      · exact ⟨_, (h _).2 (by simp), h1⟩
      · exact ⟨_, (h _).2 (by simp), h1⟩
      · exact ⟨_, (h _).2 (by simp), h1⟩
    obtain ⟨p, hp, hs⟩ := e1
    obtain ⟨q, hq, hn⟩ := e2
    exact ⟨p, q, hp, hq, hs, hn⟩

theorem edge_bit {v w A B C D : ZIdx} (hadj : PointAdj v w)
    (h : ∀ p, (IsCorner v p ∧ IsCorner w p) ↔ p = A ∨ p = B ∨ p = C ∨ p = D) :
    exposedEdge k (g A) (g B) (g C) (g D) = true ↔ SurfaceEdge (fun p => g p = k) v w := by
  rw [exposedEdge_iff, SurfaceEdge, edge_four h]
  simp [hadj]

/-- The bits describe the surface edges. -/
theorem connected_iff (v w : ZIdx) : w ∈ connected (connectivity k g v) v ↔ SurfaceEdge (fun p => g p = k) v w := by
  obtain ⟨x, y, z⟩ := v
  obtain ⟨a, b, c⟩ := w
  rw [mem_connected]
  have hzm : (connectivity k g (x, y, z)).zm = true ↔ SurfaceEdge (fun p => g p = k) (x, y, z) (x, y, z - 1) := by
    apply edge_bit (by simp [PointAdj])
    rintro ⟨p, q, r⟩
    simp only [IsCorner, Prod.mk.injEq]
    omega
  have hzp : (connectivity k g (x, y, z)).zp = true ↔ SurfaceEdge (fun p => g p = k) (x, y, z) (x, y, z + 1) := by
    apply edge_bit (by simp [PointAdj])
    rintro ⟨p, q, r⟩
    simp only [IsCorner, Prod.mk.injEq]
    omega
  have hym : (connectivity k g (x, y, z)).ym = true ↔ SurfaceEdge (fun p => g p = k) (x, y, z) (x, y - 1, z) := by
    apply edge_bit (by simp [PointAdj])
    rintro ⟨p, q, r⟩
    simp only [IsCorner, Prod.mk.injEq]
    omega
  have hyp : (connectivity k g (x, y, z)).yp = true ↔ SurfaceEdge (fun p => g p = k) (x, y, z) (x, y + 1, z) := by
    apply edge_bit (by simp [PointAdj])
    rintro ⟨p, q, r⟩
    simp only [IsCorner, Prod.mk.injEq]
    omega
  have hxm : (connectivity k g (x, y, z)).xm = true ↔ SurfaceEdge (fun p => g p = k) (x, y, z) (x - 1, y, z) := by
    apply edge_bit (by simp [PointAdj])
    rintro ⟨p, q, r⟩
    simp only [IsCorner, Prod.mk.injEq]
    omega
  have hxp : (connectivity k g (x, y, z)).xp = true ↔ SurfaceEdge (fun p => g p = k) (x, y, z) (x + 1, y, z) := by
    apply edge_bit (by simp [PointAdj])
    rintro ⟨p, q, r⟩
    simp only [IsCorner, Prod.mk.injEq]
    omega
  rw [hzm, hzp, hym, hyp, hxm, hxp]
  constructor
  · rintro (⟨h, e⟩ | ⟨h, e⟩ | ⟨h, e⟩ | ⟨h, e⟩ | ⟨h, e⟩ | ⟨h, e⟩) <;> exact e ▸ h
  · intro h
    have hadj := h.1
    simp only [PointAdj, Prod.mk.injEq] at hadj
    rcases hadj with ⟨⟨rfl, rfl⟩, e⟩ | ⟨rfl, rfl, e⟩ | ⟨rfl, rfl, e⟩
    · rcases e with rfl | e
      · exact Or.inr (Or.inr (Or.inr (Or.inr (Or.inr ⟨h, rfl⟩))))
      · have e' : a = x - 1 := by omega
        subst e'
        exact Or.inr (Or.inr (Or.inr (Or.inr (Or.inl ⟨h, rfl⟩))))
    · rcases e with rfl | e
      · exact Or.inr (Or.inr (Or.inr (Or.inl ⟨h, rfl⟩)))
      · have e' : b = y - 1 := by omega
        subst e'
        exact Or.inr (Or.inr (Or.inl ⟨h, rfl⟩))
    · rcases e with rfl | e
      · exact Or.inr (Or.inl ⟨h, rfl⟩)
      · have e' : c = z - 1 := by omega
        subst e'
        exact Or.inl ⟨h, rfl⟩

theorem pointAdj_symm {v w : ZIdx} (h : PointAdj v w) : PointAdj w v := by
  rcases h with ⟨h1, h2⟩ | ⟨h1, h2, h3⟩ | ⟨h1, h2, h3⟩
  · exact Or.inl ⟨h1.symm, h2.symm⟩
  · exact Or.inr (Or.inl ⟨h1.symm, h2.symm, h3.symm⟩)
  · exact Or.inr (Or.inr ⟨h1.symm, h2.symm, h3.symm⟩)

theorem surfaceEdge_symm {S : ZIdx → Prop} {v w : ZIdx} (h : SurfaceEdge S v w) : SurfaceEdge S w v := by
  obtain ⟨h1, p, q, hp, hq, h2⟩ := h
  exact ⟨pointAdj_symm h1, p, q, hp.symm, hq.symm, h2⟩

theorem surfaceEdge_point {S : ZIdx → Prop} {v w : ZIdx} (h : SurfaceEdge S v w) : SurfacePoint S w := by
  obtain ⟨-, p, q, hp, hq, h2⟩ := h
  exact ⟨p, q, hp.2, hq.2, h2⟩

theorem connected_symm (v w : ZIdx) (h : w ∈ connected (connectivity k g v) v) : v ∈ connected (connectivity k g w) w :=
  (connected_iff w v).2 (surfaceEdge_symm ((connected_iff v w).1 h))

/-! ### Vertices -/

theorem mem_insertIf {c : Bool} {v w : ZIdx} {s : List ZIdx} : v ∈ insertIf c w s ↔ v ∈ s ∨ (c = true ∧ v = w) := by
  unfold insertIf
  cases c
  · simp
  · by_cases h : w ∈ s
    · simp only [h, decide_true, Bool.not_true, Bool.and_false, Bool.false_eq_true, if_false, true_and]
      constructor
      · exact Or.inl
      · rintro (h' | rfl)
        · exact h'
        · exact h
    · simp [h]

theorem nodup_insertIf {c : Bool} {w : ZIdx} {s : List ZIdx} (hs : s.Nodup) : (insertIf c w s).Nodup := by
  unfold insertIf
  split_ifs with h
  · simp only [Bool.and_eq_true, Bool.not_eq_true', decide_eq_false_iff_not] at h
    rw [List.nodup_append]
    exact ⟨hs, by simp, by intro x hx y hy e; rw [List.mem_singleton] at hy; exact h.2 (by rw [← hy, ← e]; exact hx)⟩
  · exact hs

/-- Corner of a voxel by the offset in each direction. -/
def cornerOf (c : ZIdx) (a b e : Bool) : ZIdx := (c.1 + a.toNat, c.2.1 + b.toNat, c.2.2 + e.toNat)

/-- The condition under which the code inserts a corner. -/
def CornerInserted (zp : ℤ) (k : ℕ) (g : ZIdx → ℤ) (c : ZIdx) (a b e : Bool) : Prop :=
  g (c.1, c.2.1, c.2.2 + (if e then zp else -1)) ≠ k ∨ g (c.1, c.2.1 + (if b then 1 else -1), c.2.2) ≠ k ∨
    g (c.1 + (if a then 1 else -1), c.2.1, c.2.2) ≠ k

theorem corner_cond {v w : ZIdx} {p q r : ℤ} : (((decide ((k : ℤ) ≠ p) || decide ((k : ℤ) ≠ q) || decide ((k : ℤ) ≠ r)) = true) ∧ v = w) ↔
    (v = w ∧ (p ≠ k ∨ q ≠ k ∨ r ≠ k)) := by
  rw [and_comm]
  simp only [Bool.or_eq_true, decide_eq_true_eq, ne_eq, eq_comm (a := (k : ℤ)), or_assoc]

theorem mem_cellVertices {zp : ℤ} {c v : ZIdx} {s : List ZIdx} : v ∈ cellVertices zp k g c s ↔
    v ∈ s ∨ ∃ a b e, v = cornerOf c a b e ∧ CornerInserted zp k g c a b e := by
  unfold cellVertices
  simp only [mem_insertIf, corner_cond]
  simp only [Bool.exists_bool, cornerOf, CornerInserted, Bool.toNat_true, Bool.toNat_false, Nat.cast_zero, Nat.cast_one,
    add_zero, if_true, Bool.false_eq_true, if_false, ← sub_eq_add_neg, or_assoc]

theorem nodup_cellVertices {zp : ℤ} {c : ZIdx} {s : List ZIdx} (hs : s.Nodup) : (cellVertices zp k g c s).Nodup := by
  unfold cellVertices
  iterate 8 apply nodup_insertIf
  exact hs

theorem mem_surfaceVertices {zp : ℤ} {v : ZIdx} : ∀ {l s : List ZIdx}, v ∈ surfaceVerticesWith zp k g l s ↔
    v ∈ s ∨ ∃ c ∈ l, ∃ a b e, v = cornerOf c a b e ∧ CornerInserted zp k g c a b e
  | [], s => by simp [surfaceVerticesWith]
  | c :: cs, s => by
    rw [surfaceVerticesWith, mem_surfaceVertices, mem_cellVertices]
    simp only [List.exists_mem_cons_iff, or_assoc]

theorem nodup_surfaceVertices {zp : ℤ} : ∀ {l s : List ZIdx}, s.Nodup → (surfaceVerticesWith zp k g l s).Nodup
  | [], _, hs => hs
  | c :: cs, s, hs => by
    rw [surfaceVerticesWith]
    exact nodup_surfaceVertices (nodup_cellVertices hs)

theorem isCorner_iff {v c : ZIdx} : IsCorner v c ↔ ∃ a b e, v = cornerOf c a b e := by
  obtain ⟨x, y, z⟩ := v
  have flag : ∀ t s : ℤ, (t = s ∨ t = s + 1) ↔ ∃ a : Bool, t = s + a.toNat := by
    intro t s
    rw [Bool.exists_bool]
    simp
  simp only [IsCorner, flag, cornerOf, Prod.mk.injEq]
  constructor
  · rintro ⟨⟨a, ha⟩, ⟨b, hb⟩, ⟨e, he⟩⟩
    exact ⟨a, b, e, ha, hb, he⟩
  · rintro ⟨a, b, e, ha, hb, he⟩
    exact ⟨⟨a, ha⟩, ⟨b, hb⟩, ⟨e, he⟩⟩

theorem isCorner_iff_around {v p : ZIdx} : IsCorner v p ↔ ∃ a b e, p = around v a b e := by
  obtain ⟨x, y, z⟩ := p
  have flag : ∀ t s : ℤ, (t = s ∨ t = s + 1) ↔ ∃ a : Bool, s = t - (if a then 0 else 1) := by
    intro t s
    rw [Bool.exists_bool]
    simp only [Bool.false_eq_true, if_false, if_true]
    omega
  simp only [IsCorner, flag, around, Prod.mk.injEq]
  constructor
  · rintro ⟨⟨a, ha⟩, ⟨b, hb⟩, ⟨e, he⟩⟩
    exact ⟨a, b, e, ha, hb, he⟩
  · rintro ⟨a, b, e, ha, hb, he⟩
    exact ⟨⟨a, ha⟩, ⟨b, hb⟩, ⟨e, he⟩⟩

/-- A surface point has an inside voxel with an outside face neighbour, both at the point. -/
theorem surfacePoint_face {S : ZIdx → Prop} {v : ZIdx} (h : SurfacePoint S v) : ∃ c a b e, S c ∧ v = cornerOf c a b e ∧
    (¬ S (c.1, c.2.1, c.2.2 + (if e then 1 else -1)) ∨ ¬ S (c.1, c.2.1 + (if b then 1 else -1), c.2.2) ∨
      ¬ S (c.1 + (if a then 1 else -1), c.2.1, c.2.2)) := by
  obtain ⟨p, q, hp, hq, hS, hN⟩ := h
  obtain ⟨x, y, z⟩ := v
  obtain ⟨p1, p2, p3⟩ := p
  obtain ⟨q1, q2, q3⟩ := q
  simp only [IsCorner] at hp hq
  -- flags of a voxel at the point
  have flag : ∀ t s : ℤ, (t = s ∨ t = s + 1) → ∃ a : Bool, t = s + a.toNat := by
    rintro t s (rfl | rfl)
    · exact ⟨false, by simp⟩
    · exact ⟨true, by simp⟩
  have other : ∀ t s s' : ℤ, ∀ a : Bool, t = s + a.toNat → (t = s' ∨ t = s' + 1) → s' = s ∨ s' = s + (if a then 1 else -1) := by
    intro t s s' a h1 h2
    cases a <;> simp at h1 ⊢ <;> omega
  by_cases h1 : S (q1, p2, p3)
  · by_cases h2 : S (q1, q2, p3)
    · obtain ⟨a, ha⟩ := flag x q1 hq.1
      obtain ⟨b, hb⟩ := flag y q2 hq.2.1
      obtain ⟨e, he⟩ := flag z p3 hp.2.2
      refine ⟨(q1, q2, p3), a, b, e, h2, by simp [cornerOf, ← ha, ← hb, ← he], Or.inl ?_⟩
      rcases other z p3 q3 e he hq.2.2 with h | h
      · rw [h] at hN; exact absurd h2 hN
      · rw [h] at hN; exact hN
    · obtain ⟨a, ha⟩ := flag x q1 hq.1
      obtain ⟨b, hb⟩ := flag y p2 hp.2.1
      obtain ⟨e, he⟩ := flag z p3 hp.2.2
      refine ⟨(q1, p2, p3), a, b, e, h1, by simp [cornerOf, ← ha, ← hb, ← he], Or.inr (Or.inl ?_)⟩
      rcases other y p2 q2 b hb hq.2.1 with h | h
      · rw [h] at h2; exact absurd h1 h2
      · rw [h] at h2; exact h2
  · obtain ⟨a, ha⟩ := flag x p1 hp.1
    obtain ⟨b, hb⟩ := flag y p2 hp.2.1
    obtain ⟨e, he⟩ := flag z p3 hp.2.2
    refine ⟨(p1, p2, p3), a, b, e, hS, by simp [cornerOf, ← ha, ← hb, ← he], Or.inr (Or.inr ?_)⟩
    rcases other x p1 q1 a ha hq.1 with h | h
    · rw [h] at h1; exact absurd hS h1
    · rw [h] at h1; exact h1

/-- The insertion condition is right for the looked-up offset: with the offset `1`, and with the offset of the code if
no voxel of the solid lies directly on another one. -/
def OffsetOk (zp : ℤ) (S : ZIdx → Prop) : Prop := zp = 1 ∨ (zp = -1 ∧ ∀ x y z, S (x, y, z) → ¬ S (x, y, z - 1))

theorem mem_verts_iff {zp : ℤ} {surface : List ZIdx} (hz : OffsetOk zp fun p => g p = k) (hs : ∀ p, p ∈ surface ↔ g p = k) (v : ZIdx) :
    v ∈ surfaceVerticesWith zp k g surface [] ↔ SurfacePoint (fun p => g p = k) v := by
  rw [mem_surfaceVertices]
  constructor
  · rintro (h | ⟨c, hc, a, b, e, rfl, hi⟩)
    · cases h
    · have hc' := (hs c).1 hc
      have hcorner : IsCorner (cornerOf c a b e) c := isCorner_iff.2 ⟨a, b, e, rfl⟩
      obtain ⟨x, y, z⟩ := c
      rcases hi with h | h | h
      · rcases hz with rfl | ⟨rfl, hflat⟩
        · refine ⟨_, _, hcorner, ?_, hc', h⟩
          simp only [IsCorner, cornerOf]
          cases e <;> cases a <;> cases b <;> simp
        · cases e
          · refine ⟨_, _, hcorner, ?_, hc', h⟩
            simp only [IsCorner, cornerOf]
            cases a <;> cases b <;> simp
          · refine ⟨_, (x, y, z + 1), hcorner, ?_, hc', ?_⟩
            · simp only [IsCorner, cornerOf]
              cases a <;> cases b <;> simp
            · intro h'
              exact hflat x y (z + 1) h' (by simpa using hc')
      · refine ⟨_, _, hcorner, ?_, hc', h⟩
        simp only [IsCorner, cornerOf]
        cases e <;> cases a <;> cases b <;> simp
      · refine ⟨_, _, hcorner, ?_, hc', h⟩
        simp only [IsCorner, cornerOf]
        cases e <;> cases a <;> cases b <;> simp
  · intro h
    obtain ⟨c, a, b, e, hc, rfl, hn⟩ := surfacePoint_face h
    refine Or.inr ⟨c, (hs c).2 hc, a, b, e, rfl, ?_⟩
    unfold CornerInserted
    rcases hz with rfl | ⟨rfl, hflat⟩
    · exact hn
    · left
      have := hflat c.1 c.2.1 c.2.2 hc
      rw [sub_eq_add_neg] at this
      simpa using this

end
end VGT
