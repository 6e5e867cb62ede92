import Verif.Props.Rasterize

/-!
C70: rasterization and its symmetries: the unit of length, the place of the world's origin, the order in which the
corners of a triangle are named.
-/
set_option autoImplicit false
set_option linter.unusedSectionVars false

namespace VGT
open VGT.EDT VGT.Spec

section
variable {K : Type} [Field K] [LinearOrder K] [IsStrictOrderedRing K] [FloorRing K]

/-- The point `x` in new coordinates: another unit of length (factor `k`) and another origin (shift `d`). -/
def recoord (k : K) (d x : Vec K) : Vec K := fun a => k * x a + d a

/-- The same map in new coordinates. -/
def RastMap.recoord (m : RastMap K) (k : K) (d : Vec K) : RastMap K :=
  { m with s := k * m.s, pose := ⟨m.pose.R, VGT.recoord k d m.pose.t⟩ }

/-- The comparison of candidates comes out the same in new coordinates. -/
def KeyKept (key : Vec K → Vec K → K) (k : K) (d : Vec K) : Prop :=
  ∀ q c c', key (recoord k d q) (recoord k d c) ≤ key (recoord k d q) (recoord k d c') ↔ key q c ≤ key q c'

theorem vsub_recoord (k : K) (d a b : Vec K) : vsub (recoord k d a) (recoord k d b) = fun i => k * vsub a b i := by
  funext i; simp only [vsub, recoord]; ring

theorem cross3_scale (k : K) (a b : Vec K) : cross3 (fun i => k * a i) (fun i => k * b i) = fun i => k ^ 2 * cross3 a b i := by
  funext i
  fin_cases i <;> simp [cross3] <;> ring

theorem dot3_scale (k l : K) (a b : Vec K) : dot3 (fun i => k * a i) (fun i => l * b i) = k * l * dot3 a b := by
  simp only [dot3]; ring

theorem sameSide_recoord {k : K} (hk : 0 < k) (d a b p q : Vec K) :
    sameSide (recoord k d a) (recoord k d b) (recoord k d p) (recoord k d q) = sameSide a b p q := by
  unfold sameSide
  dsimp only
  rw [vsub_recoord, vsub_recoord, vsub_recoord, cross3_scale, cross3_scale, dot3_scale, decide_eq_decide]
  exact mul_nonneg_iff_of_pos_left (by positivity)

theorem vectorRejection_scale {k : K} (hk : 0 < k) (n w : Vec K) :
    vectorRejection (fun i => k ^ 2 * n i) (fun i => k * w i) = fun i => k * vectorRejection n w i := by
  funext i
  simp only [vectorRejection, vsub, vscale, sqNorm, dot3_scale]
  have h : k ^ 2 * k * dot3 n w / (k ^ 2 * k ^ 2 * dot3 n n) = dot3 n w / dot3 n n / k := by
    rw [show k ^ 2 * k ^ 2 * dot3 n n = k ^ 2 * k * (dot3 n n * k) by ring,
      mul_div_mul_left _ _ (by positivity : k ^ 2 * k ≠ 0), div_mul_eq_div_div]
  rw [h]
  field_simp

theorem closestOnSegment_recoord {k : K} (hk : 0 < k) (d a b q : Vec K) :
    closestOnSegment (recoord k d a) (recoord k d b) (recoord k d q) = recoord k d (closestOnSegment a b q) := by
  unfold closestOnSegment
  dsimp only
  rw [vsub_recoord, vsub_recoord, sqNorm, dot3_scale, dot3_scale, mul_div_mul_left _ _ (by positivity : k * k ≠ 0)]
  funext i
  simp only [vadd, vscale, recoord, sqNorm]
  ring

theorem closestBy_recoord {key : Vec K → Vec K → K} {k : K} (hk : 0 < k) {d : Vec K} (hkey : KeyKept key k d)
    (v1 v2 v3 q : Vec K) :
    closestOnTriangleBy (key (recoord k d q)) (recoord k d v1) (recoord k d v2) (recoord k d v3)
        (cross3 (vsub (recoord k d v2) (recoord k d v1)) (vsub (recoord k d v3) (recoord k d v1))) (recoord k d q)
      = recoord k d (closestOnTriangleBy (key q) v1 v2 v3 (cross3 (vsub v2 v1) (vsub v3 v1)) q) := by
  unfold closestOnTriangleBy projectsInside
  rw [sameSide_recoord hk, sameSide_recoord hk, sameSide_recoord hk]
  split_ifs
  · rw [vsub_recoord, vsub_recoord, vsub_recoord, cross3_scale, vectorRejection_scale hk]
    funext i
    simp only [vadd, recoord]
    ring
  · rw [closestOnSegment_recoord hk, closestOnSegment_recoord hk, closestOnSegment_recoord hk]
    unfold pickCandidate
    simp only [hkey q _ _]
    split_ifs <;> rfl

theorem centreOf_recoord (m : RastMap K) (k : K) (d : Vec K) (i : ZIdx) :
    (m.recoord k d).centreOf i = recoord k d (m.centreOf i) := by
  funext a
  simp only [RastMap.centreOf, RastMap.recoord, Pose.apply, point4, centre, recoord]
  ring

theorem indexOf_recoord (m : RastMap K) {k : K} (hk : 0 < k) (d p : Vec K) :
    (m.recoord k d).indexOf (recoord k d p) = m.indexOf p := by
  funext a
  simp only [RastMap.indexOf, RastMap.recoord, cellOf, Pose.applyInv, point4, recoord]
  congr 1
  rw [← mul_div_mul_left _ m.s hk.ne']
  congr 1
  ring

theorem lowCorner_recoord {k : K} (hk : 0 < k) (d v1 v2 v3 : Vec K) :
    lowCorner (recoord k d v1) (recoord k d v2) (recoord k d v3) = recoord k d (lowCorner v1 v2 v3) := by
  funext a
  simp only [lowCorner, recoord, mul_min_of_nonneg _ _ hk.le, min_add_add_right]

theorem highCorner_recoord {k : K} (hk : 0 < k) (d v1 v2 v3 : Vec K) :
    highCorner (recoord k d v1) (recoord k d v2) (recoord k d v3) = recoord k d (highCorner v1 v2 v3) := by
  funext a
  simp only [highCorner, recoord, mul_max_of_nonneg _ _ hk.le, max_add_add_right]

theorem hitBy_recoord {key : Vec K → Vec K → K} {k : K} (hk : 0 < k) {d : Vec K} (hkey : KeyKept key k d) (m : RastMap K)
    (v1 v2 v3 : Vec K) (i : ZIdx) :
    (m.recoord k d).hitBy key (recoord k d v1) (recoord k d v2) (recoord k d v3) i = m.hitBy key v1 v2 v3 i := by
  unfold RastMap.hitBy
  dsimp only
  rw [centreOf_recoord, closestBy_recoord hk hkey, vsub_recoord, sqNorm, dot3_scale, decide_eq_decide]
  have e : 3 * ((m.recoord k d).s * (1 / 2)) * ((m.recoord k d).s * (1 / 2)) = k * k * (3 * (m.s * (1 / 2)) * (m.s * (1 / 2))) := by
    simp only [RastMap.recoord]
    ring
  rw [e]
  exact mul_le_mul_iff_right₀ (by positivity)

theorem corners_map (f : Vec K → Vec K) (vertices : List (Vec K)) (t : ℤ × ℤ × ℤ) :
    corners (vertices.map f) t = (corners vertices t).map fun v => (f v.1, f v.2.1, f v.2.2) := by
  have one : ∀ k, vertexAt (vertices.map f) k = (vertexAt vertices k).map f := by
    intro k
    unfold vertexAt
    split_ifs
    · exact List.getElem?_map
    · rfl
  unfold corners
  rw [one, one, one]
  cases vertexAt vertices t.1 <;> cases vertexAt vertices t.2.1 <;> cases vertexAt vertices t.2.2 <;> rfl

theorem triangleActs_recoord {key : Vec K → Vec K → K} {k : K} (hk : 0 < k) {d : Vec K} (hkey : KeyKept key k d)
    (m : RastMap K) (enforce : Bool) (vertices : List (Vec K)) (t : ℤ × ℤ × ℤ) :
    (m.recoord k d).triangleActs key enforce (vertices.map (recoord k d)) t = m.triangleActs key enforce vertices t := by
  unfold RastMap.triangleActs
  rw [corners_map]
  rcases corners vertices t with _ | ⟨v1, v2, v3⟩
  · rfl
  · have hbox : (m.recoord k d).boxOf (recoord k d v1) (recoord k d v2) (recoord k d v3) = m.boxOf v1 v2 v3 := by
      unfold RastMap.boxOf
      rw [lowCorner_recoord hk, highCorner_recoord hk, indexOf_recoord m hk, indexOf_recoord m hk]
    simp only [Option.map_some, hbox, hitBy_recoord hk hkey]
    rfl

theorem meshRuns_recoord {key : Vec K → Vec K → K} {k : K} (hk : 0 < k) {d : Vec K} (hkey : KeyKept key k d)
    {m : RastMap K} {enforce : Bool} {vertices : List (Vec K)} {triangles : List (ℤ × ℤ × ℤ)} {occ occ' : Idx → Fl}
    {threw : Bool} :
    (m.recoord k d).MeshRuns key enforce (vertices.map (recoord k d)) triangles occ threw occ' ↔
      m.MeshRuns key enforce vertices triangles occ threw occ' := by
  have : (m.recoord k d).threadActs key enforce (vertices.map (recoord k d)) triangles
      = m.threadActs key enforce vertices triangles := by
    funext is
    unfold RastMap.threadActs
    simp only [triangleActs_recoord hk hkey]
  unfold RastMap.MeshRuns
  rw [this]
  rfl

/-! ### Unit of length and origin -/

/-- The unit of length does not matter: mesh and map in another unit give the same cells, exceptions included. -/
theorem C70_unit_independent {k : K} (hk : 0 < k) {m : RastMap K} {enforce : Bool} {vertices : List (Vec K)}
    {triangles : List (ℤ × ℤ × ℤ)} {occ occ' : Idx → Fl} {threw : Bool} :
    (m.recoord k fun _ => 0).MeshRuns codeKey enforce (vertices.map (recoord k fun _ => 0)) triangles occ threw occ' ↔
      m.MeshRuns codeKey enforce vertices triangles occ threw occ' := by
  refine meshRuns_recoord hk fun q c c' => ?_
  have e : ∀ c : Vec K, codeKey (recoord k (fun _ => 0) q) (recoord k (fun _ => 0) c) = k * k * codeKey q c := by
    intro c
    simp only [codeKey, sqNorm, dot3, recoord]
    ring
  rw [e, e]
  exact mul_le_mul_iff_right₀ (by positivity)

/-- With the right comparison between candidates neither the unit nor the origin of the world matters. -/
theorem C70_repaired_coordinates {k : K} (hk : 0 < k) (d : Vec K) {m : RastMap K} {enforce : Bool} {vertices : List (Vec K)}
    {triangles : List (ℤ × ℤ × ℤ)} {occ occ' : Idx → Fl} {threw : Bool} :
    (m.recoord k d).MeshRuns nearKey enforce (vertices.map (recoord k d)) triangles occ threw occ' ↔
      m.MeshRuns nearKey enforce vertices triangles occ threw occ' := by
  refine meshRuns_recoord hk fun q c c' => ?_
  have e : ∀ c : Vec K, nearKey (recoord k d q) (recoord k d c) = k * k * nearKey q c := by
    intro c
    simp only [nearKey, sqDistance, recoord]
    ring
  rw [e, e]
  exact mul_le_mul_iff_right₀ (by positivity)

/-! ### Order of the corners -/

theorem sameSide_swap (a b p q : Vec K) : sameSide b a p q = sameSide a b p q := by
  unfold sameSide
  dsimp only
  rw [decide_eq_decide]
  have : dot3 (cross3 (vsub a b) (vsub p b)) (cross3 (vsub a b) (vsub q b))
      = dot3 (cross3 (vsub b a) (vsub p a)) (cross3 (vsub b a) (vsub q a)) := by
    simp [dot3, cross3, vsub]
    ring
  rw [this]

theorem clampTo_flip (x : K) : clampTo (1 - x) 0 1 = 1 - clampTo x 0 1 := by
  unfold clampTo
  split_ifs <;> linarith

theorem closestOnSegment_swap (a b q : Vec K) : closestOnSegment b a q = closestOnSegment a b q := by
  by_cases h : sqNorm (vsub b a) = 0
  · have e : ∀ i, b i = a i := by
      simp only [sqNorm, dot3, vsub] at h
      have h0 := mul_self_nonneg (b 0 - a 0)
      have h1 := mul_self_nonneg (b 1 - a 1)
      have h2 := mul_self_nonneg (b 2 - a 2)
      have e0 : (b 0 - a 0) * (b 0 - a 0) = 0 := by linarith
      have e1 : (b 1 - a 1) * (b 1 - a 1) = 0 := by linarith
      have e2 : (b 2 - a 2) * (b 2 - a 2) = 0 := by linarith
      intro i
      fin_cases i
      · exact sub_eq_zero.mp (mul_self_eq_zero.mp e0)
      · exact sub_eq_zero.mp (mul_self_eq_zero.mp e1)
      · exact sub_eq_zero.mp (mul_self_eq_zero.mp e2)
    rw [funext e]
  · have hs : sqNorm (vsub a b) = sqNorm (vsub b a) := by simp only [sqNorm, dot3, vsub]; ring
    have hr : dot3 (vsub a b) (vsub q b) / sqNorm (vsub a b) = 1 - dot3 (vsub b a) (vsub q a) / sqNorm (vsub b a) := by
      rw [hs, eq_sub_iff_add_eq, ← add_div, div_eq_one_iff_eq h]
      simp only [sqNorm, dot3, vsub]
      ring
    unfold closestOnSegment
    dsimp only
    rw [hr, clampTo_flip]
    funext i
    simp only [vadd, vscale, vsub]
    ring

/-- The three edge candidates for `q` are told apart by their distances from the world's origin. -/
def NoTies (v1 v2 v3 q : Vec K) : Prop :=
  sqNorm (closestOnSegment v1 v2 q) ≠ sqNorm (closestOnSegment v2 v3 q) ∧
  sqNorm (closestOnSegment v2 v3 q) ≠ sqNorm (closestOnSegment v3 v1 q) ∧
  sqNorm (closestOnSegment v3 v1 q) ≠ sqNorm (closestOnSegment v1 v2 q)

theorem pick_mem (key : Vec K → K) (a b c : Vec K) :
    pickCandidate key a b c = a ∨ pickCandidate key a b c = b ∨ pickCandidate key a b c = c := by
  unfold pickCandidate
  split_ifs <;> simp

/-- Without ties the choice is the one candidate with the least key. -/
theorem pick_unique {key : Vec K → K} {a b c x y : Vec K} (hab : key a ≠ key b) (hbc : key b ≠ key c) (hca : key c ≠ key a)
    (hx : x = a ∨ x = b ∨ x = c) (hy : y = a ∨ y = b ∨ y = c) (h1 : key x ≤ key y) (h2 : key y ≤ key x) : x = y := by
  have e := le_antisymm h1 h2
  rcases hx with rfl | rfl | rfl <;> rcases hy with rfl | rfl | rfl <;> first
    | rfl
    | exact absurd e hab
    | exact absurd e hbc
    | exact absurd e hca
    | exact absurd e.symm hab
    | exact absurd e.symm hbc
    | exact absurd e.symm hca

theorem pick_rotate {key : Vec K → K} {a b c : Vec K} (hab : key a ≠ key b) (hbc : key b ≠ key c) (hca : key c ≠ key a) :
    pickCandidate key b c a = pickCandidate key a b c := by
  obtain ⟨p1, p2, p3⟩ := pickCandidate_min key b c a
  obtain ⟨q1, q2, q3⟩ := pickCandidate_min key a b c
  have m1 := pick_mem key b c a
  have m2 := pick_mem key a b c
  refine pick_unique hab hbc hca (by tauto) m2 ?_ ?_
  · rcases m2 with h | h | h <;> rw [h] <;> assumption
  · rcases m1 with h | h | h <;> rw [h] <;> assumption

theorem pick_swap {key : Vec K → K} {a b c : Vec K} (hab : key a ≠ key b) (hbc : key b ≠ key c) (hca : key c ≠ key a) :
    pickCandidate key a c b = pickCandidate key a b c := by
  obtain ⟨p1, p2, p3⟩ := pickCandidate_min key a c b
  obtain ⟨q1, q2, q3⟩ := pickCandidate_min key a b c
  have m1 := pick_mem key a c b
  have m2 := pick_mem key a b c
  refine pick_unique hab hbc hca (by tauto) m2 ?_ ?_
  · rcases m2 with h | h | h <;> rw [h] <;> assumption
  · rcases m1 with h | h | h <;> rw [h] <;> assumption

theorem plane_point {n w1 w2 q : Vec K} (h : dot3 n w1 = dot3 n w2) :
    vadd w1 (vectorRejection n (vsub q w1)) = vadd w2 (vectorRejection n (vsub q w2)) := by
  have hd : dot3 n (vsub q w1) = dot3 n (vsub q w2) := by
    simp only [dot3, vsub] at h ⊢
    linarith
  unfold vectorRejection
  rw [hd]
  funext i
  simp only [vadd, vsub, vscale]
  ring

theorem plane_point_neg {n w q : Vec K} :
    vadd w (vectorRejection (fun i => -n i) (vsub q w)) = vadd w (vectorRejection n (vsub q w)) := by
  unfold vectorRejection
  have e1 : dot3 (fun i => -n i) (vsub q w) = -dot3 n (vsub q w) := by simp only [dot3]; ring
  have e2 : sqNorm (fun i => -n i) = sqNorm n := by simp only [sqNorm, dot3]; ring
  rw [e1, e2]
  funext i
  simp only [vadd, vsub, vscale]
  ring

theorem projectsInside_rotate (v1 v2 v3 q : Vec K) : projectsInside v2 v3 v1 q = projectsInside v1 v2 v3 q := by
  unfold projectsInside
  cases sameSide v1 v2 v3 q <;> cases sameSide v2 v3 v1 q <;> cases sameSide v3 v1 v2 q <;> rfl

theorem projectsInside_swap (v1 v2 v3 q : Vec K) : projectsInside v2 v1 v3 q = projectsInside v1 v2 v3 q := by
  unfold projectsInside
  rw [sameSide_swap v1 v2, sameSide_swap v3 v1, sameSide_swap v2 v3]
  cases sameSide v1 v2 v3 q <;> cases sameSide v2 v3 v1 q <;> cases sameSide v3 v1 v2 q <;> rfl

/-- The chosen point does not change when the corners are rotated. -/
theorem closest_rotate {v1 v2 v3 q : Vec K} (h : projectsInside v1 v2 v3 q = false → NoTies v1 v2 v3 q) :
    closestOnTriangleBy sqNorm v2 v3 v1 (cross3 (vsub v3 v2) (vsub v1 v2)) q
      = closestOnTriangleBy sqNorm v1 v2 v3 (cross3 (vsub v2 v1) (vsub v3 v1)) q := by
  have hp := projectsInside_rotate v1 v2 v3 q
  unfold closestOnTriangleBy
  rw [hp]
  split_ifs
  · have hn : cross3 (vsub v3 v2) (vsub v1 v2) = cross3 (vsub v2 v1) (vsub v3 v1) := by
      funext i
      fin_cases i <;> simp [cross3, vsub] <;> ring
    rw [hn]
    apply plane_point
    simp [dot3, cross3, vsub]
    ring
  · rename_i hin
    obtain ⟨h1, h2, h3⟩ := h (by simpa using hin)
    exact pick_rotate h1 h2 h3

/-- Nor when two corners change places. -/
theorem closest_swap {v1 v2 v3 q : Vec K} (h : projectsInside v1 v2 v3 q = false → NoTies v1 v2 v3 q) :
    closestOnTriangleBy sqNorm v2 v1 v3 (cross3 (vsub v1 v2) (vsub v3 v2)) q
      = closestOnTriangleBy sqNorm v1 v2 v3 (cross3 (vsub v2 v1) (vsub v3 v1)) q := by
  have hp := projectsInside_swap v1 v2 v3 q
  unfold closestOnTriangleBy
  rw [hp]
  split_ifs
  · have hn : cross3 (vsub v1 v2) (vsub v3 v2) = fun i => -cross3 (vsub v2 v1) (vsub v3 v1) i := by
      funext i
      fin_cases i <;> simp [cross3, vsub] <;> ring
    rw [hn, plane_point_neg]
    apply plane_point
    simp [dot3, cross3, vsub]
    ring
  · rw [closestOnSegment_swap v1 v2, closestOnSegment_swap v3 v1, closestOnSegment_swap v2 v3]
    rename_i hin
    obtain ⟨h1, h2, h3⟩ := h (by simpa using hin)
    exact pick_swap h1 h2 h3

theorem NoTies.rotate {v1 v2 v3 q : Vec K} (h : NoTies v1 v2 v3 q) : NoTies v2 v3 v1 q := ⟨h.2.1, h.2.2, h.1⟩

theorem NoTies.swap {v1 v2 v3 q : Vec K} (h : NoTies v1 v2 v3 q) : NoTies v2 v1 v3 q := by
  unfold NoTies
  rw [closestOnSegment_swap v1 v2, closestOnSegment_swap v3 v1, closestOnSegment_swap v2 v3]
  exact ⟨h.2.2.symm, h.2.1.symm, h.1.symm⟩

/-- The same three corners, named in another order. -/
def Spec.SameCorners (t t' : ℤ × ℤ × ℤ) : Prop :=
  t' = (t.1, t.2.1, t.2.2) ∨ t' = (t.2.1, t.2.2, t.1) ∨ t' = (t.2.2, t.1, t.2.1) ∨
  t' = (t.2.1, t.1, t.2.2) ∨ t' = (t.1, t.2.2, t.2.1) ∨ t' = (t.2.2, t.2.1, t.1)

theorem corners_some {vertices : List (Vec K)} {t : ℤ × ℤ × ℤ} {v1 v2 v3 : Vec K} :
    corners vertices t = some (v1, v2, v3) ↔
      vertexAt vertices t.1 = some v1 ∧ vertexAt vertices t.2.1 = some v2 ∧ vertexAt vertices t.2.2 = some v3 := by
  unfold corners
  cases vertexAt vertices t.1 <;> cases vertexAt vertices t.2.1 <;> cases vertexAt vertices t.2.2 <;> simp

theorem lowCorner_rotate (v1 v2 v3 : Vec K) : lowCorner v2 v3 v1 = lowCorner v1 v2 v3 := by
  funext a
  simp only [lowCorner]
  rw [min_comm, ← min_assoc]

theorem lowCorner_swap (v1 v2 v3 : Vec K) : lowCorner v2 v1 v3 = lowCorner v1 v2 v3 := by
  funext a
  simp only [lowCorner]
  rw [min_comm (v2 a)]

theorem highCorner_rotate (v1 v2 v3 : Vec K) : highCorner v2 v3 v1 = highCorner v1 v2 v3 := by
  funext a
  simp only [highCorner]
  rw [max_comm, ← max_assoc]

theorem highCorner_swap (v1 v2 v3 : Vec K) : highCorner v2 v1 v3 = highCorner v1 v2 v3 := by
  funext a
  simp only [highCorner]
  rw [max_comm (v2 a)]

theorem boxOf_rotate (m : RastMap K) (v1 v2 v3 : Vec K) : m.boxOf v2 v3 v1 = m.boxOf v1 v2 v3 := by
  unfold RastMap.boxOf
  rw [lowCorner_rotate, highCorner_rotate]

theorem boxOf_swap (m : RastMap K) (v1 v2 v3 : Vec K) : m.boxOf v2 v1 v3 = m.boxOf v1 v2 v3 := by
  unfold RastMap.boxOf
  rw [lowCorner_swap, highCorner_swap]

/-- If the cells hit are the same after rotating or swapping corners, so is the work of the triangle for every order. -/
theorem triangleActs_sameCorners {key : Vec K → Vec K → K} {m : RastMap K} {Q : Vec K → Vec K → Vec K → Prop}
    (Qr : ∀ v1 v2 v3, Q v1 v2 v3 → Q v2 v3 v1) (Qs : ∀ v1 v2 v3, Q v1 v2 v3 → Q v2 v1 v3)
    (hr : ∀ v1 v2 v3, Q v1 v2 v3 → ∀ i ∈ m.boxOf v1 v2 v3, m.hitBy key v2 v3 v1 i = m.hitBy key v1 v2 v3 i)
    (hs : ∀ v1 v2 v3, Q v1 v2 v3 → ∀ i ∈ m.boxOf v1 v2 v3, m.hitBy key v2 v1 v3 i = m.hitBy key v1 v2 v3 i)
    {enforce : Bool} {vertices : List (Vec K)} {t t' : ℤ × ℤ × ℤ} (ht : SameCorners t t')
    (hQ : ∀ v1 v2 v3, corners vertices t = some (v1, v2, v3) → Q v1 v2 v3) :
    m.triangleActs key enforce vertices t' = m.triangleActs key enforce vertices t := by
  set f : Vec K → Vec K → Vec K → List ZIdx := fun v1 v2 v3 =>
    (m.boxOf v1 v2 v3).filter fun i => m.hitBy key v1 v2 v3 i with hf
  have fr : ∀ v1 v2 v3, Q v1 v2 v3 → f v2 v3 v1 = f v1 v2 v3 := by
    intro v1 v2 v3 h
    simp only [hf]
    rw [boxOf_rotate]
    exact List.filter_congr (hr v1 v2 v3 h)
  have fs : ∀ v1 v2 v3, Q v1 v2 v3 → f v2 v1 v3 = f v1 v2 v3 := by
    intro v1 v2 v3 h
    simp only [hf]
    rw [boxOf_swap]
    exact List.filter_congr (hs v1 v2 v3 h)
  obtain ⟨a, b, c⟩ := t
  by_cases hall : ∃ v1 v2 v3, vertexAt vertices a = some v1 ∧ vertexAt vertices b = some v2 ∧ vertexAt vertices c = some v3
  · obtain ⟨v1, v2, v3, ha, hb, hc⟩ := hall
    have h0 : corners vertices (a, b, c) = some (v1, v2, v3) := corners_some.mpr ⟨ha, hb, hc⟩
    have q1 := hQ v1 v2 v3 h0
    have acts : ∀ {t : ℤ × ℤ × ℤ} {w1 w2 w3 : Vec K}, corners vertices t = some (w1, w2, w3) →
        m.triangleActs key enforce vertices t = (f w1 w2 w3).flatMap fun i => actOn m.dims enforce i := by
      intro t w1 w2 w3 h
      unfold RastMap.triangleActs
      rw [h]
    rw [acts h0]
    rcases ht with rfl | rfl | rfl | rfl | rfl | rfl
    · rw [acts h0]
    · rw [acts (corners_some.mpr ⟨hb, hc, ha⟩), fr _ _ _ q1]
    · rw [acts (corners_some.mpr ⟨hc, ha, hb⟩), fr _ _ _ (Qr _ _ _ q1), fr _ _ _ q1]
    · rw [acts (corners_some.mpr ⟨hb, ha, hc⟩), fs _ _ _ q1]
    · rw [acts (corners_some.mpr ⟨ha, hc, hb⟩), fr _ _ _ (Qs _ _ _ q1), fs _ _ _ q1]
    · rw [acts (corners_some.mpr ⟨hc, hb, ha⟩), fr _ _ _ (Qr _ _ _ (Qs _ _ _ q1)), fr _ _ _ (Qs _ _ _ q1), fs _ _ _ q1]
  · have hnone : ∀ t : ℤ × ℤ × ℤ, SameCorners (a, b, c) t → corners vertices t = none := by
      intro t ht
      cases h : corners vertices t with
      | none => rfl
      | some v =>
        exfalso
        obtain ⟨w1, w2, w3⟩ := v
        obtain ⟨h1, h2, h3⟩ := corners_some.mp h
        rcases ht with rfl | rfl | rfl | rfl | rfl | rfl
        · exact hall ⟨_, _, _, h1, h2, h3⟩
        · exact hall ⟨_, _, _, h3, h1, h2⟩
        · exact hall ⟨_, _, _, h2, h3, h1⟩
        · exact hall ⟨_, _, _, h2, h1, h3⟩
        · exact hall ⟨_, _, _, h1, h3, h2⟩
        · exact hall ⟨_, _, _, h3, h2, h1⟩
    unfold RastMap.triangleActs
    rw [hnone t' ht, hnone (a, b, c) (Or.inl rfl)]

/-- Two meshes whose triangles do the same work have the same outcomes. -/
theorem meshRuns_congr {key : Vec K → Vec K → K} {m : RastMap K} {enforce : Bool} {vertices : List (Vec K)}
    {triangles triangles' : List (ℤ × ℤ × ℤ)}
    (h : List.Forall₂ (fun t t' => m.triangleActs key enforce vertices t' = m.triangleActs key enforce vertices t)
      triangles triangles') {occ occ' : Idx → Fl} {threw : Bool} :
    m.MeshRuns key enforce vertices triangles' occ threw occ' ↔ m.MeshRuns key enforce vertices triangles occ threw occ' := by
  have hlen := h.length_eq
  have hthread : m.threadActs key enforce vertices triangles' = m.threadActs key enforce vertices triangles := by
    funext is
    unfold RastMap.threadActs
    congr 1
    funext k
    by_cases hk : k < triangles.length
    · rw [List.getElem?_eq_getElem hk, List.getElem?_eq_getElem (hlen ▸ hk)]
      exact h.get hk (hlen ▸ hk)
    · rw [List.getElem?_eq_none (not_lt.mp hk), List.getElem?_eq_none (hlen ▸ not_lt.mp hk)]
  unfold RastMap.MeshRuns
  rw [hthread, hlen]

/-- Full statement: the order in which the corners of a triangle are named does not matter.  Proved if no two of the three edge
candidates of a cell (that does not project onto the triangle) are equally far from the world's origin.  Missing: ties, where
it fails (`C70_order_matters`). -/
theorem C70_corner_order_partial {m : RastMap K} {enforce : Bool} {vertices : List (Vec K)}
    {triangles triangles' : List (ℤ × ℤ × ℤ)} (h : List.Forall₂ SameCorners triangles triangles')
    (hties : ∀ t ∈ triangles, ∀ v1 v2 v3, corners vertices t = some (v1, v2, v3) → ∀ i ∈ m.boxOf v1 v2 v3,
      projectsInside v1 v2 v3 (m.centreOf i) = false → NoTies v1 v2 v3 (m.centreOf i))
    {occ occ' : Idx → Fl} {threw : Bool} :
    m.MeshRuns codeKey enforce vertices triangles' occ threw occ' ↔
      m.MeshRuns codeKey enforce vertices triangles occ threw occ' := by
  apply meshRuns_congr
  have h' : List.Forall₂ (fun t t' => t ∈ triangles ∧ SameCorners t t') triangles triangles' := by
    clear hties
    induction h with
    | nil => exact .nil
    | cons ht _ ih => exact .cons ⟨by simp, ht⟩ (ih.imp fun _ _ h => ⟨List.mem_cons_of_mem _ h.1, h.2⟩)
  refine h'.imp fun t t' ⟨hmem, hsame⟩ => ?_
  refine triangleActs_sameCorners (Q := fun v1 v2 v3 => ∀ i ∈ m.boxOf v1 v2 v3,
    projectsInside v1 v2 v3 (m.centreOf i) = false → NoTies v1 v2 v3 (m.centreOf i)) ?_ ?_ ?_ ?_ hsame (hties t hmem)
  · intro v1 v2 v3 hq i hi hp
    rw [boxOf_rotate] at hi
    rw [projectsInside_rotate] at hp
    exact (hq i hi hp).rotate
  · intro v1 v2 v3 hq i hi hp
    rw [boxOf_swap] at hi
    rw [projectsInside_swap] at hp
    exact (hq i hi hp).swap
  · intro v1 v2 v3 hq i hi
    unfold RastMap.hitBy
    dsimp only
    rw [show codeKey (m.centreOf i) = (sqNorm : Vec K → K) from rfl, closest_rotate (hq i hi)]
  · intro v1 v2 v3 hq i hi
    unfold RastMap.hitBy
    dsimp only
    rw [show codeKey (m.centreOf i) = (sqNorm : Vec K → K) from rfl, closest_swap (hq i hi)]

theorem ProperTriangle_rotate {v1 v2 v3 : Vec K} (h : ProperTriangle v1 v2 v3) : ProperTriangle v2 v3 v1 := by
  intro x y hxy
  have := h (-x - y) x fun a => by have := hxy a; linear_combination this
  exact ⟨this.2, by linarith [this.1, this.2]⟩

theorem ProperTriangle_swap {v1 v2 v3 : Vec K} (h : ProperTriangle v1 v2 v3) : ProperTriangle v2 v1 v3 := by
  intro x y hxy
  have := h (-x - y) y fun a => by have := hxy a; linear_combination this
  exact ⟨by linarith [this.1, this.2], this.2⟩

/-- With the right comparison a cell counts as hit exactly if its centre is within half a cell diagonal of the triangle. -/
theorem C70_repaired_hit_iff {m : RastMap K} {v1 v2 v3 : Vec K} (h : ProperTriangle v1 v2 v3) (i : ZIdx) :
    m.hitBy nearKey v1 v2 v3 i = true ↔ ∃ p, OnTriangle v1 v2 v3 p ∧ 4 * sqDistance p (m.centreOf i) ≤ 3 * m.s ^ 2 := by
  have hc := C43_repaired_closest_point h (m.centreOf i)
  simp only [RastMap.hitBy, decide_eq_true_eq, sqNorm_vsub]
  constructor
  · intro hh
    exact ⟨_, hc.1, by linarith⟩
  · rintro ⟨p, hp, hd⟩
    have := hc.2 p hp
    linarith

theorem onTriangle_rotate {v1 v2 v3 p : Vec K} (h : OnTriangle v1 v2 v3 p) : OnTriangle v2 v3 v1 p := by
  obtain ⟨x, y, z, hx, hy, hz, hs, hp⟩ := h
  exact ⟨y, z, x, hy, hz, hx, by linarith, fun a => by rw [hp a]; ring⟩

theorem onTriangle_swap {v1 v2 v3 p : Vec K} (h : OnTriangle v1 v2 v3 p) : OnTriangle v2 v1 v3 p := by
  obtain ⟨x, y, z, hx, hy, hz, hs, hp⟩ := h
  exact ⟨y, x, z, hy, hx, hz, by linarith, fun a => by rw [hp a]; ring⟩

/-- With the right comparison the order of the corners does not matter. -/
theorem C70_repaired_corner_order {m : RastMap K} {enforce : Bool} {vertices : List (Vec K)}
    {triangles triangles' : List (ℤ × ℤ × ℤ)} (h : List.Forall₂ SameCorners triangles triangles')
    (hproper : ∀ t ∈ triangles, ∀ v1 v2 v3, corners vertices t = some (v1, v2, v3) → ProperTriangle v1 v2 v3)
    {occ occ' : Idx → Fl} {threw : Bool} :
    m.MeshRuns nearKey enforce vertices triangles' occ threw occ' ↔
      m.MeshRuns nearKey enforce vertices triangles occ threw occ' := by
  apply meshRuns_congr
  have h' : List.Forall₂ (fun t t' => t ∈ triangles ∧ SameCorners t t') triangles triangles' := by
    clear hproper
    induction h with
    | nil => exact .nil
    | cons ht _ ih => exact .cons ⟨by simp, ht⟩ (ih.imp fun _ _ h => ⟨List.mem_cons_of_mem _ h.1, h.2⟩)
  refine h'.imp fun t t' ⟨hmem, hsame⟩ => ?_
  refine triangleActs_sameCorners (Q := ProperTriangle) (fun _ _ _ => ProperTriangle_rotate) (fun _ _ _ => ProperTriangle_swap)
    ?_ ?_ hsame (hproper t hmem)
  · intro v1 v2 v3 hq i _
    rw [Bool.eq_iff_iff, C70_repaired_hit_iff hq, C70_repaired_hit_iff (ProperTriangle_rotate hq)]
    exact ⟨fun ⟨p, hp, hd⟩ => ⟨p, onTriangle_rotate (onTriangle_rotate hp), hd⟩, fun ⟨p, hp, hd⟩ => ⟨p, onTriangle_rotate hp, hd⟩⟩
  · intro v1 v2 v3 hq i _
    rw [Bool.eq_iff_iff, C70_repaired_hit_iff hq, C70_repaired_hit_iff (ProperTriangle_swap hq)]
    exact ⟨fun ⟨p, hp, hd⟩ => ⟨p, onTriangle_swap hp, hd⟩, fun ⟨p, hp, hd⟩ => ⟨p, onTriangle_swap hp, hd⟩⟩

end

/-! ### The code -/

/-- A map of 4 by 3 by 1 unit cells with its corner at (0, -2, 0). -/
def symMap : RastMap ℚ :=
  { initialized := true, dims := ⟨4, 3, 1⟩, s := 1, pose := ⟨fun i j => if i = j then 1 else 0, ![0, -2, 0]⟩ }

/-- A triangle with two edge candidates at the same distance from the origin. -/
def symTriangle : List (Vec ℚ) := [![2, -3/2, 1/2], ![2, 1/2, 1/2], ![0, -1/2, 1/2]]

theorem runs_fill {m : RastMap ℚ} (hinit : m.initialized = true) {vertices : List (Vec ℚ)} {t : ℤ × ℤ × ℤ} {j : Idx}
    {occ' : Idx → Fl} {threw : Bool} (h : m.MeshRuns codeKey true vertices [t] (fun _ => .fin 0) threw occ')
    (hthrow : RAct.throw ∉ m.triangleActs codeKey true vertices t) :
    threw = false ∧ (RAct.fill j ∈ m.triangleActs codeKey true vertices t → occ' j = .fin 1) ∧
      (RAct.fill j ∉ m.triangleActs codeKey true vertices t → occ' j = .fin 0) := by
  obtain ⟨a, b, c⟩ := meshRuns_spec hinit h
  have hf : threw = false := by
    rw [Bool.eq_false_iff, Ne, a]
    rintro ⟨t', ht', hx⟩
    rw [List.mem_singleton] at ht'
    subst ht'
    exact hthrow hx
  refine ⟨hf, fun hj => b hf j ⟨t, by simp, hj⟩, fun hj => ?_⟩
  rcases c j with e | ⟨-, t', ht', hx⟩
  · exact e
  · rw [List.mem_singleton] at ht'
    subst ht'
    exact absurd hx hj

/-- Naming the same corners the other way round changes which cells are filled. -/
theorem C70_order_matters : SameCorners (0, 1, 2) (0, 2, 1) ∧
    (∀ threw occ', symMap.MeshRuns codeKey true symTriangle [(0, 1, 2)] (fun _ => .fin 0) threw occ' →
      threw = false ∧ occ' (2, 1, 0) = .fin 1) ∧
    ∀ threw occ', symMap.MeshRuns codeKey true symTriangle [(0, 2, 1)] (fun _ => .fin 0) threw occ' →
      threw = false ∧ occ' (2, 1, 0) = .fin 0 := by
  refine ⟨by simp [SameCorners], fun threw occ' h => ?_, fun threw occ' h => ?_⟩
  · obtain ⟨h1, h2, -⟩ := runs_fill (j := (2, 1, 0)) rfl h (by decide +kernel)
    exact ⟨h1, h2 (by decide +kernel)⟩
  · obtain ⟨h1, -, h3⟩ := runs_fill (j := (2, 1, 0)) rfl h (by decide +kernel)
    exact ⟨h1, h3 (by decide +kernel)⟩

/-- Moving the origin of the world, with mesh and map fixed to each other, changes which cells are filled. -/
theorem C70_origin_matters :
    (∀ threw occ', symMap.MeshRuns codeKey true symTriangle [(0, 1, 2)] (fun _ => .fin 0) threw occ' →
      threw = false ∧ occ' (2, 1, 0) = .fin 1) ∧
    ∀ threw occ', (symMap.recoord 1 ![0, 10, 0]).MeshRuns codeKey true (symTriangle.map (recoord 1 ![0, 10, 0])) [(0, 1, 2)]
      (fun _ => .fin 0) threw occ' → threw = false ∧ occ' (2, 1, 0) = .fin 0 := by
  refine ⟨C70_order_matters.2.1, fun threw occ' h => ?_⟩
  obtain ⟨h1, -, h3⟩ := runs_fill (j := (2, 1, 0)) rfl h (by decide +kernel)
  exact ⟨h1, h3 (by decide +kernel)⟩

/-- No ties for a triangle off the axes. -/
example : NoTies (![1, 1/2, 1/2] : Vec ℚ) ![3, 1, 1/2] ![3/2, 5/2, 1/2] ![1/2, 5/2, 1/2] := by
  unfold NoTies
  decide +kernel

end VGT
