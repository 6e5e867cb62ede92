import Verif.Lemmas.TopologyRank

/-!
The number of holes that is computed is not negative for solids without contacts in edges or points only, and for flat
solids.
-/
set_option autoImplicit false
set_option linter.unusedSectionVars false

namespace VGT
open VGT.EDT VGT.Spec

/-! ### Counting -/

/-- Faces of the surface at a point, from the eight voxels. -/
def faceCount (p000 p001 p010 p011 p100 p101 p110 p111 : Bool) : ℕ :=
  (p100 != p000).toNat + (p101 != p001).toNat + (p110 != p010).toNat + (p111 != p011).toNat +
  (p010 != p000).toNat + (p011 != p001).toNat + (p110 != p100).toNat + (p111 != p101).toNat +
  (p001 != p000).toNat + (p011 != p010).toNat + (p101 != p100).toNat + (p111 != p110).toNat

/-- The point belongs to the surface. -/
def pointOf (p000 p001 p010 p011 p100 p101 p110 p111 : Bool) : Bool :=
  (p000 || p001 || p010 || p011 || p100 || p101 || p110 || p111) && !(p000 && p001 && p010 && p011 && p100 && p101 && p110 && p111)

theorem curv_le : ∀ p000 p001 p010 p011 p100 p101 p110 p111 : Bool,
    curvOf (degOf p000 p001 p010 p011 p100 p101 p110 p111) ≤
      4 * ((pointOf p000 p001 p010 p011 p100 p101 p110 p111).toNat : ℤ) - 2 * (degOf p000 p001 p010 p011 p100 p101 p110 p111 : ℤ)
        + (faceCount p000 p001 p010 p011 p100 p101 p110 p111 : ℤ) := by
  decide +kernel

theorem xb_iff (p q r s : Bool) : xb p q r s = true ↔ (p = true ∨ q = true ∨ r = true ∨ s = true) ∧ (¬ p = true ∨ ¬ q = true ∨ ¬ r = true ∨ ¬ s = true) := by
  revert p q r s; decide

theorem bne_bool_iff (p q : Bool) : (p != q) = true ↔ ¬ (p = true ↔ q = true) := by revert p q; decide

/-- The number of faces or edges, by direction. -/
theorem card_fin3 {P : Fin 3 × ZIdx → Prop} {E : Finset (Fin 3 × ZIdx)} (hE : ∀ e, e ∈ E ↔ P e) :
    E.card = Set.ncard {p | P (0, p)} + Set.ncard {p | P (1, p)} + Set.ncard {p | P (2, p)} := by
  have key : ∀ a : Fin 3, (E.filter fun e => e.1 = a).card = Set.ncard {p | P (a, p)} := by
    intro a
    have hinj : Function.Injective fun p : ZIdx => (a, p) := fun p q h => (Prod.mk.inj h).2
    rw [← Set.ncard_image_of_injective _ hinj, ← Set.ncard_coe_finset]
    congr 1
    ext ⟨b, q⟩
    simp only [Finset.coe_filter, hE, Set.mem_ofPred_eq, Set.mem_image, Prod.mk.injEq]
    constructor
    · rintro ⟨h, rfl⟩; exact ⟨q, h, rfl, rfl⟩
    · rintro ⟨p, h, rfl, rfl⟩; exact ⟨h, rfl⟩
  rw [Finset.card_eq_sum_card_fiberwise (f := Prod.fst) (t := Finset.univ) (by simp), Fin.sum_univ_three, key, key, key]

section
variable {S : ZIdx → Prop}

theorem faceOn0 (v : ZIdx) (b e : Bool) : FaceOn S (0, around v true b e) ↔ (cfg S v true b e != cfg S v false b e) = true := by
  obtain ⟨x, y, z⟩ := v
  rw [bne_bool_iff, cfg_iff, cfg_iff]
  simp only [FaceOn, around, unit3, Prod.mk_sub_mk, sub_zero, if_true, Bool.false_eq_true, if_false]

theorem faceOn1 (v : ZIdx) (a e : Bool) : FaceOn S (1, around v a true e) ↔ (cfg S v a true e != cfg S v a false e) = true := by
  obtain ⟨x, y, z⟩ := v
  rw [bne_bool_iff, cfg_iff, cfg_iff]
  simp only [FaceOn, around, unit3, Prod.mk_sub_mk, sub_zero, if_true, Bool.false_eq_true, if_false]

theorem faceOn2 (v : ZIdx) (a b : Bool) : FaceOn S (2, around v a b true) ↔ (cfg S v a b true != cfg S v a b false) = true := by
  obtain ⟨x, y, z⟩ := v
  rw [bne_bool_iff, cfg_iff, cfg_iff]
  simp only [FaceOn, around, unit3, Prod.mk_sub_mk, sub_zero, if_true, Bool.false_eq_true, if_false]

theorem four_aux (A B C D : Prop) : (¬ (A ↔ B) ∨ ¬ (C ↔ D) ∨ ¬ (A ↔ C) ∨ ¬ (B ↔ D)) ↔ (A ∨ B ∨ C ∨ D) ∧ (¬ A ∨ ¬ B ∨ ¬ C ∨ ¬ D) := by
  tauto

theorem edgeOn0 (v : ZIdx) (a : Bool) : EdgeOn S (0, around v a true true) ↔
    xb (cfg S v a false false) (cfg S v a false true) (cfg S v a true false) (cfg S v a true true) = true := by
  obtain ⟨x, y, z⟩ := v
  have e02 : (0 : Fin 3) + 2 = 2 := rfl
  have e01 : (0 : Fin 3) + 1 = 1 := rfl
  rw [xb_iff]
  simp only [cfg_iff, EdgeOn, FaceOn, e02, e01, around, unit3, Prod.mk_sub_mk, sub_zero, if_true, Bool.false_eq_true, if_false]
  rw [four_aux]
  tauto

theorem edgeOn1 (v : ZIdx) (b : Bool) : EdgeOn S (1, around v true b true) ↔
    xb (cfg S v false b false) (cfg S v false b true) (cfg S v true b false) (cfg S v true b true) = true := by
  obtain ⟨x, y, z⟩ := v
  have e12 : (1 : Fin 3) + 2 = 0 := rfl
  have e11 : (1 : Fin 3) + 1 = 2 := rfl
  rw [xb_iff]
  simp only [cfg_iff, EdgeOn, FaceOn, e12, e11, around, unit3, Prod.mk_sub_mk, sub_zero, if_true, Bool.false_eq_true, if_false]
  rw [four_aux]
  tauto

theorem edgeOn2 (v : ZIdx) (e : Bool) : EdgeOn S (2, around v true true e) ↔
    xb (cfg S v false false e) (cfg S v false true e) (cfg S v true false e) (cfg S v true true e) = true := by
  obtain ⟨x, y, z⟩ := v
  have e22 : (2 : Fin 3) + 2 = 1 := rfl
  have e21 : (2 : Fin 3) + 1 = 0 := rfl
  rw [xb_iff]
  simp only [cfg_iff, EdgeOn, FaceOn, e22, e21, around, unit3, Prod.mk_sub_mk, sub_zero, if_true, Bool.false_eq_true, if_false]
  rw [four_aux]
  tauto

theorem surfacePoint_cfg (v : ZIdx) : SurfacePoint S v ↔ pointOf (cfg S v false false false) (cfg S v false false true) (cfg S v false true false)
    (cfg S v false true true) (cfg S v true false false) (cfg S v true false true) (cfg S v true true false) (cfg S v true true true) = true := by
  unfold pointOf
  rw [Bool.and_eq_true, Bool.not_eq_true', ← Bool.not_eq_true]
  simp only [Bool.or_eq_true, Bool.and_eq_true, cfg_iff]
  constructor
  · rintro ⟨p, q, hp, hq, h1, h2⟩
    obtain ⟨a, b, e, rfl⟩ := isCorner_iff_around.1 hp
    obtain ⟨a', b', e', rfl⟩ := isCorner_iff_around.1 hq
    refine ⟨?_, ?_⟩
    · cases a <;> cases b <;> cases e <;> simp [h1]
    · cases a' <;> cases b' <;> cases e' <;> simp [h2]
  · rintro ⟨h1, h2⟩
    have e1 : ∃ a b e, S (around v a b e) := by simpa only [Bool.exists_bool, or_assoc] using h1
    have e2 : ∃ a b e, ¬ S (around v a b e) := by
      by_contra hn
      push Not at hn
      exact h2 ⟨⟨⟨⟨⟨⟨⟨hn _ _ _, hn _ _ _⟩, hn _ _ _⟩, hn _ _ _⟩, hn _ _ _⟩, hn _ _ _⟩, hn _ _ _⟩, hn _ _ _⟩
    obtain ⟨a, b, e, h1⟩ := e1
    obtain ⟨a', b', e', h2⟩ := e2
    exact ⟨_, _, isCorner_iff_around.2 ⟨a, b, e, rfl⟩, isCorner_iff_around.2 ⟨a', b', e', rfl⟩, h1, h2⟩

/-- The sum of `M3 - M5 - 2 M6` contributions. -/
noncomputable def curvAt (S : ZIdx → Prop) (v : ZIdx) : ℤ :=
  curvOf (degOf (cfg S v false false false) (cfg S v false false true) (cfg S v false true false) (cfg S v false true true)
      (cfg S v true false false) (cfg S v true false true) (cfg S v true true false) (cfg S v true true true))

theorem curv_sum_le {K : Finset ZIdx} (hK : ∀ v a b e, cfg S v a b e = true → v ∈ K) {n m : ℕ}
    (hn : IsClassCount (SurfacePoint S) (SurfaceJoined S) n) (hm : FaceClasses S m) : ∑ v ∈ K, curvAt S v ≤ 4 * (n + m) := by
  classical
  have hKo : ∀ v a b e a' b' e', (cfg S v a b e != cfg S v a' b' e') = true → v ∈ K := by
    intro v a b e a' b' e' h
    rcases Bool.eq_false_or_eq_true (cfg S v a b e) with h1 | h1
    · exact hK _ _ _ _ h1
    · rcases Bool.eq_false_or_eq_true (cfg S v a' b' e') with h2 | h2
      · exact hK _ _ _ _ h2
      · rw [h1, h2] at h; simp at h
  have hF0 : ∀ b e, (Set.ncard {p | FaceOn S (0, p)} : ℤ) = ∑ v ∈ K, ((cfg S v true b e != cfg S v false b e).toNat : ℤ) := by
    intro b e
    rw [voxelCount (fun p => FaceOn S (0, p)) true b e]
    exact ncard_sum (fun v => faceOn0 v b e) fun v h => hKo _ _ _ _ _ _ _ h
  have hF1 : ∀ a e, (Set.ncard {p | FaceOn S (1, p)} : ℤ) = ∑ v ∈ K, ((cfg S v a true e != cfg S v a false e).toNat : ℤ) := by
    intro b e
    rw [voxelCount (fun p => FaceOn S (1, p)) b true e]
    exact ncard_sum (fun v => faceOn1 v b e) fun v h => hKo _ _ _ _ _ _ _ h
  have hF2 : ∀ a b, (Set.ncard {p | FaceOn S (2, p)} : ℤ) = ∑ v ∈ K, ((cfg S v a b true != cfg S v a b false).toNat : ℤ) := by
    intro b e
    rw [voxelCount (fun p => FaceOn S (2, p)) b e true]
    exact ncard_sum (fun v => faceOn2 v b e) fun v h => hKo _ _ _ _ _ _ _ h
  have hE0 : ∀ a, (Set.ncard {p | EdgeOn S (0, p)} : ℤ) = ∑ v ∈ K, ((xb (cfg S v a false false) (cfg S v a false true) (cfg S v a true false) (cfg S v a true true)).toNat : ℤ) := by
    intro a
    rw [voxelCount (fun p => EdgeOn S (0, p)) a true true]
    refine ncard_sum (fun v => edgeOn0 v a) fun v h => ?_
    rcases ((xb_iff _ _ _ _).1 h).1 with h | h | h | h <;> exact hK _ _ _ _ h
  have hE1 : ∀ a, (Set.ncard {p | EdgeOn S (1, p)} : ℤ) = ∑ v ∈ K, ((xb (cfg S v false a false) (cfg S v false a true) (cfg S v true a false) (cfg S v true a true)).toNat : ℤ) := by
    intro a
    rw [voxelCount (fun p => EdgeOn S (1, p)) true a true]
    refine ncard_sum (fun v => edgeOn1 v a) fun v h => ?_
    rcases ((xb_iff _ _ _ _).1 h).1 with h | h | h | h <;> exact hK _ _ _ _ h
  have hE2 : ∀ a, (Set.ncard {p | EdgeOn S (2, p)} : ℤ) = ∑ v ∈ K, ((xb (cfg S v false false a) (cfg S v false true a) (cfg S v true false a) (cfg S v true true a)).toNat : ℤ) := by
    intro a
    rw [voxelCount (fun p => EdgeOn S (2, p)) true true a]
    refine ncard_sum (fun v => edgeOn2 v a) fun v h => ?_
    rcases ((xb_iff _ _ _ _).1 h).1 with h | h | h | h <;> exact hK _ _ _ _ h
  have hpK : ∀ v, SurfacePoint S v → v ∈ K := by
    rintro v ⟨p, q, hp, -, h1, -⟩
    obtain ⟨a, b, e, rfl⟩ := isCorner_iff_around.1 hp
    exact hK v a b e (cfg_iff.2 h1)
  have hfK : ∀ f, FaceOn S f → f.2 ∈ K := by
    rintro ⟨c, w⟩ h
    by_cases hw : S w
    · obtain ⟨a, b, e, h'⟩ := isCorner_iff_around.1 (isCorner_self w)
      exact hK w a b e (cfg_iff.2 (h' ▸ hw))
    · have : S (w - unit3 c) := by
        by_contra hn
        exact h ⟨fun h' => absurd h' hw, fun h' => absurd h' hn⟩
      obtain ⟨a, b, e, h'⟩ := isCorner_iff_around.1 (isCorner_unit w c)
      exact hK w a b e (cfg_iff.2 (h' ▸ this))
  have heK : ∀ e, EdgeOn S e → e.2 ∈ K := by
    rintro ⟨a, v⟩ h
    exact hpK v (surfaceEdge_point (surfaceEdge_symm ((edgeOn_iff a v).1 h)))
  have hV' : ∀ v, v ∈ K.filter (fun v => SurfacePoint S v) ↔ SurfacePoint S v := by
    intro v; rw [Finset.mem_filter]; exact ⟨fun h => h.2, fun h => ⟨hpK v h, h⟩⟩
  have hE' : ∀ e, e ∈ ((Finset.univ : Finset (Fin 3)) ×ˢ K).filter (fun e => EdgeOn S e) ↔ EdgeOn S e := by
    intro e; rw [Finset.mem_filter, Finset.mem_product]; exact ⟨fun h => h.2, fun h => ⟨⟨Finset.mem_univ _, heK e h⟩, h⟩⟩
  have hF' : ∀ e, e ∈ ((Finset.univ : Finset (Fin 3)) ×ˢ K).filter (fun e => FaceOn S e) ↔ FaceOn S e := by
    intro e; rw [Finset.mem_filter, Finset.mem_product]; exact ⟨fun h => h.2, fun h => ⟨⟨Finset.mem_univ _, hfK e h⟩, h⟩⟩
  have hmain := surface_le hV' hE' hF' hn hm
  rw [card_fin3 hE', card_fin3 hF'] at hmain
  have hV : ((K.filter (fun v => SurfacePoint S v)).card : ℤ) = ∑ v ∈ K, ((pointOf (cfg S v false false false) (cfg S v false false true) (cfg S v false true false)
    (cfg S v false true true) (cfg S v true false false) (cfg S v true false true) (cfg S v true true false) (cfg S v true true true)).toNat : ℤ) := by
    rw [← ncard_sum (P := fun v => SurfacePoint S v) (fun v => surfacePoint_cfg v) (fun v h => hpK v ((surfacePoint_cfg v).2 h)), ← Set.ncard_coe_finset]
    congr 2
    ext v
    rw [Finset.mem_coe, hV']
    rfl
  have hle := Finset.sum_le_sum fun v (_ : v ∈ K) => curv_le (cfg S v false false false) (cfg S v false false true) (cfg S v false true false)
    (cfg S v false true true) (cfg S v true false false) (cfg S v true false true) (cfg S v true true false) (cfg S v true true true)
  refine hle.trans ?_
  simp only [degOf, faceCount, Nat.cast_add, Finset.sum_add_distrib, Finset.sum_sub_distrib, ← Finset.mul_sum]
  rw [← hV]
  simp only [← hE0, ← hE1, ← hE2, ← hF0, ← hF1, ← hF2]
  zify at hmain
  linarith

/-! ### Potentials -/

/-- An even set of faces is the boundary between two classes of voxels. -/
theorem potential {h : Fin 3 → ZIdx → F2} (hh : Even2 S h) {x0 : ℤ} (hx : ∀ c w, w.1 ≤ x0 → h c w = 0) :
    ∃ φ : ZIdx → F2, (∀ c w, h c w = φ w + φ (w - unit3 c)) ∧ ∀ w, w.1 ≤ x0 → φ w = 0 := by
  have h2 : (2 : F2) = 0 := by decide
  have e12 : (1 : Fin 3) + 2 = 0 := rfl
  have e11 : (1 : Fin 3) + 1 = 2 := rfl
  have e22 : (2 : Fin 3) + 2 = 1 := rfl
  have e21 : (2 : Fin 3) + 1 = 0 := rfl
  have hY : ∀ x y z, h 1 (x, y, z) + h 1 (x - 1, y, z) + h 0 (x, y, z) + h 0 (x, y - 1, z) = 0 := by
    intro x y z
    have := hh.2 2 (x, y, z)
    simpa only [e22, e21, unit3, Prod.mk_sub_mk, sub_zero] using this
  have hZ : ∀ x y z, h 0 (x, y, z) + h 0 (x, y, z - 1) + h 2 (x, y, z) + h 2 (x - 1, y, z) = 0 := by
    intro x y z
    have := hh.2 1 (x, y, z)
    simpa only [e12, e11, unit3, Prod.mk_sub_mk, sub_zero] using this
  let Φ : ℕ → ℤ → ℤ → F2 := fun n y z => ∑ i ∈ Finset.range n, h 0 (x0 + 1 + i, y, z)
  have sY : ∀ (n : ℕ) y z, Φ n y z + Φ n (y - 1) z = h 1 (x0 + n, y, z) := by
    intro n y z
    induction n with
    | zero => simp [Φ, hx 1 (x0, y, z) le_rfl]
    | succ n ih =>
      have := hY (x0 + (n + 1 : ℕ)) y z
      have ex : (x0 + ((n + 1 : ℕ) : ℤ)) - 1 = x0 + n := by push_cast; ring
      have ex' : x0 + 1 + (n : ℤ) = x0 + ((n + 1 : ℕ) : ℤ) := by push_cast; ring
      rw [ex] at this
      simp only [Φ, Finset.sum_range_succ, ex'] at ih ⊢
      linear_combination ih + this - h 1 (x0 + ((n + 1 : ℕ) : ℤ), y, z) * h2
  have sZ : ∀ (n : ℕ) y z, Φ n y z + Φ n y (z - 1) = h 2 (x0 + n, y, z) := by
    intro n y z
    induction n with
    | zero => simp [Φ, hx 2 (x0, y, z) le_rfl]
    | succ n ih =>
      have := hZ (x0 + (n + 1 : ℕ)) y z
      have ex : (x0 + ((n + 1 : ℕ) : ℤ)) - 1 = x0 + n := by push_cast; ring
      have ex' : x0 + 1 + (n : ℤ) = x0 + ((n + 1 : ℕ) : ℤ) := by push_cast; ring
      rw [ex] at this
      simp only [Φ, Finset.sum_range_succ, ex'] at ih ⊢
      linear_combination ih + this - h 2 (x0 + ((n + 1 : ℕ) : ℤ), y, z) * h2
  refine ⟨fun w => Φ (w.1 - x0).toNat w.2.1 w.2.2, ?_, ?_⟩
  · rintro c ⟨x, y, z⟩
    have hc : c = 0 ∨ c = 1 ∨ c = 2 := by revert c; decide
    rcases le_or_gt x x0 with hle | hlt
    · rw [hx c _ hle]
      have e1 : (x - x0).toNat = 0 := by omega
      have e2 : (x - 1 - x0).toNat = 0 := by omega
      rcases hc with rfl | rfl | rfl <;> simp [unit3, e1, e2, Φ]
    · obtain ⟨n, rfl⟩ : ∃ n : ℕ, x = x0 + ((n + 1 : ℕ) : ℤ) := ⟨(x - x0 - 1).toNat, by push_cast; omega⟩
      have e1 : (x0 + ((n + 1 : ℕ) : ℤ) - x0).toNat = n + 1 := by push_cast; omega
      have e2 : (x0 + ((n + 1 : ℕ) : ℤ) - 1 - x0).toNat = n := by push_cast; omega
      rcases hc with rfl | rfl | rfl
      · simp only [unit3, Prod.mk_sub_mk, sub_zero, e1, e2, Φ, Finset.sum_range_succ]
        have ex' : x0 + 1 + (n : ℤ) = x0 + ((n + 1 : ℕ) : ℤ) := by push_cast; ring
        rw [ex']
        linear_combination - (∑ i ∈ Finset.range n, h 0 (x0 + 1 + (i : ℤ), y, z)) * h2
      · simp only [unit3, Prod.mk_sub_mk, sub_zero, e1]
        exact (sY (n + 1) y z).symm
      · simp only [unit3, Prod.mk_sub_mk, sub_zero, e1]
        exact (sZ (n + 1) y z).symm
  · rintro ⟨x, y, z⟩ hle
    have e1 : (x - x0).toNat = 0 := by
      change x ≤ x0 at hle
      omega
    simp [e1, Φ]

theorem f2_add_eq_zero (a b : F2) : a + b = 0 ↔ a = b := by revert a b; decide

/-- The potential does not change across a side that is not part of the surface. -/
theorem potential_const {h : Fin 3 → ZIdx → F2} (hh : Even2 S h) {φ : ZIdx → F2} (hφ : ∀ c w, h c w = φ w + φ (w - unit3 c)) (c : Fin 3) (w : ZIdx)
    (hs : S w ↔ S (w - unit3 c)) : φ w = φ (w - unit3 c) := by
  rw [← f2_add_eq_zero, ← hφ]
  exact hh.1 c w fun h => h hs

/-- Nothing to the left of a finite solid. -/
theorem exists_left {K : Finset ZIdx} (hK : ∀ p, S p → p ∈ K) : ∃ x0 : ℤ, ∀ p, S p → x0 < p.1 := by
  classical
  induction K using Finset.induction_on generalizing S with
  | empty => exact ⟨0, fun p hp => absurd (hK p hp) (Finset.notMem_empty _)⟩
  | insert q K _ ih =>
    obtain ⟨x0, hx⟩ := ih (S := fun p => S p ∧ p ≠ q) fun p hp => (Finset.mem_insert.1 (hK p hp.1)).resolve_left hp.2
    refine ⟨min x0 (q.1 - 1), fun p hp => ?_⟩
    by_cases e : p = q
    · subst e
      exact lt_of_le_of_lt (min_le_right _ _) (by omega)
    · exact lt_of_le_of_lt (min_le_left _ _) (hx p ⟨hp, e⟩)

theorem even2_left {h : Fin 3 → ZIdx → F2} (hh : Even2 S h) {x0 : ℤ} (hx : ∀ p, S p → x0 < p.1) : ∀ c w, w.1 ≤ x0 → h c w = 0 := by
  rintro c ⟨x, y, z⟩ hle
  change x ≤ x0 at hle
  apply hh.1
  intro hf
  apply hf
  constructor
  · intro hs
    have := hx _ hs
    dsimp only at this
    omega
  · intro hs
    have := hx _ hs
    have hc : c = 0 ∨ c = 1 ∨ c = 2 := (by decide : ∀ c : Fin 3, c = 0 ∨ c = 1 ∨ c = 2) c
    rcases hc with rfl | rfl | rfl <;> simp only [unit3, Prod.mk_sub_mk] at this <;> omega

/-! ### Flat solids -/

/-- A finite flat solid whose voxels are joined over faces: one class of faces. -/
theorem flat_faceClasses {K : Finset ZIdx} (hK : ∀ p, S p → p ∈ K) (hflat : ∀ x y z, ¬ (S (x, y, z) ∧ S (x, y, z + 1)))
    {p0 : ZIdx} (hp0 : S p0) (hcon : ∀ p, S p → Relation.ReflTransGen (fun a b => S a ∧ S b ∧ PointAdj a b) p0 p) : FaceClasses S 1 := by
  refine ⟨fun _ => (2, p0), fun h hh h0 => ?_⟩
  obtain ⟨x0, hx⟩ := exists_left hK
  obtain ⟨φ, hφ, hφ0⟩ := potential hh (even2_left hh hx)
  have hc := potential_const hh hφ
  have h0' := h0 0
  dsimp only at h0'
  rw [hφ, f2_add_eq_zero] at h0'
  -- one layer
  have hlayer : ∀ p, S p → p.2.2 = p0.2.2 := by
    intro p hp
    have := hcon p hp
    clear hp
    induction this with
    | refl => rfl
    | @tail b c _ hs ih =>
      rw [← ih]
      obtain ⟨hb, hc', hadj⟩ := hs
      obtain ⟨b1, b2, b3⟩ := b
      obtain ⟨c1, c2, c3⟩ := c
      simp only [PointAdj, Prod.mk.injEq] at hadj ⊢
      rcases hadj with ⟨⟨-, e⟩, -⟩ | ⟨-, e, -⟩ | ⟨rfl, rfl, rfl | rfl⟩
      · exact e.symm
      · exact e.symm
      · exact absurd ⟨hb, hc'⟩ (hflat _ _ _)
      · exact absurd ⟨hc', hb⟩ (hflat _ _ _)
  -- other layers
  have hother : ∀ (n : ℕ) x y z, x ≤ x0 + n → z ≠ p0.2.2 → φ (x, y, z) = 0 := by
    intro n
    induction n with
    | zero => intro x y z hle _; exact hφ0 _ (by simpa using hle)
    | succ n ih =>
      intro x y z hle hz
      have := hc 0 (x, y, z) (by
        simp only [unit3, Prod.mk_sub_mk, sub_zero]
        exact ⟨fun h => absurd (hlayer _ h) hz, fun h => absurd (hlayer _ h) hz⟩)
      rw [this]
      simp only [unit3, Prod.mk_sub_mk, sub_zero]
      exact ih _ _ _ (by push_cast at hle; omega) hz
  have hother' : ∀ x y z, z ≠ p0.2.2 → φ (x, y, z) = 0 := fun x y z hz => hother (x - x0).toNat x y z (by omega) hz
  have hin : ∀ p, S p → φ p = φ p0 := by
    intro p hp
    have := hcon p hp
    clear hp
    induction this with
    | refl => rfl
    | @tail b c _ hs ih =>
      rw [← ih]
      obtain ⟨hb, hc', hadj⟩ := hs
      rcases pointAdj_unit hadj with ⟨a, rfl⟩ | ⟨a, rfl⟩
      · have := hc a (b + unit3 a) (by rw [add_sub_cancel_right]; exact iff_of_true hc' hb)
        rwa [add_sub_cancel_right] at this
      · have := hc a (c + unit3 a) (by rw [add_sub_cancel_right]; exact iff_of_true hb hc')
        rw [add_sub_cancel_right] at this
        exact this.symm
  have hzero : ∀ p, φ p = 0 := by
    rintro ⟨x, y, z⟩
    by_cases hz : z = p0.2.2
    · by_cases hs : S (x, y, z)
      · rw [hin _ hs, h0']
        obtain ⟨a, b, c⟩ := p0
        simp only [unit3, Prod.mk_sub_mk]
        exact hother' _ _ _ (by simp)
      · have := hc 2 (x, y, z + 1) (by
          simp only [unit3, Prod.mk_sub_mk, sub_zero, add_sub_cancel_right]
          exact ⟨fun h => absurd (hlayer _ h) (by simp only; omega), fun h => absurd h hs⟩)
        simp only [unit3, Prod.mk_sub_mk, sub_zero, add_sub_cancel_right] at this
        rw [← this]
        exact hother' _ _ _ (by omega)
    · exact hother' x y z hz
  intro c w
  rw [hφ, hzero, hzero]
  rfl

/-! ### Solids without contacts -/

/-- The same value if of the same kind. -/
def sameIf (p q f g : Bool) : Bool := (p != q) || (f == g)

/-- No contacts among the eight voxels. -/
def cubeOk (p000 p001 p010 p011 p100 p101 p110 p111 : Bool) : Bool :=
  squareOk p000 p001 p010 p011 && squareOk p100 p101 p110 p111 && squareOk p000 p001 p100 p101 && squareOk p010 p011 p110 p111 &&
  squareOk p000 p010 p100 p110 && squareOk p001 p011 p101 p111 && pairOk p000 p111 p001 p010 p011 p100 p101 p110 &&
  pairOk p001 p110 p000 p011 p010 p101 p100 p111 && pairOk p010 p101 p011 p000 p001 p110 p111 p100 &&
  pairOk p011 p100 p010 p001 p000 p111 p110 p101

/-- Constant across the twelve sides between voxels of the same kind. -/
def sidesOk (p000 p001 p010 p011 p100 p101 p110 p111 f000 f001 f010 f011 f100 f101 f110 f111 : Bool) : Bool :=
  sameIf p001 p000 f001 f000 && sameIf p010 p000 f010 f000 && sameIf p011 p001 f011 f001 && sameIf p011 p010 f011 f010 &&
  sameIf p100 p000 f100 f000 && sameIf p101 p001 f101 f001 && sameIf p101 p100 f101 f100 && sameIf p110 p010 f110 f010 &&
  sameIf p110 p100 f110 f100 && sameIf p111 p011 f111 f011 && sameIf p111 p101 f111 f101 && sameIf p111 p110 f111 f110

/-- The value is `α` inside and `β` outside. -/
def valuesOk (α β p000 p001 p010 p011 p100 p101 p110 p111 f000 f001 f010 f011 f100 f101 f110 f111 : Bool) : Bool :=
  f000 == (if p000 then α else β) && f001 == (if p001 then α else β) && f010 == (if p010 then α else β) &&
  f011 == (if p011 then α else β) && f100 == (if p100 then α else β) && f101 == (if p101 then α else β) &&
  f110 == (if p110 then α else β) && f111 == (if p111 then α else β)

/-- Around a point without contacts, a function that is constant across sides between voxels of the same kind has one
value inside and one outside. -/
theorem const_local : ∀ p000 p001 p010 p011 p100 p101 p110 p111 : Bool, cubeOk p000 p001 p010 p011 p100 p101 p110 p111 = true →
    ∀ f000 f001 f010 f011 f100 f101 f110 f111 : Bool,
    sidesOk p000 p001 p010 p011 p100 p101 p110 p111 f000 f001 f010 f011 f100 f101 f110 f111 = true →
    ∃ α β : Bool, valuesOk α β p000 p001 p010 p011 p100 p101 p110 p111 f000 f001 f010 f011 f100 f101 f110 f111 = true := by
  decide +kernel

theorem cubeOk_of (hE : NoEdgeContact S) (hP : NoPointContact S) (v : ZIdx) : cubeOk (cfg S v false false false) (cfg S v false false true)
    (cfg S v false true false) (cfg S v false true true) (cfg S v true false false) (cfg S v true false true) (cfg S v true true false)
    (cfg S v true true true) = true := by
  obtain ⟨h1, h2, h3, h4, h5, h6, h7, h8, h9, h10⟩ := contacts_ok hE hP v
  simp only [cubeOk, h1, h2, h3, h4, h5, h6, h7, h8, h9, h10, Bool.and_self]

theorem sameIf_of {p q f g : Bool} (h : (p = true ↔ q = true) → f = g) : sameIf p q f g = true := by
  revert h; revert p q f g; decide

/-- One value inside and one outside, around each point. -/
theorem potential_local (hE : NoEdgeContact S) (hP : NoPointContact S) {φ : ZIdx → F2}
    (hc : ∀ c w, (S w ↔ S (w - unit3 c)) → φ w = φ (w - unit3 c)) (v : ZIdx) :
    ∃ α β : Bool, ∀ p, IsCorner v p → ((S p → decide (φ p = 0) = α) ∧ (¬ S p → decide (φ p = 0) = β)) := by
  have hx : ∀ b e, sameIf (cfg S v true b e) (cfg S v false b e) (decide (φ (around v true b e) = 0)) (decide (φ (around v false b e) = 0)) = true := by
    intro b e
    apply sameIf_of
    rw [cfg_iff, cfg_iff]
    intro h
    have e1 : around v false b e = around v true b e - unit3 0 := by
      obtain ⟨x, y, z⟩ := v
      simp [around, unit3]
    rw [e1] at h ⊢
    rw [← hc 0 _ h]
  have hy : ∀ a e, sameIf (cfg S v a true e) (cfg S v a false e) (decide (φ (around v a true e) = 0)) (decide (φ (around v a false e) = 0)) = true := by
    intro a e
    apply sameIf_of
    rw [cfg_iff, cfg_iff]
    intro h
    have e1 : around v a false e = around v a true e - unit3 1 := by
      obtain ⟨x, y, z⟩ := v
      simp [around, unit3]
    rw [e1] at h ⊢
    rw [← hc 1 _ h]
  have hz : ∀ a b, sameIf (cfg S v a b true) (cfg S v a b false) (decide (φ (around v a b true) = 0)) (decide (φ (around v a b false) = 0)) = true := by
    intro a b
    apply sameIf_of
    rw [cfg_iff, cfg_iff]
    intro h
    have e1 : around v a b false = around v a b true - unit3 2 := by
      obtain ⟨x, y, z⟩ := v
      simp [around, unit3]
    rw [e1] at h ⊢
    rw [← hc 2 _ h]
  obtain ⟨α, β, h⟩ := const_local _ _ _ _ _ _ _ _ (cubeOk_of hE hP v) (decide (φ (around v false false false) = 0))
    (decide (φ (around v false false true) = 0)) (decide (φ (around v false true false) = 0)) (decide (φ (around v false true true) = 0))
    (decide (φ (around v true false false) = 0)) (decide (φ (around v true false true) = 0)) (decide (φ (around v true true false) = 0))
    (decide (φ (around v true true true) = 0)) (by simp only [sidesOk, hx, hy, hz, Bool.and_self])
  refine ⟨α, β, fun p hp => ?_⟩
  simp only [valuesOk, Bool.and_eq_true, beq_iff_eq] at h
  have key : ∀ a b e, decide (φ (around v a b e) = 0) = if cfg S v a b e = true then α else β := by
    intro a b e
    obtain ⟨⟨⟨⟨⟨⟨⟨h1, h2⟩, h3⟩, h4⟩, h5⟩, h6⟩, h7⟩, h8⟩ := h
    cases a <;> cases b <;> cases e <;> assumption
  obtain ⟨a, b, e, rfl⟩ := isCorner_iff_around.1 hp
  constructor
  · intro hs
    rw [key, if_pos (cfg_iff.2 hs)]
  · intro hs
    rw [key, if_neg (fun h => hs (cfg_iff.1 h))]

/-- The face has the corner. -/
def FaceAt (v : ZIdx) (c : Fin 3) (w : ZIdx) : Prop := IsCorner v w ∧ IsCorner v (w - unit3 c)

/-- All faces at a point have the same value. -/
theorem face_same (hE : NoEdgeContact S) (hP : NoPointContact S) {h : Fin 3 → ZIdx → F2} (hh : Even2 S h) {φ : ZIdx → F2}
    (hφ : ∀ c w, h c w = φ w + φ (w - unit3 c)) {v : ZIdx} {c c' : Fin 3} {w w' : ZIdx} (h1 : FaceOn S (c, w)) (h2 : FaceOn S (c', w'))
    (a1 : FaceAt v c w) (a2 : FaceAt v c' w') (h0 : h c w = 0) : h c' w' = 0 := by
  obtain ⟨α, β, hl⟩ := potential_local hE hP (potential_const hh hφ) v
  have two : ∀ a b : F2, a = b ↔ (a = 0 ↔ b = 0) := by decide
  have val : ∀ {c w}, FaceOn S (c, w) → FaceAt v c w → (h c w = 0 ↔ α = β) := by
    intro c w hf ha
    rw [hφ, f2_add_eq_zero, two]
    have l1 := hl _ ha.1
    have l2 := hl _ ha.2
    by_cases hs : S w
    · have hs' : ¬ S (w - unit3 c) := fun h' => hf (iff_of_true hs h')
      rw [← l1.1 hs, ← l2.2 hs']
      simp
    · have hs' : S (w - unit3 c) := by
        by_contra h'
        exact hf (iff_of_false hs h')
      rw [← l1.2 hs, ← l2.1 hs']
      simp only [decide_eq_decide]
      exact Iff.comm
  exact (val h2 a2).2 ((val h1 a1).1 h0)

/-- A face at each edge of the surface. -/
theorem edge_face {a : Fin 3} {v : ZIdx} (h : EdgeOn S (a, v)) :
    ∃ c w, FaceOn S (c, w) ∧ FaceAt v c w ∧ FaceAt (v + unit3 a) c w := by
  have geo : ∀ (a : Fin 3) (v : ZIdx), (FaceAt v (a + 2) v ∧ FaceAt (v + unit3 a) (a + 2) v) ∧
      (FaceAt v (a + 2) (v - unit3 (a + 1)) ∧ FaceAt (v + unit3 a) (a + 2) (v - unit3 (a + 1))) ∧
      (FaceAt v (a + 1) v ∧ FaceAt (v + unit3 a) (a + 1) v) ∧
      (FaceAt v (a + 1) (v - unit3 (a + 2)) ∧ FaceAt (v + unit3 a) (a + 1) (v - unit3 (a + 2))) := by
    rintro a ⟨x, y, z⟩
    have e12 : (1 : Fin 3) + 2 = 0 := rfl
    have e11 : (1 : Fin 3) + 1 = 2 := rfl
    have e22 : (2 : Fin 3) + 2 = 1 := rfl
    have e21 : (2 : Fin 3) + 1 = 0 := rfl
    have e02 : (0 : Fin 3) + 2 = 2 := rfl
    have e01 : (0 : Fin 3) + 1 = 1 := rfl
    have hc : a = 0 ∨ a = 1 ∨ a = 2 := by revert a; decide
    rcases hc with rfl | rfl | rfl <;> simp [e12, e11, e22, e21, e02, e01, FaceAt, IsCorner, unit3]
  obtain ⟨g1, g2, g3, g4⟩ := geo a v
  rcases h with h | h | h | h
  · exact ⟨_, _, h, g1⟩
  · exact ⟨_, _, h, g2⟩
  · exact ⟨_, _, h, g3⟩
  · exact ⟨_, _, h, g4⟩

/-- A face at each point of the surface. -/
theorem point_face {v : ZIdx} (h : SurfacePoint S v) : ∃ c w, FaceOn S (c, w) ∧ FaceAt v c w := by
  by_contra hn
  push Not at hn
  have hx : ∀ b e, S (around v true b e) ↔ S (around v false b e) := by
    intro b e
    by_contra hf
    refine hn _ _ ((faceOn0 v b e).2 (by rw [bne_bool_iff, cfg_iff, cfg_iff]; exact hf)) ⟨isCorner_iff_around.2 ⟨_, _, _, rfl⟩, isCorner_iff_around.2 ⟨false, b, e, ?_⟩⟩
    simp [around, unit3, Prod.ext_iff]
  have hy : ∀ a e, S (around v a true e) ↔ S (around v a false e) := by
    intro b e
    by_contra hf
    refine hn _ _ ((faceOn1 v b e).2 (by rw [bne_bool_iff, cfg_iff, cfg_iff]; exact hf)) ⟨isCorner_iff_around.2 ⟨_, _, _, rfl⟩, isCorner_iff_around.2 ⟨b, false, e, ?_⟩⟩
    simp [around, unit3, Prod.ext_iff]
  have hz : ∀ a b, S (around v a b true) ↔ S (around v a b false) := by
    intro b e
    by_contra hf
    refine hn _ _ ((faceOn2 v b e).2 (by rw [bne_bool_iff, cfg_iff, cfg_iff]; exact hf)) ⟨isCorner_iff_around.2 ⟨_, _, _, rfl⟩, isCorner_iff_around.2 ⟨b, e, false, ?_⟩⟩
    simp [around, unit3, Prod.ext_iff]
  have all : ∀ a b e, S (around v a b e) ↔ S (around v true true true) := by
    intro a b e
    cases a <;> cases b <;> cases e <;> simp only [← hx, ← hy, ← hz]
  obtain ⟨p, q, hp, hq, h1, h2⟩ := h
  obtain ⟨a, b, e, rfl⟩ := isCorner_iff_around.1 hp
  obtain ⟨a', b', e', rfl⟩ := isCorner_iff_around.1 hq
  exact h2 ((all _ _ _).2 ((all _ _ _).1 h1))

/-- Without contacts there are as many classes of faces as of points. -/
theorem contactFree_faceClasses {K : Finset ZIdx} (hK : ∀ p, S p → p ∈ K) (hE : NoEdgeContact S) (hP : NoPointContact S) {n : ℕ}
    (hn : IsClassCount (SurfacePoint S) (SurfaceJoined S) n) : FaceClasses S n := by
  obtain ⟨label, l1, l2, l3⟩ := hn
  have hrep : ∀ i : Fin n, ∃ v c w, SurfacePoint S v ∧ label v = i + 1 ∧ FaceOn S (c, w) ∧ FaceAt v c w := by
    intro i
    obtain ⟨v, h1, h2⟩ := l2 (i + 1) (by omega) (by omega)
    obtain ⟨c, w, h3, h4⟩ := point_face h1
    exact ⟨v, c, w, h1, h2, h3, h4⟩
  choose rv rc rw' hr1 hr2 hr3 hr4 using hrep
  refine ⟨fun i => (rc i, rw' i), fun h hh h0 => ?_⟩
  obtain ⟨x0, hx⟩ := exists_left hK
  obtain ⟨φ, hφ, -⟩ := potential hh (even2_left hh hx)
  have same := fun {v c c' w w'} => face_same hE hP hh hφ (v := v) (c := c) (c' := c') (w := w) (w' := w')
  have step : ∀ v v', SurfaceEdge S v v' → (∀ c w, FaceOn S (c, w) → FaceAt v c w → h c w = 0) →
      ∀ c w, FaceOn S (c, w) → FaceAt v' c w → h c w = 0 := by
    intro v v' he hv c w hf ha
    have hface : ∃ c w, FaceOn S (c, w) ∧ FaceAt v c w ∧ FaceAt v' c w := by
      rcases pointAdj_unit he.1 with ⟨a, rfl⟩ | ⟨a, rfl⟩
      · exact edge_face ((edgeOn_iff a v).2 he)
      · obtain ⟨c, w, q1, q2, q3⟩ := edge_face ((edgeOn_iff a v').2 (surfaceEdge_symm he))
        exact ⟨c, w, q1, q3, q2⟩
    obtain ⟨c1, w1, q1, q2, q3⟩ := hface
    exact same q1 hf q3 ha (hv _ _ q1 q2)
  have joined : ∀ v v', SurfaceJoined S v v' → (∀ c w, FaceOn S (c, w) → FaceAt v c w → h c w = 0) →
      ∀ c w, FaceOn S (c, w) → FaceAt v' c w → h c w = 0 := by
    intro v v' hj
    induction hj with
    | refl => exact id
    | tail _ hs ih => exact fun h => step _ _ hs (ih h)
  intro c w
  by_cases hf : FaceOn S (c, w)
  · have hp : SurfacePoint S w := by
      by_cases hs : S w
      · exact ⟨w, w - unit3 c, isCorner_self w, isCorner_unit w c, hs, fun h' => hf (iff_of_true hs h')⟩
      · refine ⟨w - unit3 c, w, isCorner_unit w c, isCorner_self w, ?_, hs⟩
        by_contra h'
        exact hf (iff_of_false hs h')
    obtain ⟨q1, q2⟩ := l1 w hp
    have hi : label w - 1 < n := by omega
    have e : label (rv ⟨label w - 1, hi⟩) = label w := by rw [hr2]; simp only; omega
    exact joined _ _ ((l3 _ _ (hr1 _) hp).1 e) (fun c' w' hf' ha' => same (hr3 _) hf' (hr4 _) ha' (h0 ⟨label w - 1, hi⟩)) c w hf
      ⟨isCorner_self w, isCorner_unit w c⟩
  · exact hh.1 c w hf

/-- A finite solid that is not empty has a surface. -/
theorem exists_surfacePoint {K : Finset ZIdx} (hK : ∀ p, S p → p ∈ K) (hne : ∃ p, S p) : ∃ v, SurfacePoint S v := by
  by_contra hn
  push Not at hn
  obtain ⟨x0, hx⟩ := exists_left hK
  have hl : ∀ q, S q → S (q - unit3 0) := by
    intro q hq
    by_contra h
    exact hn q ⟨q, q - unit3 0, isCorner_self q, isCorner_unit q 0, hq, h⟩
  obtain ⟨⟨x, y, z⟩, hp⟩ := hne
  have hall : ∀ n : ℕ, S (x - n, y, z) := by
    intro n
    induction n with
    | zero => simpa using hp
    | succ n ih =>
      have := hl _ ih
      simp only [unit3, Prod.mk_sub_mk, sub_zero] at this
      rw [show x - ((n + 1 : ℕ) : ℤ) = x - n - 1 by push_cast; ring]
      exact this
  have := hx _ (hall (x - x0).toNat)
  dsimp only at this
  omega

/-- A solid for which the number of holes does not come out negative: no contacts in edges or points only, or flat and
joined over faces. -/
def ShapeOk (S : ZIdx → Prop) : Prop :=
  (NoEdgeContact S ∧ NoPointContact S) ∨
  ((∀ x y z, ¬ (S (x, y, z) ∧ S (x, y, z + 1))) ∧
    ∃ p0, S p0 ∧ ∀ p, S p → Relation.ReflTransGen (fun a b => S a ∧ S b ∧ PointAdj a b) p0 p)

theorem shape_faceClasses {K : Finset ZIdx} (hK : ∀ p, S p → p ∈ K) (hs : ShapeOk S) {n : ℕ} (hn : IsClassCount (SurfacePoint S) (SurfaceJoined S) n)
    (h1 : 1 ≤ n) : ∃ m, m ≤ n ∧ FaceClasses S m := by
  rcases hs with ⟨hE, hP⟩ | ⟨hf, p0, hp0, hc⟩
  · exact ⟨n, le_rfl, contactFree_faceClasses hK hE hP hn⟩
  · exact ⟨1, h1, flat_faceClasses hK hf hp0 hc⟩

end

section
variable {k : ℕ} {g : ZIdx → ℤ}

/-- The result when the inserted vertices are the surface points. -/
theorem holesAndVoids_run {zp : ℤ} {order : List ZIdx → List ZIdx} (hord : ∀ l, (order l).Perm l) {surface : List ZIdx}
    (hs : ∀ p, p ∈ surface ↔ g p = k) (hne : ∃ p, g p = k) (hz : OffsetOk zp fun p => g p = k) :
    ∃ (n : ℕ) (holes : ℤ), holesAndVoidsWith zp order k surface g = mkHolesAndVoids holes (n - 1) ∧ 1 ≤ n ∧
      IsClassCount (SurfacePoint fun p => g p = k) (SurfaceJoined fun p => g p = k) n ∧
      (NoEdgeContact (fun p => g p = k) → NoPointContact (fun p => g p = k) →
        holes = 1 + (n - 1) - eulerChar fun p => g p = k) ∧ (ShapeOk (fun p => g p = k) → 0 ≤ holes) := by
  have hs' : ∀ p, p ∈ order surface ↔ g p = k := fun p => (hord surface).mem_iff.trans (hs p)
  have hv : ∀ v, v ∈ surfaceVerticesWith zp k g (order surface) [] ↔ SurfacePoint (fun p => g p = k) v := fun v => mem_verts_iff hz hs' v
  have hnd : (surfaceVerticesWith zp k g (order surface) []).Nodup := nodup_surfaceVertices (by simp)
  obtain ⟨n, hn1, label, l1, l2, l3⟩ := surfaceCount_closed (conn := connectivity k g) hord hnd connected_symm
    (fun v _ w hw => (hv w).2 (surfaceEdge_point ((connected_iff v w).1 hw)))
  unfold holesAndVoidsWith
  dsimp only
  rw [hn1]
  dsimp only [Run.bind]
  have hcount : IsClassCount (SurfacePoint fun p => g p = k) (SurfaceJoined fun p => g p = k) n := by
    refine ⟨label, fun v h => l1 v ((hv v).2 h), fun l a b => ?_, fun v w a b => ?_⟩
    · obtain ⟨v, h1, h2⟩ := l2 l a b
      exact ⟨v, (hv v).1 h1, h2⟩
    · rw [l3 v w ((hv v).2 a) ((hv w).2 b)]
      have : VStep (surfaceVerticesWith zp k g (order surface) []) (connectivity k g) = SurfaceEdge fun p => g p = k := by
        funext a b
        unfold VStep
        rw [connected_iff, hv]
        exact propext ⟨fun h => h.2, fun h => ⟨surfaceEdge_point (surfaceEdge_symm h), h⟩⟩
      unfold VReach SurfaceJoined
      rw [this]
  have hfin : ∀ p, g p = k → p ∈ surface.toFinset := fun p hp => List.mem_toFinset.2 ((hs p).2 hp)
  have hpos : 1 ≤ n := by
    obtain ⟨v, hv'⟩ := exists_surfacePoint hfin hne
    have := l1 v ((hv v).2 hv')
    omega
  have hnd' : (order (surfaceVerticesWith zp k g (order surface) [])).Nodup := (hord _).nodup_iff.2 hnd
  have hv' : ∀ v, v ∈ order (surfaceVerticesWith zp k g (order surface) []) ↔ SurfacePoint (fun p => g p = k) v :=
    fun v => (hord _).mem_iff.trans (hv v)
  have hK : ∀ v, SurfacePoint (fun p => g p = k) v → v ∈ (surface.flatMap cornerList).toFinset := by
    rintro v ⟨p, q, hp, -, hS, -⟩
    rw [List.mem_toFinset, List.mem_flatMap]
    exact ⟨p, (hs p).2 hS, mem_cornerList hp⟩
  have hK' : ∀ v a b e, cfg (fun p => g p = k) v a b e = true → v ∈ (surface.flatMap cornerList).toFinset := by
    intro v a b e h
    rw [cfg_iff] at h
    rw [List.mem_toFinset, List.mem_flatMap]
    exact ⟨_, (hs _).2 h, mem_cornerList (isCorner_iff_around.2 ⟨a, b, e, rfl⟩)⟩
  have h3 := countDegree_sum hnd' hv' hK (n := 3) (by omega)
  have h5 := countDegree_sum hnd' hv' hK (n := 5) (by omega)
  have h6 := countDegree_sum hnd' hv' hK (n := 6) (by omega)
  have hsum : (countDegree 3 (connectivity k g) (order (surfaceVerticesWith zp k g (order surface) [])) : ℤ)
      - countDegree 5 (connectivity k g) (order (surfaceVerticesWith zp k g (order surface) []))
      - 2 * countDegree 6 (connectivity k g) (order (surfaceVerticesWith zp k g (order surface) []))
      = ∑ v ∈ (surface.flatMap cornerList).toFinset, curvAt (fun p => g p = k) v := by
    rw [h3, h5, h6, Finset.mul_sum, ← Finset.sum_sub_distrib, ← Finset.sum_sub_distrib]
    apply Finset.sum_congr rfl
    intro v _
    rw [curvAt, ← count_eq]
    rfl
  refine ⟨n, _, congrArg (mkHolesAndVoids · _) rfl, hpos, hcount, fun hE hP => ?_, fun hshape => ?_⟩
  · have h8 := euler_sum (fun p => g p = k) hK'
    have : (countDegree 5 (connectivity k g) (order (surfaceVerticesWith zp k g (order surface) [])) : ℤ)
        + 2 * countDegree 6 (connectivity k g) (order (surfaceVerticesWith zp k g (order surface) []))
        - countDegree 3 (connectivity k g) (order (surfaceVerticesWith zp k g (order surface) []))
        = (- eulerChar fun p => g p = k) * 8 := by
      have e : ∑ v ∈ (surface.flatMap cornerList).toFinset, curvAt (fun p => g p = k) v = 8 * eulerChar fun p => g p = k := by
        rw [h8]
        exact Finset.sum_congr rfl fun v _ => curv_weight hE hP v
      linarith
    rw [this, Int.mul_tdiv_cancel _ (by omega)]
    ring
  · obtain ⟨m, hm, hfc⟩ := shape_faceClasses hfin hshape hcount hpos
    have hle := curv_sum_le hK' hcount hfc
    have hM : (-(n : ℤ)) * 8 ≤ (countDegree 5 (connectivity k g) (order (surfaceVerticesWith zp k g (order surface) [])) : ℤ)
        + 2 * countDegree 6 (connectivity k g) (order (surfaceVerticesWith zp k g (order surface) []))
        - countDegree 3 (connectivity k g) (order (surfaceVerticesWith zp k g (order surface) [])) := by
      have : (m : ℤ) ≤ n := by exact_mod_cast hm
      linarith
    have := Int.tdiv_le_tdiv (c := 8) (by omega) hM
    rw [Int.mul_tdiv_cancel _ (by omega)] at this
    linarith

/-- The constructor accepts numbers that are not negative. -/
theorem mkHolesAndVoids_done {h v : ℤ} (hh : 0 ≤ h) (hv : 0 ≤ v) : mkHolesAndVoids h v = .done { holes := h, voids := v } := by
  rw [mkHolesAndVoids, if_neg (not_lt.2 hh), if_neg (not_lt.2 hv)]

/-- With right vertices the only way to fail is a negative number of holes. -/
theorem holesAndVoids_spec {zp : ℤ} {order : List ZIdx → List ZIdx} (hord : ∀ l, (order l).Perm l) {surface : List ZIdx}
    (hs : ∀ p, p ∈ surface ↔ g p = k) (hne : ∃ p, g p = k) (hz : OffsetOk zp fun p => g p = k) :
    (holesAndVoidsWith zp order k surface g = .invalidArgument ∧ ¬ ShapeOk fun p => g p = k) ∨
    ∃ h : HolesAndVoids, holesAndVoidsWith zp order k surface g = .done h ∧ TopologyOf (fun p => g p = k) h.holes h.voids := by
  obtain ⟨n, holes, h1, h2, h3, h4, h5⟩ := holesAndVoids_run hord hs hne hz
  by_cases hneg : holes < 0
  · left
    refine ⟨by rw [h1, mkHolesAndVoids, if_pos hneg], fun hsh => absurd (h5 hsh) (not_le.2 hneg)⟩
  · right
    refine ⟨_, h1.trans (mkHolesAndVoids_done (not_lt.1 hneg) (by omega)), not_lt.1 hneg, by dsimp only; omega, ⟨n, rfl, h3⟩, fun hE hP => ?_⟩
    have := h4 hE hP
    dsimp only
    omega

end
end VGT
