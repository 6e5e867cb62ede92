import Verif.Lemmas.TopologyGeom
import Mathlib.Algebra.BigOperators.Ring.Finset
import Mathlib.Data.Set.Card

/-!
The count of vertex degrees and the Euler characteristic.
-/
set_option autoImplicit false

namespace VGT
open VGT.EDT VGT.Spec

/-- An edge between four voxels is exposed. -/
def xb (p q r s : Bool) : Bool := (p || q || r || s) && !(p && q && r && s)

/-- Degree of the vertex from the eight voxels. -/
def degOf (p000 p001 p010 p011 p100 p101 p110 p111 : Bool) : ℕ :=
  (xb p000 p010 p100 p110).toNat + (xb p001 p011 p101 p111).toNat + (xb p000 p001 p100 p101).toNat + (xb p010 p011 p110 p111).toNat +
    (xb p000 p001 p010 p011).toNat + (xb p100 p101 p110 p111).toNat

/-- Contribution of a vertex to `M3 - M5 - 2 M6`. -/
def curvOf (n : ℕ) : ℤ := (decide (n = 3)).toNat - (decide (n = 5)).toNat - 2 * (decide (n = 6)).toNat

/-- Contribution of a grid point to eight times the Euler characteristic. -/
def eulerWeight (p000 p001 p010 p011 p100 p101 p110 p111 : Bool) : ℤ :=
  8 * ((p000 || p001 || p010 || p011 || p100 || p101 || p110 || p111).toNat : ℤ)
  - 4 * (((p000 || p001 || p010 || p011).toNat : ℤ) + ((p100 || p101 || p110 || p111).toNat : ℤ)
    + ((p000 || p001 || p100 || p101).toNat : ℤ) + ((p010 || p011 || p110 || p111).toNat : ℤ)
    + ((p000 || p010 || p100 || p110).toNat : ℤ) + ((p001 || p011 || p101 || p111).toNat : ℤ))
  + 2 * (((p000 || p100).toNat : ℤ) + ((p001 || p101).toNat : ℤ) + ((p010 || p110).toNat : ℤ) + ((p011 || p111).toNat : ℤ)
    + ((p000 || p010).toNat : ℤ) + ((p001 || p011).toNat : ℤ) + ((p100 || p110).toNat : ℤ) + ((p101 || p111).toNat : ℤ)
    + ((p000 || p001).toNat : ℤ) + ((p010 || p011).toNat : ℤ) + ((p100 || p101).toNat : ℤ) + ((p110 || p111).toNat : ℤ))
  - ((p000.toNat : ℤ) + p001.toNat + p010.toNat + p011.toNat + p100.toNat + p101.toNat + p110.toNat + p111.toNat)

/-- Neither diagonal of a square of four voxels alone. -/
def squareOk (p00 p01 p10 p11 : Bool) : Bool := !(p00 && p11 && !p01 && !p10) && !(p01 && p10 && !p00 && !p11)

/-- Two opposite voxels are not the only ones. -/
def pairOk (p q a b c d e f : Bool) : Bool := !(p && q && !(a || b || c || d || e || f)) && !(!p && !q && (a && b && c && d && e && f))

theorem curv_eq_euler : ∀ p000 p001 p010 p011 p100 p101 p110 p111 : Bool,
    squareOk p000 p001 p010 p011 = true → squareOk p100 p101 p110 p111 = true →
    squareOk p000 p001 p100 p101 = true → squareOk p010 p011 p110 p111 = true →
    squareOk p000 p010 p100 p110 = true → squareOk p001 p011 p101 p111 = true →
    pairOk p000 p111 p001 p010 p011 p100 p101 p110 = true → pairOk p001 p110 p000 p011 p010 p101 p100 p111 = true →
    pairOk p010 p101 p011 p000 p001 p110 p111 p100 = true → pairOk p011 p100 p010 p001 p000 p111 p110 p101 = true →
    curvOf (degOf p000 p001 p010 p011 p100 p101 p110 p111) = eulerWeight p000 p001 p010 p011 p100 p101 p110 p111 := by
  decide +kernel

/-! ### Counting -/

open Classical in
/-- Membership of the voxel around a point. -/
noncomputable def cfg (S : ZIdx → Prop) (v : ZIdx) (a b e : Bool) : Bool := decide (S (around v a b e))

theorem cfg_iff {S : ZIdx → Prop} {v : ZIdx} {a b e : Bool} : cfg S v a b e = true ↔ S (around v a b e) := by
  simp [cfg]

/-- A count as a sum over a finite set that contains everything counted. -/
theorem ncard_sum {P : ZIdx → Prop} {f : ZIdx → Bool} {K : Finset ZIdx} (hP : ∀ v, P v ↔ f v = true) (hK : ∀ v, f v = true → v ∈ K) :
    (Set.ncard {v | P v} : ℤ) = ∑ v ∈ K, ((f v).toNat : ℤ) := by
  have h : {v | P v} = ((K.filter fun v => f v = true : Finset ZIdx) : Set ZIdx) := by
    ext v
    simp only [Set.mem_ofPred_eq, Finset.coe_filter, hP]
    exact ⟨fun h => ⟨hK v h, h⟩, fun h => h.2⟩
  rw [h, Set.ncard_coe_finset, Finset.card_filter]
  push_cast
  apply Finset.sum_congr rfl
  intro v _
  cases f v <;> simp

/-- Counting is invariant under shifts. -/
theorem ncard_shift {P Q : ZIdx → Prop} (dx dy dz : ℤ) (h : ∀ v, P v ↔ Q (v.1 + dx, v.2.1 + dy, v.2.2 + dz)) :
    Set.ncard {v | P v} = Set.ncard {v | Q v} := by
  have hinj : Function.Injective fun v : ZIdx => ((v.1 + dx, v.2.1 + dy, v.2.2 + dz) : ZIdx) := by
    rintro ⟨x, y, z⟩ ⟨x', y', z'⟩ e
    simp only [Prod.mk.injEq, add_left_inj] at e ⊢
    exact e
  rw [← Set.ncard_image_of_injective _ hinj]
  congr 1
  ext ⟨x, y, z⟩
  simp only [Set.mem_image, Set.mem_ofPred_eq]
  constructor
  · rintro ⟨v, hv, e⟩
    rw [← e]
    exact (h v).1 hv
  · intro hq
    refine ⟨(x - dx, y - dy, z - dz), (h _).2 (by simpa using hq), by simp⟩

/-- The amount by which the index has to be shifted for another corner. -/
def sh (a : Bool) : ℤ := if a then 0 else 1

theorem sub_sh (t : ℤ) (a : Bool) : t + sh a - (if a then 0 else 1) = t := by cases a <;> simp [sh]

section
variable (S : ZIdx → Prop)

/-- Edges in direction `x`, at their lower (`true`) or upper end. -/
theorem edgeX (a : Bool) : Set.ncard {v : ZIdx | ∃ p, S p ∧ v.1 = p.1 ∧ (v.2.1 = p.2.1 ∨ v.2.1 = p.2.1 + 1) ∧ (v.2.2 = p.2.2 ∨ v.2.2 = p.2.2 + 1)}
    = Set.ncard {v | ∃ b e, S (around v a b e)} := by
  apply ncard_shift (sh a) 0 0
  rintro ⟨x, y, z⟩
  simp only [around, sub_sh, add_zero]
  have flag : ∀ t s : ℤ, (t = s ∨ t = s + 1) ↔ ∃ a : Bool, s = t - (if a then 0 else 1) := by
    intro t s; rw [Bool.exists_bool]; simp only [Bool.false_eq_true, if_false, if_true]; omega
  simp only [flag]
  constructor
  · rintro ⟨⟨p, q, r⟩, hp, h1, ⟨b, hb⟩, ⟨e, he⟩⟩
    dsimp only at h1 hb he
    exact ⟨b, e, by rw [← hb, ← he, h1]; exact hp⟩
  · rintro ⟨b, e, h⟩
    exact ⟨_, h, rfl, ⟨b, rfl⟩, ⟨e, rfl⟩⟩

theorem edgeY (b : Bool) : Set.ncard {v : ZIdx | ∃ p, S p ∧ (v.1 = p.1 ∨ v.1 = p.1 + 1) ∧ v.2.1 = p.2.1 ∧ (v.2.2 = p.2.2 ∨ v.2.2 = p.2.2 + 1)}
    = Set.ncard {v | ∃ a e, S (around v a b e)} := by
  apply ncard_shift 0 (sh b) 0
  rintro ⟨x, y, z⟩
  simp only [around, sub_sh, add_zero]
  have flag : ∀ t s : ℤ, (t = s ∨ t = s + 1) ↔ ∃ a : Bool, s = t - (if a then 0 else 1) := by
    intro t s; rw [Bool.exists_bool]; simp only [Bool.false_eq_true, if_false, if_true]; omega
  simp only [flag]
  constructor
  · rintro ⟨⟨p, q, r⟩, hp, ⟨a, ha⟩, h1, ⟨e, he⟩⟩
    dsimp only at h1 ha he
    exact ⟨a, e, by rw [← ha, ← he, h1]; exact hp⟩
  · rintro ⟨a, e, h⟩
    exact ⟨_, h, ⟨a, rfl⟩, rfl, ⟨e, rfl⟩⟩

theorem edgeZ (e : Bool) : Set.ncard {v : ZIdx | ∃ p, S p ∧ (v.1 = p.1 ∨ v.1 = p.1 + 1) ∧ (v.2.1 = p.2.1 ∨ v.2.1 = p.2.1 + 1) ∧ v.2.2 = p.2.2}
    = Set.ncard {v | ∃ a b, S (around v a b e)} := by
  apply ncard_shift 0 0 (sh e)
  rintro ⟨x, y, z⟩
  simp only [around, sub_sh, add_zero]
  have flag : ∀ t s : ℤ, (t = s ∨ t = s + 1) ↔ ∃ a : Bool, s = t - (if a then 0 else 1) := by
    intro t s; rw [Bool.exists_bool]; simp only [Bool.false_eq_true, if_false, if_true]; omega
  simp only [flag]
  constructor
  · rintro ⟨⟨p, q, r⟩, hp, ⟨a, ha⟩, ⟨b, hb⟩, h1⟩
    dsimp only at h1 ha hb
    exact ⟨a, b, by rw [← ha, ← hb, h1]; exact hp⟩
  · rintro ⟨a, b, h⟩
    exact ⟨_, h, ⟨a, rfl⟩, ⟨b, rfl⟩, rfl⟩

theorem faceX (b e : Bool) : Set.ncard {v : ZIdx | ∃ p, S p ∧ (v.1 = p.1 ∨ v.1 = p.1 + 1) ∧ v.2 = p.2}
    = Set.ncard {v | ∃ a, S (around v a b e)} := by
  apply ncard_shift 0 (sh b) (sh e)
  rintro ⟨x, y, z⟩
  simp only [around, sub_sh, add_zero]
  have flag : ∀ t s : ℤ, (t = s ∨ t = s + 1) ↔ ∃ a : Bool, s = t - (if a then 0 else 1) := by
    intro t s; rw [Bool.exists_bool]; simp only [Bool.false_eq_true, if_false, if_true]; omega
  simp only [flag]
  constructor
  · rintro ⟨⟨p, q⟩, hp, ⟨a, ha⟩, h1⟩
    dsimp only at h1 ha
    exact ⟨a, by rw [← ha, h1]; exact hp⟩
  · rintro ⟨a, h⟩
    exact ⟨_, h, ⟨a, rfl⟩, rfl⟩

theorem faceY (a e : Bool) : Set.ncard {v : ZIdx | ∃ p, S p ∧ v.1 = p.1 ∧ (v.2.1 = p.2.1 ∨ v.2.1 = p.2.1 + 1) ∧ v.2.2 = p.2.2}
    = Set.ncard {v | ∃ b, S (around v a b e)} := by
  apply ncard_shift (sh a) 0 (sh e)
  rintro ⟨x, y, z⟩
  simp only [around, sub_sh, add_zero]
  have flag : ∀ t s : ℤ, (t = s ∨ t = s + 1) ↔ ∃ a : Bool, s = t - (if a then 0 else 1) := by
    intro t s; rw [Bool.exists_bool]; simp only [Bool.false_eq_true, if_false, if_true]; omega
  simp only [flag]
  constructor
  · rintro ⟨⟨p, q, r⟩, hp, h1, ⟨b, hb⟩, h2⟩
    dsimp only at h1 h2 hb
    exact ⟨b, by rw [← hb, h1, h2]; exact hp⟩
  · rintro ⟨b, h⟩
    exact ⟨_, h, rfl, ⟨b, rfl⟩, rfl⟩

theorem faceZ (a b : Bool) : Set.ncard {v : ZIdx | ∃ p, S p ∧ v.1 = p.1 ∧ v.2.1 = p.2.1 ∧ (v.2.2 = p.2.2 ∨ v.2.2 = p.2.2 + 1)}
    = Set.ncard {v | ∃ e, S (around v a b e)} := by
  apply ncard_shift (sh a) (sh b) 0
  rintro ⟨x, y, z⟩
  simp only [around, sub_sh, add_zero]
  have flag : ∀ t s : ℤ, (t = s ∨ t = s + 1) ↔ ∃ a : Bool, s = t - (if a then 0 else 1) := by
    intro t s; rw [Bool.exists_bool]; simp only [Bool.false_eq_true, if_false, if_true]; omega
  simp only [flag]
  constructor
  · rintro ⟨⟨p, q, r⟩, hp, h1, h2, ⟨e, he⟩⟩
    dsimp only at h1 h2 he
    exact ⟨e, by rw [← he, h1, h2]; exact hp⟩
  · rintro ⟨e, h⟩
    exact ⟨_, h, rfl, rfl, ⟨e, rfl⟩⟩

theorem voxelCount (a b e : Bool) : Set.ncard {p | S p} = Set.ncard {v | S (around v a b e)} := by
  apply ncard_shift (sh a) (sh b) (sh e)
  rintro ⟨x, y, z⟩
  simp only [around, sub_sh]

/-- Eight times the Euler characteristic as a sum over the corners. -/
theorem euler_sum {K : Finset ZIdx} (hK : ∀ v a b e, cfg S v a b e = true → v ∈ K) :
    8 * eulerChar S = ∑ v ∈ K, eulerWeight (cfg S v false false false) (cfg S v false false true) (cfg S v false true false)
      (cfg S v false true true) (cfg S v true false false) (cfg S v true false true) (cfg S v true true false)
      (cfg S v true true true) := by
  have hV : (Set.ncard {v | ∃ p, S p ∧ IsCorner v p} : ℤ) = ∑ v ∈ K, (((cfg S v false false false) || (cfg S v false false true) || (cfg S v false true false) ||
      (cfg S v false true true) || (cfg S v true false false) || (cfg S v true false true) || (cfg S v true true false) ||
      (cfg S v true true true)).toNat : ℤ) := by
    apply ncard_sum
    · intro v
      simp only [Bool.or_eq_true, cfg_iff]
      have : (∃ p, S p ∧ IsCorner v p) ↔ ∃ a b e, S (around v a b e) := by
        constructor
        · rintro ⟨p, hp, hc⟩
          obtain ⟨a, b, e, rfl⟩ := isCorner_iff_around.1 hc
          exact ⟨a, b, e, hp⟩
        · rintro ⟨a, b, e, h⟩
          exact ⟨_, h, isCorner_iff_around.2 ⟨a, b, e, rfl⟩⟩
      rw [this]
      simp only [Bool.exists_bool, or_assoc]
    · intro v h
      simp only [Bool.or_eq_true] at h
      rcases h with ((((((h | h) | h) | h) | h) | h) | h) | h <;> exact hK v _ _ _ h
  have hEX : ∀ a, (Set.ncard {v | ∃ b e, S (around v a b e)} : ℤ) = ∑ v ∈ K, ((cfg S v a false false || cfg S v a false true || cfg S v a true false || cfg S v a true true).toNat : ℤ) := by
    intro a
    apply ncard_sum
    · intro v
      simp only [Bool.or_eq_true, cfg_iff, Bool.exists_bool, or_assoc]
    · intro v h
      simp only [Bool.or_eq_true] at h
      rcases h with ((h | h) | h) | h <;> exact hK v _ _ _ h
  have hEY : ∀ b, (Set.ncard {v | ∃ a e, S (around v a b e)} : ℤ) = ∑ v ∈ K, ((cfg S v false b false || cfg S v false b true || cfg S v true b false || cfg S v true b true).toNat : ℤ) := by
    intro a
    apply ncard_sum
    · intro v
      simp only [Bool.or_eq_true, cfg_iff, Bool.exists_bool, or_assoc]
    · intro v h
      simp only [Bool.or_eq_true] at h
      rcases h with ((h | h) | h) | h <;> exact hK v _ _ _ h
  have hEZ : ∀ e, (Set.ncard {v | ∃ a b, S (around v a b e)} : ℤ) = ∑ v ∈ K, ((cfg S v false false e || cfg S v false true e || cfg S v true false e || cfg S v true true e).toNat : ℤ) := by
    intro a
    apply ncard_sum
    · intro v
      simp only [Bool.or_eq_true, cfg_iff, Bool.exists_bool, or_assoc]
    · intro v h
      simp only [Bool.or_eq_true] at h
      rcases h with ((h | h) | h) | h <;> exact hK v _ _ _ h
  have hFX : ∀ b e, (Set.ncard {v | ∃ a, S (around v a b e)} : ℤ) = ∑ v ∈ K, ((cfg S v false b e || cfg S v true b e).toNat : ℤ) := by
    intro b e
    apply ncard_sum
    · intro v
      simp only [Bool.or_eq_true, cfg_iff, Bool.exists_bool]
    · intro v h
      simp only [Bool.or_eq_true] at h
      rcases h with h | h <;> exact hK v _ _ _ h
  have hFY : ∀ a e, (Set.ncard {v | ∃ b, S (around v a b e)} : ℤ) = ∑ v ∈ K, ((cfg S v a false e || cfg S v a true e).toNat : ℤ) := by
    intro b e
    apply ncard_sum
    · intro v
      simp only [Bool.or_eq_true, cfg_iff, Bool.exists_bool]
    · intro v h
      simp only [Bool.or_eq_true] at h
      rcases h with h | h <;> exact hK v _ _ _ h
  have hFZ : ∀ a b, (Set.ncard {v | ∃ e, S (around v a b e)} : ℤ) = ∑ v ∈ K, ((cfg S v a b false || cfg S v a b true).toNat : ℤ) := by
    intro b e
    apply ncard_sum
    · intro v
      simp only [Bool.or_eq_true, cfg_iff, Bool.exists_bool]
    · intro v h
      simp only [Bool.or_eq_true] at h
      rcases h with h | h <;> exact hK v _ _ _ h
  have hC : ∀ a b e, (Set.ncard {v | S (around v a b e)} : ℤ) = ∑ v ∈ K, ((cfg S v a b e).toNat : ℤ) := by
    intro a b e
    apply ncard_sum
    · intro v
      simp only [cfg_iff]
    · intro v h
      exact hK v _ _ _ h
  simp only [eulerWeight, Finset.sum_add_distrib, Finset.sum_sub_distrib, ← Finset.mul_sum]
  rw [← hV]
  simp only [← hEX, ← hEY, ← hEZ, ← hFX, ← hFY, ← hFZ, ← hC, ← edgeX, ← edgeY, ← edgeZ, ← faceX, ← faceY, ← faceZ, ← voxelCount]
  unfold eulerChar
  ring

end
end VGT
