import Verif.Lemmas.TopologyCount
import Mathlib.LinearAlgebra.Dual.Lemmas
import Mathlib.LinearAlgebra.FiniteDimensional.Lemmas
import Mathlib.LinearAlgebra.Dimension.Constructions
import Mathlib.LinearAlgebra.Pi
import Mathlib.Algebra.Field.ZMod
import Mathlib.Tactic.LinearCombination
import Mathlib.Tactic.FinCases

/-!
An upper bound for the Euler characteristic of the surface of a solid, by linear algebra over the field with two
elements: points minus edges plus faces is at most the number of classes of points plus the number of classes of faces.
-/
set_option autoImplicit false
set_option linter.unusedSectionVars false
set_option linter.unusedSimpArgs false

namespace VGT
open VGT.EDT VGT.Spec

/-! ### Linear algebra -/

/-- Two maps in a row with composition zero. -/
theorem complex_le {F A B C : Type} [Field F] [AddCommGroup A] [Module F A] [AddCommGroup B] [Module F B] [AddCommGroup C] [Module F C]
    [FiniteDimensional F A] [FiniteDimensional F B] [FiniteDimensional F C] (d0 : A →ₗ[F] B) (d1 : B →ₗ[F] C)
    (h : ∀ a, d1 (d0 a) = 0) {n m : ℕ} (hn : Module.finrank F (LinearMap.ker d0) ≤ n)
    (hm : Module.finrank F (LinearMap.range d1).dualAnnihilator ≤ m) :
    Module.finrank F A + Module.finrank F C ≤ Module.finrank F B + n + m := by
  have h0 := LinearMap.finrank_range_add_finrank_ker d0
  have h1 := LinearMap.finrank_range_add_finrank_ker d1
  have h2 := Subspace.finrank_add_finrank_dualAnnihilator_eq (LinearMap.range d1)
  have h3 : Module.finrank F (LinearMap.range d0) ≤ Module.finrank F (LinearMap.ker d1) := by
    apply Submodule.finrank_mono
    rintro _ ⟨a, rfl⟩
    exact h a
  omega

/-- A subspace on which finitely many values determine everything. -/
theorem finrank_le_of_reps {F A : Type} [Field F] [AddCommGroup A] [Module F A] (W : Submodule F A) {n : ℕ} (L : A →ₗ[F] (Fin n → F))
    (h : ∀ a ∈ W, L a = 0 → a = 0) : Module.finrank F W ≤ n := by
  have hinj : Function.Injective (L.comp W.subtype) := by
    rw [← LinearMap.ker_eq_bot, LinearMap.ker_eq_bot']
    rintro ⟨a, ha⟩ e
    exact Subtype.ext (h a ha e)
  have := LinearMap.finrank_le_finrank_of_injective hinj
  simpa using this

/-! ### Faces and edges -/

/-- The three directions. -/
def unit3 : Fin 3 → ZIdx
  | 0 => (1, 0, 0)
  | 1 => (0, 1, 0)
  | 2 => (0, 0, 1)

/-- The face with lowest corner `w` orthogonal to the direction separates a voxel inside from one outside. -/
def FaceOn (S : ZIdx → Prop) (f : Fin 3 × ZIdx) : Prop := ¬ (S f.2 ↔ S (f.2 - unit3 f.1))

/-- One of the four faces at the edge from `v` in the direction belongs to the surface. -/
def EdgeOn (S : ZIdx → Prop) (e : Fin 3 × ZIdx) : Prop :=
  FaceOn S (e.1 + 2, e.2) ∨ FaceOn S (e.1 + 2, e.2 - unit3 (e.1 + 1)) ∨ FaceOn S (e.1 + 1, e.2) ∨ FaceOn S (e.1 + 1, e.2 - unit3 (e.1 + 2))

theorem fin3_succ2 (c : Fin 3) : c + 1 + 2 = c := by revert c; decide
theorem fin3_succ1 (c : Fin 3) : c + 1 + 1 = c + 2 := by revert c; decide
theorem fin3_2succ (c : Fin 3) : c + 2 + 1 = c := by revert c; decide
theorem fin3_22 (c : Fin 3) : c + 2 + 2 = c + 1 := by revert c; decide

section
variable {S : ZIdx → Prop}

theorem edge1 {c : Fin 3} {w : ZIdx} (h : FaceOn S (c, w)) : EdgeOn S (c + 1, w) := by
  left; dsimp only; rw [fin3_succ2]; exact h

theorem edge2 {c : Fin 3} {w : ZIdx} (h : FaceOn S (c, w)) : EdgeOn S (c + 1, w + unit3 (c + 2)) := by
  right; left; dsimp only; rw [fin3_succ2, fin3_succ1, add_sub_cancel_right]; exact h

theorem edge3 {c : Fin 3} {w : ZIdx} (h : FaceOn S (c, w)) : EdgeOn S (c + 2, w) := by
  right; right; left; dsimp only; rw [fin3_2succ]; exact h

theorem edge4 {c : Fin 3} {w : ZIdx} (h : FaceOn S (c, w)) : EdgeOn S (c + 2, w + unit3 (c + 1)) := by
  right; right; right; dsimp only; rw [fin3_2succ, fin3_22, add_sub_cancel_right]; exact h

theorem isCorner_unit (v : ZIdx) (a : Fin 3) : IsCorner v (v - unit3 a) := by
  obtain ⟨x, y, z⟩ := v
  fin_cases a <;> simp [unit3, IsCorner]

theorem isCorner_self (v : ZIdx) : IsCorner v v := ⟨Or.inl rfl, Or.inl rfl, Or.inl rfl⟩

/-- An edge of the surface in the sense of the specification. -/
theorem edgeOn_iff (a : Fin 3) (v : ZIdx) : EdgeOn S (a, v) ↔ SurfaceEdge S v (v + unit3 a) := by
  obtain ⟨x, y, z⟩ := v
  have aux : ∀ A B C D : Prop, (¬ (A ↔ B) ∨ ¬ (C ↔ D) ∨ ¬ (A ↔ C) ∨ ¬ (B ↔ D)) ↔ (A ∨ B ∨ C ∨ D) ∧ (¬ A ∨ ¬ B ∨ ¬ C ∨ ¬ D) := by
    intro A B C D; tauto
  unfold SurfaceEdge
  have e12 : (1 : Fin 3) + 2 = 0 := rfl
  have e11 : (1 : Fin 3) + 1 = 2 := rfl
  have e22 : (2 : Fin 3) + 2 = 1 := rfl
  have e21 : (2 : Fin 3) + 1 = 0 := rfl
  have e02 : (0 : Fin 3) + 2 = 2 := rfl
  have e01 : (0 : Fin 3) + 1 = 1 := rfl
  have hc : a = 0 ∨ a = 1 ∨ a = 2 := by revert a; decide
  rcases hc with rfl | rfl | rfl
  · have hadj : PointAdj (x, y, z) ((x, y, z) + unit3 0) := by simp [PointAdj, unit3]
    have := edge_four (S := S) (v := (x, y, z)) (w := (x, y, z) + unit3 0) (A := (x, y, z)) (B := (x, y, z - 1)) (C := (x, y - 1, z)) (D := (x, y - 1, z - 1)) (by
      rintro ⟨p, q, r⟩
      simp only [IsCorner, unit3, Prod.mk_add_mk, Prod.mk.injEq]
      omega)
    rw [this, ← aux, and_iff_right hadj]
    simp only [EdgeOn, FaceOn, e12, e11, e22, e21, e02, e01, unit3, Prod.mk_sub_mk, sub_zero]
  · have hadj : PointAdj (x, y, z) ((x, y, z) + unit3 1) := by simp [PointAdj, unit3]
    have := edge_four (S := S) (v := (x, y, z)) (w := (x, y, z) + unit3 1) (A := (x, y, z)) (B := (x - 1, y, z)) (C := (x, y, z - 1)) (D := (x - 1, y, z - 1)) (by
      rintro ⟨p, q, r⟩
      simp only [IsCorner, unit3, Prod.mk_add_mk, Prod.mk.injEq]
      omega)
    rw [this, ← aux, and_iff_right hadj]
    simp only [EdgeOn, FaceOn, e12, e11, e22, e21, e02, e01, unit3, Prod.mk_sub_mk, sub_zero]
  · have hadj : PointAdj (x, y, z) ((x, y, z) + unit3 2) := by simp [PointAdj, unit3]
    have := edge_four (S := S) (v := (x, y, z)) (w := (x, y, z) + unit3 2) (A := (x, y, z)) (B := (x, y - 1, z)) (C := (x - 1, y, z)) (D := (x - 1, y - 1, z)) (by
      rintro ⟨p, q, r⟩
      simp only [IsCorner, unit3, Prod.mk_add_mk, Prod.mk.injEq]
      omega)
    rw [this, ← aux, and_iff_right hadj]
    simp only [EdgeOn, FaceOn, e12, e11, e22, e21, e02, e01, unit3, Prod.mk_sub_mk, sub_zero]

/-- Points at distance one. -/
theorem pointAdj_unit {v w : ZIdx} (h : PointAdj v w) : (∃ a, w = v + unit3 a) ∨ ∃ a, v = w + unit3 a := by
  obtain ⟨x, y, z⟩ := v
  obtain ⟨x', y', z'⟩ := w
  simp only [PointAdj, Prod.mk.injEq] at h
  rcases h with ⟨⟨rfl, rfl⟩, rfl | rfl⟩ | ⟨rfl, rfl, rfl | rfl⟩ | ⟨rfl, rfl, rfl | rfl⟩
  · exact Or.inl ⟨0, by simp [unit3]⟩
  · exact Or.inr ⟨0, by simp [unit3]⟩
  · exact Or.inl ⟨1, by simp [unit3]⟩
  · exact Or.inr ⟨1, by simp [unit3]⟩
  · exact Or.inl ⟨2, by simp [unit3]⟩
  · exact Or.inr ⟨2, by simp [unit3]⟩

/-! ### Cochains -/

abbrev F2 := ZMod 2

open Classical in
/-- Extension by zero. -/
noncomputable def extZ {α : Type} (T : Finset α) : (T → F2) →ₗ[F2] (α → F2) where
  toFun k x := if h : x ∈ T then k ⟨x, h⟩ else 0
  map_add' a b := by funext x; by_cases h : x ∈ T <;> simp [h]
  map_smul' a b := by funext x; by_cases h : x ∈ T <;> simp [h]

theorem extZ_mem {α : Type} {T : Finset α} (k : T → F2) {x : α} (h : x ∈ T) : extZ T k x = k ⟨x, h⟩ := by simp [extZ, h]

/-- Difference along edges. -/
noncomputable def d0 (V : Finset ZIdx) (E : Finset (Fin 3 × ZIdx)) : (V → F2) →ₗ[F2] (E → F2) where
  toFun g e := extZ V g e.1.2 + extZ V g (e.1.2 + unit3 e.1.1)
  map_add' a b := by funext e; simp only [map_add, Pi.add_apply]; ring
  map_smul' a b := by funext e; simp only [map_smul, Pi.smul_apply, RingHom.id_apply, smul_add]

/-- Sum around faces. -/
noncomputable def d1 (E F : Finset (Fin 3 × ZIdx)) : (E → F2) →ₗ[F2] (F → F2) where
  toFun k f := extZ E k (f.1.1 + 1, f.1.2) + extZ E k (f.1.1 + 1, f.1.2 + unit3 (f.1.1 + 2)) + extZ E k (f.1.1 + 2, f.1.2) +
    extZ E k (f.1.1 + 2, f.1.2 + unit3 (f.1.1 + 1))
  map_add' a b := by funext e; simp only [map_add, Pi.add_apply]; ring
  map_smul' a b := by funext e; simp only [map_smul, Pi.smul_apply, RingHom.id_apply, smul_add]

theorem d1_d0 {V : Finset ZIdx} {E F : Finset (Fin 3 × ZIdx)} (hE : ∀ e, e ∈ E ↔ EdgeOn S e) (hF : ∀ f, f ∈ F ↔ FaceOn S f) (g : V → F2) :
    d1 E F (d0 V E g) = 0 := by
  funext ⟨⟨c, w⟩, hf⟩
  have hf' := (hF _).1 hf
  change extZ E (d0 V E g) (c + 1, w) + extZ E (d0 V E g) (c + 1, w + unit3 (c + 2)) + extZ E (d0 V E g) (c + 2, w) +
    extZ E (d0 V E g) (c + 2, w + unit3 (c + 1)) = 0
  rw [extZ_mem _ ((hE _).2 (edge1 hf')), extZ_mem _ ((hE _).2 (edge2 hf')), extZ_mem _ ((hE _).2 (edge3 hf')), extZ_mem _ ((hE _).2 (edge4 hf'))]
  change (extZ V g w + extZ V g (w + unit3 (c + 1))) + (extZ V g (w + unit3 (c + 2)) + extZ V g (w + unit3 (c + 2) + unit3 (c + 1))) +
    (extZ V g w + extZ V g (w + unit3 (c + 2))) + (extZ V g (w + unit3 (c + 1)) + extZ V g (w + unit3 (c + 1) + unit3 (c + 2))) = 0
  rw [add_right_comm w (unit3 (c + 2))]
  have h2 : (2 : F2) = 0 := by decide
  linear_combination (extZ V g w + extZ V g (w + unit3 (c + 1)) + extZ V g (w + unit3 (c + 2)) + extZ V g (w + unit3 (c + 1) + unit3 (c + 2))) * h2

open Classical in
/-- Indicator of a face. -/
noncomputable def sgl (F : Finset (Fin 3 × ZIdx)) (f : Fin 3 × ZIdx) : F → F2 := fun f' => if f = f'.1 then 1 else 0

/-- The value of a functional on a face. -/
noncomputable def faceVal (F : Finset (Fin 3 × ZIdx)) (ψ : Module.Dual F2 (F → F2)) (f : Fin 3 × ZIdx) : F2 := ψ (sgl F f)

theorem sgl_off {F : Finset (Fin 3 × ZIdx)} {f : Fin 3 × ZIdx} (h : f ∉ F) : sgl F f = 0 := by
  funext f'
  have : f ≠ f'.1 := fun e => h (e ▸ f'.2)
  simp [sgl, this]

/-- A set of faces (given by its indicator) that has an even number of faces at each edge. -/
def Even2 (S : ZIdx → Prop) (h : Fin 3 → ZIdx → F2) : Prop :=
  (∀ c w, ¬ FaceOn S (c, w) → h c w = 0) ∧
  ∀ a v, h (a + 2) v + h (a + 2) (v - unit3 (a + 1)) + h (a + 1) v + h (a + 1) (v - unit3 (a + 2)) = 0

theorem d1_single {E F : Finset (Fin 3 × ZIdx)} {a : Fin 3} {v : ZIdx} (he : (a, v) ∈ E) :
    d1 E F (sgl E (a, v)) = sgl F (a + 2, v) + sgl F (a + 2, v - unit3 (a + 1)) + sgl F (a + 1, v) + sgl F (a + 1, v - unit3 (a + 2)) := by
  funext ⟨⟨c, w⟩, hf⟩
  have hs : ∀ e, extZ E (sgl E (a, v)) e = if (a, v) = e then 1 else 0 := by
    intro e
    by_cases h : e ∈ E
    · rw [extZ_mem _ h]; simp [sgl]
    · have : (a, v) ≠ e := fun e' => h (e' ▸ he)
      simp [extZ, h, this]
  change extZ E (sgl E (a, v)) (c + 1, w) + extZ E (sgl E (a, v)) (c + 1, w + unit3 (c + 2)) + extZ E (sgl E (a, v)) (c + 2, w) +
    extZ E (sgl E (a, v)) (c + 2, w + unit3 (c + 1)) = sgl F (a + 2, v) ⟨(c, w), hf⟩ + sgl F (a + 2, v - unit3 (a + 1)) ⟨(c, w), hf⟩ +
      sgl F (a + 1, v) ⟨(c, w), hf⟩ + sgl F (a + 1, v - unit3 (a + 2)) ⟨(c, w), hf⟩
  rw [hs, hs, hs, hs]
  simp only [sgl]
  have f1 : ∀ a c : Fin 3, a = c + 1 ↔ a + 2 = c := by decide
  have f2 : ∀ a c : Fin 3, a = c + 2 ↔ a + 1 = c := by decide
  congr 1
  · congr 1
    · congr 1
      · congr 1
        simp only [Prod.mk.injEq, f1]
      · congr 1
        simp only [Prod.mk.injEq, f1, eq_iff_iff]
        constructor
        · rintro ⟨rfl, rfl⟩; exact ⟨rfl, by rw [fin3_22, add_sub_cancel_right]⟩
        · rintro ⟨rfl, rfl⟩; exact ⟨rfl, by rw [fin3_22, sub_add_cancel]⟩
    · congr 1
      simp only [Prod.mk.injEq, f2]
  · congr 1
    simp only [Prod.mk.injEq, f2, eq_iff_iff]
    constructor
    · rintro ⟨rfl, rfl⟩; exact ⟨rfl, by rw [fin3_succ1, add_sub_cancel_right]⟩
    · rintro ⟨rfl, rfl⟩; exact ⟨rfl, by rw [fin3_succ1, sub_add_cancel]⟩

theorem even2_of_ann {E F : Finset (Fin 3 × ZIdx)} (hE : ∀ e, e ∈ E ↔ EdgeOn S e) (hF : ∀ f, f ∈ F ↔ FaceOn S f) {ψ : Module.Dual F2 (F → F2)}
    (hψ : ψ ∈ (LinearMap.range (d1 E F)).dualAnnihilator) : Even2 S fun c w => faceVal F ψ (c, w) := by
  have off : ∀ f, ¬ FaceOn S f → faceVal F ψ f = 0 := by
    intro f h
    rw [faceVal, sgl_off (fun hm => h ((hF f).1 hm)), map_zero]
  refine ⟨fun c w h => off _ h, fun a v => ?_⟩
  by_cases he : EdgeOn S (a, v)
  · rw [Submodule.mem_dualAnnihilator] at hψ
    have := hψ _ ⟨sgl E (a, v), rfl⟩
    rw [d1_single ((hE _).2 he), map_add, map_add, map_add] at this
    exact this
  · simp only [EdgeOn, not_or] at he
    dsimp only
    rw [off _ he.1, off _ he.2.1, off _ he.2.2.1, off _ he.2.2.2]
    simp

/-- A functional that vanishes on all faces. -/
theorem eq_zero_of_faceVal {F : Finset (Fin 3 × ZIdx)} {ψ : Module.Dual F2 (F → F2)} (h : ∀ f, faceVal F ψ f = 0) : ψ = 0 := by
  classical
  apply LinearMap.pi_ext
  intro f x
  have e : (Pi.single f x : F → F2) = x • sgl F f.1 := by
    funext f'
    by_cases hf : f' = f
    · subst hf; simp [sgl]
    · have : f.1 ≠ f'.1 := fun e => hf (Subtype.ext e.symm)
      simp [sgl, hf, this]
  rw [e, map_smul]
  have := h f.1
  rw [faceVal] at this
  rw [this]
  simp

/-- Every even set of faces is determined by its value on `m` faces. -/
def FaceClasses (S : ZIdx → Prop) (m : ℕ) : Prop :=
  ∃ rep : Fin m → Fin 3 × ZIdx, ∀ h, Even2 S h → (∀ i, h (rep i).1 (rep i).2 = 0) → ∀ c w, h c w = 0

/-- Points plus faces against edges. -/
theorem surface_le {V : Finset ZIdx} {E F : Finset (Fin 3 × ZIdx)} (hV : ∀ v, v ∈ V ↔ SurfacePoint S v) (hE : ∀ e, e ∈ E ↔ EdgeOn S e)
    (hF : ∀ f, f ∈ F ↔ FaceOn S f) {n m : ℕ} (hn : IsClassCount (SurfacePoint S) (SurfaceJoined S) n) (hm : FaceClasses S m) :
    V.card + F.card ≤ E.card + n + m := by
  obtain ⟨label, l1, l2, l3⟩ := hn
  have hrep : ∀ i : Fin n, ∃ v, SurfacePoint S v ∧ label v = i + 1 := fun i => l2 (i + 1) (by omega) (by omega)
  choose rv hrv1 hrv2 using hrep
  obtain ⟨rf, hrf⟩ := hm
  have h0 : Module.finrank F2 (LinearMap.ker (d0 V E)) ≤ n := by
    refine finrank_le_of_reps _ ({ toFun := fun g i => extZ V g (rv i), map_add' := ?_, map_smul' := ?_ } : (V → F2) →ₗ[F2] (Fin n → F2)) ?_
    · intro a b; funext i; simp only [map_add, Pi.add_apply]
    · intro a b; funext i; simp only [map_smul, Pi.smul_apply, RingHom.id_apply]
    · intro g hg h
      rw [LinearMap.mem_ker] at hg
      have heq : ∀ v w, SurfaceEdge S v w → extZ V g v = extZ V g w := by
        have base : ∀ a v, EdgeOn S (a, v) → extZ V g v = extZ V g (v + unit3 a) := by
          intro a v he
          have : d0 V E g ⟨(a, v), (hE _).2 he⟩ = 0 := by rw [hg]; rfl
          change extZ V g v + extZ V g (v + unit3 a) = 0 at this
          have h2 : (2 : F2) = 0 := by decide
          linear_combination this - extZ V g (v + unit3 a) * h2
        intro v w he
        rcases pointAdj_unit he.1 with ⟨a, rfl⟩ | ⟨a, rfl⟩
        · exact base a v ((edgeOn_iff a v).2 he)
        · exact (base a w ((edgeOn_iff a w).2 (surfaceEdge_symm he))).symm
      have hj : ∀ v w, SurfaceJoined S v w → extZ V g v = extZ V g w := by
        intro v w hvw
        induction hvw with
        | refl => rfl
        | tail _ hs ih => exact ih.trans (heq _ _ hs)
      funext ⟨v, hv⟩
      have hv' := (hV v).1 hv
      obtain ⟨q1, q2⟩ := l1 v hv'
      have hi : label v - 1 < n := by omega
      have e : label (rv ⟨label v - 1, hi⟩) = label v := by rw [hrv2]; simp only; omega
      have hz := congrFun h ⟨label v - 1, hi⟩
      change extZ V g (rv ⟨label v - 1, hi⟩) = 0 at hz
      rw [hj _ _ ((l3 _ _ (hrv1 _) hv').1 e), extZ_mem g hv] at hz
      exact hz
  have h1 : Module.finrank F2 (LinearMap.range (d1 E F)).dualAnnihilator ≤ m := by
    refine finrank_le_of_reps _ ({ toFun := fun ψ i => faceVal F ψ (rf i), map_add' := ?_, map_smul' := ?_ } :
      Module.Dual F2 (F → F2) →ₗ[F2] (Fin m → F2)) ?_
    · intro a b; funext i; rfl
    · intro a b; funext i; rfl
    · intro ψ hψ h
      apply eq_zero_of_faceVal
      rintro ⟨c, w⟩
      exact hrf _ (even2_of_ann hE hF hψ) (fun i => congrFun h i) c w
  have := complex_le (d0 V E) (d1 E F) (d1_d0 hE hF) h0 h1
  simpa using this

end
end VGT
