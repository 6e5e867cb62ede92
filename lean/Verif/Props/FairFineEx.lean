import Verif.Props.FairFine
import Verif.Props.FairGradientEx

/-!
C91: a concrete case.
-/
set_option autoImplicit false

namespace VGT
open VGT.EDT VGT.Spec

section
variable {left : Bool} {g : SDFGrid ℝ}

/-- The location `(9/2, 2, 2)`. -/
noncomputable def finePlace : Fin 3 → FusedReal := ![(9 / 2, false), (2, false), (2, false)]

theorem finePlace_size (a : Fin 3) : |(finePlace a).1| ≤ 8 := by
  fin_cases a <;> simp [finePlace] <;> norm_num [abs_le]

theorem fineWindow : |FusedReal.kept roundDouble ((1 / 4, false) : FusedReal)| = 1 / 4 := by
  show |(if false then _ else (1 / 4 : ℝ))| = 1 / 4
  rw [if_neg (by decide), abs_of_pos (by norm_num)]

/-- Locations in the frame of the world are located exactly if the pose is the identity. -/
theorem fine_located (hP : g.pose = ⟨fun i j => if i = j then 1 else 0, fun _ => 0⟩) (norm : (Fin 3 → FusedReal) → FusedReal)
    (interp : (Fin 3 → FusedReal) → (Fin 3 → FusedReal) → (Bool → Bool → Bool → FusedReal) → (Fin 3 → FusedReal) → FusedReal) :
    FairLocated (fusedQuery roundDouble left norm interp) Prod.fst 0 (1 / 4) g (g.inMemory roundDouble (fun l => l.v) id id) finePlace := by
  intro L y hy _ b
  rw [hP] at hy
  have h := hy b
  dsimp only at h
  show |(L b).1 - y b| ≤ 0
  rw [h]
  fin_cases b <;> simp

/-- There is a fine gradient in 8 × 4 × 4 cells of edge 1. -/
theorem fine_exists (hd : g.dims = ⟨8, 4, 4⟩) (hs : g.s = 1) (left : Bool) :
    ∃ v', flFine (fusedQuery roundDouble left (fun _ => (0, false)) (flTrilinear (fusedReal roundDouble left)))
      (g.inMemory roundDouble (fun l => l.v) id id) finePlace (1 / 4, false) = .value v' := by
  have hN : ∀ a, (axisCells g.dims a : ℝ) ≤ 8 := by
    rw [hd]; intro a; fin_cases a <;> simp [axisCells] <;> norm_num
  have s1 : (2 : ℝ) ^ (-100 : ℤ) ≤ g.s := by rw [hs]; norm_num
  have s2 : g.s ≤ (2 : ℝ) ^ (100 : ℤ) := by rw [hs]; norm_num
  have e53 : (2 : ℝ) ^ (-53 : ℤ) = 1 / 2 ^ 53 := by rw [zpow_neg, one_div]; norm_cast
  have fair := fused_double_fair (left := left) (norm := fun _ => (0, false)) (interp := flTrilinear (fusedReal roundDouble left))
  have answer : ∀ L : Fin 3 → FusedReal, (∀ b, |(L b).1 - (finePlace b).1| ≤ 1 / 2) →
      ∃ e, flEstimate (fusedQuery roundDouble left (fun _ => (0, false)) (flTrilinear (fusedReal roundDouble left)))
        (g.inMemory roundDouble (fun l => l.v) id id) ⟨L, (fusedQuery roundDouble left (fun _ => (0, false)) (flTrilinear (fusedReal roundDouble left))).one⟩ = .value e := by
    intro L hL
    refine (C86_estimate_defined fair (fair_room_double s1 s2 (N := 8) (by norm_num) (by norm_num)) (inMemory_double s1 s2) (.inl rfl) hN
      (fun _ => rfl)).1 fun b => ?_
    have h := abs_le.1 (hL b)
    show _ ≤ (L b).1 ∧ (L b).1 < _
    rw [hs, hd, e53]
    fin_cases b <;> simp [finePlace, axisCells] at h ⊢ <;> norm_num at h ⊢ <;> constructor <;> linarith
  refine fair_fine_defined (fun _ _ => rfl) (answer _ fun b => by rw [sub_self, abs_zero]; norm_num) fun b => .inr ?_
  refine answer _ fun c => ?_
  have hadd := fair.add (finePlace b) ((1 / 4, false) : FusedReal)
  have hB := finePlace_size b
  have eη : (2 : ℝ) ^ (-1075 : ℤ) ≤ 2 ^ (-53 : ℤ) := zpow_le_zpow_right₀ (by norm_num) (by norm_num)
  have ew : (fusedQuery roundDouble left (fun _ => (0, false)) (flTrilinear (fusedReal roundDouble left))).abs (1 / 4, false) = ((1 / 4, false) : FusedReal) :=
    Prod.ext fineWindow rfl
  rw [ew]
  by_cases hc : c = b
  · subst hc
    rw [if_pos rfl]
    dsimp only at hadd
    rw [abs_of_pos (show (0 : ℝ) < 1 / 4 by norm_num)] at hadd
    rw [e53] at hadd eη
    generalize (2 : ℝ) ^ (-1075 : ℤ) = z at *
    have h := abs_le.1 hadd
    rw [abs_le]
    norm_num at h eη ⊢
    constructor <;> linarith
  · rw [if_neg hc, sub_self, abs_zero]; norm_num

end

theorem fine_tiny : (2 : ℝ) ^ (-1000 : ℤ) ≤ 1 / 4 := by
  calc (2 : ℝ) ^ (-1000 : ℤ) ≤ 2 ^ (-2 : ℤ) := zpow_le_zpow_right₀ (by norm_num) (by norm_num)
    _ = 1 / 4 := by norm_num

/-- The hypotheses of `fair_fine_defined`, `C91_fine` and `C91_fine_fused_float` are met: 8 × 4 × 4 cells of edge 1, the first layer filled, in single
precision, at `(9/2, 2, 2)` with a window of 1/4.  No component is larger than `8 + 2⁻¹⁰`. -/
example (left : Bool) : ∃ (g : SDFGrid ℝ) (v' : Fin 3 → FusedReal), GeneratedBy floatSDF (fun i => decide (i.1 = 0)) false g ∧
    flFine (fusedQuery roundDouble left (fun _ => (0, false)) (flTrilinear (fusedReal roundDouble left)))
      (g.inMemory roundDouble (fun l => l.v) id id) finePlace (1 / 4, false) = .value v' ∧
    ∀ a, |FusedReal.kept roundDouble (v' a)| ≤ 8 + 1 / 2 ^ 10 := by
  obtain ⟨g, hg, hd, hs, hP⟩ := C68_generated_exists exSlab_ok (P := ⟨fun i j => if i = j then 1 else 0, fun _ => 0⟩)
    (by constructor <;> intro a b <;> fin_cases a <;> fin_cases b <;> simp) (filled := fun i => decide (i.1 = 0)) false
    (i := (1, 0, 0)) (by decide) (by decide) (j := (0, 0, 0)) (by decide) (by decide)
  dsimp only at hd hs
  obtain ⟨v', hv'⟩ := fine_exists hd hs left
  refine ⟨g, v', hg, hv', fun a => ?_⟩
  refine (C91_fine_fused_float hg (by rw [hs]; norm_num) (by rw [hs]; norm_num) (N := 8) (by norm_num) (by norm_num)
    (by rw [hd]; intro a; fin_cases a <;> simp [axisCells] <;> norm_num) (.inl rfl) fineWindow fine_tiny finePlace_size (by norm_num)
    (fine_located hP _ _) hv' a).trans ?_
  rw [hs]; norm_num

/-- The hypotheses of `C91_fine_fused_double` are met by the same map in double precision. -/
example (left : Bool) : ∃ (g : SDFGrid ℝ) (v' : Fin 3 → FusedReal), GeneratedBy doubleSDF (fun i => decide (i.1 = 0)) false g ∧
    flFine (fusedQuery roundDouble left (fun _ => (0, false)) (flTrilinear (fusedReal roundDouble left)))
      (g.inMemory roundDouble (fun l => l.v) id id) finePlace (1 / 4, false) = .value v' ∧
    ∀ a, |FusedReal.kept roundDouble (v' a)| ≤ 8 + 1 / 2 ^ 20 := by
  have ok : GenOK doubleSDF ⟨⟨8, 4, 4⟩, 1, 1, 1⟩ :=
    { rq := roundDouble_isDoubleRounding
      rr := roundDouble_isRounding
      rc := roundDouble_isRounding
      uniform := ⟨rfl, rfl⟩
      res := one_pos
      repr := roundDouble_isRounding.one
      castPos := by
        have : doubleSDF.cast 1 = 1 := roundDouble_isRounding.one
        rw [this]; exact one_pos
      fits := by constructor <;> decide }
  obtain ⟨g, hg, hd, hs, hP⟩ := C68_generated_exists ok (P := ⟨fun i j => if i = j then 1 else 0, fun _ => 0⟩)
    (by constructor <;> intro a b <;> fin_cases a <;> fin_cases b <;> simp) (filled := fun i => decide (i.1 = 0)) false
    (i := (1, 0, 0)) (by decide) (by decide) (j := (0, 0, 0)) (by decide) (by decide)
  dsimp only at hd hs
  obtain ⟨v', hv'⟩ := fine_exists hd hs left
  refine ⟨g, v', hg, hv', fun a => ?_⟩
  refine (C91_fine_fused_double hg (by rw [hs]; norm_num) (by rw [hs]; norm_num) (N := 8) (by norm_num) (by norm_num)
    (by rw [hd]; intro a; fin_cases a <;> simp [axisCells] <;> norm_num) (.inl rfl) fineWindow fine_tiny finePlace_size (by norm_num)
    (fine_located hP _ _) hv' a).trans ?_
  rw [hs]; norm_num

end VGT
