import Verif.Spec.FairQuery

/-!
C91: what is assumed of fine gradients besides C86.
-/
set_option autoImplicit false

namespace VGT.Spec
open VGT VGT.EDT

/-- The computed coordinates in the frame of the grid of locations up to `2 w` from `p` along each axis are right up to `δ`. -/
def FairLocated {F : Type} (A : QueryArith F) (val : F → ℝ) (δ w : ℝ) (g : SDFGrid ℝ) (fg : FlSDF F) (p : Fin 3 → F) : Prop :=
  ∀ (L : Fin 3 → F) (y : Fin 3 → ℝ), InFrame g.pose.R g.pose.t y (fun b => val (L b)) → (∀ b, |val (L b) - val (p b)| ≤ 2 * w) →
    ∀ b, |val (fg.toGrid ⟨L, A.one⟩ b) - y b| ≤ δ

end VGT.Spec
