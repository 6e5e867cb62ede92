import Verif.Lemmas.RayPath
import Verif.Props.Raycast

/-!
The open-arithmetic raycasting model with exact arithmetic is the exact raycasting model.
-/
set_option autoImplicit false

namespace VGT
open VGT.EDT VGT.Spec

/-- A parameter or range as a floating-point value. -/
def toFl : WithTop ℚ → Fl
  | ⊤ => .pinf
  | (q : ℚ) => .fin q

@[simp] theorem toFl_coe (q : ℚ) : toFl (q : WithTop ℚ) = .fin q := rfl
@[simp] theorem toFl_top : toFl ⊤ = .pinf := rfl

theorem toFl_le (x y : WithTop ℚ) : Fl.le (toFl x) (toFl y) = decide (x ≤ y) := by
  cases x <;> cases y <;> simp [Fl.le]

theorem toFl_lt (x y : WithTop ℚ) : Fl.lt (toFl x) (toFl y) = decide (x < y) := by
  cases x <;> cases y <;> simp [Fl.lt]

theorem toFl_add (x y : WithTop ℚ) : Fl.addR Fl.fin (toFl x) (toFl y) = toFl (x + y) := by
  cases x <;> cases y <;> simp [Fl.addR, Fl.add, ← WithTop.coe_add]

/-- The grid with exact sizes. -/
def exactGrid (d : Dims) (s : ℚ) : RayGrid Fl := ⟨d, .fin s, .fin (1 / s), fun a => .fin (axisCells d a * s)⟩

theorem exact_chooseAxis (t : Fin 3 → WithTop ℚ) : flChooseAxis exactArith (fun a => toFl (t a)) = chooseAxis t := by
  have h : exactArith.le = Fl.le := rfl
  unfold flChooseAxis chooseAxis
  simp only [h, toFl_le, Bool.and_eq_true, decide_eq_true_eq]

theorem exact_walk (d : Dims) (final step : IVec) (delta : Fin 3 → WithTop ℚ) :
    ∀ (fuel : ℕ) (cur : IVec) (t : Fin 3 → WithTop ℚ),
      flWalk exactArith d final step (fun a => toFl (delta a)) fuel cur (fun a => toFl (t a)) =
        walk d final step delta fuel cur t := by
  intro fuel
  induction fuel with
  | zero => intro cur t; rfl
  | succ fuel ih =>
    intro cur t
    unfold flWalk walk
    rw [exact_chooseAxis]
    dsimp only
    have h1 : (fun b => if b = chooseAxis t then cur (chooseAxis t) + step (chooseAxis t) else cur b) =
        Function.update cur (chooseAxis t) (cur (chooseAxis t) + step (chooseAxis t)) := by
      funext b
      by_cases hb : b = chooseAxis t
      · subst hb; simp
      · simp [hb]
    have h2 : (fun b => if b = chooseAxis t then exactArith.add (toFl (t (chooseAxis t))) (toFl (delta (chooseAxis t)))
        else toFl (t b)) = fun b => toFl (Function.update t (chooseAxis t) (t (chooseAxis t) + delta (chooseAxis t)) b) := by
      funext b
      by_cases hb : b = chooseAxis t
      · subst hb
        simp only [if_true, Function.update_self]
        exact toFl_add _ _
      · simp [hb]
    rw [h1, h2, ih]

theorem exact_index (d : Dims) (s : ℚ) (p : Vec ℚ) :
    flIndex exactArith (exactGrid d s) (fun a => .fin (p a)) = some (cellOf s p) := by
  unfold flIndex axes3
  have h : ∀ a, exactArith.toInt (exactArith.mul (.fin (p a)) (exactGrid d s).inv) = some (cellOf s p a) := by
    intro a
    show some ⌊p a * (1 / s)⌋ = some ⌊p a / s⌋
    rw [mul_one_div]
  simp only [h]
  simp only [Option.bind_some, Option.map_some, Option.some.injEq]
  funext a
  fin_cases a <;> rfl

theorem exact_slabAxis (o dir size tmin : ℚ) (tmax : WithTop ℚ) :
    flSlabAxis exactArith (.fin o) (.fin dir) (.fin size) (.fin tmin, toFl tmax) =
      (slabAxis o dir size (tmin, tmax)).map fun st => (.fin st.1, toFl st.2) := by
  have htiny : exactArith.tiny = .fin (tenth10 : ℚ) := rfl
  have habs : exactArith.abs (.fin dir) = .fin |dir| := rfl
  have hlt : exactArith.lt = Fl.lt := rfl
  have hle : exactArith.le = Fl.le := rfl
  have h0 : exactArith.zero = .fin 0 := rfl
  have hltf : ∀ a b : ℚ, Fl.lt (.fin a) (.fin b) = decide (a < b) := fun _ _ => rfl
  have hlef : ∀ a b : ℚ, Fl.le (.fin a) (.fin b) = decide (a ≤ b) := fun _ _ => rfl
  unfold flSlabAxis slabAxis
  rw [htiny, habs, hlt, hle, h0]
  by_cases hflat : |dir| < tenth10
  · simp only [hltf, hlef, hflat, decide_true, if_true, Bool.and_eq_true, decide_eq_true_eq]
    by_cases hin : 0 ≤ o ∧ o < size
    · simp [hin]
    · simp [hin]
  · have hdir : dir ≠ 0 := by
      rintro rfl
      apply hflat
      simp [tenth10]
    have hood : exactArith.div exactArith.one (.fin dir) = .fin (1 / dir) := by
      show Fl.divR Fl.fin (.fin 1) (.fin dir) = _
      simp [Fl.divR, hdir]
    have htlow : exactArith.mul (exactArith.sub (.fin 0) (.fin o)) (.fin (1 / dir)) = .fin ((0 - o) * (1 / dir)) := rfl
    have hthigh : exactArith.mul (exactArith.sub (.fin size) (.fin o)) (.fin (1 / dir)) =
        .fin ((size - o) * (1 / dir)) := rfl
    simp only [hltf, hlef, hflat, decide_false, Bool.false_eq_true, if_false, hood, htlow, hthigh, decide_eq_true_eq]
    generalize (0 - o) * (1 / dir) = tlow
    generalize (size - o) * (1 / dir) = thigh
    have e1 : (if tlow ≤ thigh then Fl.fin tlow else Fl.fin thigh) = .fin (if tlow ≤ thigh then tlow else thigh) := by
      split_ifs <;> rfl
    have e2 : (if tlow ≤ thigh then Fl.fin thigh else Fl.fin tlow) = .fin (if tlow ≤ thigh then thigh else tlow) := by
      split_ifs <;> rfl
    rw [e1, e2]
    generalize (if tlow ≤ thigh then tlow else thigh) = t1
    generalize (if tlow ≤ thigh then thigh else tlow) = t2
    have e3 : (if Fl.lt (.fin tmin) (.fin t1) = true then Fl.fin t1 else .fin tmin) = .fin (if t1 > tmin then t1 else tmin) := by
      rw [hltf]
      by_cases h : t1 > tmin
      · simp [h]
      · simp [h]
    have e4 : (if Fl.lt (toFl tmax) (.fin t2) = true then Fl.fin t2 else toFl tmax) =
        toFl (if (t2 : WithTop ℚ) > tmax then (t2 : WithTop ℚ) else tmax) := by
      rw [← toFl_coe t2, toFl_lt]
      by_cases h : tmax < (t2 : WithTop ℚ)
      · simp [h]
      · simp [h]
    rw [e3, e4]
    generalize (if t1 > tmin then t1 else tmin) = a
    generalize (if (t2 : WithTop ℚ) > tmax then (t2 : WithTop ℚ) else tmax) = b
    rw [← toFl_coe a, toFl_lt]
    by_cases h : b < (a : WithTop ℚ)
    · simp [h]
    · simp [h]

theorem exact_slabs (d : Dims) (s : ℚ) (o dir : Vec ℚ) (range : WithTop ℚ) :
    flSlabs exactArith (exactGrid d s) (fun a => .fin (o a)) (fun a => .fin (dir a)) (toFl range) =
      (slabs d s o dir range).map Fl.fin := by
  unfold flSlabs slabs
  have h0 : exactArith.zero = .fin 0 := rfl
  have hx : (exactGrid d s).size 0 = .fin (d.nx * s) := rfl
  have hy : (exactGrid d s).size 1 = .fin (d.ny * s) := rfl
  have hz : (exactGrid d s).size 2 = .fin (d.nz * s) := rfl
  rw [h0, hx, hy, hz, exact_slabAxis]
  rcases slabAxis (o 0) (dir 0) (d.nx * s) (0, range) with _ | ⟨a1, b1⟩
  · rfl
  simp only [Option.map_some, Option.bind_some]
  rw [exact_slabAxis]
  rcases slabAxis (o 1) (dir 1) (d.ny * s) (a1, b1) with _ | ⟨a2, b2⟩
  · rfl
  simp only [Option.map_some, Option.bind_some]
  rw [exact_slabAxis]
  rcases slabAxis (o 2) (dir 2) (d.nz * s) (a2, b2) with _ | ⟨a3, b3⟩
  · rfl
  · rfl

theorem exact_axisT (point ray lo hi : ℚ) :
    flAxisT exactArith (.fin point) (.fin ray) (.fin lo) (.fin hi) = toFl (axisT point ray lo hi) := by
  unfold flAxisT axisT
  have hlt : exactArith.lt = Fl.lt := rfl
  have h0 : exactArith.zero = .fin 0 := rfl
  have hltf : ∀ a b : ℚ, Fl.lt (.fin a) (.fin b) = decide (a < b) := fun _ _ => rfl
  rw [hlt, h0, hltf, hltf]
  by_cases h1 : ray > 0
  · have hne : ray ≠ 0 := h1.ne'
    simp only [h1, decide_true, if_true, toFl_coe]
    show Fl.absF (Fl.divR Fl.fin (.fin (hi - point)) (.fin ray)) = _
    simp [Fl.divR, hne, Fl.absF]
  · by_cases h2 : ray < 0
    · have hne : ray ≠ 0 := h2.ne
      simp only [h1, h2, decide_true, decide_false, if_true, if_false, toFl_coe, Bool.false_eq_true]
      show Fl.absF (Fl.divR Fl.fin (.fin (point - lo)) (.fin ray)) = _
      simp [Fl.divR, hne, Fl.absF]
    · simp only [h1, h2, decide_false, if_false, Bool.false_eq_true]
      rfl

theorem exact_deltaT (d : Dims) {s : ℚ} (hs : 0 < s) (ray : ℚ) :
    flDeltaT exactArith (exactGrid d s) (.fin ray) = toFl (deltaT s ray) := by
  unfold flDeltaT deltaT
  show Fl.absF (Fl.divR Fl.fin (.fin s) (.fin ray)) = _
  by_cases h : ray = 0
  · simp [h, Fl.divR, Fl.div, hs, Fl.absF]
  · simp [h, Fl.divR, Fl.absF]

theorem exact_castFrom (d : Dims) {s : ℚ} (hs : 0 < s) (start final ray : Vec ℚ) (clip : Bool) :
    flCastFrom exactArith (exactGrid d s) (fun a => .fin (start a)) (fun a => .fin (final a)) (fun a => .fin (ray a)) clip =
      castFrom d s start final ray clip := by
  unfold flCastFrom castFrom
  rw [exact_index, exact_index]
  have hd : (axes3 fun a => exactArith.intSub (cellOf s final a) (cellOf s start a)) =
      some fun a => cellOf s final a - cellOf s start a := by
    unfold axes3 Arith.intSub
    have : ∀ x, exactArith.fits x = true := fun _ => rfl
    simp only [this, if_true, Option.bind_some, Option.map_some, Option.some.injEq]
    funext a
    fin_cases a <;> rfl
  simp only [Option.bind_some, hd]
  have ht : (fun a => flAxisT exactArith (.fin (start a)) (.fin (ray a))
      (exactArith.sub (exactArith.mul (exactArith.add (exactArith.ofInt (cellOf s start a)) exactArith.half)
        (exactGrid d s).cell) (exactArith.mul (exactGrid d s).cell exactArith.half))
      (exactArith.add (exactArith.mul (exactArith.add (exactArith.ofInt (cellOf s start a)) exactArith.half)
        (exactGrid d s).cell) (exactArith.mul (exactGrid d s).cell exactArith.half))) =
      fun a => toFl (axisT (start a) (ray a) (((cellOf s start a : ℚ) + 1 / 2) * s - s * (1 / 2))
        (((cellOf s start a : ℚ) + 1 / 2) * s + s * (1 / 2))) := by
    funext a
    rw [← exact_axisT]
    rfl
  have hdel : (fun a => flDeltaT exactArith (exactGrid d s) (.fin (ray a))) = fun a => toFl (deltaT s (ray a)) := by
    funext a
    exact exact_deltaT d hs (ray a)
  rw [ht, hdel, exact_walk]
  rfl

end VGT
