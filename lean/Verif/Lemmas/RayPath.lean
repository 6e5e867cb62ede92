import Verif.Spec.RayPath
import Verif.Model.RaycastFloat
import Verif.Lemmas.Raycast

/-!
Paths of cells and the loop of the raycasting code for any arithmetic.
-/
set_option autoImplicit false

namespace VGT
open VGT.EDT VGT.Spec

/-- Taxicab distance. -/
def pathDist (f c : Fin 3 → ℤ) : ℤ := |f 0 - c 0| + |f 1 - c 1| + |f 2 - c 2|

theorem stepToward_dist {f c c' : Fin 3 → ℤ} (h : StepToward f c c') : pathDist f c' + 1 = pathDist f c := by
  obtain ⟨a, h1, h2⟩ := h
  unfold pathDist
  have key : ∀ x y z : ℤ, ((y < x ∧ z = y + 1) ∨ (x < y ∧ z = y - 1)) → |x - z| + 1 = |x - y| := by
    intro x y z h
    rcases h with ⟨h, rfl⟩ | ⟨h, rfl⟩
    · rw [abs_of_nonneg (by omega), abs_of_nonneg (by omega)]; omega
    · rw [abs_of_nonpos (by omega), abs_of_nonpos (by omega)]; omega
  have hk := key _ _ _ h2
  have hb := h1
  fin_cases a
  · have e1 := hb 1 (by decide); have e2 := hb 2 (by decide)
    simp only [Fin.zero_eta] at hk
    rw [e1, e2]; omega
  · have e1 := hb 0 (by decide); have e2 := hb 2 (by decide)
    simp only [Fin.mk_one] at hk
    rw [e1, e2]; omega
  · have e1 := hb 0 (by decide); have e2 := hb 1 (by decide)
    simp only [Fin.reduceFinMk] at hk
    rw [e1, e2]; omega

/-- Along a path the distance goes down by one with every step. -/
theorem path_dist {f : Fin 3 → ℤ} : ∀ {l : List (Fin 3 → ℤ)}, l.IsChain (StepToward f) → ∀ c ∈ l.head?,
    ∀ (k : ℕ) x, l[k]? = some x → pathDist f x + (k : ℤ) = pathDist f c := by
  intro l
  induction l with
  | nil => simp
  | cons b l ih =>
    intro h c hc k x hx
    simp only [List.head?_cons, Option.mem_def, Option.some.injEq] at hc
    subst hc
    rcases k with _ | k
    · simp at hx; subst hx; simp
    · rw [List.getElem?_cons_succ] at hx
      cases l with
      | nil => simp at hx
      | cons b' l =>
        rw [List.isChain_cons_cons] at h
        have := ih h.2 b' (by simp) k x hx
        have := stepToward_dist h.1
        push_cast
        omega

theorem path_nodup {f : Fin 3 → ℤ} {l : List (Fin 3 → ℤ)} (h : l.IsChain (StepToward f)) : l.Nodup := by
  rw [List.nodup_iff_injective_getElem]
  rintro ⟨a, ha⟩ ⟨b, hb⟩ hab
  simp only at hab
  have hne : l ≠ [] := by rintro rfl; simp at ha
  obtain ⟨c, hc⟩ : ∃ c, c ∈ l.head? := ⟨l.head hne, List.head?_eq_some_head hne⟩
  have h1 := path_dist h c hc a l[a] (List.getElem?_eq_getElem ha)
  have h2 := path_dist h c hc b l[b] (List.getElem?_eq_getElem hb)
  rw [hab] at h1
  simp only [Fin.mk.injEq]
  omega

/-- Every axis moves toward `f` along a path. -/
theorem path_between {f : Fin 3 → ℤ} : ∀ {l : List (Fin 3 → ℤ)}, l.IsChain (StepToward f) → ∀ c ∈ l.head?, ∀ x ∈ l,
    ∀ a, (c a ≤ x a ∧ x a ≤ f a) ∨ (f a ≤ x a ∧ x a ≤ c a) := by
  intro l
  induction l with
  | nil => simp
  | cons b l ih =>
    intro h c hc x hx a
    simp only [List.head?_cons, Option.mem_def, Option.some.injEq] at hc
    subst hc
    rcases List.mem_cons.1 hx with rfl | hx
    · omega
    · cases l with
      | nil => simp at hx
      | cons b' l =>
        rw [List.isChain_cons_cons] at h
        have h1 := ih h.2 b' (by simp) x hx a
        obtain ⟨a', e1, e2⟩ := h.1
        by_cases haa : a = a'
        · subst haa; omega
        · have := e1 a haa; omega

/-- A path in the grid is no longer than the edges of the grid together. -/
theorem path_length {n : Fin 3 → ℕ} {i f : Fin 3 → ℤ} {l : List (Fin 3 → ℤ)} (h : IsPath n i f l) (hne : l ≠ []) :
    l.length + 2 + (if ∀ a, 0 ≤ f a ∧ f a < n a then 1 else 0) ≤ n 0 + n 1 + n 2 := by
  obtain ⟨c, hc⟩ : ∃ c, c ∈ l.head? := ⟨l.head hne, List.head?_eq_some_head hne⟩
  have hlast := List.getLast_mem hne
  set x := l.getLast hne with hx
  have hk : l[l.length - 1]? = some x := by
    rw [hx, List.getLast_eq_getElem]
    exact List.getElem?_eq_getElem _
  have hpos : 0 < l.length := List.length_pos_iff.2 hne
  have hd := path_dist h.steps c hc _ _ hk
  have hbt := path_between h.steps c hc x hlast
  have hin := (h.inside x hlast).1
  have hcm : c ∈ l := List.mem_of_mem_head? hc
  have hcin := (h.inside c hcm).1
  have hxf : x ≠ f := (h.inside x hlast).2
  have ax : ∀ a, |f a - c a| - |f a - x a| ≤ (n a : ℤ) - 1 ∧
      ((0 ≤ f a ∧ f a < n a) → |f a - c a| ≤ (n a : ℤ) - 1) ∧ 0 ≤ |f a - x a| ∧ (x a ≠ f a → 1 ≤ |f a - x a|) := by
    intro a
    have h1 := hbt a; have h2 := hin a; have h3 := hcin a
    rcases h1 with h1 | h1
    · rw [abs_of_nonneg (by omega : 0 ≤ f a - c a), abs_of_nonneg (by omega : 0 ≤ f a - x a)]; omega
    · rw [abs_of_nonpos (by omega : f a - c a ≤ 0), abs_of_nonpos (by omega : f a - x a ≤ 0)]; omega
  have a0 := ax 0; have a1 := ax 1; have a2 := ax 2
  unfold pathDist at hd
  have hx1 : 1 ≤ |f 0 - x 0| + |f 1 - x 1| + |f 2 - x 2| := by
    by_contra hlt
    apply hxf
    have e0 : x 0 = f 0 := by by_contra hc'; have := a0.2.2.2 hc'; omega
    have e1 : x 1 = f 1 := by by_contra hc'; have := a1.2.2.2 hc'; omega
    have e2 : x 2 = f 2 := by by_contra hc'; have := a2.2.2.2 hc'; omega
    funext a
    fin_cases a <;> assumption
  split_ifs with hf
  · have b0 := a0.2.1 (hf 0); have b1 := a1.2.1 (hf 1); have b2 := a2.2.1 (hf 2)
    omega
  · omega

variable {F : Type} (A : Arith F)

theorem flStep_toward {final step cur : IVec} (h : Toward final step cur) {a : Fin 3} (ha : cur a ≠ final a) :
    StepToward final cur (fun b => if b = a then cur a + step a else cur b) := by
  refine ⟨a, fun b hb => by simp [hb], ?_⟩
  have := h a
  simp only [if_true]
  rcases this with h | h | h
  · left; omega
  · right; omega
  · omega

/-- The loop ends and marks a path, whatever the arithmetic. -/
theorem flWalk_path (d : Dims) (final step : IVec) (delta : Fin 3 → F) :
    ∀ (fuel : ℕ) (cur : IVec) (t : Fin 3 → F), Toward final step cur → idist final cur ≤ fuel →
      ∃ l, flWalk A d final step delta fuel cur t = some l ∧ IsPath (axisCells d) cur final l := by
  intro fuel
  induction fuel with
  | zero =>
    intro cur t _ hd
    have : cur = final := by
      by_contra hne
      have := idist_pos hne
      omega
    exact ⟨[], by simp [flWalk, this], by simp [this], by simp, by simp, by simp⟩
  | succ fuel ih =>
    intro cur t ht hd
    unfold flWalk
    by_cases hcf : cur = final
    · exact ⟨[], by simp [hcf], by simp [hcf], by simp, by simp, by simp⟩
    rw [if_neg hcf]
    by_cases hin : inGrid d cur = true
    · rw [if_pos hin]
      have hin' : CellInGrid (axisCells d) cur := inGrid_iff.1 hin
      dsimp only
      generalize flChooseAxis A t = a
      by_cases ha : cur a = final a
      · rw [if_pos ha]
        refine ⟨[cur], rfl, by simp [hcf, hin'], by simp, by simp, ?_⟩
        intro c hc
        rw [List.mem_singleton.1 hc]
        exact ⟨hin', hcf⟩
      · rw [if_neg ha]
        have hupd : (fun b => if b = a then cur a + step a else cur b) = Function.update cur a (cur a + step a) := by
          funext b; by_cases hb : b = a
          · subst hb; simp
          · simp [hb]
        have hs := idist_step ht ha
        have ht' := toward_step ht ha
        have hst := flStep_toward ht ha
        rw [← hupd] at hs ht'
        obtain ⟨l, h1, h2⟩ := ih (fun b => if b = a then cur a + step a else cur b)
          (fun b => if b = a then A.add (t a) (delta a) else t b) ht' (by omega)
        refine ⟨cur :: l, by rw [h1]; rfl, by simp [hcf, hin'], by simp, ?_, ?_⟩
        · cases l with
          | nil => simp
          | cons b l =>
            rw [List.isChain_cons_cons]
            refine ⟨?_, h2.steps⟩
            rw [h2.start b (by simp)]
            exact hst
        · intro c hc
          rcases List.mem_cons.1 hc with rfl | hc
          · exact ⟨hin', hcf⟩
          · exact h2.inside c hc
    · have hin' : ¬ CellInGrid (axisCells d) cur := fun h => hin (inGrid_iff.2 h)
      rw [if_neg hin]
      exact ⟨[], rfl, by simp [hin'], by simp, by simp, by simp⟩

end VGT
