import Verif.Props.FairPipeline
import Verif.Props.GradientFloat
import Verif.Spec.FairFine

/-!
C91: fine gradients in any accurate arithmetic, for example with fused products and sums.
-/
set_option autoImplicit false

namespace VGT
open VGT.EDT VGT.Spec

section
variable {F : Type} {A : QueryArith F} {val kept : F → ℝ} {u η N : ℝ} {ro : Rounding} {filled : Idx → Bool} {border : Bool} {g : SDFGrid ℝ}
  {fg : FlSDF F}

/-- A computed difference quotient of two answers. -/
theorem fair_slope (h : FairQuery A val kept u η) (hu : 0 ≤ u) (hu' : u ≤ 1 / 10 ^ 5) (hη0 : 0 ≤ η) {e1' e2' x1 x2 : F} {e1 e2 E M C δ' H : ℝ}
    (h1 : |kept e1' - e1| ≤ E) (h2 : |kept e2' - e2| ≤ E) (m1 : |e1| ≤ M) (m2 : |e2| ≤ M) (hE : E ≤ M) (hηM : η ≤ u * M) (hη : η ≤ u)
    (c1 : |val x1| ≤ C) (c2 : |val x2| ≤ C) (hH : 0 < H) (h12 : |val x1 - val x2 - H| ≤ 2 * δ') (hC : u * (2 * C) + η ≤ 3 * δ')
    (huH : u * H + η ≤ 2 * δ') (hδ' : δ' ≤ H / 1000) :
    |kept (A.div (A.sub e1' e2') (A.sub x1 x2))| ≤ 1012 / 1000 * ((|e1 - e2| + 2 * E + 19 * (u * M)) / H) + 1 / 10 ^ 4 := by
  have hM : 0 ≤ M := (abs_nonneg _).trans m1
  have huM : u * M ≤ 1 / 10 ^ 5 * M := mul_le_mul_of_nonneg_right hu' hM
  have huM0 : 0 ≤ u * M := mul_nonneg hu hM
  have value : ∀ {e' : F} {e : ℝ}, |kept e' - e| ≤ E → |e| ≤ M → |val e'| ≤ 21 / 10 * M ∧ |val e' - e| ≤ E + 31 / 10 * (u * M) := by
    intro e' e p q
    have s := h.store e'
    have a1 := abs_sub_abs_le_abs_sub (val e') (kept e')
    rw [abs_sub_comm] at a1
    have a2 := abs_add_le (kept e' - e) e
    rw [sub_add_cancel] at a2
    have a3 : u * |val e'| ≤ 1 / 10 ^ 5 * |val e'| := mul_le_mul_of_nonneg_right hu' (abs_nonneg _)
    have b : |val e'| ≤ 21 / 10 * M := by linarith
    have a4 : u * |val e'| ≤ u * (21 / 10 * M) := mul_le_mul_of_nonneg_left b hu
    have a5 := abs_sub_le (val e') (kept e') e
    rw [abs_sub_comm (val e') (kept e')] at a5
    exact ⟨b, by linarith⟩
  obtain ⟨v1, w1⟩ := value h1 m1
  obtain ⟨v2, w2⟩ := value h2 m2
  -- the numerator
  have n1 := h.sub e1' e2'
  have n2 : u * (|val e1'| + |val e2'|) ≤ u * (21 / 10 * M + 21 / 10 * M) := mul_le_mul_of_nonneg_left (by linarith) hu
  have n3 : |val (A.sub e1' e2') - (e1 - e2)| ≤ 2 * E + 115 / 10 * (u * M) := by
    have t1 := abs_sub_le (val (A.sub e1' e2')) (val e1' - val e2') (e1 - e2)
    have t2 : |val e1' - val e2' - (e1 - e2)| ≤ |val e1' - e1| + |val e2' - e2| := by
      rw [show val e1' - val e2' - (e1 - e2) = (val e1' - e1) - (val e2' - e2) by ring]
      exact abs_sub _ _
    linarith
  have n4 : |val (A.sub e1' e2')| ≤ |e1 - e2| + 2 * E + 115 / 10 * (u * M) := by
    have t := abs_add_le (val (A.sub e1' e2') - (e1 - e2)) (e1 - e2)
    rw [sub_add_cancel] at t
    linarith
  have n5 : |e1 - e2| ≤ 2 * M := by have := abs_sub e1 e2; linarith
  have n6 : |kept (A.sub e1' e2')| ≤ |e1 - e2| + 2 * E + 19 * (u * M) := by
    have s := h.store (A.sub e1' e2')
    have t := abs_add_le (kept (A.sub e1' e2') - val (A.sub e1' e2')) (val (A.sub e1' e2'))
    rw [sub_add_cancel] at t
    have : u * |val (A.sub e1' e2')| ≤ u * (5 * M) := mul_le_mul_of_nonneg_left (by linarith) hu
    linarith
  -- the denominator
  have d1 := h.sub x1 x2
  have d2 : u * (|val x1| + |val x2|) ≤ u * (2 * C) := mul_le_mul_of_nonneg_left (by linarith) hu
  have d3 : |val (A.sub x1 x2) - H| ≤ 5 * δ' := by
    have t := abs_sub_le (val (A.sub x1 x2)) (val x1 - val x2) H
    linarith
  have hδ0 : 0 ≤ δ' := by
    have := (abs_nonneg _).trans h12
    linarith
  have d4 : 99 / 100 * H ≤ kept (A.sub x1 x2) := by
    have s := h.store (A.sub x1 x2)
    have t := abs_add_le (val (A.sub x1 x2) - H) H
    rw [sub_add_cancel, abs_of_pos hH] at t
    have a1 : u * |val (A.sub x1 x2)| ≤ u * (H + 5 * δ') := mul_le_mul_of_nonneg_left (by linarith) hu
    have a2 : u * δ' ≤ 1 / 10 ^ 5 * δ' := mul_le_mul_of_nonneg_right hu' hδ0
    have a3 := (abs_le.1 s).1
    have a4 := (abs_le.1 d3).1
    linarith
  have d0 : 0 < kept (A.sub x1 x2) := lt_of_lt_of_le (by positivity) d4
  -- the quotient
  obtain ⟨X, hX⟩ : ∃ X, X = |e1 - e2| + 2 * E + 19 * (u * M) := ⟨_, rfl⟩
  rw [← hX] at n6 ⊢
  have hX0 : 0 ≤ X := (abs_nonneg _).trans n6
  have hXH : 0 ≤ X / H := by positivity
  have q1 : |kept (A.sub e1' e2') / kept (A.sub x1 x2)| ≤ 100 / 99 * (X / H) := by
    rw [abs_div, abs_of_pos d0, div_le_iff₀ d0]
    refine n6.trans ?_
    have : X / H * (99 / 100 * H) ≤ X / H * kept (A.sub x1 x2) := mul_le_mul_of_nonneg_left d4 hXH
    have e : X / H * (99 / 100 * H) = 99 / 100 * X := by field_simp
    linarith
  have q2 := h.div (A.sub e1' e2') (A.sub x1 x2) d0.ne'
  have q3 : |val (A.div (A.sub e1' e2') (A.sub x1 x2))| ≤ 10102 / 10000 * (X / H) + u := by
    have t := abs_add_le (val (A.div (A.sub e1' e2') (A.sub x1 x2)) - kept (A.sub e1' e2') / kept (A.sub x1 x2))
      (kept (A.sub e1' e2') / kept (A.sub x1 x2))
    rw [sub_add_cancel] at t
    have a : u * |kept (A.sub e1' e2') / kept (A.sub x1 x2)| ≤ 1 / 10 ^ 5 * (100 / 99 * (X / H)) := mul_le_mul hu' q1 (abs_nonneg _) (by norm_num)
    linarith
  have q4 := h.store (A.div (A.sub e1' e2') (A.sub x1 x2))
  have t := abs_add_le (kept (A.div (A.sub e1' e2') (A.sub x1 x2)) - val (A.div (A.sub e1' e2') (A.sub x1 x2)))
    (val (A.div (A.sub e1' e2') (A.sub x1 x2)))
  rw [sub_add_cancel] at t
  have a : u * |val (A.div (A.sub e1' e2') (A.sub x1 x2))| ≤ 1 / 10 ^ 5 * (10102 / 10000 * (X / H) + u) := mul_le_mul hu' q3 (abs_nonneg _) (by norm_num)
  linarith

/-- An estimate in a generated field is not larger than 54 lengths of the grid. -/
theorem estimate_size {g₀ : SDFGrid ℝ} (hpose : Orthogonal g₀.pose.R) (hspos : 0 < g₀.s)
    (hb0 : ∀ i, g₀.dims.In i → |boundaryDist g₀.s (g₀.data i)| ≤ 2 * N * g₀.s) {q p : Fin 3 → ℝ} {e : ℝ} (hbox : InGridBox (axisCells g₀.dims) g₀.s q)
    (hp : InFrame g₀.pose.R g₀.pose.t q p) (he : g₀.estimate (point4 p) = some (some e)) : |e| ≤ 54 * (N * g₀.s) := by
  have h1 := estimate_in hspos hpose hp hbox
  rw [he] at h1
  have h2 : e = interp3 g₀.s q g₀.dims g₀.cval := Option.some.inj (Option.some.inj h1)
  have h3 := interp3_near hspos hbox (v := g₀.cval) (w := fun _ _ _ => 0) (τ := 2 * N * g₀.s) (by
    intro x y z hcell
    rw [cval_boundaryDist, sub_zero]
    exact hb0 _ (cellIdx_in hcell))
  have h4 : interp3 g₀.s q g₀.dims (fun _ _ _ => 0) = 0 := by
    unfold interp3 interp1
    simp
  rw [h4, sub_zero, ← h2] at h3
  linarith

/-- No component of a computed fine gradient is much larger than 8. -/
theorem fair_fine_bounded {g₀ : SDFGrid ℝ} (hg0 : Generated filled border g₀) (hd : g₀.dims = g.dims) (hs0 : g₀.s = g.s)
    (hP : g₀.pose = g.pose) {ε : ℝ} (hε0 : 0 ≤ ε) (hε1 : ε ≤ 1 / 4)
    (hnear : ∀ i, g.dims.In i → |g.data i - g₀.data i| ≤ ε * |g₀.data i| ∧ |g₀.data i| ≤ 2 * N * g.s)
    (h : FairQuery A val kept u η) (hr : FairRoom u η g.s N) (hf : FairField val kept u g fg) (hint : FormulaInterp A)
    (hN : ∀ a, (axisCells g.dims a : ℝ) ≤ N) {p : Fin 3 → F} {window : F} {w B δ : ℝ} (hw : val (A.abs window) = w) (hw0 : 0 < w)
    (hB : ∀ a, |val (p a)| ≤ B) (hδ' : u * (B + w) + η ≤ w / 1000) (hloc : FairLocated A val δ w g fg p) {v' : Fin 3 → F}
    (hv' : flFine A fg p window = .value v') (a : Fin 3) :
    |kept (v' a)| ≤ 8 + (3 * ((174000 * (u * N) + 54 * ε) * (N * g.s)) + 3000 * (u * N) * g.s + 30 * δ) / w := by
  have hva := flFine_parts _ _ hv' a
  have hspos := hr.s0
  have hu := hr.u0
  have hη0 := hr.eta0
  have hN1 := hr.one_le
  have huN : u ≤ u * N := le_mul_of_one_le_right hu hN1
  have hu' : u ≤ 1 / 10 ^ 5 := huN.trans hr.small
  have hNs : g.s ≤ N * g.s := by nlinarith
  have hNs0 : 0 ≤ N * g.s := by linarith
  obtain ⟨hbd, hb0⟩ := twin_boundary hg0 hd hs0 hspos hN1 hε0 hε1 hnear
  have hRP : Orthogonal g.pose.R := by rw [← hP]; exact hg0.pose
  obtain ⟨y0, hy0⟩ := exists_frame hRP (fun b => val (p b))
  have hδ0 : 0 ≤ δ := (abs_nonneg _).trans (hloc p y0 hy0 (by intro a; rw [sub_self, abs_zero]; positivity) 0)
  obtain ⟨E, hEdef⟩ : ∃ E, E = (174000 * (u * N) + 54 * ε) * (N * g.s) := ⟨_, rfl⟩
  rw [← hEdef]
  have hE0 : 0 ≤ E := by
    rw [hEdef]
    have := hu.trans huN
    positivity
  have hEM : E ≤ 54 * (N * g.s) := by
    rw [hEdef]
    refine mul_le_mul_of_nonneg_right ?_ hNs0
    have := hr.small
    linarith
  obtain ⟨δ', hδe⟩ : ∃ d, d = u * (B + w) + η := ⟨_, rfl⟩
  rw [← hδe] at hδ'
  have hB0 : 0 ≤ B := (abs_nonneg _).trans (hB 0)
  have uB0 : 0 ≤ u * B := mul_nonneg hu hB0
  have uw0 : 0 ≤ u * w := mul_nonneg hu hw0.le
  have hδ'0 : 0 ≤ δ' := by rw [hδe, mul_add]; linarith
  have sample : ∀ (x e' : F), |val x - val (p a)| ≤ 2 * w → answered (flEstimate A fg (flMoved A p a x)) = some e' →
      ∃ P e, g₀.estimate (point4 P) = some (some e) ∧ |kept e' - e| ≤ E ∧ |e| ≤ 54 * (N * g.s) ∧
      dist3 P (fun b => if b = a then val x else val (p b)) ≤ 2 * (60 * (u * N) * g.s + δ) := by
    intro x e' hx he
    have he' : flEstimate A fg (flMoved A p a x) = .value e' := by
      rcases hh : flEstimate A fg (flMoved A p a x) with _ | _ | _ | z
      · rw [hh] at he; cases he
      · rw [hh] at he; cases he
      · rw [hh] at he; cases he
      · rw [hh] at he; cases he; rfl
    obtain ⟨q', p', e₁, hbox, hq', hp', he₁, hb⟩ := fair_near hg0.pose hd hs0 hε1 hbd hb0 h hr hf hint hN he'
    rw [← hEdef] at hb
    have hsz := estimate_size (N := N) hg0.pose hg0.pos (by rw [hd, hs0]; exact hb0) (by rw [hd, hs0]; exact hbox) hp' he₁
    rw [hs0] at hsz
    obtain ⟨z, hz⟩ := exists_frame hRP (fun b => if b = a then val x else val (p b))
    refine ⟨p', e₁, he₁, hb, hsz, ?_⟩
    rw [dist3_frame hg0.pose hp' (by rw [hP]; exact hz)]
    have ev : ∀ b, val ((flMoved A p a x).v b) = if b = a then val x else val (p b) := by
      intro b
      show val (if b = a then x else p b) = _
      split_ifs <;> rfl
    refine dist3_le_of_coords fun b => ?_
    have s3 : |val (fg.toGrid (flMoved A p a x) b) - z b| ≤ δ := by
      refine hloc (flMoved A p a x).v z (by rw [funext ev]; exact hz) (fun c => ?_) b
      rw [ev]
      by_cases hc : c = a
      · subst hc; rw [if_pos rfl]; exact hx
      · rw [if_neg hc, sub_self, abs_zero]; positivity
    have t1 := abs_sub_le (q' b) (val (fg.toGrid (flMoved A p a x) b)) (z b)
    have := hq' b
    linarith
  have pair : ∀ (x1 x2 e1' e2' : F) (H : ℝ), w ≤ H → H ≤ 2 * w → |val x1 - val (p a)| ≤ w + δ' → |val x2 - val (p a)| ≤ w + δ' →
      |val x1 - val x2 - H| ≤ 2 * δ' → answered (flEstimate A fg (flMoved A p a x1)) = some e1' →
      answered (flEstimate A fg (flMoved A p a x2)) = some e2' →
      |kept (A.div (A.sub e1' e2') (A.sub x1 x2))| ≤ 8 + (3 * E + 3000 * (u * N) * g.s + 30 * δ) / w := by
    intro x1 x2 e1' e2' H hH hH2 h1 h2 h12 he1 he2
    obtain ⟨P1, e1, hP1, hb1, hm1, hd1⟩ := sample x1 e1' (by linarith) he1
    obtain ⟨P2, e2, hP2, hb2, hm2, hd2⟩ := sample x2 e2' (by linarith) he2
    have hHpos : 0 < H := lt_of_lt_of_le hw0 hH
    have hXX : dist3 (fun b => if b = a then val x1 else val (p b)) (fun b => if b = a then val x2 else val (p b)) = |val x1 - val x2| := by
      unfold dist3
      rw [← Real.sqrt_sq_eq_abs]
      congr 1
      fin_cases a <;> simp
    have hlen : |val x1 - val x2| ≤ H + 2 * δ' := by
      have := abs_add_le (val x1 - val x2 - H) H
      rw [sub_add_cancel, abs_of_pos hHpos] at this
      linarith
    have hdist : dist3 P1 P2 ≤ H + 2 * δ' + 4 * (60 * (u * N) * g.s + δ) := by
      have t1 := dist3_triangle P1 (fun b => if b = a then val x1 else val (p b)) P2
      have t2 := dist3_triangle (fun b => if b = a then val x1 else val (p b)) (fun b => if b = a then val x2 else val (p b)) P2
      rw [dist3_comm P2] at hd2
      linarith
    have hlip := (C59_lipschitz_everywhere hg0 hP1 hP2).trans (mul_le_mul four_sqrt3 hdist (Real.sqrt_nonneg _) (by norm_num))
    have size : ∀ {x : F}, |val x - val (p a)| ≤ w + δ' → |val x| ≤ B + w + δ' := by
      intro x hx
      have t := abs_add_le (val x - val (p a)) (val (p a))
      rw [sub_add_cancel] at t
      linarith [hB a]
    have uδ : u * δ' ≤ 1 / 10 ^ 5 * δ' := mul_le_mul_of_nonneg_right hu' hδ'0
    have hsl := fair_slope h hu hu' hη0 (M := 54 * (N * g.s)) (C := B + w + δ') (δ' := δ') (H := H) hb1 hb2 hm1 hm2 hEM
      (hr.eta_s.trans (mul_le_mul_of_nonneg_left (by linarith) hu)) hr.eta (size h1) (size h2) hHpos h12
      (by rw [show u * (2 * (B + w + δ')) = 2 * (u * (B + w)) + 2 * (u * δ') by ring]; linarith)
      (by
        have : u * H ≤ u * (2 * w) := mul_le_mul_of_nonneg_left hH2 hu
        have e : u * (B + w) = u * B + u * w := by ring
        linarith) (by linarith)
    refine hsl.trans ?_
    obtain ⟨T, hT⟩ : ∃ T, T = u * N * g.s := ⟨_, rfl⟩
    have hT0 : 0 ≤ T := by rw [hT]; positivity
    have e1T : 60 * (u * N) * g.s = 60 * T := by rw [hT]; ring
    have e2T : u * (54 * (N * g.s)) = 54 * T := by rw [hT]; ring
    have e3T : 3000 * (u * N) * g.s = 3000 * T := by rw [hT]; ring
    rw [e1T] at hlip
    rw [e2T, e3T]
    have num : |e1 - e2| + 2 * E + 19 * (54 * T) ≤ 7014 / 1000 * H + (2706 * T + 28 * δ + 2 * E) := by linarith
    have s1 : (|e1 - e2| + 2 * E + 19 * (54 * T)) / H ≤ 7014 / 1000 + (2706 * T + 28 * δ + 2 * E) / w := by
      have c1 : (2706 * T + 28 * δ + 2 * E) / H ≤ (2706 * T + 28 * δ + 2 * E) / w := div_le_div_of_nonneg_left (by positivity) hw0 hH
      have c2 := div_le_div_of_nonneg_right num hHpos.le
      rw [add_div (7014 / 1000 * H), mul_div_assoc (7014 / 1000) H, div_self hHpos.ne', mul_one] at c2
      linarith
    have s2 : 1012 / 1000 * ((2706 * T + 28 * δ + 2 * E) / w) ≤ (3 * E + 3000 * T + 30 * δ) / w := by
      rw [← mul_div_assoc]
      refine div_le_div_of_nonneg_right ?_ hw0.le
      linarith
    linarith
  have sm : |val (A.sub (p a) (A.abs window)) - (val (p a) - w)| ≤ δ' := by
    have t := h.sub (p a) (A.abs window)
    rw [hw, abs_of_pos hw0] at t
    have : u * (|val (p a)| + w) ≤ u * (B + w) := mul_le_mul_of_nonneg_left (by linarith [hB a]) hu
    linarith
  have sp : |val (A.add (p a) (A.abs window)) - (val (p a) + w)| ≤ δ' := by
    have t := h.add (p a) (A.abs window)
    rw [hw, abs_of_pos hw0] at t
    have : u * (|val (p a)| + w) ≤ u * (B + w) := mul_le_mul_of_nonneg_left (by linarith [hB a]) hu
    linarith
  generalize A.sub (p a) (A.abs window) = xm at *
  generalize A.add (p a) (A.abs window) = xp at *
  have rm := abs_le.1 sm
  have rp := abs_le.1 sp
  have hxm : |val xm - val (p a)| ≤ w + δ' := by rw [abs_le]; constructor <;> linarith
  have hxp : |val xp - val (p a)| ≤ w + δ' := by rw [abs_le]; constructor <;> linarith
  have hx0 : |val (p a) - val (p a)| ≤ w + δ' := by rw [sub_self, abs_zero]; positivity
  have self : flMoved A p a (p a) = ⟨p, A.one⟩ := by
    unfold flMoved
    congr 1
    funext b
    by_cases hb : b = a
    · rw [if_pos hb, hb]
    · rw [if_neg hb]
  rcases hc : answered (flEstimate A fg ⟨p, A.one⟩) with _ | c
  · rw [hc] at hva; cases hva
  rcases hm : answered (flEstimate A fg (flMoved A p a xm)) with _ | m <;>
  rcases hpl : answered (flEstimate A fg (flMoved A p a xp)) with _ | pl
  · rw [hc, hm, hpl] at hva; cases hva
  · rw [hc, hm, hpl] at hva
    rw [← Option.some.inj hva]
    refine pair _ _ _ _ w le_rfl (by linarith) hxp hx0 ?_ hpl (by rw [self]; exact hc)
    rw [abs_le]; constructor <;> linarith
  · rw [hc, hm, hpl] at hva
    rw [← Option.some.inj hva]
    refine pair _ _ _ _ w le_rfl (by linarith) hx0 hxm ?_ (by rw [self]; exact hc) hm
    rw [abs_le]; constructor <;> linarith
  · rw [hc, hm, hpl] at hva
    rw [← Option.some.inj hva]
    refine pair _ _ _ _ (2 * w) (by linarith) le_rfl hxp hxm ?_ hpl hm
    rw [abs_le]; constructor <;> linarith

/-- C91. In any accurate arithmetic, no component of a fine gradient of a generated field is larger than 8 by more than the errors of the estimates and of
the locations divided by the window. -/
theorem C91_fine (hg : GeneratedBy ro filled border g) (hrr : ro.rr = roundDouble) {k : ℕ} {emin : ℤ} (hc : ro.cast = rne k emin) {v : ℝ}
    (hv : (2 : ℝ) ^ (-(k : ℤ)) = v) (hv2 : v ≤ 2 ^ (-24 : ℤ)) (hemin : emin + k ≤ -100) (hs : (2 : ℝ) ^ (-100 : ℤ) ≤ g.s)
    (h : FairQuery A val kept u η) (hr : FairRoom u η g.s N) (hf : FairField val kept u g fg) (hint : FormulaInterp A)
    (hN : ∀ a, (axisCells g.dims a : ℝ) ≤ N) {p : Fin 3 → F} {window : F} {w B δ : ℝ} (hw : val (A.abs window) = w) (hw0 : 0 < w)
    (hB : ∀ a, |val (p a)| ≤ B) (hδ' : u * (B + w) + η ≤ w / 1000) (hloc : FairLocated A val δ w g fg p) {v' : Fin 3 → F}
    (hv' : flFine A fg p window = .value v') (a : Fin 3) :
    |kept (v' a)| ≤ 8 + (3 * ((174000 * (u * N) + 54 * (v + 2 ^ (-51 : ℤ))) * (N * g.s)) + 3000 * (u * N) * g.s + 30 * δ) / w := by
  obtain ⟨g₀, hg0, hd, hs0, hP, hnear⟩ := hg.exact_twin hrr hc hv hv2 hemin hs hN
  have hv0 : 0 ≤ v := by rw [← hv]; positivity
  exact fair_fine_bounded hg0 hd hs0 hP (by positivity) (by norm_num at hv2 ⊢; linarith) hnear h hr hf hint hN hw hw0 hB hδ' hloc hv' a

/-- Where conversions to indices are defined, there is a fine gradient if there are answers at the location and on one side of it along each axis. -/
theorem fair_fine_defined (hdef : ∀ loc a, (A.toInt (A.mul (fg.toGrid loc a) fg.inv)).isSome = true) {p : Fin 3 → F} {window : F}
    (h0 : ∃ e, flEstimate A fg ⟨p, A.one⟩ = .value e)
    (h1 : ∀ b, (∃ e, flEstimate A fg (flMoved A p b (A.sub (p b) (A.abs window))) = .value e) ∨
      ∃ e, flEstimate A fg (flMoved A p b (A.add (p b) (A.abs window))) = .value e) : ∃ v, flFine A fg p window = .value v := by
  choose j hj using fun loc a => Option.isSome_iff_exists.1 (hdef loc a)
  have inside : ∀ {loc : Vec4 F}, (∃ e, flEstimate A fg loc = .value e) → CellInGrid (axisCells fg.dims) (j loc) := by
    rintro loc ⟨e, he⟩
    by_contra hn
    obtain ⟨-, -, h⟩ := C65_estimate A fg loc
    rw [(h (j loc) (hj loc)).1 hn] at he
    cases he
  exact (C65_fine A fg (hj ⟨p, A.one⟩) (fun b => hj (flMoved A p b (A.sub (p b) (A.abs window))))
    (fun b => hj (flMoved A p b (A.add (p b) (A.abs window))))).2.1 (inside h0) (fun b => (h1 b).imp inside inside)

end

section
variable {filled : Idx → Bool} {border left : Bool} {g : SDFGrid ℝ} {N : ℝ} {norm : (Fin 3 → FusedReal) → FusedReal}
  {interp : (Fin 3 → FusedReal) → (Fin 3 → FusedReal) → (Bool → Bool → Bool → FusedReal) → (Fin 3 → FusedReal) → FusedReal}
  {toGrid : Vec4 FusedReal → Fin 3 → FusedReal} {toWorld rotate : (Fin 3 → FusedReal) → Fin 3 → FusedReal}

theorem fair_window {B w : ℝ} (hw : (2 : ℝ) ^ (-1000 : ℤ) ≤ w) (hBw : B ≤ 2 ^ 40 * w) :
    3 * 2 ^ (-53 : ℤ) * (B + w) + 3 * 2 ^ (-1075 : ℤ) ≤ w / 1000 := by
  have e53 : (2 : ℝ) ^ (-53 : ℤ) = 1 / 2 ^ 53 := by rw [zpow_neg, one_div]; norm_cast
  have e : (2 : ℝ) ^ (-1075 : ℤ) = 1 / 2 ^ 75 * 2 ^ (-1000 : ℤ) := by
    rw [show (-1075 : ℤ) = -75 + -1000 by norm_num, zpow_add₀ (by norm_num), zpow_neg (2 : ℝ) 75, one_div]
    norm_cast
  have h0 : (0 : ℝ) ≤ 2 ^ (-1000 : ℤ) := by positivity
  rw [e, e53]
  generalize (2 : ℝ) ^ (-1000 : ℤ) = z at *
  norm_num at hBw ⊢
  linarith

/-- C91, `SignedDistanceField<float>` queried in `double` with fused products and sums. -/
theorem C91_fine_fused_float (hg : GeneratedBy floatSDF filled border g) (hs : (2 : ℝ) ^ (-100 : ℤ) ≤ g.s) (hs' : g.s ≤ 2 ^ (100 : ℤ))
    (h1 : 1 ≤ N) (hN' : N ≤ 2 ^ 34) (hN : ∀ a, (axisCells g.dims a : ℝ) ≤ N)
    (hint : interp = flTrilinear (fusedReal roundDouble left) ∨ interp = flBilinear (fusedReal roundDouble left))
    {p : Fin 3 → FusedReal} {window : FusedReal} {w B δ : ℝ} (hw : |FusedReal.kept roundDouble window| = w) (hw0 : (2 : ℝ) ^ (-1000 : ℤ) ≤ w)
    (hB : ∀ a, |(p a).1| ≤ B) (hBw : B ≤ 2 ^ 40 * w)
    (hloc : FairLocated (fusedQuery roundDouble left norm interp) Prod.fst δ w g (g.inMemory roundDouble toGrid toWorld rotate) p) {v' : Fin 3 → FusedReal}
    (hv' : flFine (fusedQuery roundDouble left norm interp) (g.inMemory roundDouble toGrid toWorld rotate) p window = .value v') (a : Fin 3) :
    |FusedReal.kept roundDouble (v' a)| ≤ 8 + 3 * ((N / 2 ^ 18 + N ^ 2 / 2 ^ 34) * g.s + 10 * δ) / w := by
  have hpos : 0 < g.s := lt_of_lt_of_le (by positivity) hs
  have hwp : 0 < w := lt_of_lt_of_le (by positivity) hw0
  refine (C91_fine hg rfl (k := 24) (emin := -149) rfl rfl (by norm_num) (by norm_num) hs fused_double_fair (fair_room_double hs hs' h1 hN')
    (inMemory_double hs hs') hint hN hw hwp hB (fair_window hw0 hBw) hloc hv' a).trans ?_
  refine add_le_add le_rfl (div_le_div_of_nonneg_right ?_ hwp.le)
  have e1 : 0 ≤ N * g.s := by positivity
  have e2 : 0 ≤ N ^ 2 * g.s := by positivity
  norm_num
  nlinarith

/-- C91, `SignedDistanceField<double>`. -/
theorem C91_fine_fused_double (hg : GeneratedBy doubleSDF filled border g) (hs : (2 : ℝ) ^ (-100 : ℤ) ≤ g.s) (hs' : g.s ≤ 2 ^ (100 : ℤ))
    (h1 : 1 ≤ N) (hN' : N ≤ 2 ^ 34) (hN : ∀ a, (axisCells g.dims a : ℝ) ≤ N)
    (hint : interp = flTrilinear (fusedReal roundDouble left) ∨ interp = flBilinear (fusedReal roundDouble left))
    {p : Fin 3 → FusedReal} {window : FusedReal} {w B δ : ℝ} (hw : |FusedReal.kept roundDouble window| = w) (hw0 : (2 : ℝ) ^ (-1000 : ℤ) ≤ w)
    (hB : ∀ a, |(p a).1| ≤ B) (hBw : B ≤ 2 ^ 40 * w)
    (hloc : FairLocated (fusedQuery roundDouble left norm interp) Prod.fst δ w g (g.inMemory roundDouble toGrid toWorld rotate) p) {v' : Fin 3 → FusedReal}
    (hv' : flFine (fusedQuery roundDouble left norm interp) (g.inMemory roundDouble toGrid toWorld rotate) p window = .value v') (a : Fin 3) :
    |FusedReal.kept roundDouble (v' a)| ≤ 8 + 3 * ((N / 2 ^ 40 + N ^ 2 / 2 ^ 34) * g.s + 10 * δ) / w := by
  have hpos : 0 < g.s := lt_of_lt_of_le (by positivity) hs
  have hwp : 0 < w := lt_of_lt_of_le (by positivity) hw0
  refine (C91_fine hg rfl (k := 53) (emin := -1074) rfl rfl (by norm_num) (by norm_num) hs fused_double_fair (fair_room_double hs hs' h1 hN')
    (inMemory_double hs hs') hint hN hw hwp hB (fair_window hw0 hBw) hloc hv' a).trans ?_
  refine add_le_add le_rfl (div_le_div_of_nonneg_right ?_ hwp.le)
  have e1 : 0 ≤ N * g.s := by positivity
  have e2 : 0 ≤ N ^ 2 * g.s := by positivity
  norm_num
  nlinarith

end

end VGT
