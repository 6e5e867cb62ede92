import Verif.Props.FairFineWorld

/-!
C91: fine gradients are those of the exact field up to a tolerance, in any accurate arithmetic.
-/
set_option autoImplicit false

namespace VGT
open VGT.EDT VGT.Spec

section
variable {F : Type} {A : QueryArith F} {val kept : F → ℝ} {u η N : ℝ} {ro : Rounding} {filled : Idx → Bool} {border : Bool} {g : SDFGrid ℝ}
  {fg : FlSDF F}

/-- Numerator and denominator of a computed difference quotient. -/
theorem fair_parts (h : FairQuery A val kept u η) (hu : 0 ≤ u) (hu' : u ≤ 1 / 10 ^ 5) {e1' e2' x1 x2 : F} {e1 e2 E M C δ' H : ℝ}
    (h1 : |kept e1' - e1| ≤ E) (h2 : |kept e2' - e2| ≤ E) (m1 : |e1| ≤ M) (m2 : |e2| ≤ M) (hE : E ≤ M) (hηM : η ≤ u * M)
    (c1 : |val x1| ≤ C) (c2 : |val x2| ≤ C) (hH : 0 < H) (h12 : |val x1 - val x2 - H| ≤ 2 * δ') (hC : u * (2 * C) + η ≤ 3 * δ')
    (huH : u * H + η ≤ 2 * δ') :
    |kept (A.sub e1' e2') - (e1 - e2)| ≤ 2 * E + 19 * (u * M) ∧ |kept (A.sub x1 x2) - H| ≤ 8 * δ' := by
  have hM : 0 ≤ M := (abs_nonneg _).trans m1
  have huM : u * M ≤ 1 / 10 ^ 5 * M := mul_le_mul_of_nonneg_right hu' hM
  have huM0 : 0 ≤ u * M := mul_nonneg hu hM
  have value : ∀ {e' : F} {e : ℝ}, |kept e' - e| ≤ E → |e| ≤ M → |val e'| ≤ 21 / 10 * M ∧ |val e' - e| ≤ E + 31 / 10 * (u * M) := by
    intro e' e p q
    have s := h.store e'
    have a1 := abs_sub_abs_le_abs_sub (val e') (kept e')
    rw [abs_sub_comm] at a1
    have a2 := abs_add_le (kept e' - e) e
    rw [sub_add_cancel] at a2
    have a3 : u * |val e'| ≤ 1 / 10 ^ 5 * |val e'| := mul_le_mul_of_nonneg_right hu' (abs_nonneg _)
    have b : |val e'| ≤ 21 / 10 * M := by linarith
    have a4 : u * |val e'| ≤ u * (21 / 10 * M) := mul_le_mul_of_nonneg_left b hu
    have a5 := abs_sub_le (val e') (kept e') e
    rw [abs_sub_comm (val e') (kept e')] at a5
    exact ⟨b, by linarith⟩
  obtain ⟨v1, w1⟩ := value h1 m1
  obtain ⟨v2, w2⟩ := value h2 m2
  constructor
  · have n1 := h.sub e1' e2'
    have n2 : u * (|val e1'| + |val e2'|) ≤ u * (21 / 10 * M + 21 / 10 * M) := mul_le_mul_of_nonneg_left (by linarith) hu
    have n3 : |val (A.sub e1' e2') - (e1 - e2)| ≤ 2 * E + 115 / 10 * (u * M) := by
      have t1 := abs_sub_le (val (A.sub e1' e2')) (val e1' - val e2') (e1 - e2)
      have t2 : |val e1' - val e2' - (e1 - e2)| ≤ |val e1' - e1| + |val e2' - e2| := by
        rw [show val e1' - val e2' - (e1 - e2) = (val e1' - e1) - (val e2' - e2) by ring]
        exact abs_sub _ _
      linarith
    have n4 : |val (A.sub e1' e2')| ≤ |e1 - e2| + 2 * E + 115 / 10 * (u * M) := by
      have t := abs_add_le (val (A.sub e1' e2') - (e1 - e2)) (e1 - e2)
      rw [sub_add_cancel] at t
      linarith
    have n5 : |e1 - e2| ≤ 2 * M := by have := abs_sub e1 e2; linarith
    have s := h.store (A.sub e1' e2')
    have t := abs_sub_le (kept (A.sub e1' e2')) (val (A.sub e1' e2')) (e1 - e2)
    have : u * |val (A.sub e1' e2')| ≤ u * (5 * M) := mul_le_mul_of_nonneg_left (by linarith) hu
    linarith
  · have d1 := h.sub x1 x2
    have d2 : u * (|val x1| + |val x2|) ≤ u * (2 * C) := mul_le_mul_of_nonneg_left (by linarith) hu
    have d3 : |val (A.sub x1 x2) - H| ≤ 5 * δ' := by
      have t := abs_sub_le (val (A.sub x1 x2)) (val x1 - val x2) H
      linarith
    have hδ0 : 0 ≤ δ' := by
      have := (abs_nonneg _).trans h12
      linarith
    have s := h.store (A.sub x1 x2)
    have t := abs_add_le (val (A.sub x1 x2) - H) H
    rw [sub_add_cancel, abs_of_pos hH] at t
    have a1 : u * |val (A.sub x1 x2)| ≤ u * (H + 5 * δ') := mul_le_mul_of_nonneg_left (by linarith) hu
    have a2 : u * δ' ≤ 1 / 10 ^ 5 * δ' := mul_le_mul_of_nonneg_right hu' hδ0
    have a3 := abs_sub_le (kept (A.sub x1 x2)) (val (A.sub x1 x2)) H
    linarith

/-- A computed quotient against `a/H`. -/
theorem fair_ratio (h : FairQuery A val kept u η) (hu : 0 ≤ u) (hu' : u ≤ 1 / 10 ^ 5) (hη : η ≤ u) {n d : F} {a H T δ' : ℝ}
    (hn : |kept n - a| ≤ T) (hd : |kept d - H| ≤ 8 * δ') (hH : 0 < H) (hδ' : δ' ≤ H / 1000) (ha : |a| ≤ 7 * H) :
    |kept (A.div n d) - a / H| ≤ (102 / 100 * T + 58 * δ') / H + 18 * u := by
  have hδ0 : 0 ≤ δ' := by
    have := (abs_nonneg _).trans hd
    linarith
  have hT0 : 0 ≤ T := (abs_nonneg _).trans hn
  have d1 : 99 / 100 * H ≤ kept d := by
    have := (abs_le.1 hd).1
    linarith
  have d0 : 0 < kept d := lt_of_lt_of_le (by positivity) d1
  obtain ⟨Z, hZ⟩ : ∃ Z, Z = (100 / 99 * T + 5657 / 100 * δ') / H := ⟨_, rfl⟩
  have hZ0 : 0 ≤ Z := by rw [hZ]; positivity
  have q0 : |kept n / kept d - a / H| ≤ Z := by
    have e : kept n / kept d - a / H = ((kept n - a) * H - a * (kept d - H)) / (kept d * H) := by
      field_simp
      ring
    rw [e, abs_div, abs_of_pos (mul_pos d0 hH), div_le_iff₀ (mul_pos d0 hH)]
    have t := abs_sub ((kept n - a) * H) (a * (kept d - H))
    rw [abs_mul, abs_mul, abs_of_pos hH] at t
    have t1 : |kept n - a| * H ≤ T * H := mul_le_mul_of_nonneg_right hn hH.le
    have t2 : |a| * |kept d - H| ≤ 7 * H * (8 * δ') := mul_le_mul ha hd (abs_nonneg _) (by positivity)
    have e2 : Z * (kept d * H) = (100 / 99 * T + 5657 / 100 * δ') * kept d := by
      rw [hZ]
      field_simp
    have t3 : (100 / 99 * T + 5657 / 100 * δ') * (99 / 100 * H) ≤ (100 / 99 * T + 5657 / 100 * δ') * kept d :=
      mul_le_mul_of_nonneg_left d1 (by positivity)
    have e3 : (100 / 99 * T + 5657 / 100 * δ') * (99 / 100 * H) = T * H + 560043 / 10000 * (δ' * H) := by ring
    have e4 : 0 ≤ δ' * H := by positivity
    linarith
  have q1 : |kept n / kept d| ≤ 7 + Z := by
    have t := abs_add_le (kept n / kept d - a / H) (a / H)
    rw [sub_add_cancel] at t
    have : |a / H| ≤ 7 := by
      rw [abs_div, abs_of_pos hH, div_le_iff₀ hH]
      exact ha
    linarith
  have q2 := h.div n d d0.ne'
  have uZ : u * Z ≤ 1 / 10 ^ 5 * Z := mul_le_mul_of_nonneg_right hu' hZ0
  have uu : u * u ≤ 1 / 10 ^ 5 * u := mul_le_mul_of_nonneg_right hu' hu
  have q3 : u * |kept n / kept d| ≤ 7 * u + 1 / 10 ^ 5 * Z := by
    have := mul_le_mul_of_nonneg_left q1 hu
    rw [mul_add] at this
    linarith
  have q4 : |val (A.div n d)| ≤ 7 + 2 * Z + 8 * u := by
    have t := abs_add_le (val (A.div n d) - kept n / kept d) (kept n / kept d)
    rw [sub_add_cancel] at t
    linarith
  have q5 : u * |val (A.div n d)| ≤ 7 * u + 2 / 10 ^ 5 * Z + 8 / 10 ^ 5 * u := by
    have := mul_le_mul_of_nonneg_left q4 hu
    rw [show u * (7 + 2 * Z + 8 * u) = 7 * u + 2 * (u * Z) + 8 * (u * u) by ring] at this
    linarith
  have q6 := h.store (A.div n d)
  have t1 := abs_sub_le (kept (A.div n d)) (val (A.div n d)) (a / H)
  have t2 := abs_sub_le (val (A.div n d)) (kept n / kept d) (a / H)
  have last : 1001 / 1000 * Z ≤ (102 / 100 * T + 58 * δ') / H := by
    rw [hZ, ← mul_div_assoc]
    refine div_le_div_of_nonneg_right ?_ hH.le
    linarith
  linarith

/-- A computed fine gradient against that of an exactly generated field, where there is room for both neighbours. -/
theorem fair_fine_near {g₀ : SDFGrid ℝ} (hg0 : Generated filled border g₀) (hd : g₀.dims = g.dims) (hs0 : g₀.s = g.s)
    (hP : g₀.pose = g.pose) {ε : ℝ} (hε0 : 0 ≤ ε) (hε1 : ε ≤ 1 / 4)
    (hnear : ∀ i, g.dims.In i → |g.data i - g₀.data i| ≤ ε * |g₀.data i| ∧ |g₀.data i| ≤ 2 * N * g.s)
    (h : FairQuery A val kept u η) (hr : FairRoom u η g.s N) (hf : FairField val kept u g fg) (hint : FormulaInterp A)
    (hN : ∀ a, (axisCells g.dims a : ℝ) ≤ N) (hdef : ∀ loc a, (A.toInt (A.mul (fg.toGrid loc a) fg.inv)).isSome = true)
    {p : Fin 3 → F} {q : Fin 3 → ℝ} (hq : InFrame g.pose.R g.pose.t q (fun a => val (p a))) {window : F} {W w B δ : ℝ}
    (hw : val (A.abs window) = w) (hW : |W| = w) (hw0 : 0 < w)
    (hB : ∀ a, |val (p a)| ≤ B) (hδ' : u * (B + w) + η ≤ w / 1000) (hloc : FairLocated A val δ w g fg p)
    (hroom : ∀ a, 2 * w + δ + 30 * (u * N) * g.s ≤ q a ∧ q a + (2 * w + δ + 30 * (u * N) * g.s) < axisCells g.dims a * g.s) :
    ∃ v' v₀, flFine A fg p window = .value v' ∧ g₀.fine (fun a => val (p a)) W = .value v₀ ∧ ∀ a, |kept (v' a) - v₀ a| ≤
      (2 * ((174000 * (u * N) + 54 * ε) * (N * g.s)) + 1500 * (u * N) * g.s + 15 * δ + 44 * (u * (B + w) + η)) / w + 18 * u := by
  have hspos := hr.s0
  have hu := hr.u0
  have hη0 := hr.eta0
  have hN1 := hr.one_le
  have huN : u ≤ u * N := le_mul_of_one_le_right hu hN1
  have hu' : u ≤ 1 / 10 ^ 5 := huN.trans hr.small
  have hNs1 : g.s ≤ N * g.s := by nlinarith
  have hNs0 : 0 ≤ N * g.s := by linarith
  have hNs : ∀ a, (axisCells g.dims a : ℝ) * g.s ≤ N * g.s := fun a => mul_le_mul_of_nonneg_right (hN a) hspos.le
  obtain ⟨T, hT⟩ : ∃ T, T = u * N * g.s := ⟨_, rfl⟩
  have hT0 : 0 ≤ T := by rw [hT]; have := hu.trans huN; positivity
  have hTs : T ≤ 1 / 10 ^ 5 * g.s := by rw [hT]; exact mul_le_mul_of_nonneg_right hr.small hspos.le
  have e30 : 30 * (u * N) * g.s = 30 * T := by rw [hT]; ring
  have e1500 : 1500 * (u * N) * g.s = 1500 * T := by rw [hT]; ring
  rw [e30] at hroom
  rw [e1500]
  obtain ⟨hbd, hb0⟩ := twin_boundary hg0 hd hs0 hspos hN1 hε0 hε1 hnear
  have hRP : Orthogonal g.pose.R := by rw [← hP]; exact hg0.pose
  have hδ0 : 0 ≤ δ := (abs_nonneg _).trans (hloc p q hq (by intro a; rw [sub_self, abs_zero]; positivity) 0)
  obtain ⟨E, hEdef⟩ : ∃ E, E = (174000 * (u * N) + 54 * ε) * (N * g.s) := ⟨_, rfl⟩
  rw [← hEdef]
  have hE0 : 0 ≤ E := by
    rw [hEdef]
    have := hu.trans huN
    positivity
  have hEM : E ≤ 16 * (N * g.s) := by
    rw [hEdef]
    refine mul_le_mul_of_nonneg_right ?_ hNs0
    have := hr.small
    linarith
  obtain ⟨δ', hδe⟩ : ∃ d, d = u * (B + w) + η := ⟨_, rfl⟩
  rw [← hδe] at hδ' ⊢
  have hB0 : 0 ≤ B := (abs_nonneg _).trans (hB 0)
  have uB0 : 0 ≤ u * B := mul_nonneg hu hB0
  have uw0 : 0 ≤ u * w := mul_nonneg hu hw0.le
  have hδ'0 : 0 ≤ δ' := by rw [hδe, mul_add]; linarith
  have hδN : δ ≤ N * g.s := by
    have h0 := hroom 0
    have := hNs 0
    linarith
  have hwN : w ≤ N * g.s := by
    have h0 := hroom 0
    have := hNs 0
    linarith
  have hp : WorldIn (axisCells g.dims) g.s g.pose.R g.pose.t (fun a => val (p a)) :=
    ⟨q, hq, fun a => ⟨by linarith [(hroom a).1], by linarith [(hroom a).2]⟩⟩
  have sample : ∀ (a : Fin 3) (σ : ℝ) (x : F), |σ| ≤ w → |val x - (val (p a) + σ)| ≤ δ' → ∃ e' e,
      flEstimate A fg (flMoved A p a x) = .value e' ∧ g₀.estimate (point4 (moved (fun a => val (p a)) a σ)) = some (some e) ∧
      |kept e' - e| ≤ E + 14 * (60 * T + δ + δ') ∧ |e| ≤ 54 * (N * g.s) := by
    intro a σ x hσ hx
    obtain ⟨y, hy⟩ := exists_frame hRP (moved (fun a => val (p a)) a σ)
    have ev : ∀ b, val ((flMoved A p a x).v b) = if b = a then val x else val (p b) := by
      intro b
      show val (if b = a then x else p b) = _
      split_ifs <;> rfl
    obtain ⟨z, hz⟩ := exists_frame hRP (fun b => val ((flMoved A p a x).v b))
    have s1 : ∀ b, |y b - q b| ≤ w := by
      intro b
      refine (frame_shift hRP hq hy (a := a) (fun c hc => by unfold moved; rw [Function.update_of_ne hc]) b).trans ?_
      unfold moved
      rw [Function.update_self, add_sub_cancel_left]
      exact hσ
    have s2 : ∀ b, |z b - y b| ≤ δ' := by
      intro b
      refine (frame_shift hRP hy hz (a := a) (fun c hc => by
        rw [ev, if_neg hc]
        unfold moved
        rw [Function.update_of_ne hc]) b).trans ?_
      rw [ev, if_pos rfl]
      unfold moved
      rw [Function.update_self]
      exact hx
    have s3 : ∀ b, |val (fg.toGrid (flMoved A p a x) b) - z b| ≤ δ := by
      refine hloc (flMoved A p a x).v z hz fun b => ?_
      rw [ev]
      by_cases hb : b = a
      · subst hb
        rw [if_pos rfl]
        have := abs_add_le (val x - (val (p b) + σ)) σ
        rw [show val x - (val (p b) + σ) + σ = val x - val (p b) by ring] at this
        linarith
      · rw [if_neg hb, sub_self, abs_zero]
        positivity
    have hin : InGridBox (axisCells g.dims) g.s y := by
      intro b
      have := abs_le.1 (s1 b)
      exact ⟨by linarith [(hroom b).1], by linarith [(hroom b).2]⟩
    obtain ⟨e', he'⟩ := (C86_estimate_defined h hr hf hint hN (hdef (flMoved A p a x))).1 (fun b => by
      have := abs_le.1 (s1 b)
      have := abs_le.1 (s2 b)
      have := abs_le.1 (s3 b)
      have := hroom b
      have e2 : (axisCells g.dims b - 30 * (u * N)) * g.s = axisCells g.dims b * g.s - 30 * T := by rw [hT]; ring
      rw [e30, e2]
      constructor <;> linarith)
    obtain ⟨e, he⟩ := (C15_defined_in_grid hg0.pos hg0.pose (p := moved (fun a => val (p a)) a σ) (q := y) (by rw [hP]; exact hy)).1
      (by rw [hd, hs0]; exact hin)
    obtain ⟨q', p', e₁, -, hq', hp', he₁, hb⟩ := fair_near hg0.pose hd hs0 hε1 hbd hb0 h hr hf hint hN he'
    rw [← hEdef] at hb
    have hsz := estimate_size (N := N) hg0.pose hg0.pos (by rw [hd, hs0]; exact hb0) (by rw [hd, hs0]; exact hin) (by rw [hP]; exact hy) he
    rw [hs0] at hsz
    refine ⟨e', e, he', he, ?_, hsz⟩
    have hlip := C59_lipschitz_everywhere hg0 he₁ he
    have e60 : 60 * (u * N) * g.s = 60 * T := by rw [hT]; ring
    have hdist : dist3 p' (moved (fun a => val (p a)) a σ) ≤ 2 * (60 * T + δ + δ') := by
      rw [dist3_frame hg0.pose hp' (by rw [hP]; exact hy)]
      refine dist3_le_of_coords fun b => ?_
      have t1 := abs_sub_le (q' b) (val (fg.toGrid (flMoved A p a x) b)) (z b)
      have t2 := abs_sub_le (q' b) (z b) (y b)
      have := hq' b
      have := s2 b
      have := s3 b
      linarith
    have h7 : 4 * Real.sqrt 3 * dist3 p' (moved (fun a => val (p a)) a σ) ≤ 7 * (2 * (60 * T + δ + δ')) :=
      mul_le_mul four_sqrt3 hdist (Real.sqrt_nonneg _) (by norm_num)
    have t3 := abs_sub_le (kept e') e₁ e
    linarith
  have round : ∀ a, |val (A.sub (p a) (A.abs window)) - (val (p a) + -w)| ≤ δ' ∧ |val (A.add (p a) (A.abs window)) - (val (p a) + w)| ≤ δ' := by
    intro a
    have t1 := h.sub (p a) (A.abs window)
    have t2 := h.add (p a) (A.abs window)
    rw [hw, abs_of_pos hw0] at t1 t2
    have : u * (|val (p a)| + w) ≤ u * (B + w) := mul_le_mul_of_nonneg_left (by linarith [hB a]) hu
    rw [← sub_eq_add_neg]
    constructor <;> linarith
  have hm := fun a => sample a (-w) _ (by rw [abs_neg, abs_of_pos hw0]) (round a).1
  have hpl := fun a => sample a w _ (by rw [abs_of_pos hw0]) (round a).2
  choose em' em hm1 hm2 hm3 hm4 using hm
  choose ep' ep hp1 hp2 hp3 hp4 using hpl
  obtain ⟨c', hc'⟩ : ∃ c', flEstimate A fg ⟨p, A.one⟩ = .value c' := by
    have hTb : ∀ b, |val (fg.toGrid ⟨p, A.one⟩ b) - q b| ≤ δ := hloc p q hq (by intro a; rw [sub_self, abs_zero]; positivity)
    refine (C86_estimate_defined h hr hf hint hN (hdef ⟨p, A.one⟩)).1 (fun b => ?_)
    have := abs_le.1 (hTb b)
    have := hroom b
    have e2 : (axisCells g.dims b - 30 * (u * N)) * g.s = axisCells g.dims b * g.s - 30 * T := by rw [hT]; ring
    rw [e30, e2]
    constructor <;> linarith
  obtain ⟨v', hv'⟩ := fair_fine_defined hdef ⟨c', hc'⟩ (window := window) fun b => .inl ⟨_, hm1 b⟩
  refine ⟨v', _, hv', fine_central hg0.pos hg0.pose (by rw [hW]; exact hw0) (by rw [hd, hs0, hP]; exact hp)
    (by rw [hW]; exact hm2) (by rw [hW]; exact hp2), fun a => ?_⟩
  rw [hW]
  have hva := flFine_parts _ _ hv' a
  rw [hc', hm1 a, hp1 a] at hva
  rw [← Option.some.inj hva]
  have hL : |ep a - em a| ≤ 7 * (2 * w) := by
    refine (C59_lipschitz_everywhere hg0 (hp2 a) (hm2 a)).trans ?_
    have : dist3 (moved (fun a => val (p a)) a w) (moved (fun a => val (p a)) a (-w)) = 2 * w := by
      unfold dist3 moved
      have e : (Function.update (fun a => val (p a)) a (val (p a) + w) 0 - Function.update (fun a => val (p a)) a (val (p a) + -w) 0) ^ 2 +
          (Function.update (fun a => val (p a)) a (val (p a) + w) 1 - Function.update (fun a => val (p a)) a (val (p a) + -w) 1) ^ 2 +
          (Function.update (fun a => val (p a)) a (val (p a) + w) 2 - Function.update (fun a => val (p a)) a (val (p a) + -w) 2) ^ 2 = (2 * w) ^ 2 := by
        fin_cases a <;> simp <;> ring
      rw [e, Real.sqrt_sq (by positivity)]
    rw [this]
    exact mul_le_mul_of_nonneg_right four_sqrt3 (by positivity)
  obtain ⟨rm, rp⟩ := round a
  have bm : |val (A.sub (p a) (A.abs window))| ≤ B + w + δ' := by
    have r := abs_le.1 rm
    have b := abs_le.1 (hB a)
    rw [abs_le]
    constructor <;> linarith
  have bp : |val (A.add (p a) (A.abs window))| ≤ B + w + δ' := by
    have r := abs_le.1 rp
    have b := abs_le.1 (hB a)
    rw [abs_le]
    constructor <;> linarith
  have uδ : u * δ' ≤ 1 / 10 ^ 5 * δ' := mul_le_mul_of_nonneg_right hu' hδ'0
  obtain ⟨kn, kd⟩ := fair_parts h hu hu' (M := 54 * (N * g.s)) (C := B + w + δ') (δ' := δ') (H := 2 * w) (hp3 a) (hm3 a) (hp4 a) (hm4 a)
    (by linarith) (hr.eta_s.trans (mul_le_mul_of_nonneg_left (by linarith) hu)) bp bm (by positivity)
    (by
      have r := abs_le.1 rm
      have r' := abs_le.1 rp
      rw [abs_le]
      constructor <;> linarith)
    (by rw [show u * (2 * (B + w + δ')) = 2 * (u * (B + w)) + 2 * (u * δ') by ring]; linarith)
    (by
      have e : u * (B + w) = u * B + u * w := by ring
      linarith)
  refine (fair_ratio h hu hu' hr.eta kn kd (by positivity) (by linarith) hL).trans ?_
  have eM : u * (54 * (N * g.s)) = 54 * T := by rw [hT]; ring
  rw [eM]
  refine add_le_add ?_ le_rfl
  rw [div_le_div_iff₀ (by positivity) hw0]
  nlinarith

/-- C91. The same for fields as they are generated, with rounding: `v` is the rounding error of stored distances. -/
theorem C91_fine_near (hg : GeneratedBy ro filled border g) (hrr : ro.rr = roundDouble) {k : ℕ} {emin : ℤ} (hc : ro.cast = rne k emin) {v : ℝ}
    (hv : (2 : ℝ) ^ (-(k : ℤ)) = v) (hv2 : v ≤ 2 ^ (-24 : ℤ)) (hemin : emin + k ≤ -100) (hs : (2 : ℝ) ^ (-100 : ℤ) ≤ g.s)
    (h : FairQuery A val kept u η) (hr : FairRoom u η g.s N) (hf : FairField val kept u g fg) (hint : FormulaInterp A)
    (hN : ∀ a, (axisCells g.dims a : ℝ) ≤ N) (hdef : ∀ loc a, (A.toInt (A.mul (fg.toGrid loc a) fg.inv)).isSome = true)
    {p : Fin 3 → F} {q : Fin 3 → ℝ} (hq : InFrame g.pose.R g.pose.t q (fun a => val (p a))) {window : F} {W w B δ : ℝ}
    (hw : val (A.abs window) = w) (hW : |W| = w) (hw0 : 0 < w)
    (hB : ∀ a, |val (p a)| ≤ B) (hδ' : u * (B + w) + η ≤ w / 1000) (hloc : FairLocated A val δ w g fg p)
    (hroom : ∀ a, 2 * w + δ + 30 * (u * N) * g.s ≤ q a ∧ q a + (2 * w + δ + 30 * (u * N) * g.s) < axisCells g.dims a * g.s) :
    ∃ v' g₀ v₀, flFine A fg p window = .value v' ∧ Generated filled border g₀ ∧ g₀.dims = g.dims ∧ g₀.s = g.s ∧ g₀.pose = g.pose ∧
      g₀.fine (fun a => val (p a)) W = .value v₀ ∧ ∀ a, |kept (v' a) - v₀ a| ≤
      (2 * ((174000 * (u * N) + 54 * (v + 2 ^ (-51 : ℤ))) * (N * g.s)) + 1500 * (u * N) * g.s + 15 * δ + 44 * (u * (B + w) + η)) / w + 18 * u := by
  obtain ⟨g₀, hg0, hd, hs0, hP, hnear⟩ := hg.exact_twin hrr hc hv hv2 hemin hs hN
  have hv0 : 0 ≤ v := by rw [← hv]; positivity
  obtain ⟨v', v₀, h1, h2, h3⟩ := fair_fine_near hg0 hd hs0 hP (by positivity) (by norm_num at hv2 ⊢; linarith) hnear h hr hf hint hN hdef hq hw hW hw0
    hB hδ' hloc hroom
  exact ⟨v', g₀, v₀, h1, hg0, hd, hs0, hP, h2, h3⟩

end

section
variable {filled : Idx → Bool} {border left : Bool} {g : SDFGrid ℝ} {N X δ : ℝ} {P : Pose ℝ} {norm : (Fin 3 → FusedReal) → FusedReal}
  {interp : (Fin 3 → FusedReal) → (Fin 3 → FusedReal) → (Bool → Bool → Bool → FusedReal) → (Fin 3 → FusedReal) → FusedReal}
  {toWorld rotate : (Fin 3 → FusedReal) → Fin 3 → FusedReal}

/-- The tolerance of `C91_fine_near` in `double`. -/
theorem near_tolerance {s w B v c : ℝ} (hs : 0 ≤ s) (h1 : 1 ≤ N) (hw : (2 : ℝ) ^ (-1000 : ℤ) ≤ w) (hB : 0 ≤ B)
    (hc : 108 * (v + 1 / 2 ^ 51) + 4500 / 2 ^ 53 ≤ c) :
    (2 * ((174000 * (3 * 2 ^ (-53 : ℤ) * N) + 54 * (v + 2 ^ (-51 : ℤ))) * (N * s)) + 1500 * (3 * 2 ^ (-53 : ℤ) * N) * s + 15 * δ +
      44 * (3 * 2 ^ (-53 : ℤ) * (B + w) + 3 * 2 ^ (-1075 : ℤ))) / w + 18 * (3 * 2 ^ (-53 : ℤ)) ≤
    ((c * N + N ^ 2 / 2 ^ 33) * s + 15 * δ + B / 2 ^ 45) / w + 1 / 2 ^ 44 := by
  have hw0 : 0 < w := lt_of_lt_of_le (by positivity) hw
  have e53 : (2 : ℝ) ^ (-53 : ℤ) = 1 / 2 ^ 53 := by rw [zpow_neg, one_div]; norm_cast
  have e51 : (2 : ℝ) ^ (-51 : ℤ) = 1 / 2 ^ 51 := by rw [zpow_neg, one_div]; norm_cast
  have e : (2 : ℝ) ^ (-1075 : ℤ) = 1 / 2 ^ 75 * 2 ^ (-1000 : ℤ) := by
    rw [show (-1075 : ℤ) = -75 + -1000 by norm_num, zpow_add₀ (by norm_num), zpow_neg (2 : ℝ) 75, one_div]
    norm_cast
  rw [e53, e51, e]
  generalize (2 : ℝ) ^ (-1000 : ℤ) = z at *
  have key : 2 * ((174000 * (3 * (1 / 2 ^ 53) * N) + 54 * (v + 1 / 2 ^ 51)) * (N * s)) + 1500 * (3 * (1 / 2 ^ 53) * N) * s + 15 * δ +
      44 * (3 * (1 / 2 ^ 53) * (B + w) + 3 * (1 / 2 ^ 75 * z)) ≤ (c * N + N ^ 2 / 2 ^ 33) * s + 15 * δ + B / 2 ^ 45 + 256 / 2 ^ 53 * w := by
    have k1 : (108 * (v + 1 / 2 ^ 51) + 4500 / 2 ^ 53) * (N * s) ≤ c * (N * s) := mul_le_mul_of_nonneg_right hc (by positivity)
    have k2 : 0 ≤ N ^ 2 * s := by positivity
    have k3 : 2 * ((174000 * (3 * (1 / 2 ^ 53) * N) + 54 * (v + 1 / 2 ^ 51)) * (N * s)) + 1500 * (3 * (1 / 2 ^ 53) * N) * s =
        1044000 / 2 ^ 53 * (N ^ 2 * s) + (108 * (v + 1 / 2 ^ 51) + 4500 / 2 ^ 53) * (N * s) := by ring
    have k4 : (c * N + N ^ 2 / 2 ^ 33) * s = c * (N * s) + 1 / 2 ^ 33 * (N ^ 2 * s) := by ring
    rw [k3, k4]
    generalize N ^ 2 * s = m at *
    generalize (108 * (v + 1 / 2 ^ 51) + 4500 / 2 ^ 53) * (N * s) = m' at *
    norm_num
    linarith
  have d := div_le_div_of_nonneg_right key hw0.le
  have e2 : ((c * N + N ^ 2 / 2 ^ 33) * s + 15 * δ + B / 2 ^ 45 + 256 / 2 ^ 53 * w) / w =
      ((c * N + N ^ 2 / 2 ^ 33) * s + 15 * δ + B / 2 ^ 45) / w + 256 / 2 ^ 53 := by
    rw [add_div _ (256 / 2 ^ 53 * w), mul_div_assoc, div_self hw0.ne', mul_one]
  rw [e2] at d
  refine (add_le_add d le_rfl).trans ?_
  rw [add_assoc]
  refine add_le_add le_rfl ?_
  norm_num

/-- C91, `SignedDistanceField<float>` queried in `double` with fused products and sums: where both neighbours along every axis are in the grid there is a
fine gradient, and it is that of the exact field up to the given tolerance. -/
theorem C91_fine_near_float {toGrid : Vec4 FusedReal → Fin 3 → FusedReal} (hg : GeneratedBy floatSDF filled border g) (hs : (2 : ℝ) ^ (-100 : ℤ) ≤ g.s)
    (hs' : g.s ≤ 2 ^ (100 : ℤ)) (h1 : 1 ≤ N) (hN' : N ≤ 2 ^ 34) (hN : ∀ a, (axisCells g.dims a : ℝ) ≤ N)
    (hint : interp = flTrilinear (fusedReal roundDouble left) ∨ interp = flBilinear (fusedReal roundDouble left))
    {p : Fin 3 → FusedReal} {q : Fin 3 → ℝ} (hq : InFrame g.pose.R g.pose.t q (fun a => (p a).1)) {window : FusedReal} {w B : ℝ}
    (hw : |FusedReal.kept roundDouble window| = w) (hw0 : (2 : ℝ) ^ (-1000 : ℤ) ≤ w) (hB : ∀ a, |(p a).1| ≤ B) (hBw : B ≤ 2 ^ 40 * w)
    (hloc : FairLocated (fusedQuery roundDouble left norm interp) Prod.fst δ w g (g.inMemory roundDouble toGrid toWorld rotate) p)
    (hroom : ∀ a, 2 * w + δ + 90 * N / 2 ^ 53 * g.s ≤ q a ∧ q a + (2 * w + δ + 90 * N / 2 ^ 53 * g.s) < axisCells g.dims a * g.s) :
    ∃ v' g₀ v₀, flFine (fusedQuery roundDouble left norm interp) (g.inMemory roundDouble toGrid toWorld rotate) p window = .value v' ∧
      Generated filled border g₀ ∧ g₀.dims = g.dims ∧ g₀.s = g.s ∧ g₀.pose = g.pose ∧
      g₀.fine (fun a => (p a).1) (FusedReal.kept roundDouble window) = .value v₀ ∧
      ∀ a, |FusedReal.kept roundDouble (v' a) - v₀ a| ≤ ((1 / 2 ^ 17 * N + N ^ 2 / 2 ^ 33) * g.s + 15 * δ + B / 2 ^ 45) / w + 1 / 2 ^ 44 := by
  have hpos : 0 < g.s := lt_of_lt_of_le (by positivity) hs
  have hwp : 0 < w := lt_of_lt_of_le (by positivity) hw0
  have e53 : 30 * (3 * (2 : ℝ) ^ (-53 : ℤ) * N) = 90 * N / 2 ^ 53 := by
    rw [show (2 : ℝ) ^ (-53 : ℤ) = 1 / 2 ^ 53 by rw [zpow_neg, one_div]; norm_cast]
    ring
  obtain ⟨v', g₀, v₀, r1, r2, r3, r4, r5, r6, r7⟩ := C91_fine_near hg rfl (k := 24) (emin := -149) rfl rfl (by norm_num) (by norm_num) hs
    fused_double_fair (fair_room_double hs hs' h1 hN') (inMemory_double hs hs') hint hN (fun _ _ => rfl) hq hw hw hwp hB (fair_window hw0 hBw) hloc
    (by rw [e53]; exact hroom)
  refine ⟨v', g₀, v₀, r1, r2, r3, r4, r5, r6, fun a => (r7 a).trans (near_tolerance hpos.le h1 hw0 ((abs_nonneg _).trans (hB 0)) ?_)⟩
  norm_num

/-- C91. The same for locations in the world. -/
theorem C91_fine_near_world_float {toGrid : Vec4 ℝ → Fin 3 → ℝ} (hg : GeneratedBy floatSDF filled border g) (hP : StoredPose P g.pose δ)
    (hrun : ToGridRuns roundDouble P toGrid) (hs : (2 : ℝ) ^ (-100 : ℤ) ≤ g.s) (hs' : g.s ≤ 2 ^ (100 : ℤ)) (h1 : 1 ≤ N) (hN' : N ≤ 2 ^ 34)
    (hN : ∀ a, (axisCells g.dims a : ℝ) ≤ N)
    (hint : interp = flTrilinear (fusedReal roundDouble left) ∨ interp = flBilinear (fusedReal roundDouble left))
    {p : Fin 3 → FusedReal} {q : Fin 3 → ℝ} (hq : InFrame g.pose.R g.pose.t q (fun a => (p a).1)) {window : FusedReal} {w : ℝ}
    (hw : |FusedReal.kept roundDouble window| = w) (hw0 : (2 : ℝ) ^ (-1000 : ℤ) ≤ w)
    (ht : ∀ a, |g.pose.t a| ≤ X) (hp : ∀ a, |(p a).1| + 2 * w ≤ X / 2) (hXw : X ≤ 2 ^ 40 * w)
    (hroom : ∀ a, 2 * w + (2 ^ (-46 : ℤ) + 6 * δ) * X + 90 * N / 2 ^ 53 * g.s ≤ q a ∧
      q a + (2 * w + (2 ^ (-46 : ℤ) + 6 * δ) * X + 90 * N / 2 ^ 53 * g.s) < axisCells g.dims a * g.s) :
    ∃ v' g₀ v₀, flFine (fusedQuery roundDouble left norm interp) (g.inMemory roundDouble (storedToGrid roundDouble toGrid) toWorld rotate) p window =
        .value v' ∧
      Generated filled border g₀ ∧ g₀.dims = g.dims ∧ g₀.s = g.s ∧ g₀.pose = g.pose ∧
      g₀.fine (fun a => (p a).1) (FusedReal.kept roundDouble window) = .value v₀ ∧
      ∀ a, |FusedReal.kept roundDouble (v' a) - v₀ a| ≤
        ((1 / 2 ^ 17 * N + N ^ 2 / 2 ^ 33) * g.s + 15 * ((2 ^ (-46 : ℤ) + 6 * δ) * X) + X / 2 ^ 45) / w + 1 / 2 ^ 44 := by
  have hwp : 0 < w := lt_of_lt_of_le (by positivity) hw0
  have hwX : w ≤ X := by
    have := hp 0
    have := abs_nonneg (p 0).1
    linarith
  exact C91_fine_near_float hg hs hs' h1 hN' hN hint hq hw hw0 (B := X) (fun a => by have := hp a; linarith) hXw
    (C91_located hP hg.pose hrun (hw0.trans hwX) ht hp) hroom

/-- C91, `SignedDistanceField<double>` queried in `double` with fused products and sums: where both neighbours along every axis are in the grid there is a
fine gradient, and it is that of the exact field up to the given tolerance. -/
theorem C91_fine_near_double {toGrid : Vec4 FusedReal → Fin 3 → FusedReal} (hg : GeneratedBy doubleSDF filled border g) (hs : (2 : ℝ) ^ (-100 : ℤ) ≤ g.s)
    (hs' : g.s ≤ 2 ^ (100 : ℤ)) (h1 : 1 ≤ N) (hN' : N ≤ 2 ^ 34) (hN : ∀ a, (axisCells g.dims a : ℝ) ≤ N)
    (hint : interp = flTrilinear (fusedReal roundDouble left) ∨ interp = flBilinear (fusedReal roundDouble left))
    {p : Fin 3 → FusedReal} {q : Fin 3 → ℝ} (hq : InFrame g.pose.R g.pose.t q (fun a => (p a).1)) {window : FusedReal} {w B : ℝ}
    (hw : |FusedReal.kept roundDouble window| = w) (hw0 : (2 : ℝ) ^ (-1000 : ℤ) ≤ w) (hB : ∀ a, |(p a).1| ≤ B) (hBw : B ≤ 2 ^ 40 * w)
    (hloc : FairLocated (fusedQuery roundDouble left norm interp) Prod.fst δ w g (g.inMemory roundDouble toGrid toWorld rotate) p)
    (hroom : ∀ a, 2 * w + δ + 90 * N / 2 ^ 53 * g.s ≤ q a ∧ q a + (2 * w + δ + 90 * N / 2 ^ 53 * g.s) < axisCells g.dims a * g.s) :
    ∃ v' g₀ v₀, flFine (fusedQuery roundDouble left norm interp) (g.inMemory roundDouble toGrid toWorld rotate) p window = .value v' ∧
      Generated filled border g₀ ∧ g₀.dims = g.dims ∧ g₀.s = g.s ∧ g₀.pose = g.pose ∧
      g₀.fine (fun a => (p a).1) (FusedReal.kept roundDouble window) = .value v₀ ∧
      ∀ a, |FusedReal.kept roundDouble (v' a) - v₀ a| ≤ ((1 / 2 ^ 40 * N + N ^ 2 / 2 ^ 33) * g.s + 15 * δ + B / 2 ^ 45) / w + 1 / 2 ^ 44 := by
  have hpos : 0 < g.s := lt_of_lt_of_le (by positivity) hs
  have hwp : 0 < w := lt_of_lt_of_le (by positivity) hw0
  have e53 : 30 * (3 * (2 : ℝ) ^ (-53 : ℤ) * N) = 90 * N / 2 ^ 53 := by
    rw [show (2 : ℝ) ^ (-53 : ℤ) = 1 / 2 ^ 53 by rw [zpow_neg, one_div]; norm_cast]
    ring
  obtain ⟨v', g₀, v₀, r1, r2, r3, r4, r5, r6, r7⟩ := C91_fine_near hg rfl (k := 53) (emin := -1074) rfl rfl (by norm_num) (by norm_num) hs
    fused_double_fair (fair_room_double hs hs' h1 hN') (inMemory_double hs hs') hint hN (fun _ _ => rfl) hq hw hw hwp hB (fair_window hw0 hBw) hloc
    (by rw [e53]; exact hroom)
  refine ⟨v', g₀, v₀, r1, r2, r3, r4, r5, r6, fun a => (r7 a).trans (near_tolerance hpos.le h1 hw0 ((abs_nonneg _).trans (hB 0)) ?_)⟩
  norm_num

/-- C91. The same for locations in the world. -/
theorem C91_fine_near_world_double {toGrid : Vec4 ℝ → Fin 3 → ℝ} (hg : GeneratedBy doubleSDF filled border g) (hP : StoredPose P g.pose δ)
    (hrun : ToGridRuns roundDouble P toGrid) (hs : (2 : ℝ) ^ (-100 : ℤ) ≤ g.s) (hs' : g.s ≤ 2 ^ (100 : ℤ)) (h1 : 1 ≤ N) (hN' : N ≤ 2 ^ 34)
    (hN : ∀ a, (axisCells g.dims a : ℝ) ≤ N)
    (hint : interp = flTrilinear (fusedReal roundDouble left) ∨ interp = flBilinear (fusedReal roundDouble left))
    {p : Fin 3 → FusedReal} {q : Fin 3 → ℝ} (hq : InFrame g.pose.R g.pose.t q (fun a => (p a).1)) {window : FusedReal} {w : ℝ}
    (hw : |FusedReal.kept roundDouble window| = w) (hw0 : (2 : ℝ) ^ (-1000 : ℤ) ≤ w)
    (ht : ∀ a, |g.pose.t a| ≤ X) (hp : ∀ a, |(p a).1| + 2 * w ≤ X / 2) (hXw : X ≤ 2 ^ 40 * w)
    (hroom : ∀ a, 2 * w + (2 ^ (-46 : ℤ) + 6 * δ) * X + 90 * N / 2 ^ 53 * g.s ≤ q a ∧
      q a + (2 * w + (2 ^ (-46 : ℤ) + 6 * δ) * X + 90 * N / 2 ^ 53 * g.s) < axisCells g.dims a * g.s) :
    ∃ v' g₀ v₀, flFine (fusedQuery roundDouble left norm interp) (g.inMemory roundDouble (storedToGrid roundDouble toGrid) toWorld rotate) p window =
        .value v' ∧
      Generated filled border g₀ ∧ g₀.dims = g.dims ∧ g₀.s = g.s ∧ g₀.pose = g.pose ∧
      g₀.fine (fun a => (p a).1) (FusedReal.kept roundDouble window) = .value v₀ ∧
      ∀ a, |FusedReal.kept roundDouble (v' a) - v₀ a| ≤
        ((1 / 2 ^ 40 * N + N ^ 2 / 2 ^ 33) * g.s + 15 * ((2 ^ (-46 : ℤ) + 6 * δ) * X) + X / 2 ^ 45) / w + 1 / 2 ^ 44 := by
  have hwp : 0 < w := lt_of_lt_of_le (by positivity) hw0
  have hwX : w ≤ X := by
    have := hp 0
    have := abs_nonneg (p 0).1
    linarith
  exact C91_fine_near_double hg hs hs' h1 hN' hN hint hq hw hw0 (B := X) (fun a => by have := hp a; linarith) hXw
    (C91_located hP hg.pose hrun (hw0.trans hwX) ht hp) hroom

end

/-! ### Concrete cases -/

theorem eighthWindow : |FusedReal.kept roundDouble ((1 / 8, false) : FusedReal)| = 1 / 8 := by
  show |(if false then _ else (1 / 8 : ℝ))| = 1 / 8
  rw [if_neg (by decide), abs_of_pos (by norm_num)]

theorem eighth_tiny : (2 : ℝ) ^ (-1000 : ℤ) ≤ 1 / 8 := by
  calc (2 : ℝ) ^ (-1000 : ℤ) ≤ 2 ^ (-3 : ℤ) := zpow_le_zpow_right₀ (by norm_num) (by norm_num)
    _ = 1 / 8 := by norm_num

/-- The hypotheses of `C91_fine_near` and `C91_fine_near_float` are met: 8 × 4 × 4 cells of edge 1, the first layer filled, at `(9/2, 2, 2)`. -/
example (left : Bool) : ∃ (g g₀ : SDFGrid ℝ) (v' : Fin 3 → FusedReal) (v₀ : Fin 3 → ℝ), GeneratedBy floatSDF (fun i => decide (i.1 = 0)) false g ∧
    Generated (fun i => decide (i.1 = 0)) false g₀ ∧ g₀.dims = ⟨8, 4, 4⟩ ∧
    flFine (fusedQuery roundDouble left (fun _ => (0, false)) (flTrilinear (fusedReal roundDouble left)))
      (g.inMemory roundDouble (fun l => l.v) id id) finePlace (1 / 4, false) = .value v' ∧
    g₀.fine (fun a => (finePlace a).1) (FusedReal.kept roundDouble (1 / 4, false)) = .value v₀ ∧
    ∀ a, |FusedReal.kept roundDouble (v' a) - v₀ a| ≤ 1 / 2 ^ 11 := by
  obtain ⟨g, hg, hd, hs, hP⟩ := C68_generated_exists exSlab_ok (P := ⟨fun i j => if i = j then 1 else 0, fun _ => 0⟩)
    (by constructor <;> intro a b <;> fin_cases a <;> fin_cases b <;> simp) (filled := fun i => decide (i.1 = 0)) false
    (i := (1, 0, 0)) (by decide) (by decide) (j := (0, 0, 0)) (by decide) (by decide)
  dsimp only at hd hs
  obtain ⟨v', g₀, v₀, r1, r2, r3, -, -, r6, r7⟩ := C91_fine_near_float (left := left) (norm := fun _ => (0, false)) (toWorld := id) (rotate := id) hg
    (by rw [hs]; norm_num) (by rw [hs]; norm_num) (N := 8) (by norm_num) (by norm_num)
    (by rw [hd]; intro a; fin_cases a <;> simp [axisCells] <;> norm_num) (.inl rfl) (p := finePlace) (q := fun a => (finePlace a).1)
    (by rw [hP]; intro a; fin_cases a <;> simp) fineWindow fine_tiny finePlace_size (by norm_num) (fine_located hP _ _)
    (by rw [hd, hs]; intro a; fin_cases a <;> simp [finePlace, axisCells] <;> norm_num)
  refine ⟨g, g₀, v', v₀, hg, r2, r3.trans hd, r1, r6, fun a => (r7 a).trans ?_⟩
  rw [hs]; norm_num

/-- The hypotheses of `C91_fine_near_world_float` are met: a row of 64 cells in a turned and moved grid whose rotation is stored with rounding. -/
example (left : Bool) : ∃ (g g₀ : SDFGrid ℝ) (toGrid : Vec4 ℝ → Fin 3 → ℝ) (v' : Fin 3 → FusedReal) (v₀ : Fin 3 → ℝ),
    GeneratedBy floatSDF (fun i => decide (i.1 = 0)) false g ∧ Generated (fun i => decide (i.1 = 0)) false g₀ ∧ g₀.pose = slantPose ∧
    flFine (fusedQuery roundDouble left (fun _ => (0, false)) (flTrilinear (fusedReal roundDouble left)))
      (g.inMemory roundDouble (storedToGrid roundDouble toGrid) id id) slantStart (1 / 8, false) = .value v' ∧
    g₀.fine slantPlace (FusedReal.kept roundDouble (1 / 8, false)) = .value v₀ ∧
    ∀ a, |FusedReal.kept roundDouble (v' a) - v₀ a| ≤ 1 / 2 ^ 7 := by
  obtain ⟨g, hg, hd, hs, hP⟩ := C68_generated_exists exRow_ok slantPose_orthogonal (filled := fun i => decide (i.1 = 0)) false
    (i := (1, 0, 0)) (by decide) (by decide) (j := (0, 0, 0)) (by decide) (by decide)
  obtain ⟨toGrid, hrun⟩ := toGridRuns_exists roundDouble slantStored
  dsimp only at hd hs
  have hst : StoredPose slantStored g.pose (2 ^ (-52 : ℤ)) := by rw [hP]; exact slantStored_near
  obtain ⟨v', g₀, v₀, r1, r2, -, -, r5, r6, r7⟩ := C91_fine_near_world_float (left := left) (norm := fun _ => (0, false)) (toWorld := id) (rotate := id)
    (X := 4096 * 4) hg hst hrun (by rw [hs]; norm_num) (by rw [hs]; norm_num) (N := 64) (by norm_num) (by norm_num)
    (by rw [hd]; intro a; fin_cases a <;> simp [axisCells]) (.inl rfl) (p := slantStart) (q := ![81 / 2, 1 / 2, 1 / 2])
    (by rw [hP]; intro a; fin_cases a <;> simp [slantPose, slantStart, slantPlace] <;> norm_num) eighthWindow eighth_tiny
    (by rw [hP]; intro a; fin_cases a <;> simp [slantPose] <;> norm_num [abs_le])
    (fun a => by
      have : |(slantStart a).1| ≤ 2033 := slantPlace_size a
      linarith) (by norm_num)
    (by rw [hd, hs]; intro a; fin_cases a <;> simp [axisCells] <;> norm_num)
  refine ⟨g, g₀, toGrid, v', v₀, hg, r2, r5.trans hP, r1, r6, fun a => (r7 a).trans ?_⟩
  rw [hs]; norm_num

/-- The hypotheses of `C91_fine_near` and `C91_fine_near_double` are met: 8 × 4 × 4 cells of edge 1, the first layer filled, at `(9/2, 2, 2)`. -/
example (left : Bool) : ∃ (g g₀ : SDFGrid ℝ) (v' : Fin 3 → FusedReal) (v₀ : Fin 3 → ℝ), GeneratedBy doubleSDF (fun i => decide (i.1 = 0)) false g ∧
    Generated (fun i => decide (i.1 = 0)) false g₀ ∧ g₀.dims = ⟨8, 4, 4⟩ ∧
    flFine (fusedQuery roundDouble left (fun _ => (0, false)) (flTrilinear (fusedReal roundDouble left)))
      (g.inMemory roundDouble (fun l => l.v) id id) finePlace (1 / 4, false) = .value v' ∧
    g₀.fine (fun a => (finePlace a).1) (FusedReal.kept roundDouble (1 / 4, false)) = .value v₀ ∧
    ∀ a, |FusedReal.kept roundDouble (v' a) - v₀ a| ≤ 1 / 2 ^ 20 := by
  have ok : GenOK doubleSDF ⟨⟨8, 4, 4⟩, 1, 1, 1⟩ :=
    { rq := roundDouble_isDoubleRounding
      rr := roundDouble_isRounding
      rc := roundDouble_isRounding
      uniform := ⟨rfl, rfl⟩
      res := one_pos
      repr := roundDouble_isRounding.one
      castPos := by
        have : doubleSDF.cast 1 = 1 := roundDouble_isRounding.one
        rw [this]; exact one_pos
      fits := by constructor <;> decide }
  obtain ⟨g, hg, hd, hs, hP⟩ := C68_generated_exists ok (P := ⟨fun i j => if i = j then 1 else 0, fun _ => 0⟩)
    (by constructor <;> intro a b <;> fin_cases a <;> fin_cases b <;> simp) (filled := fun i => decide (i.1 = 0)) false
    (i := (1, 0, 0)) (by decide) (by decide) (j := (0, 0, 0)) (by decide) (by decide)
  dsimp only at hd hs
  obtain ⟨v', g₀, v₀, r1, r2, r3, -, -, r6, r7⟩ := C91_fine_near_double (left := left) (norm := fun _ => (0, false)) (toWorld := id) (rotate := id) hg
    (by rw [hs]; norm_num) (by rw [hs]; norm_num) (N := 8) (by norm_num) (by norm_num)
    (by rw [hd]; intro a; fin_cases a <;> simp [axisCells] <;> norm_num) (.inl rfl) (p := finePlace) (q := fun a => (finePlace a).1)
    (by rw [hP]; intro a; fin_cases a <;> simp) fineWindow fine_tiny finePlace_size (by norm_num) (fine_located hP _ _)
    (by rw [hd, hs]; intro a; fin_cases a <;> simp [finePlace, axisCells] <;> norm_num)
  refine ⟨g, g₀, v', v₀, hg, r2, r3.trans hd, r1, r6, fun a => (r7 a).trans ?_⟩
  rw [hs]; norm_num

/-- The hypotheses of `C91_fine_near_world_double` are met: a row of 64 cells in a turned and moved grid whose rotation is stored with rounding. -/
example (left : Bool) : ∃ (g g₀ : SDFGrid ℝ) (toGrid : Vec4 ℝ → Fin 3 → ℝ) (v' : Fin 3 → FusedReal) (v₀ : Fin 3 → ℝ),
    GeneratedBy doubleSDF (fun i => decide (i.1 = 0)) false g ∧ Generated (fun i => decide (i.1 = 0)) false g₀ ∧ g₀.pose = slantPose ∧
    flFine (fusedQuery roundDouble left (fun _ => (0, false)) (flTrilinear (fusedReal roundDouble left)))
      (g.inMemory roundDouble (storedToGrid roundDouble toGrid) id id) slantStart (1 / 8, false) = .value v' ∧
    g₀.fine slantPlace (FusedReal.kept roundDouble (1 / 8, false)) = .value v₀ ∧
    ∀ a, |FusedReal.kept roundDouble (v' a) - v₀ a| ≤ 1 / 2 ^ 16 := by
  have ok : GenOK doubleSDF ⟨⟨64, 1, 1⟩, 1, 1, 1⟩ :=
    { rq := roundDouble_isDoubleRounding
      rr := roundDouble_isRounding
      rc := roundDouble_isRounding
      uniform := ⟨rfl, rfl⟩
      res := one_pos
      repr := roundDouble_isRounding.one
      castPos := by
        have : doubleSDF.cast 1 = 1 := roundDouble_isRounding.one
        rw [this]; exact one_pos
      fits := by constructor <;> decide }
  obtain ⟨g, hg, hd, hs, hP⟩ := C68_generated_exists ok slantPose_orthogonal (filled := fun i => decide (i.1 = 0)) false
    (i := (1, 0, 0)) (by decide) (by decide) (j := (0, 0, 0)) (by decide) (by decide)
  obtain ⟨toGrid, hrun⟩ := toGridRuns_exists roundDouble slantStored
  dsimp only at hd hs
  have hst : StoredPose slantStored g.pose (2 ^ (-52 : ℤ)) := by rw [hP]; exact slantStored_near
  obtain ⟨v', g₀, v₀, r1, r2, -, -, r5, r6, r7⟩ := C91_fine_near_world_double (left := left) (norm := fun _ => (0, false)) (toWorld := id) (rotate := id)
    (X := 4096 * 4) hg hst hrun (by rw [hs]; norm_num) (by rw [hs]; norm_num) (N := 64) (by norm_num) (by norm_num)
    (by rw [hd]; intro a; fin_cases a <;> simp [axisCells]) (.inl rfl) (p := slantStart) (q := ![81 / 2, 1 / 2, 1 / 2])
    (by rw [hP]; intro a; fin_cases a <;> simp [slantPose, slantStart, slantPlace] <;> norm_num) eighthWindow eighth_tiny
    (by rw [hP]; intro a; fin_cases a <;> simp [slantPose] <;> norm_num [abs_le])
    (fun a => by
      have : |(slantStart a).1| ≤ 2033 := slantPlace_size a
      linarith) (by norm_num)
    (by rw [hd, hs]; intro a; fin_cases a <;> simp [axisCells] <;> norm_num)
  refine ⟨g, g₀, toGrid, v', v₀, hg, r2, r5.trans hP, r1, r6, fun a => (r7 a).trans ?_⟩
  rw [hs]; norm_num

end VGT
