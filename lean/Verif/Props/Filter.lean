import Verif.Lemmas.Filter

/-!
C32 (filter decision of one cell), C46 (filter options are valid), and the cell-level part of C35 (CPU and device
filters agree).
-/
set_option autoImplicit false

namespace VGT
open VGT.Spec

/-! ### C46 -/

/-- C46 for everything but NaN: construction succeeds exactly for a free-percentage in (0, 1], a threshold of at least 1
and a camera count of at least 1, and stores what was given.  Missing: NaN (`C46_nan_accepted`). -/
theorem C46_options_valid_partial {percent : Fl} (hnan : percent ≠ .nan) (t n : ℤ) :
    ((∃ o, FilterOptions.make percent t n = some o) ↔ (∃ q : ℚ, percent = .fin q ∧ 0 < q ∧ q ≤ 1) ∧ 1 ≤ t ∧ 1 ≤ n) ∧
    ∀ o, FilterOptions.make percent t n = some o → o.percent = percent ∧ o.threshold = t ∧ o.cameras = n := by
  refine ⟨⟨?_, ?_⟩, ?_⟩
  · rintro ⟨o, h⟩
    obtain ⟨_, h1, h2, h3⟩ := make_ok h
    exact ⟨h3.resolve_left hnan, h1, h2⟩
  · rintro ⟨⟨q, rfl, h0, h1⟩, ht, hn⟩
    refine ⟨⟨.fin q, t, n⟩, ?_⟩
    unfold FilterOptions.make
    rw [if_neg (by simp [Fl.le, Fl.lt]; exact ⟨h0, h1⟩), if_neg (by omega), if_neg (by omega)]
  · intro o h
    obtain ⟨rfl, _⟩ := make_ok h
    exact ⟨rfl, rfl, rfl⟩

example : FilterOptions.make (.fin (3 / 4)) 2 3 = some ⟨.fin (3 / 4), 2, 3⟩ ∧ FilterOptions.make .pinf 2 3 = none ∧
    FilterOptions.make (.fin 0) 2 3 = none ∧ FilterOptions.make (.fin 1) 0 3 = none ∧
    FilterOptions.make (.fin 1) 1 0 = none := by decide +kernel

/-- C46 is false as stated: both comparisons of the constructor are false for NaN, so it is accepted; a cell then counts as
filled for every camera with both kinds of hits, however few the filled hits are. -/
theorem C46_nan_accepted :
    ∃ o, FilterOptions.make .nan 1 1 = some o ∧ o.countsSeenAs 1000000 1 = some .filled := by
  refine ⟨⟨.nan, 1, 1⟩, by decide +kernel, by decide +kernel⟩

/-! ### C32 for one cell -/

/-- The filter's result from any per-camera decision. -/
theorem cell_decision {dec : ℤ × ℤ → Option SeenAs} {counts : List (ℤ × ℤ)} {sawFilled sawFree : ℤ × ℤ → Prop} {n : ℤ}
    (h : ∀ c ∈ counts, ∃ r, dec c = some r ∧ (r = .filled ↔ sawFilled c) ∧ (r = .free ↔ sawFree c)) :
    ((foldSeen dec counts 0 0).map fun r => if r.1 > 0 then some (Fl.fin 1) else if r.2 ≥ n then some (Fl.fin 0) else some Fl.half)
      = some (some (decision sawFilled sawFree n counts)) := by
  classical
  rw [foldSeen_some fun c hc => (h c hc).imp fun r hr => hr.1]
  simp only [Option.map_some, zero_add]
  unfold decision
  have e1 : (0 < counts.countP (fun c => decide (dec c = some .filled))) ↔ ∃ c ∈ counts, sawFilled c := by
    rw [List.countP_pos_iff]
    refine exists_congr fun c => and_congr_right fun hc => ?_
    obtain ⟨r, hr, hf, _⟩ := h c hc
    rw [decide_eq_true_iff, hr, Option.some.injEq, hf]
  have e2 : counts.countP (fun c => decide (dec c = some .free)) = counts.countP (fun c => decide (sawFree c)) := by
    refine List.countP_congr fun c hc => ?_
    obtain ⟨r, hr, _, hf⟩ := h c hc
    rw [decide_eq_true_iff, decide_eq_true_iff, hr, Option.some.injEq, hf]
  by_cases hf : ∃ c ∈ counts, sawFilled c
  · have := e1.2 hf
    rw [if_pos (by exact_mod_cast this), if_pos hf]
  · have h0 : ¬ 0 < counts.countP (fun c => decide (dec c = some .filled)) := fun h => hf (e1.1 h)
    rw [if_neg (by exact_mod_cast h0), if_neg hf, e2]
    by_cases hn : n ≤ counts.countP (fun c => decide (sawFree c))
    · rw [if_pos hn, if_pos hn]
    · rw [if_neg hn, if_neg hn]; rfl

/-- C32: a cell that is not filled becomes 1 if some camera counts it filled, else 0 if enough cameras count it free,
else 1/2. -/
theorem C32_filter_decision {pct : ℚ} {t n : ℤ} {o : FilterOptions} (h : FilterOptions.make (.fin pct) t n = some o)
    {counts : List (ℤ × ℤ)} (hc : ∀ c ∈ counts, CountsOk c) {occ : Fl} (hocc : occ.le (.fin (1 / 2)) = true) :
    o.filterCell counts occ =
      some (some (decision (SawFilled roundDouble pct t) (SawFree roundDouble pct t) n counts)) := by
  obtain ⟨rfl, ht, _⟩ := make_ok h
  unfold FilterOptions.filterCell
  rw [if_pos (show occ.le Fl.half = true from hocc)]
  simp only [seenBy_eq]
  exact cell_decision fun c hcc => countsSeenAs_some ht (hc c hcc)

example : ∃ o, FilterOptions.make (.fin (1 / 2)) 2 1 = some o ∧ (∀ c ∈ [((3 : ℤ), (1 : ℤ)), (1, 5)], CountsOk c) ∧
    o.filterCell [(3, 1), (1, 5)] (.fin 0) = some (some (.fin 1)) ∧ o.filterCell [(3, 1)] (.fin 0) = some (some (.fin 0)) ∧
    o.filterCell [(0, 1)] (.fin 0) = some (some (.fin (1 / 2))) := by
  refine ⟨⟨.fin (1 / 2), 2, 1⟩, ?_, ?_, ?_, ?_, ?_⟩
  · decide +kernel
  · unfold CountsOk; simp
  all_goals decide +kernel

theorem decision_congr {sawFilled sawFree sawFilled' sawFree' : ℤ × ℤ → Prop} {n : ℤ} {counts : List (ℤ × ℤ)}
    (h1 : ∀ c ∈ counts, (sawFilled c ↔ sawFilled' c)) (h2 : ∀ c ∈ counts, (sawFree c ↔ sawFree' c)) :
    decision sawFilled sawFree n counts = decision sawFilled' sawFree' n counts := by
  classical
  unfold decision
  have e1 : (∃ c ∈ counts, sawFilled c) ↔ ∃ c ∈ counts, sawFilled' c :=
    exists_congr fun c => and_congr_right fun hc => h1 c hc
  have e2 : counts.countP (fun c => decide (sawFree c)) = counts.countP (fun c => decide (sawFree' c)) :=
    List.countP_congr fun c hc => by rw [decide_eq_true_iff, decide_eq_true_iff]; exact h2 c hc
  rw [e2]
  by_cases h : ∃ c ∈ counts, sawFilled c
  · rw [if_pos h, if_pos (e1.1 h)]
  · rw [if_neg h, if_neg (fun h' => h (e1.2 h'))]

/-- C32 without rounding: for a free-percentage `m / 2^j` with `j ≤ 22` the share of free hits is compared exactly. -/
theorem C32_decision_exact {m : ℤ} {j : ℕ} (hj : j ≤ 22) {t n : ℤ} {o : FilterOptions}
    (h : FilterOptions.make (.fin ((m : ℚ) / 2 ^ j)) t n = some o)
    {counts : List (ℤ × ℤ)} (hc : ∀ c ∈ counts, CountsOk c) {occ : Fl} (hocc : occ.le (.fin (1 / 2)) = true) :
    o.filterCell counts occ = some (some (decision
      (fun c => t ≤ c.2 ∧ (c.1 = 0 ∨ ¬ ExactShare m j c)) (fun c => 0 < c.1 ∧ (c.2 < t ∨ ExactShare m j c)) n counts)) := by
  have hpos : (0 : ℚ) < 2 ^ j := by positivity
  obtain ⟨_, ht, _, hq⟩ := make_ok h
  rcases hq with hq | ⟨q, hq, q0, q1⟩
  · cases hq
  injection hq with hq
  subst hq
  have hm0 : 0 < m := by
    have := (div_pos_iff_of_pos_right hpos).1 q0
    exact_mod_cast this
  have hm : m ≤ 2 ^ j := by
    have := (div_le_one hpos).1 q1
    exact_mod_cast this
  rw [C32_filter_decision h hc hocc]
  have key : ∀ c ∈ counts, 0 < c.1 + c.2 → ((m : ℚ) / 2 ^ j ≤ roundDouble ((c.1 : ℚ) / ((c.1 : ℚ) + c.2)) ↔ ExactShare m j c) := by
    intro c hcc hp
    obtain ⟨h1, h2, h3⟩ := hc c hcc
    have := share_exact (p := 53) (emin := -1074) (by norm_num) (by norm_num) (a := c.1) hp hm0 hm (by
      calc (c.1 + c.2) * 2 ^ j ≤ 2 ^ 31 * 2 ^ j := by
            have : (0 : ℤ) < 2 ^ j := by positivity
            nlinarith
        _ ≤ 2 ^ 31 * 2 ^ 22 := by
            have : (2 : ℤ) ^ j ≤ 2 ^ 22 := pow_le_pow_right₀ (by norm_num) hj
            linarith
        _ ≤ 2 ^ 53 := by norm_num)
    push_cast at this
    exact this
  congr 2
  refine decision_congr ?_ ?_
  · intro c hcc
    obtain ⟨h1, h2, h3⟩ := hc c hcc
    unfold SawFilled
    refine and_congr_right fun hf => or_congr_right ?_
    rw [← not_le, key c hcc (by omega)]
  · intro c hcc
    obtain ⟨h1, h2, h3⟩ := hc c hcc
    unfold SawFree
    refine and_congr_right fun hf => or_congr_right ?_
    rw [key c hcc (by omega)]

example : ∃ o, FilterOptions.make (.fin ((3 : ℤ) / 2 ^ 2)) 1 1 = some o ∧ CountsOk (3, 1) ∧ ExactShare 3 2 (3, 1) ∧
    ¬ ExactShare 3 2 (2, 1) ∧ o.filterCell [(3, 1)] (.fin 0) = some (some (.fin 0)) ∧
    o.filterCell [(2, 1)] (.fin 0) = some (some (.fin 1)) := by
  refine ⟨⟨.fin (3 / 4), 1, 1⟩, by norm_num [FilterOptions.make, Fl.le, Fl.lt], ?_, ?_, ?_, ?_, ?_⟩
  · unfold CountsOk; simp
  · unfold ExactShare; norm_num
  · unfold ExactShare; norm_num
  · decide +kernel
  · decide +kernel

/-- C32: whatever the free-percentage, a camera whose share of free hits reaches it never counts the cell as filled
(rounding can only favour free). -/
theorem C32_rounding_favours_free {pct : ℚ} (hrep : roundDouble pct = pct) {t : ℤ} {c : ℤ × ℤ}
    (hs : pct ≤ (c.1 : ℚ) / ((c.1 : ℚ) + c.2)) (h1 : 0 < c.1) : ¬ SawFilled roundDouble pct t c := by
  rintro ⟨_, h | h⟩
  · omega
  · have : roundDouble pct ≤ roundDouble ((c.1 : ℚ) / ((c.1 : ℚ) + c.2)) := rne_mono (by norm_num) hs
    rw [hrep] at this
    exact absurd h (not_lt.2 this)

example : roundDouble (3 / 4 : ℚ) = 3 / 4 ∧ (3 / 4 : ℚ) ≤ ((3 : ℤ) : ℚ) / (((3 : ℤ) : ℚ) + (1 : ℤ)) := by
  constructor
  · decide +kernel
  · norm_num

/-- More filled and fewer free hits keep a camera's vote "filled". -/
theorem sawFilled_mono {pct : ℚ} {t : ℤ} {c c' : ℤ × ℤ} (hc : CountsOk c) (hc' : CountsOk c') (h1 : c'.1 ≤ c.1)
    (h2 : c.2 ≤ c'.2) (h : SawFilled roundDouble pct t c) : SawFilled roundDouble pct t c' := by
  obtain ⟨a, b⟩ := h
  refine ⟨a.trans h2, ?_⟩
  obtain ⟨p1, p2, _⟩ := hc
  obtain ⟨p1', p2', _⟩ := hc'
  rcases Int.lt_or_le 0 c'.1 with hp | hp
  · right
    rcases b with b | b
    · omega
    refine lt_of_le_of_lt (rne_mono (by norm_num) ?_) b
    have q1 : (0 : ℚ) < c'.1 := by exact_mod_cast hp
    have q2 : (c'.1 : ℚ) ≤ c.1 := by exact_mod_cast h1
    have q3 : (c.2 : ℚ) ≤ c'.2 := by exact_mod_cast h2
    have q4 : (0 : ℚ) ≤ c.2 := by exact_mod_cast p2
    rw [div_le_div_iff₀ (by linarith) (by linarith)]
    nlinarith
  · left; omega

/-- More free and fewer filled hits keep a camera's vote "free". -/
theorem sawFree_mono {pct : ℚ} {t : ℤ} {c c' : ℤ × ℤ} (hc : CountsOk c) (hc' : CountsOk c') (h1 : c.1 ≤ c'.1)
    (h2 : c'.2 ≤ c.2) (h : SawFree roundDouble pct t c) : SawFree roundDouble pct t c' := by
  obtain ⟨a, b⟩ := h
  refine ⟨by omega, ?_⟩
  obtain ⟨p1, p2, _⟩ := hc
  obtain ⟨p1', p2', _⟩ := hc'
  rcases b with b | b
  · left; omega
  · right
    refine b.trans (rne_mono (by norm_num) ?_)
    have q1 : (0 : ℚ) < c.1 := by exact_mod_cast a
    have q2 : (c.1 : ℚ) ≤ c'.1 := by exact_mod_cast h1
    have q3 : (c'.2 : ℚ) ≤ c.2 := by exact_mod_cast h2
    have q4 : (0 : ℚ) ≤ c'.2 := by exact_mod_cast p2'
    rw [div_le_div_iff₀ (by linarith) (by linarith)]
    nlinarith

theorem forall₂_exists {α : Type} {R : α → α → Prop} {l l' : List α} (h : List.Forall₂ R l l') {a : α} (ha : a ∈ l) :
    ∃ b ∈ l', R a b := by
  induction h with
  | nil => cases ha
  | cons h1 _ ih =>
    rcases List.mem_cons.1 ha with rfl | ha
    · exact ⟨_, List.mem_cons_self, h1⟩
    · obtain ⟨b, hb, hr⟩ := ih ha
      exact ⟨b, List.mem_cons_of_mem _ hb, hr⟩

theorem decision_eq_one {sf se : ℤ × ℤ → Prop} {n : ℤ} {l : List (ℤ × ℤ)} :
    decision sf se n l = .fin 1 ↔ ∃ c ∈ l, sf c := by
  classical
  unfold decision
  split_ifs with h1 h2
  · simp [h1]
  · simp only [Fl.fin.injEq, h1, iff_false]; norm_num
  · simp only [Fl.fin.injEq, h1, iff_false]; norm_num

open Classical in
theorem decision_eq_zero {sf se : ℤ × ℤ → Prop} {n : ℤ} {l : List (ℤ × ℤ)} :
    decision sf se n l = .fin 0 ↔ (¬ ∃ c ∈ l, sf c) ∧ n ≤ l.countP (fun c => decide (se c)) := by
  unfold decision
  split_ifs with h1 h2
  · simp only [Fl.fin.injEq, h1, not_true, false_and, iff_false]; norm_num
  · simp [h1, h2]
  · simp only [Fl.fin.injEq, h1, h2, and_false, iff_false]; norm_num

theorem countP_forall₂ {α : Type} {p q : α → Bool} {R : α → α → Prop} (hR : ∀ a b, R a b → p a = true → q b = true)
    {l l' : List α} (h : List.Forall₂ R l l') : l.countP p ≤ l'.countP q := by
  induction h with
  | nil => simp
  | @cons a b l1 l2 h1 _ ih =>
    rw [List.countP_cons, List.countP_cons]
    by_cases hp : p a = true
    · rw [if_pos hp, if_pos (hR a b h1 hp)]; omega
    · rw [if_neg hp]; split_ifs <;> omega

/-- C32, monotone in filled hits: with more filled and fewer free hits per camera a filled cell stays filled. -/
theorem C32_more_filled_stays_filled {pct : ℚ} {t n : ℤ} {o : FilterOptions}
    (h : FilterOptions.make (.fin pct) t n = some o) {counts counts' : List (ℤ × ℤ)} (hc : ∀ c ∈ counts, CountsOk c)
    (hc' : ∀ c ∈ counts', CountsOk c) (hm : List.Forall₂ (fun c c' => c'.1 ≤ c.1 ∧ c.2 ≤ c'.2) counts counts')
    {occ : Fl} (hf : o.filterCell counts occ = some (some (.fin 1))) :
    o.filterCell counts' occ = some (some (.fin 1)) := by
  have hocc : occ.le (.fin (1 / 2)) = true := by
    by_contra hno
    unfold FilterOptions.filterCell at hf
    rw [if_neg (show ¬ occ.le Fl.half = true from hno)] at hf
    simp at hf
  rw [C32_filter_decision h hc hocc, Option.some.injEq, Option.some.injEq, decision_eq_one] at hf
  rw [C32_filter_decision h hc' hocc, Option.some.injEq, Option.some.injEq, decision_eq_one]
  obtain ⟨c, hcm, hs⟩ := hf
  obtain ⟨c', hcm', r1, r2⟩ := forall₂_exists hm hcm
  exact ⟨c', hcm', sawFilled_mono (hc c hcm) (hc' c' hcm') r1 r2 hs⟩

/-- C32, monotone in free hits: with more free and fewer filled hits per camera a free cell stays free. -/
theorem C32_more_free_stays_free {pct : ℚ} {t n : ℤ} {o : FilterOptions}
    (h : FilterOptions.make (.fin pct) t n = some o) {counts counts' : List (ℤ × ℤ)} (hc : ∀ c ∈ counts, CountsOk c)
    (hc' : ∀ c ∈ counts', CountsOk c) (hm : List.Forall₂ (fun c c' => c.1 ≤ c'.1 ∧ c'.2 ≤ c.2) counts counts')
    {occ : Fl} (hf : o.filterCell counts occ = some (some (.fin 0))) :
    o.filterCell counts' occ = some (some (.fin 0)) := by
  classical
  have hocc : occ.le (.fin (1 / 2)) = true := by
    by_contra hno
    unfold FilterOptions.filterCell at hf
    rw [if_neg (show ¬ occ.le Fl.half = true from hno)] at hf
    simp at hf
  rw [C32_filter_decision h hc hocc, Option.some.injEq, Option.some.injEq, decision_eq_zero] at hf
  rw [C32_filter_decision h hc' hocc, Option.some.injEq, Option.some.injEq, decision_eq_zero]
  obtain ⟨h1, h2⟩ := hf
  constructor
  · rintro ⟨c', hcm', hs⟩
    obtain ⟨c, hcm, r1, r2⟩ := forall₂_exists (R := fun c' c => c.1 ≤ c'.1 ∧ c'.2 ≤ c.2) hm.flip hcm'
    exact h1 ⟨c, hcm, sawFilled_mono (hc' c' hcm') (hc c hcm) r1 r2 hs⟩
  · refine h2.trans ?_
    have hm' : List.Forall₂ (fun c c' : ℤ × ℤ => (CountsOk c ∧ CountsOk c') ∧ c.1 ≤ c'.1 ∧ c'.2 ≤ c.2) counts counts' := by
      clear h1 h2
      induction hm with
      | nil => exact .nil
      | cons r _ ih =>
        exact .cons ⟨⟨hc _ List.mem_cons_self, hc' _ List.mem_cons_self⟩, r⟩
          (ih (fun c hcm => hc c (List.mem_cons_of_mem _ hcm)) (fun c hcm => hc' c (List.mem_cons_of_mem _ hcm)))
    exact_mod_cast countP_forall₂ (R := fun c c' : ℤ × ℤ => (CountsOk c ∧ CountsOk c') ∧ c.1 ≤ c'.1 ∧ c'.2 ≤ c.2)
      (fun a b r hp => by
        rw [decide_eq_true_iff] at hp ⊢
        exact sawFree_mono r.1.1 r.1.2 r.2.1 r.2.2 hp) hm'

example : ∃ o, FilterOptions.make (.fin (1 / 2)) 2 1 = some o ∧
    List.Forall₂ (fun c c' : ℤ × ℤ => c.1 ≤ c'.1 ∧ c'.2 ≤ c.2) [(3, 2)] [(4, 1)] ∧
    o.filterCell [(3, 2)] (.fin 0) = some (some (.fin 0)) ∧ o.filterCell [(4, 1)] (.fin 0) = some (some (.fin 0)) ∧
    List.Forall₂ (fun c c' : ℤ × ℤ => c'.1 ≤ c.1 ∧ c.2 ≤ c'.2) [(1, 2)] [(0, 3)] ∧
    o.filterCell [(1, 2)] (.fin 0) = some (some (.fin 1)) ∧ o.filterCell [(0, 3)] (.fin 0) = some (some (.fin 1)) := by
  refine ⟨⟨.fin (1 / 2), 2, 1⟩, by decide +kernel, ?_, by decide +kernel, by decide +kernel, ?_, by decide +kernel, by decide +kernel⟩
  all_goals simp

/-- C32 with the default options: one filled hit by any camera makes the cell filled, otherwise one free hit makes it
free. -/
theorem C32_default_options {counts : List (ℤ × ℤ)} (hc : ∀ c ∈ counts, CountsOk c) {occ : Fl}
    (hocc : occ.le (.fin (1 / 2)) = true) :
    FilterOptions.default.filterCell counts occ =
      some (some (decision (fun c => 0 < c.2) (fun c => 0 < c.1 ∧ c.2 = 0) 1 counts)) := by
  have hmk : FilterOptions.make (.fin (((1 : ℤ) : ℚ) / 2 ^ 0)) 1 1 = some FilterOptions.default := by
    norm_num [FilterOptions.make, FilterOptions.default, Fl.le, Fl.lt]
  rw [C32_decision_exact (by norm_num) hmk hc hocc]
  congr 2
  refine decision_congr ?_ ?_
  · intro c hcc
    obtain ⟨h1, h2, h3⟩ := hc c hcc
    unfold ExactShare
    constructor
    · rintro ⟨a, b⟩; omega
    · intro a; refine ⟨by omega, ?_⟩
      by_cases hz : c.1 = 0
      · exact Or.inl hz
      · right; omega
  · intro c hcc
    obtain ⟨h1, h2, h3⟩ := hc c hcc
    unfold ExactShare
    constructor
    · rintro ⟨a, b⟩; omega
    · rintro ⟨a, b⟩; exact ⟨a, by omega⟩

example : FilterOptions.default.filterCell [(1000, 1), (5, 0)] (.fin 0) = some (some (.fin 1)) ∧
    FilterOptions.default.filterCell [(5, 0), (0, 0)] (.fin 0) = some (some (.fin 0)) ∧ CountsOk (1000, 1) ∧
    CountsOk (5, 0) := by
  refine ⟨by decide +kernel, by decide +kernel, ?_, ?_⟩ <;> unfold CountsOk <;> simp

/-- Past 2^31 hits of one camera in one cell the sum overflows: undefined behaviour. -/
theorem C32_overflow_undefined : FilterOptions.default.countsSeenAs (2 ^ 31 - 1) 1 = none := by decide +kernel

end VGT
