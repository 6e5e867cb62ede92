import Verif.Model.EDT3
import Verif.Lemmas.EDT1
import Verif.Spec.SDFGenHyp
import Verif.Lemmas.Par
import Mathlib.Data.List.Nodup

set_option autoImplicit false

namespace VGT.EDT
open VGT VGT.Par VGT.Spec

/-- Cells of one line. -/
def OnLine (n : ℕ) (ix : ℕ → Idx) (idx : Idx) : Prop := ∃ q, q < n ∧ ix q = idx

theorem writeProg_foot (n : ℕ) (ix : ℕ → Idx) (d : ℕ → Fl) :
    ∀ r, r ≤ n → (writeProg n ix d r).InFoot (OnLine n ix)
  | 0, _ => trivial
  | r + 1, h => ⟨⟨_, by omega, rfl⟩, writeProg_foot n ix d r (by omega)⟩

theorem readProg_foot (rnd : ℚ → ℚ) (n : ℕ) (ix : ℕ → Idx) :
    ∀ r f, r ≤ n → (readProg rnd n ix r f).InFoot (OnLine n ix)
  | 0, f, _ => by
    simp only [readProg]
    split
    · trivial
    · exact writeProg_foot n ix _ n le_rfl
  | r + 1, f, h => ⟨⟨_, by omega, rfl⟩, fun v => readProg_foot rnd n ix r _ (by omega)⟩

theorem lineProg_foot (rnd : ℚ → ℚ) (n : ℕ) (ix : ℕ → Idx) :
    (lineProg rnd n ix).InFoot (OnLine n ix) := readProg_foot rnd n ix n _ le_rfl

theorem writeProg_run (n : ℕ) (ix : ℕ → Idx) (d : ℕ → Fl)
    (hinj : ∀ q r, q < n → r < n → ix q = ix r → q = r) :
    ∀ r (m : Fld), r ≤ n → ∃ m', (writeProg n ix d r).run m = some m' ∧
      (∀ q, n - r ≤ q → q < n → m' (ix q) = d q) ∧
      (∀ idx, (∀ q, n - r ≤ q → q < n → ix q ≠ idx) → m' idx = m idx)
  | 0, m, _ => ⟨m, rfl, by intro q; omega, fun _ _ => rfl⟩
  | r + 1, m, h => by
    obtain ⟨m', h1, h2, h3⟩ := writeProg_run n ix d hinj r
      (Prog.set m (ix (n - (r + 1))) (d (n - (r + 1)))) (by omega)
    refine ⟨m', h1, ?_, ?_⟩
    · intro q hq hqn
      rcases Nat.lt_or_ge q (n - r) with hlt | hge
      · have hq' : q = n - (r + 1) := by omega
        subst hq'
        rw [h3]
        · simp [Prog.set]
        · intro q' h4 h5 heq
          have := hinj _ _ h5 hqn heq
          omega
      · exact h2 q hge hqn
    · intro idx hidx
      rw [h3 idx (fun q h4 h5 => hidx q (by omega) h5)]
      simp only [Prog.set]
      rw [if_neg]
      intro heq
      exact hidx (n - (r + 1)) le_rfl (by omega) heq.symm

theorem readProg_run (rnd : ℚ → ℚ) (n : ℕ) (ix : ℕ → Idx) (m : Fld) :
    ∀ r f, r ≤ n → (∀ q, q < n - r → f q = m (ix q)) →
      ∃ f', (∀ q, q < n → f' q = m (ix q)) ∧
        (readProg rnd n ix r f).run m = (readProg rnd n ix 0 f').run m
  | 0, f, _, hf => ⟨f, by simpa using hf, rfl⟩
  | r + 1, f, h, hf => by
    obtain ⟨f', h1, h2⟩ := readProg_run rnd n ix m r (upd f (n - (r + 1)) (m (ix (n - (r + 1)))))
      (by omega) (by
        intro q hq
        simp only [upd]
        split
        · next h => rw [h]
        · exact hf q (by omega))
    exact ⟨f', h1, h2⟩

/-- Running the transform of one line alone. -/
theorem lineProg_run {rnd : ℚ → ℚ} {n M : ℕ} {g : ℕ → ℕ∞} (hr : RoundOK rnd n) (hl : LineOK n M g)
    (ix : ℕ → Idx) (hinj : ∀ q r, q < n → r < n → ix q = ix r → q = r) (m : Fld)
    (hm : ∀ q, q < n → m (ix q) = enc (g q)) :
    ∃ m', (lineProg rnd n ix).run m = some m' ∧ ∀ q, q < n → m' (ix q) = enc (dt1 n g q) := by
  obtain ⟨f', h1, h2⟩ := readProg_run rnd n ix m n (fun _ => .nan) le_rfl (by intro q; omega)
  obtain ⟨d, h3, h4⟩ := transform1_eq (f := f') hr hl (fun i hi => by rw [h1 i hi, hm i hi])
  obtain ⟨m', h5, h6, _⟩ := writeProg_run n ix d hinj n m le_rfl
  refine ⟨m', ?_, ?_⟩
  · unfold lineProg
    rw [h2]
    simp only [readProg, h3]
    exact h5
  · intro q hq
    rw [h6 q (by omega) hq, h4 q hq]

/-- A pass: `N` lines of `n` cells, `line i q` is cell `q` of line `i`. -/
structure Lines (line : ℕ → ℕ → Idx) (N n : ℕ) : Prop where
  inj : ∀ i j q r, i < N → j < N → q < n → r < n → line i q = line j r → i = j ∧ q = r

section
variable {rnd : ℚ → ℚ} {n M N : ℕ} {line : ℕ → ℕ → Idx} {g : Idx → ℕ∞}

theorem threadProg_foot (is : List ℕ) :
    (threadProg (fun i => lineProg rnd n (line i)) is).InFoot (fun idx => ∃ i ∈ is, OnLine n (line i) idx) := by
  induction is with
  | nil => trivial
  | cons i is ih =>
    refine Prog.InFoot.andThen (ih.mono ?_) ((lineProg_foot rnd n (line i)).mono ?_)
    · rintro idx ⟨j, hj, h⟩
      exact ⟨j, List.mem_cons_of_mem _ hj, h⟩
    · intro idx h
      exact ⟨i, List.mem_cons_self, h⟩

theorem threadProg_run (hL : Lines line N n) (hr : RoundOK rnd n)
    (hl : ∀ i, i < N → LineOK n M (fun q => g (line i q))) :
    ∀ (is : List ℕ) (m : Fld), is.Nodup → (∀ i ∈ is, i < N) →
      (∀ i ∈ is, ∀ q, q < n → m (line i q) = enc (g (line i q))) →
      ∃ m', (threadProg (fun i => lineProg rnd n (line i)) is).run m = some m' ∧
        ∀ i ∈ is, ∀ q, q < n → m' (line i q) = enc (dt1 n (fun q => g (line i q)) q)
  | [], m, _, _, _ => ⟨m, rfl, by simp⟩
  | i :: is, m, hnd, hlt, hm => by
    have hi : i < N := hlt i List.mem_cons_self
    obtain ⟨m1, h1, h2⟩ := lineProg_run hr (hl i hi) (line i)
      (fun q r hq hr' h => (hL.inj i i q r hi hi hq hr' h).2) m
      (fun q hq => hm i List.mem_cons_self q hq)
    have hnin : i ∉ is := (List.nodup_cons.1 hnd).1
    obtain ⟨m2, h3, h4⟩ := threadProg_run hL hr hl is m1 (List.nodup_cons.1 hnd).2
      (fun j hj => hlt j (List.mem_cons_of_mem _ hj)) (by
        intro j hj q hq
        rw [run_frame (lineProg_foot rnd n (line i)) h1]
        · exact hm j (List.mem_cons_of_mem _ hj) q hq
        · rintro ⟨r, hr', heq⟩
          have := (hL.inj i j r q hi (hlt j (List.mem_cons_of_mem _ hj)) hr' hq heq).1
          exact hnin (this ▸ hj))
    refine ⟨m2, ?_, ?_⟩
    · simp only [threadProg, run_andThen, h1, Option.bind_some]
      exact h3
    · intro j hj q hq
      rcases List.mem_cons.1 hj with rfl | hj
      · rw [run_frame (threadProg_foot is) h3]
        · exact h2 q hq
        · rintro ⟨k, hk, r, hr', heq⟩
          have := (hL.inj k j r q (hlt k (List.mem_cons_of_mem _ hk)) hi hr' hq heq).1
          exact hnin (this ▸ hk)
      · exact h4 j hj q hq

/-- Footprint of thread `t` under a work split. -/
def splitFoot (line : ℕ → ℕ → Idx) (n : ℕ) (split : List (List ℕ)) (t : ℕ) (idx : Idx) : Prop :=
  ∃ is, split[t]? = some is ∧ ∃ i ∈ is, OnLine n (line i) idx

theorem split_nodup {split : List (List ℕ)} (hs : IsSplit N split) : split.flatten.Nodup :=
  hs.nodup_iff.2 List.nodup_range

theorem split_lt {split : List (List ℕ)} (hs : IsSplit N split) {is : List ℕ} (h : is ∈ split) {i : ℕ}
    (hi : i ∈ is) : i < N :=
  List.mem_range.1 (hs.mem_iff.1 (List.mem_flatten.2 ⟨is, h, hi⟩))

theorem split_disjoint (hL : Lines line N n) {split : List (List ℕ)} (hs : IsSplit N split) :
    ∀ t t' idx, t ≠ t' → splitFoot line n split t idx → ¬ splitFoot line n split t' idx := by
  rintro t t' idx hne ⟨is, his, i, hi, q, hq, heq⟩ ⟨js, hjs, j, hj, r, hr, heq'⟩
  have hi' := split_lt hs (List.mem_of_getElem? his) hi
  have hj' := split_lt hs (List.mem_of_getElem? hjs) hj
  have hij := (hL.inj i j q r hi' hj' hq hr (heq.trans heq'.symm)).1
  subst hij
  have hnd := split_nodup hs
  rw [List.nodup_flatten] at hnd
  have hpw := List.pairwise_iff_getElem.1 hnd.2
  obtain ⟨ht, h1⟩ := List.getElem?_eq_some_iff.1 his
  obtain ⟨ht', h2⟩ := List.getElem?_eq_some_iff.1 hjs
  rcases Nat.lt_or_ge t t' with hlt | hge
  · have := hpw t t' ht ht' hlt
    rw [h1, h2] at this
    exact this hi hj
  · have := hpw t' t ht' ht (by omega)
    rw [h1, h2] at this
    exact this hj hi

/-- Result of a parallel pass, for every split and schedule. -/
theorem passRuns_eq (hL : Lines line N n) (hr : RoundOK rnd n)
    (hl : ∀ i, i < N → LineOK n M (fun q => g (line i q))) {m m' : Fld}
    (hm : ∀ i, i < N → ∀ q, q < n → m (line i q) = enc (g (line i q)))
    (h : PassRuns (fun i => lineProg rnd n (line i)) N m m') :
    (∀ i, i < N → ∀ q, q < n → m' (line i q) = enc (dt1 n (fun q => g (line i q)) q)) ∧
    (∀ idx, (∀ i, i < N → ¬ OnLine n (line i) idx) → m' idx = m idx) := by
  obtain ⟨split, hs, sched, hfin, hmem⟩ := h
  have hfoot : ∀ (t : ℕ) (p : Prog Idx Fl),
      (split.map (threadProg fun i => lineProg rnd n (line i)))[t]? = some p →
      p.InFoot (splitFoot line n split t) := by
    intro t p hp
    rw [List.getElem?_map] at hp
    cases his : split[t]? with
    | none => rw [his] at hp; simp at hp
    | some is =>
      rw [his] at hp
      simp at hp
      rw [← hp]
      exact (threadProg_foot is).mono fun idx h => ⟨is, his, h⟩
  have hI := interleave (split_disjoint hL hs) hfoot sched hfin
  rw [hmem] at hI
  constructor
  · intro i hi q hq
    have hmem' : i ∈ split.flatten := hs.mem_iff.2 (List.mem_range.2 hi)
    obtain ⟨is, his, hiis⟩ := List.mem_flatten.1 hmem'
    obtain ⟨t, ht, htis⟩ := List.mem_iff_getElem.1 his
    have hget : split[t]? = some is := by rw [List.getElem?_eq_getElem ht, htis]
    obtain ⟨m1, h1, h2⟩ := hI.1 t (threadProg (fun i => lineProg rnd n (line i)) is)
      (by simp [hget])
    have hnd : is.Nodup := (List.nodup_flatten.1 (split_nodup hs)).1 is his
    obtain ⟨m2, h3, h4⟩ := threadProg_run hL hr hl is m hnd (fun j hj => split_lt hs his hj)
      (fun j hj q hq => hm j (split_lt hs his hj) q hq)
    rw [h1] at h3
    cases h3
    rw [h2 _ ⟨is, hget, i, hiis, q, hq, rfl⟩, h4 i hiis q hq]
  · intro idx hidx
    apply hI.2
    rintro t ht ⟨is, his, i, hi, hon⟩
    exact hidx i (split_lt hs (List.mem_of_getElem? his) hi) hon

/-- Every prefix of every schedule of a pass can be completed. -/
theorem pass_can_finish (hL : Lines line N n) (hr : RoundOK rnd n)
    (hl : ∀ i, i < N → LineOK n M (fun q => g (line i q))) {m : Fld}
    (hm : ∀ i, i < N → ∀ q, q < n → m (line i q) = enc (g (line i q)))
    {split : List (List ℕ)} (hs : IsSplit N split) (sched : List ℕ) :
    ∃ rest, finished (runSched
      { threads := split.map (threadProg fun i => lineProg rnd n (line i)), mem := m } (sched ++ rest)) := by
  have hfoot : ∀ (t : ℕ) (p : Prog Idx Fl),
      (split.map (threadProg fun i => lineProg rnd n (line i)))[t]? = some p →
      p.InFoot (splitFoot line n split t) := by
    intro t p hp
    rw [List.getElem?_map] at hp
    cases his : split[t]? with
    | none => rw [his] at hp; simp at hp
    | some is =>
      rw [his] at hp
      simp at hp
      rw [← hp]
      exact (threadProg_foot is).mono fun idx h => ⟨is, his, h⟩
  have hI := iinv_run (split_disjoint hL hs) sched (iinv_init (m := m) hfoot)
  obtain ⟨rest, hrest⟩ := can_finish (split_disjoint hL hs) (m := m) (by
    intro t p hp
    rw [List.getElem?_map] at hp
    cases his : split[t]? with
    | none => rw [his] at hp; simp at hp
    | some is =>
      rw [his] at hp
      simp at hp
      have hmem := List.mem_of_getElem? his
      obtain ⟨m', h1, _⟩ := threadProg_run hL hr hl is m
        ((List.nodup_flatten.1 (split_nodup hs)).1 is hmem) (fun j hj => split_lt hs hmem hj)
        (fun j hj q hq => hm j (split_lt hs hmem hj) q hq)
      exact ⟨m', by rw [← hp]; exact h1⟩) _ _ hI le_rfl (by intro t p ht; omega)
  exact ⟨rest, by rw [runSched_append]; exact hrest⟩

end

/-! ### Determinism, for any rounding and any field -/

section
variable {rnd : ℚ → ℚ} {n N : ℕ} {line : ℕ → ℕ → Idx}

theorem threadProg_line (hL : Lines line N n) :
    ∀ (is : List ℕ) (m m' : Fld), is.Nodup → (∀ i ∈ is, i < N) →
      (threadProg (fun i => lineProg rnd n (line i)) is).run m = some m' →
      ∀ i ∈ is, ∃ mi, (lineProg rnd n (line i)).run m = some mi ∧ ∀ idx, OnLine n (line i) idx → m' idx = mi idx
  | [], _, _, _, _, _ => by simp
  | i :: is, m, m', hnd, hlt, hrun => by
    have hi : i < N := hlt i List.mem_cons_self
    have hnin : i ∉ is := (List.nodup_cons.1 hnd).1
    simp only [threadProg, run_andThen] at hrun
    cases h1 : (lineProg rnd n (line i)).run m with
    | none => rw [h1] at hrun; simp at hrun
    | some m1 =>
      rw [h1, Option.bind_some] at hrun
      have hdis : ∀ j ∈ is, ∀ idx, OnLine n (line i) idx → ¬ OnLine n (line j) idx := by
        rintro j hj idx ⟨q, hq, rfl⟩ ⟨r, hr, heq⟩
        have := (hL.inj j i r q (hlt j (List.mem_cons_of_mem _ hj)) hi hr hq heq).1
        exact hnin (this ▸ hj)
      intro j hj
      rcases List.mem_cons.1 hj with rfl | hj
      · refine ⟨m1, h1, ?_⟩
        intro idx hidx
        apply run_frame (threadProg_foot is) hrun
        rintro ⟨k, hk, hon⟩
        exact hdis k hk idx hidx hon
      · obtain ⟨mj, h2, h3⟩ := threadProg_line hL is m1 m' (List.nodup_cons.1 hnd).2
          (fun j hj => hlt j (List.mem_cons_of_mem _ hj)) hrun j hj
        have hres := run_congr (m1 := m1) (m2 := m) (lineProg_foot rnd n (line j)) (by
          intro idx hidx
          exact run_frame (lineProg_foot rnd n (line i)) h1 idx (fun h => hdis j hj idx h hidx))
        rw [h2] at hres
        cases h4 : (lineProg rnd n (line j)).run m with
        | none => rw [h4] at hres; exact hres.elim
        | some mj' =>
          rw [h4] at hres
          exact ⟨mj', rfl, fun idx hidx => (h3 idx hidx).trans (hres idx hidx)⟩

theorem split_hfoot (split : List (List ℕ)) : ∀ (t : ℕ) (p : Prog Idx Fl),
      (split.map (threadProg fun i => lineProg rnd n (line i)))[t]? = some p →
      p.InFoot (splitFoot line n split t) := by
  intro t p hp
  rw [List.getElem?_map] at hp
  cases his : split[t]? with
  | none => rw [his] at hp; simp at hp
  | some is =>
    rw [his] at hp
    simp at hp
    rw [← hp]
    exact (threadProg_foot is).mono fun idx h => ⟨is, his, h⟩

theorem passRuns_line (hL : Lines line N n) {m m' : Fld}
    (h : PassRuns (fun i => lineProg rnd n (line i)) N m m') :
    (∀ i, i < N → ∃ mi, (lineProg rnd n (line i)).run m = some mi ∧
      ∀ idx, OnLine n (line i) idx → m' idx = mi idx) ∧
    (∀ idx, (∀ i, i < N → ¬ OnLine n (line i) idx) → m' idx = m idx) := by
  obtain ⟨split, hs, sched, hfin, hmem⟩ := h
  have hI := interleave (split_disjoint hL hs) (split_hfoot split) sched hfin
  rw [hmem] at hI
  constructor
  · intro i hi
    have hmem' : i ∈ split.flatten := hs.mem_iff.2 (List.mem_range.2 hi)
    obtain ⟨is, his, hiis⟩ := List.mem_flatten.1 hmem'
    obtain ⟨t, ht, htis⟩ := List.mem_iff_getElem.1 his
    have hget : split[t]? = some is := by rw [List.getElem?_eq_getElem ht, htis]
    obtain ⟨m1, h1, h2⟩ := hI.1 t (threadProg (fun i => lineProg rnd n (line i)) is) (by simp [hget])
    have hnd : is.Nodup := (List.nodup_flatten.1 (split_nodup hs)).1 is his
    obtain ⟨mi, h3, h4⟩ := threadProg_line hL is m m1 hnd (fun j hj => split_lt hs his hj) h1 i hiis
    exact ⟨mi, h3, fun idx hidx => (h2 idx ⟨is, hget, i, hiis, hidx⟩).trans (h4 idx hidx)⟩
  · intro idx hidx
    apply hI.2
    rintro t ht ⟨is, his, i, hi, hon⟩
    exact hidx i (split_lt hs (List.mem_of_getElem? his) hi) hon

theorem passRuns_det (hL : Lines line N n) {m a b : Fld}
    (ha : PassRuns (fun i => lineProg rnd n (line i)) N m a)
    (hb : PassRuns (fun i => lineProg rnd n (line i)) N m b) : a = b := by
  obtain ⟨a1, a2⟩ := passRuns_line hL ha
  obtain ⟨b1, b2⟩ := passRuns_line hL hb
  funext idx
  by_cases h : ∃ i, i < N ∧ OnLine n (line i) idx
  · obtain ⟨i, hi, hon⟩ := h
    obtain ⟨x, hx, hx'⟩ := a1 i hi
    obtain ⟨y, hy, hy'⟩ := b1 i hi
    rw [hx] at hy
    cases hy
    rw [hx' idx hon, hy' idx hon]
  · push Not at h
    rw [a2 idx h, b2 idx h]

theorem passRuns_seq {work : ℕ → Prog Idx Fl} {N : ℕ} {m m' : Fld}
    (h : (threadProg work (List.range N)).run m = some m') : PassRuns work N m m' := by
  refine ⟨[List.range N], by simp [IsSplit], ?_⟩
  obtain ⟨k, hk⟩ := run_one (F := fun _ _ => True) (threadProg work (List.range N))
    { threads := [threadProg work (List.range N)], mem := m } 0 m' rfl h
  refine ⟨List.replicate k 0, ?_⟩
  simp only [List.map_cons, List.map_nil]
  rw [hk]
  refine ⟨?_, rfl⟩
  intro p hp
  simpa using hp

end

/-! ### Indexing of the three passes -/

theorem div_mod_inj {s i j : ℕ} (h1 : i / s = j / s) (h2 : i % s = j % s) : i = j := by
  rw [← Nat.div_add_mod i s, ← Nat.div_add_mod j s, h1, h2]

theorem xLines (d : Dims) : Lines (fun i => xIndexer (i / d.nz) (i % d.nz)) (d.ny * d.nz) d.nx where
  inj := by
    intro i j q r _ _ _ _ h
    simp only [xIndexer, Prod.mk.injEq] at h
    exact ⟨div_mod_inj h.2.1 h.2.2, h.1⟩

theorem yLines (d : Dims) : Lines (fun i => yIndexer (i / d.nz) (i % d.nz)) (d.nx * d.nz) d.ny where
  inj := by
    intro i j q r _ _ _ _ h
    simp only [yIndexer, Prod.mk.injEq] at h
    exact ⟨div_mod_inj h.1 h.2.2, h.2.1⟩

theorem zLines (d : Dims) : Lines (fun i => zIndexer (i / d.ny) (i % d.ny)) (d.nx * d.ny) d.nz where
  inj := by
    intro i j q r _ _ _ _ h
    simp only [zIndexer, Prod.mk.injEq] at h
    exact ⟨div_mod_inj h.1 h.2.1, h.2.2⟩

theorem iter_exists {a b i j : ℕ} (hi : i < a) (hj : j < b) :
    ∃ k, k < a * b ∧ k / b = i ∧ k % b = j := by
  refine ⟨i * b + j, ?_, ?_, ?_⟩
  · calc i * b + j < i * b + b := by omega
      _ = (i + 1) * b := by ring
      _ ≤ a * b := Nat.mul_le_mul_right b (by omega)
  · rw [Nat.add_comm, Nat.add_mul_div_right _ _ (by omega), Nat.div_eq_of_lt hj, Nat.zero_add]
  · rw [Nat.add_comm, Nat.add_mul_mod_self_right, Nat.mod_eq_of_lt hj]

theorem iter_lt {a b k : ℕ} (h : k < a * b) : k / b < a ∧ k % b < b := by
  have hb : 0 < b := by
    rcases Nat.eq_zero_or_pos b with h0 | h0
    · subst h0; simp at h
    · exact h0
  exact ⟨Nat.div_lt_of_lt_mul (by rw [Nat.mul_comm]; exact h), Nat.mod_lt _ hb⟩

/-! ### One axis pass, run or skipped -/

theorem dt1_one (g : ℕ → ℕ∞) : dt1 1 g 0 = g 0 := by simp [dt1, sqd]

theorem dt1_bound {n M : ℕ} {g : ℕ → ℕ∞} (hg : ∀ i, i < n → g i ≠ ⊤ → g i ≤ (M : ℕ∞)) {q : ℕ} (hq : q < n)
    (h : dt1 n g q ≠ ⊤) : dt1 n g q ≤ ((M + n ^ 2 : ℕ) : ℕ∞) := by
  have : ∃ j, j < n ∧ g j ≠ ⊤ := by
    by_contra hcon
    push Not at hcon
    apply h
    unfold dt1
    rw [Finset.inf_eq_top_iff]
    intro j hj
    rw [hcon j (Finset.mem_range.1 hj)]
    simp
  obtain ⟨j, hj, hgj⟩ := this
  calc dt1 n g q ≤ (sqd q j : ℕ∞) + g j := Finset.inf_le (Finset.mem_range.2 hj)
    _ ≤ ((n ^ 2 : ℕ) : ℕ∞) + (M : ℕ∞) := add_le_add (by exact_mod_cast sqd_le hq hj) (hg j hj hgj)
    _ = ((M + n ^ 2 : ℕ) : ℕ∞) := by push_cast; ring

/-- Bounded finite values. -/
def Bdd (d : Dims) (M : ℕ) (g : Idx → ℕ∞) : Prop := ∀ idx, d.In idx → g idx ≠ ⊤ → g idx ≤ (M : ℕ∞)

/-- The field holds `g` on the grid. -/
def Holds (d : Dims) (f : Fld) (g : Idx → ℕ∞) : Prop := ∀ idx, d.In idx → f idx = enc (g idx)

noncomputable def gx (d : Dims) (g : Idx → ℕ∞) : Idx → ℕ∞ := fun idx => dt1 d.nx (fun q => g (q, idx.2.1, idx.2.2)) idx.1
noncomputable def gy (d : Dims) (g : Idx → ℕ∞) : Idx → ℕ∞ := fun idx => dt1 d.ny (fun q => g (idx.1, q, idx.2.2)) idx.2.1
noncomputable def gz (d : Dims) (g : Idx → ℕ∞) : Idx → ℕ∞ := fun idx => dt1 d.nz (fun q => g (idx.1, idx.2.1, q)) idx.2.2

section
variable {rnd : ℚ → ℚ} {d : Dims} {M : ℕ} {g : Idx → ℕ∞} {f f' : Fld}

theorem Bdd.gx (h : Bdd d M g) : Bdd d (M + d.nx ^ 2) (gx d g) := by
  intro idx hin hne
  exact dt1_bound (fun i hi hgi => h (i, idx.2.1, idx.2.2) ⟨hi, hin.2.1, hin.2.2⟩ hgi) hin.1 hne

theorem Bdd.gy (h : Bdd d M g) : Bdd d (M + d.ny ^ 2) (gy d g) := by
  intro idx hin hne
  exact dt1_bound (fun i hi hgi => h (idx.1, i, idx.2.2) ⟨hin.1, hi, hin.2.2⟩ hgi) hin.2.1 hne

theorem lineX (hb : Bdd d M g) (hM : M + d.nx ^ 2 ≤ 2 ^ 53) (i : ℕ) (hi : i < d.ny * d.nz) :
    LineOK d.nx M (fun q => g (xIndexer (i / d.nz) (i % d.nz) q)) where
  bound := fun q hq => hb _ ⟨hq, (iter_lt hi).1, (iter_lt hi).2⟩
  fits := hM

theorem lineY (hb : Bdd d M g) (hM : M + d.ny ^ 2 ≤ 2 ^ 53) (i : ℕ) (hi : i < d.nx * d.nz) :
    LineOK d.ny M (fun q => g (yIndexer (i / d.nz) (i % d.nz) q)) where
  bound := fun q hq => hb _ ⟨(iter_lt hi).1, hq, (iter_lt hi).2⟩
  fits := hM

theorem lineZ (hb : Bdd d M g) (hM : M + d.nz ^ 2 ≤ 2 ^ 53) (i : ℕ) (hi : i < d.nx * d.ny) :
    LineOK d.nz M (fun q => g (zIndexer (i / d.ny) (i % d.ny) q)) where
  bound := fun q hq => hb _ ⟨(iter_lt hi).1, (iter_lt hi).2, hq⟩
  fits := hM

theorem holdsX (hf : Holds d f g) (i : ℕ) (hi : i < d.ny * d.nz) (q : ℕ) (hq : q < d.nx) :
    f (xIndexer (i / d.nz) (i % d.nz) q) = enc (g (xIndexer (i / d.nz) (i % d.nz) q)) :=
  hf _ ⟨hq, (iter_lt hi).1, (iter_lt hi).2⟩

theorem holdsY (hf : Holds d f g) (i : ℕ) (hi : i < d.nx * d.nz) (q : ℕ) (hq : q < d.ny) :
    f (yIndexer (i / d.nz) (i % d.nz) q) = enc (g (yIndexer (i / d.nz) (i % d.nz) q)) :=
  hf _ ⟨(iter_lt hi).1, hq, (iter_lt hi).2⟩

theorem holdsZ (hf : Holds d f g) (i : ℕ) (hi : i < d.nx * d.ny) (q : ℕ) (hq : q < d.nz) :
    f (zIndexer (i / d.ny) (i % d.ny) q) = enc (g (zIndexer (i / d.ny) (i % d.ny) q)) :=
  hf _ ⟨(iter_lt hi).1, (iter_lt hi).2, hq⟩

theorem passX (hr : RoundOK rnd d.nx) (hb : Bdd d M g) (hM : M + d.nx ^ 2 ≤ 2 ^ 53) (hf : Holds d f g)
    (h : if d.nx > 1 then PassRuns (xWork rnd d) (d.ny * d.nz) f f' else f' = f) :
    Holds d f' (gx d g) ∧ ∀ idx, ¬ d.In idx → f' idx = f idx := by
  split at h
  · obtain ⟨h1, h2⟩ := passRuns_eq (xLines d) hr (lineX hb hM) (holdsX hf) h
    refine ⟨?_, ?_⟩
    · rintro ⟨x, y, z⟩ ⟨hx, hy, hz⟩
      obtain ⟨k, hk, rfl, rfl⟩ := iter_exists hy hz
      exact h1 k hk x hx
    · intro idx hidx
      apply h2
      rintro i hi ⟨q, hq, rfl⟩
      exact hidx ⟨hq, (iter_lt hi).1, (iter_lt hi).2⟩
  · subst h
    refine ⟨?_, fun _ _ => rfl⟩
    rintro ⟨x, y, z⟩ ⟨hx, hy, hz⟩
    have hn : d.nx = 1 := by simp only at hx; omega
    have hx0 : x = 0 := by simp only at hx; omega
    subst hx0
    rw [hf _ ⟨hx, hy, hz⟩]
    simp only [gx, hn]
    rw [dt1_one]

theorem passY (hr : RoundOK rnd d.ny) (hb : Bdd d M g) (hM : M + d.ny ^ 2 ≤ 2 ^ 53) (hf : Holds d f g)
    (h : if d.ny > 1 then PassRuns (yWork rnd d) (d.nx * d.nz) f f' else f' = f) :
    Holds d f' (gy d g) ∧ ∀ idx, ¬ d.In idx → f' idx = f idx := by
  split at h
  · obtain ⟨h1, h2⟩ := passRuns_eq (yLines d) hr (lineY hb hM) (holdsY hf) h
    refine ⟨?_, ?_⟩
    · rintro ⟨x, y, z⟩ ⟨hx, hy, hz⟩
      obtain ⟨k, hk, rfl, rfl⟩ := iter_exists hx hz
      exact h1 k hk y hy
    · intro idx hidx
      apply h2
      rintro i hi ⟨q, hq, rfl⟩
      exact hidx ⟨(iter_lt hi).1, hq, (iter_lt hi).2⟩
  · subst h
    refine ⟨?_, fun _ _ => rfl⟩
    rintro ⟨x, y, z⟩ ⟨hx, hy, hz⟩
    have hn : d.ny = 1 := by simp only at hy; omega
    have hx0 : y = 0 := by simp only at hy; omega
    subst hx0
    rw [hf _ ⟨hx, hy, hz⟩]
    simp only [gy, hn]
    rw [dt1_one]

theorem passZ (hr : RoundOK rnd d.nz) (hb : Bdd d M g) (hM : M + d.nz ^ 2 ≤ 2 ^ 53) (hf : Holds d f g)
    (h : if d.nz > 1 then PassRuns (zWork rnd d) (d.nx * d.ny) f f' else f' = f) :
    Holds d f' (gz d g) ∧ ∀ idx, ¬ d.In idx → f' idx = f idx := by
  split at h
  · obtain ⟨h1, h2⟩ := passRuns_eq (zLines d) hr (lineZ hb hM) (holdsZ hf) h
    refine ⟨?_, ?_⟩
    · rintro ⟨x, y, z⟩ ⟨hx, hy, hz⟩
      obtain ⟨k, hk, rfl, rfl⟩ := iter_exists hx hy
      exact h1 k hk z hz
    · intro idx hidx
      apply h2
      rintro i hi ⟨q, hq, rfl⟩
      exact hidx ⟨(iter_lt hi).1, (iter_lt hi).2, hq⟩
  · subst h
    refine ⟨?_, fun _ _ => rfl⟩
    rintro ⟨x, y, z⟩ ⟨hx, hy, hz⟩
    have hn : d.nz = 1 := by simp only at hz; omega
    have hx0 : z = 0 := by simp only at hz; omega
    subst hx0
    rw [hf _ ⟨hx, hy, hz⟩]
    simp only [gz, hn]
    rw [dt1_one]

/-- Existence of a run of one pass for a given split. -/
theorem passRuns_exists {N n : ℕ} {line : ℕ → ℕ → Idx} (hL : Lines line N n) (hr : RoundOK rnd n)
    (hl : ∀ i, i < N → LineOK n M (fun q => g (line i q)))
    (hm : ∀ i, i < N → ∀ q, q < n → f (line i q) = enc (g (line i q))) :
    ∃ f', PassRuns (fun i => lineProg rnd n (line i)) N f f' := by
  have hs : IsSplit N [List.range N] := by simp [IsSplit]
  obtain ⟨rest, h⟩ := pass_can_finish hL hr hl hm hs []
  exact ⟨_, [List.range N], hs, _, h, rfl⟩

end

/-! ### The whole transform -/

/-- Marked cells as exact squared distances: 0 if marked, infinite otherwise. -/
noncomputable def markG (A : Idx → Prop) [DecidablePred A] : Idx → ℕ∞ := fun i => if A i then 0 else ⊤

theorem inf_add_const (n : ℕ) (c : ℕ) (g : ℕ → ℕ∞) :
    (c : ℕ∞) + (Finset.range n).inf g = (Finset.range n).inf fun i => (c : ℕ∞) + g i := by
  induction n with
  | zero => simp
  | succ n ih =>
    rw [Finset.range_add_one, Finset.inf_insert, Finset.inf_insert, ← ih]
    exact (Monotone.map_inf (f := fun a : ℕ∞ => (c : ℕ∞) + a) (fun _ _ h => add_le_add le_rfl h) _ _)

theorem gzyx_eq (d : Dims) (A : Idx → Prop) [DecidablePred A] (q : Idx) :
    gz d (gy d (gx d (markG A))) q = sqDist {p | d.In p ∧ A p} q := by
  obtain ⟨x, y, z⟩ := q
  unfold sqDist
  apply le_antisymm
  · refine le_iInf₂ ?_
    rintro ⟨x', y', z'⟩ ⟨⟨hx, hy, hz⟩, hA⟩
    calc gz d (gy d (gx d (markG A))) (x, y, z)
        ≤ (sqd z z' : ℕ∞) + gy d (gx d (markG A)) (x, y, z') := Finset.inf_le (Finset.mem_range.2 hz)
      _ ≤ (sqd z z' : ℕ∞) + ((sqd y y' : ℕ∞) + gx d (markG A) (x, y', z')) :=
          add_le_add le_rfl (Finset.inf_le (Finset.mem_range.2 hy))
      _ ≤ (sqd z z' : ℕ∞) + ((sqd y y' : ℕ∞) + ((sqd x x' : ℕ∞) + markG A (x', y', z'))) :=
          add_le_add le_rfl (add_le_add le_rfl (Finset.inf_le (Finset.mem_range.2 hx)))
      _ = ((sq3 (x, y, z) (x', y', z') : ℕ) : ℕ∞) := by
          simp only [markG, if_pos hA, sq3]
          push_cast
          ring
  · show (⨅ p ∈ {p | d.In p ∧ A p}, ((sq3 (x, y, z) p : ℕ) : ℕ∞)) ≤
      (Finset.range d.nz).inf fun z' => (sqd z z' : ℕ∞) + gy d (gx d (markG A)) (x, y, z')
    refine Finset.le_inf fun z' hz => ?_
    have h2 : (⨅ p ∈ {p | d.In p ∧ A p}, ((sq3 (x, y, z) p : ℕ) : ℕ∞)) ≤
        (Finset.range d.ny).inf fun y' => (sqd z z' : ℕ∞) + ((sqd y y' : ℕ∞) + gx d (markG A) (x, y', z')) := by
      refine Finset.le_inf fun y' hy => ?_
      have h3 : (⨅ p ∈ {p | d.In p ∧ A p}, ((sq3 (x, y, z) p : ℕ) : ℕ∞)) ≤
          (Finset.range d.nx).inf fun x' => (sqd z z' : ℕ∞) + ((sqd y y' : ℕ∞) + ((sqd x x' : ℕ∞) +
            markG A (x', y', z'))) := by
        refine Finset.le_inf fun x' hx => ?_
        by_cases hA : A (x', y', z')
        · refine (iInf₂_le (x', y', z') ⟨⟨Finset.mem_range.1 hx, Finset.mem_range.1 hy,
            Finset.mem_range.1 hz⟩, hA⟩).trans ?_
          simp only [markG, if_pos hA, sq3]
          apply le_of_eq
          push_cast
          ring
        · simp [markG, if_neg hA]
      refine h3.trans ?_
      simp only [← inf_add_const]
      exact le_rfl
    refine h2.trans ?_
    rw [← inf_add_const]
    exact le_rfl

theorem transformRuns_eq {rnd : ℚ → ℚ} (hr : IsDoubleRounding rnd) {d : Dims} (hd : Fits d)
    (A : Idx → Prop) [DecidablePred A] {f out : Fld}
    (hf : ∀ idx, d.In idx → f idx = if A idx then .fin 0 else .pinf)
    (h : TransformRuns rnd d f out) :
    (∀ idx, d.In idx → out idx = enc (sqDist {p | d.In p ∧ A p} idx)) ∧
    (∀ idx, ¬ d.In idx → out idx = f idx) := by
  obtain ⟨f1, f2, h1, h2, h3⟩ := h
  have hs := hd.sum
  have hb0 : Bdd d 0 (markG A) := by
    intro idx _ hne
    by_cases hA : A idx
    · simp [markG, hA]
    · simp [markG, hA] at hne
  have hf0 : Holds d f (markG A) := by
    intro idx hin
    rw [hf idx hin]
    by_cases hA : A idx <;> simp [markG, hA]
    exact (enc_coe 0).symm ▸ by simp
  obtain ⟨hf1, g1⟩ := passX (roundOK_of_double hr hd.x) hb0 (by omega) hf0 h1
  obtain ⟨hf2, g2⟩ := passY (roundOK_of_double hr hd.y) hb0.gx (by omega) hf1 h2
  obtain ⟨hf3, g3⟩ := passZ (roundOK_of_double hr hd.z) hb0.gx.gy (by omega) hf2 h3
  refine ⟨?_, ?_⟩
  · intro idx hin
    rw [hf3 idx hin, gzyx_eq]
  · intro idx hin
    rw [g3 idx hin, g2 idx hin, g1 idx hin]

theorem transformRuns_exists {rnd : ℚ → ℚ} (hr : IsDoubleRounding rnd) {d : Dims} (hd : Fits d)
    (A : Idx → Prop) [DecidablePred A] {f : Fld}
    (hf : ∀ idx, d.In idx → f idx = if A idx then .fin 0 else .pinf) :
    ∃ out, TransformRuns rnd d f out := by
  have hs := hd.sum
  have hb0 : Bdd d 0 (markG A) := by
    intro idx _ hne
    by_cases hA : A idx
    · simp [markG, hA]
    · simp [markG, hA] at hne
  have hf0 : Holds d f (markG A) := by
    intro idx hin
    rw [hf idx hin]
    by_cases hA : A idx <;> simp [markG, hA]
    exact (enc_coe 0).symm ▸ by simp
  have e1 : ∃ f1, if d.nx > 1 then PassRuns (xWork rnd d) (d.ny * d.nz) f f1 else f1 = f := by
    split
    · exact passRuns_exists (xLines d) (roundOK_of_double hr hd.x) (lineX hb0 (by omega)) (holdsX hf0)
    · exact ⟨_, rfl⟩
  obtain ⟨f1, h1⟩ := e1
  obtain ⟨hf1, _⟩ := passX (roundOK_of_double hr hd.x) hb0 (by omega) hf0 h1
  have e2 : ∃ f2, if d.ny > 1 then PassRuns (yWork rnd d) (d.nx * d.nz) f1 f2 else f2 = f1 := by
    split
    · exact passRuns_exists (yLines d) (roundOK_of_double hr hd.y) (lineY hb0.gx (by omega)) (holdsY hf1)
    · exact ⟨_, rfl⟩
  obtain ⟨f2, h2⟩ := e2
  obtain ⟨hf2, _⟩ := passY (roundOK_of_double hr hd.y) hb0.gx (by omega) hf1 h2
  have e3 : ∃ f3, if d.nz > 1 then PassRuns (zWork rnd d) (d.nx * d.ny) f2 f3 else f3 = f2 := by
    split
    · exact passRuns_exists (zLines d) (roundOK_of_double hr hd.z) (lineZ hb0.gx.gy (by omega)) (holdsZ hf2)
    · exact ⟨_, rfl⟩
  obtain ⟨f3, h3⟩ := e3
  exact ⟨f3, f1, f2, h1, h2, h3⟩

theorem transformRuns_det {rnd : ℚ → ℚ} {d : Dims} {f a b : Fld} (ha : TransformRuns rnd d f a)
    (hb : TransformRuns rnd d f b) : a = b := by
  obtain ⟨a1, a2, ha1, ha2, ha3⟩ := ha
  obtain ⟨b1, b2, hb1, hb2, hb3⟩ := hb
  have e1 : a1 = b1 := by
    split at ha1
    · rw [if_pos ‹_›] at hb1; exact passRuns_det (xLines d) ha1 hb1
    · rw [if_neg ‹_›] at hb1; rw [ha1, hb1]
  subst e1
  have e2 : a2 = b2 := by
    split at ha2
    · rw [if_pos ‹_›] at hb2; exact passRuns_det (yLines d) ha2 hb2
    · rw [if_neg ‹_›] at hb2; rw [ha2, hb2]
  subst e2
  split at ha3
  · rw [if_pos ‹_›] at hb3; exact passRuns_det (zLines d) ha3 hb3
  · rw [if_neg ‹_›] at hb3; rw [ha3, hb3]

theorem transformSeq_runs {rnd : ℚ → ℚ} {d : Dims} {f out : Fld} (h : transformSeq rnd d f = some out) :
    TransformRuns rnd d f out := by
  simp only [transformSeq, Option.bind_eq_some_iff] at h
  obtain ⟨f1, h1, f2, h2, h3⟩ := h
  refine ⟨f1, f2, ?_, ?_, ?_⟩
  · split at h1
    · rw [if_pos ‹_›]; exact passRuns_seq h1
    · rw [if_neg ‹_›]; exact (Option.some.inj h1).symm
  · split at h2
    · rw [if_pos ‹_›]; exact passRuns_seq h2
    · rw [if_neg ‹_›]; exact (Option.some.inj h2).symm
  · split at h3
    · rw [if_pos ‹_›]; exact passRuns_seq h3
    · rw [if_neg ‹_›]; exact (Option.some.inj h3).symm

end VGT.EDT
