import Verif.Lemmas.RayPath
import Verif.Lemmas.RaycastExact
import Verif.Lemmas.IEEE
import Verif.Props.Raycast

/-!
C56: raycasting whatever the arithmetic: CPU and device kernels alike.
-/
set_option autoImplicit false

namespace VGT
open VGT.EDT VGT.Spec

/-- What one ray from cell `i` to cell `f` may do to the counters: the cells of a path are counted free, the cell `f` is
counted filled, or free if the ray was clipped; every cell of the grid at most once. -/
structure RayMarks (n : Fin 3 → ℕ) (i f : IVec) (clip : Bool) (ms : List Mark) : Prop where
  path : ∃ l, IsPath n i f l ∧ ∀ c, Mark.free c ∈ ms ↔ c ∈ l ∨ (clip = true ∧ c = f ∧ CellInGrid n f)
  filled : ∀ c, Mark.filled c ∈ ms ↔ clip = false ∧ c = f ∧ CellInGrid n f
  inside : ∀ m ∈ ms, CellInGrid n m.cell
  once : (ms.map Mark.cell).Nodup
  short : ms ≠ [] → ms.length + 2 ≤ n 0 + n 1 + n 2

theorem rayMarks_of_path {d : Dims} {i f : IVec} {l : List IVec} (h : IsPath (axisCells d) i f l) (clip : Bool) :
    RayMarks (axisCells d) i f clip
      ((if inGrid d f then [if clip then Mark.free f else Mark.filled f] else []) ++ l.map Mark.free) := by
  have hl : (l.map Mark.free).map Mark.cell = l := by
    rw [List.map_map]
    have : (Mark.cell ∘ Mark.free) = id := rfl
    rw [this, List.map_id]
  have hlen : l ≠ [] → l.length + 2 + (if ∀ a, 0 ≤ f a ∧ f a < axisCells d a then 1 else 0) ≤
      axisCells d 0 + axisCells d 1 + axisCells d 2 := path_length h
  by_cases hf : inGrid d f = true
  · have hf' : CellInGrid (axisCells d) f := inGrid_iff.1 hf
    have hf'' : ∀ a, 0 ≤ f a ∧ f a < axisCells d a := hf'
    rw [if_pos hf]
    refine ⟨⟨l, h, ?_⟩, ?_, ?_, ?_, ?_⟩
    · intro c
      cases clip <;> simp [hf', or_comm]
    · intro c
      cases clip <;> simp [hf']
    · intro m hm
      rcases List.mem_append.1 hm with hm | hm
      · rw [List.mem_singleton.1 hm]
        cases clip <;> exact hf'
      · obtain ⟨c, hc, rfl⟩ := List.mem_map.1 hm
        exact (h.inside c hc).1
    · rw [List.map_append, hl]
      have : List.map Mark.cell [if clip = true then Mark.free f else Mark.filled f] = [f] := by
        cases clip <;> rfl
      rw [this]
      exact List.nodup_cons.2 ⟨fun hm => (h.inside _ hm).2 rfl, path_nodup h.steps⟩
    · intro _
      by_cases hne : l = []
      · subst hne
        have h0 := hf'' 0; have h1 := hf'' 1; have h2 := hf'' 2
        simp only [List.map_nil, List.append_nil, List.length_singleton]
        omega
      · have := hlen hne
        rw [if_pos hf''] at this
        simp only [List.length_append, List.length_singleton, List.length_map]
        omega
  · have hf' : ¬ CellInGrid (axisCells d) f := fun h' => hf (inGrid_iff.2 h')
    rw [if_neg hf, List.nil_append]
    refine ⟨⟨l, h, ?_⟩, ?_, ?_, ?_, ?_⟩
    · intro c
      simp [hf']
    · intro c
      simp [hf']
    · intro m hm
      obtain ⟨c, hc, rfl⟩ := List.mem_map.1 hm
      exact (h.inside c hc).1
    · rw [hl]
      exact path_nodup h.steps
    · intro hne
      have hne' : l ≠ [] := by rintro rfl; exact hne rfl
      have := hlen hne'
      rw [List.length_map]
      omega

section
variable {F : Type} (A : Arith F) (g : RayGrid F)

theorem axes3_some {f : Fin 3 → Option ℤ} {v : IVec} : axes3 f = some v ↔ ∀ a, f a = some (v a) := by
  unfold axes3
  constructor
  · intro h a
    rcases h0 : f 0 with _ | x <;> rcases h1 : f 1 with _ | y <;> rcases h2 : f 2 with _ | z <;> simp [h0, h1, h2] at h
    subst h
    fin_cases a <;> simpa
  · intro h
    rw [h 0, h 1, h 2]
    simp only [Option.bind_some, Option.map_some, Option.some.injEq]
    funext a
    fin_cases a <;> rfl

theorem axes3_none {f : Fin 3 → Option ℤ} : axes3 f = none ↔ ∃ a, f a = none := by
  unfold axes3
  rcases h0 : f 0 with _ | x
  · simp only [Option.bind_none, true_iff]; exact ⟨0, h0⟩
  rcases h1 : f 1 with _ | y
  · simp only [Option.bind_none, Option.bind_some, true_iff]; exact ⟨1, h1⟩
  rcases h2 : f 2 with _ | z
  · simp only [Option.map_none, Option.bind_some, true_iff]; exact ⟨2, h2⟩
  · simp only [Option.bind_some, Option.map_some, reduceCtorEq, false_iff, not_exists]
    intro a
    fin_cases a
    · simp [h0]
    · simp [h1]
    · simp [h2]

theorem intSub_axes {i f : IVec} (h : ∀ a, A.fits (f a - i a) = true) :
    (axes3 fun a => A.intSub (f a) (i a)) = some fun a => f a - i a :=
  axes3_some.2 fun a => by simp [Arith.intSub, h a]

theorem intSub_axes_some {i f diff : IVec} (h : (axes3 fun a => A.intSub (f a) (i a)) = some diff) :
    ∀ a, A.fits (f a - i a) = true ∧ diff a = f a - i a := by
  intro a
  have := axes3_some.1 h a
  unfold Arith.intSub at this
  split_ifs at this with hfit
  exact ⟨hfit, (Option.some.inj this).symm⟩

theorem flCastFrom_path {start final ray : Fin 3 → F} {i f : IVec} (hi : flIndex A g start = some i)
    (hf : flIndex A g final = some f) (hd : ∀ a, A.fits (f a - i a) = true) (clip : Bool) :
    ∃ ms, flCastFrom A g start final ray clip = some ms ∧ RayMarks (axisCells g.dims) i f clip ms := by
  unfold flCastFrom
  rw [hi, Option.bind_some, hf, Option.bind_some, intSub_axes A hd, Option.bind_some]
  dsimp only
  obtain ⟨l, h1, h2⟩ := flWalk_path A g.dims f (fun a => stepFromDiff (f a - i a)) (fun a => flDeltaT A g (ray a))
    (walkFuel f i) i (fun a => flAxisT A (start a) (ray a)
      (A.sub (A.mul (A.add (A.ofInt (i a)) A.half) g.cell) (A.mul g.cell A.half))
      (A.add (A.mul (A.add (A.ofInt (i a)) A.half) g.cell) (A.mul g.cell A.half)))
    (toward_init f i) (by unfold idist walkFuel; exact le_rfl)
  rw [h1]
  exact ⟨_, rfl, rayMarks_of_path h2 clip⟩

theorem flCastFrom_none {start final ray : Fin 3 → F} {clip : Bool} (h : flCastFrom A g start final ray clip = none) :
    flIndex A g start = none ∨ flIndex A g final = none ∨
      ∃ i f a, flIndex A g start = some i ∧ flIndex A g final = some f ∧ A.fits (f a - i a) = false := by
  rcases hi : flIndex A g start with _ | i
  · exact .inl rfl
  rcases hf : flIndex A g final with _ | f
  · exact .inr (.inl rfl)
  refine .inr (.inr ⟨i, f, ?_⟩)
  by_contra hcon
  have hd : ∀ a, A.fits (f a - i a) = true := by
    intro a
    by_contra hfa
    exact hcon ⟨a, rfl, rfl, by simpa using hfa⟩
  obtain ⟨ms, h1, -⟩ := flCastFrom_path A g (ray := ray) hi hf hd clip
  rw [h] at h1
  cases h1

theorem flCastFrom_some {start final ray : Fin 3 → F} {clip : Bool} {ms : List Mark}
    (h : flCastFrom A g start final ray clip = some ms) :
    ∃ i f, flIndex A g start = some i ∧ flIndex A g final = some f ∧ RayMarks (axisCells g.dims) i f clip ms := by
  rcases hi : flIndex A g start with _ | i
  · simp [flCastFrom, hi] at h
  rcases hf : flIndex A g final with _ | f
  · simp [flCastFrom, hi, hf] at h
  refine ⟨i, f, rfl, rfl, ?_⟩
  rcases hx : axes3 fun a => A.intSub (f a) (i a) with _ | diff
  · simp [flCastFrom, hi, hf, hx] at h
  have hd := fun a => (intSub_axes_some A hx a).1
  obtain ⟨ms', h1, h2⟩ := flCastFrom_path A g (ray := ray) hi hf hd clip
  rw [h] at h1
  cases h1
  exact h2

/-- C56: whatever the arithmetic (any rounding, any contraction, NaN), a ray that does not run into undefined behaviour
ends after at most as many steps as the grid has cells along its edges, touches cells of the grid only, each at most
once, along a face-to-face path toward the measured point, and counts at most the measured point's own cell as filled. -/
theorem C56_any_arithmetic {o p : Fin 3 → F} {len range : F} {ms : List Mark} (h : flRaycast A g o p len range = some ms) :
    ms = [] ∨ ∃ start i f, flIndex A g start = some i ∧ flIndex A g (flFinalPoint A o p len range) = some f ∧
      RayMarks (axisCells g.dims) i f (A.lt range len) ms ∧
      ((∃ c, flIndex A g o = some c ∧ CellInGrid (axisCells g.dims) c) → start = o) := by
  unfold flRaycast at h
  dsimp only at h
  rcases hs : flStart A g o (fun a => A.sub (p a) (o a)) len range with _ | _ | start
  · simp [hs] at h
  · simp only [hs, Option.some.injEq] at h
    exact .inl h.symm
  · simp only [hs] at h
    obtain ⟨i, f, h1, h2, h3⟩ := flCastFrom_some A g h
    refine .inr ⟨start, i, f, h1, h2, h3, ?_⟩
    rintro ⟨c, hc, hin⟩
    unfold flStart at hs
    rw [hc, Option.map_some, if_pos (inGrid_iff.2 hin)] at hs
    simp only [Option.some.injEq] at hs
    exact hs.symm

/-- C56: undefined behaviour comes only from converting a coordinate to a cell index, or from the difference of two
cell indices, that the index type cannot hold. -/
theorem C56_undefined_only_by_conversion {o p : Fin 3 → F} {len range : F} (h : flRaycast A g o p len range = none) :
    flIndex A g o = none ∨ ∃ start, flIndex A g start = none ∨
      flIndex A g (flFinalPoint A o p len range) = none ∨
      ∃ i f a, flIndex A g start = some i ∧ flIndex A g (flFinalPoint A o p len range) = some f ∧
        A.fits (f a - i a) = false := by
  unfold flRaycast at h
  dsimp only at h
  rcases hs : flStart A g o (fun a => A.sub (p a) (o a)) len range with _ | _ | start
  · left
    unfold flStart at hs
    simpa using hs
  · simp [hs] at h
  · simp only [hs] at h
    exact .inr ⟨start, flCastFrom_none A g h⟩

/-- C56: from a sensor in the grid, the ray is a path from the sensor's cell to the measured point's cell; if that cell
is in the grid and the point within range, it is counted filled. -/
theorem C56_sensor_in_grid {o p : Fin 3 → F} {len range : F} {i f : IVec} (hi : flIndex A g o = some i)
    (hin : CellInGrid (axisCells g.dims) i) (hf : flIndex A g (flFinalPoint A o p len range) = some f)
    (hd : ∀ a, A.fits (f a - i a) = true) :
    ∃ ms, flRaycast A g o p len range = some ms ∧ RayMarks (axisCells g.dims) i f (A.lt range len) ms ∧
      (CellInGrid (axisCells g.dims) f → A.lt range len = false → Mark.filled f ∈ ms) ∧
      (i ≠ f → Mark.free i ∈ ms) := by
  have hs : flStart A g o (fun a => A.sub (p a) (o a)) len range = some (some o) := by
    unfold flStart
    rw [hi, Option.map_some, if_pos (inGrid_iff.2 hin)]
  obtain ⟨ms, h1, h2⟩ := flCastFrom_path A g (ray := fun a => A.sub (p a) (o a)) hi hf hd (A.lt range len)
  refine ⟨ms, ?_, h2, ?_, ?_⟩
  · unfold flRaycast
    dsimp only
    rw [hs]
    exact h1
  · intro hg hc
    exact (h2.filled f).2 ⟨hc, rfl, hg⟩
  · intro hne
    obtain ⟨l, hl, hfree⟩ := h2.path
    refine (hfree i).2 (.inl ?_)
    have hne' : l ≠ [] := by
      intro h0
      rcases hl.empty.1 h0 with h | h
      · exact hne h
      · exact h hin
    have := hl.start (l.head hne') (List.head?_eq_some_head hne')
    rw [← this]
    exact List.head_mem hne'

end

/-! ### Exact arithmetic -/

/-- C56: with exact arithmetic the open model is the exact model of the CPU code, for which C36 - C38 and C48 are proved. -/
theorem C56_exact (d : Dims) {s : ℚ} (hs : 0 < s) {o p : Vec ℚ} {L : ℚ} (hL : IsDist o p L) {range : WithTop ℚ}
    (hr : 0 ≤ range) :
    flRaycast exactArith (exactGrid d s) (fun a => .fin (o a)) (fun a => .fin (p a)) (.fin L) (toFl range) =
      raycast d s o p L range := by
  have hclip : flClipped exactArith (.fin L) (toFl range) = clipped L range := by
    show Fl.lt (toFl range) (toFl (L : WithTop ℚ)) = _
    rw [toFl_lt]
    rfl
  have hray' : (fun a => exactArith.sub (Fl.fin (p a)) (Fl.fin (o a))) = fun a => Fl.fin (p a - o a) := rfl
  have hfinal : flFinalPoint exactArith (fun a => .fin (o a)) (fun a => .fin (p a)) (.fin L) (toFl range) =
      fun a => .fin (finalPoint o p L range a) := by
    unfold flFinalPoint finalPoint
    rw [hclip]
    unfold clipped
    cases range with
    | top => simp
    | coe r =>
      by_cases h : r < L
      · have hr0 : (0 : ℚ) ≤ r := by exact_mod_cast hr
        have hL0 : L ≠ 0 := by linarith [h] |> fun (h : 0 < L) => h.ne'
        have hc : decide ((r : WithTop ℚ) < (L : WithTop ℚ)) = true := by simpa using h
        rw [hc, if_pos rfl]
        funext a
        have hdiv : exactArith.div (toFl (r : WithTop ℚ)) (.fin L) = .fin (r / L) := by
          show Fl.divR Fl.fin (.fin r) (.fin L) = _
          simp [Fl.divR, hL0]
        rw [hdiv]
        show Fl.fin (o a + (p a - o a) * (r / L)) = _
        simp [h]
      · have hc : decide ((r : WithTop ℚ) < (L : WithTop ℚ)) = false := by simpa using h
        rw [hc]
        simp [h]
  unfold flRaycast raycast
  dsimp only
  rw [hfinal, hclip, hray']
  unfold flStart
  rw [exact_index, Option.map_some]
  have hnotclip : L = 0 → clipped L range = false := by
    rintro rfl
    unfold clipped
    simpa using hr
  by_cases hin : inGrid d (cellOf s o) = true
  · have hin' : inGrid (exactGrid d s).dims (cellOf s o) = true := hin
    rw [if_pos hin', if_pos hin]
    have : ¬ (L = 0 ∧ clipped L range = true) := by
      rintro ⟨h1, h2⟩
      rw [hnotclip h1] at h2
      cases h2
    rw [if_neg this]
    exact exact_castFrom d hs _ _ _ _
  · have hin' : ¬ inGrid (exactGrid d s).dims (cellOf s o) = true := hin
    rw [if_neg hin', if_neg hin]
    by_cases h0 : L = 0
    · have hpo := (isDist_zero hL).1 h0
      rw [if_pos h0, if_neg (not_lt.2 hr)]
      subst h0
      have hpo' := hpo.symm
      subst hpo'
      have hdir : (fun a => exactArith.div (Fl.fin (o a - o a)) (.fin 0)) = fun _ => Fl.nan := by
        funext a
        show Fl.divR Fl.fin (.fin (o a - o a)) (.fin 0) = _
        simp [Fl.divR, Fl.div]
      have hax : ∀ (x y : Fl) (tm : Fl × Fl), Fl.lt tm.2 tm.1 = false → flSlabAxis exactArith x .nan y tm = some tm := by
        intro x y tm htm
        have h1 : exactArith.div exactArith.one .nan = .nan := rfl
        have h2 : ∀ z, exactArith.mul z .nan = .nan := by
          intro z
          show Fl.mulR Fl.fin z .nan = .nan
          cases z <;> rfl
        have h3 : ∀ z, exactArith.lt z .nan = false := by
          intro z
          show Fl.lt z .nan = false
          cases z <;> rfl
        have h4 : exactArith.lt (exactArith.abs .nan) exactArith.tiny = false := rfl
        have h5 : exactArith.lt tm.2 tm.1 = false := htm
        unfold flSlabAxis
        simp only [h1, h2, h3, h4, ite_self, Bool.false_eq_true, if_false, h5]
      have hlt0 : Fl.lt (toFl range) (Fl.fin 0) = false := by
        rw [← toFl_coe 0, toFl_lt]
        simpa using hr
      have hsl : flSlabs exactArith (exactGrid d s) (fun a => .fin (o a)) (fun _ => .nan) (toFl range) = some (.fin 0) := by
        unfold flSlabs
        rw [hax _ _ _ hlt0, Option.bind_some, hax _ _ _ hlt0, Option.bind_some, hax _ _ _ hlt0]
        rfl
      have hsl' : flSlabs exactArith (exactGrid d s) (fun a => .fin (o a))
          (fun a => exactArith.div (Fl.fin (o a - o a)) (.fin 0)) (toFl range) = some (.fin 0) := by
        rw [hdir]; exact hsl
      rw [hsl']
      simp only [Option.map_some]
      unfold flCastFrom
      have hidx : flIndex exactArith (exactGrid d s) (fun a => exactArith.add (Fl.fin (o a))
          (exactArith.mul (exactArith.div (Fl.fin (o a - o a)) (Fl.fin 0)) (exactArith.add (Fl.fin 0) exactArith.tiny))) =
          none := by
        have : ∀ a, exactArith.div (Fl.fin (o a - o a)) (Fl.fin 0) = Fl.nan := fun a => congrFun hdir a
        simp only [this]
        rfl
      rw [hidx]
      rfl
    · rw [if_neg h0]
      have hdir : (fun a => exactArith.div (Fl.fin (p a - o a)) (.fin L)) = fun a => Fl.fin ((p a - o a) / L) := by
        funext a
        show Fl.divR Fl.fin (.fin (p a - o a)) (.fin L) = _
        simp [Fl.divR, h0]
      have hdir' : ∀ a, exactArith.div (Fl.fin (p a - o a)) (.fin L) = Fl.fin ((p a - o a) / L) := fun a => congrFun hdir a
      simp only [hdir']
      rw [exact_slabs]
      rcases slabs d s o (fun a => (p a - o a) / L) range with _ | tmin
      · rfl
      · simp only [Option.map_some]
        rw [← exact_castFrom d hs]
        rfl

/-! ### IEEE arithmetic -/

theorem rne_bounded {p : ℕ} {emin : ℤ} (hp : 1 ≤ p) {k : ℕ} (hk : emin ≤ k) {x : ℚ} (h : |x| ≤ 2 ^ k) :
    |rne p emin x| ≤ 2 ^ k := by
  have e : rne p emin ((2 : ℚ) ^ k) = 2 ^ k := by
    have h1 : |(1 : ℤ)| ≤ 2 ^ p := by simpa using one_le_pow₀ (by norm_num : (1 : ℤ) ≤ 2)
    have := rne_exact (K := ℚ) (p := p) (emin := emin) 1 k hp h1 hk
    simpa using this
  rw [abs_le] at h ⊢
  constructor
  · have := rne_mono (p := p) (emin := emin) hp h.1
    rw [rne_neg, e] at this
    exact this
  · have := rne_mono (p := p) (emin := emin) hp h.2
    rw [e] at this
    exact this

/-- The cell index of a position of at most `2^(bits-2)` cells is defined. -/
theorem ieee_index {p : ℕ} {emin : ℤ} (hp : 1 ≤ p) {M : ℚ} {bits : ℕ} (hb : 2 ≤ bits) (hk : emin ≤ (bits - 2 : ℕ))
    (hM : (2 : ℚ) ^ (bits - 2) ≤ M) {x inv : ℚ} (h : |x * inv| ≤ 2 ^ (bits - 2)) :
    (ieee (fun q => saturate M (rne p emin q)) bits).toInt
        ((ieee (fun q => saturate M (rne p emin q)) bits).mul (.fin x) (.fin inv)) = some ⌊rne p emin (x * inv)⌋ ∧
      -2 ^ (bits - 2) ≤ ⌊rne p emin (x * inv)⌋ ∧ ⌊rne p emin (x * inv)⌋ ≤ 2 ^ (bits - 2) := by
  have hr := rne_bounded hp hk h
  rw [abs_le] at hr
  have h1 : -2 ^ (bits - 2) ≤ ⌊rne p emin (x * inv)⌋ := by
    rw [Int.le_floor]; push_cast; exact hr.1
  have h2 : ⌊rne p emin (x * inv)⌋ ≤ 2 ^ (bits - 2) := by
    have : (⌊rne p emin (x * inv)⌋ : ℚ) ≤ ((2 ^ (bits - 2) : ℤ) : ℚ) := by
      push_cast; exact (Int.floor_le _).trans hr.2
    exact_mod_cast this
  refine ⟨?_, h1, h2⟩
  show Fl.floorInt bits (saturate M (rne p emin (x * inv))) = _
  have hs : saturate M (rne p emin (x * inv)) = .fin (rne p emin (x * inv)) := by
    unfold saturate
    rw [if_neg (by linarith [hr.2]), if_neg (by linarith [hr.1])]
  rw [hs]
  have hpow : (2 : ℤ) ^ (bits - 1) = 2 * 2 ^ (bits - 2) := by
    obtain ⟨b, rfl⟩ : ∃ b, bits = b + 2 := ⟨bits - 2, by omega⟩
    simp only [Nat.add_sub_cancel, show b + 2 - 1 = b + 1 by omega, pow_succ]
    ring
  have hpos : (0 : ℤ) < 2 ^ (bits - 2) := by positivity
  show (if _ then _ else _) = _
  rw [if_pos ⟨by omega, by omega⟩]

theorem ieee_sensor_in_grid {p : ℕ} {emin : ℤ} (hp : 1 ≤ p) {M : ℚ} {bits : ℕ} (hb : 2 ≤ bits)
    (hk : emin ≤ (bits - 2 : ℕ)) (hM : (2 : ℚ) ^ (bits - 2) ≤ M) {g : RayGrid Fl} {inv : ℚ} (hinv : g.inv = .fin inv)
    (hn : ∀ a, (axisCells g.dims a : ℤ) ≤ 2 ^ (bits - 2)) {o x : Fin 3 → ℚ} {len range : Fl}
    (hclip : Fl.lt range len = false) (ho : ∀ a, |o a * inv| ≤ 2 ^ (bits - 2)) (hx : ∀ a, |x a * inv| ≤ 2 ^ (bits - 2))
    (hin : CellInGrid (axisCells g.dims) fun a => ⌊rne p emin (o a * inv)⌋) :
    ∃ ms, flRaycast (ieee (fun q => saturate M (rne p emin q)) bits) g (fun a => .fin (o a)) (fun a => .fin (x a)) len range =
        some ms ∧
      RayMarks (axisCells g.dims) (fun a => ⌊rne p emin (o a * inv)⌋) (fun a => ⌊rne p emin (x a * inv)⌋) false ms := by
  have hidx : ∀ y : Fin 3 → ℚ, (∀ a, |y a * inv| ≤ 2 ^ (bits - 2)) →
      flIndex (ieee (fun q => saturate M (rne p emin q)) bits) g (fun a => .fin (y a)) =
        some fun a => ⌊rne p emin (y a * inv)⌋ := by
    intro y hy
    refine axes3_some.2 fun a => ?_
    rw [hinv]
    exact (ieee_index hp hb hk hM (hy a)).1
  have hfinal : flFinalPoint (ieee (fun q => saturate M (rne p emin q)) bits) (fun a => .fin (o a)) (fun a => .fin (x a))
      len range = fun a => .fin (x a) := by
    unfold flFinalPoint flClipped
    have : (ieee (fun q => saturate M (rne p emin q)) bits).lt range len = false := hclip
    rw [this]
    rfl
  obtain ⟨ms, h1, h2, -, -⟩ := C56_sensor_in_grid (ieee (fun q => saturate M (rne p emin q)) bits) g
    (o := fun a => .fin (o a)) (p := fun a => .fin (x a)) (len := len) (range := range) (hidx o ho) hin
    (f := fun a => ⌊rne p emin (x a * inv)⌋) (by rw [hfinal]; exact hidx x hx) (by
      intro a
      have h1 := (ieee_index (M := M) hp hb hk hM (hx a)).2
      have h2 := hin a
      have h3 := hn a
      have hpow : (2 : ℤ) ^ (bits - 1) = 2 * 2 ^ (bits - 2) := by
        obtain ⟨b, rfl⟩ : ∃ b, bits = b + 2 := ⟨bits - 2, by omega⟩
        simp only [Nat.add_sub_cancel, show b + 2 - 1 = b + 1 by omega, pow_succ]
        ring
      show decide _ = true
      dsimp only at h2
      rw [decide_eq_true_eq]
      omega)
  refine ⟨ms, h1, ?_⟩
  have : (ieee (fun q => saturate M (rne p emin q)) bits).lt range len = false := hclip
  rwa [this] at h2

/-- C56, devices: a sensor in the grid and a point within range and at most 2^30 cells from the corner of the grid:
no undefined behaviour, and the point's cell is counted filled exactly if it is in the grid. -/
theorem C56_device_within_reach {g : RayGrid Fl} {inv : ℚ} (hinv : g.inv = .fin inv)
    (hn : ∀ a, axisCells g.dims a ≤ 2 ^ 30) {o x : Fin 3 → ℚ} {len range : Fl} (hclip : Fl.lt range len = false)
    (ho : ∀ a, |o a * inv| ≤ 2 ^ 30) (hx : ∀ a, |x a * inv| ≤ 2 ^ 30)
    (hin : CellInGrid (axisCells g.dims) fun a => ⌊roundFloat (o a * inv)⌋) :
    ∃ ms, flRaycast float32 g (fun a => .fin (o a)) (fun a => .fin (x a)) len range = some ms ∧
      RayMarks (axisCells g.dims) (fun a => ⌊roundFloat (o a * inv)⌋) (fun a => ⌊roundFloat (x a * inv)⌋) false ms :=
  ieee_sensor_in_grid (p := 24) (emin := -149) (bits := 32) (by norm_num) (by norm_num) (by norm_num) (by norm_num) hinv
    (fun a => by exact_mod_cast hn a) hclip ho hx hin

/-- C56, CPU: the same with 2^62 cells. -/
theorem C56_cpu_within_reach {g : RayGrid Fl} {inv : ℚ} (hinv : g.inv = .fin inv)
    (hn : ∀ a, axisCells g.dims a ≤ 2 ^ 62) {o x : Fin 3 → ℚ} {len range : Fl} (hclip : Fl.lt range len = false)
    (ho : ∀ a, |o a * inv| ≤ 2 ^ 62) (hx : ∀ a, |x a * inv| ≤ 2 ^ 62)
    (hin : CellInGrid (axisCells g.dims) fun a => ⌊roundDouble (o a * inv)⌋) :
    ∃ ms, flRaycast double64 g (fun a => .fin (o a)) (fun a => .fin (x a)) len range = some ms ∧
      RayMarks (axisCells g.dims) (fun a => ⌊roundDouble (o a * inv)⌋) (fun a => ⌊roundDouble (x a * inv)⌋) false ms :=
  ieee_sensor_in_grid (p := 53) (emin := -1074) (bits := 64) (by norm_num) (by norm_num) (by norm_num) (by decide +kernel) hinv
    (fun a => by exact_mod_cast hn a) hclip ho hx hin

/-! ### Where CPU and devices differ -/

/-- Two unit cells along x. -/
def twoCells : RayGrid Fl := ⟨⟨2, 1, 1⟩, .fin 1, .fin 1, ![.fin 2, .fin 1, .fin 1]⟩

/-- A sensor above the grid, in line with the cells. -/
def farSensor : Fin 3 → Fl := ![.fin 10, .fin (1 / 2), .fin (1 / 2)]

/-- A point in the first cell. -/
def nearPoint : Fin 3 → Fl := ![.fin (1 / 2), .fin (1 / 2), .fin (1 / 2)]

/-- C56: the nudge of 1e-10 into the grid (cuda_voxelization_helpers.cu:220, opencl_voxelization_helpers.cc:196) is lost
in `float`: a ray that enters through an upper face starts outside the grid, and the device counts no cell on it as
free.  The CPU does. -/
theorem C56_device_loses_free_cells :
    flRaycast float32 twoCells farSensor nearPoint (.fin (19 / 2)) .pinf = some [.filled ![0, 0, 0]] ∧
    flRaycast double64 twoCells farSensor nearPoint (.fin (19 / 2)) .pinf = some [.filled ![0, 0, 0], .free ![1, 0, 0]] := by
  constructor <;> decide +kernel

/-- C56: a finite point beyond 2^31 cells is undefined behaviour on a device and harmless on the CPU. -/
theorem C56_far_point_undefined_on_device :
    flRaycast float32 twoCells nearPoint ![.fin (2 ^ 32), .fin (1 / 2), .fin (1 / 2)] (.fin (2 ^ 32)) .pinf = none ∧
    flRaycast double64 twoCells nearPoint ![.fin (2 ^ 32), .fin (1 / 2), .fin (1 / 2)] (.fin (2 ^ 32)) .pinf =
      some [.free ![0, 0, 0], .free ![1, 0, 0]] := by
  constructor <;> decide +kernel

/-! ### Concrete cases -/

/-- The measured point one cell further. -/
example : ∃ ms, flRaycast float32 twoCells (fun a => .fin ((![1/2, 1/2, 1/2] : Fin 3 → ℚ) a))
      (fun a => .fin ((![3/2, 1/2, 1/2] : Fin 3 → ℚ) a)) (.fin 1) .pinf = some ms ∧
    RayMarks (axisCells twoCells.dims) (fun a => ⌊roundFloat ((![1/2, 1/2, 1/2] : Fin 3 → ℚ) a * 1)⌋)
      (fun a => ⌊roundFloat ((![3/2, 1/2, 1/2] : Fin 3 → ℚ) a * 1)⌋) false ms :=
  C56_device_within_reach (g := twoCells) (inv := 1) rfl (by decide) rfl (by decide +kernel) (by decide +kernel)
    (by unfold CellInGrid; decide +kernel)

example : ∃ ms, flRaycast double64 twoCells (fun a => .fin ((![1/2, 1/2, 1/2] : Fin 3 → ℚ) a))
      (fun a => .fin ((![3/2, 1/2, 1/2] : Fin 3 → ℚ) a)) (.fin 1) .pinf = some ms ∧
    RayMarks (axisCells twoCells.dims) (fun a => ⌊roundDouble ((![1/2, 1/2, 1/2] : Fin 3 → ℚ) a * 1)⌋)
      (fun a => ⌊roundDouble ((![3/2, 1/2, 1/2] : Fin 3 → ℚ) a * 1)⌋) false ms :=
  C56_cpu_within_reach (g := twoCells) (inv := 1) rfl (by decide) rfl (by decide +kernel) (by decide +kernel)
    (by unfold CellInGrid; decide +kernel)

/-- An outcome to which `C56_any_arithmetic` applies and that is not empty. -/
example : flRaycast double64 twoCells nearPoint ![.fin (3 / 2), .fin (1 / 2), .fin (1 / 2)] (.fin 1) .pinf =
    some [.filled ![1, 0, 0], .free ![0, 0, 0]] := by decide +kernel

/-- A clipped ray. -/
example : flRaycast double64 twoCells nearPoint ![.fin (9 / 2), .fin (1 / 2), .fin (1 / 2)] (.fin 4) (.fin 1) =
    some [.free ![1, 0, 0], .free ![0, 0, 0]] := by decide +kernel

/-- A sensor in the grid and an index in reach, for `C56_sensor_in_grid`. -/
example : flIndex float32 twoCells nearPoint = some ![0, 0, 0] ∧
    flIndex float32 twoCells (flFinalPoint float32 nearPoint ![.fin (3 / 2), .fin (1 / 2), .fin (1 / 2)] (.fin 1) .pinf) =
      some ![1, 0, 0] := by decide +kernel

/-- The hypotheses of `C56_exact`. -/
example : flRaycast exactArith (exactGrid ⟨2, 1, 1⟩ 1) (fun a => .fin ((![1/2, 1/2, 1/2] : Vec ℚ) a))
      (fun a => .fin ((![3/2, 1/2, 1/2] : Vec ℚ) a)) (.fin 1) (toFl ⊤) =
    raycast ⟨2, 1, 1⟩ (1 : ℚ) ![1/2, 1/2, 1/2] ![3/2, 1/2, 1/2] 1 ⊤ :=
  C56_exact ⟨2, 1, 1⟩ one_pos (by unfold IsDist; decide +kernel) le_top

/-- The rules of IEEE 754 for infinite operands. -/
example : float32.mul .pinf (.fin (-2)) = .ninf ∧ float32.mul .ninf .ninf = .pinf ∧ float32.mul .pinf (.fin 0) = .nan ∧
    float32.mul (.fin (-1)) .ninf = .pinf ∧ float32.mul (.fin (1 / 2)) .ninf = .ninf ∧ float32.mul .ninf (.fin (-1 / 2)) = .pinf ∧ float32.sub .pinf .pinf = .nan ∧ float32.add .pinf (.fin 3) = .pinf ∧
    float32.div (.fin 5) .ninf = .fin 0 ∧ float32.div (.fin (-5)) (.fin 0) = .ninf ∧ float32.div (.fin 0) (.fin 0) = .nan ∧
    float32.div .ninf (.fin (-2)) = .pinf ∧ float32.abs .ninf = .pinf ∧
    float32.mul (.fin (2 ^ 100)) (.fin (-2 ^ 100)) = .ninf := by decide +kernel

/-- The largest finite numbers stay, twice as much is infinite. -/
example : double64.add (.fin ((2 ^ 53 - 1) * 2 ^ 971)) (.fin 0) = .fin ((2 ^ 53 - 1) * 2 ^ 971) ∧
    double64.mul (.fin ((2 ^ 53 - 1) * 2 ^ 971)) (.fin 2) = .pinf ∧ double64.mul (.fin (-2 ^ 1023)) (.fin 2) = .ninf ∧
    double64.sub (.fin (-(2 ^ 53 - 1) * 2 ^ 971)) (.fin 0) = .fin (-(2 ^ 53 - 1) * 2 ^ 971) ∧
    float32.add (.fin ((2 ^ 24 - 1) * 2 ^ 104)) (.fin 0) = .fin ((2 ^ 24 - 1) * 2 ^ 104) ∧
    float32.mul (.fin ((2 ^ 24 - 1) * 2 ^ 104)) (.fin 2) = .pinf ∧ float32.mul (.fin (-2 ^ 127)) (.fin 2) = .ninf := by
  decide +kernel

/-- The ends of the index types. -/
example : float32.toInt (.fin (-2 ^ 31)) = some (-2 ^ 31) ∧ float32.toInt (.fin (-2 ^ 31 - 1 / 2)) = none ∧
    float32.toInt (.fin (2 ^ 31 - 1 / 2)) = some (2 ^ 31 - 1) ∧ float32.toInt (.fin (2 ^ 31)) = none ∧
    double64.toInt (.fin (-2 ^ 63)) = some (-2 ^ 63) ∧ double64.toInt (.fin (-2 ^ 63 - 1)) = none ∧
    double64.toInt (.fin (2 ^ 63 - 1)) = some (2 ^ 63 - 1) ∧ double64.toInt (.fin (2 ^ 63)) = none ∧
    double64.fits (2 ^ 63 - 1) = true ∧ double64.fits (2 ^ 63) = false ∧ float32.fits (-2 ^ 31) = true ∧
    float32.fits (-2 ^ 31 - 1) = false := by decide +kernel

end VGT
