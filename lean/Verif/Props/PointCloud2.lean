import Verif.Spec.PointCloud2
import Mathlib.Tactic.SplitIfs
import Mathlib.Tactic.Ring
import Mathlib.Tactic.Linarith
import Mathlib.Tactic.Push

/-!
C41: reading points out of a `PointCloud2` message.
-/
set_option autoImplicit false

namespace VGT.Props
open VGT VGT.Pc2 VGT.Spec

theorem fieldAt_append (fields : List Field) (g : Field) (name : String) :
    fieldAt (fields ++ [g]) name = if g.name = name then some g else fieldAt fields name := by
  unfold fieldAt
  rw [List.foldl_append]
  rfl

theorem fieldAt_iff (fields : List Field) (name : String) (f : Field) :
    fieldAt fields name = some f ↔ NamedField fields name f := by
  induction fields using List.reverseRecOn with
  | nil => simp [fieldAt, NamedField]
  | append_singleton fields g ih =>
    rw [fieldAt_append]
    by_cases hg : g.name = name
    · rw [if_pos hg]
      constructor
      · intro h
        cases h
        exact ⟨fields, [], by simp, hg, by simp⟩
      · rintro ⟨before, after, heq, hf, hafter⟩
        rcases List.eq_nil_or_concat after with rfl | ⟨init, last, rfl⟩
        · have := List.append_inj' heq rfl
          simp only [List.cons.injEq, and_true] at this
          rw [this.2]
        · rw [List.concat_eq_append, ← List.cons_append, ← List.append_assoc] at heq
          have := List.append_inj' heq rfl
          simp only [List.cons.injEq, and_true] at this
          exact absurd (this.2 ▸ hg) (hafter last (by simp))
    · rw [if_neg hg, ih]
      constructor
      · rintro ⟨before, after, rfl, hf, hafter⟩
        refine ⟨before, after ++ [g], by simp, hf, ?_⟩
        intro h hh
        rcases List.mem_append.mp hh with h' | h'
        · exact hafter h h'
        · simp only [List.mem_cons, List.not_mem_nil, or_false] at h'
          exact h' ▸ hg
      · rintro ⟨before, after, heq, hf, hafter⟩
        rcases List.eq_nil_or_concat after with rfl | ⟨init, last, rfl⟩
        · have := List.append_inj' heq rfl
          simp only [List.cons.injEq, and_true] at this
          exact absurd (this.2 ▸ hf) hg
        · rw [List.concat_eq_append, ← List.cons_append, ← List.append_assoc] at heq
          have := List.append_inj' heq rfl
          exact ⟨before, init, this.1, hf, fun h hh => hafter h (by simp [hh])⟩

theorem namedField_mem {fields : List Field} {name : String} {f : Field} (h : NamedField fields name f) : f ∈ fields := by
  obtain ⟨before, after, rfl, -, -⟩ := h
  simp

/-- C41: the wrapper constructs exactly for a message with three consecutive `float` fields x, y, z and a maximum range
that is not ≤ 0, and then uses the offset of x. -/
theorem C41_constructs_iff (cloud : Option Msg) (maxRange : Fl) (offset : ℕ) (hrep : ∀ c, cloud = some c → Representable c) :
    build cloud maxRange = .ok offset ↔ ∃ c, cloud = some c ∧ ¬ Fl.le maxRange (.fin 0) = true ∧ HasXYZ c offset := by
  cases cloud with
  | none => simp [build]
  | some c =>
    have hoff := (hrep c rfl).2.2.2.2
    simp only [build, HasXYZ, Option.some.injEq, exists_eq_left']
    by_cases hr : Fl.le maxRange (.fin 0) = true
    · simp [hr]
    · simp only [hr, if_false, not_false_eq_true, true_and, Bool.false_eq_true]
      simp only [← fieldAt_iff]
      cases hx : fieldAt c.fields "x" with
      | none => simp
      | some x =>
        cases hy : fieldAt c.fields "y" with
        | none => simp; split_ifs <;> simp
        | some y =>
          cases hz : fieldAt c.fields "z" with
          | none => simp; split_ifs <;> simp
          | some z =>
            have ox := hoff x (namedField_mem ((fieldAt_iff _ _ _).mp hx))
            have oy := hoff y (namedField_mem ((fieldAt_iff _ _ _).mp hy))
            have oz := hoff z (namedField_mem ((fieldAt_iff _ _ _).mp hz))
            have hseq : ((z.offset + 2 ^ 64 - y.offset) % 2 ^ 64 = 4 ∧ (y.offset + 2 ^ 64 - x.offset) % 2 ^ 64 = 4) ↔
                (y.offset = x.offset + 4 ∧ z.offset = x.offset + 8) := by omega
            simp only [FLOAT32, Option.some.injEq, hseq]
            have key : (∃ x' y' z', x = x' ∧ y = y' ∧ z = z' ∧ x'.datatype = 7 ∧ y'.datatype = 7 ∧ z'.datatype = 7 ∧
                x'.offset = offset ∧ y'.offset = offset + 4 ∧ z'.offset = offset + 8) ↔
                (x.datatype = 7 ∧ y.datatype = 7 ∧ z.datatype = 7 ∧ x.offset = offset ∧ y.offset = offset + 4 ∧
                  z.offset = offset + 8) :=
              ⟨by rintro ⟨_, _, _, rfl, rfl, rfl, h⟩; exact h, fun h => ⟨x, y, z, rfl, rfl, rfl, h⟩⟩
            rw [key]
            by_cases h1 : x.datatype = 7
            · by_cases h2 : y.datatype = 7
              · by_cases h3 : z.datatype = 7
                · by_cases h4 : y.offset = x.offset + 4 ∧ z.offset = x.offset + 8
                  · simp only [h1, h2, h3, h4, ne_eq, not_true, if_false, true_and, and_self, if_true, Built.ok.injEq]
                    omega
                  · simp only [h1, h2, h3, h4, ne_eq, not_true, if_false, true_and, reduceCtorEq, false_iff]
                    omega
                · simp [h1, h2, h3]
              · simp [h1, h2]
            · simp [h1]

/-- Two points with an intensity in front. -/
def smallCloud : Msg :=
  { height := 1, width := 2, pointStep := 16, rowStep := 32
    fields := [⟨"intensity", 0, 7⟩, ⟨"x", 4, 7⟩, ⟨"y", 8, 7⟩, ⟨"z", 12, 7⟩]
    data := List.range 32 }

example : Representable smallCloud ∧ WellFormed smallCloud 4 ∧ build (some smallCloud) .pinf = .ok 4 := by
  refine ⟨?_, ?_, by decide +kernel⟩
  · unfold Representable smallCloud; decide
  · unfold WellFormed smallCloud; decide

/-- Offsets do not wrap around for messages that fit their types. -/
theorem startingOffset_eq (c : Msg) (offset : ℕ) (i : ℕ) (hrep : Representable c) (ho : offset < 2 ^ 32)
    (hi : (i : ℤ) < size c) : startingOffset c offset i = i * c.pointStep + offset := by
  have hi' : i < 2 ^ 32 := by
    unfold size at hi
    have : c.width * c.height % 2 ^ 32 < 2 ^ 32 := Nat.mod_lt _ (by norm_num)
    omega
  have hs := hrep.2.2.1
  have hb : i * c.pointStep ≤ (2 ^ 32 - 1) * (2 ^ 32 - 1) := Nat.mul_le_mul (by omega) (by omega)
  unfold startingOffset
  rw [Int.toNat_natCast, Nat.mod_eq_of_lt (by omega), Nat.mod_eq_of_lt (by omega)]

/-- C41, exactly what a read does, for every message and index: an index outside `[0, Size())` throws, and so does one
whose bytes start behind the data; if all 12 bytes are in the data they are returned; in between the read leaves the
buffer. -/
theorem C41_read (c : Msg) (offset : ℕ) (index : ℤ) (hrep : Representable c) (ho : offset < 2 ^ 32) :
    ((index < 0 ∨ size c ≤ index) → readBytes c offset index = .throws) ∧
    (∀ i : ℕ, index = i → index < size c →
      (c.data.length ≤ i * c.pointStep + offset → readBytes c offset index = .throws) ∧
      (i * c.pointStep + offset + 12 ≤ c.data.length →
        ∃ b, readBytes c offset index = .value b ∧ b.length = 12 ∧
          ∀ k < 12, b[k]? = c.data[i * c.pointStep + offset + k]?) ∧
      (i * c.pointStep + offset < c.data.length → c.data.length < i * c.pointStep + offset + 12 →
        readBytes c offset index = .ub)) := by
  constructor
  · intro h
    unfold readBytes enforcePointIndex
    rw [if_pos h]
  · rintro i rfl hi
    have hs := startingOffset_eq c offset i hrep ho hi
    have he : enforcePointIndex (i : ℤ) (size c) = .ok := by
      unfold enforcePointIndex
      rw [if_neg]
      omega
    unfold readBytes
    simp only [he, hs]
    refine ⟨?_, ?_, ?_⟩
    · intro h
      rw [if_pos h]
    · intro h
      rw [if_neg (by omega), if_neg (by omega)]
      refine ⟨_, rfl, by simp; omega, ?_⟩
      intro k hk
      rw [List.getElem?_take_of_lt hk, List.getElem?_drop]
    · intro h1 h2
      rw [if_neg (by omega), if_pos (by omega)]

example : readBytes smallCloud 4 1 = .value [20, 21, 22, 23, 24, 25, 26, 27, 28, 29, 30, 31] ∧
    readBytes smallCloud 4 2 = .throws := by decide +kernel

theorem size_eq (c : Msg) (h : c.width * c.height < 2 ^ 32) : size c = (c.width * c.height : ℕ) := by
  unfold size
  rw [Nat.mod_eq_of_lt h]

/-- C41 in part: for a message that holds the points it announces, `Size` is the number of points, reading the point of
row `r` and column `q` (index `r * width + q`) returns its 12 bytes, and no read leaves the data.
Missing: messages with too little data, more than 2^32 points or padded rows, for which it does not hold (see below). -/
theorem C41_reads_points_partial (c : Msg) (offset : ℕ) (hrep : Representable c)
    (hw : WellFormed c offset) :
    size c = (c.width * c.height : ℕ) ∧
    (∀ r q : ℕ, r < c.height → q < c.width →
      ∃ b, readBytes c offset (r * c.width + q : ℕ) = .value b ∧ b.length = 12 ∧
        ∀ k < 12, b[k]? = CoordinateByte c offset r q k ∧ (b[k]?).isSome) ∧
    (∀ index, readBytes c offset index ≠ .ub) := by
  obtain ⟨hn, hin, hrow, hlen⟩ := hw
  have ho : offset < 2 ^ 32 := by have := hrep.2.2.1; omega
  have hsz := size_eq c hn
  have inside : ∀ i : ℕ, i < c.width * c.height → i * c.pointStep + offset + 12 ≤ c.data.length := by
    intro i hi
    have h1 : (i + 1) * c.pointStep ≤ c.width * c.height * c.pointStep := Nat.mul_le_mul_right _ (by omega)
    have h2 : c.rowStep * c.height = c.width * c.height * c.pointStep := by rw [hrow]; ring
    rw [Nat.add_mul, Nat.one_mul] at h1
    omega
  refine ⟨hsz, ?_, ?_⟩
  · intro r q hr hq
    have hi : r * c.width + q < c.width * c.height := by
      have : (r + 1) * c.width ≤ c.height * c.width := Nat.mul_le_mul_right _ (by omega)
      rw [Nat.add_mul, Nat.one_mul] at this
      rw [Nat.mul_comm c.width]
      omega
    obtain ⟨b, hb, hl, hk⟩ := ((C41_read c offset (r * c.width + q : ℕ) hrep ho).2 (r * c.width + q) rfl
      (by rw [hsz]; exact_mod_cast hi)).2.1 (inside _ hi)
    refine ⟨b, hb, hl, fun k hk12 => ⟨?_, ?_⟩⟩
    · rw [hk k hk12]
      unfold CoordinateByte
      rw [hrow]
      congr 1
      ring
    · rw [List.getElem?_eq_getElem (by omega)]; rfl
  · intro index hub
    by_cases hneg : index < 0 ∨ size c ≤ index
    · rw [(C41_read c offset index hrep ho).1 hneg] at hub
      cases hub
    · push Not at hneg
      obtain ⟨i, rfl⟩ := Int.eq_ofNat_of_zero_le hneg.1
      obtain ⟨b, hb, -, -⟩ := ((C41_read c offset i hrep ho).2 i rfl hneg.2).2.1
        (inside i (by have := hneg.2; rw [hsz] at this; exact_mod_cast this))
      rw [hb] at hub
      cases hub

/-- The `double` accessors give, in order, the conversions of the three groups of four bytes of the same point. -/
theorem C41_doubles_partial {V : Type} (widen : List ℕ → V) (c : Msg) (offset : ℕ) (hrep : Representable c)
    (hw : WellFormed c offset) (i : ℕ) (hi : i < c.width * c.height) :
    readDoubles widen c offset i =
      .value (widen ((c.data.drop (i * c.pointStep + offset)).take 4),
              widen ((c.data.drop (i * c.pointStep + offset + 4)).take 4),
              widen ((c.data.drop (i * c.pointStep + offset + 8)).take 4)) := by
  have ho : offset < 2 ^ 32 := by have := hrep.2.2.1; have := hw.2.1; omega
  have hsz := size_eq c hw.1
  have hlt : (i : ℤ) < size c := by rw [hsz]; exact_mod_cast hi
  have hnub := (C41_reads_points_partial c offset hrep hw).2.2 i
  have hs := startingOffset_eq c offset i hrep ho hlt
  have he : enforcePointIndex (i : ℤ) (size c) = .ok := by
    unfold enforcePointIndex
    rw [if_neg]
    omega
  have hlen : i * c.pointStep + offset + 12 ≤ c.data.length := by
    have h1 : (i + 1) * c.pointStep ≤ c.width * c.height * c.pointStep := Nat.mul_le_mul_right _ (by omega)
    have h2 : c.rowStep * c.height = c.width * c.height * c.pointStep := by rw [hw.2.2.1]; ring
    have h3 := hw.2.2.2
    have h4 := hw.2.1
    rw [Nat.add_mul, Nat.one_mul] at h1
    omega
  have hb : readBytes c offset i = .value ((c.data.drop (i * c.pointStep + offset)).take 12) := by
    unfold readBytes
    simp only [he, hs]
    rw [if_neg (by omega), if_neg (by omega)]
  unfold readDoubles
  simp only [he, hb]
  simp only [List.take_take, List.drop_take, List.drop_drop]
  rfl

example : readDoubles List.sum smallCloud 4 0 = .value (4 + 5 + 6 + 7, 8 + 9 + 10 + 11, 12 + 13 + 14 + 15) := by decide +kernel

/-- C41 fails for a message whose data end within a point: only the first byte is checked, and up to 11 bytes behind the
data are read.  The constructor does not notice. -/
theorem C41_reads_past_end :
    ∃ c : Msg, Representable c ∧ build (some c) .pinf = .ok 0 ∧ readBytes c 0 0 = .ub := by
  refine ⟨{ height := 1, width := 1, pointStep := 12, rowStep := 12,
            fields := [⟨"x", 0, 7⟩, ⟨"y", 4, 7⟩, ⟨"z", 8, 7⟩], data := List.range 11 }, ?_, by decide +kernel, by decide +kernel⟩
  unfold Representable; decide

/-- The same happens with complete data if the fields stick out of the point. -/
theorem C41_fields_outside_point :
    ∃ c : Msg, Representable c ∧ c.rowStep * c.height = c.data.length ∧ c.rowStep = c.width * c.pointStep ∧
      build (some c) .pinf = .ok 4 ∧ readBytes c 4 1 = .ub := by
  refine ⟨{ height := 1, width := 2, pointStep := 12, rowStep := 24,
            fields := [⟨"x", 4, 7⟩, ⟨"y", 8, 7⟩, ⟨"z", 12, 7⟩], data := List.range 24 }, ?_, by decide, by decide,
            by decide +kernel, by decide +kernel⟩
  unfold Representable; decide

/-- The number of points wraps around: a message with 2^32 points reports none, and no point can be read. -/
theorem C41_size_wraps (c : Msg) (hw : c.width = 2 ^ 16) (hh : c.height = 2 ^ 16) (offset : ℕ) (index : ℤ) :
    size c = 0 ∧ readBytes c offset index = .throws := by
  have hs : size c = 0 := by unfold size; rw [hw, hh]; norm_num
  refine ⟨hs, ?_⟩
  unfold readBytes enforcePointIndex
  rw [hs, if_pos (by omega)]

/-- Padded rows are not skipped: with 4 bytes of padding after each row the second row is read at the wrong place. -/
theorem C41_padded_rows_misread :
    ∃ c : Msg, Representable c ∧ c.width * c.pointStep ≤ c.rowStep ∧ c.rowStep * c.height = c.data.length ∧
      build (some c) .pinf = .ok 0 ∧
      ∃ b, readBytes c 0 (1 * c.width + 0 : ℕ) = .value b ∧ b[0]? = some 12 ∧ CoordinateByte c 0 1 0 0 = some 16 := by
  refine ⟨{ height := 2, width := 1, pointStep := 12, rowStep := 16,
            fields := [⟨"x", 0, 7⟩, ⟨"y", 4, 7⟩, ⟨"z", 8, 7⟩], data := List.range 32 }, ?_, by decide, by decide,
            by decide +kernel, [12, 13, 14, 15, 16, 17, 18, 19, 20, 21, 22, 23], by decide +kernel, by decide, by decide⟩
  unfold Representable; decide

/-- A NaN maximum range is accepted. -/
theorem C41_nan_range_accepted : build (some smallCloud) .nan = .ok 4 := by decide +kernel

end VGT.Props
