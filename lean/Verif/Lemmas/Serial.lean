import Verif.Spec.Serial
import Mathlib.Tactic.Linarith

set_option autoImplicit false

namespace VGT.Ser
open VGT.Spec

/-- The bytes `b` stand in `buf` at `off`. -/
def At (buf : Bytes) (off : ℕ) (b : Bytes) : Prop := ∃ pre suf, buf = pre ++ b ++ suf ∧ pre.length = off

theorem At.left {buf a b : Bytes} {off : ℕ} (h : At buf off (a ++ b)) : At buf off a := by
  obtain ⟨p, s, rfl, hp⟩ := h
  exact ⟨p, b ++ s, by simp, hp⟩

theorem At.right {buf a b : Bytes} {off : ℕ} (h : At buf off (a ++ b)) : At buf (off + a.length) b := by
  obtain ⟨p, s, rfl, hp⟩ := h
  exact ⟨p ++ a, s, by simp, by simp [hp]⟩

theorem roundTrips_iff {α : Type} {c : Codec α} {x : α} :
    RoundTrips c x ↔ ∀ buf off, At buf off (c.ser x) → c.de buf off = some (x, (c.ser x).length) := by
  constructor
  · rintro h buf off ⟨p, s, rfl, rfl⟩; exact h p s
  · intro h p s; exact h _ _ ⟨p, s, rfl, rfl⟩

theorem rd_at {α : Type} {c : Codec α} {x : α} (h : RoundTrips c x) {buf : Bytes} {off : ℕ} (ha : At buf off (c.ser x)) :
    rd c buf off = some (x, off + (c.ser x).length) := by
  unfold rd; rw [roundTrips_iff.1 h buf off ha]; rfl

theorem raw_roundTrips {n : ℕ} (x : Raw n) : RoundTrips (raw n) x := by
  intro p s
  have hx : x.1.length = n := x.2
  unfold raw
  dsimp only
  rw [dif_pos (by simp [hx])]
  congr 1
  refine Prod.ext (Subtype.ext ?_) hx.symm
  dsimp only
  rw [List.append_assoc, List.drop_left, List.take_append_of_le_length hx.ge, List.take_of_length_le hx.le]

theorem byte_roundTrips (x : UInt8) : RoundTrips byte x := by
  intro p s
  simp [byte]

theorem flag_roundTrips (x : Bool) : RoundTrips flag x := by
  intro p s
  cases x <;> simp [flag, byte]

theorem fromLe_leBytes (k n : ℕ) (h : n < 256 ^ k) : fromLe (leBytes k n) = n := by
  induction k generalizing n with
  | zero => simp at h; simp [leBytes, fromLe, h]
  | succ k ih =>
    unfold leBytes fromLe
    have h2 : n / 256 < 256 ^ k := by
      rw [Nat.div_lt_iff_lt_mul (by decide)]
      rw [pow_succ] at h; exact h
    have hm : (UInt8.ofNat (n % 256)).toNat = n % 256 := by
      rw [UInt8.toNat_ofNat']; omega
    rw [ih _ h2, hm]
    omega

theorem length_leBytes (k n : ℕ) : (leBytes k n).length = k := by
  induction k generalizing n with
  | zero => rfl
  | succ k ih => simp [leBytes, ih]

theorem deMany_at {α : Type} {c : Codec α} (l : List α) (h : ∀ x ∈ l, RoundTrips c x) {buf : Bytes} {off : ℕ}
    (ha : At buf off (l.flatMap c.ser)) : deMany c buf l.length off = some (l, off + (l.flatMap c.ser).length) := by
  induction l generalizing off with
  | nil => simp [deMany]
  | cons x l ih =>
    rw [List.flatMap_cons] at ha
    rw [List.length_cons]
    unfold deMany
    rw [rd_at (h x List.mem_cons_self) ha.left, Option.bind_some]
    dsimp only
    rw [ih (fun y hy => h y (List.mem_cons_of_mem _ hy)) ha.right]
    simp [List.flatMap_cons]
    omega

theorem vec_roundTrips {α : Type} {c : Codec α} {l : List α} (h : ∀ x ∈ l, RoundTrips c x) (hl : l.length < 2 ^ 64) :
    RoundTrips (vec c) l := by
  rw [roundTrips_iff]
  intro buf off ha
  have ha' : At buf off (leBytes 8 l.length ++ l.flatMap c.ser) := ha
  have h8 : rd (raw 8) buf off = some (⟨leBytes 8 l.length, length_leBytes _ _⟩, off + 8) := by
    have := rd_at (raw_roundTrips (n := 8) ⟨leBytes 8 l.length, length_leBytes _ _⟩) (buf := buf) (off := off) ha'.left
    rw [this]
    simp [raw, length_leBytes]
  have hr := ha'.right
  rw [length_leBytes] at hr
  unfold vec
  dsimp only
  rw [h8, Option.bind_some]
  dsimp only
  rw [fromLe_leBytes 8 l.length (by norm_num; omega), deMany_at l h hr]
  simp [length_leBytes]
  omega

theorem str_roundTrips {s : Bytes} (h : s.length < 2 ^ 64) : RoundTrips str s :=
  vec_roundTrips (fun x _ => byte_roundTrips x) h

theorem occCell_roundTrips (x : OccCell) : RoundTrips occCell x := by
  rw [roundTrips_iff]
  intro buf off ha
  have ha : At buf off ((raw 4).ser x.occ) := ha
  unfold occCell
  dsimp only
  rw [rd_at (raw_roundTrips _) ha, Option.bind_some]
  simp

theorem occCompCell_roundTrips (x : OccCompCell) : RoundTrips occCompCell x := by
  rw [roundTrips_iff]
  intro buf off ha
  have ha : At buf off ((raw 4).ser x.occ ++ (raw 4).ser x.component) := ha
  unfold occCompCell
  dsimp only
  rw [rd_at (raw_roundTrips _) ha.left, Option.bind_some]
  dsimp only
  rw [rd_at (raw_roundTrips _) ha.right, Option.bind_some]
  simp
  omega

theorem tagCell_roundTrips (x : TagCell) : RoundTrips tagCell x := by
  rw [roundTrips_iff]
  intro buf off ha
  have ha : At buf off ((raw 4).ser x.occ ++ (raw 4).ser x.objectId) := ha
  unfold tagCell
  dsimp only
  rw [rd_at (raw_roundTrips _) ha.left, Option.bind_some]
  dsimp only
  rw [rd_at (raw_roundTrips _) ha.right, Option.bind_some]
  simp
  omega

theorem tagCompCell_roundTrips (x : TagCompCell) : RoundTrips tagCompCell x := by
  rw [roundTrips_iff]
  intro buf off ha
  have ha : At buf off ((raw 4).ser x.occ ++ ((raw 4).ser x.objectId ++ ((raw 4).ser x.component ++ (raw 4).ser x.segment))) := ha
  unfold tagCompCell
  dsimp only
  rw [rd_at (raw_roundTrips _) ha.left, Option.bind_some]
  dsimp only
  rw [rd_at (raw_roundTrips _) ha.right.left, Option.bind_some]
  dsimp only
  rw [rd_at (raw_roundTrips _) ha.right.right.left, Option.bind_some]
  dsimp only
  rw [rd_at (raw_roundTrips _) ha.right.right.right, Option.bind_some]
  simp
  omega

/-- The derived part is read back. -/
theorem withDerived_at {B α : Type} {base : Codec B} {uniform : B → Bool} {baseOf : α → B} {derivedSer : α → Bytes}
    {derivedDe : B → Bytes → ℕ → Option (α × ℕ)} {x x' : α} (hb : RoundTrips base (baseOf x)) (hu : uniform (baseOf x) = true)
    (hd : ∀ buf off, At buf off (derivedSer x) → derivedDe (baseOf x) buf off = some (x', (derivedSer x).length))
    {buf : Bytes} {off : ℕ} (ha : At buf off ((withDerived base uniform baseOf derivedSer derivedDe).ser x)) :
    (withDerived base uniform baseOf derivedSer derivedDe).de buf off =
      some (x', ((withDerived base uniform baseOf derivedSer derivedDe).ser x).length) := by
  have ha : At buf off (base.ser (baseOf x) ++ derivedSer x) := ha
  unfold withDerived
  dsimp only
  rw [rd_at hb ha.left, Option.bind_some]
  dsimp only
  rw [if_pos hu, hd _ _ ha.right]
  simp
  omega

theorem plainMap_roundTrips {Cell B : Type} {F : BaseFormat Cell B} {cell : Codec Cell} (hc : ∀ x, RoundTrips cell x)
    {m : PlainMap B} (hb : BaseRoundTrips F m.base) (hu : F.uniform m.base = true) (hf : m.frame.length < 2 ^ 64) :
    RoundTrips (plainMap F cell) m := by
  rw [roundTrips_iff]
  intro buf off ha
  refine withDerived_at (x := m) (hb cell hc) hu ?_ ha
  intro buf off ha
  rw [rd_at (str_roundTrips hf) ha, Option.bind_some]
  simp

theorem compMap_roundTrips {Cell B : Type} {F : BaseFormat Cell B} {cell : Codec Cell} (hc : ∀ x, RoundTrips cell x)
    {m : CompMap B} (hb : BaseRoundTrips F m.base) (hu : F.uniform m.base = true) (hf : m.frame.length < 2 ^ 64) :
    RoundTrips (compMap F cell) m := by
  rw [roundTrips_iff]
  intro buf off ha
  refine withDerived_at (x := m) (hb cell hc) hu ?_ ha
  intro buf off ha
  rw [rd_at (raw_roundTrips _) ha.left, Option.bind_some]
  dsimp only
  rw [rd_at (str_roundTrips hf) ha.right.left, Option.bind_some]
  dsimp only
  rw [rd_at (flag_roundTrips _) ha.right.right, Option.bind_some]
  simp
  omega

theorem tagCompMap_roundTrips {Cell B : Type} {F : BaseFormat Cell B} {cell : Codec Cell} (hc : ∀ x, RoundTrips cell x)
    {m : TagCompMap B} (hb : BaseRoundTrips F m.base) (hu : F.uniform m.base = true) (hf : m.frame.length < 2 ^ 64) :
    RoundTrips (tagCompMap F cell) m := by
  rw [roundTrips_iff]
  intro buf off ha
  refine withDerived_at (x := m) (hb cell hc) hu ?_ ha
  intro buf off ha
  rw [rd_at (raw_roundTrips _) ha.left, Option.bind_some]
  dsimp only
  rw [rd_at (raw_roundTrips _) ha.right.left, Option.bind_some]
  dsimp only
  rw [rd_at (str_roundTrips hf) ha.right.right.left, Option.bind_some]
  dsimp only
  rw [rd_at (flag_roundTrips _) ha.right.right.right.left, Option.bind_some]
  dsimp only
  rw [rd_at (flag_roundTrips _) ha.right.right.right.right, Option.bind_some]
  simp
  omega

/-- The concrete dense base format is read back. -/
theorem cruDense_roundTrips {Cell : Type} (b : GridBase Cell) (h : b.data.length < 2 ^ 64) : BaseRoundTrips (cruDense Cell) b := by
  intro c hc
  rw [roundTrips_iff]
  intro buf off ha
  have ha : At buf off (flag.ser b.initialized ++ ((raw 128).ser b.origin ++ ((vec c).ser b.data ++ ((raw 48).ser b.sizes ++
        (c.ser b.default ++ c.ser b.oob))))) := ha
  unfold cruDense
  dsimp only
  rw [rd_at (flag_roundTrips _) ha.left, Option.bind_some]
  dsimp only
  rw [rd_at (raw_roundTrips _) ha.right.left, Option.bind_some]
  dsimp only
  rw [rd_at (vec_roundTrips (fun x _ => hc x) h) ha.right.right.left, Option.bind_some]
  dsimp only
  rw [rd_at (raw_roundTrips _) ha.right.right.right.left, Option.bind_some]
  dsimp only
  rw [rd_at (hc _) ha.right.right.right.right.left, Option.bind_some]
  dsimp only
  rw [rd_at (hc _) ha.right.right.right.right.right, Option.bind_some]
  simp
  omega

/-! ### Minimum and maximum -/

theorem Fl.le_refl' {a : Fl} (h : a ≠ .nan) : a.le a = true := by
  cases a <;> simp_all [Fl.le]

theorem Fl.le_trans' {a b c : Fl} (h : a.le b = true) (h' : b.le c = true) : a.le c = true := by
  cases a <;> cases b <;> cases c <;> simp_all [Fl.le]
  exact _root_.le_trans h h'

theorem Fl.lt_le {a b : Fl} (h : a.lt b = true) : a.le b = true := by
  cases a <;> cases b <;> simp_all [Fl.le, Fl.lt]
  exact h.le

theorem Fl.not_lt_le {a b : Fl} (ha : a ≠ .nan) (hb : b ≠ .nan) (h : a.lt b = false) : b.le a = true := by
  cases a <;> cases b <;> simp_all [Fl.le, Fl.lt]

theorem foldl_min {S : Type} (val : S → Fl) (xs : List S) (x : S) (h : ∀ y ∈ x :: xs, val y ≠ .nan) :
    xs.foldl (fun m y => if (val y).lt (val m) then y else m) x ∈ x :: xs ∧
    ∀ y ∈ x :: xs, (val (xs.foldl (fun m y => if (val y).lt (val m) then y else m) x)).le (val y) = true := by
  induction xs generalizing x with
  | nil =>
    refine ⟨by simp, ?_⟩
    intro y hy
    rw [List.mem_singleton] at hy
    subst hy
    exact Fl.le_refl' (h _ (by simp))
  | cons z zs ih =>
    rw [List.foldl_cons]
    have hx := h x (by simp)
    have hz := h z (by simp)
    by_cases hlt : (val z).lt (val x) = true
    · rw [if_pos hlt]
      obtain ⟨h1, h2⟩ := ih z (fun y hy => h y (List.mem_cons_of_mem _ hy))
      refine ⟨List.mem_cons_of_mem _ h1, ?_⟩
      intro y hy
      rcases List.mem_cons.1 hy with rfl | hy
      · exact Fl.le_trans' (h2 z (by simp)) (Fl.lt_le hlt)
      · exact h2 y hy
    · rw [if_neg hlt]
      obtain ⟨h1, h2⟩ := ih x (fun y hy => h y (by
        rcases List.mem_cons.1 hy with rfl | hy
        · simp
        · simp [hy]))
      refine ⟨by rcases List.mem_cons.1 h1 with h1 | h1 <;> [rw [h1]; skip] <;> simp [h1], ?_⟩
      intro y hy
      rcases List.mem_cons.1 hy with rfl | hy
      · exact h2 _ (by simp)
      · rcases List.mem_cons.1 hy with rfl | hy
        · exact Fl.le_trans' (h2 x (by simp)) (Fl.not_lt_le hz hx (by simpa using hlt))
        · exact h2 y (by simp [hy])

theorem foldl_max {S : Type} (val : S → Fl) (xs : List S) (x : S) (h : ∀ y ∈ x :: xs, val y ≠ .nan) :
    xs.foldl (fun m y => if (val y).lt (val m) then m else y) x ∈ x :: xs ∧
    ∀ y ∈ x :: xs, (val y).le (val (xs.foldl (fun m y => if (val y).lt (val m) then m else y) x)) = true := by
  induction xs generalizing x with
  | nil =>
    refine ⟨by simp, ?_⟩
    intro y hy
    rw [List.mem_singleton] at hy
    subst hy
    exact Fl.le_refl' (h _ (by simp))
  | cons z zs ih =>
    rw [List.foldl_cons]
    have hx := h x (by simp)
    have hz := h z (by simp)
    by_cases hlt : (val z).lt (val x) = true
    · rw [if_pos hlt]
      obtain ⟨h1, h2⟩ := ih x (fun y hy => h y (by
        rcases List.mem_cons.1 hy with rfl | hy
        · simp
        · simp [hy]))
      refine ⟨by rcases List.mem_cons.1 h1 with h1 | h1 <;> [rw [h1]; skip] <;> simp [h1], ?_⟩
      intro y hy
      rcases List.mem_cons.1 hy with rfl | hy
      · exact h2 _ (by simp)
      · rcases List.mem_cons.1 hy with rfl | hy
        · exact Fl.le_trans' (Fl.lt_le hlt) (h2 x (by simp))
        · exact h2 y (by simp [hy])
    · rw [if_neg hlt]
      obtain ⟨h1, h2⟩ := ih z (fun y hy => h y (List.mem_cons_of_mem _ hy))
      refine ⟨List.mem_cons_of_mem _ h1, ?_⟩
      intro y hy
      rcases List.mem_cons.1 hy with rfl | hy
      · exact Fl.le_trans' (Fl.not_lt_le hz hx (by simpa using hlt)) (h2 z (by simp))
      · exact h2 y hy

theorem minMaxElement_spec {S : Type} {val : S → Fl} {l : List S} {m : S × S} (h : minMaxElement val l = some m) :
    IsMinMax (l.map val) (val m.1) (val m.2) := by
  cases l with
  | nil => simp [minMaxElement] at h
  | cons x xs =>
    unfold minMaxElement at h
    dsimp only at h
    split_ifs at h with hn
    have hn' : ∀ y ∈ x :: xs, val y ≠ .nan := by
      intro y hy hv
      exact hn (List.any_eq_true.2 ⟨y, hy, by simpa using hv⟩)
    cases h
    obtain ⟨h1, h2⟩ := foldl_min val xs x hn'
    obtain ⟨h3, h4⟩ := foldl_max val xs x hn'
    refine ⟨List.mem_map_of_mem h1, List.mem_map_of_mem h3, ?_⟩
    intro v hv
    obtain ⟨y, hy, rfl⟩ := List.mem_map.1 hv
    exact ⟨h2 y hy, h4 y hy⟩

theorem minMaxElement_isSome {S : Type} {val : S → Fl} {l : List S} :
    (∃ m, minMaxElement val l = some m) ↔ l ≠ [] ∧ ∀ x ∈ l, val x ≠ .nan := by
  cases l with
  | nil => simp [minMaxElement]
  | cons x xs =>
    unfold minMaxElement
    dsimp only
    by_cases hn : (x :: xs).any (fun y => val y = .nan) = true
    · rw [if_pos hn]
      rw [List.any_eq_true] at hn
      obtain ⟨y, hy, hv⟩ := hn
      constructor
      · rintro ⟨m, hm⟩; cases hm
      · rintro ⟨_, h⟩; exact absurd (by simpa using hv) (h y hy)
    · rw [if_neg hn]
      refine ⟨fun _ => ⟨by simp, ?_⟩, fun _ => ⟨_, rfl⟩⟩
      intro y hy hv
      exact hn (List.any_eq_true.2 ⟨y, hy, by simpa using hv⟩)

end VGT.Ser
