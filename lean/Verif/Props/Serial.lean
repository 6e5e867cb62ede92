import Verif.Lemmas.Serial

/-!
C10 (lock), C11 and C12 (serialization), C13 (files), C14 (messages).
-/
set_option autoImplicit false

namespace VGT
open VGT.Ser VGT.Spec

section Lock
variable {B S : Type}

/-- Setting the vector and reading it back. -/
def Spec.LawfulData (D : SDFBase B S) : Prop := ∀ b l, D.data (D.setData b l) = l

/-- No write through a reference obtained before. -/
def Spec.NoStaleWrite : SDFOp S → Prop
  | .staleWrite _ _ => False
  | _ => True

/-- What holds between calls: a locked field caches the extrema of its data. -/
def CacheOk (D : SDFBase B S) (s : SDFSt B S) : Prop := s.locked = true → minMaxElement D.val (D.data s.base) = some s.cache

theorem cacheOk_step {D : SDFBase B S} {s s' : SDFSt B S} {o : SDFOp S} (hs : CacheOk D s) (ho : NoStaleWrite o)
    (h : s.step D o = some s') : CacheOk D s' := by
  cases o with
  | access k f =>
    simp only [SDFSt.step] at h
    by_cases hl : s.locked = true
    · rw [if_pos hl] at h; cases h; exact hs
    · rw [if_neg hl] at h; cases h; exact fun h => absurd h hl
  | rawAccess f =>
    simp only [SDFSt.step] at h
    by_cases hl : s.locked = true
    · rw [if_pos hl] at h; cases h; exact hs
    · rw [if_neg hl] at h; cases h; exact fun h => absurd h hl
  | lock =>
    simp only [SDFSt.step, SDFSt.lock, SDFSt.minMax] at h
    by_cases hl : s.locked = true
    · rw [if_pos hl] at h; cases h; exact fun _ => hs hl
    · rw [if_neg hl] at h
      cases hm : minMaxElement D.val (D.data s.base) with
      | none => rw [hm] at h; cases h
      | some m => rw [hm] at h; cases h; exact fun _ => hm
  | unlock =>
    simp only [SDFSt.step, SDFSt.unlock] at h
    cases h
    intro h; cases h
  | setFrame f =>
    simp only [SDFSt.step] at h
    cases h
    exact hs
  | staleWrite k f => exact absurd ho (by simp [NoStaleWrite])

theorem cacheOk_run {D : SDFBase B S} {s s' : SDFSt B S} {os : List (SDFOp S)} (hs : CacheOk D s)
    (ho : ∀ o ∈ os, NoStaleWrite o) (h : s.run D os = some s') : CacheOk D s' := by
  induction os generalizing s with
  | nil => cases h; exact hs
  | cons o os ih =>
    unfold SDFSt.run at h
    cases h1 : s.step D o with
    | none => rw [h1] at h; cases h
    | some s1 =>
      rw [h1, Option.bind_some] at h
      exact ih (cacheOk_step hs (ho o List.mem_cons_self) h1) (fun p hp => ho p (List.mem_cons_of_mem _ hp)) h

/-- C10: after any history that starts with an unlocked field and has no write through an old reference, whatever
`GetMinimumMaximum` returns are the true extrema of the stored distances, locked or not. -/
theorem C10_min_max_right {D : SDFBase B S} {s s' : SDFSt B S} {os : List (SDFOp S)} (hs : s.locked = false)
    (ho : ∀ o ∈ os, NoStaleWrite o) (h : s.run D os = some s') {m : S × S} (hm : s'.minMax D = some m) :
    IsMinMax ((D.data s'.base).map D.val) (D.val m.1) (D.val m.2) := by
  have hc : CacheOk D s' := cacheOk_run (fun h => by rw [hs] at h; cases h) ho h
  unfold SDFSt.minMax at hm
  split_ifs at hm with hl
  · cases hm; exact minMaxElement_spec (hc hl)
  · exact minMaxElement_spec hm

/-- C10: `GetMinimumMaximum` is defined on a locked field always, and on an unlocked one exactly if there is a cell and no
distance is NaN. -/
theorem C10_min_max_defined_iff {D : SDFBase B S} {s s' : SDFSt B S} {os : List (SDFOp S)} (hs : s.locked = false)
    (ho : ∀ o ∈ os, NoStaleWrite o) (h : s.run D os = some s') :
    (∃ m, s'.minMax D = some m) ↔ D.data s'.base ≠ [] ∧ ∀ x ∈ D.data s'.base, D.val x ≠ .nan := by
  have hc : CacheOk D s' := cacheOk_run (fun h => by rw [hs] at h; cases h) ho h
  unfold SDFSt.minMax
  split_ifs with hl
  · refine ⟨fun _ => ?_, fun _ => ⟨_, rfl⟩⟩
    exact minMaxElement_isSome.1 ⟨_, hc hl⟩
  · exact minMaxElement_isSome

/-- C10: a locked field keeps every distance, and stays locked, through any calls other than `Unlock` (and writes through
old references). -/
theorem C10_locked_is_frozen {D : SDFBase B S} {s : SDFSt B S} (hs : s.locked = true) {os : List (SDFOp S)}
    (ho : ∀ o ∈ os, NoStaleWrite o ∧ o ≠ .unlock) :
    ∃ s', s.run D os = some s' ∧ s'.locked = true ∧ s'.base = s.base ∧ s'.minMax D = s.minMax D := by
  induction os generalizing s with
  | nil => exact ⟨s, rfl, hs, rfl, rfl⟩
  | cons o os ih =>
    have hstep : ∃ s1, s.step D o = some s1 ∧ s1.locked = true ∧ s1.base = s.base ∧ s1.minMax D = s.minMax D := by
      obtain ⟨h1, h2⟩ := ho o List.mem_cons_self
      cases o with
      | access k f => exact ⟨s, by simp [SDFSt.step, hs], hs, rfl, rfl⟩
      | rawAccess f => exact ⟨s, by simp [SDFSt.step, hs], hs, rfl, rfl⟩
      | lock =>
        refine ⟨{ s with cache := s.cache, locked := true }, by simp [SDFSt.step, SDFSt.lock, SDFSt.minMax, hs], rfl, rfl, ?_⟩
        simp [SDFSt.minMax, hs]
      | unlock => exact absurd rfl h2
      | setFrame f => exact ⟨{ s with frame := f }, rfl, hs, rfl, rfl⟩
      | staleWrite k f => exact absurd h1 (by simp [NoStaleWrite])
    obtain ⟨s1, h1, h2, h3, h4⟩ := hstep
    obtain ⟨s2, g1, g2, g3, g4⟩ := ih h2 (fun p hp => ho p (List.mem_cons_of_mem _ hp))
    refine ⟨s2, ?_, g2, g3.trans h3, g4.trans h4⟩
    unfold SDFSt.run
    rw [h1, Option.bind_some, g1]

/-- C10: after `Unlock` a write goes through again. -/
theorem C10_unlocked_is_mutable {D : SDFBase B S} (hD : LawfulData D) (s : SDFSt B S) (k : ℕ) (f : S → S) :
    ∃ s', s.run D [.unlock, .access k f] = some s' ∧ (D.data s'.base)[k]? = ((D.data s.base)[k]?).map f ∧
      ∀ j ≠ k, (D.data s'.base)[j]? = (D.data s.base)[j]? := by
  refine ⟨{ s.unlock with base := D.setData s.base ((D.data s.base).modify k f) }, rfl, ?_, ?_⟩
  · dsimp only
    rw [hD, List.getElem?_modify_eq]
    rfl
  · intro j hj
    dsimp only
    rw [hD, List.getElem?_modify_ne _ _ (Ne.symm hj)]

end Lock

/-- A plain base: a list of distances. -/
def exData : SDFBase (List Fl) Fl := ⟨id, fun _ l => l, id⟩

example : LawfulData exData := fun _ _ => rfl

/-- A history with lock, refused write, unlock, write, lock. -/
def exHistory : List (SDFOp Fl) :=
  [.access 0 fun _ => .fin 3, .lock, .access 1 fun _ => .fin (-9), .rawAccess fun _ => [], .unlock,
    .access 2 fun _ => .fin (-2), .lock, .setFrame [7]]

example : (∀ o ∈ exHistory, NoStaleWrite o) ∧
    (SDFSt.fresh [.fin 1, .fin 1, .pinf] (.fin 0)).run exData exHistory =
      some ⟨[.fin 3, .fin 1, .fin (-2)], [7], true, (.fin (-2), .fin 3)⟩ :=
  ⟨by simp [exHistory, NoStaleWrite], by decide +kernel⟩

/-- C10, negative part: locking (or asking for the extrema of) a field without cells is undefined behaviour: the end
iterator is dereferenced. The default constructor makes such a field. -/
theorem C10_empty_lock_undefined : (SDFSt.fresh ([] : List Fl) (.fin 0)).lock exData = none ∧
    (SDFSt.fresh ([] : List Fl) (.fin 0)).minMax exData = none := by
  decide +kernel

/-- C10: the excluded case matters. A write through a reference obtained before `Lock` leaves a locked field with wrong
extrema. -/
theorem C10_stale_write_breaks :
    ∃ (s s' : SDFSt (List Fl) Fl) (m : Fl × Fl), s.locked = false ∧
      s.run exData [.lock, .staleWrite 0 fun _ => .fin 5] = some s' ∧ s'.minMax exData = some m ∧
      ¬ IsMinMax ((exData.data s'.base).map exData.val) (exData.val m.1) (exData.val m.2) := by
  refine ⟨.fresh [.fin 1, .fin 2] (.fin 0), ⟨[.fin 5, .fin 2], [], true, (.fin 1, .fin 2)⟩, (.fin 1, .fin 2), rfl,
    by decide +kernel, rfl, ?_⟩
  unfold IsMinMax
  decide +kernel

/-! ### Serialization -/

section RoundTrip
variable {Cell B S : Type}

/-- C12, cells: every cell of every kind is read back bit for bit. -/
theorem C12_cells_round_trip : (∀ x, RoundTrips occCell x) ∧ (∀ x, RoundTrips occCompCell x) ∧ (∀ x, RoundTrips tagCell x) ∧
    (∀ x, RoundTrips tagCompCell x) :=
  ⟨occCell_roundTrips, occCompCell_roundTrips, tagCell_roundTrips, tagCompCell_roundTrips⟩

/-- C12: occupancy maps, tagged maps and hashed maps (frame only). -/
theorem C12_plain_map_round_trip {F : BaseFormat Cell B} {cell : Codec Cell} (hc : ∀ x, RoundTrips cell x) {m : PlainMap B}
    (hb : BaseRoundTrips F m.base) (hu : F.uniform m.base = true) (hf : m.frame.length < 2 ^ 64) :
    RoundTrips (plainMap F cell) m := plainMap_roundTrips hc hb hu hf

/-- C12: component maps (count, frame, flag). -/
theorem C12_component_map_round_trip {F : BaseFormat OccCompCell B} {m : CompMap B}
    (hb : BaseRoundTrips F m.base) (hu : F.uniform m.base = true) (hf : m.frame.length < 2 ^ 64) :
    RoundTrips (compMap F occCompCell) m := compMap_roundTrips occCompCell_roundTrips hb hu hf

/-- C12: tagged component maps (two counts, frame, two flags). -/
theorem C12_tagged_component_map_round_trip {F : BaseFormat TagCompCell B} {m : TagCompMap B}
    (hb : BaseRoundTrips F m.base) (hu : F.uniform m.base = true) (hf : m.frame.length < 2 ^ 64) :
    RoundTrips (tagCompMap F tagCompCell) m := tagCompMap_roundTrips tagCompCell_roundTrips hb hu hf

/-- The hypotheses on the base class hold for dense grids in the CRU format. -/
theorem C12_dense_base_round_trip (b : GridBase Cell) (h : b.data.length < 2 ^ 64) : BaseRoundTrips (cruDense Cell) b :=
  cruDense_roundTrips b h

/-- C11: a field that any history can produce is read back with the same base members (geometry, distances), frame, lock
state and the same extrema, from any place in a buffer, consuming exactly the bytes written. -/
theorem C11_sdf_round_trip {D : SDFBase B S} {F : BaseFormat S B} {cell : Codec S} (hc : ∀ x, RoundTrips cell x) {b0 : B}
    {zero : S} {s0 s : SDFSt B S} {os : List (SDFOp S)} (hs0 : s0.locked = false) (ho : ∀ o ∈ os, NoStaleWrite o)
    (hrun : s0.run D os = some s) (hb : BaseRoundTrips F s.base) (hu : F.uniform s.base = true)
    (hf : s.frame.length < 2 ^ 64) (pre suf : Bytes) :
    ∃ s', (sdf D F cell b0 zero).de (pre ++ (sdf D F cell b0 zero).ser s ++ suf) pre.length =
        some (s', ((sdf D F cell b0 zero).ser s).length) ∧
      s'.base = s.base ∧ s'.frame = s.frame ∧ s'.locked = s.locked ∧ s'.minMax D = s.minMax D := by
  have hcache : CacheOk D s := cacheOk_run (fun h => by rw [hs0] at h; cases h) ho hrun
  refine ⟨if s.locked then s else { s with cache := (zero, zero) }, ?_, ?_⟩
  · unfold sdf sdfInto
    refine withDerived_at (x := s) (hb cell hc) hu ?_ ⟨pre, suf, rfl, rfl⟩
    intro buf off ha
    have ha : At buf off (str.ser s.frame ++ flag.ser s.locked) := ha
    unfold sdfDerivedDe
    rw [rd_at (str_roundTrips hf) ha.left, Option.bind_some]
    dsimp only
    rw [rd_at (flag_roundTrips _) ha.right, Option.bind_some]
    dsimp only
    cases hl : s.locked with
    | true =>
      simp only [SDFSt.lock, SDFSt.minMax, SDFSt.fresh, if_true, Bool.false_eq_true, if_false]
      rw [hcache hl]
      simp only [Option.map_some, sdfDerivedSer, List.length_append]
      rw [hl]
      congr 2
      · cases s; simp_all
      · omega
    | false =>
      simp only [SDFSt.unlock, SDFSt.fresh, Bool.false_eq_true, if_false, Option.map_some, sdfDerivedSer, List.length_append]
      rw [hl]
      congr 2
      omega
  · cases hl : s.locked with
    | true => simp [hl]
    | false => simp [SDFSt.minMax, hl]

/-- A field with one-byte distances. -/
def exBytes : SDFBase (List UInt8) UInt8 := ⟨id, fun _ l => l, fun b => .fin b.toNat⟩

/-- C11, about `DerivedDeserializeSelf`: reading a locked field into an object that is itself locked keeps the old cached
extrema, because `Lock` returns the cache of a locked field. `Deserialize` never does this (it reads into a new object). -/
theorem C11_read_into_locked_is_stale :
    ∃ (F : BaseFormat UInt8 (List UInt8)) (old s s' : SDFSt (List UInt8) UInt8) (n : ℕ), (∀ b : List UInt8, b.length < 2 ^ 64 → BaseRoundTrips F b) ∧
      old.locked = true ∧ CacheOk exBytes old ∧ CacheOk exBytes s ∧
      (sdfInto exBytes F byte old).de ((sdfInto exBytes F byte old).ser s) 0 = some (s', n) ∧
      s'.base = s.base ∧ s'.locked = true ∧ s'.minMax exBytes ≠ s.minMax exBytes := by
  refine ⟨⟨fun c => vec c, fun _ => true⟩, ⟨[1], [], true, (1, 1)⟩, ⟨[2], [], true, (2, 2)⟩,
    ⟨[2], [], true, (1, 1)⟩, 18, fun b hb c hc => vec_roundTrips (fun x _ => hc x) hb, rfl, by unfold CacheOk; decide +kernel,
    by unfold CacheOk; decide +kernel, by decide +kernel, rfl, rfl, by decide +kernel⟩

end RoundTrip

/-! ### Files -/

section Files
variable {α : Type}

theorem header_length (k : Kind) (b : Bool) : (header k b).length = 4 := by cases k <;> cases b <;> decide +kernel

theorem header_cString (k : Kind) (b : Bool) : cString (header k b ++ [0]) = header k b := by cases k <;> cases b <;> decide +kernel

theorem header_z_ne_r (k : Kind) : header k false ≠ header k true := by cases k <;> decide +kernel

/-- `DecompressBytes` undoes `CompressBytes`. -/
def Spec.LawfulZlib (z : Zlib) : Prop := ∀ b, z.decompress (z.compress b) = some b

theorem head_of_save (z : Zlib) (k : Kind) (c : Codec α) (x : α) (compress : Bool) :
    ∃ rest, saveFile z k c x compress = header k compress ++ rest ∧
      rest = (if compress then z.compress (c.ser x) else c.ser x) := by
  unfold saveFile
  cases compress <;> exact ⟨_, rfl, rfl⟩

/-- C13: a saved file loads back as what was saved, compressed or not, for every kind. -/
theorem C13_file_round_trip {z : Zlib} (hz : LawfulZlib z) (k : Kind) {c : Codec α} {x : α} (hc : RoundTrips c x) (compress : Bool) :
    loadFile z k c (some (saveFile z k c x compress)) = .ok x := by
  have hde : c.de (c.ser x) 0 = some (x, (c.ser x).length) := by simpa using hc [] []
  obtain ⟨rest, h1, h2⟩ := head_of_save z k c x compress
  rw [h1]
  unfold loadFile
  have hl := header_length k compress
  have htake : (header k compress ++ rest).take 4 = header k compress := by rw [← hl]; exact List.take_left
  have hdrop : (header k compress ++ rest).drop 4 = rest := by rw [← hl]; exact List.drop_left
  dsimp only
  rw [if_pos (by rw [List.length_append, hl]; omega)]
  rw [htake, hdrop, header_cString]
  cases compress with
  | true =>
    rw [if_pos rfl, h2, if_pos rfl, hz]
    dsimp only
    rw [hde]; rfl
  | false =>
    rw [if_neg (header_z_ne_r k), if_pos rfl, h2]
    simp only [Bool.false_eq_true, if_false]
    rw [hde]; rfl

/-- Two kinds of files that the headers do not tell apart. -/
def Spec.SharesHeader : Kind → Kind → Prop
  | .sdfFloat, .sdfDouble | .sdfDouble, .sdfFloat | .occ, .occComp | .occComp, .occ | .tag, .tagComp | .tagComp, .tag => True
  | a, b => a = b

/-- C13, partial: a file written for one kind is rejected because of its header by every kind that does not share it,
whatever the content. Missing: the pairs of `SharesHeader` (rejection is false there, see the witnesses below). -/
theorem C13_other_kind_rejected_partial {β : Type} {z : Zlib} {k k' : Kind} (hk : ¬ SharesHeader k k') (c : Codec α) (c' : Codec β) (x : α)
    (compress : Bool) : loadFile z k' c' (some (saveFile z k c x compress)) = .badHeader := by
  obtain ⟨rest, h1, _⟩ := head_of_save z k c x compress
  rw [h1]
  unfold loadFile
  have hl := header_length k compress
  have htake : (header k compress ++ rest).take 4 = header k compress := by rw [← hl]; exact List.take_left
  dsimp only
  rw [if_pos (by rw [List.length_append, hl]; omega)]
  rw [htake, header_cString]
  have hne : header k compress ≠ header k' true ∧ header k compress ≠ header k' false := by
    cases k <;> cases k' <;> first | exact absurd trivial hk | exact absurd rfl hk | skip
    all_goals cases compress <;> decide +kernel
  rw [if_neg hne.1, if_neg hne.2]

end Files

/-- Any bytes of length `n`. -/
def zeros (n : ℕ) : Raw n := ⟨List.replicate n 0, by simp⟩

/-- A dense base without cells (as of a default constructed map), with the given default and out-of-bounds value. -/
def emptyBase {Cell : Type} (c : Cell) : GridBase Cell := ⟨false, zeros 128, [], zeros 48, c, c⟩

/-- Reading a file of kind `k` that starts with the right header is deserialization of the rest. -/
theorem loadFile_raw {α : Type} {z : Zlib} {k : Kind} {c : Codec α} {x : α} {n : ℕ} {f : Bytes}
    (h : f.length ≥ 4 ∧ cString (f.take 4 ++ [0]) = header k false ∧ c.de (f.drop 4) 0 = some (x, n)) :
    loadFile z k c (some f) = .ok x := by
  obtain ⟨h1, h2, h3⟩ := h
  unfold loadFile
  dsimp only
  rw [if_pos h1, h2, if_neg (header_z_ne_r k), if_pos rfl, h3]
  rfl

/-- C13, negative part: a default constructed component map, saved to a file, is loaded without any exception as an
occupancy map (CRU base format). -/
theorem C13_component_map_file_accepted (z : Zlib) :
    loadFile z .occ (plainMap (cruDense OccCell) occCell) (some (saveFile z .occComp (compMap (cruDense OccCompCell) occCompCell)
      ⟨emptyBase ⟨zeros 4, zeros 4⟩, zeros 4, [], false⟩ false)) = .ok ⟨emptyBase ⟨zeros 4⟩, []⟩ := by
  have hs : ∀ x, saveFile z .occComp (compMap (cruDense OccCompCell) occCompCell) x false =
      header .occComp false ++ (compMap (cruDense OccCompCell) occCompCell).ser x := fun _ => rfl
  rw [hs]
  refine loadFile_raw (n := 201) ?_
  decide +kernel

/-- The sizes of a grid with cells of size 1.0: three doubles 1.0 and three counts of 3. -/
def exSizes : Raw 48 := ⟨[0, 0, 0, 0, 0, 0, 0xf0, 0x3f, 0, 0, 0, 0, 0, 0, 0xf0, 0x3f, 0, 0, 0, 0, 0, 0, 0xf0, 0x3f,
  3, 0, 0, 0, 0, 0, 0, 0, 3, 0, 0, 0, 0, 0, 0, 0, 3, 0, 0, 0, 0, 0, 0, 0], rfl⟩

/-- A 3×3×3 component map of free cells in the frame "A". -/
def exCompMap : CompMap (GridBase OccCompCell) :=
  ⟨⟨true, zeros 128, List.replicate 27 ⟨zeros 4, zeros 4⟩, exSizes, ⟨zeros 4, zeros 4⟩, ⟨zeros 4, zeros 4⟩⟩, zeros 4, [65], false⟩

/-- C13, negative part: a file with a 3×3×3 component map of free cells is loaded as an occupancy map without any
exception; the result has the wrong cell sizes, counts and frame (read from cell bytes). -/
theorem C13_component_map_file_misread (z : Zlib) : ∃ m : PlainMap (GridBase OccCell),
    loadFile z .occ (plainMap (cruDense OccCell) occCell)
      (some (saveFile z .occComp (compMap (cruDense OccCompCell) occCompCell) exCompMap false)) = .ok m ∧
    m.frame ≠ exCompMap.frame ∧ m.base.sizes ≠ exCompMap.base.sizes := by
  have hs : ∀ x, saveFile z .occComp (compMap (cruDense OccCompCell) occCompCell) x false =
      header .occComp false ++ (compMap (cruDense OccCompCell) occCompCell).ser x := fun _ => rfl
  refine ⟨⟨⟨true, zeros 128, List.replicate 27 ⟨zeros 4⟩, zeros 48, ⟨zeros 4⟩, ⟨zeros 4⟩⟩, []⟩, ?_, by decide +kernel, by decide +kernel⟩
  rw [hs]
  refine loadFile_raw (n := 309) ?_
  decide +kernel

/-- A default constructed field of scalars with `n` bytes; `val` plays no role (it is not locked). -/
def scalarBase (n : ℕ) : SDFBase (GridBase (Raw n)) (Raw n) := ⟨GridBase.data, fun b l => { b with data := l }, fun _ => .fin 0⟩

/-- C13, negative part: a file with a default constructed field of doubles is loaded as a field of floats. -/
theorem C13_double_sdf_file_accepted (z : Zlib) :
    loadFile z .sdfFloat (sdf (scalarBase 4) (cruDense (Raw 4)) (raw 4) (emptyBase (zeros 4)) (zeros 4))
      (some (saveFile z .sdfDouble (sdf (scalarBase 8) (cruDense (Raw 8)) (raw 8) (emptyBase (zeros 8)) (zeros 8))
        (.fresh (emptyBase (zeros 8)) (zeros 8)) false)) = .ok (.fresh (emptyBase (zeros 4)) (zeros 4)) := by
  have hs : ∀ x, saveFile z .sdfDouble (sdf (scalarBase 8) (cruDense (Raw 8)) (raw 8) (emptyBase (zeros 8)) (zeros 8)) x false =
      header .sdfDouble false ++ (sdf (scalarBase 8) (cruDense (Raw 8)) (raw 8) (emptyBase (zeros 8)) (zeros 8)).ser x := fun _ => rfl
  rw [hs]
  refine loadFile_raw (n := 202) ?_
  decide +kernel

/-- The hypotheses of the round trip theorems hold for the map above. -/
example : BaseRoundTrips (cruDense OccCompCell) exCompMap.base ∧ (cruDense OccCompCell).uniform exCompMap.base = true ∧
    exCompMap.frame.length < 2 ^ 64 :=
  ⟨C12_dense_base_round_trip _ (by decide), by decide +kernel, by decide⟩

example : LawfulZlib ⟨fun b => 1 :: b, fun b => b.tail⟩ := fun _ => rfl

example : ¬ SharesHeader .occ .tagComp ∧ ¬ SharesHeader .dsh .sdfFloat := ⟨by simp [SharesHeader], by simp [SharesHeader]⟩

/-! ### Messages -/

section Messages
variable {α : Type}

/-- C14: a map message loads back as the map, and carries its frame. -/
theorem C14_map_message_round_trip {z : Zlib} (hz : LawfulZlib z) {c : Codec α} {x : α} (hc : RoundTrips c x) (frame : α → Bytes) :
    loadMapMessage z c (mapMessage z c frame x) = some x ∧ (mapMessage z c frame x).frameId = frame x := by
  have hde : c.de (c.ser x) 0 = some (x, (c.ser x).length) := by simpa using hc [] []
  refine ⟨?_, rfl⟩
  unfold loadMapMessage mapMessage
  simp only [if_true]
  rw [hz, Option.bind_some, hde]
  rfl

/-- C14: an uncompressed map message is read as well. -/
theorem C14_uncompressed_map_message {z : Zlib} {c : Codec α} {x : α} (hc : RoundTrips c x) (f : Bytes) :
    loadMapMessage z c ⟨f, c.ser x, false⟩ = some x := by
  have hde : c.de (c.ser x) 0 = some (x, (c.ser x).length) := by simpa using hc [] []
  unfold loadMapMessage
  simp only [Bool.false_eq_true, if_false]
  rw [hde]; rfl

/-- C14: a field message loads back as what `Deserialize` makes of the field's bytes (the same field by C11), and carries
its frame and scalar type. -/
theorem C14_sdf_message_round_trip {z : Zlib} (hz : LawfulZlib z) {c : Codec α} {x x' : α} {n : ℕ}
    (hc : c.de (c.ser x) 0 = some (x', n)) (frame : α → Bytes) (t : Scalar) :
    loadSDFMessage z c t (sdfMessage z c frame t x) = some x' ∧ (sdfMessage z c frame t x).frameId = frame x ∧
      (sdfMessage z c frame t x).scalarType = t.code := by
  refine ⟨?_, rfl, rfl⟩
  unfold loadSDFMessage sdfMessage
  simp only [if_true]
  rw [hz, Option.bind_some, hc]
  simp

/-- C14: a message made from a field of doubles is rejected when floats are requested, and the other way round. -/
theorem C14_other_scalar_rejected {β : Type} {z : Zlib} {c : Codec α} {c' : Codec β} (frame : β → Bytes) (x : β) {t t' : Scalar} (h : t' ≠ t) :
    loadSDFMessage z c t (sdfMessage z c' frame t' x) = none := by
  unfold loadSDFMessage sdfMessage
  cases t <;> cases t' <;> simp [Scalar.code] at *

/-- C14, partial: a compressed message with a scalar type other than the requested one is rejected, whatever its content.
Missing: uncompressed messages (false, see `C14_uncompressed_scalar_type_ignored`). -/
theorem C14_wrong_scalar_rejected_partial {z : Zlib} {c : Codec α} {t : Scalar} {m : SDFMessage} (hm : m.isCompressed = true)
    (h : m.scalarType ≠ t.code) : loadSDFMessage z c t m = none := by
  unfold loadSDFMessage
  rw [if_pos hm, if_pos h]

end Messages

/-- C14, negative part: in an uncompressed message the scalar type is not looked at; a field of doubles (default
constructed, marked as double) is loaded as a field of floats. -/
theorem C14_uncompressed_scalar_type_ignored (z : Zlib) :
    loadSDFMessage z (sdf (scalarBase 4) (cruDense (Raw 4)) (raw 4) (emptyBase (zeros 4)) (zeros 4)) .float
      ⟨[], (sdf (scalarBase 8) (cruDense (Raw 8)) (raw 8) (emptyBase (zeros 8)) (zeros 8)).ser
        (.fresh (emptyBase (zeros 8)) (zeros 8)), Scalar.double.code, false⟩ = some (.fresh (emptyBase (zeros 4)) (zeros 4)) := by
  have h : ∀ (b : Bytes), ((sdf (scalarBase 4) (cruDense (Raw 4)) (raw 4) (emptyBase (zeros 4)) (zeros 4)).de b 0).map (·.1) =
        some (.fresh (emptyBase (zeros 4)) (zeros 4)) →
      loadSDFMessage z (sdf (scalarBase 4) (cruDense (Raw 4)) (raw 4) (emptyBase (zeros 4)) (zeros 4)) .float
        ⟨[], b, Scalar.double.code, false⟩ = some (.fresh (emptyBase (zeros 4)) (zeros 4)) := fun b hb => by
    unfold loadSDFMessage
    simp only [Bool.false_eq_true, if_false]
    exact hb
  refine h _ ?_
  decide +kernel

end VGT
