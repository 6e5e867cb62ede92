import Verif.Model.Topology
import Verif.Spec.Topology
import Mathlib.Data.List.Nodup
import Mathlib.Data.List.Perm.Subperm

set_option autoImplicit false

namespace VGT
open VGT.EDT VGT.Spec

/-! ### The search over surface vertices -/

section
variable (verts : List ZIdx) (conn : ZIdx → Conn)

/-- One step of the search. -/
def VStep (v w : ZIdx) : Prop := v ∈ verts ∧ w ∈ connected (conn v) v

/-- Reachability. -/
def VReach : ZIdx → ZIdx → Prop := Relation.ReflTransGen (VStep verts conn)

variable {verts conn}

theorem foldl_push (l : List ZIdx) : ∀ (q s : List ZIdx), s.Nodup → ∃ e, l.foldl pushVertex { queue := q, queued := s } =
    { queue := q ++ e, queued := s ++ e } ∧ (s ++ e).Nodup ∧ (∀ v ∈ e, v ∈ l) ∧ ∀ v ∈ l, v ∈ s ++ e := by
  induction l with
  | nil => intro q s hs; exact ⟨[], by simp, by simpa using hs, by simp, by simp⟩
  | cons a t ih =>
    intro q s hs
    rw [List.foldl_cons]
    by_cases h : a ∈ s
    · obtain ⟨e, h1, h2, h3, h4⟩ := ih q s hs
      refine ⟨e, ?_, h2, fun v hv => by simp [h3 v hv], ?_⟩
      · rw [← h1]
        simp [pushVertex, h]
      · intro v hv
        rcases List.mem_cons.1 hv with rfl | hv
        · simp [h]
        · exact h4 v hv
    · have hs' : (s ++ [a]).Nodup := by
        rw [List.nodup_append]
        exact ⟨hs, by simp, by intro x hx y hy e; rw [List.mem_singleton] at hy; exact h (by rw [← hy, ← e]; exact hx)⟩
      obtain ⟨e, h1, h2, h3, h4⟩ := ih (q ++ [a]) (s ++ [a]) hs'
      refine ⟨a :: e, ?_, by simpa using h2, ?_, ?_⟩
      · have : pushVertex { queue := q, queued := s } a = { queue := q ++ [a], queued := s ++ [a] } := by
          simp [pushVertex, h]
        rw [this, h1]
        simp
      · intro v hv
        rcases List.mem_cons.1 hv with rfl | hv
        · simp
        · simp [h3 v hv]
      · intro v hv
        rcases List.mem_cons.1 hv with rfl | hv
        · simp
        · have := h4 v hv
          simpa using this

theorem vertexLoop_spec (label : ℕ) (start : ZIdx) :
    ∀ (fuel : ℕ) (marks : ZIdx → ℕ) (done queue : List ZIdx) (n : ℕ),
      (done ++ queue).Nodup → (∀ v ∈ done, v ∈ verts) → (∀ v ∈ done, ∀ w ∈ connected (conn v) v, w ∈ done ++ queue) →
      (∀ v ∈ done ++ queue, VReach verts conn start v) → start ∈ done ++ queue → (∀ v ∈ done, marks v = label) →
      verts.length + 1 ≤ fuel + done.length → n = done.length →
      (∃ R : List ZIdx, R.Nodup ∧ (∀ v ∈ R, v ∈ verts) ∧ (∀ v, v ∈ R ↔ VReach verts conn start v) ∧
        vertexLoop verts conn label fuel marks { queue := queue, queued := done ++ queue } n =
          .done (fun w => if w ∈ R then label else marks w, R.length)) ∨
      ((∃ w, VReach verts conn start w ∧ w ∉ verts) ∧
        vertexLoop verts conn label fuel marks { queue := queue, queued := done ++ queue } n = .outOfRange) := by
  intro fuel
  induction fuel with
  | zero =>
    intro marks done queue n hnd hv _ _ _ _ hf _
    exfalso
    have : done.Nodup := (List.nodup_append.1 hnd).1
    have := (this.subperm fun v hv' => hv v hv').length_le
    omega
  | succ fuel ih =>
    intro marks done queue n hnd hv hcl hre hst hm hf hn
    cases queue with
    | nil =>
      left
      simp only [List.append_nil] at hnd hcl hre hst ⊢
      refine ⟨done, hnd, hv, fun v => ⟨hre v, ?_⟩, ?_⟩
      · intro h
        induction h with
        | refl => exact hst
        | tail _ hs ih' => exact hcl _ ih' _ hs.2
      · rw [vertexLoop]
        simp only [hn]
        congr 2
        funext w
        by_cases h : w ∈ done
        · rw [if_pos h, hm w h]
        · rw [if_neg h]
    | cons v rest =>
      rw [vertexLoop]
      dsimp only
      unfold atVertex
      by_cases hmem : v ∈ verts
      · rw [if_pos hmem]
        dsimp only
        obtain ⟨e, h1, h2, h3, h4⟩ := foldl_push (connected (conn v) v) rest (done ++ v :: rest) hnd
        rw [h1]
        have hassoc : done ++ v :: rest ++ e = (done ++ [v]) ++ (rest ++ e) := by simp
        rw [hassoc] at h2 ⊢
        have key := ih (fun w => if w = v then label else marks w) (done ++ [v]) (rest ++ e) (n + 1) h2 ?_ ?_ ?_ ?_ ?_ ?_ ?_
        · rcases key with ⟨R, r1, r2, r3, r4⟩ | ⟨r1, r2⟩
          · left
            refine ⟨R, r1, r2, r3, ?_⟩
            rw [r4]
            congr 2
            funext w
            by_cases hw : w ∈ R
            · rw [if_pos hw, if_pos hw]
            · rw [if_neg hw, if_neg hw, if_neg]
              rintro rfl
              exact hw ((r3 _).2 (hre _ (by simp)))
          · exact Or.inr ⟨r1, r2⟩
        · intro w hw
          rcases List.mem_append.1 hw with hw | hw
          · exact hv w hw
          · rw [List.mem_singleton] at hw; rw [hw]; exact hmem
        · intro w hw u hu
          rw [← hassoc]
          rcases List.mem_append.1 hw with hw | hw
          · exact List.mem_append_left _ (hcl w hw u hu)
          · rw [List.mem_singleton] at hw
            subst hw
            exact h4 u hu
        · intro w hw
          rw [← hassoc] at hw
          rcases List.mem_append.1 hw with hw | hw
          · exact hre w hw
          · exact (hre v (by simp)).tail ⟨hmem, h3 w hw⟩
        · rw [← hassoc]
          exact List.mem_append_left _ hst
        · intro w hw
          by_cases e' : w = v
          · rw [if_pos e']
          · rw [if_neg e']
            rcases List.mem_append.1 hw with hw | hw
            · exact hm w hw
            · exact absurd (List.mem_singleton.1 hw) e'
        · rw [List.length_append, List.length_singleton]; omega
        · rw [List.length_append, List.length_singleton]; omega
      · rw [if_neg hmem]
        exact Or.inr ⟨⟨v, hre v (by simp), hmem⟩, rfl⟩

/-- The search from one unmarked vertex. -/
theorem vertexLoop_start (label : ℕ) (start : ZIdx) (marks : ZIdx → ℕ) :
    (∃ R : List ZIdx, R.Nodup ∧ (∀ v ∈ R, v ∈ verts) ∧ (∀ v, v ∈ R ↔ VReach verts conn start v) ∧
      vertexLoop verts conn label (verts.length + 1) marks { queue := [start], queued := [start] } 0 =
        .done (fun w => if w ∈ R then label else marks w, R.length)) ∨
    ((∃ w, VReach verts conn start w ∧ w ∉ verts) ∧
      vertexLoop verts conn label (verts.length + 1) marks { queue := [start], queued := [start] } 0 = .outOfRange) := by
  have := vertexLoop_spec (verts := verts) (conn := conn) label start (verts.length + 1) marks [] [start] 0 (by simp) (by simp)
    (by simp) (by simp only [List.nil_append, List.mem_singleton]; rintro v rfl; exact .refl) (by simp) (by simp) (by simp) rfl
  simpa using this

/-- What holds between two iterations of the loop over the vertices; `P` is the list of marked vertices. -/
structure SweepOk (verts : List ZIdx) (conn : ZIdx → Conn) (marks : ZIdx → ℕ) (n : ℕ) (P : List ZIdx) : Prop where
  nodup : P.Nodup
  sub : ∀ v ∈ P, v ∈ verts
  unmarked : ∀ v, v ∉ P → marks v = 0
  range : ∀ v ∈ P, 1 ≤ marks v ∧ marks v ≤ n
  onto : ∀ l, 1 ≤ l → l ≤ n → ∃ v ∈ P, marks v = l
  same : ∀ v ∈ P, ∀ w ∈ P, (marks v = marks w ↔ VReach verts conn v w)
  closed : ∀ v ∈ P, ∀ w, VStep verts conn v w → w ∈ P

theorem SweepOk.reach {marks : ZIdx → ℕ} {n : ℕ} {P : List ZIdx} (h : SweepOk verts conn marks n P) {v w : ZIdx} (hv : v ∈ P)
    (hr : VReach verts conn v w) : w ∈ P := by
  induction hr with
  | refl => exact hv
  | tail _ hs ih => exact h.closed _ ih _ hs

theorem VReach.symm' (hsym : ∀ v w, w ∈ connected (conn v) v → v ∈ connected (conn w) w) {v w : ZIdx}
    (hr : VReach verts conn v w) (hall : ∀ u, VReach verts conn v u → u ∈ verts) : VReach verts conn w v := by
  induction hr with
  | refl => exact .refl
  | @tail b c hvb hs ih =>
    exact Relation.ReflTransGen.head ⟨hall c (Relation.ReflTransGen.tail hvb hs), hsym _ _ hs.2⟩ ih

theorem vertexSweep_spec (hnd : verts.Nodup) (hsym : ∀ v w, w ∈ connected (conn v) v → v ∈ connected (conn w) w) :
    ∀ (l : List ZIdx) (marks : ZIdx → ℕ) (n : ℕ) (P : List ZIdx), SweepOk verts conn marks n P →
      (∀ v ∈ l, v ∈ verts) → (∀ v ∈ verts, v ∈ P ∨ v ∈ l) →
      (∃ n' marks' P', vertexSweep verts conn l marks n P.length = .done n' ∧ SweepOk verts conn marks' n' P' ∧
        ∀ v ∈ verts, v ∈ P') ∨
      (vertexSweep verts conn l marks n P.length = .outOfRange ∧ ∃ v ∈ verts, ∃ w, VReach verts conn v w ∧ w ∉ verts) := by
  intro l
  induction l with
  | nil =>
    intro marks n P hok _ hcov
    exact Or.inl ⟨n, marks, P, rfl, hok, fun v hv => (hcov v hv).resolve_right (by simp)⟩
  | cons v vs ih =>
    intro marks n P hok hl hcov
    have hv : v ∈ verts := hl v (by simp)
    have hl' : ∀ w ∈ vs, w ∈ verts := fun w hw => hl w (by simp [hw])
    rw [vertexSweep]
    by_cases hmk : marks v > 0
    · rw [if_pos hmk]
      apply ih marks n P hok hl'
      intro w hw
      rcases hcov w hw with h | h
      · exact Or.inl h
      · rcases List.mem_cons.1 h with rfl | h
        · left
          by_contra hn
          rw [hok.unmarked _ hn] at hmk
          omega
        · exact Or.inr h
    · rw [if_neg hmk]
      have hvP : v ∉ P := fun h => by have := (hok.range v h).1; omega
      rcases vertexLoop_start (verts := verts) (conn := conn) (n + 1) v marks with ⟨R, r1, r2, r3, r4⟩ | ⟨⟨w, hw, hnw⟩, r4⟩
      · rw [r4]
        dsimp only [Run.bind]
        have hall : ∀ u, VReach verts conn v u → u ∈ verts := fun u hu => r2 u ((r3 u).2 hu)
        have hvR : v ∈ R := (r3 v).2 .refl
        have hsymR : ∀ a, VReach verts conn v a → ∀ b, VReach verts conn v b → VReach verts conn a b :=
          fun a ha b hb => (VReach.symm' hsym ha hall).trans hb
        have hdisj : ∀ u ∈ R, u ∉ P := by
          intro u hu hP
          exact hvP (hok.reach hP (VReach.symm' hsym ((r3 u).1 hu) hall))
        have hok' : SweepOk verts conn (fun w => if w ∈ R then n + 1 else marks w) (n + 1) (P ++ R) := by
          refine ⟨?_, ?_, ?_, ?_, ?_, ?_, ?_⟩
          · rw [List.nodup_append]
            exact ⟨hok.nodup, r1, fun a ha b hb e => hdisj b hb (e ▸ ha)⟩
          · intro w hw
            rcases List.mem_append.1 hw with hw | hw
            · exact hok.sub w hw
            · exact r2 w hw
          · intro w hw
            rw [List.mem_append, not_or] at hw
            rw [if_neg hw.2, hok.unmarked w hw.1]
          · intro w hw
            by_cases hR : w ∈ R
            · rw [if_pos hR]; omega
            · rw [if_neg hR]
              have := hok.range w ((List.mem_append.1 hw).resolve_right hR)
              omega
          · intro l h1 h2
            by_cases hl : l = n + 1
            · exact ⟨v, List.mem_append_right _ hvR, by rw [if_pos hvR, hl]⟩
            · obtain ⟨w, hw, e⟩ := hok.onto l h1 (by omega)
              exact ⟨w, List.mem_append_left _ hw, by rw [if_neg (fun h => hdisj w h hw), e]⟩
          · intro a ha b hb
            by_cases hRa : a ∈ R <;> by_cases hRb : b ∈ R
            · rw [if_pos hRa, if_pos hRb]
              exact ⟨fun _ => hsymR a ((r3 a).1 hRa) b ((r3 b).1 hRb), fun _ => rfl⟩
            · have hPb := (List.mem_append.1 hb).resolve_right hRb
              rw [if_pos hRa, if_neg hRb]
              have := hok.range b hPb
              refine ⟨fun h => by omega, fun h => ?_⟩
              exact absurd ((r3 b).2 (Relation.ReflTransGen.trans ((r3 a).1 hRa) h)) hRb
            · have hPa := (List.mem_append.1 ha).resolve_right hRa
              rw [if_neg hRa, if_pos hRb]
              have := hok.range a hPa
              refine ⟨fun h => by omega, fun h => ?_⟩
              exact absurd (hok.reach hPa h) (hdisj b hRb)
            · rw [if_neg hRa, if_neg hRb]
              exact hok.same a ((List.mem_append.1 ha).resolve_right hRa) b ((List.mem_append.1 hb).resolve_right hRb)
          · intro a ha b hs
            rcases List.mem_append.1 ha with ha | ha
            · exact List.mem_append_left _ (hok.closed a ha b hs)
            · exact List.mem_append_right _ ((r3 b).2 (((r3 a).1 ha).tail hs))
        have hlen : P.length + R.length = (P ++ R).length := by rw [List.length_append]
        by_cases hfull : P.length + R.length = verts.length
        · rw [if_pos hfull]
          refine Or.inl ⟨n + 1, _, P ++ R, rfl, hok', ?_⟩
          have hsp := hok'.nodup.subperm fun w hw => hok'.sub w hw
          have := hsp.perm_of_length_le (by omega)
          intro w hw
          exact this.symm.subset hw
        · rw [if_neg hfull, hlen]
          apply ih _ _ _ hok' hl'
          intro w hw
          rcases hcov w hw with h | h
          · exact Or.inl (List.mem_append_left _ h)
          · rcases List.mem_cons.1 h with rfl | h
            · exact Or.inl (List.mem_append_right _ hvR)
            · exact Or.inr h
      · rw [r4]
        exact Or.inr ⟨rfl, v, hv, w, hw, hnw⟩

/-- The count of connected surfaces: with every neighbour present it is the number of classes of joined vertices. -/
theorem surfaceCount_closed {order : List ZIdx → List ZIdx} (hord : ∀ l, (order l).Perm l) (hnd : verts.Nodup)
    (hsym : ∀ v w, w ∈ connected (conn v) v → v ∈ connected (conn w) w)
    (hcl : ∀ v ∈ verts, ∀ w ∈ connected (conn v) v, w ∈ verts) :
    ∃ n, surfaceCount order verts conn = .done n ∧ IsClassCount (· ∈ verts) (VReach verts conn) n := by
  have h0 : SweepOk verts conn (fun _ => 0) 0 [] :=
    ⟨by simp, by simp, fun _ _ => rfl, by simp, fun l h1 h2 => by omega, by simp, by simp⟩
  rcases vertexSweep_spec hnd hsym (order verts) (fun _ => 0) 0 [] h0 (fun v hv => (hord verts).subset hv)
    (fun v hv => Or.inr ((hord verts).symm.subset hv)) with ⟨n, marks, P, h1, h2, h3⟩ | ⟨-, v, hv, w, hw, hn⟩
  · refine ⟨n, h1, marks, fun v hv => h2.range v (h3 v hv), fun l a b => ?_, fun v w hv hw => h2.same v (h3 v hv) w (h3 w hw)⟩
    obtain ⟨v, hv, e⟩ := h2.onto l a b
    exact ⟨v, h2.sub v hv, e⟩
  · exfalso
    apply hn
    clear hn
    induction hw with
    | refl => exact hv
    | tail _ hs ih => exact hcl _ hs.1 _ hs.2

/-- With a neighbour missing the lookup throws, whatever the order. -/
theorem surfaceCount_missing {order : List ZIdx → List ZIdx} (hord : ∀ l, (order l).Perm l) (hnd : verts.Nodup)
    (hsym : ∀ v w, w ∈ connected (conn v) v → v ∈ connected (conn w) w)
    (hcl : ∃ v ∈ verts, ∃ w ∈ connected (conn v) v, w ∉ verts) : surfaceCount order verts conn = .outOfRange := by
  have h0 : SweepOk verts conn (fun _ => 0) 0 [] :=
    ⟨by simp, by simp, fun _ _ => rfl, by simp, fun l h1 h2 => by omega, by simp, by simp⟩
  rcases vertexSweep_spec hnd hsym (order verts) (fun _ => 0) 0 [] h0 (fun v hv => (hord verts).subset hv)
    (fun v hv => Or.inr ((hord verts).symm.subset hv)) with ⟨n, marks, P, h1, h2, h3⟩ | ⟨h, -⟩
  · obtain ⟨v, hv, w, hw, hn⟩ := hcl
    exact absurd (h2.sub w (h2.closed v (h3 v hv) w ⟨hv, hw⟩)) hn
  · exact h

end
end VGT
