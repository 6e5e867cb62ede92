import Verif.Model.Par

set_option autoImplicit false
set_option linter.unusedSectionVars false

namespace VGT.Par
open Prog

variable {I V : Type} [DecidableEq I]

/-- All reads and writes of the program lie in `F`. -/
def Prog.InFoot (F : I → Prop) : Prog I V → Prop
  | .done => True
  | .read i k => F i ∧ ∀ v, InFoot F (k v)
  | .write i _ k => F i ∧ InFoot F k
  | .ub => True

theorem Prog.InFoot.mono {F G : I → Prop} (h : ∀ i, F i → G i) :
    ∀ {p : Prog I V}, p.InFoot F → p.InFoot G
  | .done, _ => trivial
  | .read _ _, hp => ⟨h _ hp.1, fun v => (hp.2 v).mono h⟩
  | .write _ _ _, hp => ⟨h _ hp.1, hp.2.mono h⟩
  | .ub, _ => trivial

theorem Prog.InFoot.andThen {F : I → Prop} {q : Prog I V} (hq : q.InFoot F) :
    ∀ {p : Prog I V}, p.InFoot F → (p.andThen q).InFoot F
  | .done, _ => hq
  | .read _ _, hp => ⟨hp.1, fun v => hq.andThen (hp.2 v)⟩
  | .write _ _ _, hp => ⟨hp.1, hq.andThen hp.2⟩
  | .ub, _ => trivial

theorem run_andThen (q : Prog I V) : ∀ (p : Prog I V) (m : I → V),
    (p.andThen q).run m = (p.run m).bind q.run
  | .done, m => rfl
  | .read i k, m => run_andThen q (k (m i)) m
  | .write i v k, m => run_andThen q k (Prog.set m i v)
  | .ub, m => rfl

/-- Two outcomes agree on `F`. -/
def ResEq (F : I → Prop) : Option (I → V) → Option (I → V) → Prop
  | none, none => True
  | some a, some b => ∀ i, F i → a i = b i
  | _, _ => False

theorem ResEq.refl {F : I → Prop} (a : Option (I → V)) : ResEq F a a := by
  cases a <;> simp [ResEq]

theorem ResEq.trans {F : I → Prop} {a b c : Option (I → V)} (h1 : ResEq F a b) (h2 : ResEq F b c) :
    ResEq F a c := by
  cases a <;> cases b <;> cases c <;> simp_all [ResEq]

theorem run_congr {F : I → Prop} : ∀ {p : Prog I V} {m1 m2 : I → V}, p.InFoot F →
    (∀ i, F i → m1 i = m2 i) → ResEq F (p.run m1) (p.run m2)
  | .done, _, _, _, h => h
  | .read i k, m1, m2, hp, h => by
    simp only [run]
    rw [h i hp.1]
    exact run_congr (hp.2 _) h
  | .write i v k, m1, m2, hp, h => by
    simp only [run]
    refine run_congr hp.2 ?_
    intro j hj
    simp only [Prog.set]
    split
    · rfl
    · exact h j hj
  | .ub, _, _, _, _ => trivial

theorem run_frame {F : I → Prop} : ∀ {p : Prog I V} {m m' : I → V}, p.InFoot F →
    p.run m = some m' → ∀ i, ¬ F i → m' i = m i
  | .done, m, m', _, h, i, _ => by simp [run] at h; rw [h]
  | .read j k, m, m', hp, h, i, hi => run_frame (p := k (m j)) (hp.2 _) h i hi
  | .write j v k, m, m', hp, h, i, hi => by
    rw [run_frame (p := k) hp.2 h i hi]
    simp only [Prog.set]
    rw [if_neg]
    rintro rfl
    exact hi hp.1
  | .ub, _, _, _, h, _, _ => by simp [run] at h

/-- Invariant of an interleaved run of threads with pairwise disjoint footprints. -/
structure IInv (F : Nat → I → Prop) (threads : List (Prog I V)) (m : I → V) (s : PState I V) : Prop where
  len : s.threads.length = threads.length
  foot : ∀ (t : Nat) (p : Prog I V), s.threads[t]? = some p → p.InFoot (F t)
  res : ∀ (t : Nat) (p p0 : Prog I V), s.threads[t]? = some p → threads[t]? = some p0 → ResEq (F t) (p.run s.mem) (p0.run m)
  frame : ∀ i, (∀ t, t < threads.length → ¬ F t i) → s.mem i = m i

theorem iinv_step {F : Nat → I → Prop} (hdis : ∀ t t' i, t ≠ t' → F t i → ¬ F t' i)
    {threads : List (Prog I V)} {m : I → V} {s : PState I V} (h : IInv F threads m s) (t : Nat) :
    IInv F threads m (schedStep s t) := by
  unfold schedStep
  cases ht : s.threads[t]? with
  | none => simpa using h
  | some p =>
    simp only
    have hf := h.foot t p ht
    have htl : t < s.threads.length := by
      rw [List.getElem?_eq_some_iff] at ht; exact ht.1
    cases p with
    | done => simpa [step1] using h
    | ub => simpa [step1] using h
    | read i k =>
      simp only [step1]
      refine ⟨by simpa using h.len, ?_, ?_, h.frame⟩
      · intro t' p' hp'
        simp only [List.getElem?_set] at hp'
        by_cases htt : t = t'
        · subst htt
          simp [htl] at hp'
          rw [← hp']; exact hf.2 _
        · rw [if_neg htt] at hp'
          exact h.foot t' p' hp'
      · intro t' p' p0 hp' hp0
        simp only [List.getElem?_set] at hp'
        by_cases htt : t = t'
        · subst htt
          simp [htl] at hp'
          rw [← hp']
          exact (show ResEq (F t) _ _ from h.res t (Prog.read i k) p0 ht hp0)
        · rw [if_neg htt] at hp'
          exact h.res t' p' p0 hp' hp0
    | write i v k =>
      simp only [step1]
      refine ⟨by simpa using h.len, ?_, ?_, ?_⟩
      · intro t' p' hp'
        simp only [List.getElem?_set] at hp'
        by_cases htt : t = t'
        · subst htt
          simp [htl] at hp'
          rw [← hp']; exact hf.2
        · rw [if_neg htt] at hp'
          exact h.foot t' p' hp'
      · intro t' p' p0 hp' hp0
        simp only [List.getElem?_set] at hp'
        by_cases htt : t = t'
        · subst htt
          simp [htl] at hp'
          rw [← hp']
          exact (show ResEq (F t) _ _ from h.res t (Prog.write i v k) p0 ht hp0)
        · rw [if_neg htt] at hp'
          refine ResEq.trans ?_ (h.res t' p' p0 hp' hp0)
          apply run_congr (h.foot t' p' hp')
          intro j hj
          simp only [Prog.set]
          rw [if_neg]
          rintro rfl
          exact hdis t t' j htt hf.1 hj
      · intro j hj
        simp only [Prog.set]
        rw [if_neg, h.frame j hj]
        rintro rfl
        exact hj t (by rw [← h.len]; exact htl) hf.1

theorem iinv_run {F : Nat → I → Prop} (hdis : ∀ t t' i, t ≠ t' → F t i → ¬ F t' i)
    {threads : List (Prog I V)} {m : I → V} :
    ∀ (sched : List Nat) {s : PState I V}, IInv F threads m s → IInv F threads m (runSched s sched)
  | [], _, h => h
  | t :: ts, _, h => iinv_run hdis ts (iinv_step hdis h t)

theorem iinv_init {F : Nat → I → Prop} {threads : List (Prog I V)} {m : I → V}
    (hfoot : ∀ (t : Nat) (p : Prog I V), threads[t]? = some p → p.InFoot (F t)) :
    IInv F threads m { threads := threads, mem := m } where
  len := rfl
  foot := hfoot
  res := by
    intro t p p0 h1 h2
    simp only at h1
    rw [h1] at h2
    cases h2
    exact ResEq.refl _
  frame := fun _ _ => rfl

/-- Every interleaving of threads with disjoint footprints leaves on each footprint exactly what the
thread alone would have left. -/
theorem interleave {F : Nat → I → Prop} (hdis : ∀ t t' i, t ≠ t' → F t i → ¬ F t' i)
    {threads : List (Prog I V)} {m : I → V}
    (hfoot : ∀ (t : Nat) (p : Prog I V), threads[t]? = some p → p.InFoot (F t)) (sched : List Nat)
    (hfin : finished (runSched { threads := threads, mem := m } sched)) :
    (∀ (t : Nat) (p : Prog I V), threads[t]? = some p → ∃ m', p.run m = some m' ∧
      ∀ i, F t i → (runSched { threads := threads, mem := m } sched).mem i = m' i) ∧
    (∀ i, (∀ t, t < threads.length → ¬ F t i) →
      (runSched { threads := threads, mem := m } sched).mem i = m i) := by
  have h := iinv_run hdis sched (iinv_init (m := m) hfoot)
  refine ⟨?_, h.frame⟩
  intro t p hp
  have htl : t < (runSched { threads := threads, mem := m } sched).threads.length := by
    rw [h.len]
    rw [List.getElem?_eq_some_iff] at hp; exact hp.1
  have hr := h.res t _ p (List.getElem?_eq_getElem htl) hp
  rw [hfin _ (List.getElem_mem htl)] at hr
  simp only [run] at hr
  cases hpr : p.run m with
  | none => rw [hpr] at hr; exact hr.elim
  | some m' => rw [hpr] at hr; exact ⟨m', rfl, hr⟩

/-- Number of micro-steps left when the program runs alone on `m`. -/
def Prog.cost : Prog I V → (I → V) → Nat
  | .done, _ => 0
  | .read i k, m => cost (k (m i)) m + 1
  | .write i v k, m => cost k (Prog.set m i v) + 1
  | .ub, _ => 0

/-- Repeatedly scheduling one thread runs it to completion. -/
theorem run_one {F : Nat → I → Prop} : ∀ (p : Prog I V) (s : PState I V) (t : Nat) (m' : I → V),
    s.threads[t]? = some p → p.run s.mem = some m' →
    ∃ k, runSched s (List.replicate k t) = { threads := s.threads.set t .done, mem := m' }
  | .done, s, t, m', ht, hr => by
    refine ⟨0, ?_⟩
    simp [run] at hr
    have : s.threads.set t .done = s.threads := by
      obtain ⟨h1, h2⟩ := List.getElem?_eq_some_iff.1 ht
      rw [← h2, List.set_getElem_self]
    simp [runSched, this, ← hr]
  | .ub, s, t, m', ht, hr => by simp [run] at hr
  | .read i k, s, t, m', ht, hr => by
    have htl : t < s.threads.length := (List.getElem?_eq_some_iff.1 ht).1
    obtain ⟨n, hn⟩ := run_one (F := F) (k (s.mem i))
      { threads := s.threads.set t (k (s.mem i)), mem := s.mem } t m'
      (by simp [htl]) hr
    refine ⟨n + 1, ?_⟩
    simp only [List.replicate_succ, runSched, List.foldl_cons]
    have : schedStep s t = { threads := s.threads.set t (k (s.mem i)), mem := s.mem } := by
      simp [schedStep, ht, step1]
    rw [this]
    simp only [runSched, List.set_set] at hn
    exact hn
  | .write i v k, s, t, m', ht, hr => by
    have htl : t < s.threads.length := (List.getElem?_eq_some_iff.1 ht).1
    obtain ⟨n, hn⟩ := run_one (F := F) k
      { threads := s.threads.set t k, mem := Prog.set s.mem i v } t m'
      (by simp [htl]) hr
    refine ⟨n + 1, ?_⟩
    simp only [List.replicate_succ, runSched, List.foldl_cons]
    have : schedStep s t = { threads := s.threads.set t k, mem := Prog.set s.mem i v } := by
      simp [schedStep, ht, step1]
    rw [this]
    simp only [runSched, List.set_set] at hn
    exact hn

theorem runSched_append (s : PState I V) (a b : List Nat) :
    runSched s (a ++ b) = runSched (runSched s a) b := by simp [runSched]

/-- If every thread, run alone from the start, has no undefined behaviour, then after any schedule
prefix the section can still be completed (no deadlock, no undefined behaviour). -/
theorem can_finish {F : Nat → I → Prop} (hdis : ∀ t t' i, t ≠ t' → F t i → ¬ F t' i)
    {threads : List (Prog I V)} {m : I → V}
    (hok : ∀ (t : Nat) (p : Prog I V), threads[t]? = some p → ∃ m', p.run m = some m') :
    ∀ (j : Nat) (s : PState I V), IInv F threads m s → j ≤ threads.length →
      (∀ (t : Nat) (p : Prog I V), t < threads.length - j → s.threads[t]? = some p → p = .done) →
      ∃ sched, finished (runSched s sched)
  | 0, s, h, _, hd => by
    refine ⟨[], ?_⟩
    intro p hp
    obtain ⟨t, ht, hpt⟩ := List.mem_iff_getElem.1 hp
    refine hd t p ?_ ?_
    · have := h.len; simp only [runSched, List.foldl_nil] at ht; omega
    · simp only [runSched, List.foldl_nil] at ht hpt
      rw [List.getElem?_eq_getElem ht, hpt]
  | j + 1, s, h, hj, hd => by
    have htl : threads.length - (j + 1) < s.threads.length := by have := h.len; omega
    have hp := List.getElem?_eq_getElem htl
    have hp0 := List.getElem?_eq_getElem (show threads.length - (j + 1) < threads.length by omega)
    have hres := h.res _ _ _ hp hp0
    obtain ⟨m0, hm0⟩ := hok _ _ hp0
    rw [hm0] at hres
    cases hr : (s.threads[threads.length - (j + 1)]).run s.mem with
    | none => rw [hr] at hres; exact hres.elim
    | some m' =>
      obtain ⟨k, hk⟩ := run_one (F := F) _ s _ m' hp hr
      have h' := iinv_run hdis (List.replicate k (threads.length - (j + 1))) h
      obtain ⟨sched, hs⟩ := can_finish hdis hok j _ h' (by omega) (by
        intro t p ht hpt
        rw [hk] at hpt
        simp only [List.getElem?_set] at hpt
        by_cases htt : threads.length - (j + 1) = t
        · rw [if_pos htt] at hpt
          have : t < s.threads.length := by omega
          simp [htt, this] at hpt
          exact hpt.symm
        · rw [if_neg htt] at hpt
          exact hd t p (by omega) hpt)
      exact ⟨List.replicate k (threads.length - (j + 1)) ++ sched, by rw [runSched_append]; exact hs⟩

end VGT.Par
