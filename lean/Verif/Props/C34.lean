import Verif.Model.Concurrent
import Mathlib.Data.List.Nodup

/-! # C34: concurrent versioned registrations are not lost -/

namespace ScaleGo

/-- All goroutines are at the beginning. -/
def Conc.Fresh (s : Conc) : Prop := ∀ j ∈ s.jobs, j.phase = .start

/-- All goroutines have finished. -/
def Conc.Finished (s : Conc) : Prop := ∀ j ∈ s.jobs, j.phase = .done

/-- The full property: after any interleaving in which every goroutine finishes, every registered range is present, and so is
everything that was there before. -/
def C34Claim : Prop :=
  ∀ (s : Conc) (schedule : List Nat), s.Fresh → (s.run schedule).Finished →
    (∀ j ∈ s.jobs, j.item ∈ (s.run schedule).special j.key) ∧
    (∀ k x, x ∈ s.special k → x ∈ (s.run schedule).special k)

/-- A schedule in which goroutines registering the same name do not come between read and write of one another. -/
def Spec.Uninterrupted (s : Conc) : List Nat → Prop
  | [] => True
  | i :: rest =>
    (∀ (j : Job) (i' : Nat) (j' : Job), s.jobs[i]? = some j → s.jobs[i']? = some j' → i' ≠ i → j'.key = j.key → ∀ l, j'.phase ≠ .pending l) ∧
    Spec.Uninterrupted (s.step i) rest

/-- What holds after every step: finished jobs are stored, lists held by pending jobs are current. -/
structure ConcInv (s₀ s : Conc) : Prop where
  same : s.jobs.map (fun j => (j.key, j.item)) = s₀.jobs.map (fun j => (j.key, j.item))
  stored : ∀ (i : Nat) (j : Job), s.jobs[i]? = some j → j.phase = .done → j.item ∈ s.special j.key
  held : ∀ (i : Nat) (j : Job) l, s.jobs[i]? = some j → j.phase = .pending l → l = s.special j.key
  kept : ∀ k x, x ∈ s₀.special k → x ∈ s.special k

theorem map_set_same {α β : Type} (f : α → β) (l : List α) (i : Nat) (a b : α) (h : l[i]? = some a) (hf : f b = f a) :
    (l.set i b).map f = l.map f := by
  rw [List.map_set, hf]
  apply List.ext_getElem?
  intro k
  rw [List.getElem?_set]
  split
  · rename_i hk
    subst hk
    obtain ⟨hlt, he⟩ := List.getElem?_eq_some_iff.1 h
    simp [hlt, he]
  · rfl

theorem ConcInv.step {s₀ s : Conc} (h : ConcInv s₀ s) (i : Nat)
    (hu : ∀ (j : Job) (i' : Nat) (j' : Job), s.jobs[i]? = some j → s.jobs[i']? = some j' → i' ≠ i → j'.key = j.key → ∀ l, j'.phase ≠ .pending l) :
    ConcInv s₀ (s.step i) := by
  unfold Conc.step
  cases hj : s.jobs[i]? with
  | none => exact h
  | some j =>
    have hlt : i < s.jobs.length := (List.getElem?_eq_some_iff.1 hj).1
    cases hp : j.phase with
    | start =>
      simp only [hp]
      refine ⟨?_, ?_, ?_, h.kept⟩
      · exact (map_set_same _ _ _ j { j with phase := .pending (s.special j.key) } hj rfl).trans h.same
      · intro i' j' hj' hd
        simp only [List.getElem?_set] at hj'
        split at hj'
        · simp at hj'; subst hj'; simp at hd
        · exact h.stored i' j' hj' hd
      · intro i' j' l hj' hd
        simp only [List.getElem?_set] at hj'
        split at hj'
        · simp at hj'; subst hj'; simp at hd; exact hd.symm
        · exact h.held i' j' l hj' hd
    | pending l =>
      simp only [hp]
      have hl := h.held i j l hj hp
      refine ⟨?_, ?_, ?_, ?_⟩
      · exact (map_set_same _ _ _ j { j with phase := .done } hj rfl).trans h.same
      · intro i' j' hj' hd
        simp only [List.getElem?_set] at hj'
        split at hj'
        · simp at hj'; subst hj'; simp
        · have := h.stored i' j' hj' hd
          simp only
          split
          · rename_i hk
            rw [hl, ← hk]
            simp [this]
          · exact this
      · intro i' j' l' hj' hd
        simp only [List.getElem?_set] at hj'
        split at hj'
        · simp at hj'; subst hj'; simp at hd
        · rename_i hne
          by_cases hk : j'.key = j.key
          · exact absurd hd (hu j i' j' hj hj' (Ne.symm hne) hk l')
          · simp only [if_neg hk]
            exact h.held i' j' l' hj' hd
      · intro k x hx
        have := h.kept k x hx
        simp only
        split
        · rename_i hk
          rw [hl, ← hk]
          simp [this]
        · exact this
    | done => simp only [hp]; exact h

/-- No registration is lost when goroutines registering the same name do not interrupt each other between read and write;
goroutines registering other names may be interleaved in any way.  Without this hypothesis the property fails
(`C34_claim_false`). -/
theorem C34_partial (s : Conc) (schedule : List Nat) (hs : s.Fresh) (hf : (s.run schedule).Finished)
    (hu : Spec.Uninterrupted s schedule) :
    (∀ j ∈ s.jobs, j.item ∈ (s.run schedule).special j.key) ∧ (∀ k x, x ∈ s.special k → x ∈ (s.run schedule).special k) := by
  have inv : ∀ (schedule : List Nat) (s' : Conc), ConcInv s s' → Spec.Uninterrupted s' schedule → ConcInv s (s'.run schedule) := by
    intro schedule
    induction schedule with
    | nil => intro s' h _; exact h
    | cons i rest ih =>
      intro s' h hu
      exact ih _ (h.step i hu.1) hu.2
  have h0 : ConcInv s s := by
    refine ⟨rfl, ?_, ?_, fun _ _ h => h⟩
    · intro i j hj hd
      rw [hs j (List.mem_of_getElem? hj)] at hd
      simp at hd
    · intro i j l hj hd
      rw [hs j (List.mem_of_getElem? hj)] at hd
      simp at hd
  have h := inv schedule s h0 hu
  refine ⟨fun j hj => ?_, h.kept⟩
  have hm : (j.key, j.item) ∈ (s.run schedule).jobs.map (fun j => (j.key, j.item)) := by
    rw [h.same]; exact List.mem_map.2 ⟨j, hj, rfl⟩
  obtain ⟨j', hj', he⟩ := List.mem_map.1 hm
  obtain ⟨i, hi⟩ := List.getElem?_of_mem hj'
  have := h.stored i j' hi (hf j' hj')
  simp only [Prod.mk.injEq] at he
  rw [he.1, he.2] at this
  exact this

/-- Goroutines registering pairwise different names never lose anything, whatever the interleaving. -/
theorem C34_distinct_names_partial (s : Conc) (schedule : List Nat) (hs : s.Fresh) (hf : (s.run schedule).Finished)
    (hd : (s.jobs.map (·.key)).Nodup) : ∀ j ∈ s.jobs, j.item ∈ (s.run schedule).special j.key := by
  refine (C34_partial s schedule hs hf ?_).1
  have keys : ∀ (s : Conc) i, (s.step i).jobs.map (·.key) = s.jobs.map (·.key) := by
    intro s i
    unfold Conc.step
    cases hj : s.jobs[i]? with
    | none => rfl
    | some j =>
      simp only
      split
      · exact map_set_same _ _ _ j _ hj rfl
      · exact map_set_same _ _ _ j _ hj rfl
      · rfl
  suffices h : ∀ (schedule : List Nat) (s : Conc), (s.jobs.map (·.key)).Nodup → Spec.Uninterrupted s schedule from h schedule s hd
  intro schedule
  induction schedule with
  | nil => intro s _; trivial
  | cons i rest ih =>
    intro s hd
    refine ⟨?_, ih _ (by rw [keys]; exact hd)⟩
    intro j i' j' hj hj' hne hk
    exfalso
    refine hne ?_
    have h1 : (s.jobs.map (·.key))[i']? = some j.key := by simp [hj', hk]
    have h2 : (s.jobs.map (·.key))[i]? = some j.key := by simp [hj]
    obtain ⟨l1, e1⟩ := List.getElem?_eq_some_iff.1 h1
    obtain ⟨l2, e2⟩ := List.getElem?_eq_some_iff.1 h2
    exact (List.Nodup.getElem_inj_iff hd (hi := l1) (hj := l2)).1 (e1.trans e2.symm)

/-- Two goroutines registering ranges of the same name. -/
def twoJobs : Conc :=
  ⟨fun _ => [], [⟨b!"foo", (0, 10, .u8), .start⟩, ⟨b!"foo", (11, 20, .u16), .start⟩]⟩

/-- Both read before either writes: only the second range is left. -/
theorem C34_lost_update : (twoJobs.run [0, 1, 0, 1]).Finished ∧
    (twoJobs.run [0, 1, 0, 1]).special b!"foo" = [(11, 20, .u16)] := by
  refine ⟨?_, by rfl⟩
  intro j hj
  simp [Conc.run, Conc.step, twoJobs] at hj
  rcases hj with rfl | rfl <;> rfl

theorem C34_claim_false : ¬ C34Claim := by
  intro h
  have := (h twoJobs [0, 1, 0, 1] (by intro j hj; simp [twoJobs] at hj; rcases hj with rfl | rfl <;> rfl) C34_lost_update.1).1
    ⟨b!"foo", (0, 10, .u8), .start⟩ (by simp [twoJobs])
  simp only [C34_lost_update.2] at this
  simp at this

/-- One after the other both ranges are kept. -/
example : (twoJobs.run [1, 1, 0, 0]).special b!"foo" = [(11, 20, .u16), (0, 10, .u8)] ∧ Spec.Uninterrupted twoJobs [1, 1, 0, 0] := by
  refine ⟨by rfl, ?_⟩
  refine ⟨?_, ?_, ?_, ?_, trivial⟩ <;> intro j i' j' hj hj' hne hk l <;>
    (rcases i' with _ | _ | i') <;> simp [twoJobs, Conc.step] at hj hj' hne <;> subst hj' <;> simp

end ScaleGo
