import Verif.Model.Setup

/-! Lemmas about setting up replication. -/
namespace ZKAP

variable {ω ρ : Type} (reader : ω → ρ) (digested : ω → String) (readonly : String → Option ρ)

/-- What holds of a node at any time. -/
structure SetupOk (reader : ω → ρ) (n : SetupNode ω ρ) : Prop where
  /-- At most one setup is in progress; it holds the lock and there is no configuration. -/
  creating : n.creating = [] ∨ ∃ r, n.creating = [r] ∧ n.lock = some n.pid ∧ n.config = none
  /-- Services write to the configured directory. -/
  services : n.services = n.config.toList
  /-- A capability that was returned is that of the configured directory. -/
  created : ∀ r cap, (r, .created cap) ∈ n.answers → ∃ rw, n.config = some rw ∧ reader rw = cap

theorem SetupOk.step {n : SetupNode ω ρ} (h : SetupOk reader n) (s) :
    SetupOk reader (n.step reader digested readonly s) := by
  cases s with
  | post request =>
    simp only [SetupNode.step, SetupNode.post]
    split
    · rename_i hlock
      have hc : n.creating = [] := by
        rcases h.creating with hc | ⟨r, _, hl, _⟩
        · exact hc
        · simp [SetupNode.can_lock, hl] at hlock
      split
      · rename_i rw hrw
        split
        · refine ⟨Or.inl hc, h.services, fun r cap hm => ?_⟩
          simp only [SetupNode.answer, List.mem_append, List.mem_singleton, Prod.mk.injEq, reduceCtorEq,
            and_false, or_false] at hm
          exact h.created r cap hm
        · refine ⟨Or.inl hc, h.services, fun r cap hm => ?_⟩
          simp only [SetupNode.answer, List.mem_append, List.mem_singleton, Prod.mk.injEq, reduceCtorEq,
            and_false, or_false] at hm
          exact h.created r cap hm
      · rename_i hcfg
        exact ⟨Or.inr ⟨request, by simp [hc], rfl, hcfg⟩, h.services, h.created⟩
    · refine ⟨h.creating, h.services, fun r cap hm => ?_⟩
      simp only [SetupNode.answer, List.mem_append, List.mem_singleton, Prod.mk.injEq, reduceCtorEq,
        and_false, or_false] at hm
      exact h.created r cap hm
  | made request r =>
    simp only [SetupNode.step, SetupNode.made]
    split
    · rename_i hm
      rcases h.creating with hc | ⟨r', hc, hl, hcfg⟩
      · rw [hc] at hm; exact nomatch hm
      · rw [hc] at hm
        simp only [List.mem_singleton] at hm
        subst hm
        have he : [request].erase request = [] := by simp
        cases r with
        | error e =>
          refine ⟨Or.inl (by simp [SetupNode.answer, hc]), h.services, fun r cap hm => ?_⟩
          simp only [SetupNode.answer, List.mem_append, List.mem_singleton, Prod.mk.injEq, reduceCtorEq,
            and_false, or_false] at hm
          exact h.created r cap hm
        | ok rw =>
          refine ⟨Or.inl (by simp [SetupNode.answer, hc]), ?_, fun r cap hm => ?_⟩
          · have := h.services
            rw [hcfg] at this
            simp [SetupNode.answer, this]
          · simp only [SetupNode.answer, List.mem_append, List.mem_singleton, Prod.mk.injEq,
              SetupAnswer.created.injEq] at hm
            rcases hm with hm | ⟨_, rfl⟩
            · obtain ⟨rw', h1, _⟩ := h.created r cap hm
              rw [hcfg] at h1
              exact nomatch h1
            · exact ⟨rw, rfl, rfl⟩
    · exact h
  | restart pid =>
    refine ⟨Or.inl rfl, ?_, h.created⟩
    simp only [SetupNode.step, SetupNode.start]
    cases n.config <;> rfl

theorem SetupOk.run (ss) : ∀ {n : SetupNode ω ρ}, SetupOk reader n →
    SetupOk reader (n.run reader digested readonly ss) := by
  induction ss with
  | nil => intro n h; exact h
  | cons s ss ih => intro n h; exact ih (h.step reader digested readonly s)

theorem SetupOk.new (pid) : SetupOk reader (newSetupNode (ω := ω) (ρ := ρ) pid) :=
  ⟨Or.inl rfl, rfl, fun _ _ h => nomatch h⟩

theorem setup_append (ss ts) : ∀ (n : SetupNode ω ρ), n.run reader digested readonly (ss ++ ts) =
    (n.run reader digested readonly ss).run reader digested readonly ts := by
  induction ss with
  | nil => intro n; rfl
  | cons s ss ih => intro n; exact ih _

theorem config_kept {n : SetupNode ω ρ} (h : SetupOk reader n) {rw} (hc : n.config = some rw) (s) :
    (n.step reader digested readonly s).config = some rw := by
  cases s with
  | post request =>
    simp only [SetupNode.step, SetupNode.post, hc]
    split
    · split <;> rfl
    · exact hc
  | made request r =>
    simp only [SetupNode.step, SetupNode.made]
    split
    · rename_i hm
      rcases h.creating with hn | ⟨_, _, _, hcfg⟩
      · rw [hn] at hm; exact nomatch hm
      · exact nomatch hcfg.symm.trans hc
    · exact hc
  | restart pid => exact hc

end ZKAP
