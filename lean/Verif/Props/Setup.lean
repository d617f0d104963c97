import Verif.Lemmas.Setup

/-! Properties of setting up replication: C52, C82, C85. -/
namespace ZKAP

variable {ω ρ : Type} (reader : ω → ρ) (digested : ω → String) (readonly : String → Option ρ)

/-! ### C52: replication is set up at most once -/

/-- C52: once there is a replica configuration it is never changed, whatever requests are made, in
whatever order directories are created or fail to be, and whenever the node is restarted. -/
theorem C52_never_overwritten (pid : Nat) (ss ts : List (SetupStep ω)) (rw : ω)
    (h : ((newSetupNode pid).run reader digested readonly ss).config = some rw) :
    ((newSetupNode pid).run reader digested readonly (ss ++ ts)).config = some rw := by
  rw [setup_append]
  have hok := (SetupOk.new (ω := ω) (ρ := ρ) reader pid).run reader digested readonly ss
  generalize (newSetupNode pid).run reader digested readonly ss = n at h hok
  induction ts generalizing n with
  | nil => exact h
  | cons s ts ih =>
    exact ih _ (config_kept reader digested readonly hok h s) (hok.step reader digested readonly s)

/-- C52: at most one setup is in progress, only while there is no configuration; every service writes
to the configured directory, and there is at most one. -/
theorem C52_one_at_a_time (pid : Nat) (ss : List (SetupStep ω)) :
    let n := (newSetupNode pid).run reader digested readonly ss
    n.creating.length ≤ 1 ∧ (n.creating ≠ [] → n.config = none) ∧ n.services = n.config.toList := by
  intro n
  have hok := (SetupOk.new (ω := ω) (ρ := ρ) reader pid).run reader digested readonly ss
  refine ⟨?_, ?_, hok.services⟩
  · rcases hok.creating with h | ⟨r, h, _⟩
    · show n.creating.length ≤ 1
      rw [show n.creating = [] from h]; simp
    · show n.creating.length ≤ 1
      rw [show n.creating = [r] from h]; simp
  · intro hne
    rcases hok.creating with h | ⟨_, _, _, h⟩
    · exact absurd h hne
    · exact h

/-- C52: whoever was told that replication is now set up has the capability of the directory that is
configured, for ever after. -/
theorem C52_answers (pid : Nat) (ss : List (SetupStep ω)) (request : Nat) (cap : ρ)
    (h : (request, .created cap) ∈ ((newSetupNode pid).run reader digested readonly ss).answers) :
    ∃ rw, ((newSetupNode pid).run reader digested readonly ss).config = some rw ∧ reader rw = cap :=
  ((SetupOk.new (ω := ω) (ρ := ρ) reader pid).run reader digested readonly ss).created request cap h

/-- C52: a setup that fails leaves no configuration and releases the lock, and the next request can
try again. -/
theorem C52_failed (pid : Nat) (ss : List (SetupStep ω)) (request next : Nat) (e : PyErr)
    (h : request ∈ ((newSetupNode (ω := ω) (ρ := ρ) pid).run reader digested readonly ss).creating) :
    let n := (newSetupNode pid).run reader digested readonly (ss ++ [.made request (.error e)])
    n.config = none ∧ n.lock = none ∧ n.creating = [] ∧ n.answers.getLast? = some (request, .failed) ∧
      (n.step reader digested readonly (.post next)).creating = [next] := by
  intro n
  have hok := (SetupOk.new (ω := ω) (ρ := ρ) reader pid).run reader digested readonly ss
  have hn : n = _ := setup_append reader digested readonly ss [.made request (.error e)] (newSetupNode pid)
  generalize (newSetupNode pid).run reader digested readonly ss = m at h hok hn
  rcases hok.creating with hc | ⟨r, hc, _, hcfg⟩
  · rw [hc] at h; exact nomatch h
  · rw [hc, List.mem_singleton] at h
    subst h
    have hn' : n = ({ m with creating := [], lock := none } : SetupNode ω ρ).answer request .failed := by
      rw [hn]
      simp [SetupNode.run, SetupNode.step, SetupNode.made, hc]
    rw [hn']
    refine ⟨hcfg, rfl, rfl, by simp [SetupNode.answer], ?_⟩
    simp [SetupNode.step, SetupNode.post, SetupNode.can_lock, SetupNode.answer, hcfg]

/-- Write and read capabilities as numbers. -/
abbrev exSetups := SetupNode.run (ω := Nat) (ρ := Nat) (fun n => n + 100) (fun _ => "digest")
  (fun s => if s = "URI:DIR2-RO:1" then some 1 else none)

example : let n := exSetups (newSetupNode 7) [.post 1, .post 2, .made 1 (.error .valueError), .post 3,
      .made 3 (.ok 5), .restart 8, .post 4]
    n.config = some 5 ∧ n.services = [5] ∧
      n.answers = [(2, .failed), (1, .failed), (3, .created 105), (4, .failed)] := by decide

/-! ### C82: a repeated request -/

/-- C82: a request to set up replication that is already set up is answered with a conflict and the
recovery capability. -/
def C82_statement (reader : ω → ρ) (digested : ω → String) (readonly : String → Option ρ) : Prop :=
  ∀ (pid : Nat) (ss : List (SetupStep ω)) (rw : ω) (request : Nat),
    let n := (newSetupNode pid).run reader digested readonly ss
    n.config = some rw →
    (n.step reader digested readonly (.post request)).answers.getLast? = some (request, .conflict (reader rw))

/-- C82 does not hold: the digest of the capability is taken for the capability.  Unless the digest
of some write capability happens to be the string of its read capability, a repeated request is not
answered with it. -/
theorem C82_fails (h : ∃ rw, readonly (digested rw) ≠ some (reader rw)) :
    ¬ C82_statement reader digested readonly := by
  obtain ⟨rw, h⟩ := h
  intro hs
  have := hs 0 [.post 0, .made 0 (.ok rw)] rw 1 rfl
  simp only [SetupNode.run, SetupNode.step, SetupNode.post, SetupNode.made, newSetupNode, SetupNode.can_lock,
    SetupNode.answer, if_true, List.nil_append, List.mem_singleton] at this
  cases hr : readonly (digested rw) with
  | none =>
    rw [hr] at this
    simp at this
  | some cap =>
    rw [hr] at this h
    simp at this
    exact h (by rw [this])

example : ∃ rw, (fun s => if s = "URI:DIR2-RO:1" then some 1 else none) ((fun _ : Nat => "digest") rw) ≠
    some ((fun n => n + 100) rw) := ⟨0, by decide⟩

/-- C82, what is answered instead: a failure, if a digest is not a capability.  Missing: the recovery
capability, which is not in the answer. -/
theorem C82_partial (pid : Nat) (ss : List (SetupStep ω)) (rw : ω) (request : Nat)
    (hd : ∀ rw, readonly (digested rw) = none) :
    let n := (newSetupNode pid).run reader digested readonly ss
    n.config = some rw →
    let m := n.step reader digested readonly (.post request)
    m.answers.getLast? = some (request, .failed) ∧ m.config = some rw ∧ m.services = n.services := by
  intro n hc m
  simp only [m, SetupNode.step, SetupNode.post, hc, hd]
  split
  · exact ⟨by simp [SetupNode.answer], rfl, rfl⟩
  · exact ⟨by simp [SetupNode.answer], hc, rfl⟩

example : (exSetups (newSetupNode 7) [.post 1, .made 1 (.ok 5), .post 2]).answers.getLast? = some (2, .failed) :=
  (C82_partial (fun n => n + 100) (fun _ => "digest") (fun s => if s = "URI:DIR2-RO:1" then some 1 else none)
    7 [.post 1, .made 1 (.ok 5)] 5 2 (fun _ => by decide) rfl).1

/-! ### C85: setup after a crash -/

/-- C85: after the node is restarted, replication can be set up if it is not. -/
def C85_statement (reader : ω → ρ) (digested : ω → String) (readonly : String → Option ρ) : Prop :=
  ∀ (pid : Nat) (ss : List (SetupStep ω)) (pid' request : Nat),
    let n := (newSetupNode pid).run reader digested readonly (ss ++ [.restart pid'])
    n.config = none → (n.step reader digested readonly (.post request)).creating = [request]

/-- C85 does not hold: if the new process has the same number as one that died during a setup, as in a
container, the lock is taken for its own, and no later request is ever accepted. -/
theorem C85_fails : ¬ C85_statement reader digested readonly := by
  intro h
  have := h 1 [.post 0] 1 1 rfl
  exact nomatch this

/-- … whatever is requested, and however often the node is restarted with this number. -/
theorem C85_stuck (pid : Nat) (request : Nat) (ts : List (SetupStep ω))
    (hts : ∀ s ∈ ts, (∃ r, s = .post r) ∨ s = .restart pid) :
    let n := (newSetupNode pid).run reader digested readonly (.post request :: .restart pid :: ts)
    n.config = none ∧ n.creating = [] := by
  intro n
  have : ∀ (ts : List (SetupStep ω)) (m : SetupNode ω ρ), (∀ s ∈ ts, (∃ r, s = .post r) ∨ s = .restart pid) →
      m.config = none → m.creating = [] → m.lock = some pid → m.pid = pid →
      (m.run reader digested readonly ts).config = none ∧ (m.run reader digested readonly ts).creating = [] := by
    intro ts
    induction ts with
    | nil => intro m _ h1 h2 _ _; exact ⟨h1, h2⟩
    | cons s ts ih =>
      intro m hs h1 h2 h3 h4
      refine ih _ (fun x hx => hs x (List.mem_cons_of_mem _ hx)) ?_ ?_ ?_ ?_ <;>
        rcases hs s List.mem_cons_self with ⟨r, rfl⟩ | rfl <;>
        simp [SetupNode.step, SetupNode.post, SetupNode.can_lock, SetupNode.answer, SetupNode.start, h1, h2, h3, h4]
  exact this ts _ hts rfl rfl rfl rfl

example : (exSetups (newSetupNode 1) [.post 0, .restart 1, .post 1, .restart 1, .post 2]).creating = [] := by decide

/-- C85, if no process has the number of an earlier one that died during a setup.  Missing: numbers
that are used again, where it is false. -/
theorem C85_partial (pid : Nat) (ss : List (SetupStep ω)) (pid' request : Nat)
    (hp : ((newSetupNode (ω := ω) (ρ := ρ) pid).run reader digested readonly ss).lock ≠ some pid') :
    let n := (newSetupNode pid).run reader digested readonly (ss ++ [.restart pid'])
    n.config = none → (n.step reader digested readonly (.post request)).creating = [request] := by
  intro n hc
  have hn : n = ((newSetupNode pid).run reader digested readonly ss).start pid' :=
    setup_append reader digested readonly ss [.restart pid'] (newSetupNode pid)
  rw [hn] at hc ⊢
  generalize (newSetupNode (ω := ω) (ρ := ρ) pid).run reader digested readonly ss = m at hp hc
  have hlock : (m.start pid').can_lock = true := by
    simp only [SetupNode.can_lock, SetupNode.start]
    split
    · rfl
    · rename_i p hl
      simp only [bne_iff_ne, ne_eq]
      exact fun he => hp (by rw [hl, he])
  simp only [SetupNode.step, SetupNode.post, hlock, if_true, hc]
  rfl

example : ((exSetups (newSetupNode 1) [.post 0, .restart 2, .post 1]).creating) = [1] :=
  C85_partial (fun n => n + 100) (fun _ => "digest") (fun s => if s = "URI:DIR2-RO:1" then some 1 else none)
    1 [.post 0] 2 1 (by decide) rfl

end ZKAP
