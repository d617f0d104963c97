import Verif.Lemmas.Configurations
import Verif.Props.Controller

/-! A node whose configuration changes: C147, C148, C149. -/
namespace ZKAP
open Spec

/-- A voucher is submitted to a node that allows the keys; the issuer signs the first group with "key". -/
def exAllow (keys : List String) : Period := ⟨5, keys, exFirst⟩

/-! ### C147 -/

/-- **C147** in full: whatever processes a node has been, with whatever configurations, a token can be obtained only if
the issuer has sent it signed with a key that the configuration of the running process allows. -/
def C147_statement : Prop :=
  ∀ (groups : Nat) (ps : List Period) (p : Period) (x : String),
    Available (nodeAfter groups (ps ++ [p])).store x →
    ∃ pk, pk ∈ p.allowed_public_keys ∧ SentWith groups (ps ++ [p]) pk x

/-- **C147 fails**: tokens signed with a key that has been removed from the configuration are still spent. -/
theorem C147_fails : ¬ C147_statement := by
  intro h
  obtain ⟨pk, hpk, _⟩ := h 2 [exAllow ["key"]] ⟨5, [], []⟩ "a" ⟨by
    refine ⟨⟨"a", 1⟩, by decide +kernel, rfl, ⟨1, "v", true, "key"⟩, by decide +kernel, rfl, rfl⟩, by decide +kernel⟩
  exact absurd hpk (by simp)

/-- **C147**, whatever the histories and the configurations: nothing is handed out, and nothing can be obtained, but
tokens that the issuer sent to a process whose configuration allowed the key they were signed with. -/
theorem C147_partial (groups : Nat) (ps : List Period) (x : String)
    (hx : Available (nodeAfter groups ps).store x ∨
      ∃ o n ts, ((StoreOp.getTokens o n).step (nodeAfter groups ps).store).1 = .ok (.tokens ts) ∧ x ∈ ts) :
    ∃ before p later pk, ps = before ++ p :: later ∧ SentTo groups before p pk x ∧
      pk ∈ p.allowed_public_keys := by
  refine stored_by groups ps ?_
  rcases hx with h | ⟨o, n, ts, h, hm⟩
  · exact h.1
  · refine Classical.byContradiction fun hg => ?_
    exact getTokens_not_blocked (wf_node groups ps) (t' := _) (Prod.ext h rfl) (.inr hg) hm

/-- **C147**, the other side: the configuration of a process has no influence on what can be obtained when it
starts.  These are the tokens stored as spendable, be their keys still allowed or not. -/
theorem C147_ignored (groups : Nat) (ps : List Period) (count : Nat) (keys : List String) (x : String) :
    Available (nodeAfter groups (ps ++ [⟨count, keys, []⟩])).store x ↔
      StoredIn (nodeAfter groups ps).store.app true x := by
  unfold nodeAfter
  rw [periods_snoc]
  simp [Controller.period, Controller.run, Controller.step, Available, StoreOp.step]

example : SentTo 2 [] (exAllow ["key"]) "key" "a" :=
  ⟨(nodeAfter 2 [exAllow ["key"]]).log, "v", 0, ["a", "b", "c"], rfl, by decide +kernel, by simp⟩

example :
    ((StoreOp.getTokens .natural 3).step
      (nodeAfter 2 [exAllow ["key"], ⟨5, ["new"], []⟩]).store).1 = .ok (.tokens ["a", "b", "c"]) ∧
    ((StoreOp.getTokens .natural 1).step
      (nodeAfter 2 [exAllow ["new"], ⟨5, ["new"], []⟩]).store).1 = .error .notEnoughTokens := by
  decide +kernel

/-! ### C148 -/

/-- **C148** in full: a token that is stored and that was signed with a key which the configuration allows now can be
obtained once the node has been started with this configuration. -/
def C148_statement : Prop :=
  ∀ (groups : Nat) (ps : List Period) (count : Nat) (keys : List String) (pk x : String) (b : Bool),
    StoredIn (nodeAfter groups ps).store.app b x → SentWith groups ps pk x → pk ∈ keys →
    Available (nodeAfter groups (ps ++ [⟨count, keys, []⟩])).store x

/-- The tokens of `exAllow` are stored as not spendable if the key is not allowed. -/
theorem exSequestered : StoredIn (nodeAfter 2 [exAllow []]).store.app false "a" :=
  ⟨⟨"a", 1⟩, by decide +kernel, rfl, ⟨1, "v", false, "key"⟩, by decide +kernel, rfl, rfl⟩

/-- **C148 fails**: tokens stay sequestered when their key is added to the configuration. -/
theorem C148_fails : ¬ C148_statement := by
  intro h
  have h1 := h 2 [exAllow []] 5 ["key"] "key" "a" false exSequestered
    ⟨"v", 0, ["a", "b", "c"], by decide +kernel, by simp⟩ (by simp)
  have h2 := (C147_ignored 2 [exAllow []] 5 ["key"] "a").mp h1
  exact stored_both (wf_node 2 [exAllow []]) ⟨h2, exSequestered⟩

/-- **C148**, what does happen: a token that was sequestered once stays stored and sequestered, and is never handed
out, whatever the later configurations, submissions, answers of the issuer, crashes and storage calls (which report no
tokens spent or bad that they have not been given). -/
theorem C148_partial (groups : Nat) (ps qs : List Period) (x : String)
    (hx : StoredIn (nodeAfter groups ps).store.app false x) (hu : NeverUsed (ps ++ qs) x) :
    StoredIn (nodeAfter groups (ps ++ qs)).store.app false x ∧
    ¬ Available (nodeAfter groups (ps ++ qs)).store x ∧
    ∀ o n ts, ((StoreOp.getTokens o n).step (nodeAfter groups (ps ++ qs)).store).1 = .ok (.tokens ts) →
      x ∉ ts := by
  have hu1 : NeverUsed ps x := fun p hp => hu p (List.mem_append_left _ hp)
  have hu2 : NeverUsed qs x := fun p hp => hu p (List.mem_append_right _ hp)
  have h1 := (stored_periods groups (b := false) ps (q := ⟨0, [], []⟩) (rinv_init _) hu1 (by simp)).1
  have h2 := (stored_periods groups (b := false) qs (rinv_node groups ps ⟨0, [], []⟩) hu2 h1).2 hx
  rw [nodeAfter, ← periods_append] at h2
  have hwf := wf_node groups (ps ++ qs)
  have hg : ¬ StoredIn (nodeAfter groups (ps ++ qs)).store.app true x := fun h => stored_both hwf ⟨h, h2⟩
  exact ⟨h2, fun h => hg h.1, fun o n ts hs => getTokens_not_blocked hwf (t' := _) (Prod.ext hs rfl) (.inr hg)⟩

/-- The key is allowed later, and the issuer sends the tokens again, signed with it. -/
def exAgain : Period := ⟨5, ["key"], exSend "s" ++ [.answer 0 (.success "key" ["a", "b"])] ++ exSend "t"⟩

example : NeverUsed ([exAllow []] ++ [exAgain]) "a" := by
  intro p hp op hm
  have hall : ∀ p ∈ [exAllow []] ++ [exAgain], ∀ e ∈ p.events,
      (match e with | .other _ => false | _ => true) = true := by
    simp [exAllow, exAgain, exFirst, exSend]
  have := hall p hp _ hm
  simp at this

example : (nodeAfter 2 [exAllow [], exAgain]).store.app.unblinded =
    [⟨"a", 1⟩, ⟨"b", 1⟩, ⟨"c", 1⟩] := by decide +kernel

/-- **C148**, the same for every token: where a token is stored does not depend on the configurations of later
processes at all. -/
theorem C148_decided_once (groups : Nat) (ps qs : List Period) (x : String) (b : Bool)
    (hx : StoredIn (nodeAfter groups ps).store.app b x) (hu : NeverUsed (ps ++ qs) x) :
    StoredIn (nodeAfter groups (ps ++ qs)).store.app b x := by
  have hu1 : NeverUsed ps x := fun p hp => hu p (List.mem_append_left _ hp)
  have hu2 : NeverUsed qs x := fun p hp => hu p (List.mem_append_right _ hp)
  have h1 := (stored_periods groups (b := b) ps (q := ⟨0, [], []⟩) (rinv_init _) hu1 (by simp)).1
  have h2 := (stored_periods groups (b := b) qs (rinv_node groups ps ⟨0, [], []⟩) hu2 h1).2 hx
  rwa [nodeAfter, ← periods_append] at h2

/-! ### C149 -/

/-- **C149**: a voucher is worth what it was submitted for.  When it becomes known to a process, its expected number of
tokens is one it has been submitted with while this process ran, the configured number standing for no number. -/
theorem C149_entered (groups : Nat) (ps : List Period) (p : Period) (v : String) (row : VoucherRow)
    (hn : voucherRow (nodeAfter groups ps).store v = none)
    (hrow : voucherRow (nodeAfter groups (ps ++ [p])).store v = some row) :
    Submitted p v row.expected_tokens := by
  have hr := rinv_node groups ps p
  have hr' := rinv_step hr .crash
  rw [nodeAfter, periods_snoc] at hrow
  refine entered_run (cfg := p.cfg groups) p.events hr' (v := v) (A := Submitted p v) ?_ ?_ hn hrow
  · intro hn'
    have hmem := check_pending_mem hr'.wf hr'.rows
    refine ⟨?_, ?_⟩
    · intro m hm
      obtain ⟨w, row, hrow, _, e⟩ := (hmem _).mp hm
      simp only [Task.redeem.injEq] at e
      rw [← e.1, hn'] at hrow
      simp at hrow
    · intro f rest et
      exact (no_iterate_calls (check_pending_calls _) et).elim
  · intro m hm
    cases m with
    | none => exact .inr ⟨hm, rfl⟩
    | some n => exact .inl hm

/-- **C149**, from then on: whatever the later configurations, the voucher stays known with the same expected number of
tokens, and every request to the issuer that is outstanding asks for exactly the tokens that its group has in
this number. -/
theorem C149_fixed (groups : Nat) (ps qs : List Period) (v : String) (row : VoucherRow)
    (hrow : voucherRow (nodeAfter groups ps).store v = some row) :
    (∃ row', voucherRow (nodeAfter groups (ps ++ qs)).store v = some row' ∧
      row'.expected_tokens = row.expected_tokens) ∧
    ∀ s ∈ (nodeAfter groups (ps ++ qs)).waiting, s.frame.voucher = v →
      token_count_for_group groups row.expected_tokens s.frame.counter = .ok (s.tokens.length : Int) := by
  obtain ⟨row', h1, h2⟩ := row_kept_periods groups qs (nodeAfter groups ps) hrow
  rw [nodeAfter, ← periods_append] at h1
  refine ⟨⟨row', h1, h2⟩, ?_⟩
  intro s hs hv
  have hr := rinv_node groups (ps ++ qs) ⟨0, [], []⟩
  obtain ⟨_, _, hp, hl⟩ := hr.waiting s hs
  have hne : s.tokens ≠ [] := by
    obtain ⟨l₁, l₂, e, _⟩ := hl
    exact hr.nonempty s.frame.voucher s.frame.counter s.tokens (by rw [e]; simp)
  have hsel : select_random_tokens s.frame.voucher s.frame.counter
      (nodeAfter groups (ps ++ qs)).store ≠ [] := by
    intro h0
    rw [h0] at hp
    exact hne hp.eq_nil
  obtain ⟨r, hr1, hr2⟩ := hr.sizes _ _ hsel
  rw [hv, show voucherRow (nodeAfter groups (ps ++ qs)).store v = some row' from h1] at hr1
  cases hr1
  rw [hp.length_eq, ← h2]
  exact hr2

/-- Submitted while five tokens are configured, resumed while nine are. -/
def exRaised : List Period := [exAllow ["key"], ⟨9, ["key"], exSend "r"⟩]

example :
    (voucherRow (nodeAfter 2 exRaised).store "v").map (·.expected_tokens) = some 5 ∧
    (nodeAfter 2 exRaised).waiting.map (fun s => (s.frame.voucher, s.frame.counter, s.tokens)) =
      [("v", 1, ["qv", "qvx"])] := by decide +kernel

end ZKAP
