import Verif.Lemmas.RecoverFactory
import Verif.Props.Recovery

/-! Properties of what clients of a recovery are sent: C59, C84. -/
namespace ZKAP
open Spec

variable {κ : Type} [DecidableEq κ]

/-! ### C59: all clients see the same progress -/

/-- C59: a client that asks once, with the capability of the active recovery or before there is one,
is told every stage in order as long as it is connected; a client that asks with a different
capability has its connection closed with code 4000. -/
def C59_statement : Prop :=
  ∀ (utc : String → Option String) (readonly : String → Option Nat) (db : Database)
    (before after : List FactoryStep) (client : Nat) (payload : Option Json) (cap : Nat),
    Silent client before → Silent client after → Stays client after → Asks readonly payload cap →
    let f := (startedFactory db).run utc readonly before
    let g := f.run utc readonly (.message client payload :: after)
    (f.recovering_cap = none ∨ f.recovering_cap = some cap → updatesTo g client = g.node.reported) ∧
    (f.recovering_cap ≠ none ∧ f.recovering_cap ≠ some cap → .close (some 4000) ∈ sentTo g client)

/-- A request for recovery. -/
def exAsk (s : String) : Option Json := some (.obj [("recovery-capability", .str s)])

/-- Two capabilities. -/
def exReadonly (s : String) : Option Nat := if s = "a" then some 1 else if s = "b" then some 2 else none

/-- C59 does not hold: the connection of a client that asks with a different capability is not
closed by the code that means to do so.  The exception it raises leaves `onMessage`. -/
theorem C59_fails : ¬ C59_statement := by
  intro h
  have := (h exUtc exReadonly newDatabase [.message 1 (exAsk "a")] [] 2 (exAsk "b") 2
    (by intro p hp; simp at hp) (by intro p hp; exact nomatch hp) (fun h => nomatch h)
    ⟨"b", rfl, rfl⟩).2 (by decide +kernel)
  revert this
  decide +kernel

/-- Unless the exception ends its connection, such a client is told about the recovery of others. -/
theorem C59_other_updates : let f := (startedFactory newDatabase).run exUtc exReadonly [.message 1 (exAsk "a"),
      .message 2 (exAsk "b"), .progress .downloading]
    sentTo f 2 = [.update .downloading] := by
  decide +kernel

/-- C59, what clients of the active recovery are told.  Missing: that others are refused properly,
which is false. -/
theorem C59_partial (utc : String → Option String) (readonly : String → Option κ) (db : Database)
    (before after : List FactoryStep) (client : Nat) (payload : Option Json) (cap : κ)
    (hb : Silent client before) (ha : Silent client after) (hs : Stays client after)
    (hp : Asks readonly payload cap) :
    let f := (startedFactory db).run utc readonly before
    let g := f.run utc readonly (.message client payload :: after)
    f.recovering_cap = none ∨ f.recovering_cap = some cap → updatesTo g client = g.node.reported := by
  intro f g hcap
  have hf : FactoryOk f := (FactoryOk.started db).run utc readonly before
  obtain ⟨h0, hsent⟩ := absent_run utc readonly before (FactoryOk.started (κ := κ) db) hb rfl
  have h1 := ClientOk.asks hf h0 (hsent.trans rfl) hcap
  have h2 := h1.run utc readonly after ha hs
  have hg : g = (f.initiate_recovery cap client).1.run utc readonly after := by
    show f.run utc readonly (.message client payload :: after) = _
    rw [RecoverFactory.run]
    simp only [RecoverFactory.step, RecoverFactory.on_message, asks_parse hp]
  rw [← hg] at h2
  simp only [updatesTo, h2.sent, List.filterMap_append, List.filterMap_map]
  have : ∀ l : List RecoveryStages, l.filterMap (stageOf ∘ Sent.update) = l := by
    intro l
    induction l with
    | nil => rfl
    | cons s l ih => simp only [List.filterMap_cons, Function.comp]; exact congrArg _ ih
  rw [this]
  split <;> simp [stageOf]

example : updatesTo ((startedFactory newDatabase).run exUtc exReadonly [.message 1 (exAsk "a"), .progress .inspect_replica,
      .message 2 (exAsk "a"), .closed 1, .progress .downloading]) 2 = [.started, .inspect_replica, .downloading] :=
  C59_partial exUtc exReadonly newDatabase [.message 1 (exAsk "a"), .progress .inspect_replica]
    [.closed 1, .progress .downloading] 2 (exAsk "a") 1 (by intro p hp; simp at hp) (by intro p hp; simp at hp)
    (by unfold Stays; simp) ⟨"a", rfl, rfl⟩ (by decide +kernel)

/-- C59: a client that has not asked, or whose connection is gone, is sent nothing, whatever
happens, unless it asks (again). -/
theorem C59_others (utc : String → Option String) (readonly : String → Option κ) (db : Database)
    (before after : List FactoryStep) (client : Nat) (payload : Option Json)
    (hb : Silent client before) (ha : Silent client after) :
    sentTo ((startedFactory db).run utc readonly before) client = [] ∧
    ∀ middle, Silent client middle →
      let f := (startedFactory db).run utc readonly (before ++ .message client payload :: middle)
      sentTo (f.run utc readonly (.closed client :: after)) client = sentTo f client := by
  obtain ⟨h0, hsent⟩ := absent_run utc readonly before (FactoryOk.started (κ := κ) db) hb rfl
  refine ⟨hsent.trans rfl, ?_⟩
  intro middle hm f
  have hfb : FactoryOk ((startedFactory (κ := κ) db).run utc readonly before) := (FactoryOk.started db).run utc readonly before
  have hcount : ∀ (ss : List FactoryStep) (f : RecoverFactory κ), FactoryOk f → Silent client ss →
      f.clients.count client ≤ 1 → (f.run utc readonly ss).clients.count client ≤ 1 := by
    intro ss
    induction ss with
    | nil => intro f _ _ h; exact h
    | cons s ss ih =>
      intro f hf hs h
      refine ih _ (hf.step utc readonly s) (fun p h => hs p (List.mem_cons_of_mem _ h)) ?_
      cases s with
      | message c p =>
        have hne : c ≠ client := fun h => hs p (by rw [h]; exact List.mem_cons_self)
        simp only [RecoverFactory.step, RecoverFactory.on_message]
        split
        · exact h
        · rw [(initiate_cases hf _ _).2.1, List.count_append, List.count_singleton, if_neg (by simpa using hne)]
          exact h
      | closed c =>
        have : (f.clients.erase c).count client ≤ f.clients.count client := List.erase_sublist.count_le _
        exact Nat.le_trans this h
      | call ss =>
        show (f.go_on (f.node.step utc (.call ss)).1).clients.count client ≤ 1
        rw [(call_go_on utc f ss).2.1]; exact h
      | progress s =>
        obtain ⟨l, hl⟩ := progress_reported f.node s
        show (f.go_on (f.node.progress s)).clients.count client ≤ 1
        rw [(go_on_facts f _ l hl).2.1]; exact h
      | downloaded r =>
        simp only [RecoverFactory.step]
        split
        · rename_i hw
          obtain ⟨⟨l, hl⟩, _⟩ := downloaded_facts hf.1 hw utc r
          show (f.go_on (f.node.downloaded utc r)).clients.count client ≤ 1
          rw [(go_on_facts f _ l hl).2.1]; exact h
        · exact h
  have hmsg : ((((startedFactory (κ := κ) db).run utc readonly before).step utc readonly (.message client payload)).1).clients.count client ≤ 1 := by
    simp only [RecoverFactory.step, RecoverFactory.on_message]
    split
    · show List.count client ((startedFactory (κ := κ) db).run utc readonly before).clients ≤ 1
      rw [h0]; omega
    · rw [(initiate_cases hfb _ _).2.1, List.count_append, h0, List.count_singleton]
      simp
  have hf : FactoryOk f := (FactoryOk.started db).run utc readonly _
  have hle : f.clients.count client ≤ 1 := by
    show ((startedFactory db).run utc readonly (before ++ .message client payload :: middle)).clients.count client ≤ 1
    rw [factory_append]
    exact hcount middle _ (hfb.step utc readonly _) hm hmsg
  have hz : (f.step utc readonly (.closed client)).1.clients.count client = 0 := by
    show (f.clients.erase client).count client = 0
    rw [List.count_erase_self]
    omega
  exact (absent_run utc readonly after (hf.step utc readonly (.closed client)) ha hz).2

example : let f := (startedFactory newDatabase).run exUtc exReadonly [.message 1 (exAsk "a"), .message 2 (exAsk "a")]
    sentTo (f.run exUtc exReadonly [.closed 2, .progress .downloading]) 2 = [.update .started] :=
  (C59_others exUtc exReadonly newDatabase [.message 1 (exAsk "a")] [.progress .downloading] 2 (exAsk "a")
    (by intro p hp; simp at hp) (by intro p hp; simp at hp)).2 [] (by intro p hp; exact nomatch hp)

/-- C59: a message that is not a request for recovery changes nothing, and the connection it came from
is closed with code 4000.  Every other message is one of the requests the other theorems are about. -/
theorem C59_malformed (utc : String → Option String) (readonly : String → Option κ) (f : RecoverFactory κ)
    (client : Nat) (payload : Option Json) (h : ∀ cap, ¬ Asks readonly payload cap) :
    let g := (f.step utc readonly (.message client payload)).1
    g.node = f.node ∧ g.recovering_cap = f.recovering_cap ∧ g.clients = f.clients ∧
      sentTo g client = sentTo f client ++ [.close (some 4000)] := by
  have hp : ∃ e, parse_recovery_request readonly payload = .error e := by
    cases hp : parse_recovery_request readonly payload with
    | error e => exact ⟨e, rfl⟩
    | ok cap => exact absurd (parse_asks hp) (h cap)
  obtain ⟨e, hp⟩ := hp
  simp only [RecoverFactory.step, RecoverFactory.on_message, hp]
  refine ⟨trivial, trivial, trivial, ?_⟩
  simp [sentTo, List.filter_append]

example : ∀ cap, ¬ Asks exReadonly (some (.obj [("recovery-capability", .str "x")])) cap := by
  rintro cap ⟨s, h1, h2⟩
  simp only [Option.some.injEq, Json.obj.injEq, List.cons.injEq, Prod.mk.injEq, Json.str.injEq, true_and, and_true] at h1
  subst h1
  exact absurd h2 (by simp [exReadonly])

/-! ### C84: connections are closed when the recovery is over -/

/-- C84: when the recovery is over, a client that asked for it has been sent every update and then
the end of the connection. -/
def C84_statement : Prop :=
  ∀ (utc : String → Option String) (readonly : String → Option Nat) (db : Database)
    (before after : List FactoryStep) (client : Nat) (payload : Option Json) (cap : Nat),
    Silent client before → Silent client after → Stays client after → Asks readonly payload cap →
    let f := (startedFactory db).run utc readonly before
    let g := f.run utc readonly (.message client payload :: after)
    (f.recovering_cap = none ∨ f.recovering_cap = some cap) → Over g →
    sentTo g client = g.node.reported.map .update ++ [.close none]

/-- C84 does not hold: the connection of a client that asks after the recovery is over stays open. -/
theorem C84_fails : ¬ C84_statement := by
  intro h
  have := h exUtc exReadonly newDatabase [.message 1 (exAsk "a"), .downloaded (.error .valueError)] [] 2 (exAsk "a") 1
    (by intro p hp; simp at hp) (by intro p hp; exact nomatch hp) (fun h => nomatch h) ⟨"a", rfl, rfl⟩
    (by decide +kernel) (by unfold Over; decide +kernel)
  revert this
  decide +kernel

/-- C84 for clients that ask before the recovery is over; also, such a connection is not closed by the
server before that.  Missing: clients that ask later, where it is false. -/
theorem C84_partial (utc : String → Option String) (readonly : String → Option κ) (db : Database)
    (before after : List FactoryStep) (client : Nat) (payload : Option Json) (cap : κ)
    (hb : Silent client before) (ha : Silent client after) (hs : Stays client after)
    (hp : Asks readonly payload cap) :
    let f := (startedFactory db).run utc readonly before
    let g := f.run utc readonly (.message client payload :: after)
    (f.recovering_cap = none ∨ f.recovering_cap = some cap) → ¬ Over f →
    (Over g → sentTo g client = g.node.reported.map .update ++ [.close none]) ∧
    (¬ Over g → sentTo g client = g.node.reported.map .update) := by
  intro f g hcap hover
  have hf : FactoryOk f := (FactoryOk.started db).run utc readonly before
  obtain ⟨h0, hsent⟩ := absent_run utc readonly before (FactoryOk.started (κ := κ) db) hb rfl
  have h1 := ClientOk.asks hf h0 (hsent.trans rfl) hcap
  have hlate : (f.node.requested && !f.node.waiting) = false := by
    cases hr : f.node.requested with
    | false => rfl
    | true =>
      cases hw : f.node.waiting with
      | true => rfl
      | false => exact absurd ⟨hr, hw⟩ hover
  have h2 := h1.run utc readonly after ha hs
  rw [hlate] at h2
  have hg : g = (f.initiate_recovery cap client).1.run utc readonly after := by
    show f.run utc readonly (.message client payload :: after) = _
    rw [RecoverFactory.run]
    simp only [RecoverFactory.step, RecoverFactory.on_message, asks_parse hp]
  rw [← hg] at h2
  refine ⟨fun ho => ?_, fun ho => ?_⟩
  · rw [h2.sent, if_neg]
    simp [ho.2]
  · have hw : g.node.waiting = true := by
      cases hw : g.node.waiting with
      | true => rfl
      | false => exact absurd ⟨h2.requested, hw⟩ ho
    rw [h2.sent, if_pos (Or.inl hw), List.append_nil]

example : sentTo ((startedFactory newDatabase).run exUtc exReadonly [.message 1 (exAsk "a"), .message 2 (exAsk "a"),
      .progress .downloading, .downloaded (.ok (snapshotOnly exDump))]) 2 =
    [.update .started, .update .downloading, .update .succeeded, .close none] :=
  (C84_partial exUtc exReadonly newDatabase [.message 1 (exAsk "a")]
    [.progress .downloading, .downloaded (.ok (snapshotOnly exDump))] 2 (exAsk "a") 1
    (by intro p hp; simp at hp) (by intro p hp; simp at hp) (by unfold Stays; simp) ⟨"a", rfl, rfl⟩
    (by decide +kernel) (by unfold Over; decide +kernel)).1 (by unfold Over; decide +kernel)

end ZKAP
