import Verif.Lemmas.ServerSpent
import Verif.Props.ServerHistory

/-! Properties C86 and C87: what a server records as spent, and what its spending metric says. -/
namespace ZKAP
open Spec

/-! ### C86: only valid passes are recorded -/

/-- C86: what a server has recorded as spent after any history are, in order, preimages of passes that
were sent with requests and verify for them.  No pass is recorded more often than it was sent. -/
theorem C86_spent_was_valid (cfg : ServerConfig) (hv : 0 < cfg.pass_value) (b : SI → Bucket)
    (ops : List ServerOp) :
    ((Server.init b).run cfg ops).spent.Sublist (ops.flatMap (validPreimages cfg)) := by
  obtain ⟨new, obs, h1, _, h3, _⟩ := spent_run cfg hv ops (Server.init b)
  rw [h1]
  exact h3

/-- C86: so for each recorded preimage there is a request that carried the pass, which verifies for the
operation and the storage index of that request. -/
theorem C86_spent_from_request (cfg : ServerConfig) (hv : 0 < cfg.pass_value) (b : SI → Bucket)
    (ops : List ServerOp) (p : Bytes) (hp : p ∈ ((Server.init b).run cfg ops).spent) :
    ∃ op ∈ ops, ∃ message passes, request op = some (message, passes) ∧ ∃ wire ∈ passes, ∃ q,
      Pass.from_bytes wire = .ok q ∧ q.preimage = p ∧ cfg.verifies message q = true := by
  have h := (C86_spent_was_valid cfg hv b ops).subset hp
  obtain ⟨op, hop, h⟩ := List.mem_flatMap.1 h
  refine ⟨op, hop, ?_⟩
  unfold validPreimages at h
  cases hr : request op with
  | none => rw [hr] at h; exact nomatch h
  | some x =>
    obtain ⟨message, passes⟩ := x
    rw [hr] at h
    obtain ⟨wire, hw, hq⟩ := List.mem_filterMap.1 h
    refine ⟨message, passes, rfl, wire, hw, ?_⟩
    unfold validPreimage at hq
    cases hf : Pass.from_bytes wire with
    | error e => rw [hf] at hq; exact nomatch hq
    | ok q =>
      rw [hf] at hq
      simp only at hq
      split at hq
      · rename_i hver
        exact ⟨q, rfl, by simpa using hq, hver⟩
      · exact nomatch hq

/-- Of five passes sent with an upload that costs four, one does not verify; the upload is repeated, and
is free as the shares are being uploaded; then seven passes are sent with a write that costs five. -/
def exSpentOps : List ServerOp :=
  [.allocate (exAllocate [65, 90, 67, 68, 69]), .allocate (exAllocate [70, 71, 72, 73]),
    .addLease (exLease [74]), .writev (exWritev [65, 66, 67, 68, 69, 70, 90])]

example : (exServer.run exCfg exSpentOps).spent = [65, 67, 68, 69, 65, 66, 67, 68, 69, 70].map (List.replicate 88) ∧
    (exSpentOps.flatMap (validPreimages exCfg)).length = 15 := by
  decide +kernel

/-! ### C87: the spending metric -/

/-- C87, full statement: after any history the values observed by the spending metric add up to the
number of passes recorded as spent. -/
def C87_statement : Prop :=
  ∀ (cfg : ServerConfig), 0 < cfg.pass_value → ∀ (b : SI → Bucket), (∀ si, Dict.WF (b si)) →
    ∀ ops : List ServerOp, (∀ op ∈ ops, ∀ a, op = .writev a → Dict.WF a.tw_vectors) →
    ((Server.init b).run cfg ops).observed.sum = ((Server.init b).run cfg ops).spent.length

/-- It is false of the code: for a mutable write the price is observed, while every valid pass sent is
recorded as spent. -/
theorem C87_fails : ¬ C87_statement := by
  intro h
  have := h exCfg (by decide) exServer.buckets exServer_wf [.writev (exWritev [65, 66, 67, 68, 69, 70])]
    (by
      intro op hop a e
      simp only [List.mem_cons, List.not_mem_nil, or_false] at hop
      subst hop
      cases e
      exact exTw_wf)
  revert this
  decide +kernel

/-- C87, the part that holds: if no mutable write carries more valid passes than it costs,
the metric is exact. -/
theorem C87_partial (cfg : ServerConfig) (hv : 0 < cfg.pass_value) (b : SI → Bucket)
    (hb : ∀ si, Dict.WF (b si)) (ops : List ServerOp)
    (hops : ∀ op ∈ ops, ∀ a, op = .writev a → Dict.WF a.tw_vectors)
    (hs : NoSurplus cfg (Server.init b) ops) :
    ((Server.init b).run cfg ops).observed.sum = ((Server.init b).run cfg ops).spent.length := by
  obtain ⟨new, obs, h1, h2, _, _, h5⟩ := spent_run cfg hv ops (Server.init b)
  rw [h1, h2]
  exact h5 hb hops hs

/-- C87: the metric never shows more than was spent, for any history. -/
theorem C87_never_more (cfg : ServerConfig) (hv : 0 < cfg.pass_value) (b : SI → Bucket)
    (ops : List ServerOp) :
    ((Server.init b).run cfg ops).observed.sum ≤ ((Server.init b).run cfg ops).spent.length := by
  obtain ⟨new, obs, h1, h2, _, h4, _⟩ := spent_run cfg hv ops (Server.init b)
  rw [h1, h2]
  exact h4

example : let ops := [ServerOp.allocate (exAllocate [65, 90, 67, 68, 69]), .allocate (exAllocate [70, 71, 72, 73]),
      .addLease (exLease [74]), .writev (exWritev [65, 66, 67, 68, 69, 90])]
    NoSurplus exCfg (Server.init exServer.buckets) ops ∧
    ((Server.init exServer.buckets).run exCfg ops).observed = [4, 0, 5] := by
  refine ⟨⟨fun a e => (nomatch e), fun a e => (nomatch e), fun a e => (nomatch e), fun a e => ?_, trivial⟩, ?_⟩
  · cases e
    decide +kernel
  · decide +kernel

end ZKAP
