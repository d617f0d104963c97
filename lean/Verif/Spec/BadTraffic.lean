import Verif.Spec.Traffic
import Verif.Spec.BadTokens

/-! What the property of `Verif.Props.BadTraffic` talks about. -/
namespace ZKAP.Spec

/-- As `CanPayAll`, but only some of the tokens of the client are good.  The good ones are enough for all the operations
together. -/
structure CanPayAllWithGood (c : Household) (good : String → Prop) (first last : Int) (events : List TrafficEvent) :
    Prop where
  value : 0 < c.cfg.pass_value
  reissue : NoReissueIn c.sign c.cfg.pass_value {} c.history
  right : ∀ op get_rref o, .start op get_rref o ∈ events → RightServer get_rref
  paid : ∀ op ∈ started events, ¬ Free op ∧ Proper op
  apart : (started events).Pairwise fun a b => IsUpload a ∨ IsUpload b ∨ indexOf a ≠ indexOf b
  tokens : MixedTokens c.sign c.cfg c.store good
  each : ∀ op ∈ started events, c.cost first op ≤ 2 ^ 20
  affords : AffordsGood c.store good ((started events).map (c.cost first)).sum
  times : 0 ≤ first ∧ ∀ e ∈ events, ∀ now, TrafficEvent.time e = some now → first ≤ now ∧ now ≤ last
  tellable : ∀ op ∈ started events, ¬ IsUpload op → Tellable (c.bucket op)
  willing : ∀ i now room, .arrive i now room ∈ events → ∀ op ∈ started events, Willing (c.bucket op) room op
  leases : ∀ op ∈ started events, IsWrite op → ∀ kv ∈ c.bucket op, Leased kv.2 first → Leased kv.2 last
  undisturbed : ∀ before ops later, events = before ++ .others ops :: later → ∀ op ∈ started events, ¬ IsUpload op →
    ((c.after before).server.run c.cfg ops).buckets (indexOf op) = (c.after before).server.buckets (indexOf op)

/-- No operation has failed and those that are over have returned.  These tokens have been set aside: they are bad
ones, and beyond two calls for each operation there has been at most one for each of them. -/
structure NoneFailsFor (c : Household) (good : String → Prop) (events : List TrafficEvent) (aside : List String) :
    Prop where
  jobs : (c.after events).jobs.map (·.op) = started events
  none_failed : ∀ job ∈ (c.after events).jobs, ∀ op e, .raised op e ∉ job.out
  finished : ∀ job ∈ (c.after events).jobs, roundTrips job = 0 → ∃ r, job.out.getLast? = some (.returned job.op r)
  bad : aside.Nodup ∧ ∀ x ∈ aside, Available c.store x ∧ ¬ good x
  invalid : (c.after events).store.app.invalid =
    c.store.app.invalid ++ aside.map (fun x => ⟨x, "signature check failed"⟩)
  calls : ((c.after events).jobs.map callsMade).sum ≤ 2 * (started events).length + aside.length
  /-- When nothing is going on any more, the tokens that are gone from the store are those that were set aside and one
  for each pass that the server has recorded. -/
  books : (∀ job ∈ (c.after events).jobs, roundTrips job = 0) → (∀ ops, .others ops ∉ events) →
    (storedTokens (c.after events).store).length + aside.length + (c.after events).server.spent.length =
      (storedTokens c.store).length + c.server.spent.length

/-- A call that arrives is answered, and after an answer that arrives there is one round trip less to be made or one
bad token more that has been set aside. -/
structure MovesOn (c : Household) (before : List TrafficEvent) (e : TrafficEvent) (i : Nat) (job : Ongoing) : Prop where
  answered : ∀ now room, e = .arrive i now room → roundTrips job ≠ 0 →
    ∃ job', (c.after (before ++ [e])).jobs[i]? = some job' ∧ job'.reply.isSome ∧ roundTrips job' = roundTrips job
  nearer : ∀ now o, e = .receive i now o → job.reply.isSome →
    ∃ job', (c.after (before ++ [e])).jobs[i]? = some job' ∧
      (roundTrips job' + 1 = roundTrips job ∨ roundTrips job' = roundTrips job ∧
        (c.after before).store.app.invalid.length < (c.after (before ++ [e])).store.app.invalid.length)
  kept : (∀ now room, e ≠ .arrive i now room) → (∀ now o, e ≠ .receive i now o) →
    (c.after (before ++ [e])).jobs[i]? = some job

end ZKAP.Spec
