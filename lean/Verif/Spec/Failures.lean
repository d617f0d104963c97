import Verif.Spec.BadTokens
import Verif.Spec.ServerReads

/-! What the property of `Verif.Props.Failures` talks about. -/
namespace ZKAP.Spec

/-- A client with any history and a server with any shares; the operation can be anything. -/
structure Ordinary (c : Customer) : Prop where
  value : 0 < c.cfg.pass_value
  reissue : NoReissueIn c.sign c.cfg.pass_value {} c.history
  works : Signs c.sign

/-- The operation ended with an exception. -/
def EndedBadly (c : Customer) (later : List Moment) : Prop :=
  ∃ e, (c.outcome later).client.log.getLast? = some (.raised c.op e)

/-- The operation had no effect.  The server is where what the others did until then has brought it.  The client has
the tokens it had, except for those it has set aside because the server pointed them out, and can spend them. -/
structure NoEffect (c : Customer) (later : List Moment) : Prop where
  server : ∃ k, (c.outcome later).server =
    c.server.run c.cfg (((c.first :: c.second :: later).take k).flatMap (·.others))
  tokens : ∃ rejected : List String, (∀ x ∈ rejected, Available c.client.store x) ∧
    (c.outcome later).client.store.app = { c.client.store.app with unblinded := c.client.store.app.unblinded.filter (·.token ∉ rejected), invalid := c.client.store.app.invalid ++ rejected.map (fun x => ⟨x, "signature check failed"⟩) } ∧
    ∀ x, Available (c.outcome later).client.store x ↔ Available c.client.store x ∧ x ∉ rejected

end ZKAP.Spec
