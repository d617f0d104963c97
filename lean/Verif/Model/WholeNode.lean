import Verif.Model.Controller
import Verif.Model.StorageClient

/-!
A node's redemption of vouchers and its storage client at work together.  The plugin gives both the same
`VoucherStore`: `_plugin.py:199-218` `_get_store` makes one for a node, and `_plugin.py:294-316` `get_storage_client`
and `_plugin.py:318-342` `get_client_resource` (with `resource.py:156-162`, which makes the `PaymentController`) use it.
-/
namespace ZKAP

/-- The `PaymentController` (`resource.py:156-162`) and the storage clients (`_plugin.py:294-316`) of a node.  There is
one database, the store of both.  Simplified: the clients of all servers are one session. -/
structure WholeNode where
  redeeming : Controller := {}
  storage : StorageSession := {}

/-- What happens at the node: to its `PaymentController` (`controller.py:758-1104`), to its storage clients
(`_storage_client.py`), and the end of the process, which starts again as a whole. -/
inductive WholeEvent where
  | redeeming (e : RedeemEvent)
  | storage (e : SessionEvent)
  | crash

/-- `_plugin.py:294-342`: the events a part has by itself, besides those that are about the other part or the whole: the storage client
does not add vouchers or tokens, and what it does to the store is not an operation from elsewhere for the
controller. -/
def WholeEvent.possible : WholeEvent → Bool
  | .redeeming .crash | .redeeming (.other _) | .storage .restart => false
  | .storage (.other op) => notRedeeming op
  | _ => true

/-- One event, at the store that `_plugin.py:199-218` keeps for the node.  The storage client is called by the reactor, when no code of the controller is running
(`controller.py:911-1021` gives control back only where it waits for the issuer). -/
def WholeNode.step (cfg : RedeemCfg) (sign : Signer) (pass_value : Int) (n : WholeNode) (e : WholeEvent) : WholeNode :=
  if e.possible then
    match e with
    | .redeeming e =>
      let c := { n.redeeming with store := n.storage.store }.step cfg e
      ⟨c, { n.storage with store := c.store }⟩
    | .storage e =>
      if n.redeeming.todo.isEmpty then
        let s := n.storage.step sign pass_value e
        ⟨{ n.redeeming with store := s.store }, s⟩
      else n
    | .crash =>
      ⟨{ n.redeeming with store := n.storage.store }.step cfg .crash, n.storage.step sign pass_value .restart⟩
  else n

/-- The node over a list of events (`_plugin.py:199-218`: with the same store all along). -/
def WholeNode.run (cfg : RedeemCfg) (sign : Signer) (pass_value : Int) (n : WholeNode) (events : List WholeEvent) : WholeNode :=
  events.foldl (WholeNode.step cfg sign pass_value) n

end ZKAP
