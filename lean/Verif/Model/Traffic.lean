import Verif.Model.Conversation

/-!
Any number of operations of one storage client in progress at the same time, and their calls on the way to the server
and back.  The methods of `Model/StorageClient.lean` are run up to an `await` and go on when the answer arrives; what
happens between is up to the network.
-/
namespace ZKAP

/-- A method of the client that has been called: what it waits for, the answer that is on its way back, if the call
has arrived, and what it has done. -/
structure Ongoing where
  op : StorageOp
  state : OpState
  reply : Option Reply
  out : List Out

/-- The store of the client, its jobs in the order in which they were started, and the server. -/
structure Traffic where
  store : Tables
  jobs : List Ongoing
  server : Server

inductive TrafficEvent where
  /-- a method of the client is called; what `_get_rref` gives -/
  | start (op : StorageOp) (get_rref : Except PyErr RRef) (o : Order)
  /-- the call that the `i`-th job has made arrives at the server and is handled -/
  | arrive (i : Nat) (now : Int) (room : Nat → Bool)
  /-- the answer arrives at the client, and the job goes on -/
  | receive (i : Nat) (now : Int) (o : Order)
  /-- what other clients do at the server -/
  | others (ops : List ServerOp)

/-- One event: `_storage_client.py:415-679` between one `await` and the next, `_storage_server.py:316-640`.  Answers
and calls of different jobs can overtake each other. -/
def Traffic.step (sign : Signer) (cfg : ServerConfig) (pass_value : Int) (k : Traffic) : TrafficEvent → Traffic
  | .start op get_rref o =>
    let (state, out, t) := op_start sign o pass_value get_rref op k.store
    ⟨t, k.jobs ++ [⟨op, state, none, out⟩], k.server⟩
  | .arrive i now room =>
    match k.jobs[i]? with
    | some ⟨op, state, none, out⟩ =>
      match out.getLast? with
      | some (.sent _ r) =>
        let (server, reply) := server_reply cfg ⟨[], now, room, now, .natural⟩ k.server r
        ⟨k.store, k.jobs.set i ⟨op, state, some reply, out⟩, server⟩
      | _ => k
    | _ => k
  | .receive i now o =>
    match k.jobs[i]? with
    | some ⟨op, .asked, some reply, out⟩ =>
      let (state, out', t) := op_asked sign o pass_value now op reply k.store
      ⟨t, k.jobs.set i ⟨op, state, none, out ++ .got op reply now :: out'⟩, k.server⟩
    | some ⟨op, .paying c, some reply, out⟩ =>
      let (state, out', t) := op_paid sign o op c reply k.store
      ⟨t, k.jobs.set i ⟨op, state, none, out ++ .got op reply now :: out'⟩, k.server⟩
    | _ => k
  | .others ops => { k with server := k.server.run cfg ops }

def Traffic.run (sign : Signer) (cfg : ServerConfig) (pass_value : Int) (k : Traffic) (events : List TrafficEvent) :
    Traffic := events.foldl (Traffic.step sign cfg pass_value) k

end ZKAP
