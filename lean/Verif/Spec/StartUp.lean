import Verif.Model.StartUp
import Verif.Spec.Recovery

/-! What is recorded for replication. -/
namespace ZKAP.Spec

/-- The statements in the event stream of a database, in order. -/
def recorded (db : Database) : List Value := (columnValues db "event-stream" "statement").getD []

/-- The numbers of the events in the event stream of a database, in order. -/
def eventNumbers (db : Database) : List Value := (columnValues db "event-stream" "sequence-number").getD []

/-- A statement of a method of the store, which does not touch the event stream. -/
def storeChange : Sql → Bool
  | .insertNamed t _ | .insertOrIgnore t _ | .update t _ _ | .delete t _ => t != "event-stream"
  | _ => false

/-- The table for events is there, as the current version of the software knows it. -/
def HasEventStream (db : Database) : Prop :=
  ∃ t, db.tables.find? (fun t => t.schema.name == "event-stream") = some t ∧ t.schema ∈ schemaAt currentVersion

/-- A row for a voucher that software of this schema version can read: before version 8 times had no
time zone. -/
def ReadableAt (version : Nat) (r : VoucherRow) : Prop :=
  if version < 8 then ReadableLocal r else Readable r

end ZKAP.Spec
