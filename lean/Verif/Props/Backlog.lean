import Verif.Lemmas.Backlog
import Verif.Props.Replication

/-! The amount of changes that are only on this machine: C123. -/
namespace ZKAP
open Spec

/-- Sizes for the examples: every statement has 100000 characters. -/
def exRepBig : RepEnv :=
  { stmt_size := fun _ => 100000, stream_size := fun l => 100000 * l.length, should_snapshot := fun _ _ => false }

example : TextCounted exRepBig := by
  intro l
  induction l with
  | nil => exact Nat.le_refl _
  | cons a l ih =>
    simp only [textLength, exRepBig, List.map_cons, List.sum_cons, List.length_cons] at ih ⊢
    omega

/-- **C123**: in every history, as long as the service runs, the changes that are neither being uploaded
nor about to be have less than 570000 characters of SQL. -/
theorem C123_backlog (env : RepEnv) (ht : TextCounted env) (n : Node) (steps : List RStep) (hn : Fresh n)
    (hr : Running (n.run env steps)) :
    UploadAhead (n.run env steps) ∨ textLength env (unsent (n.run env steps)) < 570000 := by
  have h := run_b (env := env) ht (fresh_b hn) (fun _ => hn.mutations) steps
  rcases h.bound with h1 | h1 | h1 | h1 | h1
  · exact absurd h1 hr.1
  · exact absurd h1 hr.2
  · exact .inl (.inl h1)
  · exact .inl (.inr (.inl h1))
  · rcases h1.2 with h2 | h2 | h2
    · exact .inr (Nat.lt_of_le_of_lt h1.1 h2)
    · exact .inl (.inr (.inr h2))
    · exact .inr (by rw [h2]; decide)

/-- After the setup and the upload of a voucher. -/
def exBacklog : List RStep :=
  exSetup ++ [.call exAdd, .linked, .uploaded, .listed]

/-- Four statements wait; two more calls and an upload is under way. -/
example : textLength exRepBig (unsent (Node.run exRepBig {} (exBacklog ++ [.call (.reset ["A"]), .call (.maintStart "m" {})]))) = 400000 ∧
    (Node.run exRepBig {} (exBacklog ++ [.call (.reset ["A"]), .call (.maintStart "m" {})])).activity = .idle ∧
    sending (Node.run exRepBig {} (exBacklog ++ [.call (.reset ["A"]), .call (.maintStart "m" {}),
      .call (.doubleSpent "now" "v"), .call (.maintFinish "m" ⟨some 1⟩)])).activity ≠ [] := by decide

/-- **C123**: only calls that record a voucher are recorded as important. -/
theorem C123_only_vouchers (op : StoreOp) (t : Tables) (ho : recordsVoucher op = false) :
    ∀ m ∈ (op.prog.run t).1, m.important = false := quiet_run (quiet_op ho) t

example : (exInsert.prog.run (runStore [exAdd] {})).1.length = 4 := by decide

/-- **C123**: no upload is begun or queued sooner: a call that does not record a voucher leaves the service as it
is, unless there is something important to upload or there are 570000 characters of SQL. -/
theorem C123_not_sooner (env : RepEnv) (n : Node) (op : StoreOp) (ho : recordsVoucher op = false)
    (hm : ∀ m ∈ n.mutations, m.important = false) (hi : n.important = false)
    (hs : n.size + (((n.mutations ++ (op.prog.run n.tables).1).flatMap (·.stmts)).map env.stmt_size).sum < 570000) :
    (n.call env op).2.activity = n.activity ∧ (n.call env op).2.jobs = n.jobs ∧
      (n.call env op).2.replica = n.replica := by
  unfold Node.call
  dsimp only
  have hq : ∀ ms, (ms = n.mutations ∨ ms = n.mutations ++ (op.prog.run n.tables).1) →
      ms.any (·.important) = false ∧ n.size + ((ms.flatMap (·.stmts)).map env.stmt_size).sum < 570000 := by
    intro ms hms
    rcases hms with rfl | rfl
    · refine ⟨by simpa using hm, ?_⟩
      rw [List.flatMap_append, List.map_append, List.sum_append] at hs
      omega
    · refine ⟨?_, hs⟩
      rw [List.any_eq_false]
      intro m h
      rcases List.mem_append.1 h with h | h
      · simp [hm m h]
      · simp [C123_only_vouchers op n.tables ho m h]
  split
  · exact ⟨rfl, rfl, rfl⟩
  · rename_i a tables hr
    generalize hms : (if n.activity = .off then n.mutations else n.mutations ++ (op.prog.run n.tables).1) = ms
    have hms' : ms = n.mutations ∨ ms = n.mutations ++ (op.prog.run n.tables).1 := by
      subst hms; split
      · exact .inl rfl
      · exact .inr rfl
    obtain ⟨h1, h2⟩ := hq ms hms'
    unfold Node.signal
    split
    · exact ⟨rfl, rfl, rfl⟩
    · have : should_upload_eventstream (n.important || ms.any (·.important))
          (n.size + ((ms.flatMap (·.stmts)).map env.stmt_size).sum) = false := by
        rw [hi, h1]
        simp only [should_upload_eventstream, Bool.or_self, Bool.false_or, decide_eq_false_iff_not]
        omega
      dsimp only [Node.add_events]
      rw [this]
      exact ⟨rfl, rfl, rfl⟩

/-- **C123**: what is counted. After a call the count is that before it and the length of the SQL recorded in the
call; unless something important was recorded or the count has reached 570000: then it starts again
from zero, with nothing important to upload. -/
theorem C123_count (env : RepEnv) (n : Node) (op : StoreOp) (a : Answer) (hoff : n.activity ≠ .off)
    (hok : (n.call env op).1 = .ok a) :
    let recorded := n.mutations ++ (op.prog.run n.tables).1
    let size := n.size + ((recorded.flatMap (·.stmts)).map env.stmt_size).sum
    let important := n.important = true ∨ ∃ m ∈ recorded, m.important = true
    recorded ≠ [] →
      ((¬ important ∧ size < 570000 → (n.call env op).2.size = size ∧ (n.call env op).2.important = false) ∧
       (important ∨ 570000 ≤ size → (n.call env op).2.size = 0 ∧ (n.call env op).2.important = false)) := by
  dsimp only
  intro hne
  unfold Node.call at hok ⊢
  dsimp only at hok ⊢
  rw [if_neg hoff]
  cases hr : (op.prog.run n.tables).2 with
  | error e => rw [hr] at hok; cases hok
  | ok x =>
    obtain ⟨a', tables⟩ := x
    dsimp only
    generalize hms : n.mutations ++ (op.prog.run n.tables).1 = ms at hne ⊢
    have hany : ms.any (·.important) = true ↔ ∃ m ∈ ms, m.important = true := by simp
    have hem : ms.isEmpty = false := by simpa using hne
    unfold Node.signal
    rw [hem]
    dsimp only [Node.add_events]
    rw [if_neg (by simp)]
    have hif : should_upload_eventstream (n.important || ms.any (·.important))
        (n.size + ((ms.flatMap (·.stmts)).map env.stmt_size).sum) = true ↔
        ((n.important = true ∨ ∃ m ∈ ms, m.important = true) ∨
          570000 ≤ n.size + ((ms.flatMap (·.stmts)).map env.stmt_size).sum) := by
      rw [← hany]
      simp only [should_upload_eventstream, Bool.or_eq_true, decide_eq_true_eq]
    constructor
    · rintro ⟨h1, h2⟩
      rw [if_neg (fun hc => (hif.mp hc).elim h1 (fun h => by omega))]
      refine ⟨rfl, ?_⟩
      rw [← hany] at h1
      simp only [not_or, Bool.not_eq_true] at h1
      dsimp only
      rw [h1.1, h1.2]
      rfl
    · intro h
      rw [if_pos (hif.mpr h)]
      exact ⟨rfl, rfl⟩

example : (Node.call exRepBig (Node.run exRepBig {} exBacklog) (.reset ["A"])).2.size = 300000 := by decide

example : let n := Node.run exRepBig {} exBacklog
    n.activity = .idle ∧ n.mutations = [] ∧ n.important = false ∧ n.size = 0 := by decide

end ZKAP
