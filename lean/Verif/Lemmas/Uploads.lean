import Verif.Spec.Uploads
import Verif.Props.Results
import Verif.Props.ServerReads

namespace ZKAP
open Spec

/-! ### A conversation as a list of requests -/

/-- What a remote call does at the server. -/
def performed (m : Moment) : StorageRequest → List ServerOp
  | .allocateBuckets passes si renew _ sharenums size canary =>
    [.allocate ⟨passes, si, renew, sharenums, size, canary, m.server_now, m.room⟩]
  | .addLease passes si renew _ => [.addLease ⟨passes, si, renew, m.server_now, m.room⟩]
  | .writev passes si secrets tw rv => [.writev ⟨passes, si, secrets.1, secrets.2.1, tw, rv, m.server_now, m.room⟩]
  | _ => []

theorem reply_run (cfg : ServerConfig) (m : Moment) (s : Server) (r : StorageRequest) :
    (server_reply cfg m s r).1 = s.run cfg (performed m r) := by
  cases r with
  | allocateBuckets passes si renew cancel nums size canary =>
    dsimp only [server_reply, performed, Server.run, List.foldl, Server.step]
    split <;> (rename_i hg; rw [hg])
  | addLease passes si renew cancel =>
    dsimp only [server_reply, performed, Server.run, List.foldl, Server.step]
    split <;> (rename_i hg; rw [hg])
  | writev passes si secrets tw rv =>
    dsimp only [server_reply, performed, Server.run, List.foldl, Server.step]
    split <;> (rename_i hg; rw [hg])
  | getBuckets si => dsimp only [server_reply]; split <;> rfl
  | readv si shares rv => dsimp only [server_reply]; split <;> rfl
  | _ => rfl

theorem first_call_performs {op : StorageOp} {r : StorageRequest} (h : FirstCall op r) (m : Moment) :
    performed m r = [] := by
  cases h with
  | renewal => rfl
  | write => rfl
  | free op h => cases op <;> first | rfl | exact absurd h fun h => h

theorem server_run_append (cfg : ServerConfig) (s : Server) (a b : List ServerOp) :
    s.run cfg (a ++ b) = (s.run cfg a).run cfg b := List.foldl_append ..

/-- A request of the operation, or one of other clients. -/
def PartOf (op : StorageOp) (ms : List Moment) (x : ServerOp) : Prop :=
  ∃ m ∈ ms, x ∈ m.others ∨ ∃ ps, x ∈ performed m (op.request ps)

theorem turn_run {sign : Signer} {cfg : ServerConfig} {v : Int} {op : StorageOp} {ms : List Moment} {k : Talk}
    (h : Stage cfg op ms k) {m : Moment} (hm : m ∈ ms) :
    ∃ ops, (∀ x ∈ ops, PartOf op ms x) ∧ (Talk.turn sign cfg v k m).server = k.server.run cfg ops := by
  have key : ∀ r, k.client.log.getLast? = some (.sent op r) → (FirstCall op r ∨ ∃ ps, r = op.request ps) →
      ∃ ops, (∀ x ∈ ops, PartOf op ms x) ∧ (Talk.turn sign cfg v k m).server = k.server.run cfg ops := by
    intro r hlast hr
    refine ⟨m.others ++ performed m r, ?_, ?_⟩
    · intro x hx
      rcases List.mem_append.mp hx with hx | hx
      · exact ⟨m, hm, .inl hx⟩
      · rcases hr with hr | ⟨ps, rfl⟩
        · rw [first_call_performs hr] at hx
          cases hx
        · exact ⟨m, hm, .inr ⟨ps, hx⟩⟩
    · unfold Talk.turn
      rw [hlast]
      dsimp only
      rw [reply_run, server_run_append]
  have over : (∀ op' r, k.client.log.getLast? ≠ some (.sent op' r)) →
      ∃ ops, (∀ x ∈ ops, PartOf op ms x) ∧ (Talk.turn sign cfg v k m).server = k.server.run cfg ops := by
    intro hlast
    refine ⟨[], (fun _ h => nomatch h), ?_⟩
    unfold Talk.turn
    split
    · rename_i hc
      exact absurd hc (hlast _ _)
    · rfl
  cases h with
  | asked t asked paying log r b s h => exact key r List.getLast?_concat (.inl h)
  | paying t asked paying c log ps b s h => exact key _ List.getLast?_concat (.inr ⟨ps, rfl⟩)
  | returned t asked paying log r b s h =>
    exact over fun op' r' hc => by rw [List.getLast?_concat] at hc; cases hc
  | raised t asked paying log e b s =>
    exact over fun op' r' hc => by rw [List.getLast?_concat] at hc; cases hc

/-- Everything that happened at the server in a conversation. -/
theorem converse_run {sign : Signer} {cfg : ServerConfig} {v : Int} {op : StorageOp}
    (rref : Except PyErr RRef) (o : Order) (client : StorageSession) (s : Server) (ms : List Moment) :
    ∃ ops, (∀ x ∈ ops, PartOf op ms x) ∧ (converse sign cfg v op rref o client s ms).server = s.run cfg ops := by
  unfold converse
  have : ∀ (l : List Moment) (k : Talk), (∀ m ∈ l, m ∈ ms) → Stage cfg op ms k →
      ∃ ops, (∀ x ∈ ops, PartOf op ms x) ∧ (l.foldl (Talk.turn sign cfg v) k).server = k.server.run cfg ops := by
    intro l
    induction l with
    | nil => intro k _ _; exact ⟨[], (fun _ h => nomatch h), rfl⟩
    | cons m l ih =>
      intro k hl h
      have hm : m ∈ ms := hl m List.mem_cons_self
      obtain ⟨a, ha, e1⟩ := turn_run (sign := sign) (v := v) h hm
      obtain ⟨b, hb, e2⟩ := ih _ (fun m' h' => hl m' (List.mem_cons_of_mem _ h')) (stage_turn (sign := sign) (v := v) h hm)
      refine ⟨a ++ b, ?_, ?_⟩
      · intro x hx
        rcases List.mem_append.mp hx with hx | hx
        · exact ha x hx
        · exact hb x hx
      · rw [server_run_append, ← e1]
        exact e2
  exact this ms _ (fun _ h => h) (stage_start rref o client s s)

/-! ### A writer stays until its upload ends -/

theorem writer_kept (cfg : ServerConfig) (s : Server) (ht : Tidy s) {w : Writer} (hw : w ∈ s.writers) {op : ServerOp}
    (ho : GoesOn w.bw w.canary op) : w ∈ (s.step cfg op).writers := by
  cases op with
  | allocate a =>
    show w ∈ (remote_allocate_buckets cfg a s).1.writers
    unfold remote_allocate_buckets
    split
    · exact hw
    · split
      · exact hw
      · have : ∀ (l : List Nat) (s : Server), w ∈ s.writers → w ∈ (l.foldl (open_writer a) s).writers := by
          intro l
          induction l with
          | nil => intro s hw; exact hw
          | cons n l ih => intro s hw; exact ih _ (List.mem_append_left _ hw)
        exact this _ _ hw
  | addLease a =>
    show w ∈ (remote_add_lease cfg a s).1.writers
    unfold remote_add_lease
    split
    · exact hw
    · split
      · exact hw
      · simp only []
        split <;> exact hw
  | writev a =>
    show w ∈ (remote_slot_writev cfg a s).1.writers
    unfold remote_slot_writev
    split
    · exact hw
    · split
      · exact hw
      · simp only []
        split
        · exact hw
        · split
          · exact hw
          · split <;> exact hw
  | close bw data =>
    have hne : bw ≠ w.bw := fun h => ho.1 data (by rw [h])
    show w ∈ (original_close s bw data).writers
    unfold original_close
    split
    · exact hw
    · rw [bucket_writer_closed_writers]
      exact List.mem_filter.mpr ⟨hw, by simpa using fun h => hne h.symm⟩
  | abort bw =>
    have hne : bw ≠ w.bw := fun h => ho.2.1 (by rw [h])
    show w ∈ (original_abort s bw).writers
    rw [(tidy_abort s ht bw).2]
    exact List.mem_filter.mpr ⟨hw, by simpa using fun h => hne h.symm⟩
  | disconnect c =>
    have hne : c ≠ w.canary := fun h => ho.2.2 (by rw [h])
    show w ∈ (ZKAP.disconnect s c).writers
    rw [(tidy_disconnect s ht c).2]
    exact List.mem_filter.mpr ⟨hw, by simpa using fun h => hne h.symm⟩

theorem writer_run (cfg : ServerConfig) (ops : List ServerOp) : ∀ (s : Server), Tidy s → ∀ {w : Writer}, w ∈ s.writers →
    (∀ op ∈ ops, GoesOn w.bw w.canary op) → w ∈ (s.run cfg ops).writers := by
  induction ops with
  | nil => intro s _ w hw _; exact hw
  | cons op ops ih =>
    intro s ht w hw ho
    exact ih _ (tidy_step cfg s ht op) (writer_kept cfg s ht hw (ho op List.mem_cons_self))
      fun x hx => ho x (List.mem_cons_of_mem _ hx)

end ZKAP
