import Verif.Lemmas.Failures
import Verif.Props.Results

/-! Property C161: an operation that fails has no effect, against `Spec/Failures.lean`. -/
namespace ZKAP
open Spec

/-- The claim in full. -/
def C161_statement : Prop :=
  ∀ (c : Customer) (later : List Moment), Ordinary c → EndedBadly c later → NoEffect c later

/-- **C161**, where the server always has room for a lease.  Missing: a renewal or write during which it does not, see
`C161_half_renewed_fails`. -/
theorem C161_no_effect_partial (c : Customer) (later : List Moment) (h : Ordinary c)
    (hroom : ∀ m ∈ c.first :: c.second :: later, ∀ n, m.room n = true) (hend : EndedBadly c later) :
    NoEffect c later := by
  have inv := session_inv_run h.works h.value c.history (sessionInv_init c.sign c.cfg.pass_value) h.reissue
  have hheld := inv.held
  have hq := uneventful_converse (op := c.op) h.works h.value (S := c.client) hheld c.get_rref c.order c.server
    (c.first :: c.second :: later) hroom (cfg := c.cfg)
  obtain ⟨e, he⟩ := hend
  have hout : converse c.sign c.cfg c.cfg.pass_value c.op c.get_rref c.order c.client c.server
    (c.first :: c.second :: later) = c.outcome later := rfl
  rw [hout] at hq
  generalize hk : c.outcome later = k at hq he
  cases hq with
  | returned k r h' => rw [h'] at he; cases he
  | asked A log r b _ => rw [List.getLast?_concat] at he; cases he
  | paying t A c' log b R _ _ _ _ _ _ => rw [List.getLast?_concat] at he; cases he
  | raised t A log e b R i hR ha hh =>
    refine ⟨⟨i, by rw [hk]⟩, R, hR, by rw [hk]; exact ha, ?_⟩
    rw [hk]
    exact aside_available ha hheld hh

/-- A client with seven tokens; the server has two shares at index 9, the first with a lease of the client's and the
second without, and no room for a lease. -/
def exCrowded (room : Bool) : Customer :=
  { exShop exExtend 99 with
    server := Server.init (fun si => if si = [9] then [(0, ⟨true, [], List.replicate 15 7, [⟨List.replicate 32 5, 100⟩]⟩), (1, ⟨true, [], List.replicate 15 7, []⟩)] else []), first := ⟨[], 99, fun _ => room, 99, .natural⟩, second := ⟨[], 99, fun _ => room, 99, .natural⟩ }

/-- Whether the last thing that happened is that the operation ended with an exception. -/
def ends_badly (op : StorageOp) (l : List Out) : Bool :=
  match l.getLast? with
  | some (.raised op' _) => op' = op
  | _ => false

theorem ends_badly_ended {c : Customer} {later : List Moment}
    (h : ends_badly c.op (c.outcome later).client.log = true) : EndedBadly c later := by
  unfold ends_badly at h
  split at h
  · rename_i op e he
    rw [of_decide_eq_true h] at he
    exact ⟨e, he⟩
  · cases h

theorem exCrowded_ordinary (room : Bool) : Ordinary (exCrowded room) := by
  have h := exShop_canPay exExtend 99 (fun h => h)
    ⟨⟨⟨by decide, fun _ h => (nomatch h)⟩, by decide, by decide, by decide⟩, trivial⟩ rfl
    (fun t => by show bucketPrice 10 exShelf ≤ 7; decide) (fun _ => rfl)
  exact ⟨h.value, h.reissue, h.tokens.works⟩

/-- **C161** does not hold in full: the renewal fails for want of room, but the lease of the first share has been
renewed, at no cost. -/
theorem C161_half_renewed_fails : ¬ C161_statement := by
  intro h
  obtain ⟨k, hk⟩ := (h (exCrowded false) [] (exCrowded_ordinary false) (ends_badly_ended (by decide +kernel))).server
  have hr : ((List.take k [(exCrowded false).first, (exCrowded false).second]).flatMap (·.others)) = [] := by
    apply List.flatMap_eq_nil_iff.mpr
    intro m hm
    have := List.mem_of_mem_take hm
    rcases List.mem_cons.mp this with rfl | this
    · rfl
    · rw [List.mem_singleton.mp this]; rfl
  rw [hr] at hk
  have h2 : (((exCrowded false).outcome []).server.buckets [9]).map (fun kv => kv.2.leases.map (·.expiration)) ≠
      ((exCrowded false).server.buckets [9]).map (fun kv => kv.2.leases.map (·.expiration)) := by decide +kernel
  exact h2 (by rw [hk]; rfl)

/-- A write to a slot whose lease has run out at the server, without room for a new lease. -/
def exUnleased : Customer :=
  { exShop exEdit 101 with
    first := ⟨[], 101, fun _ => false, 101, .natural⟩, second := ⟨[], 101, fun _ => false, 101, .natural⟩ }

/-- Nor does it for writes: the bytes have been written, at no cost, and the client is told that the write failed. -/
theorem C161_written_fails : ¬ C161_statement := by
  intro h
  have ho : Ordinary exUnleased := ⟨(exEdit_canPay 101).value, (exEdit_canPay 101).reissue, (exEdit_canPay 101).tokens.works⟩
  obtain ⟨k, hk⟩ := (h exUnleased [] ho (ends_badly_ended (by decide +kernel))).server
  have hr : ((List.take k [exUnleased.first, exUnleased.second]).flatMap (·.others)) = [] := by
    apply List.flatMap_eq_nil_iff.mpr
    intro m hm
    have := List.mem_of_mem_take hm
    rcases List.mem_cons.mp this with rfl | this
    · rfl
    · rw [List.mem_singleton.mp this]; rfl
  rw [hr] at hk
  have h2 : ((exUnleased.outcome []).server.buckets [9]).map (fun kv => kv.2.data) =
      [[1, 2, 3] ++ List.replicate 12 7] := by decide +kernel
  rw [hk] at h2
  exact absurd h2 (by decide +kernel)

/-- A client with no tokens cannot renew the leases, and nothing happens. -/
example : NoEffect { exCrowded true with history := [] } [] :=
  C161_no_effect_partial _ _ ⟨(exCrowded_ordinary true).value, trivial, (exCrowded_ordinary true).works⟩ (by
    intro m hm n
    rcases List.mem_cons.mp hm with rfl | hm
    · rfl
    · rw [List.mem_singleton.mp hm]; rfl) (ends_badly_ended (by decide +kernel))

/-- Where the server rejects all passes, the client sets four of its tokens aside and then does not have four others. -/
def exStubborn : Customer :=
  { exCrowded true with
    cfg := { exCfg with verifies := fun _ _ => false } }

example : NoEffect exStubborn [] ∧ (exStubborn.outcome []).client.store.app.invalid.map (·.token) = ["a", "b", "c", "d"] :=
  ⟨C161_no_effect_partial _ _ ⟨(exCrowded_ordinary true).value, (exCrowded_ordinary true).reissue,
      (exCrowded_ordinary true).works⟩ (by
    intro m hm n
    rcases List.mem_cons.mp hm with rfl | hm
    · rfl
    · rw [List.mem_singleton.mp hm]; rfl) (ends_badly_ended (by decide +kernel)), by decide +kernel⟩

end ZKAP
