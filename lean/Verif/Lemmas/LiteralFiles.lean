import Verif.Spec.LiteralFiles
import Verif.Lemmas.LeaseMaintenance
import Verif.Lemmas.Wire

namespace ZKAP
open Spec

theorem stat_shares_args (l : List Wire) :
    ∃ schema, RIPrivacyPassAuthorizedStorageServer "stat_shares" = some schema ∧
      schema.checkArgs [.list l] = l.all StorageIndexConstraint.check := by
  refine ⟨_, rfl, ?_⟩
  show (true && ((Constraint.listOf StorageIndexConstraint none).check (.list l) && true)) = _
  rw [check_list, within_none, Bool.true_and, Bool.true_and, Bool.and_true]

/-- The call is not sent if there is no storage index for some node. -/
theorem call_stat_shares_none (answer : List Bytes → Except PyErr (List (Dict Nat ShareStat)))
    (sis : List (Option Bytes)) (h : none ∈ sis) : call_stat_shares answer sis = .error violation := by
  obtain ⟨schema, hs, hc⟩ := stat_shares_args (sis.map storage_index_to_wire)
  unfold call_stat_shares
  rw [hs]
  dsimp only
  rw [hc, if_neg]
  intro hall
  have := List.all_eq_true.mp hall Wire.none (List.mem_map.mpr ⟨none, h, rfl⟩)
  exact absurd this (by decide)

theorem wire_each_bytes (l : List Bytes) : wire_each wire_bytes (l.map Wire.bytes) = some l := by
  induction l with
  | nil => rfl
  | cons b l ih => simp only [List.map_cons, wire_each, wire_bytes, ih]

theorem call_stat_shares_some (answer : List Bytes → Except PyErr (List (Dict Nat ShareStat)))
    (l : List Bytes) (h : ∀ b ∈ l, b.length ≤ 16) :
    call_stat_shares answer (l.map some) = answer l := by
  obtain ⟨schema, hs, hc⟩ := stat_shares_args ((l.map some).map storage_index_to_wire)
  unfold call_stat_shares
  rw [hs]
  dsimp only
  have hw : (l.map some).map storage_index_to_wire = l.map Wire.bytes := by
    rw [List.map_map]; rfl
  rw [hc, hw, if_pos]
  · simp only [wire_list, wire_each_bytes]
  · rw [List.all_map, List.all_eq_true]
    intro b hb
    exact (check_storage_index b).mpr (h b hb)

theorem all_some {α} (l : List (Option α)) (h : ∀ x ∈ l, x ≠ none) : ∃ l' : List α, l = l'.map some := by
  induction l with
  | nil => exact ⟨[], rfl⟩
  | cons x l ih =>
    obtain ⟨l', rfl⟩ := ih fun y hy => h y (List.mem_cons_of_mem _ hy)
    cases x with
    | none => exact absurd rfl (h none List.mem_cons_self)
    | some a => exact ⟨a :: l', rfl⟩

end ZKAP
