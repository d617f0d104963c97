import Verif.Spec.LiteralFiles
import Verif.Lemmas.LeaseMaintenance

namespace ZKAP
open Spec

theorem stack_reachable_cases {ν σ} (g : NodeGraph ν σ) (n : ν) (ns : List ν) {m : ν}
    (h : Reachable g (n :: ns) m) : m = n ∨ Reachable g (entries g n ++ ns) m := by
  induction h with
  | root hm =>
    rcases List.mem_cons.mp hm with rfl | hm
    · exact .inl rfl
    · exact .inr (.root (List.mem_append_right _ hm))
  | child _ hc ih =>
    rcases ih with rfl | ih
    · exact .inr (.root (List.mem_append_left _ ((mem_entries g _ _).mpr hc)))
    · exact .inr (.child ih hc)

/-- A traversal that succeeds has listed every directory. -/
theorem visit_loop_readable {ν σ} (g : NodeGraph ν σ) (fuel : Nat) (stack : List ν) (visited : List σ)
    (h : visit_loop g fuel stack = some (.ok visited)) :
    ∀ n, Reachable g stack n → ∃ o, g.list n = .ok o := by
  have hnil : ∀ n, Reachable g [] n → ∃ o, g.list n = .ok o := by
    intro n hn
    exfalso
    induction hn with
    | root hm => exact nomatch hm
    | child _ _ ih => exact ih
  induction fuel generalizing stack visited with
  | zero =>
    cases stack with
    | cons n ns => simp [visit_loop] at h
    | nil => exact hnil
  | succ fuel ih =>
    cases stack with
    | nil => exact hnil
    | cons n ns =>
      rw [visit_loop_succ] at h
      cases hg : g.list n with
      | error e => simp [hg] at h
      | ok o =>
        simp only [hg] at h
        cases hv : visit_loop g fuel (entries g n ++ ns) with
        | none => simp [hv] at h
        | some r =>
          cases r with
          | error e => simp [hv] at h
          | ok vs =>
            intro m hm
            rcases stack_reachable_cases g n ns hm with rfl | hm
            · exact ⟨o, hg⟩
            · exact ih _ _ hv m hm

end ZKAP
