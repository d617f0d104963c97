import Verif.Lemmas.Unreadable
import Verif.Props.LeaseMaintenance

/-! C179: lease maintenance in the presence of a directory that cannot be read. -/
namespace ZKAP
open Spec

/-- **C179** in full: over a finite tree and servers that work, a maintenance run ends and renews the
leases that expire soon of all files and directories that can be found, whether or not some other
directory cannot be read. -/
def C179_statement : Prop :=
  ∀ (ν σ : Type) [DecidableEq σ] (order : List σ → List σ), (∀ l, (order l).Perm l) →
  ∀ (g : NodeGraph ν σ) (roots : List ν), (∀ r ∈ roots, Finite g r) →
  ∀ (min_remaining : Int) (servers : List (LeaseServer σ × (σ → Dict Nat ShareStat))),
    (∀ p ∈ servers, Works p.1 p.2) →
    ∃ fuel calls result,
      maintain_leases order g fuel roots min_remaining (servers.map (·.1)) = some (calls, result) ∧
      ∀ (i : Nat) p n, servers[i]? = some p → Reachable g roots n →
        ExpiresSoon min_remaining p.1.now (p.2 (g.storage_index n)) →
        .renew i (g.storage_index n) ∈ calls

/-- **C179**, what happens instead: if a directory anywhere in the tree cannot be read, a run that ends has
done nothing, on no server, and fails as reading a directory of the tree does. -/
theorem C179_nothing_done {ν σ : Type} [DecidableEq σ] (order : List σ → List σ) (g : NodeGraph ν σ)
    (fuel : Nat) (roots : List ν) (n : ν) (reachable : Reachable g roots n) (e : PyErr)
    (unreadable : g.list n = .error e) (min_remaining : Int) (servers : List (LeaseServer σ))
    (calls : List (MaintCall σ)) (result : Except PyErr Unit)
    (run : maintain_leases order g fuel roots min_remaining servers = some (calls, result)) :
    calls = [] ∧ ∃ m e', Reachable g roots m ∧ g.list m = .error e' ∧ result = .error e' := by
  cases hv : visit_storage_indexes g fuel roots with
  | none => simp [maintain_leases, iter_storage_indexes, hv] at run
  | some r =>
    cases r with
    | error e' =>
      simp only [maintain_leases, iter_storage_indexes, hv, Option.some.injEq, Prod.mk.injEq] at run
      obtain ⟨m, hm, he⟩ := C41_error_from_listing g fuel roots e' hv
      exact ⟨run.1.symm, m, e', hm, he, run.2.symm⟩
    | ok visited =>
      obtain ⟨o, ho⟩ := visit_loop_readable g fuel _ visited hv n
        ((reachable_perm (fun x => List.mem_reverse) n).mpr reachable)
      rw [unreadable] at ho
      exact nomatch ho

/-- **C179**, what holds: a run does all this, completes, and renews nothing else of what it found, if every
directory can be read. -/
theorem C179_partial {ν σ : Type} [DecidableEq σ] (order : List σ → List σ)
    (horder : ∀ l, (order l).Perm l) (g : NodeGraph ν σ) (roots : List ν)
    (finite : ∀ r ∈ roots, Finite g r) (readable : ∀ n, Reachable g roots n → ∃ o, g.list n = .ok o)
    (min_remaining : Int) (servers : List (LeaseServer σ × (σ → Dict Nat ShareStat)))
    (work : ∀ p ∈ servers, Works p.1 p.2) :
    ∃ fuel calls,
      maintain_leases order g fuel roots min_remaining (servers.map (·.1)) = some (calls, .ok ()) ∧
      ∀ (i : Nat) p n, servers[i]? = some p → Reachable g roots n →
        (.renew i (g.storage_index n) ∈ calls ↔
          ExpiresSoon min_remaining p.1.now (p.2 (g.storage_index n))) := by
  obtain ⟨fuel, visited, hv⟩ := (C41_ends_partial g roots readable).mpr finite
  have hit : iter_storage_indexes order g fuel roots = some (.ok (order visited.eraseDups)) := by
    unfold iter_storage_indexes; rw [hv]
  have hm := (C41_indexes_distinct order horder g fuel roots _ hit).2
  generalize order visited.eraseDups = sis at hit hm
  have hok := C76_all_healthy_partial min_remaining sis (servers.map (·.1)) (by
    intro s hs
    obtain ⟨p, hp, rfl⟩ := List.mem_map.mp hs
    refine ⟨⟨_, (work p hp).stats sis, ?_⟩, fun si _ => (work p hp).leases si⟩
    intro d hd n st hst
    obtain ⟨si, _, rfl⟩ := List.mem_map.mp hd
    exact (work p hp).dates si n st hst)
  have hc := C40_renewed_iff_expiring_soon min_remaining sis (servers.map (·.1)) hok
  have hrun : maintain_leases order g fuel roots min_remaining (servers.map (·.1)) =
      some (renew_leases min_remaining sis (servers.map (·.1))) := by
    unfold maintain_leases; rw [hit]
  generalize renew_leases min_remaining sis (servers.map (·.1)) = r at *
  obtain ⟨calls, result⟩ := r
  dsimp only at hok
  subst hok
  refine ⟨fuel, calls, hrun, ?_⟩
  intro i p n hi hr
  have hp : p ∈ servers := List.mem_of_getElem? hi
  rw [hc i p.1 (by rw [List.getElem?_map, hi]; rfl) (g.storage_index n)]
  constructor
  · rintro ⟨shares, ⟨stats, j, hs, hj, hsh⟩, hsoon⟩
    rw [(work p hp).stats, Except.ok.injEq] at hs
    subst hs
    rw [List.getElem?_map, hj] at hsh
    simp only [Option.map_some, Option.some.injEq] at hsh
    subst hsh
    exact hsoon
  · intro hsoon
    obtain ⟨j, hj⟩ := List.getElem?_of_mem ((hm (g.storage_index n)).mpr ⟨n, hr, rfl⟩)
    exact ⟨_, ⟨_, j, (work p hp).stats sis, hj, by rw [List.getElem?_map, hj]; rfl⟩, hsoon⟩

/-! A directory with a file and a directory that cannot be read. -/

/-- The directory is node 0, the file node 1; node 2 is a directory of which too few shares are left. -/
def exLostDirectory : NodeGraph Nat Nat where
  storage_index n := n
  list n := if n = 0 then .ok (some [("file", 1), ("lost", 2)]) else if n = 1 then .ok none else .error (.other 5)

/-- The same after the unreadable directory has been unlinked. -/
def exUnlinked : NodeGraph Nat Nat where
  storage_index n := n
  list n := .ok (if n = 0 then some [("file", 1)] else none)

/-- A server that holds a share of the file whose lease has ten seconds left. -/
def exOneShare (si : Nat) : Dict Nat ShareStat := if si = 1 then [(0, ⟨100, 1010⟩)] else []
def exOneShareServer : LeaseServer Nat :=
  ⟨fun sis => .ok (sis.map exOneShare), fun _ => .ok (), 1000 * 1000000⟩

theorem exOneShareServer_works : Works exOneShareServer exOneShare := by
  refine ⟨fun _ => rfl, ?_, fun _ => rfl⟩
  intro si n st h
  unfold exOneShare at h
  split at h
  · simp only [List.mem_singleton, Prod.mk.injEq] at h
    obtain ⟨_, rfl⟩ := h
    decide
  · exact nomatch h

theorem exLostDirectory_finite : ∀ r ∈ [0], Finite exLostDirectory r := by
  intro r hr
  rw [List.mem_singleton.mp hr]
  refine Acc.intro _ ?_
  rintro m ⟨children, name, hl, hm⟩
  have hm' : m = 1 ∨ m = 2 := by
    simp only [exLostDirectory, if_true, Except.ok.injEq, Option.some.injEq] at hl
    subst hl
    simp only [List.mem_cons, Prod.mk.injEq, List.not_mem_nil, or_false] at hm
    exact hm.imp (·.2) (·.2)
  refine Acc.intro _ ?_
  rintro k ⟨children, name, hl, _⟩
  rcases hm' with rfl | rfl <;> exact nomatch hl

/-- The full **C179** does not hold: the lease of the file is not renewed, because there is a
directory beside it that cannot be read. -/
theorem C179_fails : ¬ C179_statement := by
  intro h
  obtain ⟨fuel, calls, result, hrun, hc⟩ := h Nat Nat id (fun _ => .refl _) exLostDirectory [0]
    exLostDirectory_finite (60 * 1000000) [(exOneShareServer, exOneShare)] (by
      intro p hp
      rw [List.mem_singleton.mp hp]
      exact exOneShareServer_works)
  have hfile : Reachable exLostDirectory [0] 1 :=
    .child (n := 0) (.root (by decide)) ⟨_, "file", rfl, by decide⟩
  have hlost : Reachable exLostDirectory [0] 2 :=
    .child (n := 0) (.root (by decide)) ⟨_, "lost", rfl, by decide⟩
  have hmem := hc 0 _ 1 rfl hfile ⟨0, ⟨100, 1010⟩, by decide, by decide⟩
  rw [(C179_nothing_done id exLostDirectory fuel [0] 2 hlost _ rfl _ _ calls result hrun).1] at hmem
  exact nomatch hmem

example : maintain_leases id exLostDirectory 5 [0] (60 * 1000000) [exOneShareServer] =
    some ([], .error (.other 5)) := by decide +kernel

/-- Once the unreadable directory has been unlinked, the lease is renewed. -/
example : ∃ fuel calls, maintain_leases id exUnlinked fuel [0] (60 * 1000000) [exOneShareServer] =
    some (calls, .ok ()) ∧ .renew 0 1 ∈ calls := by
  obtain ⟨fuel, calls, hrun, hc⟩ := C179_partial id (fun _ => .refl _) exUnlinked [0]
    (by
      intro r hr
      rw [List.mem_singleton.mp hr]
      refine Acc.intro _ ?_
      rintro m ⟨children, name, hl, hm⟩
      simp only [exUnlinked, if_true, Except.ok.injEq, Option.some.injEq] at hl
      subst hl
      simp only [List.mem_singleton, Prod.mk.injEq] at hm
      obtain ⟨_, rfl⟩ := hm
      exact Acc.intro _ fun k ⟨_, _, hl, _⟩ => nomatch hl)
    (fun n _ => ⟨_, rfl⟩) (60 * 1000000) [(exOneShareServer, exOneShare)] (by
      intro p hp
      rw [List.mem_singleton.mp hp]
      exact exOneShareServer_works)
  refine ⟨fuel, calls, hrun, (hc 0 (exOneShareServer, exOneShare) 1 rfl ?_).mpr
    ⟨0, ⟨100, 1010⟩, by decide, by decide⟩⟩
  exact .child (n := 0) (.root (by decide)) ⟨_, "file", rfl, by decide⟩

end ZKAP
