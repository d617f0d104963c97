import Verif.Lemmas.LiteralFiles
import Verif.Props.LeaseMaintenance

/-! C178: lease maintenance in the presence of files that are too small to have shares. -/
namespace ZKAP
open Spec

/-- **C178** in full: once the nodes have been found, a maintenance run over servers that work completes
and renews every lease that expires soon, whether or not some of the nodes found are so small that they
have no storage index. -/
def C178_statement : Prop :=
  ∀ (ν : Type) (order : List (Option Bytes) → List (Option Bytes)), (∀ l, (order l).Perm l) →
  ∀ (g : NodeGraph ν (Option Bytes)) (fuel : Nat) (roots : List ν) (visited : List (Option Bytes)),
    visit_storage_indexes g fuel roots = some (.ok visited) → ProperIndexes g roots →
  ∀ (min_remaining : Int) (servers : List (LeaseServer Bytes × (Bytes → Dict Nat ShareStat))),
    (∀ p ∈ servers, Works p.1 p.2) →
    ∃ calls, maintain_leases order g fuel roots min_remaining
        (servers.map fun p => server_for_nodes p.1) = some (calls, .ok ()) ∧
      ∀ (i : Nat) p n si, servers[i]? = some p → Reachable g roots n → g.storage_index n = some si →
        (.renew i (some si) ∈ calls ↔ ExpiresSoon min_remaining p.1.now (p.2 si))

theorem mem_found_indexes {ν : Type} (order : List (Option Bytes) → List (Option Bytes))
    (horder : ∀ l, (order l).Perm l) (g : NodeGraph ν (Option Bytes)) (fuel : Nat) (roots : List ν)
    (visited : List (Option Bytes)) (found : visit_storage_indexes g fuel roots = some (.ok visited))
    (x : Option Bytes) :
    x ∈ order visited.eraseDups ↔ ∃ n, Reachable g roots n ∧ g.storage_index n = x := by
  rw [(horder _).mem_iff, List.mem_eraseDups]
  exact C41_visits_exactly_reachable g fuel roots visited found x

/-- **C178**, what happens instead: a single node without a storage index, anywhere in the tree,
makes every run fail before it renews anything, whatever the servers are. -/
theorem C178_nothing_renewed {ν : Type} (order : List (Option Bytes) → List (Option Bytes))
    (horder : ∀ l, (order l).Perm l) (g : NodeGraph ν (Option Bytes)) (fuel : Nat) (roots : List ν)
    (visited : List (Option Bytes)) (found : visit_storage_indexes g fuel roots = some (.ok visited))
    (n : ν) (reachable : Reachable g roots n) (small : g.storage_index n = none)
    (min_remaining : Int) (servers : List (LeaseServer Bytes)) (some_server : servers ≠ []) :
    maintain_leases order g fuel roots min_remaining (servers.map server_for_nodes) =
      some ([], .error violation) := by
  have hit : iter_storage_indexes order g fuel roots = some (.ok (order visited.eraseDups)) := by
    unfold iter_storage_indexes; rw [found]
  have hm := (mem_found_indexes order horder g fuel roots visited found none).mpr ⟨n, reachable, small⟩
  unfold maintain_leases
  rw [hit]
  cases servers with
  | nil => exact absurd rfl some_server
  | cons s rest =>
    simp only [renew_leases, List.map_cons, renew_servers, renew_leases_on_server]
    rw [show (server_for_nodes s).stat_shares (order visited.eraseDups) = .error violation from
      call_stat_shares_none _ _ hm]

/-- **C178**, for every run, whether or not its traversal succeeds and whatever servers there are: if
there is a node without a storage index, no lease is renewed. -/
theorem C178_no_renewals {ν : Type} (order : List (Option Bytes) → List (Option Bytes))
    (horder : ∀ l, (order l).Perm l) (g : NodeGraph ν (Option Bytes)) (fuel : Nat) (roots : List ν)
    (n : ν) (reachable : Reachable g roots n) (small : g.storage_index n = none)
    (min_remaining : Int) (servers : List (LeaseServer Bytes)) (calls : List (MaintCall (Option Bytes)))
    (result : Except PyErr Unit)
    (run : maintain_leases order g fuel roots min_remaining (servers.map server_for_nodes) =
      some (calls, result)) : renewals calls = [] := by
  cases hv : visit_storage_indexes g fuel roots with
  | none => simp [maintain_leases, iter_storage_indexes, hv] at run
  | some r =>
    cases r with
    | error e =>
      simp only [maintain_leases, iter_storage_indexes, hv, Option.some.injEq, Prod.mk.injEq] at run
      rw [← run.1]; rfl
    | ok visited =>
      cases servers with
      | nil =>
        simp only [maintain_leases, iter_storage_indexes, hv, renew_leases, List.map_nil, renew_servers,
          Option.some.injEq, Prod.mk.injEq] at run
        rw [← run.1]; rfl
      | cons s rest =>
        rw [C178_nothing_renewed order horder g fuel roots visited hv n reachable small min_remaining
          (s :: rest) (by simp)] at run
        simp only [Option.some.injEq, Prod.mk.injEq] at run
        rw [← run.1]; rfl

/-- **C178**, what holds: a run does all this if every node found has a storage index. -/
theorem C178_partial {ν : Type} (order : List (Option Bytes) → List (Option Bytes))
    (horder : ∀ l, (order l).Perm l) (g : NodeGraph ν (Option Bytes)) (fuel : Nat) (roots : List ν)
    (visited : List (Option Bytes)) (found : visit_storage_indexes g fuel roots = some (.ok visited))
    (proper : ProperIndexes g roots) (none_small : ∀ n, Reachable g roots n → g.storage_index n ≠ none)
    (min_remaining : Int) (servers : List (LeaseServer Bytes × (Bytes → Dict Nat ShareStat)))
    (work : ∀ p ∈ servers, Works p.1 p.2) :
    ∃ calls, maintain_leases order g fuel roots min_remaining
        (servers.map fun p => server_for_nodes p.1) = some (calls, .ok ()) ∧
      ∀ (i : Nat) p n si, servers[i]? = some p → Reachable g roots n → g.storage_index n = some si →
        (.renew i (some si) ∈ calls ↔ ExpiresSoon min_remaining p.1.now (p.2 si)) := by
  have hit : iter_storage_indexes order g fuel roots = some (.ok (order visited.eraseDups)) := by
    unfold iter_storage_indexes; rw [found]
  have hm := mem_found_indexes order horder g fuel roots visited found
  generalize order visited.eraseDups = sis at hit hm
  obtain ⟨l, rfl⟩ := all_some sis (by
    rintro x hx rfl
    obtain ⟨n, hr, hn⟩ := (hm none).mp hx
    exact none_small n hr hn)
  have hl : ∀ b ∈ l, b.length ≤ 16 := by
    intro b hb
    obtain ⟨n, hr, hn⟩ := (hm (some b)).mp (List.mem_map_of_mem hb)
    exact proper n b hr hn
  have hstat : ∀ p ∈ servers, (server_for_nodes p.1).stat_shares (l.map some) = .ok (l.map p.2) := by
    intro p hp
    rw [← (work p hp).stats l]
    exact call_stat_shares_some _ l hl
  have hok := C76_all_healthy_partial min_remaining (l.map some)
    (servers.map fun p => server_for_nodes p.1) (by
      intro s hs
      obtain ⟨p, hp, rfl⟩ := List.mem_map.mp hs
      refine ⟨⟨_, hstat p hp, ?_⟩, ?_⟩
      · intro d hd n st hst
        obtain ⟨si, _, rfl⟩ := List.mem_map.mp hd
        exact (work p hp).dates si n st hst
      · intro si hsi
        obtain ⟨b, _, rfl⟩ := List.mem_map.mp hsi
        exact (work p hp).leases b)
  have hrun : maintain_leases order g fuel roots min_remaining
      (servers.map fun p => server_for_nodes p.1) =
      some (renew_leases min_remaining (l.map some) (servers.map fun p => server_for_nodes p.1)) := by
    unfold maintain_leases; rw [hit]
  have hc := C40_renewed_iff_expiring_soon min_remaining (l.map some)
    (servers.map fun p => server_for_nodes p.1) hok
  generalize renew_leases min_remaining (l.map some) (servers.map fun p => server_for_nodes p.1) = r at *
  obtain ⟨calls, result⟩ := r
  dsimp only at hok
  subst hok
  refine ⟨calls, hrun, ?_⟩
  intro i p n si hi hr hn
  have hp : p ∈ servers := List.mem_of_getElem? hi
  have hb : some si ∈ l.map some := (hm (some si)).mpr ⟨n, hr, hn⟩
  rw [hc i (server_for_nodes p.1) (by rw [List.getElem?_map, hi]; rfl) (some si)]
  constructor
  · rintro ⟨shares, ⟨stats, j, hs, hj, hsh⟩, hsoon⟩
    rw [hstat p hp, Except.ok.injEq] at hs
    subst hs
    rw [List.getElem?_map] at hj hsh
    cases hlj : l[j]? with
    | none => simp [hlj] at hj
    | some b =>
      simp only [hlj, Option.map_some, Option.some.injEq] at hj hsh
      subst hj hsh
      exact hsoon
  · intro hsoon
    obtain ⟨b, hbl, hbe⟩ := List.mem_map.mp hb
    cases hbe
    obtain ⟨j, hj⟩ := List.getElem?_of_mem hbl
    exact ⟨p.2 si, ⟨_, j, hstat p hp, by rw [List.getElem?_map, hj]; rfl,
      by rw [List.getElem?_map, hj]; rfl⟩, hsoon⟩

/-- **C178**, what holds, from the tree alone: over readable directories without a cycle and with a
storage index for every node, a maintenance run ends, completes and renews what expires soon. -/
theorem C178_finite_partial {ν : Type} (order : List (Option Bytes) → List (Option Bytes))
    (horder : ∀ l, (order l).Perm l) (g : NodeGraph ν (Option Bytes)) (roots : List ν)
    (readable : ∀ n, Reachable g roots n → ∃ o, g.list n = .ok o) (finite : ∀ r ∈ roots, Finite g r)
    (proper : ProperIndexes g roots) (none_small : ∀ n, Reachable g roots n → g.storage_index n ≠ none)
    (min_remaining : Int) (servers : List (LeaseServer Bytes × (Bytes → Dict Nat ShareStat)))
    (work : ∀ p ∈ servers, Works p.1 p.2) :
    ∃ fuel calls, maintain_leases order g fuel roots min_remaining
        (servers.map fun p => server_for_nodes p.1) = some (calls, .ok ()) ∧
      ∀ (i : Nat) p n si, servers[i]? = some p → Reachable g roots n → g.storage_index n = some si →
        (.renew i (some si) ∈ calls ↔ ExpiresSoon min_remaining p.1.now (p.2 si)) := by
  obtain ⟨fuel, visited, hv⟩ := (C41_ends_partial g roots readable).mpr finite
  exact ⟨fuel, C178_partial order horder g fuel roots visited hv proper none_small min_remaining servers work⟩

/-! A directory with a file that has shares and a small file that has none. -/

/-- The directory is node 0, the file node 1, the small file node 2. -/
def exSmallFile : NodeGraph Nat (Option Bytes) where
  storage_index n := if n = 0 then some [1] else if n = 1 then some [7] else none
  list n := .ok (if n = 0 then some [("file", 1), ("small", 2)] else none)

/-- The same directory without the small file. -/
def exNoSmallFile : NodeGraph Nat (Option Bytes) where
  storage_index n := if n = 0 then some [1] else some [7]
  list n := .ok (if n = 0 then some [("file", 1)] else none)

/-- A server that holds a share of the file whose lease has ten seconds left. -/
def exFileShares (si : Bytes) : Dict Nat ShareStat := if si = [7] then [(0, ⟨100, 1010⟩)] else []
def exHolder : LeaseServer Bytes := ⟨fun sis => .ok (sis.map exFileShares), fun _ => .ok (), 1000 * 1000000⟩

theorem exHolder_works : Works exHolder exFileShares := by
  refine ⟨fun _ => rfl, ?_, fun _ => rfl⟩
  intro si n st h
  unfold exFileShares at h
  split at h
  · simp only [List.mem_singleton, Prod.mk.injEq] at h
    obtain ⟨_, rfl⟩ := h
    decide
  · exact nomatch h

theorem exSmallFile_proper (roots : List Nat) : ProperIndexes exSmallFile roots := by
  intro n si _ h
  simp only [exSmallFile] at h
  split at h
  · cases h; decide
  · split at h
    · cases h; decide
    · exact nomatch h

theorem exSmallFile_found : visit_storage_indexes exSmallFile 5 [0] = some (.ok [some [1], none, some [7]]) := by
  decide +kernel

/-- The full **C178** does not hold: the lease of the file is not renewed, because there is a
small file beside it. -/
theorem C178_fails : ¬ C178_statement := by
  intro h
  obtain ⟨calls, hrun, _⟩ := h Nat id (fun _ => .refl _) exSmallFile 5 [0] _ exSmallFile_found
    (exSmallFile_proper _) (60 * 1000000) [(exHolder, exFileShares)] (by
      intro p hp
      rw [List.mem_singleton.mp hp]
      exact exHolder_works)
  have := C178_nothing_renewed id (fun _ => .refl _) exSmallFile 5 [0] _ exSmallFile_found 2
    (.child (n := 0) (.root (by decide)) ⟨_, "small", rfl, by decide⟩) rfl (60 * 1000000) [exHolder]
    (by simp)
  rw [List.map_singleton] at hrun this
  rw [this] at hrun
  cases hrun

example : maintain_leases id exSmallFile 5 [0] (60 * 1000000) [server_for_nodes exHolder] =
    some ([], .error violation) := by decide +kernel

/-- Without the small file the lease is renewed. -/
example : ∃ calls, maintain_leases id exNoSmallFile 5 [0] (60 * 1000000) [server_for_nodes exHolder] =
    some (calls, .ok ()) ∧ .renew 0 (some [7]) ∈ calls := by
  obtain ⟨calls, hrun, hc⟩ := C178_partial id (fun _ => .refl _) exNoSmallFile 5 [0] [some [1], some [7]]
    (by decide +kernel)
    (by
      intro n si _ h
      simp only [exNoSmallFile] at h
      split at h <;> (cases h; decide))
    (by intro n _ h; simp only [exNoSmallFile] at h; split at h <;> exact nomatch h)
    (60 * 1000000) [(exHolder, exFileShares)] (by
      intro p hp
      rw [List.mem_singleton.mp hp]
      exact exHolder_works)
  refine ⟨calls, hrun, (hc 0 (exHolder, exFileShares) 1 [7] rfl ?_ rfl).mpr ⟨0, ⟨100, 1010⟩, by decide, by decide⟩⟩
  exact .child (n := 0) (.root (by decide)) ⟨_, "file", rfl, by decide⟩

end ZKAP
