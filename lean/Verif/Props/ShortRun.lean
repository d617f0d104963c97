import Verif.Lemmas.ShortRun
import Verif.Props.MaintRun

/-! C168: a maintenance run and a node without enough tokens. -/
namespace ZKAP
open Spec

/-- C168: a maintenance run leaves no lease to end that it could still pay for. -/
def C168_statement : Prop :=
  ∀ c : MaintScene, MayTend c → ∃ r client servers, c.run = some (r, client, servers) ∧
    ∀ (i : Nat) stop server, c.stops[i]? = some stop → servers[i]? = some server → ∀ si ∈ c.indexes,
      Affords client.store (c.price stop si) → LeftSafe c stop server si

/-- **C168**, what holds: if the tokens do not suffice for everything, the run does its work in order up to the first
index that it cannot pay for any more, and raises `NotEnoughTokens` there; nothing else is renewed, what was paid for is
all that was spent, and the run is not recorded as finished. -/
theorem C168_in_order_partial (c : MaintScene) (h : MayTend c) (poor : ¬ Affords c.client.store (c.stops.map c.cost).sum) :
    ∃ i stop before si after client servers, RanOut c i stop before si after client servers := by
  have hheld : Held c.client.store (c.client.paying.flatMap fun oc => holds oc.2) :=
    (session_inv_run h.works h.value c.history (sessionInv_init _ _) h.reissue).held
  have hstart : (StoreOp.maintStart c.started {}).step c.client.store =
      (.ok (.maint ⟨some (nextRowid (c.client.store.app.maint.map (·.id)))⟩),
        { c.client.store with
          app := { c.client.store.app with maint := (c.client.store.app.maint ++
            [⟨nextRowid (c.client.store.app.maint.map (·.id)), c.started, none, 0⟩]) } }) := rfl
  have hfresh := nextRowid_fresh (c.client.store.app.maint.map (·.id))
  have hn : Neutral (.maintStart c.started {}) := trivial
  have hav := available_neutral hn c.client.store
  have hst := stored_neutral hn c.client.store
  have hh := held_neutral hn hheld
  obtain ⟨t0, ht0⟩ : ∃ t0, t0 = ((StoreOp.maintStart c.started {}).step c.client.store).2 := ⟨_, rfl⟩
  rw [← ht0] at hav hst hh
  rw [hstart] at ht0
  dsimp only at ht0
  rw [← ht0] at hstart
  generalize hk : nextRowid (c.client.store.app.maint.map (·.id)) = k at ht0 hstart hfresh
  have hrow : runRow t0 k = some ⟨k, c.started, none, 0⟩ := by
    unfold runRow
    rw [ht0]
    dsimp only
    rw [List.find?_append, List.find?_eq_none.mpr, Option.none_or]
    · simp
    · intro r hr hc
      exact hfresh (List.mem_map.mpr ⟨r, hr, by simpa using hc⟩)
  obtain ⟨i, stop, before, si, after, t', log', servers, h1, h2⟩ := tend_servers_short h.value h.minimum h.distinct (k := k)
    (asked := c.client.asked) (paying := c.client.paying) (log := c.client.log) c.stops h.stops hh
    (fun stop hs => good_mono (fun x => (hav x).mp) (h.stops stop hs).tokens)
    (fun hc => poor (affords_mono (fun x => (hav x).mp) (Int.le_refl _) hc))
  refine ⟨i, stop, before, si, after, ⟨t', c.client.asked, c.client.paying, log'⟩, servers, ?_, h2.place, h2.due, ⟨?_, ?_⟩,
    h2.done, h2.undone, h2.all, ?_, ?_, k, ?_, ?_⟩
  · unfold MaintScene.run tend
    rw [hstart]
    exact h1
  · exact affords_mono (fun x => (hav x).mp) (Int.le_refl _) h2.enough
  · intro hc
    exact h2.short (affords_mono (fun x => (hav x).mpr) (Int.le_refl _) hc)
  · rw [← hst]
    exact h2.kept.stored
  · intro n
    constructor
    · intro hc
      exact affords_mono (fun x => (hav x).mp) (Int.le_refl _) (h2.kept.regain n hc)
    · intro hc
      have := h2.kept.affords _ (affords_mono (fun x => (hav x).mpr) (Int.le_refl _) hc)
      refine affords_mono (fun _ h => h) ?_ this
      unfold MaintScene.costBefore inDanger
      omega
  · intro r hr hc
    exact hfresh (List.mem_map.mpr ⟨r, hr, hc⟩)
  · have := List.mem_of_find?_eq_some (h2.kept.row _ hrow)
    rwa [Int.zero_add] at this

/-- Either the run succeeds or it ends in this way. -/
theorem C168_either_partial (c : MaintScene) (h : MayTend c) :
    (∃ client servers, WellTended c client servers) ∨
    ∃ i stop before si after client servers, RanOut c i stop before si after client servers := by
  by_cases ha : Affords c.client.store (c.stops.map c.cost).sum
  · exact .inl (C166_well_tended c ⟨h.value, h.reissue, h.works, h.distinct, h.minimum, h.stops, ha⟩)
  · exact .inr (C168_in_order_partial c h ha)

/-! ### The counterexample -/

/-- A node with seven tokens.  Both leases ended long ago; that of the share at index 7 costs eight tokens, that of the
share at index 9 one. -/
def exPoorTour : MaintScene :=
  ⟨exTender, exShopper, [[7], [9]],
    [⟨exCfg, [3], 99 * 1000000, exCall 99, fun _ => exCall 99, Server.init fun si =>
        if si = [7] then [(1, ⟨false, [], List.replicate 75 7, [⟨[6], 1⟩]⟩)]
        else if si = [9] then [(4, ⟨false, [], List.replicate 5 7, [⟨[5], 2⟩]⟩)] else []⟩], "2022", "2023"⟩

theorem exPoorTour_indexes {P : SI → Prop} (h : P [7] ∧ P [9]) : ∀ si ∈ exPoorTour.indexes, P si := by
  intro si hsi
  simp only [exPoorTour, List.mem_cons, List.not_mem_nil, or_false] at hsi
  rcases hsi with rfl | rfl
  · exact h.1
  · exact h.2

theorem exPoorTour_mayTend : MayTend exPoorTour := by
  have h1 := exShop_canPay exExtend 99 (fun h => h)
    ⟨⟨⟨by decide, fun _ h => (nomatch h)⟩, by decide, by decide, by decide⟩, trivial⟩ rfl
    (fun t => by show bucketPrice 10 exShelf ≤ 7; decide) (fun _ => rfl)
  refine ⟨h1.value, h1.reissue, h1.tokens.works, by decide, by decide, ?_⟩
  intro stop hs
  simp only [exPoorTour, List.mem_cons, List.not_mem_nil, or_false] at hs
  subst hs
  refine ⟨⟨rfl, ?_, ?_, ?_, ⟨rfl, fun _ _ => rfl⟩, ⟨by decide, fun _ _ => Nat.le_refl 2⟩,
    ⟨exCall_moments fun _ _ _ => rfl, fun _ _ => exCall_moments fun _ _ _ => rfl⟩,
    fun _ _ => exCall_moments fun _ => rfl, ⟨by decide, fun _ _ => exCall_moments (by decide)⟩,
    ⟨?_, exPoorTour_indexes ⟨⟨?_, trivial⟩, ⟨?_, trivial⟩⟩⟩, exPoorTour_indexes (by decide)⟩, h1.tokens⟩
  · intro si
    unfold Dict.WF
    dsimp only [Server.init]
    (repeat' split) <;> decide
  · refine exPoorTour_indexes ⟨?_, ?_⟩ <;> exact ⟨by unfold Dict.WF; decide, by decide⟩
  · exact exPoorTour_indexes (by decide)
  · exact exPoorTour_indexes (by decide)
  all_goals exact ⟨⟨by decide, fun _ h => (nomatch h)⟩, by decide, by decide, by decide⟩

theorem exPoorTour_tokens {n : Int} : Affords exPoorTour.client.store n ↔ n ≤ 7 := by
  have hall : ∀ x, Available exPoorTour.client.store x ↔ x ∈ exTokens := fun x => by
    rw [← mem_select_available, show exPoorTour.client.store = (exShop exExtend 99).client.store from rfl, exShop_available]
  constructor
  · rintro ⟨l, h1, h2, h3⟩
    have := nodup_subset_length h1 fun x hx => (hall x).mp (h2 x hx)
    have : exTokens.length = 7 := by decide
    omega
  · intro h
    exact ⟨exTokens, by decide, fun x hx => (hall x).mpr hx, h⟩

theorem exPoorTour_cost : (exPoorTour.stops.map exPoorTour.cost).sum = 9 := by decide +kernel

/-- The hypotheses of `C168_in_order_partial` can be met. -/
example : ∃ i stop before si after client servers, RanOut exPoorTour i stop before si after client servers :=
  C168_in_order_partial _ exPoorTour_mayTend (by rw [exPoorTour_tokens, exPoorTour_cost]; decide)

/-- The run of the example does nothing: it ends at the first index, with all seven tokens left. -/
theorem exPoorTour_ends {i : Nat} {stop : MaintStop} {before : List SI} {si : SI} {after : List SI} {client : StorageSession}
    {servers : List Server} (h : RanOut exPoorTour i stop before si after client servers) :
    i = 0 ∧ before = [] ∧ si = [7] ∧ after = [[9]] := by
  have hi : i = 0 := by
    cases i with
    | zero => rfl
    | succ i => exact nomatch h.place.1
  subst hi
  have hstop : stop = exPoorTour.stops.head (by decide) := by
    have := h.place.1
    injection this with this
    exact this.symm
  have hpl := h.place.2
  cases before with
  | nil =>
    injection hpl with h1 h2
    exact ⟨rfl, rfl, h1.symm, h2.symm⟩
  | cons x before =>
    exfalso
    injection hpl with h1 h2
    subst h1
    cases before with
    | nil =>
      have := exPoorTour_tokens.mp h.first.1
      rw [hstop] at this
      revert this
      decide +kernel
    | cons y before =>
      injection h2 with h3 h4
      cases before with
      | nil => exact nomatch h4
      | cons => exact nomatch h4

/-- The full **C168** does not hold: a lease that costs more than the tokens there are ends the run, and a lease for a
single token that comes later is left to end. -/
theorem C168_dear_lease_fails : ¬ C168_statement := by
  intro hst
  obtain ⟨r, client, servers, hrun, hall⟩ := hst exPoorTour exPoorTour_mayTend
  obtain ⟨i, stop, before, si, after, client', servers', h⟩ := C168_in_order_partial exPoorTour exPoorTour_mayTend
    (by rw [exPoorTour_tokens, exPoorTour_cost]; decide)
  have hsame := hrun.symm.trans h.ended
  injection hsame with hsame
  rw [Prod.mk.injEq, Prod.mk.injEq] at hsame
  obtain ⟨-, rfl, rfl⟩ := hsame
  obtain ⟨rfl, rfl, rfl, rfl⟩ := exPoorTour_ends h
  obtain ⟨server, hserver⟩ : ∃ server, servers[0]? = some server := by
    have := h.all
    cases servers with
    | nil => exact nomatch this
    | cons x l => exact ⟨x, rfl⟩
  have hstop : stop = exPoorTour.stops.head (by decide) := by
    have := h.place.1
    injection this with this
    exact this.symm
  have hsafe := hall 0 stop server h.place.1 hserver [9] (by decide) (by
    rw [h.usable, exPoorTour_tokens, hstop]
    decide +kernel)
  have hsame := h.undone.1 server hserver [9] (by decide)
  rw [hstop] at hsafe hsame
  obtain ⟨share', h1, -, l, h2, h3⟩ := hsafe 4 ⟨false, [], List.replicate 5 7, [⟨[5], 2⟩]⟩ rfl
  unfold StoredShare at h1
  rw [hsame] at h1
  have hsh : share' = ⟨false, [], List.replicate 5 7, [⟨[5], 2⟩]⟩ := by
    injection h1 with h1
    exact h1.symm
  rw [hsh] at h2
  rw [List.mem_singleton.mp h2] at h3
  exact absurd h3 (by decide)

end ZKAP
