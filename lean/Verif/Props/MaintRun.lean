import Verif.Lemmas.MaintRun
import Verif.Spec.MaintRun

/-! C166: a maintenance run that can be paid for is carried out. -/
namespace ZKAP
open Spec

/-- C166: for a node with any history and any list of servers that take part, a maintenance run completes, loses no
share, leaves enough lease on each, takes from the store the price of the leases that had to be renewed and no more, and
is recorded with the price of renewing everything. -/
theorem C166_well_tended (c : MaintScene) (h : CanTend c) : ∃ client servers, WellTended c client servers := by
  have hheld : Held c.client.store (c.client.paying.flatMap fun oc => holds oc.2) :=
    (session_inv_run h.works h.value c.history (sessionInv_init _ _) h.reissue).held
  have hstart : (StoreOp.maintStart c.started {}).step c.client.store =
      (.ok (.maint ⟨some (nextRowid (c.client.store.app.maint.map (·.id)))⟩),
        { c.client.store with
          app := { c.client.store.app with maint := (c.client.store.app.maint ++
            [⟨nextRowid (c.client.store.app.maint.map (·.id)), c.started, none, 0⟩]) } }) := rfl
  have hfresh := nextRowid_fresh (c.client.store.app.maint.map (·.id))
  have hn : Neutral (.maintStart c.started {}) := trivial
  have hav := available_neutral hn c.client.store
  have hst := stored_neutral hn c.client.store
  have hh := held_neutral hn hheld
  obtain ⟨t0, ht0⟩ : ∃ t0, t0 = ((StoreOp.maintStart c.started {}).step c.client.store).2 := ⟨_, rfl⟩
  rw [← ht0] at hav hst hh
  rw [hstart] at ht0
  dsimp only at ht0
  rw [← ht0] at hstart
  generalize hk : nextRowid (c.client.store.app.maint.map (·.id)) = k at ht0 hstart hfresh
  have hrow : runRow t0 k = some ⟨k, c.started, none, 0⟩ := by
    unfold runRow
    rw [ht0]
    dsimp only
    rw [List.find?_append, List.find?_eq_none.mpr, Option.none_or]
    · simp
    · intro r hr hc
      exact hfresh (List.mem_map.mpr ⟨r, hr, by simpa using hc⟩)
  obtain ⟨t', log', servers, h1, h2, h3, h4⟩ := tend_servers_fine h.value h.minimum h.distinct (k := k)
    (asked := c.client.asked) (paying := c.client.paying) (log := c.client.log) c.stops h.stops hh
    (fun stop hs => good_mono (fun x => (hav x).mp) (h.stops stop hs).tokens)
    (affords_mono (fun x => (hav x).mpr) (Int.le_refl _) h.affords)
  have hf : Neutral (.maintFinish c.finished ⟨some k⟩) := trivial
  refine ⟨⟨((StoreOp.maintFinish c.finished ⟨some k⟩).step t').2, c.client.asked, c.client.paying, log'⟩, servers,
    ?_, h3, ?_, ?_, k, ?_, ?_⟩
  · unfold MaintScene.run tend
    rw [hstart]
    exact h1
  · exact fun i stop server hi hj si hsi n share hs => h4 i stop server hi hj si hsi n share hs
  · dsimp only
    rw [stored_neutral hf, ← h2.stored, hst]
  · intro r hr hc
    exact hfresh (List.mem_map.mpr ⟨r, hr, hc⟩)
  · have := step_runRow (op := .maintFinish c.finished ⟨some k⟩) trivial (h2.row _ hrow)
    have := List.mem_of_find?_eq_some this
    unfold rowAfter observed finishTime finishTime at this
    simpa using this

/-! ### An example -/

/-- A node with seven tokens; a lease is to have a day remaining. -/
def exTender : MaintNode :=
  ⟨exSign88, 10, ⟨fun _ _ => [], fun _ _ => List.replicate 32 5, fun _ _ => [], fun _ _ => List.replicate 32 6⟩, [1], [2],
    24 * 60 * 60 * 1000000⟩

def exCall (now : Int) : Errand :=
  ⟨exRight, .natural, [⟨[], now, fun _ => true, now, .natural⟩, ⟨[], now, fun _ => true, now, .natural⟩]⟩

/-- At the first server the lease at index 9 is about to end, at index 8 there is a lease for a long time, and there is
nothing at index 7.  At the second the lease at index 7 ended long ago. -/
def exTour : MaintScene :=
  ⟨exTender, exShopper, [[7], [8], [9]],
    [⟨exCfg, [3], 99 * 1000000, exCall 99, fun _ => exCall 99, Server.init fun si =>
        if si = [9] then exShelf
        else if si = [8] then [(4, ⟨false, [], List.replicate 25 7, [⟨[5], 100000000⟩]⟩)] else []⟩,
      ⟨exCfg, [4], 200 * 1000000, exCall 201, fun _ => exCall 202, Server.init fun si =>
        if si = [7] then [(1, ⟨false, [], List.replicate 11 7, [⟨[6], 1⟩]⟩)] else []⟩], "2022", "2023"⟩

theorem exTour_indexes {P : SI → Prop} (h : P [7] ∧ P [8] ∧ P [9]) : ∀ si ∈ exTour.indexes, P si := by
  intro si hsi
  simp only [exTour, List.mem_cons, List.not_mem_nil, or_false] at hsi
  rcases hsi with rfl | rfl | rfl
  · exact h.1
  · exact h.2.1
  · exact h.2.2

theorem exCall_moments {now : Int} {P : Moment → Prop} (h : P ⟨[], now, fun _ => true, now, .natural⟩) :
    ∀ m ∈ (exCall now).moments, P m := by
  intro m hm
  simp only [exCall, List.mem_cons, List.not_mem_nil, or_false, or_self] at hm
  rw [hm]
  exact h

theorem exTour_canTend : CanTend exTour := by
  have h1 := exShop_canPay exExtend 99 (fun h => h)
    ⟨⟨⟨by decide, fun _ h => (nomatch h)⟩, by decide, by decide, by decide⟩, trivial⟩ rfl
    (fun t => by show bucketPrice 10 exShelf ≤ 7; decide) (fun _ => rfl)
  refine ⟨h1.value, h1.reissue, h1.tokens.works, by decide, by decide, ?_, ?_⟩
  · intro stop hs
    simp only [exTour, List.mem_cons, List.not_mem_nil, or_false] at hs
    rcases hs with rfl | rfl
    all_goals
      refine ⟨⟨rfl, ?_, ?_, ?_, ⟨rfl, fun _ _ => rfl⟩, ⟨by decide, fun _ _ => Nat.le_refl 2⟩,
        ⟨exCall_moments fun _ _ _ => rfl, fun _ _ => exCall_moments fun _ _ _ => rfl⟩,
        fun _ _ => exCall_moments fun _ => rfl, ⟨by decide, fun _ _ => exCall_moments (by decide)⟩,
        ⟨?_, exTour_indexes ⟨⟨?_, trivial⟩, ⟨?_, trivial⟩, ⟨?_, trivial⟩⟩⟩, exTour_indexes (by decide)⟩, h1.tokens⟩
      · intro si
        unfold Dict.WF
        dsimp only [Server.init]
        (repeat' split) <;> decide
      · refine exTour_indexes ⟨?_, ?_, ?_⟩ <;> exact ⟨by unfold Dict.WF; decide, by decide⟩
      · exact exTour_indexes (by decide)
      · exact exTour_indexes (by decide)
      all_goals exact ⟨⟨by decide, fun _ h => (nomatch h)⟩, by decide, by decide, by decide⟩
  · refine ⟨exTokens, by decide, ?_, ?_⟩
    · intro x hx
      rw [← exShop_available exExtend 99] at hx
      exact (mem_select_available _ _).mp hx
    · decide +kernel

/-- The run is carried out. -/
example : ∃ client servers, WellTended exTour client servers := C166_well_tended _ exTour_canTend

/-- Two leases are renewed, for four of the seven tokens; to renew all three would take seven. -/
example : exTour.stops.map exTour.expiring = [[[9]], [[7]]] ∧ (exTour.stops.map exTour.cost).sum = 4 ∧
    (exTour.stops.map exTour.value).sum = 7 := by
  decide +kernel

end ZKAP
