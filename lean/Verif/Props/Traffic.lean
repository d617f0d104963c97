import Verif.Lemmas.Traffic
import Verif.Props.Conversation

/-! Property C162: operations that go on at the same time do not get in each other's way, against
`Spec/Traffic.lean`. -/
namespace ZKAP
open Spec

theorem started_append (a b : List TrafficEvent) : started (a ++ b) = started a ++ started b := by
  induction a with
  | nil => rfl
  | cons e a ih => cases e <;> simp [started, ih]

theorem after_snoc (c : Household) (before : List TrafficEvent) (e : TrafficEvent) :
    c.after (before ++ [e]) = (c.after before).step c.sign c.cfg c.cfg.pass_value e := by
  unfold Household.after Traffic.run
  rw [List.foldl_append]
  rfl

theorem fine_all {c : Household} {first last : Int} {events : List TrafficEvent} (h : CanPayAll c first last events) :
    ∀ op ∈ started events, OpFine c first last op := fun op hop =>
  ⟨(h.paid op hop).1, (h.paid op hop).2, h.each op hop, h.tellable op hop, h.leases op hop⟩

/-- The invariant at every moment. -/
theorem inv_always {c : Household} {first last : Int} {events : List TrafficEvent} (h : CanPayAll c first last events) :
    ∃ H, ∀ before later, events = before ++ later →
      TrafficInv c first last H (started events) (started later) (c.after before) := by
  have inv := session_inv_run h.tokens.works h.value c.history (sessionInv_init c.sign c.cfg.pass_value) h.reissue
  have hheld := inv.held
  have hstore : (StorageSession.run c.sign c.cfg.pass_value {} c.history).store = c.store := rfl
  rw [hstore] at hheld
  generalize (StorageSession.run c.sign c.cfg.pass_value {} c.history).paying.flatMap _ = H at hheld
  refine ⟨H, ?_⟩
  have hfine := fine_all h
  have key : ∀ (n : Nat) (before later : List TrafficEvent), before.length = n → events = before ++ later →
      TrafficInv c first last H (started events) (started later) (c.after before) := by
    intro n
    induction n with
    | zero =>
      intro before later hn he
      rw [List.eq_nil_of_length_eq_zero hn] at he ⊢
      rw [List.nil_append] at he
      subst he
      refine ⟨by simpa [Household.after, Traffic.run] using hheld, fun x hx hn => ?_, ?_, fun j hj => ?_, rfl, fun _ _ _ => rfl⟩
      · exact (available_iff hheld x).mpr ⟨hx, hn⟩
      · simpa [Household.after, Traffic.run] using h.affords
      · cases hj
    | succ n ih =>
      intro before later hn he
      rcases List.eq_nil_or_concat before with rfl | ⟨b, e, rfl⟩
      · cases hn
      · rw [List.concat_eq_append] at *
        rw [List.length_append] at hn
        have he' : events = b ++ e :: later := by rw [he]; simp
        have hi := ih b (e :: later) (by simpa using hn) he'
        have hmem : e ∈ events := by rw [he']; simp
        rw [after_snoc]
        cases e with
        | start op rref o =>
          exact inv_start h.value h.tokens hi (hfine op (by rw [he', started_append]; simp [started])) (h.right op rref o hmem) o
        | arrive i now room =>
          have ht := h.times.2 _ hmem now rfl
          exact inv_arrive h.value ht.1 ht.2 hi hfine h.apart (h.willing i now room hmem) i
        | receive i now o =>
          have ht := h.times.2 _ hmem now rfl
          exact inv_receive h.value h.tokens h.times.1 ht.1 ht.2 hi hfine i o
        | others ops => exact inv_others hi (h.undisturbed b ops later he')
  exact fun before later he => key _ before later rfl he

/-- **C162**, what holds at every moment. -/
theorem C162_none_fails (c : Household) (first last : Int) (events : List TrafficEvent)
    (h : CanPayAll c first last events) (before later : List TrafficEvent) (he : events = before ++ later) :
    NoneFails c before := by
  obtain ⟨H, hinv⟩ := inv_always h
  have hi := hinv before later he
  constructor
  · have := hi.ops
    rw [he, started_append] at this
    exact List.append_cancel_right this
  · intro job hj
    cases hi.going job hj with
    | asked => intro op e hc; simp at hc
    | paying op g reply out _ _ _ clean _ => intro op e hc; simp at hc; exact clean _ _ hc
    | over op r out clean _ => intro op e hc; simp at hc; exact clean _ _ hc
  · intro job hj
    cases hi.going job hj with
    | asked => exact ⟨Nat.le_refl 3, Nat.le_succ 1⟩
    | paying op g reply out _ _ _ _ calls =>
      have : callsMade ⟨op, .paying ⟨op.on_success c.cfg.pass_value, c.cost first op, g⟩, reply,
          out ++ [.sent op (op.request (g.passes.map Pass.pass_bytes))]⟩ = sents out + 1 := sents_append out _
      rw [this]
      dsimp only [roundTrips]
      omega
    | over op r out _ calls =>
      have : callsMade ⟨op, .over, none, out ++ [.returned op r]⟩ = sents out + 0 := sents_append out _
      rw [this]
      dsimp only [roundTrips]
      omega
  · intro job hj h0
    cases hi.going job hj with
    | asked => cases h0
    | paying => cases h0
    | over op r out _ _ => exact ⟨r, by rw [List.getLast?_concat]⟩

/-- **C162**, how operations get on. -/
theorem C162_moves (c : Household) (first last : Int) (events : List TrafficEvent)
    (h : CanPayAll c first last events) (before later : List TrafficEvent) (e : TrafficEvent)
    (he : events = before ++ e :: later) (i : Nat) (job : Ongoing) (hj : (c.after before).jobs[i]? = some job) :
    Moves c before e i job := by
  obtain ⟨H, hinv⟩ := inv_always h
  have hi := hinv before (e :: later) he
  have hfine := fine_all h
  have hmem : e ∈ events := by rw [he]; simp
  constructor
  · rintro now room rfl h0
    rw [after_snoc]
    generalize c.after before = k at hi hj
    have hlt : i < k.jobs.length := (List.getElem?_eq_some_iff.mp hj).1
    have hgo := hi.going job (List.mem_of_getElem? hj)
    obtain ⟨op, r, hlast⟩ : ∃ op r, job.out.getLast? = some (.sent op r) := by
      cases hgo with
      | asked op r => exact ⟨op, r, rfl⟩
      | paying op g reply out => exact ⟨op, _, List.getLast?_concat⟩
      | over => exact absurd rfl h0
    obtain ⟨op', state, reply, out⟩ := job
    cases reply with
    | some x => exact ⟨⟨op', state, some x, out⟩, by dsimp only [Traffic.step]; rw [hj]; exact hj, rfl, rfl⟩
    | none =>
      dsimp only at hlast
      dsimp only [Traffic.step]
      rw [hj]
      dsimp only
      rw [hlast]
      dsimp only
      rw [List.getElem?_set_self hlt]
      exact ⟨_, rfl, rfl, rfl⟩
  · rintro now o rfl h0
    have ht := h.times.2 _ hmem now rfl
    rw [after_snoc]
    generalize c.after before = k at hi hj
    have hlt : i < k.jobs.length := (List.getElem?_eq_some_iff.mp hj).1
    have hgo := hi.going job (List.mem_of_getElem? hj)
    obtain ⟨t, jobs, s⟩ := k
    dsimp only at hj hlt
    obtain ⟨a, b, hsplit, hset⟩ := set_split hj
    have hall : job.op ∈ started events := by
      rw [← hi.ops]
      simp [hsplit]
    cases hgo with
    | asked op r reply hu hfirst hs hr =>
      cases reply with
      | none => cases h0
      | some x =>
        obtain ⟨state, out', t', ha⟩ := asked_on h.value h.tokens h.times.1 ht.1 ht.2 hi hfine hj o
        dsimp only [Traffic.step]
        rw [hj]
        dsimp only
        rw [ha]
        dsimp only
        rw [List.getElem?_set_self hlt]
        exact ⟨_, rfl, rfl⟩
    | paying op g reply out hg hn hr clean calls =>
      cases reply with
      | none => cases h0
      | some x =>
        obtain ⟨w, r, n, rfl, e2⟩ := hr _ rfl
        have hheld := hi.held
        dsimp only at hheld
        rw [hsplit] at hheld
        simp only [List.flatMap_append, List.flatMap_cons, jobTokens] at hheld
        rw [← List.append_assoc, ← List.append_assoc] at hheld
        obtain ⟨t', p1, -⟩ := receive_paid (sign := c.sign) h.value (n := c.cost first op) hheld o e2
        dsimp only [Traffic.step]
        rw [hj]
        dsimp only
        rw [p1]
        dsimp only
        rw [List.getElem?_set_self hlt]
        exact ⟨_, rfl, rfl⟩
    | over => cases h0
  · intro h1 h2
    rw [after_snoc]
    generalize c.after before = k at hj
    have hlt : i < k.jobs.length := (List.getElem?_eq_some_iff.mp hj).1
    cases e with
    | start op rref o =>
      dsimp only [Traffic.step]
      rw [List.getElem?_append_left hlt]
      exact hj
    | arrive j now room =>
      have hne : j ≠ i := fun hc => h1 now room (by rw [hc])
      dsimp only [Traffic.step]
      split
      · split
        · dsimp only
          rw [List.getElem?_set_ne hne]
          exact hj
        · exact hj
      · exact hj
    | receive j now o =>
      have hne : j ≠ i := fun hc => h2 now o (by rw [hc])
      dsimp only [Traffic.step]
      split
      · dsimp only
        rw [List.getElem?_set_ne hne]
        exact hj
      · dsimp only
        rw [List.getElem?_set_ne hne]
        exact hj
      · exact hj
    | others ops => exact hj

/-- A client with seven tokens and a server with a slot at index 9. -/
def exHouse : Household :=
  ⟨exSign88, exCfg, exShopper, Server.init (fun si => if si = [9] then exShelf else [])⟩

/-- A renewal and an upload at the same index at the same time.  The answer to the upload overtakes that to the question
of the renewal. -/
def exRush : List TrafficEvent :=
  [.start exExtend exRight .natural, .start exPut exRight .natural, .arrive 0 99 (fun _ => true),
    .arrive 1 100 (fun _ => true), .receive 1 100 .natural, .receive 0 101 .natural, .arrive 0 102 (fun _ => true),
    .receive 0 103 .natural]

theorem exRush_started (op : StorageOp) : op ∈ started exRush ↔ op = exExtend ∨ op = exPut := by
  show op ∈ [exExtend, exPut] ↔ _
  simp

theorem exRush_canPay : CanPayAll exHouse 99 103 exRush := by
  have h1 := exShop_canPay exExtend 99 (fun h => h)
    ⟨⟨⟨by decide, fun _ h => (nomatch h)⟩, by decide, by decide, by decide⟩, trivial⟩ rfl
    (fun t => by show bucketPrice 10 exShelf ≤ 7; decide) (fun _ => rfl)
  have h2 := exShop_canPay exPut 99 (fun h => h)
    ⟨⟨⟨by decide, fun _ h => (nomatch h)⟩, by decide, by decide, by decide, by decide, by
      intro n hn
      rcases List.mem_cons.mp hn with rfl | hn
      · decide
      · rw [List.mem_singleton.mp hn]; decide, by decide⟩, trivial⟩ rfl
    (fun t => by show total 10 (List.replicate 2 12) ≤ 7; decide) trivial
  have c1 : exHouse.cost 99 exExtend = 2 := by show bucketPrice 10 exShelf = 2; decide
  have c2 : exHouse.cost 99 exPut = 4 := by show total 10 (List.replicate 2 12) = 4; decide
  have hrange : ∀ e ∈ exRush, ∀ now, TrafficEvent.time e = some now → 99 ≤ now ∧ now ≤ 103 := by
    intro e he now hn
    simp only [exRush, List.mem_cons, List.not_mem_nil, or_false] at he
    rcases he with rfl | rfl | rfl | rfl | rfl | rfl | rfl | rfl <;> cases hn <;> decide
  refine ⟨⟨⟨h1.value, ?_, ?_, ?_, ?_, ?_, ⟨by decide, hrange⟩, ?_, ?_, ?_, ?_⟩, h1.reissue⟩, h1.tokens⟩
  · intro op g o hm
    simp [exRush] at hm
    rcases hm with ⟨rfl, rfl, rfl⟩ | ⟨rfl, rfl, rfl⟩ <;> rfl
  · intro op hop
    rcases (exRush_started op).mp hop with rfl | rfl
    · exact ⟨h1.paid, h1.proper⟩
    · exact ⟨h2.paid, h2.proper⟩
  · show List.Pairwise _ [exExtend, exPut]
    simp [exPut, IsUpload]
  · intro op hop
    rcases (exRush_started op).mp hop with rfl | rfl
    · rw [c1]; decide
    · rw [c2]; decide
  · refine ⟨exTokens, by decide, ?_, ?_⟩
    · intro x hx
      rw [← exShop_available exExtend 99] at hx
      exact (mem_select_available _ _).mp hx
    · show (List.map (exHouse.cost 99) [exExtend, exPut]).sum ≤ 7
      simp only [List.map_cons, List.map_nil, c1, c2]
      decide
  · intro op hop hu
    rcases (exRush_started op).mp hop with rfl | rfl
    · exact h1.tellable
    · exact absurd trivial hu
  · intro i now room hm op hop
    have hroom : room = fun _ => true := by
      simp [exRush] at hm
      rcases hm with ⟨_, _, rfl⟩ | ⟨_, _, rfl⟩ | ⟨_, _, rfl⟩ <;> rfl
    rw [hroom]
    rcases (exRush_started op).mp hop with rfl | rfl
    · exact fun _ => rfl
    · trivial
  · intro op hop hw
    rcases (exRush_started op).mp hop with rfl | rfl <;> exact nomatch hw
  · intro before ops later he
    have : TrafficEvent.others ops ∈ exRush := by rw [he]; simp
    simp [exRush] at this

/-- Whether the last thing that happened is that the operation returned. -/
def ends_well (l : List Out) : Bool :=
  match l.getLast? with
  | some (.returned _ _) => true
  | _ => false

/-- At no moment has one of them failed. -/
example (before later : List TrafficEvent) (he : exRush = before ++ later) : NoneFails exHouse before :=
  C162_none_fails exHouse 99 103 exRush exRush_canPay before later he

/-- The upload is over before the renewal knows its price; in the end both have returned. -/
example : ((exHouse.after (exRush.take 5)).jobs.map fun j => (roundTrips j, ends_well j.out)) = [(2, false), (0, true)] ∧
    ((exHouse.after exRush).jobs.map fun j => (roundTrips j, ends_well j.out)) = [(0, true), (0, true)] ∧
    (exHouse.after exRush).store.app.unblinded.length = 1 := by
  decide +kernel

end ZKAP
