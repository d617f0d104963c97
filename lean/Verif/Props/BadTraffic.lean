import Verif.Lemmas.BadTraffic
import Verif.Props.Traffic

/-! Property C164: bad tokens do not prevent operations that go on at the same time, against
`Spec/BadTraffic.lean`. -/
namespace ZKAP
open Spec

theorem fine_all_mixed {c : Household} {good : String → Prop} {first last : Int} {events : List TrafficEvent}
    (h : CanPayAllWithGood c good first last events) : ∀ op ∈ started events, OpFine c first last op := fun op hop =>
  ⟨(h.paid op hop).1, (h.paid op hop).2, h.each op hop, h.tellable op hop, h.leases op hop⟩

/-- The invariant at every moment. -/
theorem mixed_always {c : Household} {good : String → Prop} {first last : Int} {events : List TrafficEvent}
    (h : CanPayAllWithGood c good first last events) :
    ∃ H, ∀ before later, events = before ++ later →
      ∃ R d, MixedInv c good first H (started events) (started later) R d (c.after before) ∧
        ((∀ ops, .others ops ∉ before) → (c.after before).server.spent.length = c.server.spent.length + d) := by
  have inv := session_inv_run h.tokens.works h.value c.history (sessionInv_init c.sign c.cfg.pass_value) h.reissue
  have hheld := inv.held
  have hstore : (StorageSession.run c.sign c.cfg.pass_value {} c.history).store = c.store := rfl
  rw [hstore] at hheld
  generalize (StorageSession.run c.sign c.cfg.pass_value {} c.history).paying.flatMap _ = H at hheld
  refine ⟨H, ?_⟩
  have hfine := fine_all_mixed h
  have key : ∀ (n : Nat) (before later : List TrafficEvent), before.length = n → events = before ++ later →
      ∃ R d, MixedInv c good first H (started events) (started later) R d (c.after before) ∧
        ((∀ ops, .others ops ∉ before) → (c.after before).server.spent.length = c.server.spent.length + d) := by
    intro n
    induction n with
    | zero =>
      intro before later hn he
      rw [List.eq_nil_of_length_eq_zero hn] at he ⊢
      rw [List.nil_append] at he
      subst he
      obtain ⟨G, hG1, hG2, hG3⟩ := h.affords
      refine ⟨[], 0, ⟨by simpa [Household.after, Traffic.run] using hheld, fun x hx hn => ?_, ⟨G, hG1, ?_, ?_⟩,
        fun j hj => (nomatch hj), rfl, fun _ _ _ => rfl, List.nodup_nil, fun _ h => (nomatch h), ?_, Nat.le_refl _, rfl⟩, fun _ => rfl⟩
      · exact (available_iff hheld x).mpr ⟨hx, hn⟩
      · intro x hx
        have := (available_iff hheld x).mp (hG2 x hx).1
        exact ⟨(hG2 x hx).2, this.1, this.2⟩
      · simpa [Household.after, Traffic.run] using hG3
      · exact (List.append_nil _).symm
    | succ n ih =>
      intro before later hn he
      rcases List.eq_nil_or_concat before with rfl | ⟨b, e, rfl⟩
      · cases hn
      · rw [List.concat_eq_append] at *
        rw [List.length_append] at hn
        have he' : events = b ++ e :: later := by rw [he]; simp
        obtain ⟨R, d, hi, hd⟩ := ih b (e :: later) (by simpa using hn) he'
        have hmem : e ∈ events := by rw [he']; simp
        have hno : (∀ ops, .others ops ∉ b ++ [e]) → (c.after b).server.spent.length = c.server.spent.length + d :=
          fun hno => hd fun ops hc => hno ops (List.mem_append_left _ hc)
        rw [after_snoc]
        cases e with
        | start op rref o =>
          exact ⟨R, d, mixed_start h.value h.tokens hi (hfine op (by rw [he', started_append]; simp [started]))
            (h.right op rref o hmem) o, hno⟩
        | arrive i now room =>
          have ht := h.times.2 _ hmem now rfl
          obtain ⟨d', e1, e2⟩ := mixed_arrive h.value h.tokens ht.1 ht.2 hi hfine h.apart (h.willing i now room hmem) i
          exact ⟨R, d', e1, fun hn => by have := hno hn; omega⟩
        | receive i now o =>
          have ht := h.times.2 _ hmem now rfl
          obtain ⟨R', e1, e2⟩ := mixed_receive h.value h.tokens h.times.1 ht.1 ht.2 hi hfine i o
          exact ⟨R', d, e1, fun hn => by rw [e2]; exact hno hn⟩
        | others ops =>
          exact ⟨R, d, mixed_others hi (h.undisturbed b ops later he'), fun hn => absurd (by simp) (hn ops)⟩
  exact fun before later he => key _ before later rfl he

theorem sum_zeros (l : List Nat) (h : ∀ n ∈ l, n = 0) : l.sum = 0 := by
  induction l with
  | nil => rfl
  | cons n l ih =>
    rw [List.sum_cons, h n List.mem_cons_self, ih fun m hm => h m (List.mem_cons_of_mem _ hm)]

/-- **C164**, what holds at every moment. -/
theorem C164_none_fails (c : Household) (good : String → Prop) (first last : Int) (events : List TrafficEvent)
    (h : CanPayAllWithGood c good first last events) (before later : List TrafficEvent) (he : events = before ++ later) :
    ∃ aside, NoneFailsFor c good before aside := by
  obtain ⟨H, hinv⟩ := mixed_always h
  obtain ⟨R, d, hi, hd⟩ := hinv before later he
  have hops : (c.after before).jobs.map (·.op) = started before := by
    have := hi.ops
    rw [he, started_append] at this
    exact List.append_cancel_right this
  refine ⟨R, hops, ?_, ?_, ⟨hi.nodup, fun x hx => ⟨(hi.bad x hx).1, (hi.bad x hx).2.1⟩⟩, hi.invalid, ?_, ?_⟩
  · intro job hj
    cases hi.going job hj with
    | asked => intro op e hc; simp at hc
    | paying op g reply out _ _ _ clean => intro op e hc; simp at hc; exact clean _ _ hc
    | over op r out clean => intro op e hc; simp at hc; exact clean _ _ hc
  · intro job hj h0
    cases hi.going job hj with
    | asked => cases h0
    | paying => cases h0
    | over op r out _ => exact ⟨r, by rw [List.getLast?_concat]⟩
  · have := hi.calls
    rw [← hops, List.length_map]
    omega
  · intro hover hno
    have hb := hi.books
    have hz : ((c.after before).jobs.map (pendingSpent c.cfg.pass_value)).sum = 0 := by
      apply sum_zeros
      intro n hn
      obtain ⟨job, hj, rfl⟩ := List.mem_map.mp hn
      have h0 := hover job hj
      cases hi.going job hj with
      | asked => cases h0
      | paying => cases h0
      | over => rfl
    have := hd hno
    omega

/-- **C164**, how operations get on. -/
theorem C164_moves (c : Household) (good : String → Prop) (first last : Int) (events : List TrafficEvent)
    (h : CanPayAllWithGood c good first last events) (before later : List TrafficEvent) (e : TrafficEvent)
    (he : events = before ++ e :: later) (i : Nat) (job : Ongoing) (hj : (c.after before).jobs[i]? = some job) :
    MovesOn c before e i job := by
  obtain ⟨H, hinv⟩ := mixed_always h
  obtain ⟨R, d, hi, -⟩ := hinv before (e :: later) he
  have hfine := fine_all_mixed h
  have hmem : e ∈ events := by rw [he]; simp
  constructor
  · rintro now room rfl h0
    rw [after_snoc]
    generalize c.after before = k at hi hj
    have hlt : i < k.jobs.length := (List.getElem?_eq_some_iff.mp hj).1
    have hgo := hi.going job (List.mem_of_getElem? hj)
    obtain ⟨op, r, hlast⟩ : ∃ op r, job.out.getLast? = some (.sent op r) := by
      cases hgo with
      | asked op r => exact ⟨op, r, rfl⟩
      | paying op g reply out => exact ⟨op, _, List.getLast?_concat⟩
      | over => exact absurd rfl h0
    obtain ⟨op', state, reply, out⟩ := job
    cases reply with
    | some x => exact ⟨⟨op', state, some x, out⟩, by dsimp only [Traffic.step]; rw [hj]; exact hj, rfl, rfl⟩
    | none =>
      dsimp only at hlast
      dsimp only [Traffic.step]
      rw [hj]
      dsimp only
      rw [hlast]
      dsimp only
      rw [List.getElem?_set_self hlt]
      exact ⟨_, rfl, rfl, rfl⟩
  · rintro now o rfl h0
    have ht := h.times.2 _ hmem now rfl
    rw [after_snoc]
    generalize c.after before = k at hi hj
    have hlt : i < k.jobs.length := (List.getElem?_eq_some_iff.mp hj).1
    have hgo := hi.going job (List.mem_of_getElem? hj)
    obtain ⟨t, jobs, s⟩ := k
    dsimp only at hj hlt
    obtain ⟨a, b, hsplit, hset⟩ := set_split hj
    subst hsplit
    obtain ⟨op, state, reply, out⟩ := job
    cases reply with
    | none => cases h0
    | some x =>
      cases state with
      | over => cases hgo
      | asked =>
        obtain ⟨call, out', t', e1, -⟩ := mixed_asked h.value h.tokens h.times.1 ht.1 ht.2 hi hfine o
        dsimp only [Traffic.step]
        rw [hj]
        dsimp only
        rw [e1]
        dsimp only
        rw [List.getElem?_set_self hlt]
        exact ⟨_, rfl, .inl rfl⟩
      | paying call =>
        obtain ⟨state, out', t', R', e1, e2, e3⟩ := mixed_paid h.value h.tokens (now := now) hi hfine o
        dsimp only [Traffic.step]
        rw [hj]
        dsimp only
        rw [e1]
        dsimp only
        rw [List.getElem?_set_self hlt]
        refine ⟨_, rfl, ?_⟩
        rcases e3 with ⟨rfl, -⟩ | ⟨⟨call', rfl⟩, hne⟩
        · exact .inl rfl
        · refine .inr ⟨rfl, ?_⟩
          have h1 := congrArg List.length hi.invalid
          have h2 := congrArg List.length e2.invalid
          have h3 := List.length_pos_iff.mpr hne
          simp only [List.length_append, List.length_map] at h1 h2
          omega
  · intro h1 h2
    rw [after_snoc]
    generalize c.after before = k at hj
    have hlt : i < k.jobs.length := (List.getElem?_eq_some_iff.mp hj).1
    cases e with
    | start op rref o =>
      dsimp only [Traffic.step]
      rw [List.getElem?_append_left hlt]
      exact hj
    | arrive j now room =>
      have hne : j ≠ i := fun hc => h1 now room (by rw [hc])
      dsimp only [Traffic.step]
      split
      · split
        · dsimp only
          rw [List.getElem?_set_ne hne]
          exact hj
        · exact hj
      · exact hj
    | receive j now o =>
      have hne : j ≠ i := fun hc => h2 now o (by rw [hc])
      dsimp only [Traffic.step]
      split
      · dsimp only
        rw [List.getElem?_set_ne hne]
        exact hj
      · dsimp only
        rw [List.getElem?_set_ne hne]
        exact hj
      · exact hj
    | others ops => exact hj

/-- A client whose token "c" is bad, and the server. -/
def exBadHouse : Household :=
  ⟨exSign88, ⟨10, fun _ p => p.preimage != List.replicate 88 99⟩, exShopper,
    Server.init (fun si => if si = [9] then exShelf else [])⟩

/-- A renewal, which costs two, and an upload, which costs four, at the same time.  The bad token is among those of the
upload: it is set aside, and the upload tries again. -/
def exBadRush : List TrafficEvent :=
  [.start exExtend exRight .natural, .start exPut exRight .natural, .arrive 0 99 (fun _ => true),
    .arrive 1 100 (fun _ => true), .receive 0 100 .natural, .receive 1 101 .natural, .arrive 1 102 (fun _ => true),
    .arrive 0 102 (fun _ => true), .receive 0 103 .natural, .receive 1 103 .natural]

theorem exBadRush_started (op : StorageOp) : op ∈ started exBadRush ↔ op = exExtend ∨ op = exPut := by
  show op ∈ [exExtend, exPut] ↔ _
  simp

theorem exBadRush_canPay : CanPayAllWithGood exBadHouse (· ≠ "c") 99 103 exBadRush := by
  have h1 := exShop_canPay exExtend 99 (fun h => h)
    ⟨⟨⟨by decide, fun _ h => (nomatch h)⟩, by decide, by decide, by decide⟩, trivial⟩ rfl
    (fun t => by show bucketPrice 10 exShelf ≤ 7; decide) (fun _ => rfl)
  have h2 := exShop_canPay exPut 99 (fun h => h)
    ⟨⟨⟨by decide, fun _ h => (nomatch h)⟩, by decide, by decide, by decide, by decide, by
      intro n hn
      rcases List.mem_cons.mp hn with rfl | hn
      · decide
      · rw [List.mem_singleton.mp hn]; decide, by decide⟩, trivial⟩ rfl
    (fun t => by show total 10 (List.replicate 2 12) ≤ 7; decide) trivial
  have c1 : exBadHouse.cost 99 exExtend = 2 := by show bucketPrice 10 exShelf = 2; decide
  have c2 : exBadHouse.cost 99 exPut = 4 := by show total 10 (List.replicate 2 12) = 4; decide
  have havail : ∀ x, Available exBadHouse.store x ↔ x ∈ exTokens := fun x => by
    rw [← exShop_available exExtend 99]
    exact (mem_select_available _ _).symm
  have hrange : ∀ e ∈ exBadRush, ∀ now, TrafficEvent.time e = some now → 99 ≤ now ∧ now ≤ 103 := by
    intro e he now hn
    simp only [exBadRush, List.mem_cons, List.not_mem_nil, or_false] at he
    rcases he with rfl | rfl | rfl | rfl | rfl | rfl | rfl | rfl | rfl | rfl <;> cases hn <;> decide
  refine ⟨h1.value, h1.reissue, ?_, ?_, ?_, ⟨h1.tokens.works, ?_⟩, ?_, ?_, ⟨by decide, hrange⟩, ?_, ?_, ?_, ?_⟩
  · intro op g o hm
    simp [exBadRush] at hm
    rcases hm with ⟨rfl, rfl, rfl⟩ | ⟨rfl, rfl, rfl⟩ <;> rfl
  · intro op hop
    rcases (exBadRush_started op).mp hop with rfl | rfl
    · exact ⟨h1.paid, h1.proper⟩
    · exact ⟨h2.paid, h2.proper⟩
  · show List.Pairwise _ [exExtend, exPut]
    simp [exPut, IsUpload]
  · intro m ts ps hs x p hm hx
    have hx' : x ∈ exTokens := (havail x).mp hx
    have hp : p = exPass (exHead x) := by
      cases hs
      have : ∀ ts : List String, (x, p) ∈ ts.zip (ts.map fun x => exPass (exHead x)) → p = exPass (exHead x) := by
        intro ts
        induction ts with
        | nil => intro h; exact nomatch h
        | cons t ts ih =>
          intro h
          rw [List.map_cons, List.zip_cons_cons, List.mem_cons] at h
          rcases h with h | h
          · cases h; rfl
          · exact ih h
      exact this ts hm
    rw [hp]
    have : ∀ x ∈ exTokens, Pass.from_bytes (exPass (exHead x)).pass_bytes = .ok (exPass (exHead x)) ∧
      (exBadHouse.cfg.verifies m (exPass (exHead x)) = true ↔ x ≠ "c") := by
      show ∀ x ∈ exTokens, _ ∧ (((exPass (exHead x)).preimage != List.replicate 88 99) = true ↔ _)
      decide +kernel
    exact this x hx'
  · intro op hop
    rcases (exBadRush_started op).mp hop with rfl | rfl
    · rw [c1]; decide
    · rw [c2]; decide
  · refine ⟨["a", "b", "d", "e", "f", "g"], by decide, ?_, ?_⟩
    · intro x hx
      rw [havail]
      revert x
      decide
    · show (List.map (exBadHouse.cost 99) [exExtend, exPut]).sum ≤ 6
      simp only [List.map_cons, List.map_nil, c1, c2]
      decide
  · intro op hop hu
    rcases (exBadRush_started op).mp hop with rfl | rfl
    · exact h1.tellable
    · exact absurd trivial hu
  · intro i now room hm op hop
    have hroom : room = fun _ => true := by
      simp [exBadRush] at hm
      rcases hm with ⟨_, _, rfl⟩ | ⟨_, _, rfl⟩ | ⟨_, _, rfl⟩ | ⟨_, _, rfl⟩ <;> rfl
    rw [hroom]
    rcases (exBadRush_started op).mp hop with rfl | rfl
    · exact fun _ => rfl
    · trivial
  · intro op hop hw
    rcases (exBadRush_started op).mp hop with rfl | rfl <;> exact nomatch hw
  · intro before ops later he
    have : TrafficEvent.others ops ∈ exBadRush := by rw [he]; simp
    simp [exBadRush] at this

/-- At no moment has one of them failed. -/
example (before later : List TrafficEvent) (he : exBadRush = before ++ later) :
    ∃ aside, NoneFailsFor exBadHouse (· ≠ "c") before aside :=
  C164_none_fails exBadHouse _ 99 103 exBadRush exBadRush_canPay before later he

/-- In the end both have returned, and six tokens have been spent. -/
example : (exBadHouse.after exBadRush).jobs.map (fun j => (roundTrips j, callsMade j, ends_well j.out)) =
    [(0, 2, true), (0, 2, true)] ∧
    (exBadHouse.after exBadRush).store.app.invalid.map (·.token) = ["c"] ∧
    (exBadHouse.after exBadRush).store.app.unblinded.length = 0 ∧
    (exBadHouse.after exBadRush).server.spent.length = 6 := by decide +kernel

end ZKAP
