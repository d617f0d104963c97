import Verif.Lemmas.Results
import Verif.Lemmas.ServerHistory
import Verif.Spec.Failures

/-! Lemmas for `Verif.Props.Failures`. -/
namespace ZKAP
open Spec

/-- The tables with these tokens set aside. -/
def Aside (t t' : Tables) (R : List String) : Prop :=
  t'.app = { t.app with unblinded := t.app.unblinded.filter (·.token ∉ R), invalid := t.app.invalid ++ R.map (fun x => ⟨x, "signature check failed"⟩) }

theorem aside_nil {t t' : Tables} (h : t'.app = t.app) : Aside t t' [] := by
  unfold Aside
  rw [h, List.filter_eq_self.mpr (fun _ _ => decide_eq_true List.not_mem_nil), List.map_nil, List.append_nil]

theorem aside_trans {t t1 t2 : Tables} {R R' : List String} (h : Aside t t1 R) (h' : Aside t1 t2 R') :
    Aside t t2 (R ++ R') := by
  unfold Aside at *
  rw [h', h]
  dsimp only
  rw [List.filter_filter, List.map_append, List.append_assoc]
  congr 1
  apply List.filter_congr
  intro r _
  rw [← Bool.decide_and]
  apply decide_eq_decide.mpr
  rw [List.mem_append]
  exact ⟨fun h hc => hc.elim h.2 h.1, fun h => ⟨fun hc => h (.inr hc), fun hc => h (.inl hc)⟩⟩

theorem aside_stored {t t' : Tables} {R : List String} (h : Aside t t' R) (x : String) :
    StoredIn t'.app true x ↔ StoredIn t.app true x ∧ x ∉ R := by
  unfold StoredIn
  rw [h]
  dsimp only
  constructor
  · rintro ⟨r, hr, rfl, hg⟩
    obtain ⟨ha, hb⟩ := List.mem_filter.mp hr
    exact ⟨⟨r, ha, rfl, hg⟩, of_decide_eq_true hb⟩
  · rintro ⟨⟨r, hr, rfl, hg⟩, hx⟩
    exact ⟨r, List.mem_filter.mpr ⟨hr, decide_eq_true hx⟩, rfl, hg⟩

theorem aside_available {t t' : Tables} {R H : List String} (h : Aside t t' R) (ht : Held t H) (ht' : Held t' H)
    (x : String) : Available t' x ↔ Available t x ∧ x ∉ R := by
  rw [available_iff ht, available_iff ht', aside_stored h]
  exact ⟨fun ⟨⟨a, b⟩, c⟩ => ⟨⟨a, c⟩, b⟩, fun ⟨⟨a, c⟩, b⟩ => ⟨⟨a, b⟩, c⟩⟩

theorem aside_back {t t' : Tables} {R H G : List String} (h : Aside t t' R) (ht : Held t H) (ht' : Held t' (H ++ G))
    {x : String} (hx : Available t' x) : Available t x := by
  rw [available_iff ht', aside_stored h] at hx
  rw [available_iff ht]
  exact ⟨hx.1.1, fun hc => hx.2 (List.mem_append_left _ hc)⟩

/-- What a method did to the store until it waits again: `H` are the tokens of other operations, `G` those it had. -/
inductive Calm (first : Bool) (v : Int) (op : StorageOp) (H G : List String) (t : Tables) : Moved → Prop where
  | asked (r) (h : FirstCall op r) (hg : first = true) : Calm first v op H G t (.asked, [.sent op r], t)
  | paying (c t' R) (h : ¬ Free op) (hR : ∀ x ∈ R, x ∈ G) (ha : Aside t t' R) (hc : c.on_success = op.on_success v)
      (hx : ∀ x ∈ c.pass_group.unblinded_tokens, x ∈ G ∨ Available t x) (hh : Held t' (H ++ c.pass_group.unblinded_tokens)) :
      Calm first v op H G t (.paying c, [.sent op (op.request (c.pass_group.passes.map Pass.pass_bytes))], t')
  | returned (r t') : Calm first v op H G t (.over, [.returned op r], t')
  | raised (e t' R) (hR : ∀ x ∈ R, x ∈ G) (ha : Aside t t' R) (hh : Held t' H) :
      Calm first v op H G t (.over, [.raised op e], t')

theorem calm_send_free {v : Int} {op : StorageOp} {r : StorageRequest} (hr : FirstCall op r) {H : List String}
    {t : Tables} (h : Held t H) : Calm true v op H [] t (send_free op r t) := by
  unfold send_free
  split
  · rename_i r' h'
    rw [transmit_same h']
    exact .asked _ hr rfl
  · exact .raised _ _ [] (fun _ h => (nomatch h)) (aside_nil rfl) h

theorem calm_send_paid {first : Bool} {v : Int} {op : StorageOp} (hf : ¬ Free op) {c : Call} (hc : c.on_success = op.on_success v)
    {H G R : List String} {t t' : Tables} (hR : ∀ x ∈ R, x ∈ G) (ha : Aside t t' R)
    (hx : ∀ x ∈ c.pass_group.unblinded_tokens, x ∈ G ∨ Available t x)
    (h : Held t' (H ++ c.pass_group.unblinded_tokens)) : Calm first v op H G t (send_paid op c t') := by
  unfold send_paid
  split
  · rename_i r' h'
    rw [transmit_same h']
    exact .paying _ _ R hf hR ha hc hx h
  · rename_i e _
    obtain ⟨t2, h1, h2, h3⟩ := give_up_held (a := H) (b := []) (g := c.pass_group) e (by simpa using h)
    rw [h1]
    dsimp only
    rw [List.append_nil] at h3
    refine .raised _ _ R hR ?_ h3
    unfold Aside at *
    rw [h2, ha]

theorem calm_pay {sign : Signer} (hs : Signs sign) {v : Int} {op : StorageOp} (hf : ¬ Free op) {H : List String}
    {t : Tables} (h : Held t H) (o : Order) (n : Int) : Calm true v op H [] t (pay sign o v op n t) := by
  unfold pay call_start
  rcases get_held hs h o op.message n with he | ⟨g, t', he, h1, -, -, h4, h5⟩
  · rw [he]
    exact .raised _ _ [] (fun _ h => (nomatch h)) (aside_nil rfl) h
  · rw [he]
    dsimp only [settle]
    exact calm_send_paid hf rfl (R := []) (fun _ h => (nomatch h)) (aside_nil h1) (fun x hx => .inr (h4 x hx)) h5

theorem calm_start {sign : Signer} (hs : Signs sign) {v : Int} {op : StorageOp} {H : List String}
    {t : Tables} (h : Held t H) (o : Order) (rref : Except PyErr RRef) :
    Calm true v op H [] t (op_start sign o v rref op t) := by
  unfold op_start
  split
  · exact .raised _ _ [] (fun _ h => (nomatch h)) (aside_nil rfl) h
  · cases op with
    | allocateBuckets si renew cancel nums size canary => exact calm_pay hs (by exact fun h => h) h _ _
    | addLease si renew cancel => exact calm_send_free (.renewal _ _ _) h
    | writev si secrets tw rv =>
      dsimp only
      split
      · exact calm_send_free (.write _ _ _ _) h
      · exact calm_pay hs (by exact fun h => h) h _ _
    | _ => exact calm_send_free (.free _ (by exact trivial)) h

theorem calm_asked {sign : Signer} (hs : Signs sign) {v : Int} {op : StorageOp} {r0 : StorageRequest}
    (h0 : FirstCall op r0) {H : List String} {t : Tables} (h : Held t H) (o : Order) (now : Int) (reply : Reply) :
    Calm true v op H [] t (op_asked sign o v now op reply t) := by
  unfold op_asked
  cases reply with
  | morePassesRequired f => exact .raised _ _ [] (fun _ h => (nomatch h)) (aside_nil rfl) h
  | failure e => exact .raised _ _ [] (fun _ h => (nomatch h)) (aside_nil rfl) h
  | result w =>
    dsimp only [Reply.value]
    cases op with
    | addLease si renew cancel =>
      dsimp only
      split
      · exact .raised _ _ [] (fun _ h => (nomatch h)) (aside_nil rfl) h
      · exact calm_pay hs (by exact fun h => h) h _ _
    | writev si secrets tw rv =>
      dsimp only
      split
      · exact .raised _ _ [] (fun _ h => (nomatch h)) (aside_nil rfl) h
      · exact calm_pay hs (by exact fun h => h) h _ _
    | allocateBuckets si renew cancel nums size canary =>
      cases h0 with
      | free _ h => exact absurd h fun h => h
    | _ =>
      dsimp only
      split
      · exact .raised _ _ [] (fun _ h => (nomatch h)) (aside_nil rfl) h
      · exact .returned _ _

/-- The server's answer to a call with passes: either a result the client can use, or an error and nothing done. -/
def Atomic (op : StorageOp) (s s' : Server) (reply : Reply) : Prop :=
  (∃ w r n, reply = .result w ∧ paid_result w op = .ok (r, n)) ∨ (s' = s ∧ ∀ w, reply ≠ .result w)

theorem calm_paid {sign : Signer} (hs : Signs sign) {v : Int} (hv : 0 < v) {op : StorageOp} (hf : ¬ Free op)
    {c : Call} (hc : c.on_success = op.on_success v) {H : List String} {t : Tables}
    (h : Held t (H ++ c.pass_group.unblinded_tokens)) (o : Order) {reply : Reply} {s s' : Server}
    (ha : Atomic op s s' reply) :
    Calm false v op H c.pass_group.unblinded_tokens t (op_paid sign o op c reply t) ∧
      ((∃ r, (op_paid sign o op c reply t).2.1 = [.returned op r]) ∨ s' = s) := by
  have h' : Held t (H ++ c.pass_group.unblinded_tokens ++ []) := by simpa using h
  rcases ha with ⟨w, r, n, rfl, hp⟩ | ⟨hss, hno⟩
  · obtain ⟨st, t', h1, -, -, h4⟩ := answer_ok_held (sign := sign) h' o c.on_success c.num_passes n
    have hret : st = .returned := by
      rw [hc] at h4
      cases op with
      | allocateBuckets si renew cancel nums size canary =>
        dsimp only [StorageOp.on_success] at h4
        rw [required_passesE_ok hv] at h4
        exact h4.1
      | _ => exact h4.1
    have : op_paid sign o op c (.result w) t = (.over, [.returned op r], t') := by
      unfold op_paid Reply.for_call
      dsimp only
      rw [hp]
      dsimp only
      rw [h1, hret]
      rfl
    rw [this]
    exact ⟨.returned _ _, .inl ⟨r, rfl⟩⟩
  · refine ⟨?_, .inr hss⟩
    unfold op_paid
    cases reply with
    | result w => exact absurd rfl (hno w)
    | failure e =>
      dsimp only [Reply.for_call]
      obtain ⟨t', h1, h2, h3⟩ := answer_error_held (sign := sign) h' o c.on_success c.num_passes e
      rw [h1]
      rw [List.append_nil] at h3
      exact .raised _ _ [] (fun _ h => (nomatch h)) (aside_nil h2) h3
    | morePassesRequired failed =>
      dsimp only [Reply.for_call]
      by_cases hne : failed = []
      · subst hne
        obtain ⟨t', h1, h2, h3⟩ := answer_rejected_nil_held (sign := sign) h' o c.on_success c.num_passes
        rw [h1]
        rw [List.append_nil] at h3
        exact .raised _ _ [] (fun _ h => (nomatch h)) (aside_nil h2) h3
      · obtain ⟨st, t', t1, h1, h2, h3, h4, h5, h6⟩ :=
          answer_rejected_held hs h' o c.on_success c.num_passes failed hne
        rw [h1]
        dsimp only
        have hR : ∀ x ∈ (atPositions failed.contains c.pass_group.tokens).map Prod.fst,
            x ∈ c.pass_group.unblinded_tokens := fun x hx => by
          obtain ⟨p, hp, rfl⟩ := List.mem_map.mp hx
          exact List.mem_map_of_mem ((atPositions_sublist _ _).subset hp)
        rw [List.append_nil] at h4 h5
        rcases h6 with rfl | ⟨more, rfl, h7, -⟩
        · exact .raised _ _ _ hR h2 (by simpa [stateTokens] using h5)
        · refine calm_send_paid (H := H) hf (c := { c with pass_group := ⟨c.pass_group.message, atPositions (fun i => !failed.contains i) c.pass_group.tokens ++ more⟩ }) hc hR h2 ?_ h5
          intro x hx
          obtain ⟨p, hp, rfl⟩ := List.mem_map.mp hx
          rcases List.mem_append.mp hp with hp | hp
          · exact .inl (List.mem_map_of_mem ((atPositions_sublist _ _).subset hp))
          · have hav := h7 p hp
            have ha1 : Aside t t1 ((atPositions failed.contains c.pass_group.tokens).map Prod.fst) := by
              unfold Aside
              rw [h3, h2]
            rw [available_iff h4, aside_stored ha1] at hav
            by_cases hg : p.1 ∈ c.pass_group.unblinded_tokens
            · exact .inl hg
            · refine .inr ?_
              rw [available_iff h]
              exact ⟨hav.1.1, fun hc => (List.mem_append.mp hc).elim
                (fun hc => hav.2 (List.mem_append_left _ hc)) hg⟩

theorem first_call_keeps {cfg : ServerConfig} {m : Moment} {s : Server} {op : StorageOp} {r : StorageRequest}
    (h : FirstCall op r) : (server_reply cfg m s r).1 = s := by
  cases h with
  | renewal => rfl
  | write => rfl
  | free op h =>
    cases op with
    | allocateBuckets => exact absurd h fun h => h
    | addLease => exact absurd h fun h => h
    | writev => exact absurd h fun h => h
    | getVersion => rfl
    | statShares => rfl
    | adviseCorruptShare => rfl
    | getBuckets si => dsimp only [StorageOp.request, server_reply]; split <;> rfl
    | readv si shares rv => dsimp only [StorageOp.request, server_reply]; split <;> rfl

theorem error_no_result (e : SErr) (w : Wire) : error_reply e ≠ .result w := by
  unfold error_reply
  split <;> exact nofun

theorem int_items_reads (l : List (Nat × List Bytes)) :
    ∃ d, int_items (wire_list wire_bytes) (l.map read_to_wire) = .ok d := by
  induction l with
  | nil => exact ⟨[], rfl⟩
  | cons kv l ih =>
    obtain ⟨d, hd⟩ := ih
    rw [List.map_cons]
    unfold int_items
    dsimp only [read_to_wire, Wire.asInt]
    rw [wire_byte_strings]
    dsimp only
    rw [hd]
    exact ⟨_, rfl⟩

/-- With room for leases, a server does what is asked or nothing. -/
theorem reply_atomic {cfg : ServerConfig} {m : Moment} (hroom : ∀ n, m.room n = true) {s : Server} {op : StorageOp}
    (hf : ¬ Free op) (ps : List Bytes) :
    Atomic op s (server_reply cfg m s (op.request ps)).1 (server_reply cfg m s (op.request ps)).2 := by
  cases op with
  | allocateBuckets si renew cancel nums size canary =>
    dsimp only [StorageOp.request, server_reply]
    unfold remote_allocate_buckets
    split
    · rename_i h
      split at h
      · cases h
      · split at h
        · cases h
        · cases h
          exact .inl ⟨_, _, _, rfl, rfl⟩
    · rename_i h
      split at h
      · cases h
        exact .inr ⟨rfl, by dsimp only; exact error_no_result _⟩
      · split at h
        · cases h
          exact .inr ⟨rfl, by dsimp only; exact error_no_result _⟩
        · cases h
  | addLease si renew cancel =>
    dsimp only [StorageOp.request, server_reply]
    unfold remote_add_lease
    split
    · exact .inl ⟨_, _, _, rfl, rfl⟩
    · rename_i h
      split at h
      · cases h
        exact .inr ⟨rfl, by dsimp only; exact error_no_result _⟩
      · split at h
        · cases h
          exact .inr ⟨rfl, by dsimp only; exact error_no_result _⟩
        · dsimp only at h
          split at h
          · cases h
          · rename_i hno
            exact absurd (loop_completes _ hroom _ _ _) hno
  | writev si secrets tw rv =>
    dsimp only [StorageOp.request, server_reply]
    unfold remote_slot_writev
    split
    · rename_i s' good read h
      obtain ⟨d, hd⟩ := int_items_reads read
      refine .inl ⟨_, .written good (Dict.ofItems d), 0, rfl, ?_⟩
      dsimp only [paid_result]
      have : client_writev_answer (.tuple [.bool good, .dict (read.map read_to_wire)]) = .ok (good, Dict.ofItems d) := by
        unfold client_writev_answer
        rw [if_pos (by rfl)]
        dsimp only
        unfold known_items
        rw [hd]
      rw [this]
    · rename_i h
      split at h
      · cases h
        exact .inr ⟨rfl, by dsimp only; exact error_no_result _⟩
      · split at h
        · cases h
          exact .inr ⟨rfl, by dsimp only; exact error_no_result _⟩
        · dsimp only at h
          split at h
          · cases h
            exact .inr ⟨rfl, by dsimp only; exact error_no_result _⟩
          · split at h
            · cases h
              exact .inr ⟨rfl, by dsimp only; exact error_no_result _⟩
            · split at h
              · cases h
              · rename_i hno
                exact absurd (loop_completes _ hroom _ _ _) hno
  | _ => exact absurd trivial hf

/-- How far an operation has got, and what it has done. -/
inductive Uneventful (v : Int) (op : StorageOp) (t0 : Tables) (H : List String) (P : List (StorageOp × Call))
    (run : Nat → Server) (l : Nat) : Talk → Prop where
  | asked (A log r b) (h : FirstCall op r) : Uneventful v op t0 H P run l ⟨⟨t0, A ++ [op], P, log ++ [.sent op r]⟩, b, run l⟩
  | paying (t A c log b R) (h : ¬ Free op) (hR : ∀ x ∈ R, Available t0 x) (ha : Aside t0 t R)
      (hc : c.on_success = op.on_success v) (hx : ∀ x ∈ c.pass_group.unblinded_tokens, Available t0 x)
      (hh : Held t (H ++ c.pass_group.unblinded_tokens)) :
      Uneventful v op t0 H P run l
        ⟨⟨t, A, P ++ [(op, c)], log ++ [.sent op (op.request (c.pass_group.passes.map Pass.pass_bytes))]⟩, b, run l⟩
  | returned (k r) (h : k.client.log.getLast? = some (.returned op r)) : Uneventful v op t0 H P run l k
  | raised (t A log e b R i) (hR : ∀ x ∈ R, Available t0 x) (ha : Aside t0 t R) (hh : Held t H) :
      Uneventful v op t0 H P run l ⟨⟨t, A, P, log ++ [.raised op e]⟩, b, run i⟩

theorem uneventful_turn {sign : Signer} (hs : Signs sign) {cfg : ServerConfig} {v : Int} (hv : 0 < v) {op : StorageOp}
    {t0 : Tables} {H : List String} (h0 : Held t0 H) {P : List (StorageOp × Call)} {run : Nat → Server} {l : Nat} {k : Talk}
    (h : Uneventful v op t0 H P run l k) {m : Moment} (hroom : ∀ n, m.room n = true)
    (hrun : (run l).run cfg m.others = run (l + 1)) : Uneventful v op t0 H P run (l + 1) (Talk.turn sign cfg v k m) := by
  cases h with
  | returned k r h =>
    rw [turn_over h]
    exact .returned _ _ h
  | raised t A log e b R i hR ha hh =>
    have : Talk.turn sign cfg v ⟨⟨t, A, P, log ++ [.raised op e]⟩, b, run i⟩ m =
        ⟨⟨t, A, P, log ++ [.raised op e]⟩, b, run i⟩ := by
      unfold Talk.turn
      dsimp only
      rw [List.getLast?_concat]
    rw [this]
    exact .raised _ _ _ _ _ R i hR ha hh
  | asked A log r b h =>
    have hkeep := first_call_keeps (cfg := cfg) (m := m) (s := (run l).run cfg m.others) h
    obtain ⟨s', reply, hrep⟩ : ∃ s' reply, server_reply cfg m ((run l).run cfg m.others) r = (s', reply) :=
      ⟨_, _, rfl⟩
    rw [hrep] at hkeep
    have hcalm := calm_asked hs (v := v) h h0 m.order m.client_now reply
    generalize hmv : op_asked sign m.order v m.client_now op reply t0 = mv at hcalm
    obtain ⟨state, out, t'⟩ := mv
    rw [turn_asked (first_call_free h) m hrep hmv]
    dsimp only at hkeep
    rw [hkeep, hrun]
    cases hcalm with
    | asked r' h' _ =>
      rw [show ∀ (l : List Out) (a b : Out), l ++ a :: [b] = l ++ [a] ++ [b] from
        fun l a b => List.append_cons l a [b]]
      simp only [still_asked, still_paying, List.append_nil]
      exact .asked _ _ _ _ h'
    | paying c t' R hf hR ha hc hx hh =>
      rw [show ∀ (l : List Out) (a b : Out), l ++ a :: [b] = l ++ [a] ++ [b] from
        fun l a b => List.append_cons l a [b]]
      simp only [still_asked, still_paying, List.append_nil]
      exact .paying _ _ _ _ _ R hf (fun x hx' => absurd (hR x hx') List.not_mem_nil) ha hc
        (fun x hx' => (hx x hx').resolve_left List.not_mem_nil) hh
    | returned r' t' => exact .returned _ r' (by dsimp only; simp)
    | raised e t' R hR ha hh =>
      rw [show ∀ (l : List Out) (a b : Out), l ++ a :: [b] = l ++ [a] ++ [b] from
        fun l a b => List.append_cons l a [b]]
      simp only [still_asked, still_paying, List.append_nil]
      exact .raised _ _ _ _ _ R _ (fun x hx' => absurd (hR x hx') List.not_mem_nil) ha hh
  | paying t A c log b R hf hR ha hc hx hh =>
    have hatom := reply_atomic (cfg := cfg) hroom (s := (run l).run cfg m.others) hf
      (c.pass_group.passes.map Pass.pass_bytes)
    obtain ⟨s', reply, hrep⟩ : ∃ s' reply, server_reply cfg m ((run l).run cfg m.others)
      (op.request (c.pass_group.passes.map Pass.pass_bytes)) = (s', reply) := ⟨_, _, rfl⟩
    rw [hrep] at hatom
    obtain ⟨hcalm, hserver⟩ := calm_paid hs hv hf hc hh m.order hatom
    generalize hmv : op_paid sign m.order op c reply t = mv at hcalm hserver
    obtain ⟨state, out, t'⟩ := mv
    rw [turn_paid_any (paid_request hf _) m hrep hmv]
    rcases hserver with ⟨r, hout⟩ | hsame
    · dsimp only at hout
      subst hout
      exact .returned _ r (by dsimp only; simp)
    · dsimp only at hsame
      rw [hsame, hrun]
      have hback : ∀ x, Available t x → Available t0 x := fun x hx => aside_back ha h0 hh hx
      cases hcalm with
      | asked r' h' hg => exact absurd hg (by decide)
      | paying c' t' R' hf hR' ha' hc' hx' hh' =>
        rw [show ∀ (l : List Out) (a b : Out), l ++ a :: [b] = l ++ [a] ++ [b] from
          fun l a b => List.append_cons l a [b]]
        exact .paying _ _ _ _ _ (R ++ R') hf
          (fun x h => (List.mem_append.mp h).elim (hR x) fun h => hx x (hR' x h)) (aside_trans ha ha') hc'
          (fun x h => (hx' x h).elim (hx x) (hback x)) hh'
      | returned r' t' => exact .returned _ r' (by dsimp only; simp)
      | raised e t' R' hR' ha' hh' =>
        rw [show ∀ (l : List Out) (a b : Out), l ++ a :: [b] = l ++ [a] ++ [b] from
          fun l a b => List.append_cons l a [b]]
        simp only [still_paying, List.append_nil]
        exact .raised _ _ _ _ _ (R ++ R') _
          (fun x h => (List.mem_append.mp h).elim (hR x) fun h => hx x (hR' x h)) (aside_trans ha ha') hh'

theorem uneventful_start {sign : Signer} (hs : Signs sign) {v : Int} {op : StorageOp} {S : StorageSession} {H : List String}
    (h : Held S.store H) (rref : Except PyErr RRef) (o : Order) (run : Nat → Server) (b : Server) :
    Uneventful v op S.store H S.paying run 0 ⟨S.step sign v (.start op rref o), b, run 0⟩ := by
  obtain ⟨t, A, P, log⟩ := S
  have hcalm := calm_start hs (v := v) (op := op) h o rref
  dsimp only [StorageSession.step] at *
  generalize op_start sign o v rref op t = mv at hcalm
  cases hcalm with
  | asked r' h' _ =>
    simp only [still_asked, still_paying, List.append_nil]
    exact .asked _ _ _ _ h'
  | paying c t' R hf hR ha hc hx hh =>
    simp only [still_asked, still_paying, List.append_nil]
    exact .paying _ _ _ _ _ R hf (fun x hx' => absurd (hR x hx') List.not_mem_nil) ha hc
      (fun x hx' => (hx x hx').resolve_left List.not_mem_nil) hh
  | returned r' t' => exact .returned _ r' (by dsimp only; simp)
  | raised e t' R hR ha hh =>
    simp only [still_asked, still_paying, List.append_nil]
    exact .raised _ _ _ _ _ R _ (fun x hx' => absurd (hR x hx') List.not_mem_nil) ha hh

theorem uneventful_converse {sign : Signer} (hs : Signs sign) {cfg : ServerConfig} {v : Int} (hv : 0 < v) {op : StorageOp}
    {S : StorageSession} {H : List String} (h : Held S.store H) (rref : Except PyErr RRef) (o : Order) (s : Server)
    (ms : List Moment) (hroom : ∀ m ∈ ms, ∀ n, m.room n = true) :
    Uneventful v op S.store H S.paying (fun i => s.run cfg ((ms.take i).flatMap (·.others))) ms.length
      (converse sign cfg v op rref o S s ms) := by
  have key : ∀ (l2 l1 : List Moment) (k : Talk), ms = l1 ++ l2 →
      Uneventful v op S.store H S.paying (fun i => s.run cfg ((ms.take i).flatMap (·.others))) l1.length k →
      Uneventful v op S.store H S.paying (fun i => s.run cfg ((ms.take i).flatMap (·.others))) ms.length
        (l2.foldl (Talk.turn sign cfg v) k) := by
    intro l2
    induction l2 with
    | nil =>
      intro l1 k e hk
      rw [List.append_nil] at e
      rw [e]
      rw [e] at hk
      exact hk
    | cons m l2 ih =>
      intro l1 k e hk
      refine ih (l1 ++ [m]) _ (by rw [e]; simp) ?_
      rw [List.length_append]
      refine uneventful_turn hs hv h hk (hroom m (by rw [e]; simp)) ?_
      have h1 : ms.take l1.length = l1 := by rw [e]; exact List.take_left' rfl
      have h2 : ms.take (l1.length + 1) = l1 ++ [m] := by
        rw [show ms = (l1 ++ [m]) ++ l2 by rw [e]; simp]
        exact List.take_left' (by simp)
      rw [h1, h2]
      unfold Server.run
      rw [List.flatMap_append, List.foldl_append]
      simp
  unfold converse
  exact key ms [] _ rfl (by
    have := uneventful_start (v := v) (op := op) hs h rref o (fun i => s.run cfg ((ms.take i).flatMap (·.others))) s
    simpa [Server.run] using this)

end ZKAP
