import Verif.Spec.StorageClient
import Verif.Lemmas.Spending
import Verif.Lemmas.Wire
import Verif.Props.Pricing

namespace ZKAP
open Spec

/-! ### Pass groups are made for their message -/

/-- Every pass of the group was made for the group's message. -/
def GroupMade (sign : Signer) (g : PassGroup) : Prop :=
  ∀ x p, (x, p) ∈ g.tokens → MadeFor sign g.message x p

theorem get_made {sign : Signer} {o : Order} {m : Bytes} {n : Int} {t t' : Tables} {g : PassGroup}
    (h : spending_get sign o m n t = (.ok g, t')) : GroupMade sign g ∧ g.message = m := by
  unfold spending_get at h
  split at h
  · exact nomatch h
  · rename_i ts t1 hts
    split at h
    · exact nomatch h
    · rename_i ps hps
      cases h
      exact ⟨fun x p hx => ⟨ts, ps, hps, hx⟩, rfl⟩

theorem zip_unblinded (g : PassGroup) : g.unblinded_tokens.zip g.passes = g.tokens := by
  unfold PassGroup.unblinded_tokens PassGroup.passes
  induction g.tokens with
  | nil => rfl
  | cons a l ih => simp only [List.map_cons, List.zip_cons_cons, ih]

theorem answer_made {sign : Signer} {o : Order} {k : OnSuccess} {n : Int} {g g' : PassGroup} {a : CallAnswer}
    {t t' : Tables} (h : call_answer sign o k n g a t = (.waiting g', t')) (hg : GroupMade sign g) :
    GroupMade sign g' ∧ g'.message = g.message := by
  have hno : ∀ g0 e t0, give_up g0 e t0 ≠ (.waiting g', t') := by
    intro g0 e t0 hc
    unfold give_up at hc
    split at hc <;> exact nomatch hc
  unfold call_answer at h
  split at h
  · split at h
    · exact absurd h (hno _ _ _)
    · exact nomatch h
  · exact absurd h (hno _ _ _)
  · rename_i failed
    split at h
    · exact absurd h (hno _ _ _)
    · exact absurd h (hno _ _ _)
    · rename_i okay t1 hinv
      split at h
      · exact absurd h (hno _ _ _)
      · rename_i expanded t2 hexp
        cases h
        have hok : okay = ⟨g.message, atPositions (fun i => !failed.contains i) g.tokens⟩ := by
          unfold invalidate_rejected_passes at hinv
          split at hinv
          · exact nomatch hinv
          · dsimp only at hinv
            split at hinv
            · exact nomatch hinv
            · cases hinv
              exact (split_tokens g _).2
        unfold PassGroup.expand at hexp
        split at hexp
        · exact nomatch hexp
        · rename_i more t3 hget
          cases hexp
          obtain ⟨hm, he⟩ := get_made hget
          subst hok
          refine ⟨fun x p hx => ?_, rfl⟩
          simp only [PassGroup.add, zip_unblinded, List.mem_append] at hx ⊢
          rcases hx with hx | hx
          · exact hg x p ((atPositions_sublist _ _).subset hx)
          · have := hm x p hx
            rwa [he] at this

theorem start_made {sign : Signer} {o : Order} {m : Bytes} {n : Int} {g : PassGroup} {t t' : Tables}
    (h : call_start sign o m n t = (.waiting g, t')) : GroupMade sign g ∧ g.message = m := by
  unfold call_start at h
  split at h
  · exact nomatch h
  · rename_i g0 t0 hget
    cases h
    exact get_made hget

/-! ### What a method does -/

theorem transmit_same {r r' : StorageRequest} (h : transmit r = .ok r') : r' = r := by
  rw [transmit_eq, received] at h
  split at h
  · cases h; rfl
  · exact nomatch h

/-- What holds for a call with passes of an operation. -/
structure PayInv (sign : Signer) (v : Int) (log : List Out) (op : StorageOp) (c : Call) : Prop where
  price : OpPrice v log op c.num_passes
  paid : ¬ Free op
  on_success : c.on_success = op.on_success v
  message : c.pass_group.message = op.message
  made : GroupMade sign c.pass_group
  size : 0 ≤ c.num_passes → (c.pass_group.tokens.length : Int) = c.num_passes

theorem price_mono {v : Int} {l l' : List Out} (h : ∀ x ∈ l, x ∈ l') {op : StorageOp} {n : Int}
    (hp : OpPrice v l op n) : OpPrice v l' op n := by
  unfold OpPrice at *
  cases op with
  | addLease =>
    obtain ⟨w, now, sizes, h1, h2, h3⟩ := hp
    exact ⟨w, now, sizes, h _ h1, h2, h3⟩
  | writev =>
    rcases hp with hp | ⟨w, now, h1, h2⟩
    · exact .inl hp
    · exact .inr ⟨w, now, h _ h1, h2⟩
  | _ => exact hp

theorem PayInv.mono {sign : Signer} {v : Int} {l l' : List Out} (h : ∀ x ∈ l, x ∈ l') {op : StorageOp}
    {c : Call} (hp : PayInv sign v l op c) : PayInv sign v l' op c :=
  ⟨price_mono h hp.price, hp.paid, hp.on_success, hp.message, hp.made, hp.size⟩

/-- What holds for a remote call. -/
def SentOk (sign : Signer) (v : Int) (log : List Out) (op : StorageOp) (r : StorageRequest) : Prop :=
  (FirstCall op r ∧ passesIn r = []) ∨
  ∃ c, PayInv sign v log op c ∧ r = op.request (c.pass_group.passes.map Pass.pass_bytes)

/-- The tokens an operation holds. -/
def opTokens : OpState → List String
  | .paying c => c.pass_group.unblinded_tokens
  | _ => []

/-- What holds after a method has moved. -/
structure MoveInv (sign : Signer) (v : Int) (log : List Out) (op : StorageOp) (a b : List String) (m : Moved) :
    Prop where
  held : Held m.2.2 (a ++ opTokens m.1 ++ b)
  paying : ∀ c, m.1 = .paying c → PayInv sign v log op c
  out : ∃ x, m.2.1 = [x] ∧ (∀ op' r, x = .sent op' r → op' = op ∧ SentOk sign v log op r) ∧
    (∀ op' rep now, x ≠ .got op' rep now)

theorem moveInv_over {sign : Signer} {v : Int} {log : List Out} {op : StorageOp} {a b : List String} {t : Tables}
    (h : Held t (a ++ b)) (x : Out) (hx : ∀ op' r, x ≠ .sent op' r) (hx' : ∀ op' rep now, x ≠ .got op' rep now) :
    MoveInv sign v log op a b (.over, [x], t) :=
  ⟨by simpa [opTokens] using h, fun _ hc => (nomatch hc), x, rfl, fun op' r e => absurd e (hx op' r), hx'⟩

theorem send_free_inv {sign : Signer} {v : Int} {log : List Out} {op : StorageOp} {r : StorageRequest}
    {a b : List String} {t : Tables} (h : Held t (a ++ b)) (hr : FirstCall op r) (hp : passesIn r = []) :
    MoveInv sign v log op a b (send_free op r t) := by
  unfold send_free
  split
  · rename_i r' hr'
    have := transmit_same hr'
    subst this
    exact ⟨by simpa [opTokens] using h, fun _ hc => (nomatch hc), _, rfl,
      fun op' r e => by cases e; exact ⟨rfl, .inl ⟨hr, hp⟩⟩, fun _ _ _ e => nomatch e⟩
  · exact moveInv_over h _ (fun _ _ e => nomatch e) (fun _ _ _ e => nomatch e)

theorem send_paid_inv {sign : Signer} {v : Int} {log : List Out} {op : StorageOp} {c : Call}
    {a b : List String} {t : Tables} (h : Held t (a ++ c.pass_group.unblinded_tokens ++ b))
    (hc : PayInv sign v log op c) : MoveInv sign v log op a b (send_paid op c t) := by
  unfold send_paid
  split
  · rename_i r' hr'
    have := transmit_same hr'
    subst this
    exact ⟨h, fun c' e => by cases e; exact hc, _, rfl,
      fun op' r e => by cases e; exact ⟨rfl, .inr ⟨c, hc, rfl⟩⟩, fun _ _ _ e => nomatch e⟩
  · rename_i e he
    obtain ⟨t', h1, -, h3⟩ := give_up_held e h
    rw [h1]
    exact moveInv_over h3 _ (fun _ _ e => nomatch e) (fun _ _ _ e => nomatch e)

theorem settle_inv {sign : Signer} {v : Int} {log : List Out} {op : StorageOp} {c : Call} {res : OpResult}
    {a b : List String} {s : CallState} {t : Tables} (h : Held t (a ++ stateTokens s ++ b))
    (hc : ∀ g, s = .waiting g → PayInv sign v log op { c with pass_group := g }) :
    MoveInv sign v log op a b (settle op c res s t) := by
  unfold settle
  split
  · exact send_paid_inv h (hc _ rfl)
  · exact moveInv_over (by simpa [stateTokens] using h) _ (fun _ _ e => nomatch e) (fun _ _ _ e => nomatch e)
  · exact moveInv_over (by simpa [stateTokens] using h) _ (fun _ _ e => nomatch e) (fun _ _ _ e => nomatch e)

theorem pay_inv {sign : Signer} (hs : Signs sign) {v : Int} {log : List Out} {op : StorageOp} {n : Int}
    {held : List String} {t : Tables} (h : Held t held) (o : Order) (hn : OpPrice v log op n) (hp : ¬ Free op) :
    MoveInv sign v log op held [] (pay sign o v op n t) := by
  obtain ⟨h1, -, h3⟩ := start_held hs h o op.message n
  unfold pay
  dsimp only
  refine settle_inv (by simpa using h1) fun g hg => ?_
  obtain ⟨h4, h5⟩ := start_made (t' := (call_start sign o op.message n t).2) (Prod.ext hg rfl)
  exact ⟨hn, hp, rfl, h5, h4, (h3 g hg).2⟩

theorem writes_any (tw : TWVectors) :
    (get_write_sharenums tw).length > 0 ↔ ∃ kv ∈ tw, kv.2.datav ≠ [] := by
  unfold get_write_sharenums
  rw [List.length_map, gt_iff_lt, List.length_pos_iff_exists_mem]
  constructor
  · rintro ⟨kv, h⟩
    rw [List.mem_filter] at h
    exact ⟨kv, h.1, by simpa using h.2⟩
  · rintro ⟨kv, h1, h2⟩
    exact ⟨kv, List.mem_filter.mpr ⟨h1, by simpa using h2⟩⟩

theorem op_start_inv {sign : Signer} (hs : Signs sign) {v : Int} (hv : 0 < v) {log : List Out} {op : StorageOp}
    {held : List String} {t : Tables} (h : Held t held) (o : Order) (get_rref : Except PyErr RRef) :
    MoveInv sign v log op held [] (op_start sign o v get_rref op t) := by
  have h' : Held t (held ++ []) := by simpa using h
  unfold op_start
  split
  · exact moveInv_over h' _ (fun _ _ e => nomatch e) (fun _ _ _ e => nomatch e)
  · split
    · exact pay_inv hs h o (required_passes_eq v hv _) (fun hf => hf)
    · exact send_free_inv h' (.renew _ _ _) rfl
    · rename_i si secrets tw rv
      split
      · rename_i hw
        exact send_free_inv h' (.write _ _ _ _ ((writes_any tw).mp hw)) rfl
      · rename_i hw
        refine pay_inv hs h o (.inl ⟨?_, rfl⟩) (fun hf => hf)
        intro kv hkv
        by_cases hd : kv.2.datav = []
        · exact hd
        · exact absurd ((writes_any tw).mpr ⟨kv, hkv, hd⟩) hw
    · rename_i h1 h2 h3
      cases op with
      | allocateBuckets => exact absurd rfl (h1 _ _ _ _ _ _)
      | addLease => exact absurd rfl (h2 _ _ _)
      | writev => exact absurd rfl (h3 _ _ _ _)
      | _ => exact send_free_inv h' (by constructor) rfl

theorem op_asked_inv {sign : Signer} (hs : Signs sign) {v : Int} (hv : 0 < v) {log : List Out} {op : StorageOp}
    {held : List String} {t : Tables} (h : Held t held) (o : Order) (now : Int) (reply : Reply)
    (hl : .got op reply now ∈ log) :
    MoveInv sign v log op held [] (op_asked sign o v now op reply t) := by
  have h' : Held t (held ++ []) := by simpa using h
  unfold op_asked
  split
  · exact moveInv_over h' _ (fun _ _ e => nomatch e) (fun _ _ _ e => nomatch e)
  · rename_i w hw
    have hr : reply = .result w := by
      cases reply with
      | result w' => cases hw; rfl
      | morePassesRequired => exact nomatch hw
      | failure => exact nomatch hw
    subst hr
    split
    · split
      · exact moveInv_over h' _ (fun _ _ e => nomatch e) (fun _ _ _ e => nomatch e)
      · rename_i n hn
        refine pay_inv hs h o ?_ (fun hf => hf)
        unfold client_add_lease_price at hn
        split at hn
        · exact nomatch hn
        · rename_i sizes hsz
          cases hn
          exact ⟨w, now, sizes, hl, hsz, required_passes_eq v hv _⟩
    · split
      · exact moveInv_over h' _ (fun _ _ e => nomatch e) (fun _ _ _ e => nomatch e)
      · rename_i n hn
        exact pay_inv hs h o (.inr ⟨w, now, hl, hn⟩) (fun hf => hf)
    · split
      · exact moveInv_over h' _ (fun _ _ e => nomatch e) (fun _ _ _ e => nomatch e)
      · exact moveInv_over h' _ (fun _ _ e => nomatch e) (fun _ _ _ e => nomatch e)

theorem op_paid_inv {sign : Signer} (hs : Signs sign) {v : Int} {log : List Out} {op : StorageOp} {c : Call}
    {a b : List String} {t : Tables} (h : Held t (a ++ c.pass_group.unblinded_tokens ++ b)) (o : Order)
    (reply : Reply) (hc : PayInv sign v log op c) :
    MoveInv sign v log op a b (op_paid sign o op c reply t) := by
  unfold op_paid
  dsimp only
  obtain ⟨h1, h2⟩ := answer_size hs h o (reply.for_call op).1 hc.size
  refine settle_inv h1 fun g hg => ?_
  obtain ⟨h3, h4⟩ := answer_made
    (t' := (call_answer sign o c.on_success c.num_passes c.pass_group (reply.for_call op).1 t).2)
    (Prod.ext hg rfl) hc.made
  exact ⟨hc.price, hc.paid, hc.on_success, h4.trans hc.message, h3, h2 g hg⟩

/-! ### Sessions -/

/-- What holds in every session. -/
structure SessionInv (sign : Signer) (v : Int) (s : StorageSession) : Prop where
  held : Held s.store (s.paying.flatMap fun oc => holds oc.2)
  paying : ∀ oc ∈ s.paying, PayInv sign v s.log oc.1 oc.2
  log : ∀ l1 op r l2, s.log = l1 ++ .sent op r :: l2 → SentOk sign v l1 op r

theorem sessionInv_init (sign : Signer) (v : Int) : SessionInv sign v {} :=
  ⟨clientInv_init.held, fun _ h => (nomatch h), fun l1 op r l2 h => by
    have := congrArg List.length h
    simp at this⟩

theorem log_snoc {sign : Signer} {v : Int} {log : List Out}
    (h : ∀ l1 op r l2, log = l1 ++ .sent op r :: l2 → SentOk sign v l1 op r) {x : Out}
    (hx : ∀ op r, x = .sent op r → SentOk sign v log op r) :
    ∀ l1 op r l2, log ++ [x] = l1 ++ .sent op r :: l2 → SentOk sign v l1 op r := by
  intro l1 op r l2 e
  rcases List.eq_nil_or_concat l2 with rfl | ⟨l2', y, rfl⟩
  · obtain ⟨e1, e2⟩ := List.append_inj' e rfl
    subst e1
    cases e2
    exact hx op r rfl
  · rw [List.concat_eq_append, ← List.cons_append, ← List.append_assoc] at e
    obtain ⟨e1, e2⟩ := List.append_inj' e rfl
    exact h _ _ _ _ e1

theorem still_paying_tokens (op : StorageOp) (st : OpState) :
    ((still_paying op st).flatMap fun oc => holds oc.2) = opTokens st := by
  cases st <;> simp [still_paying, opTokens, holds, PassGroup.unblinded_tokens]

theorem move_log {sign : Signer} {v : Int} {log : List Out}
    (h : ∀ l1 op r l2, log = l1 ++ .sent op r :: l2 → SentOk sign v l1 op r) {op : StorageOp} {a b : List String}
    {m : Moved} (hm : MoveInv sign v log op a b m) :
    ∀ l1 op r l2, log ++ m.2.1 = l1 ++ .sent op r :: l2 → SentOk sign v l1 op r := by
  obtain ⟨x, hx, h1, -⟩ := hm.out
  rw [hx]
  refine log_snoc h fun op' r e => ?_
  obtain ⟨rfl, h2⟩ := h1 op' r e
  exact h2

theorem session_inv_step {sign : Signer} (hs : Signs sign) {v : Int} (hv : 0 < v) {s : StorageSession}
    (h : SessionInv sign v s) (e : SessionEvent)
    (hr : ∀ op, e = .other op → ∀ x, Issues x op → x ∉ invalidTokens s.store) :
    SessionInv sign v (s.step sign v e) := by
  cases e with
  | start op get_rref o =>
    have hm := op_start_inv hs hv (log := s.log) (op := op) h.held o get_rref
    unfold StorageSession.step
    dsimp only
    refine ⟨?_, ?_, move_log h.log hm⟩
    · rw [List.flatMap_append, still_paying_tokens]
      simpa using hm.held
    · intro oc hoc
      rcases List.mem_append.mp hoc with hoc | hoc
      · exact (h.paying oc hoc).mono fun x hx => List.mem_append_left _ hx
      · cases hst : (op_start sign o v get_rref op s.store).1 with
        | paying c =>
          rw [hst] at hoc
          simp only [still_paying, List.mem_singleton] at hoc
          subst hoc
          exact (hm.paying c hst).mono fun x hx => List.mem_append_left _ hx
        | asked => rw [hst] at hoc; exact nomatch hoc
        | over => rw [hst] at hoc; exact nomatch hoc
  | answer i reply now o =>
    unfold StorageSession.step
    dsimp only
    split
    · exact h
    · rename_i op hi
      have hm := op_asked_inv hs hv (log := s.log ++ [.got op reply now]) (op := op) h.held o now reply
        (List.mem_append_right _ List.mem_cons_self)
      have hlog : s.log ++ Out.got op reply now :: (op_asked sign o v now op reply s.store).2.1 =
          (s.log ++ [.got op reply now]) ++ (op_asked sign o v now op reply s.store).2.1 := by simp
      have h1 := log_snoc h.log (x := .got op reply now) (fun _ _ e => nomatch e)
      refine ⟨?_, ?_, ?_⟩
      · rw [List.flatMap_append, still_paying_tokens]
        simpa using hm.held
      · intro oc hoc
        dsimp only
        rw [hlog]
        rcases List.mem_append.mp hoc with hoc | hoc
        · exact (h.paying oc hoc).mono fun x hx => List.mem_append_left _ (List.mem_append_left _ hx)
        · cases hst : (op_asked sign o v now op reply s.store).1 with
          | paying c =>
            rw [hst] at hoc
            simp only [still_paying, List.mem_singleton] at hoc
            subst hoc
            exact (hm.paying c hst).mono fun x hx => List.mem_append_left _ hx
          | asked => rw [hst] at hoc; exact nomatch hoc
          | over => rw [hst] at hoc; exact nomatch hoc
      · dsimp only
        rw [hlog]
        exact move_log h1 hm
  | answerPaid i reply now o =>
    unfold StorageSession.step
    dsimp only
    split
    · exact h
    · rename_i op c hi
      have hp := h.paying _ (List.mem_of_getElem? hi)
      have hh := h.held
      rw [getElem?_split hi] at hh
      have hh' : Held s.store (((s.paying.take i).flatMap fun oc => holds oc.2) ++ c.pass_group.unblinded_tokens ++
          ((s.paying.drop (i + 1)).flatMap fun oc => holds oc.2)) := by
        simpa [holds, PassGroup.unblinded_tokens] using hh
      have hm := op_paid_inv hs hh' o reply
        (hp.mono (l' := s.log ++ [.got op reply now]) fun x hx => List.mem_append_left _ hx)
      have hlog : s.log ++ Out.got op reply now :: (op_paid sign o op c reply s.store).2.1 =
          (s.log ++ [.got op reply now]) ++ (op_paid sign o op c reply s.store).2.1 := by simp
      have h1 := log_snoc h.log (x := .got op reply now) (fun _ _ e => nomatch e)
      refine ⟨?_, ?_, ?_⟩
      · rw [List.flatMap_append, List.flatMap_append, still_paying_tokens]
        exact hm.held
      · intro oc hoc
        dsimp only
        rw [hlog]
        rw [List.append_assoc] at hoc
        rcases List.mem_append.mp hoc with hoc | hoc
        · exact (h.paying oc (List.mem_of_mem_take hoc)).mono
            fun x hx => List.mem_append_left _ (List.mem_append_left _ hx)
        · rcases List.mem_append.mp hoc with hoc | hoc
          · cases hst : (op_paid sign o op c reply s.store).1 with
            | paying c' =>
              rw [hst] at hoc
              simp only [still_paying, List.mem_singleton] at hoc
              subst hoc
              exact (hm.paying c' hst).mono fun x hx => List.mem_append_left _ hx
            | asked => rw [hst] at hoc; exact nomatch hoc
            | over => rw [hst] at hoc; exact nomatch hoc
          · exact (h.paying oc (List.mem_of_mem_drop hoc)).mono
              fun x hx => List.mem_append_left _ (List.mem_append_left _ hx)
      · dsimp only
        rw [hlog]
        exact move_log h1 hm
  | other op =>
    have hc : ClientInv ⟨s.store, s.paying.map Prod.snd⟩ := ⟨by simpa [List.flatMap_map] using h.held, by
      intro c hc
      obtain ⟨oc, hoc, rfl⟩ := List.mem_map.mp hc
      exact (h.paying oc hoc).size⟩
    have h1 := client_inv_step hs hc (.other op) (fun op' e x hx => hr op' (by cases e; rfl) x hx)
    unfold StorageSession.step
    dsimp only
    unfold Client.step at h1
    dsimp only at h1
    split
    · rename_i ho
      rw [if_pos ho] at h1
      exact ⟨by simpa [List.flatMap_map] using h1.held, h.paying, h.log⟩
    · exact h
  | restart =>
    have hc : ClientInv ⟨s.store, s.paying.map Prod.snd⟩ := ⟨by simpa [List.flatMap_map] using h.held, by
      intro c hc
      obtain ⟨oc, hoc, rfl⟩ := List.mem_map.mp hc
      exact (h.paying oc hoc).size⟩
    have h1 := client_inv_step hs hc .restart (fun op' e => nomatch e)
    exact ⟨h1.held, fun _ hh => (nomatch hh), log_snoc h.log (fun _ _ e => nomatch e)⟩

theorem session_inv_run {sign : Signer} (hs : Signs sign) {v : Int} (hv : 0 < v) (es : List SessionEvent)
    {s : StorageSession} (h : SessionInv sign v s) (hr : NoReissueIn sign v s es) :
    SessionInv sign v (s.run sign v es) := by
  induction es generalizing s with
  | nil => exact h
  | cons e es ih => exact ih (session_inv_step hs hv h e hr.1) hr.2

/-! ### A negative number of passes -/

theorem get_negative {sign : Signer} (hs : Signs sign) {t : Tables} {held : List String} (h : Held t held)
    (o : Order) (m : Bytes) {n : Int} (hn : n < 0) :
    ∃ g t', spending_get sign o m n t = (.ok g, t') ∧ t'.app = t.app ∧ g.message = m ∧
      (∀ x, x ∈ g.unblinded_tokens ↔ Available t x) ∧ Held t' (held ++ g.unblinded_tokens) := by
  rcases get_held hs h o m n with he | ⟨g, t', he, h1, h2, -, -, h3⟩
  · unfold spending_get at he
    rw [getTokens_wf_eq h.wf] at he
    rw [if_neg (by unfold SQLITE3_INTEGER_MAX; omega)] at he
    obtain ⟨ps, hps, -⟩ := hs m (sql_limit n (o.f (select_available t)))
    simp only [hps] at he
    exact nomatch (Prod.mk.inj he).1
  · refine ⟨g, t', he, h1, h2, ?_, h3⟩
    unfold spending_get at he
    rw [getTokens_wf_eq h.wf, if_neg (by unfold SQLITE3_INTEGER_MAX; omega)] at he
    obtain ⟨ps, hps, hlen⟩ := hs m (sql_limit n (o.f (select_available t)))
    simp only [hps] at he
    cases he
    intro x
    have hfst : PassGroup.unblinded_tokens ⟨m, (sql_limit n (o.f (select_available t))).zip ps⟩ =
        sql_limit n (o.f (select_available t)) := by
      unfold PassGroup.unblinded_tokens
      exact List.map_fst_zip (by omega)
    rw [hfst]
    unfold sql_limit
    rw [if_pos hn, (o.perm _).mem_iff, mem_select_available]

/-! ### Prices of writes -/

theorem nodup_subset_length {l m : List String} (hl : l.Nodup) (h : ∀ x ∈ l, x ∈ m) : l.length ≤ m.length := by
  induction l generalizing m with
  | nil => exact Nat.zero_le _
  | cons x l ih =>
    obtain ⟨h1, h2⟩ := List.nodup_cons.mp hl
    have hx := h x List.mem_cons_self
    have := ih h2 (m := m.erase x) fun y hy =>
      (List.mem_erase_of_ne (fun e : y = x => h1 (e ▸ hy))).mpr (h y (List.mem_cons_of_mem _ hy))
    rw [List.length_erase_of_mem hx] at this
    have := List.length_pos_of_mem hx
    rw [List.length_cons]
    omega

theorem writev_price_nonneg {v : Int} (hv : 0 < v) {w : Wire} {tw : TWVectors} {now n : Int} (hd : Dict.WF tw)
    (h : client_writev_price v w tw now = .ok n) : 0 ≤ n := by
  unfold client_writev_price at h
  dsimp only at h
  split at h
  · split at h
    · exact nomatch h
    · split at h
      · exact nomatch h
      · cases h
        rw [mutable_price_eq v hv _ _ hd]
        refine sum_nonneg fun x hx => ?_
        obtain ⟨kv, -, rfl⟩ := List.mem_map.mp hx
        exact growth_nonneg v hv _ _
    · exact nomatch h
  · cases h; omega

/-! ### What stays in the store -/

theorem settle_app {op : StorageOp} {c : Call} {res : OpResult} {a b : List String} {s : CallState} {t : Tables}
    (h : Held t (a ++ stateTokens s ++ b)) : (settle op c res s t).2.2.app = t.app := by
  unfold settle
  split
  · unfold send_paid
    dsimp only
    split
    · rfl
    · rename_i g e he
      obtain ⟨t', h1, h2, -⟩ := give_up_held e h
      rw [h1]
      exact h2
  · rfl
  · rfl

theorem pay_app {sign : Signer} (hs : Signs sign) {v : Int} {op : StorageOp} {n : Int} {held : List String}
    {t : Tables} (h : Held t held) (o : Order) : (pay sign o v op n t).2.2.app = t.app := by
  obtain ⟨h1, h2, -⟩ := start_held hs h o op.message n
  unfold pay
  dsimp only
  rw [settle_app (a := held) (b := []) (by simpa using h1), h2]

theorem send_free_app (op : StorageOp) (r : StorageRequest) (t : Tables) : (send_free op r t).2.2.app = t.app := by
  unfold send_free
  split <;> rfl

theorem op_start_app {sign : Signer} (hs : Signs sign) {v : Int} {op : StorageOp}
    {held : List String} {t : Tables} (h : Held t held) (o : Order) (get_rref : Except PyErr RRef) :
    (op_start sign o v get_rref op t).2.2.app = t.app := by
  unfold op_start
  split
  · rfl
  · split
    · exact pay_app hs h o
    · exact send_free_app _ _ _
    · split
      · exact send_free_app _ _ _
      · exact pay_app hs h o
    · exact send_free_app _ _ _

theorem op_asked_app {sign : Signer} (hs : Signs sign) {v : Int} {op : StorageOp}
    {held : List String} {t : Tables} (h : Held t held) (o : Order) (now : Int) (reply : Reply) :
    (op_asked sign o v now op reply t).2.2.app = t.app := by
  unfold op_asked
  split
  · rfl
  · split
    · split
      · rfl
      · exact pay_app hs h o
    · split
      · rfl
      · exact pay_app hs h o
    · split <;> rfl

end ZKAP
