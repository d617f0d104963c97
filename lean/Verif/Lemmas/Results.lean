import Verif.Lemmas.BadTokens
import Verif.Props.Wire

/-! Lemmas for `Verif.Props.Results`: where a result of a conversation comes from. -/
namespace ZKAP
open Spec

/-- The call an operation begins with if it asks first. -/
inductive FirstCall : StorageOp → StorageRequest → Prop where
  | renewal (si renew cancel) : FirstCall (.addLease si renew cancel) (.shareSizes si)
  | write (si secrets tw rv) : FirstCall (.writev si secrets tw rv) (.statShares [si])
  | free (op) (h : Free op) : FirstCall op (op.request [])

/-- What can be seen of an operation that has moved. -/
inductive Step (op : StorageOp) (ask : Prop) (result : OpResult → Prop) : Moved → Prop where
  | asked (r t) (h : FirstCall op r) (ha : ask) : Step op ask result (.asked, [.sent op r], t)
  | paying (c t) (h : ¬ Free op) : Step op ask result
      (.paying c, [.sent op (op.request (c.pass_group.passes.map Pass.pass_bytes))], t)
  | returned (r t) (h : result r) : Step op ask result (.over, [.returned op r], t)
  | raised (e t) : Step op ask result (.over, [.raised op e], t)

theorem step_send_free {op : StorageOp} {R : OpResult → Prop} {r : StorageRequest} (h : FirstCall op r) (t : Tables) :
    Step op True R (send_free op r t) := by
  unfold send_free
  split
  · rename_i r' hr
    rw [transmit_same hr]
    exact .asked _ _ h trivial
  · exact .raised _ _

theorem step_send_paid {op : StorageOp} {A : Prop} {R : OpResult → Prop} (h : ¬ Free op) (c : Call) (t : Tables) :
    Step op A R (send_paid op c t) := by
  unfold send_paid
  split
  · rename_i r' hr
    rw [transmit_same hr]
    exact .paying _ _ h
  · split
    · exact .raised _ _
    · exact .raised _ _

theorem step_pay {op : StorageOp} {A : Prop} {R : OpResult → Prop} (h : ¬ Free op) (sign : Signer) (o : Order) (v n : Int)
    (t : Tables) : Step op A R (pay sign o v op n t) := by
  unfold pay call_start
  cases hs : spending_get sign o op.message n t with
  | mk res t1 =>
    cases res with
    | error e => exact .raised _ _
    | ok g => exact step_send_paid h _ _

theorem step_start {op : StorageOp} {R : OpResult → Prop} (sign : Signer) (o : Order) (v : Int)
    (rref : Except PyErr RRef) (t : Tables) : Step op True R (op_start sign o v rref op t) := by
  unfold op_start
  split
  · exact .raised _ _
  · cases op with
    | allocateBuckets si renew cancel nums size canary => exact step_pay (by exact fun h => h) _ _ _ _ _
    | addLease si renew cancel => exact step_send_free (.renewal _ _ _) _
    | writev si secrets tw rv =>
      dsimp only
      split
      · exact step_send_free (.write _ _ _ _) _
      · exact step_pay (by exact fun h => h) _ _ _ _ _
    | _ => exact step_send_free (.free _ (by exact trivial)) _

theorem step_asked {op : StorageOp} {r0 : StorageRequest} (h0 : FirstCall op r0) (sign : Signer) (o : Order) (v now : Int) (reply : Reply) (t : Tables) :
    Step op True (fun r => Free op ∧ ∃ w, reply = .result w ∧ free_result w op = .ok r)
      (op_asked sign o v now op reply t) := by
  unfold op_asked
  cases reply with
  | morePassesRequired f => exact .raised _ _
  | failure e => exact .raised _ _
  | result w =>
    dsimp only [Reply.value]
    cases op with
    | addLease si renew cancel =>
      dsimp only
      split
      · exact .raised _ _
      · exact step_pay (by exact fun h => h) _ _ _ _ _
    | writev si secrets tw rv =>
      dsimp only
      split
      · exact .raised _ _
      · exact step_pay (by exact fun h => h) _ _ _ _ _
    | allocateBuckets si renew cancel nums size canary =>
      cases h0 with
      | free _ h => exact absurd h fun h => h
    | _ =>
      dsimp only
      split
      · exact .raised _ _
      · rename_i r hr
        exact .returned _ _ ⟨trivial, w, rfl, hr⟩

theorem answer_returned {sign : Signer} {o : Order} {on_success : OnSuccess} {n : Int} {g : PassGroup} {a : CallAnswer}
    {t t' : Tables} (h : call_answer sign o on_success n g a t = (.returned, t')) : ∃ k, a = .ok k := by
  unfold call_answer give_up at h
  cases a with
  | ok k => exact ⟨k, rfl⟩
  | error e =>
    dsimp only at h
    split at h <;> cases h
  | rejected failed =>
    dsimp only at h
    split at h
    · split at h <;> cases h
    · split at h <;> cases h
    · split at h
      · split at h <;> cases h
      · cases h

theorem step_paid {op : StorageOp} (h0 : ¬ Free op) (sign : Signer) (o : Order) (c : Call) (reply : Reply) (t : Tables) :
    Step op False (fun r => ∃ w k, reply = .result w ∧ paid_result w op = .ok (r, k))
      (op_paid sign o op c reply t) := by
  unfold op_paid
  cases hr : reply.for_call op with
  | mk a result =>
    dsimp only
    cases hc : call_answer sign o c.on_success c.num_passes c.pass_group a t with
    | mk s t1 =>
      cases s with
      | waiting g => exact step_send_paid h0 _ _
      | raised e => exact .raised _ _
      | returned =>
        obtain ⟨k, rfl⟩ := answer_returned hc
        refine .returned _ _ ?_
        unfold Reply.for_call at hr
        cases reply with
        | morePassesRequired f => cases hr
        | failure e => cases hr
        | result w =>
          dsimp only at hr
          split at hr
          · rename_i hp
            cases hr
            exact ⟨w, k, rfl, hp⟩
          · cases hr

/-- An answer the server gave from which the result was made. -/
def AnswerFor (cfg : ServerConfig) (op : StorageOp) (ms : List Moment) (r : OpResult) (s s' : Server) : Prop :=
  ∃ m ∈ ms, ∃ ps w, server_reply cfg m s (op.request ps) = (s', .result w) ∧
    ((Free op ∧ free_result w op = .ok r) ∨ (¬ Free op ∧ ∃ k, paid_result w op = .ok (r, k)))

/-- How far an operation has got. -/
inductive Stage (cfg : ServerConfig) (op : StorageOp) (ms : List Moment) : Talk → Prop where
  | asked (t asked paying log r b s) (h : FirstCall op r) :
      Stage cfg op ms ⟨⟨t, asked ++ [op], paying, log ++ [.sent op r]⟩, b, s⟩
  | paying (t asked paying c log ps b s) (h : ¬ Free op) :
      Stage cfg op ms ⟨⟨t, asked, paying ++ [(op, c)], log ++ [.sent op (op.request ps)]⟩, b, s⟩
  | returned (t asked paying log r b s) (h : AnswerFor cfg op ms r b s) :
      Stage cfg op ms ⟨⟨t, asked, paying, log ++ [.returned op r]⟩, b, s⟩
  | raised (t asked paying log e b s) :
      Stage cfg op ms ⟨⟨t, asked, paying, log ++ [.raised op e]⟩, b, s⟩

theorem first_call_free {op : StorageOp} {r : StorageRequest} (h : FirstCall op r) : r.with_passes = false := by
  cases h with
  | renewal => rfl
  | write => rfl
  | free op h => cases op <;> first | rfl | exact absurd h fun h => h

theorem paid_request {op : StorageOp} (h : ¬ Free op) (ps : List Bytes) : (op.request ps).with_passes = true := by
  cases op <;> first | rfl | exact absurd trivial h

theorem free_request {op : StorageOp} (h : Free op) (ps ps' : List Bytes) : op.request ps = op.request ps' := by
  cases op <;> first | rfl | exact absurd h fun h => h

theorem turn_paid_any {sign : Signer} {cfg : ServerConfig} {v : Int} {t : Tables} {asked : List StorageOp}
    {paying : List (StorageOp × Call)} {c : Call} {log : List Out} {op : StorageOp} {r : StorageRequest}
    {before server : Server} (hr : r.with_passes = true) (m : Moment) {server' : Server} {reply : Reply}
    (hs : server_reply cfg m (server.run cfg m.others) r = (server', reply)) {state : OpState} {out : List Out}
    {t' : Tables} (hm : op_paid sign m.order op c reply t = (state, out, t')) :
    Talk.turn sign cfg v ⟨⟨t, asked, paying ++ [(op, c)], log ++ [.sent op r]⟩, before, server⟩ m =
      ⟨⟨t', asked, paying ++ still_paying op state, log ++ [.sent op r] ++ .got op reply m.client_now :: out⟩,
        server.run cfg m.others, server'⟩ := by
  unfold Talk.turn
  dsimp only
  rw [List.getLast?_concat]
  dsimp only
  rw [hs, hr]
  dsimp only [StorageSession.step]
  rw [if_pos rfl]
  have hi : (paying ++ [(op, c)]).length - 1 = paying.length := by simp
  rw [hi]
  dsimp only
  rw [List.getElem?_concat_length]
  dsimp only
  rw [hm]
  dsimp only
  rw [List.take_left, List.drop_eq_nil_of_le (by simp), List.append_nil]

theorem stage_turn {sign : Signer} {cfg : ServerConfig} {v : Int} {op : StorageOp} {ms : List Moment} {k : Talk}
    (h : Stage cfg op ms k) {m : Moment} (hm : m ∈ ms) : Stage cfg op ms (Talk.turn sign cfg v k m) := by
  cases h with
  | returned t asked paying log r b s h =>
    rw [turn_over (by exact List.getLast?_concat)]
    exact .returned _ _ _ _ _ _ _ h
  | raised t asked paying log e b s =>
    have : Talk.turn sign cfg v ⟨⟨t, asked, paying, log ++ [.raised op e]⟩, b, s⟩ m =
        ⟨⟨t, asked, paying, log ++ [.raised op e]⟩, b, s⟩ := by
      unfold Talk.turn
      dsimp only
      rw [List.getLast?_concat]
    rw [this]
    exact .raised _ _ _ _ _ _ _
  | asked t asked paying log r b s h =>
    cases hrep : server_reply cfg m (s.run cfg m.others) r with
    | mk s' reply =>
      have hstep := step_asked h sign m.order v m.client_now reply t
      generalize hmv : op_asked sign m.order v m.client_now op reply t = mv at hstep
      obtain ⟨state, out, t'⟩ := mv
      rw [turn_asked (first_call_free h) m hrep hmv]
      cases hstep with
      | asked r' t h' _ =>
        rw [show ∀ (l : List Out) (a b : Out), l ++ a :: [b] = l ++ [a] ++ [b] from
          fun l a b => List.append_cons l a [b]]
        simp only [still_asked, still_paying, List.append_nil]
        exact .asked _ _ _ _ _ _ _ h'
      | paying c t h' =>
        rw [show ∀ (l : List Out) (a b : Out), l ++ a :: [b] = l ++ [a] ++ [b] from
          fun l a b => List.append_cons l a [b]]
        simp only [still_asked, still_paying, List.append_nil]
        exact .paying _ _ _ _ _ _ _ _ h'
      | returned r' t h' =>
        rw [show ∀ (l : List Out) (a b : Out), l ++ a :: [b] = l ++ [a] ++ [b] from
          fun l a b => List.append_cons l a [b]]
        obtain ⟨hfree, w, rfl, hres⟩ := h'
        have hr : r = op.request [] := by
          cases h with
          | free => rfl
          | renewal => exact absurd hfree fun h => h
          | write => exact absurd hfree fun h => h
        exact .returned _ _ _ _ _ _ _ ⟨m, hm, [], w, by rw [← hr]; exact hrep, .inl ⟨hfree, hres⟩⟩
      | raised e t =>
        rw [show ∀ (l : List Out) (a b : Out), l ++ a :: [b] = l ++ [a] ++ [b] from
          fun l a b => List.append_cons l a [b]]
        exact .raised _ _ _ _ _ _ _
  | paying t asked paying c log ps b s h =>
    cases hrep : server_reply cfg m (s.run cfg m.others) (op.request ps) with
    | mk s' reply =>
      have hstep := step_paid h sign m.order c reply t
      generalize hmv : op_paid sign m.order op c reply t = mv at hstep
      obtain ⟨state, out, t'⟩ := mv
      rw [turn_paid_any (paid_request h ps) m hrep hmv]
      cases hstep with
      | asked r' t h' ha => exact ha.elim
      | paying c t h' =>
        rw [show ∀ (l : List Out) (a b : Out), l ++ a :: [b] = l ++ [a] ++ [b] from
          fun l a b => List.append_cons l a [b]]
        exact .paying _ _ _ _ _ _ _ _ h'
      | returned r' t h' =>
        rw [show ∀ (l : List Out) (a b : Out), l ++ a :: [b] = l ++ [a] ++ [b] from
          fun l a b => List.append_cons l a [b]]
        obtain ⟨w, k, rfl, hres⟩ := h'
        simp only [still_paying, List.append_nil]
        exact .returned _ _ _ _ _ _ _ ⟨m, hm, ps, w, hrep, .inr ⟨h, k, hres⟩⟩
      | raised e t =>
        rw [show ∀ (l : List Out) (a b : Out), l ++ a :: [b] = l ++ [a] ++ [b] from
          fun l a b => List.append_cons l a [b]]
        exact .raised _ _ _ _ _ _ _

theorem stage_start {sign : Signer} {cfg : ServerConfig} {v : Int} {op : StorageOp} {ms : List Moment}
    (rref : Except PyErr RRef) (o : Order) (client : StorageSession) (b s : Server) :
    Stage cfg op ms ⟨client.step sign v (.start op rref o), b, s⟩ := by
  obtain ⟨t, asked, paying, log⟩ := client
  have hstep := step_start (R := fun _ => False) (op := op) sign o v rref t
  dsimp only [StorageSession.step]
  generalize op_start sign o v rref op t = mv at hstep
  cases hstep with
  | asked r' t h' _ =>
    simp only [still_asked, still_paying, List.append_nil]
    exact .asked _ _ _ _ _ _ _ h'
  | paying c t h' =>
    simp only [still_asked, still_paying, List.append_nil]
    exact .paying _ _ _ _ _ _ _ _ h'
  | returned r' t h' => exact h'.elim
  | raised e t => exact .raised _ _ _ _ _ _ _

theorem stage_converse {sign : Signer} {cfg : ServerConfig} {v : Int} {op : StorageOp}
    (rref : Except PyErr RRef) (o : Order) (client : StorageSession) (s : Server) (ms : List Moment) :
    Stage cfg op ms (converse sign cfg v op rref o client s ms) := by
  unfold converse
  have : ∀ (l : List Moment) (k : Talk), (∀ m ∈ l, m ∈ ms) → Stage cfg op ms k →
      Stage cfg op ms (l.foldl (Talk.turn sign cfg v) k) := by
    intro l
    induction l with
    | nil => intro k _ h; exact h
    | cons m l ih =>
      intro k hl h
      exact ih _ (fun x hx => hl x (List.mem_cons_of_mem _ hx)) (stage_turn h (hl m List.mem_cons_self))
  exact this ms _ (fun _ h => h) (stage_start rref o client s s)

/-- A result of a conversation is the server's answer. -/
theorem converse_returned {sign : Signer} {cfg : ServerConfig} {v : Int} {op op' : StorageOp}
    {rref : Except PyErr RRef} {o : Order} {client : StorageSession} {s : Server} {ms : List Moment} {r : OpResult}
    (h : (converse sign cfg v op rref o client s ms).client.log.getLast? = some (.returned op' r)) :
    op' = op ∧ AnswerFor cfg op ms r (converse sign cfg v op rref o client s ms).before
      (converse sign cfg v op rref o client s ms).server := by
  have hs := stage_converse (sign := sign) (cfg := cfg) (v := v) (op := op) rref o client s ms
  generalize converse sign cfg v op rref o client s ms = k at h hs
  cases hs with
  | returned t asked paying log r b s h' =>
    dsimp only at h
    rw [List.getLast?_concat] at h
    cases h
    exact ⟨rfl, h'⟩
  | _ =>
    dsimp only at h
    rw [List.getLast?_concat] at h
    cases h

end ZKAP
