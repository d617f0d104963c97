import Verif.Lemmas.StorageClient
import Verif.Props.Wire
import Verif.Props.Spending
import Verif.Props.Pricing

/-!
The storage client as a whole (C151-C153): any operations in any order, any answers of any server.

A client process starts with an empty database and goes through any list of events.
-/
namespace ZKAP
open Spec

/-- The client process after some events. -/
def sessionAfter (sign : Signer) (v : Int) (events : List SessionEvent) : StorageSession := StorageSession.run sign v {} events

theorem sessionAfter_snoc (sign : Signer) (v : Int) (events : List SessionEvent) (e : SessionEvent) :
    sessionAfter sign v (events ++ [e]) = (sessionAfter sign v events).step sign v e := by
  unfold sessionAfter StorageSession.run
  rw [List.foldl_append]
  rfl

/-! ### C151 -/

/-- **C151**: with a reference to anything but a ZKAPAuthorizer storage server every operation raises an error at
once: nothing is sent, no token is touched, no operation is left waiting. -/
theorem C151_wrong_server (sign : Signer) (v : Int) (s : StorageSession) (op : StorageOp) (get_rref : Except PyErr RRef)
    (o : Order) (wrong : ¬ RightServer get_rref) :
    ∃ e, s.step sign v (.start op get_rref o) = { s with log := s.log ++ [.raised op e] } := by
  have key : ∃ e, client_rref get_rref = .error e := by
    cases get_rref with
    | error e => exact ⟨e, rfl⟩
    | ok r =>
      obtain ⟨is, name⟩ := r
      cases is with
      | false => exact ⟨_, rfl⟩
      | true =>
        refine ⟨incorrectStorageServerReference, ?_⟩
        simp only [client_rref, if_true]
        rw [if_pos]
        intro hn
        exact wrong (by rw [hn]; rfl)
  obtain ⟨e, he⟩ := key
  refine ⟨e, ?_⟩
  simp only [StorageSession.step, op_start, he, still_asked, still_paying, List.append_nil]

/-- **C151**: the error names the cause if the reference is one to another kind of remote object. -/
theorem C151_error (sign : Signer) (v : Int) (s : StorageSession) (op : StorageOp) (name : Option String) (o : Order)
    (other : name ≠ some "RIPrivacyPassAuthorizedStorageServer.tahoe.privatestorage.io") :
    s.step sign v (.start op (.ok ⟨true, name⟩) o) =
      { s with log := s.log ++ [.raised op incorrectStorageServerReference] } := by
  have he : client_rref (.ok ⟨true, name⟩) = .error incorrectStorageServerReference := by
    simp only [client_rref, if_true]
    exact if_pos other
  simp only [StorageSession.step, op_start, he, still_asked, still_paying, List.append_nil]

/-- **C151**: with a reference to the right kind of server an operation that begins with a remote call without
passes makes this call. -/
theorem C151_right_server (sign : Signer) (v : Int) (s : StorageSession) (op : StorageOp) (get_rref : Except PyErr RRef)
    (o : Order) (right : RightServer get_rref) (r : StorageRequest) (first : FirstCall op r) (fits : Fits r) :
    s.step sign v (.start op get_rref o) =
      { s with asked := s.asked ++ [op], log := s.log ++ [.sent op r] } := by
  have he : client_rref get_rref = .ok ⟨true, some expected_remote_interface_name⟩ := by rw [right]; rfl
  have ht := (C115_calls_arrive r).1 fits
  have hs : op_start sign o v get_rref op s.store = (.asked, [.sent op r], s.store) := by
    unfold op_start
    rw [he]
    cases first with
    | write si secrets tw rv h1 =>
      dsimp only
      rw [if_pos ((writes_any tw).mpr h1)]
      unfold send_free
      rw [ht]
    | _ =>
      dsimp only [send_free, StorageOp.request]
      rw [ht]
  simp only [StorageSession.step, hs, still_asked, still_paying, List.append_nil]

/-- **C151**: free operations touch no token and need none, whatever happens to them. -/
theorem C151_free_operations (sign : Signer) (v : Int) (s : StorageSession) (op : StorageOp) (free : Free op) (o : Order) :
    (∀ get_rref, (s.step sign v (.start op get_rref o)).store = s.store ∧
      (s.step sign v (.start op get_rref o)).paying = s.paying) ∧
    ∀ i reply now, s.asked[i]? = some op → (s.step sign v (.answer i reply now o)).store = s.store ∧
      (s.step sign v (.answer i reply now o)).paying = s.paying := by
  have hsend : ∀ r, (send_free op r s.store).2.2 = s.store ∧ still_paying op (send_free op r s.store).1 = [] := by
    intro r; unfold send_free; split <;> exact ⟨rfl, rfl⟩
  constructor
  · intro get_rref
    have : (op_start sign o v get_rref op s.store).2.2 = s.store ∧
        still_paying op (op_start sign o v get_rref op s.store).1 = [] := by
      unfold op_start
      split
      · exact ⟨rfl, rfl⟩
      · cases op with
        | allocateBuckets => exact free.elim
        | addLease => exact free.elim
        | writev => exact free.elim
        | _ => exact hsend _
    simp only [StorageSession.step, this, List.append_nil, and_self]
  · intro i reply now hi
    have : (op_asked sign o v now op reply s.store).2.2 = s.store ∧
        still_paying op (op_asked sign o v now op reply s.store).1 = [] := by
      unfold op_asked
      split
      · exact ⟨rfl, rfl⟩
      · cases op with
        | allocateBuckets => exact free.elim
        | addLease => exact free.elim
        | writev => exact free.elim
        | _ => dsimp only; split <;> exact ⟨rfl, rfl⟩
    simp only [StorageSession.step, hi, this, List.append_nil, and_self]

/-! ### C152 -/

/-- What C152 says in full: a request is never sent with more passes than the price of the operation. -/
def C152_statement : Prop :=
  ∀ (sign : Signer), Signs sign → ∀ (v : Int), 0 < v → ∀ (events : List SessionEvent), NoReissueIn sign v {} events →
    ∀ l1 op r l2, (sessionAfter sign v events).log = l1 ++ .sent op r :: l2 → passesIn r ≠ [] →
      ∃ n, OpPrice v l1 op n ∧ ((passesIn r).length : Int) ≤ n

/-- The answer of a server to `share_sizes` saying that a share has a negative size. -/
def negativeSize (v : Int) : Wire := .dict [(.int 0, .int (-v))]

theorem negative_sizes (v : Int) (hv : 0 < v) (hv' : v < 2 ^ 64) :
    client_share_sizes (negativeSize v) = .ok [(0, -v)] :=
  ((C117_sizes_partial _).1 _).mpr ⟨[(0, -v)], ⟨_, rfl, rfl, by
    intro it hit
    simp only [List.mem_singleton] at hit
    subst hit
    refine ⟨by unfold ShareNumber; omega, ?_⟩
    show (-v).natAbs < 2 ^ 64
    omega⟩, rfl⟩

theorem negative_total (v : Int) (hv : 0 < v) : total v [-v] = -1 := by
  simp only [total, passes, List.map_cons, List.map_nil, List.sum_cons, List.sum_nil]
  have : -v + v - 1 = -1 := by omega
  rw [this, Int.add_zero]
  exact Int.ediv_eq_neg_one_of_neg_of_le (by omega) (by omega)

/-- **C152** fails in the worst way: a server that is asked for the sizes of the shares of a lease renewal and answers
with one negative number gets passes made from every token the client has available, and when it accepts the renewal
all of them are gone from the client's store. -/
theorem C152_takes_everything (sign : Signer) (works : Signs sign) (v : Int) (hv : 0 < v) (hv' : v < 2 ^ 64)
    (events : List SessionEvent) (fresh : NoReissueIn sign v {} events) (i : Nat) (si renew cancel : Bytes)
    (waiting : (sessionAfter sign v events).asked[i]? = some (.addLease si renew cancel))
    (hsi : si.length ≤ 16) (hrenew : renew.length = 32) (hcancel : cancel.length = 32)
    (sized : ∀ m x p, MadeFor sign m x p → p.pass_bytes.length = 177)
    (few : ∀ l : List String, l.Nodup → (∀ x ∈ l, Available (sessionAfter sign v events).store x) → l.length ≤ 2 ^ 20)
    (now : Int) (o : Order) :
    ∃ (ps : List Bytes) (tokens : List String), ps.length = tokens.length ∧ tokens.Nodup ∧
      (∀ x, x ∈ tokens ↔ Available (sessionAfter sign v events).store x) ∧
      ((sessionAfter sign v events).step sign v (.answer i (.result (negativeSize v)) now o)).log =
        (sessionAfter sign v events).log ++ [.got (.addLease si renew cancel) (.result (negativeSize v)) now,
          .sent (.addLease si renew cancel) (.addLease ps si renew cancel)] ∧
      ∀ w now' o' x, Available (sessionAfter sign v events).store x →
        ¬ Stored (((sessionAfter sign v events).step sign v (.answer i (.result (negativeSize v)) now o)).step sign v
          (.answerPaid (sessionAfter sign v events).paying.length (.result w) now' o')).store x := by
  have hinv := session_inv_run works hv events (sessionInv_init sign v) fresh
  change SessionInv sign v (sessionAfter sign v events) at hinv
  generalize sessionAfter sign v events = s at *
  obtain ⟨g, t', hget, happ, hm, hall, hheld⟩ :=
    get_negative works hinv.held o (add_lease_message si) (n := -1) (by omega)
  have hmade := (get_made hget).1
  have hprice : client_add_lease_price v (negativeSize v) = .ok (-1) := by
    unfold client_add_lease_price
    rw [negative_sizes v hv hv']
    dsimp only
    rw [required_passes_eq v hv]
    exact congrArg Except.ok (negative_total v hv)
  have hnd : g.unblinded_tokens.Nodup := (List.nodup_append.mp hheld.nodup).2.1
  have hlen : g.tokens.length ≤ 2 ^ 20 := by
    have := few g.unblinded_tokens hnd fun x hx => (hall x).mp hx
    simpa [PassGroup.unblinded_tokens] using this
  have hfit : transmit (.addLease (g.passes.map Pass.pass_bytes) si renew cancel) =
      .ok (.addLease (g.passes.map Pass.pass_bytes) si renew cancel) := by
    refine (C115_calls_arrive _).1 ⟨⟨?_, ?_⟩, hsi, hrenew, hcancel⟩
    · simpa [PassGroup.passes] using hlen
    · intro b hb
      obtain ⟨p, hp, rfl⟩ := List.mem_map.mp hb
      obtain ⟨⟨x, p'⟩, hxp, rfl⟩ := List.mem_map.mp hp
      exact sized _ x p' (hmade x p' hxp)
  have hmove : op_asked sign o v now (.addLease si renew cancel) (.result (negativeSize v)) s.store =
      (.paying ⟨.spendAll, -1, g⟩, [.sent (.addLease si renew cancel)
        (.addLease (g.passes.map Pass.pass_bytes) si renew cancel)], t') := by
    unfold op_asked
    dsimp only [Reply.value]
    rw [hprice]
    have hstart : call_start sign o (add_lease_message si) (-1) s.store = (.waiting g, t') := by
      unfold call_start
      rw [hget]
    dsimp only [pay, StorageOp.message]
    rw [hstart]
    dsimp only [settle, send_paid, StorageOp.request]
    rw [hfit]
    rfl
  refine ⟨g.passes.map Pass.pass_bytes, g.unblinded_tokens, ?_, hnd, hall, ?_, ?_⟩
  · simp [PassGroup.passes, PassGroup.unblinded_tokens]
  · simp only [StorageSession.step, waiting, hmove]
  · intro w now' o' x hx
    have hpay : ((s.step sign v (.answer i (.result (negativeSize v)) now o)).paying)[s.paying.length]? =
        some (.addLease si renew cancel, ⟨.spendAll, -1, g⟩) := by
      simp only [StorageSession.step, waiting, hmove, still_paying]
      rw [List.getElem?_append_right (Nat.le_refl _), Nat.sub_self]
      rfl
    have hst : (s.step sign v (.answer i (.result (negativeSize v)) now o)).store = t' := by
      simp only [StorageSession.step, waiting, hmove]
    generalize s.step sign v (.answer i (.result (negativeSize v)) now o) = s1 at *
    obtain ⟨st, t2, h1, -, -, h4⟩ := answer_ok_held (sign := sign) (a := s.paying.flatMap fun oc => holds oc.2)
      (b := []) (g := g) (t := t') (by simpa using hheld) o' .spendAll (-1) 0
    dsimp only at h4
    have hres : (s1.step sign v (.answerPaid s.paying.length (.result w) now' o')).store = t2 := by
      simp only [StorageSession.step, hpay, op_paid, Reply.for_call, paid_result]
      have hresp : response_ok "add_lease" w = true := rfl
      rw [hresp, if_pos rfl]
      dsimp only
      rw [hst, h1, h4.1]
      rfl
    rw [hres]
    rintro ⟨r, hr, rfl⟩
    rw [h4.2, List.mem_filter] at hr
    have := hr.2
    simp only [decide_eq_true_eq] at this
    exact this ((hall _).mpr hx)

/-! The examples use a signer whose passes have the right length, and a client that redeemed five tokens and is about
to renew a lease. -/

def exSign177 : Signer := fun m ts =>
  .ok (ts.map fun x => ⟨List.replicate 88 (65 + (m.length + x.length).toUInt8), List.replicate 88 66⟩)

theorem exSign177_signs : Signs exSign177 := fun m ts => ⟨_, rfl, by simp⟩

theorem exSign177_sized (m : Bytes) (x : String) (p : Pass) (h : MadeFor exSign177 m x p) : p.pass_bytes.length = 177 := by
  obtain ⟨ts, ps, h1, h2⟩ := h
  cases h1
  obtain ⟨y, -, rfl⟩ := List.mem_map.mp (List.of_mem_zip h2).2
  unfold Pass.pass_bytes
  rw [List.length_append, List.length_cons, List.length_replicate, List.length_replicate]

def exRight : Except PyErr RRef := .ok ⟨true, some "RIPrivacyPassAuthorizedStorageServer.tahoe.privatestorage.io"⟩

/-- A lease renewal. -/
def exRenew : StorageOp := .addLease (List.replicate 16 1) (List.replicate 32 2) (List.replicate 32 3)

/-- A download. -/
def exDownload : StorageOp := .getBuckets (List.replicate 16 1)

def exSession : List SessionEvent :=
  [.other (.add .natural "2020" "voucher" 5 0 (.ok ["r"])),
   .other (.insert "2021" "voucher" "key" ["a", "b", "c", "d", "e"] true true),
   .start exRenew exRight .natural]

theorem exSession_noReissue (sign : Signer) (v : Int) : NoReissueIn sign v {} exSession := by
  refine ⟨?_, ?_, ?_, trivial⟩
  · rintro op h x hx; cases h; cases hx
  · rintro op h x hx
    cases h
    have : (StorageSession.step sign v {} (.other (.add .natural "2020" "voucher" 5 0 (.ok ["r"])))).store.app.invalid = [] := by
      have h1 : (if outside (.add .natural "2020" "voucher" 5 0 (.ok ["r"])) then
        ((StoreOp.add .natural "2020" "voucher" 5 0 (.ok ["r"])).step {}).2.app.invalid else []) = [] := by decide +kernel
      simpa [StorageSession.step, outside] using h1
    unfold invalidTokens
    rw [this]
    exact List.not_mem_nil
  · rintro op h; cases h

theorem exSession_available (v : Int) : select_available (sessionAfter exSign177 v exSession).store =
    ["a", "b", "c", "d", "e"] := by
  have h : select_available ((StoreOp.insert "2021" "voucher" "key" ["a", "b", "c", "d", "e"] true true).step
      ((StoreOp.add .natural "2020" "voucher" 5 0 (.ok ["r"])).step {}).2).2 = ["a", "b", "c", "d", "e"] := by
    decide +kernel
  rw [← h]
  congr 1

/-- A client with five tokens is asked for all five when it renews a lease. -/
theorem exSession_asked (v : Int) : (sessionAfter exSign177 v exSession).asked = [exRenew] := rfl

theorem exSession_waiting (v : Int) : (sessionAfter exSign177 v exSession).asked[0]? =
    some (.addLease (List.replicate 16 1) (List.replicate 32 2) (List.replicate 32 3)) := by
  rw [exSession_asked]
  rfl

theorem exSession_few (v : Int) (l : List String) (hl : l.Nodup)
    (h : ∀ x ∈ l, Available (sessionAfter exSign177 v exSession).store x) : l.length ≤ 5 := by
  have hs : ∀ x ∈ l, x ∈ ["a", "b", "c", "d", "e"] := by
    intro x hx
    rw [← exSession_available v]
    exact (mem_select_available _ _).mpr (h x hx)
  exact nodup_subset_length hl hs

/-- C152 fails. -/
theorem C152_negative_size_fails : ¬ C152_statement := by
  intro h
  obtain ⟨ps, tokens, h1, h2, h3, h4, -⟩ := C152_takes_everything exSign177 exSign177_signs 10 (by decide) (by decide)
    exSession (exSession_noReissue _ _) 0 (List.replicate 16 1) (List.replicate 32 2) (List.replicate 32 3)
    (exSession_waiting 10) (by decide) (by decide) (by decide) exSign177_sized
    (fun l hl hx => Nat.le_trans (exSession_few 10 l hl hx) (by decide)) 0 .natural
  have hne : ps ≠ [] := by
    have ha : "a" ∈ tokens := (h3 "a").mpr ((mem_select_available _ _).mp (by rw [exSession_available]; decide))
    intro hp
    subst hp
    cases tokens with
    | nil => exact nomatch ha
    | cons _ _ => exact nomatch h1
  have hev : sessionAfter exSign177 10 (exSession ++ [.answer 0 (.result (negativeSize 10)) 0 .natural]) =
      (sessionAfter exSign177 10 exSession).step exSign177 10 (.answer 0 (.result (negativeSize 10)) 0 .natural) :=
    sessionAfter_snoc _ _ _ _
  obtain ⟨n, hn, hle⟩ := h exSign177 exSign177_signs 10 (by decide)
    (exSession ++ [.answer 0 (.result (negativeSize 10)) 0 .natural])
    (by
      obtain ⟨g1, g2, g3, -⟩ := exSession_noReissue exSign177 10
      exact ⟨g1, g2, g3, fun op e => (nomatch e), trivial⟩)
    ((sessionAfter exSign177 10 exSession).log ++ [.got exRenew (.result (negativeSize 10)) 0])
    exRenew (.addLease ps (List.replicate 16 1) (List.replicate 32 2) (List.replicate 32 3)) []
    (by rw [hev]; refine h4.trans ?_; simp [exRenew]) hne
  obtain ⟨w, now, sizes, hw, hsz, rfl⟩ := hn
  have hlog : (sessionAfter exSign177 10 exSession).log = [.sent exRenew (.shareSizes (List.replicate 16 1))] := rfl
  rw [hlog] at hw
  simp only [List.mem_append, List.mem_singleton, reduceCtorEq, false_or, Out.got.injEq, Reply.result.injEq] at hw
  obtain ⟨-, rfl, -⟩ := hw
  rw [negative_sizes 10 (by decide) (by decide)] at hsz
  cases hsz
  have : total 10 (Dict.values [((0 : Int), (-10 : Int))]) = -1 := negative_total 10 (by decide)
  rw [this] at hle
  omega

/-- **C152**, the part that holds: every request with passes carries exactly as many as the operation costs, given what
the server answered before, unless it is a lease renewal and the shares reported to the client have a
negative price. -/
theorem C152_exact_partial (sign : Signer) (works : Signs sign) (v : Int) (hv : 0 < v) (events : List SessionEvent)
    (fresh : NoReissueIn sign v {} events) (l1 : List Out) (op : StorageOp) (r : StorageRequest) (l2 : List Out)
    (sent : (sessionAfter sign v events).log = l1 ++ .sent op r :: l2) (hr : passesIn r ≠ [])
    (dict : ∀ si secrets tw rv, op = .writev si secrets tw rv → Dict.WF tw) :
    ∃ n, OpPrice v l1 op n ∧ (((passesIn r).length : Int) = n ∨ (n < 0 ∧ ∃ si renew cancel, op = .addLease si renew cancel)) := by
  have hinv := session_inv_run works hv events (sessionInv_init sign v) fresh
  rcases hinv.log l1 op r l2 sent with ⟨-, h⟩ | ⟨c, hc, rfl⟩
  · exact absurd h hr
  · refine ⟨c.num_passes, hc.price, ?_⟩
    have hlen : 0 ≤ c.num_passes → ((passesIn (op.request (c.pass_group.passes.map Pass.pass_bytes))).length : Int)
        = c.num_passes := by
      intro hn
      rw [← hc.size hn]
      cases op with
      | allocateBuckets => simp [passesIn, StorageOp.request, PassGroup.passes]
      | addLease => simp [passesIn, StorageOp.request, PassGroup.passes]
      | writev => simp [passesIn, StorageOp.request, PassGroup.passes]
      | _ => exact absurd trivial hc.paid
    by_cases hn : 0 ≤ c.num_passes
    · exact .inl (hlen hn)
    · right
      refine ⟨by omega, ?_⟩
      have hp := hc.price
      cases op with
      | addLease si renew cancel => exact ⟨si, renew, cancel, rfl⟩
      | allocateBuckets si renew cancel shs size canary =>
        exfalso
        apply hn
        have hp : c.num_passes = total v (List.replicate shs.length (size : Int)) := hp
        rw [hp]
        refine sum_nonneg fun x hx => ?_
        obtain ⟨y, hy, rfl⟩ := List.mem_map.mp hx
        rw [List.eq_of_mem_replicate hy]
        exact passes_nonneg v hv (Int.natCast_nonneg _)
      | writev si secrets tw rv =>
        exfalso
        apply hn
        rcases hp with ⟨-, hp⟩ | ⟨w, now, -, hp⟩
        · rw [hp]; omega
        · exact writev_price_nonneg hv (dict _ _ _ _ rfl) hp
      | _ => exact absurd trivial hc.paid

/-- The renewal in the example with an honest answer costs two passes, and two are sent. -/
example : (passesIn (.addLease ((["a", "b"].map fun _ => List.replicate 177 (0 : UInt8))) [] [] [])).length = 2 ∧
    client_add_lease_price 10 (.dict [(.int 0, .int 15)]) = .ok 2 := ⟨rfl, rfl⟩

/-- A plain Tahoe-LAFS storage server gets nothing; the right kind of server gets the question for the sizes. -/
example : ((sessionAfter exSign177 10 exSession).step exSign177 10
      (.start exRenew (.ok ⟨true, some "RIStorageServer.tahoe.allmydata.com"⟩) .natural)).log =
      (sessionAfter exSign177 10 exSession).log ++ [.raised exRenew incorrectStorageServerReference] ∧
    (sessionAfter exSign177 10 exSession).log = [.sent exRenew (.shareSizes (List.replicate 16 1))] ∧
    Free exDownload ∧ ¬ Free exRenew :=
  ⟨congrArg StorageSession.log (C151_error exSign177 10 _ exRenew (some "RIStorageServer.tahoe.allmydata.com") .natural
    (by decide)), rfl, trivial, fun h => h⟩

/-! ### C153 -/

/-- **C153**: every remote call of an operation is either the one without passes it begins with, about the same storage
index, or the operation itself with exactly the caller's arguments, each pass being made from a token for the message of
this operation and storage index. -/
theorem C153_calls_of_an_operation (sign : Signer) (works : Signs sign) (v : Int) (hv : 0 < v)
    (events : List SessionEvent) (fresh : NoReissueIn sign v {} events) (op : StorageOp) (r : StorageRequest)
    (sent : .sent op r ∈ (sessionAfter sign v events).log) :
    (FirstCall op r ∧ passesIn r = []) ∨
    ∃ passes message, PaidCall op r passes message ∧
      ∀ b ∈ passes, ∃ x p, MadeFor sign message x p ∧ b = p.pass_bytes := by
  have hinv := session_inv_run works hv events (sessionInv_init sign v) fresh
  obtain ⟨l1, l2, hl⟩ := List.append_of_mem sent
  rcases hinv.log l1 op r l2 hl with h | ⟨c, hc, rfl⟩
  · exact .inl h
  · refine .inr ⟨c.pass_group.passes.map Pass.pass_bytes, op.message, ?_, fun b hb => ?_⟩
    · have := hc.paid
      cases op with
      | allocateBuckets => exact .upload ..
      | addLease => exact .renew ..
      | writev => exact .write ..
      | _ => exact absurd trivial this
    · obtain ⟨p, hp, rfl⟩ := List.mem_map.mp hb
      obtain ⟨⟨x, p'⟩, hxp, rfl⟩ := List.mem_map.mp hp
      exact ⟨x, p', hc.message ▸ hc.made x p' hxp, rfl⟩

/-- **C153**: when an operation paid with passes returns its result, exactly the tokens it pays with are gone from the
store: for an upload as many as the new buckets cost, otherwise all it held. -/
theorem C153_success_spends (sign : Signer) (works : Signs sign) (v : Int) (hv : 0 < v)
    (events : List SessionEvent) (fresh : NoReissueIn sign v {} events) (i : Nat) (op : StorageOp) (c : Call)
    (waiting : (sessionAfter sign v events).paying[i]? = some (op, c)) (w : Wire) (result : OpResult) (buckets : Nat)
    (answer : paid_result w op = .ok (result, buckets)) (now : Int) (o : Order) :
    ((sessionAfter sign v events).step sign v (.answerPaid i (.result w) now o)).log =
      (sessionAfter sign v events).log ++ [.got op (.result w) now, .returned op result] ∧
    ((sessionAfter sign v events).step sign v (.answerPaid i (.result w) now o)).store.app =
      { (sessionAfter sign v events).store.app with
        unblinded := (sessionAfter sign v events).store.app.unblinded.filter
          (·.token ∉ paidWith v op buckets (holds c)) } ∧
    ∀ x ∈ holds c, x ∉ ((sessionAfter sign v events).step sign v (.answerPaid i (.result w) now o)).store.temp.in_use := by
  have hinv := session_inv_run works hv events (sessionInv_init sign v) fresh
  change SessionInv sign v (sessionAfter sign v events) at hinv
  generalize sessionAfter sign v events = s at *
  have hh := hinv.held
  rw [getElem?_split waiting] at hh
  have hh' : Held s.store (((s.paying.take i).flatMap fun oc => holds oc.2) ++ c.pass_group.unblinded_tokens ++
      ((s.paying.drop (i + 1)).flatMap fun oc => holds oc.2)) := by
    simpa [holds, PassGroup.unblinded_tokens] using hh
  have hp := hinv.paying _ (List.mem_of_getElem? waiting)
  obtain ⟨st, t', e1, e2, -, e4⟩ := answer_ok_held (sign := sign) hh' o c.on_success c.num_passes buckets
  have hret : st = .returned ∧ t'.app =
      { s.store.app with
        unblinded := s.store.app.unblinded.filter (·.token ∉ paidWith v op buckets (holds c)) } := by
    rw [hp.on_success] at e4
    have hpaid := hp.paid
    cases op with
    | allocateBuckets si renew cancel shs size canary =>
      dsimp only [StorageOp.on_success] at e4
      have hq : required_passesE v (List.replicate buckets (size : Int)) =
          .ok (total v (List.replicate buckets (size : Int))) := by
        rw [C01_checked_eq v hv, required_passes_eq v hv]
      rw [hq] at e4
      exact e4
    | addLease => exact e4
    | writev => exact e4
    | _ => exact absurd trivial hpaid
  have hstep : op_paid sign o op c (.result w) s.store = (.over, [.returned op result], t') := by
    simp only [op_paid, Reply.for_call, answer, e1, hret.1, settle]
  refine ⟨by simp only [StorageSession.step, waiting, hstep], ?_, ?_⟩
  · simp only [StorageSession.step, waiting, hstep]
    exact hret.2
  · intro x hx
    simp only [StorageSession.step, waiting, hstep]
    intro hu
    have hnod := hh'.nodup
    have hm := e2.perm.mem_iff.mp hu
    rw [List.nodup_append, List.nodup_append] at hnod
    rcases List.mem_append.mp hm with hm | hm
    · exact hnod.1.2.2 x hm x hx rfl
    · exact hnod.2.2 x (List.mem_append_right _ hx) x hm rfl

/-- The buckets an upload pays for are those in the answer of the server. -/
theorem C153_upload_buckets (si renew cancel : Bytes) (sharenums : List Nat) (size canary : Nat) (alreadygot : Wire)
    (buckets : List (Wire × Wire)) :
    paid_result (.tuple [alreadygot, .dict buckets]) (.allocateBuckets si renew cancel sharenums size canary) =
      .ok (.allocated alreadygot (.dict buckets), buckets.length) := rfl

/-- An upload of two shares of fifteen bytes to a server that has one of them already. -/
def exUploadSession : List SessionEvent :=
  exSession.take 2 ++ [.start (.allocateBuckets (List.replicate 16 1) (List.replicate 32 2) (List.replicate 32 3) [0, 1] 15 0)
    exRight .natural]

/-- It holds four tokens and pays with two; the other two are free again. -/
example :
    ((sessionAfter exSign177 10 exUploadSession).paying.map fun oc => holds oc.2) = [["a", "b", "c", "d"]] ∧
    storedTokens (sessionAfter exSign177 10 (exUploadSession ++
      [.answerPaid 0 (.result (.tuple [.set [.int 1], .dict [(.int 0, .ref 1)]])) 0 .natural])).store = ["c", "d", "e"] ∧
    select_available (sessionAfter exSign177 10 (exUploadSession ++
      [.answerPaid 0 (.result (.tuple [.set [.int 1], .dict [(.int 0, .ref 1)]])) 0 .natural])).store = ["c", "d", "e"] := by
  decide +kernel

/-- **C153**: at any moment the tokens in use are exactly those of the operations waiting with passes, none is held
twice, and all of them are in the store. -/
theorem C153_tokens_in_use (sign : Signer) (works : Signs sign) (v : Int) (hv : 0 < v)
    (events : List SessionEvent) (fresh : NoReissueIn sign v {} events) :
    (∀ x, x ∈ (sessionAfter sign v events).store.temp.in_use ↔
      ∃ oc ∈ (sessionAfter sign v events).paying, x ∈ holds oc.2) ∧
    ((sessionAfter sign v events).paying.flatMap fun oc => holds oc.2).Nodup ∧
    ∀ oc ∈ (sessionAfter sign v events).paying, ∀ x ∈ holds oc.2, Stored (sessionAfter sign v events).store x := by
  have hinv := session_inv_run works hv events (sessionInv_init sign v) fresh
  change SessionInv sign v (sessionAfter sign v events) at hinv
  refine ⟨fun x => ?_, hinv.held.nodup, fun oc hoc x hx => ?_⟩
  · rw [hinv.held.perm.mem_iff, List.mem_flatMap]
  · obtain ⟨r, hr, rfl, -⟩ := hinv.held.wf.in_use_stored x (hinv.held.mem (List.mem_flatMap.mpr ⟨oc, hoc, hx⟩))
    exact ⟨r, hr, rfl⟩

/-- **C153**: a token leaves the store only at the end of an operation that held it and that returns its result to the
caller, or when the server the pass was sent to names it as failing. -/
theorem C153_tokens_leave_for_a_reason (sign : Signer) (works : Signs sign) (v : Int) (hv : 0 < v)
    (events : List SessionEvent) (fresh : NoReissueIn sign v {} events) (e : SessionEvent) (x : String)
    (before : Stored (sessionAfter sign v events).store x)
    (after : ¬ Stored ((sessionAfter sign v events).step sign v e).store x) :
    ∃ i reply now o op c, e = .answerPaid i reply now o ∧
      (sessionAfter sign v events).paying[i]? = some (op, c) ∧ x ∈ holds c ∧
      ((∃ result, ((sessionAfter sign v events).step sign v e).log =
          (sessionAfter sign v events).log ++ [.got op reply now, .returned op result]) ∨
       ∃ failed p, reply = .morePassesRequired failed ∧ p ∈ failed ∧ (holds c)[p]? = some x) := by
  have hinv := session_inv_run works hv events (sessionInv_init sign v) fresh
  change SessionInv sign v (sessionAfter sign v events) at hinv
  generalize sessionAfter sign v events = s at *
  cases e with
  | start op get_rref o =>
    exfalso
    apply after
    unfold Stored
    simp only [StorageSession.step]
    rw [op_start_app works hinv.held]
    exact before
  | answer i reply now o =>
    exfalso
    apply after
    simp only [StorageSession.step]
    split
    · exact before
    · unfold Stored
      dsimp only
      rw [op_asked_app works hinv.held]
      exact before
  | other op =>
    exfalso
    apply after
    simp only [StorageSession.step]
    cases ho : outside op with
    | false => simpa using before
    | true =>
      simp only [if_true]
      obtain ⟨r, hr, rfl⟩ := before
      by_cases hn : Neutral op
      · exact ⟨r, (step_neutral hn s.store).1.symm ▸ hr, rfl⟩
      · cases op <;> simp only [Neutral, not_true] at hn <;>
          simp only [outside, Bool.false_eq_true] at ho
        case insert now v pk ts c s =>
          rw [step_insert]
          repeat' split
          all_goals first | exact ⟨r, hr, rfl⟩ | exact ⟨r, List.mem_append_left _ hr, rfl⟩
  | restart => exact absurd before after
  | answerPaid i reply now o =>
    cases hi : s.paying[i]? with
    | none =>
      exfalso
      apply after
      simp only [StorageSession.step, hi]
      exact before
    | some oc =>
      obtain ⟨op, c⟩ := oc
      have hh := hinv.held
      rw [getElem?_split hi] at hh
      have hh' : Held s.store (((s.paying.take i).flatMap fun oc => holds oc.2) ++ c.pass_group.unblinded_tokens ++
          ((s.paying.drop (i + 1)).flatMap fun oc => holds oc.2)) := by
        simpa [holds, PassGroup.unblinded_tokens] using hh
      have hp := hinv.paying _ (List.mem_of_getElem? hi)
      obtain ⟨r, hr, rfl⟩ := before
      obtain ⟨h1, -⟩ := answer_size works hh' o (reply.for_call op).1 hp.size
      have happ : (op_paid sign o op c reply s.store).2.2.app =
          (call_answer sign o c.on_success c.num_passes c.pass_group (reply.for_call op).1 s.store).2.app := by
        unfold op_paid
        dsimp only
        exact settle_app h1
      have hafter : ¬ Stored (call_answer sign o c.on_success c.num_passes c.pass_group (reply.for_call op).1
          s.store).2 r.token := by
        intro hst
        apply after
        unfold Stored at hst ⊢
        simp only [StorageSession.step, hi]
        rw [happ]
        exact hst
      refine ⟨i, reply, now, o, op, c, rfl, hi, ?_⟩
      -- what an accepted call does
      have ok_case : ∀ n res, reply.for_call op = (.ok n, res) → r.token ∈ holds c ∧
          (s.step sign v (.answerPaid i reply now o)).log = s.log ++ [.got op reply now, .returned op res] := by
        intro n res hfc
        obtain ⟨st, t', e1, -, -, e4⟩ := answer_ok_held (sign := sign) hh' o c.on_success c.num_passes n
        rw [hfc] at hafter
        dsimp only at hafter
        rw [e1] at hafter
        have hret : st = .returned ∧ r.token ∈ holds c := by
          cases hk : c.on_success with
          | spendAll =>
            rw [hk] at e4
            dsimp only at e4
            refine ⟨e4.1, Decidable.byContradiction fun hx => hafter ?_⟩
            unfold Stored
            rw [e4.2]
            exact ⟨r, List.mem_filter.mpr ⟨hr, by simp only [decide_eq_true_eq]; exact hx⟩, rfl⟩
          | allocate pv size =>
            rw [hk] at e4
            dsimp only at e4
            cases hq : required_passesE pv (List.replicate n size) with
            | error e =>
              rw [hq] at e4
              dsimp only at e4
              exfalso
              apply hafter
              unfold Stored
              rw [e4.2]
              exact ⟨r, hr, rfl⟩
            | ok m =>
              rw [hq] at e4
              dsimp only at e4
              refine ⟨e4.1, Decidable.byContradiction fun hx => hafter ?_⟩
              unfold Stored
              rw [e4.2]
              refine ⟨r, List.mem_filter.mpr ⟨hr, ?_⟩, rfl⟩
              simp only [decide_eq_true_eq]
              exact fun hm => hx (List.mem_of_mem_take hm)
        refine ⟨hret.2, ?_⟩
        simp only [StorageSession.step, hi, op_paid, hfc, e1, hret.1, settle]
      have err_case : ∀ e res, reply.for_call op ≠ (.error e, res) := by
        intro e res hfc
        obtain ⟨t', e1, e2, -⟩ := answer_error_held (sign := sign) hh' o c.on_success c.num_passes e
        rw [hfc] at hafter
        dsimp only at hafter
        rw [e1] at hafter
        apply hafter
        unfold Stored
        rw [e2]
        exact ⟨r, hr, rfl⟩
      cases reply with
      | failure e => exact absurd rfl (err_case e .none)
      | result w =>
        cases hres : paid_result w op with
        | error e => exact absurd (by simp only [Reply.for_call, hres]) (err_case e .none)
        | ok rn =>
          obtain ⟨res, n⟩ := rn
          obtain ⟨h5, h6⟩ := ok_case n res (by simp only [Reply.for_call, hres])
          exact ⟨h5, .inl ⟨res, h6⟩⟩
      | morePassesRequired failed =>
        dsimp only [Reply.for_call] at hafter
        by_cases hf : failed = []
        · subst hf
          obtain ⟨t', e1, e2, -⟩ := answer_rejected_nil_held (sign := sign) hh' o c.on_success c.num_passes
          rw [e1] at hafter
          exfalso
          apply hafter
          unfold Stored
          rw [e2]
          exact ⟨r, hr, rfl⟩
        · obtain ⟨st, t', t1, e1, e2, -⟩ := answer_rejected_held works hh' o c.on_success c.num_passes failed hf
          rw [e1] at hafter
          have hx : r.token ∈ (atPositions failed.contains c.pass_group.tokens).map Prod.fst := by
            apply Decidable.byContradiction
            intro hx
            apply hafter
            unfold Stored
            rw [e2]
            exact ⟨r, List.mem_filter.mpr ⟨hr, by simpa using hx⟩, rfl⟩
          obtain ⟨xp, hxp, hxe⟩ := List.mem_map.mp hx
          obtain ⟨p, hp1, hp2⟩ := (mem_atPositions _ _ _).mp hxp
          have hget : (holds c)[p]? = some r.token := by
            unfold holds
            rw [List.getElem?_map, hp1, ← hxe]
            rfl
          exact ⟨List.mem_of_getElem? hget, .inr ⟨failed, p, rfl, by simpa using hp2, hget⟩⟩

/-- An honest answer: the renewal holds two tokens; when the server accepts it, these are gone and the others stay; when
it names the second as failing, a third is used instead. -/
example :
    ((sessionAfter exSign177 10 (exSession ++ [.answer 0 (.result (.dict [(.int 0, .int 15)])) 0 .natural])).paying.map
      fun oc => holds oc.2) = [["a", "b"]] ∧
    storedTokens (sessionAfter exSign177 10 (exSession ++ [.answer 0 (.result (.dict [(.int 0, .int 15)])) 0 .natural,
      .answerPaid 0 (.result .none) 0 .natural])).store = ["c", "d", "e"] ∧
    ((sessionAfter exSign177 10 (exSession ++ [.answer 0 (.result (.dict [(.int 0, .int 15)])) 0 .natural,
      .answerPaid 0 (.morePassesRequired [1]) 0 .natural])).paying.map fun oc => holds oc.2) = [["a", "c"]] := by
  decide +kernel

end ZKAP
