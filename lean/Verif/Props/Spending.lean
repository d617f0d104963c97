import Verif.Lemmas.Spending
import Verif.Lemmas.ServerOps
import Verif.Props.Pricing
import Verif.Props.Server
import Verif.Model.ClientPrice

/-!
Properties of storage calls paid with passes (C05, C21-C24).

A client process starts with an empty database and goes through any list of events: storage
calls are started, servers answer in any order, vouchers are redeemed, the process is
restarted.
-/
namespace ZKAP
open Spec

/-- The client process after some events. -/
def clientAfter (sign : Signer) (events : List ClientEvent) : Client := Client.run sign {} events

/-! The examples use a signer that makes a pass from a token's text, and a client that redeemed
five tokens and started two calls. -/

def exSign : Signer := fun m ts => .ok (ts.map fun x => ⟨m ++ x.toList.map (fun c => c.toNat.toUInt8), [1]⟩)

theorem exSigns : Signs exSign := fun m ts => ⟨_, rfl, by simp⟩

def exEvents : List ClientEvent :=
  [.other (.add .natural "2020" "voucher" 5 0 (.ok ["r"])),
   .other (.insert "2021" "voucher" "key" ["a", "b", "c", "d", "e"] true true),
   .start .spendAll [7] 2 .natural,
   .start (.allocate 10 15) [8] 2 .reversed]

theorem hInv1 (sign : Signer) : invalidTokens (Client.step sign {}
    (.other (.add .natural "2020" "voucher" 5 0 (.ok ["r"])))).store = [] := by
  have : (if outside (.add .natural "2020" "voucher" 5 0 (.ok ["r"])) then
      ((StoreOp.add .natural "2020" "voucher" 5 0 (.ok ["r"])).step {}).2.app.invalid else [])
        = [] := by decide +kernel
  simpa [invalidTokens, Client.step, outside] using this

theorem exEvents_noReissue : NoReissue exSign {} exEvents := by
  refine ⟨?_, ?_, ?_, ?_, trivial⟩
  · rintro op h x hx; cases h; cases hx
  · rintro op h x hx; cases h; rw [hInv1]; exact List.not_mem_nil
  · rintro op h; cases h
  · rintro op h; cases h

example : (clientAfter exSign exEvents).active.map holds = [["a", "b"], ["e", "d"]] := by
  decide +kernel

/-! ### C21 -/

/-- **C21** (for signers that work; see `C21_signing_error_fails`): at any moment the tokens in
use are exactly those held by calls still waiting for a server.  A call that is over holds
none. -/
theorem C21_in_use_means_waiting_partial (sign : Signer) (works : Signs sign)
    (events : List ClientEvent) (fresh : NoReissue sign {} events) (x : String) :
    x ∈ (clientAfter sign events).store.temp.in_use ↔
      ∃ c ∈ (clientAfter sign events).active, x ∈ holds c := by
  have h := client_inv_run works events clientInv_init fresh
  unfold clientAfter
  rw [h.held.perm.mem_iff, List.mem_flatMap]

/-- No token is held twice, by the same call or by two calls. -/
theorem C21_held_once (sign : Signer) (works : Signs sign)
    (events : List ClientEvent) (fresh : NoReissue sign {} events) :
    ((clientAfter sign events).active.flatMap holds).Nodup :=
  (client_inv_run works events clientInv_init fresh).held.nodup

theorem held_context {sign : Signer} (works : Signs sign) {events : List ClientEvent}
    (fresh : NoReissue sign {} events) {i : Nat} {c : Call}
    (hc : (clientAfter sign events).active[i]? = some c) :
    Held (clientAfter sign events).store
      (((clientAfter sign events).active.take i).flatMap holds ++ c.pass_group.unblinded_tokens ++
        ((clientAfter sign events).active.drop (i + 1)).flatMap holds) := by
  have h := (client_inv_run works events clientInv_init fresh).held
  have hs := getElem?_split hc
  unfold clientAfter at *
  rw [hs] at h
  simpa [holds, PassGroup.unblinded_tokens] using h

/-- The state a server's answer leaves a call in. -/
def answered (sign : Signer) (w : Client) (c : Call) (a : CallAnswer) (o : Order) : CallState :=
  (call_answer sign o c.on_success c.num_passes c.pass_group a w.store).1

/-- **C21**: when an answer ends a call, successfully or not, each token the call held is gone
from the store (spent or invalidated) or available again; and every other call still holds what
it held. -/
theorem C21_finished_call_releases_partial (sign : Signer) (works : Signs sign)
    (events : List ClientEvent) (fresh : NoReissue sign {} events) (i : Nat) (c : Call)
    (a : CallAnswer) (o : Order)
    (hc : (clientAfter sign events).active[i]? = some c)
    (over : ∀ g, answered sign (clientAfter sign events) c a o ≠ .waiting g) :
    (∀ x ∈ holds c,
      ¬ Stored ((clientAfter sign events).step sign (.answer i a o)).store x ∨
      Available ((clientAfter sign events).step sign (.answer i a o)).store x) ∧
    ((clientAfter sign events).step sign (.answer i a o)).active =
      (clientAfter sign events).active.take i ++ (clientAfter sign events).active.drop (i + 1) := by
  have hh := held_context works fresh hc
  have hinv := client_inv_run works events clientInv_init fresh
  have hsz := hinv.size c (List.mem_of_getElem? hc)
  obtain ⟨h1, -⟩ := answer_size works (c := c) hh o a hsz
  have hnod := hh.nodup
  have hst : stateTokens (answered sign (clientAfter sign events) c a o) = [] := by
    cases hst : answered sign (clientAfter sign events) c a o with
    | waiting g => exact absurd hst (over g)
    | returned => rfl
    | raised e => rfl
  have hpl : place c (answered sign (clientAfter sign events) c a o) = [] := by
    cases hst : answered sign (clientAfter sign events) c a o with
    | waiting g => exact absurd hst (over g)
    | returned => rfl
    | raised e => rfl
  unfold answered at hst hpl
  rw [hst, List.append_nil] at h1
  simp only [Client.step, hc]
  refine ⟨?_, by rw [hpl, List.append_nil]⟩
  intro x hx
  -- it is no longer in use
  have hnot : x ∉ (call_answer sign o c.on_success c.num_passes c.pass_group a
      (clientAfter sign events).store).2.temp.in_use := by
    intro hu
    have hm := h1.perm.mem_iff.mp hu
    rw [List.nodup_append, List.nodup_append] at hnod
    rcases List.mem_append.mp hm with hm | hm
    · exact hnod.1.2.2 x hm x hx rfl
    · exact hnod.2.2 x (List.mem_append_right _ hx) x hm rfl
  -- it was stored as spendable, and groups do not change
  have hstored := hh.wf.in_use_stored x (hh.mem (List.mem_append_left _ (List.mem_append_right _ hx)))
  have hgroups : (call_answer sign o c.on_success c.num_passes c.pass_group a
        (clientAfter sign events).store).2.app.groups = (clientAfter sign events).store.app.groups ∧
      ∀ r ∈ (call_answer sign o c.on_success c.num_passes c.pass_group a
        (clientAfter sign events).store).2.app.unblinded,
        r ∈ (clientAfter sign events).store.app.unblinded := by
    cases a with
    | ok n =>
      obtain ⟨s, t', e1, -, -, e4⟩ := answer_ok_held (sign := sign) hh o c.on_success c.num_passes n
      rw [e1]
      cases hk : c.on_success with
      | spendAll =>
        rw [hk] at e4
        dsimp only at e4
        rw [e4.2]
        exact ⟨rfl, fun r hr => (List.mem_filter.mp hr).1⟩
      | allocate pv size =>
        rw [hk] at e4
        dsimp only at e4
        cases hq : required_passesE pv (List.replicate n size) with
        | error e => rw [hq] at e4; dsimp only at e4; rw [e4.2]; exact ⟨rfl, fun r hr => hr⟩
        | ok m =>
          rw [hq] at e4
          dsimp only at e4
          rw [e4.2]
          exact ⟨rfl, fun r hr => (List.mem_filter.mp hr).1⟩
    | error e =>
      obtain ⟨t', e1, e2, -⟩ := answer_error_held (sign := sign) hh o c.on_success c.num_passes e
      rw [e1, e2]
      exact ⟨rfl, fun r hr => hr⟩
    | rejected failed =>
      by_cases hf : failed = []
      · subst hf
        obtain ⟨t', e1, e2, -⟩ :=
          answer_rejected_nil_held (sign := sign) hh o c.on_success c.num_passes
        rw [e1, e2]
        exact ⟨rfl, fun r hr => hr⟩
      · obtain ⟨s, t', t1, e1, e2, -⟩ :=
          answer_rejected_held works hh o c.on_success c.num_passes failed hf
        rw [e1, e2]
        exact ⟨rfl, fun r hr => (List.mem_filter.mp hr).1⟩
  by_cases hsx : Stored (call_answer sign o c.on_success c.num_passes c.pass_group a
      (clientAfter sign events).store).2 x
  · right
    refine ⟨?_, hnot⟩
    obtain ⟨r, hr, rfl⟩ := hsx
    obtain ⟨r0, hr0, he, g, hg, hgr, hgs⟩ := hstored
    have : r = r0 := inj_of_nodup_map hh.wf.unblinded (hgroups.2 r hr) hr0 he.symm
    subst this
    exact ⟨r, hr, rfl, g, hgroups.1 ▸ hg, hgr, hgs⟩
  · exact .inl hsx

/-- What C21 says in full, for every signer. -/
def C21_statement : Prop :=
  ∀ (sign : Signer) (events : List ClientEvent), NoReissue sign {} events → ∀ x,
    x ∈ (clientAfter sign events).store.temp.in_use →
      ∃ c ∈ (clientAfter sign events).active, x ∈ holds c

/-- C21 fails if making passes from tokens raises: the tokens were already marked as in use and
nothing gives them back, although no call is in progress. -/
theorem C21_signing_error_fails : ¬ C21_statement := by
  intro h
  have := h (fun _ _ => .error .valueError)
    [.other (.add .natural "2020" "voucher" 5 0 (.ok ["r"])),
     .other (.insert "2021" "voucher" "key" ["a", "b"] true true),
     .start .spendAll [7] 2 .natural] (by
      refine ⟨?_, ?_, ?_, trivial⟩
      · rintro op h x hx; cases h; cases hx
      · rintro op h x hx; cases h; rw [hInv1]; exact List.not_mem_nil
      · rintro op h; cases h) "a" (by decide +kernel)
  obtain ⟨c, hc, -⟩ := this
  have hn : (clientAfter (fun _ _ => .error .valueError)
    [.other (.add .natural "2020" "voucher" 5 0 (.ok ["r"])),
     .other (.insert "2021" "voucher" "key" ["a", "b"] true true),
     .start .spendAll [7] 2 .natural]).active = [] := by decide +kernel
  rw [hn] at hc
  cases hc

/-- An upload for which only one of two passes is needed: the other token is available again. -/
example :
    ((clientAfter exSign exEvents).step exSign (.answer 1 (.ok 0) .natural)).store.temp.in_use = ["a", "b"] ∧
    (((clientAfter exSign exEvents).step exSign (.answer 1 (.ok 0) .natural)).store.app.unblinded.map
      (·.token)) = ["a", "b", "c", "d", "e"] ∧
    answered exSign (clientAfter exSign exEvents) ⟨.spendAll, 2, ⟨[7], [("a", ⟨[7, 97], [1]⟩), ("b", ⟨[7, 98], [1]⟩)]⟩⟩
      (.rejected [0, 1]) .natural = .raised .notEnoughTokens := by
  decide +kernel

/-! ### C22 -/

/-- **C22**: every attempt carries exactly the required number of passes, each made from a
different token. -/
theorem C22_exact_number_of_passes (sign : Signer) (works : Signs sign)
    (events : List ClientEvent) (fresh : NoReissue sign {} events)
    (c : Call) (hc : c ∈ (clientAfter sign events).active) (hn : 0 ≤ c.num_passes) :
    (c.pass_group.passes.length : Int) = c.num_passes ∧ (holds c).Nodup := by
  have h := client_inv_run works events clientInv_init fresh
  refine ⟨by simpa [PassGroup.passes] using h.size c hc hn, ?_⟩
  have hnod := h.held.nodup
  obtain ⟨l1, l2, e⟩ := List.append_of_mem hc
  unfold clientAfter at e
  rw [e, List.flatMap_append, List.flatMap_cons, List.nodup_append, List.nodup_append] at hnod
  exact hnod.2.1.1

/-- **C22**, exactly: what a server's answer does to the persistent state.  Success of a call
paid in full removes exactly the tokens sent with it and marks none invalid; an error changes
nothing; a rejection marks as invalid, and removes, exactly the tokens at the positions the
server named. -/
theorem C22_effect_of_answer (sign : Signer) (works : Signs sign)
    (events : List ClientEvent) (fresh : NoReissue sign {} events) (i : Nat) (c : Call)
    (o : Order) (hc : (clientAfter sign events).active[i]? = some c) (a : CallAnswer) :
    match a with
    | .ok _ => c.on_success = .spendAll →
        ((clientAfter sign events).step sign (.answer i a o)).store.app =
          { (clientAfter sign events).store.app with
            unblinded := (clientAfter sign events).store.app.unblinded.filter (·.token ∉ holds c) }
    | .error _ =>
        ((clientAfter sign events).step sign (.answer i a o)).store.app =
          (clientAfter sign events).store.app
    | .rejected failed =>
        ((clientAfter sign events).step sign (.answer i a o)).store.app =
          { (clientAfter sign events).store.app with
            unblinded := (clientAfter sign events).store.app.unblinded.filter
              (·.token ∉ atPositions failed.contains (holds c))
            invalid := (clientAfter sign events).store.app.invalid ++
              (atPositions failed.contains (holds c)).map
                (fun x => ⟨x, "signature check failed"⟩) } := by
  have hh := held_context works fresh hc
  cases a with
  | ok n =>
    intro hk
    obtain ⟨s, t', e1, -, -, e4⟩ := answer_ok_held (sign := sign) hh o c.on_success c.num_passes n
    simp only [Client.step, hc, e1]
    rw [hk] at e4
    exact e4.2
  | error e =>
    obtain ⟨t', e1, e2, -⟩ := answer_error_held (sign := sign) hh o c.on_success c.num_passes e
    simp only [Client.step, hc, e1]
    exact e2
  | rejected failed =>
    dsimp only
    have hmap : atPositions failed.contains (holds c) =
        (atPositions failed.contains c.pass_group.tokens).map Prod.fst := by
      unfold atPositions holds
      rw [List.zipIdx_map, List.filter_map, List.map_map, List.map_map]
      rfl
    by_cases hf : failed = []
    · subst hf
      obtain ⟨t', e1, e2, -⟩ :=
        answer_rejected_nil_held (sign := sign) hh o c.on_success c.num_passes
      simp only [Client.step, hc, e1]
      have : atPositions (List.contains ([] : List Nat)) (holds c) = [] := by
        unfold atPositions; simp
      rw [this]
      rw [List.map_nil, List.append_nil, List.filter_eq_self.mpr (by simp)]
      exact e2
    · obtain ⟨s, t', t1, e1, e2, -⟩ :=
        answer_rejected_held works hh o c.on_success c.num_passes failed hf
      simp only [Client.step, hc, e1]
      rw [hmap]
      exact e2

/-- **C22**: a stored token only ever leaves the store because a server accepted a call it was
sent with, or because a server named its position as failing; in that case it is on record as
invalid. -/
theorem C22_tokens_only_leave_for_a_reason (sign : Signer) (works : Signs sign)
    (events : List ClientEvent) (fresh : NoReissue sign {} events) (e : ClientEvent) (x : String)
    (before : Stored (clientAfter sign events).store x)
    (after : ¬ Stored ((clientAfter sign events).step sign e).store x) :
    ∃ i a o c, e = .answer i a o ∧ (clientAfter sign events).active[i]? = some c ∧ x ∈ holds c ∧
      ((∃ n, a = .ok n) ∨
       ∃ failed p, a = .rejected failed ∧ p ∈ failed ∧ (holds c)[p]? = some x ∧
        x ∈ invalidTokens ((clientAfter sign events).step sign e).store) := by
  have hinv := client_inv_run works events clientInv_init fresh
  have hheld : Held (clientAfter sign events).store
    ((clientAfter sign events).active.flatMap holds) := hinv.held
  cases e with
  | start k m n o =>
    exfalso
    apply after
    obtain ⟨-, h2, -⟩ := start_held works hheld o m n
    simp only [Client.step]
    unfold Stored
    rw [h2]
    exact before
  | other op =>
    exfalso
    apply after
    simp only [Client.step]
    cases ho : outside op with
    | false => simpa using before
    | true =>
      simp only [if_true]
      obtain ⟨r, hr, rfl⟩ := before
      by_cases hn : Neutral op
      · exact ⟨r, (step_neutral hn (clientAfter sign events).store).1.symm ▸ hr, rfl⟩
      · cases op <;> simp only [Neutral, not_true] at hn <;>
          simp only [outside, Bool.false_eq_true] at ho
        case insert now v pk ts c s =>
          rw [step_insert]
          split
          · exact ⟨r, hr, rfl⟩
          · split
            · exact ⟨r, List.mem_append_left _ hr, rfl⟩
            · exact ⟨r, hr, rfl⟩
  | restart => exact absurd before after
  | answer i a o =>
    cases hc : (clientAfter sign events).active[i]? with
    | none =>
      exfalso
      apply after
      simp only [Client.step, hc]
      exact before
    | some c =>
      have heff := C22_effect_of_answer sign works events fresh i c o hc a
      have hh := held_context works fresh hc
      refine ⟨i, a, o, c, rfl, hc, ?_⟩
      obtain ⟨r, hr, rfl⟩ := before
      cases a with
      | error e =>
        exfalso
        apply after
        unfold Stored
        simp only at heff
        rw [heff]
        exact ⟨r, hr, rfl⟩
      | rejected failed =>
        simp only at heff
        have hx : r.token ∈ atPositions failed.contains (holds c) := by
          apply Decidable.byContradiction
          intro hx
          apply after
          unfold Stored
          rw [heff]
          exact ⟨r, List.mem_filter.mpr ⟨hr, by simpa using hx⟩, rfl⟩
        obtain ⟨p, hp, hpf⟩ := (mem_atPositions _ _ _).mp hx
        refine ⟨List.mem_of_getElem? hp, .inr ⟨failed, p, rfl, by simpa using hpf, hp, ?_⟩⟩
        unfold invalidTokens
        rw [heff]
        simp only [List.map_append, List.map_map, List.mem_append, List.mem_map]
        exact .inr ⟨_, hx, rfl⟩
      | ok n =>
        refine ⟨?_, .inl ⟨n, rfl⟩⟩
        obtain ⟨s, t', e1, -, -, e4⟩ :=
          answer_ok_held (sign := sign) hh o c.on_success c.num_passes n
        simp only [Client.step, hc, e1] at after
        unfold Stored at after
        apply Decidable.byContradiction
        intro hx
        apply after
        cases hk : c.on_success with
        | spendAll =>
          rw [hk] at e4
          dsimp only at e4
          rw [e4.2]
          exact ⟨r, List.mem_filter.mpr ⟨hr, decide_eq_true hx⟩, rfl⟩
        | allocate pv size =>
          rw [hk] at e4
          dsimp only at e4
          cases hq : required_passesE pv (List.replicate n size) with
          | error e => rw [hq] at e4; dsimp only at e4; rw [e4.2]; exact ⟨r, hr, rfl⟩
          | ok m =>
            rw [hq] at e4
            dsimp only at e4
            rw [e4.2]
            refine ⟨r, List.mem_filter.mpr ⟨hr, ?_⟩, rfl⟩
            simp only [decide_eq_true_eq]
            exact fun hm => hx (List.mem_of_mem_take hm)

/-- The server rejects the second pass of the first call: `b` is invalid, and the call tries
again with `a` and `c`. -/
example :
    let w := (clientAfter exSign exEvents).step exSign (.answer 0 (.rejected [1]) .natural)
    w.active.map holds = [["a", "c"], ["e", "d"]] ∧
      w.store.app.invalid = [⟨"b", "signature check failed"⟩] := by
  decide +kernel

/-! ### C24 -/

/-- **C24**: splitting a group.  The first part holds exactly the passes at the selected
positions and the second exactly the others, both in the original order; together they are the
group. -/
theorem C24_split (g : PassGroup) (select : Nat → Bool) :
    let (a, b) := g.split select
    a.tokens = atPositions select g.tokens ∧ b.tokens = atPositions (fun i => !select i) g.tokens ∧
      (a.tokens ++ b.tokens).Perm g.tokens ∧ a.tokens.Sublist g.tokens ∧ b.tokens.Sublist g.tokens ∧
      a.message = g.message ∧ b.message = g.message := by
  obtain ⟨h1, h2⟩ := split_tokens g select
  simp only [h1, h2]
  exact ⟨trivial, trivial, atPositions_perm _ _, atPositions_sublist _ _, atPositions_sublist _ _,
    trivial, trivial⟩

/-- **C24**: expanding a group keeps its passes and adds exactly the requested number, made from
tokens that were available, or fails and changes nothing. -/
theorem C24_expand (sign : Signer) (works : Signs sign) (events : List ClientEvent)
    (fresh : NoReissue sign {} events) (o : Order) (g : PassGroup) (n : Int) (hn : 0 ≤ n) :
    (g.expand sign o n (clientAfter sign events).store =
      (.error .notEnoughTokens, (clientAfter sign events).store)) ∨
    ∃ more t', g.expand sign o n (clientAfter sign events).store =
        (.ok ⟨g.message, g.tokens ++ more⟩, t') ∧ (more.length : Int) = n ∧
      (more.map Prod.fst).Nodup ∧
      ∀ p ∈ more, Available (clientAfter sign events).store p.1 ∧ p.1 ∈ t'.temp.in_use := by
  have hheld : Held (clientAfter sign events).store
    ((clientAfter sign events).active.flatMap holds) :=
      (client_inv_run works events clientInv_init fresh).held
  unfold PassGroup.expand
  rcases get_held works hheld o g.message n with he | ⟨m, t', he, -, -, h3, h4, h5⟩
  · left; rw [he]
  · right
    have hzip : m.unblinded_tokens.zip m.passes = m.tokens := by
      unfold PassGroup.unblinded_tokens PassGroup.passes
      exact (List.zip_of_prod rfl rfl).symm
    refine ⟨m.tokens, t', ?_, h3 hn, ?_, ?_⟩
    · rw [he]; simp [PassGroup.add, hzip]
    · have := h5.nodup
      rw [List.nodup_append] at this
      exact this.2.1
    · intro p hp
      have hm : p.1 ∈ m.unblinded_tokens := List.mem_map_of_mem hp
      exact ⟨h4 _ hm, h5.mem (List.mem_append_right _ hm)⟩

example : atPositions (fun i => [1, 3].contains i) ["a", "b", "c", "d", "e"] = ["b", "d"] := by
  decide +kernel

/-! ### C23 -/

theorem stored_after_answer {sign : Signer} (works : Signs sign) {w : Client} (hinv : ClientInv w)
    (e : ClientEvent)
    (sent : ∀ i failed o c, e = .answer i (.rejected failed) o → w.active[i]? = some c →
      failed ≠ [] → ∃ p ∈ failed, p < c.pass_group.passes.length) :
    (if isRetry sign w e then 1 else 0) + (w.step sign e).store.app.unblinded.length ≤
      w.store.app.unblinded.length + issued [e] := by
  cases e with
  | start k m n o =>
    obtain ⟨-, h2, -⟩ := start_held works hinv.held o m n
    simp only [Client.step, isRetry, h2]
    simp
  | restart => simp [Client.step, isRetry, StoreOp.step]
  | other op =>
    simp only [Client.step, isRetry]
    cases ho : outside op with
    | false => simp
    | true =>
      by_cases hn : Neutral op
      · simp [(step_neutral hn w.store).1]
      · cases op <;> simp only [Neutral, not_true] at hn <;>
          simp only [outside, Bool.false_eq_true] at ho
        case insert now v pk ts c s =>
          simp only [if_true]
          have hle : ((StoreOp.insert now v pk ts c s).step w.store).2.app.unblinded.length ≤
              w.store.app.unblinded.length + ts.length := by
            rw [step_insert]
            split
            · exact Nat.le_add_right _ _
            · split
              · simp [inserted]
              · exact Nat.le_add_right _ _
          simpa [issued, issuedBy] using hle
  | answer i a o =>
    simp only [Client.step]
    cases hc : w.active[i]? with
    | none => cases a <;> simp [isRetry, hc]
    | some c =>
      have hs := getElem?_split hc
      have hh : Held w.store ((w.active.take i).flatMap holds ++ c.pass_group.unblinded_tokens ++
        (w.active.drop (i + 1)).flatMap holds) := by
        have h := hinv.held
        rw [hs] at h
        simpa [holds, PassGroup.unblinded_tokens] using h
      dsimp only
      cases a with
      | ok n =>
        obtain ⟨s, t', e1, -, -, e4⟩ :=
          answer_ok_held (sign := sign) hh o c.on_success c.num_passes n
        rw [e1]
        simp only [isRetry]
        cases hk : c.on_success with
        | spendAll =>
          rw [hk] at e4
          dsimp only at e4
          rw [e4.2]
          simp only [issued, issuedBy, Bool.false_eq_true, if_false, List.map_cons, List.map_nil,
            List.sum_cons, List.sum_nil, Nat.zero_add, Nat.add_zero]
          exact List.length_filter_le _ _
        | allocate pv size =>
          rw [hk] at e4
          dsimp only at e4
          cases hq : required_passesE pv (List.replicate n size) with
          | error e => rw [hq] at e4; dsimp only at e4; rw [e4.2]; simp
          | ok m =>
            rw [hq] at e4
            dsimp only at e4
            rw [e4.2]
            simp only [issued, issuedBy, Bool.false_eq_true, if_false, List.map_cons, List.map_nil,
              List.sum_cons, List.sum_nil, Nat.zero_add, Nat.add_zero]
            exact List.length_filter_le _ _
      | error e =>
        obtain ⟨t', e1, e2, -⟩ :=
          answer_error_held (sign := sign) hh o c.on_success c.num_passes e
        rw [e1]
        simp [isRetry, e2]
      | rejected failed =>
        by_cases hf : failed = []
        · subst hf
          obtain ⟨t', e1, e2, -⟩ :=
            answer_rejected_nil_held (sign := sign) hh o c.on_success c.num_passes
          simp [isRetry, hc, e1, e2]
        · obtain ⟨s, t', t1, e1, e2, -⟩ :=
            answer_rejected_held works hh o c.on_success c.num_passes failed hf
          obtain ⟨p, hp, hlt⟩ := sent i failed o c rfl hc hf
          have hlt' : p < c.pass_group.tokens.length := by simpa [PassGroup.passes] using hlt
          have hmem : c.pass_group.tokens[p] ∈ atPositions failed.contains c.pass_group.tokens :=
            (mem_atPositions _ _ _).mpr ⟨p, List.getElem?_eq_getElem hlt', by simpa using hp⟩
          have hmem1 : (c.pass_group.tokens[p]).1 ∈
              (atPositions failed.contains c.pass_group.tokens).map Prod.fst :=
            List.mem_map_of_mem hmem
          have hx := hh.wf.in_use_stored (c.pass_group.tokens[p]).1 (hh.mem
            (List.mem_append_left _ (List.mem_append_right _
              (List.mem_map_of_mem (List.getElem_mem hlt')))))
          obtain ⟨r, hr, hre, -⟩ := hx
          have hlt2 : (w.store.app.unblinded.filter
              (·.token ∉ (atPositions failed.contains c.pass_group.tokens).map Prod.fst)).length <
              w.store.app.unblinded.length := by
            rw [List.length_filter_lt_length_iff_exists]
            refine ⟨r, hr, ?_⟩
            rw [hre]
            simpa only [decide_eq_true_eq, Classical.not_not] using hmem1
          rw [e1]
          simp only [e2]
          split <;> omega

/-- **C23** (for servers that, when they reject passes, name at least one pass that was sent;
see `C23_out_of_range_fails`): every retry consumes a token for good.  So, whatever the order of
events, calls together never retry more often than tokens were stored or issued. -/
theorem C23_retries_are_bounded_partial (sign : Signer) (works : Signs sign)
    (events later : List ClientEvent) (fresh : NoReissue sign {} (events ++ later))
    (sent : NamesSentPasses sign (clientAfter sign events) later) :
    retries sign (clientAfter sign events) later +
        (clientAfter sign (events ++ later)).store.app.unblinded.length ≤
      (clientAfter sign events).store.app.unblinded.length + issued later := by
  have split : ∀ (es : List ClientEvent) (w : Client), NoReissue sign w (es ++ later) →
      NoReissue sign w es ∧ NoReissue sign (w.run sign es) later := by
    intro es
    induction es with
    | nil => intro w h; exact ⟨trivial, h⟩
    | cons e es ih => intro w h; exact ⟨⟨h.1, (ih _ h.2).1⟩, (ih _ h.2).2⟩
  obtain ⟨f1, f2⟩ := split events {} fresh
  have hinv := client_inv_run works events clientInv_init f1
  have hrun : clientAfter sign (events ++ later) = (clientAfter sign events).run sign later := by
    unfold clientAfter Client.run
    rw [List.foldl_append]
  rw [hrun]
  unfold clientAfter at *
  generalize Client.run sign {} events = w at *
  clear split fresh hrun f1
  induction later generalizing w with
  | nil => simp [retries, Client.run, issued]
  | cons e es ih =>
    have h1 := stored_after_answer works hinv e sent.1
    have h2 := ih _ sent.2 f2.2 (client_inv_step works hinv e f2.1)
    have h3 : issued (e :: es) = issued [e] + issued es := by simp [issued]
    have h4 : w.run sign (e :: es) = (w.step sign e).run sign es := rfl
    rw [h4, h3, retries]
    omega

/-- The storage server of this project names only passes that were sent. -/
theorem C23_our_server_names_sent_passes (cfg : ServerConfig) (hv : 0 < cfg.pass_value)
    (a : AllocateArgs) (s : Server) (valid : Nat) (required : Int) (failed : List Nat)
    (h : (remote_allocate_buckets cfg a s).2 = .error (.morePassesRequired valid required failed)) :
    ∀ p ∈ failed, p < a.passes.length := by
  by_cases hp : ∃ ps, Parses a.passes ps
  · obtain ⟨ps, hp⟩ := hp
    by_cases hlt : (validCount (cfg.verifies (allocate_buckets_message a.storage_index)) ps : Int)
        < a.sharenums.length * passes cfg.pass_value a.allocated_size
    · obtain ⟨f, hf, e⟩ := allocate_refused cfg hv a s ps hp hlt
      rw [e] at h
      simp only [Except.error.injEq, SErr.morePassesRequired.injEq] at h
      obtain ⟨-, -, rfl⟩ := h
      intro p hpf
      obtain ⟨q, hq, -⟩ := (hf.2 p).mp hpf
      have hl : a.passes.length = ps.length := by
        have := congrArg List.length hp
        simpa using this
      rw [hl]
      exact (List.getElem?_eq_some_iff.mp hq).1
    · rw [allocate_granted cfg hv a s ps hp (by omega)] at h
      cases h
  · obtain ⟨e, he⟩ := allocate_parse_error cfg a s hp
    rw [he] at h
    simp at h

/-- What C23 says in full: whatever the server answers, the number of retries of what is in
progress is bounded. -/
def C23_statement : Prop :=
  ∀ (sign : Signer), Signs sign → ∀ events, NoReissue sign {} events →
    ∃ bound, ∀ answers : List ClientEvent,
      (∀ e ∈ answers, ∃ i a o, e = .answer i a o) →
      retries sign (clientAfter sign events) answers ≤ bound

/-- The step that goes on forever. -/
theorem stuck_step : (clientAfter exSign exEvents).step exSign (.answer 0 (.rejected [2]) .natural) =
      clientAfter exSign exEvents := by
  decide +kernel

/-- C23 fails: a server that rejects only passes that were never sent is asked again forever,
with the same passes. -/
theorem C23_out_of_range_fails : ¬ C23_statement := by
  intro h
  obtain ⟨bound, hb⟩ := h exSign exSigns exEvents exEvents_noReissue
  have key : ∀ n, retries exSign (clientAfter exSign exEvents)
      (List.replicate n (.answer 0 (.rejected [2]) .natural)) = n := by
    intro n
    induction n with
    | zero => rfl
    | succ n ih =>
      rw [List.replicate_succ, retries, stuck_step, ih]
      have : isRetry exSign (clientAfter exSign exEvents) (.answer 0 (.rejected [2]) .natural) = true := by
        decide +kernel
      rw [this]
      simp [Nat.add_comm]
  have := hb (List.replicate (bound + 1) (.answer 0 (.rejected [2]) .natural)) (by
    intro e he
    rw [List.mem_replicate] at he
    exact ⟨_, _, _, he.2⟩)
  rw [key] at this
  omega

/-- One retry, one token gone. -/
example :
    retries exSign (clientAfter exSign exEvents) [.answer 0 (.rejected [0]) .natural] = 1 ∧
    (clientAfter exSign (exEvents ++ [.answer 0 (.rejected [0]) .natural])).store.app.unblinded.length = 4 := by
  decide +kernel

/-! ### C05 -/

/-- **C05**: an upload request made with passes, as the client makes it, to the storage server of
this project.  If the server accepts it and creates buckets `created`, then both sides agree: the
server records as spent exactly the first `k` passes sent, the client discards exactly the
tokens behind these passes, where `k` is the price of the created buckets, and the other tokens
of the request are available again. -/
theorem C05_same_passes_paid (cfg : ServerConfig) (hv : 0 < cfg.pass_value)
    (sign : Signer) (works : Signs sign) (events : List ClientEvent)
    (fresh : NoReissue sign {} events) (i : Nat) (c : Call) (o : Order) (a : AllocateArgs)
    (s : Server) (hc : (clientAfter sign events).active[i]? = some c)
    (hk : c.on_success = .allocate cfg.pass_value a.allocated_size)
    (hnum : c.num_passes = client_allocate_num_passes cfg.pass_value a.sharenums a.allocated_size)
    (hwire : a.passes = c.pass_group.passes.map Pass.pass_bytes)
    (hparse : ∀ p ∈ c.pass_group.passes, Pass.from_bytes p.pass_bytes = .ok p)
    (alreadygot created : List Nat)
    (accepted : (remote_allocate_buckets cfg a s).2 = .ok (alreadygot, created)) :
    ∃ k : Nat, (k : Int) = total cfg.pass_value (List.replicate created.length a.allocated_size) ∧
      k ≤ (holds c).length ∧
      (remote_allocate_buckets cfg a s).1.spent =
        s.spent ++ (c.pass_group.passes.take k).map Pass.preimage ∧
      ((clientAfter sign events).step sign (.answer i (.ok created.length) o)).store.app =
        { (clientAfter sign events).store.app with
          unblinded := (clientAfter sign events).store.app.unblinded.filter
            (·.token ∉ (holds c).take k) } ∧
      ∀ x ∈ (holds c).drop k, Available
        ((clientAfter sign events).step sign (.answer i (.ok created.length) o)).store x := by
  have hps : Parses a.passes c.pass_group.passes := by
    unfold Parses
    rw [hwire, List.map_map]
    exact List.map_congr_left hparse
  have hinv := client_inv_run works events clientInv_init fresh
  have hpos : 0 ≤ passes cfg.pass_value a.allocated_size := by
    unfold passes
    exact Int.ediv_nonneg (by omega) (by omega)
  have hnum' : c.num_passes = a.sharenums.length * passes cfg.pass_value a.allocated_size := by
    rw [hnum]
    unfold client_allocate_num_passes
    rw [required_passes_eq _ hv, total_replicate]
  have hsz := hinv.size c (List.mem_of_getElem? hc) (by
    rw [hnum']; exact Int.mul_nonneg (by omega) hpos)
  rw [hnum'] at hsz
  have hlen : c.pass_group.passes.length = c.pass_group.tokens.length := by simp [PassGroup.passes]
  by_cases hlt : (validCount (cfg.verifies (allocate_buckets_message a.storage_index))
      c.pass_group.passes : Int) < a.sharenums.length * passes cfg.pass_value a.allocated_size
  · obtain ⟨f, -, e⟩ := allocate_refused cfg hv a s _ hps hlt
    rw [e] at accepted
    cases accepted
  · have hg := allocate_granted cfg hv a s _ hps (by omega)
    have hall : c.pass_group.passes.filter
        (cfg.verifies (allocate_buckets_message a.storage_index)) = c.pass_group.passes := by
      apply List.filter_sublist.eq_of_length_le
      unfold validCount at hlt
      omega
    dsimp only at hg
    rw [hall] at hg
    rw [hg] at accepted ⊢
    simp only [Except.ok.injEq, Prod.mk.injEq] at accepted
    obtain ⟨-, hcr⟩ := accepted
    rw [hcr]
    have hcl : created.length ≤ a.sharenums.length := by
      rw [← hcr]; unfold original_accepted; exact List.length_filter_le _ _
    have hprod : 0 ≤ (created.length : Int) * passes cfg.pass_value a.allocated_size :=
      Int.mul_nonneg (by omega) hpos
    have hle : (created.length : Int) * passes cfg.pass_value a.allocated_size ≤
        a.sharenums.length * passes cfg.pass_value a.allocated_size :=
      Int.mul_le_mul_of_nonneg_right (by omega) hpos
    have hh := held_context works fresh hc
    obtain ⟨st, t', e1, -, -, e4⟩ :=
      answer_ok_held (sign := sign) hh o c.on_success c.num_passes created.length
    rw [hk] at e4 e1
    dsimp only at e4
    rw [C01_checked_eq _ hv, required_passes_eq _ hv, total_replicate] at e4
    dsimp only at e4
    have hstore : ((clientAfter sign events).step sign
        (.answer i (.ok created.length) o)).store = t' := by
      simp only [Client.step, hc, hk, e1]
    refine ⟨((created.length : Int) * passes cfg.pass_value a.allocated_size).toNat, ?_, ?_, ?_, ?_, ?_⟩
    · rw [total_replicate]; omega
    · unfold holds; rw [List.length_map]; omega
    · simp only [List.map_take]
    · rw [hstore]; exact e4.2
    · rw [hstore]
      intro x hx
      have hxh : x ∈ holds c := List.mem_of_mem_drop hx
      have over : ∀ g, answered sign (clientAfter sign events) c (.ok created.length) o ≠ .waiting g := by
        intro g
        unfold answered
        rw [hk, e1, e4.1]
        simp
      have hrel := (C21_finished_call_releases_partial sign works events fresh i c _ o hc over).1 x hxh
      rw [hstore] at hrel
      rcases hrel with hrel | hrel
      · exfalso
        apply hrel
        have hu := hh.mem (x := x) (List.mem_append_left _ (List.mem_append_right _ hxh))
        obtain ⟨r, hr, rfl, -⟩ := hh.wf.in_use_stored x hu
        unfold Stored
        rw [e4.2]
        refine ⟨r, List.mem_filter.mpr ⟨hr, decide_eq_true ?_⟩, rfl⟩
        intro hm
        have hnod : (holds c).Nodup := by
          have := hh.nodup
          rw [List.nodup_append, List.nodup_append] at this
          exact this.1.2.1
        rw [← List.take_append_drop (((created.length : Int) *
          passes cfg.pass_value a.allocated_size).toNat) (holds c), List.nodup_append] at hnod
        exact hnod.2.2 _ hm _ hx rfl
      · exact hrel

/-! A client that redeemed seven tokens uploads shares 0, 5 and 6 of 15 bytes (two passes each)
to a server that already has share 0: six passes are sent, four are spent, two come back. -/

def exSign88 : Signer := fun _ ts =>
  .ok (ts.map fun x => exPass ((x.toList.map (fun c => c.toNat.toUInt8)).headD 65))

def exUpload : List ClientEvent :=
  [.other (.add .natural "2020" "voucher" 5 0 (.ok ["r"])),
   .other (.insert "2021" "voucher" "key" ["a", "b", "c", "d", "e", "f", "g"] true true),
   .start (.allocate 10 15) [7] 6 .natural]

def exUploadArgs : AllocateArgs :=
  ⟨([97, 98, 99, 100, 101, 102] : List UInt8).map (fun c => (exPass c).pass_bytes),
    [9], [6], [0, 5, 6], 15, 77, 100, fun _ => true⟩

def exUploadCall : Call :=
  ⟨.allocate 10 15, 6, ⟨[7], [("a", exPass 97), ("b", exPass 98), ("c", exPass 99),
    ("d", exPass 100), ("e", exPass 101), ("f", exPass 102)]⟩⟩

example : ∃ k : Nat, (k : Int) = 4 ∧
    (remote_allocate_buckets exCfg exUploadArgs exServer).1.spent =
      (exUploadCall.pass_group.passes.take k).map Pass.preimage ∧
    ∀ x ∈ ["a", "b", "c", "d", "e", "f"].drop k, Available
      ((clientAfter exSign88 exUpload).step exSign88 (.answer 0 (.ok 2) .natural)).store x := by
  have hc : (clientAfter exSign88 exUpload).active[0]? = some exUploadCall := by decide +kernel
  have hacc : (remote_allocate_buckets exCfg exUploadArgs exServer).2 = .ok ([0, 1], [5, 6]) := by
    decide +kernel
  obtain ⟨k, h1, -, h3, -, h5⟩ := C05_same_passes_paid exCfg (by decide) exSign88
    (fun m ts => ⟨_, rfl, by simp⟩) exUpload (by
      refine ⟨?_, ?_, ?_, trivial⟩
      · rintro op h x hx; cases h; cases hx
      · rintro op h x hx; cases h; rw [hInv1]; exact List.not_mem_nil
      · rintro op h; cases h) 0 exUploadCall .natural exUploadArgs exServer hc (by decide) (by decide)
    (by decide +kernel) (by decide +kernel) [0, 1] [5, 6] hacc
  exact ⟨k, by rw [h1]; decide, h3, h5⟩

end ZKAP
