import Verif.Lemmas.Books
import Verif.Props.Spending

/-! C118: what a client and a server have on record about the client's tokens. -/
namespace ZKAP
open Spec

/-- Everything the property ranges over: a signer, a server, real tokens and a history of a client
and the server, starting with an empty client store and a server that has recorded none of the
tokens. -/
structure Dealings where
  sign : Signer
  cfg : ServerConfig
  preimage : String → Bytes
  tokens : String → Prop
  server : Server
  events : List BooksEvent
  works : Signs sign
  value : 0 < cfg.pass_value
  real : RealTokens sign cfg preimage tokens
  new : ∀ x, tokens x → preimage x ∉ server.spent
  honest : Honest sign cfg cfg.pass_value preimage tokens { server := server } events

namespace Dealings

/-- The client and the server in the end. -/
def final (d : Dealings) : Books := Books.run d.sign d.cfg d.cfg.pass_value { server := d.server } d.events

/-- The client still has the token. -/
def has (d : Dealings) (x : String) : Prop := Stored d.final.store x

/-- The client had the token at some time. -/
def had (d : Dealings) (x : String) : Prop :=
  EverStored d.sign d.cfg d.cfg.pass_value { server := d.server } d.events x

/-- How often the server has recorded the token as spent. -/
def timesRecorded (d : Dealings) (x : String) : Nat := d.final.server.spent.count (d.preimage x)

/-- How often an answer saying that the token was accepted as payment is on its way. -/
def timesUnderWay (d : Dealings) (x : String) : Nat := (underWay d.cfg.pass_value d.final).count x

/-- How often an answer saying that the token was accepted as payment was lost. -/
def timesLost (d : Dealings) (x : String) : Nat :=
  (lostPayments d.sign d.cfg d.cfg.pass_value { server := d.server } d.events).count x

end Dealings

/-- **C118**, for every history: the server's records of a token are one for each answer on its
way, one for each answer that was lost, and one more exactly if the client has discarded the
token. -/
theorem C118_balance (d : Dealings) (x : String) (hx : d.tokens x) :
    (d.had x → ¬ d.has x → d.timesRecorded x = d.timesUnderWay x + d.timesLost x + 1) ∧
    (d.had x → d.has x → d.timesRecorded x = d.timesUnderWay x + d.timesLost x) ∧
    (¬ d.had x → d.timesRecorded x = d.timesUnderWay x + d.timesLost x) := by
  obtain ⟨-, hb⟩ := books_balance d.sign d.works d.cfg d.preimage d.tokens d.value d.real d.server d.new
    d.events d.honest
  obtain ⟨g, e, hc⟩ := hb x hx
  have e : d.timesRecorded x = d.timesUnderWay x + d.timesLost x + g := e
  rcases hc with ⟨h1, h2, h3⟩ | ⟨h1, h2⟩
  · exact ⟨fun _ _ => by omega, fun _ hh => absurd hh h3, fun hn => absurd h2 hn⟩
  · exact ⟨fun ha hh => absurd (h2 ha) hh, fun _ _ => by omega, fun _ => by omega⟩

/-- **C118**: whatever is lost on the way, a token leaves the client's store only when the server
has it on record as spent. -/
theorem C118_discarded_is_recorded (d : Dealings) (x : String) (hx : d.tokens x) (had : d.had x)
    (gone : ¬ d.has x) : 1 ≤ d.timesRecorded x := by
  have := (C118_balance d x hx).1 had gone
  omega

/-- **C118**: the server records none of the tokens that the client never had. -/
theorem C118_nothing_else_recorded (d : Dealings) (x : String) (hx : d.tokens x) (never : ¬ d.had x) :
    d.timesRecorded x = 0 := by
  have key : ∀ es, Honest d.sign d.cfg d.cfg.pass_value d.preimage d.tokens { server := d.server } es →
      ¬ EverStored d.sign d.cfg d.cfg.pass_value { server := d.server } es x →
      (underWay d.cfg.pass_value (Books.run d.sign d.cfg d.cfg.pass_value { server := d.server } es)).count x = 0 ∧
      (lostPayments d.sign d.cfg d.cfg.pass_value { server := d.server } es).count x = 0 := by
    intro es
    have stored : ∀ es, Honest d.sign d.cfg d.cfg.pass_value d.preimage d.tokens { server := d.server } es →
        ∀ (i : Nat) (p : Pending), (Books.run d.sign d.cfg d.cfg.pass_value { server := d.server } es).calls[i]? = some p →
        x ∈ payment d.cfg.pass_value p →
        Stored (Books.run d.sign d.cfg d.cfg.pass_value { server := d.server } es).store x := by
      intro es hon i p hi hm
      obtain ⟨hinv, -⟩ := books_balance d.sign d.works d.cfg d.preimage d.tokens d.value d.real d.server d.new
        es hon
      exact holds_stored hinv hi ((payment_sublist _ p).subset hm)
    have under : ∀ es, Honest d.sign d.cfg d.cfg.pass_value d.preimage d.tokens { server := d.server } es →
        x ∈ underWay d.cfg.pass_value (Books.run d.sign d.cfg d.cfg.pass_value { server := d.server } es) →
        Stored (Books.run d.sign d.cfg d.cfg.pass_value { server := d.server } es).store x := by
      intro es hon hm
      obtain ⟨p, hp, hm⟩ := List.mem_flatMap.mp hm
      obtain ⟨i, hi⟩ := List.getElem?_of_mem hp
      exact stored es hon i p hi hm
    induction es using snoc_induction with
    | nil => intro _ _; exact ⟨rfl, rfl⟩
    | snoc es e ih =>
      intro hon hn
      rw [everStored_snoc] at hn
      have hn1 : ¬ EverStored d.sign d.cfg d.cfg.pass_value { server := d.server } es x := fun h => hn (.inl h)
      have hfront := honest_front hon
      refine ⟨List.count_eq_zero.mpr fun hm => hn (.inr (under _ hon hm)), ?_⟩
      rw [lostPayments_snoc, List.count_append, (ih hfront hn1).2, Nat.zero_add]
      apply List.count_eq_zero.mpr
      intro hm
      apply hn1
      refine ⟨es, List.prefix_refl _, ?_⟩
      cases e with
      | lose i er o =>
        simp only [lostBy] at hm
        cases hi : (Books.run d.sign d.cfg d.cfg.pass_value { server := d.server } es).calls[i]? with
        | none => rw [hi] at hm; exact nomatch hm
        | some p => rw [hi] at hm; exact stored es hfront i p hi hm
      | restart => exact under es hfront hm
      | _ => exact nomatch hm
  obtain ⟨h1, h2⟩ := key d.events d.honest never
  have := (C118_balance d x hx).2.2 never
  unfold Dealings.timesUnderWay Dealings.final Dealings.timesLost at this
  omega

/-- What C118 says in full: whenever no call is in progress, every token the client ever had is
either still in its store and not on record at the server, or no longer in its store and on
record at the server once. -/
def C118_statement : Prop :=
  ∀ d : Dealings, d.final.calls = [] → ∀ x, d.had x →
    (d.has x ∧ d.timesRecorded x = 0) ∨ (¬ d.has x ∧ d.timesRecorded x = 1)

/-- **C118** for histories in which no answer that says "accepted" is lost.  Missing: histories in
which one is, see `C118_lost_answer_fails`. -/
theorem C118_books_agree_partial (d : Dealings) (quiet : d.final.calls = [])
    (arrived : lostPayments d.sign d.cfg d.cfg.pass_value { server := d.server } d.events = [])
    (x : String) (had : d.had x) :
    (d.has x ∧ d.timesRecorded x = 0) ∨ (¬ d.has x ∧ d.timesRecorded x = 1) := by
  have hu : d.timesUnderWay x = 0 := by unfold Dealings.timesUnderWay underWay; rw [quiet]; rfl
  have hl : d.timesLost x = 0 := by unfold Dealings.timesLost; rw [arrived]; rfl
  have hx : d.tokens x := by
    obtain ⟨p, hp, hs⟩ := had
    obtain ⟨rest, he⟩ := hp
    have hon : Honest d.sign d.cfg d.cfg.pass_value d.preimage d.tokens { server := d.server } p :=
      ⟨fun before op after hq => d.honest.issued before op (after ++ rest) (by rw [← he, hq]; simp),
        fun op hop => d.honest.others op (by rw [← he]; exact List.mem_append_left _ hop)⟩
    obtain ⟨hinv, -⟩ := books_balance d.sign d.works d.cfg d.preimage d.tokens d.value d.real d.server d.new p hon
    exact hinv.real x hs
  obtain ⟨h1, h2, -⟩ := C118_balance d x hx
  by_cases hs : d.has x
  · exact .inl ⟨hs, by have := h2 had hs; omega⟩
  · exact .inr ⟨hs, by have := h1 had hs; omega⟩

/-! ### A client with seven tokens -/

def exHead (x : String) : UInt8 := (x.toList.map (fun c => c.toNat.toUInt8)).headD 65

def exTokens : List String := ["a", "b", "c", "d", "e", "f", "g"]

theorem exReal : RealTokens exSign88 exCfg (fun x => List.replicate 88 (exHead x)) (· ∈ exTokens) := by
  constructor
  · intro m ts ps h x p hm hx
    have hp : p = exPass (exHead x) := by
      cases h
      have : ∀ ts : List String, (x, p) ∈ ts.zip (ts.map fun x => exPass (exHead x)) → p = exPass (exHead x) := by
        intro ts
        induction ts with
        | nil => intro h; exact nomatch h
        | cons t ts ih =>
          intro h
          rw [List.map_cons, List.zip_cons_cons, List.mem_cons] at h
          rcases h with h | h
          · cases h; rfl
          · exact ih h
      exact this ts hm
    subst hp
    refine ⟨rfl, ?_⟩
    have : ∀ x ∈ exTokens, Pass.from_bytes (exPass (exHead x)).pass_bytes = .ok (exPass (exHead x)) ∧
      (exPass (exHead x)).preimage ≠ List.replicate 88 90 := by decide +kernel
    exact ⟨(this x hx).1, bne_iff_ne.mpr (this x hx).2⟩
  · intro x y hx hy h
    have : ∀ x ∈ exTokens, ∀ y ∈ exTokens, exHead x = exHead y → x = y := by decide +kernel
    exact this x hx y hy (List.cons.inj h).1

/-- The voucher is redeemed for seven tokens, and shares 0, 5 and 6 of 15 bytes are uploaded to a
server that has share 0 already. -/
def exFront : List BooksEvent :=
  [.other (.add .natural "2020" "voucher" 5 0 (.ok ["r"])),
   .other (.insert "2021" "voucher" "key" exTokens true true),
   .start (.allocate [9] [6] [0, 5, 6] 15 77) .natural,
   .serve 0 100 (fun _ => true)]

theorem exHonest (last : BooksEvent) (hl : ∀ op, last ≠ .other op) (hf : ∀ op, last ≠ .foreign op) :
    Honest exSign88 exCfg exCfg.pass_value (fun x => List.replicate 88 (exHead x)) (· ∈ exTokens)
      { server := exServer } (exFront ++ [last]) := by
  constructor
  · intro before op after he x hx
    match before, he with
    | [], he => cases he; exact nomatch hx
    | [_], he =>
      simp only [exFront, List.cons_append, List.nil_append, List.cons.injEq, BooksEvent.other.injEq] at he
      obtain ⟨rfl, rfl, -⟩ := he
      refine ⟨hx, ?_⟩
      rintro ⟨p, hp, r, hr, -⟩
      match p, hp with
      | [], _ => exact nomatch hr
      | [q], hp =>
        have : q = .other (.add .natural "2020" "voucher" 5 0 (.ok ["r"])) := by
          obtain ⟨t, ht⟩ := hp; exact (List.cons.inj ht).1
        subst this
        exact nomatch hr
      | _ :: _ :: _, hp => obtain ⟨t, ht⟩ := hp; exact nomatch (List.cons.inj ht).2
    | [_, _], he => simp [exFront] at he
    | [_, _, _], he => simp [exFront] at he
    | [_, _, _, _], he => simp [exFront] at he; exact absurd he.2.2.2.2.1 (hl op)
    | _ :: _ :: _ :: _ :: _ :: _, he => simp [exFront] at he
  · intro op hop
    simp [exFront] at hop
    exact absurd hop.symm (hf op)

def exDealings (last : BooksEvent) (hl : ∀ op, last ≠ .other op) (hf : ∀ op, last ≠ .foreign op) : Dealings :=
  ⟨exSign88, exCfg, fun x => List.replicate 88 (exHead x), (· ∈ exTokens), exServer, exFront ++ [last],
    fun _ _ => ⟨_, rfl, by simp⟩, by decide, exReal, fun _ _ h => (nomatch h), exHonest last hl hf⟩

/-- The answer arrives: four tokens are gone and on record, three are left. -/
def exArrived : Dealings := exDealings (.deliver 0 .natural) (fun _ h => nomatch h) (fun _ h => nomatch h)

/-- The answer is lost: the client still has all its tokens, the server has four of them on
record. -/
def exAnswerLost : Dealings := exDealings (.lose 0 (.other 9) .natural) (fun _ h => nomatch h) (fun _ h => nomatch h)

theorem exAnswerLost_facts : exAnswerLost.final.calls = [] ∧
    exAnswerLost.final.store.app.unblinded.map (·.token) = exTokens ∧
    exAnswerLost.final.server.spent = ["a", "b", "c", "d"].map (fun x => List.replicate 88 (exHead x)) := by
  refine ⟨?_, by decide +kernel, by decide +kernel⟩
  apply List.eq_nil_of_length_eq_zero
  decide +kernel

theorem exArrived_facts : exArrived.final.calls = [] ∧
    exArrived.final.store.app.unblinded.map (·.token) = ["e", "f", "g"] ∧
    exArrived.final.server.spent = ["a", "b", "c", "d"].map (fun x => List.replicate 88 (exHead x)) ∧
    lostPayments exArrived.sign exArrived.cfg exArrived.cfg.pass_value { server := exArrived.server }
      exArrived.events = [] := by
  refine ⟨?_, by decide +kernel, by decide +kernel, by decide +kernel⟩
  apply List.eq_nil_of_length_eq_zero
  decide +kernel

/-- Token `b` is on record at the server and not in the store. -/
example : ¬ exArrived.has "b" ∧ exArrived.timesRecorded "b" = 1 := by
  have had : exArrived.had "b" :=
    ⟨exFront.take 2, List.take_prefix 2 _ |>.trans (List.prefix_append _ _), by
      unfold Stored
      refine ⟨⟨"b", 1⟩, ?_, rfl⟩
      decide +kernel⟩
  rcases C118_books_agree_partial exArrived exArrived_facts.1 exArrived_facts.2.2.2 "b" had with ⟨h, -⟩ | h
  · obtain ⟨r, hr, he⟩ := h
    have : r.token ∈ exArrived.final.store.app.unblinded.map (·.token) := List.mem_map_of_mem hr
    rw [exArrived_facts.2.1, he] at this
    exact absurd this (by decide)
  · exact h

/-- C118 fails: when the answer is lost the client keeps, and will offer again, tokens the server
has on record as spent. -/
theorem C118_lost_answer_fails : ¬ C118_statement := by
  intro h
  obtain ⟨h1, h2, h3⟩ := exAnswerLost_facts
  have hs : exAnswerLost.has "b" := by
    have : "b" ∈ exAnswerLost.final.store.app.unblinded.map (·.token) := by rw [h2]; decide
    obtain ⟨r, hr, he⟩ := List.mem_map.mp this
    exact ⟨r, hr, he⟩
  rcases h exAnswerLost h1 "b" ⟨_, List.prefix_refl _, hs⟩ with ⟨-, hc⟩ | ⟨hn, -⟩
  · unfold Dealings.timesRecorded at hc
    rw [h3] at hc
    revert hc
    decide +kernel
  · exact hn hs

/-- The books balance with the loss counted. -/
example : exAnswerLost.timesRecorded "b" = exAnswerLost.timesUnderWay "b" + exAnswerLost.timesLost "b" := by
  have hs : exAnswerLost.has "b" := by
    have : "b" ∈ exAnswerLost.final.store.app.unblinded.map (·.token) := by rw [exAnswerLost_facts.2.1]; decide
    obtain ⟨r, hr, he⟩ := List.mem_map.mp this
    exact ⟨r, hr, he⟩
  exact (C118_balance exAnswerLost "b" (by show "b" ∈ exTokens; decide)).2.1 ⟨_, List.prefix_refl _, hs⟩ hs

end ZKAP
