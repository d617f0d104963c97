import Verif.Lemmas.PassReuse
import Verif.Props.StorageClient

/-!
A pass is sent one time (C154).

`model.py:1039-1045`: a pass can be sent to a service provider one time; if it is sent more than once the anonymity
property is compromised.  What a server can recognise is the preimage.
-/
namespace ZKAP
open Spec

/-- C154: no preimage is in two remote calls of a client. -/
def C154_statement : Prop :=
  ∀ (sign : Signer) (_ : Signs sign) (v : Int) (_ : 0 < v) (events : List SessionEvent)
    (_ : Recognisable sign (IssuedIn events)) (_ : NeverReissued sign v {} events) l1 op r l2 op' r' l3,
    (sessionAfter sign v events).log = l1 ++ .sent op r :: (l2 ++ .sent op' r' :: l3) →
    ∀ b ∈ preimages r, b ∉ preimages r'

/-- **C154**: a preimage is only sent again by the same operation after the server refused some of its passes, or
after the operation failed, or after the upload got fewer buckets than it asked for, or after a restart of the
client. -/
theorem C154_sent_again_partial (sign : Signer) (works : Signs sign) (v : Int) (hv : 0 < v) (events : List SessionEvent)
    (distinct : Recognisable sign (IssuedIn events)) (fresh : NeverReissued sign v {} events)
    (l1 : List Out) (op : StorageOp) (r : StorageRequest) (l2 : List Out) (op' : StorageOp) (r' : StorageRequest)
    (l3 : List Out)
    (log : (sessionAfter sign v events).log = l1 ++ .sent op r :: (l2 ++ .sent op' r' :: l3))
    (b : Bytes) (first : b ∈ preimages r) (second : b ∈ preimages r') :
    GivenBack op l2 ∨ (op' = op ∧ Refused op l2) := by
  have h := shown_run works distinct hv events (shown_init sign _ v) fresh fun _ h => h
  change ShownInv sign _ v (sessionAfter sign v events) at h
  obtain ⟨x, m, p, h1, h2, h3⟩ := h.known op r (by rw [log]; simp) b first
  exact h.twice l1 op r l2 op' r' l3 log x h1 ⟨m, p, h2, h3 ▸ first⟩ ⟨m, p, h2, h3 ▸ second⟩

/-- **C154**: once a token that was sent has left the store, because it paid for something or was found invalid, none of
its passes is ever sent again. -/
theorem C154_spent_never_sent_again_partial (sign : Signer) (works : Signs sign) (v : Int) (hv : 0 < v)
    (before after : List SessionEvent) (distinct : Recognisable sign (IssuedIn (before ++ after)))
    (fresh : NeverReissued sign v {} (before ++ after)) (x : String) (issued : IssuedIn before x)
    (sent : ∃ op r, .sent op r ∈ (sessionAfter sign v before).log ∧ Shows sign r x)
    (gone : ¬ Stored (sessionAfter sign v before).store x) :
    ∃ l, (sessionAfter sign v (before ++ after)).log = (sessionAfter sign v before).log ++ l ∧
      ∀ op r, .sent op r ∈ l → ¬ Shows sign r x := by
  have split : ∀ (es : List SessionEvent) (s : StorageSession), NeverReissued sign v s (es ++ after) →
      NeverReissued sign v s es ∧ NeverReissued sign v (s.run sign v es) after := by
    intro es
    induction es with
    | nil => exact fun s h => ⟨trivial, h⟩
    | cons e es ih =>
      intro s h
      obtain ⟨h1, h2⟩ := ih _ h.2
      exact ⟨⟨h.1, h1⟩, h2⟩
  obtain ⟨h1, h2⟩ := split before {} fresh
  have hb := shown_run works distinct hv before (shown_init sign _ v) h1 fun x ⟨op, h3, h4⟩ =>
    ⟨op, List.mem_append_left _ h3, h4⟩
  obtain ⟨op, h3, h4⟩ := issued
  have := gone_run_session works distinct hv after hb h2 (fun x ⟨op, h3, h4⟩ => ⟨op, List.mem_append_right _ h3, h4⟩)
    ⟨op, List.mem_append_left _ h3, h4⟩ sent gone
  unfold sessionAfter StorageSession.run
  rw [List.foldl_append]
  exact this

/-! ### An example -/

/-- A signer whose passes tell the tokens "a" to "e" apart. -/
def exSignFirst : Signer := fun _ ts =>
  .ok (ts.map fun x => ⟨List.replicate 88 ((x.toList.headD 'z').toNat.toUInt8), List.replicate 88 66⟩)

theorem exSignFirst_signs : Signs exSignFirst := fun m ts => ⟨_, rfl, by simp⟩

theorem exSignFirst_made {m : Bytes} {x : String} {p : Pass} (h : MadeFor exSignFirst m x p) :
    p = ⟨List.replicate 88 ((x.toList.headD 'z').toNat.toUInt8), List.replicate 88 66⟩ := by
  obtain ⟨ts, ps, h1, h2⟩ := h
  cases h1
  rw [List.zip_map_right] at h2
  obtain ⟨⟨y, z⟩, h3, h4⟩ := List.mem_map.mp h2
  cases h4
  have := List.of_mem_zip h3
  have : y = z := by
    clear h2 this
    induction ts with
    | nil => exact nomatch h3
    | cons a l ih =>
      rw [List.zip_cons_cons] at h3
      rcases List.mem_cons.mp h3 with h3 | h3
      · cases h3; rfl
      · exact ih h3
  subst this
  rfl

/-- An upload of two shares of fifteen bytes to a server that has one of them already, then an upload of one share to
another server; nothing fails. -/
def exReuse : List SessionEvent :=
  exSession.take 2 ++
  [.start (.allocateBuckets (List.replicate 16 1) (List.replicate 32 2) (List.replicate 32 3) [0, 1] 15 0) exRight .natural,
   .answerPaid 0 (.result (.tuple [.set [.int 1], .dict [(.int 0, .ref 1)]])) 0 .natural,
   .start (.allocateBuckets (List.replicate 16 4) (List.replicate 32 5) (List.replicate 32 6) [0] 15 0) exRight .natural]

theorem exReuse_issued {x : String} (h : IssuedIn exReuse x) : x ∈ ["a", "b", "c", "d", "e"] := by
  obtain ⟨op, h1, h2⟩ := h
  simp only [exReuse, exSession, List.take_succ_cons, List.take_zero, List.cons_append, List.nil_append, List.mem_cons,
    SessionEvent.other.injEq, reduceCtorEq, List.not_mem_nil, or_false] at h1
  rcases h1 with rfl | rfl
  · exact h2.elim
  · exact h2

theorem exReuse_recognisable : Recognisable exSignFirst (IssuedIn exReuse) := by
  intro m x p m' y q hx hy hp hq
  rw [exSignFirst_made hp, exSignFirst_made hq]
  have h1 : ∀ b : UInt8, (Pass.pass_bytes ⟨List.replicate 88 b, List.replicate 88 66⟩).take 88 = List.replicate 88 b := by
    intro b
    unfold Pass.pass_bytes
    rw [List.take_append_of_le_length (by rw [List.length_replicate]; omega),
      List.take_of_length_le (by rw [List.length_replicate]; omega)]
  rw [h1, h1]
  have h2 : ∀ x ∈ ["a", "b", "c", "d", "e"], ∀ y ∈ ["a", "b", "c", "d", "e"],
      ((x.toList.headD 'z').toNat.toUInt8 = (y.toList.headD 'z').toNat.toUInt8 ↔ x = y) := by decide +kernel
  rw [← h2 x (exReuse_issued hx) y (exReuse_issued hy)]
  constructor
  · intro h
    have := (List.replicate_inj.mp h).2
    rcases this with h | h
    · omega
    · exact h
  · intro h
    rw [h]

theorem exReuse_fresh : NeverReissued exSignFirst 10 {} exReuse := by
  refine ⟨?_, ?_, ?_, ?_, ?_, trivial⟩
  · rintro op h x hx; cases h; cases hx
  · rintro op h x hx
    cases h
    have h1 : (if outside (.add .natural "2020" "voucher" 5 0 (.ok ["r"])) then
        ((StoreOp.add .natural "2020" "voucher" 5 0 (.ok ["r"])).step {}).2.app.invalid else []) = [] := by decide +kernel
    have h2 : (StorageSession.step exSignFirst 10 {} (.other (.add .natural "2020" "voucher" 5 0 (.ok ["r"])))).store.app.invalid = [] := by
      simpa [StorageSession.step, outside] using h1
    refine ⟨?_, ?_⟩
    · unfold invalidTokens
      rw [h2]
      exact List.not_mem_nil
    · intro op' r hm
      simp [StorageSession.step, outside] at hm
  · rintro op h; cases h
  · rintro op h; cases h
  · rintro op h; cases h

/-- What the entries of a log show: of a remote call the preimages, otherwise nothing. -/
def shownIn : Out → Option (List Bytes)
  | .sent _ r => some (preimages r)
  | _ => none

/-- Whether a log entry says that an operation failed or the client was restarted. -/
def isFailure : Out → Bool
  | .raised .. | .restarted | .got _ (.morePassesRequired _) _ | .got _ (.failure _) _ => true
  | _ => false

/-- The first upload shows "a" to "d" and pays with "a" and "b"; the second shows "c" and "d". -/
theorem exReuse_log : (sessionAfter exSignFirst 10 exReuse).log.map shownIn =
    [some ([97, 98, 99, 100].map (List.replicate 88)), none, none, some ([99, 100].map (List.replicate 88))] := by
  decide +kernel

theorem exReuse_nothing_fails : (sessionAfter exSignFirst 10 exReuse).log.any isFailure = false := by
  decide +kernel

theorem shownIn_some {o : Out} {l : List Bytes} (h : shownIn o = some l) : ∃ op r, o = .sent op r ∧ preimages r = l := by
  cases o with
  | sent op r => exact ⟨op, r, rfl, by simpa [shownIn] using h⟩
  | _ => exact nomatch h

/-- The two remote calls of the example. -/
theorem exReuse_split : ∃ op r l2 op' r',
    (sessionAfter exSignFirst 10 exReuse).log = [] ++ .sent op r :: (l2 ++ .sent op' r' :: []) ∧
    preimages r = [97, 98, 99, 100].map (List.replicate 88) ∧ preimages r' = [99, 100].map (List.replicate 88) := by
  have h := exReuse_log
  generalize (sessionAfter exSignFirst 10 exReuse).log = log at h
  obtain ⟨o1, log, rfl, h1, h⟩ := List.map_eq_cons_iff.mp h
  obtain ⟨o2, log, rfl, -, h⟩ := List.map_eq_cons_iff.mp h
  obtain ⟨o3, log, rfl, -, h⟩ := List.map_eq_cons_iff.mp h
  obtain ⟨o4, log, rfl, h4, h⟩ := List.map_eq_cons_iff.mp h
  obtain rfl := List.map_eq_nil_iff.mp h
  obtain ⟨op, r, rfl, hr⟩ := shownIn_some h1
  obtain ⟨op', r', rfl, hr'⟩ := shownIn_some h4
  exact ⟨op, r, [o2, o3], op', r', rfl, hr, hr'⟩

/-- C154 fails, although nothing fails in the example: an upload for which fewer buckets are needed than asked for
shows passes it does not pay with, and these are shown again by the next operation. -/
theorem C154_surplus_fails : ¬ C154_statement := by
  intro h
  obtain ⟨op, r, l2, op', r', h1, h2, h3⟩ := exReuse_split
  refine h exSignFirst exSignFirst_signs 10 (by decide) exReuse exReuse_recognisable exReuse_fresh [] op r l2 op' r' [] h1
    (List.replicate 88 99) ?_ ?_
  · rw [h2]
    exact List.mem_map.mpr ⟨99, by decide, rfl⟩
  · rw [h3]
    exact List.mem_map.mpr ⟨99, by decide, rfl⟩

/-- The hypotheses of `C154_spent_never_sent_again_partial` are met: "a" was sent and is gone after the first upload. -/
example : storedTokens (sessionAfter exSignFirst 10 (exReuse.take 4)).store = ["c", "d", "e"] ∧
    (sessionAfter exSignFirst 10 (exReuse.take 4)).log.map shownIn =
      [some ([97, 98, 99, 100].map (List.replicate 88)), none, none] := by
  decide +kernel

/-- A lost connection and a restart have the same effect. -/
example : (sessionAfter exSignFirst 10 (exReuse.take 3 ++ [.answerPaid 0 (.failure .valueError) 0 .natural] ++
      exReuse.drop 4)).log.map shownIn =
    [some ([97, 98, 99, 100].map (List.replicate 88)), none, none, some ([97, 98].map (List.replicate 88))] ∧
    (sessionAfter exSignFirst 10 (exReuse.take 3 ++ [.restart] ++ exReuse.drop 4)).log.map shownIn =
    [some ([97, 98, 99, 100].map (List.replicate 88)), none, some ([97, 98].map (List.replicate 88))] := by
  decide +kernel

end ZKAP
