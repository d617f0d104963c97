import Verif.Spec.Checkpoint
import Verif.Props.Store
import Verif.Lemmas.Checkpoint

/-! C143: the checkpoint of a backup. -/
namespace ZKAP
open Spec

/-! ### C143: the checkpoint -/

/-- C143, full statement: take a copy of the database as a backup, at a moment at which no token is in use.
Whatever happens then, at a later moment at which no token is in use the next token to be spent separates
the tokens in the backup into spent and unspent ones, unless all of them are spent.  (Tokens are taken in
the order in which they are stored, and tokens in the backup are not redeemed again.) -/
def C143_statement : Prop :=
  ∀ (history later : List StoreOp), (∀ op ∈ later, InStoredOrder op) →
  (after history).temp.in_use = [] → (runStore later (after history)).temp.in_use = [] →
  (∀ op ∈ later, AddsNone (unspent (after history)) op) →
  ∀ checkpoint, (unspent (runStore later (after history))).head? = some checkpoint →
  checkpoint ∈ unspent (after history) →
  Separates checkpoint (unspent (after history)) (unspent (runStore later (after history)))

/-- C143: what is spent is the beginning of what could be spent, and what is redeemed comes at its end, on
a node that does one storage operation after the other. -/
theorem C143_order (history : List StoreOp) (h : (after history).temp.in_use = []) (us : List Use)
    (ho : OneByOne us) :
    ∃ spent kept new, unspent (after history) = spent ++ kept ∧
      unspent (runUses us (after history)) = kept ++ new := by
  obtain ⟨w, _, spent, kept, new, e1, e2, _⟩ := uses_order us (after_wf history) h ho
  exact ⟨spent, kept, new, by rw [unspent_eq (after_wf history), e1], by rw [unspent_eq w, e2]⟩

/-- What C143 leaves open: storage operations at the same time, and tokens that are refused or given back
while later ones were spent.  On a node that does one storage operation after the other, each of which
spends the first of the tokens it took and gives back the others, the checkpoint separates. -/
theorem C143_partial (history : List StoreOp) (h : (after history).temp.in_use = []) (us : List Use)
    (ho : OneByOne us) (hn : ∀ op, Use.other op ∈ us → AddsNone (unspent (after history)) op)
    (checkpoint : String) (hc : (unspent (runUses us (after history))).head? = some checkpoint)
    (hb : checkpoint ∈ unspent (after history)) :
    Separates checkpoint (unspent (after history)) (unspent (runUses us (after history))) := by
  obtain ⟨w, _, spent, kept, new, e1, e2, hnew⟩ := uses_order us (after_wf history) h ho
  have wf := after_wf history
  rw [unspent_eq w] at hc ⊢
  rw [unspent_eq wf] at hb hn ⊢
  have hnd := nodup_select_available wf
  have hfresh := hnew _ hn
  rw [e2] at hc ⊢
  rw [e1] at hb hnd hfresh ⊢
  obtain ⟨_, _, hdis⟩ := List.nodup_append.mp hnd
  have hkept : ∃ rest, kept = checkpoint :: rest := by
    cases kept with
    | nil =>
      exfalso
      rw [List.nil_append] at hc
      have : checkpoint ∈ new := List.mem_of_head? hc
      exact hfresh checkpoint this hb
    | cons x rest =>
      rw [List.cons_append, List.head?_cons] at hc
      cases hc
      exact ⟨rest, rfl⟩
  obtain ⟨rest, rfl⟩ := hkept
  unfold Separates
  have h1 : ∀ x ∈ spent, x ≠ checkpoint := fun x hx => hdis x hx checkpoint (by simp)
  rw [List.dropWhile_append_of_pos (by intro x hx; simp [h1 x hx])]
  rw [List.dropWhile_cons_of_neg (by simp), List.filter_append]
  have h2 : spent.filter (· ∈ checkpoint :: rest ++ new) = [] := by
    rw [List.filter_eq_nil_iff]
    intro x hx
    have a : x ∉ checkpoint :: rest := fun hx' => hdis x hx x hx' rfl
    have b : x ∉ new := fun hx' => hfresh x hx' (by simp [hx])
    simp only [List.mem_append, a, b, or_self, decide_false, Bool.false_eq_true, not_false_eq_true]
  have h3 : (checkpoint :: rest).filter (· ∈ checkpoint :: rest ++ new) = checkpoint :: rest := by
    rw [List.filter_eq_self]
    intro x hx
    simp only [List.mem_append, hx, true_or, decide_true]
  rw [h2, h3, List.nil_append]

/-- Three tokens are stored; an operation spends one of the two it took; two more are redeemed; the next
token is the second. -/
example : let history := exHistory
    let us := [Use.call 2 1, .other (.insert "2023" "voucher" "key" ["f", "g"] false true), .other .restart]
    (after history).temp.in_use = [] ∧ OneByOne us ∧ unspent (after history) = ["a", "b", "c"] ∧
      unspent (runUses us (after history)) = ["b", "c", "f", "g"] := by
  refine ⟨by decide +kernel, ?_, by decide +kernel, by decide +kernel⟩
  intro op hop
  simp only [List.mem_cons, reduceCtorEq, Use.other.injEq, List.not_mem_nil, or_false, false_or] at hop
  rcases hop with rfl | rfl <;> exact id

/-- C143 does not hold: of two operations at the same time, the first fails and gives its token back, and
the second succeeds.  The next token to be spent is the first in the backup, but the second is spent. -/
theorem C143_fails : ¬ C143_statement := by
  intro h
  have h := h exHistory [.getTokens .natural 1, .getTokens .natural 1, .discard ["b"], .reset ["a"]]
    (by
      intro op hop
      simp only [List.mem_cons, List.not_mem_nil, or_false] at hop
      rcases hop with rfl | rfl | rfl | rfl
      · exact rfl
      · exact rfl
      · exact trivial
      · exact trivial)
    (by decide +kernel) (by decide +kernel)
    (by
      intro op hop
      simp only [List.mem_cons, List.not_mem_nil, or_false] at hop
      rcases hop with rfl | rfl | rfl | rfl <;> exact trivial)
    "a" (by decide +kernel) (by decide +kernel)
  revert h
  unfold Separates
  decide +kernel

end ZKAP
