import Verif.Lemmas.Calls
import Verif.Lemmas.Pricing
import Verif.Spec.Calls

/-! C167: only calls in the form of the protocol reach the methods of a storage server. -/
namespace ZKAP
open Spec

/-- C167: whatever a client calls, with whatever arguments, a method of the server gets it only if it is one of the
calls of the protocol and no number in it is negative. -/
def C167_statement : Prop :=
  ∀ name args, call_admitted name args = true → Called (0 ≤ ·) name args

/-- C167, but for the sign of numbers: the calls that reach a method are exactly those of the protocol. -/
theorem C167_form_partial (name : String) (args : List Wire) :
    call_admitted name args = true ↔ Called (fun _ => True) name args :=
  admitted_iff name args

/-- An allocation without a pass of a share of this size. -/
def exFreeUpload (size : Int) : List Wire :=
  [.list [], .bytes (List.replicate 16 1), .bytes (List.replicate 32 2), .bytes (List.replicate 32 3), .set [.int 0],
    .int size, .ref 7]

theorem exFreeUpload_called (P : Int → Prop) (size : Int) (h0 : P 0) (h : P size) (hs : size.natAbs < 2 ^ 64) :
    Called P "allocate_buckets" (exFreeUpload size) :=
  .allocate ⟨[], rfl, by decide, fun _ h => (nomatch h)⟩ ⟨_, rfl, by decide⟩ ⟨_, rfl, by decide⟩ ⟨_, rfl, by decide⟩
    ⟨_, rfl, by decide, fun x hx => ⟨0, by rw [List.mem_singleton.mp hx]; rfl, h0, by decide⟩⟩ ⟨size, rfl, h, hs⟩ ⟨_, rfl⟩

/-- C167 fails: sizes can be negative. -/
theorem C167_negative_fails : ¬ C167_statement := by
  intro h
  have := h _ _ ((admitted_iff _ _).mpr (exFreeUpload_called _ (-1) trivial trivial (by decide)))
  generalize hn : "allocate_buckets" = name at this
  generalize ha : exFreeUpload (-1) = args at this
  cases this with
  | allocate _ _ _ _ _ hs _ =>
    obtain ⟨n, hn, h0, -⟩ := hs
    unfold exFreeUpload at ha
    injection ha with _ ha; injection ha with _ ha; injection ha with _ ha; injection ha with _ ha
    injection ha with _ ha; injection ha with ha _
    rw [← ha] at hn
    injection hn with hn
    omega
  | _ => exact absurd hn (by decide)

/-- The price check lets a negative size pass: for each such size there is a call that reaches the method and is passed
on to the storage underneath without a pass. -/
theorem C167_negative_is_free_fails (pass_value : Int) (hv : 0 < pass_value) (size : Int) (h : size < 0)
    (hs : -2 ^ 64 < size) : call_admitted "allocate_buckets" (exFreeUpload size) = true ∧
      check_pass_quantity_for_write pass_value ⟨[], []⟩ [0] size = .ok () := by
  refine ⟨(admitted_iff _ _).mpr (exFreeUpload_called _ size trivial trivial (by omega)), ?_⟩
  unfold check_pass_quantity_for_write check_pass_quantity
  dsimp only
  rw [if_neg]
  rw [required_passes_eq _ hv]
  have h1 := passes_mono pass_value hv (Int.le_of_lt h)
  rw [passes_zero _ hv] at h1
  have h2 : total pass_value (List.replicate [(0 : Nat)].length size) = passes pass_value size + 0 := rfl
  rw [h2]
  show ¬ ((0 : Int) < _)
  omega

/-- An allocation in the form of the protocol. -/
example : call_admitted "allocate_buckets" (exFreeUpload 0) = true :=
  (C167_form_partial _ _).mpr (exFreeUpload_called _ 0 trivial trivial (by decide))

/-- A secret that is too short, a pass that is a number, one argument too many, and a method there is not. -/
example : call_admitted "add_lease" [.list [], .bytes [1], .bytes (List.replicate 31 2), .bytes (List.replicate 32 3)] = false ∧
    call_admitted "add_lease" [.list [.int 5], .bytes [1], .bytes (List.replicate 32 2), .bytes (List.replicate 32 3)] = false ∧
    call_admitted "get_buckets" [.bytes [1], .none] = false ∧ call_admitted "delete_share" [.bytes [1]] = false := by
  decide +kernel

end ZKAP
