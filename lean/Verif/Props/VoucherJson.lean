import Verif.Lemmas.VoucherJson

/-! Property of the JSON form of vouchers (C34). -/
namespace ZKAP
open Spec

/-- **C34**: reading back the JSON form of a voucher gives the same voucher, whatever its state.
(That `loads` undoes `dumps` is a property of Python's `json` module.) -/
theorem C34_voucher_json_round_trips (v : Voucher DateTime) (valid : ValidVoucher v) :
    voucher_from_json (voucher_to_json v) = .ok v := by
  obtain ⟨number, expected, created, state⟩ := v
  obtain ⟨h1, h2, h3, h4, h5⟩ := valid
  dsimp only at *
  have hc : check_number number = .ok number := by
    unfold check_number
    rw [if_pos (List.all_eq_true.mpr fun c hc => by simpa using h2 c hc), if_pos h1]
  have hp : json_positive (.int expected) = .ok expected := by
    unfold json_positive Json.asInt
    dsimp only
    rw [if_neg (by omega)]
    rfl
  cases created with
  | none =>
    simp [voucher_from_json, voucher_from_json_v1, voucher_to_json, Json.get, List.lookup_cons,
      json_str, state_round_trip state h5, hp, hc, created_from_json, bind, Except.bind]
  | some t =>
    simp [voucher_from_json, voucher_from_json_v1, voucher_to_json, Json.get, List.lookup_cons,
      json_str, state_round_trip state h5, hp, hc, created_from_json, json_datetime_iso (h4 t rfl), bind, Except.bind]

/-- **C34**: so different vouchers have different JSON forms. -/
theorem C34_voucher_json_distinct (v w : Voucher DateTime) (hv : ValidVoucher v) (hw : ValidVoucher w)
    (h : voucher_to_json v = voucher_to_json w) : v = w := by
  have h1 := C34_voucher_json_round_trips v hv
  rw [h, C34_voucher_json_round_trips w hw] at h1
  simpa using h1.symm

/-- **C34**, for the database: a time written by the store is read back as the same time, so
`Voucher.from_row` succeeds on every row the store writes. -/
theorem C34_stored_times_round_trip (t : DateTime) (valid : Valid t) :
    parse_datetime ' ' (isoformat t) = .ok t := parse_iso_space valid

/-- **C34**, for the database: the three persistent states are read back from the row the store
writes for them. -/
theorem C34_rows_read_back (number : String) (expected counter : Nat) (created finished : DateTime)
    (n : Nat) (h1 : Valid created) (h2 : Valid finished) :
    let row (state : String) (finished : Option String) (token_count : Option Nat) : VoucherRow :=
      ⟨number, isoformat created, state, finished, token_count, counter, expected, 0⟩
    Voucher.from_row (parse_datetime ' ') (row "pending" none none) = .ok ⟨number, expected, some created, .pending counter⟩ ∧
    Voucher.from_row (parse_datetime ' ')
      (row "redeemed" (some (isoformat finished)) (some n)) =
        .ok ⟨number, expected, some created, .redeemed finished n⟩ ∧
    Voucher.from_row (parse_datetime ' ')
      (row "double-spend" (some (isoformat finished)) none) =
        .ok ⟨number, expected, some created, .doubleSpend finished⟩ := by
  refine ⟨?_, ?_, ?_⟩ <;>
    simp [Voucher.from_row, state_from_row, parse_iso_space h1, parse_iso_space h2]

/-- A voucher being redeemed, with microseconds in one time and not in the other. -/
def exVoucher : Voucher DateTime :=
  ⟨"AAAAAAAAAAAAAAAAAAAAAAAAAAAAAAAAAAAAAAAAAAA=", 32768, some ⟨2024, 2, 29, 23, 59, 59, 0⟩,
   .redeeming ⟨2024, 3, 1, 0, 0, 0, 1500⟩ 3⟩

example : ValidVoucher exVoucher := by
  refine ⟨by decide, by decide +kernel, by decide, ?_, ?_⟩
  · intro t ht
    simp only [exVoucher, Option.some.injEq] at ht
    subst ht
    exact (check_datetime_iff _).mp (by decide)
  · exact (check_datetime_iff _).mp (by decide)

example : isoformatT ⟨2024, 3, 1, 0, 0, 0, 1500⟩ = "2024-03-01T00:00:00.001500+00:00" := by
  decide +kernel
example : parse_datetime 'T' "2023-02-29T00:00:00+00:00" = .error .valueError := by decide +kernel

end ZKAP
