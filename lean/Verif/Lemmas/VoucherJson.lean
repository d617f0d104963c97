import Verif.Spec.VoucherJson
import Verif.Lemmas.Decimal

namespace ZKAP
open Spec

theorem parse_fixed_padded (w acc n : Nat) (hn : n < 10 ^ w) (r : List Char) :
    parse_fixed w acc (padded w n ++ r) = some (acc * 10 ^ w + n, r) := by
  induction w generalizing acc n with
  | zero =>
    have : n = 0 := by simpa using hn
    subst this
    simp [padded, parse_fixed]
  | succ w ih =>
    have hp : 0 < 10 ^ w := Nat.pow_pos (by omega)
    have h10 : n / 10 ^ w < 10 := by
      rw [Nat.div_lt_iff_lt_mul hp]; rw [Nat.pow_succ] at hn; omega
    simp only [padded, List.cons_append, parse_fixed]
    rw [Nat.mod_eq_of_lt h10, digit_value_digit h10]
    dsimp only
    rw [ih _ _ (Nat.mod_lt _ hp)]
    have := Nat.div_add_mod n (10 ^ w)
    congr 2
    rw [Nat.pow_succ, Nat.add_mul]
    have e1 : acc * 10 * 10 ^ w = acc * (10 ^ w * 10) := by
      rw [Nat.mul_assoc, Nat.mul_comm 10]
    rw [e1, Nat.mul_comm (n / 10 ^ w)]
    omega

theorem parse_char_cons (c : Char) (r : List Char) : parse_char c (c :: r) = some r := by
  simp [parse_char]

theorem month_days_eq (y m : Nat) (h1 : 1 ≤ m) (h2 : m ≤ 12) : month_days y m = daysInMonth y m := by
  have : m = 1 ∨ m = 2 ∨ m = 3 ∨ m = 4 ∨ m = 5 ∨ m = 6 ∨ m = 7 ∨ m = 8 ∨ m = 9 ∨ m = 10 ∨ m = 11 ∨
    m = 12 := by omega
  rcases this with rfl | rfl | rfl | rfl | rfl | rfl | rfl | rfl | rfl | rfl | rfl | rfl <;>
    simp [month_days, daysInMonth, leap]

theorem check_datetime_iff (t : DateTime) : check_datetime t = true ↔ Valid t := by
  unfold check_datetime
  simp only [decide_eq_true_eq]
  constructor
  · rintro ⟨h1, h2, h3, h4, h5, h6, h7, h8, h9, h10⟩
    rw [month_days_eq _ _ h3 h4] at h6
    exact ⟨⟨h1, h2⟩, ⟨h3, h4⟩, ⟨h5, h6⟩, h7, h8, h9, h10⟩
  · rintro ⟨⟨h1, h2⟩, ⟨h3, h4⟩, ⟨h5, h6⟩, h7, h8, h9, h10⟩
    rw [← month_days_eq _ _ h3 h4] at h6
    exact ⟨h1, h2, h3, h4, h5, h6, h7, h8, h9, h10⟩

theorem daysInMonth_small (y m : Nat) : daysInMonth y m ≤ 31 := by
  unfold daysInMonth
  split <;> (try split) <;> omega

theorem parse_iso (delimiter : Char) (t : DateTime) (h : Valid t) :
    parse_datetime delimiter (String.ofList (iso_chars delimiter t)) = .ok t := by
  obtain ⟨⟨h1, h2⟩, ⟨h3, h4⟩, ⟨h5, h6⟩, h7, h8, h9, h10⟩ := id h
  have hd := daysInMonth_small t.year t.month
  unfold parse_datetime
  rw [String.toList_ofList]
  have hf : ∀ r, parse_fields delimiter (padded 4 t.year ++ '-' :: (padded 2 t.month ++ '-' ::
      (padded 2 t.day ++ delimiter :: (padded 2 t.hour ++ ':' :: (padded 2 t.minute ++ ':' ::
        (padded 2 t.second ++ r)))))) = some ({ t with microsecond := 0 }, r) := by
    intro r
    unfold parse_fields
    rw [parse_fixed_padded 4 0 _ (by omega)]
    simp only [Option.bind_some, parse_char_cons]
    rw [parse_fixed_padded 2 0 _ (by omega)]
    simp only [Option.bind_some, parse_char_cons]
    rw [parse_fixed_padded 2 0 _ (by omega)]
    simp only [Option.bind_some, parse_char_cons]
    rw [parse_fixed_padded 2 0 _ (by omega)]
    simp only [Option.bind_some, parse_char_cons]
    rw [parse_fixed_padded 2 0 _ (by omega)]
    simp only [Option.bind_some, parse_char_cons]
    rw [parse_fixed_padded 2 0 _ (by omega)]
    simp
  unfold iso_chars
  rw [hf]
  simp only [Option.bind_some]
  by_cases hm : t.microsecond = 0
  · rw [if_pos hm]
    have : ({ t with microsecond := 0 } : DateTime) = t := by cases t; simp_all
    rw [this]
    simp only [parse_fraction, parse_char, Char.reduceEq, if_false]
    rw [if_pos ⟨trivial, (check_datetime_iff t).mpr h⟩]
  · rw [if_neg hm]
    simp only [parse_fraction, parse_char_cons]
    rw [parse_fixed_padded 6 0 _ (by omega)]
    simp only [Option.bind_some, Nat.zero_mul, Nat.zero_add]
    rw [if_pos ⟨trivial, (check_datetime_iff t).mpr h⟩]

theorem parse_isoT {t : DateTime} (h : Valid t) : parse_datetime 'T' (isoformatT t) = .ok t :=
  parse_iso 'T' t h

theorem parse_iso_space {t : DateTime} (h : Valid t) : parse_datetime ' ' (isoformat t) = .ok t :=
  parse_iso ' ' t h

theorem json_count_int (n : Nat) : json_count (.int n) = .ok n := by
  unfold json_count Json.asInt
  dsimp only
  rw [if_neg (by omega)]
  rfl

theorem json_datetime_iso {t : DateTime} (h : Valid t) : json_datetime (.str (isoformatT t)) = .ok t :=
  parse_isoT h

theorem state_round_trip (s : VoucherState DateTime) (h : ValidState s) :
    state_from_json (state_to_json s) = .ok s := by
  cases s with
  | pending counter =>
    simp [state_from_json, state_to_json, Json.get, List.lookup_cons, json_count_int, bind, Except.bind]
  | redeeming started counter =>
    simp [state_from_json, state_to_json, Json.get, List.lookup_cons, json_count_int,
      json_datetime_iso h, bind, Except.bind]
  | redeemed finished token_count =>
    simp [state_from_json, state_to_json, Json.get, List.lookup_cons, json_count_int,
      json_datetime_iso h, bind, Except.bind]
  | doubleSpend finished =>
    simp [state_from_json, state_to_json, Json.get, List.lookup_cons, json_datetime_iso h, bind,
      Except.bind]
  | unpaid finished =>
    simp [state_from_json, state_to_json, Json.get, List.lookup_cons, json_datetime_iso h, bind,
      Except.bind]
  | error finished details =>
    simp [state_from_json, state_to_json, Json.get, List.lookup_cons, json_datetime_iso h, json_str,
      bind, Except.bind]

end ZKAP
