import Verif.Model.Decimal

namespace ZKAP

theorem digit_value_digit {d : Nat} (h : d < 10) : digit_value (digit d) = some d := by
  have : d = 0 ∨ d = 1 ∨ d = 2 ∨ d = 3 ∨ d = 4 ∨ d = 5 ∨ d = 6 ∨ d = 7 ∨ d = 8 ∨ d = 9 := by omega
  rcases this with rfl | rfl | rfl | rfl | rfl | rfl | rfl | rfl | rfl | rfl <;> rfl

theorem read_digits_append (acc : Nat) (a b : List Char) :
    read_digits acc (a ++ b) = (read_digits acc a).bind (fun n => read_digits n b) := by
  induction a generalizing acc with
  | nil => rfl
  | cons c cs ih =>
    simp only [List.cons_append, read_digits]
    cases digit_value c with
    | none => rfl
    | some d => exact ih _

theorem read_digits_decimal (n acc : Nat) :
    read_digits acc (decimal n) = some (acc * 10 ^ (decimal n).length + n) := by
  fun_induction decimal n generalizing acc with
  | case1 n h => simp [read_digits, digit_value_digit h]
  | case2 n h ih =>
    rw [read_digits_append, ih]
    simp only [Option.bind_some, read_digits, digit_value_digit (Nat.mod_lt n (by omega : 10 > 0)),
      List.length_append, List.length_cons, List.length_nil, Option.some.injEq, Nat.pow_succ,
      Nat.zero_add, Nat.add_mul, Nat.pow_zero, Nat.mul_one, Nat.one_mul]
    rw [← Nat.mul_assoc]
    omega

theorem decimal_ne_nil (n : Nat) : decimal n ≠ [] := by
  unfold decimal; split <;> simp

theorem read_nat_decimal (n : Nat) : read_nat (decimal n) = some n := by
  have h := read_digits_decimal n 0
  cases hd : decimal n with
  | nil => exact absurd hd (decimal_ne_nil n)
  | cons c cs => rw [hd] at h; simpa [read_nat] using h

theorem decimal_head (n : Nat) : ∃ d cs, d < 10 ∧ decimal n = digit d :: cs := by
  fun_induction decimal n with
  | case1 n h => exact ⟨n, [], h, rfl⟩
  | case2 n h ih =>
    obtain ⟨d, cs, hd, e⟩ := ih
    exact ⟨d, cs ++ [digit (n % 10)], hd, by rw [e]; rfl⟩

theorem digit_not_sign {d : Nat} (h : d < 10) : digit d ≠ '-' ∧ digit d ≠ '+' := by
  have : d = 0 ∨ d = 1 ∨ d = 2 ∨ d = 3 ∨ d = 4 ∨ d = 5 ∨ d = 6 ∨ d = 7 ∨ d = 8 ∨ d = 9 := by omega
  rcases this with rfl | rfl | rfl | rfl | rfl | rfl | rfl | rfl | rfl | rfl <;> decide

/-- `int(str(n)) == n`. -/
theorem int_str_str_int (n : Int) : int_str (str_int n) = .ok n := by
  unfold int_str str_int
  rw [String.toList_ofList]
  by_cases hn : n < 0
  · rw [if_pos hn]
    show (match read_nat (decimal n.natAbs) with
      | none => Except.error PyErr.valueError
      | some n => Except.ok (-(n : Int))) = _
    rw [read_nat_decimal]
    simp only [Except.ok.injEq]; omega
  · rw [if_neg hn]
    obtain ⟨d, cs, hd, e⟩ := decimal_head n.natAbs
    have h := read_nat_decimal n.natAbs
    rw [e] at h ⊢
    have := digit_not_sign hd
    split
    · rename_i h1; simp only [List.cons.injEq] at h1; exact absurd h1.1 this.1
    · rename_i h1; simp only [List.cons.injEq] at h1; exact absurd h1.1 this.2
    · rw [h]
      dsimp only
      congr 1; omega

theorem decimal_injective {a b : Nat} (h : decimal a = decimal b) : a = b := by
  have := read_nat_decimal a
  rw [h, read_nat_decimal] at this
  simpa using this.symm

end ZKAP
