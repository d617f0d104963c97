import Verif.Spec.Timestamp

/-! Textual and chronological order of timestamps agree. -/
namespace ZKAP
open Spec

theorem digit_lt {a b : Nat} (ha : a < 10) (hb : b < 10) : digit a < digit b ↔ a < b := by
  have : ∀ a b : Fin 10, digit a < digit b ↔ a.val < b.val := by decide
  exact this ⟨a, ha⟩ ⟨b, hb⟩

theorem digit_inj {a b : Nat} (ha : a < 10) (hb : b < 10) : digit a = digit b ↔ a = b := by
  have : ∀ a b : Fin 10, digit a = digit b ↔ a.val = b.val := by decide
  exact this ⟨a, ha⟩ ⟨b, hb⟩

theorem padded_lt (w : Nat) {n m : Nat} (hn : n < 10 ^ w) (hm : m < 10 ^ w) (r s : List Char) :
    padded w n ++ r < padded w m ++ s ↔ n < m ∨ (n = m ∧ r < s) := by
  induction w generalizing n m with
  | zero =>
    have : n = 0 := by simpa using hn
    have : m = 0 := by simpa using hm
    subst_vars
    simp [padded]
  | succ w ih =>
    simp only [padded, List.cons_append, List.cons_lt_cons_iff]
    have hp : 0 < 10 ^ w := Nat.pow_pos (by omega)
    have hn10 : n / 10 ^ w < 10 := by
      rw [Nat.div_lt_iff_lt_mul hp]; rw [Nat.pow_succ] at hn; omega
    have hm10 : m / 10 ^ w < 10 := by
      rw [Nat.div_lt_iff_lt_mul hp]; rw [Nat.pow_succ] at hm; omega
    rw [Nat.mod_eq_of_lt hn10, Nat.mod_eq_of_lt hm10, digit_lt hn10 hm10, digit_inj hn10 hm10,
      ih (Nat.mod_lt _ hp) (Nat.mod_lt _ hp)]
    have hn' := Nat.div_add_mod n (10 ^ w)
    have hm' := Nat.div_add_mod m (10 ^ w)
    have hnl := Nat.mod_lt n hp
    have hml := Nat.mod_lt m hp
    generalize n / 10 ^ w = a at *
    generalize m / 10 ^ w = b at *
    generalize n % 10 ^ w = c at *
    generalize m % 10 ^ w = d at *
    generalize 10 ^ w = p at *
    constructor
    · rintro (h | ⟨rfl, h | ⟨rfl, h⟩⟩)
      · left
        have : p * (a + 1) ≤ p * b := Nat.mul_le_mul_left _ h
        rw [Nat.mul_add] at this
        omega
      · left; omega
      · right; exact ⟨by omega, h⟩
    · rintro (h | ⟨h, hr⟩)
      · rcases Nat.lt_trichotomy a b with hab | rfl | hab
        · exact .inl hab
        · exact .inr ⟨rfl, .inl (by omega)⟩
        · exfalso
          have : p * (b + 1) ≤ p * a := Nat.mul_le_mul_left _ hab
          rw [Nat.mul_add] at this
          omega
      · right
        have hab : a = b := by
          rcases Nat.lt_trichotomy a b with hab | hab | hab
          · exfalso
            have : p * (a + 1) ≤ p * b := Nat.mul_le_mul_left _ hab
            rw [Nat.mul_add] at this
            omega
          · exact hab
          · exfalso
            have : p * (b + 1) ≤ p * a := Nat.mul_le_mul_left _ hab
            rw [Nat.mul_add] at this
            omega
        subst hab
        exact ⟨rfl, .inr ⟨by omega, hr⟩⟩

theorem padded_cons_lt (w : Nat) {n m : Nat} (hn : n < 10 ^ w) (hm : m < 10 ^ w) (c : Char)
    (r s : List Char) :
    padded w n ++ c :: r < padded w m ++ c :: s ↔ n < m ∨ (n = m ∧ r < s) := by
  rw [padded_lt w hn hm]
  have : (c :: r < c :: s) ↔ r < s := by
    rw [List.cons_lt_cons_iff]
    have : ¬ c < c := Char.lt_irrefl c
    simp [this]
  rw [this]

theorem daysInMonth_le (y m : Nat) : daysInMonth y m ≤ 31 := by
  unfold daysInMonth
  split <;> (try split) <;> omega

/-- Order of the fields, most significant first. -/
def fieldsLt (a b : DateTime) : Prop :=
  a.year < b.year ∨ (a.year = b.year ∧ (a.month < b.month ∨ (a.month = b.month ∧
    (a.day < b.day ∨ (a.day = b.day ∧ (a.hour < b.hour ∨ (a.hour = b.hour ∧
      (a.minute < b.minute ∨ (a.minute = b.minute ∧ (a.second < b.second ∨
        (a.second = b.second ∧ a.microsecond < b.microsecond)))))))))))

theorem micro_lt {a b : Nat} (ha : a < 1000000) (hb : b < 1000000) :
    ((if a = 0 then ['+', '0', '0', ':', '0', '0']
       else '.' :: (padded 6 a ++ ['+', '0', '0', ':', '0', '0'])) <
     (if b = 0 then ['+', '0', '0', ':', '0', '0']
       else '.' :: (padded 6 b ++ ['+', '0', '0', ':', '0', '0']))) ↔ a < b := by
  by_cases h1 : a = 0
  · by_cases h2 : b = 0
    · subst h1; subst h2
      simp only [if_true, Nat.lt_irrefl, iff_false]
      exact List.lt_irrefl _
    · rw [if_pos h1, if_neg h2]
      rw [List.cons_lt_cons_iff]
      have : '+' < '.' := by decide
      simp only [this, true_or, true_iff]
      omega
  · by_cases h2 : b = 0
    · rw [if_neg h1, if_pos h2, List.cons_lt_cons_iff]
      have h3 : ¬ '.' < '+' := by decide
      have h4 : ¬ '.' = '+' := by decide
      simp only [h3, h4, false_and, or_self, false_iff]
      omega
    · rw [if_neg h1, if_neg h2, List.cons_lt_cons_iff]
      have : ¬ '.' < '.' := by decide
      simp only [this, true_and, false_or]
      rw [padded_lt 6 (by simpa using ha) (by simpa using hb)]
      have : ¬ ['+', '0', '0', ':', '0', '0'] < ['+', '0', '0', ':', '0', '0'] := List.lt_irrefl _
      simp [this]

theorem isoformat_lt_iff_fields {a b : DateTime} (ha : Valid a) (hb : Valid b) :
    isoformat a < isoformat b ↔ fieldsLt a b := by
  rw [String.lt_iff]
  unfold isoformat
  rw [String.toList_ofList, String.toList_ofList]
  unfold isoformat_chars fieldsLt
  have da := daysInMonth_le a.year a.month
  have db := daysInMonth_le b.year b.month
  have h1 := ha.year; have h2 := ha.month; have h3 := ha.day; have h4 := ha.hour
  have h5 := ha.minute; have h6 := ha.second; have h7 := ha.microsecond
  have k1 := hb.year; have k2 := hb.month; have k3 := hb.day; have k4 := hb.hour
  have k5 := hb.minute; have k6 := hb.second; have k7 := hb.microsecond
  rw [padded_cons_lt 4 (by omega) (by omega), padded_cons_lt 2 (by omega) (by omega),
    padded_cons_lt 2 (by omega) (by omega), padded_cons_lt 2 (by omega) (by omega),
    padded_cons_lt 2 (by omega) (by omega), padded_lt 2 (by omega) (by omega), micro_lt h7 k7]

/-! ### The calendar -/

theorem daysBeforeMonth_mono (y : Nat) {m m' : Nat} (h1 : 1 ≤ m) (h : m < m') :
    daysBeforeMonth y m + daysInMonth y m ≤ daysBeforeMonth y m' := by
  induction m' with
  | zero => omega
  | succ k ih =>
    have hk : 1 ≤ k := by omega
    obtain ⟨j, rfl⟩ : ∃ j, k = j + 1 := ⟨k - 1, by omega⟩
    rw [show daysBeforeMonth y (j + 1 + 1) = daysBeforeMonth y (j + 1) + daysInMonth y (j + 1) from rfl]
    rcases Nat.lt_or_ge m (j + 1) with hlt | hge
    · have := ih hlt; omega
    · have : m = j + 1 := by omega
      subst this; omega

theorem yearLength (y m d : Nat) (hm : 1 ≤ m ∧ m ≤ 12) (hd : d ≤ daysInMonth y m) :
    daysBeforeMonth y m + d ≤ (if leap y then 366 else 365) := by
  have h13 : daysBeforeMonth y 13 = if leap y then 366 else 365 := by
    simp only [daysBeforeMonth, daysInMonth]
    split <;> omega
  have := daysBeforeMonth_mono y hm.1 (show m < 13 by omega)
  omega

theorem daysBeforeYear_mono {y y' : Nat} (h1 : 1 ≤ y) (h : y < y') :
    daysBeforeYear y + (if leap y then 366 else 365) ≤ daysBeforeYear y' := by
  induction y' with
  | zero => omega
  | succ k ih =>
    obtain ⟨j, rfl⟩ : ∃ j, k = j + 1 := ⟨k - 1, by omega⟩
    rw [show daysBeforeYear (j + 1 + 1) = daysBeforeYear (j + 1) +
      (if leap (j + 1) then 366 else 365) from rfl]
    rcases Nat.lt_or_ge y (j + 1) with hlt | hge
    · have := ih hlt; omega
    · have : y = j + 1 := by omega
      subst this; omega

theorem fields_lt_instant {a b : DateTime} (ha : Valid a) (hb : Valid b) (h : fieldsLt a b) :
    instant a < instant b := by
  have h4 := ha.hour; have h5 := ha.minute; have h6 := ha.second; have h7 := ha.microsecond
  have k3 := hb.day
  have ya := yearLength a.year a.month a.day ha.month ha.day.2
  have hday : daysBeforeYear a.year + daysBeforeMonth a.year a.month + a.day <
        daysBeforeYear b.year + daysBeforeMonth b.year b.month + b.day →
      instant a < instant b := by
    intro hd
    unfold instant
    omega
  rcases h with h | ⟨hy, h⟩
  · have := daysBeforeYear_mono ha.year.1 h
    exact hday (by omega)
  · rcases h with h | ⟨hm, h⟩
    · have := daysBeforeMonth_mono a.year ha.month.1 h
      have h3 := ha.day
      apply hday
      rw [hy] at this h3 ⊢
      omega
    · unfold instant
      rw [hy, hm]
      omega

theorem fields_total {a b : DateTime} (h : ¬ fieldsLt a b) (h' : ¬ fieldsLt b a) : a = b := by
  unfold fieldsLt at h h'
  cases a; cases b
  simp only [DateTime.mk.injEq]
  simp only at h h'
  omega

theorem isoformat_lt_iff {a b : DateTime} (ha : Valid a) (hb : Valid b) :
    isoformat a < isoformat b ↔ instant a < instant b := by
  rw [isoformat_lt_iff_fields ha hb]
  constructor
  · exact fields_lt_instant ha hb
  · intro h
    by_cases h1 : fieldsLt a b
    · exact h1
    · by_cases h2 : fieldsLt b a
      · have := fields_lt_instant hb ha h2; omega
      · rw [fields_total h1 h2] at h; omega

end ZKAP
