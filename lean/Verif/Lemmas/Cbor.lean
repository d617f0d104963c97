import Verif.Model.Cbor
import Verif.Spec.Timestamp

/-! Reading what was written, and reading only part of it. -/
namespace ZKAP

theorem byte_of {n : Nat} (h : n < 256) : (UInt8.ofNat n).toNat = n := by
  rw [UInt8.toNat_ofNat', Nat.mod_eq_of_lt h]

/-! ### UTF-8 -/

theorem utf8_one (a : UInt8) (r : Bytes) (h : a.toNat < 128) :
    utf8_decode (a :: r) = (utf8_decode r).map (a.toNat :: ·) := by
  rw [utf8_decode.eq_def]
  simp only
  rw [if_pos h]

theorem utf8_two (a b : UInt8) (r : Bytes) (h : 194 ≤ a.toNat ∧ a.toNat ≤ 223)
    (hb : 128 ≤ b.toNat ∧ b.toNat ≤ 191) :
    utf8_decode (a :: b :: r) =
      (utf8_decode r).map (((a.toNat - 192) * 64 + (b.toNat - 128)) :: ·) := by
  rw [utf8_decode.eq_def]
  simp only
  rw [if_neg (by omega), if_pos (by simpa using h), if_pos (by simpa [utf8_cont] using hb)]

theorem utf8_three (a b c : UInt8) (r : Bytes) (h : 224 ≤ a.toNat ∧ a.toNat ≤ 239)
    (hb : 128 ≤ b.toNat ∧ b.toNat ≤ 191) (hc : 128 ≤ c.toNat ∧ c.toNat ≤ 191)
    (h1 : a.toNat = 224 → 160 ≤ b.toNat) (h2 : a.toNat = 237 → b.toNat ≤ 159) :
    utf8_decode (a :: b :: c :: r) =
      (utf8_decode r).map
        (((a.toNat - 224) * 4096 + (b.toNat - 128) * 64 + (c.toNat - 128)) :: ·) := by
  rw [utf8_decode.eq_def]
  simp only
  rw [if_neg (by omega), if_neg (by simp only [Bool.and_eq_true, decide_eq_true_eq]; omega),
    if_pos (by simpa using h),
    if_pos (by simp only [utf8_cont, Bool.and_eq_true, Bool.or_eq_true, bne_iff_ne, decide_eq_true_eq]; omega)]

theorem utf8_four (a b c d : UInt8) (r : Bytes) (h : 240 ≤ a.toNat ∧ a.toNat ≤ 244)
    (hb : 128 ≤ b.toNat ∧ b.toNat ≤ 191) (hc : 128 ≤ c.toNat ∧ c.toNat ≤ 191)
    (hd : 128 ≤ d.toNat ∧ d.toNat ≤ 191)
    (h1 : a.toNat = 240 → 144 ≤ b.toNat) (h2 : a.toNat = 244 → b.toNat ≤ 143) :
    utf8_decode (a :: b :: c :: d :: r) =
      (utf8_decode r).map (((a.toNat - 240) * 262144 + (b.toNat - 128) * 4096
        + (c.toNat - 128) * 64 + (d.toNat - 128)) :: ·) := by
  rw [utf8_decode.eq_def]
  simp only
  rw [if_neg (by omega), if_neg (by simp only [Bool.and_eq_true, decide_eq_true_eq]; omega),
    if_neg (by simp only [Bool.and_eq_true, decide_eq_true_eq]; omega),
    if_pos (by simp only [utf8_cont, Bool.and_eq_true, Bool.or_eq_true, bne_iff_ne, decide_eq_true_eq]; omega)]

theorem utf8_point_decode (c : Nat) (hc : c.isValidChar) (r : Bytes) :
    utf8_decode ((utf8_point c).map UInt8.ofNat ++ r) = (utf8_decode r).map (c :: ·) := by
  have hc' : c < 55296 ∨ (57343 < c ∧ c < 1114112) := hc
  unfold utf8_point
  split
  · rename_i h
    have ha := byte_of (n := c) (by omega)
    refine (utf8_one _ _ (by omega)).trans ?_
    rw [ha]
    rfl
  split
  · have ha := byte_of (n := 192 + c / 64) (by omega)
    have hb := byte_of (n := 128 + c % 64) (by omega)
    refine (utf8_two _ _ _ (by omega) (by omega)).trans ?_
    rw [ha, hb, show (192 + c / 64 - 192) * 64 + (128 + c % 64 - 128) = c by omega]
    rfl
  split
  · have ha := byte_of (n := 224 + c / 4096) (by omega)
    have hb := byte_of (n := 128 + c / 64 % 64) (by omega)
    have hd := byte_of (n := 128 + c % 64) (by omega)
    refine (utf8_three _ _ _ _ (by omega) (by omega) (by omega) (by omega) (by omega)).trans ?_
    rw [ha, hb, hd, show (224 + c / 4096 - 224) * 4096 + (128 + c / 64 % 64 - 128) * 64 +
      (128 + c % 64 - 128) = c by omega]
    rfl
  · have ha := byte_of (n := 240 + c / 262144) (by omega)
    have hb := byte_of (n := 128 + c / 4096 % 64) (by omega)
    have hd := byte_of (n := 128 + c / 64 % 64) (by omega)
    have he := byte_of (n := 128 + c % 64) (by omega)
    refine (utf8_four _ _ _ _ _ (by omega) (by omega) (by omega) (by omega) (by omega) (by omega)).trans ?_
    rw [ha, hb, hd, he, show (240 + c / 262144 - 240) * 262144 + (128 + c / 4096 % 64 - 128) * 4096 +
      (128 + c / 64 % 64 - 128) * 64 + (128 + c % 64 - 128) = c by omega]
    rfl

theorem utf8_points_decode (cs : List Char) :
    utf8_decode (((cs.map Char.toNat).flatMap utf8_point).map UInt8.ofNat) = some (cs.map Char.toNat) := by
  induction cs with
  | nil => simp [utf8_decode]
  | cons c cs ih =>
    simp only [List.map_cons, List.flatMap_cons, List.map_append]
    rw [utf8_point_decode c.toNat c.valid, ih]
    rfl

theorem points_back (cs : List Char) : (cs.map Char.toNat).map Char.ofNat = cs := by
  induction cs with
  | nil => rfl
  | cons c cs ih => simp only [List.map_cons, ih, Char.ofNat_toNat]

/-- Text survives UTF-8. -/
theorem cbor_text_encode (s : String) : cbor_text (utf8_encode s) = .ok (.text s) := by
  unfold cbor_text utf8_encode points_of
  rw [utf8_points_decode]
  simp only [of_points, points_back, String.ofList_toList]

theorem utf8_point_length (c : Nat) : (utf8_point c).length ≤ 4 := by
  unfold utf8_point
  repeat' split
  all_goals simp

theorem utf8_encode_length (s : String) : (utf8_encode s).length ≤ 4 * s.toList.length := by
  unfold utf8_encode points_of
  rw [List.length_map]
  induction s.toList with
  | nil => simp
  | cons c cs ih =>
    simp only [List.map_cons, List.flatMap_cons, List.length_append, List.length_cons]
    have := utf8_point_length c.toNat
    omega

/-! ### Heads -/

theorem cbor_be_length (w n : Nat) : (cbor_be w n).length = w := by
  induction w generalizing n with
  | zero => rfl
  | succ w ih => simp only [cbor_be, List.length_cons, ih]

theorem of_be_acc (bs : Bytes) (acc : Nat) :
    bs.foldl (fun acc b => acc * 256 + b.toNat) acc = acc * 256 ^ bs.length + cbor_of_be bs := by
  unfold cbor_of_be
  induction bs generalizing acc with
  | nil => simp
  | cons b bs ih =>
    simp only [List.foldl_cons, List.length_cons]
    rw [ih (acc * 256 + b.toNat), ih (0 * 256 + b.toNat), Nat.pow_succ]
    rw [Nat.add_mul, Nat.zero_mul, Nat.zero_add, Nat.mul_assoc, Nat.mul_comm 256]
    omega

theorem cbor_of_be_be (w n : Nat) (h : n < 256 ^ w) : cbor_of_be (cbor_be w n) = n := by
  induction w generalizing n with
  | zero => simp [cbor_be, cbor_of_be] at *; omega
  | succ w ih =>
    have hp : 0 < 256 ^ w := Nat.pow_pos (by omega)
    have hd : n / 256 ^ w < 256 := by
      rw [Nat.div_lt_iff_lt_mul hp]; rw [Nat.pow_succ] at h; omega
    have he : cbor_of_be (cbor_be (w + 1) n) =
        (cbor_be w (n % 256 ^ w)).foldl (fun acc b => acc * 256 + b.toNat)
          (0 * 256 + (UInt8.ofNat (n / 256 ^ w % 256)).toNat) := rfl
    rw [he, of_be_acc, ih _ (Nat.mod_lt _ hp), cbor_be_length, Nat.mod_eq_of_lt hd, byte_of hd]
    have := Nat.div_add_mod n (256 ^ w)
    rw [Nat.zero_mul, Nat.zero_add, Nat.mul_comm]
    omega

theorem cbor_take_append (s r : Bytes) : cbor_take s.length (s ++ r) = .ok (s, r) := by
  unfold cbor_take
  rw [if_neg (by simp), List.take_left, List.drop_left]

theorem cbor_take_short {w : Nat} {p : Bytes} (h : p.length < w) : cbor_take w p = .error cbor_eof := by
  unfold cbor_take
  rw [if_pos h]

/-- What the head of a value is. -/
structure Head (major n : Nat) (b : UInt8) (tail : Bytes) : Prop where
  major : b.toNat / 32 = major
  whole : ∀ r, cbor_argument (b.toNat % 32) (tail ++ r) = .ok (n, r)
  short : ∀ p : Bytes, p.length < tail.length → ∃ e, cbor_argument (b.toNat % 32) p = .error e

theorem head_long (major n k : Nat) (hm : major < 8) (hk : k < 4) (hn : n < 256 ^ (2 ^ k)) :
    Head major n (UInt8.ofNat (major * 32 + (24 + k))) (cbor_be (2 ^ k) n) := by
  have hb : (UInt8.ofNat (major * 32 + (24 + k))).toNat = major * 32 + (24 + k) := byte_of (by omega)
  have hmod : (major * 32 + (24 + k)) % 32 = 24 + k := by omega
  refine ⟨by rw [hb]; omega, fun r => ?_, fun p hp => ?_⟩
  · rw [hb, hmod]
    unfold cbor_argument
    rw [if_neg (by omega), if_pos (by omega), Nat.add_sub_cancel_left]
    have := cbor_take_append (cbor_be (2 ^ k) n) r
    rw [cbor_be_length] at this
    rw [this]
    simp only [cbor_of_be_be _ _ hn]
  · rw [hb, hmod]
    rw [cbor_be_length] at hp
    unfold cbor_argument
    rw [if_neg (by omega), if_pos (by omega), Nat.add_sub_cancel_left, cbor_take_short hp]
    exact ⟨_, rfl⟩

theorem cbor_head_spec (major n : Nat) (hm : major < 8) (hn : n < 2 ^ 64) :
    ∃ b tail, cbor_head major n = b :: tail ∧ Head major n b tail := by
  unfold cbor_head
  split
  · rename_i h
    refine ⟨_, _, rfl, ?_⟩
    have hb : (UInt8.ofNat (major * 32 + n)).toNat = major * 32 + n := byte_of (by omega)
    refine ⟨by rw [hb]; omega, fun r => ?_, fun p hp => (Nat.not_lt_zero _ hp).elim⟩
    rw [hb, show (major * 32 + n) % 32 = n by omega]
    unfold cbor_argument
    rw [if_pos h]
    rfl
  split
  · exact ⟨_, _, rfl, head_long major n 0 hm (by omega) (by omega)⟩
  split
  · exact ⟨_, _, rfl, head_long major n 1 hm (by omega) (by omega)⟩
  split
  · exact ⟨_, _, rfl, head_long major n 2 hm (by omega) (by omega)⟩
  · exact ⟨_, _, rfl, head_long major n 3 hm (by omega) (by omega)⟩

/-! ### Timestamps -/

theorem digit_isDigit {d : Nat} (h : d < 10) : (digit d).isDigit = true := by
  have : ∀ d : Fin 10, (digit d).isDigit = true := by decide
  exact this ⟨d, h⟩

theorem digit_toNat {d : Nat} (h : d < 10) : (digit d).toNat - 48 = d := by
  have : ∀ d : Fin 10, (digit d).toNat - 48 = d.val := by decide
  exact this ⟨d, h⟩

theorem take_digits_padded (w n acc : Nat) (hn : n < 10 ^ w) (r : List Char) :
    take_digits w acc (padded w n ++ r) = some (acc * 10 ^ w + n, r) := by
  induction w generalizing n acc with
  | zero =>
    have : n = 0 := by simpa using hn
    simp [padded, take_digits, this]
  | succ w ih =>
    have hp : 0 < 10 ^ w := Nat.pow_pos (by omega)
    have hd : n / 10 ^ w < 10 := by
      rw [Nat.div_lt_iff_lt_mul hp]; rw [Nat.pow_succ] at hn; omega
    simp only [padded, List.cons_append, take_digits]
    rw [Nat.mod_eq_of_lt hd, if_pos (digit_isDigit hd), ih _ _ (Nat.mod_lt _ hp), digit_toNat hd]
    have := Nat.div_add_mod n (10 ^ w)
    rw [Nat.add_mul, Nat.pow_succ, Nat.mul_assoc, Nat.mul_comm 10, Nat.add_assoc, Nat.mul_comm (n / 10 ^ w), this]

theorem padded_digits (w n : Nat) : ∀ c ∈ padded w n, c.isDigit = true := by
  induction w generalizing n with
  | zero => intro c hc; exact absurd hc List.not_mem_nil
  | succ w ih =>
    intro c hc
    rcases List.mem_cons.mp hc with rfl | hc
    · exact digit_isDigit (Nat.mod_lt _ (by omega))
    · exact ih _ c hc

theorem padded_length (w n : Nat) : (padded w n).length = w := by
  induction w generalizing n with
  | zero => rfl
  | succ w ih => simp only [padded, List.length_cons, ih]

theorem takeWhile_all {α} (p : α → Bool) (a b : List α) (c : α) (ha : ∀ x ∈ a, p x = true) (hc : p c = false) :
    (a ++ c :: b).takeWhile p = a ∧ (a ++ c :: b).dropWhile p = c :: b := by
  induction a with
  | nil => simp [hc]
  | cons x a ih =>
    have hx := ha x List.mem_cons_self
    have := ih fun y hy => ha y (List.mem_cons_of_mem _ hy)
    simp only [List.cons_append, List.takeWhile_cons, List.dropWhile_cons, hx, if_true, this.1, this.2]
    exact ⟨trivial, trivial⟩

theorem read_fraction_stamp (m : Nat) (hm : m < 1000000) :
    read_fraction (if m = 0 then ['Z'] else '.' :: (padded 6 m ++ ['Z'])) = some m := by
  by_cases h0 : m = 0
  · subst h0; rfl
  · rw [if_neg h0]
    unfold read_fraction
    obtain ⟨ht, hd⟩ := takeWhile_all Char.isDigit (padded 6 m) [] 'Z' (padded_digits 6 m) rfl
    simp only [ht, hd]
    rw [if_neg (by intro h; have := padded_length 6 m; rw [h] at this; exact nomatch this),
      if_pos (.inl trivial), List.take_of_length_le (by rw [padded_length]; exact Nat.le_refl _)]
    have := take_digits_padded 6 m 0 hm (List.replicate (6 - (padded 6 m).length) '0')
    rw [this]
    simp

theorem datetime_valid_iff (t : DateTime) : datetime_valid t = true ↔ Spec.Valid t := by
  unfold datetime_valid
  have hd : days_in_month t.year t.month = Spec.daysInMonth t.year t.month := by
    unfold days_in_month Spec.daysInMonth Spec.leap
    simp only [decide_eq_true_eq]
    generalize t.month = m
    match m with
    | 0 | 1 | 2 | 3 | 4 | 5 | 6 | 7 | 8 | 9 | 10 | 11 | 12 | n + 13 => rfl
  rw [decide_eq_true_eq, hd]
  constructor
  · rintro ⟨a, b, c, d, e, f, g⟩; exact ⟨a, b, c, d, e, f, g⟩
  · rintro ⟨a, b, c, d, e, f, g⟩; exact ⟨a, b, c, d, e, f, g⟩

/-- A UTC time survives. -/
theorem read_stamp_stamp (t : DateTime) (h : Spec.Valid t) : read_stamp (cbor_stamp t) = some t := by
  have hv := (datetime_valid_iff t).mpr h
  have hday : t.day < 10 ^ 2 := by
    have := h.day.2
    have hle : Spec.daysInMonth t.year t.month ≤ 31 := by
      unfold Spec.daysInMonth; repeat' split
      all_goals omega
    omega
  have h1 := h.year; have h2 := h.month; have h4 := h.hour; have h5 := h.minute; have h6 := h.second
  unfold read_stamp cbor_stamp
  simp only [take_digits_padded 4 _ _ (show t.year < 10 ^ 4 by omega),
    take_digits_padded 2 _ _ (show t.month < 10 ^ 2 by omega),
    take_digits_padded 2 _ _ hday,
    take_digits_padded 2 _ _ (show t.hour < 10 ^ 2 by omega),
    take_digits_padded 2 _ _ (show t.minute < 10 ^ 2 by omega),
    take_digits_padded 2 _ _ (show t.second < 10 ^ 2 by omega),
    expect_char, if_true, Option.bind_eq_bind, Option.bind_some, Nat.zero_mul, Nat.zero_add,
    read_fraction_stamp _ h.microsecond, hv]

/-! ### Values -/

mutual
/-- The values `cbor2` writes in the forms modelled here. -/
def Cbor.Fits : Cbor → Prop
  | .int n => -(2 ^ 64) ≤ n ∧ n < 2 ^ 64
  | .bytes b => b.length < 2 ^ 64
  | .text s => (utf8_encode s).length < 2 ^ 64
  | .array items => items.length < 2 ^ 64 ∧ items_fit items
  | .map items => items.length < 2 ^ 64 ∧ pairs_fit items
  | .datetime t => Spec.Valid t
  | .float bits => bits < 2 ^ 64
  | .bool _ => True
  | .null => True
def items_fit : List Cbor → Prop
  | [] => True
  | x :: xs => x.Fits ∧ items_fit xs
def pairs_fit : List (Cbor × Cbor) → Prop
  | [] => True
  | (k, v) :: kvs => k.Fits ∧ v.Fits ∧ pairs_fit kvs
end

theorem items_fit_iff (xs : List Cbor) : items_fit xs ↔ ∀ x ∈ xs, x.Fits := by
  induction xs with
  | nil => simp [items_fit]
  | cons x xs ih => simp [items_fit, ih]

/-- What reading does after a head. -/
def after_head (fuel major n : Nat) (bs : Bytes) : Except PyErr (Cbor × Bytes) :=
  if major = 0 then .ok (.int n, bs)
  else if major = 1 then .ok (.int (-1 - n), bs)
  else if major = 2 then
    match cbor_take n bs with
    | .error e => .error e
    | .ok (s, rest) => .ok (.bytes s, rest)
  else if major = 3 then
    match cbor_take n bs with
    | .error e => .error e
    | .ok (s, rest) =>
      match cbor_text s with
      | .error e => .error e
      | .ok v => .ok (v, rest)
  else if major = 4 then
    match decode_items fuel n bs with
    | .error e => .error e
    | .ok (items, rest) => .ok (.array items, rest)
  else if major = 5 then
    match decode_pairs fuel n bs with
    | .error e => .error e
    | .ok (items, rest) => .ok (.map items, rest)
  else
    match cbor_decode fuel bs with
    | .error e => .error e
    | .ok (v, rest) =>
      if n = 0 then
        match cbor_datetime v with
        | .error e => .error e
        | .ok t => .ok (t, rest)
      else .error cbor_left_out

/-- How the first byte is read, if it starts a value of one of the first seven major types. -/
theorem decode_step (fuel : Nat) (b : UInt8) (bs : Bytes) (h : b.toNat / 32 ≠ 7) :
    cbor_decode (fuel + 1) (b :: bs) =
      match cbor_argument (b.toNat % 32) bs with
      | .error e => .error e
      | .ok (n, bs) => after_head fuel (b.toNat / 32) n bs := by
  rw [cbor_decode, if_neg h]
  rfl

theorem decode_head (fuel major n : Nat) (hm : major < 7) (hn : n < 2 ^ 64) (r : Bytes) :
    cbor_decode (fuel + 1) (cbor_head major n ++ r) = after_head fuel major n r := by
  obtain ⟨b, tail, he, hh⟩ := cbor_head_spec major n (by omega) hn
  rw [he, List.cons_append, decode_step _ _ _ (by rw [hh.major]; omega), hh.whole]
  simp only [hh.major]

/-- A head that is cut off. -/
theorem decode_head_short (fuel major n : Nat) (hm : major < 7) (hn : n < 2 ^ 64) (p : Bytes)
    (hp : p <+: cbor_head major n) (hne : p ≠ cbor_head major n) :
    ∃ e, cbor_decode fuel p = .error e := by
  cases fuel with
  | zero => exact ⟨_, by rw [cbor_decode]⟩
  | succ fuel =>
    obtain ⟨b, tail, he, hh⟩ := cbor_head_spec major n (by omega) hn
    rw [he] at hp hne
    cases p with
    | nil => exact ⟨_, by rw [cbor_decode]⟩
    | cons c q =>
      obtain ⟨rfl, hq⟩ := List.cons_prefix_cons.mp hp
      have hlt : q.length < tail.length := by
        rcases Nat.lt_or_ge q.length tail.length with h | h
        · exact h
        · exact absurd (by rw [hq.eq_of_length (Nat.le_antisymm hq.length_le h)]) hne
      obtain ⟨e, hs⟩ := hh.short q hlt
      exact ⟨e, by rw [decode_step _ _ _ (by rw [hh.major]; omega), hs]⟩

theorem head_pos (major n : Nat) (hm : major < 7) (hn : n < 2 ^ 64) : 1 ≤ (cbor_head major n).length := by
  obtain ⟨b, tail, he, _⟩ := cbor_head_spec major n (by omega) hn
  rw [he]; simp

theorem encode_pos (v : Cbor) (h : v.Fits) : 1 ≤ v.encode.length := by
  cases v <;> rw [Cbor.encode] <;> rw [Cbor.Fits] at h
  case int n =>
    split
    · exact head_pos _ _ (by omega) (by omega)
    · exact head_pos _ _ (by omega) (by omega)
  case bytes b => have := head_pos 2 b.length (by omega) h; rw [List.length_append]; omega
  case text s => have := head_pos 3 _ (by omega) h; rw [List.length_append]; omega
  case array xs => have := head_pos 4 _ (by omega) h.1; rw [List.length_append]; omega
  case map xs => have := head_pos 5 _ (by omega) h.1; rw [List.length_append]; omega
  case datetime t => have := head_pos 6 0 (by omega) (by omega); rw [List.length_append]; omega
  case float n => simp
  case bool b => split <;> simp
  case null => simp

theorem stamp_length (t : DateTime) : (cbor_stamp t).length ≤ 40 := by
  unfold cbor_stamp
  split <;> simp [padded_length]

theorem stamp_size (t : DateTime) : (utf8_encode (String.ofList (cbor_stamp t))).length < 2 ^ 64 := by
  have h := utf8_encode_length (String.ofList (cbor_stamp t))
  rw [String.toList_ofList] at h
  have := stamp_length t
  omega

/-- The text of a time. -/
theorem decode_stamp (fuel : Nat) (t : DateTime) (r : Bytes) :
    cbor_decode (fuel + 1)
        (cbor_head 3 (utf8_encode (String.ofList (cbor_stamp t))).length ++
          (utf8_encode (String.ofList (cbor_stamp t)) ++ r)) =
      .ok (.text (String.ofList (cbor_stamp t)), r) := by
  rw [decode_head _ _ _ (by omega) (stamp_size t)]
  unfold after_head
  rw [if_neg (by omega), if_neg (by omega), if_neg (by omega), if_pos rfl, cbor_take_append]
  simp only [cbor_text_encode]

mutual
/-- What was written is read. -/
theorem decode_encode (v : Cbor) (h : v.Fits) (fuel : Nat) (r : Bytes)
    (hf : 2 * v.encode.length ≤ fuel) : cbor_decode fuel (v.encode ++ r) = .ok (v, r) := by
  have hpos := encode_pos v h
  obtain ⟨fuel, rfl⟩ : ∃ f, fuel = f + 1 := ⟨fuel - 1, by omega⟩
  match v with
  | .int n =>
    rw [Cbor.Fits] at h
    rw [Cbor.encode]
    split
    · rw [decode_head _ _ _ (by omega) (by omega)]
      unfold after_head
      rw [if_pos rfl, Int.toNat_of_nonneg (by assumption)]
    · rw [decode_head _ _ _ (by omega) (by omega)]
      unfold after_head
      rw [if_neg (by omega), if_pos rfl, Int.toNat_of_nonneg (by omega)]
      rw [show -1 - (-1 - n) = n by omega]
  | .bytes b =>
    rw [Cbor.Fits] at h
    rw [Cbor.encode, List.append_assoc, decode_head _ _ _ (by omega) h]
    unfold after_head
    rw [if_neg (by omega), if_neg (by omega), if_pos rfl, cbor_take_append]
  | .text s =>
    rw [Cbor.Fits] at h
    rw [Cbor.encode, List.append_assoc, decode_head _ _ _ (by omega) h]
    unfold after_head
    rw [if_neg (by omega), if_neg (by omega), if_neg (by omega), if_pos rfl, cbor_take_append]
    simp only [cbor_text_encode]
  | .array items =>
    rw [Cbor.Fits] at h
    have hp := head_pos 4 _ (by omega) h.1
    rw [Cbor.encode, List.length_append] at hf
    rw [Cbor.encode, List.append_assoc, decode_head _ _ _ (by omega) h.1]
    unfold after_head
    rw [if_neg (by omega), if_neg (by omega), if_neg (by omega), if_neg (by omega), if_pos rfl,
      decode_encode_items items h.2 fuel r (by omega)]
  | .map items =>
    rw [Cbor.Fits] at h
    have hp := head_pos 5 _ (by omega) h.1
    rw [Cbor.encode, List.length_append] at hf
    rw [Cbor.encode, List.append_assoc, decode_head _ _ _ (by omega) h.1]
    unfold after_head
    rw [if_neg (by omega), if_neg (by omega), if_neg (by omega), if_neg (by omega), if_neg (by omega),
      if_pos rfl, decode_encode_pairs items h.2 fuel r (by omega)]
  | .datetime t =>
    rw [Cbor.Fits] at h
    have hp := head_pos 6 0 (by omega) (by omega)
    have hp3 := head_pos 3 _ (by omega) (stamp_size t)
    rw [Cbor.encode, List.length_append, List.length_append] at hf
    obtain ⟨fuel, rfl⟩ : ∃ f, fuel = f + 1 := ⟨fuel - 1, by omega⟩
    rw [Cbor.encode, List.append_assoc, decode_head _ _ _ (by omega) (by omega)]
    unfold after_head
    rw [if_neg (by omega), if_neg (by omega), if_neg (by omega), if_neg (by omega), if_neg (by omega),
      if_neg (by omega), List.append_assoc, decode_stamp]
    simp only [cbor_datetime, String.toList_ofList, read_stamp_stamp t h, if_true]
  | .float bits =>
    rw [Cbor.Fits] at h
    rw [Cbor.encode, List.cons_append, cbor_decode]
    rw [if_pos (by decide), if_neg (by decide), if_neg (by decide), if_neg (by decide), if_pos (by decide)]
    have := cbor_take_append (cbor_be 8 bits) r
    rw [cbor_be_length] at this
    rw [this]
    simp only [cbor_of_be_be 8 bits (by omega)]
  | .bool b => cases b <;> rw [Cbor.encode] <;> rfl
  | .null => rw [Cbor.encode]; rfl
theorem decode_encode_items (xs : List Cbor) (h : items_fit xs) (fuel : Nat) (r : Bytes)
    (hf : 2 * (encode_items xs).length + 1 ≤ fuel) :
    decode_items fuel xs.length (encode_items xs ++ r) = .ok (xs, r) := by
  obtain ⟨fuel, rfl⟩ : ∃ f, fuel = f + 1 := ⟨fuel - 1, by omega⟩
  match xs with
  | [] => rw [encode_items]; rfl
  | x :: xs =>
    rw [items_fit] at h
    have hpos := encode_pos x h.1
    rw [encode_items, List.length_append] at hf
    rw [encode_items, List.append_assoc, List.length_cons, decode_items,
      decode_encode x h.1 fuel _ (by omega)]
    simp only [decode_encode_items xs h.2 fuel r (by omega)]
theorem decode_encode_pairs (xs : List (Cbor × Cbor)) (h : pairs_fit xs) (fuel : Nat) (r : Bytes)
    (hf : 2 * (encode_pairs xs).length + 1 ≤ fuel) :
    decode_pairs fuel xs.length (encode_pairs xs ++ r) = .ok (xs, r) := by
  obtain ⟨fuel, rfl⟩ : ∃ f, fuel = f + 1 := ⟨fuel - 1, by omega⟩
  match xs with
  | [] => rw [encode_pairs]; rfl
  | (k, v) :: xs =>
    rw [pairs_fit] at h
    have hpos := encode_pos k h.1
    rw [encode_pairs, List.length_append, List.length_append] at hf
    rw [encode_pairs, List.append_assoc, List.length_cons, decode_pairs,
      decode_encode k h.1 fuel _ (by omega), List.append_assoc]
    simp only [decode_encode v h.2.1 fuel _ (by omega), decode_encode_pairs xs h.2.2 fuel r (by omega)]
end

/-- Loading what was dumped. -/
theorem loads_dumps (v : Cbor) (h : v.Fits) (r : Bytes) : cbor_loads (v.encode ++ r) = .ok v := by
  unfold cbor_loads
  rw [decode_encode v h _ r (by rw [List.length_append]; omega)]

/-! ### Reading with more fuel -/

theorem after_head_mono (f major n : Nat) (bs : Bytes) (x : Cbor × Bytes)
    (hd : ∀ bs x, cbor_decode f bs = .ok x → cbor_decode (f + 1) bs = .ok x)
    (hi : ∀ n bs x, decode_items f n bs = .ok x → decode_items (f + 1) n bs = .ok x)
    (hp : ∀ n bs x, decode_pairs f n bs = .ok x → decode_pairs (f + 1) n bs = .ok x)
    (h : after_head f major n bs = .ok x) : after_head (f + 1) major n bs = .ok x := by
  unfold after_head at h ⊢
  split
  · rw [if_pos (by assumption)] at h; exact h
  rw [if_neg (by assumption)] at h
  split
  · rw [if_pos (by assumption)] at h; exact h
  rw [if_neg (by assumption)] at h
  split
  · rw [if_pos (by assumption)] at h; exact h
  rw [if_neg (by assumption)] at h
  split
  · rw [if_pos (by assumption)] at h; exact h
  rw [if_neg (by assumption)] at h
  split
  · rw [if_pos (by assumption)] at h
    cases he : decode_items f n bs with
    | error e => rw [he] at h; exact nomatch h
    | ok y => rw [he] at h; rw [hi _ _ _ he]; exact h
  rw [if_neg (by assumption)] at h
  split
  · rw [if_pos (by assumption)] at h
    cases he : decode_pairs f n bs with
    | error e => rw [he] at h; exact nomatch h
    | ok y => rw [he] at h; rw [hp _ _ _ he]; exact h
  rw [if_neg (by assumption)] at h
  cases he : cbor_decode f bs with
  | error e => rw [he] at h; exact nomatch h
  | ok y => rw [he] at h; rw [hd _ _ he]; exact h

theorem decode_mono (f : Nat) :
    (∀ bs x, cbor_decode f bs = .ok x → cbor_decode (f + 1) bs = .ok x) ∧
    (∀ n bs x, decode_items f n bs = .ok x → decode_items (f + 1) n bs = .ok x) ∧
    (∀ n bs x, decode_pairs f n bs = .ok x → decode_pairs (f + 1) n bs = .ok x) := by
  induction f with
  | zero =>
    refine ⟨fun bs x h => ?_, fun n bs x h => ?_, fun n bs x h => ?_⟩
    · rw [cbor_decode] at h; exact nomatch h
    · cases n with
      | zero => rw [decode_items] at h ⊢; exact h
      | succ n => rw [decode_items] at h; exact nomatch h
    · cases n with
      | zero => rw [decode_pairs] at h ⊢; exact h
      | succ n => rw [decode_pairs] at h; exact nomatch h
  | succ f ih =>
    obtain ⟨hd, hi, hp⟩ := ih
    refine ⟨fun bs x h => ?_, fun n bs x h => ?_, fun n bs x h => ?_⟩
    · cases bs with
      | nil => rw [cbor_decode] at h; exact nomatch h
      | cons b bs =>
        by_cases h7 : b.toNat / 32 = 7
        · rw [cbor_decode, if_pos h7] at h ⊢
          exact h
        · rw [decode_step _ _ _ h7] at h ⊢
          cases ha : cbor_argument (b.toNat % 32) bs with
          | error e => rw [ha] at h; exact nomatch h
          | ok y =>
            rw [ha] at h
            exact after_head_mono f _ _ _ _ hd hi hp h
    · cases n with
      | zero => rw [decode_items] at h ⊢; exact h
      | succ n =>
        rw [decode_items] at h ⊢
        cases he : cbor_decode f bs with
        | error e => rw [he] at h; exact nomatch h
        | ok y =>
          rw [he] at h
          rw [hd _ _ he]
          simp only at h ⊢
          cases he2 : decode_items f n y.2 with
          | error e => rw [he2] at h; exact nomatch h
          | ok z => rw [he2] at h; rw [hi _ _ _ he2]; exact h
    · cases n with
      | zero => rw [decode_pairs] at h ⊢; exact h
      | succ n =>
        rw [decode_pairs] at h ⊢
        cases he : cbor_decode f bs with
        | error e => rw [he] at h; exact nomatch h
        | ok y =>
          rw [he] at h
          rw [hd _ _ he]
          simp only at h ⊢
          cases he2 : cbor_decode f y.2 with
          | error e => rw [he2] at h; exact nomatch h
          | ok z =>
            rw [he2] at h
            rw [hd _ _ he2]
            simp only at h ⊢
            cases he3 : decode_pairs f n z.2 with
            | error e => rw [he3] at h; exact nomatch h
            | ok w => rw [he3] at h; rw [hp _ _ _ he3]; exact h

theorem decode_more (f k : Nat) (bs : Bytes) (x : Cbor × Bytes) (h : cbor_decode f bs = .ok x) :
    cbor_decode (f + k) bs = .ok x := by
  induction k with
  | zero => exact h
  | succ k ih => exact (decode_mono (f + k)).1 _ _ ih

/-- With any fuel, reading what was written gives nothing else. -/
theorem decode_only (v : Cbor) (h : v.Fits) (fuel : Nat) (r : Bytes) (x : Cbor × Bytes)
    (hx : cbor_decode fuel (v.encode ++ r) = .ok x) : x = (v, r) := by
  have h1 := decode_more fuel (2 * v.encode.length) _ _ hx
  rw [decode_encode v h _ r (by omega)] at h1
  exact (Except.ok.inj h1).symm

/-! ### Reading only part of a value -/

/-- A part of two things in a row is part of the first, or the first and part of the second. -/
theorem short_cases {p a b : Bytes} (hp : p <+: a ++ b) (hne : p ≠ a ++ b) :
    (p <+: a ∧ p ≠ a) ∨ ∃ q, p = a ++ q ∧ q <+: b ∧ q ≠ b := by
  rcases Nat.lt_or_ge p.length a.length with h | h
  · left
    exact ⟨List.prefix_of_prefix_length_le hp (List.prefix_append a b) (Nat.le_of_lt h),
      fun he => by rw [he] at h; exact Nat.lt_irrefl _ h⟩
  · right
    obtain ⟨q, rfl⟩ := List.prefix_of_prefix_length_le (List.prefix_append a b) hp h
    exact ⟨q, rfl, (List.prefix_append_right_inj a).mp hp, fun he => hne (by rw [he])⟩

theorem short_length {p a : Bytes} (hp : p <+: a) (hne : p ≠ a) : p.length < a.length := by
  rcases Nat.lt_or_ge p.length a.length with h | h
  · exact h
  · exact absurd (hp.eq_of_length (Nat.le_antisymm hp.length_le h)) hne

theorem decode_zero (bs : Bytes) : cbor_decode 0 bs = .error cbor_fuel := by rw [cbor_decode]
theorem decode_nil (fuel : Nat) : cbor_decode (fuel + 1) [] = .error cbor_eof := by rw [cbor_decode]

theorem int_short (n : Int) (h : -(2 ^ 64) ≤ n ∧ n < 2 ^ 64) (fuel : Nat) (p : Bytes)
    (hp : p <+: (Cbor.int n).encode) (hne : p ≠ (Cbor.int n).encode) :
    ∃ e, cbor_decode fuel p = .error e := by
  rw [Cbor.encode] at hp hne
  split at hp
  · rw [if_pos (by assumption)] at hne
    exact decode_head_short _ _ _ (by omega) (by omega) p hp hne
  · rw [if_neg (by assumption)] at hne
    exact decode_head_short _ _ _ (by omega) (by omega) p hp hne

theorem string_short (major : Nat) (hm : major = 2 ∨ major = 3) (b : Bytes) (h : b.length < 2 ^ 64)
    (fuel : Nat) (p : Bytes) (hp : p <+: cbor_head major b.length ++ b)
    (hne : p ≠ cbor_head major b.length ++ b) : ∃ e, cbor_decode fuel p = .error e := by
  cases fuel with
  | zero => exact ⟨_, decode_zero p⟩
  | succ fuel =>
    rcases short_cases hp hne with ⟨h1, h2⟩ | ⟨q, rfl, h1, h2⟩
    · exact decode_head_short _ _ _ (by omega) h p h1 h2
    · rw [decode_head _ _ _ (by omega) h]
      unfold after_head
      rw [if_neg (by omega), if_neg (by omega), cbor_take_short (short_length h1 h2)]
      rcases hm with rfl | rfl
      · exact ⟨_, by rw [if_pos rfl]⟩
      · exact ⟨_, by rw [if_neg (by omega), if_pos rfl]⟩

theorem datetime_short (t : DateTime) (fuel : Nat) (p : Bytes)
    (hp : p <+: (Cbor.datetime t).encode) (hne : p ≠ (Cbor.datetime t).encode) :
    ∃ e, cbor_decode fuel p = .error e := by
  cases fuel with
  | zero => exact ⟨_, decode_zero p⟩
  | succ fuel =>
    rw [Cbor.encode] at hp hne
    rcases short_cases hp hne with ⟨h1, h2⟩ | ⟨q, rfl, h1, h2⟩
    · exact decode_head_short _ _ _ (by omega) (by omega) p h1 h2
    · obtain ⟨e, he⟩ := string_short 3 (.inr rfl) _ (stamp_size t) fuel q h1 h2
      rw [decode_head _ _ _ (by omega) (by omega)]
      unfold after_head
      rw [if_neg (by omega), if_neg (by omega), if_neg (by omega), if_neg (by omega), if_neg (by omega),
        if_neg (by omega), he]
      exact ⟨_, rfl⟩

theorem float_short (bits : Nat) (fuel : Nat) (p : Bytes)
    (hp : p <+: (Cbor.float bits).encode) (hne : p ≠ (Cbor.float bits).encode) :
    ∃ e, cbor_decode fuel p = .error e := by
  cases fuel with
  | zero => exact ⟨_, decode_zero p⟩
  | succ fuel =>
    rw [Cbor.encode] at hp hne
    cases p with
    | nil => exact ⟨_, decode_nil fuel⟩
    | cons b q =>
      obtain ⟨rfl, hq⟩ := List.cons_prefix_cons.mp hp
      have hl := short_length hq (fun he => hne (by rw [he]))
      rw [cbor_be_length] at hl
      rw [cbor_decode, if_pos (by decide), if_neg (by decide), if_neg (by decide), if_neg (by decide),
        if_pos (by decide), cbor_take_short hl]
      exact ⟨_, rfl⟩

theorem single_short (v : Cbor) (h : v.encode.length = 1) (fuel : Nat) (p : Bytes)
    (hp : p <+: v.encode) (hne : p ≠ v.encode) : ∃ e, cbor_decode fuel p = .error e := by
  cases fuel with
  | zero => exact ⟨_, decode_zero p⟩
  | succ fuel =>
    have hl := short_length hp hne
    cases p with
    | nil => exact ⟨_, decode_nil fuel⟩
    | cons b q => rw [h, List.length_cons] at hl; omega

mutual
/-- A value that is cut off cannot be read. -/
theorem decode_short (v : Cbor) (h : v.Fits) (fuel : Nat) (p : Bytes) (hp : p <+: v.encode)
    (hne : p ≠ v.encode) : ∃ e, cbor_decode fuel p = .error e := by
  match v with
  | .int n => rw [Cbor.Fits] at h; exact int_short n h fuel p hp hne
  | .bytes b =>
    rw [Cbor.Fits] at h
    rw [Cbor.encode] at hp hne
    exact string_short 2 (.inl rfl) b h fuel p hp hne
  | .text s =>
    rw [Cbor.Fits] at h
    rw [Cbor.encode] at hp hne
    exact string_short 3 (.inr rfl) _ h fuel p hp hne
  | .array items =>
    match fuel with
    | 0 => exact ⟨_, decode_zero p⟩
    | fuel + 1 =>
    rw [Cbor.Fits] at h
    rw [Cbor.encode] at hp hne
    rcases short_cases hp hne with ⟨h1, h2⟩ | ⟨q, rfl, h1, h2⟩
    · exact decode_head_short _ _ _ (by omega) h.1 p h1 h2
    · rw [decode_head _ _ _ (by omega) h.1]
      unfold after_head
      obtain ⟨e, he⟩ := items_short items h.2 fuel q h1 h2
      rw [if_neg (by omega), if_neg (by omega), if_neg (by omega), if_neg (by omega), if_pos rfl, he]
      exact ⟨_, rfl⟩
  | .map items =>
    match fuel with
    | 0 => exact ⟨_, decode_zero p⟩
    | fuel + 1 =>
    rw [Cbor.Fits] at h
    rw [Cbor.encode] at hp hne
    rcases short_cases hp hne with ⟨h1, h2⟩ | ⟨q, rfl, h1, h2⟩
    · exact decode_head_short _ _ _ (by omega) h.1 p h1 h2
    · rw [decode_head _ _ _ (by omega) h.1]
      unfold after_head
      obtain ⟨e, he⟩ := pairs_short items h.2 fuel q h1 h2
      rw [if_neg (by omega), if_neg (by omega), if_neg (by omega), if_neg (by omega), if_neg (by omega),
        if_pos rfl, he]
      exact ⟨_, rfl⟩
  | .datetime t => exact datetime_short t fuel p hp hne
  | .float bits => exact float_short bits fuel p hp hne
  | .bool b => exact single_short (.bool b) (by cases b <;> rw [Cbor.encode] <;> rfl) fuel p hp hne
  | .null => exact single_short .null (by rw [Cbor.encode]; rfl) fuel p hp hne
theorem items_short (xs : List Cbor) (h : items_fit xs) (fuel : Nat) (p : Bytes)
    (hp : p <+: encode_items xs) (hne : p ≠ encode_items xs) :
    ∃ e, decode_items fuel xs.length p = .error e := by
  match xs with
  | [] =>
    rw [encode_items] at hp hne
    exact absurd (List.prefix_nil.mp hp) hne
  | x :: xs =>
    rw [items_fit] at h
    rw [encode_items] at hp hne
    match fuel with
    | 0 => exact ⟨_, by rw [List.length_cons, decode_items]⟩
    | fuel + 1 =>
      rw [List.length_cons, decode_items]
      rcases short_cases hp hne with ⟨h1, h2⟩ | ⟨q, rfl, h1, h2⟩
      · obtain ⟨e, he⟩ := decode_short x h.1 fuel p h1 h2
        exact ⟨e, by rw [he]⟩
      · cases he : cbor_decode fuel (x.encode ++ q) with
        | error e => exact ⟨e, rfl⟩
        | ok y =>
          cases decode_only x h.1 fuel q y he
          obtain ⟨e, hs⟩ := items_short xs h.2 fuel q h1 h2
          exact ⟨e, by simp only [hs]⟩
theorem pairs_short (xs : List (Cbor × Cbor)) (h : pairs_fit xs) (fuel : Nat) (p : Bytes)
    (hp : p <+: encode_pairs xs) (hne : p ≠ encode_pairs xs) :
    ∃ e, decode_pairs fuel xs.length p = .error e := by
  match xs with
  | [] =>
    rw [encode_pairs] at hp hne
    exact absurd (List.prefix_nil.mp hp) hne
  | (k, v) :: xs =>
    rw [pairs_fit] at h
    rw [encode_pairs] at hp hne
    match fuel with
    | 0 => exact ⟨_, by rw [List.length_cons, decode_pairs]⟩
    | fuel + 1 =>
      rw [List.length_cons, decode_pairs]
      rcases short_cases hp hne with ⟨h1, h2⟩ | ⟨q, rfl, h1, h2⟩
      · obtain ⟨e, he⟩ := decode_short k h.1 fuel p h1 h2
        exact ⟨e, by rw [he]⟩
      · cases he : cbor_decode fuel (k.encode ++ q) with
        | error e => exact ⟨e, rfl⟩
        | ok y =>
          cases decode_only k h.1 fuel q y he
          simp only
          rcases short_cases h1 h2 with ⟨h1, h2⟩ | ⟨q, rfl, h1, h2⟩
          · obtain ⟨e, he⟩ := decode_short v h.2.1 fuel q h1 h2
            exact ⟨e, by rw [he]⟩
          · cases he : cbor_decode fuel (v.encode ++ q) with
            | error e => exact ⟨e, rfl⟩
            | ok y =>
              cases decode_only v h.2.1 fuel q y he
              obtain ⟨e, hs⟩ := pairs_short xs h.2.2 fuel q h1 h2
              exact ⟨e, by simp only [hs]⟩
end

/-- Loading part of what was dumped. -/
theorem loads_short (v : Cbor) (h : v.Fits) (p : Bytes) (hp : p <+: v.encode) (hne : p ≠ v.encode) :
    ∃ e, cbor_loads p = .error e := by
  obtain ⟨e, he⟩ := decode_short v h (2 * p.length + 1) p hp hne
  exact ⟨e, by unfold cbor_loads; rw [he]⟩

/-! ### The fuel is enough -/

theorem take_le {w : Nat} {bs : Bytes} {x : Bytes × Bytes} (h : cbor_take w bs = .ok x) :
    x.2.length ≤ bs.length := by
  unfold cbor_take at h
  split at h
  · exact nomatch h
  · cases h; simp

theorem take_error {w : Nat} {bs : Bytes} {e : PyErr} (h : cbor_take w bs = .error e) : e = cbor_eof := by
  unfold cbor_take at h
  split at h
  · cases h; rfl
  · exact nomatch h

theorem argument_le {info : Nat} {bs : Bytes} {x : Nat × Bytes} (h : cbor_argument info bs = .ok x) :
    x.2.length ≤ bs.length := by
  unfold cbor_argument at h
  split at h
  · cases h; exact Nat.le_refl _
  split at h
  · cases ht : cbor_take (2 ^ (info - 24)) bs with
    | error e => rw [ht] at h; exact nomatch h
    | ok y => rw [ht] at h; cases h; exact take_le ht
  · exact nomatch h

theorem argument_error {info : Nat} {bs : Bytes} {e : PyErr} (h : cbor_argument info bs = .error e) :
    e ≠ cbor_fuel := by
  unfold cbor_argument at h
  split at h
  · exact nomatch h
  split at h
  · cases ht : cbor_take (2 ^ (info - 24)) bs with
    | error e' =>
      rw [ht] at h; cases h
      rw [take_error ht]; decide
    | ok y => rw [ht] at h; exact nomatch h
  · cases h; decide

theorem text_error {b : Bytes} {e : PyErr} (h : cbor_text b = .error e) : e ≠ cbor_fuel := by
  unfold cbor_text at h
  split at h
  · cases h; decide
  · exact nomatch h

theorem datetime_error {v : Cbor} {e : PyErr} (h : cbor_datetime v = .error e) : e ≠ cbor_fuel := by
  unfold cbor_datetime at h
  split at h
  · split at h
    · exact nomatch h
    · cases h; decide
  · cases h; decide

/-- What is known of a reader: it does not run out of fuel and takes data from the front. -/
def Reads {α} (r : Except PyErr (α × Bytes)) (most : Nat) : Prop :=
  match r with
  | .error e => e ≠ cbor_fuel
  | .ok x => x.2.length ≤ most

theorem after_head_reads (f major n : Nat) (bs : Bytes)
    (hd : Reads (cbor_decode f bs) bs.length)
    (hi : Reads (decode_items f n bs) bs.length)
    (hp : Reads (decode_pairs f n bs) bs.length) : Reads (after_head f major n bs) bs.length := by
  unfold after_head
  split
  · exact Nat.le_refl _
  split
  · exact Nat.le_refl _
  split
  · cases ht : cbor_take n bs with
    | error e => rw [take_error ht]; exact (by decide : cbor_eof ≠ cbor_fuel)
    | ok y => exact take_le ht
  split
  · cases ht : cbor_take n bs with
    | error e => rw [take_error ht]; exact (by decide : cbor_eof ≠ cbor_fuel)
    | ok y =>
      simp only
      cases hx : cbor_text y.1 with
      | error e => exact text_error hx
      | ok v => exact take_le ht
  split
  · cases ht : decode_items f n bs with
    | error e => rw [ht] at hi; exact hi
    | ok y => rw [ht] at hi; exact hi
  split
  · cases ht : decode_pairs f n bs with
    | error e => rw [ht] at hp; exact hp
    | ok y => rw [ht] at hp; exact hp
  cases ht : cbor_decode f bs with
  | error e => rw [ht] at hd; exact hd
  | ok y =>
    rw [ht] at hd
    simp only
    split
    · cases hx : cbor_datetime y.1 with
      | error e => exact datetime_error hx
      | ok v => exact hd
    · exact (by decide : cbor_left_out ≠ cbor_fuel)

theorem reads_mono {α} {r : Except PyErr (α × Bytes)} {a b : Nat} (h : Reads r a) (hab : a ≤ b) : Reads r b := by
  cases r with
  | error e => exact h
  | ok x => exact Nat.le_trans h hab

theorem decode_reads (f : Nat) :
    (∀ bs : Bytes, 2 * bs.length + 1 ≤ f → Reads (cbor_decode f bs) (bs.length - 1)) ∧
    (∀ n, ∀ bs : Bytes, 2 * bs.length + 2 ≤ f → Reads (decode_items f n bs) bs.length) ∧
    (∀ n, ∀ bs : Bytes, 2 * bs.length + 2 ≤ f → Reads (decode_pairs f n bs) bs.length) := by
  induction f with
  | zero => exact ⟨fun _ h => by omega, fun _ _ h => by omega, fun _ _ h => by omega⟩
  | succ f ih =>
    obtain ⟨hd, hi, hp⟩ := ih
    refine ⟨fun bs hf => ?_, fun n bs hf => ?_, fun n bs hf => ?_⟩
    · cases bs with
      | nil => rw [decode_nil]; exact (by decide : cbor_eof ≠ cbor_fuel)
      | cons b bs =>
        rw [List.length_cons, Nat.add_sub_cancel]
        rw [List.length_cons] at hf
        by_cases h7 : b.toNat / 32 = 7
        · rw [cbor_decode, if_pos h7]
          split
          · exact Nat.le_refl _
          split
          · exact Nat.le_refl _
          split
          · exact Nat.le_refl _
          split
          · cases ht : cbor_take 8 bs with
            | error e => rw [take_error ht]; exact (by decide : cbor_eof ≠ cbor_fuel)
            | ok y => exact take_le ht
          · exact (by decide : cbor_left_out ≠ cbor_fuel)
        · rw [decode_step _ _ _ h7]
          cases ha : cbor_argument (b.toNat % 32) bs with
          | error e => exact argument_error ha
          | ok y =>
            have hle := argument_le ha
            exact reads_mono (after_head_reads f _ _ _ (reads_mono (hd _ (by omega)) (Nat.sub_le _ _))
              (hi _ _ (by omega)) (hp _ _ (by omega))) hle
    · cases n with
      | zero => rw [decode_items]; exact Nat.le_refl _
      | succ n =>
        rw [decode_items]
        have h1 := hd bs (by omega)
        cases he : cbor_decode f bs with
        | error e => rw [he] at h1; exact h1
        | ok y =>
          rw [he] at h1
          have h1' : y.2.length ≤ bs.length - 1 := h1
          simp only
          by_cases hb : bs.length = 0
          · have : bs = [] := List.length_eq_zero_iff.mp hb
            subst this
            cases f with
            | zero => omega
            | succ f => rw [decode_nil] at he; exact nomatch he
          · have h2 := hi n y.2 (by omega)
            cases he2 : decode_items f n y.2 with
            | error e => rw [he2] at h2; exact h2
            | ok z =>
              rw [he2] at h2
              have h2' : z.2.length ≤ y.2.length := h2
              show z.2.length ≤ bs.length
              omega
    · cases n with
      | zero => rw [decode_pairs]; exact Nat.le_refl _
      | succ n =>
        rw [decode_pairs]
        have h1 := hd bs (by omega)
        cases he : cbor_decode f bs with
        | error e => rw [he] at h1; exact h1
        | ok y =>
          rw [he] at h1
          have h1' : y.2.length ≤ bs.length - 1 := h1
          simp only
          by_cases hb : bs.length = 0
          · have : bs = [] := List.length_eq_zero_iff.mp hb
            subst this
            cases f with
            | zero => omega
            | succ f => rw [decode_nil] at he; exact nomatch he
          · have h3 := hd y.2 (by omega)
            cases he3 : cbor_decode f y.2 with
            | error e => rw [he3] at h3; exact h3
            | ok w =>
              rw [he3] at h3
              have h3' : w.2.length ≤ y.2.length - 1 := h3
              simp only
              have h2 := hp n w.2 (by omega)
              cases he2 : decode_pairs f n w.2 with
              | error e => rw [he2] at h2; exact h2
              | ok z =>
                rw [he2] at h2
                have h2' : z.2.length ≤ w.2.length := h2
                show z.2.length ≤ bs.length
                omega

/-- The decoder never stops for want of fuel. -/
theorem cbor_loads_fuel (bs : Bytes) : cbor_loads bs ≠ .error cbor_fuel := by
  have h := (decode_reads (2 * bs.length + 1)).1 bs (Nat.le_refl _)
  unfold cbor_loads
  cases he : cbor_decode (2 * bs.length + 1) bs with
  | error e => rw [he] at h; exact fun h' => h (Except.error.inj h')
  | ok y => exact fun h' => nomatch h'

/-! ### The files -/

theorem sql_toCbor (a : SqlType) : a.toCbor.sql = some a := by cases a <;> rfl

theorem sql_arguments_array (args : List SqlType) :
    sql_arguments (.array (args.map SqlType.toCbor)) = .ok args := by
  unfold sql_arguments Cbor.iter
  simp only
  rw [if_pos (by simp [List.all_eq_true, sql_toCbor])]
  congr 1
  induction args with
  | nil => rfl
  | cons a args ih => rw [List.map_cons, List.filterMap_cons, sql_toCbor]; simp only [ih]

/-- One event as it is written. -/
def change_item (event : ChangeRecord) : Cbor :=
  .array [event.sequence, event.statement, .array (event.arguments.map SqlType.toCbor), event.important]

theorem change_of_item (event : ChangeRecord) : change_of (change_item event) = .ok event := by
  unfold change_of change_item Cbor.iter
  simp only [sql_arguments_array]

theorem changes_of_items (events : List ChangeRecord) : changes_of (events.map change_item) = .ok events := by
  induction events with
  | nil => rfl
  | cons e es ih => rw [List.map_cons, changes_of, change_of_item, ih]

/-- The value written for an event stream. -/
def stream_item (events : List ChangeRecord) : Cbor :=
  .map [(.text "version", .int 1), (.text "events", .array (events.map change_item))]

theorem event_stream_bytes (events : List ChangeRecord) :
    event_stream_to_bytes events = (stream_item events).encode := rfl

theorem get_version (x y : Cbor) (k : String) (hk : k ≠ "version") :
    cbor_get [(.text "version", x), (.text k, y)] "version" = some x := by
  unfold cbor_get
  simp [hk]

theorem get_second (x y : Cbor) (k : String) :
    cbor_get [(.text "version", x), (.text k, y)] k = some y := by
  unfold cbor_get
  simp

theorem stream_of_item (events : List ChangeRecord) (h : (stream_item events).Fits) (r : Bytes) :
    event_stream_from_bytes ((stream_item events).encode ++ r) = .ok events := by
  unfold event_stream_from_bytes
  rw [loads_dumps _ h]
  simp only [stream_item]
  rw [get_version _ _ _ (by decide), get_second]
  rw [if_pos (by decide)]
  simp only [Cbor.iter, changes_of_items]

/-- The value written for a snapshot. -/
def snapshot_item (statements : List String) : Cbor :=
  .map [(.text "version", .int 1), (.text "statements", .array (statements.map Cbor.text))]

theorem str_statements_text (ss : List String) : str_statements (ss.map Cbor.text) = (ss, none) := by
  induction ss with
  | nil => rfl
  | cons s ss ih => rw [List.map_cons, str_statements, ih]

theorem snapshot_of_item (ss : List String) (h : (snapshot_item ss).Fits) (r : Bytes) :
    statements_from_snapshot ((snapshot_item ss).encode ++ r) = .ok (ss, none) := by
  unfold statements_from_snapshot
  rw [loads_dumps _ h]
  simp only [snapshot_item]
  rw [get_version _ _ _ (by decide), get_second]
  rw [if_pos (by decide)]
  simp only [str_statements_text]

end ZKAP
