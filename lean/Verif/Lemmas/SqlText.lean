import Verif.Spec.SqlText
import Verif.Lemmas.Decimal

/-! Reading what was written: the text of a snapshot. -/
namespace ZKAP
open Spec

/-! ### Quotes -/

theorem read_quoted_doubled (q : Char) (cs rest : List Char) (hr : rest.head? ≠ some q) :
    read_quoted q (doubled q cs ++ q :: rest) = some (cs, rest) := by
  induction cs with
  | nil =>
    show read_quoted q (q :: rest) = _
    cases rest with
    | nil => simp only [read_quoted, if_true]
    | cons d ds =>
      have : d ≠ q := fun h => hr (by rw [h]; rfl)
      simp only [read_quoted, if_true, if_neg this]
  | cons c cs ih =>
    have hd : doubled q (c :: cs) = (if c = q then [q, q] else [c]) ++ doubled q cs := rfl
    rw [hd]
    by_cases hc : c = q
    · rw [if_pos hc]
      show read_quoted q (q :: q :: (doubled q cs ++ q :: rest)) = _
      simp only [read_quoted, if_true, ih, Option.map_some, hc]
    · rw [if_neg hc]
      show read_quoted q (c :: (doubled q cs ++ q :: rest)) = _
      cases hx : doubled q cs ++ q :: rest with
      | nil => simp at hx
      | cons d ds =>
        rw [hx] at ih
        simp only [read_quoted, if_neg hc, ih, Option.map_some]

theorem until_nul_eq {cs : List Char} (h : ∀ c ∈ cs, c.toNat ≠ 0) : until_nul cs = cs := by
  induction cs with
  | nil => rfl
  | cons c cs ih =>
    have h1 := h c (List.mem_cons_self ..)
    unfold until_nul at ih ⊢
    rw [List.takeWhile_cons, if_pos (decide_eq_true h1), ih fun d hd => h d (List.mem_cons_of_mem _ hd)]

/-! ### Hexadecimal -/

theorem hex_value_digit {n : Nat} (h : n < 16) : hex_value (hex_digit n) = some n ∧ hex_digit n ≠ '\'' := by
  have : ∀ n < 16, hex_value (hex_digit n) = some n ∧ hex_digit n ≠ '\'' := by decide
  exact this n h

theorem read_hex_hex (b : Bytes) : read_hex (hex b) = some b := by
  induction b with
  | nil => rfl
  | cons x b ih =>
    have hx := x.toNat_lt
    show read_hex (hex_digit (x.toNat / 16) :: hex_digit (x.toNat % 16) :: hex b) = _
    simp only [read_hex, (hex_value_digit (by omega : x.toNat / 16 < 16)).1,
      (hex_value_digit (by omega : x.toNat % 16 < 16)).1, ih]
    have : 16 * (x.toNat / 16) + x.toNat % 16 = x.toNat := Nat.div_add_mod ..
    rw [this]
    simp

theorem doubled_hex (b : Bytes) : doubled '\'' (hex b) = hex b := by
  induction b with
  | nil => rfl
  | cons x b ih =>
    have hx := x.toNat_lt
    show doubled '\'' (hex_digit (x.toNat / 16) :: hex_digit (x.toNat % 16) :: hex b) = _ :: _ :: hex b
    unfold doubled at ih ⊢
    rw [List.flatMap_cons, List.flatMap_cons, ih, if_neg (hex_value_digit (by omega)).2,
      if_neg (hex_value_digit (by omega)).2]
    rfl

/-! ### Numbers -/

theorem is_decimal_digit {d : Nat} (h : d < 10) : is_decimal (digit d) = true := by
  have : ∀ d < 10, is_decimal (digit d) = true := by decide
  exact this d h

theorem decimal_all (n : Nat) : ∀ c ∈ decimal n, is_decimal c = true := by
  induction n using Nat.strongRecOn with
  | ind n ih =>
    rw [decimal]
    split
    · rename_i h
      intro c hc
      rw [List.mem_singleton.mp hc]
      exact is_decimal_digit h
    · intro c hc
      rcases List.mem_append.mp hc with hc | hc
      · exact ih (n / 10) (by omega) c hc
      · rw [List.mem_singleton.mp hc]
        exact is_decimal_digit (by omega)

/-- Nothing of what follows belongs to the token. -/
def Stops (p : Char → Bool) (rest : List Char) : Prop := ∀ c cs, rest = c :: cs → p c = false

theorem takeWhile_append {p : Char → Bool} {a rest : List Char} (ha : ∀ c ∈ a, p c = true) (hr : Stops p rest) :
    (a ++ rest).takeWhile p = a ∧ (a ++ rest).dropWhile p = rest := by
  induction a with
  | nil =>
    cases rest with
    | nil => exact ⟨rfl, rfl⟩
    | cons c cs =>
      have h := hr c cs rfl
      rw [List.nil_append]
      exact ⟨by rw [List.takeWhile_cons, h]; rfl, by rw [List.dropWhile_cons, h]; rfl⟩
  | cons c a ih =>
    have h := ha c (List.mem_cons_self ..)
    obtain ⟨h1, h2⟩ := ih fun d hd => ha d (List.mem_cons_of_mem _ hd)
    exact ⟨by rw [List.cons_append, List.takeWhile_cons, h, if_pos rfl, h1],
      by rw [List.cons_append, List.dropWhile_cons, h, if_pos rfl, h2]⟩

/-! ### Tokens -/

/-- The text consists of these tokens. -/
def Lexes (cs : List Char) (ts : List SqlToken) : Prop := ∀ fuel, cs.length < fuel → tokens_of fuel cs = some ts

theorem lexes_nil : Lexes [] [] := by
  intro fuel h
  cases fuel with
  | zero => exact absurd h (Nat.not_lt_zero _)
  | succ fuel => rfl

theorem lexes_space {cs : List Char} {ts : List SqlToken} (h : Lexes cs ts) : Lexes (' ' :: cs) ts := by
  intro fuel hf
  cases fuel with
  | zero => exact absurd hf (Nat.not_lt_zero _)
  | succ fuel =>
    simp only [tokens_of, show is_space ' ' = true from rfl, if_true]
    exact h fuel (by simp only [List.length_cons] at hf; omega)

theorem lexes_token {c : Char} {cs rest : List Char} {t : SqlToken} {ts : List SqlToken}
    (hs : is_space c = false) (ht : next_token (c :: cs) = some (t, rest)) (hl : rest.length ≤ cs.length)
    (h : Lexes rest ts) : Lexes (c :: cs) (t :: ts) := by
  intro fuel hf
  cases fuel with
  | zero => exact absurd hf (Nat.not_lt_zero _)
  | succ fuel =>
    simp only [tokens_of, hs, Bool.false_eq_true, if_false, ht]
    rw [h fuel (by simp only [List.length_cons] at hf; omega)]
    rfl

theorem lexes_number (n : Nat) {rest : List Char} {ts : List SqlToken} (hr : Stops is_decimal rest)
    (h : Lexes rest ts) : Lexes (decimal n ++ rest) (.number n :: ts) := by
  obtain ⟨d, cs, hd, hc⟩ := decimal_head n
  obtain ⟨h1, h2⟩ := takeWhile_append (decimal_all n) hr
  have hr' := read_nat_decimal n
  rw [hc] at h1 h2 hr' ⊢
  have hall : ∀ d < 10, is_space (digit d) = false ∧ digit d ≠ '(' ∧ digit d ≠ ')' ∧ digit d ≠ ',' ∧ digit d ≠ ';' ∧
      digit d ≠ '-' ∧ digit d ≠ '\'' ∧ digit d ≠ '"' ∧ digit d ≠ 'X' ∧ digit d ≠ 'x' := by decide
  obtain ⟨e0, e1, e2, e3, e4, e5, e6, e7, e8, e9⟩ := hall d hd
  rw [List.cons_append] at h1 h2 ⊢
  refine lexes_token e0 ?_ (rest := rest) ?_ h
  · simp only [next_token, if_neg e1, if_neg e2, if_neg e3, if_neg e4, if_neg e5, if_neg e6, if_neg e7]
    rw [if_neg (by rintro ⟨h | h, _⟩ <;> contradiction), if_pos (is_decimal_digit hd), h1, h2]
    simp only [read_nat] at hr'
    rw [hr']
  · simp

theorem lexes_text (s : List Char) {rest : List Char} {ts : List SqlToken} (hr : rest.head? ≠ some '\'')
    (h : Lexes rest ts) : Lexes ('\'' :: doubled '\'' s ++ '\'' :: rest) (.text s :: ts) := by
  rw [List.cons_append]
  refine lexes_token rfl (rest := rest) ?_ (by simp; omega) h
  show (read_quoted '\'' _).map _ = _
  rw [read_quoted_doubled _ _ _ hr]
  rfl

theorem lexes_name (s : List Char) {rest : List Char} {ts : List SqlToken} (hr : rest.head? ≠ some '"')
    (h : Lexes rest ts) : Lexes ('"' :: doubled '"' s ++ '"' :: rest) (.name s :: ts) := by
  rw [List.cons_append]
  refine lexes_token rfl (rest := rest) ?_ (by simp; omega) h
  show (read_quoted '"' _).map _ = _
  rw [read_quoted_doubled _ _ _ hr]
  rfl

theorem lexes_blob (b : Bytes) {rest : List Char} {ts : List SqlToken} (hr : rest.head? ≠ some '\'')
    (h : Lexes rest ts) : Lexes ('X' :: '\'' :: hex b ++ '\'' :: rest) (.blob b :: ts) := by
  rw [List.cons_append, List.cons_append]
  refine lexes_token rfl (rest := rest) ?_ (by simp; omega) h
  have hq := read_quoted_doubled '\'' (hex b) rest hr
  rw [doubled_hex] at hq
  show (match read_quoted '\'' (hex b ++ '\'' :: rest) with
      | none => none
      | some r => (read_hex r.1).map fun b => (SqlToken.blob b, r.2)) = _
  rw [hq]
  simp only [read_hex_hex, Option.map_some]

theorem lexes_keyword {c : Char} {w rest : List Char} {k : Keyword} {ts : List SqlToken}
    (hk : keyword_of (c :: w) = some k) (hw : ∀ d ∈ c :: w, is_letter d = true) (hx : c ≠ 'X' ∧ c ≠ 'x')
    (hr : Stops is_letter rest) (h : Lexes rest ts) : Lexes ((c :: w) ++ rest) (.keyword k :: ts) := by
  obtain ⟨h1, h2⟩ := takeWhile_append hw hr
  have hl := hw c (List.mem_cons_self ..)
  have hn : ∀ d : Char, is_letter d = false → c ≠ d := fun d hd he => by rw [he, hd] at hl; exact nomatch hl
  have hnd : is_decimal c = false := by
    simp only [is_letter, Bool.or_eq_true, Bool.and_eq_true, decide_eq_true_eq] at hl
    simp only [is_decimal, Bool.and_eq_false_iff, decide_eq_false_iff_not]
    omega
  have hsp : is_space c = false := by
    simp only [is_space, Bool.or_eq_false_iff, decide_eq_false_iff_not]
    exact ⟨⟨⟨hn _ (by decide), hn _ (by decide)⟩, hn _ (by decide)⟩, hn _ (by decide)⟩
  rw [List.cons_append] at h1 h2 ⊢
  refine lexes_token hsp (rest := rest) ?_ (by simp) h
  simp only [next_token, if_neg (hn '(' (by decide)), if_neg (hn ')' (by decide)), if_neg (hn ',' (by decide)),
    if_neg (hn ';' (by decide)), if_neg (hn '-' (by decide)), if_neg (hn '\'' (by decide)),
    if_neg (hn '"' (by decide)), hx.1, hx.2, false_or, false_and, if_false, hnd, Bool.false_eq_true, hl, if_true,
    h1, h2, hk, Option.map_some]

theorem lexes_punct {c : Char} {rest : List Char} {t : SqlToken} {ts : List SqlToken}
    (hs : is_space c = false) (ht : next_token (c :: rest) = some (t, rest)) (h : Lexes rest ts) :
    Lexes (c :: rest) (t :: ts) := lexes_token hs ht (Nat.le_refl _) h

/-! ### Rows -/

/-- The tokens of a value. -/
def value_tokens : Value → List SqlToken
  | .null => [.keyword .null]
  | .int n => if n < 0 then [.minus, .number n.natAbs] else [.number n.natAbs]
  | .text s => [.text s.toList]
  | .blob b => [.blob b]

/-- What follows a value is a comma or the end of the row. -/
def EndsValue (rest : List Char) : Prop := ∃ c cs, rest = c :: cs ∧ (c = ',' ∨ c = ')')

theorem EndsValue.stops {rest : List Char} (h : EndsValue rest) :
    Stops is_decimal rest ∧ Stops is_letter rest ∧ rest.head? ≠ some '\'' := by
  obtain ⟨c, cs, rfl, rfl | rfl⟩ := h
  · exact ⟨fun d ds e => by injection e with e _; rw [← e]; rfl, fun d ds e => by injection e with e _; rw [← e]; rfl,
      by simp⟩
  · exact ⟨fun d ds e => by injection e with e _; rw [← e]; rfl, fun d ds e => by injection e with e _; rw [← e]; rfl,
      by simp⟩

theorem lexes_value (v : Value) (hv : ValueNoNul v) {rest : List Char} {ts : List SqlToken} (hr : EndsValue rest)
    (h : Lexes rest ts) : Lexes (quote_value v ++ rest) (value_tokens v ++ ts) := by
  obtain ⟨h1, h2, h3⟩ := hr.stops
  cases v with
  | null => exact lexes_keyword (by decide) (by decide) (by decide) h2 h
  | int n =>
    simp only [quote_value, value_tokens]
    split
    · exact lexes_punct rfl rfl (lexes_number _ h1 h)
    · exact lexes_number _ h1 h
  | text s =>
    simp only [quote_value, value_tokens, until_nul_eq hv]
    rw [List.append_assoc]
    exact lexes_text _ h3 h
  | blob b =>
    simp only [quote_value, value_tokens]
    rw [List.append_assoc]
    exact lexes_blob _ h3 h

/-- The tokens of a row, to the end of the statement. -/
def row_tokens : Row → List SqlToken
  | [] => [.closing, .semicolon]
  | [v] => value_tokens v ++ [.closing, .semicolon]
  | v :: vs => value_tokens v ++ .comma :: row_tokens vs

theorem lexes_end : Lexes [')', ';'] [.closing, .semicolon] :=
  lexes_punct rfl rfl (lexes_punct rfl rfl lexes_nil)

theorem lexes_row (row : Row) (h : ∀ v ∈ row, ValueNoNul v) :
    Lexes (quote_row row ++ [')', ';']) (row_tokens row) := by
  induction row with
  | nil => exact lexes_end
  | cons v vs ih =>
    have hv := h v (List.mem_cons_self ..)
    have ih := ih fun w hw => h w (List.mem_cons_of_mem _ hw)
    cases vs with
    | nil => exact lexes_value v hv ⟨_, _, rfl, .inr rfl⟩ lexes_end
    | cons w ws =>
      have hq : quote_row (v :: w :: ws) = quote_value v ++ ',' :: quote_row (w :: ws) := rfl
      rw [hq, List.append_assoc]
      exact lexes_value v hv ⟨_, _, rfl, .inl rfl⟩ (lexes_punct rfl rfl ih)

theorem parse_row_comma (v : Value) (hv : StoredValue v) (rest : List SqlToken) :
    parse_row (value_tokens v ++ .comma :: rest) = (parse_row rest).map fun vs => v :: vs := by
  cases v with
  | null =>
    show (match literal (.keyword .null), parse_row rest with
      | some v, some vs => some (v :: vs)
      | _, _ => none) = _
    cases parse_row rest <;> rfl
  | int n =>
    obtain ⟨h1, h2⟩ := hv
    simp only [value_tokens]
    split
    · rename_i hn
      show (match literal_negative n.natAbs, parse_row rest with
        | some v, some vs => some (v :: vs)
        | _, _ => none) = _
      have : literal_negative n.natAbs = some (.int n) := by
        unfold literal_negative
        rw [if_pos (by omega)]
        congr 2; omega
      rw [this]
      cases parse_row rest <;> rfl
    · rename_i hn
      show (match literal (.number n.natAbs), parse_row rest with
        | some v, some vs => some (v :: vs)
        | _, _ => none) = _
      have : literal (.number n.natAbs) = some (.int n) := by
        show literal_number _ = _
        unfold literal_number
        rw [if_pos (by omega)]
        congr 2; omega
      rw [this]
      cases parse_row rest <;> rfl
  | text s =>
    show (match literal (.text s.toList), parse_row rest with
      | some v, some vs => some (v :: vs)
      | _, _ => none) = _
    simp only [literal, String.ofList_toList]
    cases parse_row rest <;> rfl
  | blob b =>
    show (match literal (.blob b), parse_row rest with
      | some v, some vs => some (v :: vs)
      | _, _ => none) = _
    cases parse_row rest <;> rfl

theorem parse_row_last (v : Value) (hv : StoredValue v) :
    parse_row (value_tokens v ++ [.closing, .semicolon]) = some [v] := by
  cases v with
  | null => rfl
  | int n =>
    obtain ⟨h1, h2⟩ := hv
    simp only [value_tokens]
    split
    · rename_i hn
      show (literal_negative n.natAbs).map _ = _
      have : literal_negative n.natAbs = some (.int n) := by
        unfold literal_negative
        rw [if_pos (by omega)]
        congr 2; omega
      rw [this]; rfl
    · rename_i hn
      show (literal (.number n.natAbs)).map _ = _
      have : literal (.number n.natAbs) = some (.int n) := by
        show literal_number _ = _
        unfold literal_number
        rw [if_pos (by omega)]
        congr 2; omega
      rw [this]; rfl
  | text s =>
    show (literal (.text s.toList)).map _ = _
    simp only [literal, String.ofList_toList]
    rfl
  | blob b => rfl

theorem parse_row_tokens (row : Row) (hne : row ≠ []) (h : ∀ v ∈ row, StoredValue v) :
    parse_row (row_tokens row) = some row := by
  induction row with
  | nil => exact absurd rfl hne
  | cons v vs ih =>
    have hv := h v (List.mem_cons_self ..)
    cases vs with
    | nil => exact parse_row_last v hv
    | cons w ws =>
      have ht : row_tokens (v :: w :: ws) = value_tokens v ++ .comma :: row_tokens (w :: ws) := rfl
      rw [ht, parse_row_comma v hv, ih (List.cons_ne_nil _ _) fun x hx => h x (List.mem_cons_of_mem _ hx)]
      rfl

/-! ### Statements -/

theorem lexes_insert (name : String) (row : Row) (h : ∀ v ∈ row, ValueNoNul v) :
    Lexes (insert_text name row) (.keyword .insert :: .keyword .into :: .name name.toList :: .keyword .values ::
      .opening :: row_tokens row) := by
  have h0 := lexes_punct (c := '(') rfl rfl (lexes_row row h)
  have h1 := lexes_keyword (c := 'V') (w := ['A', 'L', 'U', 'E', 'S']) (k := .values) (by decide) (by decide) (by decide)
    (fun d ds e => by injection e with e _; rw [← e]; rfl) h0
  have h2 := lexes_name name.toList (rest := ' ' :: _) (by simp) (lexes_space h1)
  have h3 := lexes_keyword (c := 'I') (w := ['N', 'T', 'O']) (k := .into) (rest := ' ' :: _) (by decide) (by decide)
    (by decide) (fun d ds e => by injection e with e _; rw [← e]; rfl) (lexes_space h2)
  have h4 := lexes_keyword (c := 'I') (w := ['N', 'S', 'E', 'R', 'T']) (k := .insert) (rest := ' ' :: _) (by decide)
    (by decide) (by decide) (fun d ds e => by injection e with e _; rw [← e]; rfl) (lexes_space h3)
  unfold insert_text
  simpa only [List.append_assoc, List.cons_append, List.nil_append] using h4

theorem read_of_lexes (ddl : DdlText) {text : List Char} {ts : List SqlToken}
    (hc : starts_with_create_table text = false) (h : Lexes text ts) : read_sql ddl text = parse_tokens ts := by
  unfold read_sql
  rw [hc, h _ (Nat.lt_succ_self _)]
  rfl

theorem read_insert (ddl : DdlText) (name : String) (row : Row) (hn : name ≠ "sqlite_sequence") (hne : row ≠ [])
    (hs : ∀ v ∈ row, StoredValue v) (h : ∀ v ∈ row, ValueNoNul v) :
    read_sql ddl (insert_text name row) = .insert name row := by
  rw [read_of_lexes ddl rfl (lexes_insert name row h)]
  simp only [parse_tokens, parse_row_tokens row hne hs, String.ofList_toList, if_neg hn]

theorem read_insertSequence (ddl : DdlText) (name : String) (n : Int) (hn : NoNul name) (hs : StoredValue (.int n)) :
    read_sql ddl (insert_text "sqlite_sequence" [.text name, .int n]) = .insertSequence name n := by
  have h1 : ∀ v ∈ [Value.text name, .int n], ValueNoNul v := by
    intro v hv
    rcases List.mem_cons.mp hv with rfl | hv
    · exact hn
    · rw [List.mem_singleton.mp hv]; trivial
  have h2 : ∀ v ∈ [Value.text name, .int n], StoredValue v := by
    intro v hv
    rcases List.mem_cons.mp hv with rfl | hv
    · trivial
    · rw [List.mem_singleton.mp hv]; exact hs
  rw [read_of_lexes ddl rfl (lexes_insert _ _ h1)]
  simp only [parse_tokens, parse_row_tokens _ (List.cons_ne_nil _ _) h2, String.ofList_toList, if_true]

end ZKAP
