import Verif.Lemmas.TahoeApi

/-! Conversions of text that meet `TextLaws`: the laws are satisfiable. -/
namespace ZKAP
open Spec

/-- `n` ones and a full stop. -/
def onesChars (n : Nat) : List Char := List.replicate n '1' ++ ['.']

theorem ones_inj {a b : Nat} {r s : List Char} (h : onesChars a ++ r = onesChars b ++ s) : a = b ∧ r = s := by
  induction a generalizing b with
  | zero =>
    cases b with
    | zero => exact ⟨rfl, by simpa [onesChars] using h⟩
    | succ b => simp [onesChars, List.replicate_succ] at h
  | succ a ih =>
    cases b with
    | zero => simp [onesChars, List.replicate_succ] at h
    | succ b =>
      have h2 : onesChars a ++ r = onesChars b ++ s := by
        simpa [onesChars, List.replicate_succ] using h
      obtain ⟨h3, h4⟩ := ih h2
      exact ⟨by omega, h4⟩

/-- A capability. -/
def capChars : Cap → List Char
  | .chk n => 'f' :: onesChars n
  | .dirWrite n => 'w' :: onesChars n
  | .dirRead n => 'r' :: onesChars n

theorem cap_inj {a b : Cap} {r s : List Char} (h : capChars a ++ r = capChars b ++ s) : a = b ∧ r = s := by
  cases a <;> cases b <;> simp only [capChars, List.cons_append, List.cons.injEq] at h <;>
    first
    | (obtain ⟨h1, h2⟩ := ones_inj h.2; subst h1; exact ⟨rfl, h2⟩)
    | exact absurd h.1 (by decide)

/-- A name. -/
def nameChars : List Char → List Char
  | [] => ['.']
  | c :: cs => 'c' :: c :: nameChars cs

theorem name_inj {a b r s : List Char} (h : nameChars a ++ r = nameChars b ++ s) : a = b ∧ r = s := by
  induction a generalizing b with
  | nil =>
    cases b with
    | nil => exact ⟨rfl, by simpa [nameChars] using h⟩
    | cons => simp [nameChars] at h
  | cons c a ih =>
    cases b with
    | nil => simp [nameChars] at h
    | cons d b =>
      simp only [nameChars, List.cons_append, List.cons.injEq, true_and] at h
      obtain ⟨h1, h2⟩ := ih h.2
      exact ⟨by rw [h.1, h1], h2⟩

/-- An entry. -/
def entryChars : DirEntry → List Char
  | .file size ro => 'f' :: (onesChars size ++ capChars ro)
  | .directory ro => 'd' :: capChars ro

theorem entry_inj {a b : DirEntry} {r s : List Char} (h : entryChars a ++ r = entryChars b ++ s) : a = b ∧ r = s := by
  cases a <;> cases b <;> simp only [entryChars, List.cons_append, List.cons.injEq, List.append_assoc] at h
  · obtain ⟨h1, h2⟩ := ones_inj h.2
    obtain ⟨h3, h4⟩ := cap_inj h2
    subst h1; subst h3
    exact ⟨rfl, h4⟩
  · exact absurd h.1 (by decide)
  · exact absurd h.1 (by decide)
  · obtain ⟨h3, h4⟩ := cap_inj h.2
    subst h3
    exact ⟨rfl, h4⟩

/-- A listing. -/
def entriesChars : Dict String DirEntry → List Char
  | [] => []
  | (name, e) :: rest => nameChars name.toList ++ (entryChars e ++ entriesChars rest)

theorem name_ne_nil (cs r : List Char) : nameChars cs ++ r ≠ [] := by
  cases cs <;> simp [nameChars]

theorem entries_inj {a b : Dict String DirEntry} (h : entriesChars a = entriesChars b) : a = b := by
  induction a generalizing b with
  | nil =>
    cases b with
    | nil => rfl
    | cons kv b => exact absurd h.symm (name_ne_nil _ _)
  | cons kv a ih =>
    cases b with
    | nil => exact absurd h (name_ne_nil _ _)
    | cons kv2 b =>
      obtain ⟨n1, e1⟩ := kv
      obtain ⟨n2, e2⟩ := kv2
      obtain ⟨h1, h2⟩ := name_inj h
      obtain ⟨h3, h4⟩ := entry_inj h2
      rw [String.ext (h1 : n1.toList = n2.toList), h3, ih h4]

/-- Reads `capChars`. -/
def parseChars : List Char → Option Cap
  | 'f' :: cs => some (.chk (cs.length - 1))
  | 'w' :: cs => some (.dirWrite (cs.length - 1))
  | 'r' :: cs => some (.dirRead (cs.length - 1))
  | _ => none

theorem parse_capChars (c : Cap) : parseChars (capChars c) = some c := by
  cases c <;> simp [capChars, parseChars, onesChars]

/-- The capabilities alone. -/
def capText : ApiText where
  show_cap c := String.ofList (capChars c)
  parse_cap s := parseChars s.toList
  dumps _ := ""
  loads _ := none

open Classical in
/-- With listings. -/
noncomputable def exText : ApiText where
  show_cap c := String.ofList (capChars c)
  parse_cap s := parseChars s.toList
  dumps j := if h : ∃ es, j = listing_json capText es then String.ofList (entriesChars h.choose) else ""
  loads s := if h : ∃ es, s = String.ofList (entriesChars es) then some (listing_json capText h.choose) else none

theorem entry_json_capText (e : DirEntry) : entry_json exText e = entry_json capText e := by cases e <;> rfl

theorem listing_capText (es : Dict String DirEntry) : listing_json exText es = listing_json capText es := by
  unfold listing_json
  simp only [entry_json_capText]

theorem capChars_no_N (c : Cap) : 'N' ∉ capChars c := by
  cases c <;> simp [capChars, onesChars, List.mem_replicate]

theorem exText_laws : TextLaws exText where
  cap c := by
    show parseChars (String.ofList (capChars c)).toList = some c
    rw [String.toList_ofList, parse_capChars]
  nonempty c := by
    intro h
    have := congrArg String.toList h
    change (String.ofList (capChars c)).toList = _ at this
    rw [String.toList_ofList] at this
    cases c <;> simp [capChars] at this
  plain c := by
    apply plain_char
    show 'N' ∉ (String.ofList (capChars c)).toList
    rw [String.toList_ofList]
    exact capChars_no_N c
  json es := by
    rw [listing_capText]
    have h1 : ∃ es2, listing_json capText es = listing_json capText es2 := ⟨es, rfl⟩
    have h2 : exText.dumps (listing_json capText es) = String.ofList (entriesChars h1.choose) := dif_pos h1
    rw [h2]
    have h3 : ∃ es2, String.ofList (entriesChars h1.choose) = String.ofList (entriesChars es2) := ⟨_, rfl⟩
    have h4 : exText.loads (String.ofList (entriesChars h1.choose)) = some (listing_json capText h3.choose) := dif_pos h3
    rw [h4]
    have h5 := h3.choose_spec
    have h6 := congrArg String.toList h5
    rw [String.toList_ofList, String.toList_ofList] at h6
    rw [← entries_inj h6, ← h1.choose_spec]

end ZKAP
