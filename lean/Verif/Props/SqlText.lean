import Verif.Lemmas.SqlText
import Verif.Props.Cbor
import Verif.Props.Recovery

/-! The text of snapshots (C145) and of names in statements (C146). -/
namespace ZKAP
open Spec

/-! ### C145 -/

/-- **C145** in full: from the file made of a dump of any database recovery reads the statements of the dump, with
every name and value as it was. -/
def C145_statement : Prop :=
  ∀ (ddl : DdlText) (src : Database) (dump : List Sql), WellFormed src → StoredDatabase src →
    KeepsDefinitions ddl src → IsDump src dump → FitsFile ddl dump →
    read_snapshot_file ddl (snapshot_file ddl dump) = .ok (dump.map some)

/-- Text of definitions for some tables: the name tells which. -/
def ddlFor (tables : List Table) : DdlText where
  write d := "CREATE TABLE".toList ++ d.name.toList
  read text := (tables.find? fun t => "CREATE TABLE".toList ++ t.schema.name.toList == text).map (·.schema)

/-- A text with NUL in it. -/
def exNul : Database := { tables := [{ schema := { name := "t", columns := [{ name := "c" }] }, rows := [[.text "a\x00b"]] }] }

theorem exNul_wellFormed : WellFormed exNul := by
  refine ⟨by decide, by decide +kernel, ?_, ?_, ?_, fun s h => (nomatch h), ?_⟩
  · intro t ht
    rw [List.mem_singleton.mp ht]
    exact ⟨by decide, by decide, fun c h => (nomatch h), fun c h => by rcases h with h | h <;> exact nomatch h⟩
  · intro t ht
    rw [List.mem_singleton.mp ht]
    intro f hf; exact nomatch hf
  · intro t ht
    rw [List.mem_singleton.mp ht]
    intro row _ f hf; exact nomatch hf
  · intro t ht
    rw [List.mem_singleton.mp ht]
    intro c hc; exact nomatch hc

/-- **C145 fails** for text that contains NUL, of which the dump has only the part before it. -/
theorem C145_fails : ¬ C145_statement := by
  intro h
  have h1 := h (ddlFor exNul.tables) exNul (iterdump exNul.tables exNul.sequence []) exNul_wellFormed
    ⟨by
      intro t ht row hr v hv
      rw [List.mem_singleton.mp ht] at hr
      rw [List.mem_singleton.mp hr] at hv
      rw [List.mem_singleton.mp hv]; trivial, fun s hs => (nomatch hs), by decide⟩
    (by
      intro t ht
      rw [List.mem_singleton.mp ht]
      exact ⟨⟨_, rfl⟩, by decide +kernel⟩)
    ⟨_, _, by rw [List.append_nil], rfl⟩
    ⟨by decide, by decide +kernel⟩
  have h2 : read_snapshot_file (ddlFor exNul.tables) (snapshot_file (ddlFor exNul.tables)
      (iterdump exNul.tables exNul.sequence [])) = .ok ([.beginTransaction,
        .createTable { name := "t", columns := [{ name := "c" }] }, .insert "t" [.text "a"], .commit].map some) := by
    decide +kernel
  rw [h2] at h1
  exact absurd h1 (by decide +kernel)

/-- What a statement of a dump needs to be read as it was written. -/
def Readable (ddl : DdlText) : Sql → Prop
  | .createTable d => starts_with_create_table (ddl.write d) = true ∧ ddl.read (ddl.write d) = some d
  | .insert table row => table ≠ "sqlite_sequence" ∧ row ≠ [] ∧ (∀ v ∈ row, StoredValue v) ∧ ∀ v ∈ row, ValueNoNul v
  | .insertSequence name n => NoNul name ∧ StoredValue (.int n)
  | .clearSequence | .beginTransaction | .commit => True
  | _ => False

/-- `DELETE FROM "sqlite_sequence";` -/
def clear_text : List Char := ['D', 'E', 'L', 'E', 'T', 'E', ' ', 'F', 'R', 'O', 'M', ' ', '"', 's', 'q', 'l', 'i', 't', 'e',
  '_', 's', 'e', 'q', 'u', 'e', 'n', 'c', 'e', '"', ';']

theorem clear_tokens : tokens_of (clear_text.length + 1) clear_text = some [.keyword .delete, .keyword .from,
    .name ['s', 'q', 'l', 'i', 't', 'e', '_', 's', 'e', 'q', 'u', 'e', 'n', 'c', 'e'], .semicolon] := by decide +kernel

theorem clear_parsed : parse_tokens [.keyword .delete, .keyword .from,
    .name ['s', 'q', 'l', 'i', 't', 'e', '_', 's', 'e', 'q', 'u', 'e', 'n', 'c', 'e'], .semicolon] = .clearSequence := by
  decide +kernel

theorem read_write (ddl : DdlText) (s : Sql) (h : Readable ddl s) : read_sql ddl (write_sql ddl s) = s := by
  cases s with
  | createTable d =>
    unfold read_sql write_sql
    dsimp only
    rw [if_pos h.1, h.2]
  | insert table row => exact read_insert ddl table row h.1 h.2.1 h.2.2.1 h.2.2.2
  | insertSequence name n => exact read_insertSequence ddl name n h.1 h.2
  | clearSequence =>
    show read_sql ddl clear_text = _
    unfold read_sql
    rw [if_neg (by decide), clear_tokens]
    exact clear_parsed
  | beginTransaction => rfl
  | commit => rfl
  | _ => exact h.elim

theorem dump_readable {ddl : DdlText} {src : Database} {dump : List Sql} (hw : WellFormed src)
    (hs : StoredDatabase src) (hn : DatabaseNoNul src) (hk : KeepsDefinitions ddl src) (hd : IsDump src dump) :
    ∀ s ∈ dump, Readable ddl s := by
  obtain ⟨before, after, hp, rfl⟩ := hd
  have htable : ∀ t ∈ src.tables, ∀ s ∈ dump_table t, Readable ddl s := by
    intro t ht s hx
    rcases List.mem_cons.mp hx with rfl | hx
    · obtain ⟨⟨rest, h1⟩, h2⟩ := hk t ht
      refine ⟨?_, h2⟩
      rw [h1]
      rfl
    · obtain ⟨row, hr, rfl⟩ := List.mem_map.mp hx
      refine ⟨fun he => ?_, fun he => ?_, hs.values t ht row hr, hn.values t ht row hr⟩
      · have := hw.unreserved t ht
        rw [he] at this
        exact absurd this (by decide +kernel)
      · have := (hw.tables t ht).rows row hr
        rw [he] at this
        exact hs.columns t ht (List.length_eq_zero_iff.mp this.symm)
  have hbefore : ∀ t ∈ before, t ∈ src.tables := fun t ht => hp.mem_iff.mp (List.mem_append_left _ ht)
  have hafter : ∀ t ∈ after, t ∈ src.tables := fun t ht => hp.mem_iff.mp (List.mem_append_right _ ht)
  intro s hx
  simp only [iterdump, List.mem_append, List.mem_cons, List.mem_flatMap, List.not_mem_nil, or_false] at hx
  rcases hx with (((rfl | ⟨t, ht, hx⟩) | hx) | ⟨t, ht, hx⟩) | rfl
  · trivial
  · exact htable t (hbefore t ht) s hx
  · cases hq : src.sequence with
    | none => rw [hq] at hx; exact nomatch hx
    | some q =>
      rw [hq] at hx
      rcases List.mem_cons.mp hx with rfl | hx
      · trivial
      · obtain ⟨e, he, rfl⟩ := List.mem_map.mp hx
        exact ⟨hn.numbers q hq e he, hs.numbers q hq e he⟩
  · exact htable t (hafter t ht) s hx
  · trivial

/-- **C145**, partial: it holds for every database whose text does not contain NUL: quotes, commas, semicolons, line
breaks, other SQL and letters of any script are read as they were written.  Missing: text with NUL. -/
theorem C145_partial (ddl : DdlText) (src : Database) (dump : List Sql) (hw : WellFormed src)
    (hs : StoredDatabase src) (hk : KeepsDefinitions ddl src) (hd : IsDump src dump) (hf : FitsFile ddl dump)
    (hn : DatabaseNoNul src) :
    read_snapshot_file ddl (snapshot_file ddl dump) = .ok (dump.map some) := by
  have h1 := C103_snapshot (dump.map fun s => String.ofList (write_sql ddl s)) (by rw [List.length_map]; exact hf.1)
    (by
      intro s hx
      obtain ⟨x, hx', rfl⟩ := List.mem_map.mp hx
      rw [String.toList_ofList]
      exact hf.2 x hx')
  have hr := dump_readable hw hs hn hk hd
  unfold read_snapshot_file snapshot_file
  rw [h1]
  simp only [List.append_nil, List.map_map, Except.ok.injEq]
  refine List.map_congr_left fun s hx => ?_
  simp only [Function.comp, String.toList_ofList, read_write ddl s (hr s hx)]

/-- **C145**, from database to database: a node whose store has no vouchers and that downloads the file made of a dump of
a database has the contents of that database afterwards. -/
theorem C145_recovered (utc : String → Option String) (ddl : DdlText) (src db : Database) (dump : List Sql)
    (hw : WellFormed src) (hs : StoredDatabase src) (hk : KeepsDefinitions ddl src) (hd : IsDump src dump)
    (hf : FitsFile ddl dump) (hn : DatabaseNoNul src)
    (hv : OfVersion currentVersion db) (hwf : WellFormed db) (he : NoVouchers db) :
    SameContents src ((startedNode db).run utc [.request, .downloaded (.ok
      ⟨read_snapshot_file ddl (snapshot_file ddl dump), []⟩)]).conn.committed := by
  rw [C145_partial ddl src dump hw hs hk hd hf hn]
  exact (C60_recovered utc src db dump [] hw hv hwf he hd (fun s hs => (nomatch hs))).1

/-! ### An example -/

instance (v : Value) : Decidable (StoredValue v) := by unfold StoredValue; cases v <;> infer_instance

instance (s : String) : Decidable (NoNul s) := by unfold NoNul; infer_instance

instance (v : Value) : Decidable (ValueNoNul v) := by unfold ValueNoNul; cases v <;> infer_instance

/-- A voucher whose number has quotes, SQL, a line break and an accented letter in it, and an event whose
statement has quotes. -/
def exQuotes : Database :=
  ((startedNode newDatabase).run exUtc [
    .call [.insertOrIgnore "vouchers" [("number", .text "it's\"'); DROP TABLE [x]; --\né"), ("expected-tokens", .int (-7)),
      ("created", .text "")]],
    .call [.insertNamed "event-stream" [("statement", .text "UPDATE [t] SET [a] = 'b''c'"),
      ("serialized_arguments", .blob [0x80, 0x27, 0x0f]), ("important", .int 0)]]]).conn.committed

theorem exQuotes_wellFormed : WellFormed exQuotes :=
  WellFormed.calls [_, _] (by decide +kernel) newDatabase_wellFormed

theorem exQuotes_stored : StoredDatabase exQuotes :=
  ⟨by decide +kernel, by
    intro s hs
    have : exQuotes.sequence = some [("event-stream", 1)] := by decide +kernel
    rw [this] at hs
    injection hs with hs
    subst hs
    decide +kernel, by decide +kernel⟩

theorem exQuotes_noNul : DatabaseNoNul exQuotes :=
  ⟨by decide +kernel, by
    intro s hs
    have : exQuotes.sequence = some [("event-stream", 1)] := by decide +kernel
    rw [this] at hs
    injection hs with hs
    subst hs
    decide +kernel⟩

example : SameContents exQuotes ((startedNode newDatabase).run exUtc [.request, .downloaded (.ok
    ⟨read_snapshot_file (ddlFor exQuotes.tables) (snapshot_file (ddlFor exQuotes.tables)
      (iterdump exQuotes.tables exQuotes.sequence [])), []⟩)]).conn.committed :=
  C145_recovered exUtc (ddlFor exQuotes.tables) exQuotes newDatabase _ exQuotes_wellFormed exQuotes_stored
    (fun t ht => ⟨⟨_, rfl⟩, by revert t; decide +kernel⟩) ⟨_, _, by rw [List.append_nil], rfl⟩
    ⟨by decide +kernel, by decide +kernel⟩ exQuotes_noNul newDatabase_ok newDatabase_wellFormed
    (by unfold NoVouchers; decide +kernel)

/-- How the voucher is written: quotes are written twice. -/
example : write_sql (ddlFor []) (.insert "t" [.text "it's", .int (-7), .null, .blob [0x80, 0x27]]) =
    "INSERT INTO \"t\" VALUES('it''s',-7,NULL,X'8027');".toList := by decide +kernel

/-! ### C146 -/

/-- **C146** in full: any string, escaped, is the name of a table in a statement. -/
def C146_statement : Prop := ∀ name : String, read_identifier (escape_identifier name) = some name

/-- **C146 fails**: single quotes in the name are not written twice. -/
theorem C146_fails : ¬ C146_statement := fun h => absurd (h "it's") (by decide +kernel)

/-- **C146** goes wrong in the other way too: the name of one table can be taken for that of another. -/
theorem C146_other_fails : read_identifier (escape_identifier "it''s") = some "it's" := by decide +kernel

theorem read_quoted_length {q : Char} {cs s rest : List Char} (h : read_quoted q cs = some (s, rest)) :
    cs.length = s.length + s.count q + 1 + rest.length := by
  fun_induction read_quoted q cs generalizing s rest with
  | case1 => exact nomatch h
  | case2 => injection h with h; injection h with h1 h2; subst h1; subst h2; rfl
  | case3 => exact nomatch h
  | case4 cs ih =>
    cases hr : read_quoted q cs with
    | none => rw [hr] at h; exact nomatch h
    | some r =>
      rw [hr] at h
      injection h with h; injection h with h1 h2; subst h1; subst h2
      have := ih hr
      simp only [List.length_cons, List.count_cons_self]
      omega
  | case5 => injection h with h; injection h with h1 h2; subst h1; subst h2; simp; omega
  | case6 c d cs hc ih =>
    cases hr : read_quoted q (d :: cs) with
    | none => rw [hr] at h; exact nomatch h
    | some r =>
      rw [hr] at h
      injection h with h; injection h with h1 h2; subst h1; subst h2
      have := ih hr
      simp only [List.length_cons, List.count_cons_of_ne hc] at this ⊢
      omega

/-- **C146**, partial: it holds exactly for names without single quotes.  Missing: other names. -/
theorem C146_partial (name : String) :
    read_identifier (escape_identifier name) = some name ↔ '\'' ∉ name.toList := by
  constructor
  · intro h hq
    have h1 : next_token (escape_identifier name) =
        (read_quoted '\'' (name.toList ++ ['\''])).map fun r => (.text r.1, r.2) := rfl
    unfold read_identifier at h
    rw [h1] at h
    cases hr : read_quoted '\'' (name.toList ++ ['\'']) with
    | none => rw [hr] at h; exact nomatch h
    | some r =>
      obtain ⟨s, rest⟩ := r
      rw [hr] at h
      cases rest with
      | cons c cs => exact nomatch h
      | nil =>
        have hs : some (String.ofList s) = some name := h
        injection hs with hs
        have hl := read_quoted_length hr
        have he : s = name.toList := by rw [← hs, String.toList_ofList]
        rw [he] at hl
        have := List.count_pos_iff.mpr hq
        simp only [List.length_append, List.length_cons, List.length_nil] at hl
        omega
  · intro h
    have hd : doubled '\'' name.toList = name.toList := by
      unfold doubled
      generalize name.toList = cs at h
      induction cs with
      | nil => rfl
      | cons c cs ih =>
        rw [List.flatMap_cons, ih fun hc => h (List.mem_cons_of_mem _ hc),
          if_neg fun hc => h (by rw [hc]; exact List.mem_cons_self ..)]
        rfl
    have hr := read_quoted_doubled '\'' name.toList [] (by simp)
    rw [hd] at hr
    unfold read_identifier escape_identifier
    have : next_token ('\'' :: name.toList ++ ['\'']) = some (.text name.toList, []) := by
      show (read_quoted '\'' (name.toList ++ ['\''])).map _ = _
      rw [hr]; rfl
    rw [this]
    simp only [String.ofList_toList]

/-- **C146**: the tables that recovery drops, those of the current version, have such names. -/
theorem C146_plugin (db : Database) (hv : OfVersion currentVersion db) (t : Table) (ht : t ∈ db.tables) :
    read_identifier (escape_identifier t.schema.name) = some t.schema.name := by
  have : ∀ d ∈ schemaAt currentVersion, '\'' ∉ d.name.toList := by decide +kernel
  rw [C146_partial]
  apply this
  rw [← hv.tables]
  exact List.mem_map_of_mem ht

/-- The lexical rules at their boundaries: small letters are digits of blobs too, and a number ends before what is not
a digit. -/
example : read_hex ['a', 'F', '0', '9'] = some [175, 9] ∧ read_hex ['g', '0'] = none ∧ read_hex ['0', ':'] = none ∧
    read_hex ['0', 'G'] = none ∧ read_hex ['0', '@'] = none ∧ read_hex ['0', '`'] = none ∧ read_hex ['/', '0'] = none ∧
    ['A', 'Z', 'a', 'z'].all is_letter = true ∧ ['@', '[', '`', '{'].any is_letter = false ∧
    next_token ['1', '9', ':'] = some (.number 19, [':']) ∧ next_token ['2', '0', '/'] = some (.number 20, ['/']) := by
  decide +kernel

/-- The numbers that are integers in SQLite are those of 64 bits. -/
example : literal_number 9223372036854775807 = some (.int 9223372036854775807) ∧
    literal_number 9223372036854775808 = none ∧
    literal_negative 9223372036854775808 = some (.int (-9223372036854775808)) ∧
    literal_negative 9223372036854775809 = none := by decide +kernel

end ZKAP
