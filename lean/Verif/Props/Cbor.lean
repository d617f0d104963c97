import Verif.Spec.Cbor
import Verif.Lemmas.Cbor

/-!
The files of a replica as bytes.

* C103: an event stream and a snapshot are read back as they were written;
* C104: a file that is cut short is refused;
* C105: a file of another version of the format is refused.
-/
namespace ZKAP
open Spec

/-! ### C103 -/

theorem text_fits {s : String} (h : s.toList.length ≤ 1000000000) : (Cbor.text s).Fits := by
  rw [Cbor.Fits]
  have := utf8_encode_length s
  omega

theorem bindable_fits {a : SqlType} (h : Bindable a) : a.toCbor.Fits := by
  cases a with
  | none => rw [SqlType.toCbor, Cbor.Fits]; trivial
  | int n => obtain ⟨h1, h2⟩ := h; rw [SqlType.toCbor, Cbor.Fits]; omega
  | bool b => rw [SqlType.toCbor, Cbor.Fits]; trivial
  | float bits => rw [SqlType.toCbor, Cbor.Fits]; exact h.1
  | str s => exact text_fits h
  | bytes b =>
    rw [SqlType.toCbor, Cbor.Fits]
    have : b.length ≤ 1000000000 := h
    omega
  | datetime t => rw [SqlType.toCbor, Cbor.Fits]; exact h

theorem arguments_fit {sql : String} {args : List SqlType} (h : Executable sql args) :
    (Cbor.array (args.map SqlType.toCbor)).Fits := by
  rw [Cbor.Fits, items_fit_iff]
  refine ⟨by rw [List.length_map]; have := h.few; omega, fun x hx => ?_⟩
  obtain ⟨a, ha, rfl⟩ := List.mem_map.mp hx
  exact bindable_fits (h.bindable a ha)

/-- The events that the rows of the statements are read as. -/
def events_from : Nat → List (Bool × String × List SqlType) → List ChangeRecord
  | _, [] => []
  | n, (important, sql, args) :: rest =>
    ⟨.int n, .text sql, args, .int (if important then 1 else 0)⟩ :: events_from (n + 1) rest

theorem get_rows_append (rows more : List EventRow) (a b : List ChangeRecord)
    (ha : get_event_rows rows = .ok a) (hb : get_event_rows more = .ok b) :
    get_event_rows (rows ++ more) = .ok (a ++ b) := by
  induction rows generalizing a with
  | nil => cases ha; exact hb
  | cons row rows ih =>
    rw [List.cons_append, get_event_rows]
    rw [get_event_rows] at ha
    cases h1 : cbor_loads row.serialized_arguments with
    | error e => rw [h1] at ha; exact nomatch ha
    | ok v =>
      rw [h1] at ha
      simp only at ha ⊢
      cases h2 : sql_arguments v with
      | error e => rw [h2] at ha; exact nomatch ha
      | ok args =>
        rw [h2] at ha
        simp only at ha ⊢
        cases h3 : get_event_rows rows with
        | error e => rw [h3] at ha; exact nomatch ha
        | ok c =>
          rw [h3] at ha
          cases ha
          rw [ih c h3]
          rfl

theorem get_added_rows (n : Nat) (important : Bool) (ss : List (String × List SqlType))
    (h : ∀ s ∈ ss, Executable s.1 s.2) :
    get_event_rows (add_event_rows n important ss) =
      .ok (events_from n (ss.map fun s => (important, s))) := by
  induction ss generalizing n with
  | nil => rfl
  | cons s ss ih =>
    obtain ⟨sql, args⟩ := s
    have hl := loads_dumps _ (arguments_fit (h _ List.mem_cons_self)) []
    rw [List.append_nil] at hl
    rw [add_event_rows, get_event_rows, hl]
    simp only [sql_arguments_array]
    rw [ih _ fun s hs => h s (List.mem_cons_of_mem _ hs)]
    rfl

theorem events_from_append (n : Nat) (a b : List (Bool × String × List SqlType)) :
    events_from n (a ++ b) = events_from n a ++ events_from (n + a.length) b := by
  induction a generalizing n with
  | nil => rfl
  | cons x a ih =>
    rw [List.cons_append, events_from, events_from, ih, List.length_cons, List.cons_append,
      Nat.add_assoc, Nat.add_comm 1]

theorem get_recorded (first : Nat) (ts : Transactions)
    (h : ∀ s ∈ statements ts, Executable s.2.1 s.2.2) :
    get_event_rows (recorded_rows first ts) = .ok (events_from first (statements ts)) := by
  induction ts generalizing first with
  | nil => rfl
  | cons t ts ih =>
    obtain ⟨important, ss⟩ := t
    have hs : statements ((important, ss) :: ts) =
        ss.map (fun s => (important, s)) ++ statements ts := rfl
    rw [hs] at h ⊢
    rw [recorded_rows, events_from_append, List.length_map]
    refine get_rows_append _ _ _ _ (get_added_rows _ _ _ fun s hs' => ?_) (ih _ fun s hs' => ?_)
    · exact h (important, s) (List.mem_append_left _ (List.mem_map.mpr ⟨s, hs', rfl⟩))
    · exact h s (List.mem_append_right _ hs')

theorem events_length (n : Nat) (ss : List (Bool × String × List SqlType)) :
    (events_from n ss).length = ss.length := by
  induction ss generalizing n with
  | nil => rfl
  | cons s ss ih => simp only [events_from, List.length_cons, ih]

theorem events_get (n i : Nat) (ss : List (Bool × String × List SqlType)) (h : i < ss.length)
    (h' : i < (events_from n ss).length) :
    (events_from n ss)[i] = ⟨.int ((n + i : Nat) : Int), .text ss[i].2.1, ss[i].2.2,
      .int (if ss[i].1 then 1 else 0)⟩ := by
  induction ss generalizing n i with
  | nil => exact (Nat.not_lt_zero _ h).elim
  | cons s ss ih =>
    cases i with
    | zero => rfl
    | succ i =>
      have := ih (n + 1) i (Nat.lt_of_succ_lt_succ h) (by rw [events_length]; exact Nat.lt_of_succ_lt_succ h)
      simp only [events_from, List.getElem_cons_succ]
      rw [this, show n + 1 + i = n + (i + 1) by omega]

theorem change_fits {n : Nat} {important : Bool} {sql : String} {args : List SqlType}
    (hn : n < 2 ^ 63) (h : Executable sql args) :
    (change_item ⟨.int n, .text sql, args, .int (if important then 1 else 0)⟩).Fits := by
  unfold change_item
  rw [Cbor.Fits, items_fit_iff]
  refine ⟨by simp, fun x hx => ?_⟩
  simp only [List.mem_cons, List.not_mem_nil, or_false] at hx
  rcases hx with rfl | rfl | rfl | rfl
  · rw [Cbor.Fits]; omega
  · exact text_fits h.short
  · exact arguments_fit h
  · rw [Cbor.Fits]; cases important <;> decide

theorem stream_fits (first : Nat) (ss : List (Bool × String × List SqlType))
    (hn : first + ss.length ≤ 2 ^ 63) (h : ∀ s ∈ ss, Executable s.2.1 s.2.2) :
    (stream_item (events_from first ss)).Fits := by
  unfold stream_item
  rw [Cbor.Fits]
  refine ⟨by simp, ?_⟩
  rw [pairs_fit, pairs_fit, pairs_fit]
  refine ⟨text_fits (by decide +kernel), by rw [Cbor.Fits]; decide, text_fits (by decide +kernel), ?_, trivial⟩
  rw [Cbor.Fits, List.length_map, events_length, items_fit_iff]
  refine ⟨by omega, fun x hx => ?_⟩
  obtain ⟨e, he, rfl⟩ := List.mem_map.mp hx
  obtain ⟨i, hi, rfl⟩ := List.mem_iff_getElem.mp he
  have hi' : i < ss.length := by rw [events_length] at hi; exact hi
  rw [events_get first i ss hi' hi]
  exact change_fits (by omega) (h _ (List.getElem_mem hi'))

/-- **C103** (event streams).  Whatever statements a node executes, in whatever transactions: the
rows it records are read back, the file it uploads is read back by recovery, and recovery sees the
same statements with the same arguments in the same order, numbered without gaps and marked
important as the transactions were. -/
theorem C103_event_stream (first : Nat) (ts : Transactions)
    (hn : first + (statements ts).length ≤ 2 ^ 63)
    (h : ∀ s ∈ statements ts, Executable s.2.1 s.2.2) :
    ∃ changes, get_event_rows (recorded_rows first ts) = .ok changes ∧
      event_stream_from_bytes (event_stream_to_bytes changes) = .ok changes ∧
      ∃ hl : changes.length = (statements ts).length,
        ∀ i (hi : i < (statements ts).length),
          changes[i] = ⟨.int ((first + i : Nat) : Int), .text (statements ts)[i].2.1, (statements ts)[i].2.2,
            .int (if (statements ts)[i].1 then 1 else 0)⟩ := by
  refine ⟨events_from first (statements ts), get_recorded first ts h, ?_, events_length _ _, ?_⟩
  · have := stream_of_item _ (stream_fits first _ hn h) []
    rw [List.append_nil] at this
    exact this
  · exact fun i hi => events_get first i _ hi (by rw [events_length]; exact hi)

/-- What recovery executes for the events of some statements. -/
theorem replayed_events (n : Nat) (ss : List (Bool × String × List SqlType)) :
    replayed_statements (events_from n ss) =
      (ss.filter fun s => s.2.1 != "BEGIN TRANSACTION;" && s.2.1 != "COMMIT;").map
        fun s => (.text s.2.1, s.2.2) := by
  induction ss generalizing n with
  | nil => rfl
  | cons s ss ih =>
    obtain ⟨important, sql, args⟩ := s
    rw [events_from, replayed_statements]
    simp only
    by_cases hs : sql = "BEGIN TRANSACTION;" ∨ sql = "COMMIT;"
    · rw [if_pos hs, ih, List.filter_cons_of_neg]
      simp only [Bool.and_eq_true, bne_iff_ne, not_and, Decidable.not_not]
      intro h1
      rcases hs with h | h
      · exact absurd h h1
      · exact h
    · rw [if_neg hs, ih, List.filter_cons_of_pos, List.map_cons]
      simp only [Bool.and_eq_true, bne_iff_ne]
      exact ⟨fun h => hs (.inl h), fun h => hs (.inr h)⟩

/-- **C103** (event streams, replayed).  From the file alone recovery executes the statements of
the node with their arguments, in order, except those that begin and end transactions. -/
theorem C103_replayed (first : Nat) (ts : Transactions)
    (hn : first + (statements ts).length ≤ 2 ^ 63)
    (h : ∀ s ∈ statements ts, Executable s.2.1 s.2.2) :
    ∃ changes file, get_event_rows (recorded_rows first ts) = .ok changes ∧
      event_stream_to_bytes changes = file ∧
      (event_stream_from_bytes file).map replayed_statements =
        .ok (((statements ts).filter fun s => s.2.1 != "BEGIN TRANSACTION;" && s.2.1 != "COMMIT;").map
          fun s => (.text s.2.1, s.2.2)) := by
  refine ⟨events_from first (statements ts), _, get_recorded first ts h, rfl, ?_⟩
  have := stream_of_item _ (stream_fits first _ hn h) []
  rw [List.append_nil] at this
  rw [event_stream_bytes, this]
  show Except.ok _ = Except.ok _
  rw [replayed_events]

theorem snapshot_fits (ss : List String) (hn : ss.length < 2 ^ 64)
    (h : ∀ s ∈ ss, s.toList.length ≤ 1000000000) : (snapshot_item ss).Fits := by
  unfold snapshot_item
  rw [Cbor.Fits]
  refine ⟨by simp, ?_⟩
  rw [pairs_fit, pairs_fit, pairs_fit]
  refine ⟨text_fits (by decide +kernel), by rw [Cbor.Fits]; decide, text_fits (by decide +kernel), ?_, trivial⟩
  rw [Cbor.Fits, List.length_map, items_fit_iff]
  refine ⟨hn, fun x hx => ?_⟩
  obtain ⟨s, hs, rfl⟩ := List.mem_map.mp hx
  exact text_fits (h s hs)

/-- **C103** (snapshots).  The statements of a snapshot are read back from its file. -/
theorem C103_snapshot (ss : List String) (hn : ss.length < 2 ^ 64)
    (h : ∀ s ∈ ss, s.toList.length ≤ 1000000000) :
    statements_from_snapshot (statements_to_snapshot ss) = .ok (ss, none) := by
  have := snapshot_of_item ss (snapshot_fits ss hn h) []
  rw [List.append_nil] at this
  exact this

/-- **C103** (rows of an older version).  A row recorded before the arguments had a column of their
own has the default of that column, `X'80'` (`schema.py:277`), and is replayed without arguments. -/
theorem C103_old_rows (n : Nat) (sql : String) (important : Bool) :
    get_event_rows [⟨n, sql, [0x80], important⟩] =
      .ok [⟨.int n, .text sql, [], .int (if important then 1 else 0)⟩] := rfl

/-- Two transactions, with an accented letter, a time and a negative number among the arguments. -/
def exTransactions : Transactions :=
  [(true, [("INSERT INTO [vouchers] VALUES (?, ?, ?)",
      [.str "é€𝄞", .int (-300), .datetime ⟨2021, 2, 28, 23, 59, 1, 500⟩])]),
   (false, [("BEGIN TRANSACTION;", []), ("DELETE FROM [in-use]", []),
      ("INSERT INTO [t] VALUES (?, ?, ?)", [.none, .bytes [0, 255], .bool true])])]

theorem ex_executable : ∀ s ∈ statements exTransactions, Executable s.2.1 s.2.2 := by
  have h : ∀ s ∈ statements exTransactions,
      s.2.1.toList.length ≤ 1000000000 ∧ s.2.2.length ≤ 32766 := by decide +kernel
  intro s hs
  refine ⟨(h s hs).1, (h s hs).2, ?_⟩
  simp only [exTransactions, statements, List.flatMap_cons, List.flatMap_nil, List.map_cons, List.map_nil,
    List.cons_append, List.nil_append, List.append_nil, List.mem_cons, List.not_mem_nil, or_false] at hs
  rcases hs with rfl | rfl | rfl | rfl
  · intro a ha
    simp only [List.mem_cons, List.not_mem_nil, or_false] at ha
    rcases ha with rfl | rfl | rfl
    · show ("é€𝄞" : String).toList.length ≤ 1000000000; decide +kernel
    · exact ⟨by decide, by decide⟩
    · exact ⟨by decide, by decide, by decide, by decide, by decide, by decide, by decide⟩
  · intro a ha; exact absurd ha List.not_mem_nil
  · intro a ha; exact absurd ha List.not_mem_nil
  · intro a ha
    simp only [List.mem_cons, List.not_mem_nil, or_false] at ha
    rcases ha with rfl | rfl | rfl
    · trivial
    · show 2 ≤ 1000000000; decide
    · trivial

example : ∃ changes, get_event_rows (recorded_rows 7 exTransactions) = .ok changes ∧
    (event_stream_from_bytes (event_stream_to_bytes changes)).map replayed_statements =
      .ok [(.text "INSERT INTO [vouchers] VALUES (?, ?, ?)",
          [.str "é€𝄞", .int (-300), .datetime ⟨2021, 2, 28, 23, 59, 1, 500⟩]),
        (.text "DELETE FROM [in-use]", []),
        (.text "INSERT INTO [t] VALUES (?, ?, ?)", [.none, .bytes [0, 255], .bool true])] := by
  obtain ⟨changes, file, h1, h2, h3⟩ := C103_replayed 7 exTransactions (by decide) ex_executable
  exact ⟨changes, h1, by rw [h2]; exact h3⟩

/-! ### C104 -/

/-- **C104** (event streams).  Of a file of the replica every part from its start that lacks at
least one byte is refused. -/
theorem C104_event_stream (first : Nat) (ts : Transactions)
    (hn : first + (statements ts).length ≤ 2 ^ 63)
    (h : ∀ s ∈ statements ts, Executable s.2.1 s.2.2) (changes : List ChangeRecord)
    (hc : get_event_rows (recorded_rows first ts) = .ok changes) (part : Bytes)
    (hp : part <+: event_stream_to_bytes changes) (hne : part ≠ event_stream_to_bytes changes) :
    ∃ e, event_stream_from_bytes part = .error e := by
  rw [get_recorded first ts h] at hc
  cases hc
  obtain ⟨e, he⟩ := loads_short _ (stream_fits first _ hn h) part hp hne
  exact ⟨e, by unfold event_stream_from_bytes; rw [he]⟩

/-- **C104** (snapshots). -/
theorem C104_snapshot (ss : List String) (hn : ss.length < 2 ^ 64)
    (h : ∀ s ∈ ss, s.toList.length ≤ 1000000000) (part : Bytes)
    (hp : part <+: statements_to_snapshot ss) (hne : part ≠ statements_to_snapshot ss) :
    ∃ e, statements_from_snapshot part = .error e := by
  obtain ⟨e, he⟩ := loads_short _ (snapshot_fits ss hn h) part hp hne
  exact ⟨e, by unfold statements_from_snapshot; rw [he]⟩

/-- All but the last byte of a snapshot. -/
example : ∃ e, statements_from_snapshot (statements_to_snapshot ["CREATE TABLE t (x)", "COMMIT;"]).dropLast =
    .error e := by
  refine C104_snapshot _ (by decide) (by decide +kernel) _ (List.dropLast_prefix _) fun h => ?_
  have hl := congrArg List.length h
  rw [List.length_dropLast] at hl
  have : 1 ≤ (statements_to_snapshot ["CREATE TABLE t (x)", "COMMIT;"]).length :=
    encode_pos _ (snapshot_fits _ (by decide) (by decide +kernel))
  omega

/-! ### C105 -/

/-- A file with a version number other than 1, or without one: the entry for the version, of several the last, has
nothing that Python takes for 1. -/
def OtherVersion (data : List (Cbor × Cbor)) : Prop :=
  ∀ before v after, data = before ++ (.text "version", v) :: after → (∀ kv ∈ after, kv.1 ≠ .text "version") →
    v ≠ .int 1 ∧ v ≠ .bool true ∧ v ≠ .float 0x3FF0000000000000

theorem cbor_get_last {data : List (Cbor × Cbor)} {key : String} {v : Cbor} (h : cbor_get data key = some v) :
    ∃ before after, data = before ++ (.text key, v) :: after ∧ ∀ kv ∈ after, kv.1 ≠ .text key := by
  unfold cbor_get at h
  obtain ⟨⟨k, v'⟩, hf, rfl⟩ := Option.map_eq_some_iff.mp h
  obtain ⟨hk, as, bs, hd, hn⟩ := List.find?_eq_some_iff_append.mp hf
  have hk : k = .text key := by
    dsimp only at hk
    split at hk
    · rw [eq_of_beq hk]
    · cases hk
  refine ⟨bs.reverse, as.reverse, ?_, ?_⟩
  · rw [← List.reverse_reverse data, hd, hk]
    simp
  · intro kv hkv e
    have := hn kv (List.mem_reverse.mp hkv)
    rw [e] at this
    simp at this

theorem other_version {data : List (Cbor × Cbor)} (h : OtherVersion data) :
    ¬ (cbor_get data "version").any Cbor.isOne = true := by
  intro hv
  cases hg : cbor_get data "version" with
  | none => rw [hg] at hv; cases hv
  | some v =>
    rw [hg] at hv
    obtain ⟨before, after, hd, ha⟩ := cbor_get_last hg
    obtain ⟨h1, h2, h3⟩ := h before v after hd ha
    have hv : v.isOne = true := hv
    unfold Cbor.isOne at hv
    split at hv
    · rw [eq_of_beq hv] at h1; exact h1 rfl
    · rw [hv] at h2; exact h2 rfl
    · rw [eq_of_beq hv] at h3; exact h3 rfl
    · cases hv

/-- **C105**.  A file with another version number, or with none, is refused, whatever else it
contains: both as an event stream and as a snapshot. -/
theorem C105_other_version (data : List (Cbor × Cbor)) (hf : (Cbor.map data).Fits) (h : OtherVersion data) :
    event_stream_from_bytes (Cbor.map data).encode = .error .valueError ∧
      statements_from_snapshot (Cbor.map data).encode = .error .valueError := by
  have hl := loads_dumps _ hf []
  rw [List.append_nil] at hl
  unfold event_stream_from_bytes statements_from_snapshot
  rw [hl]
  simp only [if_neg (other_version h)]
  exact ⟨trivial, trivial⟩

/-- Version 2, with events this version could read. -/
example : event_stream_from_bytes
    (Cbor.map [(.text "version", .int 2), (.text "events", .array [])]).encode = .error .valueError := by
  refine (C105_other_version _ ?_ ?_).1
  · rw [Cbor.Fits, pairs_fit, pairs_fit, pairs_fit]
    refine ⟨by decide, text_fits (by decide +kernel), ?_, text_fits (by decide +kernel), ?_, trivial⟩
    · rw [Cbor.Fits]; decide
    · rw [Cbor.Fits, items_fit]; exact ⟨by decide, trivial⟩
  · intro before v after h ha
    match before, h with
    | [], h => cases h; exact ⟨(fun h => by cases h), (fun h => nomatch h), (fun h => nomatch h)⟩
    | [_], h =>
      injection h with _ h
      injection h with h
      injection h with h
      injection h with h
      exact absurd h (by decide)
    | _ :: _ :: before, h =>
      injection h with _ h
      injection h with _ h
      simp at h

end ZKAP
