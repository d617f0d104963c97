import Verif.Spec.Vocabulary
import Verif.Lemmas.Misc
import Verif.Lemmas.Plugin
import Verif.Lemmas.Wire
import Verif.Lemmas.VoucherJson
import Verif.Props.Recovery

/-! What the words mean that the statements of several properties share with the model. -/
namespace ZKAP
open Spec

/-- **C66**: the versions that are accepted. -/
theorem C66_version (j : Json) : j.isOne = true ↔ EqualsOne j := by
  constructor
  · intro h
    match j, h with
    | .int n, h => rw [show n = 1 from by simpa [Json.isOne] using h]; exact .int
    | .bool b, h => rw [show b = true from h]; exact .true_
    | .float m e, h =>
      simp only [Json.isOne] at h
      split at h
      · rename_i he
        rw [beq_iff_eq] at h
        have h0 : e.toNat = 0 := by
          cases hk : e.toNat with
          | zero => rfl
          | succ k =>
            rw [hk, Int.pow_succ, ← Int.mul_assoc] at h
            omega
        rw [h0] at h
        have hm : m = 1 := by omega
        have he0 : e = 0 := by omega
        subst hm he0
        exact .float 0
      · rename_i he
        rw [beq_iff_eq] at h
        have : e = -((-e).toNat : Int) := by omega
        rw [h, this]
        rw [show (-(-((-e).toNat : Int))).toNat = (-e).toNat by omega]
        exact .float _
  · intro h
    cases h with
    | int => rfl
    | true_ => rfl
    | float k =>
      simp only [Json.isOne]
      split
      · have : k = 0 := by omega
        subst this
        rfl
      · rw [beq_iff_eq, show (-(-(k : Int))).toNat = k by omega]

/-- **C66**: the sizes that are accepted, and their values. -/
theorem C66_sizes (js : List Json) (ns : List Int) : AreSizes js ns ↔ SizesOf js ns := by
  unfold AreSizes
  induction js generalizing ns with
  | nil =>
    constructor
    · rintro ⟨h, _⟩
      rw [List.map_eq_nil_iff.mp h.symm]
      exact .none
    · intro h
      cases h
      exact ⟨rfl, fun _ h => nomatch h⟩
  | cons j js ih =>
    constructor
    · rintro ⟨h, hn⟩
      cases ns with
      | nil => exact nomatch h
      | cons n ns =>
        rw [List.map_cons, List.map_cons] at h
        injection h with h1 h2
        refine .size ?_ (hn n List.mem_cons_self) ((ih ns).mp ⟨h2, fun m hm => hn m (List.mem_cons_of_mem _ hm)⟩)
        match j, h1 with
        | .int _, h1 => cases h1; exact .int _
        | .bool true, h1 => cases h1; exact .true_
        | .bool false, h1 => cases h1; exact .false_
    · intro h
      cases h with
      | size hj hn h =>
        obtain ⟨h1, h2⟩ := (ih _).mpr h
        refine ⟨?_, ?_⟩
        · rw [List.map_cons, List.map_cons, h1]
          cases hj <;> rfl
        · intro m hm
          rcases List.mem_cons.mp hm with rfl | hm
          · exact hn
          · exact h2 m hm

example : SizesOf [.int 3, .bool true] [3, 1] := .size (.int 3) (by decide) (.size .true_ (by decide) .none)

/-- **C89**: which answers of the issuer do not claim success. -/
theorem C89_success (j : Json) : j.truthy = false ↔ Falsy j := by
  constructor
  · intro h
    match j, h with
    | .null, _ => exact .null
    | .bool false, _ => exact .false_
    | .int n, h => rw [show n = 0 from by simpa [Json.truthy] using h]; exact .zero
    | .float m e, h => rw [show m = 0 from by simpa [Json.truthy] using h]; exact .float e
    | .str s, h => rw [show s = "" from by simpa [Json.truthy] using h]; exact .str
    | .arr [], _ => exact .arr
    | .obj [], _ => exact .obj
  · intro h
    cases h <;> rfl

/-- **C100**: which characters are white space. -/
theorem C100_white_space (c : Char) : py_space c = true ↔ c.toNat ∈ whiteSpace := by
  unfold py_space whiteSpace
  simp only [List.mem_cons, List.not_mem_nil, or_false, Bool.or_eq_true, Bool.and_eq_true, decide_eq_true_eq,
    beq_iff_eq]
  omega

/-- **C101**: which bytes are. -/
theorem C101_white_bytes (b : UInt8) : byte_space b = true ↔ b.toNat ∈ [9, 10, 11, 12, 13, 32] := by
  unfold byte_space
  simp only [List.mem_cons, List.not_mem_nil, or_false, Bool.or_eq_true, Bool.and_eq_true, decide_eq_true_eq,
    beq_iff_eq, UInt8.le_iff_toNat_le, ← UInt8.toNat_inj]
  have : (9 : UInt8).toNat = 9 ∧ (13 : UInt8).toNat = 13 ∧ (32 : UInt8).toNat = 32 := ⟨rfl, rfl, rfl⟩
  omega

/-- **C34**: only texts of version 1 are read. -/
theorem C34_version (j : Json) (v : Voucher DateTime) (h : voucher_from_json j = .ok v) :
    j.get "version" = .ok (.int 1) ∨ j.get "version" = .ok (.str "1") := by
  unfold voucher_from_json at h
  cases hv : j.get "version" with
  | error e => rw [hv] at h; exact nomatch h
  | ok version =>
    rw [hv] at h
    simp only [bind, Except.bind] at h
    split at h
    · split at h
      · rename_i hn; subst hn; exact .inl rfl
      · exact nomatch h
    · split at h
      · rename_i hn; subst hn; exact .inr rfl
      · exact nomatch h
    · exact nomatch h

/-- **C117**: which values that come over the network are integers. -/
theorem C117_integers (w : Wire) (n : Int) : w.asInt = some n ↔ WireInteger w n := by
  constructor
  · intro h
    match w, h with
    | .int _, h => cases h; exact .int _
    | .bool true, h => cases h; exact .true_
    | .bool false, h => cases h; exact .false_
  · intro h
    cases h <;> rfl

/-- **C12**: how mutable share files begin. -/
theorem C12_magic :
    mutable_magic 49 = Spec.ascii "Tahoe mutable container v1\n" ++ [0x75, 0x09, 0x44, 0x03, 0x8e] ∧
    mutable_magic 50 = Spec.ascii "Tahoe mutable container v2\n" ++ [0x75, 0x09, 0x44, 0x03, 0x8e] := by
  decide +kernel

/-- **C42**: every run of lease maintenance takes one firing of the timer; there are never more. -/
theorem C42_one_run_each (t : FuzzyTimer) (events : List TimerEvent) :
    (t.run events).runs ≤ t.runs + (events.filter fun e => match e with | .fire _ => true | _ => false).length := by
  induction events generalizing t with
  | nil => exact Nat.le_refl _
  | cons e es ih =>
    show ((t.step e).run es).runs ≤ _
    refine Nat.le_trans (ih _) ?_
    have call : ∀ (t : FuzzyTimer) s t', t.callLater s = .ok t' → t'.runs = t.runs := by
      intro t s t' h
      unfold FuzzyTimer.callLater at h
      split at h
      · exact nomatch h
      · cases h; rfl
    cases e with
    | fire id =>
      have : (t.step (.fire id)).runs ≤ t.runs + 1 := by
        simp only [FuzzyTimer.step]
        split
        · exact Nat.le_refl _
        · omega
      rw [List.filter_cons_of_pos rfl, List.length_cons]
      omega
    | start d =>
      have : (t.step (.start d)).runs = t.runs := by
        simp only [FuzzyTimer.step, FuzzyTimer.startService]
        repeat' split
        all_goals first
          | rfl
          | (rename_i h; rw [call _ _ _ h])
      rw [List.filter_cons_of_neg (by nofun)]
      omega
    | stop =>
      have : (t.step .stop).runs = t.runs := by
        simp only [FuzzyTimer.step, FuzzyTimer.stopService]
        repeat' split
        all_goals rfl
      rw [List.filter_cons_of_neg (by nofun)]
      omega
    | done d =>
      have : (t.step (.done d)).runs = t.runs := by
        simp only [FuzzyTimer.step]
        repeat' split
        all_goals first
          | rfl
          | (rename_i h; rw [call _ _ _ h])
      rw [List.filter_cons_of_neg (by nofun)]
      omega

/-- **C51**: what is replayed is all the recorded statements, in the order in which they were executed,
and of them exactly those that neither begin nor end a transaction. -/
theorem C51_transactions_skipped (pieces files : List (List (Int × Sql))) (hf : files.Perm pieces)
    (hi : pieces.flatten.Pairwise fun a b => a.1 < b.1) (replayed : List Sql)
    (h : replayed = (sort_event_streams files).flatMap event_statements) :
    replayed.Sublist (pieces.flatten.map Prod.snd) ∧
      (∀ s ∈ replayed, s ≠ .beginTransaction ∧ s ≠ .commit) ∧
      ∀ s, s ≠ .beginTransaction → s ≠ .commit → replayed.count s = (pieces.flatten.map Prod.snd).count s := by
  have he : replayed = (pieces.flatten.map Prod.snd).filter fun s => !(s == .beginTransaction || s == .commit) := by
    rw [h, ← sort_event_streams_eq hf hi]
    generalize sort_event_streams files = l
    induction l with
    | nil => rfl
    | cons a as ih =>
      rw [List.flatMap_cons, ih, List.flatten_cons, List.map_append, List.filter_append]
      rfl
  subst he
  refine ⟨List.filter_sublist, ?_, ?_⟩
  · intro s hs
    have := (List.mem_filter.mp hs).2
    simpa using this
  · intro s h1 h2
    rw [List.count_filter]
    simp [h1, h2]

example : ((sort_event_streams [[(3, Sql.commit)], [(1, .beginTransaction), (2, .dropTable "a")]]).flatMap
    event_statements) = [.dropTable "a"] := by decide

end ZKAP
