import Verif.Model.Pass
import Verif.Lemmas.Base64

namespace ZKAP

theorem bytes_split_nosep {sep : UInt8} (a : Bytes) (ha : sep ∉ a) : bytes_split sep a = [a] := by
  induction a with
  | nil => rfl
  | cons c a ih =>
    simp only [List.mem_cons, not_or] at ha
    unfold bytes_split
    rw [ih ha.2, if_neg (fun h => ha.1 h.symm)]

theorem bytes_split_append {sep : UInt8} (a b : Bytes) (ha : sep ∉ a) :
    bytes_split sep (a ++ sep :: b) = a :: bytes_split sep b := by
  induction a with
  | nil => simp [bytes_split]
  | cons c a ih =>
    simp only [List.mem_cons, not_or] at ha
    rw [List.cons_append, bytes_split.eq_2, ih ha.2, if_neg (fun h => ha.1 h.symm)]

/-- Splitting then joining gives the string back, and no part contains the separator. -/
theorem bytes_split_spec {sep : UInt8} (s : Bytes) :
    ∃ h t, bytes_split sep s = h :: t ∧ sep ∉ h ∧ (∀ x ∈ t, sep ∉ x) ∧
      s = h ++ (t.flatMap (fun x => sep :: x)) := by
  induction s with
  | nil => exact ⟨[], [], rfl, by simp, by simp, by simp⟩
  | cons c s ih =>
    obtain ⟨h, t, e, h1, h2, h3⟩ := ih
    unfold bytes_split
    by_cases hc : c = sep
    · subst hc
      refine ⟨[], h :: t, by simp [e], by simp, ?_, ?_⟩
      · intro x hx
        simp only [List.mem_cons] at hx
        rcases hx with rfl | hx
        · exact h1
        · exact h2 x hx
      · simp only [List.flatMap_cons, List.nil_append, List.cons_append]
        rw [← h3]
    · refine ⟨c :: h, t, by simp [e, hc], ?_, h2, ?_⟩
      · simp only [List.mem_cons, not_or]; exact ⟨fun h => hc h.symm, h1⟩
      · rw [List.cons_append, ← h3]

theorem Pass.new_ok {a b : Bytes} {p : Pass} : Pass.new a b = .ok p ↔
    a.length = 88 ∧ b.length = 88 ∧ p = ⟨a, b⟩ := by
  unfold Pass.new base64_bytes
  by_cases h1 : a.length = 88 <;> by_cases h2 : b.length = 88 <;> simp [h1, h2, eq_comm]

end ZKAP
