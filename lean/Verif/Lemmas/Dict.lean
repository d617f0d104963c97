import Verif.Model.Py

namespace ZKAP
variable {κ α : Type} [BEq κ] [LawfulBEq κ]

theorem Dict.lookup_set (d : Dict κ α) (k k' : κ) (v : α) :
    (d.set k v).lookup k' = if k' == k then some v else d.lookup k' := by
  induction d with
  | nil =>
    simp only [Dict.set, List.lookup_cons, List.lookup_nil]
    by_cases h : k' == k <;> simp [h]
  | cons hd tl ih =>
    obtain ⟨a, b⟩ := hd
    simp only [Dict.set]
    by_cases h : a == k
    · have := eq_of_beq h; subst this
      simp only [beq_self_eq_true, if_true, List.lookup_cons]
      by_cases h2 : k' == a <;> simp [h2]
    · simp only [h, List.lookup_cons]
      by_cases h2 : k' == a
      · have := eq_of_beq h2; subst this; simp [h]
      · simp [h2, List.lookup_cons, ih]

theorem Dict.keys_set (d : Dict κ α) (k : κ) (v : α) :
    (d.set k v).map Prod.fst = if (d.map Prod.fst).contains k then d.map Prod.fst
      else d.map Prod.fst ++ [k] := by
  induction d with
  | nil => simp [Dict.set]
  | cons hd tl ih =>
    obtain ⟨a, b⟩ := hd
    simp only [Dict.set]
    by_cases h : a == k
    · have := eq_of_beq h; subst this; simp
    · have h' : ¬ (k == a) := by
        intro hk; exact h (by rw [eq_of_beq hk]; exact beq_self_eq_true a)
      have e1 : (a == k) = false := by simpa using h
      have e2 : (k == a) = false := by simpa using h'
      simp only [e1, Bool.false_eq_true, if_false, List.map_cons, ih, List.contains_cons, e2,
        Bool.false_or]
      split <;> simp

theorem Dict.WF.set {d : Dict κ α} (h : d.WF) (k : κ) (v : α) : (d.set k v).WF := by
  unfold Dict.WF at *
  rw [Dict.keys_set]
  split
  · exact h
  · rename_i hc
    rw [List.nodup_append]
    refine ⟨h, by simp, ?_⟩
    intro a ha b hb
    simp at hb; subst hb
    intro hab; subst hab
    exact hc (by simpa using ha)

theorem Dict.lookup_eq_some_iff {d : Dict κ α} (h : d.WF) (k : κ) (v : α) :
    d.lookup k = some v ↔ (k, v) ∈ d := by
  induction d with
  | nil => simp
  | cons hd tl ih =>
    obtain ⟨a, b⟩ := hd
    have hn : a ∉ tl.map Prod.fst ∧ (tl.map Prod.fst).Nodup := by
      have : (a :: tl.map Prod.fst).Nodup := h
      simpa using List.nodup_cons.mp this
    rw [List.lookup_cons]
    by_cases hk : k == a
    · have := eq_of_beq hk; subst this
      simp only [beq_self_eq_true, List.mem_cons, Prod.mk.injEq, true_and]
      constructor
      · intro hb; left; simpa using hb.symm
      · rintro (hb | hb)
        · simp [hb]
        · exact absurd (List.mem_map_of_mem (f := Prod.fst) hb) hn.1
    · have hka : k ≠ a := by intro e; exact hk (by simp [e])
      simp only [hk, List.mem_cons, Prod.mk.injEq, hka, false_and, false_or]
      exact ih hn.2

theorem Dict.lookup_eq_none_iff {d : Dict κ α} (k : κ) :
    d.lookup k = none ↔ k ∉ d.map Prod.fst := by
  induction d with
  | nil => simp
  | cons hd tl ih =>
    obtain ⟨a, b⟩ := hd
    rw [List.lookup_cons]
    by_cases hk : k == a
    · have := eq_of_beq hk; subst this; simp
    · have hka : k ≠ a := by intro e; exact hk (by simp [e])
      simp [hk, hka, ih]

end ZKAP
