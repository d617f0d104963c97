import Verif.Spec.Metrics

/-! Lemmas about the metrics. -/
namespace ZKAP
open Spec

theorem count_up_bounds (a : Int) (l : List (Bound × Nat)) : (count_up a l).map (·.1) = l.map (·.1) := by
  induction l with
  | nil => rfl
  | cons p l ih =>
    obtain ⟨b, n⟩ := p
    unfold count_up
    split
    · rfl
    · rw [List.map_cons, ih, List.map_cons]

theorem add_up_bounds (acc : Nat) (l : List (Bound × Nat)) : (add_up acc l).map (·.1) = l.map (·.1) := by
  induction l generalizing acc with
  | nil => rfl
  | cons p l ih =>
    obtain ⟨b, n⟩ := p
    unfold add_up
    rw [List.map_cons, ih, List.map_cons]

/-- The bounds rise. -/
def bound_le : Bound → Bound → Bool
  | _, none => true
  | none, some _ => false
  | some b, some c => decide (b ≤ c)

theorem within_le {a : Int} {b c : Bound} (h : bound_le b c = true) (hb : in_bound a b = true) : in_bound a c = true := by
  cases b <;> cases c <;> simp only [bound_le, in_bound, decide_eq_true_eq, Bool.false_eq_true] at *
  omega

theorem buckets_powers : _get_spending_histogram_buckets = powersOfTwo := by decide

theorem powers_rise : powersOfTwo.Pairwise (fun b c => bound_le b c = true) := by decide

theorem add_up_more (acc k : Nat) (l : List (Bound × Nat)) :
    add_up (acc + k) l = (add_up acc l).map fun p => (p.1, p.2 + k) := by
  induction l generalizing acc with
  | nil => rfl
  | cons p l ih =>
    obtain ⟨b, n⟩ := p
    simp only [add_up, List.map_cons]
    rw [show acc + k + n = acc + n + k by omega, ih]

theorem add_up_count_up (a : Int) (acc : Nat) (l : List (Bound × Nat))
    (rise : (l.map (·.1)).Pairwise (fun b c => bound_le b c = true)) :
    add_up acc (count_up a l) = (add_up acc l).map fun p => (p.1, p.2 + if in_bound a p.1 then 1 else 0) := by
  induction l generalizing acc with
  | nil => rfl
  | cons p l ih =>
    obtain ⟨b, n⟩ := p
    rw [List.map_cons, List.pairwise_cons] at rise
    unfold count_up
    by_cases h : in_bound a b = true
    · rw [if_pos h]
      simp only [add_up, List.map_cons, if_pos h]
      rw [← Nat.add_assoc, add_up_more]
      congr 1
      refine List.map_congr_left fun p hp => ?_
      have : p.1 ∈ l.map (·.1) := by rw [← add_up_bounds (acc + n) l]; exact List.mem_map_of_mem hp
      rw [if_pos (within_le (rise.1 _ this) h)]
    · rw [if_neg h]
      simp only [add_up, List.map_cons, if_neg h, Nat.add_zero]
      rw [ih _ rise.2]

theorem sum_count_up (a : Int) (l : List (Bound × Nat)) (h : none ∈ l.map (·.1)) :
    ((count_up a l).map (·.2)).sum = (l.map (·.2)).sum + 1 := by
  induction l with
  | nil => simp at h
  | cons p l ih =>
    obtain ⟨b, n⟩ := p
    unfold count_up
    by_cases hb : in_bound a b = true
    · rw [if_pos hb]
      simp only [List.map_cons, List.sum_cons]
      omega
    · rw [if_neg hb]
      have : none ∈ l.map (·.1) := by
        rcases List.mem_cons.mp h with h | h
        · exact absurd (show in_bound a b = true by
          have h : none = b := h
          rw [← h]
          rfl) hb
        · exact h
      simp only [List.map_cons, List.sum_cons, ih this]
      omega

/-- The histogram after these amounts. -/
structure Holds (h : Histogram) (amounts : List Int) : Prop where
  bounds : h.counters.map (·.1) = powersOfTwo
  cumulated : add_up 0 h.counters = powersOfTwo.map fun b => (b, (amounts.filter fun a => in_bound a b).length)
  count : (h.counters.map (·.2)).sum = amounts.length
  sum : h.sum = amounts.sum

theorem holds_make : Holds _make_histogram [] := by
  refine ⟨by decide, by decide, by decide, rfl⟩

theorem holds_observe {h : Histogram} {amounts : List Int} (hh : Holds h amounts) (a : Int) :
    Holds (h.observe a) (amounts ++ [a]) := by
  refine ⟨?_, ?_, ?_, ?_⟩
  · exact (count_up_bounds a _).trans hh.bounds
  · show add_up 0 (count_up a h.counters) = _
    rw [add_up_count_up a 0 _ (by rw [hh.bounds]; exact powers_rise), hh.cumulated, List.map_map]
    refine List.map_congr_left fun b _ => ?_
    simp only [Function.comp_def, List.filter_append, List.length_append, Prod.mk.injEq, true_and]
    by_cases hb : in_bound a b = true <;> simp [hb]
  · show ((count_up a h.counters).map (·.2)).sum = _
    rw [sum_count_up a _ (by rw [hh.bounds]; decide), hh.count, List.length_append]
    rfl
  · show h.sum + a = _
    rw [hh.sum, List.sum_append]
    simp

theorem holds_all (more amounts : List Int) {h : Histogram} (hh : Holds h amounts) :
    Holds (more.foldl Histogram.observe h) (amounts ++ more) := by
  induction more generalizing h amounts with
  | nil => rw [List.append_nil]; exact hh
  | cons a more ih =>
    have := ih (amounts ++ [a]) (holds_observe hh a)
    rw [List.append_assoc] at this
    exact this

theorem about_samples (amounts : List Int) : About amounts (histogram_of amounts).samples := by
  have hh : Holds (histogram_of amounts) amounts := holds_all amounts [] holds_make
  refine ⟨?_, ?_, ?_, hh.count, hh.sum⟩
  · exact (add_up_bounds 0 _).trans hh.bounds
  · intro b n hm
    unfold Histogram.samples at hm
    rw [hh.cumulated] at hm
    obtain ⟨c, -, hc⟩ := List.mem_map.mp hm
    cases hc
    rfl
  · intro n hm
    unfold Histogram.samples at hm
    rw [hh.cumulated] at hm
    obtain ⟨c, -, hc⟩ := List.mem_map.mp hm
    cases hc
    exact congrArg List.length (List.filter_eq_self.mpr fun _ _ => rfl)

/-! ### The process -/

theorem metered_server (cfg : ServerConfig) (s : MeteredServer) (events : List MetricsEvent) :
    (s.run cfg events).server = s.server.run cfg (requestsIn events) ∧ (s.run cfg events).interval = s.interval ∧
      (s.run cfg events).started = s.started := by
  induction events generalizing s with
  | nil => exact ⟨rfl, rfl, rfl⟩
  | cons e es ih =>
    obtain ⟨h1, h2, h3⟩ := ih (s.step cfg e)
    cases e with
    | request op => exact ⟨h1, h2, h3⟩
    | call now works =>
      have : (s.step cfg (.call now works)).server = s.server ∧ (s.step cfg (.call now works)).interval = s.interval ∧
          (s.step cfg (.call now works)).started = s.started := by
        unfold MeteredServer.step
        dsimp only
        split <;> exact ⟨rfl, rfl, rfl⟩
      obtain ⟨e1, e2, e3⟩ := this
      exact ⟨by rw [← e1]; exact h1, by rw [← e2]; exact h2, by rw [← e3]; exact h3⟩

theorem no_write_file (cfg : ServerConfig) (events : List MetricsEvent) (s : MeteredServer) (h : NoWrite cfg s events) :
    (s.run cfg events).file = s.file := by
  induction events generalizing s with
  | nil => rfl
  | cons e es ih =>
    refine (ih _ h.2).trans ?_
    cases e with
    | request op => rfl
    | call now works =>
      unfold MeteredServer.step
      dsimp only
      split
      · rfl
      · rename_i hn
        cases works with
        | false => rfl
        | true => exact absurd ⟨rfl, by omega⟩ (h.1 now)

theorem due_call (cfg : ServerConfig) (s : MeteredServer) (now : Int) (works : Bool) (due : s.next ≤ now) :
    s.run cfg [.call now works] = { s with
      next := schedule_from s.started s.interval now
      file := safe_writer works [(histogram_of s.server.observed).samples] s.file } := by
  have : ¬ now < s.next := by omega
  simp only [MeteredServer.run, List.foldl, MeteredServer.step, if_neg this]

end ZKAP
