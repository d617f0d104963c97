import Verif.Model.Replication
import Verif.Lemmas.StoreInv

/-! Replaying recorded statements. -/
namespace ZKAP

/-- Tables rebuilt from a replica against the tables of the source: the same persistent
contents, and nothing in use that is not in use at the source. -/
structure Sim (r s : Tables) : Prop where
  app : r.app = s.app
  in_use : ∀ x ∈ r.temp.in_use, x ∈ s.temp.in_use
  to_discard : r.temp.to_discard = s.temp.to_discard
  to_reset : r.temp.to_reset = s.temp.to_reset

theorem sim_refl (t : Tables) : Sim t t := ⟨rfl, fun _ h => h, rfl, rfl⟩

theorem sim_trans {a b c : Tables} (h : Sim a b) (g : Sim b c) : Sim a c :=
  ⟨h.app.trans g.app, fun x hx => g.in_use x (h.in_use x hx), h.to_discard.trans g.to_discard,
    h.to_reset.trans g.to_reset⟩

theorem sim_fresh {t : Tables} (h : StoreWF t) : Sim { app := t.app } t :=
  ⟨rfl, by simp, h.to_discard.symm, h.to_reset.symm⟩

theorem exec_sim {s : Stmt} {t : Tables} {x : Executed} (h : exec s t = .ok x) {r : Tables}
    (hr : Sim r t) : ∃ r', exec_deferred s r = .ok r' ∧ Sim r' x.tables := by
  obtain ⟨ra, rm⟩ := r
  obtain ⟨ta, tm⟩ := t
  obtain ⟨h1, h2, h3, h4⟩ := hr
  simp only at h1 h2 h3 h4
  subst h1
  cases s <;> simp only [exec, exec_deferred] at h ⊢
  all_goals
    repeat' (split at h)
    all_goals first
      | (exfalso; cases h; done)
      | skip
    all_goals (injection h with h; subst h)
  all_goals first
    | exact ⟨_, rfl, rfl, h2, h3, h4⟩
    | skip
  all_goals first
    | (rename_i h5; simp only [h5, if_true, if_false]; exact ⟨_, rfl, rfl, h2, h3, h4⟩)
    | skip
  case insertToken.isFalse.isFalse h5 h6 =>
    simp only [h5, if_false]; exact ⟨_, rfl, rfl, h2, h3, h4⟩
  case insertInUse.isFalse h5 =>
    rw [if_neg (fun hh => h5 (h2 _ hh))]
    refine ⟨_, rfl, rfl, ?_, h3, h4⟩
    intro x hx
    simp only [List.mem_append] at hx ⊢
    exact hx.imp (h2 x) id
  case insertToDiscard => exact ⟨_, rfl, rfl, h2, by simp only [h3], h4⟩
  case insertToReset => exact ⟨_, rfl, rfl, h2, h3, by simp only [h4]⟩
  case clearToDiscard => exact ⟨_, rfl, rfl, h2, rfl, h4⟩
  case clearToReset => exact ⟨_, rfl, rfl, h2, h3, rfl⟩
  case deleteUnblindedToDiscard => exact ⟨_, rfl, by simp only [h3], h2, h3, h4⟩
  all_goals first
    | exact ⟨_, rfl, rfl, h2, h3, h4⟩
    | (refine ⟨_, rfl, rfl, ?_, h3, h4⟩
       intro x hx
       simp only [List.mem_filter, h3, h4] at hx ⊢
       exact ⟨h2 x hx.1, hx.2⟩)

/-- Replaying `l` takes anything like `t` to something like `t'`. -/
def Leads (t : Tables) (l : List Change) (t' : Tables) : Prop :=
  ∀ r, Sim r t → ∃ r', recover_event_stream l r = .ok r' ∧ Sim r' t'

theorem leads_nil {t : Tables} : Leads t [] t := fun r h => ⟨r, rfl, h⟩

theorem recover_event_stream_append (a b : List Change) (t : Tables) :
    recover_event_stream (a ++ b) t =
      match recover_event_stream a t with
      | .error e => .error e
      | .ok t' => recover_event_stream b t' := by
  induction a generalizing t with
  | nil => rfl
  | cons c cs ih =>
    simp only [List.cons_append, recover_event_stream]
    split
    · rfl
    · exact ih _

theorem leads_append {t t' t'' : Tables} {a b : List Change} (h : Leads t a t')
    (g : Leads t' b t'') : Leads t (a ++ b) t'' := by
  intro r hr
  obtain ⟨r', h1, h2⟩ := h r hr
  obtain ⟨r'', h3, h4⟩ := g r' h2
  exact ⟨r'', by rw [recover_event_stream_append, h1]; exact h3, h4⟩

/-- The recorded statements are the statements executed. -/
theorem run_execMany {α} (p : Prog α) (t t' : Tables) (a : α) (h : (p.run t).2 = .ok (a, t')) :
    execMany ((p.run t).1.flatMap (·.stmts)) t = .ok t' := by
  have happ : ∀ (x y : List Stmt) (t t1 : Tables), execMany x t = .ok t1 →
      execMany (x ++ y) t = execMany y t1 := by
    intro x
    induction x with
    | nil => intro y t t1 h; simp only [execMany] at h; injection h with h; subst h; rfl
    | cons s ss ih =>
      intro y t t1 h
      simp only [execMany, List.cons_append] at h ⊢
      split at h
      · exact nomatch h
      · exact ih _ _ _ h
  induction p generalizing t with
  | done b => simp only [Prog.run] at h ⊢; injection h with h; injection h with h1 h2; subst h2; rfl
  | raise e => simp only [Prog.run] at h; exact nomatch h
  | query k ih => simp only [Prog.run] at h ⊢; exact ih t t h
  | execute imp s k ih =>
    simp only [Prog.run] at h ⊢
    split at h
    · exact nomatch h
    · rename_i x hx
      simp only at h
      have := ih _ _ _ h
      simp only [List.flatMap_cons, List.cons_append, List.nil_append, execMany, hx]
      exact this
  | executemany imp ss k ih =>
    simp only [Prog.run] at h ⊢
    split at h
    · exact nomatch h
    · rename_i t1 ht1
      simp only at h
      have := ih _ h
      simp only [List.flatMap_cons]
      rw [happ _ _ _ _ ht1]
      exact this

theorem execMany_leads (ss : List Stmt) {t t' : Tables} (h : execMany ss t = .ok t') (start : Nat)
    (important : Bool) : Leads t (numbered start important ss) t' := by
  induction ss generalizing t start with
  | nil => simp only [execMany] at h; injection h with h; subst h; exact leads_nil
  | cons s ss ih =>
    simp only [execMany] at h
    split at h
    · exact nomatch h
    · rename_i x hx
      intro r hr
      obtain ⟨r1, h1, h2⟩ := exec_sim hx hr
      obtain ⟨r2, h3, h4⟩ := ih h (start + 1) r1 h2
      exact ⟨r2, by simp only [numbered, recover_event_stream, h1]; exact h3, h4⟩

theorem run_leads {α} (p : Prog α) {t t' : Tables} {a : α} (h : (p.run t).2 = .ok (a, t'))
    (start : Nat) (important : Bool) :
    Leads t (numbered start important ((p.run t).1.flatMap (·.stmts))) t' :=
  execMany_leads _ (run_execMany p t t' a h) start important

/-- Forgetting what is in use at the source, when nothing is. -/
theorem leads_restart {t : Tables} (h : t.temp.in_use = []) (hd : t.temp.to_discard = [])
    (hr : t.temp.to_reset = []) : t = { t with temp := {} } := by
  obtain ⟨a, ⟨i, d, r⟩⟩ := t
  simp only at h hd hr
  subst h; subst hd; subst hr
  rfl

/-! ### Order of the streams -/

theorem numbered_length (start : Nat) (i : Bool) (ss : List Stmt) :
    (numbered start i ss).length = ss.length := by
  induction ss generalizing start with
  | nil => rfl
  | cons s ss ih => simp [numbered, ih]

theorem numbered_stmts (start : Nat) (i : Bool) (ss : List Stmt) :
    (numbered start i ss).map (·.stmt) = ss := by
  induction ss generalizing start with
  | nil => rfl
  | cons s ss ih => simp [numbered, ih]

theorem numbered_mem {start : Nat} {i : Bool} {ss : List Stmt} {c : Change}
    (h : c ∈ numbered start i ss) :
    start < c.sequence ∧ c.sequence ≤ start + ss.length ∧ c.important = i := by
  induction ss generalizing start with
  | nil => simp [numbered] at h
  | cons s ss ih =>
    simp only [numbered, List.mem_cons] at h
    rcases h with h | h
    · subst h; simp
    · have := ih h
      simp only [List.length_cons]
      exact ⟨by omega, by omega, this.2.2⟩

/-- Sequence numbers strictly increase along a list. -/
def Increasing (l : List Change) : Prop := l.Pairwise (fun a b => a.sequence < b.sequence)

theorem numbered_increasing (start : Nat) (i : Bool) (ss : List Stmt) :
    Increasing (numbered start i ss) := by
  induction ss generalizing start with
  | nil => simp [numbered, Increasing]
  | cons s ss ih =>
    simp only [numbered, Increasing, List.pairwise_cons]
    exact ⟨fun c hc => (numbered_mem hc).1, ih _⟩

theorem foldl_max_seq (cs : List Change) (m : Nat) :
    (m ≤ cs.foldl (fun m c => Nat.max m c.sequence) m) ∧
    (∀ c ∈ cs, c.sequence ≤ cs.foldl (fun m c => Nat.max m c.sequence) m) ∧
    (cs.foldl (fun m c => Nat.max m c.sequence) m = m ∨
      ∃ c ∈ cs, c.sequence = cs.foldl (fun m c => Nat.max m c.sequence) m) := by
  induction cs generalizing m with
  | nil => simp
  | cons c cs ih =>
    simp only [List.foldl_cons]
    obtain ⟨h1, h2, h3⟩ := ih (Nat.max m c.sequence)
    have h4 : m ≤ Nat.max m c.sequence := Nat.le_max_left _ _
    have h5 : c.sequence ≤ Nat.max m c.sequence := Nat.le_max_right _ _
    refine ⟨by omega, ?_, ?_⟩
    · intro d hd
      rcases List.mem_cons.mp hd with rfl | hd
      · omega
      · exact h2 d hd
    · rcases h3 with h3 | ⟨d, hd, h3⟩
      · rcases Nat.le_total m c.sequence with h6 | h6
        · right; refine ⟨c, by simp, ?_⟩
          rw [h3]; exact (Nat.max_eq_right h6).symm
        · left; rw [h3]; exact Nat.max_eq_left h6
      · right; exact ⟨d, by simp [hd], h3⟩

theorem highest_some {cs : List Change} {k : Nat} (h : highest_sequence cs = some k) :
    cs ≠ [] ∧ (∀ c ∈ cs, c.sequence ≤ k) ∧ ∃ c ∈ cs, c.sequence = k := by
  cases cs with
  | nil => simp [highest_sequence] at h
  | cons c cs =>
    simp only [highest_sequence, Option.some.injEq] at h
    obtain ⟨h1, h2, h3⟩ := foldl_max_seq cs c.sequence
    rw [h] at h1 h2 h3
    refine ⟨by simp, ?_, ?_⟩
    · intro d hd
      rcases List.mem_cons.mp hd with rfl | hd
      · exact h1
      · exact h2 d hd
    · rcases h3 with h3 | ⟨d, hd, h3⟩
      · exact ⟨c, by simp, h3.symm⟩
      · exact ⟨d, by simp [hd], h3⟩

theorem highest_none {cs : List Change} (h : highest_sequence cs = none) : cs = [] := by
  cases cs with
  | nil => rfl
  | cons c cs => simp [highest_sequence] at h

end ZKAP
