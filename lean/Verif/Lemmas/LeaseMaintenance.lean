import Verif.Spec.LeaseMaintenance
import Verif.Lemmas.Decimal
import Verif.Lemmas.ServerOps

namespace ZKAP
open Spec

/-! ### Traversal -/

theorem insert_by_name_perm {ν} (x : String × ν) (l : Dict String ν) :
    (insert_by_name x l).Perm (x :: l) := by
  induction l with
  | nil => exact List.Perm.refl _
  | cons y ys ih =>
    unfold insert_by_name
    split
    · exact List.Perm.refl _
    · exact (List.Perm.cons y ih).trans (List.Perm.swap x y ys)

theorem sorted_by_name_perm {ν} (l : Dict String ν) : (l.foldr insert_by_name []).Perm l := by
  induction l with
  | nil => exact List.Perm.refl _
  | cons y ys ih => exact (insert_by_name_perm y _).trans (List.Perm.cons y ih)

theorem nodup_eraseDups {α} [DecidableEq α] (l : List α) : l.eraseDups.Nodup := by
  match l with
  | [] => simp
  | a :: as =>
    rw [List.eraseDups_cons, List.nodup_cons]
    refine ⟨?_, nodup_eraseDups _⟩
    rw [List.mem_eraseDups]
    simp
termination_by l.length
decreasing_by
  simp only [List.length_cons]
  have := List.length_filter_le (fun b => !b == a) as
  omega

theorem mem_of_lookup_some {κ α} [BEq κ] [LawfulBEq κ] {d : List (κ × α)} {k : κ} {v : α}
    (h : d.lookup k = some v) : (k, v) ∈ d := by
  induction d with
  | nil => simp at h
  | cons p ps ih =>
    obtain ⟨a, b⟩ := p
    rw [List.lookup_cons] at h
    split at h
    · rename_i hk
      have := eq_of_beq hk
      simp only [Option.some.injEq] at h
      subst h
      subst this
      exact List.mem_cons_self
    · exact List.mem_cons_of_mem _ (ih h)

theorem mem_stable_children {ν} (children : Dict String ν) (m : ν) :
    m ∈ (stable_children children).reverse ↔ ∃ name, (name, m) ∈ children := by
  unfold stable_children
  rw [List.mem_reverse, List.mem_map]
  constructor
  · rintro ⟨⟨name, x⟩, h, rfl⟩
    exact ⟨name, (sorted_by_name_perm _).mem_iff.mp h⟩
  · rintro ⟨name, h⟩
    exact ⟨(name, m), (sorted_by_name_perm _).mem_iff.mpr h, rfl⟩

/-- The entries of a node. -/
def entries {ν σ} (g : NodeGraph ν σ) (n : ν) : List ν :=
  match g.list n with
  | .ok (some children) => (stable_children children).reverse
  | _ => []

theorem mem_entries {ν σ} (g : NodeGraph ν σ) (n m : ν) : m ∈ entries g n ↔ Child g n m := by
  unfold entries Child
  constructor
  · intro h
    split at h
    · rename_i children e
      obtain ⟨name, h⟩ := (mem_stable_children children m).mp h
      exact ⟨children, name, e, h⟩
    · simp at h
  · rintro ⟨children, name, e, h⟩
    rw [e]
    exact (mem_stable_children children m).mpr ⟨name, h⟩

theorem visit_loop_succ {ν σ} (g : NodeGraph ν σ) (fuel : Nat) (n : ν) (stack : List ν) :
    visit_loop g (fuel + 1) (n :: stack) =
      match g.list n with
      | .error e => some (.error e)
      | .ok _ =>
        match visit_loop g fuel (entries g n ++ stack) with
        | some (.ok visited) => some (.ok (g.storage_index n :: visited))
        | r => r := by
  rw [visit_loop]
  unfold entries
  cases h : g.list n with
  | error e => rfl
  | ok o => cases o <;> rfl

theorem reachable_nil {ν σ} {g : NodeGraph ν σ} {n : ν} (h : Reachable g [] n) : False := by
  induction h with
  | root hr => simp at hr
  | child _ _ ih => exact ih

theorem visit_loop_exact {ν σ} (g : NodeGraph ν σ) (fuel : Nat) (stack : List ν) (visited : List σ)
    (h : visit_loop g fuel stack = some (.ok visited)) (x : σ) :
    x ∈ visited ↔ ∃ n, Reachable g stack n ∧ g.storage_index n = x := by
  induction fuel generalizing stack visited with
  | zero =>
    cases stack with
    | cons n ns => simp [visit_loop] at h
    | nil =>
      simp only [visit_loop, Option.some.injEq, Except.ok.injEq] at h
      subst h
      simp only [List.not_mem_nil, false_iff, not_exists, not_and]
      intro n hn
      exact (reachable_nil hn).elim
  | succ fuel ih =>
    cases stack with
    | nil =>
      simp only [visit_loop, Option.some.injEq, Except.ok.injEq] at h
      subst h
      simp only [List.not_mem_nil, false_iff, not_exists, not_and]
      intro n hn
      exact (reachable_nil hn).elim
    | cons n ns =>
      rw [visit_loop_succ] at h
      cases hg : g.list n with
      | error e => simp [hg] at h
      | ok o =>
        simp only [hg] at h
        cases hv : visit_loop g fuel (entries g n ++ ns) with
        | none => simp [hv] at h
        | some r =>
          cases r with
          | error e => simp [hv] at h
          | ok vs =>
            simp only [hv, Option.some.injEq, Except.ok.injEq] at h
            subst h
            rw [List.mem_cons, ih _ _ hv]
            clear ih
            constructor
            · rintro (rfl | ⟨m, hm, rfl⟩)
              · exact ⟨n, .root List.mem_cons_self, rfl⟩
              · refine ⟨m, ?_, rfl⟩
                induction hm with
                | root hr =>
                  rcases List.mem_append.mp hr with hr | hr
                  · exact .child (.root List.mem_cons_self) ((mem_entries g n _).mp hr)
                  · exact .root (List.mem_cons_of_mem _ hr)
                | child _ hc ih => exact .child ih hc
            · rintro ⟨m, hm, rfl⟩
              have : m = n ∨ Reachable g (entries g n ++ ns) m := by
                induction hm with
                | root hr =>
                  rcases List.mem_cons.mp hr with rfl | hr
                  · exact .inl rfl
                  · exact .inr (.root (List.mem_append_right _ hr))
                | child _ hc ih =>
                  rcases ih with rfl | ih
                  · exact .inr (.root (List.mem_append_left _ ((mem_entries g _ _).mpr hc)))
                  · exact .inr (.child ih hc)
              rcases this with rfl | h
              · exact .inl rfl
              · exact .inr ⟨m, h, rfl⟩

theorem visit_loop_finite {ν σ} (g : NodeGraph ν σ) (fuel : Nat) (stack : List ν) (visited : List σ)
    (h : visit_loop g fuel stack = some (.ok visited)) : ∀ n ∈ stack, Finite g n := by
  induction fuel generalizing stack visited with
  | zero =>
    cases stack with
    | cons n ns => simp [visit_loop] at h
    | nil => simp
  | succ fuel ih =>
    cases stack with
    | nil => simp
    | cons n ns =>
      rw [visit_loop_succ] at h
      cases hg : g.list n with
      | error e => simp [hg] at h
      | ok o =>
        simp only [hg] at h
        cases hv : visit_loop g fuel (entries g n ++ ns) with
        | none => simp [hv] at h
        | some r =>
          cases r with
          | error e => simp [hv] at h
          | ok vs =>
            have hall := ih _ _ hv
            intro m hm
            rcases List.mem_cons.mp hm with rfl | hm
            · exact Acc.intro _ fun k hk =>
                hall k (List.mem_append_left _ ((mem_entries g m k).mpr hk))
            · exact hall m (List.mem_append_right _ hm)

theorem visit_loop_ends {ν σ} (g : NodeGraph ν σ) {n : ν} (hn : Finite g n) :
    (∀ m, Reachable g [n] m → ∃ o, g.list m = .ok o) → ∀ stack,
    (∃ fuel visited, visit_loop g fuel stack = some (.ok visited)) →
    ∃ fuel visited, visit_loop g fuel (n :: stack) = some (.ok visited) := by
  induction hn with
  | intro n _ ih =>
    intro hok stack hstack
    obtain ⟨o, ho⟩ := hok n (.root List.mem_cons_self)
    have hl : ∀ l : List ν, (∀ m ∈ l, Child g n m) →
        ∃ fuel visited, visit_loop g fuel (l ++ stack) = some (.ok visited) := by
      intro l
      induction l with
      | nil => intro _; exact hstack
      | cons m ms ihl =>
        intro hm
        have hc := hm m List.mem_cons_self
        refine ih m hc ?_ _ (ihl fun k hk => hm k (List.mem_cons_of_mem _ hk))
        intro k hk
        refine hok k ?_
        clear ihl hm ih
        induction hk with
        | root hr =>
          simp only [List.mem_singleton] at hr
          subst hr
          exact .child (.root List.mem_cons_self) hc
        | child _ hc' ih' => exact .child ih' hc'
    obtain ⟨fuel, visited, h⟩ := hl (entries g n) (fun m hm => (mem_entries g n m).mp hm)
    exact ⟨fuel + 1, g.storage_index n :: visited, by rw [visit_loop_succ, ho]; simp only [h]⟩

theorem visit_loop_all {ν σ} (g : NodeGraph ν σ) (stack : List ν) (hf : ∀ n ∈ stack, Finite g n)
    (hok : ∀ m, Reachable g stack m → ∃ o, g.list m = .ok o) :
    ∃ fuel visited, visit_loop g fuel stack = some (.ok visited) := by
  induction stack with
  | nil => exact ⟨0, [], rfl⟩
  | cons n ns ih =>
    have hmono : ∀ l m, (∀ x ∈ l, x ∈ n :: ns) → Reachable g l m → Reachable g (n :: ns) m := by
      intro l m hl hm
      induction hm with
      | root hr => exact .root (hl _ hr)
      | child _ hc ih => exact .child ih hc
    refine visit_loop_ends g (hf n List.mem_cons_self) ?_ ns ?_
    · intro m hm
      exact hok m (hmono _ _ (by simp) hm)
    · exact ih (fun m hm => hf m (List.mem_cons_of_mem _ hm))
        (fun m hm => hok m (hmono _ _ (fun x hx => List.mem_cons_of_mem _ hx) hm))

theorem visit_loop_error {ν σ} (g : NodeGraph ν σ) (fuel : Nat) (stack : List ν) (e : PyErr)
    (h : visit_loop g fuel stack = some (.error e)) : ∃ n, Reachable g stack n ∧ g.list n = .error e := by
  induction fuel generalizing stack with
  | zero => cases stack <;> simp [visit_loop] at h
  | succ fuel ih =>
    cases stack with
    | nil => simp [visit_loop] at h
    | cons n ns =>
      rw [visit_loop_succ] at h
      cases hg : g.list n with
      | error e' =>
        simp only [hg, Option.some.injEq, Except.error.injEq] at h
        subst h
        exact ⟨n, .root List.mem_cons_self, hg⟩
      | ok o =>
        simp only [hg] at h
        cases hv : visit_loop g fuel (entries g n ++ ns) with
        | none => simp [hv] at h
        | some r =>
          cases r with
          | ok vs => simp [hv] at h
          | error e' =>
            simp only [hv, Option.some.injEq, Except.error.injEq] at h
            subst h
            obtain ⟨m, hm, he⟩ := ih _ hv
            refine ⟨m, ?_, he⟩
            clear he
            induction hm with
            | root hr =>
              rcases List.mem_append.mp hr with hr | hr
              · exact .child (.root List.mem_cons_self) ((mem_entries g n _).mp hr)
              · exact .root (List.mem_cons_of_mem _ hr)
            | child _ hc ih => exact .child ih hc

theorem reachable_perm {ν σ} {g : NodeGraph ν σ} {l l' : List ν} (h : ∀ x, x ∈ l ↔ x ∈ l') (n : ν) :
    Reachable g l n ↔ Reachable g l' n := by
  constructor
  · intro hr
    induction hr with
    | root hm => exact .root ((h _).mp hm)
    | child _ hc ih => exact .child ih hc
  · intro hr
    induction hr with
    | root hm => exact .root ((h _).mpr hm)
    | child _ hc ih => exact .child ih hc

/-! ### Renewals -/

theorem soonest_spec {l : List ShareStat} {s : ShareStat} (h : soonest_expiration l = .ok s) :
    s ∈ l ∧ ∀ x ∈ l, s.lease_expiration ≤ x.lease_expiration := by
  cases l with
  | nil => simp [soonest_expiration] at h
  | cons a as =>
    simp only [soonest_expiration, Except.ok.injEq] at h
    subst h
    suffices ∀ (l : List ShareStat) (m : ShareStat),
        let r := l.foldl (fun m x => if x.lease_expiration < m.lease_expiration then x else m) m
        (r = m ∨ r ∈ l) ∧ r.lease_expiration ≤ m.lease_expiration ∧
          ∀ x ∈ l, r.lease_expiration ≤ x.lease_expiration by
      obtain ⟨h1, h2, h3⟩ := this as a
      refine ⟨?_, ?_⟩
      · rcases h1 with h1 | h1
        · rw [h1]; exact List.mem_cons_self
        · exact List.mem_cons_of_mem _ h1
      · intro x hx
        rcases List.mem_cons.mp hx with rfl | hx
        · exact h2
        · exact h3 x hx
    intro l
    induction l with
    | nil => intro m; exact ⟨.inl rfl, Int.le_refl _, by simp⟩
    | cons b bs ih =>
      intro m
      simp only [List.foldl_cons]
      by_cases hb : b.lease_expiration < m.lease_expiration
      · rw [if_pos hb]
        obtain ⟨h1, h2, h3⟩ := ih b
        refine ⟨?_, by omega, ?_⟩
        · rcases h1 with h1 | h1
          · right; rw [h1]; exact List.mem_cons_self
          · exact .inr (List.mem_cons_of_mem _ h1)
        · intro x hx
          rcases List.mem_cons.mp hx with rfl | hx
          · exact h2
          · exact h3 x hx
      · rw [if_neg hb]
        obtain ⟨h1, h2, h3⟩ := ih m
        refine ⟨?_, h2, ?_⟩
        · rcases h1 with h1 | h1
          · exact .inl h1
          · exact .inr (List.mem_cons_of_mem _ h1)
        · intro x hx
          rcases List.mem_cons.mp hx with rfl | hx
          · omega
          · exact h3 x hx

theorem needs_spec {min_remaining now : Int} {d : Dict Nat ShareStat} {s : ShareStat} {b : Bool}
    (hs : soonest_expiration d.values = .ok s) (h : needs_lease_renew min_remaining s now = .ok b) :
    b = true ↔ ExpiresSoon min_remaining now d := by
  obtain ⟨hm, hle⟩ := soonest_spec hs
  unfold needs_lease_renew utcfromtimestamp at h
  split at h
  · simp at h
  · rename_i x hx
    split at hx
    · simp only [Except.ok.injEq] at hx h
      subst hx
      subst h
      simp only [decide_eq_true_eq]
      constructor
      · intro hlt
        obtain ⟨⟨n, st⟩, hp, rfl⟩ := List.mem_map.mp hm
        exact ⟨n, st, hp, hlt⟩
      · rintro ⟨n, st, hp, hlt⟩
        have := hle st (List.mem_map_of_mem (f := Prod.snd) hp)
        omega
    · simp at hx

theorem renewals_append {σ} (a b : List (MaintCall σ)) :
    renewals (a ++ b) = renewals a ++ renewals b := by simp [renewals, List.filterMap_append]

theorem renew_loop_spec {σ} (min_remaining : Int) (idx : Nat) (server : LeaseServer σ)
    (pairs : List (σ × Dict Nat ShareStat)) :
    let r := renew_loop min_remaining idx server pairs
    (∀ i si, (i, si) ∈ renewals r.1 →
      i = idx ∧ ∃ d, (si, d) ∈ pairs ∧ ExpiresSoon min_remaining server.now d) ∧
    (r.2 = .ok () → ∀ si d, (si, d) ∈ pairs → ExpiresSoon min_remaining server.now d →
      (idx, si) ∈ renewals r.1 ∧ server.add_lease si = .ok ()) ∧
    (renewals r.1).Sublist ((pairs.map (·.1)).map (fun si => (idx, si))) ∧
    MaintCall.finish ∉ r.1 := by
  induction pairs with
  | nil => simp [renew_loop, renewals]
  | cons p rest ih =>
    obtain ⟨si, d⟩ := p
    simp only [renew_loop]
    cases hd : d.isEmpty with
    | true =>
      simp only [if_true]
      obtain ⟨h1, h2, h3, h4⟩ := ih
      refine ⟨?_, ?_, ?_, h4⟩
      · intro i si' hm
        obtain ⟨e, d', hd', he⟩ := h1 i si' hm
        exact ⟨e, d', List.mem_cons_of_mem _ hd', he⟩
      · intro hok si' d' hm he
        rcases List.mem_cons.mp hm with e | hm
        · simp only [Prod.mk.injEq] at e
          obtain ⟨n, st, hmem, _⟩ := he
          rw [e.2, List.isEmpty_iff.mp hd] at hmem
          simp at hmem
        · exact h2 hok si' d' hm he
      · exact List.Sublist.cons _ h3
    | false =>
      simp only [Bool.false_eq_true, if_false]
      cases hs : soonest_expiration d.values with
      | error e => simp [renewals]
      | ok s =>
        dsimp only
        cases hn : needs_lease_renew min_remaining s server.now with
        | error e => simp [renewals]
        | ok b =>
          have hb := needs_spec hs hn
          obtain ⟨h1, h2, h3, h4⟩ := ih
          cases b with
          | false =>
            simp only [Bool.false_eq_true, false_iff] at hb
            refine ⟨?_, ?_, ?_, ?_⟩
            · intro i si' hm
              obtain ⟨e, d', hd', he⟩ := h1 i si' (by simpa [renewals] using hm)
              exact ⟨e, d', List.mem_cons_of_mem _ hd', he⟩
            · intro hok si' d' hm he
              rcases List.mem_cons.mp hm with e | hm
              · simp only [Prod.mk.injEq] at e
                rw [e.2] at he
                exact absurd he hb
              · have := h2 hok si' d' hm he
                simpa [renewals] using this
            · have : renewals (MaintCall.observe (d.values.map (·.size)) ::
                  (renew_loop min_remaining idx server rest).1) =
                  renewals (renew_loop min_remaining idx server rest).1 := by simp [renewals]
              dsimp only
              rw [this]
              exact List.Sublist.cons _ h3
            · simpa using h4
          | true =>
            have hb := hb.mp rfl
            dsimp only
            cases ha : server.add_lease si with
            | error e =>
              refine ⟨?_, by simp, ?_, by simp⟩
              · intro i si' hm
                simp only [renewals, List.filterMap_cons, List.filterMap_nil, List.mem_singleton,
                  Prod.mk.injEq] at hm
                exact ⟨hm.1, d, by rw [hm.2]; exact List.mem_cons_self, hb⟩
              · simp [renewals]
            | ok _ =>
              have hr : renewals (MaintCall.observe (d.values.map (·.size)) :: MaintCall.renew idx si ::
                  (renew_loop min_remaining idx server rest).1) =
                  (idx, si) :: renewals (renew_loop min_remaining idx server rest).1 := by
                simp [renewals]
              dsimp only
              rw [hr]
              refine ⟨?_, ?_, ?_, by simpa using h4⟩
              · intro i si' hm
                rcases List.mem_cons.mp hm with e | hm
                · simp only [Prod.mk.injEq] at e
                  exact ⟨e.1, d, by rw [e.2]; exact List.mem_cons_self, hb⟩
                · obtain ⟨e, d', hd', he⟩ := h1 i si' hm
                  exact ⟨e, d', List.mem_cons_of_mem _ hd', he⟩
              · intro hok si' d' hm he
                rcases List.mem_cons.mp hm with e | hm
                · simp only [Prod.mk.injEq] at e
                  rw [e.1]
                  exact ⟨List.mem_cons_self, ha⟩
                · have := h2 hok si' d' hm he
                  exact ⟨List.mem_cons_of_mem _ this.1, this.2⟩
              · exact List.Sublist.cons_cons _ h3

theorem mem_zip_answer {σ} {server : LeaseServer σ} {sis : List σ} {stats : List (Dict Nat ShareStat)}
    (h : server.stat_shares sis = .ok stats) (si : σ) (d : Dict Nat ShareStat) :
    (si, d) ∈ sis.zip stats ↔ AnswerAbout server sis si d := by
  constructor
  · intro hm
    obtain ⟨i, hi⟩ := List.mem_iff_getElem?.mp hm
    rw [List.getElem?_zip_eq_some] at hi
    exact ⟨stats, i, h, hi.1, hi.2⟩
  · rintro ⟨stats', i, h', h1, h2⟩
    rw [h] at h'
    simp only [Except.ok.injEq] at h'
    subst h'
    refine List.mem_iff_getElem?.mpr ⟨i, ?_⟩
    rw [List.getElem?_zip_eq_some]
    exact ⟨h1, h2⟩

theorem zip_fst_sublist {α β} (l : List α) (m : List β) : ((l.zip m).map (·.1)).Sublist l := by
  induction l generalizing m with
  | nil => simp
  | cons a as ih =>
    cases m with
    | nil => simp
    | cons b bs => exact List.Sublist.cons_cons _ (ih bs)

theorem on_server_spec {σ} (min_remaining : Int) (sis : List σ) (idx : Nat) (server : LeaseServer σ) :
    let r := renew_leases_on_server min_remaining sis idx server
    (∀ i si, (i, si) ∈ renewals r.1 →
      i = idx ∧ ∃ d, AnswerAbout server sis si d ∧ ExpiresSoon min_remaining server.now d) ∧
    (r.2 = .ok () → ∀ si d, AnswerAbout server sis si d → ExpiresSoon min_remaining server.now d →
      (idx, si) ∈ renewals r.1 ∧ server.add_lease si = .ok ()) ∧
    (renewals r.1).Sublist (sis.map (fun si => (idx, si))) ∧
    MaintCall.finish ∉ r.1 := by
  unfold renew_leases_on_server
  cases h : server.stat_shares sis with
  | error e => simp [renewals]
  | ok stats =>
    obtain ⟨h1, h2, h3, h4⟩ := renew_loop_spec min_remaining idx server (sis.zip stats)
    refine ⟨?_, ?_, ?_, h4⟩
    · intro i si hm
      obtain ⟨e, d, hd, he⟩ := h1 i si hm
      exact ⟨e, d, (mem_zip_answer h si d).mp hd, he⟩
    · intro hok si d ha he
      exact h2 hok si d ((mem_zip_answer h si d).mpr ha) he
    · refine h3.trans (List.Sublist.map _ ?_)
      exact zip_fst_sublist _ _

theorem servers_spec {σ} (min_remaining : Int) (sis : List σ) (idx : Nat) (servers : List (LeaseServer σ)) :
    let r := renew_servers min_remaining sis idx servers
    (∀ i si, (i, si) ∈ renewals r.1 → ∃ k server, i = idx + k ∧ servers[k]? = some server ∧
      si ∈ sis ∧ ∃ d, AnswerAbout server sis si d ∧ ExpiresSoon min_remaining server.now d) ∧
    (r.2 = .ok () → ∀ k server, servers[k]? = some server → ∀ si d, AnswerAbout server sis si d →
      ExpiresSoon min_remaining server.now d →
      (idx + k, si) ∈ renewals r.1 ∧ server.add_lease si = .ok ()) ∧
    (sis.Nodup → (renewals r.1).Nodup) ∧
    (MaintCall.finish ∈ r.1 ↔ r.2 = .ok ()) := by
  induction servers generalizing idx with
  | nil => simp [renew_servers, renewals]
  | cons server servers ih =>
    simp only [renew_servers]
    obtain ⟨g1, g2, g3, g4⟩ := on_server_spec min_remaining sis idx server
    generalize renew_leases_on_server min_remaining sis idx server = p at g1 g2 g3 g4
    obtain ⟨calls, r⟩ := p
    have hsi : ∀ si d, AnswerAbout server sis si d → si ∈ sis := by
      rintro si d ⟨_, i, _, h, _⟩
      exact List.mem_of_getElem? h
    have hnd : sis.Nodup → (sis.map (fun si => (idx, si))).Nodup := by
      intro h
      refine List.Pairwise.map _ (fun a b hne e => ?_) h
      simp only [Prod.mk.injEq, true_and] at e
      exact hne e
    cases r with
    | error e =>
      dsimp only at *
      refine ⟨?_, by simp, fun h => g3.nodup (hnd h), by simpa using g4⟩
      intro i si hm
      obtain ⟨rfl, d, hd, he⟩ := g1 i si hm
      exact ⟨0, server, rfl, rfl, hsi si d hd, d, hd, he⟩
    | ok _ =>
      dsimp only at *
      obtain ⟨h1, h2, h3, h4⟩ := ih (idx + 1)
      refine ⟨?_, ?_, ?_, ?_⟩
      · intro i si hm
        rw [renewals_append] at hm
        rcases List.mem_append.mp hm with hm | hm
        · obtain ⟨rfl, d, hd, he⟩ := g1 i si hm
          exact ⟨0, server, rfl, rfl, hsi si d hd, d, hd, he⟩
        · obtain ⟨k, server', rfl, hk, h⟩ := h1 i si hm
          exact ⟨k + 1, server', by omega, by simpa using hk, h⟩
      · intro hok k server' hk si d ha he
        rw [renewals_append]
        cases k with
        | zero =>
          simp only [List.getElem?_cons_zero, Option.some.injEq] at hk
          subst hk
          have := g2 rfl si d ha he
          exact ⟨List.mem_append_left _ this.1, this.2⟩
        | succ k =>
          simp only [List.getElem?_cons_succ] at hk
          have := h2 hok k server' hk si d ha he
          rw [show idx + (k + 1) = idx + 1 + k by omega]
          exact ⟨List.mem_append_right _ this.1, this.2⟩
      · intro hn
        rw [renewals_append, List.nodup_append]
        refine ⟨g3.nodup (hnd hn), h3 hn, ?_⟩
        rintro ⟨i, si⟩ hm ⟨j, sj⟩ hm' e
        simp only [Prod.mk.injEq] at e
        obtain ⟨rfl, _⟩ := g1 i si hm
        obtain ⟨k, _, hk, _⟩ := h1 j sj hm'
        omega
      · rw [List.mem_append]
        constructor
        · rintro (h | h)
          · exact absurd h g4
          · exact h4.mp h
        · intro h; exact .inr (h4.mpr h)

/-! ### The timer -/

/-- The states the service can be in. -/
inductive TimerState (t : FuzzyTimer) : Prop where
  | stopped : t.running = false → t.call = none → t.pending = [] → t.in_progress = 0 → TimerState t
  | waiting (id : Nat) (delay : Int) : t.running = true → t.call = some id → id < t.next →
      t.pending = [(id, delay)] → t.in_progress = 0 → TimerState t
  | busy (id : Nat) : t.running = true → t.call = some id → t.pending = [] → t.in_progress = 1 →
      TimerState t
  | dead : t.running = true → t.pending = [] → t.in_progress = 0 → TimerState t

theorem timer_step {t : FuzzyTimer} (h : TimerState t) (e : TimerEvent) : TimerState (t.step e) := by
  cases e with
  | start initial =>
    simp only [FuzzyTimer.step]
    split
    · exact h
    · rename_i hr
      rcases h with ⟨h1, h2, h3, h4⟩ | ⟨id, d, h1, h2, h3, h4, h5⟩ | ⟨id, h1, h2, h3, h4⟩ | ⟨h1, h2, h3⟩
      · simp only [FuzzyTimer.startService, FuzzyTimer.callLater]
        by_cases hd : initial < 0
        · rw [if_pos hd]
          exact .dead rfl h3 h4
        · rw [if_neg hd]
          exact .waiting t.next initial rfl rfl (by simp) (by simp [h3]) h4
      · exact absurd h1 hr
      · exact absurd h1 hr
      · exact absurd h1 hr
  | stop =>
    simp only [FuzzyTimer.step, FuzzyTimer.stopService]
    rcases h with ⟨h1, h2, h3, h4⟩ | ⟨id, d, h1, h2, h3, h4, h5⟩ | ⟨id, h1, h2, h3, h4⟩ | ⟨h1, h2, h3⟩
    · rw [h2]; exact .stopped rfl rfl h3 h4
    · rw [h2, h4]
      simp only [List.map_cons, List.map_nil, List.mem_singleton, if_true]
      exact .stopped rfl rfl (by simp) h5
    · rw [h2, h3]
      simp only [List.map_nil, List.not_mem_nil, if_false]
      exact .busy id h1 h2 h3 h4
    · cases hc : t.call with
      | none => exact .stopped rfl rfl h2 h3
      | some id =>
        rw [h2]
        simp only [List.map_nil, List.not_mem_nil, if_false]
        exact .dead h1 h2 h3
  | fire id =>
    simp only [FuzzyTimer.step]
    split
    · rename_i hm
      rcases h with ⟨h1, h2, h3, h4⟩ | ⟨id', d, h1, h2, h3, h4, h5⟩ | ⟨id', h1, h2, h3, h4⟩ | ⟨h1, h2, h3⟩
      · simp [h3] at hm
      · have : id = id' := by simpa [h4] using hm
        subst this
        exact .busy id h1 h2 (by simp [h4]) (by simp [h5])
      · simp [h3] at hm
      · simp [h2] at hm
    · exact h
  | done sample =>
    simp only [FuzzyTimer.step]
    split
    · exact h
    · rename_i hp
      rcases h with ⟨h1, h2, h3, h4⟩ | ⟨id', d, h1, h2, h3, h4, h5⟩ | ⟨id', h1, h2, h3, h4⟩ | ⟨h1, h2, h3⟩
      · exact absurd h4 hp
      · exact absurd h5 hp
      · simp only [FuzzyTimer.callLater]
        by_cases hd : sample < 0
        · rw [if_pos hd]
          exact .dead h1 h3 (by simp [h4])
        · rw [if_neg hd]
          exact .waiting t.next sample h1 rfl (by simp) (by simp [h3]) (by simp [h4])
      · exact absurd h3 hp

theorem timer_run {t : FuzzyTimer} (h : TimerState t) (events : List TimerEvent) :
    TimerState (t.run events) := by
  induction events generalizing t with
  | nil => exact h
  | cons e es ih => exact ih (timer_step h e)

/-- A service that is stopped does nothing until it is started. -/
theorem timer_idle {t : FuzzyTimer} (h2 : t.pending = []) (h3 : t.in_progress = 0)
    (events : List TimerEvent) (hev : ∀ d, .start d ∉ events) :
    (t.run events).runs = t.runs := by
  induction events generalizing t with
  | nil => rfl
  | cons e es ih =>
    have hev' : ∀ d, .start d ∉ es := fun d hm => hev d (List.mem_cons_of_mem _ hm)
    have he : ∀ d, e ≠ .start d := fun d h => hev d (by rw [h]; exact List.mem_cons_self)
    have key : (t.step e).pending = [] ∧ (t.step e).in_progress = 0 ∧ (t.step e).runs = t.runs := by
      cases e with
      | start d => exact absurd rfl (he d)
      | stop =>
        simp only [FuzzyTimer.step, FuzzyTimer.stopService]
        cases t.call with
        | none => exact ⟨h2, h3, rfl⟩
        | some id => simp [h2, h3]
      | fire id => simp [FuzzyTimer.step, h2, h3]
      | done s => simp [FuzzyTimer.step, h2, h3]
    show ((t.step e).run es).runs = t.runs
    rw [ih key.1 key.2.1 hev', key.2.2]

/-- A service is alive when it is stopped, or a run is scheduled or in progress. -/
theorem timer_alive {t : FuzzyTimer}
    (ha : t.running = false ∨ t.pending ≠ [] ∨ t.in_progress ≠ 0) (e : TimerEvent)
    (hs : ∀ d, e = .start d → 0 ≤ d) (hd : ∀ d, e = .done d → 0 ≤ d) :
    (t.step e).running = false ∨ (t.step e).pending ≠ [] ∨ (t.step e).in_progress ≠ 0 := by
  cases e with
  | start d =>
    simp only [FuzzyTimer.step]
    split
    · exact ha
    · simp only [FuzzyTimer.startService, FuzzyTimer.callLater]
      rw [if_neg (by have := hs d rfl; omega)]
      simp
  | stop =>
    simp only [FuzzyTimer.step, FuzzyTimer.stopService]
    cases t.call with
    | none => simp
    | some id =>
      dsimp only
      split
      · simp
      · exact ha
  | fire id =>
    simp only [FuzzyTimer.step]
    split
    · simp
    · exact ha
  | done d =>
    simp only [FuzzyTimer.step]
    split
    · exact ha
    · simp only [FuzzyTimer.callLater]
      rw [if_neg (by have := hd d rfl; omega)]
      simp

end ZKAP

namespace ZKAP
open Spec

/-! ### Renewals and the server -/

theorem foldl_max_mem (ls : List Lease) (a : Int) :
    ls.foldl (fun m l => max m l.expiration) a = a ∨
      ∃ l ∈ ls, ls.foldl (fun m l => max m l.expiration) a = l.expiration := by
  induction ls generalizing a with
  | nil => exact .inl rfl
  | cons l ls ih =>
    simp only [List.foldl_cons]
    rcases ih (max a l.expiration) with h | ⟨x, hx, h⟩
    · rw [h]
      by_cases hl : a ≤ l.expiration
      · exact .inr ⟨l, List.mem_cons_self, by omega⟩
      · exact .inl (by omega)
    · exact .inr ⟨x, List.mem_cons_of_mem _ hx, h⟩

theorem lasts_of_stat {share : Share} {m now : Int} (hm : 0 ≤ m) (hn : 0 < now)
    (h : m ≤ (share_stat share).lease_expiration * 1000000 - now) : LeaseLasts m now share := by
  unfold share_stat get_lease_expiration at h
  unfold LeaseLasts
  cases hl : share.leases with
  | nil => simp [hl] at h; omega
  | cons l ls =>
    simp only [hl, Option.getD_some] at h
    rcases foldl_max_mem ls l.expiration with e | ⟨x, hx, e⟩
    · exact ⟨l, List.mem_cons_self, by rw [e] at h; exact h⟩
    · exact ⟨x, List.mem_cons_of_mem _ hx, by rw [e] at h; exact h⟩

theorem add_lease_lasts (cfg : ServerConfig) (a : AddLeaseArgs) (s s' : Server)
    (h : remote_add_lease cfg a s = (s', .ok ())) (hwf : Dict.WF (s.buckets a.storage_index)) :
    (∀ si, si ≠ a.storage_index → s'.buckets si = s.buckets si) ∧
    (∀ si, Dict.WF (s.buckets si) → Dict.WF (s'.buckets si)) ∧
    ∀ n share, (s'.buckets a.storage_index).lookup n = some share →
      ∃ l ∈ share.leases, a.now + LEASE_PERIOD ≤ l.expiration := by
  unfold remote_add_lease at h
  split at h
  · simp at h
  · split at h
    · simp at h
    · dsimp only at h
      split at h
      · rename_i hr
        simp only [Prod.mk.injEq, and_true] at h
        subst h
        refine ⟨?_, ?_, ?_⟩
        · intro si hsi
          simp [set_bucket, hsi]
        · intro si hsi
          simp only [set_bucket]
          split
          · exact loop_wf _ _ _ hwf
          · exact hsi
        · intro n share hs
          simp only [set_bucket, if_true] at hs
          have hl := add_leases_loop_lookup a.space ⟨a.renew_secret, a.now + LEASE_PERIOD⟩
            (fun _ _ => true) (s.buckets a.storage_index) hwf n
          cases hb : (s.buckets a.storage_index).lookup n with
          | none =>
            have := hl.1 hb
            unfold original_add_lease at hs
            rw [this] at hs
            simp at hs
          | some sh =>
            obtain ⟨sh', h1, _, _, h4⟩ := hl.2 sh hb
            have h5 := h4 rfl hr
            unfold original_add_lease at hs
            rw [h1] at hs
            simp only [Option.some.injEq] at hs
            subst hs
            obtain ⟨⟨l, hm, hlt⟩, _⟩ := add_or_renew_leased _ _ _ _ (a.now + LEASE_PERIOD - 1) h5
              (by show _ < a.now + LEASE_PERIOD; omega)
            exact ⟨l, hm, by omega⟩
      · simp at h

theorem renewedServer_lasts (cfg : ServerConfig) (call : SI → AddLeaseArgs)
    (hcall : ∀ si, (call si).storage_index = si) (m now : Int) (hm : m ≤ LEASE_PERIOD * 1000000)
    (hnow : ∀ si, now ≤ (call si).now * 1000000) (rs : List SI) (s s' : Server) (hwf : BucketsWF s)
    (h : renewedServer cfg call s rs = some s') :
    ∀ si, (si ∈ rs → ∀ n share, (s'.buckets si).lookup n = some share → LeaseLasts m now share) ∧
      (si ∉ rs → s'.buckets si = s.buckets si) := by
  induction rs generalizing s with
  | nil =>
    simp only [renewedServer, Option.some.injEq] at h
    subst h
    simp
  | cons r rs ih =>
    unfold renewedServer at h
    split at h
    · rename_i s1 hr
      obtain ⟨h1, h2, h3⟩ := add_lease_lasts cfg (call r) s s1 hr (hwf _)
      rw [hcall] at h1 h3
      have := ih s1 (fun si => h2 si (hwf si)) h
      intro si
      refine ⟨?_, ?_⟩
      · intro hmem n share hs
        by_cases hin : si ∈ rs
        · exact (this si).1 hin n share hs
        · rcases List.mem_cons.mp hmem with rfl | hmem
          · rw [(this si).2 hin] at hs
            obtain ⟨l, hl, hle⟩ := h3 n share hs
            refine ⟨l, hl, ?_⟩
            have := hnow si
            unfold LEASE_PERIOD at *
            omega
          · exact absurd hmem hin
      · intro hnot
        rw [(this si).2 (fun hh => hnot (List.mem_cons_of_mem _ hh)), h1 si]
        intro e
        exact hnot (by rw [e]; exact List.mem_cons_self)
    · simp at h

/-! ### Delays -/

theorem run_cons (t : FuzzyTimer) (e : TimerEvent) (es : List TimerEvent) :
    t.run (e :: es) = (t.step e).run es := rfl

theorem run_append (t : FuzzyTimer) (a b : List TimerEvent) : t.run (a ++ b) = (t.run a).run b :=
  List.foldl_append

/-- Every delay asked of the reactor was given by a `start` or `done` event. -/
theorem timer_delays (events : List TimerEvent) (t : FuzzyTimer) {id : Nat} {d : Int}
    (h : (id, d) ∈ (t.run events).pending) :
    (id, d) ∈ t.pending ∨ (0 ≤ d ∧ (.start d ∈ events ∨ .done d ∈ events)) := by
  induction events generalizing t with
  | nil => exact .inl h
  | cons e es ih =>
    rw [run_cons] at h
    rcases ih (t.step e) h with h | ⟨h0, h⟩
    · have hcl : ∀ (u u' : FuzzyTimer) (x : Int), u.callLater x = .ok u' → (id, d) ∈ u'.pending →
          (id, d) ∈ u.pending ∨ (0 ≤ d ∧ d = x) := by
        intro u u' x hc hm
        unfold FuzzyTimer.callLater at hc
        split at hc
        · simp at hc
        · simp only [Except.ok.injEq] at hc
          subst hc
          simp only [List.mem_append, List.mem_singleton, Prod.mk.injEq] at hm
          rcases hm with hm | ⟨_, rfl⟩
          · exact .inl hm
          · exact .inr ⟨by omega, rfl⟩
      cases e with
      | start x =>
        simp only [FuzzyTimer.step] at h
        split at h
        · exact .inl h
        · simp only [FuzzyTimer.startService] at h
          split at h
          · exact .inl h
          · rename_i u' hc
            rcases hcl _ _ _ hc h with h | ⟨h0, rfl⟩
            · exact .inl h
            · exact .inr ⟨h0, .inl List.mem_cons_self⟩
      | stop =>
        simp only [FuzzyTimer.step, FuzzyTimer.stopService] at h
        split at h
        · exact .inl h
        · split at h
          · exact .inl (List.mem_filter.mp h).1
          · exact .inl h
      | fire x =>
        simp only [FuzzyTimer.step] at h
        split at h
        · exact .inl (List.mem_filter.mp h).1
        · exact .inl h
      | done x =>
        simp only [FuzzyTimer.step] at h
        split at h
        · exact .inl h
        · split at h
          · exact .inl h
          · rename_i u' hc
            rcases hcl _ _ _ hc h with h | ⟨h0, rfl⟩
            · exact .inl h
            · exact .inr ⟨h0, .inr List.mem_cons_self⟩
    · exact .inr ⟨h0, h.imp (List.mem_cons_of_mem _) (List.mem_cons_of_mem _)⟩

theorem sampled_near {c : LeaseMaintenanceConfig} {s : Int} (hr : 0 ≤ c.crawl_interval_range)
    (h : Sampled c s) : 2 * (s - c.crawl_interval_mean) ≤ c.crawl_interval_range ∧
      2 * (c.crawl_interval_mean - s) ≤ c.crawl_interval_range := by
  unfold Sampled halfrange at h
  rw [Int.fdiv_eq_ediv_of_nonneg _ (by omega)] at h
  omega

/-! ### Durations -/

theorem parse_format (n : Int) : parse_duration (format_duration (n * 1000000)) = .ok (n * 1000000) := by
  unfold parse_duration format_duration
  rw [Int.mul_tdiv_cancel _ (by decide), int_str_str_int]

end ZKAP

namespace ZKAP
open Spec

theorem healthy_loop {σ} (m : Int) (idx : Nat) (server : LeaseServer σ)
    (pairs : List (σ × Dict Nat ShareStat)) (ha : ∀ p ∈ pairs, server.add_lease p.1 = .ok ())
    (h : ∀ p ∈ pairs, ∀ n st, (n, st) ∈ p.2 →
      -62135596800 ≤ st.lease_expiration ∧ st.lease_expiration ≤ 253402300799) :
    (renew_loop m idx server pairs).2 = .ok () := by
  induction pairs with
  | nil => rfl
  | cons p rest ih =>
    obtain ⟨si, d⟩ := p
    have ih := ih (fun p hp => ha p (List.mem_cons_of_mem _ hp)) (fun p hp => h p (List.mem_cons_of_mem _ hp))
    have hd := h (si, d) List.mem_cons_self
    have ha := ha (si, d) List.mem_cons_self
    simp only [renew_loop]
    split
    · exact ih
    · rename_i hne
      cases hs : soonest_expiration d.values with
      | error e =>
        cases d with
        | nil => simp at hne
        | cons x xs => simp [Dict.values, soonest_expiration] at hs
      | ok s =>
        obtain ⟨⟨n, st⟩, hm, rfl⟩ := List.mem_map.mp (soonest_spec hs).1
        have hr := hd n st hm
        dsimp only
        unfold needs_lease_renew utcfromtimestamp
        rw [if_pos hr]
        dsimp only
        cases decide (st.lease_expiration * 1000000 - server.now < m) with
        | false => exact ih
        | true => dsimp only; rw [ha]; exact ih

theorem healthy_server {σ} {sis : List σ} {server : LeaseServer σ} (h : Healthy sis server) (m : Int)
    (idx : Nat) : (renew_leases_on_server m sis idx server).2 = .ok () := by
  obtain ⟨stats, hs, hr⟩ := h.stats
  unfold renew_leases_on_server
  rw [hs]
  refine healthy_loop m idx server _ (fun p hp => h.leases _ (List.of_mem_zip hp).1) ?_
  rintro ⟨si, d⟩ hp n st hm
  exact hr d (List.of_mem_zip hp).2 n st hm

theorem servers_prefix {σ} (m : Int) (sis : List σ) (idx k : Nat) (servers : List (LeaseServer σ))
    (h : ∀ j ≤ k, ∀ server, servers[j]? = some server →
      ∀ idx, (renew_leases_on_server m sis idx server).2 = .ok ())
    (server : LeaseServer σ) (hk : servers[k]? = some server) (si : σ) (d : Dict Nat ShareStat)
    (ha : AnswerAbout server sis si d) (he : ExpiresSoon m server.now d) :
    (idx + k, si) ∈ renewals (renew_servers m sis idx servers).1 := by
  induction servers generalizing idx k with
  | nil => simp at hk
  | cons s0 rest ih =>
    have h0 := h 0 (by omega) s0 rfl idx
    obtain ⟨_, g2, _, _⟩ := on_server_spec m sis idx s0
    simp only [renew_servers]
    generalize renew_leases_on_server m sis idx s0 = p at h0 g2
    obtain ⟨calls, r⟩ := p
    dsimp only at h0
    subst h0
    dsimp only
    rw [renewals_append]
    cases k with
    | zero =>
      simp only [List.getElem?_cons_zero, Option.some.injEq] at hk
      subst hk
      exact List.mem_append_left _ (g2 rfl si d ha he).1
    | succ k =>
      rw [show idx + (k + 1) = idx + 1 + k by omega]
      refine List.mem_append_right _ (ih (idx + 1) k ?_ (by simpa using hk))
      intro j hj server' hs
      exact h (j + 1) (by omega) server' (by simpa using hs)

theorem mem_renewals {σ} (calls : List (MaintCall σ)) (i : Nat) (si : σ) :
    (i, si) ∈ renewals calls ↔ .renew i si ∈ calls := by
  unfold renewals
  rw [List.mem_filterMap]
  constructor
  · rintro ⟨c, hc, h⟩
    cases c with
    | renew j sj =>
      simp only [Option.some.injEq, Prod.mk.injEq] at h
      obtain ⟨rfl, rfl⟩ := h
      exact hc
    | observe l => simp at h
    | finish => simp at h
  · intro h
    exact ⟨_, h, rfl⟩

end ZKAP
