import Verif.Spec.MaintLife
import Verif.Lemmas.Cbor
import Verif.Lemmas.LeaseMaintenance

/-! Lemmas for `Props/MaintLife.lean`. -/
namespace ZKAP
open Spec

theorem sampled_between {c : LeaseMaintenanceConfig} (h : Sensible c) {s : Int} (hs : Sampled c s) :
    shortest c ≤ s ∧ s ≤ longest c := by
  unfold Sampled halfrange at hs
  unfold shortest longest
  rw [Int.fdiv_eq_ediv_of_nonneg _ (by omega)] at hs
  have := h.range
  omega

/-- What holds at any time in the life of a node. -/
structure LifeInv (c : LeaseMaintenanceConfig) (n : MaintLife) : Prop where
  file : n.last_run = n.last_end
  up : n.phase ≠ .down → n.up_since ≤ n.now
  ended : ∀ e, n.last_end = some e → e ≤ n.now
  due : ∀ due, n.phase = .waiting due → n.now ≤ due ∧
    (∀ e, n.last_end = some e → e + shortest c ≤ due ∧ due ≤ max n.up_since (e + longest c)) ∧
    (n.last_end = none → n.up_since + shortest c ≤ due ∧ due ≤ n.up_since + longest c)

theorem life_step {c : LeaseMaintenanceConfig} (hc : Sensible c) {n : MaintLife} (h : LifeInv c n)
    (e : LifeEvent) (he : LifeFollows c [e]) : LifeInv c (n.step e) := by
  have he := he e List.mem_cons_self
  obtain ⟨hf, hu, hend, hdue⟩ := h
  cases e with
  | tick dt =>
    cases hp : n.phase with
    | down =>
      simp only [MaintLife.step, hp]
      exact ⟨hf, fun h => absurd rfl h, fun e he => by
        have := hend e he; show e ≤ n.now + dt; omega, fun d hd => (nomatch hd)⟩
    | running =>
      simp only [MaintLife.step, hp]
      refine ⟨hf, fun h => ?_, fun e he => ?_, fun d hd => ?_⟩
      · have := hu (by rw [hp]; exact fun h => nomatch h)
        show n.up_since ≤ n.now + dt; omega
      · have := hend e he; show e ≤ n.now + dt; omega
      · exact nomatch hd
    | waiting due =>
      simp only [MaintLife.step, hp]
      split
      · rename_i hle
        refine ⟨hf, fun h => ?_, fun e he => ?_, fun d hd => ?_⟩
        · have := hu (by rw [hp]; exact fun h => nomatch h)
          show n.up_since ≤ n.now + dt; omega
        · have := hend e he; show e ≤ n.now + dt; omega
        · cases hd
          exact ⟨hle, (hdue due hp).2⟩
      · exact ⟨hf, hu, hend, hdue⟩
  | start sample =>
    have hs := sampled_between hc he
    have hsh := hc.shortest
    cases hp : n.phase with
    | running => simp only [MaintLife.step, hp]; exact ⟨hf, hu, hend, hdue⟩
    | waiting due => simp only [MaintLife.step, hp]; exact ⟨hf, hu, hend, hdue⟩
    | down =>
      simp only [MaintLife.step, hp]
      split
      · exact ⟨hf, fun _ => Int.le_refl _, hend, fun d hd => (nomatch hd)⟩
      · refine ⟨hf, fun _ => Int.le_refl _, hend, fun d hd => ?_⟩
        cases hd
        show n.now ≤ n.now + initial_interval sample n.last_run n.now ∧ _
        rw [hf]
        refine ⟨?_, fun e hee => ?_, fun hn => ?_⟩
        · rename_i hneg
          rw [hf] at hneg
          omega
        · have he' : n.last_end = some e := hee
          have := hend e he'
          rw [he']
          show e + shortest c ≤ n.now + initial_interval sample (some e) n.now ∧
            n.now + initial_interval sample (some e) n.now ≤ max n.now (e + longest c)
          unfold initial_interval calculate_initial_interval
          dsimp only
          omega
        · have hn' : n.last_end = none := hn
          rw [hn']
          show n.now + shortest c ≤ n.now + initial_interval sample none n.now ∧
            n.now + initial_interval sample none n.now ≤ n.now + longest c
          unfold initial_interval
          dsimp only
          omega
  | fire =>
    cases hp : n.phase with
    | down => simp only [MaintLife.step, hp]; exact ⟨hf, hu, hend, hdue⟩
    | running => simp only [MaintLife.step, hp]; exact ⟨hf, hu, hend, hdue⟩
    | waiting due =>
      simp only [MaintLife.step, hp]
      split
      · exact ⟨hf, fun _ => hu (by rw [hp]; exact fun h => nomatch h), hend, fun d hd => (nomatch hd)⟩
      · exact ⟨hf, hu, hend, hdue⟩
  | finish ok sample =>
    have hs := sampled_between hc he
    have hsh := hc.shortest
    cases hp : n.phase with
    | down => simp only [MaintLife.step, hp]; exact ⟨hf, hu, hend, hdue⟩
    | waiting due => simp only [MaintLife.step, hp]; exact ⟨hf, hu, hend, hdue⟩
    | running =>
      have hup := hu (by rw [hp]; exact fun h => nomatch h)
      simp only [MaintLife.step, hp]
      rw [if_neg (by omega)]
      refine ⟨rfl, fun _ => hup, fun e he => ?_, fun d hd => ?_⟩
      · cases he; exact Int.le_refl _
      · cases hd
        refine ⟨by show n.now ≤ n.now + sample; omega, fun e he => ?_, fun hn => (nomatch hn)⟩
        cases he
        show n.now + shortest c ≤ n.now + sample ∧ n.now + sample ≤ max n.up_since (n.now + longest c)
        omega
  | stop => exact ⟨hf, fun h => absurd rfl h, hend, fun d hd => (nomatch hd)⟩

theorem life_run {c : LeaseMaintenanceConfig} (hc : Sensible c) (events : List LifeEvent)
    (he : LifeFollows c events) {n : MaintLife} (h : LifeInv c n) : LifeInv c (n.run events) := by
  induction events generalizing n with
  | nil => exact h
  | cons e es ih =>
    exact ih (fun x hx => he x (List.mem_cons_of_mem _ hx))
      (life_step hc h e fun x hx => by rw [List.mem_singleton.mp hx]; exact he e List.mem_cons_self)

theorem life_new (c : LeaseMaintenanceConfig) (t : Int) : LifeInv c { now := t } :=
  ⟨rfl, fun h => absurd rfl h, fun _ h => (nomatch h), fun _ h => (nomatch h)⟩

theorem life_success (events : List LifeEvent) (ok : ∀ sample, .finish false sample ∉ events) (n : MaintLife)
    (h : n.last_run = n.last_success) : (n.run events).last_run = (n.run events).last_success := by
  induction events generalizing n with
  | nil => exact h
  | cons e es ih =>
    refine ih (fun s hs => ok s (List.mem_cons_of_mem _ hs)) _ ?_
    cases e with
    | tick dt =>
      simp only [MaintLife.step]
      repeat' split
      all_goals exact h
    | start s =>
      simp only [MaintLife.step]
      repeat' split
      all_goals exact h
    | fire =>
      simp only [MaintLife.step]
      repeat' split
      all_goals exact h
    | finish b s =>
      cases b with
      | false => exact absurd List.mem_cons_self (ok s)
      | true =>
        simp only [MaintLife.step]
        split
        · rfl
        · exact h
    | stop => exact h

theorem life_up {c : LeaseMaintenanceConfig} (hc : Sensible c) (events : List LifeEvent)
    (he : LifeFollows c events) (hs : .stop ∉ events) {n : MaintLife} (hi : LifeInv c n) (h : n.phase ≠ .down) :
    (n.run events).phase ≠ .down := by
  induction events generalizing n with
  | nil => exact h
  | cons e es ih =>
    have he1 : LifeFollows c [e] := fun x hx => by
      rw [List.mem_singleton.mp hx]; exact he e List.mem_cons_self
    refine ih (fun x hx => he x (List.mem_cons_of_mem _ hx)) (fun hh => hs (List.mem_cons_of_mem _ hh))
      (life_step hc hi e he1) ?_
    cases hp : n.phase with
    | down => exact absurd hp h
    | waiting due =>
      cases e with
      | tick dt =>
        simp only [MaintLife.step, hp]
        split
        · exact fun h => (nomatch h)
        · rw [hp]; exact fun h => (nomatch h)
      | start s => simp only [MaintLife.step, hp]; exact fun h => (nomatch h)
      | fire =>
        simp only [MaintLife.step, hp]
        split
        · exact fun h => (nomatch h)
        · rw [hp]; exact fun h => (nomatch h)
      | finish b s => simp only [MaintLife.step, hp]; exact fun h => (nomatch h)
      | stop => exact absurd List.mem_cons_self hs
    | running =>
      cases e with
      | tick dt => simp only [MaintLife.step, hp]; exact fun h => (nomatch h)
      | start s => simp only [MaintLife.step, hp]; exact fun h => (nomatch h)
      | fire => simp only [MaintLife.step, hp]; exact fun h => (nomatch h)
      | finish b s =>
        have := sampled_between hc (he1 _ List.mem_cons_self)
        have := hc.shortest
        simp only [MaintLife.step, hp]
        rw [if_neg (by omega)]
        exact fun h => (nomatch h)
      | stop => exact absurd List.mem_cons_self hs

theorem life_start {c : LeaseMaintenanceConfig} (hc : Sensible c) {sample : Int} (hs : Sampled c sample)
    (n : MaintLife) : (n.step (.start sample)).phase ≠ .down := by
  have := sampled_between hc hs
  have := hc.shortest
  cases hp : n.phase with
  | waiting due => simp only [MaintLife.step, hp]; exact fun h => (nomatch h)
  | running => simp only [MaintLife.step, hp]; exact fun h => (nomatch h)
  | down =>
    simp only [MaintLife.step, hp]
    rw [if_neg]
    · exact fun h => (nomatch h)
    · unfold initial_interval
      split <;> omega

theorem life_append (n : MaintLife) (a b : List LifeEvent) : n.run (a ++ b) = (n.run a).run b :=
  List.foldl_append

/-! ### The text of a time -/

theorem read_naive_fraction_stamp (m : Nat) (hm : m < 1000000) :
    read_naive_fraction (if m = 0 then [] else '.' :: padded 6 m) = some m := by
  by_cases h0 : m = 0
  · subst h0; rfl
  · rw [if_neg h0]
    have := take_digits_padded 6 m 0 hm []
    rw [List.append_nil, Nat.zero_mul, Nat.zero_add] at this
    simp only [read_naive_fraction, this]

theorem parse_naive_stamp (t : DateTime) (h : Spec.Valid t) : parse_naive_datetime (naive_stamp t) = some t := by
  have hv := (datetime_valid_iff t).mpr h
  have hday : t.day < 10 ^ 2 := by
    have := h.day.2
    have hle : Spec.daysInMonth t.year t.month ≤ 31 := by
      unfold Spec.daysInMonth; repeat' split
      all_goals omega
    omega
  have h1 := h.year; have h2 := h.month; have h4 := h.hour; have h5 := h.minute; have h6 := h.second
  unfold parse_naive_datetime naive_stamp
  simp only [take_digits_padded 4 _ _ (show t.year < 10 ^ 4 by omega),
    take_digits_padded 2 _ _ (show t.month < 10 ^ 2 by omega),
    take_digits_padded 2 _ _ hday,
    take_digits_padded 2 _ _ (show t.hour < 10 ^ 2 by omega),
    take_digits_padded 2 _ _ (show t.minute < 10 ^ 2 by omega),
    take_digits_padded 2 _ _ (show t.second < 10 ^ 2 by omega),
    expect_char, if_true, Option.bind_eq_bind, Option.bind_some, Nat.zero_mul, Nat.zero_add,
    read_naive_fraction_stamp _ h.microsecond, hv]

theorem digit_char_lt {c : Char} (h : c.isDigit = true) : c.toNat < 128 := by
  simp only [Char.isDigit, Bool.and_eq_true, decide_eq_true_eq] at h
  have := h.2
  have : c.val.toNat ≤ 57 := by simpa [UInt32.le_iff_toNat_le] using this
  show c.val.toNat < 128
  omega

theorem naive_stamp_ascii (t : DateTime) : ∀ c ∈ naive_stamp t, c.toNat < 128 := by
  intro c hc
  have hd : ∀ w n, c ∈ padded w n → c.toNat < 128 := fun w n h => digit_char_lt (padded_digits w n c h)
  unfold naive_stamp at hc
  simp only [List.mem_append, List.mem_cons] at hc
  rcases hc with h | rfl | h | rfl | h | rfl | h | rfl | h | rfl | h | h
  all_goals first | exact hd _ _ h | decide | skip
  split at h
  · exact nomatch h
  · rcases List.mem_cons.mp h with rfl | h
    · decide
    · exact hd _ _ h

theorem encode_ascii : ∀ cs : List Char, (∀ c ∈ cs, c.toNat < 128) →
    ((cs.map Char.toNat).flatMap utf8_point).map UInt8.ofNat = cs.map fun c => UInt8.ofNat c.toNat
  | [], _ => rfl
  | c :: cs, h => by
    rw [List.map_cons, List.flatMap_cons, List.map_append,
      encode_ascii cs fun x hx => h x (List.mem_cons_of_mem _ hx), utf8_point,
      if_pos (h c List.mem_cons_self)]
    rfl

/-! ### Leases after a run -/

/-- A share with a lease that long is reported with an expiration at least as late. -/
theorem stat_of_lease {share : Share} {l : Lease} (hl : l ∈ share.leases) :
    l.expiration ≤ (share_stat share).lease_expiration := by
  unfold share_stat get_lease_expiration
  cases hs : share.leases with
  | nil => rw [hs] at hl; exact nomatch hl
  | cons a ls =>
    simp only [Option.getD_some]
    rw [hs] at hl
    have := (foldl_max_gt ls a.expiration (l.expiration - 1)).mpr (by
      rcases List.mem_cons.mp hl with rfl | h
      · exact .inl (by omega)
      · exact .inr ⟨l, h, by omega⟩)
    omega

theorem renewed_until (cfg : ServerConfig) (call : SI → AddLeaseArgs)
    (hcall : ∀ si, (call si).storage_index = si) (rs : List SI) (s s' : Server) (hwf : BucketsWF s)
    (h : renewedServer cfg call s rs = some s') :
    BucketsWF s' ∧
    ∀ si, (si ∈ rs → ∀ n share, (s'.buckets si).lookup n = some share →
        ∃ l ∈ share.leases, (call si).now + LEASE_PERIOD ≤ l.expiration) ∧
      (si ∉ rs → s'.buckets si = s.buckets si) := by
  induction rs generalizing s with
  | nil => cases h; exact ⟨hwf, fun _ => ⟨fun h => (nomatch h), fun _ => rfl⟩⟩
  | cons r rs ih =>
    unfold renewedServer at h
    split at h
    · rename_i s1 hr
      obtain ⟨h1, h2, h3⟩ := add_lease_lasts cfg (call r) s s1 hr (hwf _)
      rw [hcall] at h1 h3
      obtain ⟨hw, this⟩ := ih s1 (fun si => h2 si (hwf si)) h
      refine ⟨hw, fun si => ⟨fun hmem n share hs => ?_, fun hn => ?_⟩⟩
      · by_cases hin : si ∈ rs
        · exact (this si).1 hin n share hs
        · rcases List.mem_cons.mp hmem with rfl | hmem
          · rw [(this si).2 hin] at hs
            exact h3 n share hs
          · exact absurd hmem hin
      · rw [(this si).2 (fun hh => hn (List.mem_cons_of_mem _ hh))]
        exact h1 si (fun hh => hn (hh ▸ List.mem_cons_self))
    · exact nomatch h

end ZKAP
