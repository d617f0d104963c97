import Verif.Spec.ShareDir
import Verif.Lemmas.Decimal
import Verif.Lemmas.Dict

/-! Reading the directories of a storage server. -/
namespace ZKAP
open Spec

/-! ### Numbers -/

theorem digit_plain {d : Nat} (h : d < 10) :
    py_space (digit d) = false ∧ digit d ≠ '_' ∧ is_digit (digit d) = true := by
  have : d = 0 ∨ d = 1 ∨ d = 2 ∨ d = 3 ∨ d = 4 ∨ d = 5 ∨ d = 6 ∨ d = 7 ∨ d = 8 ∨ d = 9 := by omega
  rcases this with rfl | rfl | rfl | rfl | rfl | rfl | rfl | rfl | rfl | rfl <;> decide

theorem decimal_plain (n : Nat) : ∀ c ∈ decimal n, py_space c = false ∧ c ≠ '_' := by
  fun_induction decimal n with
  | case1 n h =>
    intro c hc
    simp only [List.mem_singleton] at hc
    subst hc
    exact ⟨(digit_plain h).1, (digit_plain h).2.1⟩
  | case2 n h ih =>
    intro c hc
    rcases List.mem_append.mp hc with hc | hc
    · exact ih c hc
    · simp only [List.mem_singleton] at hc
      subst hc
      have := digit_plain (Nat.mod_lt n (by omega : 10 > 0))
      exact ⟨this.1, this.2.1⟩

theorem str_int_plain (n : Int) : ∀ c ∈ (str_int n).toList, py_space c = false ∧ c ≠ '_' := by
  intro c hc
  unfold str_int at hc
  rw [String.toList_ofList] at hc
  split at hc
  · rcases List.mem_cons.mp hc with rfl | hc
    · decide
    · exact decimal_plain _ c hc
  · exact decimal_plain _ c hc

theorem dropWhile_none {cs : List Char} (h : ∀ c ∈ cs, py_space c = false) : cs.dropWhile py_space = cs := by
  cases cs with
  | nil => rfl
  | cons c cs => rw [List.dropWhile_cons_of_neg (by simp [h c List.mem_cons_self])]

theorem py_strip_plain {cs : List Char} (h : ∀ c ∈ cs, py_space c = false) : py_strip cs = cs := by
  unfold py_strip py_lstrip
  rw [dropWhile_none h, dropWhile_none (fun c hc => h c (List.mem_reverse.mp hc)), List.reverse_reverse]

theorem ungroup_plain {cs : List Char} (h : ∀ c ∈ cs, c ≠ '_') : ungroup cs = cs := by
  fun_induction ungroup cs with
  | case1 c d e cs hc ih =>
    simp only [Bool.and_eq_true, beq_iff_eq] at hc
    exact absurd hc.1.2 (h d (by simp))
  | case2 c d e cs hc ih => rw [ih (fun x hx => h x (List.mem_cons_of_mem _ hx))]
  | case3 => rfl

/-- The name under which a share is stored is read as its number. -/
theorem py_int_str_int (n : Int) : py_int (str_int n) = some n := by
  have h := str_int_plain n
  unfold py_int
  rw [py_strip_plain (fun c hc => (h c hc).1), ungroup_plain (fun c hc => (h c hc).2), String.ofList_toList,
    int_str_str_int]

theorem str_int_injective {a b : Int} (h : str_int a = str_int b) : a = b := by
  have ha := py_int_str_int a
  rw [h, py_int_str_int] at ha
  exact (Option.some.inj ha).symm

/-! ### Directories that hold a bucket -/

/-- Files with the numbers and contents of the shares of a bucket, in order. -/
inductive FilesOf (leases : Bytes → Except PyErr (List Int)) : List (Nat × Bytes) → Bucket → Prop where
  | nil : FilesOf leases [] []
  | cons (n : Nat) (file : Bytes) (share : Share) {files bucket} : FileOf leases file share →
      FilesOf leases files bucket → FilesOf leases ((n, file) :: files) ((n, share) :: bucket)

theorem holds_paths {leases : Bytes → Except PyErr (List Int)} {contents : List (String × Bytes)}
    {bucket : Bucket} (h : HoldsShares leases contents bucket) :
    ∃ files : List (Nat × Bytes),
      contents.filterMap (fun c => (py_int c.1).map fun n => (n, c.2)) = files.map (fun f => ((f.1 : Int), f.2)) ∧
      FilesOf leases files bucket := by
  induction h with
  | empty => exact ⟨[], rfl, .nil⟩
  | share n file share hf h ih =>
    obtain ⟨files, h1, h3⟩ := ih
    refine ⟨(n, file) :: files, ?_, .cons n file share hf h3⟩
    rw [List.filterMap_cons]
    simp only [py_int_str_int, Option.map_some, h1, List.map_cons]
  | other name file hn h ih =>
    obtain ⟨files, h1, h3⟩ := ih
    refine ⟨files, ?_, h3⟩
    rw [List.filterMap_cons]
    simp only [hn, Option.map_none, h1]

theorem stat_path_share {leases : Bytes → Except PyErr (List Int)} {file : Bytes} {share : Share}
    (hf : FileOf leases file share) :
    stat_path leases (if share.is_mutable then .slot else .bucket) file = .ok (share_stat share) := by
  have hs := hf.size
  unfold stat_share_size at hs
  rw [hf.kind] at hs
  have hl := hf.leases
  have key : ∀ r : Except PyErr Int, r = .ok (share.data.length : Int) →
      (match r with
      | .error e => .error e
      | .ok size =>
        match leases file with
        | .error e => .error e
        | .ok [] => .ok ⟨size, 0⟩
        | .ok (l :: ls) => .ok ⟨size, ls.foldl max l⟩ : Except PyErr ShareStat) = .ok (share_stat share) := by
    intro r hr
    subst hr
    dsimp only
    rw [hl]
    cases hls : share.leases with
    | nil => simp [share_stat, get_lease_expiration, hls]
    | cons l ls => simp [share_stat, get_lease_expiration, hls, List.foldl_map]
  cases hm : share.is_mutable with
  | true => rw [hm] at hs; exact key _ hs
  | false => rw [hm] at hs; exact key _ hs

/-- Which share numbers are wanted, in both models. -/
def natNumbers (sharenums : Option (List Nat)) : Option (List Int) := sharenums.map (·.map Int.ofNat)

theorem contains_ofNat (l : List Nat) (n : Nat) : (l.map Int.ofNat).contains (n : Int) = l.contains n := by
  rw [Bool.eq_iff_iff]
  simp only [List.contains_iff_mem, List.mem_map]
  constructor
  · rintro ⟨m, hm, e⟩
    have : m = n := Int.ofNat.inj e
    exact this ▸ hm
  · intro h; exact ⟨n, h, rfl⟩

theorem stat_paths_bucket {leases : Bytes → Except PyErr (List Int)} {m : Bool} (sharenums : Option (List Nat))
    {files : List (Nat × Bytes)} {bucket : Bucket}
    (h : FilesOf leases files bucket)
    (hk : ∀ kv ∈ bucket, kv.2.is_mutable = m) (stat : Option StatKind)
    (hs : stat = none ∨ stat = some (if m then .slot else .bucket)) :
    stat_paths leases (natNumbers sharenums) stat (files.map fun f => ((f.1 : Int), f.2)) =
      .ok ((get_share_stats bucket sharenums).map fun kv => ((kv.1 : Int), kv.2)) := by
  induction h generalizing stat with
  | nil => rfl
  | @cons n file share files bucket hf h ih =>
    have hm : share.is_mutable = m := hk (n, share) List.mem_cons_self
    have hk' : ∀ kv ∈ bucket, kv.2.is_mutable = m := fun x hx => hk x (List.mem_cons_of_mem _ hx)
    have hst := stat_path_share hf
    rw [hm] at hst
    have hih := ih hk' (some (if m then .slot else .bucket)) (.inr rfl)
    have hg := hf.kind
    rw [hm] at hg
    clear ih
    rw [List.map_cons]
    cases sharenums with
    | none =>
      simp only [natNumbers, Option.map_none] at hih ⊢
      rcases hs with rfl | rfl
      · simp only [stat_paths, hg, hst, hih]
        simp [get_share_stats]
      · simp only [stat_paths, hst, hih]
        simp [get_share_stats]
    | some l =>
      have hc := contains_ofNat l n
      simp only [natNumbers, Option.map_some] at hih ⊢
      have hsplit : ∀ r : Except PyErr (List (Int × ShareStat)),
          r = (if l.contains n then .ok (((n : Int), share_stat share) ::
            (get_share_stats bucket (some l)).map fun kv => ((kv.1 : Int), kv.2))
            else .ok ((get_share_stats bucket (some l)).map fun kv => ((kv.1 : Int), kv.2))) →
          r = .ok ((get_share_stats ((n, share) :: bucket) (some l)).map fun kv => ((kv.1 : Int), kv.2)) := by
        intro r hr
        rw [hr]
        simp only [get_share_stats, List.filter_cons]
        split <;> rfl
      apply hsplit
      rcases hs with rfl | rfl
      · simp only [stat_paths, hg, hst, hih, hc]
      · simp only [stat_paths, hst, hih, hc]

theorem dirOf_stats {leases : Bytes → Except PyErr (List Int)} {dir : Listing} {bucket : Bucket}
    (h : DirOf leases dir bucket) (hk : OneKind bucket) (sharenums : Option (List Nat)) :
    dir_share_stats leases dir (natNumbers sharenums) =
      .ok ((get_share_stats bucket sharenums).map fun kv => ((kv.1 : Int), kv.2)) := by
  obtain ⟨rfl, rfl⟩ | ⟨contents, rfl, h⟩ := h
  · rfl
  · obtain ⟨files, h1, h3⟩ := holds_paths h
    obtain ⟨m, hm⟩ := hk
    unfold dir_share_stats
    simp only [get_all_share_paths, h1]
    exact stat_paths_bucket sharenums h3 hm none (.inl rfl)

/-! ### Dictionaries with natural numbers as keys -/

theorem set_ofNat {α} (d : Dict Nat α) (k : Nat) (v : α) :
    Dict.set (d.map fun kv => ((kv.1 : Int), kv.2)) (k : Int) v = (Dict.set d k v).map fun kv => ((kv.1 : Int), kv.2) := by
  induction d with
  | nil => rfl
  | cons kv d ih =>
    simp only [List.map_cons, Dict.set]
    have : (((kv.1 : Int) == (k : Int)) : Bool) = (kv.1 == k) := by
      rw [Bool.eq_iff_iff, beq_iff_eq, beq_iff_eq]; omega
    rw [this]
    split
    · rfl
    · simp only [List.map_cons, ih]

theorem ofItems_ofNat {α} (items : List (Nat × α)) :
    Dict.ofItems (items.map fun kv => ((kv.1 : Int), kv.2)) =
      (Dict.ofItems items).map fun kv => ((kv.1 : Int), kv.2) := by
  have : ∀ (items : List (Nat × α)) (d : Dict Nat α),
      Dict.update (d.map fun kv => ((kv.1 : Int), kv.2)) (items.map fun kv => ((kv.1 : Int), kv.2)) =
        (Dict.update d items).map fun kv => ((kv.1 : Int), kv.2) := by
    intro items
    induction items with
    | nil => intro d; rfl
    | cons kv items ih =>
      intro d
      have := ih (Dict.set d kv.1 kv.2)
      simp only [Dict.update, List.map_cons, List.foldl_cons] at this ⊢
      rw [set_ofNat]
      exact this
  exact this items []

/-! ### Opening a share -/

theorem holds_lookup {leases : Bytes → Except PyErr (List Int)} {contents : List (String × Bytes)}
    {bucket : Bucket} (h : HoldsShares leases contents bucket) {n : Nat} {share : Share}
    (hl : bucket.lookup n = some share) : ∃ file, contents.lookup (str_int n) = some file ∧ FileOf leases file share := by
  induction h with
  | empty => simp at hl
  | share k file share' hf h ih =>
    rw [List.lookup_cons] at hl
    rw [List.lookup_cons]
    by_cases hk : n = k
    · subst hk
      simp only [beq_self_eq_true, Option.some.injEq] at hl
      subst hl
      exact ⟨file, by simp, hf⟩
    · have h1 : (n == k) = false := by simpa using hk
      have h2 : (str_int n == str_int k) = false := by
        rw [beq_eq_false_iff_ne]
        intro e
        have := str_int_injective e
        omega
      rw [h1] at hl
      rw [h2]
      exact ih hl
  | other name file hn h ih =>
    rw [List.lookup_cons]
    have h2 : (str_int n == name) = false := by
      rw [beq_eq_false_iff_ne]
      intro e
      rw [← e, py_int_str_int] at hn
      exact absurd hn (by simp)
    rw [h2]
    exact ih hl

theorem dirOf_active {leases : Bytes → Except PyErr (List Int)} {dir : Listing} {bucket : Bucket}
    (h : DirOf leases dir bucket) (now : Int) {n : Nat} {share : Share} (hl : bucket.lookup n = some share) :
    dir_has_active_leases leases dir n now = .ok (share_has_active_leases share now) := by
  obtain ⟨rfl, rfl⟩ | ⟨contents, rfl, h⟩ := h
  · simp at hl
  · obtain ⟨file, h1, hf⟩ := holds_lookup h hl
    simp only [dir_has_active_leases, open_share, h1, hf.leases, share_has_active_leases, List.any_map]
    rfl

theorem update_ofNat {α} (items : List (Nat × α)) (d : Dict Nat α) :
    Dict.update (d.map fun kv => ((kv.1 : Int), kv.2)) (items.map fun kv => ((kv.1 : Int), kv.2)) =
      (Dict.update d items).map fun kv => ((kv.1 : Int), kv.2) := by
  induction items generalizing d with
  | nil => rfl
  | cons kv items ih =>
    have := ih (Dict.set d kv.1 kv.2)
    simp only [Dict.update, List.map_cons, List.foldl_cons] at this ⊢
    rw [set_ofNat]
    exact this

/-- Which shares count as empty, in both models. -/
theorem dirOf_unleased {leases : Bytes → Except PyErr (List Int)} {dir : Listing} {bucket : Bucket}
    (h : DirOf leases dir bucket) (now : Int) (sizes : List (Nat × Int))
    (hk : ∀ kv ∈ sizes, ∃ share, bucket.lookup kv.1 = some share) :
    dir_unleased leases dir now (sizes.map fun kv => (kv.1 : Int)) =
      .ok (((sizes.filter (fun kv => match bucket.lookup kv.1 with
        | some share => !share_has_active_leases share now
        | none => false)).map (fun kv => (kv.1, (0 : Int)))).map fun kv => ((kv.1 : Int), kv.2)) := by
  induction sizes with
  | nil => rfl
  | cons kv sizes ih =>
    obtain ⟨share, hl⟩ := hk kv List.mem_cons_self
    have hih := ih fun x hx => hk x (List.mem_cons_of_mem _ hx)
    simp only [List.map_cons, dir_unleased, dirOf_active h now hl, hih]
    rw [List.filter_cons]
    simp only [hl]
    cases share_has_active_leases share now <;> rfl

theorem lookup_of_key {α} {bucket : List (Nat × α)} {n : Nat} (h : n ∈ bucket.map (·.1)) :
    ∃ v, bucket.lookup n = some v := by
  induction bucket with
  | nil => simp at h
  | cons kv bucket ih =>
    rw [List.lookup_cons]
    by_cases hk : n = kv.1
    · exact ⟨kv.2, by simp [hk]⟩
    · have h1 : (n == kv.1) = false := by simpa using hk
      rw [h1]
      refine ih ?_
      simp only [List.map_cons, List.mem_cons] at h
      exact h.resolve_left hk

theorem dirOf_sizes {leases : Bytes → Except PyErr (List Int)} {dir : Listing} {bucket : Bucket}
    (h : DirOf leases dir bucket) (hk : OneKind bucket) (sharenums : Option (List Nat)) :
    dir_share_sizes leases dir (natNumbers sharenums) =
      .ok ((get_share_sizes bucket sharenums).map fun kv => ((kv.1 : Int), kv.2)) := by
  unfold dir_share_sizes
  rw [dirOf_stats h hk]
  simp only [get_share_sizes, List.map_map]
  rfl

theorem keys_set_nat {α} {d : Dict Nat α} {k x : Nat} {v : α} (h : x ∈ (d.set k v).keys) : x ∈ d.keys ∨ x = k := by
  induction d with
  | nil => exact .inr (by simpa [Dict.keys, Dict.set] using h)
  | cons kv d ih =>
    simp only [Dict.set] at h
    split at h
    · rename_i hk
      simp only [Dict.keys, List.map_cons, List.mem_cons] at h ⊢
      exact .inl h
    · simp only [Dict.keys, List.map_cons, List.mem_cons] at h ⊢
      rcases h with h | h
      · exact .inl (.inl h)
      · rcases ih h with h | h
        · exact .inl (.inr h)
        · exact .inr h

theorem mem_ofItems_key {α} {items : List (Nat × α)} {kv : Nat × α} (h : kv ∈ Dict.ofItems items) :
    kv.1 ∈ items.map (·.1) := by
  have : ∀ (items : List (Nat × α)) (d : Dict Nat α), kv.1 ∈ (Dict.update d items).keys →
      kv.1 ∈ d.keys ∨ kv.1 ∈ items.map (·.1) := by
    intro items
    induction items with
    | nil => intro d h; exact .inl h
    | cons x items ih =>
      intro d h
      rcases ih (Dict.set d x.1 x.2) h with h | h
      · rcases keys_set_nat h with h | h
        · exact .inl h
        · exact .inr (by rw [List.map_cons, h]; exact List.mem_cons_self)
      · exact .inr (by rw [List.map_cons]; exact List.mem_cons_of_mem _ h)
  rcases this items [] (List.mem_map_of_mem h) with h | h
  · simp [Dict.keys] at h
  · exact h

theorem dirOf_writev_price {leases : Bytes → Except PyErr (List Int)} {dir : Listing} {bucket : Bucket}
    (h : DirOf leases dir bucket) (hk : OneKind bucket) (pass_value : Int) (tw : TWVectors) (now : Int) :
    dir_writev_price leases dir pass_value tw now = .ok (get_writev_price bucket pass_value tw now) := by
  have hs := dirOf_sizes h hk (some (get_write_sharenums tw))
  simp only [natNumbers, Option.map_some] at hs
  unfold dir_writev_price
  rw [hs]
  simp only [ofItems_ofNat]
  have hu := dirOf_unleased h now (Dict.ofItems (get_share_sizes bucket (some (get_write_sharenums tw)))) (by
    intro kv hkv
    refine lookup_of_key ?_
    have := mem_ofItems_key hkv
    simp only [get_share_sizes, get_share_stats, List.map_map, List.mem_map, List.mem_filter] at this
    obtain ⟨x, hx, e⟩ := this
    exact List.mem_map.mpr ⟨x, hx.1, e⟩)
  have hkeys : Dict.keys ((Dict.ofItems (get_share_sizes bucket (some (get_write_sharenums tw)))).map
      fun kv => ((kv.1 : Int), kv.2)) =
      (Dict.ofItems (get_share_sizes bucket (some (get_write_sharenums tw)))).map fun kv => (kv.1 : Int) := by
    simp only [Dict.keys, List.map_map]
    rfl
  rw [hkeys, hu]
  simp only [update_ofNat]
  unfold get_writev_price zero_unleased
  congr 2
  rw [List.map_map]
  exact List.map_id'' (fun kv => by simp) _

theorem dirOf_lease_price {leases : Bytes → Except PyErr (List Int)} {dir : Listing} {bucket : Bucket}
    (h : DirOf leases dir bucket) (hk : OneKind bucket) (pass_value : Int) :
    dir_lease_price leases dir pass_value =
      .ok (required_passes pass_value (Dict.ofItems (get_share_sizes bucket (some bucket.keys))).values) := by
  have hn : get_all_share_numbers dir = .ok (bucket.keys.map Int.ofNat) := by
    obtain ⟨rfl, rfl⟩ | ⟨contents, rfl, h⟩ := h
    · rfl
    · obtain ⟨files, h1, h3⟩ := holds_paths h
      simp only [get_all_share_numbers, get_all_share_paths, h1, List.map_map, Except.ok.injEq]
      clear h1 h hk
      induction h3 with
      | nil => rfl
      | cons n file share hf h3 ih =>
        simp only [Dict.keys, List.map_cons] at ih ⊢
        rw [ih]
        rfl
  unfold dir_lease_price
  rw [hn]
  have hs := dirOf_sizes h hk (some bucket.keys)
  simp only [natNumbers, Option.map_some] at hs
  simp only [hs, ofItems_ofNat]
  congr 2
  simp only [Dict.values, List.map_map]
  rfl

theorem dirOf_stat_shares {leases : Bytes → Except PyErr (List Int)} {dirs : SI → Listing} {s : Server}
    (sis : List SI) (h : ∀ si ∈ sis, DirOf leases (dirs si) (s.buckets si) ∧ OneKind (s.buckets si)) :
    dir_stat_shares leases dirs sis =
      .ok ((remote_stat_shares s sis).map fun d => d.map fun kv => ((kv.1 : Int), kv.2)) := by
  induction sis with
  | nil => rfl
  | cons si sis ih =>
    have hs := dirOf_stats (h si List.mem_cons_self).1 (h si List.mem_cons_self).2 none
    simp only [natNumbers, Option.map_none] at hs
    have hih := ih fun x hx => h x (List.mem_cons_of_mem _ hx)
    simp only [dir_stat_shares, hs, hih, ofItems_ofNat, remote_stat_shares, List.map_cons]

/-- One index that cannot be read spoils the answer. -/
theorem stat_shares_error {leases : Bytes → Except PyErr (List Int)} {dirs : SI → Listing} {sis : List SI} {si : SI}
    (hm : si ∈ sis) {e : PyErr} (he : dir_share_stats leases (dirs si) none = .error e) :
    ∃ e, dir_stat_shares leases dirs sis = .error e := by
  induction sis with
  | nil => simp at hm
  | cons x sis ih =>
    rw [dir_stat_shares]
    cases hx : dir_share_stats leases (dirs x) none with
    | error e' => exact ⟨e', rfl⟩
    | ok stats =>
      have hne : si ≠ x := by rintro rfl; rw [he] at hx; cases hx
      obtain ⟨e', h'⟩ := ih ((List.mem_cons.mp hm).resolve_left hne)
      exact ⟨e', by simp only [h']⟩

/-- A damaged share that comes first spoils its storage index. -/
theorem damaged_first {leases : Bytes → Except PyErr (List Int)} {name : String} {n : Int} {file : Bytes}
    {rest : List (String × Bytes)} (hn : py_int name = some n) (hf : Damaged file) (sharenums : Option (List Int)) :
    dir_share_stats leases (.ok ((name, file) :: rest)) sharenums = .error .valueError := by
  have hg : get_stat file = .error .valueError := by
    unfold get_stat
    simp only [List.length_take]
    rw [if_pos (by unfold Damaged at hf; omega)]
  unfold dir_share_stats
  simp only [get_all_share_paths, List.filterMap_cons, hn, Option.map_some, stat_paths, hg]

end ZKAP
