import Verif.Lemmas.ShareDir
import Verif.Props.ShareFile

/-!
C130 and C131: what a storage server makes of the files in its directories.
-/
namespace ZKAP
open Spec

/-- C130: a directory that holds a bucket is read as that bucket.  What the server says about the sizes and
the expiration times of the shares, what a lease costs and what a write to a slot costs depend on the shares
alone: they are what the model of the server, which starts from the bucket, computes.  Other files may be in
the directory if their names are no numbers. -/
theorem C130_reads_bucket_partial (leases : Bytes → Except PyErr (List Int)) (dirs : SI → Listing) (s : Server)
    (sis : List SI) (h : ∀ si ∈ sis, DirOf leases (dirs si) (s.buckets si) ∧ OneKind (s.buckets si)) :
    dir_stat_shares leases dirs sis =
        .ok ((remote_stat_shares s sis).map fun d => d.map fun kv => ((kv.1 : Int), kv.2)) ∧
      (∀ si ∈ sis, ∀ sharenums : Option (List Nat),
        dir_share_sizes leases (dirs si) (sharenums.map (·.map Int.ofNat)) =
          .ok ((get_share_sizes (s.buckets si) sharenums).map fun kv => ((kv.1 : Int), kv.2))) ∧
      (∀ si ∈ sis, ∀ pass_value, dir_lease_price leases (dirs si) pass_value =
        .ok (required_passes pass_value
          (Dict.ofItems (get_share_sizes (s.buckets si) (some (s.buckets si).keys))).values)) ∧
      (∀ si ∈ sis, ∀ pass_value tw now, dir_writev_price leases (dirs si) pass_value tw now =
        .ok (get_writev_price (s.buckets si) pass_value tw now)) :=
  ⟨dirOf_stat_shares sis h,
    fun si hsi sharenums => dirOf_sizes (h si hsi).1 (h si hsi).2 sharenums,
    fun si hsi pass_value => dirOf_lease_price (h si hsi).1 (h si hsi).2 pass_value,
    fun si hsi pass_value tw now => dirOf_writev_price (h si hsi).1 (h si hsi).2 pass_value tw now⟩

/-- Two immutable share files, of three and of thirty bytes. -/
def exFile1 : Bytes := immutableFile 1 [1, 2, 3] [List.replicate 72 0]
def exFile2 : Bytes := immutableFile 1 (List.replicate 30 7) [List.replicate 72 0, List.replicate 72 1]

/-- Leases as Tahoe-LAFS might read them: as many as the header says. -/
def exLeases (file : Bytes) : Except PyErr (List Int) :=
  .ok (List.replicate (be_unpack ((file.take 12).drop 8)) 5000)

def exShare1 : Share := ⟨false, [], [1, 2, 3], [⟨[1], 5000⟩]⟩
def exShare2 : Share := ⟨false, [], List.replicate 30 7, [⟨[1], 5000⟩, ⟨[2], 5000⟩]⟩

theorem exFileOf1 : FileOf exLeases exFile1 exShare1 := ⟨by decide +kernel, by decide +kernel, by decide +kernel⟩
theorem exFileOf2 : FileOf exLeases exFile2 exShare2 := ⟨by decide +kernel, by decide +kernel, by decide +kernel⟩

theorem exHolds (name : String) (file : Bytes) (hn : py_int name = none) :
    HoldsShares exLeases [("3", exFile1), (name, file), ("10", exFile2)] [(3, exShare1), (10, exShare2)] := by
  have h3 : "3" = str_int (3 : Nat) := by decide +kernel
  have h10 : "10" = str_int (10 : Nat) := by
    unfold str_int
    rw [if_neg (by omega)]
    have : decimal (Int.natAbs (10 : Nat)) = ['1', '0'] := by
      unfold decimal
      rw [dif_neg (by decide)]
      unfold decimal
      rfl
    rw [this]
  rw [h3, h10]
  exact .share 3 exFile1 exShare1 exFileOf1 (.other name file hn (.share 10 exFile2 exShare2 exFileOf2 .empty))

/-- The directory of two shares and a file named `3.tmp`. -/
example : DirOf exLeases (.ok [("3", exFile1), ("3.tmp", []), ("10", exFile2)]) [(3, exShare1), (10, exShare2)] ∧
    OneKind [(3, exShare1), (10, exShare2)] :=
  ⟨.inr ⟨_, rfl, exHolds "3.tmp" [] (by decide +kernel)⟩, false, by simp [exShare1, exShare2]⟩

/-- C130, full statement: files that are not shares make no difference to what the server says about a storage
index.  A share is under its number, written in decimal. -/
def C130_statement : Prop :=
  ∀ (leases : Bytes → Except PyErr (List Int)) (before after : List (String × Bytes)) (name : String)
    (file : Bytes), (∀ n : Nat, name ≠ str_int n) →
    dir_stat_shares leases (fun _ => .ok (before ++ (name, file) :: after)) [[]] =
      dir_stat_shares leases (fun _ => .ok (before ++ after)) [[]]

/-- It is false of the code: the server takes a file for a share if Python's `int` can read its name.  The file
`03` is taken for the share 3 and hides it. -/
theorem C130_stray_file_fails : ¬ C130_statement := by
  intro h
  have := h exLeases [("3", exFile1)] [] "03" exFile2 (by
    intro n e
    have h3 : py_int "03" = some 3 := by decide +kernel
    have hn := py_int_str_int n
    rw [← e, h3] at hn
    have : n = 3 := by have := Option.some.inj hn; omega
    subst this
    revert e
    decide +kernel)
  revert this
  decide +kernel

/-- Then the server and the share disagree about its size. -/
theorem C130_stray_size : dir_stat_shares exLeases (fun _ => .ok [("3", exFile1), ("03", exFile2)]) [[]] =
    .ok [[(3, ⟨30, 5000⟩)]] := by
  decide +kernel

/-- If there is no share 3, the file `03` makes every write to that slot's share 3 fail: its price depends on
the leases of a file that does not exist. -/
theorem C130_stray_breaks_write (now pass_value : Int) :
    dir_writev_price exLeases (.ok [("03", exFile2)]) pass_value [(3, ⟨[], [(0, [1])], none⟩)] now =
      .error os_error := by
  have h1 : dir_share_sizes exLeases (.ok [("03", exFile2)])
      (some ((get_write_sharenums [(3, ⟨[], [(0, [1])], none⟩)]).map Int.ofNat)) = .ok [(3, 30)] := by decide +kernel
  have h2 : open_share (.ok [("03", exFile2)]) 3 = .error os_error := by decide +kernel
  have h3 : Dict.keys (Dict.ofItems [((3 : Int), (30 : Int))]) = [3] := rfl
  unfold dir_writev_price
  rw [h1]
  simp only [h3, dir_unleased, dir_has_active_leases, h2]

/-- C130: names that are no numbers make no difference, wherever they stand. -/
theorem C130_stray_file_partial (leases : Bytes → Except PyErr (List Int)) (before after : List (String × Bytes))
    (name : String) (file : Bytes) (hn : py_int name = none) (sharenums : Option (List Int)) :
    dir_share_stats leases (.ok (before ++ (name, file) :: after)) sharenums =
      dir_share_stats leases (.ok (before ++ after)) sharenums := by
  unfold dir_share_stats
  simp only [get_all_share_paths, List.filterMap_append, List.filterMap_cons, hn, Option.map_none]

/-- Hidden files, partial downloads and the like are no numbers. -/
example : py_int ".3" = none ∧ py_int "3.tmp" = none ∧ py_int "3~" = none ∧ py_int "" = none ∧
    py_int "_3" = none ∧ py_int "1__0" = none ∧ py_int "lock" = none := by decide +kernel

/-- Other spellings of a number are read as the number. -/
example : py_int "03" = some 3 ∧ py_int "+3" = some 3 ∧ py_int " 3\n" = some 3 ∧ py_int "1_0" = some 10 ∧
    py_int "-0" = some 0 := by decide +kernel

/-- C130: if a directory cannot be listed, the server says so; a directory that does not exist has no shares. -/
theorem C130_unreadable (leases : Bytes → Except PyErr (List Int)) (errno : Nat) (sharenums : Option (List Int)) :
    dir_share_stats leases (.error errno) sharenums = (if errno = ENOENT then .ok [] else .error os_error) := by
  unfold dir_share_stats
  by_cases h : errno = ENOENT <;> simp only [get_all_share_paths, h, if_true, if_false] <;> rfl

/-- Permission denied is no empty directory. -/
example : dir_share_stats exLeases (.error 13) none = .error os_error := C130_unreadable _ 13 none

/-! ### C131 -/

/-- C131, full statement: a share that cannot be read costs its storage index, and no other, its answer. -/
def C131_statement : Prop :=
  ∀ (leases : Bytes → Except PyErr (List Int)) (dirs : SI → Listing) (healthy damaged : SI) (stats : List (Int × ShareStat)),
    dir_share_stats leases (dirs healthy) none = .ok stats →
    ∃ r, dir_stat_shares leases dirs [healthy, damaged] = .ok r ∧ r[0]? = some (Dict.ofItems stats)

/-- If the first share of one of the storage indexes is damaged, the server answers none of a request for
the shares of many. -/
theorem C131_no_answer (leases : Bytes → Except PyErr (List Int)) (dirs : SI → Listing) (sis : List SI) (si : SI)
    (hm : si ∈ sis) (n : Nat) (file : Bytes) (rest : List (String × Bytes))
    (hd : dirs si = .ok ((str_int n, file) :: rest)) (hf : Damaged file) :
    ∃ e, dir_stat_shares leases dirs sis = .error e :=
  stat_shares_error hm (by rw [hd]; exact damaged_first (py_int_str_int n) hf none)

/-- C131 is false of the code. -/
theorem C131_damaged_share_fails : ¬ C131_statement := by
  intro h
  obtain ⟨r, hr, _⟩ := h exLeases (fun si => if si = [] then .ok [] else .ok [("0", [])]) [] [1] [] rfl
  revert hr
  have : ∃ e, dir_stat_shares exLeases (fun si => if si = [] then .ok [] else .ok [("0", [])]) [[], [1]] = .error e := by
    refine C131_no_answer _ _ _ [1] (by simp) 0 [] [] ?_ (by simp [Damaged])
    have : "0" = str_int (0 : Nat) := by decide +kernel
    rw [← this]
    rfl
  obtain ⟨e, he⟩ := this
  rw [he]
  nofun

/-- What follows for a node: if one share of one of the indexes it looks after is damaged, a maintenance run
renews nothing on that server and ends there. -/
theorem C131_no_renewal (leases : Bytes → Except PyErr (List Int)) (dirs : SI → Listing)
    (add_lease : SI → Except PyErr Unit) (now min_remaining : Int) (sis : List SI) (si : SI) (hm : si ∈ sis) (n : Nat)
    (file : Bytes) (rest : List (String × Bytes)) (hd : dirs si = .ok ((str_int n, file) :: rest))
    (hf : Damaged file) (later : List (LeaseServer SI)) :
    ∃ e, renew_servers min_remaining sis 0 (dir_lease_server leases dirs add_lease now :: later) = ([], .error e) := by
  obtain ⟨e, he⟩ := C131_no_answer leases dirs sis si hm n file rest hd hf
  refine ⟨e, ?_⟩
  simp only [renew_servers, renew_leases_on_server, dir_lease_server, he]

/-- C131: a damaged share of an index that is not asked about makes no difference. -/
theorem C131_others_partial (leases : Bytes → Except PyErr (List Int)) (dirs dirs' : SI → Listing) (sis : List SI)
    (h : ∀ si ∈ sis, dirs si = dirs' si) : dir_stat_shares leases dirs sis = dir_stat_shares leases dirs' sis := by
  induction sis with
  | nil => rfl
  | cons si sis ih =>
    simp only [dir_stat_shares, h si List.mem_cons_self, ih fun x hx => h x (List.mem_cons_of_mem _ hx)]

/-- C131: at one storage index too, a damaged share spoils the answer about the others: even if it is not asked
about. -/
theorem C131_same_index (leases : Bytes → Except PyErr (List Int)) (n : Nat) (file : Bytes)
    (rest : List (String × Bytes)) (hf : Damaged file) (sharenums : Option (List Int)) :
    dir_share_stats leases (.ok ((str_int n, file) :: rest)) sharenums = .error .valueError :=
  damaged_first (py_int_str_int n) hf sharenums

/-- A share cut off after ten bytes, before a healthy one that alone is asked about. -/
example : dir_share_stats exLeases (.ok [(str_int (0 : Nat), exFile1.take 10), ("3", exFile1)]) (some [3]) =
    .error .valueError :=
  C131_same_index _ 0 _ _ (by simp [Damaged]; decide +kernel) _

/-- In the other order it is not noticed. -/
example : dir_share_stats exLeases (.ok [("3", exFile1), ("0", exFile1.take 10)]) (some [3]) =
    .ok [(3, ⟨3, 5000⟩)] := by decide +kernel

end ZKAP
