import Verif.Lemmas.Upkeep
import Verif.Props.MaintRun
import Verif.Props.RealSigner

/-! C170: data that is maintained stays leased. -/
namespace ZKAP
open Spec

/-- C170: if a node's maintenance runs can be carried out and the configured minimum time is at least the time from one
visit to the next, then from the first visit on a share at an index the first run found has a lease at every
time until the next visit, whatever else is asked of the server. -/
theorem C170_stays_leased (runs : List MaintScene) (h : Upkeep CanTend runs) (first : MaintScene)
    (hf : runs.head? = some first) (i : Nat) (stop : MaintStop) (hi : first.stops[i]? = some stop) (si : SI)
    (hsi : si ∈ first.indexes) (n : Nat) (share : Share) (hs : StoredShare stop.server si n share)
    (hu : ¬ BeingUploaded stop.server si n) (k : Nat) : LeasedFrom runs i si n k :=
  kept_up C166_well_tended runs h i first stop si n hf hi hsi ⟨⟨share, hs⟩, hu⟩ k

/-- A run of a node whose tokens are those of redeemed vouchers, at servers with the issuer's key. -/
def RealRun (L : Ristretto) (k : L.Scalar) (c : MaintScene) : Prop :=
  c.node.sign = ristretto_signer L ∧ OnlyBought L k c.history ∧ HasTokensToTend L k c

/-- C170: it is so with the tokens of redeemed vouchers. -/
theorem C170_stays_leased_real (L : Ristretto) (hL : Lawful L) (hS : Sound L) (key : L.Scalar) (runs : List MaintScene)
    (h : Upkeep (RealRun L key) runs) (first : MaintScene)
    (hf : runs.head? = some first) (i : Nat) (stop : MaintStop) (hi : first.stops[i]? = some stop) (si : SI)
    (hsi : si ∈ first.indexes) (n : Nat) (share : Share) (hs : StoredShare stop.server si n share)
    (hu : ¬ BeingUploaded stop.server si n) (k : Nat) : LeasedFrom runs i si n k :=
  kept_up (fun c h => C169_maintenance L hL hS key c h.1 h.2.1 h.2.2) runs h i first stop si n hf hi hsi ⟨⟨share, hs⟩, hu⟩ k

/-! ### An example -/

/-- A share with a lease for three days. -/
def exYard : Server :=
  Server.init fun si => if si = [8] then [(4, ⟨false, [], List.replicate 25 7, [⟨[5], 3 * 24 * 60 * 60⟩]⟩)] else []

/-- A visit at this hour. -/
def exVisit (hour : Int) : MaintScene :=
  ⟨exTender, exShopper, [[7], [8]],
    [⟨exCfg, [3], hour * 60 * 60 * 1000000, exCall (hour * 60 * 60), fun _ => exCall (hour * 60 * 60), exYard⟩],
    "2022", "2023"⟩

theorem exVisit_canTend (hour : Int) (h : hour = 47 ∨ hour = 71) : CanTend (exVisit hour) := by
  have h1 := exShop_canPay exExtend 99 (fun h => h)
    ⟨⟨⟨by decide, fun _ h => (nomatch h)⟩, by decide, by decide, by decide⟩, trivial⟩ rfl
    (fun t => by show bucketPrice 10 exShelf ≤ 7; decide) (fun _ => rfl)
  have all : ∀ {P : SI → Prop}, P [7] ∧ P [8] → ∀ si ∈ (exVisit hour).indexes, P si := by
    intro P h si hsi
    simp only [exVisit, List.mem_cons, List.not_mem_nil, or_false] at hsi
    rcases hsi with rfl | rfl
    · exact h.1
    · exact h.2
  rcases h with rfl | rfl
  all_goals
    refine ⟨h1.value, h1.reissue, h1.tokens.works, by decide, by decide, ?_, ?_⟩
    · intro stop hs
      simp only [exVisit, List.mem_cons, List.not_mem_nil, or_false] at hs
      subst hs
      refine ⟨⟨rfl, ?_, all ?_, all (by decide), ⟨rfl, fun _ _ => rfl⟩, ⟨by decide, fun _ _ => Nat.le_refl 2⟩,
        ⟨exCall_moments fun _ _ _ => rfl, fun _ _ => exCall_moments fun _ _ _ => rfl⟩,
        fun _ _ => exCall_moments fun _ => rfl, ⟨by decide, fun _ _ => exCall_moments (by decide)⟩,
        ⟨?_, all ⟨⟨?_, trivial⟩, ⟨?_, trivial⟩⟩⟩, all (by decide)⟩, h1.tokens⟩
      · intro si
        unfold Dict.WF
        dsimp only [exYard, Server.init]
        (repeat' split) <;> decide
      · constructor <;> exact ⟨by unfold Dict.WF; decide, by decide⟩
      · exact all (by decide)
      all_goals exact ⟨⟨by decide, fun _ h => (nomatch h)⟩, by decide, by decide, by decide⟩
    · refine ⟨exTokens, by decide, ?_, ?_⟩
      · intro x hx
        rw [← exShop_available exExtend 99] at hx
        exact (mem_select_available _ _).mp hx
      · decide +kernel

/-- In the first of the two runs the lease lasts long enough; in the second, a day later, it has to be renewed. -/
example : (exVisit 47).stops.map (exVisit 47).expiring = [[]] ∧ (exVisit 71).stops.map (exVisit 71).expiring = [[[8]]] := by
  decide +kernel

theorem exVisits : Upkeep CanTend [exVisit 47, exVisit 71] := by
  refine ⟨exVisit_canTend 47 (.inl rfl), ⟨fun _ h => h, rfl, ?_⟩, exVisit_canTend 71 (.inr rfl)⟩
  intro client servers hrun i stop server next hi hj hk
  have hrun' : (exVisit 47).run.map (fun x => x.2.2) = some [exYard] := by rfl
  rw [hrun] at hrun'
  cases hrun'
  cases i with
  | zero =>
    cases hi
    cases hj
    cases hk
    exact ⟨⟨[], rfl⟩, by decide⟩
  | succ i => simp [exVisit] at hi

example (k : Nat) : LeasedFrom [exVisit 47, exVisit 71] 0 [8] 4 k :=
  C170_stays_leased _ exVisits _ rfl 0 _ rfl [8] (by decide) 4
    ⟨false, [], List.replicate 25 7, [⟨[5], 3 * 24 * 60 * 60⟩]⟩ rfl (fun ⟨_, h, _⟩ => nomatch h) k

end ZKAP
