import Verif.Model.Metrics

/-! What the property of `Verif.Props.Metrics` talks about. -/
namespace ZKAP.Spec

/-- The bounds the samples are to have: the powers of two up to 1024, and infinity. -/
def powersOfTwo : List (Option Int) :=
  [some 1, some 2, some 4, some 8, some 16, some 32, some 64, some 128, some 256, some 512, some 1024, none]

/-- The samples are about these amounts: for each bound there is the number of amounts that are not larger, and there is the number
and the sum of all. -/
structure About (amounts : List Int) (s : Samples) : Prop where
  bounds : s.buckets.map (·.1) = powersOfTwo
  bounded : ∀ b n, (some b, n) ∈ s.buckets → n = (amounts.filter fun a => decide (a ≤ b)).length
  unbounded : ∀ n, (none, n) ∈ s.buckets → n = amounts.length
  count : s.count = amounts.length
  sum : s.sum = amounts.sum

/-- The requests among the events. -/
def requestsIn (events : List MetricsEvent) : List ServerOp :=
  events.filterMap fun e =>
    match e with
    | .request op => some op
    | .call .. => none

/-- The event is a call that is due. -/
def DueCall (s : MeteredServer) (now : Int) (works : Bool) (e : MetricsEvent) : Prop := e = .call now works ∧ s.next ≤ now

/-- None of the events writes the file. -/
def NoWrite (cfg : ServerConfig) : MeteredServer → List MetricsEvent → Prop
  | _, [] => True
  | s, e :: es => (∀ now, ¬ DueCall s now true e) ∧ NoWrite cfg (s.step cfg e) es

end ZKAP.Spec
