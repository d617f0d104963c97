import Verif.Lemmas.Metrics
import Verif.Props.ServerSpent

/-! C176: the metrics file shows what was spent. -/
namespace ZKAP
open Spec

/-- **C176**: after a call that writes the file, and until the next one that does, the file has the samples of the server's
spending up to that call. -/
theorem C176_file (cfg : ServerConfig) (server : Server) (interval start : Int) (first : Bool) (old : Option (List Samples))
    (before after : List MetricsEvent) (now : Int)
    (due : ((MeteredServer.start server interval start first old).run cfg before).next ≤ now)
    (last : NoWrite cfg ((MeteredServer.start server interval start first old).run cfg (before ++ [.call now true])) after) :
    ∃ samples, ((MeteredServer.start server interval start first old).run cfg (before ++ .call now true :: after)).file =
        some [samples] ∧
      About (server.run cfg (requestsIn before)).observed samples := by
  have split : ∀ a b, (MeteredServer.start server interval start first old).run cfg (a ++ b) =
      ((MeteredServer.start server interval start first old).run cfg a).run cfg b := fun a b => List.foldl_append
  refine ⟨_, ?_, about_samples _⟩
  rw [show before ++ .call now true :: after = (before ++ [.call now true]) ++ after by simp, split,
    no_write_file cfg after _ last, split]
  rw [due_call cfg _ now true due]
  dsimp only
  rw [(metered_server cfg _ before).1]
  rfl

/-- **C176**, before that: the file is what the start made of it, without samples if it could be written. -/
theorem C176_first (cfg : ServerConfig) (server : Server) (interval start : Int) (first : Bool) (old : Option (List Samples))
    (events : List MetricsEvent) (none : NoWrite cfg (MeteredServer.start server interval start first old) events) :
    ((MeteredServer.start server interval start first old).run cfg events).file = if first then some [] else old :=
  no_write_file cfg events _ none

/-- **C176**: with a server that started with this process, what the file says was spent is never more than the number of passes
recorded as spent (see C87 for when it is exactly that). -/
theorem C176_never_more (cfg : ServerConfig) (hv : 0 < cfg.pass_value) (b : SI → Bucket) (ops : List ServerOp)
    (samples : Samples) (h : About ((Server.init b).run cfg ops).observed samples) :
    samples.sum ≤ ((Server.init b).run cfg ops).spent.length := by
  rw [h.sum]
  exact C87_never_more cfg hv b ops

/-- **C176**, the pace: whether writing works or not, the next call is due after the last one, not later than the interval after
it, and at a multiple of the interval after the start. -/
theorem C176_pace (cfg : ServerConfig) (server : Server) (interval start : Int) (hi : 0 < interval) (first : Bool)
    (old : Option (List Samples)) (before : List MetricsEvent) (now : Int) (works : Bool)
    (due : ((MeteredServer.start server interval start first old).run cfg before).next ≤ now) :
    ∃ k : Int, ((MeteredServer.start server interval start first old).run cfg (before ++ [.call now works])).next =
        start + k * interval ∧ now < start + k * interval ∧ start + k * interval ≤ now + interval := by
  have hs : ((MeteredServer.start server interval start first old).run cfg (before ++ [.call now works])).next =
      schedule_from start interval now := by
    rw [show (MeteredServer.start server interval start first old).run cfg (before ++ [.call now works]) =
      ((MeteredServer.start server interval start first old).run cfg before).run cfg [.call now works] from List.foldl_append,
      due_call cfg _ now works due]
    dsimp only
    obtain ⟨-, h2, h3⟩ := metered_server cfg (MeteredServer.start server interval start first old) before
    rw [h2, h3]
    rfl
  rw [hs]
  unfold schedule_from
  rw [if_neg (by omega)]
  have h1 := Int.emod_nonneg (now - start) (b := interval) (by omega)
  have h2 := Int.emod_lt_of_pos (now - start) (b := interval) (by omega)
  have h3 := Int.emod_add_mul_ediv (now - start) interval
  have h4 : ((now - start) / interval + 1) * interval = interval * ((now - start) / interval) + interval := by
    rw [Int.add_mul, Int.one_mul, Int.mul_comm]
  refine ⟨(now - start) / interval + 1, ?_, ?_, ?_⟩ <;> omega

/-- **C176**, the configuration: the file is written if the interval and the path are configured, and the interval is a number
that is not negative; a configuration with another interval is refused. -/
theorem C176_configuration (configuration : Dict String String) (n : Int) :
    metrics_interval configuration = .ok (some n) ↔
      (∃ text, configuration.lookup "prometheus-metrics-interval" = some text ∧ int_str text = .ok n ∧ 0 ≤ n) ∧
      ∃ path, configuration.lookup "prometheus-metrics-path" = some path := by
  unfold metrics_interval
  cases h1 : configuration.lookup "prometheus-metrics-interval" with
  | none => simp
  | some text =>
    cases h2 : configuration.lookup "prometheus-metrics-path" with
    | none => simp
    | some path =>
      dsimp only
      cases h3 : int_str text with
      | error e => simp [h3]
      | ok m =>
        dsimp only
        split
        · simp [h3]; omega
        · simp [h3]; omega

/-! ### An example -/

/-- A server gets requests that cost four, nothing and five passes; the file cannot be written after ten seconds, but after
twenty-five. -/
def exMetered : MeteredServer := (MeteredServer.start (Server.init exServer.buckets) 10 100 true none).run exCfg
  ([.request (.allocate (exAllocate [65, 90, 67, 68, 69])), .request (.allocate (exAllocate [70, 71, 72, 73])), .call 110 false,
    .request (.addLease (exLease [74])), .request (.writev (exWritev [65, 66, 67, 68, 69, 90]))] ++ .call 125 true :: [.call 126 true])

theorem exMetered_file : exMetered.next = 130 ∧ exMetered.file = some [⟨[(some 1, 1), (some 2, 1), (some 4, 2), (some 8, 3),
    (some 16, 3), (some 32, 3), (some 64, 3), (some 128, 3), (some 256, 3), (some 512, 3), (some 1024, 3), (none, 3)], 3, 9⟩] := by
  decide +kernel

example : ∃ samples, exMetered.file = some [samples] ∧ About [4, 0, 5] samples := by
  obtain ⟨samples, h1, h2⟩ := C176_file exCfg (Server.init exServer.buckets) 10 100 true none
    [.request (.allocate (exAllocate [65, 90, 67, 68, 69])), .request (.allocate (exAllocate [70, 71, 72, 73])), .call 110 false,
     .request (.addLease (exLease [74])), .request (.writev (exWritev [65, 66, 67, 68, 69, 90]))] [.call 126 true] 125
    (by decide +kernel) ⟨fun now h => by
      have : now = 126 := by cases h.1; rfl
      have h2 := h.2
      subst this
      revert h2
      decide +kernel, trivial⟩
  refine ⟨samples, h1, ?_⟩
  have : ((Server.init exServer.buckets).run exCfg (requestsIn
    [.request (.allocate (exAllocate [65, 90, 67, 68, 69])), .request (.allocate (exAllocate [70, 71, 72, 73])), .call 110 false,
     .request (.addLease (exLease [74])), .request (.writev (exWritev [65, 66, 67, 68, 69, 90]))])).observed = [4, 0, 5] := by
    decide +kernel
  rw [this] at h2
  exact h2

end ZKAP
