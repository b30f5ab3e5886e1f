import Verif.Proofs.Metrics
import Verif.Demo.Chain
/-
C13: the invocation metrics.
-/
namespace Traverse
variable {κ : Type}

/-- C13. Whatever plugins are active (filters, hibernation, nanny, sampling, fastward), whatever the handler, the skip
handler and the panic handler answer: the two invocation counters equal the number of handler calls for files
(`d = false`) and for directories (`d = true`) plus the carried over values, when the session ends and as seen by every
single handler call (itself included). -/
theorem C13_invocation_metrics (S : Setup) (C : Client κ) (x : κ) (carried : Metrics) (target pre : Path) (fs : FS) :
    let w := (S.session C x carried target pre fs).2.ext
    (∀ d, w.metrics.count (invokedMetric d) = carried.count (invokedMetric d) + ofKind d w.called) ∧
    (∀ before hit after, w.hits = before ++ hit :: after → ∀ d, hit.seen.count (invokedMetric d) =
      carried.count (invokedMetric d) + ofKind d ((before ++ [hit]).map (fun h => h.parcel.node))) := by
  have h := CountsOK.traverse S C (pre ++ [fs.name]) target (prep S.nav fs) [] pre
    (St.fresh (S.world x carried)) (CountsOK.start S x carried)
  exact ⟨h.now, h.seen⟩

/-- Not vacuous: a filtered session with six calls, one of them panicking. -/
example : Demo.chainRun (Demo.filtered .universal) (Demo.at_ ["r", "a", "x"] .panic) =
    (.done (some (.saved "dest")), [(["r"], 0, 1), (["r", "c"], 0, 2), (["r", "c", "w"], 1, 2), (["r", "a"], 1, 3),
      (["r", "a", "b", "z"], 2, 3), (["r", "a", "b", "y"], 3, 3), (["r", "a", "x"], 4, 3)]) := by
  decide +kernel

end Traverse
