import Verif.Spec.Faults
import Verif.Model.Session
/-
Forgetting the errors of obtaining entry information in what a session reports, and configurations that do not look at them.
-/
namespace Traverse
variable {κ : Type}

/-- A handler call's node and its Children, without entry errors. -/
def Parcel.noInfoErr (p : Parcel) : Parcel := ⟨p.node.noInfoErr, p.children.map Entry.noInfoErr⟩
def Hit.noInfoErr (h : Hit) : Hit := { h with parcel := h.parcel.noInfoErr }
def Obs.noInfoErr : Obs → Obs
  | .call n => .call n.noInfoErr
  | .note n => .note n

/-- The same report, its nodes without entry errors: verdict, the client's final state, events, metrics and IsComplete are kept. -/
def Report.noInfoErr (r : Report κ) : Report κ :=
  { r with tape := r.tape.map Obs.noInfoErr, hits := r.hits.map Hit.noInfoErr }

/-- The read hook selects by names and kinds only: whatever replaces the entries but keeps those is selected alike, and the error does not
depend on it. -/
def ReadByNames (c : Nav) : Prop :=
  ∀ g : Tree → Tree, (∀ t, (g t).name = t.name ∧ (g t).isDir = t.isDir) →
    ∀ l e, c.read (l.map g) e = ((c.read l e).1.map g, (c.read l e).2)

/-- What a filter sees of a node, without entry errors. -/
def View.noInfoErr (v : View) : View := { v.toNodeInfo.noInfoErr with parents := v.parents.map NodeInfo.noInfoErr }

/-- A client's own filter, if there is one, does not look at entry errors. -/
def FilterOptions.InfoBlind (f : FilterOptions) : Prop :=
  ∀ c, f.custom = some c → ∀ v, c.isMatch v = c.isMatch v.noInfoErr

/-- The wake and sleep conditions do not look at entry errors. -/
structure HiberOpts.InfoBlind (h : HiberOpts) : Prop where
  wake : ∀ f, h.wakeAt = some f → ∀ n, f n = f n.noInfoErr
  sleep : ∀ f, h.sleepAt = some f → ∀ n, f n = f n.noInfoErr
  wakeDies : ∀ n, h.wakeDies n = h.wakeDies n.noInfoErr
  sleepDies : ∀ n, h.sleepDies n = h.sleepDies n.noInfoErr

/-- Filters, wake and sleep conditions do not look at entry errors. -/
structure Setup.InfoBlind (S : Setup) : Prop where
  hiber : S.hiber.InfoBlind
  node : ∀ f, S.filter.primary = some (.node f) → ∀ n, f n = f n.noInfoErr
  child : ∀ f, S.filter.child = some f → ∀ e, f e = f e.noInfoErr
  dies : ∀ n, S.filter.dies n = S.filter.dies n.noInfoErr

end Traverse
