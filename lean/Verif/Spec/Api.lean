import Verif.Model.Session
import Verif.Spec.Chain
/-
Vocabulary for the properties stated about whole sessions: age.Walk().Configure().Extent(age.Prime(…)).Navigate().
-/
namespace Traverse
variable {κ : Type}

/-- A session that can be built from a facade and settings: `S` and `o` are what is built, `h` is the handler, and what lies on
the disk at the tree path is `fs`, whose root is in the directory `pre`. The status hook is the default one. -/
structure Started (P : Platform κ) (u : Using κ) (settings : List (Option (Setting κ))) (disk : Disk) (S : Setup) (o : Options κ)
    (h : κ → Parcel → κ × Reply) (pre : Path) (fs : FS) : Prop where
  built : buildPrimary P (.using u) settings = .ready S o
  handler : u.handler = some h
  tree : u.tree = pre ++ [fs.name]
  disk : disk u.tree = .ok fs
  status : ∀ r, o.hooks.queryStatus.invoke r = r

/-- Options without filters, hibernation and sampling. -/
structure Options.Bare (o : Options κ) : Prop where
  custom : o.filter.custom = none
  node : o.filter.node = none
  child : o.filter.child = none
  sample : o.filter.sample = none
  wakeAt : o.hibernate.wakeAt = none
  sleepAt : o.hibernate.sleepAt = none
  sampling : o.sampling.type = .undefined

/-- The settings give the options `o`; facade, handler and disk as in `Started`. -/
structure Primed (P : Platform κ) (u : Using κ) (settings : List (Option (Setting κ))) (disk : Disk) (o : Options κ)
    (h : κ → Parcel → κ × Reply) (pre : Path) (fs : FS) : Prop where
  noOptions : u.o = none
  options : getOptions P settings = (o, none)
  bare : o.Bare
  sub : u.sub ≠ .undefined
  handler : u.handler = some h
  tree : u.tree = pre ++ [fs.name]
  disk : disk u.tree = .ok fs
  status : ∀ r, o.hooks.queryStatus.invoke r = r

/-- The nodes the handler was called for, in order. -/
def Report.nodes (r : Report κ) : List Node := r.hits.map (fun h => h.parcel.node)

/-- The handler calls with their answers, in order. -/
def Report.answers (r : Report κ) : List (Node × Reply) := r.hits.map (fun h => (h.parcel.node, h.reply))

/-- Begin, End, or what is in between without its data. -/
def Obs.path : Obs → Option Path
  | .note (.descend p _) => some p
  | .note (.ascend p _) => some p
  | .call n => some n.path
  | _ => none

mutual
/-- `Tour p l`: `l` is what the client side sees of one visit of the node at `p`: the Descend event, what happens at the node
itself (at most one handler call, and Wake and Sleep events), the tours of nodes directly inside it, the Ascend event. -/
inductive Tour : Path → List Obs → Prop
  | mk (p : Path) (isDir : Bool) (own inner : List Obs)
      (hown : ∀ ob ∈ own, (∃ n, ob = .call n ∧ n.path = p) ∨ ob = .note .wake ∨ ob = .note .sleep)
      (hone : (own.filter (fun ob => ob matches .call _)).length ≤ 1)
      (hinner : Tours p inner) :
      Tour p ([.note (.descend p isDir)] ++ own ++ inner ++ [.note (.ascend p isDir)])
/-- Tours of nodes directly inside the directory `p`, one after the other. -/
inductive Tours : Path → List Obs → Prop
  | nil (p : Path) : Tours p []
  | cons {p : Path} {name : String} {a b : List Obs} (h : Tour (p ++ [name]) a) (hs : Tours p b) : Tours p (a ++ b)
end

end Traverse
