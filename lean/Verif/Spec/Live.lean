import Verif.Model.Live
import Verif.Spec.Observe
import Verif.Spec.Enumerate
import Verif.Spec.Sampling
/-
Vocabulary for file systems that change while they are walked.
-/
namespace Traverse
variable {σ : Type}

/-- Name and kind of an entry, all that ReadDir settles. -/
def Entry.tag (e : Entry) : String × Bool := (e.name, e.isDir)

/-- `Frozen c L t`: the still tree `t` is put together of what `L` showed at some moments: every directory either holds what was listed at one
moment, or was not looked into. -/
inductive Frozen (c : Nav) (L : Look σ) : Tree → Prop
  /-- not looked into -/
  | stub (e : Entry) : Frozen c L (.stub e)
  /-- a file has nothing inside it -/
  | file (e : Entry) (re : Option Err) (h : e.isDir = false) : Frozen c L (.node e re [] [] [])
  /-- a directory, as it was listed in the state `x` -/
  | dir (e : Entry) (path : Path) (x : σ) (kids : List Tree) (h : e.isDir = true)
      (hlisted : kids.map (fun k => k.entry.tag) = (lay c L e path x).kids.map (fun k => k.entry.tag)) (hk : ∀ k ∈ kids, Frozen c L k) :
      Frozen c L (.node e (lay c L e path x).readErr (lay c L e path x).files (lay c L e path x).dirs kids)

/-- No directory ever lists two entries of the same name. -/
def Look.Distinct (L : Look σ) : Prop := ∀ x p, ((L.list x p).1.map Entry.name).Nodup

/-- The read hook gets to see entries only: what lies below is nothing to it. -/
def ReadByEntries (c : Nav) : Prop :=
  ∀ l e, c.read (l.map fun t => .stub t.entry) e = ((c.read l e).1.map (fun t => .stub t.entry), (c.read l e).2)

/-- `Seen L M p f`: the still file system `f`, lying at the path `p`, is put together of what `L` showed: the contents of a directory at a path
are what `L` listed for that path in one state that is a moment of it (`M`); directories not looked into are taken to be empty. -/
inductive Seen (L : Look σ) (M : Path → σ → Prop) : Path → FS → Prop
  | file (p : Path) (n : String) (ie re : Option Err) : Seen L M p (.file n ie re)
  | unseen (p : Path) (n : String) (ie : Option Err) : Seen L M p (.dir n ie none [])
  | dir (p : Path) (n : String) (ie : Option Err) (kids : List FS) (x : σ) (hx : M p x) (hlisted : kids.map FS.entry = (L.list x p).1)
      (hk : ∀ k ∈ kids, Seen L M (p ++ [k.name]) k) : Seen L M p (.dir n ie (L.list x p).2 kids)

/-- `Showed L p st`: what a still disk says of the path `p` the changing one showed: the error of Stat, the name and kind Stat told with contents put together of
listings, or the listing of a directory. -/
def Showed (L : Look σ) (p : Path) (st : Stat) : Prop :=
  (∃ e y, st = .error e ∧ L.stat y p = .error e) ∨
  (∃ f f0 y, st = .ok f ∧ L.stat y p = .ok f0 ∧ f.name = f0.name ∧ f.isDir = f0.isDir ∧
    Seen L (fun _ _ => True) (p.dropLast ++ [f.name]) f) ∨
  (∃ n ie kids y, st = .ok (.dir n ie (L.list y p).2 kids) ∧ kids.map FS.entry = (L.list y p).1 ∧ ∀ k ∈ kids, Seen L (fun _ _ => True) (p ++ [k.name]) k)

/-- Whether Info() of an entry fails is settled when the entry is listed. -/
def Look.Steady (L : Look σ) : Prop := ∀ x p, ∀ e ∈ (L.list x p).1, ∀ y, L.info y (p ++ [e.name]) = e.infoErr

/-- Read and sort hooks do what they should: they select and order entries, by what is known of the entries. -/
structure Nav.Sound (c : Nav) : Prop where
  permutes : SortPermutes c
  selects : ReadSelects c
  sort : SortByEntries c
  read : ReadByEntries c

/-- The node made of what was seen. -/
def Sight.node (c : Nav) (q : Sight σ) : Node := mkNode c q.parents q.path q.laid q.after.depth

/-- The subscription wants the node: with Files, not the directories. -/
def Sight.wanted (c : Nav) (q : Sight σ) : Bool := !(decide (c.sub = .files) && q.entry.isDir)

/-- The entries that were picked in a directory, with their paths. -/
def Sight.entries (q : Sight σ) : List (Path × Bool) := q.laid.kids.map fun k => (q.path ++ [k.entry.name], k.entry.isDir)

/-- Path and kind. -/
def Sight.tag (q : Sight σ) : Path × Bool := (q.path, q.entry.isDir)

/-- The contents were listed right after the node's Descend event, in the state that left behind, as they were then; the history `from` was
over when its entry was looked at, and the history until the listing is the beginning of the whole history `to`. -/
structure Sight.Timely (c : Nav) (env : Env σ) (L : Look σ) («from» to : List Ev) (q : Sight σ) : Prop where
  descended : q.after = q.before.doDescend env q.path q.entry.isDir
  listed : q.laid = lay c L q.entry q.path q.after.ext
  began : «from» <+: q.before.log
  sofar : q.after.log <+: to

/-- `q` was entered because an earlier sight of its directory had it listed; its Info() was asked for just before. -/
def Sight.Known (L : Look σ) (g : List (Sight σ)) (q : Sight σ) : Prop :=
  ∃ p, [p, q].Sublist g ∧ q.tag ∈ p.entries ∧ q.entry.infoErr = L.info q.before.ext q.path

/-- The entries of the node are gone through, as far as the settings are concerned: they are not too deep, and with Files it could be read. -/
def Sight.opened (c : Nav) (q : Sight σ) : Bool :=
  !tooDeep c q.after.depth && !(decide (c.sub = .files) && q.laid.readErr.isSome)

/-- A file system that does not change: at every moment it shows `fs`, whose root is in the directory `pre`. -/
structure Look.Still (L : Look σ) (pre : Path) (fs : FS) : Prop where
  stat : ∀ x, L.stat x (pre ++ [fs.name]) = .ok fs
  list : ∀ x p n ie re kids, FS.At pre fs p (.dir n ie re kids) → L.list x p = (kids.map FS.entry, re)
  file : ∀ x p n ie re, FS.At pre fs p (.file n ie re) → (L.list x p).2 = re
  info : ∀ x p g, FS.At pre fs p g → L.info x p = g.infoErr

/-- A disk that does not change: at every moment it shows `disk`, every path the file system lying there. -/
structure Look.Mirrors (L : Look σ) (disk : Disk) : Prop where
  stat : ∀ x p, L.stat x p = disk p
  list : ∀ x p, L.list x p = match disk p with
    | .error e => ([], some e)
    | .ok (.file _ _ re) => ([], re)
    | .ok (.dir _ _ re kids) => (kids.map FS.entry, re)
  named : ∀ p f, disk p = .ok f → p.getLast? = some f.name
  still : ∀ p f, disk p = .ok f → L.Still p.dropLast f ∧ f.infoErr = none

end Traverse
