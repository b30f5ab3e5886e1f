/-
Basic vocabulary of the model: errors, directory entries, nodes, raw file
systems and prepared trees.
-/
namespace Traverse

/-- A path is the list of its segments, outermost first. String level facts
about paths (separators, sub paths) are treated in `Verif.Model.Paths`;
filepath.Join(parent.Path, name) of navigator-agent.go:153 is `parent ++ [name]`. -/
abbrev Path := List String

/-- Go `error` values. `skipDir`, `skipAll` are fs.SkipDir, fs.SkipAll;
`code` stands for every other leaf error a client or the OS can make;
`wrap` is fmt.Errorf("..%w"), `join` is errors.Join.
`saved` / `notSaved` are locale.NewTraversalSavedError and
locale.NewTraversalNotSavedError (locale/messages-errors.go:749-757, 788-796):
both wrap only ErrCorePanicOccurred, the panic value itself is dropped there. -/
inductive Err where
  | skipDir
  | skipAll
  | code (n : Nat)
  | wrap (msg : Nat) (inner : Err)
  | join (a b : Err)
  | saved (dest : String)
  | notSaved (reason : Err)
  deriving DecidableEq, Repr, Inhabited

/-- errors.Is(err, fs.SkipDir), used at navigator-agent.go:172,191. -/
def Err.isSkipDir : Err → Bool
  | .skipDir => true
  | .wrap _ e => e.isSkipDir
  | .join a b => a.isSkipDir || b.isSkipDir
  | _ => false

/-- errors.Is(err, fs.SkipAll), used at navigator-agent.go:193. -/
def Err.isSkipAll : Err → Bool
  | .skipAll => true
  | .wrap _ e => e.isSkipAll
  | .join a b => a.isSkipAll || b.isSkipAll
  | _ => false

/-- An error that is (or wraps) one of the two skip sentinels:
the non-nil part of stock.IsBenignError (stock/ IsBenignError lines 13-22). -/
def Err.isSentinel (e : Err) : Bool := e.isSkipDir || e.isSkipAll

/-- enums.Subscription (enums/subscription-en.go:7-15). -/
inductive Subscription where
  | undefined | files | directories | directoriesWithFiles | universal
  deriving DecidableEq, Repr, Inhabited

/-- enums.SkipTraversal (enums/skip-traversal-en.go:5-11). -/
inductive Skip where
  | none | dir | all
  deriving DecidableEq, Repr, Inhabited

/-- fs.DirEntry: its name, whether it is a directory and the error its
Info() method returns, if any (navigator-agent.go:154). -/
structure Entry where
  name : String
  isDir : Bool
  infoErr : Option Err := Option.none
  deriving DecidableEq, Repr, Inhabited

/-! ### Filter scope bits (enums/filter-scope-en.go:16-53), a uint32. -/

/-- enums.FilterScope (enums/filter-scope-en.go:14-16), a uint32. -/
abbrev Scope := BitVec 32

namespace Scope
/-- enums.ScopeUndefined, line 19. -/
def undefined : Scope := 0#32
/-- enums.ScopeTree, line 23. -/
def tree : Scope := 1#32
/-- enums.ScopeTop, line 27. -/
def top : Scope := 2#32
/-- enums.ScopeLeaf, line 32. -/
def leaf : Scope := 4#32
/-- enums.ScopeIntermediate, line 36. -/
def intermediate : Scope := 8#32
/-- enums.ScopeFile, line 40. -/
def file : Scope := 16#32
/-- enums.ScopeDirectory, line 44. -/
def directory : Scope := 32#32
/-- enums.ScopeCustom, line 48. -/
def custom : Scope := 64#32
/-- enums.ScopeAll = math.MaxUint32, line 52. -/
def all : Scope := BitVec.allOnes 32
end Scope

/-- What core.Node and its Extension (core/node.go:14-36) tell about a node:
Path, IsDirectory(), Error, Extension.Depth/IsLeaf/Scope/Name. -/
structure NodeInfo where
  path : Path
  isDir : Bool
  infoErr : Option Err
  depth : Int
  isLeaf : Bool
  scope : Scope
  deriving DecidableEq, Repr, Inhabited

/-- Extension.Name: the last segment (extend.go:43-47). -/
def NodeInfo.name (n : NodeInfo) : String := n.path.getLast?.getD ""

/-- A node together with its chain of Parent pointers (nearest first; core/node.go:21)
and the contents read for it (vapour.Contents(), navigation-vapour.go:29-31):
`cargo = none` is the nil *Contents a file node keeps in the Universal and Files
navigators (navigation-vapour.go:37-43 discards the fresh empty contents). -/
structure Node extends NodeInfo where
  parents : List NodeInfo
  cargo : Option (List Entry × List Entry)
  deriving DecidableEq, Repr, Inhabited

/-- The Parent pointer (core/node.go:21); nil for the traversal root
(core.Top, core/node.go:57-66). -/
def Node.parent (n : Node) : Option NodeInfo := n.parents.head?

/-- The raw file system below a path, assumed not to change during a session.
`readErr` is what ReadDir of that path returns (for a file: ENOTDIR or alike;
`none` means readable).
(nef.TraverseFS, third party: what Stat and ReadDir of scaffold.go:123-143 and navigation-fs.go:7-14 can see.) -/
inductive FS where
  | file (e : String) (infoErr : Option Err) (readErr : Option Err)
  | dir (e : String) (infoErr : Option Err) (readErr : Option Err) (kids : List FS)
  deriving Inhabited

/-- Last path segment. (fs.DirEntry.Name, used at navigator-agent.go:153.) -/
def FS.name : FS → String
  | .file n .. => n
  | .dir n .. => n

/-- fs.DirEntry.IsDir. (used at core/node.go:69-75.) -/
def FS.isDir : FS → Bool
  | .file .. => false
  | .dir .. => true

/-- A directory tree as the navigator meets it: for each node its own entry, the
error of reading it, the two content lists after sorting (Contents.files and
Contents.directories, contents.go:32-37) and the entries picked for navigation
(navigationVapour.ents) together with what lies below them, in visiting order. -/
inductive Tree where
  | node (entry : Entry) (readErr : Option Err) (files dirs : List Entry) (kids : List Tree)
  deriving Inhabited

namespace Tree
/-- The entry of a node (core/node.go:14-36, Entry). -/
def entry : Tree → Entry | .node e .. => e
/-- The error of read (navigation-fs.go:7-14). -/
def readErr : Tree → Option Err | .node _ r .. => r
/-- Contents.files (contents.go:32-37). -/
def files : Tree → List Entry | .node _ _ f .. => f
/-- Contents.directories (contents.go:32-37). -/
def dirs : Tree → List Entry | .node _ _ _ d _ => d
/-- navigationVapour.ents (navigation-vapour.go:67-92). -/
def kids : Tree → List Tree | .node _ _ _ _ k => k
/-- Name of the entry (navigator-agent.go:153). -/
def name (t : Tree) : String := t.entry.name
/-- IsDir of the entry (core/node.go:69-75). -/
def isDir (t : Tree) : Bool := t.entry.isDir
@[simp] theorem entry_node (e r f d k) : (Tree.node e r f d k).entry = e := rfl
@[simp] theorem readErr_node (e r f d k) : (Tree.node e r f d k).readErr = r := rfl
@[simp] theorem files_node (e r f d k) : (Tree.node e r f d k).files = f := rfl
@[simp] theorem dirs_node (e r f d k) : (Tree.node e r f d k).dirs = d := rfl
@[simp] theorem kids_node (e r f d k) : (Tree.node e r f d k).kids = k := rfl
end Tree

/-- The navigation settings that decide what a traversal meets:
subscription, SortFilesFirst, Cascade.Depth, the effective read hook
(Options.Hooks.ReadDirectory, applied to the raw entries of a directory and the
error of ReadDir) and the effective sort hook (Options.Hooks.Sort, which sorts in
place, so: a function from list to list). Hooks receive entries together with what
lies below them; a hook of the program sees less. (navigator-agent.go:22-45, pref/options.go:15-57.) -/
structure Nav where
  sub : Subscription
  filesFirst : Bool := false
  maxDepth : Nat := 0
  read : List Tree → Option Err → List Tree × Option Err
  sort : List Tree → List Tree

/-- pref.DefaultReadEntriesHook (pref/defaults.go:16-27). -/
def defaultRead (ents : List Tree) (err : Option Err) : List Tree × Option Err :=
  match err with
  | some e => ([], some e)
  | Option.none => (ents.filter (fun t => t.name != ".DS_Store"), Option.none)

/-- read + NewContents + vapour.Sort + vapour.Pick for one directory
(navigation-fs.go:7-14, contents.go:14-26, 49-85, navigation-vapour.go:67-92, and the
inspect methods navigator-universal.go:53-80, navigator-directories.go:51-79,
navigator-files.go:61-88). nef.Separate (third party) is taken to split a list
into its non-directories and its directories, keeping the order. The Directories navigator
sorts and picks the directories only, the files of its contents stay in read order. -/
def arrange (c : Nav) (e : Entry) (rawErr : Option Err) (raw : List Tree) : Tree :=
  let (ents, err) := c.read raw rawErr
  let files := ents.filter (fun t => !t.isDir)
  let dirs := ents.filter (fun t => t.isDir)
  match c.sub with
  | .directories | .directoriesWithFiles =>
    let ds := c.sort dirs
    .node e err (files.map Tree.entry) (ds.map Tree.entry) ds
  | _ =>
    let fs := c.sort files
    let ds := c.sort dirs
    .node e err (fs.map Tree.entry) (ds.map Tree.entry)
      (if c.filesFirst then fs ++ ds else ds ++ fs)

mutual
/-- The whole tree a session meets: every directory arranged by the read and sort hooks.
A file has no contents; its read error matters only for a file root under the
Directories navigator, which reads it regardless (navigator-directories.go:68-71). -/
def prep (c : Nav) : FS → Tree
  | .file n ie re => .node ⟨n, false, ie⟩ re [] [] []
  | .dir n ie re kids => arrange c ⟨n, true, ie⟩ re (prepList c kids)
/-- The same for the entries of a directory (navigation-fs.go:7-14). -/
def prepList (c : Nav) : List FS → List Tree
  | [] => []
  | f :: fs => prep c f :: prepList c fs
end

end Traverse
