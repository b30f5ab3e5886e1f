import Verif.Model.Basic
/-
Filters: internal/filtering, core/filter definitions, enums/filter-scope-en.go.
Go's standard library (filepath.Match, regexp, strings.ToLower, strings.TrimSpace) is a parameter.
-/
namespace Traverse

/-- enums.FilterType (enums/filter-type-en.go:7-37). -/
inductive FilterType where
  | undefined | globEx | regex | glob | custom | poly
  deriving DecidableEq, Repr, Inhabited

/-- enums.TriStateBool (enums/tri-state-bool-en.go:5-11). -/
inductive Tri where
  | undefined | yes | no
  deriving DecidableEq, Repr, Inhabited

/-- core.FilterDef (core/filter-defs) without Poly. (core/filtering.go:33-60.) -/
structure FilterCore where
  type : FilterType := .undefined
  description : String := ""
  pattern : String := ""
  scope : Scope := 0#32
  negate : Bool := false
  ifNotApplicable : Tri := .undefined
  deriving DecidableEq, Repr, Inhabited

/-- core.FilterDef: `plain` is one whose Poly is nil, `both` one whose Poly is &PolyFilterDef{File, Directory}.
(core/filtering.go:33-71.) -/
inductive FilterDef where
  | plain (c : FilterCore)
  | both (c : FilterCore) (file directory : FilterDef)
  deriving DecidableEq, Repr, Inhabited

/-- The fields other than Poly (core/filtering.go:33-60). -/
def FilterDef.core : FilterDef → FilterCore
  | .plain c => c
  | .both c _ _ => c
/-- The Poly field. (core/filtering.go:59.) -/
def FilterDef.poly : FilterDef → Option (FilterDef × FilterDef)
  | .plain _ => none
  | .both _ f d => some (f, d)
/-- Changes the fields other than Poly (core/filtering.go:33-60). -/
def FilterDef.mapCore (g : FilterCore → FilterCore) : FilterDef → FilterDef
  | .plain c => .plain (g c)
  | .both c f d => .both (g c) f d

/-- core.ChildFilterDef. (core/filtering.go:86-98.) -/
structure ChildDef where
  type : FilterType := .undefined
  description : String := ""
  pattern : String := ""
  negate : Bool := false
  deriving DecidableEq, Repr, Inhabited

/-- A client's own sample filter: its methods Matching, taken not to panic, and Validate. (core/filtering.go:63-84.) -/
structure CustomSample where
  matching : List Entry → List Entry
  validate : Option Err := none

/-- core.SampleFilterDef. (core/filtering.go:100-126.) -/
structure SampleDef where
  type : FilterType := .undefined
  description : String := ""
  pattern : String := ""
  scope : Scope := 0#32
  negate : Bool := false
  poly : Option (FilterDef × FilterDef) := none
  custom : Option CustomSample := none

/-- What a filter can see of a node: the node and its ancestors (core/node.go; Parent pointers). -/
structure View extends NodeInfo where
  parents : List NodeInfo
  deriving DecidableEq, Repr, Inhabited

/-- What is passed to IsMatch (filter-plugin.go:45-49). -/
def Node.view (n : Node) : View := { n.toNodeInfo with parents := n.parents }
/-- node.Parent. (core/node.go:21.) -/
def View.parent (v : View) : Option View :=
  match v.parents with
  | [] => none
  | p :: ps => some { p with parents := ps }

/-- The parts of Go's library the filters call: filepath.Match (its error is ignored everywhere, the result is then
false), regexp.Compile's verdict, MatchString, strings.ToLower and strings.TrimSpace.
(filtering/regex.go:48-54, glob.go:31-38, glob-ex.go:57-206.) -/
structure Engine where
  glob : String → String → Bool
  compiles : String → Bool
  regex : String → String → Bool
  lower : String → String
  trim : String → String

/-- The errors that building a filter can return (locale, internal/filtering).
(internal/filtering/builders.go:13-165, child.go:10-53, sample.go:24-80.) -/
inductive FilterErr where
  | missingType | badRegex | polyInvalid | missingSeparator (pattern : String) | badSubPattern (p : String)
  | childGlobEx | childCustom | childUndefined | nilFilter | missingFiles | missingDirs
  | client (e : Err)   -- of a custom filter's Validate
  deriving DecidableEq, Repr

/-- What a Go function building a filter does: return a value (`none` being a nil filter), return an error, or panic.
(internal/filtering/builders.go:13-165.) -/
inductive Made (α : Type) where
  | ok (a : α)
  | err (e : FilterErr)
  | panic
  deriving DecidableEq, Repr

/-- Base (base.go:12-19) without the name. -/
structure FBase where
  pattern : String
  scope : Scope
  negate : Bool
  ifNotApplicable : Bool
  deriving DecidableEq, Repr

/-- Base.IsApplicable (base.go:30-32). -/
def FBase.isApplicable (b : FBase) (scope : Scope) : Bool := (b.scope &&& scope) != 0#32
/-- Base.invert (base.go:38-40). -/
def FBase.invert (b : FBase) (r : Bool) : Bool := if b.negate then !r else r
/-- Base.Validate (base.go:42-48). -/
def FBase.validate (b : FBase) : FBase := if b.scope = Scope.undefined then { b with scope := Scope.all } else b

/-- patternSpec (glob-ex.go:105-112), the fields IsMatch uses. -/
structure PatternSpec where
  matcher : String
  excludeExt : Bool
  deriving DecidableEq, Repr

/-- globSpec (glob-ex.go:113-117). -/
structure GlobSpec where
  specs : List PatternSpec
  directoryGlob : String
  directoryExclusion : String
  deriving DecidableEq, Repr

/-- The node filters. `custom` is a client's IsMatch, `none` where it panics. (internal/filtering/{regex,glob,glob-ex,poly}.go.) -/
inductive Filter where
  | regex (b : FBase)
  | glob (b : FBase)
  | globEx (b : FBase) (spec : GlobSpec)
  | custom (f : View → Option Bool)
  | poly (file directory : Filter)

/-- applicable (builders.go:44-56). -/
def applicable : Tri → Bool
  | .yes => true
  | .no => false
  | .undefined => true

/-! ### Strings as lists of characters -/

/-- strings.Split(s, c) for a one character separator. (builders.go:141-146.) -/
def splitChars (c : Char) : List Char → List (List Char)
  | [] => [[]]
  | x :: xs =>
    if x = c then [] :: splitChars c xs
    else match splitChars c xs with
      | [] => [[x]]
      | w :: ws => (x :: w) :: ws

/-- strings.Split on strings (builders.go:141-146). -/
def splitStr (c : Char) (s : String) : List String := (splitChars c s.toList).map String.ofList

/-- strings.Contains(s, c) for one character. (builders.go:136, 158.) -/
def containsChar (c : Char) (s : String) : Bool := s.toList.contains c

/-! ### Extended globs -/

/-- splitGlobExPattern (builders.go:135-149). -/
def splitGlobExPattern (pattern : String) : Made (String × List String) :=
  if !containsChar '|' pattern then .err (.missingSeparator pattern)
  else
    match splitStr '|' pattern with
    | base :: second :: _ => .ok (base, (splitStr ',' second).filter (fun i => !(i == "" || i == "!")))
    | _ => .panic   -- segments[1] out of range: cannot happen

/-- splitGlob (builders.go:155-165). -/
def splitGlob (E : Engine) (baseGlob : String) : String × String :=
  let base := E.lower baseGlob
  if containsChar '/' base then
    match splitStr '/' base with
    | b :: e :: _ => (b, e)
    | _ => (base, "")   -- cannot happen
  else (base, "")

/-- The match of `^(?P<base>.*?)\.(?P<neg>!)?(?P<ext>[^.]+)$` (glob-ex.go:17): ext has no dot, so the dot before it is
the last one; base has no newline, as "." matches none; "!" is taken as neg if something is left for ext. -/
def globExMatch (cs : List Char) : Option (List Char × Bool × List Char) :=
  match cs.reverse.dropWhile (fun c => c != '.') with
  | [] => none
  | _ :: front =>
    if front.contains '\n' then none
    else match (cs.reverse.takeWhile (fun c => c != '.')).reverse with
      | [] => none
      | ['!'] => some (front.reverse, false, ['!'])
      | '!' :: ext => some (front.reverse, true, ext)
      | ext => some (front.reverse, false, ext)

/-- parse (glob-ex.go:129-158). -/
def parseSpec (pattern : String) : Except FilterErr PatternSpec :=
  match globExMatch pattern.toList with
  | none => .error (.badSubPattern pattern)
  | some (base, neg, ext) =>
    let gross := "." ++ String.ofList ext
    .ok { matcher := if base = [] then "*" ++ gross else String.ofList base ++ gross, excludeExt := neg }

/-- lo.MapE (internal/third/lo/slice.go:22-35). -/
def mapE {α β : Type} (f : α → Except FilterErr β) : List α → Except FilterErr (List β)
  | [] => .ok []
  | a :: as =>
    match f a with
    | .error e => .error e
    | .ok b =>
      match mapE f as with
      | .error e => .error e
      | .ok bs => .ok (b :: bs)

/-- newSpec (glob-ex.go:160-178). -/
def newSpec (E : Engine) (base exclusion : String) (patterns : List String) : Except FilterErr GlobSpec :=
  match mapE (fun p => parseSpec (E.lower (E.trim p))) patterns with
  | .error e => .error e
  | .ok specs => .ok ⟨specs, base, exclusion⟩

/-- patternSpec.match (glob-ex.go:189-192). -/
def PatternSpec.isMatch (E : Engine) (s : PatternSpec) (name : String) : Bool := E.glob s.matcher name
/-- patternSpec.excluded (glob-ex.go:180-187). -/
def PatternSpec.excluded (E : Engine) (s : PatternSpec) (name : String) : Bool :=
  if !s.excludeExt then false else E.glob s.matcher name

/-- The loop of globSpec.IsMatch (glob-ex.go:194-206). -/
def specsMatch (E : Engine) (name : String) : List PatternSpec → Bool
  | [] => false
  | s :: ss =>
    if s.excluded E name then false
    else if s.excludeExt || s.isMatch E name then true
    else specsMatch E name ss

/-- GlobEx.isDirectoryMatch (glob-ex.go:65-83). -/
def GlobSpec.isDirectoryMatch (E : Engine) (g : GlobSpec) (v : View) : Bool :=
  match v.parent with
  | none => true
  | some p =>
    let name := E.lower p.name
    if !E.glob g.directoryGlob name then false
    else if E.glob g.directoryExclusion name then false
    else true

/-! ### Matching -/

/-- IsMatch of the filters: RegExpr (regex.go:48-54), Glob (glob.go:31-38), GlobEx (glob-ex.go:57-63, 95-101), Poly
(poly.go:66-72). `none` is a panic: a poly filter dereferences the Parent of a file. -/
def Filter.isMatch (E : Engine) : Filter → View → Option Bool
  | .regex b, v => some (if b.isApplicable v.scope then b.invert (E.regex b.pattern v.name) else b.ifNotApplicable)
  | .glob b, v => some (if b.isApplicable v.scope then b.invert (E.glob b.pattern v.name) else b.ifNotApplicable)
  | .globEx b g, v =>
    some (if b.isApplicable v.scope && g.isDirectoryMatch E v then b.invert (specsMatch E v.name g.specs)
      else b.ifNotApplicable)
  | .custom f, v => f v
  | .poly file dir, v =>
    if v.isDir then some true
    else match v.parent with
      | none => none   -- the constituents dereference a nil node
      | some p =>
        match dir.isMatch E p with
        | none => none
        | some false => some false
        | some true => file.isMatch E v

/-! ### Building -/

/-- buildNativeNodeFilter (builders.go:13-42) with createRegexFilter (regex.go:11-24), createGlobFilter (glob.go:11-24),
createGlobExFilter (glob-ex.go:20-50; the scope is always ScopeFile) and Validate (regex.go:34-46, base.go:42-48).
`ok none` is the nil filter of types Custom and Poly. -/
def buildNative (E : Engine) (d : FilterCore) : Made (Option Filter) :=
  let b : FBase := ⟨d.pattern, d.scope, d.negate, applicable d.ifNotApplicable⟩
  match d.type with
  | .globEx =>
    (match splitGlobExPattern d.pattern with
      | .err e => .err e
      | .panic => .panic
      | .ok (seg0, patterns) =>
        let (base, excl) := splitGlob E seg0
        match newSpec E base excl patterns with
        | .error e => .err e
        | .ok g => .ok (some (.globEx ({ b with scope := Scope.file }).validate g)))
  | .regex => if E.compiles d.pattern then .ok (some (.regex b.validate)) else .err .badRegex
  | .glob => .ok (some (.glob b.validate))
  | .custom | .poly => .ok none
  | .undefined => .err .missingType

/-- What a filter says of itself: Description, Source and Scope (core/filtering.go:13-30). -/
structure Face where
  description : String := ""
  source : String := ""
  scope : Scope := 0#32
  deriving DecidableEq, Repr, Inhabited

/-- A client's own filter: its methods IsMatch, `none` where that panics, Validate, and what it says of itself; IsApplicable is not
called. (core/filtering.go:10-31, scheme-custom.go:15-41.) -/
structure CustomFilter where
  isMatch : View → Option Bool
  validate : Option Err := none
  face : Face := {}

/-- pref.FilterOptions (pref/options-filter.go:23-45) without the Sink, which is in Model/Sink. -/
structure FilterOptions where
  node : Option FilterDef := none
  child : Option ChildDef := none
  sample : Option SampleDef := none
  custom : Option CustomFilter := none

/-- FilterScope.Set and Clear (enums/filter-scope-en.go:55-63). -/
def Scope.set (s mask : Scope) : Scope := s ||| mask
/-- FilterScope.Clear (enums/filter-scope-en.go:60-63). -/
def Scope.clear (s mask : Scope) : Scope := s &&& ~~~mask

/-- buildConstituent (builders.go:104-127): the client's custom filter, if there is one, or else the native one. A nil
filter is dereferenced by Validate. Validating a native filter a second time changes nothing. -/
def buildConstituent (E : Engine) (fo : FilterOptions) (d : FilterCore) : Made Filter :=
  match fo.custom with
  | some c => (match c.validate with | some e => .err (.client e) | none => .ok (.custom c.isMatch))
  | none =>
    match buildNative E d with
    | .ok (some f) => .ok f
    | .ok none => .panic
    | .err e => .err e
    | .panic => .panic

/-- The change of scope at builders.go:69-72. -/
def FilterCore.narrow (c : FilterCore) (plus minus : Scope) : FilterCore := { c with scope := (c.scope.set plus).clear minus }

/-- buildPolyNodeFilter (builders.go:58-102); the definition used is always fo.Node's. The scopes of the two definitions are
changed in place there; a copy is used here. -/
def buildPoly (E : Engine) (d : FilterDef) (fo : FilterOptions) : Made (Option Filter) :=
  if d.core.type ≠ .poly then .ok none
  else match fo.node.bind FilterDef.poly with
    | none => .panic
    | some (file, dir) =>
      if file.core.type = .poly then .err .polyInvalid
      else match buildConstituent E fo (file.core.narrow Scope.file Scope.directory) with
        | .err e => .err e
        | .panic => .panic
        | .ok ff =>
          if dir.core.type = .poly then .err .polyInvalid
          else match buildConstituent E fo (dir.core.narrow Scope.directory Scope.file) with
            | .err e => .err e
            | .panic => .panic
            | .ok fd => .ok (some (.poly ff fd))

/-- New (new-filter.go:8-22) with OrFuncE (filtering-defs.go:24-38). -/
def newFilter (E : Engine) (d : FilterDef) (fo : FilterOptions) : Made (Option Filter) :=
  match buildPoly E d fo with
  | .err e => .err e
  | .panic => .panic
  | .ok (some f) => .ok (some f)
  | .ok none =>
    match fo.custom with
    | some c => .ok (some (.custom c.isMatch))
    | none => buildNative E d.core

/-! ### Child and sample filters -/

/-- A child filter: the predicate of ChildRegex (regex.go:72-76) and ChildGlob (glob.go:48-56). -/
def childPredicate (E : Engine) (isGlob : Bool) (pattern : String) (negate : Bool) (e : Entry) : Bool :=
  let m := if isGlob then E.glob pattern e.name else E.regex pattern e.name
  if negate then !m else m   -- child.go:76-78

/-- NewChild (child.go:10-53); `ok none` is the nil filter of type Poly. -/
def newChild (E : Engine) (d : ChildDef) : Made (Option (Entry → Bool)) :=
  match d.type with
  | .regex => if E.compiles d.pattern then .ok (some (childPredicate E false d.pattern d.negate)) else .err .badRegex
  | .glob => .ok (some (childPredicate E true d.pattern d.negate))
  | .globEx => .err .childGlobEx
  | .custom => .err .childCustom
  | .undefined => .err .childUndefined
  | .poly => .ok none

/-- FilterScope.IsFile, IsDirectory (enums/filter-scope-en.go:70-78). -/
def Scope.isFile (s : Scope) : Bool := (s &&& Scope.file) != 0#32
/-- FilterScope.IsDirectory (enums/filter-scope-en.go:70-73). -/
def Scope.isDirectory (s : Scope) : Bool := (s &&& Scope.directory) != 0#32
/-- FilterScope.Scrub (enums/filter-scope-en.go:81-95). -/
def Scope.scrub (s : Scope) : Scope :=
  let r := if s.isFile then Scope.set 0#32 Scope.file else 0#32
  if s.isDirectory then r.set Scope.directory else r

/-- Sample.fetch (sample.go:82-110): the entries to be filtered and the others. -/
def sampleFetch (scope : Scope) (l : List Entry) : List Entry × List Entry :=
  let files := l.filter (fun e => !e.isDir)
  let dirs := l.filter (fun e => e.isDir)
  if scope.isDirectory then (dirs, files)
  else if scope.isFile then (files, dirs)
  else (l, [])

/-- SampleRegex.Matching (regex.go:105-113), SampleGlob.Matching (glob.go:69-81). -/
def sampleMatching (E : Engine) (isGlob : Bool) (b : FBase) (l : List Entry) : List Entry :=
  let (filterable, bypass) := sampleFetch b.scope l
  filterable.filter (fun e => b.invert (if isGlob then E.glob b.pattern e.name else E.regex b.pattern e.name)) ++ bypass

/-- Sample.Matching (sample.go:115-122) of a filter begun with NewCustomSampleFilter (sample.go:126-132), which takes the scope as it is;
the function is taken not to look at the index it is given. -/
def ownMatching (scope : Scope) (get : Entry → Bool) (l : List Entry) : List Entry :=
  let (filterable, bypass) := sampleFetch scope l
  filterable.filter get ++ bypass

/-- NewSample (sample.go:24-80) with samplerScheme.create's second Validate (scheme-sampler.go:19-39); `files`, `dirs` are
the sampling quotas. `ok none` is the nil filter of types GlobEx and Poly (create calls Validate on it and panics). -/
def newSample (E : Engine) (d : Option SampleDef) (files dirs : Nat) : Made (Option (List Entry → List Entry)) :=
  match d with
  | none => .err .nilFilter
  | some d =>
    let b : FBase := ⟨d.pattern, d.scope.scrub, d.negate, false⟩
    if b.scope.isFile && files == 0 then .err .missingFiles
    else if b.scope.isDirectory && dirs == 0 then .err .missingDirs
    else match d.type with
      | .regex => if E.compiles d.pattern then .ok (some (sampleMatching E false b.validate)) else .err .badRegex
      | .glob => .ok (some (sampleMatching E true b.validate))
      | .custom =>
        (match d.custom with
          | none => .err .nilFilter
          | some c => (match c.validate with | some e => .err (.client e) | none => .ok (some c.matching)))
      | .globEx | .poly => .ok none
      | .undefined => .err .missingType

end Traverse
