import Verif.Model.Resume
/-
Handing the filters over: the sink of pref.FilterOptions and what the filters say of themselves.
internal/feat/filter/scheme-{native,nanny}.go, internal/filtering/{base,poly,child}.go.
-/
namespace Traverse
variable {κ : Type}

/-- A node filter as the client sees it through core.TraverseFilter: IsMatch and what Description, Source and Scope return
(core/filtering.go:10-31). -/
structure FilterSeen where
  filter : Filter
  face : Face

/-- Made values under a function; not in the Go code, it stands for `if err != nil { return nil, err }` (builders.go:81-93). -/
def Made.map {α β : Type} (g : α → β) : Made α → Made β
  | .ok a => .ok (g a)
  | .err e => .err e
  | .panic => .panic

/-- Base.Description, Source and Scope (base.go:21-36) of a native filter; its name is the Description of the definition
(regex.go:16, glob.go:16, glob-ex.go:39). The other two are no native filters. -/
def Filter.native (name : String) : Filter → Face
  | .regex b => ⟨name, b.pattern, b.scope⟩
  | .glob b => ⟨name, b.pattern, b.scope⟩
  | .globEx b _ => ⟨name, b.pattern, b.scope⟩
  | .custom _ => default
  | .poly _ _ => default

/-- IsApplicable: Base (base.go:30-32), GlobEx (glob-ex.go:57-63), Poly (poly.go:77-83). A client's own is not handed over, so what it
says does not matter. -/
def Filter.applies (E : Engine) : Filter → View → Bool
  | .regex b, v => b.isApplicable v.scope
  | .glob b, v => b.isApplicable v.scope
  | .globEx b g, v => b.isApplicable v.scope && g.isDirectoryMatch E v
  | .custom _, _ => false
  | .poly file _, v => if v.isDir then false else file.applies E v

/-- buildNativeNodeFilter (builders.go:13-42) with the names (regex.go:11-24, glob.go:11-24, glob-ex.go:20-50). -/
def namedNative (E : Engine) (d : FilterCore) : Made (Option FilterSeen) :=
  (buildNative E d).map (Option.map fun f => ⟨f, f.native d.description⟩)

/-- buildConstituent (builders.go:104-127) with the names. -/
def namedConstituent (E : Engine) (fo : FilterOptions) (d : FilterCore) : Made FilterSeen :=
  match fo.custom with
  | some c => (match c.validate with | some e => .err (.client e) | none => .ok ⟨.custom c.isMatch, c.face⟩)
  | none =>
    match namedNative E d with
    | .ok (some f) => .ok f
    | .ok none => .panic
    | .err e => .err e
    | .panic => .panic

/-- Poly.Description, Source and Scope (poly.go:40-44, 55-61, 85-88). -/
def polyFace (file directory : Face) : Face where
  description := "Poly - FILE: '" ++ file.description ++ "', DIRECTORY: '" ++ directory.description ++ "'"
  source := file.source ++ "##" ++ directory.source
  scope := file.scope ||| directory.scope

/-- buildPolyNodeFilter (builders.go:58-102) with the names. -/
def namedPoly (E : Engine) (d : FilterDef) (fo : FilterOptions) : Made (Option FilterSeen) :=
  if d.core.type ≠ .poly then .ok none
  else match fo.node.bind FilterDef.poly with
    | none => .panic
    | some (file, dir) =>
      if file.core.type = .poly then .err .polyInvalid
      else match namedConstituent E fo (file.core.narrow Scope.file Scope.directory) with
        | .err e => .err e
        | .panic => .panic
        | .ok ff =>
          if dir.core.type = .poly then .err .polyInvalid
          else match namedConstituent E fo (dir.core.narrow Scope.directory Scope.file) with
            | .err e => .err e
            | .panic => .panic
            | .ok fd => .ok (some ⟨.poly ff.filter fd.filter, polyFace ff.face fd.face⟩)

/-- New (new-filter.go:8-22) with the names. -/
def namedFilter (E : Engine) (d : FilterDef) (fo : FilterOptions) : Made (Option FilterSeen) :=
  match namedPoly E d fo with
  | .err e => .err e
  | .panic => .panic
  | .ok (some f) => .ok (some f)
  | .ok none =>
    match fo.custom with
    | some c => .ok (some ⟨.custom c.isMatch, c.face⟩)
    | none => namedNative E d.core

/-- A child filter as the client sees it: which of the entries Matching keeps, and Description and Source (child.go:57-74). -/
structure NamedChild where
  keeps : Entry → Bool
  description : String
  source : String

/-- NewChild (child.go:10-53) with the names. -/
def namedChild (E : Engine) (d : ChildDef) : Made (Option NamedChild) :=
  (newChild E d).map (Option.map fun f => ⟨f, d.description, d.pattern⟩)

/-- pref.FilterReply (options-filter.go:8-12); `none` is nil. -/
structure FilterReply where
  node : Option FilterSeen := none
  child : Option NamedChild := none
  sampler : Option (List Entry → List Entry) := none

/-- nannyScheme.create (scheme-nanny.go:16-31): what it hands over, a nil filter (type Poly) included. -/
def sunkChild (E : Engine) (o : Options κ) : List FilterReply :=
  match o.filter.child with
  | none => []
  | some d =>
    if d.pattern != "" then
      match namedChild E d with
      | .ok c => [{ child := c }]
      | _ => []
    else []

/-- Registration of the filter plugin (filter-plugin.go:37-43, scheme-hybrid.go:24-40): what the schemes hand over
(scheme-native.go:15-30). The custom scheme (scheme-custom.go:15-19) and the sampler scheme (scheme-sampler.go:19-39) do not
call the sink; the latter calls Validate of a nil filter. After an error or a panic nothing more happens. -/
def sunk (E : Engine) (o : Options κ) : List FilterReply :=
  match o.filter.custom with
  | some c => if c.validate.isSome then [] else sunkChild E o
  | none =>
    if o.filter.nodeActive then
      match o.filter.node with
      | none => []
      | some d =>
        match namedFilter E d o.filter with
        | .ok n => { node := n } :: sunkChild E o
        | _ => []
    else if o.filter.sample.isSome then
      match newSample E o.filter.sample o.sampling.files o.sampling.dirs with
      | .ok (some _) => sunkChild E o
      | _ => []
    else sunkChild E o

/-- The calls of the sink when the plugins are made (builders.go:49-128), with the number the sink is known by: none without
a sink (scheme-native.go:23, scheme-nanny.go:24). The sink is taken to return. -/
def sinkRest (E : Engine) (sub : Subscription) (o : Options κ) : List (Nat × FilterReply) :=
  if sub = .undefined then []
  else match o.sink with
    | none => []
    | some k => (sunk E o).map fun r => (k, r)

/-- The calls of the sink of a primary session, all before its navigation (builders.go:31-128, driver.go:29-37). -/
def sinkPrime (P : Platform κ) (facade : Facade κ) (settings : List (Option (Setting κ))) : List (Nat × FilterReply) :=
  match primaryPlatform P facade settings with
  | (_, some _) => []
  | (o, none) =>
    match facade with
    | .relic _ => []
    | .using u => sinkRest P.engine u.sub o.afterwards

/-- The calls of the sink of a resumed session, all before its navigation (scaffold.go:54-97, builders.go:31-128). -/
def sinkResume (P : Platform κ) (facade : Facade κ) (settings : List (Option (Setting κ))) (files : String → Except Err Json) :
    List (Nat × FilterReply) :=
  match facade with
  | .using _ => []
  | .relic r =>
    match resumePlatform P r settings (files r.from) with
    | .error _ => []
    | .ok (o, a) => sinkRest P.engine a.sub o.afterwards

end Traverse
