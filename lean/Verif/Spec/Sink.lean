import Verif.Model.Sink
/-
What a definition has its filter say of itself.
-/
namespace Traverse

/-- A definition of one filter: its description, its pattern, and the scope it gives; no scope means everything, and an extended glob
is always for files. -/
def FilterCore.tells (c : FilterCore) : Face where
  description := c.description
  source := c.pattern
  scope := if c.type = .globEx then Scope.file else if c.scope = Scope.undefined then Scope.all else c.scope

/-- The scope of one of a poly filter's two: it has its own bit and not the other's. -/
def FilterCore.polyScope (c : FilterCore) (own other : Scope) : Scope :=
  if c.type = .globEx then Scope.file else (c.scope &&& ~~~other) ||| own

/-- A definition. One with two in it (of type Poly) tells of both, and its scope is that of either. -/
def FilterDef.tells : FilterDef → Face
  | .plain c => c.tells
  | .both c f d =>
    if c.type = .poly then
      { description := "Poly - FILE: '" ++ f.core.description ++ "', DIRECTORY: '" ++ d.core.description ++ "'"
        source := f.core.pattern ++ "##" ++ d.core.pattern
        scope := f.core.polyScope Scope.file Scope.directory ||| d.core.polyScope Scope.directory Scope.file }
    else c.tells

/-- What the client is handed when a session has been built from the options: the node filter if one is defined (and the client has
no filter of its own), then the child filter if one is defined, and nothing else; each says of itself what was defined, and
is the one the session uses. -/
structure Handed (E : Engine) (fo : FilterOptions) (used : FilterOpts) (replies : List FilterReply) : Prop where
  split : ∃ nodes children, replies = nodes ++ children ∧
    (∀ d, fo.custom = none → fo.node = some d → d.core.pattern ≠ "" ∨ d.poly.isSome = true →
      ∃ n pred, nodes = [{ node := some n }] ∧ n.face = d.tells ∧ used.primary = some (.node pred) ∧
        (∀ v, pred v = true ↔ n.filter.isMatch E v.view = some true) ∧ (∀ v, used.dies v = true ↔ n.filter.isMatch E v.view = none)) ∧
    ((∀ d, fo.custom = none → fo.node = some d → d.core.pattern = "" ∧ d.poly = none) → nodes = []) ∧
    (∀ d, fo.child = some d → d.pattern ≠ "" →
      ∃ c, children = [{ child := some c }] ∧ c.description = d.description ∧ c.source = d.pattern ∧ used.child = some c.keeps) ∧
    ((∀ d, fo.child = some d → d.pattern = "") → children = [])

end Traverse
