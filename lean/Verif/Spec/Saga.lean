import Verif.Model.Author
import Verif.Spec.Api
/-
Vocabulary for C63: a traversal that is interrupted by panics and resumed, over and over.
-/
namespace Traverse
variable {κ : Type}

/-- The handler accepts every node or panics. -/
def Handler.Holds (h : κ → Parcel → κ × Reply) : Prop := ∀ k p, (h k p).2 = .ok none ∨ (h k p).2 = .panic

/-- What is written can be read back. -/
def Drive.Keeps (D : Drive κ) : Prop := ∀ k p j k', D.write k p j = (k', none) → D.read k' p = .ok j

/-- Nothing that is written or made fails. -/
def Drive.Sound (D : Drive κ) : Prop := (∀ k p, (D.makeDirAll k p).2 = none) ∧ ∀ k p j, (D.write k p j).2 = none

/-- The file systems the resume is given are relative or not as GetForest says, or as the default is. -/
def Relic.Systems (r : Relic κ) (tree : Path) (t rr : Bool) : Prop :=
  match r.forest with
  | some f => f tree = some (t, rr)
  | none => t = false ∧ rr = false

/-- A first session, with options `o₀`, and resumes, with options `o`, of the tree `pre ++ [fs.name]`: no filters, hibernation or
sampling; every session's panic handler is the author, which writes to the drive `D`; what either saves is loaded as `o`; all navigate
in the same way; directories that cannot be read are skipped; listeners do not write to the drive. -/
structure Tale (P Q : Platform κ) (D : Drive κ) (u : Using κ) (settings₀ settings : List (Option (Setting κ))) (disk : Disk)
    (o₀ o : Options κ) (h₀ : κ → Parcel → κ × Reply) (r : Relic κ) (t rr : Bool) (pre : Path) (fs : FS) : Prop where
  first : Primed P u settings₀ disk o₀ h₀ pre fs
  holds : Handler.Holds h₀
  author₀ : o₀.defects.panic = D.author "prime" o₀.afterwards t rr
  skip₀ : ∀ k n re, (o₀.defects.skip k n re).2.1 = .none
  quiet₀ : ∀ k n p, D.read ((o₀.events.get n.ev).dispatch n k) p = D.read k p
  load₀ : ∀ a doc, marshal o₀.afterwards ⟨a, t, rr⟩ = .ok doc → ∃ o', unmarshal Q (.ok doc) = .ok (o', ⟨a, t, rr⟩) ∧
    bindOptions o' settings = (o, none)
  load : ∀ a doc, marshal o.afterwards ⟨a, t, rr⟩ = .ok doc → ∃ o', unmarshal Q (.ok doc) = .ok (o', ⟨a, t, rr⟩) ∧
    bindOptions o' settings = (o, none)
  bare : o.Bare
  author : o.defects.panic = D.author "resume" o.afterwards t rr
  skip : ∀ k n re, (o.defects.skip k n re).2.1 = .none
  quiet : ∀ k n p, D.read ((o.events.get n.ev).dispatch n k) p = D.read k p
  status : ∀ s, o.hooks.queryStatus.invoke s = s
  systems : r.Systems u.tree t rr
  same : o.afterwards.nav u.sub = o₀.afterwards.nav u.sub
  keeps : D.Keeps

end Traverse
