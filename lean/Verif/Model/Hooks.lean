/-
Hooks: tapable/hooks.go, tapable/broadcasters.go.
-/
namespace Traverse

/-- What Invoke() returns: either a plain function, or the closure made by the attacher, which reads the control's
listeners at the time of the call (SubPathAttacher, ReadDirectoryAttacher, QueryStatusAttacher, SortAttacher,
broadcasters.go). -/
inductive Effective (ι ρ : Type) where
  | plain (f : ι → ρ)
  | attached (f : ι → ρ)

/-- HookCtrl (hooks.go): `ι` is what a hook is called with, `ρ` what it returns (for Sort: the slice before and after); a
chained function gets its predecessor's result as well. `listeners = none` is the nil slice. -/
structure HookCtrl (ι ρ : Type) where
  handler : Effective ι ρ
  default : ι → ρ
  listeners : Option (List (ρ → ι → ρ))

variable {ι ρ : Type}

/-- NewHookCtrl (hooks.go:82-95). -/
def HookCtrl.new (d : ι → ρ) : HookCtrl ι ρ := ⟨.plain d, d, none⟩
/-- Tap (hooks.go:101-103). -/
def HookCtrl.tap (c : HookCtrl ι ρ) (f : ι → ρ) : HookCtrl ι ρ := { c with handler := .plain f }

/-- The function a handler is, the listeners being `ls`: the broadcasters run the attached function, then every
listener on its predecessor's result. (tapable/broadcasters.go, tapable/hooks.go:82-122.) -/
def Effective.run (h : Effective ι ρ) (ls : List (ρ → ι → ρ)) : ι → ρ :=
  match h with
  | .plain f => f
  | .attached f => fun i => ls.foldl (fun r l => l r i) (f i)

/-- Chain (hooks.go:105-114): the first one attaches the present handler, later ones only append. `attach` of an already
attached handler cannot happen, as listeners is nil only before the first Chain. -/
def HookCtrl.chain (c : HookCtrl ι ρ) (l : ρ → ι → ρ) : HookCtrl ι ρ :=
  match c.listeners with
  | none => { c with listeners := some [l], handler := .attached (c.handler.run []) }
  | some ls => { c with listeners := some (ls ++ [l]) }

/-- Invoke (hooks.go:120-122), as the function it returns. -/
def HookCtrl.invoke (c : HookCtrl ι ρ) : ι → ρ := c.handler.run (c.listeners.getD [])

end Traverse
