import Verif.Model.Hooks
/-
C41: tapping and chaining hooks.
-/
namespace Traverse

variable {ι ρ : Type}

/-- What a user can do to a hook. -/
inductive HookOp (ι ρ : Type) where
  | tap (f : ι → ρ)
  | chain (l : ρ → ι → ρ)

def HookOp.apply (c : HookCtrl ι ρ) : HookOp ι ρ → HookCtrl ι ρ
  | .tap f => c.tap f
  | .chain l => c.chain l

/-- Specification: the function in place (the last one tapped, or the default). -/
def HookOp.base (d : ι → ρ) (ops : List (HookOp ι ρ)) : ι → ρ :=
  ops.foldl (fun b op => match op with | .tap f => f | .chain _ => b) d

/-- Specification: the chained functions, in order. -/
def HookOp.chained (ops : List (HookOp ι ρ)) : List (ρ → ι → ρ) :=
  ops.filterMap fun | .tap _ => none | .chain l => some l

/-- Specification (C41): what a user expects a hook to do after these operations. -/
def HookOp.expected (d : ι → ρ) (ops : List (HookOp ι ρ)) : ι → ρ :=
  fun i => (chained ops).foldl (fun r l => l r i) (base d ops i)

/-- No Tap comes after a Chain. -/
def HookOp.TapsFirst : List (HookOp ι ρ) → Prop
  | [] => True
  | .tap _ :: ops => TapsFirst ops
  | .chain _ :: ops => ∀ op ∈ ops, ∃ l, op = .chain l

private theorem hook_chains (ls : List (ρ → ι → ρ)) (c : HookCtrl ι ρ) (f : ι → ρ) (ks : List (ρ → ι → ρ))
    (hh : c.handler = .attached f) (hl : c.listeners = some ks) :
    ((ls.map HookOp.chain).foldl HookOp.apply c).invoke = fun i => (ks ++ ls).foldl (fun r l => l r i) (f i) := by
  induction ls generalizing c ks with
  | nil => simp [HookCtrl.invoke, hh, hl, Effective.run]
  | cons l ls ih =>
    rw [List.map_cons, List.foldl_cons, ih (HookOp.apply c (.chain l)) (ks ++ [l])]
    · simp
    · simp [HookOp.apply, HookCtrl.chain, hl, hh]
    · simp [HookOp.apply, HookCtrl.chain, hl]

private theorem all_chains (ops : List (HookOp ι ρ)) (h : ∀ op ∈ ops, ∃ l, op = .chain l) :
    ops = (HookOp.chained ops).map HookOp.chain ∧ ∀ d, HookOp.base d ops = d := by
  induction ops with
  | nil => exact ⟨rfl, fun _ => rfl⟩
  | cons op ops ih =>
    obtain ⟨l, rfl⟩ := h op (by simp)
    have := ih (fun op ho => h op (by simp [ho]))
    exact ⟨by
      conv => lhs; rw [this.1]
      rfl, fun d => this.2 d⟩

/-- **C41** (partial: only when no Tap comes after a Chain; `C41_tap_after_chain` shows what happens otherwise). The hook
is the function last tapped, or the default if there is none, followed by every chained function exactly once, in the
order of chaining, each given its predecessor's result. -/
theorem C41_tap_then_chain_partial (d : ι → ρ) (ops : List (HookOp ι ρ)) (h : HookOp.TapsFirst ops) :
    (ops.foldl HookOp.apply (HookCtrl.new d)).invoke = HookOp.expected d ops := by
  suffices hg : ∀ (ops : List (HookOp ι ρ)) (g : ι → ρ) (c : HookCtrl ι ρ), HookOp.TapsFirst ops →
      c.handler = .plain g → c.listeners = none → (ops.foldl HookOp.apply c).invoke = HookOp.expected g ops from
    hg ops d _ h rfl rfl
  intro ops
  induction ops with
  | nil => intro g c _ h1 h2; funext i; simp [HookCtrl.invoke, h1, Effective.run, HookOp.expected, HookOp.chained, HookOp.base]
  | cons op ops ih =>
    intro g c hf h1 h2
    cases op with
    | tap f => exact ih f _ hf rfl h2
    | chain l =>
      have ha := all_chains ops hf
      rw [List.foldl_cons, ha.1, hook_chains _ _ g [l]]
      · funext i
        simp only [HookOp.expected]
        rw [← ha.1]
        have : HookOp.base g (HookOp.chain l :: ops) = g := ha.2 g
        rw [this]
        rfl
      · simp [HookOp.apply, HookCtrl.chain, h2, h1, Effective.run]
      · simp [HookOp.apply, HookCtrl.chain, h2]

/-- **C41 is false of the code**: when some Tap comes after a Chain, the hook is the function last tapped, alone: what was
chained before it is dropped, and so is everything chained after it. -/
theorem C41_tap_after_chain (d : ι → ρ) (pre mid post : List (HookOp ι ρ)) (l : ρ → ι → ρ) (f : ι → ρ)
    (hpost : ∀ op ∈ post, ∃ l, op = .chain l) :
    ((pre ++ [HookOp.chain l] ++ mid ++ [HookOp.tap f] ++ post).foldl HookOp.apply (HookCtrl.new d)).invoke = f := by
  have some1 : ∀ (ops : List (HookOp ι ρ)) (c : HookCtrl ι ρ), c.listeners.isSome →
      (ops.foldl HookOp.apply c).listeners.isSome := by
    intro ops
    induction ops with
    | nil => intro c h; exact h
    | cons op ops ih =>
      intro c h
      refine ih _ ?_
      cases op with
      | tap f => exact h
      | chain l => simp only [HookOp.apply, HookCtrl.chain]; split <;> rfl
  simp only [List.foldl_append, List.foldl_cons, List.foldl_nil]
  generalize hc0 : HookOp.apply (List.foldl HookOp.apply (HookCtrl.new d) pre) (HookOp.chain l) = c0
  have h0 : c0.listeners.isSome := by
    rw [← hc0]; simp only [HookOp.apply, HookCtrl.chain]; split <;> rfl
  have h1 := some1 mid c0 h0
  generalize List.foldl HookOp.apply c0 mid = c1 at h1
  suffices hg : ∀ (ops : List (HookOp ι ρ)) (c : HookCtrl ι ρ), (∀ op ∈ ops, ∃ l, op = .chain l) →
      c.handler = .plain f → c.listeners.isSome → (ops.foldl HookOp.apply c).invoke = f from hg post _ hpost rfl h1
  intro ops
  induction ops with
  | nil => intro c _ h2 _; simp [HookCtrl.invoke, h2, Effective.run]
  | cons op ops ih =>
    intro c ho h2 h3
    obtain ⟨l', rfl⟩ := ho op (by simp)
    obtain ⟨ks, hks⟩ := Option.isSome_iff_exists.mp h3
    refine ih _ (fun op h => ho op (by simp [h])) ?_ ?_ <;> simp [HookOp.apply, HookCtrl.chain, hks, h2]

/-- Every history is of one of the two forms: with the two theorems above the hook is determined. -/
theorem hook_histories (ops : List (HookOp ι ρ)) : HookOp.TapsFirst ops ∨
    ∃ pre l mid f post, ops = pre ++ [.chain l] ++ mid ++ [.tap f] ++ post ∧ ∀ op ∈ post, ∃ l, op = HookOp.chain l := by
  have last : ∀ ops : List (HookOp ι ρ), (∀ op ∈ ops, ∃ l, op = .chain l) ∨
      ∃ mid f post, ops = mid ++ [.tap f] ++ post ∧ ∀ op ∈ post, ∃ l, op = HookOp.chain l := by
    intro ops
    induction ops with
    | nil => left; simp
    | cons op ops ih =>
      rcases ih with ih | ⟨mid, f, post, rfl, hp⟩
      · cases op with
        | tap f => exact .inr ⟨[], f, ops, rfl, ih⟩
        | chain l => left; intro op ho; rcases List.mem_cons.mp ho with rfl | ho
                     · exact ⟨l, rfl⟩
                     · exact ih op ho
      · exact .inr ⟨op :: mid, f, post, by simp, hp⟩
  induction ops with
  | nil => left; trivial
  | cons op ops ih =>
    cases op with
    | tap f =>
      rcases ih with ih | ⟨pre, l, mid, g, post, rfl, hp⟩
      · exact .inl ih
      · exact .inr ⟨.tap f :: pre, l, mid, g, post, by simp, hp⟩
    | chain l =>
      rcases last ops with h | ⟨mid, f, post, rfl, hp⟩
      · exact .inl h
      · exact .inr ⟨[], l, mid, f, post, by simp, hp⟩

/-- Not vacuous: two taps and two chained functions. -/
example : let ops : List (HookOp Nat (List Nat)) :=
      [.tap fun i => [i], .tap fun i => [i, i], .chain fun r i => r ++ [i + 1], .chain fun r _ => r ++ [r.length]]
    HookOp.TapsFirst ops ∧ (ops.foldl HookOp.apply (HookCtrl.new fun _ => [])).invoke 5 = [5, 5, 6, 3] := by
  refine ⟨?_, rfl⟩
  intro op ho
  simp only [List.mem_cons, List.not_mem_nil, or_false] at ho
  exact ⟨_, ho⟩

/-- The negation of the full property, on a concrete history: a chained function is lost. -/
example : let ops : List (HookOp Nat Nat) := [.chain fun r _ => r + 1, .tap fun i => i * 2]
    (ops.foldl HookOp.apply (HookCtrl.new id)).invoke 5 = 10 ∧ HookOp.expected id ops 5 = 11 := ⟨rfl, rfl⟩

end Traverse
