import Verif.Proofs.Wear
import Verif.Proofs.Persist
/-
Options that differ as those of a session differ after it was built, in a resume.
-/
namespace Traverse
variable {κ : Type}

/-- Definitions that differ as a definition differs after sessions were built from it. -/
def DefLike (d d' : FilterDef) : Prop :=
  CoreWorn d.core d'.core ∧ d'.poly.isSome = d.poly.isSome ∧
    ∀ x x', d.poly = some x → d'.poly = some x' →
      ConLike Scope.file Scope.directory x.1 x'.1 ∧ ConLike Scope.directory Scope.file x.2 x'.2

/-- The same of pointers that may be nil. -/
def MaybeLike (d d' : Option FilterDef) : Prop := d'.isSome = d.isSome ∧ ∀ x x', d = some x → d' = some x' → DefLike x x'

theorem MaybeLike.rfl' (d : Option FilterDef) : MaybeLike d d := by
  refine ⟨rfl, fun x x' h h' => ?_⟩
  obtain rfl : x = x' := by rw [h] at h'; exact Option.some.inj h'
  refine ⟨CoreWorn.rfl' _, rfl, fun y y' h h' => ?_⟩
  obtain rfl : y = y' := by rw [h] at h'; exact Option.some.inj h'
  exact ⟨ConLike.rfl' _ _ _, ConLike.rfl' _ _ _⟩

/-- Options that differ in their three definitions only, and in these as said. -/
def OptionsLike (o o' : Options κ) : Prop :=
  ∃ n w s, o' = { o with filter := { o.filter with node := n }, hibernate := { o.hibernate with wakeAt := w, sleepAt := s } } ∧
    MaybeLike o.filter.node n ∧ MaybeLike o.hibernate.wakeAt w ∧ MaybeLike o.hibernate.sleepAt s

theorem Heap.Like.get {H H' : Heap} (h : H.Like H') (a : Nat) : DefLike (H.get a) (H'.get a) := by
  refine ⟨by rw [core_get, core_get]; exact (h.1 a).2, by rw [poly_get, poly_get, (h.1 a).1, Option.isSome_map, Option.isSome_map], ?_⟩
  intro x x' hx hx'
  rw [poly_get] at hx hx'
  rw [(h.1 a).1] at hx'
  cases hd : (H.defs a).2 with
  | none => rw [hd] at hx; cases hx
  | some p =>
    rw [hd] at hx hx'
    simp only [Option.map_some, Option.some.injEq] at hx hx'
    subst hx hx'
    exact h.2 p

theorem Heap.Like.maybe {H H' : Heap} (h : H.Like H') (a : Option Nat) : MaybeLike (a.map H.get) (a.map H'.get) := by
  refine ⟨by rw [Option.isSome_map, Option.isSome_map], fun x x' hx hx' => ?_⟩
  cases a with
  | none => cases hx
  | some a =>
    simp only [Option.map_some, Option.some.injEq] at hx hx'
    subst hx hx'
    exact h.get a

theorem Heap.Like.options {H H' : Heap} (h : H.Like H') (o : Options κ) (r : Refs) : OptionsLike (o.at r H) (o.at r H') :=
  ⟨_, _, _, rfl, h.maybe r.node, h.maybe r.wakeAt, h.maybe r.sleepAt⟩

/-- Three definitions at the addresses 0, 1 and 2. -/
def heapOf (pick : Nat → Option FilterDef) : Heap where
  defs i := match pick i with | none => (default, none) | some d => (d.core, d.poly.map fun _ => i)
  polys i := ((pick i).bind FilterDef.poly).getD default

theorem heapOf_get (pick : Nat → Option FilterDef) {i : Nat} {d : FilterDef} (h : pick i = some d) : (heapOf pick).get i = d := by
  unfold Heap.get heapOf
  simp only [h]
  cases d <;> simp [FilterDef.poly, FilterDef.core, h]

theorem heapOf_like {pick pick' : Nat → Option FilterDef} (h : ∀ i, MaybeLike (pick i) (pick' i)) : (heapOf pick).Like (heapOf pick') := by
  refine ⟨fun i => ?_, fun i => ?_⟩
  · obtain ⟨h1, h2⟩ := h i
    simp only [heapOf]
    cases ha : pick i with
    | none =>
      cases hb : pick' i with
      | none => exact ⟨rfl, CoreWorn.rfl' _⟩
      | some d' => simp [ha, hb] at h1
    | some d =>
      cases hb : pick' i with
      | none => simp [ha, hb] at h1
      | some d' =>
        obtain ⟨k1, k2, -⟩ := h2 _ _ ha hb
        refine ⟨?_, k1⟩
        revert k2
        dsimp only
        cases d.poly <;> cases d'.poly <;> simp
  · obtain ⟨h1, h2⟩ := h i
    simp only [heapOf]
    cases ha : pick i with
    | none =>
      cases hb : pick' i with
      | none => exact ⟨ConLike.rfl' _ _ _, ConLike.rfl' _ _ _⟩
      | some d' => simp [ha, hb] at h1
    | some d =>
      cases hb : pick' i with
      | none => simp [ha, hb] at h1
      | some d' =>
        obtain ⟨-, k2, k3⟩ := h2 _ _ ha hb
        simp only [Option.bind_some]
        cases hx : d.poly with
        | none =>
          cases hy : d'.poly with
          | none => exact ⟨ConLike.rfl' _ _ _, ConLike.rfl' _ _ _⟩
          | some y => simp [hx, hy] at k2
        | some x =>
          cases hy : d'.poly with
          | none => simp [hx, hy] at k2
          | some y => exact k3 _ _ hx hy

theorem OptionsLike.heap {o o' : Options κ} (h : OptionsLike o o') :
    ∃ base : Options κ, ∃ r H H', Heap.Like H H' ∧ o = base.at r H ∧ o' = base.at r H' := by
  obtain ⟨n, w, s, rfl, h1, h2, h3⟩ := h
  let pick : Nat → Option FilterDef := fun i => match i with
    | 0 => o.filter.node | 1 => o.hibernate.wakeAt | 2 => o.hibernate.sleepAt | _ => none
  let pick' : Nat → Option FilterDef := fun i => match i with
    | 0 => n | 1 => w | 2 => s | _ => none
  have hl : (heapOf pick).Like (heapOf pick') := heapOf_like fun i => by
    match i with
    | 0 => exact h1
    | 1 => exact h2
    | 2 => exact h3
    | _ + 3 => exact MaybeLike.rfl' none
  have key : ∀ (i : Nat), (pick i).map (fun _ => (heapOf pick).get i) = pick i := by
    intro i
    cases hp : pick i with
    | none => rfl
    | some d => simp only [Option.map_some, heapOf_get pick hp]
  have key' : ∀ (i : Nat), (pick i).map (fun _ => (heapOf pick').get i) = pick' i := by
    intro i
    have hm : MaybeLike (pick i) (pick' i) := by
      match i with
      | 0 => exact h1
      | 1 => exact h2
      | 2 => exact h3
      | _ + 3 => exact MaybeLike.rfl' none
    cases hp : pick i with
    | none =>
      have := hm.1
      cases hq : pick' i with
      | none => rfl
      | some d => simp [hp, hq] at this
    | some d =>
      have := hm.1
      cases hq : pick' i with
      | none => simp [hp, hq] at this
      | some d' => simp only [Option.map_some, heapOf_get pick' hq]
  refine ⟨o, ⟨o.filter.node.map fun _ => 0, o.hibernate.wakeAt.map fun _ => 1, o.hibernate.sleepAt.map fun _ => 2⟩,
    heapOf pick, heapOf pick', hl, ?_, ?_⟩
  · have k0 : o.filter.node.map (fun _ => (heapOf pick).get 0) = o.filter.node := key 0
    have k1 : o.hibernate.wakeAt.map (fun _ => (heapOf pick).get 1) = o.hibernate.wakeAt := key 1
    have k2 : o.hibernate.sleepAt.map (fun _ => (heapOf pick).get 2) = o.hibernate.sleepAt := key 2
    simp only [Options.at, Option.map_map, Function.comp_def, k0, k1, k2]
  · have k0 : o.filter.node.map (fun _ => (heapOf pick').get 0) = n := key' 0
    have k1 : o.hibernate.wakeAt.map (fun _ => (heapOf pick').get 1) = w := key' 1
    have k2 : o.hibernate.sleepAt.map (fun _ => (heapOf pick').get 2) = s := key' 2
    simp only [Options.at, Option.map_map, Function.comp_def, k0, k1, k2]

theorem OptionsLike.build {o o' : Options κ} (h : OptionsLike o o') (P : Platform κ) (sub : Subscription) (resume : Option Strategy) :
    (buildRest P sub resume o').undefined = (buildRest P sub resume o).undefined := by
  obtain ⟨base, r, H, H', hl, rfl, rfl⟩ := h.heap
  exact buildRest_like P sub resume r base hl

theorem OptionsLike.apply {o o' : Options κ} (h : OptionsLike o o') (P : Platform κ) (v : With κ) :
    OptionsLike (v.apply P o) (v.apply P o') := by
  obtain ⟨n, w, s, rfl, h1, h2, h3⟩ := h
  cases v
  case filter f k => exact ⟨f.node, w, s, rfl, MaybeLike.rfl' _, h2, h3⟩
  case filterWake d => exact ⟨n, d, s, rfl, h1, MaybeLike.rfl' _, h3⟩
  case filterSleep d => exact ⟨n, w, d, rfl, h1, h2, MaybeLike.rfl' _⟩
  case hibernation x => exact ⟨n, x.wakeAt, x.sleepAt, rfl, h1, MaybeLike.rfl' _, MaybeLike.rfl' _⟩
  all_goals exact ⟨n, w, s, rfl, h1, h2, h3⟩

theorem applyAll_withs (P : Platform κ) (ws : List (With κ)) (o : Options κ) :
    applyAll (ws.map (With.setting P)) o = (ws.foldl (fun o w => w.apply P o) o, none) := by
  induction ws generalizing o with
  | nil => rfl
  | cons w ws ih => simp only [List.map_cons, applyAll, With.setting, List.foldl_cons]; exact ih _

theorem OptionsLike.fold {o o' : Options κ} (h : OptionsLike o o') (P : Platform κ) (ws : List (With κ)) :
    OptionsLike (ws.foldl (fun o w => w.apply P o) o) (ws.foldl (fun o w => w.apply P o) o') := by
  induction ws generalizing o o' with
  | nil => exact h
  | cons w ws ih => exact ih (h.apply P w)

theorem OptionsLike.rebind {o o' : Options κ} (h : OptionsLike o o') : OptionsLike o.rebind o'.rebind := by
  obtain ⟨n, w, s, rfl, h1, h2, h3⟩ := h
  exact ⟨n, w, s, rfl, h1, h2, h3⟩

theorem OptionsLike.afterwards {o o' : Options κ} (h : OptionsLike o o') : OptionsLike o.afterwards o'.afterwards := by
  obtain ⟨n, w, s, rfl, h1, h2, h3⟩ := h
  exact ⟨n, w, s, rfl, h1, h2, h3⟩

theorem ofJ_toJ_def (d : FilterDef) : d.toJ.ofJ = d := by
  induction d with
  | plain c => rfl
  | both c f g hf hg => simp only [FilterDef.toJ, JFilterDef.ofJ, hf, hg]; rfl

theorem ofJ_toJ_maybe (d : Option FilterDef) : (d.map FilterDef.toJ).map JFilterDef.ofJ = d := by
  cases d with
  | none => rfl
  | some d => simp only [Option.map_some, ofJ_toJ_def]

theorem OptionsLike.persisted {o o' : Options κ} (h : OptionsLike o o') (P : Platform κ) :
    OptionsLike (fromJSON P (toJSON o)) (fromJSON P (toJSON o')) := by
  obtain ⟨n, w, s, rfl, h1, h2, h3⟩ := h
  refine ⟨n, w, s, ?_, ?_, ?_, ?_⟩
  · simp only [fromJSON, toJSON, ofJ_toJ_maybe]
  all_goals simp only [fromJSON, toJSON, ofJ_toJ_maybe]; assumption

end Traverse
