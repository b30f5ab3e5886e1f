import Verif.Proofs.Parents
import Verif.Props.Metrics
import Verif.Props.Filter
/-
C18: the content of the state saved after a panic.
-/
namespace Traverse
variable {κ : Type}

/-- The rescues of a history: the node whose entries were being travelled, and the depth. -/
def rescues (l : List Ev) : List (NodeInfo × Int) := l.filterMap fun | .rescue n d _ => some (n, d) | _ => none

structure SaveInv (S : Setup) (tree : Path) (s : St (World κ)) : Prop where
  saves : s.ext.saves.map (fun a => (a.tree, a.sub, a.currentPath, a.isDir, a.depth)) =
    (rescues s.log).map (fun r => (tree, S.nav.sub, r.1.path, r.1.isDir, r.2))
  last : ∀ a, s.ext.saves.getLast? = some a → ∀ es n d r, acts s.log = es ++ [.rescue n d r] →
    a.metrics = s.ext.metrics.persisted

theorem invoke_saves (S : Setup) (C : Client κ) (target) (w : World κ) (n) :
    (World.invoke S C target w n).1.saves = w.saves := by
  refine invoke_inv (Q := fun v => v.saves = w.saves) (linkOf_inv ?_ ?_ ?_ ?_ ?_) ?_ ?_ w n rfl
  · intro w p h; exact h
  · intro w n h; simpa using h
  · intro w b h; exact h
  · intro w k n _ _ h; exact h
  · intro w g m h; exact h
  · intro w g h; exact h
  · intro w st h; exact h

theorem saveInv_preserved (S : Setup) (C : Client κ) (tree target : Path) : Preserved (S.env C tree target) (SaveInv S tree) := by
  refine ⟨?_, ?_, ?_, ?_, ?_⟩
  · intro s p d h
    refine ⟨?_, ?_⟩
    · simpa [St.doDescend, Setup.env, rescues] using h.saves
    · simpa [St.doDescend, Setup.env, acts, Ev.isAct] using h.last
  · intro s p d h
    refine ⟨?_, ?_⟩
    · simpa [St.doAscend, Setup.env, rescues] using h.saves
    · simpa [St.doAscend, Setup.env, acts, Ev.isAct] using h.last
  · intro s n h
    refine ⟨?_, ?_⟩
    · simpa [St.doInvoke, Setup.env, rescues, invoke_saves] using h.saves
    · intro a _ es m d r he
      simp only [St.doInvoke, acts, List.filter_append] at he
      have := congrArg List.getLast? he
      simp [Ev.isAct] at this
  · intro s n re h
    refine ⟨?_, ?_⟩
    · simpa [St.doAsk, Setup.env, rescues] using h.saves
    · intro a _ es m d r he
      simp only [St.doAsk, acts, List.filter_append] at he
      have := congrArg List.getLast? he
      simp [Ev.isAct] at this
  · intro s n h
    refine ⟨?_, ?_⟩
    · simp only [St.doRescue, Setup.env, List.map_append, h.saves, rescues, List.filterMap_append]
      simp
    · intro a ha es m d r he
      simp only [St.doRescue, Setup.env, List.getLast?_append, List.getLast?_singleton, Option.some_or] at ha
      cases ha
      rfl

theorem saveInv_session (S : Setup) (C : Client κ) (x : κ) (carried : Metrics) (target pre : Path) (fs : FS) :
    SaveInv S (pre ++ [fs.name]) (S.session C x carried target pre fs).2 :=
  traverse_inv (saveInv_preserved S C _ target) S.nav _ [] pre _
    ⟨by simp [St.fresh, Setup.world, rescues], by simp [St.fresh, Setup.world]⟩

theorem rescues_acts (l : List Ev) : rescues l = rescues (acts l) := by
  induction l with
  | nil => rfl
  | cons e l ih => cases e <;> simp_all [rescues, acts, Ev.isAct, List.filter_cons]

/-- C18. Any setup, any panic below the root while a node was being processed (see `C18_handler_panic`): exactly one
state is given to the panic handler; it names the original tree root, the subscription, the directory that contains
the node (which is the node's Parent), that directory's depth, and metrics whose invocation counters count every
handler call made, the panicking one included (every call, since nothing is called after it, C17); the child
counter is the current one as well. -/
theorem C18_saved_state (S : Setup) (C : Client κ) (x : κ) (carried : Metrics) (target pre : Path) (fs : FS)
    (hsort : SortPermutes S.nav) (hread : ReadSelects S.nav) (n : Node)
    (hcall : (n, .panic) ∈ calls (S.session C x carried target pre fs).2.log) (hroot : n.path ≠ pre ++ [fs.name]) :
    let w := (S.session C x carried target pre fs).2.ext
    ∃ a parent, w.saves = [a] ∧ n.parent = some parent ∧ a.tree = pre ++ [fs.name] ∧ a.sub = S.nav.sub ∧
      a.currentPath = n.path.dropLast ∧ a.currentPath = parent.path ∧ a.isDir = true ∧
      a.depth = parent.depth ∧ (a.depth : Int) = (a.currentPath.length : Int) - (pre.length + 1) ∧
      (∀ d, a.metrics.count (invokedMetric d) = carried.count (invokedMetric d) + ofKind d w.called) ∧
      a.metrics.count .childFound = w.metrics.count .childFound := by
  intro w
  have hcall' : (n, .panic) ∈ calls (walk S.nav (S.env C (pre ++ [fs.name]) target) (S.world x carried) pre fs).2.log := hcall
  obtain ⟨before, cur, r, hacts, hno, _, hpar, _⟩ := C17_panic_rescued_partial S.nav _ _ pre fs n hcall' hroot
  have hinv := saveInv_session S C x carried target pre fs
  have hres : rescues (S.session C x carried target pre fs).2.log = [(cur, n.depth - 1)] := by
    have h1 : ∀ l : List Ev, rescues l = rescues (acts l) := by
      intro l
      induction l with
      | nil => rfl
      | cons e l ih => cases e <;> simp_all [rescues, acts, Ev.isAct, List.filter_cons]
    rw [h1]
    show rescues (acts (walk S.nav _ _ pre fs).2.log) = _
    rw [hacts]
    have h2 : rescues before = [] := by
      unfold rescues
      rw [List.filterMap_eq_nil_iff]
      intro e he
      cases e with
      | rescue m d r => exact absurd he (hno m d r)
      | _ => rfl
    unfold rescues at h2 ⊢
    rw [List.filterMap_append, h2]; rfl
  have hsv := hinv.saves
  rw [hres] at hsv
  have hlen : w.saves.length = 1 := by
    have := congrArg List.length hsv; simpa using this
  obtain ⟨a, ha⟩ := List.length_eq_one_iff.1 hlen
  have ha' : (S.session C x carried target pre fs).2.ext.saves = [a] := ha
  rw [ha'] at hsv
  simp only [List.map_cons, List.map_nil, List.cons.injEq, Prod.mk.injEq, and_true] at hsv
  obtain ⟨e1, e2, e3, e4, e5⟩ := hsv
  have hmet : a.metrics = w.metrics.persisted :=
    hinv.last a (by rw [ha']; rfl) (before ++ [.invoke n .panic]) cur (n.depth - 1) r (by
      show acts (walk S.nav _ _ pre fs).2.log = _
      rw [hacts]; simp)
  -- the parent
  have hm : n ∈ invoked (walk S.nav (S.env C (pre ++ [fs.name]) target) (S.world x carried) pre fs).2.log :=
    List.mem_map.2 ⟨_, hcall', rfl⟩
  have hs := (walk_run S.nav (S.env C (pre ++ [fs.name]) target) (S.world x carried) pre fs).sublist
  rw [invoked_acts] at hs
  obtain ⟨it, hit, rfl⟩ := List.mem_map.1 (hs.subset hm)
  obtain ⟨p1, p2⟩ := items_path S.nav _ [] pre 0 it hit
  rw [(prep_entry S.nav fs).1] at p1
  have hd : (0 : Int) < it.node.depth := by
    have hl := p1.length_le
    simp at hl
    rcases Int.lt_or_le 0 it.node.depth with h | h
    · exact h
    · exfalso
      exact hroot (p1.eq_of_length (by simp; omega)).symm
  obtain ⟨q, q1, q2, q3, q4⟩ := items_parent S.nav _ (prep_wf S.nav hsort hread fs) [] pre 0 it hit hd
  rw [q1] at hpar
  have hq : q = cur := Option.some.inj hpar
  subst hq
  refine ⟨a, q, ha, q1, e1, e2, by rw [e3, q2], e3, by rw [e4, q4], by rw [e5, q3], ?_, ?_, ?_⟩
  · rw [e5, e3, q2, List.length_dropLast]
    have hl := p1.length_le
    simp at hl
    omega
  · intro d
    have h13 := (C13_invocation_metrics S C x carried target pre fs).1 d
    rw [← h13, hmet]
    cases d <;> rfl
  · rw [hmet]; rfl

/-- When a handler call panics, the chain does. -/
theorem C18_handler_panic (S : Setup) (ho : S.Ordinary) (hs : S.Sane) (C : Client κ) (x : κ) (carried : Metrics)
    (target pre : Path) (fs : FS) (hit : Hit) (hmem : hit ∈ (S.session C x carried target pre fs).2.ext.hits) :
    (hit.parcel.node, hit.reply) ∈ calls (S.session C x carried target pre fs).2.log := by
  revert hit
  refine plain_session_inv ho hs C x carried target pre fs
    (Q := fun w l => ∀ hit ∈ w.hits, (hit.parcel.node, hit.reply) ∈ l) ?_ ?_ ?_ ?_
  · intro h hm; simp [Setup.world] at hm
  · intro w l n h; simpa using h
  · intro w l k sv h; exact h
  · intro s n rep w' hI hn hp h hit hm
    rw [hp.hits] at hm
    rcases List.mem_append.1 hm with hm | hm
    · exact List.mem_append_left _ (h hit hm)
    · split at hm
      · simp only [List.mem_singleton] at hm; subst hm; simp
      · cases hm

/-- Not vacuous: a panic at r/a/b, reached after five calls (one file, four directories, filter active). -/
example :
    let S : Setup := { nav := Demo.nav .universal, filter := { primary := some (.node fun n => n.name != "x") } }
    let w := (S.session (Demo.client (Demo.at_ ["r", "a", "b"] .panic)) () (fun _ => none) [] [] Demo.fs).2.ext
    w.saves.map (fun a => (a.tree, a.sub, a.currentPath, a.isDir, a.depth)) =
      [(["r"], .universal, ["r", "a"], true, 1)] ∧
    w.saves.map (fun a => (a.metrics .filesInvoked, a.metrics .dirsInvoked, a.metrics .filesFilteredOut)) =
      [(some 1, some 4, none)] := by
  decide +kernel

end Traverse
