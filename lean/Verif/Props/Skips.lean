import Verif.Props.Api
import Verif.Proofs.Skips
import Verif.Proofs.Nav2
/-
C16 for whole sessions and every subscription: a skip handler that answers by the path.
-/
namespace Traverse

/-- **C16** (partial). A session whose skip handler answers by the path (never with an error), and the same session with the default
one, both with handlers that return nil: Navigate returns nil, and the handler is shown, in the same order and with the same data,
exactly the nodes of the second session that have no directory above them for which the answer was SkipDir or SkipAll (for the
Directories subscriptions: SkipAll). With SkipNone answers only, nothing changes. Missing, because false: SkipAll should end the
traversal; the Directories subscriptions ignore SkipDir. -/
theorem C16_session_partial (P : Platform κ) (u : Using κ) (settings settings₀ : List (Option (Setting κ))) (disk : Disk)
    (o o₀ : Options κ) (h h₀ : κ → Parcel → κ × Reply) (pre : Path) (fs : FS)
    (hp : Primed P u settings disk o h pre fs) (hp₀ : Primed P { u with handler := some h₀ } settings₀ disk o₀ h₀ pre fs)
    (hu₀ : o₀.Usual) (hhooks : o₀.hooks = o.hooks) (hbeh : o₀.behaviours = o.behaviours)
    (ans : Path → Skip) (hans : ∀ k n re, (o.defects.skip k n re).2 = (ans n.path, none))
    (hdistinct : fs.Distinct) (hnil : Handler.Nil h) (hnil₀ : Handler.Nil h₀) (x x' : κ) :
    let rep := walkPrime P (.using u) settings disk x
    let all := walkPrime P (.using { u with handler := some h₀ }) settings₀ disk x'
    rep.verdict = .done none ∧
    (∀ ok : Node → Bool,
      (∀ n, ok n = true ↔ ∀ p, u.tree <+: p → Above p n.path →
        ans p = .none ∨ ((u.sub = .directories ∨ u.sub = .directoriesWithFiles) ∧ ans p ≠ .all)) →
      rep.nodes = all.nodes.filter ok) ∧
    ((∀ p, ans p = .none) → rep.nodes = all.nodes) := by
  have hnav : o₀.afterwards.nav u.sub = o.afterwards.nav u.sub := by
    simp only [Options.nav, Nav.mk.injEq, true_and]
    refine ⟨?_, ?_, ?_, ?_⟩
    · show o₀.behaviours.sortFilesFirst = _; rw [hbeh]; rfl
    · show o₀.behaviours.cascade.afterwards.depth = _; rw [hbeh]; rfl
    · show (fun l e => o₀.hooks.readDirectory.invoke (l, e)) = _; rw [hhooks]; rfl
    · show o₀.hooks.sort.invoke = _; rw [hhooks]; rfl
  obtain ⟨y', tree', -, -, h3', -⟩ := primed_walk hp₀ x'
  obtain ⟨y, tree, h1, -, h3, -⟩ := primed_walk hp x
  intro rep all
  have hsort := usual_sort hu₀ u.sub
  have hread := usual_read hu₀ u.sub
  have hsel := defaultRead_selects _ hread
  have hacc := (walk_accepting (o₀.afterwards.nav u.sub) (bareEnv (primedSetup o₀ u.sub) (o₀.client h₀) tree')
    ((primedSetup o₀ u.sub).world y' (fun _ => none)) pre fs hsort hsel (bare_nil _ _ hnil₀) (usual_skip hu₀ _ _) hdistinct (fun _ => hread)).1
  have hall : all.nodes = _ := h3'.trans hacc
  rw [hnav] at hsort hread hsel hall
  have hsub : (o.afterwards.nav u.sub).sub = u.sub := rfl
  rw [hsub] at hall
  have hfrom := walk_from (o.afterwards.nav u.sub) (bareEnv (primedSetup o u.sub) (o.client h) tree)
    ((primedSetup o u.sub).world y (fun _ => none)) pre fs
  obtain ⟨r1, r2⟩ := (walk_run (o.afterwards.nav u.sub) (bareEnv (primedSetup o u.sub) (o.client h) tree)
    ((primedSetup o u.sub).world y (fun _ => none)) pre fs).skipping ans
    (by
      intro n r hm
      obtain ⟨z, hz⟩ := hfrom _ (mem_acts hm)
      rw [← hz]; exact bare_nil _ _ hnil z n)
    (by
      intro n re sk e hm
      obtain ⟨z, hz⟩ := hfrom _ (mem_acts hm)
      have := hans z.client n re
      have hz' : (o.defects.skip z.client n re).2 = (sk, e) := hz
      rw [hz'] at this
      cases this; exact ⟨rfl, rfl⟩)
    (fun _ => items0_shut _ hsort hread fs hdistinct _ _ _)
    (fun _ => items_leaf _ _ (prep_wf _ hsort hsel fs) (prep_distinct _ hsort hsel fs hdistinct) _ _ _)
    (items_preOrder _ _ (prep_distinct _ hsort hsel fs hdistinct) _ _ _)
    (items_root _ _ _ _ _)
  rw [invoked_acts] at r1
  have hrep : rep.nodes = _ := h3.trans r1
  rw [hsub, ← hall] at hrep
  have hcuts : ∀ p, cuts u.sub (ans p) = false ↔
      (ans p = .none ∨ ((u.sub = .directories ∨ u.sub = .directoriesWithFiles) ∧ ans p ≠ .all)) := by
    intro p
    cases u.sub <;> cases ans p <;> simp [cuts]
  have hmain : ∀ ok : Node → Bool,
      (∀ n, ok n = true ↔ ∀ p, u.tree <+: p → Above p n.path →
        ans p = .none ∨ ((u.sub = .directories ∨ u.sub = .directoriesWithFiles) ∧ ans p ≠ .all)) →
      rep.nodes = all.nodes.filter ok := by
    intro ok hok
    rw [hrep]
    refine List.filter_congr fun m hm => ?_
    rw [hall] at hm
    obtain ⟨it, hit, rfl⟩ := List.mem_map.1 (List.mem_filter.1 hm).1
    rw [Bool.eq_iff_iff, hok]
    simp only [uncut, decide_eq_true_eq, List.mem_map]
    have htree : u.tree = pre ++ [(prep (o.afterwards.nav u.sub) fs).name] := by
      rw [hp.tree, (prep_entry _ fs).1]
    constructor
    · intro hu p hpt hab
      obtain ⟨i, hi, rfl⟩ := items_ancestor _ _ _ _ _ it hit p (htree ▸ hpt) hab.1
      rw [← hcuts]
      cases hc : cuts u.sub (ans i.node.path) with
      | false => rfl
      | true => exact absurd hab (hu _ ⟨i, hi, rfl⟩ hc)
    · rintro hu p ⟨i, hi, rfl⟩ hc hab
      have := (hcuts _).2 (hu i.node.path (by rw [htree]; exact (items_path _ _ _ _ _ i hi).1) hab)
      rw [this] at hc; cases hc
  refine ⟨?_, hmain, fun hn => ?_⟩
  · rw [show rep.verdict = _ from h1, r2]; rfl
  · have := hmain (fun _ => true) (fun n => ⟨fun _ p _ _ => .inl (hn p), fun _ => rfl⟩)
    rw [this, List.filter_eq_self.2 fun _ _ => rfl]

/-- Not vacuous: a session with a skip handler, and what its client is shown. -/
example :
    let P := sortPlatform
    let ask (ans : Path → Skip) : Nat → Node → Option Err → Nat × Skip × Option Err := fun k n _ => (k, ans n.path, none)
    let at' (q : Path) (s : Skip) : Path → Skip := fun p => if p = q then s else .none
    let u (sub) : Using Nat := { toyUsing sub with handler := some (Demo.byPath fun _ => .ok none) }
    let shown (sub) (ans) := (walkPrime P (.using (u sub)) (settingsOf P [some (.skipHandler (ask ans))]) (diskOf [] Demo.fs) 0).nodes.map fun n => n.path
    (∀ sub ans, sub ≠ .undefined → ∃ o, Primed P (u sub) (settingsOf P [some (.skipHandler (ask ans))]) (diskOf [] Demo.fs) o
        (Demo.byPath fun _ => .ok none) [] Demo.fs ∧
      Primed P (u sub) [] (diskOf [] Demo.fs) (defaultOptions P) (Demo.byPath fun _ => .ok none) [] Demo.fs ∧
      (defaultOptions P).Usual ∧ (defaultOptions P).hooks = o.hooks ∧ (defaultOptions P).behaviours = o.behaviours ∧
      ∀ k n re, (o.defects.skip k n re).2 = (ans n.path, none)) ∧
    Demo.fs.Distinct ∧ Handler.Nil (Demo.byPath fun _ => .ok none) ∧
    shown .universal (at' ["r", "a"] .dir) = [["r"], ["r", "a"], ["r", "c"], ["r", "c", "w"], ["r", "f"], ["r", "g"]] ∧
    shown .files (at' ["r", "a"] .all) = [["r", "c", "w"], ["r", "f"], ["r", "g"]] ∧
    shown .directories (at' ["r", "a"] .dir) = [["r"], ["r", "a"], ["r", "a", "b"], ["r", "c"]] ∧
    shown .directories (at' ["r", "a"] .all) = [["r"], ["r", "a"], ["r", "c"]] := by
  refine ⟨fun sub ans hs => ⟨{ defaultOptions sortPlatform with defects := { (defaultOptions sortPlatform).defects with
      skip := fun k n _ => (k, ans n.path, none) } }, ?_, ?_, Demo.usual _, rfl, rfl, fun _ _ _ => rfl⟩, Demo.distinct, fun _ _ => rfl, ?_⟩
  · have hd := Demo.primed sub hs (defaultOptions sortPlatform).behaviours [] _ Demo.distinct rfl rfl (Demo.byPath fun _ => .ok none)
    exact ⟨rfl, rfl, ⟨rfl, rfl, rfl, rfl, rfl, rfl, rfl⟩, hs, rfl, hd.tree, hd.disk, fun _ => rfl⟩
  · exact Demo.primed sub hs _ _ _ Demo.distinct rfl rfl _
  · decide +kernel

end Traverse
