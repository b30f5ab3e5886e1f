import Verif.Props.Resumed
/-
The directories on the way from the place a session was saved in up to the root: a spawn resume lists each of them.
-/
namespace Traverse
variable {κ σ : Type}

/-- Listing `p` fails with `e`: it is not there, cannot be read or is no directory. -/
def Disk.Unreadable (disk : Disk) (p : Path) (e : Err) : Prop :=
  disk p = .error e ∨ (∃ n i kids, disk p = .ok (.dir n i (some e) kids)) ∨ ∃ n i, disk p = .ok (.file n i (some e))

theorem following_unreadable {c : Nav} (hread : ∀ l e, (c.read l (some e)).2 = some e) {disk : Disk} {p : Path} {e : Err} (h : disk.Unreadable p e)
    (anchor : String) (incl : Bool) : following c disk p anchor incl = .error e := by
  have hl : (disk.list p).2 = some e := by
    rcases h with h | ⟨n, i, kids, h⟩ | ⟨n, i, h⟩ <;> simp only [Disk.list, h]
  unfold following
  rw [hl]
  have := hread (prepList c (disk.list p).1) e
  rcases hr : c.read (prepList c (disk.list p).1) (some e) with ⟨ents, _ | e'⟩
  · rw [hr] at this; cases this
  · rw [hr] at this; cases this; rfl

theorem crown_ways {c : Nav} (hread : ∀ l e, (c.read l (some e)).2 = some e) (env : Env σ) (fault : σ → Path → Err → σ × Option Err)
    (stat : Path → RootStat) (disk : Disk) (tree : Path) : ∀ (rcur : List String) (incl : Bool) (s : St σ),
    (crown c env fault stat disk tree rcur incl s).1 = .done none →
    ∀ p e, tree <+: p → p <+: rcur.reverse → p ≠ rcur.reverse → ¬ disk.Unreadable p e
  | [], incl, s => by
    intro _ p e _ h1 h2
    exact absurd (List.prefix_nil.1 h1) h2
  | child :: rparent, incl, s => by
    intro hv p e ht h1 h2 hu
    rw [crown] at hv
    split at hv
    · rename_i h
      rw [h] at h1 h2
      exact h2 (h1.eq_of_length (Nat.le_antisymm h1.length_le ht.length_le))
    · have h1' : p <+: rparent.reverse := by
        rw [List.reverse_cons] at h1 h2
        rcases List.prefix_concat_iff.1 h1 with h | h
        · exact absurd h h2
        · exact h
      by_cases hp : p = rparent.reverse
      · subst hp
        rw [following_unreadable hread hu] at hv
        cases hv
      · rcases hf : following c disk rparent.reverse child incl with e' | names
        · rw [hf] at hv; cases hv
        · rw [hf] at hv
          simp only at hv
          rcases hs : seed c env fault stat rparent.reverse names s with ⟨_ | _, s'⟩
          · rename_i oe
            rw [hs] at hv
            cases oe with
            | none => exact crown_ways hread env fault stat disk tree rparent false s' hv p e ht h1' hp hu
            | some _ => cases hv
          · rw [hs] at hv; cases hv

section
variable (P : Platform κ) (r : Relic κ) (settings : List (Option (Setting κ))) (files : String → Except Err Json) (disk : Disk)
  (S : Setup) (o : Options κ) (h : κ → Parcel → κ × Reply) (a : Active)

/-- **C12** (spawn) If Navigate returns nil, every directory between the place the session was saved in and the root could be listed. -/
theorem C12_resumed_ways (hr : Resumed P r settings files S o h a) (hs : r.strategy = .spawn)
    (hread : ∀ l e, (o.hooks.readDirectory.invoke (l, some e)).2 = some e) (x : κ) :
    (walkResume P (.relic r) settings files disk x).verdict = .done none →
      ∀ p e, a.tree <+: p → p <+: a.currentPath → p ≠ a.currentPath → ¬ disk.Unreadable p e := by
  intro hv p e h1 h2 h3
  obtain ⟨f1, -, -, -⟩ := resumed_facts (disk := disk) hr x
  rw [f1, hs] at hv
  have hn : ∀ l e, (S.nav.read l (some e)).2 = some e := by rw [hr.setup.2]; exact hread
  exact crown_ways hn _ _ _ disk a.tree a.currentPath.reverse true _ (final_verdict.1 hv) p e h1 (by simpa using h2) (by simpa using h3)

/-- **C20** (spawn) If the directory that holds the place the session was saved in cannot be listed, Navigate returns the reason, and no handler is called. -/
theorem C20_unreadable (hr : Resumed P r settings files S o h a) (hs : r.strategy = .spawn)
    (hread : ∀ l e, (o.hooks.readDirectory.invoke (l, some e)).2 = some e) (x : κ)
    (p : Path) (n : String) (e : Err) (hcur : a.currentPath = p ++ [n]) (ht : a.tree ≠ a.currentPath) (hu : disk.Unreadable p e) :
    let rep := walkResume P (.relic r) settings files disk x
    rep.verdict = .done (some e) ∧ rep.answers = [] := by
  intro rep
  obtain ⟨f1, f2, -, -⟩ := resumed_facts (disk := disk) hr x
  have hn : ∀ l e, (S.nav.read l (some e)).2 = some e := by rw [hr.setup.2]; exact hread
  have hrun : resumeRun S o (o.client h) disk r.strategy a (startWorld S (o.client h) r.strategy a x) =
      (.done (some e), false, ⟨a.depth, startWorld S (o.client h) r.strategy a x, []⟩) := by
    rw [hs, resumeRun, hcur, List.reverse_append, List.reverse_singleton, List.singleton_append, crown, if_neg, List.reverse_reverse,
      following_unreadable hn hu]
    simp only [List.reverse_cons, List.reverse_reverse]
    rw [← hcur]
    exact fun h => ht h.symm
  rw [hrun] at f1 f2
  refine ⟨f1, ?_⟩
  show List.map _ rep.hits = []
  rw [show rep.hits = _ from f2]
  simp [startWorld, Setup.world]

/-- **C14** (fastward) The tree cannot be stat'ed any more when its session is resumed: the fault handler is asked once, with path and
error; its answer is what Navigate returns; no other callback of the client is called (everything is muted: not even for Begin and End). -/
theorem C14_resumed (hr : Resumed P r settings files S o h a) (hs : r.strategy = .fastward) (e : Err)
    (he : o.hooks.queryStatus.invoke (disk a.tree) = .error e) (x : κ) :
    let rep := walkResume P (.relic r) settings files disk x
    let answer := o.defects.fault x a.tree e
    rep.verdict = .done answer.2 ∧ rep.answers = [] ∧ rep.tape = [] ∧ rep.client = answer.1 := by
  intro rep answer
  obtain ⟨o₀, hpl, hb⟩ := hr.built
  have hst : statOf S.nav o disk a.tree = .error e := by simp only [statOf, he]
  have hmut : ∀ y m n, (S.world (κ := κ) y m).muted n = true := by
    intro y m n; simp [Setup.world, hr.setup.1, hs]
  rw [hs] at hb
  simp only [rep, walkResume, hpl, hs, hb, Built.resume, resumeRun, runTop, hst, top, World.publish, Note.ev, hmut, Options.fault, if_true]
  refine ⟨rfl, rfl, ?_, rfl⟩
  simp [Setup.world]
end

/-- Not vacuous: the demo session saved in /r/a/b, with /r/a or with /r unreadable, or neither. -/
def Demo.locked (ra rr : Option Err) : FS :=
  .dir "r" none rr [.dir "a" none ra [.dir "b" none none [.file "y" none none], .file "x" none none], .file "f" none none]

example :
    let go (ra rr) := walkResume sortPlatform (.relic (Demo.relic .spawn Demo.quiet)) [] (Demo.saved ["r", "a", "b"] .universal) (diskOf [] (Demo.locked ra rr)) 0
    (go none none).verdict = .done none ∧ (go none none).nodes.map (fun n => n.path) = [["r", "a", "b"], ["r", "a", "b", "y"], ["r", "a", "x"], ["r", "f"]] ∧
    (go (some (.code 5)) none).verdict = .done (some (.code 5)) ∧ (go (some (.code 5)) none).nodes = [] ∧
    (go none (some (.code 6))).verdict = .done (some (.code 6)) ∧
    (go none (some (.code 6))).nodes.map (fun n => n.path) = [["r", "a", "b"], ["r", "a", "b", "y"], ["r", "a", "x"]] := by
  decide +kernel

example (ra rr : Option Err) : ∃ S o, let a := (savedAt ["r"] ["r", "a", "b"] .universal).active
    Resumed sortPlatform (Demo.relic .spawn Demo.quiet) [] (Demo.saved ["r", "a", "b"] .universal) S o (Demo.byPath Demo.quiet) a ∧
    (∀ l e, (o.hooks.readDirectory.invoke (l, some e)).2 = some e) ∧ a.tree ≠ a.currentPath ∧ a.currentPath = ["r", "a"] ++ ["b"] ∧
    (∀ e, ra = some e → (diskOf [] (Demo.locked ra rr)).Unreadable ["r", "a"] e) := by
  obtain ⟨doc, h1, h2⟩ := roundTrip sortPlatform (defaultOptions sortPlatform) (savedAt ["r"] ["r", "a", "b"] .universal)
  have hf : Demo.saved ["r", "a", "b"] .universal (Demo.relic .spawn Demo.quiet).from = .ok doc := by simp only [Demo.saved, savedFile, h1]
  refine ⟨_, _, ⟨rfl, _, by rw [hf, resumePlatform, h2]; rfl, rfl⟩, fun _ _ => rfl, by decide +kernel, by decide +kernel, ?_⟩
  rintro e rfl
  exact .inr (.inl ⟨_, _, _, rfl⟩)

/-- Not vacuous: the tree of a saved session is gone, with the default fault handler. -/
example :
    let rep := walkResume sortPlatform (.relic (Demo.relic .fastward Demo.quiet)) [] (Demo.saved ["r", "a", "b"] .universal) (fun _ => .error (.code 2)) 0
    rep.verdict = .done (some (.code 2)) ∧ rep.nodes = [] ∧ rep.tape = [] := by
  decide +kernel

example : ∃ S o, let a := (savedAt ["r"] ["r", "a", "b"] .universal).active
    Resumed sortPlatform (Demo.relic .fastward Demo.quiet) [] (Demo.saved ["r", "a", "b"] .universal) S o (Demo.byPath Demo.quiet) a ∧
    o.hooks.queryStatus.invoke (.error (.code 2)) = .error (.code 2) := by
  obtain ⟨doc, h1, h2⟩ := roundTrip sortPlatform (defaultOptions sortPlatform) (savedAt ["r"] ["r", "a", "b"] .universal)
  have hf : Demo.saved ["r", "a", "b"] .universal (Demo.relic .fastward Demo.quiet).from = .ok doc := by simp only [Demo.saved, savedFile, h1]
  exact ⟨_, _, ⟨rfl, _, by rw [hf, resumePlatform, h2]; rfl, rfl⟩, rfl⟩

end Traverse
