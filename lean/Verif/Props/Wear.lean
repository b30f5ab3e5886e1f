import Verif.Proofs.Wear2
import Verif.Props.Persist
import Verif.Props.Spawn
/-
C70: filter definitions are held by pointer, and building a session changes some of them in place.
-/
namespace Traverse
variable {κ : Type}

/-- **C70** Whatever sessions `us` were built before from the definitions in memory - the same options object, other options that
share some of its definitions, definitions that share a Poly -, a session whose options are those given, their pointers `refs`
pointing into that memory, does what it does when it is the first to use them: walkPrime takes its definitions as they were at the
beginning. -/
theorem C70_again (P : Platform κ) (u : Using κ) (settings : List (Option (Setting κ))) (o : Options κ) (refs : Refs) (H : Heap)
    (us : List (Use κ)) (disk : Disk) (x : κ)
    (ho : primaryPlatform P (.using u) settings = (o, none))
    (hr : o.filter.node = refs.node.map H.get ∧ o.hibernate.wakeAt = refs.wakeAt.map H.get ∧ o.hibernate.sleepAt = refs.sleepAt.map H.get) :
    (buildRestIn P u.sub none refs o.afterwards (H.after P us)).1.navigate (u.handler.getD (fun k _ => (k, .ok none))) disk u.tree x =
      walkPrime P (.using u) settings disk x := by
  have e : o.afterwards.at refs H = o.afterwards := by
    obtain ⟨h1, h2, h3⟩ := hr
    have e' : o.at refs H = o := by simp only [Options.at, ← h1, ← h2, ← h3]
    exact congrArg Options.afterwards e'
  rw [← navigate_undefined, (buildRestIn_spec P u.sub none refs o.afterwards _).1,
    buildRest_like P u.sub none refs o.afterwards (after_like P us H), e, navigate_undefined]
  simp only [walkPrime, buildPrimary, ho]

/-- **C70, options as such.** The same of an options object that is used for a session of any kind, resumed ones included. -/
theorem C70_options (P : Platform κ) (H : Heap) (us : List (Use κ)) (v : Use κ) :
    let first := buildRest P v.sub v.resume (v.o.at v.refs H)
    let later := (buildRestIn P v.sub v.resume v.refs v.o (H.after P us)).1
    (∀ h disk tree x, later.navigate h disk tree x = first.navigate h disk tree x) ∧
    ∀ s h disk a x, later.resume s h disk a x = first.resume s h disk a x := by
  have e := (buildRestIn_spec P v.sub v.resume v.refs v.o (H.after P us)).1.trans
    (buildRest_like P v.sub v.resume v.refs v.o (after_like P us H))
  refine ⟨fun h disk tree x => ?_, fun s h disk a x => ?_⟩
  · rw [← navigate_undefined, e, navigate_undefined]
  · rw [← resume_undefined, e, resume_undefined]

/-- **C70, what is changed.** Of the definitions only scopes are ever changed. Of a definition itself only if it is an extended
glob, and then to that of files; of the two parts of a poly definition, unless they are extended globs, only as to files and
directories: nothing is left of the other kind, and the rest of the scope is as it was. -/
theorem C70_touched (P : Platform κ) (H : Heap) (us : List (Use κ)) :
    let H' := H.after P us
    (∀ a, (H'.defs a).2 = (H.defs a).2 ∧
      ((H'.defs a).1 = (H.defs a).1 ∨ (H.defs a).1.type = .globEx ∧ (H'.defs a).1 = { (H.defs a).1 with scope := Scope.file })) ∧
    ∀ p,
      let same (plus minus : Scope) (d d' : FilterDef) := d'.poly = d.poly ∧ d'.core = { d.core with scope := d'.core.scope } ∧
        (d.core.type ≠ .globEx → d'.core.scope ||| (plus ||| minus) = d.core.scope ||| (plus ||| minus))
      same Scope.file Scope.directory (H.polys p).1 (H'.polys p).1 ∧ same Scope.directory Scope.file (H.polys p).2 (H'.polys p).2 := by
  intro H'
  have h : H.Like H' := after_like P us H
  refine ⟨h.1, fun p => ?_⟩
  intro same
  have key : ∀ (plus minus : Scope) (d d' : FilterDef), ConLike plus minus d d' → same plus minus d d' := by
    intro plus minus d d' ⟨h1, h2, h3⟩
    refine ⟨h1, ?_, fun hg => ?_⟩
    · have e := h2
      simp only [FilterCore.narrow, FilterCore.mk.injEq] at e
      obtain ⟨a, b, c, -, e, f⟩ := e
      calc d'.core = ⟨d'.core.type, d'.core.description, d'.core.pattern, d'.core.scope, d'.core.negate, d'.core.ifNotApplicable⟩ := rfl
        _ = _ := by rw [a, b, c, e, f]
    · have e : ((d'.core.scope.set plus).clear minus) = ((d.core.scope.set plus).clear minus) := h3 hg
      simp only [Scope.set, Scope.clear] at e
      apply BitVec.eq_of_getLsbD_eq
      intro i hi
      have e' := congrArg (fun z : Scope => z.getLsbD i) e
      simp only [BitVec.getLsbD_and, BitVec.getLsbD_or, BitVec.getLsbD_not, hi, decide_true, Bool.true_and] at e' ⊢
      revert e'
      cases d'.core.scope.getLsbD i <;> cases d.core.scope.getLsbD i <;> cases plus.getLsbD i <;> cases minus.getLsbD i <;> simp
  exact ⟨key _ _ _ _ (h.2 p).1, key _ _ _ _ (h.2 p).2⟩

/-- **C70, saved.** The state of a session is saved with the definitions as they then are. A resume from that file does what one
from a file with the original definitions does, whatever library options it is given. -/
theorem C70_saved (P : Platform κ) (o : Options κ) (refs : Refs) (H : Heap) (us : List (Use κ)) (s : Saved) (r : Relic κ)
    (ws : List (With κ)) (disk : Disk) (x : κ) :
    ∃ doc doc', marshal (o.at refs H) s = .ok doc ∧ marshal (o.at refs (H.after P us)) s = .ok doc' ∧
      walkResume P (.relic r) (ws.map (With.setting P)) (fun _ => .ok doc') disk x =
        walkResume P (.relic r) (ws.map (With.setting P)) (fun _ => .ok doc) disk x := by
  obtain ⟨doc, h1, h2⟩ := roundTrip P (o.at refs H) s
  obtain ⟨doc', h1', h2'⟩ := roundTrip P (o.at refs (H.after P us)) s
  refine ⟨doc, doc', h1, h1', ?_⟩
  have hl := (((after_like P us H).options o refs).persisted P).rebind.fold P ws
  simp only [walkResume, resumePlatform, h2, h2', bindOptions, applyAll_withs]
  split
  · rename_i h
    split at h
    · cases h; rfl
    · split at h
      · rename_i ht
        cases h
        rw [if_pos ht]
      · rename_i ht
        split at h
        · rename_i hr
          cases h
          rw [if_neg ht, if_pos hr]
        · cases h
  · rename_i h
    split at h
    · cases h
    · split at h
      · cases h
      · rename_i ht
        split at h
        · cases h
        · rename_i hr
          cases h
          rw [if_neg ht, if_neg hr]
          dsimp only
          rw [← resume_undefined, hl.afterwards.build P _ _, resume_undefined]

/-! ### Cases -/

/-- Memory with a poly definition at 0, whose parts have no scope of their own, an extended glob at 1 with the scope of everything,
and at 2 a copy of the first: it has the same Poly. -/
def Demo.memory : Heap where
  defs a := match a with
    | 0 => ({ type := .poly }, some 0)
    | 1 => ({ type := .globEx, pattern := "*|*.!md", scope := Scope.all }, none)
    | _ => ({ type := .poly, description := "copy" }, some 0)
  polys _ := (.plain { type := .globEx, pattern := "*|*.txt", scope := Scope.all }, .plain { type := .glob, pattern := "b", scope := Scope.leaf })

/-- Two directories with texts and another file. -/
def Demo.texts : FS := .dir "r" none none [.dir "b" none none [.file "1.txt" none none, .file "2.md" none none], .dir "c" none none [.file "3.txt" none none]]

/-- The default options. -/
def Demo.blank : Options Nat := (getOptions toyPlatform []).1

/-- Not vacuous: a session with the poly filter, then one with the extended glob as filter and the copy as trigger. The definitions
were changed - all the scopes that can be -, and a session with the copy does what the first did: of the files, the texts in b. -/
example :
    let o (n w : Option Nat) (H : Heap) : Options Nat × Refs := ((Demo.blank.at ⟨n, w, none⟩ H).afterwards, ⟨n, w, none⟩)
    let H := Demo.memory
    let us : List (Use Nat) := [⟨.universal, none, (o (some 0) none H).2, (o (some 0) none H).1⟩,
      ⟨.files, none, (o (some 1) (some 2) H).2, (o (some 1) (some 2) H).1⟩]
    let H' := H.after sortPlatform us
    let seen (H : Heap) := ((buildRestIn sortPlatform .files none (o (some 2) none H).2 (o (some 2) none H).1 H).1.navigate
      (fun k _ => (k + 1, .ok none)) (diskOf [] Demo.texts) ["r"] 0)
    let calledAt (r : Report Nat) := r.tape.filterMap fun o => match o with | .call n => some n.path | _ => none
    (H.defs 1).1.scope = Scope.all ∧ (H'.defs 1).1.scope = Scope.file ∧
    ((H.polys 0).1.core.scope, (H.polys 0).2.core.scope) = (Scope.all, Scope.leaf) ∧
    ((H'.polys 0).1.core.scope, (H'.polys 0).2.core.scope) = (Scope.file, Scope.leaf ||| Scope.directory) ∧
    (seen H).verdict = .done none ∧ (seen H').verdict = .done none ∧
    calledAt (seen H) = [["r", "b", "1.txt"]] ∧ calledAt (seen H') = [["r", "b", "1.txt"]] := by
  decide +kernel

/-- The hypotheses of `C70_again` are met, and what is saved after it is not what was given. -/
example :
    let H := Demo.memory
    let r := primaryPlatform sortPlatform (.using (toyUsing .files))
      (settingsOf sortPlatform [some (.filter { node := some (H.get 0) } none), some (.filterWake (some (H.get 1)))])
    let refs : Refs := ⟨some 0, some 1, none⟩
    let H' := H.after sortPlatform [⟨.files, none, refs, r.1.afterwards⟩]
    r.2 = none ∧ r.1.filter.node = refs.node.map H.get ∧ r.1.hibernate.wakeAt = refs.wakeAt.map H.get ∧ r.1.hibernate.sleepAt = none ∧
    (toJSON (r.1.at refs H')).node ≠ (toJSON r.1).node ∧ (toJSON (r.1.at refs H')).wakeAt ≠ (toJSON r.1).wakeAt := by
  decide +kernel

end Traverse
