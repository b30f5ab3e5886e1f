import Verif.Props.Resumed
import Verif.Props.Concurrent
/-
C61: what IsComplete of a session says once Navigate has returned.
-/
namespace Traverse
variable {κ : Type}

/-- IsComplete of crown's strategy is set exactly if crown ended without an error. -/
theorem crown_complete {σ : Type} (c : Nav) (env : Env σ) (fault stat) (disk : Disk) (tree : Path) :
    ∀ (rcur : List String) (incl : Bool) (s : St σ),
      (crown c env fault stat disk tree rcur incl s).2.1 = true ↔ (crown c env fault stat disk tree rcur incl s).1 = .done none := by
  intro rcur
  induction rcur with
  | nil => intro incl s; rw [crown]; split <;> simp
  | cons child rparent ih =>
    intro incl s
    rw [crown]
    split
    · simp
    · split
      · simp
      · split
        · exact ih _ _
        · rename_i f s' h hs
          constructor
          · intro h'; cases h'
          · intro h'
            exact (h (by rw [← show _ = Final.done none from h'])).elim

theorem resumeRun_complete (S : Setup) (o : Options κ) (C : Client κ) (disk : Disk) (st : Strategy) (a : Active) (w : World κ) :
    (st = .spawn → ((resumeRun S o C disk st a w).2.1 = true ↔ (resumeRun S o C disk st a w).1 = .done none)) ∧
    ((resumeRun S o C disk st a w).1 = .done none → (resumeRun S o C disk st a w).2.1 = true) := by
  cases st with
  | spawn =>
    have := crown_complete S.nav (S.env C a.tree a.currentPath) o.fault (statOf S.nav o disk) disk a.tree
      a.currentPath.reverse true ⟨a.depth, w, []⟩
    exact ⟨fun _ => this, this.2⟩
  | fastward => exact ⟨fun h => (by cases h), fun _ => rfl⟩
  | undefined => exact ⟨fun h => (by cases h), fun _ => rfl⟩

/-- **C61, first half** After any prime session that returned without an error the session says it is complete. -/
theorem C61_prime_complete (P : Platform κ) (f : Facade κ) (settings : List (Option (Setting κ))) (disk : Disk) (x : κ) :
    let rep := walkPrime P f settings disk x
    rep.verdict = .done none → rep.complete = true := by
  have key : ∀ (b : Built κ) (h) (tree : Path), (b.navigate h disk tree x).verdict = .done none → (b.navigate h disk tree x).complete = true := by
    intro b h tree
    cases b with
    | crash => simp [Built.navigate]
    | hades e => simp [Built.navigate]
    | stillborn e o => simp [Built.navigate]
    | ready S o => simp only [Built.navigate]; split <;> simp
  intro rep
  cases f with
  | relic r => exact key _ _ _
  | «using» u => exact key _ _ _

/-- **C61, first half** The same of a resumed session, by either strategy. -/
theorem C61_resume_complete (P : Platform κ) (f : Facade κ) (settings : List (Option (Setting κ)))
    (files : String → Except Err Json) (disk : Disk) (x : κ) :
    let rep := walkResume P f settings files disk x
    rep.verdict = .done none → rep.complete = true := by
  have key : ∀ (b : Built κ) (st : Strategy) (h) (a : Active), (b.resume st h disk a x).verdict = .done none →
      (b.resume st h disk a x).complete = true := by
    intro b st h a
    cases b with
    | crash => simp [Built.resume]
    | hades e => simp [Built.resume]
    | stillborn e o => simp only [Built.resume]; split <;> simp
    | ready S o =>
      simp only [Built.resume]
      have := (resumeRun_complete S o (o.client h) disk st a
        ((S.world x (if st = .spawn then a.metrics else fun _ => none)).publish (o.client h) (.begin a.tree))).2
      revert this
      generalize resumeRun S o (o.client h) disk st a _ = q
      rcases q with ⟨_ | _, c, s⟩ <;> simp
  intro rep
  simp only [rep, walkResume]
  cases f with
  | «using» u => simp
  | relic r =>
    simp only
    split
    · simp
    · exact key _ _ _ _

/-- **C61** (partial: a resume by spawning only, see `C61_false_in_general`) The session of a resume by spawning says it is complete
exactly if Navigate returned no error. -/
theorem C61_spawn_partial (P : Platform κ) (r : Relic κ) (settings : List (Option (Setting κ)))
    (files : String → Except Err Json) (disk : Disk) (x : κ) (hst : r.strategy = .spawn) :
    let rep := walkResume P (.relic r) settings files disk x
    rep.complete = true ↔ rep.verdict = .done none := by
  have key : ∀ (b : Built κ) (st : Strategy) (h) (a : Active), st = .spawn →
      ((b.resume st h disk a x).complete = true ↔ (b.resume st h disk a x).verdict = .done none) := by
    intro b st h a hst
    cases b with
    | crash => simp [Built.resume]
    | hades e => simp [Built.resume]
    | stillborn e o => simp [Built.resume, hst]
    | ready S o =>
      simp only [Built.resume]
      have := (resumeRun_complete S o (o.client h) disk st a
        ((S.world x (if st = .spawn then a.metrics else fun _ => none)).publish (o.client h) (.begin a.tree))).1 hst
      revert this
      generalize resumeRun S o (o.client h) disk st a _ = q
      rcases q with ⟨_ | _, c, s⟩ <;> simp
  intro rep
  simp only [rep, walkResume]
  split
  · simp
  · exact key _ _ _ _ hst

/-- **C61** (partial, concurrent sessions) Without a pool a resume by spawning says it is not complete; with one it says so exactly if
navigation returned no error. -/
theorem C61_run_spawn_partial (P : Platform κ) (r : Relic κ) (settings : List (Option (Setting κ)))
    (files : String → Except Err Json) (pool : Option Err) (disk : Disk) (x : κ) (hst : r.strategy = .spawn) :
    let rep := (runResume P (.relic r) settings files pool disk x).report
    rep.complete = true ↔ rep.verdict = .done none := by
  intro rep
  simp only [rep, runResume]
  split
  · simp
  · rename_i o a hpl
    have hw : walkResume P (.relic { r with handler := some enqueue }) settings files disk x =
        (buildRest P a.sub (some r.strategy) o.afterwards).resume r.strategy enqueue disk a x := by
      simp only [walkResume]
      rw [show resumePlatform P { r with handler := some enqueue } settings (files r.from) = .ok (o, a) from hpl]
      rfl
    have h := C61_spawn_partial P { r with handler := some enqueue } settings files disk x hst
    rw [hw] at h
    simp only [Built.relaunch]
    split
    · simp [hst]
    · exact h

/-- **C61, what is false** A prime session and a fastward resume that the handler ended with an error say they are complete as well,
and so does a prime session in which nothing was visited because the root could not be found, or which could not be built. A spawn
resume with the same error says it is not. -/
theorem C61_false_in_general :
    let P := sortPlatform
    let fails : Nat → Parcel → Nat × Reply := fun k q => (k + 1, Demo.at_ ["r", "a", "x"] (.ok (some (.code 7))) q.node.path)
    let prime (h : Nat → Parcel → Nat × Reply) (fs : FS) (settings : List (Option (Setting Nat))) :=
      walkPrime P (.using { toyUsing .universal with handler := some h }) settings (diskOf [] fs) 0
    let again (st : Strategy) := walkResume P (.relic { toyRelic st with handler := some fails }) []
      (savedFile (defaultOptions P) (savedAt ["r"] ["r", "a"] .universal)) (diskOf [] Demo.fs) 0
    let quiet : Nat → Parcel → Nat × Reply := fun k _ => (k, .ok none)
    ((prime fails Demo.fs []).verdict = .done (some (.code 7)) ∧ (prime fails Demo.fs []).complete = true ∧
      (prime fails Demo.fs []).calls.length = 6) ∧
    ((prime quiet (.dir "s" none none []) []).verdict = .done (some (.code 2)) ∧ (prime quiet (.dir "s" none none []) []).complete = true) ∧
    ((again .fastward).verdict = .done (some (.code 7)) ∧ (again .fastward).complete = true) ∧
    ((again .spawn).verdict = .done (some (.code 7)) ∧ (again .spawn).complete = false) := by
  decide +kernel

/-- Sessions of each kind that end without an error. -/
example :
    let P := sortPlatform
    let again (st : Strategy) := walkResume P (.relic (toyRelic st)) []
      (savedFile (defaultOptions P) (savedAt ["r"] ["r", "a"] .universal)) (diskOf [] Demo.fs) 0
    let prime := walkPrime P (.using (toyUsing .universal)) [] (diskOf [] Demo.fs) 0
    let run (pool : Option Err) := (runResume P (.relic (toyRelic .spawn)) []
      (savedFile (defaultOptions P) (savedAt ["r"] ["r", "a"] .universal)) pool (diskOf [] Demo.fs) 0).report
    (prime.verdict = .done none ∧ prime.complete = true) ∧
    ((again .spawn).verdict = .done none ∧ (again .spawn).complete = true) ∧
    ((again .fastward).verdict = .done none ∧ (again .fastward).complete = true) ∧
    ((run none).complete = true ∧ (run (some (.code 1))).complete = false) := by
  decide +kernel

end Traverse
