import Verif.Proofs.LiveResume
import Verif.Props.Live
import Verif.Props.Resumed
/-
**C69** for resumed sessions: the saved file system has changed since, and goes on changing while the resumed session walks it.
`walkResumeLive P (.relic r) settings files L n x` is a whole resumed session, every question to the file system answered by `L` as of the moment it is asked.
-/
namespace Traverse
variable {κ : Type}

section
variable {P : Platform κ} {r : Relic κ} {settings : List (Option (Setting κ))} {files : String → Except Err Json}
  {S : Setup} {o : Options κ} {h : κ → Parcel → κ × Reply} {a : Active}

/-- **C69** Every resumed session, by either strategy, on a changing file system reports exactly what the resumed session reports on some unchanging disk; that disk says of every path what
the changing file system showed there at some moment. So whatever holds of `walkResume` for all disks holds of resumed sessions on file systems that change. -/
theorem C69_resumed (hr : Resumed P r settings files S o h a) (hsound : (o.nav a.sub).Sound) (hstatus : ∀ q, o.hooks.queryStatus.invoke q = q)
    {L : Look κ} (hL : L.Distinct) (hinfo : L.Steady) (n : Nat) (x : κ) (rep : Report κ) (hrep : walkResumeLive P (.relic r) settings files L n x = some rep) :
    ∃ disk : Disk, rep = walkResume P (.relic r) settings files disk x ∧ (∀ p, Showed L p (disk p)) ∧ ∀ p f, disk p = .ok f → f.Distinct := by
  obtain ⟨o₀, h1, h2⟩ := hr.built
  obtain ⟨disk, h3, h4⟩ := walkResumeLive_frozen (by
    intro o' a' S' o'' h5 h6
    rw [h1] at h5
    cases h5
    rw [h2] at h6
    cases h6
    exact ⟨hr.setup.2 ▸ hsound, hstatus⟩) hL hinfo hrep
  exact ⟨disk, h3, h4, fun p f hf => (hf ▸ h4 p).distinct hL⟩

/-- **C69** With a depth limit every resumed session ends, whatever is created meanwhile; unless the saved depth, which is where spawn starts counting, is negative, maxDepth + 2 levels suffice. -/
theorem C69_resumed_ends (hr : Resumed P r settings files S o h a) (hlimit : 0 < (o.nav a.sub).maxDepth) (L : Look κ) {n : Nat}
    (hn : ((o.nav a.sub).maxDepth : Int) + 2 ≤ min a.depth 0 + n) (x : κ) : ∃ rep, walkResumeLive P (.relic r) settings files L n x = some rep := by
  obtain ⟨o₀, h1, h2⟩ := hr.built
  refine walkResumeLive_ends ?_ x
  intro o' a' S' o'' h5 h6
  rw [h1] at h5
  cases h5
  rw [h2] at h6
  cases h6
  rw [hr.setup.2]
  refine ⟨hlimit, ?_, ?_⟩ <;> omega

/-- **C69** On a disk that does not change these are the resumed sessions all the other properties are about. -/
theorem C69_resumed_still (hr : Resumed P r settings files S o h a) (hsound : (o.nav a.sub).Sound) (hstatus : ∀ q, o.hooks.queryStatus.invoke q = q)
    {L : Look κ} {disk : Disk} (hL : L.Mirrors disk) {n : Nat} (hn : ∀ p f, disk p = .ok f → f.levels ≤ n) (x : κ) :
    walkResumeLive P (.relic r) settings files L n x = some (walkResume P (.relic r) settings files disk x) := by
  obtain ⟨o₀, h1, h2⟩ := hr.built
  refine walkResumeLive_still ?_ hL hn x
  intro o' a' S' o'' h5 h6
  rw [h1] at h5
  cases h5
  rw [h2] at h6
  cases h6
  exact ⟨hr.setup.2 ▸ hsound, hstatus⟩

/-- The number of levels allowed decides nothing but whether there is a result. -/
theorem C69_resumed_fuel {L : Look κ} {n m : Nat} {x : κ} {rep rep' : Report κ} (h1 : walkResumeLive P (.relic r) settings files L n x = some rep)
    (h2 : walkResumeLive P (.relic r) settings files L m x = some rep') : rep = rep' := by
  rcases Nat.le_total n m with hm | hm
  · rw [walkResumeLive_more h1 hm] at h2; exact Option.some.inj h2
  · rw [walkResumeLive_more h2 hm] at h1; exact (Option.some.inj h1).symm

end

/-! ### Not vacuous -/

theorem diskOf_at {pre : Path} {fs : FS} : ∀ p f, diskOf pre fs p = .ok f → FS.At pre fs p f := by
  have hgo : ∀ (q : List String) (g f : FS) (pre : Path), diskOf.go q g = some f → FS.At pre g (pre ++ [g.name] ++ q) f := by
    intro q
    induction q with
    | nil => intro g f pre h; simp only [diskOf.go, Option.some.injEq] at h; subst h; rw [List.append_nil]; exact .here pre g
    | cons a as ih =>
      intro g f pre h
      cases g with
      | file => simp [diskOf.go] at h
      | dir n ie re kids =>
        simp only [diskOf.go] at h
        cases hk : kids.find? (fun k => k.name == a) with
        | none => simp [hk] at h
        | some k =>
          rw [hk] at h
          have hn : k.name = a := by simpa using List.find?_some hk
          have := ih k f (pre ++ [n]) h
          rw [hn, List.append_assoc] at this
          exact .inside (List.mem_of_find?_eq_some hk) this
  intro p f h
  simp only [diskOf] at h
  by_cases hp : pre ++ [fs.name] <+: p
  · rw [if_pos hp] at h
    obtain ⟨q, rfl⟩ := hp
    have hd : (pre ++ [fs.name] ++ q).drop (pre.length + 1) = q := by
      rw [show pre.length + 1 = (pre ++ [fs.name]).length by simp, List.drop_left]
    rw [hd] at h
    cases hg : diskOf.go q fs with
    | none => simp [hg] at h
    | some g =>
      rw [hg] at h
      simp only [Except.ok.injEq] at h
      subst h
      exact hgo q fs g pre hg
  · simp [if_neg hp] at h

theorem FS.At.onward {pre f p g} (h : FS.At pre f p g) : ∀ {pre' q k}, pre' ++ [g.name] = p → FS.At pre' g q k → FS.At pre f q k := by
  induction h with
  | here pre f =>
    intro pre' q k hp hk
    rw [List.append_left_inj] at hp
    exact hp ▸ hk
  | inside hk _ ih =>
    intro pre' q k hp h
    exact .inside hk (ih hp h)

/-- The state counts the calls of the handler. "r" holds "a" and "m" and, once the handler has been called, "z"; "a" holds "f" and, once it has been called, "g"; when it is called for "z", "new" is
created in it. -/
def Demo.moving : Look Nat where
  stat _ p := .ok (if p ∈ [["r"], ["r", "a"], ["r", "z"]] then .dir (p.getLastD "") none none [] else .file (p.getLastD "") none none)
  list k p := if p = ["r"] then ([⟨"a", true, none⟩, ⟨"m", false, none⟩] ++ (if k = 0 then [] else [⟨"z", true, none⟩]), none)
    else if p = ["r", "a"] then ([⟨"f", false, none⟩] ++ (if k = 0 then [] else [⟨"g", false, none⟩]), none)
    else if p = ["r", "z"] then (if k < 2 then [] else [⟨"new", false, none⟩], none)
    else ([], none)
  info _ _ := none

theorem Demo.moving_distinct : Demo.moving.Distinct := by
  intro x p
  simp only [Demo.moving]
  repeat' split
  all_goals simp

theorem Demo.moving_steady : Demo.moving.Steady := by
  intro x p e he y
  simp only [Demo.moving] at he ⊢
  repeat' split at he
  all_goals
    simp only [List.append_nil, List.mem_append, List.mem_cons, List.not_mem_nil, or_false] at he
  all_goals first
    | exact he.elim
    | (rcases he with (rfl | rfl) | rfl <;> rfl)
    | (rcases he with rfl | rfl <;> rfl)
    | (subst he; rfl)

/-- Either strategy, resumed at "f": the hypotheses of `C69_resumed`, and what is visited. Spawn lists "a" when it starts, so that it misses "g", and "r" when it is through with "a", so that it meets "z"
in it; fastward lists "r" when it starts. With a depth limit, also those of `C69_resumed_ends`. -/
example (st : Strategy) :
    let a := (savedAt ["r"] ["r", "a", "f"] .universal).active
    (∃ S o, Resumed sortPlatform (Demo.relic st Demo.quiet) [] (Demo.saved ["r", "a", "f"] .universal) S o (Demo.byPath Demo.quiet) a ∧
      (o.nav a.sub).Sound ∧ (∀ q, o.hooks.queryStatus.invoke q = q)) ∧
    (∃ S o, Resumed sortPlatform (Demo.relic st Demo.quiet) (settingsOf sortPlatform [some (.depth 2)]) (Demo.saved ["r", "a", "f"] .universal) S o
      (Demo.byPath Demo.quiet) a ∧ (o.nav a.sub).maxDepth = 2) ∧ a.depth = 2 ∧
    Demo.moving.Distinct ∧ Demo.moving.Steady ∧
    (walkResumeLive sortPlatform (.relic (Demo.relic .spawn Demo.quiet)) [] (Demo.saved ["r", "a", "f"] .universal) Demo.moving 4 0).map
      (fun rep => (rep.nodes.map fun n => n.path, rep.verdict)) =
        some ([["r", "a", "f"], ["r", "z"], ["r", "m"]], .done none) ∧
    (walkResumeLive sortPlatform (.relic (Demo.relic .fastward Demo.quiet)) [] (Demo.saved ["r", "a", "f"] .universal) Demo.moving 4 0).map
      (fun rep => (rep.nodes.map fun n => n.path, rep.verdict)) = some ([["r", "a", "f"], ["r", "m"]], .done none) := by
  intro a
  obtain ⟨doc, h1, h2⟩ := roundTrip sortPlatform (defaultOptions sortPlatform) (savedAt ["r"] ["r", "a", "f"] .universal)
  have hf : Demo.saved ["r", "a", "f"] .universal (Demo.relic st Demo.quiet).from = .ok doc := by simp only [Demo.saved, savedFile, h1]
  have hplat (ws) : resumePlatform sortPlatform (Demo.relic st Demo.quiet) (settingsOf sortPlatform ws) (.ok doc) =
      .ok ((bindOptions (fromJSON sortPlatform (toJSON (defaultOptions sortPlatform))) (settingsOf sortPlatform ws)).1, a) := by
    simp only [resumePlatform, h2, bindOptions, applyAll_settings]
    rfl
  refine ⟨?_, ?_, rfl, Demo.moving_distinct, Demo.moving_steady, by decide +kernel, by decide +kernel⟩
  · refine ⟨_, _, ⟨rfl, _, by rw [hf]; exact hplat [], rfl⟩, ?_, fun _ => rfl⟩
    refine usual_sound ?_ _ (insertSort_byEntries _)
    exact ⟨fun _ => rfl, fun l => (insertSort_sorts _ l).1, fun _ _ _ => rfl⟩
  · exact ⟨_, _, ⟨rfl, _, by rw [hf]; exact hplat _, rfl⟩, rfl⟩

/-- A still disk as a `Look`. -/
def Look.of (disk : Disk) : Look Nat where
  stat _ p := disk p
  list _ p := match disk p with
    | .error e => ([], some e)
    | .ok (.file _ _ re) => ([], re)
    | .ok (.dir _ _ re kids) => (kids.map FS.entry, re)
  info _ p := match disk p with
    | .ok f => f.infoErr
    | .error _ => none

def Demo.small : FS := .dir "r" none none [.dir "a" none none [.file "f" none none], .file "m" none (some (.code 5))]

/-- A still disk meets the hypotheses of `C69_resumed_still`. -/
example : (Look.of (diskOf [] Demo.small)).Mirrors (diskOf [] Demo.small) ∧ ∀ p f, diskOf [] Demo.small p = .ok f → f.levels ≤ 3 := by
  have hd : Demo.small.Distinct := by simp [Demo.small, FS.Distinct, FS.DistinctL, FS.name]
  have hat : ∀ p f, diskOf [] Demo.small p = .ok f → FS.At [] Demo.small p f := diskOf_at
  have hall : ∀ p f, FS.At [] Demo.small p f → f.infoErr = none ∧ f.levels ≤ 3 := by
    intro p f h
    cases h with
    | here => exact ⟨rfl, by decide⟩
    | inside hk h =>
      simp only [List.mem_cons, List.not_mem_nil, or_false] at hk
      rcases hk with rfl | rfl
      · cases h with
        | here => exact ⟨rfl, by decide⟩
        | inside hk h =>
          simp only [List.mem_cons, List.not_mem_nil, or_false] at hk
          subst hk
          cases h
          exact ⟨rfl, by decide⟩
      · cases h
        exact ⟨rfl, by decide⟩
  refine ⟨⟨fun _ _ => rfl, fun _ _ => rfl, diskOf_named _ _, ?_⟩, fun p f h => (hall p f (hat p f h)).2⟩
  intro p f h
  have hn := diskOf_named _ _ p f h
  have hp : p.dropLast ++ [f.name] = p := by
    obtain ⟨q, rfl⟩ := List.getLast?_eq_some_iff.1 hn
    rw [List.dropLast_concat]
  have sub : ∀ q g, FS.At p.dropLast f q g → diskOf [] Demo.small q = .ok g := by
    intro q g hg
    exact diskOf_holds hd _ _ ((hat p f h).onward (by rw [hp]) hg)
  refine ⟨⟨?_, ?_, ?_, ?_⟩, (hall p f (hat p f h)).1⟩
  · intro x
    rw [hp]
    exact h
  · intro x q n ie re kids hg
    simp only [Look.of, sub _ _ hg]
  · intro x q n ie re hg
    simp only [Look.of, sub _ _ hg]
  · intro x q g hg
    simp only [Look.of, sub _ _ hg]

end Traverse
