import Verif.Spec.Hushed
import Verif.Props.SampledResumed
/-
C32 for sessions, first and resumed: with sampling nobody learns that a directory could not be read.
-/
namespace Traverse
variable {κ : Type}

theorem hushedL_map (l : List FS) : FS.hushedL l = l.map FS.hushed := by
  induction l with
  | nil => simp [FS.hushedL]
  | cons t ts ih => simp [FS.hushedL, ih]

theorem hushed_id (f : FS) : f.hushed.name = f.name ∧ f.hushed.isDir = f.isDir := by
  cases f with
  | file => simp [FS.hushed]
  | dir n ie re kids => rw [FS.hushed]; split <;> exact ⟨rfl, rfl⟩

theorem hushed_distinct (f : FS) (h : f.Distinct) : f.hushed.Distinct := by
  induction f using FS.ind with
  | hf => simp [FS.hushed, FS.Distinct]
  | hd n ie re kids ih =>
    rw [FS.Distinct] at h
    rw [FS.hushed]
    split
    · simp [FS.Distinct, FS.DistinctL]
    · rw [FS.Distinct, FS.distinctL_iff, hushedL_map, List.map_map]
      refine ⟨?_, ?_⟩
      · have : (FS.name ∘ FS.hushed) = FS.name := by funext k; exact (hushed_id k).1
        rw [this]; exact h.1
      · intro f hf
        obtain ⟨g, hg, rfl⟩ := List.mem_map.1 hf
        exact ih g hg ((FS.distinctL_iff kids).1 h.2 g hg)

/-- A sample does not tell them apart. -/
theorem sampled_hushed (keep q) (f : FS) : f.hushed.sampled keep q = f.sampled keep q := by
  induction f using FS.ind with
  | hf => simp [FS.hushed]
  | hd n ie re kids ih =>
    rw [FS.hushed]
    cases re with
    | some x => simp [FS.sampled, FS.sampledL, sampleOf, portion]
    | none =>
      simp only [FS.sampled, Option.isSome_none, Bool.false_eq_true, if_false, hushedL_map, sampledL_map, List.map_map]
      congr 2
      exact List.map_congr_left ih

/-- The disk on which unreadable directories are empty. -/
def Disk.hushed (disk : Disk) : Disk := fun p =>
  match disk p with
  | .ok f => .ok f.hushed
  | .error e => .error e

theorem applyAll_then (settings : List (Option (Setting κ))) (f : Setting κ) : ∀ o o' : Options κ, applyAll settings o = (o', none) →
    applyAll (settings ++ [some f]) o = match f o' with | (o', some e) => (o', some e) | (o', none) => (o', none) := by
  induction settings with
  | nil => intro o o' h; cases h; rfl
  | cons s ss ih =>
    intro o o' h
    cases s with
    | none => exact ih o o' h
    | some g =>
      simp only [List.cons_append, applyAll] at h ⊢
      rcases hg : g o with ⟨o1, _ | e⟩
      · rw [hg] at h; exact ih o1 o' h
      · rw [hg] at h; cases h

/-- **C32, where it is false** (sessions): with sampling, whatever else is configured and whatever the handlers answer, a session is in
every respect — also in what the skip handler and the listeners are told — the session on the disk on which the directories that cannot
be read are empty ones that can: nobody learns of a read error. -/
theorem C32_session_hides (P : Platform κ) (u : Using κ) (settings : List (Option (Setting κ))) (disk : Disk) (o : Options κ)
    (hno : u.o = none) (hopt : getOptions P settings = (o, none)) (hact : o.sampling.type ≠ .undefined) (hsample : o.filter.sample = none)
    (hread : o.hooks.readDirectory.listeners = none ∧ ∀ r, o.hooks.readDirectory.invoke r = defaultRead r.1 r.2)
    (hstatus : ∀ r, o.hooks.queryStatus.invoke r = r) (hdistinct : ∀ fs, disk u.tree = .ok fs → fs.Distinct) (x : κ) :
    walkPrime P (.using u) settings disk x = walkPrime P (.using u) settings disk.hushed x := by
  have hopt₀ : getOptions P (settings ++ [some fun o => ({ o with sampling := {} }, none)]) = ({ o with sampling := {} }, none) := by
    rw [getOptions, applyAll_then settings _ _ o hopt]
  let disk₀ : Disk := fun p => match disk p with
    | .ok fs => .ok (fs.sampled (fun _ => true) ⟨o.sampling.files, o.sampling.dirs, o.sampling.inReverse⟩)
    | .error e => .error e
  rw [C30_session P u settings _ disk disk₀ o hno hopt hopt₀ hact hsample hread hstatus hdistinct rfl x]
  refine (C30_session P u settings _ disk.hushed disk₀ o hno hopt hopt₀ hact hsample hread hstatus ?_ ?_ x).symm
  · intro fs h
    simp only [Disk.hushed] at h
    cases hd : disk u.tree with
    | error e => rw [hd] at h; cases h
    | ok f => rw [hd] at h; cases h; exact hushed_distinct f (hdistinct f hd)
  · simp only [disk₀, Disk.hushed]
    cases disk u.tree with
    | error e => rfl
    | ok f => simp only [sampled_hushed]

/-- **C32, where it is false** (resumed sessions, either strategy): the same. For spawn the saved path lies below the tree and what is
above it is still a directory; whether it can be read makes no difference (without sampling the resume would end with the error). -/
theorem C32_resumed_hidden (P : Platform κ) (r : Relic κ) (settings : List (Option (Setting κ))) (files : String → Except Err Json)
    (disk : Disk) (o : Options κ) (a : Active) (hplat : resumePlatform P r settings (files r.from) = .ok (o, a))
    (hact : o.sampling.type ≠ .undefined) (hsample : o.filter.sample = none)
    (hread : o.hooks.readDirectory.listeners = none ∧ ∀ r, o.hooks.readDirectory.invoke r = defaultRead r.1 r.2)
    (hstatus : ∀ r, o.hooks.queryStatus.invoke r = r) (hdistinct : ∀ p fs, disk p = .ok fs → fs.Distinct)
    (hway : r.strategy = .spawn → a.tree <+: a.currentPath ∧
      ∀ p, a.tree <+: p → Above p a.currentPath → ∃ fs, disk p = .ok fs ∧ fs.isDir = true) (x : κ) :
    walkResume P (.relic r) settings files disk x = walkResume P (.relic r) settings files disk.hushed x := by
  have hplat₀ : resumePlatform P r (settings ++ [some fun o => ({ o with sampling := {} }, none)]) (files r.from) =
      .ok ({ o with sampling := {} }, a) := by
    simp only [resumePlatform] at hplat ⊢
    cases hu : unmarshal P (files r.from) with
    | error e => rw [hu] at hplat; cases hplat
    | ok os =>
      obtain ⟨o₁, s⟩ := os
      rw [hu] at hplat
      simp only [bindOptions] at hplat ⊢
      rcases hb : applyAll settings o₁.rebind with ⟨o₂, _ | e⟩
      · rw [applyAll_then settings _ _ o₂ hb]
        rw [hb] at hplat
        simp only at hplat ⊢
        have key : ∀ w : Option (Bool × Bool), (match w with
              | none => (.error .nilForest : Except BuildErr (Options κ × Active))
              | some (t, rr) => if t ≠ s.traverseRelative then .error .traverseFsMismatch
                else if rr ≠ s.resumeRelative then .error .resumeFsMismatch else .ok (o₂, s.active)) = .ok (o, a) →
            (match w with
              | none => (.error .nilForest : Except BuildErr (Options κ × Active))
              | some (t, rr) => if t ≠ s.traverseRelative then .error .traverseFsMismatch
                else if rr ≠ s.resumeRelative then .error .resumeFsMismatch else .ok ({ o₂ with sampling := {} }, s.active)) =
              .ok ({ o with sampling := {} }, a) := by
          intro w h
          cases w with
          | none => cases h
          | some t =>
            obtain ⟨t, rr⟩ := t
            simp only at h ⊢
            split at h
            · cases h
            · split at h
              · cases h
              · rename_i h1 h2
                cases h
                rw [if_neg h1, if_neg h2]
        exact key _ hplat
      · rw [hb] at hplat; cases hplat
  let disk₀ : Disk := fun p => match disk p with
    | .ok fs => .ok (fs.sampled (fun _ => true) ⟨o.sampling.files, o.sampling.dirs, o.sampling.inReverse⟩)
    | .error e => .error e
  rw [C30_resumed P r settings _ files files disk disk₀ o a hplat hplat₀ hact hsample hread hstatus hdistinct (fun _ => rfl) hway x]
  refine (C30_resumed P r settings _ files files disk.hushed disk₀ o a hplat hplat₀ hact hsample hread hstatus ?_ ?_ ?_ x).symm
  · intro p fs h
    simp only [Disk.hushed] at h
    cases hd : disk p with
    | error e => rw [hd] at h; cases h
    | ok f => rw [hd] at h; cases h; exact hushed_distinct f (hdistinct p f hd)
  · intro p
    simp only [disk₀, Disk.hushed]
    cases disk p with
    | error e => rfl
    | ok f => simp only [sampled_hushed]
  · intro hs
    obtain ⟨h1, h2⟩ := hway hs
    refine ⟨h1, fun p hp hab => ?_⟩
    obtain ⟨fs, h3, h4⟩ := h2 p hp hab
    exact ⟨fs.hushed, by simp only [Disk.hushed, h3], by rw [(hushed_id fs).2]; exact h4⟩

/-- Not vacuous: /r/a cannot be read. With sampling the session and its resume in /r/a/b, whose skip handler counts the read errors it is
told of, go as if /r/a were empty; without, the skip handler is told. -/
example :
    let P := sortPlatform
    let h := Demo.byPath Demo.quiet
    let u : Using Nat := { toyUsing .universal with handler := some h }
    let counting : Option (Setting Nat) := some fun o => ({ o with defects := { o.defects with skip := fun k _ re =>
      (if re.isSome then k + 1 else k, .none, none) } }, none)
    let one := settingsOf P [some (.sampling { type := .slice, files := 1, dirs := 1 })] ++ [counting]
    let shut := Demo.later (some (.code 13))
    let files := Demo.saved ["r", "a", "b"] .universal
    let r := Demo.relic .spawn Demo.quiet
    let a := (savedAt ["r"] ["r", "a", "b"] .universal).active
    (∃ o, getOptions P one = (o, none) ∧ o.sampling.type ≠ .undefined ∧ o.filter.sample = none ∧
      (o.hooks.readDirectory.listeners = none ∧ ∀ r, o.hooks.readDirectory.invoke r = defaultRead r.1 r.2) ∧
      ∀ r, o.hooks.queryStatus.invoke r = r) ∧
    (∃ o, resumePlatform P r one (files r.from) = .ok (o, a) ∧ o.sampling.type ≠ .undefined ∧ o.filter.sample = none ∧
      (o.hooks.readDirectory.listeners = none ∧ ∀ r, o.hooks.readDirectory.invoke r = defaultRead r.1 r.2) ∧
      ∀ r, o.hooks.queryStatus.invoke r = r) ∧
    (∀ p fs, diskOf [] shut p = .ok fs → fs.Distinct) ∧ a.tree <+: a.currentPath ∧
    (∀ p, a.tree <+: p → Above p a.currentPath → ∃ fs, diskOf [] shut p = .ok fs ∧ fs.isDir = true) ∧
    (walkPrime P (.using u) [counting] (diskOf [] shut) 0).client ≠ (walkPrime P (.using u) [counting] (diskOf [] shut).hushed 0).client ∧
    (walkResume P (.relic r) [counting] files (diskOf [] shut) 0).verdict = .done (some (.code 13)) ∧
    (walkResume P (.relic r) [counting] files (diskOf [] shut).hushed 0).verdict = .done none := by
  intro P h u counting one shut files r a
  refine ⟨⟨_, rfl, by decide, rfl, ⟨rfl, fun _ => rfl⟩, fun _ => rfl⟩, ?_, ?_, by decide, ?_, by decide +kernel⟩
  · obtain ⟨doc, h1, h2⟩ := roundTrip P (defaultOptions P) (savedAt ["r"] ["r", "a", "b"] .universal)
    have hf : files r.from = .ok doc := by
      simp only [P] at h1
      simp only [files, Demo.saved, savedFile, h1]
    obtain ⟨o, e1, e2⟩ : ∃ o, bindOptions (fromJSON P (toJSON (defaultOptions P))) one = (o, none) ∧
        (o.sampling.type ≠ .undefined ∧ o.filter.sample = none ∧
        (o.hooks.readDirectory.listeners = none ∧ ∀ r, o.hooks.readDirectory.invoke r = defaultRead r.1 r.2) ∧
        ∀ r, o.hooks.queryStatus.invoke r = r) := ⟨_, rfl, by decide, rfl, ⟨rfl, fun _ => rfl⟩, fun _ => rfl⟩
    refine ⟨o, ?_, e2⟩
    rw [hf]
    simp only [resumePlatform, h2, e1]
    rfl
  · intro p fs h
    exact (diskOf_at p fs h).distinct (Demo.later_distinct _)
  · intro p hp hup
    have hp : (["r"] : Path) <+: p := hp
    have hup : Above p ["r", "a", "b"] := hup
    obtain ⟨rest, rfl⟩ := hp
    obtain ⟨⟨tail, ht⟩, hne⟩ := hup
    match rest with
    | [] => exact ⟨_, rfl, rfl⟩
    | [x] =>
      simp only [List.cons_append, List.nil_append, List.cons.injEq, true_and] at ht
      obtain ⟨rfl, -⟩ := ht
      exact ⟨_, rfl, rfl⟩
    | [x, y] =>
      simp only [List.cons_append, List.nil_append, List.cons.injEq, true_and] at ht
      obtain ⟨rfl, rfl, -⟩ := ht
      exact absurd rfl hne
    | x :: y :: z :: more => simp at ht

end Traverse
