import Verif.Props.Api2
import Verif.Proofs.SleepFiles
/-
C26 for whole sessions: what a client still sees after the Sleep event.
-/
namespace Traverse

section
variable (P : Platform κ) (u : Using κ) (settings : List (Option (Setting κ))) (disk : Disk) (o : Options κ)
  (h : κ → Parcel → κ × Reply) (pre : Path) (fs : FS) (keep : Option (Node → Bool)) (hib : HiberOpts)

theorem windowed_tape {P : Platform κ} {u settings disk o h pre fs keep hib} (hw : Windowed P u settings disk o h pre fs keep hib) (x : κ) :
    ∃ S y, S = windowedSetup o u.sub keep hib ∧
      ∀ a b, (walkPrime P (.using u) settings disk x).tape = a ++ .note .sleep :: b →
        ∃ a' b', (S.session (o.afterwards.client h) y (fun _ => none) [] pre fs).2.ext.tape = a' ++ .note .sleep :: b' ∧
          entries a = entries a' ∧ entries b = entries b' ∧ handed b = handed b' := by
  obtain ⟨S', hst, hS, hcalm⟩ := windowed_started hw
  have h1 := started_session hst x
  simp only [calmed_session S' _ _ _ _ pre fs hcalm] at h1
  refine ⟨S'.calmed, (o.afterwards.client h).listen x (.begin u.tree), hS, fun a b hab => ?_⟩
  rw [h1] at hab
  generalize S'.calmed.session (o.afterwards.client h) ((o.afterwards.client h).listen x (.begin u.tree)) (fun _ => none) [] pre fs = W at hab
  have key : ∃ tail : List Obs, .note (.begin u.tree) :: (W.2.ext.tape ++ tail) = a ++ .note .sleep :: b ∧ (tail = [] ∨ tail = [.note .ended]) := by
    cases hf : W.1 with
    | panic => rw [hf] at hab; exact ⟨[], by simpa using hab, .inl rfl⟩
    | done e => rw [hf] at hab; exact ⟨[.note .ended], by simpa using hab, .inr rfl⟩
  obtain ⟨tail, he, ht⟩ := key
  cases a with
  | nil => simp at he
  | cons z a =>
    simp only [List.cons_append, List.cons.injEq] at he
    obtain ⟨rfl, he⟩ := he
    rcases append_eq_split he with ⟨w, hw1, rfl⟩ | ⟨w, hw1, -⟩
    · refine ⟨a, w, hw1, rfl, ?_, ?_⟩
      · rcases ht with rfl | rfl
        · rw [List.append_nil]
        · simp only [entries, List.filterMap_append]; rw [show List.filterMap Obs.entry [.note .ended] = [] from rfl, List.append_nil]
      · rcases ht with rfl | rfl
        · rw [List.append_nil]
        · simp only [handed, List.filterMap_append]
          exact List.append_nil _
    · rcases ht with rfl | rfl
      · simp at hw1
      · cases w with
        | nil => simp at hw1
        | cons y w => simp at hw1

/-- **C26** (partial; the full claim "no further node is navigated to" fails, see `C26_sleep_does_not_end`). Subscriptions other than
Files, any handler, any order of entries: after the Sleep event the handler is called at most once more, for the node at which the
sleep condition was met (when sleep is inclusive and the filter lets it through); and what is still entered lies directly in that node
or in a directory that contains it. -/
theorem C26_session_partial (hw : Windowed P u settings disk o h pre fs keep hib) (hsub : u.sub ≠ .files) (x : κ) (before after : List Obs)
    (ht : (walkPrime P (.using u) settings disk x).tape = before ++ .note .sleep :: after) :
    ∃ n, (∃ f, hib.sleepAt = some f ∧ f n = true) ∧ (n.path, n.isDir) ∈ entries before ∧
      handed after = (if hib.inclusiveSleep && (keep.getD fun _ => true) n then [n] else []) ∧
      ∀ e ∈ entries after, e.1.dropLast <+: n.path := by
  obtain ⟨S, y, hS, hk⟩ := windowed_tape hw x
  obtain ⟨a', b', e1, e2, e3, e4⟩ := hk before after ht
  have hord : S.Ordinary := by rw [hS]; exact Or.inl rfl
  have hsane : S.Sane := by rw [hS]; exact ⟨⟨fun _ => rfl, fun _ _ => ⟨rfl, rfl⟩⟩, fun hc => by cases hc⟩
  obtain ⟨n, h1, h2, h3, h4⟩ := session_nap hord hsane (by rw [hS]; exact hsub) _ _ _ _ _ _ a' b' e1
  refine ⟨n, ?_, by rw [e2]; exact h2, ?_, by rw [e3]; exact h4⟩
  · have h1 : HiberOpts.sleep hib n = true := by rw [hS] at h1; exact h1
    unfold HiberOpts.sleep at h1
    cases hf : hib.sleepAt with
    | none => rw [hf] at h1; cases h1
    | some f => rw [hf] at h1; exact ⟨f, rfl, h1⟩
  · rw [e4, h3, hS]
    cases keep <;> rfl

/-- **C26** (partial), the Files subscription: after the Sleep event every further file that is entered is the last that is seen of
its directory. -/
theorem C26_files_session_partial (hw : Windowed P u settings disk o h pre fs keep hib) (hsub : u.sub = .files)
    (hread : ∀ r, o.hooks.readDirectory.invoke r = defaultRead r.1 r.2) (hsort : ∀ l, (o.hooks.sort.invoke l).Perm l) (hdistinct : fs.Distinct)
    (x : κ) (before after : List Obs) (ht : (walkPrime P (.using u) settings disk x).tape = before ++ .note .sleep :: after) :
    ∃ n, (∃ f, hib.sleepAt = some f ∧ f n = true) ∧ (n.path, n.isDir) ∈ entries before ∧
      handed after = (if hib.inclusiveSleep && (keep.getD fun _ => true) n then [n] else []) ∧
      ∀ l p m, entries after = l ++ (p, false) :: m → ∀ e ∈ m, ¬ p.dropLast <+: e.1 := by
  obtain ⟨S, y, hS, hk⟩ := windowed_tape hw x
  obtain ⟨a', b', e1, e2, e3, e4⟩ := hk before after ht
  have hord : S.Ordinary := by rw [hS]; exact Or.inl rfl
  have hsane : S.Sane := by rw [hS]; exact ⟨⟨fun _ => rfl, fun _ _ => ⟨rfl, rfl⟩⟩, fun hc => by cases hc⟩
  have hrd : S.nav.read = defaultRead := by rw [hS]; funext l e; exact hread (l, e)
  obtain ⟨n, h1, h2, h3, h4⟩ := session_files_nap hord hsane (by rw [hS]; exact hsub) (by rw [hS]; exact hsort)
    (defaultRead_selects _ hrd) _ _ _ _ _ _ hdistinct a' b' e1
  refine ⟨n, ?_, by rw [e2]; exact h2, ?_, ?_⟩
  · have h1 : HiberOpts.sleep hib n = true := by rw [hS] at h1; exact h1
    unfold HiberOpts.sleep at h1
    cases hf : hib.sleepAt with
    | none => rw [hf] at h1; cases h1
    | some f => rw [hf] at h1; exact ⟨f, rfl, h1⟩
  · rw [e4, h3, hS]
    cases keep <;> rfl
  · rw [e3]
    intro l p m hl e he
    rw [hl] at h4
    exact (List.pairwise_cons.1 (List.pairwise_append.1 h4).2.1).1 e he rfl

end

/-- Not vacuous: a session that sleeps at "a", and what is still seen of it: the two files and the directory next to "a" and the two
entries of "a" itself; Files, asleep at "y": one file of each directory. -/
example :
    let P := sortPlatform
    let h := Demo.byPath fun _ => .ok none
    let u (sub) : Using Nat := { toyUsing sub with handler := some h }
    let settings (s : String) := settingsOf P [some (.filterSleep (some (.plain { type := .regex, pattern := s })))]
    let tape (sub) (s) := (walkPrime P (.using (u sub)) (settings s) (diskOf [] Demo.fs) 0).tape
    (∀ sub s, sub ≠ .undefined → s = "a" ∨ s = "y" → ∃ o hib, Windowed P (u sub) (settings s) (diskOf [] Demo.fs) o h [] Demo.fs none hib ∧
      (∀ r, o.hooks.readDirectory.invoke r = defaultRead r.1 r.2) ∧ ∀ l, (o.hooks.sort.invoke l).Perm l) ∧
    Demo.fs.Distinct ∧
    (∃ a b, tape .universal "a" = a ++ .note .sleep :: b ∧ (entries b).map Prod.fst = [["r", "a", "b"], ["r", "a", "x"], ["r", "c"], ["r", "f"], ["r", "g"]] ∧
      handed b = []) ∧
    (∃ a b, tape .files "y" = a ++ .note .sleep :: b ∧ (entries b).map Prod.fst = [["r", "a", "b", "z"], ["r", "a", "x"], ["r", "c"], ["r", "c", "w"], ["r", "f"]] ∧
      handed b = []) := by
  intro P h u settings tape
  have split : ∀ t : List Obs, Obs.note .sleep ∈ t → ∃ a b, t = a ++ .note .sleep :: b ∧ b = (t.dropWhile (fun ob => ob != .note .sleep)).tail := by
    intro t ht
    induction t with
    | nil => simp at ht
    | cons z t ih =>
      by_cases hz : z = .note .sleep
      · subst hz; exact ⟨[], t, rfl, by simp⟩
      · obtain ⟨a, b, rfl, hb⟩ := ih (by simpa [Ne.symm hz] using ht)
        refine ⟨z :: a, b, rfl, ?_⟩
        have : (z != Obs.note .sleep) = true := by simp [hz]
        rw [List.dropWhile_cons, if_pos this]; exact hb
  refine ⟨?_, Demo.distinct, ?_, ?_⟩
  · intro sub s hs hss
    have key : ∃ o K, getOptions P (settings s) = (o, none) ∧ o.filter.custom = none ∧ o.filter.node = none ∧
        o.hibernate.wakeAt = none ∧ o.hibernate.sleepAt = some (.plain { type := .regex, pattern := s }) ∧
        newFilter P.engine (.plain { type := .regex, pattern := s }) o.filter = .ok (some K) ∧
        o.filter.child = none ∧ o.filter.sample = none ∧ o.sampling.type = .undefined ∧ (∀ r, o.hooks.queryStatus.invoke r = r) ∧
        (∀ r, o.hooks.readDirectory.invoke r = defaultRead r.1 r.2) ∧ ∀ l, (o.hooks.sort.invoke l).Perm l := by
      rcases hss with rfl | rfl
      all_goals exact ⟨_, _, rfl, rfl, rfl, rfl, rfl, rfl, rfl, rfl, rfl, fun _ => rfl, fun _ => rfl, fun l => (insertSort_sorts _ l).1⟩
    obtain ⟨o, K, e1, e2, e3, e4, e5, e6, e7, e8, e9, e10, e11, e12⟩ := key
    exact ⟨o, ⟨none, some (K.predicate P.engine), o.hibernate.inclusiveWake, o.hibernate.inclusiveSleep, fun _ => false, fun _ => false⟩,
      ⟨rfl, e1, e7, e8, e9, ⟨none, .inl ⟨e2, e3, rfl⟩, (fun _ h => by cases h), rfl⟩, .inl ⟨e4, rfl⟩,
        .inr ⟨_, K, e5, e6, newFilter_safe e6 (by rw [e2]; intro _ h; cases h) (fun _ => rfl), rfl⟩, rfl, rfl,
        hs, rfl, rfl, diskOf_holds Demo.distinct _ _ (.here [] Demo.fs), e10⟩, e11, e12⟩
  · obtain ⟨a, b, h1, h2⟩ := split (tape .universal "a") (by decide +kernel)
    exact ⟨a, b, h1, by rw [h2]; decide +kernel, by rw [h2]; decide +kernel⟩
  · obtain ⟨a, b, h1, h2⟩ := split (tape .files "y") (by decide +kernel)
    exact ⟨a, b, h1, by rw [h2]; decide +kernel, by rw [h2]; decide +kernel⟩

end Traverse
