import Verif.Proofs.Resume
import Verif.Props.Persist
/-
Resumed sessions. C55: file systems that do not match. C46: metrics. C27, C28, C29: what Props/Session.lean says of primary
sessions, here for resumed ones.
-/
namespace Traverse
variable {κ : Type}

/-- The file systems (is T relative, is R relative) of a resumed session: those its facade's GetForest makes for the saved
tree, absolute ones if the facade has none. -/
def Relic.systems (r : Relic κ) (tree : Path) : Option (Bool × Bool) :=
  match r.forest with
  | some f => f tree
  | none => some (false, false)

/-- What resumePlatform comes to once the file is loaded and the options are applied. -/
theorem platform_loaded {P : Platform κ} {r : Relic κ} {settings file o s o'} (hl : unmarshal P file = .ok (o, s))
    (ho : bindOptions o settings = (o', none)) :
    resumePlatform P r settings file =
      match r.systems s.active.tree with
      | none => .error .nilForest
      | some (t, rr) =>
        if t ≠ s.traverseRelative then .error .traverseFsMismatch
        else if rr ≠ s.resumeRelative then .error .resumeFsMismatch
        else .ok (o', s.active) := by
  unfold resumePlatform
  simp only [hl, ho, Relic.systems]
  cases r.forest <;> rfl

theorem platform_ok {P : Platform κ} {r : Relic κ} {settings file o' a} (h : resumePlatform P r settings file = .ok (o', a)) :
    ∃ o s, unmarshal P file = .ok (o, s) ∧ s.active = a ∧ bindOptions o settings = (o', none) ∧
      r.systems a.tree = some (s.traverseRelative, s.resumeRelative) := by
  cases hl : unmarshal P file with
  | error e => simp [resumePlatform, hl] at h
  | ok p =>
    obtain ⟨o, s⟩ := p
    rcases ho : bindOptions o settings with ⟨o1, _ | e⟩
    · rw [platform_loaded hl ho] at h
      cases hs : r.systems s.active.tree with
      | none => simp [hs] at h
      | some p =>
        obtain ⟨t, rr⟩ := p
        simp only [hs, ne_eq] at h
        by_cases h1 : t = s.traverseRelative
        · by_cases h2 : rr = s.resumeRelative
          · simp only [h1, h2, not_true_eq_false, if_false, Except.ok.injEq, Prod.mk.injEq] at h
            obtain ⟨rfl, rfl⟩ := h
            exact ⟨o, s, rfl, rfl, ho, by rw [hs, h1, h2]⟩
          · simp [h1, h2] at h
        · simp [h1] at h
    · simp [resumePlatform, hl, ho] at h

/-- Errors of building that are not about the file systems. -/
theorem buildRest_errors {P : Platform κ} {sub res} {o : Options κ} {e} (h : buildRest P sub res o = .hades e ∨
    ∃ o', buildRest P sub res o = .stillborn e o') : e = .missingSubscription ∨ ∃ fe, e = .filter fe := by
  unfold buildRest at h
  split at h
  · simp only [Built.hades.injEq, reduceCtorEq, exists_false, or_false] at h; exact Or.inl h.symm
  · split at h
    · simp only [Built.hades.injEq, reduceCtorEq, exists_false, or_false] at h; exact Or.inr ⟨_, h.symm⟩
    · simp at h
    · split at h
      · simp only [reduceCtorEq, Built.stillborn.injEq, false_or] at h
        obtain ⟨_, h, _⟩ := h
        exact Or.inr ⟨_, h.symm⟩
      · simp at h
      · simp at h

theorem resume_verdict {b : Built κ} {st h disk a} {x : κ} {e} (hv : (b.resume st h disk a x).verdict = .unbuilt e) :
    b = .hades e ∨ ∃ o, b = .stillborn e o := by
  cases b with
  | crash => simp [Built.resume] at hv
  | hades e' => simp only [Built.resume, Verdict.unbuilt.injEq] at hv; exact Or.inl (by rw [hv])
  | stillborn e' o =>
    simp only [Built.resume] at hv
    split at hv <;> simp only [Verdict.unbuilt.injEq] at hv <;> exact Or.inr ⟨o, by rw [hv]⟩
  | ready S o =>
    simp only [Built.resume] at hv
    split at hv <;> simp at hv

/-- **C55** The state was loaded and the options applied; the session's traverse and resume file systems are `t`, `rr`
(relative or not). A traverse file system that is not like the one of the saved session, and failing that, a resume file
system that is not, is rejected with the error for it: no handler call, no notification. If both agree neither error is
returned. -/
theorem C55_mismatch (P : Platform κ) (r : Relic κ) (settings : List (Option (Setting κ))) (files : String → Except Err Json)
    (disk : Disk) (x : κ) (o : Options κ) (s : Saved) (hl : unmarshal P (files r.from) = .ok (o, s))
    (ho : (bindOptions o settings).2 = none) (t rr : Bool) (hs : r.systems s.active.tree = some (t, rr)) :
    (t ≠ s.traverseRelative → (walkResume P (.relic r) settings files disk x).Nothing .traverseFsMismatch x) ∧
    (t = s.traverseRelative → rr ≠ s.resumeRelative →
      (walkResume P (.relic r) settings files disk x).Nothing .resumeFsMismatch x) ∧
    (t = s.traverseRelative → rr = s.resumeRelative → ∀ e,
      (walkResume P (.relic r) settings files disk x).verdict = .unbuilt e → e ≠ .traverseFsMismatch ∧ e ≠ .resumeFsMismatch) := by
  have ho' : bindOptions o settings = ((bindOptions o settings).1, none) := by rw [← ho]
  have hp := platform_loaded (r := r) hl ho'
  simp only [hs] at hp
  refine ⟨fun h => ?_, fun h1 h2 => ?_, fun h1 h2 e he => ?_⟩
  · rw [if_pos h] at hp
    simp only [walkResume, hp]
    exact ⟨rfl, rfl, rfl, rfl⟩
  · rw [if_neg (by simp [h1]), if_pos h2] at hp
    simp only [walkResume, hp]
    exact ⟨rfl, rfl, rfl, rfl⟩
  · rw [if_neg (by simp [h1]), if_neg (by simp [h2])] at hp
    simp only [walkResume, hp] at he
    rcases buildRest_errors (resume_verdict he) with rfl | ⟨fe, rfl⟩ <;> simp

/-- **C55** from one session to the next: whatever was saved by a session on relative file systems is refused by a resume
on the default, absolute ones. -/
theorem C55_relative_to_absolute (P : Platform κ) (r : Relic κ) (settings : List (Option (Setting κ))) (files : String → Except Err Json)
    (disk : Disk) (x : κ) (o : Options κ) (s : Saved) (doc : Json) (hm : marshal o s = .ok doc) (hf : files r.from = .ok doc)
    (ho : (bindOptions (fromJSON P (toJSON o)) settings).2 = none) (hr : r.forest = none) (hs : s.traverseRelative = true) :
    (walkResume P (.relic r) settings files disk x).Nothing .traverseFsMismatch x := by
  obtain ⟨doc', h1, h2⟩ := roundTrip P o s
  rw [hm] at h1
  cases h1
  exact (C55_mismatch P r settings files disk x _ s (by rw [hf]; exact h2) ho false false (by simp [Relic.systems, hr])).1
    (by simp [hs])

/-- **C28** (resume) A session that returns an error of building never calls the handler, and publishes nothing, unless
the reason is a hibernation filter and the strategy spawn: then Begin and End are published. -/
theorem C28_resume_no_calls (P : Platform κ) (facade : Facade κ) (settings : List (Option (Setting κ)))
    (files : String → Except Err Json) (disk : Disk) (x : κ) (e : BuildErr)
    (he : (walkResume P facade settings files disk x).verdict = .unbuilt e) :
    (walkResume P facade settings files disk x).hits = [] ∧
    ((walkResume P facade settings files disk x).Nothing e x ∨
      ∃ r tree, facade = .relic r ∧ r.strategy = .spawn ∧ (∃ fe, e = .filter fe) ∧
        (walkResume P facade settings files disk x).tape = [.note (.begin tree), .note .ended]) := by
  cases facade with
  | «using» u =>
    simp only [walkResume, Verdict.unbuilt.injEq] at he
    subst he
    exact ⟨rfl, Or.inl ⟨rfl, rfl, rfl, rfl⟩⟩
  | relic r =>
    simp only [walkResume] at he ⊢
    cases hp : resumePlatform P r settings (files r.from) with
    | error e' =>
      simp only [hp, Verdict.unbuilt.injEq] at he ⊢
      subst he
      exact ⟨trivial, Or.inl ⟨rfl, rfl, rfl, rfl⟩⟩
    | ok p =>
      obtain ⟨o, a⟩ := p
      simp only [hp] at he ⊢
      have hv := resume_verdict he
      rcases hv with hb | ⟨o', hb⟩
      · rw [hb]; exact ⟨rfl, Or.inl ⟨rfl, rfl, rfl, rfl⟩⟩
      · have hfe : ∃ fe, e = .filter fe := by
          unfold buildRest at hb
          split at hb
          · cases hb
          · split at hb
            · cases hb
            · cases hb
            · split at hb <;> cases hb
              exact ⟨_, rfl⟩
        rw [hb]
        by_cases hst : r.strategy = .spawn
        · refine ⟨by simp [Built.resume, hst], Or.inr ⟨r, a.tree, rfl, hst, hfe, by simp [Built.resume, hst]⟩⟩
        · refine ⟨by simp [Built.resume, hst], Or.inl ?_⟩
          simp [Built.resume, hst, Report.Nothing]

/-- **C28** (resume) The reasons in the order in which they are looked for: the saved state cannot be loaded, an option
fails. Nothing else happens. -/
theorem C28_resume_errors (P : Platform κ) (r : Relic κ) (settings : List (Option (Setting κ)))
    (files : String → Except Err Json) (disk : Disk) (x : κ) :
    (∀ e, unmarshal P (files r.from) = .error e → (walkResume P (.relic r) settings files disk x).Nothing (.load e) x) ∧
    (∀ o s e, unmarshal P (files r.from) = .ok (o, s) → (bindOptions o settings).2 = some e →
      (walkResume P (.relic r) settings files disk x).Nothing (.option e) x) := by
  constructor
  · intro e h
    simp only [walkResume, resumePlatform, h]
    exact ⟨rfl, rfl, rfl, rfl⟩
  · intro o s e h1 h2
    have h2' : bindOptions o settings = ((bindOptions o settings).1, some e) := by rw [← h2]
    simp only [walkResume, resumePlatform, h1]
    rw [h2']
    exact ⟨rfl, rfl, rfl, rfl⟩

/-- **C29** (resume) The facade of a primary session is refused. -/
theorem C29_using_refused_partial (P : Platform κ) (u : Using κ) (settings : List (Option (Setting κ)))
    (files : String → Except Err Json) (disk : Disk) (x : κ) :
    (walkResume P (.using u) settings files disk x).Nothing .wrongResumeFacade x := ⟨rfl, rfl, rfl, rfl⟩

/-- **C29, what is false of resume facades**: a facade without handler or without strategy is refused with an error only
if it would be refused, with the same error, had it both. -/
theorem C29_relic_unchecked (P : Platform κ) (r : Relic κ) (settings : List (Option (Setting κ)))
    (files : String → Except Err Json) (disk : Disk) (x : κ) (h : Option (κ → Parcel → κ × Reply)) (st : Strategy) (e : BuildErr) :
    (walkResume P (.relic { r with handler := h, strategy := st }) settings files disk x).verdict = .unbuilt e ↔
    (walkResume P (.relic r) settings files disk x).verdict = .unbuilt e := by
  have key : ∀ (r' : Relic κ), (walkResume P (.relic r') settings files disk x).verdict = .unbuilt e ↔
      (resumePlatform P r' settings (files r'.from) = .error e ∨
        ∃ o a, resumePlatform P r' settings (files r'.from) = .ok (o, a) ∧
          (buildRest P a.sub none o.afterwards = .hades e ∨ ∃ o', buildRest P a.sub none o.afterwards = .stillborn e o')) := by
    intro r'
    have hb : ∀ (sub : Subscription) (o : Options κ) res,
        (buildRest P sub res o = .hades e ∨ ∃ o', buildRest P sub res o = .stillborn e o') ↔
        (buildRest P sub none o = .hades e ∨ ∃ o', buildRest P sub none o = .stillborn e o') := by
      intro sub o res
      unfold buildRest
      split
      · rfl
      · split
        · rfl
        · rfl
        · split
          · rfl
          · rfl
          · simp
    simp only [walkResume]
    cases hp : resumePlatform P r' settings (files r'.from) with
    | error e' => simp
    | ok p =>
      obtain ⟨o, a⟩ := p
      simp only [reduceCtorEq, Except.ok.injEq, Prod.mk.injEq, false_or]
      constructor
      · intro hv
        exact ⟨o, a, ⟨rfl, rfl⟩, (hb _ _ _).1 (resume_verdict hv)⟩
      · rintro ⟨o1, a1, ⟨rfl, rfl⟩, hv⟩
        rcases (hb _ _ (some r'.strategy)).2 hv with hv | ⟨o', hv⟩
        · rw [hv]; rfl
        · rw [hv]; simp only [Built.resume]; split <;> rfl
  have hsame : resumePlatform P { r with handler := h, strategy := st } settings (files r.from) =
      resumePlatform P r settings (files r.from) := rfl
  rw [key, key]
  exact Iff.of_eq (congrArg (fun q => q = .error e ∨ ∃ o a, q = .ok (o, a) ∧
    (buildRest P a.sub none o.afterwards = .hades e ∨ ∃ o', buildRest P a.sub none o.afterwards = .stillborn e o')) hsame)

/-! ### A session that ran -/

/-- A resume that did not fail to be built, and did not crash, navigated. -/
theorem resume_done {P : Platform κ} {r : Relic κ} {settings files disk} {x : κ} {e}
    (hd : (walkResume P (.relic r) settings files disk x).verdict = .done e) :
    ∃ o o' s S o2, unmarshal P (files r.from) = .ok (o, s) ∧ bindOptions o settings = (o', none) ∧
      buildRest P s.active.sub (some r.strategy) o'.afterwards = .ready S o2 ∧
      walkResume P (.relic r) settings files disk x =
        (Built.ready S o2).resume r.strategy (r.handler.getD (fun k _ => (k, .panic))) disk s.active x := by
  simp only [walkResume] at hd ⊢
  cases hp : resumePlatform P r settings (files r.from) with
  | error e' => simp [hp] at hd
  | ok p =>
    obtain ⟨o', a⟩ := p
    obtain ⟨o, s, h1, rfl, h2, _⟩ := platform_ok hp
    simp only [hp] at hd ⊢
    cases hb : buildRest P s.active.sub (some r.strategy) o'.afterwards with
    | crash => simp [hb, Built.resume] at hd
    | hades e' => simp [hb, Built.resume] at hd
    | stillborn e' o2 => simp only [hb, Built.resume] at hd; split at hd <;> simp at hd
    | ready S o2 => exact ⟨o, o', s, S, o2, h1, h2, hb, rfl⟩

/-- The report of a session that ended, by its last state. -/
theorem resume_ready {S : Setup} {o : Options κ} {st h disk a} {x : κ} {e}
    (hd : ((Built.ready S o).resume st h disk a x).verdict = .done e) :
    let C := o.client h
    let w := (S.world x (if st = .spawn then a.metrics else fun _ => none)).publish C (.begin a.tree)
    let s := (resumeRun S o C disk st a w).2.2
    (Built.ready S o).resume st h disk a x =
      { verdict := .done e, client := (s.ext.publish C .ended).client, tape := (s.ext.publish C .ended).tape
        hits := s.ext.hits, metrics := s.ext.metrics, complete := (resumeRun S o C disk st a w).2.1 } := by
  intro C w s
  simp only [Built.resume] at hd ⊢
  rcases hr : resumeRun S o (o.client h) disk st a
    ((S.world x (if st = .spawn then a.metrics else fun _ => none)).publish (o.client h) (.begin a.tree)) with ⟨_ | _, c, s'⟩
  · rw [hr] at hd
    simp only [Verdict.done.injEq] at hd
    subst hd
    simp only [s, C, w, hr, Report.mk.injEq, true_and, and_true]
    exact ⟨by simp, by simp⟩
  · rw [hr] at hd
    simp at hd

/-- **C46** Spawn: at the end of the session the invocation counters are the saved values plus the handler calls of the
resume. (The full claim covers both strategies; see `C46_fastward_forgets`.) -/
theorem C46_spawn_partial (P : Platform κ) (r : Relic κ) (settings : List (Option (Setting κ)))
    (files : String → Except Err Json) (disk : Disk) (x : κ) (o : Options κ) (s : Saved)
    (hl : unmarshal P (files r.from) = .ok (o, s)) (hst : r.strategy = .spawn) (e : Option Err)
    (hd : (walkResume P (.relic r) settings files disk x).verdict = .done e) (dir : Bool) :
    let rep := walkResume P (.relic r) settings files disk x
    rep.metrics.count (invokedMetric dir) =
      s.active.metrics.count (invokedMetric dir) + ofKind dir (rep.hits.map (fun h => h.parcel.node)) := by
  obtain ⟨o1, o', s', S, o2, h1, -, -, hw⟩ := resume_done hd
  rw [hl] at h1
  cases h1
  rw [hw] at hd ⊢
  rw [resume_ready hd]
  refine (resumeRun_inv (counts_preserved S _ _ _ (fun d => s.active.metrics.count (invokedMetric d))) (fault_counts o2 _) disk
    r.strategy _ ?_).now dir
  intro d
  simp only [hst, if_true]
  exact (CountsOK.start S x s.active.metrics).same (by simp) (by simp)

/-- **C46, what is false of fastward**: the counters hold the calls of the resume only. -/
theorem C46_fastward_forgets (P : Platform κ) (r : Relic κ) (settings : List (Option (Setting κ)))
    (files : String → Except Err Json) (disk : Disk) (x : κ) (hst : r.strategy ≠ .spawn) (e : Option Err)
    (hd : (walkResume P (.relic r) settings files disk x).verdict = .done e) (dir : Bool) :
    let rep := walkResume P (.relic r) settings files disk x
    rep.metrics.count (invokedMetric dir) = ofKind dir (rep.hits.map (fun h => h.parcel.node)) := by
  obtain ⟨o1, o', s', S, o2, h1, -, -, hw⟩ := resume_done hd
  rw [hw] at hd ⊢
  rw [resume_ready hd]
  have := (resumeRun_inv (a := s'.active) (C := o2.client (r.handler.getD (fun k _ => (k, .panic))))
    (counts_preserved S _ _ _ (fun d => Metrics.count (fun _ => none) (invokedMetric d))) (fault_counts o2 _) disk
    r.strategy ((S.world x (fun _ => none)).publish (o2.client (r.handler.getD (fun k _ => (k, .panic)))) (.begin s'.active.tree))
    (fun d => (CountsOK.start S x (fun _ => none)).same (by simp) (by simp))).now dir
  simp only [hst, if_false]
  rw [this]
  simp [Metrics.count, World.called]

theorem world_muted (S : Setup) (x : κ) (m : Metrics) (e) :
    (S.world x m).muted e = decide (S.resume = some .fastward ∨ S.resume = some .undefined) := rfl

/-- **C27** Spawn: Begin comes first, with the saved tree path, and once; End comes last, and once. -/
theorem C27_spawn_partial (P : Platform κ) (r : Relic κ) (settings : List (Option (Setting κ)))
    (files : String → Except Err Json) (disk : Disk) (x : κ) (o : Options κ) (s : Saved)
    (hl : unmarshal P (files r.from) = .ok (o, s)) (hst : r.strategy = .spawn) (e : Option Err)
    (hd : (walkResume P (.relic r) settings files disk x).verdict = .done e) :
    ∃ mid, (walkResume P (.relic r) settings files disk x).tape = .note (.begin s.active.tree) :: mid ++ [.note .ended] ∧
      ∀ o ∈ mid, o.isBegin = false ∧ o.isEnd = false := by
  obtain ⟨o1, o', s', S, o2, h1, -, hb, hw⟩ := resume_done hd
  rw [hl] at h1
  cases h1
  have hS := (buildRest_resume hb).1
  rw [hw] at hd ⊢
  rw [resume_ready hd]
  simp only [hst, if_true]
  generalize hC : o2.client (r.handler.getD (fun k _ => (k, .panic))) = C
  have hl0 : ∀ ev, (S.world x s.active.metrics).muted ev = false := by intro ev; simp [world_muted, hS, hst]
  generalize hw0 : (S.world x s.active.metrics).publish C (.begin s.active.tree) = w
  have hl1 : w.loud .ended := by unfold World.loud; rw [← hw0, publish_muted]; exact hl0 _
  have ht : w.tape = [.note (.begin s.active.tree)] := by
    rw [← hw0]; simp only [World.publish, Note.ev, hl0]; rfl
  have h2 := resumeRun_inv (loud_preserved S C s.active.tree s.active.currentPath .ended) (fault_loud o2 .ended) disk .spawn w
    (fun _ => hl1)
  have h3 := resumeRun_inv (inner_preserved S C s.active.tree s.active.currentPath w.tape) (fault_inner o2 _) disk .spawn w
    (fun _ => ⟨[], by simp, by simp⟩)
  obtain ⟨mid, h3, h4⟩ := h3
  refine ⟨mid, ?_, fun o ho => (inner_iff o).1 (h4 o ho)⟩
  unfold World.loud at h2
  simp [World.publish, Note.ev, h2, h3, ht]

/-- **C27, what is false of fastward**: Begin is never published. End may be, last. -/
theorem C27_fastward_no_begin (P : Platform κ) (r : Relic κ) (settings : List (Option (Setting κ)))
    (files : String → Except Err Json) (disk : Disk) (x : κ) (hst : r.strategy ≠ .spawn) (e : Option Err)
    (hd : (walkResume P (.relic r) settings files disk x).verdict = .done e) :
    ∃ mid last, (walkResume P (.relic r) settings files disk x).tape = mid ++ last ∧ (last = [] ∨ last = [.note .ended]) ∧
      ∀ o ∈ mid, o.isBegin = false ∧ o.isEnd = false := by
  obtain ⟨o1, o', s', S, o2, h1, -, hb, hw⟩ := resume_done hd
  have hS := (buildRest_resume hb).1
  rw [hw] at hd ⊢
  rw [resume_ready hd]
  simp only [hst, if_false]
  generalize hC : o2.client (r.handler.getD (fun k _ => (k, .panic))) = C
  have hl0 : ∀ ev, (S.world x (fun _ => none)).muted ev = true := by
    intro ev
    rw [world_muted, hS]
    cases hq : r.strategy <;> simp_all
  generalize hw0 : (S.world x (fun _ => none)).publish C (.begin s'.active.tree) = w
  have ht : w.tape = [] := by
    rw [← hw0]; simp only [World.publish, Note.ev, hl0]; rfl
  have h3 := resumeRun_inv (inner_preserved S C s'.active.tree s'.active.currentPath w.tape) (fault_inner o2 _) disk r.strategy w
    (fun _ => ⟨[], by simp, by simp⟩)
  obtain ⟨mid, h3, h4⟩ := h3
  rw [ht] at h3
  refine ⟨mid, if (resumeRun S o2 C disk r.strategy s'.active w).2.2.ext.muted .ended then [] else [.note .ended], ?_, ?_,
    fun o ho => (inner_iff o).1 (h4 o ho)⟩
  · simp only [World.publish, Note.ev]
    split
    · rename_i hh; simp [hh, h3]
    · rename_i hh; simp [hh, h3]
  · split <;> simp

/-! ### Cases -/

/-- A saved universal session on the demo tree, stopped in /r/c (by a panic of the handler at /r/c/w). -/
def toyStopped : Saved where
  active := { tree := ["r"], sub := .universal, hibernation := .retired, currentPath := ["r", "c"], isDir := true, depth := 1,
              metrics := fun k => match k with
                | .filesInvoked => some 4 | .dirsInvoked => some 4 | .childFound => some 0 | _ => none }
  traverseRelative := false
  resumeRelative := false

/-- Where it was saved. -/
def toyFiles (s : Saved) : String → Except Err Json := fun p =>
  if p = "saved.json" then (match marshal (defaultOptions toyPlatform) s with | .ok d => .ok d | .error _ => .error (.code 5))
  else .error (.code 2)

/-- The disk with the demo tree, every path of it found. -/
def toyDiskAll : Disk := fun p =>
  match p with
  | ["r"] => .ok Demo.fs
  | ["r", "a"] => .ok (.dir "a" none none [.file "x" none none, .dir "b" none none [.file "y" none none, .file "z" none none]])
  | ["r", "c"] => .ok (.dir "c" none none [.file "w" none none])
  | ["r", "c", "w"] => .ok (.file "w" none none)
  | ["r", "f"] => .ok (.file "f" none none)
  | ["r", "g"] => .ok (.file "g" none none)
  | _ => .error (.code 2)

def toyRelic (st : Strategy) : Relic Nat where
  handler := some (fun k _ => (k + 1, .ok none))
  «from» := "saved.json"
  strategy := st

def shortTape (t : List Obs) : List (String × Path) :=
  t.filterMap fun o => match o with
    | .note (.begin p) => some ("begin", p) | .note .ended => some ("end", []) | .note _ => none | .call n => some ("call", n.path)

example :
    let r := walkResume toyPlatform (.relic (toyRelic .spawn)) [] (toyFiles toyStopped) toyDiskAll 0
    r.verdict = .done none ∧ r.complete = true ∧
    shortTape r.tape = [("begin", ["r"]), ("call", ["r", "c"]), ("call", ["r", "c", "w"]), ("call", ["r", "f"]), ("call", ["r", "g"]),
      ("end", [])] ∧
    r.metrics.count .filesInvoked = 7 ∧ r.metrics.count .dirsInvoked = 5 := by
  decide +kernel

example :
    let r := walkResume toyPlatform (.relic (toyRelic .fastward)) [] (toyFiles toyStopped) toyDiskAll 0
    r.verdict = .done none ∧
    shortTape r.tape = [("call", ["r", "c"]), ("call", ["r", "c", "w"]), ("call", ["r", "f"]), ("call", ["r", "g"]), ("end", [])] ∧
    r.metrics.count .filesInvoked = 3 ∧ r.metrics.count .dirsInvoked = 1 := by
  decide +kernel

/-- No handler: accepted, and a panic on the first call. -/
example :
    let r := walkResume toyPlatform (.relic { toyRelic .spawn with handler := none }) [] (toyFiles toyStopped) toyDiskAll 0
    r.verdict = .panic := by
  decide +kernel

/-- Mismatches, and a file that is not there. -/
example :
    (walkResume toyPlatform (.relic (toyRelic .spawn)) [] (toyFiles { toyStopped with traverseRelative := true }) toyDiskAll 0).verdict
      = .unbuilt .traverseFsMismatch ∧
    (walkResume toyPlatform (.relic { toyRelic .spawn with forest := some (fun _ => some (false, true)) }) []
      (toyFiles toyStopped) toyDiskAll 0).verdict = .unbuilt .resumeFsMismatch ∧
    (walkResume toyPlatform (.relic { toyRelic .spawn with «from» := "" }) [] (toyFiles toyStopped) toyDiskAll 0).verdict
      = .unbuilt (.load (.io (.code 2))) := by
  decide +kernel

end Traverse
