import Verif.Proofs.Frail
import Verif.Props.Spawn
/-
C67 for whole sessions: listeners of all six notifications, hooks, fault, skip and panic handlers may panic.
-/
namespace Traverse
variable {σ κ : Type}

/-! ### Callbacks that do not panic -/

/-- Only listeners of End panic. -/
def Frail.AtEnd (F : Frail κ) : Prop := ∃ g : κ → Option κ, F = { listener := fun k n => if n = .ended then g k else none }

theorem Frail.AtEnd.none : Frail.AtEnd ({} : Frail κ) := ⟨fun _ => .none, by simp⟩

theorem notify_none {F : Frail κ} (hF : F.AtEnd) (C : Client κ) (w : World κ) (n : Note) (hn : n ≠ .ended) :
    w.notify C F n = (w.publish C n, false) := by
  obtain ⟨g, rfl⟩ := hF
  unfold World.notify World.publish
  split
  · rfl
  · simp [hn]

theorem note_ne_ended {h : HiberOpts} {s : Hib} {p : Node} {n : Note} (hn : h.note s p = some n) : n ≠ .ended := by
  unfold HiberOpts.note at hn
  rintro rfl
  cases s <;> simp only at hn <;> first | cases hn | (split at hn <;> simp at hn)

theorem linkF_none {F : Frail κ} (hF : F.AtEnd) (S : Setup) (C : Client κ) (target : Path) :
    World.linkF S C F target = World.link S C target := by
  funext w r
  unfold World.linkF World.link
  have : linkOfF S C F target r = linkOf S C target r := by
    cases r <;> try rfl
    simp only [linkOfF, linkOf, Option.some.injEq]
    funext w p
    unfold hiberLinkF hiberLink
    split
    · rfl
    · cases hn : S.hiber.note w.hib p.node with
      | none => rfl
      | some n => simp only [notify_none hF C w n (note_ne_ended hn)]
  rw [this]

theorem mortal_none {F : Frail κ} (hF : F.AtEnd) (S : Setup) (C : Client κ) (tree target : Path) :
    S.mortal C F tree target = (S.env C tree target).mortal := by
  have h1 : World.invokeF S C F target = World.invoke S C target := by
    funext w n
    unfold World.invokeF
    cases hp : w.guard.positions with
    | none => rfl
    | some ps => simp only [World.invoke, hp, linkF_none hF]
  have h2 : ∀ (w : World κ) p d, w.notify C F (.descend p d) = (w.publish C (.descend p d), false) := fun w p d => notify_none hF C w _ (by simp)
  have h3 : ∀ (w : World κ) p d, w.notify C F (.ascend p d) = (w.publish C (.ascend p d), false) := fun w p d => notify_none hF C w _ (by simp)
  unfold Setup.mortal Env.mortal
  rw [h1]
  simp only [h2, h3]
  obtain ⟨g, rfl⟩ := hF
  rfl

theorem topM_none (c : Nav) (env : Env σ) (fault : σ → Path → Err → σ × Option Err)
    (faultM : σ → Path → Err → σ × Option (Option Err)) (hf : ∀ x p e, faultM x p e = ((fault x p e).1, some (fault x p e).2))
    (pre tp : Path) (r : RootStat) (s : St σ) (q : MSt σ) (hm : Match s q) :
    (topM c env.mortal (fun _ _ => false) faultM pre tp r q).1 = (top c env fault pre tp r s).1 ∧
    Match (top c env fault pre tp r s).2 (topM c env.mortal (fun _ _ => false) faultM pre tp r q).2 := by
  simp only [topM, Bool.false_eq_true, if_false]
  cases r with
  | error e =>
    simp only [hf, top, hm.ext]
    exact ⟨trivial, hm.depth, rfl, hm.log⟩
  | found t =>
    obtain ⟨h1, h2⟩ := traverseM_mortal c env t [] pre s q hm
    exact ⟨congrArg Out.final h1, h2⟩

theorem seedM_none (c : Nav) (env : Env σ) (fault : σ → Path → Err → σ × Option Err)
    (faultM : σ → Path → Err → σ × Option (Option Err)) (hf : ∀ x p e, faultM x p e = ((fault x p e).1, some (fault x p e).2))
    (stat : Path → RootStat) (parent : Path) (ns : List String) : ∀ (s : St σ) (q : MSt σ), Match s q →
    (seedM c env.mortal (fun _ _ => false) faultM stat parent ns q).1 = (seed c env fault stat parent ns s).1 ∧
    Match (seed c env fault stat parent ns s).2 (seedM c env.mortal (fun _ _ => false) faultM stat parent ns q).2 := by
  induction ns with
  | nil => intro s q hm; exact ⟨rfl, hm⟩
  | cons n ns ih =>
    intro s q hm
    rw [seedM, seed]
    have h := topM_none c env fault faultM hf parent (parent ++ [n]) (stat (parent ++ [n])) s q hm
    rcases hT : topM c env.mortal (fun _ _ => false) faultM parent (parent ++ [n]) (stat (parent ++ [n])) q with ⟨f, q1⟩
    rcases hT' : top c env fault parent (parent ++ [n]) (stat (parent ++ [n])) s with ⟨f', s1⟩
    rw [hT, hT'] at h
    obtain ⟨h, h1⟩ := h
    simp only at h h1
    subst h
    rcases f with (_ | _) | _ <;> simp only
    · exact ih s1 q1 h1
    · exact ⟨trivial, h1⟩
    · exact ⟨trivial, h1⟩

theorem crownM_none (c : Nav) (env : Env σ) (fault : σ → Path → Err → σ × Option Err)
    (faultM : σ → Path → Err → σ × Option (Option Err)) (hf : ∀ x p e, faultM x p e = ((fault x p e).1, some (fault x p e).2))
    (stat : Path → RootStat) (disk : Disk) (tree : Path) (rp : List String) : ∀ inc (s : St σ) (q : MSt σ), Match s q →
    (crownM c env.mortal (fun _ _ => false) faultM stat disk tree rp inc q).1 = (crown c env fault stat disk tree rp inc s).1 ∧
    (crownM c env.mortal (fun _ _ => false) faultM stat disk tree rp inc q).2.1 = (crown c env fault stat disk tree rp inc s).2.1 ∧
    Match (crown c env fault stat disk tree rp inc s).2.2 (crownM c env.mortal (fun _ _ => false) faultM stat disk tree rp inc q).2.2 := by
  induction rp with
  | nil => intro inc s q hm; rw [crownM, crown]; split <;> exact ⟨rfl, rfl, hm⟩
  | cons child rp ih =>
    intro inc s q hm
    rw [crownM, crown]
    split
    · exact ⟨rfl, rfl, hm⟩
    · simp only [Env.mortal, Bool.false_eq_true, if_false]
      cases following c disk rp.reverse child inc with
      | error e => exact ⟨rfl, rfl, hm⟩
      | ok names =>
        simp only
        have h := seedM_none c env fault faultM hf stat rp.reverse names s q hm
        have ih := ih false
        simp only [Env.mortal] at h ih
        rcases hT : seedM c _ (fun _ _ => false) faultM stat rp.reverse names q with ⟨f, q1⟩
        rcases hT' : seed c env fault stat rp.reverse names s with ⟨f', s1⟩
        rw [hT, hT'] at h
        obtain ⟨h, h1⟩ := h
        simp only at h h1
        subst h
        rcases f with (_ | _) | _ <;> simp only
        · exact ih s1 q1 h1
        · exact ⟨trivial, trivial, h1⟩
        · exact ⟨trivial, trivial, h1⟩

theorem notify_calm0 (C : Client κ) (w : World κ) (n : Note) : w.notify C {} n = (w.publish C n, false) := by
  unfold World.notify World.publish
  split <;> rfl

theorem navigateF_none (b : Built κ) (h : κ → Parcel → κ × Reply) (disk : Disk) (tree : Path) (x : κ) :
    b.navigateF {} h disk tree x = b.navigate h disk tree x := by
  cases b with
  | crash => rfl
  | hades e => rfl
  | stillborn e o => rfl
  | ready S o =>
    simp only [Built.navigateF, Built.navigate, notify_calm0, runTopF, runTop, mortal_none .none]
    have := topM_none S.nav (S.env (o.client h) tree []) o.fault (o.faultF {}) (fun _ _ _ => rfl) tree.dropLast tree
      (statOf S.nav o disk tree) ⟨0, (S.world x fun _ => none).publish (o.client h) (.begin tree), []⟩
      ⟨0, (S.world x fun _ => none).publish (o.client h) (.begin tree), []⟩ ⟨rfl, rfl, rfl⟩
    obtain ⟨h1, h2⟩ := this
    simp only [h1, h2.ext]
    rfl

theorem resumeF_none (b : Built κ) (strategy : Strategy) (h : κ → Parcel → κ × Reply) (disk : Disk) (a : Active) (x : κ) :
    b.resumeF {} strategy h disk a x = b.resume strategy h disk a x := by
  cases b with
  | crash => rfl
  | hades e => rfl
  | stillborn e o => rfl
  | ready S o =>
    simp only [Built.resumeF, Built.resume, notify_calm0]
    generalize (S.world x _).publish (o.client h) (.begin a.tree) = w
    have key : ∀ strategy, (resumeRunF S o (o.client h) {} disk strategy a w).1 = (resumeRun S o (o.client h) disk strategy a w).1 ∧
        (resumeRunF S o (o.client h) {} disk strategy a w).2.1 = (resumeRun S o (o.client h) disk strategy a w).2.1 ∧
        Match (resumeRun S o (o.client h) disk strategy a w).2.2 (resumeRunF S o (o.client h) {} disk strategy a w).2.2 := by
      have top := topM_none S.nav (S.env (o.client h) a.tree a.currentPath) o.fault (o.faultF {}) (fun _ _ _ => rfl) a.tree.dropLast a.tree
        (statOf S.nav o disk a.tree) ⟨0, w, []⟩ ⟨0, w, []⟩ ⟨rfl, rfl, rfl⟩
      have crn := crownM_none S.nav (S.env (o.client h) a.tree a.currentPath) o.fault (o.faultF {}) (fun _ _ _ => rfl)
        (statOf S.nav o disk) disk a.tree a.currentPath.reverse true ⟨a.depth, w, []⟩ ⟨a.depth, w, []⟩ ⟨rfl, rfl, rfl⟩
      intro strategy
      cases strategy with
      | spawn => simp only [resumeRunF, resumeRun, mortal_none .none]; exact crn
      | _ => simp only [resumeRunF, resumeRun, runTopF, runTop, mortal_none .none]; exact ⟨top.1, trivial, top.2⟩
    obtain ⟨h1, h2, h3⟩ := key strategy
    rcases hA : resumeRunF S o (o.client h) {} disk strategy a w with ⟨f, b, q⟩
    rcases hB : resumeRun S o (o.client h) disk strategy a w with ⟨f', b', s⟩
    rw [hA, hB] at h1 h2 h3
    simp only at h1 h2 h3
    subst h1 h2
    cases f <;> simp only [h3.ext]

/-- **C67** The sessions of the API are among these: with callbacks that do not panic they are the sessions of the other
properties. -/
theorem C67_prime (P : Platform κ) (facade : Facade κ) (settings : List (Option (Setting κ))) (disk : Disk) (x : κ) :
    walkPrimeF P {} facade settings disk x = walkPrime P facade settings disk x := by
  cases facade <;> simp only [walkPrimeF, walkPrime, navigateF_none]

/-- **C67** The same for resumes. -/
theorem C67_resume (P : Platform κ) (facade : Facade κ) (settings : List (Option (Setting κ))) (files : String → Except Err Json)
    (disk : Disk) (x : κ) : walkResumeF P {} facade settings files disk x = walkResume P facade settings files disk x := by
  cases facade with
  | «using» u => rfl
  | relic r =>
    simp only [walkResumeF, walkResume]
    cases resumePlatform P r settings (files r.from) with
    | error e => rfl
    | ok v => simp only [resumeF_none]

/-! ### Callbacks that do -/

/-- The verdict says that something panicked: a panic leaves Navigate, or the error is that of a panic which was caught. -/
def Verdict.Alarming : Verdict → Prop
  | .panic => True
  | .done (some e) => ∃ r : Rescue, e = r.err
  | _ => False

/-- How two reports compare: the calls of the first are among those of the second, in order from the start; and they are
the same report, or the first tells of a panic. -/
def Beside (a b : Report κ) : Prop := a.hits <+: b.hits ∧ (a = b ∨ a.verdict.Alarming)

theorem Beside.rfl' (a : Report κ) : Beside a a := ⟨List.prefix_refl _, .inl rfl⟩

/-- What driver.Navigate makes of a run, with and without panics of End's listeners. -/
theorem close_beside (C : Client κ) (F : Frail κ) (f f' : Final) (w w' : World κ) (c c' : Bool)
    (hp : w.hits <+: w'.hits)
    (hv : (f = f' ∧ w = w' ∧ c = c') ∨ f = .panic ∨ ∃ r : Rescue, f = .done (some r.err)) :
    Beside
      (match f with
        | .panic => { verdict := .panic, client := w.client, tape := w.tape, hits := w.hits }
        | .done e =>
          match w.notify C F .ended with
          | (w', true) => { verdict := .panic, client := w'.client, tape := w'.tape, hits := w'.hits }
          | (w', false) =>
            { verdict := .done e, client := w'.client, tape := w'.tape, hits := w'.hits, metrics := w'.metrics, complete := c })
      (match f' with
        | .panic => { verdict := .panic, client := w'.client, tape := w'.tape, hits := w'.hits }
        | .done e =>
          let w' := w'.publish C .ended
          { verdict := .done e, client := w'.client, tape := w'.tape, hits := w'.hits, metrics := w'.metrics, complete := c' } : Report κ) := by
  have hb : w.hits <+: (match f' with
        | .panic => { verdict := .panic, client := w'.client, tape := w'.tape, hits := w'.hits }
        | .done e =>
          let w' := w'.publish C .ended
          { verdict := .done e, client := w'.client, tape := w'.tape, hits := w'.hits, metrics := w'.metrics, complete := c' } : Report κ).hits := by
    cases f' with
    | panic => exact hp
    | done e => simp only; rw [publish_hits']; exact hp
  cases f with
  | panic => exact ⟨hb, .inr trivial⟩
  | done e =>
    have hh := notify_hits C F w .ended
    have hc := notify_calm (C := C) (F := F) (w := w) (n := .ended)
    rcases hN : w.notify C F .ended with ⟨w1, b⟩
    rw [hN] at hh hc
    simp only at hh hc
    cases b with
    | true => exact ⟨by simp only; rw [hh]; exact hb, .inr trivial⟩
    | false =>
      refine ⟨by simp only; rw [hh]; exact hb, ?_⟩
      rcases hv with ⟨rfl, rfl, rfl⟩ | hv | ⟨r, hv⟩
      · exact .inl (by simp only [hc])
      · cases hv
      · cases hv; exact .inr ⟨r, rfl⟩

theorem navigateF_beside (b : Built κ) (F : Frail κ) (h : κ → Parcel → κ × Reply) (disk : Disk) (tree : Path) (x : κ) :
    Beside (b.navigateF F h disk tree x) (b.navigate h disk tree x) := by
  cases b with
  | crash => exact .rfl' _
  | hades e => exact .rfl' _
  | stillborn e o =>
    simp only [Built.navigateF, Built.navigate]
    cases F.listener x (.begin tree) with
    | some k => exact ⟨List.prefix_refl _, .inr trivial⟩
    | none =>
      simp only
      cases F.listener ((o.client h).listen x (.begin tree)) .ended with
      | some k => exact ⟨List.prefix_refl _, .inr trivial⟩
      | none => exact .rfl' _
  | ready S o =>
    simp only [Built.navigateF]
    have hh := notify_hits (o.client h) F (S.world x fun _ => none) (.begin tree)
    have hc := notify_calm (C := o.client h) (F := F) (w := S.world x fun _ => none) (n := .begin tree)
    rcases hN : (S.world x fun _ => none).notify (o.client h) F (.begin tree) with ⟨w, bb⟩
    rw [hN] at hh hc
    cases bb with
    | true => exact ⟨by simp only; simp only at hh; rw [hh]; exact List.nil_prefix, .inr trivial⟩
    | false =>
      have hc := hc rfl
      simp only at hc
      subst hc
      simp only [Built.navigate]
      have := topM_sim (mortal_extends S (o.client h) F tree []) (mortal_watched S (o.client h) F tree []) (fault_faulty o F)
        (fun w => F.query w.client) S.nav tree.dropLast tree (statOf S.nav o disk tree)
        (s := ⟨0, (S.world x fun _ => none).publish (o.client h) (.begin tree), []⟩)
        (q := ⟨0, (S.world x fun _ => none).publish (o.client h) (.begin tree), []⟩) ⟨rfl, rfl, rfl⟩
      simp only [runTopF, runTop]
      rcases hA : topM S.nav (S.mortal (o.client h) F tree []) (fun w => F.query w.client) (o.faultF F) tree.dropLast tree
        (statOf S.nav o disk tree) ⟨0, (S.world x fun _ => none).publish (o.client h) (.begin tree), []⟩ with ⟨f, q⟩
      rcases hB : top S.nav (S.env (o.client h) tree []) o.fault tree.dropLast tree (statOf S.nav o disk tree)
        ⟨0, (S.world x fun _ => none).publish (o.client h) (.begin tree), []⟩ with ⟨f', s⟩
      rw [hA, hB] at this
      have hv : (f = f' ∧ q.ext = s.ext ∧ true = true) ∨ f = .panic ∨ ∃ r : Rescue, f = .done (some r.err) := by
        rcases this with ⟨h1, h2⟩ | ⟨h1, -⟩
        · exact .inl ⟨h1, h2.ext.symm, rfl⟩
        · exact .inr h1
      have := close_beside (o.client h) F f f' q.ext s.ext true true this.prefix hv
      cases f <;> cases f' <;> exact this

theorem resumeF_beside (b : Built κ) (F : Frail κ) (strategy : Strategy) (h : κ → Parcel → κ × Reply) (disk : Disk) (a : Active)
    (x : κ) : Beside (b.resumeF F strategy h disk a x) (b.resume strategy h disk a x) := by
  cases b with
  | crash => exact .rfl' _
  | hades e => exact .rfl' _
  | stillborn e o =>
    simp only [Built.resumeF, Built.resume]
    split
    · cases F.listener x (.begin a.tree) with
      | some k => exact ⟨List.prefix_refl _, .inr trivial⟩
      | none =>
        simp only
        cases F.listener ((o.client h).listen x (.begin a.tree)) .ended with
        | some k => exact ⟨List.prefix_refl _, .inr trivial⟩
        | none => exact .rfl' _
    · exact .rfl' _
  | ready S o =>
    simp only [Built.resumeF]
    generalize hw0 : S.world x _ = w0
    have hw0h : w0.hits = [] := by rw [← hw0]; rfl
    have hh := notify_hits (o.client h) F w0 (.begin a.tree)
    have hc := notify_calm (C := o.client h) (F := F) (w := w0) (n := .begin a.tree)
    rcases hN : w0.notify (o.client h) F (.begin a.tree) with ⟨w, bb⟩
    rw [hN] at hh hc
    cases bb with
    | true => exact ⟨by simp only; simp only at hh; rw [hh, hw0h]; exact List.nil_prefix, .inr trivial⟩
    | false =>
      have hc := hc rfl
      simp only at hc
      subst hc
      simp only [Built.resume, hw0]
      generalize w0.publish (o.client h) (.begin a.tree) = w
      have key : ∀ strategy,
          FSim World.hits ((resumeRunF S o (o.client h) F disk strategy a w).1, (resumeRunF S o (o.client h) F disk strategy a w).2.2)
            ((resumeRun S o (o.client h) disk strategy a w).1, (resumeRun S o (o.client h) disk strategy a w).2.2) ∧
          ((resumeRunF S o (o.client h) F disk strategy a w).1 = .panic ∨
            (∃ r : Rescue, (resumeRunF S o (o.client h) F disk strategy a w).1 = .done (some r.err)) ∨
            (resumeRunF S o (o.client h) F disk strategy a w).2.1 = (resumeRun S o (o.client h) disk strategy a w).2.1) := by
        have top := topM_sim (mortal_extends S (o.client h) F a.tree a.currentPath)
          (mortal_watched S (o.client h) F a.tree a.currentPath) (fault_faulty o F) (fun w => F.query w.client) S.nav a.tree.dropLast a.tree
          (statOf S.nav o disk a.tree) (s := ⟨0, w, []⟩) (q := ⟨0, w, []⟩) ⟨rfl, rfl, rfl⟩
        have crn := crownM_sim (mortal_extends S (o.client h) F a.tree a.currentPath)
          (mortal_watched S (o.client h) F a.tree a.currentPath) (fault_faulty o F) (fun w => F.query w.client) S.nav
          (statOf S.nav o disk) disk a.tree a.currentPath.reverse true ⟨a.depth, w, []⟩ ⟨a.depth, w, []⟩ ⟨rfl, rfl, rfl⟩
        intro strategy
        cases strategy with
        | spawn => exact crn
        | _ => exact ⟨top, .inr (.inr rfl)⟩
      obtain ⟨h1, h2⟩ := key strategy
      rcases hA : resumeRunF S o (o.client h) F disk strategy a w with ⟨f, b, q⟩
      rcases hB : resumeRun S o (o.client h) disk strategy a w with ⟨f', b', s⟩
      rw [hA, hB] at h1 h2
      have hv : (f = f' ∧ q.ext = s.ext ∧ b = b') ∨ f = .panic ∨ ∃ r : Rescue, f = .done (some r.err) := by
        rcases h2 with h2 | h2 | h2
        · exact .inr (.inl h2)
        · exact .inr (.inr h2)
        · rcases h1 with ⟨h3, h4⟩ | ⟨h3, -⟩
          · exact .inl ⟨h3, h4.ext.symm, h2⟩
          · exact .inr h3
      have := close_beside (o.client h) F f f' q.ext s.ext b b' h1.prefix hv
      cases f <;> cases f' <;> exact this

/-- **C67** Whatever panics, the handler is called for the nodes it would have been called for, with the same children and
metrics, in the same order and with the same answers, only perhaps not for all of them. -/
theorem C67_calls (P : Platform κ) (F : Frail κ) (facade : Facade κ) (settings : List (Option (Setting κ))) (disk : Disk) (x : κ) :
    (walkPrimeF P F facade settings disk x).hits <+: (walkPrime P facade settings disk x).hits := by
  cases facade <;> exact (navigateF_beside _ F _ disk _ x).1

/-- **C67** No panic goes unnoticed: unless a panic leaves Navigate or the error is that of a panic that was caught, the
session is in every respect (calls, notifications, metrics, completeness, state of the client) one in which no callback but
the handler panics. -/
theorem C67_noticed (P : Platform κ) (F : Frail κ) (facade : Facade κ) (settings : List (Option (Setting κ))) (disk : Disk) (x : κ)
    (h : ¬ (walkPrimeF P F facade settings disk x).verdict.Alarming) :
    walkPrimeF P F facade settings disk x = walkPrime P facade settings disk x := by
  cases facade <;> exact (navigateF_beside _ F _ disk _ x).2.resolve_right h

/-- Both for resumes. -/
theorem resume_beside (P : Platform κ) (F : Frail κ) (facade : Facade κ) (settings : List (Option (Setting κ)))
    (files : String → Except Err Json) (disk : Disk) (x : κ) :
    Beside (walkResumeF P F facade settings files disk x) (walkResume P facade settings files disk x) := by
  cases facade with
  | «using» u => exact .rfl' _
  | relic r =>
    simp only [walkResumeF, walkResume]
    cases resumePlatform P r settings (files r.from) with
    | error e => exact .rfl' _
    | ok v => exact resumeF_beside _ F _ _ disk _ x

/-- **C67** As C67_calls, for resumes. -/
theorem C67_resume_calls (P : Platform κ) (F : Frail κ) (facade : Facade κ) (settings : List (Option (Setting κ)))
    (files : String → Except Err Json) (disk : Disk) (x : κ) :
    (walkResumeF P F facade settings files disk x).hits <+: (walkResume P facade settings files disk x).hits :=
  (resume_beside P F facade settings files disk x).1

/-- **C67** As C67_noticed, for resumes. -/
theorem C67_resume_noticed (P : Platform κ) (F : Frail κ) (facade : Facade κ) (settings : List (Option (Setting κ)))
    (files : String → Except Err Json) (disk : Disk) (x : κ) (h : ¬ (walkResumeF P F facade settings files disk x).verdict.Alarming) :
    walkResumeF P F facade settings files disk x = walkResume P facade settings files disk x :=
  (resume_beside P F facade settings files disk x).2.resolve_right h

/-! ### Outside the recovery -/

/-- **C67, what is false** A panic of a listener of Begin leaves Navigate; nothing has been visited, nothing is saved. -/
theorem C67_begin_escapes (P : Platform κ) (F : Frail κ) (u : Using κ) (settings : List (Option (Setting κ))) (disk : Disk) (x k : κ)
    {S : Setup} {o : Options κ} (hb : buildPrimary P (.using u) settings = .ready S o) (hk : F.listener x (.begin u.tree) = some k) :
    walkPrimeF P F (.using u) settings disk x = { verdict := .panic, client := k, tape := [.note (.begin u.tree)] } := by
  have hr : S.resume = none := by
    revert hb
    unfold buildPrimary buildRest
    repeat' split
    all_goals intro hb; first | cases hb | skip
    rfl
  have hm : (S.world x fun _ => none).muted (Note.begin u.tree).ev = false := by simp [Setup.world, hr]
  have hN : (S.world x fun _ => none).notify (o.client (u.handler.getD fun k _ => (k, .ok none))) F (.begin u.tree) =
      ({ S.world x (fun _ => none) with client := k, tape := [.note (.begin u.tree)] }, true) := by
    unfold World.notify
    rw [hm]
    have : F.listener (S.world x fun _ => none).client (.begin u.tree) = some k := hk
    simp only [this]
    rfl
  simp only [walkPrimeF, hb, Built.navigateF, hN]
  rfl

/-- **C67, what is false** A panic of a listener of End leaves Navigate although the session is over: all calls were made,
all other notifications sent, and the result is lost. -/
theorem C67_end_escapes (P : Platform κ) (g : κ → κ) (u : Using κ) (settings : List (Option (Setting κ))) (disk : Disk) (x : κ)
    (e : Option Err) (h : (walkPrime P (.using u) settings disk x).verdict = .done e) :
    let F : Frail κ := { listener := fun k n => if n = .ended then some (g k) else none }
    let rep := walkPrimeF P F (.using u) settings disk x
    rep.verdict = .panic ∧ rep.hits = (walkPrime P (.using u) settings disk x).hits ∧
    rep.tape = (walkPrime P (.using u) settings disk x).tape := by
  intro F rep
  have hF : F.AtEnd := ⟨fun k => some (g k), rfl⟩
  simp only [rep]
  revert h
  simp only [walkPrimeF, walkPrime]
  generalize hhd : u.handler.getD _ = hd
  rcases hb : buildPrimary P (.using u) settings with _ | e' | ⟨e', o⟩ | ⟨S, o⟩
  · intro h; cases h
  · intro h; cases h
  · intro h; cases h
  · have hr : S.resume = none := by
      revert hb
      unfold buildPrimary buildRest
      repeat' split
      all_goals intro hb; first | cases hb | skip
      rfl
    simp only [Built.navigateF, Built.navigate, notify_none hF _ _ (.begin u.tree) (by simp), runTopF, runTop, mortal_none hF]
    have := topM_none S.nav (S.env (o.client hd) u.tree []) o.fault (o.faultF F) (fun _ _ _ => rfl) u.tree.dropLast u.tree
      (statOf S.nav o disk u.tree) ⟨0, (S.world x fun _ => none).publish (o.client hd) (.begin u.tree), []⟩
      ⟨0, (S.world x fun _ => none).publish (o.client hd) (.begin u.tree), []⟩ ⟨rfl, rfl, rfl⟩
    obtain ⟨h1, h2⟩ := this
    have hq : (fun w : World κ => F.query w.client) = fun _ _ => false := rfl
    rw [hq]
    simp only [h1, ← h2.ext]
    have hmut := runTop_loud S o (o.client hd) disk u.tree []
      ⟨0, (S.world x (fun _ => none)).publish (o.client hd) (.begin u.tree), []⟩ .ended (by
        unfold World.loud; rw [publish_muted]; simp [Setup.world, hr])
    simp only [runTop, World.loud] at hmut
    generalize top S.nav (S.env (o.client hd) u.tree []) o.fault _ _ _ _ = r at hmut ⊢
    intro h
    rcases hr1 : r.1 with ee | _
    · rw [hr1] at h
      simp only [World.notify, World.publish, Note.ev, hmut, F]
      exact ⟨rfl, rfl, rfl⟩
    · rw [hr1] at h; cases h

/-! ### Examples -/

/-- The demo session with the given listeners and panics, seen from outside: verdict, client (the number of handler calls, unless
a panic says otherwise), handler calls. -/
def seenF (F : Frail Nat) (settings : List (Option (Setting Nat))) : Verdict × Nat × List Path :=
  let r := walkPrimeF sortPlatform F (.using (toyUsing .universal)) settings (diskOf [] Demo.fs) 0
  (r.verdict, r.client, r.hits.map fun h => h.parcel.node.path)

/-- The session for comparison. -/
example : seenF {} [] = (.done none, 10, [["r"], ["r", "a"], ["r", "a", "b"], ["r", "a", "b", "y"], ["r", "a", "b", "z"], ["r", "a", "x"],
    ["r", "c"], ["r", "c", "w"], ["r", "f"], ["r", "g"]]) := by decide +kernel

/-- A listener of Wake panics when the session wakes at r/a/b: it is caught, the state is saved, and no handler is called. -/
example : seenF { listener := fun _ n => if n = .wake then some 77 else none }
    (settingsOf sortPlatform [some (.filterWake (some (.plain { type := .regex, pattern := "b" })))]) =
    (.done (some (.saved "dest")), 77, []) := by decide +kernel

/-- A listener of Descend panics at r/c; the panic handler panics too, and once more for the directory above: out it goes. -/
example : seenF { listener := fun _ n => if n = .descend ["r", "c"] true then some 5 else none, panics := fun k _ => some (k + 1) } [] =
    (.panic, 6, [["r"], ["r", "a"], ["r", "a", "b"], ["r", "a", "b", "y"], ["r", "a", "b", "z"], ["r", "a", "x"]]) := by decide +kernel

/-- Begin, End, the QueryStatus hook: nothing catches these. -/
example :
    seenF { listener := fun _ n => if n.ev = .begin then some 5 else none } [] = (.panic, 5, []) ∧
    (seenF { listener := fun _ n => if n = .ended then some 5 else none } []).1 = .panic ∧
    (seenF { listener := fun _ n => if n = .ended then some 5 else none } []).2.2.length = 10 ∧
    seenF { query := fun _ _ => true } [] = (.panic, 0, []) := by decide +kernel

/-- A spawned resume whose skip handler panics at r/c/w: what comes before is as without. -/
example :
    let files := savedFile (defaultOptions sortPlatform) (savedAt ["r"] ["r", "a"] .universal)
    let run F := walkResumeF sortPlatform F (.relic (toyRelic .spawn)) [] files (diskOf [] Demo.fs) 0
    let bad := run { skip := fun k n _ => if n.path = ["r", "c", "w"] then some k else none }
    (run {}).verdict = .done none ∧ (run {}).hits.length = 9 ∧
    bad.verdict = .done (some (.saved "dest")) ∧ bad.hits.length = 7 := by decide +kernel

end Traverse
