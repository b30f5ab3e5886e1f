import Verif.Proofs.Mortal2
import Verif.Props.Frail
import Verif.Props.Mortal
import Verif.Proofs.Bare
import Verif.Props.Api
/-
C67 for whole sessions, in terms of what the client's callbacks do: which panics stay inside Navigate and which leave it.
-/
namespace Traverse
variable {κ : Type}

/-- Nothing the client supplied panics when called for the root, nor at Begin and End. What it does for other nodes is open. -/
structure Frail.SparesRoot (F : Frail κ) (h : κ → Parcel → κ × Reply) (root : Path) : Prop where
  begins : ∀ k, F.listener k (.begin root) = none
  ends : ∀ k, F.listener k .ended = none
  descend : ∀ k d, F.listener k (.descend root d) = none
  ascend : ∀ k d, F.listener k (.ascend root d) = none
  hooks : ∀ k d, F.hooks k root d = false
  query : ∀ k, F.query k root = false
  skip : ∀ k (n : Node) re, n.path = root → F.skip k n re = none
  panics : ∀ k (a : Active), a.currentPath = root → F.panics k a = none
  handler : ∀ k (p : Parcel), p.node.path = root → (h k p).2 ≠ .panic

/-! ### The chain of a session without filters and hibernation -/

theorem iterate_linkF {S : Setup} {C : Client κ} {F : Frail κ} {target : Path} (rs : List Role) (hr : Role.hibernate ∉ rs) :
    ∀ (w : World κ) (p : Parcel), iterate (World.linkF S C F target) rs w p = iterate (World.link S C target) rs w p := by
  induction rs with
  | nil => intro w p; rfl
  | cons r rs ih =>
    intro w p
    have h1 : World.linkF S C F target w r = World.link S C target w r := by
      unfold World.linkF World.link
      cases r <;> first | rfl | (simp at hr)
    have ih := ih (fun h => hr (List.mem_cons_of_mem _ h))
    simp only [iterate, h1, ih]

theorem invokeF_bare {S : Setup} (hb : S.Bare) (C : Client κ) (F : Frail κ) (target : Path) {w : World κ} {fw}
    (hg : GuardOK S fw w.guard) (n : Node) : World.invokeF S C F target w n = World.invoke S C target w n := by
  rcases hg.shows with ⟨_, hp⟩ | ⟨ps, hp, ha, hc, hl⟩
  · simp only [World.invokeF, hp]
  · have hne : Role.hibernate ∉ ps.list.2 := by
      have h2 : ps.list.2 = ps.listing := hc.list_snd
      rw [h2, hl]
      intro hm
      have := (List.mem_filter.1 hm).2
      simp [Setup.wants, hb.wakeAt, hb.sleepAt] at this
    simp only [World.invokeF, hp, World.invoke, iterate_linkF _ hne]

/-- The worlds of such a session. -/
def BareWorld (S : Setup) (w : World κ) : Prop := (∃ fw, GuardOK S fw w.guard) ∧ ∀ e, w.muted e = false

theorem BareWorld.rel {S : Setup} {w : World κ} (h : BareWorld S w) : BareRel S w w :=
  ⟨rfl, rfl, rfl, rfl, rfl, h.1, h.2⟩

theorem notify_bare {S : Setup} {C : Client κ} {F : Frail κ} {w : World κ} (h : BareWorld S w) (n : Note) :
    BareWorld S (w.notify C F n).1 := by
  unfold World.notify
  split
  · exact h
  · split
    · exact h
    · exact ⟨by simpa using h.1, by simpa using h.2⟩

theorem notify_dies {S : Setup} {C : Client κ} {F : Frail κ} {w : World κ} (h : BareWorld S w) (n : Note) :
    (w.notify C F n).2 = (F.listener w.client n).isSome := by
  unfold World.notify
  simp only [h.2, Bool.false_eq_true, if_false]
  cases F.listener w.client n <;> rfl

theorem stays_bare {S : Setup} (hb : S.Bare) (C : Client κ) (F : Frail κ) (tree target : Path) :
    StaysM (GoodNode S.nav) (S.mortal C F tree target) (BareWorld S) where
  descend w p d h := notify_bare h _
  ascend w p d h := notify_bare h _
  invoke w n hn h := by
    obtain ⟨fw, hg⟩ := h.1
    show BareWorld S (World.invokeF S C F target w n).1
    rw [invokeF_bare hb C F target hg]
    have := ((bare_sim hb C tree target).invoke w w n hn h.rel).2
    exact ⟨this.guard, this.muted⟩
  ask w n re h := by
    simp only [Setup.mortal]
    cases F.skip w.client n re <;> exact h
  rescue w n d h := by
    simp only [Setup.mortal]
    split <;> exact h

theorem invoke_bare_reply {S : Setup} (hb : S.Bare) (C : Client κ) (F : Frail κ) (tree target : Path) {w : World κ} {n : Node}
    (hn : GoodNode S.nav n) (h : BareWorld S w) :
    ((S.mortal C F tree target).invoke w n).2 = (C.handler w.client ⟨n, S.childrenOf n⟩).2 := by
  obtain ⟨fw, hg⟩ := h.1
  show (World.invokeF S C F target w n).2 = _
  rw [invokeF_bare hb C F target hg]
  exact ((bare_sim hb C tree target).invoke w w n hn h.rel).1

/-! ### The session -/

/-- What is left of a session after its Begin. -/
def afterBegin (F : Frail κ) (C : Client κ) (r : Final × MSt (World κ)) : Report κ :=
  match r.1 with
  | .panic => { verdict := .panic, client := r.2.ext.client, tape := r.2.ext.tape, hits := r.2.ext.hits }
  | .done e =>
    match r.2.ext.notify C F .ended with
    | (w', true) => { verdict := .panic, client := w'.client, tape := w'.tape, hits := w'.hits }
    | (w', false) =>
      { verdict := .done e, client := w'.client, tape := w'.tape, hits := w'.hits, metrics := w'.metrics, complete := true }

theorem primedF {P : Platform κ} {u settings disk o h pre fs} (hp : Primed P u settings disk o h pre fs) (F : Frail κ) (x : κ)
    (hbegin : F.listener x (.begin u.tree) = none) 
    (hquery : F.query ((((primedSetup o u.sub).world x (fun _ => none)).publish (o.client h) (.begin u.tree))).client u.tree = false) :
    let S := primedSetup o u.sub
    let C := o.client h
    let w := (S.world x (fun _ => none)).publish C (.begin u.tree)
    BareWorld S w ∧
    walkPrimeF P F (.using u) settings disk x =
      afterBegin F C
        ((traverseM S.nav (S.mortal C F u.tree []) [] pre (prep S.nav fs) ⟨0, w, []⟩).1.final,
         (traverseM S.nav (S.mortal C F u.tree []) [] pre (prep S.nav fs) ⟨0, w, []⟩).2) := by
  intro S C w
  have hs := primed_started hp
  have hw0 : BareWorld S (S.world x (fun _ => none)) :=
    ⟨⟨true, guard_ok S⟩, fun e => by simp [S, primedSetup, plainSetup, Setup.world]⟩
  have hw : BareWorld S w := ⟨by simpa [w] using hw0.1, by simpa [w] using hw0.2⟩
  refine ⟨hw, ?_⟩
  have hst : statOf S.nav o.afterwards disk u.tree = .found (prep S.nav fs) := by
    simp only [statOf, hs.disk, hs.status]
  have hpre : u.tree.dropLast = pre := by rw [hp.tree, List.dropLast_concat]
  have hn : (S.world x (fun _ => none)).notify C F (.begin u.tree) = (w, false) := by
    unfold World.notify
    simp only [hw0.2, Bool.false_eq_true, if_false]
    have : (S.world x (fun _ => none)).client = x := rfl
    rw [this, hbegin]
  have hb := hs.built
  have hC : o.afterwards.client h = C := rfl
  have hrun : runTopF S o.afterwards C F disk u.tree [] u.tree ⟨0, w, []⟩ =
      ((traverseM S.nav (S.mortal C F u.tree []) [] pre (prep S.nav fs) ⟨0, w, []⟩).1.final,
       (traverseM S.nav (S.mortal C F u.tree []) [] pre (prep S.nav fs) ⟨0, w, []⟩).2) := by
    simp only [runTopF, topM, hst, hpre]
    rw [show F.query w.client u.tree = false from hquery]
    rfl
  have hready : (buildPrimary P (.using u) settings).navigateF F h disk u.tree x =
      afterBegin F C (runTopF S o.afterwards C F disk u.tree [] u.tree ⟨0, w, []⟩) := by
    rw [hb]
    simp only [Built.navigateF, hC]
    rw [show (primedSetup o u.sub) = S from rfl, hn]
    rfl
  rw [← hrun, ← hready]
  simp only [walkPrimeF, hp.handler, Option.getD_some]

theorem primedF_plain {P : Platform κ} {u settings disk o h pre fs} (hp : Primed P u settings disk o h pre fs) (x : κ) :
    let S := primedSetup o u.sub
    let C := o.client h
    let w := (S.world x (fun _ => none)).publish C (.begin u.tree)
    let r := traverse S.nav (S.env C u.tree []) [] pre (prep S.nav fs) ⟨0, w, []⟩
    walkPrime P (.using u) settings disk x = afterBegin {} C (r.1.final, ⟨0, r.2.ext, []⟩) := by
  intro S C w r
  rw [← C67_prime, (primedF hp {} x rfl rfl).2, mortal_none .none]
  obtain ⟨h1, h2⟩ := traverseM_mortal S.nav (S.env C u.tree []) (prep S.nav fs) [] pre ⟨0, w, []⟩ ⟨0, w, []⟩ ⟨rfl, rfl, rfl⟩
  rw [h1]
  unfold afterBegin
  simp only
  rw [← h2.ext]

/-- A callback that dies at the root is one the client supplied for the root. -/
theorem spared {S : Setup} (hb : S.Bare) {o : Options κ} {h : κ → Parcel → κ × Reply} {F : Frail κ} {root : Path}
    (hF : F.SparesRoot h root) (tree target : Path) {k : Call}
    (hk : Call.From (S.mortal (o.client h) F tree target) (BareWorld S) k ∧ ∀ n r, k = .invoke n r → GoodNode S.nav n)
    (hpath : k.path = root) : k.dies = false := by
  obtain ⟨hk, hn⟩ := hk
  cases k with
  | descend p d b =>
    obtain ⟨x, hx, rfl⟩ := hk
    simp only [Call.path] at hpath
    subst hpath
    exact (notify_dies hx _).trans (by rw [hF.descend]; rfl)
  | ascend p d b =>
    obtain ⟨x, hx, rfl⟩ := hk
    simp only [Call.path] at hpath
    subst hpath
    exact (notify_dies hx _).trans (by rw [hF.ascend]; rfl)
  | hook p d =>
    obtain ⟨x, hx, hh⟩ := hk
    simp only [Call.path] at hpath
    subst hpath
    have := hF.hooks x.client d
    simp only [Setup.mortal] at hh
    rw [this] at hh; cases hh
  | invoke n r =>
    obtain ⟨x, hx, rfl⟩ := hk
    rw [invoke_bare_reply hb (o.client h) F tree target (hn _ _ rfl) hx]
    have := hF.handler x.client ⟨n, S.childrenOf n⟩ hpath
    exact decide_eq_false this
  | ask n re a =>
    obtain ⟨x, hx, rfl⟩ := hk
    simp only [Setup.mortal, hF.skip x.client n re hpath]
    rfl
  | rescue n d a =>
    obtain ⟨x, hx, rfl⟩ := hk
    simp only [Call.path] at hpath
    simp only [Setup.mortal]
    rw [hF.panics _ _ (by exact hpath)]
    rfl

/-- **C67** If nothing the client supplied panics for the root, at Begin or at End, no panic leaves Navigate, whatever panics
below the root. The session is then in every respect the one in which only the handler may panic, or Navigate returns the
error that the client's panic handler gave for some state it was handed. -/
theorem C67_contained {P : Platform κ} {u : Using κ} {settings : List (Option (Setting κ))} {disk : Disk} {o : Options κ}
    {h : κ → Parcel → κ × Reply} {pre : Path} {fs : FS} (hp : Primed P u settings disk o h pre fs) (F : Frail κ)
    (hF : F.SparesRoot h u.tree) (x : κ) :
    let rep := walkPrimeF P F (.using u) settings disk x
    rep.verdict ≠ .panic ∧ rep.complete = true ∧
    (rep = walkPrime P (.using u) settings disk x ∨
      ∃ k a, a.tree = u.tree ∧ a.sub = u.sub ∧ rep.verdict = .done (some (o.defects.panic k a).2.err)) := by
  intro rep
  obtain ⟨hw, hrep⟩ := primedF hp F x (hF.begins _) (hF.query _)
  have hplain := primedF_plain hp x
  simp only at hplain
  have hb := primed_bare o u.sub
  generalize hS : primedSetup o u.sub = S at *
  have hsub : S.nav.sub = u.sub := by rw [← hS]; rfl
  generalize hwx : (S.world x (fun _ => none)).publish (o.client h) (.begin u.tree) = w at *
  have hM := logM_from S.nav (S.mortal (o.client h) F u.tree []) (stays_bare hb (o.client h) F u.tree [])
    (mkNode_good S.nav) (prep S.nav fs) [] pre ⟨0, w, []⟩ ⟨hw, by simp⟩
  have hesc := C67_escapes_iff S.nav (S.mortal (o.client h) F u.tree []) w pre fs
  have hres := C67_result S.nav (S.mortal (o.client h) F u.tree []) w pre fs
  have hsim := traverseM_sim (mortal_extends S (o.client h) F u.tree []) (mortal_watched S (o.client h) F u.tree []) S.nav
    (prep S.nav fs) [] pre ⟨0, w, []⟩ ⟨0, w, []⟩ ⟨rfl, rfl, rfl⟩
  simp only [walkM] at hesc hres
  generalize traverseM S.nav (S.mortal (o.client h) F u.tree []) [] pre (prep S.nav fs) ⟨0, w, []⟩ = rM at *
  have hnp : rM.1.final ≠ .panic := by
    intro hpan
    obtain ⟨k, hk, hd, hpath⟩ := hesc.1 hpan
    rw [← hp.tree] at hpath
    rw [spared hb hF u.tree [] (hM.2 k hk) hpath] at hd
    cases hd
  have hend : rM.2.ext.notify (o.client h) F .ended = (rM.2.ext.publish (o.client h) .ended, false) := by
    unfold World.notify World.publish
    simp only [hM.1.2, Bool.false_eq_true, if_false, hF.ends]
  cases hfin : rM.1.final with
  | panic => exact absurd hfin hnp
  | done e =>
    have hend0 : rM.2.ext.notify (o.client h) {} .ended = (rM.2.ext.publish (o.client h) .ended, false) := by
      unfold World.notify World.publish
      simp only [hM.1.2, Bool.false_eq_true, if_false]
    have hrep' : rep = afterBegin {} (o.client h) (.done e, ⟨0, rM.2.ext, []⟩) := by
      show walkPrimeF _ _ _ _ _ _ = _
      rw [hrep]
      simp only [afterBegin, hfin, hend, hend0]
    have hv : rep.verdict = .done e ∧ rep.complete = true := by
      rw [hrep']; simp only [afterBegin, hend0]; exact ⟨trivial, trivial⟩
    refine ⟨by rw [hv.1]; simp, hv.2, ?_⟩
    obtain ⟨l, hl, -, ⟨hcalm, hout, -, hmatch⟩ | ⟨l₁, k, l₂, hlk, hwreck, -⟩⟩ := hsim
    · refine .inl ?_
      rw [hrep', hplain, ← hout, hfin, hmatch.ext]
    · obtain ⟨r, hlast, hr⟩ := hres ⟨k, by rw [hl, hlk]; simp, hwreck.dies⟩ hnp
      have hmem : some r ∈ answers rM.2.log := List.mem_of_getLast? hlast
      obtain ⟨j, hj, hjr⟩ := List.mem_filterMap.1 hmem
      have hfrom := (hM.2 j hj).1
      cases j with
      | rescue cur d a =>
        simp only [Option.some.injEq] at hjr
        subst hjr
        obtain ⟨y, -, hy⟩ := hfrom
        simp only [Setup.mortal] at hy
        split at hy
        · cases hy
        · simp only [Option.some.injEq] at hy
          rw [hfin] at hr
          refine .inr ⟨y.client,
            { tree := u.tree, sub := S.nav.sub, hibernation := .retired, currentPath := cur.path,
              isDir := cur.isDir, depth := d, metrics := y.metrics.persisted }, rfl, hsub, ?_⟩
          have he : e = some r.err := by injection hr
          rw [hv.1, he, ← hy]; rfl
      | _ => simp at hjr

/-- Something the client supplied always panics for the root: the QueryStatus hook, a listener of Descend or Ascend, a hook
called while the root is inspected, or the handler. -/
inductive Frail.StrikesRoot (F : Frail κ) (h : κ → Parcel → κ × Reply) (sub : Subscription) (root : Path) : Prop
  | query (hq : ∀ k, F.query k root = true)
  | descend (hd : ∀ k d, F.listener k (.descend root d) ≠ none)
  | ascend (ha : ∀ k d, F.listener k (.ascend root d) ≠ none)
  | hooks (hh : ∀ k d, F.hooks k root d = true)
  | handler (hs : sub ≠ .files) (hi : ∀ k (p : Parcel), p.node.path = root → (h k p).2 = .panic)

/-- **C67, what is false** There is no recovery around the root itself: whatever the client supplied that panics for the root
lets its panic out of Navigate, and what was there to be saved is not saved. -/
theorem C67_root_escapes {P : Platform κ} {u : Using κ} {settings : List (Option (Setting κ))} {disk : Disk} {o : Options κ}
    {h : κ → Parcel → κ × Reply} {pre : Path} {fs : FS} (hp : Primed P u settings disk o h pre fs) (F : Frail κ)
    (hF : F.StrikesRoot h u.sub u.tree) (x : κ) :
    (walkPrimeF P F (.using u) settings disk x).verdict = .panic := by
  cases hbegin : F.listener x (.begin u.tree) with
  | some k => rw [C67_begin_escapes P F u settings disk x k (primed_started hp).built hbegin]
  | none =>
    cases hquery : F.query ((((primedSetup o u.sub).world x (fun _ => none)).publish (o.client h) (.begin u.tree))).client u.tree with
    | true =>
      have hw0 : BareWorld (primedSetup o u.sub) ((primedSetup o u.sub).world x (fun _ => none)) :=
        ⟨⟨true, guard_ok _⟩, fun e => by simp [primedSetup, plainSetup, Setup.world]⟩
      have hn : ((primedSetup o u.sub).world x (fun _ => none)).notify (o.client h) F (.begin u.tree) =
          (((primedSetup o u.sub).world x (fun _ => none)).publish (o.client h) (.begin u.tree), false) := by
        unfold World.notify
        simp only [hw0.2, Bool.false_eq_true, if_false]
        have : ((primedSetup o u.sub).world x (fun _ => none)).client = x := rfl
        rw [this, hbegin]
      have hb := (primed_started hp).built
      simp only [walkPrimeF, hp.handler, Option.getD_some, hb, Built.navigateF]
      rw [show o.afterwards.client h = o.client h from rfl, hn]
      simp only [runTopF, topM, hquery, if_true]
    | false =>
      obtain ⟨hw, hrep⟩ := primedF hp F x hbegin hquery
      rw [hrep]
      have hb := primed_bare o u.sub
      generalize hS : primedSetup o u.sub = S at *
      have hsub : S.nav.sub = u.sub := by rw [← hS]; rfl
      generalize hwx : (S.world x (fun _ => none)).publish (o.client h) (.begin u.tree) = w at *
      suffices key : (traverseM S.nav (S.mortal (o.client h) F u.tree []) [] pre (prep S.nav fs) ⟨0, w, []⟩).1 = .panic by
        simp only [afterBegin, key, Out.final]
      have hname : (prep S.nav fs).name = fs.name := (prep_entry S.nav fs).1
      rcases hT : prep S.nav fs with ⟨e, re, files, dirs, kids⟩
      rw [hT] at hname
      have hroot : pre ++ [e.name] = u.tree := by rw [hp.tree]; exact congrArg (fun z => pre ++ [z]) hname
      rw [traverseM, hroot]
      have htd : tooDeep S.nav 0 = false := by simp only [tooDeep]; simp
      rcases hD : MSt.doDescend (S.mortal (o.client h) F u.tree []) u.tree e.isDir ⟨0, w, []⟩ with ⟨b, s1⟩
      have hb1 : b = (F.listener w.client (.descend u.tree e.isDir)).isSome := by
        have := notify_dies (C := o.client h) (F := F) hw (.descend u.tree e.isDir)
        rw [← this]
        exact (congrArg Prod.fst hD).symm
      have hw1 : BareWorld S s1.ext := by
        have := notify_bare (C := o.client h) (F := F) hw (.descend u.tree e.isDir)
        have h2 := congrArg (fun z => z.2.ext) hD
        simp only [MSt.doDescend, Setup.mortal] at h2
        rw [← h2]; exact this
      simp only [htd, Bool.false_eq_true, if_false]
      cases b with
      | true => rfl
      | false =>
        simp only
        have hgood := mkNode_good S.nav [] u.tree (.node e re files dirs kids) s1.depth
        have hnp : (mkNode S.nav [] u.tree (.node e re files dirs kids) s1.depth).path = u.tree := rfl
        generalize mkNode S.nav [] u.tree (.node e re files dirs kids) s1.depth = n at *
        -- what the deferred ascend makes of it
        have hasc : ∀ X : Out × MSt (World κ), BareWorld S X.2.ext →
            (X.1 = .panic ∨ ∀ k d, F.listener k (.ascend u.tree d) ≠ none) →
            (ascendM (S.mortal (o.client h) F u.tree []) u.tree e.isDir X).1 = .panic := by
          rintro ⟨o', q⟩ hq hX
          have hn := notify_dies (C := o.client h) (F := F) hq (.ascend u.tree e.isDir)
          simp only [ascendM, MSt.doAscend, Setup.mortal]
          cases hb2 : (q.ext.notify (o.client h) F (.ascend u.tree e.isDir)).2 with
          | true => rfl
          | false =>
            rcases hX with hX | hX
            · exact hX
            · rw [hb2] at hn
              exact absurd (by simpa using hn.symm) (hX q.ext.client e.isDir)
        have hpres : PreservedM (GoodNode S.nav) (S.mortal (o.client h) F u.tree []) (fun s => BareWorld S s.ext) :=
          ⟨fun s p d hs => notify_bare hs _, fun s p d hs => notify_bare hs _, fun s p d _ hs => hs,
            fun s n hn hs => (stays_bare hb (o.client h) F u.tree []).invoke s.ext n hn hs,
            fun s n re hs => (stays_bare hb (o.client h) F u.tree []).ask s.ext n re hs,
            fun s n hs => (stays_bare hb (o.client h) F u.tree []).rescue s.ext n _ hs⟩
        have hin := enterM_inv hpres S.nav n (readErrOf S.nav (.node e re files dirs kids)) s1 hgood hw1
        have hent : (enterM S.nav (S.mortal (o.client h) F u.tree []) n (readErrOf S.nav (.node e re files dirs kids)) s1).1 =
            .done .panic ∨ ∀ k d, F.listener k (.ascend u.tree d) ≠ none := by
          cases hF with
          | query hq => rw [hq] at hquery; cases hquery
          | descend hd =>
            exact absurd (by simpa using hb1.symm) (hd w.client e.isDir)
          | ascend ha => exact .inr ha
          | hooks hh =>
            refine .inl ?_
            have : (S.mortal (o.client h) F u.tree []).hooks s1.ext n.path n.isDir = true := by
              simp only [Setup.mortal, hnp, hh]
            simp only [enterM, this, if_true]
          | handler hs hi =>
            refine .inl ?_
            have hr := invoke_bare_reply hb (o.client h) F u.tree [] hgood hw1
            rw [show ((o.client h).handler s1.ext.client ⟨n, S.childrenOf n⟩).2 = .panic from hi _ _ hnp] at hr
            unfold enterM
            split
            · rfl
            · unfold proceedM
              have hI : (s1.doInvoke (S.mortal (o.client h) F u.tree []) n).1 = .panic := hr
              rcases hJ : s1.doInvoke (S.mortal (o.client h) F u.tree []) n with ⟨r, s2⟩
              rw [hJ] at hI
              simp only at hI
              subst hI
              rw [← hsub] at hs
              cases hc : S.nav.sub <;> first | rfl | exact absurd hc hs
        rcases hE : enterM S.nav (S.mortal (o.client h) F u.tree []) n (readErrOf S.nav (.node e re files dirs kids)) s1 with ⟨a, s2⟩
        rw [hE] at hin hent
        cases a with
        | done out =>
          refine hasc (out, s2) hin (hent.imp (fun h => ?_) id)
          injection h
        | travel =>
          refine hasc _ ?_ (.inr (hent.resolve_left (by simp)))
          exact recoverInM_inv hpres _ _ (travelLoopM_inv S.nav kids
            (fun t _ ps pp s hs => traverseM_inv hpres S.nav (mkNode_good S.nav) t ps pp s hs) _ _ _ hin)

/-! ### Cases -/

/-- A session whose root cannot be stat'ed. -/
def missingF (F : Frail Nat) : Verdict × Nat × Nat :=
  let r := walkPrimeF sortPlatform F (.using (toyUsing .universal)) [] (fun _ => .error (.code 3)) 0
  (r.verdict, r.client, r.hits.length)

/-- A resume by spawning of a session that was interrupted in r/a/b. -/
def spawnedF (F : Frail Nat) : Verdict × Nat × List Path :=
  let files := savedFile (defaultOptions sortPlatform) (savedAt ["r"] ["r", "a", "b"] .universal)
  let r := walkResumeF sortPlatform F (.relic (toyRelic .spawn)) [] files (diskOf [] Demo.fs) 0
  (r.verdict, r.client, r.hits.map fun h => h.parcel.node.path)

/-- **C67** One case for each callback: a hook that panics at r/c is caught, and the handler has been called for what comes
before; so is a listener of Sleep; a fault handler's panic leaves Navigate with what the handler did to the client's state; and on
a resume by spawning a hook's panic leaves Navigate when the hook is called for a directory above the place of the interruption or
for that place, but not for what lies below it. -/
theorem C67_each_callback :
    seenF { hooks := fun _ p _ => p = ["r", "c"] } [] =
      (.done (some (.saved "dest")), 6, [["r"], ["r", "a"], ["r", "a", "b"], ["r", "a", "b", "y"], ["r", "a", "b", "z"], ["r", "a", "x"]]) ∧
    seenF { listener := fun _ n => if n = .sleep then some 77 else none }
        (settingsOf sortPlatform [some (.filterSleep (some (.plain { type := .regex, pattern := "b" })))]) =
      (.done (some (.saved "dest")), 77, [["r"], ["r", "a"]]) ∧
    missingF { fault := fun k _ _ => some (k + 9) } = (.panic, 9, 0) ∧
    spawnedF { hooks := fun _ p _ => p = ["r", "a"] } = (.panic, 0, []) ∧
    spawnedF { hooks := fun _ p _ => p = ["r"] } =
      (.panic, 4, [["r", "a", "b"], ["r", "a", "b", "y"], ["r", "a", "b", "z"], ["r", "a", "x"]]) ∧
    spawnedF { hooks := fun _ p _ => p = ["r", "a", "b"] } = (.panic, 0, []) ∧
    spawnedF { hooks := fun _ p _ => p = ["r", "a", "b", "y"] } = (.done (some (.saved "dest")), 1, [["r", "a", "b"]]) := by
  decide +kernel

/-- Not vacuous, C67_contained: everything the client supplied panics, except for the root r. -/
example : ∃ (u : Using Nat) (h : Nat → Parcel → Nat × Reply) (F : Frail Nat),
    Primed sortPlatform u [] (diskOf [] Demo.fs) (defaultOptions sortPlatform) h [] Demo.fs ∧ F.SparesRoot h u.tree ∧
    (walkPrimeF sortPlatform F (.using u) [] (diskOf [] Demo.fs) 0).verdict = .done (some (.saved "dest")) ∧
    (walkPrimeF sortPlatform F (.using u) [] (diskOf [] Demo.fs) 0).nodes.map (·.path) = [["r"], ["r", "a"]] := by
  refine ⟨{ toyUsing .universal with handler := some (Demo.byPath fun p => if p = ["r"] then .ok none else .panic) }, _,
    { listener := fun k n => if n = .ascend ["r", "a"] true ∨ n = .ascend ["r", "c"] true then some k else none,
      hooks := fun _ p _ => !decide (p = ["r"] ∨ p = ["r", "a"]), skip := fun k n _ => if n.path = ["r"] then none else some k,
      panics := fun k a => if a.currentPath = ["r"] then none else some k }, Demo.primed _ (by decide) _ _ _ Demo.distinct rfl rfl _, ?_, by decide +kernel⟩
  constructor <;> intros <;> simp_all [toyUsing, Demo.byPath]

/-- Not vacuous, C67_root_escapes: only the listener of Ascend panics, and only for the root; every handler call was made. -/
example : ∃ (u : Using Nat) (h : Nat → Parcel → Nat × Reply) (F : Frail Nat),
    Primed sortPlatform u [] (diskOf [] Demo.fs) (defaultOptions sortPlatform) h [] Demo.fs ∧ F.StrikesRoot h u.sub u.tree ∧
    (walkPrimeF sortPlatform F (.using u) [] (diskOf [] Demo.fs) 0).hits.length = 10 :=
  ⟨{ toyUsing .universal with handler := some (Demo.byPath fun _ => .ok none) }, _,
    { listener := fun k n => match n with | .ascend ["r"] _ => some k | _ => none },
    Demo.primed _ (by decide) _ _ _ Demo.distinct rfl rfl _, .ascend (by intro k d; simp [toyUsing]), by decide +kernel⟩

end Traverse
