import Verif.Props.SampledResumed
import Verif.Props.ResumedNodes
import Verif.Proofs.SampleCount
/-
C30 in resumed sessions: the bounds.
-/
namespace Traverse
variable {κ σ : Type}

theorem subperm_select {α : Type} {p l k : List α} (h : p.Sublist l) (hl : l.Perm k) : ∃ l' : List α, l'.Perm p ∧ l'.Sublist k := by
  induction hl generalizing p with
  | nil => exact ⟨p, .refl _, h⟩
  | cons x _ ih =>
    cases h with
    | cons _ h => obtain ⟨l', h1, h2⟩ := ih h; exact ⟨l', h1, h2.cons _⟩
    | cons_cons _ h => obtain ⟨l', h1, h2⟩ := ih h; exact ⟨x :: l', h1.cons _, h2.cons_cons _⟩
  | swap x y l =>
    cases h with
    | cons _ h =>
      cases h with
      | cons _ h => exact ⟨p, .refl _, (h.cons _).cons _⟩
      | cons_cons _ h => exact ⟨_, .refl _, (h.cons _).cons_cons _⟩
    | cons_cons _ h =>
      cases h with
      | cons _ h => exact ⟨_, .refl _, (h.cons_cons _).cons _⟩
      | cons_cons _ h => exact ⟨_, .swap _ _ _, (h.cons_cons _).cons_cons _⟩
  | trans _ _ ih1 ih2 =>
    obtain ⟨l1, h1, h2⟩ := ih1 h
    obtain ⟨l2, h3, h4⟩ := ih2 h2
    exact ⟨l2, h3.trans h1, h4⟩

theorem sampledRead_selects (c : Nav) (q : Quota) (h : c.read = sampledRead none (some q)) : ReadSelects c := by
  intro l e
  rw [h, sampledRead_eq]
  obtain ⟨l', h1, h2⟩ := defaultRead_selects { c with read := defaultRead } rfl l e
  simp only at h1 ⊢
  generalize (defaultRead l e).1 = m at h1 ⊢
  have hsub : (portion q.files q.inReverse (m.filter (fun t => !t.isDir)) ++ portion q.dirs q.inReverse (m.filter (fun t => t.isDir))).Sublist
      (m.filter (fun t => !t.isDir) ++ m.filter (fun t => t.isDir)) := (portion_sublist _ _ _).append (portion_sublist _ _ _)
  have hp : (m.filter (fun t => !t.isDir) ++ m.filter (fun t => t.isDir)).Perm l' :=
    (List.perm_append_comm.trans (List.filter_append_perm (fun t : Tree => t.isDir) m)).trans h1.symm
  obtain ⟨k, k1, k2⟩ := subperm_select hsub hp
  exact ⟨k, k1, k2.trans h2⟩

/-- The read hook returns only what was read. -/
def ReadWithin (c : Nav) : Prop := ∀ (l : List Tree) (e : Option Err) (t : Tree), t ∈ (c.read l e).1 → t ∈ l

theorem ReadSelects.within {c : Nav} (h : ReadSelects c) : ReadWithin c := by
  intro l e t ht
  obtain ⟨l', h1, h2⟩ := h l e
  exact h2.subset (h1.mem_iff.2 ht)

theorem sampledRead_within (c : Nav) (matching) (q : Quota) (h : c.read = sampledRead matching (some q)) : ReadWithin c := by
  intro l e t ht
  rw [h, sampledRead_eq] at ht
  have hd : ∀ u ∈ (defaultRead l e).1, u ∈ l := by
    intro u hu
    cases e with
    | some e => simp [defaultRead] at hu
    | none => exact (List.mem_filter.1 hu).1
  have hm : t ∈ (match matching with | some m => liftMatching m (defaultRead l e).1 | none => (defaultRead l e).1) := by
    rcases List.mem_append.1 ht with ht | ht <;> exact (List.mem_filter.1 ((portion_sublist _ _ _).subset ht)).1
  cases matching with
  | none => exact hd t hm
  | some m =>
    obtain ⟨e', -, he⟩ := List.mem_filterMap.1 hm
    exact hd t (List.mem_of_find?_eq_some he)

/-- What is listed by the sampling read hook: no more of a kind than the quota. -/
theorem sampledRead_counts (q : Quota) (l : List Tree) (e : Option Err) (kind : Bool) (limit : Nat)
    (hlimit : limit = if kind then q.dirs else q.files) (hpos : 0 < limit) :
    ((sampledRead none (some q) l e).1.filter (fun t => t.isDir == kind)).length ≤ limit := by
  rw [sampledRead_eq]
  simp only
  have := portions_kinds q.files q.dirs q.inReverse (fun t : Tree => t.isDir) (defaultRead l e).1
  cases kind with
  | false =>
    simp only [Bool.false_eq_true, if_false] at hlimit
    simp only [beq_false]
    rw [this.1, hlimit]; exact portion_length _ _ _ (by omega)
  | true =>
    simp only [if_true] at hlimit
    simp only [beq_true]
    rw [this.2, hlimit]; exact portion_length _ _ _ (by omega)

theorem Tree.At.up {pp t p u} (h : Tree.At pp t p u) : (p = pp ++ [t.name] ∧ u = t) ∨
    ∃ p' v, Tree.At pp t p' v ∧ u ∈ v.kids ∧ p = p' ++ [u.name] := by
  induction h with
  | here pp t => exact Or.inl ⟨rfl, rfl⟩
  | @inside pp t k p u hk h ih =>
    right
    rcases ih with ⟨rfl, rfl⟩ | ⟨p', v, h1, h2, h3⟩
    · exact ⟨_, t, .here pp t, hk, rfl⟩
    · exact ⟨p', v, .inside hk h1, h2, h3⟩

theorem kids_read {c : Nav} (hs : SortPermutes c) {e re raw t} (h : t ∈ (arrange c e re raw).kids) : t ∈ (c.read raw re).1 := by
  by_cases hc : c.sub = .directories ∨ c.sub = .directoriesWithFiles
  · rw [arrange_kids_dirs c e re raw hc] at h
    exact (List.mem_filter.1 ((hs _).mem_iff.1 h)).1
  · exact (arrange_kids_perm c hs e re raw (fun h' => hc (Or.inl h')) (fun h' => hc (Or.inr h'))).mem_iff.1 h

theorem Tree.At.prepIn {c : Nav} (hs : SortPermutes c) (hr : ReadWithin c) {pp t p u} (h : Tree.At pp t p u) :
    ∀ f, t = Traverse.prep c f → ∃ g, FS.At pp f p g ∧ u = Traverse.prep c g := by
  induction h with
  | here pp t =>
    intro f hf
    subst hf
    rw [(prep_entry c f).1]
    exact ⟨f, .here pp f, rfl⟩
  | @inside pp t k p u hk h ih =>
    intro f hf
    subst hf
    cases f with
    | file n ie re => simp [Traverse.prep] at hk
    | dir n ie re kids =>
      have hn := (prep_entry c (.dir n ie re kids)).1
      rw [prep_dir] at hk
      obtain ⟨f, hf, rfl⟩ := List.mem_map.1 (hr _ _ _ (kids_read hs hk))
      obtain ⟨g, hg, rfl⟩ := ih f rfl
      rw [hn] at hg
      exact ⟨g, .inside hf hg, rfl⟩

theorem legs_read {c : Nav} (hs : SortPermutes c) {disk : Disk} {tree : Path} (rcur : List String) : ∀ incl, ∀ l ∈ (legsOf c disk tree rcur incl).1,
    ∃ t ∈ (c.read ((disk.list l.1).1.map (prep c)) (disk.list l.1).2).1, t.name = l.2 := by
  induction rcur with
  | nil => intro incl l hl; simp [legsOf] at hl
  | cons child rparent ih =>
    intro incl l hl
    rw [legsOf] at hl
    split at hl
    · simp at hl
    · rcases hf : following c disk rparent.reverse child incl with e | names <;> rw [hf] at hl
      · simp at hl
      · rcases List.mem_append.1 hl with hl | hl
        · obtain ⟨n, hn, rfl⟩ := List.mem_map.1 hl
          unfold following at hf
          rw [prepList_eq] at hf
          rcases hr : c.read ((disk.list rparent.reverse).1.map (prep c)) (disk.list rparent.reverse).2 with ⟨ents, _ | e⟩
          · simp only [hr, Except.ok.injEq] at hf
            subst hf
            obtain ⟨t, ht, rfl⟩ := List.mem_map.1 hn
            have : t ∈ fromAnchor child incl ents := by
              have ht : t ∈ c.sort ((fromAnchor child incl ents).filter (fun t => !t.isDir)) ∨
                  t ∈ c.sort ((fromAnchor child incl ents).filter (fun t => t.isDir)) := by
                split at ht
                · exact List.mem_append.1 ht
                · exact (List.mem_append.1 ht).symm
              rcases ht with h | h <;> exact (List.mem_filter.1 ((hs _).mem_iff.1 h)).1
            simp only
            exact ⟨t, (List.mem_filter.1 this).1, rfl⟩
          · simp [hr] at hf
        · exact ih false l hl

theorem goLegs_nodes (c : Nav) (env : Env σ) (fault) (stat : Path → RootStat) (legs : List (Path × String)) : ∀ (s : St σ) n,
    n ∈ invoked (goLegs c env fault stat legs s).2.log → n ∈ invoked s.log ∨
      ∃ l ∈ legs, ∃ t it, stat (l.1 ++ [l.2]) = .found t ∧ it ∈ items c [] l.1 s.depth t ∧ it.node = n := by
  induction legs with
  | nil => intro s n h; exact Or.inl h
  | cons l ls ih =>
    intro s n h
    obtain ⟨v, h1, h2, h3⟩ := top_leg c env fault l.1 (l.1 ++ [l.2]) (stat (l.1 ++ [l.2])) s
    have here : n ∈ invoked (top c env fault l.1 (l.1 ++ [l.2]) (stat (l.1 ++ [l.2])) s).2.log → n ∈ invoked s.log ∨
        ∃ k ∈ l :: ls, ∃ t it, stat (k.1 ++ [k.2]) = .found t ∧ it ∈ items c [] k.1 s.depth t ∧ it.node = n := by
      intro hm
      have hm : n ∈ invoked s.log ∨ n ∈ invoked v := by
        rw [h1] at hm
        simpa [invoked, calls] using hm
      rcases hm with hm | hm
      · exact Or.inl hm
      · rcases h3 with rfl | ⟨t, ht, h3⟩
        · simp [invoked, calls] at hm
        · obtain ⟨it, hit, rfl⟩ := List.mem_map.1 (h3.list.subset hm)
          exact Or.inr ⟨l, by simp, t, it, ht, hit, rfl⟩
    simp only [goLegs] at h
    rcases ht : top c env fault l.1 (l.1 ++ [l.2]) (stat (l.1 ++ [l.2])) s with ⟨(_ | e) | _, s1⟩ <;> rw [ht] at h here h2
    · simp only at h2
      rcases ih s1 n h with h | ⟨k, hk, t, it, e1, e2, e3⟩
      · exact here h
      · exact Or.inr ⟨k, by simp [hk], t, it, e1, by rw [← h2]; exact e2, e3⟩
    · exact here h
    · exact here h

section
variable {P : Platform κ} {r : Relic κ} {settings : List (Option (Setting κ))} {files : String → Except Err Json} {disk : Disk}
  {S : Setup} {o : Options κ} {h : κ → Parcel → κ × Reply} {a : Active} {pre : Path} {fs : FS}

/-- Every delivered node other than the tree is listed by the read hook in the directory it lies in. -/
theorem resumed_listed (hr : Resumed P r settings files S o h a) (hin : Within disk o pre fs) (hsort : SortPermutes S.nav)
    (hread : ReadWithin S.nav) (hdistinct : fs.Distinct) (x : κ) (n : Node)
    (hn : n ∈ (walkResume P (.relic r) settings files disk x).nodes) (hne : n.path ≠ a.tree) :
    ∃ p nn ie re kids, FS.At pre fs p (.dir nn ie re kids) ∧ ∃ t ∈ (S.nav.read (kids.map (prep S.nav)) re).1,
      n.path = p ++ [t.name] ∧ n.isDir = t.isDir := by
  obtain ⟨rp, hm⟩ := resumed_nodes hr x n hn
  -- inside the tree of one navigation
  have key : ∀ par d t path it, statOf S.nav o disk path = .found t → path = par ++ [t.name] → it ∈ items S.nav [] par d t → it.node = n →
      n.path ≠ path → ∃ p nn ie re kids, FS.At pre fs p (.dir nn ie re kids) ∧ ∃ t ∈ (S.nav.read (kids.map (prep S.nav)) re).1,
        n.path = p ++ [t.name] ∧ n.isDir = t.isDir := by
    intro par d t path it hst hpath hit hn hne
    subst hn
    obtain ⟨f, h1, rfl, -⟩ := honest_found hin.honest hst
    obtain ⟨u, g1, -, g3⟩ := items_at_read S.nav _ [] par d it hit
    rcases g1.up with ⟨e, -⟩ | ⟨p, v, k1, k2, k3⟩
    · exact absurd (e.trans hpath.symm) hne
    · obtain ⟨g, hg, rfl⟩ := k1.prepIn hsort hread f rfl
      rw [prep_name] at hpath
      have hat := (hin.part path f h1).trans hpath hg
      cases g with
      | file => simp [prep] at k2
      | dir nn ie re kids =>
        rw [prep_dir] at k2
        exact ⟨p, nn, ie, re, kids, hat, u, kids_read hsort k2, k3, g3⟩
  by_cases hst : r.strategy = .spawn
  · rw [hst] at hm
    have hm' : n ∈ invoked (goLegs S.nav (S.env (o.client h) a.tree a.currentPath) o.fault (statOf S.nav o disk)
        (legsOf S.nav disk a.tree a.currentPath.reverse true).1 ⟨a.depth, startWorld S (o.client h) .spawn a x, []⟩).2.log := by
      have hi : n ∈ invoked (resumeRun S o (o.client h) disk .spawn a (startWorld S (o.client h) .spawn a x)).2.2.log := by
        unfold invoked; exact List.mem_map.2 ⟨(n, rp), mem_calls.2 hm, rfl⟩
      simp only [resumeRun, crown_legs] at hi
      rcases hg : goLegs S.nav (S.env (o.client h) a.tree a.currentPath) o.fault (statOf S.nav o disk)
        (legsOf S.nav disk a.tree a.currentPath.reverse true).1 ⟨a.depth, startWorld S (o.client h) .spawn a x, []⟩ with ⟨(_ | e) | _, s⟩ <;>
        rw [hg] at hi <;> exact hi
    rcases goLegs_nodes _ _ _ _ _ _ n hm' with h0 | ⟨l, hl, t, it, h1, h2, h3⟩
    · simp [invoked, calls] at h0
    · obtain ⟨f, f1, f2, f3⟩ := honest_found hin.honest h1
      have hname : l.2 = t.name := by simpa using f3
      by_cases hroot : n.path = l.1 ++ [l.2]
      · -- a start
        obtain ⟨u, hu, hun⟩ := legs_read hsort _ _ l hl
        obtain ⟨k, hk, rfl⟩ := List.mem_map.1 (hread _ _ _ hu)
        rw [prep_name] at hun
        cases hd : disk l.1 with
        | error e => simp [Disk.list, hd] at hk
        | ok g =>
          cases g with
          | file => simp [Disk.list, hd] at hk
          | dir nn ie re kids =>
            simp only [Disk.list, hd] at hk hu
            have hat := hin.part _ _ hd
            have hatk : FS.At pre fs (l.1 ++ [l.2]) k := by
              have hgl := hat.last
              have hl1 : l.1 = l.1.dropLast ++ [nn] := by
                have hne : l.1 ≠ [] := by intro e; simp [e] at hgl
                rw [List.getLast?_eq_some_getLast hne] at hgl
                have hgl : l.1.getLast hne = nn := Option.some.inj hgl
                rw [← hgl]
                exact (List.dropLast_concat_getLast hne).symm
              refine hat.trans hl1 (.inside hk ?_)
              have := FS.At.here l.1 k
              rw [hun] at this
              rw [← hl1]
              exact this
            have hfk : f = k := ((hin.part _ _ f1).unique hdistinct _ hatk)
            refine ⟨l.1, nn, ie, re, kids, hat, prep S.nav k, hu, by rw [hroot, prep_name, hun], ?_⟩
            obtain ⟨u', g1, -, g3⟩ := items_at_read S.nav _ [] l.1 _ it h2
            rw [h3] at g1 g3
            rcases g1.up with ⟨-, rfl⟩ | ⟨p', v, k1, -, k3⟩
            · rw [g3, f2, hfk]
            · exfalso
              have := k1.pre_prefix.length_le
              rw [hroot] at k3
              have := congrArg List.length k3
              simp at *
              omega
      · exact key l.1 _ t _ it h1 (by rw [hname]) h2 h3 hroot
  · obtain ⟨t, it, h1, h2, h3⟩ := fast_whole _ _ _ hst n rp hm
    obtain ⟨f, -, -, h4⟩ := honest_found hin.honest h1
    have hne' : a.tree ≠ [] := by intro e; simp [e] at h4
    have htree : a.tree.dropLast ++ [t.name] = a.tree := by
      have := List.dropLast_concat_getLast hne'
      rw [List.getLast?_eq_some_getLast hne'] at h4
      simpa [← Option.some.inj h4] using this
    exact key _ _ t _ it h1 htree.symm h2 h3 hne

/-- The read hook of a resumed session with sampling. -/
theorem resumed_sampled_read {o₀ : Options κ} (hb : buildRest P a.sub (some r.strategy) o₀.afterwards = .ready S o)
    (hact : o₀.sampling.type ≠ .undefined) (hsample : o₀.filter.sample = none)
    (hread : o₀.hooks.readDirectory.listeners = none ∧ ∀ r, o₀.hooks.readDirectory.invoke r = defaultRead r.1 r.2) :
    S.nav.read = sampledRead none (some ⟨o₀.sampling.files, o₀.sampling.dirs, o₀.sampling.inReverse⟩) ∧ S.nav.sort = o₀.hooks.sort.invoke := by
  simp only [buildRest] at hb
  by_cases hu : a.sub = .undefined
  · rw [if_pos hu] at hb; cases hb
  · rw [if_neg hu] at hb
    rcases registerFilter_unsampled P.engine o₀.afterwards hsample with ⟨f, hf⟩ | ⟨e, hf⟩ | hf
    · rw [show registerFilter P.engine o₀.afterwards = .ok (f, o₀.afterwards) from hf o₀.afterwards.sampling] at hb
      simp only at hb
      cases hi : initHibernation P.engine o₀.afterwards with
      | err e => rw [hi] at hb; cases hb
      | panic => rw [hi] at hb; cases hb
      | ok hib =>
        rw [hi] at hb
        have hact' : o₀.afterwards.sampling.active = true := by
          rw [show o₀.afterwards.sampling = o₀.sampling from rfl]; simp [SamplingOptions.active, hact]
        simp only [initSampling, hact', if_true, Built.ready.injEq] at hb
        rw [← hb.1]
        exact ⟨chained_read o₀.hooks.readDirectory hread.1 hread.2 _, rfl⟩
    · rw [show registerFilter P.engine o₀.afterwards = .err e from hf o₀.afterwards.sampling] at hb; cases hb
    · rw [show registerFilter P.engine o₀.afterwards = .panic from hf o₀.afterwards.sampling] at hb; cases hb

end

/-- **C30** (resumed sessions, either strategy) The handler is called for at most `files` files (`kind = false`) and at most `directories`
directories (`kind = true`) directly inside any one directory, whatever else is configured (filters, hibernation, a depth limit, listeners)
and whatever the handlers answer: also in the directories above the saved path, of which a spawn resume visits only a part. -/
theorem C30_resumed_at_most (P : Platform κ) (r : Relic κ) (settings : List (Option (Setting κ))) (files : String → Except Err Json)
    (disk : Disk) (S : Setup) (o o₀ : Options κ) (h : κ → Parcel → κ × Reply) (a : Active) (pre : Path) (fs : FS)
    (hr : Resumed P r settings files S o h a) (hplat : resumePlatform P r settings (files r.from) = .ok (o₀, a))
    (hin : Within disk o pre fs) (hact : o₀.sampling.type ≠ .undefined) (hsample : o₀.filter.sample = none)
    (hread : o₀.hooks.readDirectory.listeners = none ∧ ∀ r, o₀.hooks.readDirectory.invoke r = defaultRead r.1 r.2)
    (hsort : ∀ l, (o₀.hooks.sort.invoke l).Perm l) (hdistinct : fs.Distinct) (p : Path) (kind : Bool) (limit : Nat)
    (hlimit : limit = if kind then o₀.sampling.dirs else o₀.sampling.files) (hpos : 0 < limit) (x : κ) :
    ((walkResume P (.relic r) settings files disk x).nodes.filter
      (fun n => decide (n.path ≠ a.tree) && decide (n.path.dropLast = p) && n.isDir == kind)).length ≤ limit := by
  obtain ⟨h1, h2⟩ : S.nav.read = sampledRead none (some ⟨o₀.sampling.files, o₀.sampling.dirs, o₀.sampling.inReverse⟩) ∧
      S.nav.sort = o₀.hooks.sort.invoke := by
    obtain ⟨o₁, g1, g2⟩ := hr.built
    rw [hplat] at g1
    cases g1
    exact resumed_sampled_read g2 hact hsample hread
  have hs : SortPermutes S.nav := fun l => by rw [h2]; exact hsort l
  have hsel := sampledRead_selects S.nav _ h1
  have hnav := hr.setup.2
  have hnodup : ((walkResume P (.relic r) settings files disk x).nodes.map (fun n => n.path)).Nodup := by
    have h3 := (C02_resumed (P := P) (hr := hr) (hin := hin) (hsort := by rw [← hnav]; exact hs) (hread := by rw [← hnav]; exact hsel)
      (hdistinct := hdistinct) (x := x)).1
    have h4 : ((walkResume P (.relic r) settings files disk x).nodes.map (fun n => n.path)).Pairwise (fun a b => ¬ b <+: a) :=
      List.pairwise_map.2 h3
    exact h4.imp (fun {a b} h (e : a = b) => h (e ▸ List.prefix_refl _))
  have hall := fun n hn hne => resumed_listed hr hin hs hsel.within hdistinct x n hn hne
  generalize (walkResume P (.relic r) settings files disk x).nodes = L at hnodup hall ⊢
  have hin' : ∀ n ∈ L.filter (fun n => decide (n.path ≠ a.tree) && decide (n.path.dropLast = p) && n.isDir == kind),
      ∃ nn ie re kids, FS.At pre fs p (.dir nn ie re kids) ∧ ∃ t ∈ (S.nav.read (kids.map (prep S.nav)) re).1,
        n.path = p ++ [t.name] ∧ t.isDir = kind := by
    intro n hn
    obtain ⟨hnL, hp⟩ := List.mem_filter.1 hn
    simp only [Bool.and_eq_true, decide_eq_true_eq, beq_iff_eq] at hp
    obtain ⟨p', nn, ie, re, kids, k1, t, k2, k3, k4⟩ := hall n hnL hp.1.1
    have : p' = p := by rw [← hp.1.2, k3, List.dropLast_concat]
    subst this
    exact ⟨nn, ie, re, kids, k1, t, k2, k3, k4 ▸ hp.2⟩
  generalize hN : L.filter (fun n => decide (n.path ≠ a.tree) && decide (n.path.dropLast = p) && n.isDir == kind) = N at hin'
  have hNd : (N.map (fun n => n.path)).Nodup := by
    rw [← hN]; exact hnodup.sublist ((List.filter_sublist).map _)
  cases N with
  | nil => simp
  | cons b N =>
    obtain ⟨nn, ie, re, kids, hat, _⟩ := hin' b (by simp)
    have hsub : ∀ y ∈ ((b :: N).map (fun n => n.path)),
        y ∈ ((S.nav.read (kids.map (prep S.nav)) re).1.filter (fun t => t.isDir == kind)).map (fun t => p ++ [t.name]) := by
      intro y hy
      obtain ⟨n, hn, rfl⟩ := List.mem_map.1 hy
      obtain ⟨nn', ie', re', kids', hat', t, ht, hnp, htd⟩ := hin' n hn
      have := hat.unique hdistinct _ hat'
      cases this
      exact List.mem_map.2 ⟨t, List.mem_filter.2 ⟨ht, by simp [htd]⟩, hnp.symm⟩
    have hle := nodup_subset_length hNd hsub
    rw [List.length_map, List.length_map, h1] at hle
    exact Nat.le_trans hle (sampledRead_counts _ _ _ kind limit hlimit hpos)

/-- Not vacuous: the demo session, saved in /r/a/b, resumed with either strategy, any subscription and any handler, with two files and one
directory of each directory. -/
example (st : Strategy) (g : Path → Reply) (sub : Subscription) (hsub : sub ≠ .undefined) :
    let r := Demo.relic st g
    let settings := settingsOf sortPlatform [some (.sampling { type := .slice, files := 2, dirs := 1 })]
    let files := Demo.saved ["r", "a", "b"] sub
    let a := (savedAt ["r"] ["r", "a", "b"] sub).active
    ∃ S o o₀, Resumed sortPlatform r settings files S o (Demo.byPath g) a ∧ resumePlatform sortPlatform r settings (files r.from) = .ok (o₀, a) ∧
      Within (diskOf [] Demo.fs) o [] Demo.fs ∧ o₀.sampling.type ≠ .undefined ∧ o₀.filter.sample = none ∧
      (o₀.hooks.readDirectory.listeners = none ∧ ∀ r, o₀.hooks.readDirectory.invoke r = defaultRead r.1 r.2) ∧
      (∀ l, (o₀.hooks.sort.invoke l).Perm l) ∧ Demo.fs.Distinct ∧ o₀.sampling.files = 2 ∧ o₀.sampling.dirs = 1 := by
  intro r settings files a
  obtain ⟨doc, h1, h2⟩ := roundTrip sortPlatform (defaultOptions sortPlatform) (savedAt ["r"] ["r", "a", "b"] sub)
  have hf : files r.from = .ok doc := by simp only [files, Demo.saved, savedFile, h1]
  have hplat : resumePlatform sortPlatform r settings (files r.from) =
      .ok ({ fromJSON sortPlatform (toJSON (defaultOptions sortPlatform)) with sampling := { type := .slice, files := 2, dirs := 1 } }, a) := by
    rw [hf]
    simp only [resumePlatform, h2, bindOptions, settings, applyAll_settings]
    rfl
  cases sub <;> first
    | exact absurd rfl hsub
    | exact ⟨_, _, _, ⟨rfl, _, hplat, rfl⟩, hplat, ⟨diskOf_part _ _, fun _ => rfl⟩, by simp, rfl, ⟨rfl, fun _ => rfl⟩,
        (insertSort_sorts _).permutes (c := Options.nav (defaultOptions sortPlatform) .universal), Demo.distinct, rfl, rfl⟩

/-- What it looks like: of /r, visited in part, the one directory is /r/a, which is passed on the way and not delivered again. -/
example :
    let rep (st : Strategy) := walkResume sortPlatform (.relic (Demo.relic st Demo.quiet))
      (settingsOf sortPlatform [some (.sampling { type := .slice, files := 2, dirs := 1 })]) (Demo.saved ["r", "a", "b"] .universal)
      (diskOf [] Demo.fs) 0
    let below (st : Strategy) (p : Path) := (rep st).nodes.filter (fun n => decide (n.path.dropLast = p)) |>.map (fun n => n.path)
    below .spawn ["r"] = [["r", "f"], ["r", "g"]] ∧ below .spawn ["r", "a", "b"] = [["r", "a", "b", "y"], ["r", "a", "b", "z"]] ∧
    below .fastward ["r"] = [["r", "f"], ["r", "g"]] ∧ below .fastward ["r", "a", "b"] = [["r", "a", "b", "y"], ["r", "a", "b", "z"]] := by
  decide +kernel

/-! ### The samples themselves -/

/-- What the sampling hook lists is in the sample. -/
theorem read_in_sample (c : Nav) (matching) (keep) (q : Quota) (hread : c.read = sampledRead matching (some q)) (hm : MatchesAs matching keep)
    (kids : List FS) (hnames : (kids.map FS.name).Nodup) (re : Option Err) (t : Tree) (ht : t ∈ (c.read (kids.map (prep c)) re).1) :
    re = none ∧ ∃ k ∈ sampleOf keep q kids, t = prep c k := by
  cases re with
  | some e =>
    rw [hread, sampledRead_eq] at ht
    cases matching with
    | none => simp [defaultRead, portion] at ht
    | some m => simp [defaultRead, portion, liftMatching, hm.1] at ht
  | none =>
    rw [(read_sampled c matching keep q hread hm (prep c) (fun k => prep_entry' c k) kids hnames).1] at ht
    obtain ⟨k, hk, rfl⟩ := List.mem_map.1 ht
    exact ⟨rfl, k, hk, rfl⟩

theorem resumed_in_sample {P : Platform κ} {r : Relic κ} {settings : List (Option (Setting κ))} {files : String → Except Err Json} {disk : Disk}
    {S : Setup} {o : Options κ} {h : κ → Parcel → κ × Reply} {a : Active} {pre : Path} {fs : FS}
    (hr : Resumed P r settings files S o h a) (hin : Within disk o pre fs) (hsort : SortPermutes S.nav)
    {matching keep q} (hread : S.nav.read = sampledRead matching (some q)) (hm : MatchesAs matching keep) (hdistinct : fs.Distinct) (x : κ) (n : Node)
    (hn : n ∈ (walkResume P (.relic r) settings files disk x).nodes) (hne : n.path ≠ a.tree) :
    ∃ p nn ie kids, FS.At pre fs p (.dir nn ie none kids) ∧ ∃ k ∈ sampleOf keep q kids, n.path = p ++ [k.name] ∧ n.isDir = k.isDir := by
  obtain ⟨p, nn, ie, re, kids, h1, t, h2, h3, h4⟩ := resumed_listed hr hin hsort (sampledRead_within _ _ _ hread) hdistinct x n hn hne
  obtain ⟨rfl, k, hk, rfl⟩ := read_in_sample S.nav matching keep q hread hm kids (h1.distinct hdistinct).1 re t h2
  exact ⟨p, nn, ie, kids, h1, k, hk, by rw [h3, prep_name], by rw [h4]; exact (prep_entry S.nav k).2⟩

/-- **C30** (resumed sessions, either strategy) What is delivered, other than the tree, is in the sample of the directory it lies in, which
could be read: of the whole directory, also of one above the saved path of which a spawn resume visits only a part. -/
theorem C30_resumed_in_sample (P : Platform κ) (r : Relic κ) (settings : List (Option (Setting κ))) (files : String → Except Err Json)
    (disk : Disk) (S : Setup) (o o₀ : Options κ) (h : κ → Parcel → κ × Reply) (a : Active) (pre : Path) (fs : FS)
    (hr : Resumed P r settings files S o h a) (hplat : resumePlatform P r settings (files r.from) = .ok (o₀, a))
    (hin : Within disk o pre fs) (hact : o₀.sampling.type ≠ .undefined) (hsample : o₀.filter.sample = none)
    (hread : o₀.hooks.readDirectory.listeners = none ∧ ∀ r, o₀.hooks.readDirectory.invoke r = defaultRead r.1 r.2)
    (hsort : ∀ l, (o₀.hooks.sort.invoke l).Perm l) (hdistinct : fs.Distinct) (x : κ) (n : Node)
    (hn : n ∈ (walkResume P (.relic r) settings files disk x).nodes) (hne : n.path ≠ a.tree) :
    ∃ p nn ie kids, FS.At pre fs p (.dir nn ie none kids) ∧
      ∃ k ∈ sampleOf (fun _ => true) ⟨o₀.sampling.files, o₀.sampling.dirs, o₀.sampling.inReverse⟩ kids,
        n.path = p ++ [k.name] ∧ n.isDir = k.isDir := by
  obtain ⟨o₁, g1, g2⟩ := hr.built
  rw [hplat] at g1
  cases g1
  obtain ⟨h1, h2⟩ := resumed_sampled_read g2 hact hsample hread
  exact resumed_in_sample hr hin (fun l => by rw [h2]; exact hsort l) h1 rfl hdistinct x n hn hne

/-- The read hook of a resumed session with a sample filter and sampling. -/
theorem resumed_filtered_read {P : Platform κ} {r : Relic κ} {S : Setup} {o o₀ : Options κ} {a : Active} {d : SampleDef}
    (hb : buildRest P a.sub (some r.strategy) o₀.afterwards = .ready S o)
    (hact : o₀.sampling.type ≠ .undefined) (hcustom : o₀.filter.custom = none) (hnode : o₀.filter.node = none) (hsample : o₀.filter.sample = some d)
    (hread : o₀.hooks.readDirectory.listeners = none ∧ ∀ r, o₀.hooks.readDirectory.invoke r = defaultRead r.1 r.2) :
    ∃ m, newSample P.engine (some d) o₀.sampling.files o₀.sampling.dirs = .ok (some m) ∧
      S.nav.read = sampledRead (some m) (some ⟨o₀.sampling.files, o₀.sampling.dirs, o₀.sampling.inReverse⟩) ∧ S.nav.sort = o₀.hooks.sort.invoke := by
  simp only [buildRest] at hb
  by_cases hu : a.sub = .undefined
  · rw [if_pos hu] at hb; cases hb
  · rw [if_neg hu] at hb
    have e1 : o₀.afterwards.filter = o₀.filter := rfl
    have e3 : o₀.afterwards.sampling = o₀.sampling := rfl
    have hcp : createPrimary P.engine o₀.afterwards = (match newSample P.engine (some d) o₀.sampling.files o₀.sampling.dirs with
      | .ok (some m) => .ok (some (.sample m, fun _ => false),
          { o₀.afterwards with hooks := { o₀.hooks with readDirectory := o₀.hooks.readDirectory.chain (matchingHook m) } })
      | .ok none => .panic
      | .err e => .err e
      | .panic => .panic) := by
      simp only [createPrimary, FilterOptions.nodeActive, e1, e3, hcustom, hnode, hsample]
      rfl
    unfold registerFilter at hb
    rw [hcp] at hb
    rcases hns : newSample P.engine (some d) o₀.sampling.files o₀.sampling.dirs with (_ | m) | e | _ <;> rw [hns] at hb
    · cases hb
    · simp only at hb
      refine ⟨m, rfl, ?_⟩
      generalize hB : ({ o₀.afterwards with hooks := { o₀.hooks with readDirectory := o₀.hooks.readDirectory.chain (matchingHook m) } } : Options κ) = B at hb
      rcases hcc : createChild P.engine B with c | e | _ <;> rw [hcc] at hb
      · simp only at hb
        rcases hih : initHibernation P.engine B with hib | e | _ <;> rw [hih] at hb
        · simp only at hb
          have hB1 : B.sampling = o₀.sampling := by rw [← hB]; rfl
          have hact' : B.sampling.active = true := by rw [hB1]; simp [SamplingOptions.active, hact]
          simp only [initSampling, hact', if_true, Built.ready.injEq] at hb
          rw [← hb.1]
          refine ⟨?_, by rw [← hB]; rfl⟩
          have hn := hread.1
          have h1 : o₀.hooks.readDirectory.handler.run [] = fun r : ReadResult => defaultRead r.1 r.2 := by
            funext r
            have h := hread.2 r
            simpa [HookCtrl.invoke, hn] using h
          funext l e
          simp only [Options.nav, ← hB]
          simp only [sampledRead, readHook, HookCtrl.chain, HookCtrl.new, HookCtrl.tap, HookCtrl.invoke, hn, h1]
          rfl
        · cases hb
        · cases hb
      · cases hb
      · cases hb
    · cases hb
    · cases hb

/-- **C31** (resumed sessions, either strategy; partial: filters for both kinds, or for none, do something else, `C31_both_kinds`; a node
filter or custom filter takes the sample filter's place) With a sample filter for one kind, what is delivered, other than the tree, is in
the sample of those entries of its directory that satisfy the filter, each kind up to its quota; so it satisfies the filter, and what does
not satisfy it takes no place in the sample. Whatever else is configured (hibernation, a child filter, a depth limit, listeners) and whatever
the handlers answer. -/
theorem C31_resumed_partial (P : Platform κ) (r : Relic κ) (settings : List (Option (Setting κ))) (files : String → Except Err Json)
    (disk : Disk) (S : Setup) (o o₀ : Options κ) (h : κ → Parcel → κ × Reply) (a : Active) (pre : Path) (fs : FS) (d : SampleDef)
    (hr : Resumed P r settings files S o h a) (hplat : resumePlatform P r settings (files r.from) = .ok (o₀, a))
    (hin : Within disk o pre fs) (hact : o₀.sampling.type ≠ .undefined) (hcustom : o₀.filter.custom = none) (hnode : o₀.filter.node = none)
    (hsample : o₀.filter.sample = some d) (htype : d.type = .glob ∨ d.type = .regex) (hone : d.scope.names false ≠ d.scope.names true)
    (hread : o₀.hooks.readDirectory.listeners = none ∧ ∀ r, o₀.hooks.readDirectory.invoke r = defaultRead r.1 r.2)
    (hsort : ∀ l, (o₀.hooks.sort.invoke l).Perm l) (hdistinct : fs.Distinct) (x : κ) (n : Node)
    (hn : n ∈ (walkResume P (.relic r) settings files disk x).nodes) (hne : n.path ≠ a.tree) :
    ∃ p nn ie kids, FS.At pre fs p (.dir nn ie none kids) ∧
      ∃ k ∈ sampleOf (d.keeps P.engine) ⟨o₀.sampling.files, o₀.sampling.dirs, o₀.sampling.inReverse⟩ kids,
        n.path = p ++ [k.name] ∧ n.isDir = k.isDir ∧ d.keeps P.engine k.entry = true := by
  obtain ⟨o₁, g1, g2⟩ := hr.built
  rw [hplat] at g1
  cases g1
  obtain ⟨m, h0, h1, h2⟩ := resumed_filtered_read g2 hact hcustom hnode hsample hread
  obtain ⟨p, nn, ie, kids, k1, k, k2, k3, k4⟩ := resumed_in_sample hr hin (fun l => by rw [h2]; exact hsort l) h1
    (matchesAs_native _ d _ _ m htype h0 hone) hdistinct x n hn hne
  refine ⟨p, nn, ie, kids, k1, k, k2, k3, k4, ?_⟩
  rcases List.mem_append.1 k2 with h | h <;> exact (List.mem_filter.1 (List.mem_filter.1 ((portion_sublist _ _ _).subset h)).1).2

/-- Not vacuous: the demo session, saved in /r/a/b, resumed with either strategy, any subscription and any handler, with one file of each
directory that is not called "f". -/
example (st : Strategy) (g : Path → Reply) (sub : Subscription) (hsub : sub ≠ .undefined) :
    let r := Demo.relic st g
    let d : SampleDef := { type := .glob, pattern := "f", scope := Scope.file, negate := true }
    let settings := settingsOf sortPlatform [some (.sampling { type := .filter, files := 1 }), some (.filter { sample := some d } none)]
    let files := Demo.saved ["r", "a", "b"] sub
    let a := (savedAt ["r"] ["r", "a", "b"] sub).active
    ∃ S o o₀, Resumed sortPlatform r settings files S o (Demo.byPath g) a ∧ resumePlatform sortPlatform r settings (files r.from) = .ok (o₀, a) ∧
      Within (diskOf [] Demo.fs) o [] Demo.fs ∧ o₀.sampling.type ≠ .undefined ∧ o₀.filter.custom = none ∧ o₀.filter.node = none ∧
      o₀.filter.sample = some d ∧ d.scope.names false ≠ d.scope.names true ∧
      (o₀.hooks.readDirectory.listeners = none ∧ ∀ r, o₀.hooks.readDirectory.invoke r = defaultRead r.1 r.2) ∧
      (∀ l, (o₀.hooks.sort.invoke l).Perm l) ∧ Demo.fs.Distinct ∧ o₀.sampling.files = 1 := by
  intro r d settings files a
  obtain ⟨doc, h1, h2⟩ := roundTrip sortPlatform (defaultOptions sortPlatform) (savedAt ["r"] ["r", "a", "b"] sub)
  have hf : files r.from = .ok doc := by simp only [files, Demo.saved, savedFile, h1]
  have hplat : resumePlatform sortPlatform r settings (files r.from) = .ok ({ fromJSON sortPlatform (toJSON (defaultOptions sortPlatform)) with
      sampling := { type := .filter, files := 1 }, filter := { sample := some d } }, a) := by
    rw [hf]
    simp only [resumePlatform, h2, bindOptions, settings, applyAll_settings]
    rfl
  obtain ⟨S, o, hb, hq⟩ : ∃ S o, buildRest sortPlatform a.sub (some r.strategy) (Options.afterwards
      { fromJSON sortPlatform (toJSON (defaultOptions sortPlatform)) with
        sampling := { type := .filter, files := 1 }, filter := { sample := some d } }) = .ready S o ∧ ∀ r, o.hooks.queryStatus.invoke r = r := by
    generalize hO : (Options.afterwards { fromJSON sortPlatform (toJSON (defaultOptions sortPlatform)) with
        sampling := { type := .filter, files := 1 }, filter := { sample := some d } } : Options Nat) = O
    have o1 : O.filter = { sample := some d } := by rw [← hO]; rfl
    have o2 : O.sampling = { type := .filter, files := 1 } := by rw [← hO]; rfl
    have o3 : O.hibernate.wakeAt = none ∧ O.hibernate.sleepAt = none := by rw [← hO]; exact ⟨rfl, rfl⟩
    have o4 : ∀ r, O.hooks.queryStatus.invoke r = r := by rw [← hO]; exact fun _ => rfl
    obtain ⟨m, hm⟩ := newSample_made (E := sortPlatform.engine) (d := d) (f := 1) (n := 0) (Or.inl rfl) (fun _ => by simp) (by decide)
    have hsub' : a.sub ≠ .undefined := hsub
    simp only [buildRest, hsub', if_false, registerFilter, createPrimary, createChild, FilterOptions.nodeActive, o1, o2, hm, initHibernation,
      makeTrigger, o3, Option.isSome_some, Bool.false_eq_true, if_true, initSampling, SamplingOptions.active]
    refine ⟨_, _, rfl, ?_⟩
    intro q
    exact o4 q
  exact ⟨S, o, _, ⟨rfl, _, hplat, hb⟩, hplat, ⟨diskOf_part _ _, hq⟩, by simp, rfl, rfl, rfl, by decide, ⟨rfl, fun _ => rfl⟩,
    (insertSort_sorts _).permutes (c := Options.nav (defaultOptions sortPlatform) .universal), Demo.distinct, rfl⟩

/-- What it looks like: /r/g is the file of /r, as /r/f does not satisfy the filter. -/
example :
    let rep (st : Strategy) := walkResume sortPlatform (.relic (Demo.relic st Demo.quiet))
      (settingsOf sortPlatform [some (.sampling { type := .filter, files := 1 }),
        some (.filter { sample := some { type := .glob, pattern := "f", scope := Scope.file, negate := true } } none)])
      (Demo.saved ["r", "a", "b"] .universal) (diskOf [] Demo.fs) 0
    (rep .spawn).nodes.map (fun n => n.path) = [["r", "a", "b"], ["r", "a", "b", "y"], ["r", "a", "x"], ["r", "c"], ["r", "c", "w"], ["r", "g"]] ∧
    (rep .fastward).nodes.map (fun n => n.path) =
      [["r", "a", "b"], ["r", "a", "b", "y"], ["r", "a", "x"], ["r", "c"], ["r", "c", "w"], ["r", "g"]] := by
  decide +kernel

end Traverse
