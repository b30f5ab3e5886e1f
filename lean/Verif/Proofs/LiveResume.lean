import Verif.Proofs.Live5
import Verif.Proofs.Legs
import Verif.Proofs.Rows
import Verif.Model.LiveResume
/-
Resumed sessions on a file system that changes.
-/
namespace Traverse
variable {σ κ : Type}

/-- The blank disk of the state `x`. -/
def blankDisk (L : Look σ) (x : σ) : Disk := fun p => (L.stat x p).map fun f => FS.blank f.entry

theorem blank_shown (L : Look σ) (x : σ) (p : Path) : Showed L p (blankDisk L x p) := by
  cases hs : L.stat x p with
  | error e => exact .inl ⟨e, x, by simp [blankDisk, hs, Except.map], hs⟩
  | ok f0 =>
    refine .inr (.inl ⟨FS.blank f0.entry, f0, x, by simp [blankDisk, hs, Except.map], hs, ?_, ?_, Seen.blank ..⟩)
    · rw [← FS.entry_name, FS.blank_entry, FS.entry_name]
    · rw [← FS.entry_isDir, FS.blank_entry, FS.entry_isDir]

theorem Showed.unworld {L : Look κ} {p st} (h : Showed L.world p st) : Showed L p st := by
  rcases h with ⟨e, y, h1, h2⟩ | ⟨f, f0, y, h1, h2, h3, h4, h5⟩ | ⟨n, ie, kids, y, h1, h2, h3⟩
  · exact .inl ⟨e, y.client, h1, h2⟩
  · exact .inr (.inl ⟨f, f0, y.client, h1, h2, h3, h4, h5.unworld.mono fun _ _ _ => trivial⟩)
  · exact .inr (.inr ⟨n, ie, kids, y.client, h1, h2, fun k hk => (h3 k hk).unworld.mono fun _ _ _ => trivial⟩)

theorem Showed.distinct {L : Look σ} {p f} (hL : L.Distinct) (h : Showed L p (.ok f)) : f.Distinct := by
  rcases h with ⟨e, y, h1, -⟩ | ⟨f, f0, y, h1, -, -, -, h5⟩ | ⟨n, ie, kids, y, h1, h2, h3⟩
  · cases h1
  · cases h1; exact h5.distinct hL
  · cases h1
    exact (Seen.dir p n ie kids y (M := fun _ _ => True) trivial h2 h3).distinct hL

/-- What top makes of what Stat says. -/
def statFrom (c : Nav) : Stat → RootStat
  | .error e => .error e
  | .ok fs => .found (prep c fs)

theorem statOf_from (c : Nav) (o : Options κ) (hq : ∀ r, o.hooks.queryStatus.invoke r = r) (disk : Disk) :
    statOf c o disk = fun p => statFrom c (disk p) := by
  funext p
  rw [statOf, hq]
  cases disk p <;> rfl

theorem top_frozen {c : Nav} {env : Env σ} {L : Look σ} (hc : c.Sound) (hL : L.Distinct) (hst : L.Steady) {query : Stat → Stat} (hq : ∀ r, query r = r)
    {fault : σ → Path → Err → σ × Option Err} {n pre p s fin s' g} (hpre : p.dropLast = pre) (h : topLive c env L query fault n pre p s = some (fin, s', g)) :
    ∃ st, top c env fault pre p (statFrom c st) s = (fin, s') ∧ Showed L p st := by
  simp only [topLive, hq] at h
  cases hs : L.stat s.ext p with
  | error e =>
    simp only [hs, Option.some.injEq] at h
    refine ⟨.error e, ?_, .inl ⟨e, _, rfl, hs⟩⟩
    simp only [Prod.mk.injEq] at h
    obtain ⟨rfl, rfl, -⟩ := h
    rfl
  | ok f0 =>
    simp only [hs, Option.map_eq_some_iff] at h
    obtain ⟨⟨o1, s1, g1⟩, h1, h2⟩ := h
    simp only [Prod.mk.injEq] at h2
    obtain ⟨rfl, rfl, rfl⟩ := h2
    obtain ⟨fs, hfe, htr, hseen⟩ := traverse_fs_frozen hc hL hst n _ _ _ _ _ _ _ h1
    have hn : fs.name = f0.name := by rw [← FS.entry_name, hfe]
    refine ⟨.ok fs, ?_, .inr (.inl ⟨fs, f0, s.ext, rfl, hs, hn, ?_, ?_⟩)⟩
    · simp only [top, statFrom, htr]
    · rw [← FS.entry_isDir, hfe]
    · rw [hpre, hn]
      exact hseen.mono fun _ _ _ => trivial

/-- seed on any disk that says what was seen. -/
theorem seed_frozen {c : Nav} {env : Env σ} {L : Look σ} (hc : c.Sound) (hL : L.Distinct) (hst : L.Steady) {query : Stat → Stat} (hq : ∀ r, query r = r)
    {fault : σ → Path → Err → σ × Option Err} {n parent} (names : List String) : names.Nodup → ∀ s fin s',
    seedLive c env L query fault n parent names s = some (fin, s') →
    ∃ d : String → Stat, (∀ disk : Disk, (∀ a ∈ names, disk (parent ++ [a]) = d a) → seed c env fault (fun p => statFrom c (disk p)) parent names s = (fin, s')) ∧
      ∀ a ∈ names, Showed L (parent ++ [a]) (d a) := by
  induction names with
  | nil =>
    intro _ s fin s' h
    cases h
    exact ⟨fun _ => .error .skipAll, fun _ _ => rfl, by simp⟩
  | cons a names ih =>
    intro hnd s fin s' h
    simp only [List.nodup_cons] at hnd
    rw [seedLive] at h
    rcases ht : topLive c env L query fault n parent (parent ++ [a]) s with _ | ⟨f1, s1, g1⟩
    · rw [ht] at h; cases h
    · obtain ⟨st, h1, h2⟩ := top_frozen hc hL hst hq (List.dropLast_concat) ht
      rw [ht] at h
      by_cases hf : f1 = .done none
      · subst hf
        simp only at h
        obtain ⟨d, h3, h4⟩ := ih hnd.2 _ _ _ h
        refine ⟨fun b => if b = a then st else d b, ?_, ?_⟩
        · intro disk hd
          have ha := hd a (by simp)
          simp only [if_true] at ha
          rw [seed]
          simp only [ha, h1]
          refine h3 disk fun b hb => ?_
          have hne : b ≠ a := fun e => hnd.1 (e ▸ hb)
          have := hd b (by simp [hb])
          simpa [hne] using this
        · intro b hb
          by_cases hba : b = a
          · subst hba; simpa using h2
          · simp only [if_neg hba]
            exact h4 b ((List.mem_cons.1 hb).resolve_left hba)
      · have h' : some (f1, s1) = some (fin, s') := by
          rw [← h]
          cases f1 with
          | panic => rfl
          | done e => cases e with
            | none => exact absurd rfl hf
            | some e => rfl
        simp only [Option.some.injEq, Prod.mk.injEq] at h'
        obtain ⟨rfl, rfl⟩ := h'
        refine ⟨fun b => if b = a then st else blankDisk L s.ext (parent ++ [b]), ?_, ?_⟩
        · intro disk hd
          have ha := hd a (by simp)
          simp only [if_true] at ha
          rw [seed]
          simp only [ha, h1]
          cases f1 with
          | panic => rfl
          | done e => cases e with
            | none => exact absurd rfl hf
            | some e => rfl
        · intro b hb
          by_cases hba : b = a
          · subst hba; simpa using h2
          · simp only [if_neg hba]
            exact blank_shown ..

/-- following looks at entries only. -/
theorem following_live {c : Nav} (hc : c.Sound) {L : Look σ} {x parent} {disk : Disk} (h1 : (disk.list parent).1.map FS.entry = (L.list x parent).1)
    (h2 : (disk.list parent).2 = (L.list x parent).2) (anchor incl) : following c disk parent anchor incl = followingLive c L parent anchor incl x := by
  have hes : (L.list x parent).1.map Tree.stub = (prepList c (disk.list parent).1).map fun t => .stub t.entry := by
    rw [← h1, prepList_eq, List.map_map, List.map_map]
    exact List.map_congr_left fun f _ => by simp only [Function.comp_apply, prep_FS_entry]
  unfold following followingLive
  rw [hes, ← h2, hc.read]
  rcases c.read (prepList c (disk.list parent).1) (disk.list parent).2 with ⟨ents, _ | e⟩
  · simp only
    have hfa : fromAnchor anchor incl (ents.map fun t => .stub t.entry) = (fromAnchor anchor incl ents).map fun t => .stub t.entry := by
      rw [fromAnchor, fromAnchor, List.filter_map]
      rfl
    rw [hfa, List.filter_map, List.filter_map, sort_natural hc.sort, sort_natural hc.sort]
    have hf1 : ((fun t : Tree => !t.isDir) ∘ fun t : Tree => Tree.stub t.entry) = fun t => !t.isDir := rfl
    have hf2 : ((fun t : Tree => t.isDir) ∘ fun t : Tree => Tree.stub t.entry) = fun t => t.isDir := rfl
    rw [hf1, hf2]
    have hn : ∀ l : List Tree, (l.map fun t => Tree.stub t.entry).map Tree.name = l.map Tree.name := by
      intro l
      rw [List.map_map]
      rfl
    cases c.filesFirst <;> simp only [Bool.false_eq_true, if_false, if_true, List.map_append, hn]
  · rfl

theorem following_nodup {c : Nav} (hc : c.Sound) {disk : Disk} {parent anchor incl names} (hk : ((disk.list parent).1.map FS.name).Nodup)
    (h : following c disk parent anchor incl = .ok names) : names.Nodup := by
  have := following_pairwise hc.permutes hc.selects hk h (fun _ _ => True) (fun l => by rw [List.pairwise_iff_forall_sublist]; intros; trivial)
  exact this.imp fun h => h.1

theorem seed_congr {c : Nav} {env : Env σ} {fault : σ → Path → Err → σ × Option Err} {stat stat' : Path → RootStat} {parent} (names : List String)
    (h : ∀ a ∈ names, stat (parent ++ [a]) = stat' (parent ++ [a])) (s) :
    seed c env fault stat parent names s = seed c env fault stat' parent names s := by
  induction names generalizing s with
  | nil => rfl
  | cons a names ih =>
    rw [seed, seed, h a (by simp)]
    rcases top c env fault parent (parent ++ [a]) (stat' (parent ++ [a])) s with ⟨f, s1⟩
    cases f with
    | panic => rfl
    | done e => cases e with
      | none => exact ih (fun b hb => h b (by simp [hb])) _
      | some e => rfl

theorem following_congr (c : Nav) {disk disk' : Disk} {parent} (h : disk parent = disk' parent) (anchor incl) :
    following c disk parent anchor incl = following c disk' parent anchor incl := by
  have : disk.list parent = disk'.list parent := by simp only [Disk.list, h]
  simp only [following, this]

/-- crown, after the first step, does not look at the path it is at, nor below it. -/
theorem crown_congr {c : Nav} (hc : c.Sound) {env : Env σ} {fault : σ → Path → Err → σ × Option Err} {disk disk' : Disk} {tree} (r : List String) :
    (∀ p : Path, p.length ≤ r.length → p ≠ r.reverse → disk p = disk' p) → ∀ s,
    crown c env fault (fun p => statFrom c (disk p)) disk tree r false s = crown c env fault (fun p => statFrom c (disk' p)) disk' tree r false s := by
  induction r with
  | nil => intro _ s; rfl
  | cons child rp ih =>
    intro h s
    rw [crown, crown]
    split
    · rfl
    · have hp : disk rp.reverse = disk' rp.reverse := h _ (by simp) (by
        intro he
        have := congrArg List.length he
        simp at this)
      rw [following_congr c hp]
      cases hf : following c disk' rp.reverse child false with
      | error e => rfl
      | ok names =>
        simp only
        have hna := following_not_anchor hc.permutes hf
        rw [seed_congr (stat' := fun p => statFrom c (disk' p)) names (by
          intro a ha
          show statFrom c _ = statFrom c _
          rw [h _ (by simp) (by
            intro he
            rw [List.reverse_cons, List.append_right_inj] at he
            cases he
            exact hna ha)])]
        rcases seed c env fault (fun p => statFrom c (disk' p)) rp.reverse names s with ⟨f, s1⟩
        cases f with
        | panic => rfl
        | done e => cases e with
          | none =>
            refine ih (fun p hp _ => h p (by simp; omega) ?_) _
            intro he
            rw [he] at hp
            simp at hp
            omega
          | some e => rfl

theorem crown_frozen {c : Nav} {env : Env σ} {L : Look σ} (hc : c.Sound) (hL : L.Distinct) (hst : L.Steady) {query : Stat → Stat} (hq : ∀ r, query r = r)
    {fault : σ → Path → Err → σ × Option Err} {n tree} (r : List String) : ∀ incl s fin b s',
    crownLive c env L query fault n tree r incl s = some (fin, b, s') →
    ∃ disk : Disk, crown c env fault (fun p => statFrom c (disk p)) disk tree r incl s = (fin, b, s') ∧ ∀ p, Showed L p (disk p) := by
  induction r with
  | nil =>
    intro incl s fin b s' h
    refine ⟨blankDisk L s.ext, ?_, blank_shown L s.ext⟩
    rw [crownLive] at h
    rw [crown]
    split at h <;> simp_all
  | cons child rp ih =>
    intro incl s fin b s' h
    rw [crownLive] at h
    by_cases htree : (child :: rp).reverse = tree
    · rw [if_pos htree] at h
      cases h
      exact ⟨blankDisk L s.ext, by rw [crown, if_pos htree], blank_shown L s.ext⟩
    · rw [if_neg htree] at h
      -- the directory as it was listed
      generalize hlist : (Except.ok (FS.dir "" none (L.list s.ext rp.reverse).2 ((L.list s.ext rp.reverse).1.map FS.blank)) : Stat) = listing
      have hshown : Showed L rp.reverse listing := by
        refine .inr (.inr ⟨_, _, _, s.ext, hlist.symm, ?_, ?_⟩)
        · rw [List.map_map]
          conv => rhs; rw [← List.map_id (L.list s.ext rp.reverse).1]
          exact List.map_congr_left fun e _ => FS.blank_entry e
        · intro k hk
          obtain ⟨e, -, rfl⟩ := List.mem_map.1 hk
          exact Seen.blank ..
      have hfol : ∀ disk : Disk, disk rp.reverse = listing → following c disk rp.reverse child incl = followingLive c L rp.reverse child incl s.ext := by
        intro disk hd
        refine following_live hc ?_ ?_ _ _
        · simp only [Disk.list, hd, ← hlist, List.map_map]
          conv => rhs; rw [← List.map_id (L.list s.ext rp.reverse).1]
          exact List.map_congr_left fun e _ => FS.blank_entry e
        · simp only [Disk.list, hd, ← hlist]
      have hfol0 := hfol (fun _ => listing) rfl
      cases hF : followingLive c L rp.reverse child incl s.ext with
      | error e =>
        rw [hF] at h
        cases h
        refine ⟨fun p => if p = rp.reverse then listing else blankDisk L s.ext p, ?_, ?_⟩
        · rw [crown, if_neg htree, hfol _ (by simp), hF]
        · intro p
          by_cases hp : p = rp.reverse
          · simp only [hp, if_true]; exact hshown
          · simp only [hp, if_false]; exact blank_shown ..
      | ok names =>
        rw [hF] at h hfol0
        simp only at h
        have hnd : names.Nodup := by
          refine following_nodup hc ?_ hfol0
          simp only [Disk.list, ← hlist, List.map_map]
          have : (FS.name ∘ FS.blank) = Entry.name := by
            funext e
            simp only [Function.comp_apply, ← FS.entry_name, FS.blank_entry]
          rw [this]
          exact hL _ _
        rcases hS : seedLive c env L query fault n rp.reverse names s with _ | ⟨f1, s1⟩
        · rw [hS] at h; cases h
        · obtain ⟨d, hd1, hd2⟩ := seed_frozen hc hL hst hq names hnd _ _ _ hS
          rw [hS] at h
          -- the disk put together
          let glue (rest : Disk) : Disk := fun p => if p = rp.reverse then listing else
            match p.getLast? with
            | some a => if p = rp.reverse ++ [a] ∧ a ∈ names then d a else rest p
            | none => rest p
          have hg1 : ∀ rest, glue rest rp.reverse = listing := fun rest => by simp [glue]
          have hg2 : ∀ rest, ∀ a ∈ names, glue rest (rp.reverse ++ [a]) = d a := by
            intro rest a ha
            simp only [glue, List.getLast?_append, List.getLast?_singleton, Option.some_or, and_self, ha, if_true]
            rw [if_neg]
            intro he
            have := congrArg List.length he
            simp at this
          have hg3 : ∀ rest (p : Path), p.length ≤ rp.length → p ≠ rp.reverse → glue rest p = rest p := by
            intro rest p hp hne
            simp only [glue, if_neg hne]
            split
            · refine if_neg ?_
              rintro ⟨he, -⟩
              have := congrArg List.length he
              simp only [List.length_append, List.length_reverse, List.length_singleton] at this
              omega
            · rfl
          have hg4 : ∀ rest : Disk, (∀ p, Showed L p (rest p)) → ∀ p, Showed L p (glue rest p) := by
            intro rest hr p
            simp only [glue]
            split
            · next hp => rw [hp]; exact hshown
            · split
              · next a _ =>
                split
                · next hp => rw [hp.1]; exact hd2 a hp.2
                · exact hr p
              · exact hr p
          have hstep : ∀ rest, seed c env fault (fun p => statFrom c (glue rest p)) rp.reverse names s = (f1, s1) := fun rest => hd1 _ (hg2 rest)
          by_cases hf : f1 = .done none
          · subst hf
            simp only at h
            obtain ⟨disk, h1, h2⟩ := ih false _ _ _ _ h
            refine ⟨glue disk, ?_, hg4 _ h2⟩
            rw [crown, if_neg htree, hfol _ (hg1 _), hF]
            simp only [hstep]
            rw [← h1]
            exact crown_congr hc rp (hg3 disk) _
          · have h' : some (f1, false, s1) = some (fin, b, s') := by
              rw [← h]
              cases f1 with
              | panic => rfl
              | done e => cases e with
                | none => exact absurd rfl hf
                | some e => rfl
            simp only [Option.some.injEq, Prod.mk.injEq] at h'
            obtain ⟨rfl, rfl, rfl⟩ := h'
            refine ⟨glue (blankDisk L s.ext), ?_, hg4 _ (blank_shown L s.ext)⟩
            rw [crown, if_neg htree, hfol _ (hg1 _), hF]
            simp only [hstep]

theorem resumeRun_frozen {S : Setup} {o : Options κ} {C : Client κ} {L : Look κ} (hc : S.nav.Sound) (hq : ∀ r, o.hooks.queryStatus.invoke r = r)
    (hL : L.Distinct) (hst : L.Steady) {n strategy a w r} (h : resumeRunLive S o C L n strategy a w = some r) :
    ∃ disk : Disk, resumeRun S o C disk strategy a w = r ∧ ∀ p, Showed L p (disk p) := by
  have hL' : L.world.Distinct := fun w p => hL w.client p
  have hst' : L.world.Steady := fun w p e he y => hst w.client p e he y.client
  obtain ⟨fin, b, s'⟩ := r
  have snooze : (topLive S.nav (S.env C a.tree a.currentPath) L.world o.hooks.queryStatus.invoke o.fault n a.tree.dropLast a.tree ⟨0, w, []⟩).map
      (fun r => (r.1, true, r.2.1)) = some (fin, b, s') →
      ∃ disk : Disk, (let r := runTop S o C disk a.tree a.currentPath ⟨0, w, []⟩; (r.1, true, r.2)) = (fin, b, s') ∧ ∀ p, Showed L p (disk p) := by
    intro h
    simp only [Option.map_eq_some_iff] at h
    obtain ⟨⟨f1, s1, g1⟩, h1, h2⟩ := h
    obtain ⟨st, h3, h4⟩ := top_frozen hc hL' hst' hq rfl h1
    simp only [Prod.mk.injEq] at h2
    obtain ⟨rfl, rfl, rfl⟩ := h2
    refine ⟨fun p => if p = a.tree then st else blankDisk L w.client p, ?_, ?_⟩
    · simp only [runTop, statOf_from S.nav o hq, if_true, h3]
    · intro p
      by_cases hp : p = a.tree
      · simp only [hp, if_true]; exact h4.unworld
      · simp only [hp, if_false]; exact blank_shown ..
  cases strategy with
  | spawn =>
    simp only [resumeRunLive] at h
    obtain ⟨disk, h1, h2⟩ := crown_frozen hc hL' hst' hq _ _ _ _ _ _ h
    refine ⟨disk, ?_, fun p => (h2 p).unworld⟩
    simp only [resumeRun, statOf_from S.nav o hq]
    exact h1
  | fastward => exact snooze h
  | undefined => exact snooze h

/-- What a resumed session on a changing file system reports, a resumed session on a still one reports. -/
theorem walkResumeLive_frozen {P : Platform κ} {r : Relic κ} {settings} {files} {L : Look κ} {n x rep}
    (hsound : ∀ o a S o', resumePlatform P r settings (files r.from) = .ok (o, a) → buildRest P a.sub (some r.strategy) o.afterwards = .ready S o' →
      S.nav.Sound ∧ ∀ r, o'.hooks.queryStatus.invoke r = r)
    (hL : L.Distinct) (hst : L.Steady) (h : walkResumeLive P (.relic r) settings files L n x = some rep) :
    ∃ disk : Disk, rep = walkResume P (.relic r) settings files disk x ∧ ∀ p, Showed L p (disk p) := by
  simp only [walkResumeLive, walkResume] at h ⊢
  cases hp : resumePlatform P r settings (files r.from) with
  | error e =>
    rw [hp] at h
    cases h
    exact ⟨_, rfl, blank_shown L x⟩
  | ok oa =>
    obtain ⟨o, a⟩ := oa
    rw [hp] at h
    simp only at h ⊢
    cases hb : buildRest P a.sub (some r.strategy) o.afterwards with
    | crash => rw [hb] at h; cases h; exact ⟨_, rfl, blank_shown L x⟩
    | hades e => rw [hb] at h; cases h; exact ⟨_, rfl, blank_shown L x⟩
    | stillborn e o' =>
      rw [hb] at h
      refine ⟨_, ?_, blank_shown L x⟩
      simp only [Built.resumeLive, Built.resume] at h ⊢
      split at h <;> (cases h; simp [*])
    | ready S o' =>
      obtain ⟨hc, hq⟩ := hsound o a S o' hp hb
      rw [hb] at h
      simp only [Built.resumeLive, Built.resume] at h ⊢
      simp only [Option.map_eq_some_iff] at h
      obtain ⟨res, h1, h2⟩ := h
      obtain ⟨disk, h3, h4⟩ := resumeRun_frozen hc hq hL hst h1
      refine ⟨disk, ?_, h4⟩
      rw [h3, ← h2]
      obtain ⟨f, b, s⟩ := res
      cases f <;> rfl

/-! ### With a depth limit every resumed session ends -/

theorem topLive_ends {c : Nav} (env : Env σ) (L : Look σ) (query : Stat → Stat) (fault : σ → Path → Err → σ × Option Err) (hlim : 0 < c.maxDepth) {n : Nat} (pre p)
    (s : St σ) (h : (c.maxDepth : Int) + 2 ≤ s.depth + n) (h0 : 0 < n) :
    ∃ f s' g, topLive c env L query fault n pre p s = some (f, s', g) ∧ s'.depth = s.depth := by
  rw [topLive]
  cases query (L.stat s.ext p) with
  | error e => exact ⟨_, _, _, rfl, rfl⟩
  | ok fs =>
    obtain ⟨o, s', g, ht⟩ := traverseLive_ends c env L hlim n [] pre ⟨fs.name, fs.isDir, none⟩ s h h0
    simp only [ht, Option.map_some]
    exact ⟨_, _, _, rfl, live_depth ht⟩

theorem seedLive_ends {c : Nav} (env : Env σ) (L : Look σ) (query : Stat → Stat) (fault : σ → Path → Err → σ × Option Err) (hlim : 0 < c.maxDepth) {n : Nat} (parent)
    (h0 : 0 < n) (names : List String) : ∀ s : St σ, (c.maxDepth : Int) + 2 ≤ s.depth + n →
    ∃ f s', seedLive c env L query fault n parent names s = some (f, s') ∧ s'.depth = s.depth := by
  induction names with
  | nil => intro s _; exact ⟨_, _, rfl, rfl⟩
  | cons a names ih =>
    intro s h
    obtain ⟨f, s1, g, h1, h2⟩ := topLive_ends env L query fault hlim parent (parent ++ [a]) s h h0
    rw [seedLive, h1]
    cases f with
    | panic => exact ⟨_, _, rfl, h2⟩
    | done e => cases e with
      | some e => exact ⟨_, _, rfl, h2⟩
      | none =>
        obtain ⟨f, s2, h3, h4⟩ := ih s1 (by rw [h2]; exact h)
        exact ⟨f, s2, h3, h4.trans h2⟩

theorem crownLive_ends {c : Nav} (env : Env σ) (L : Look σ) (query : Stat → Stat) (fault : σ → Path → Err → σ × Option Err) (hlim : 0 < c.maxDepth) {n : Nat} (tree)
    (h0 : 0 < n) (r : List String) : ∀ incl (s : St σ), (c.maxDepth : Int) + 2 ≤ s.depth + n →
    ∃ f b s', crownLive c env L query fault n tree r incl s = some (f, b, s') := by
  induction r with
  | nil =>
    intro incl s _
    rw [crownLive]
    split <;> exact ⟨_, _, _, rfl⟩
  | cons child rp ih =>
    intro incl s h
    rw [crownLive]
    split
    · exact ⟨_, _, _, rfl⟩
    · cases followingLive c L rp.reverse child incl s.ext with
      | error e => exact ⟨_, _, _, rfl⟩
      | ok names =>
        obtain ⟨f, s1, h1, h2⟩ := seedLive_ends env L query fault hlim rp.reverse h0 names s h
        simp only [h1]
        cases f with
        | panic => exact ⟨_, _, _, rfl⟩
        | done e => cases e with
          | some e => exact ⟨_, _, _, rfl⟩
          | none => exact ih false s1 (by rw [h2]; exact h)

theorem walkResumeLive_ends {P : Platform κ} {r : Relic κ} {settings} {files} {L : Look κ} {n : Nat}
    (hlim : ∀ o a S o', resumePlatform P r settings (files r.from) = .ok (o, a) → buildRest P a.sub (some r.strategy) o.afterwards = .ready S o' →
      0 < S.nav.maxDepth ∧ (S.nav.maxDepth : Int) + 2 ≤ n ∧ (S.nav.maxDepth : Int) + 2 ≤ a.depth + n) (x : κ) :
    ∃ rep, walkResumeLive P (.relic r) settings files L n x = some rep := by
  simp only [walkResumeLive]
  cases hp : resumePlatform P r settings (files r.from) with
  | error e => exact ⟨_, rfl⟩
  | ok oa =>
    obtain ⟨o, a⟩ := oa
    simp only
    cases hb : buildRest P a.sub (some r.strategy) o.afterwards with
    | crash => exact ⟨_, rfl⟩
    | hades e => exact ⟨_, rfl⟩
    | stillborn e o' =>
      simp only [Built.resumeLive]
      split <;> exact ⟨_, rfl⟩
    | ready S o' =>
      obtain ⟨h1, h2, h3⟩ := hlim o a S o' hp hb
      simp only [Built.resumeLive]
      generalize (S.world x (if r.strategy = .spawn then a.metrics else fun _ => none)).publish _ _ = w
      have snooze : ∃ res, (topLive S.nav (S.env (o'.client (r.handler.getD fun k _ => (k, .panic))) a.tree a.currentPath) L.world o'.hooks.queryStatus.invoke o'.fault n
          a.tree.dropLast a.tree ⟨0, w, []⟩).map (fun r => (r.1, true, r.2.1)) = some res := by
        obtain ⟨f, s, g, h, -⟩ := topLive_ends (S.env (o'.client (r.handler.getD fun k _ => (k, .panic))) a.tree a.currentPath) L.world o'.hooks.queryStatus.invoke o'.fault h1
          a.tree.dropLast a.tree ⟨0, w, []⟩ (by simpa using h2) (by omega)
        rw [h]
        exact ⟨_, rfl⟩
      have hrun : ∃ res, resumeRunLive S o' (o'.client (r.handler.getD fun k _ => (k, .panic))) L n r.strategy a w = some res := by
        cases r.strategy with
        | spawn =>
          obtain ⟨f, b, s, h⟩ := crownLive_ends (S.env (o'.client (r.handler.getD fun k _ => (k, .panic))) a.tree a.currentPath) L.world o'.hooks.queryStatus.invoke o'.fault h1
            a.tree (by omega) a.currentPath.reverse true ⟨a.depth, w, []⟩ h3
          exact ⟨_, h⟩
        | fastward => exact snooze
        | undefined => exact snooze
      obtain ⟨res, hres⟩ := hrun
      rw [hres]
      exact ⟨_, rfl⟩

/-! ### Fuel -/

theorem topLive_more {c : Nav} {env : Env σ} {L : Look σ} {query : Stat → Stat} {fault : σ → Path → Err → σ × Option Err} {n m : Nat} (hm : n ≤ m) {pre p s r}
    (h : topLive c env L query fault n pre p s = some r) : topLive c env L query fault m pre p s = some r := by
  rw [topLive] at h ⊢
  cases hq : query (L.stat s.ext p) with
  | error e => rw [hq] at h; exact h
  | ok fs =>
    rw [hq] at h
    simp only [Option.map_eq_some_iff] at h ⊢
    obtain ⟨a, h1, h2⟩ := h
    exact ⟨a, live_fuel h1 hm, h2⟩

theorem seedLive_more {c : Nav} {env : Env σ} {L : Look σ} {query : Stat → Stat} {fault : σ → Path → Err → σ × Option Err} {n m : Nat} (hm : n ≤ m) {parent}
    (names : List String) : ∀ {s r}, seedLive c env L query fault n parent names s = some r → seedLive c env L query fault m parent names s = some r := by
  induction names with
  | nil => intro s r h; exact h
  | cons a names ih =>
    intro s r h
    rw [seedLive] at h ⊢
    rcases ht : topLive c env L query fault n parent (parent ++ [a]) s with _ | ⟨f, s1, g⟩
    · rw [ht] at h; cases h
    · rw [ht] at h
      rw [topLive_more hm ht]
      cases f with
      | panic => exact h
      | done e => cases e with
        | some e => exact h
        | none => exact ih h

theorem crownLive_more {c : Nav} {env : Env σ} {L : Look σ} {query : Stat → Stat} {fault : σ → Path → Err → σ × Option Err} {n m : Nat} (hm : n ≤ m) {tree}
    (r : List String) : ∀ {incl s res}, crownLive c env L query fault n tree r incl s = some res → crownLive c env L query fault m tree r incl s = some res := by
  induction r with
  | nil => intro incl s res h; exact h
  | cons child rp ih =>
    intro incl s res h
    rw [crownLive] at h ⊢
    split
    · next ht => rw [if_pos ht] at h; exact h
    · next ht =>
      rw [if_neg ht] at h
      cases hf : followingLive c L rp.reverse child incl s.ext with
      | error e => rw [hf] at h; exact h
      | ok names =>
        rw [hf] at h
        simp only at h ⊢
        rcases hs : seedLive c env L query fault n rp.reverse names s with _ | ⟨f, s1⟩
        · rw [hs] at h; cases h
        · rw [hs] at h
          rw [seedLive_more hm names hs]
          cases f with
          | panic => exact h
          | done e => cases e with
            | some e => exact h
            | none => exact ih h

theorem walkResumeLive_more {P : Platform κ} {r : Relic κ} {settings} {files} {L : Look κ} {n m : Nat} {x : κ} {rep}
    (h : walkResumeLive P (.relic r) settings files L n x = some rep) (hm : n ≤ m) : walkResumeLive P (.relic r) settings files L m x = some rep := by
  simp only [walkResumeLive] at h ⊢
  cases hp : resumePlatform P r settings (files r.from) with
  | error e => rw [hp] at h; exact h
  | ok oa =>
    obtain ⟨o, a⟩ := oa
    rw [hp] at h
    simp only at h ⊢
    cases hb : buildRest P a.sub (some r.strategy) o.afterwards with
    | crash => rw [hb] at h; exact h
    | hades e => rw [hb] at h; exact h
    | stillborn e o' => rw [hb] at h; exact h
    | ready S o' =>
      rw [hb] at h
      simp only [Built.resumeLive, Option.map_eq_some_iff] at h ⊢
      obtain ⟨res, h1, h2⟩ := h
      refine ⟨res, ?_, h2⟩
      cases hs : r.strategy with
      | spawn => rw [hs] at h1; exact crownLive_more hm _ h1
      | fastward =>
        rw [hs] at h1
        simp only [resumeRunLive, Option.map_eq_some_iff] at h1 ⊢
        obtain ⟨q, h3, h4⟩ := h1
        exact ⟨q, topLive_more hm h3, h4⟩
      | undefined =>
        rw [hs] at h1
        simp only [resumeRunLive, Option.map_eq_some_iff] at h1 ⊢
        obtain ⟨q, h3, h4⟩ := h1
        exact ⟨q, topLive_more hm h3, h4⟩

/-! ### On a still disk -/

theorem Look.Mirrors.world {L : Look κ} {disk : Disk} (h : L.Mirrors disk) : L.world.Mirrors disk where
  stat w := h.stat w.client
  list w := h.list w.client
  named := h.named
  still p f hf := by
    obtain ⟨h1, h2⟩ := h.still p f hf
    exact ⟨⟨fun w => h1.stat w.client, fun w => h1.list w.client, fun w => h1.file w.client, fun w => h1.info w.client⟩, h2⟩

theorem topLive_still {c : Nav} {env : Env σ} {L : Look σ} {disk : Disk} (hc : c.Sound) (hL : L.Mirrors disk) {query : Stat → Stat} (hq : ∀ r, query r = r)
    {fault : σ → Path → Err → σ × Option Err} {n} (hn : ∀ p f, disk p = .ok f → f.levels ≤ n) (p s) :
    ∃ g, topLive c env L query fault n p.dropLast p s =
      some ((top c env fault p.dropLast p (statFrom c (disk p)) s).1, (top c env fault p.dropLast p (statFrom c (disk p)) s).2, g) := by
  rw [topLive, hq, hL.stat]
  cases hd : disk p with
  | error e => exact ⟨_, rfl⟩
  | ok f =>
    obtain ⟨h1, h2⟩ := hL.still p f hd
    have he : (⟨f.name, f.isDir, none⟩ : Entry) = f.entry := by cases f <;> (simp only [FS.infoErr] at h2; subst h2; rfl)
    obtain ⟨g, hg⟩ := traverse_still (env := env) hc.permutes hc.selects hc.sort hc.read h1 f p.dropLast (.here _ f) n (hn p f hd) [] s
    refine ⟨g, ?_⟩
    simp only [he, hg, Option.map_some, top, statFrom]

theorem seedLive_still {c : Nav} {env : Env σ} {L : Look σ} {disk : Disk} (hc : c.Sound) (hL : L.Mirrors disk) {query : Stat → Stat} (hq : ∀ r, query r = r)
    {fault : σ → Path → Err → σ × Option Err} {n} (hn : ∀ p f, disk p = .ok f → f.levels ≤ n) (parent) (names : List String) : ∀ s,
    seedLive c env L query fault n parent names s = some (seed c env fault (fun p => statFrom c (disk p)) parent names s) := by
  induction names with
  | nil => intro s; rfl
  | cons a names ih =>
    intro s
    obtain ⟨g, hg⟩ := topLive_still (env := env) (fault := fault) hc hL hq hn (parent ++ [a]) s
    rw [List.dropLast_concat] at hg
    rw [seedLive, seed, hg]
    rcases top c env fault parent (parent ++ [a]) (statFrom c (disk (parent ++ [a]))) s with ⟨f, s1⟩
    cases f with
    | panic => rfl
    | done e => cases e with
      | none => exact ih s1
      | some e => rfl

theorem crownLive_still {c : Nav} {env : Env σ} {L : Look σ} {disk : Disk} (hc : c.Sound) (hL : L.Mirrors disk) {query : Stat → Stat} (hq : ∀ r, query r = r)
    {fault : σ → Path → Err → σ × Option Err} {n} (hn : ∀ p f, disk p = .ok f → f.levels ≤ n) (tree) (r : List String) : ∀ incl s,
    crownLive c env L query fault n tree r incl s = some (crown c env fault (fun p => statFrom c (disk p)) disk tree r incl s) := by
  induction r with
  | nil =>
    intro incl s
    rw [crownLive, crown]
    split <;> rfl
  | cons child rp ih =>
    intro incl s
    rw [crownLive, crown]
    split
    · rfl
    · have hf : following c disk rp.reverse child incl = followingLive c L rp.reverse child incl s.ext := by
        have hl := hL.list s.ext rp.reverse
        refine following_live hc ?_ ?_ _ _
        · rw [hl, Disk.list]
          cases disk rp.reverse with
          | error e => rfl
          | ok f => cases f <;> rfl
        · rw [hl, Disk.list]
          cases disk rp.reverse with
          | error e => rfl
          | ok f => cases f <;> rfl
      rw [← hf]
      cases following c disk rp.reverse child incl with
      | error e => rfl
      | ok names =>
        simp only [seedLive_still hc hL hq hn]
        rcases seed c env fault (fun p => statFrom c (disk p)) rp.reverse names s with ⟨f, s1⟩
        cases f with
        | panic => rfl
        | done e => cases e with
          | none => exact ih false s1
          | some e => rfl

theorem walkResumeLive_still {P : Platform κ} {r : Relic κ} {settings} {files} {L : Look κ} {disk : Disk}
    (hsound : ∀ o a S o', resumePlatform P r settings (files r.from) = .ok (o, a) → buildRest P a.sub (some r.strategy) o.afterwards = .ready S o' →
      S.nav.Sound ∧ ∀ r, o'.hooks.queryStatus.invoke r = r)
    (hL : L.Mirrors disk) {n : Nat} (hn : ∀ p f, disk p = .ok f → f.levels ≤ n) (x : κ) :
    walkResumeLive P (.relic r) settings files L n x = some (walkResume P (.relic r) settings files disk x) := by
  simp only [walkResumeLive, walkResume]
  cases hp : resumePlatform P r settings (files r.from) with
  | error e => rfl
  | ok oa =>
    obtain ⟨o, a⟩ := oa
    simp only
    cases hb : buildRest P a.sub (some r.strategy) o.afterwards with
    | crash => rfl
    | hades e => rfl
    | stillborn e o' =>
      simp only [Built.resumeLive, Built.resume]
      split <;> rfl
    | ready S o' =>
      obtain ⟨hc, hq⟩ := hsound o a S o' hp hb
      simp only [Built.resumeLive, Built.resume]
      generalize (S.world x (if r.strategy = .spawn then a.metrics else fun _ => none)).publish _ _ = w
      generalize o'.client (r.handler.getD fun k _ => (k, .panic)) = C
      have hrun : resumeRunLive S o' C L n r.strategy a w = some (resumeRun S o' C disk r.strategy a w) := by
        obtain ⟨g, hg⟩ := topLive_still (env := S.env C a.tree a.currentPath) (fault := o'.fault) hc hL.world hq hn a.tree ⟨0, w, []⟩
        have hcr := crownLive_still (env := S.env C a.tree a.currentPath) (fault := o'.fault) hc hL.world hq hn a.tree a.currentPath.reverse true ⟨a.depth, w, []⟩
        cases r.strategy with
        | spawn => simp only [resumeRunLive, resumeRun, statOf_from S.nav o' hq, hcr]
        | fastward => simp only [resumeRunLive, resumeRun, runTop, statOf_from S.nav o' hq, hg, Option.map_some]
        | undefined => simp only [resumeRunLive, resumeRun, runTop, statOf_from S.nav o' hq, hg, Option.map_some]
      rw [hrun]
      simp only [Option.map_some]
      rcases resumeRun S o' C disk r.strategy a w with ⟨f, b, s⟩
      cases f <;> rfl

end Traverse
