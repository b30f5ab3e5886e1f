import Verif.Proofs.Spawn4
import Verif.Props.Saga
/-
C63: a traversal that panics again and again and is resumed by spawning each time.
-/
namespace Traverse
variable {κ : Type}

/-- What a session says and leaves behind that is to call the handler for `part`, if the handler accepts or panics; `save` is its panic
handler. -/
structure Chapter (read : κ → String → Except Err Json) (save : κ → Active → κ × Rescue) (tree : Path) (sub : Subscription)
    (part : List (Path × Bool)) (h : κ → Parcel → κ × Reply) (rep : Report κ) : Prop where
  calls : rep.calls <+: part
  holds : ∀ a ∈ rep.answers, a.2 = .ok none ∨ a.2 = .panic
  accepts : Handler.Nil h → ∀ a ∈ rep.answers, a.2 = .ok none
  ended : (∀ n, (n, .panic) ∉ rep.answers) → rep.calls = part ∧ rep.verdict = .done none
  broken : ∀ n, (n, .panic) ∈ rep.answers → n.parent ≠ none → ∃ before k a, rep.answers = before ++ [(n, .panic)] ∧
    (∀ c ∈ before, c.2 ≠ .panic) ∧ rep.verdict = .done (some (save k a).2.err) ∧ (∀ p, read rep.client p = read (save k a).1 p) ∧
    a.tree = tree ∧ a.sub = sub ∧ a.currentPath = n.path.dropLast

theorem report_calls (rep : Report κ) : rep.calls = rep.answers.map (fun a => (a.1.path, a.1.isDir)) := by
  simp [Report.calls, Report.answers, Function.comp_def]

section
variable {P Q : Platform κ} {D : Drive κ} {u : Using κ} {settings₀ settings : List (Option (Setting κ))} {disk : Disk}
  {o₀ o : Options κ} {h₀ : κ → Parcel → κ × Reply} {r : Relic κ} {t rr : Bool} {pre : Path} {fs : FS}

theorem stat_wf {c : Nav} {o : Options κ} {disk : Disk} {p : Path} {t : Tree} (hst : ∀ s, o.hooks.queryStatus.invoke s = s)
    (hsort : SortPermutes c) (hread : ReadSelects c) (hs : statOf c o disk p = .found t) : t.WF := by
  unfold statOf at hs
  rw [hst] at hs
  cases hd : disk p with
  | error e => simp [hd] at hs
  | ok f =>
    simp only [hd, RootStat.found.injEq] at hs
    subst hs
    exact prep_wf c hsort hread f

theorem spawn_next (T : Tale P Q D u settings₀ settings disk o₀ o h₀ r t rr pre fs) {key : String → String}
    (hst : r.strategy = .spawn) (hsub : u.sub = .universal) (hp : o.Plain key)
    (hdisk : ∀ p g, FS.At pre fs p g → disk p = .ok g) (hdistinct : fs.Distinct) (hkeys : fs.KeysDiffer key)
    {a : Active} {file : String} {k : κ}
    (hload : ∃ o', unmarshal Q (D.read k file) = .ok (o', ⟨a, t, rr⟩) ∧ bindOptions o' settings = (o, none))
    (htree : a.tree = u.tree) (hasub : a.sub = u.sub) (hpath : a.currentPath ∈ (fs.nodes pre).map Prod.fst)
    (hdeep : Above u.tree a.currentPath) (hbo : ByteOrdered (o₀.afterwards.nav u.sub) pre fs a.currentPath)
    {h : κ → Parcel → κ × Reply} (hh : Handler.Holds h) :
    Chapter D.read o.defects.panic u.tree u.sub
      (((prep (o₀.afterwards.nav u.sub) fs).list pre).dropWhile (fun k => k.1 != a.currentPath)) h
      (walkOn Q D r settings disk h file k) := by
  obtain ⟨o', hl, ho⟩ := hload
  let r' : Relic κ := { r with handler := some h, «from» := file }
  have hplat : resumePlatform Q r' settings (D.read k r'.from) = .ok (o, a) := by
    rw [platform_loaded hl ho]
    have hs := T.systems
    unfold Relic.Systems at hs
    rw [← htree] at hs
    have : r'.systems a.tree = some (t, rr) := by
      simp only [Relic.systems, r']
      cases hf : r.forest with
      | none => simp only [hf] at hs; simp [hs]
      | some f => simp only [hf] at hs; exact hs
    simp only [this, ne_eq, not_true_eq_false, if_false]
  have hb := plain_built (P := Q) hp a.sub (some .spawn) (by rw [hasub]; exact T.first.sub)
  generalize hhb : ({ inclusiveWake := o.hibernate.inclusiveWake, inclusiveSleep := o.hibernate.inclusiveSleep } : HiberOpts) = hb0 at hb
  have hw : hb0.wakeAt = none := by rw [← hhb]
  have hsl : hb0.sleepAt = none := by rw [← hhb]
  obtain ⟨n1, n2, n3, n4⟩ := plain_nav hp a.sub
  have hnav : o.afterwards.nav a.sub = o₀.afterwards.nav u.sub := by rw [hasub, T.same]
  generalize hc : o.afterwards.nav a.sub = c at *
  rw [← hnav] at hbo ⊢
  have hcs : c.sub = .universal := by rw [n4, hasub, hsub]
  have hord : (plainSetup c (some .spawn) hb0).Ordinary := Or.inr rfl
  have hlis : ∀ k n p, D.read ((o.afterwards.client h).listen k n) p = D.read k p := T.quiet
  have hI := holding_plain hw hsl hord (o.afterwards.client h) a.metrics a.tree a.currentPath hh hp.skip hlis
  have hs0 := (plain_start hord (o.afterwards.client h) k a.metrics a.depth a.tree).1
  have htree' : a.tree = pre ++ [fs.name] := by rw [htree]; exact T.first.tree
  have hstart : startWorld (plainSetup c (some .spawn) hb0) (o.afterwards.client h) .spawn a k =
      ((plainSetup c (some .spawn) hb0).world k a.metrics).publish (o.afterwards.client h) (.begin a.tree) := rfl
  have hr : Resumed Q r' settings (D.read k) (plainSetup c (some .spawn) hb0) o.afterwards h a :=
    ⟨rfl, o, hplat, by rw [show r'.strategy = .spawn from hst]; exact hb⟩
  have hst' : r'.strategy = .spawn := hst
  obtain ⟨c1, c2⟩ := crown_fs_holding key n1 n2 n3 hcs hdistinct hkeys hdisk
    (fun p g hg => plain_stat hp c disk p g (hdisk p g hg)) hI o.afterwards.fault a.currentPath hpath
    (by rw [← T.first.tree]; exact fun he => hdeep.2 he.symm) hbo _
    ⟨⟨⟨hs0, by simp⟩, by intro a' ha'; simp [Setup.world, World.publish] at ha'; split at ha' <;> simp at ha'⟩,
      by unfold HitsIn; simp [Setup.world]⟩
  rw [← htree'] at c1 c2
  have hends := resumed_ends (S := plainSetup c (some .spawn) hb0) (o := o.afterwards) (disk := disk) (a := a) (o.afterwards.client h)
    (startWorld (plainSetup c (some .spawn) hb0) (o.afterwards.client h) .spawn a k) .spawn
  have hsv := resumeRun_inv (saveInv_preserved (plainSetup c (some .spawn) hb0) (o.afterwards.client h) a.tree a.currentPath) (o := o.afterwards)
    (fun s p e hs => ⟨hs.saves, hs.last⟩) disk .spawn (startWorld (plainSetup c (some .spawn) hb0) (o.afterwards.client h) .spawn a k)
    (fun d => ⟨by simp [startWorld, Setup.world, rescues], by simp [startWorld, Setup.world]⟩)
  have hgrown := spawn_grown (S := plainSetup c (some .spawn) hb0) (o := o.afterwards) (disk := disk) (a := a) (o.afterwards.client h)
    (startWorld (plainSetup c (some .spawn) hb0) (o.afterwards.client h) .spawn a k)
  have hrep : walkOn Q D r settings disk h file k = (Built.ready (plainSetup c (some .spawn) hb0) o.afterwards).resume .spawn h disk a k := by
    show walkResume Q (.relic r') settings (D.read k) disk k = _
    simp only [walkResume, hplat]
    rw [hst', hb]
    rfl
  generalize hrun : crown c ((plainSetup c (some .spawn) hb0).env (o.afterwards.client h) a.tree a.currentPath) o.afterwards.fault
    (statOf c o.afterwards disk) disk a.tree a.currentPath.reverse true
    ⟨a.depth, ((plainSetup c (some .spawn) hb0).world k a.metrics).publish (o.afterwards.client h) (.begin a.tree), []⟩ = R at c1 c2
  have hrr : resumeRun (plainSetup c (some .spawn) hb0) o.afterwards (o.afterwards.client h) disk .spawn a
      (startWorld (plainSetup c (some .spawn) hb0) (o.afterwards.client h) .spawn a k) = R := hrun
  rw [hrr] at hends hsv
  simp only [hrr] at hgrown
  obtain ⟨⟨⟨i1, i2⟩, i3⟩, i4⟩ := c1
  have h1 : (walkOn Q D r settings disk h file k).verdict = R.1.verdict ∧ (walkOn Q D r settings disk h file k).hits = R.2.2.ext.hits ∧
      ∀ p, R.1 ≠ .panic → D.read (walkOn Q D r settings disk h file k).client p = D.read R.2.2.ext.client p := by
    rw [hrep]
    simp only [Built.resume, if_true]
    rw [show resumeRun (plainSetup c (some .spawn) hb0) o.afterwards (o.afterwards.client h) disk .spawn a
      (((plainSetup c (some .spawn) hb0).world k a.metrics).publish (o.afterwards.client h) (.begin a.tree)) = R from hrun]
    rcases R with ⟨e | _, cm, s⟩
    · exact ⟨rfl, by simp, fun p _ => publish_read hlis _ _ p⟩
    · exact ⟨rfl, rfl, fun p hne => absurd rfl hne⟩
  obtain ⟨v1, v2, v3⟩ := h1
  have hans : (walkOn Q D r settings disk h file k).answers = Traverse.calls R.2.2.log := by
    have hlen := congrArg List.length (plain_called hw hsl i1)
    have hsl' : (R.2.2.ext.hits.map (fun h => (h.parcel.node, h.reply))).Sublist (Traverse.calls R.2.2.log) := i4
    show (walkOn Q D r settings disk h file k).hits.map _ = _
    rw [v2]
    exact hsl'.eq_of_length (by simpa [World.called, invoked] using hlen)
  generalize walkOn Q D r settings disk h file k = rep at *
  have hcalls : rep.calls = shown R.2.2.log := by
    rw [report_calls, hans]; simp [shown, invoked, Function.comp_def]
  have hpub : ∀ w : World κ, shown (⟨a.depth, w, []⟩ : St (World κ)).log = [] := fun _ => rfl
  obtain ⟨l', p1, p2, p3⟩ := c2
  rw [hpub, List.nil_append] at p1
  have hlog : ∀ n q, Ev.invoke n q ∈ R.2.2.log → q = .ok none ∨ q = .panic := fun n q hm => i2 _ hm
  refine ⟨by rw [hcalls, p1]; exact p2, ?_, ?_, ?_, ?_⟩
  · rintro ⟨n, q⟩ hm
    rw [hans] at hm
    exact hlog n q (mem_calls.1 hm)
  · rintro hnil ⟨n, q⟩ hm
    rw [hans] at hm
    have hacc := plainNil_accepting hw hsl hord (o.afterwards.client h) a.metrics a.tree a.currentPath hnil hp.skip
    obtain ⟨s', -, g1, g2, -⟩ := crown_fs key n1 n2 n3 (Or.inl hcs) hdistinct hkeys hdisk
      (fun p g hg => plain_stat hp c disk p g (hdisk p g hg)) hacc o.afterwards.fault a.currentPath hpath
      (by rw [← T.first.tree]; exact fun he => hdeep.2 he.symm) _ ⟨hs0, by simp⟩
    rw [← htree', hrun] at g1
    rw [g1] at hm
    exact g2.2 _ (mem_calls.1 hm)
  · intro hnp
    rw [hcalls, p1, v1]
    rcases p3 with ⟨p3, p4⟩ | ⟨-, n, p4⟩
    · exact ⟨p3, by rw [p4]; rfl⟩
    · exact absurd (by rw [hans]; exact mem_calls.2 p4) (hnp n)
  · intro n hm hpar
    rw [hans] at hm ⊢
    rcases hends.panics n (mem_calls.1 hm) with ⟨g1, -⟩ | ⟨cur, q, es, g1, g2, g3, g4⟩
    · exact absurd g1 hpar
    have hnp : ∀ c ∈ Traverse.calls es, c.2 ≠ .panic := by
      rintro ⟨m, rp⟩ hk rfl
      exact absurd (g4 _ (mem_calls.1 hk)) (fun h => h)
    have hres : rescues R.2.2.log = [(cur, n.depth - 1)] := by
      rw [rescues_acts, g3]
      have h2 : rescues es = [] := by
        unfold rescues
        rw [List.filterMap_eq_nil_iff]
        intro e he
        cases e with
        | rescue m d r => exact absurd (g4 _ he) (fun h => h)
        | _ => rfl
      unfold rescues at h2 ⊢
      rw [List.filterMap_append, h2]; rfl
    have hsaves := hsv.saves
    rw [hres] at hsaves
    have hlen : R.2.2.ext.saves.length = 1 := by
      have := congrArg List.length hsaves; simpa using this
    obtain ⟨st, hstt⟩ := List.length_eq_one_iff.1 hlen
    rw [hstt] at hsaves
    simp only [List.map_cons, List.map_nil, List.cons.injEq, Prod.mk.injEq, and_true] at hsaves
    obtain ⟨e1, e2, e3, e4, e5⟩ := hsaves
    have hlast : acts R.2.2.log = (es ++ [.invoke n .panic]) ++ [.rescue cur (n.depth - 1) q] := by rw [g3]; simp
    obtain ⟨k', hk'⟩ := i3 st (by rw [hstt]; rfl)
    obtain ⟨k1, k2⟩ := hk' _ _ _ _ hlast
    obtain ⟨parent, name, tr, it, -, w1, w2, rfl⟩ := hgrown n .panic (mem_calls.1 hm)
    have hwf : tr.WF := stat_wf (fun s => hp.status s) n3.permutes (defaultRead_selects c n2) w1
    have hcur := (item_facts w2 hwf).2.2.2 cur g1
    refine ⟨Traverse.calls es, k', st, ?_, hnp, ?_, ?_, ?_, ?_, ?_⟩
    · rw [← calls_acts, g3]; simp [Traverse.calls]
    · rw [v1, g2, ← k1]; rfl
    · intro p
      rw [v3 p (by rw [g2]; simp)]
      exact k2 p
    · rw [e1, htree]
    · rw [e2]; show c.sub = _; rw [n4, hasub]
    · rw [e3, hcur.1]

/-- The first session. -/
theorem chapter_first (T : Tale P Q D u settings₀ settings disk o₀ o h₀ r t rr pre fs) {key : String → String}
    (hsub : u.sub = .universal) (hp₀ : o₀.Plain key) (hdistinct : fs.Distinct) (x : κ) :
    Chapter D.read o₀.defects.panic u.tree u.sub ((prep (o₀.afterwards.nav u.sub) fs).list pre) h₀ (walkPrime P (.using u) settings₀ disk x) := by
  obtain ⟨n1, n2, n3, n4⟩ := plain_nav hp₀ u.sub
  have hread := defaultRead_selects _ n2
  have E := tale_first T (by simp [hsub]) n3.permutes hread hdistinct x
  have hl := items_list (o₀.afterwards.nav u.sub) n1 (prep (o₀.afterwards.nav u.sub) fs) [] pre 0
  have hcalls : ∀ rep : Report κ, rep.calls = rep.nodes.map (fun m => (m.path, m.isDir)) := by
    intro rep; simp [Report.calls, Report.nodes, Function.comp_def]
  have hmap : (items (o₀.afterwards.nav u.sub) [] pre 0 (prep (o₀.afterwards.nav u.sub) fs)).map Item.key =
      ((items (o₀.afterwards.nav u.sub) [] pre 0 (prep (o₀.afterwards.nav u.sub) fs)).map (·.node)).map (fun m => (m.path, m.isDir)) := by
    rw [List.map_map]; rfl
  rw [hmap] at hl
  refine ⟨?_, E.holds, E.accepts, ?_, ?_⟩
  · rw [hcalls, ← hl]
    obtain ⟨l, h⟩ := E.nodes
    exact ⟨l.map (fun m => (m.path, m.isDir)), by rw [← h, List.map_append]⟩
  · intro hnp
    obtain ⟨g1, g2⟩ := E.ended hnp
    exact ⟨by rw [hcalls, g1, hl], g2⟩
  · intro n hm hpar
    refine E.broken n hm (fun he => hpar ?_)
    have hn : n ∈ (items (o₀.afterwards.nav u.sub) [] pre 0 (prep (o₀.afterwards.nav u.sub) fs)).map (·.node) := by
      refine E.nodes.subset ?_
      have := List.mem_map_of_mem (f := Prod.fst) hm
      simpa [Report.answers, Report.nodes, List.map_map, Function.comp_def] using this
    obtain ⟨it, hit, rfl⟩ := List.mem_map.1 hn
    refine ((item_facts hit (prep_wf _ n3.permutes hread fs)).2.2.1).2 ?_
    rw [he, prep_name, T.first.tree]

/-- Either everything was accepted, or the last call panicked. -/
theorem chapter_cases {read : κ → String → Except Err Json} {save : κ → Active → κ × Rescue} {tree : Path} {sub : Subscription}
    {part : List (Path × Bool)} {h : κ → Parcel → κ × Reply} {rep : Report κ} (E : Chapter read save tree sub part h rep)
    (hpar : ∀ n, (n, .panic) ∈ rep.answers → n.parent ≠ none) :
    (rep.verdict = .done none ∧ rep.calls = part ∧ ∀ a ∈ rep.answers, a.2 = .ok none) ∨
    ∃ n before rest k a, rep.answers = before ++ [(n, .panic)] ∧ (∀ b ∈ before, b.2 = .ok none) ∧
      part = before.map (fun a => (a.1.path, a.1.isDir)) ++ (n.path, n.isDir) :: rest ∧
      rep.verdict = .done (some (save k a).2.err) ∧ (∀ p, read rep.client p = read (save k a).1 p) ∧
      a.tree = tree ∧ a.sub = sub ∧ a.currentPath = n.path.dropLast := by
  by_cases hp : ∀ n, (n, Reply.panic) ∉ rep.answers
  · obtain ⟨h1, h2⟩ := E.ended hp
    refine Or.inl ⟨h2, h1, fun b hb => (E.holds b hb).resolve_right (fun hc => hp b.1 ?_)⟩
    rw [← hc]; exact hb
  · simp only [Classical.not_forall, Classical.not_not] at hp
    obtain ⟨n, hm⟩ := hp
    obtain ⟨before, k, a, h1, h2, h3, h4, h5, h6, h7⟩ := E.broken n hm (hpar n hm)
    have hb : ∀ b ∈ before, b.2 = .ok none := fun b hb => (E.holds b (by rw [h1]; simp [hb])).resolve_right (h2 b hb)
    obtain ⟨rest, hr⟩ := E.calls
    rw [report_calls, h1] at hr
    exact Or.inr ⟨n, before, rest, k, a, h1, hb, by rw [← hr]; simp, h3, h4, h5, h6, h7⟩

/-- The directory of a listed node comes before it. -/
theorem list_covers {c : Nav} (hm : c.maxDepth = 0) {pre : Path} {tr : Tree} (hd : tr.Distinct) {l rest : List (Path × Bool)} {k : Path × Bool}
    (he : tr.list pre = l ++ k :: rest) (hp : pre ++ [tr.name] <+: k.1.dropLast) :
    ∃ q l₂, q.1 = k.1.dropLast ∧ (tr.list pre).dropWhile (fun m => m.1 != k.1.dropLast) = q :: l₂ ++ k :: rest := by
  have hl := items_list c hm tr [] pre 0
  have hmap : (items c [] pre 0 tr).map Item.key = ((items c [] pre 0 tr).map (·.node)).map (fun m => (m.path, m.isDir)) := by
    rw [List.map_map]; rfl
  rw [hmap] at hl
  rw [← hl] at he ⊢
  obtain ⟨l', r', hlr, h1⟩ := List.map_eq_append_iff.1 he
  obtain ⟨h1, h2⟩ := h1
  obtain ⟨n, r'', rfl, rfl, rfl⟩ := List.map_eq_cons_iff.1 h2
  obtain ⟨q, l₂, hq, hdw⟩ := part_covers hd hlr hp
  have hkey : (fun k : Path × Bool => k.1 != n.path.dropLast) = fun k => !decide (k.1 = n.path.dropLast) := by
    funext k; by_cases hk : k.1 = n.path.dropLast <;> simp [hk]
  refine ⟨(q.path, q.isDir), l₂.map (fun m => (m.path, m.isDir)), hq, ?_⟩
  rw [hkey, ← map_dropWhile_key (fun m : Node => (m.path, m.isDir)) (fun k : Path × Bool => !decide (k.1 = n.path.dropLast)), hdw]
  simp

/-- A panic at `n` after which the session can be resumed by spawning: `n` has a Parent, its directory lies below the root, and the
directories on the way there visit their entries in the order of the bytes of their names. -/
def Spawnful (c : Nav) (tree pre : Path) (fs : FS) (n : Node) : Prop :=
  n.parent ≠ none ∧ Above tree n.path.dropLast ∧ ByteOrdered c pre fs n.path.dropLast

/-- What the sessions deliver, one after the other. -/
theorem spawn_chapters (T : Tale P Q D u settings₀ settings disk o₀ o h₀ r t rr pre fs) {key : String → String}
    (hst : r.strategy = .spawn) (hsub : u.sub = .universal) (hp₀ : o₀.Plain key) (hp : o.Plain key)
    (hdisk : ∀ p g, FS.At pre fs p g → disk p = .ok g) (hdistinct : fs.Distinct) (hkeys : fs.KeysDiffer key) :
    let all := (prep (o₀.afterwards.nav u.sub) fs).list pre
    ∀ (hs : List (κ → Parcel → κ × Reply)) (rep : Report κ) (h : κ → Parcel → κ × Reply) (part : List (Path × Bool)) (save : κ → Active → κ × Rescue),
    (save = o₀.defects.panic ∨ save = o.defects.panic) → Chapter D.read save u.tree u.sub part h rep → part <:+ all → (∀ g ∈ hs, Handler.Holds g) →
    let reps := rep :: saga (walkOn Q D r settings disk) rep hs
    (∀ q ∈ reps, ∀ n, (n, .panic) ∈ q.answers → Spawnful (o₀.afterwards.nav u.sub) u.tree pre fs n) →
    (∀ q ∈ reps, q.calls <:+: all ∧ ∀ b ∈ q.answers.dropLast, b.2 = .ok none) ∧
    (∀ a b, [a, b] <:+: reps → ∃ n, a.answers.getLast? = some (n, .panic) ∧ (b.calls.head?).map Prod.fst = some n.path.dropLast) ∧
    (∀ last, reps.getLast? = some last → last.verdict = .done none →
      ∀ k ∈ part, ∃ q ∈ reps, ∃ m, (m, .ok none) ∈ q.answers ∧ (m.path, m.isDir) = k) ∧
    (D.Sound → ∀ g, (h :: hs).getLast? = some g → Handler.Nil g → ∃ last, reps.getLast? = some last ∧ last.verdict = .done none) := by
  intro all hs
  obtain ⟨n1, n2, n3, n4⟩ := plain_nav hp₀ u.sub
  have hdt : (prep (o₀.afterwards.nav u.sub) fs).Distinct := prep_distinct _ n3.permutes (defaultRead_selects _ n2) fs hdistinct
  have hname : (prep (o₀.afterwards.nav u.sub) fs).name = fs.name := prep_name _ _
  have hone : ∀ (rep : Report κ) h part save, Chapter D.read save u.tree u.sub part h rep → part <:+ all →
      (∀ n, (n, .panic) ∈ rep.answers → Spawnful (o₀.afterwards.nav u.sub) u.tree pre fs n) →
      rep.calls <:+: all ∧ ∀ b ∈ rep.answers.dropLast, b.2 = .ok none := by
    intro rep h part save E hpart hdeep
    refine ⟨E.calls.isInfix.trans hpart.isInfix, ?_⟩
    rcases chapter_cases E (fun n hm => (hdeep n hm).1) with ⟨-, -, he⟩ | ⟨n, before, rest, k, a, he, hb', -⟩
    · exact fun b hb => he b ((List.dropLast_sublist _).subset hb)
    · intro b hb
      rw [he, List.dropLast_concat] at hb
      exact hb' b hb
  have haccepted : ∀ (rep : Report κ) (part : List (Path × Bool)), rep.calls = part → (∀ a ∈ rep.answers, a.2 = .ok none) →
      ∀ k ∈ part, ∃ m, (m, Reply.ok none) ∈ rep.answers ∧ (m.path, m.isDir) = k := by
    intro rep part hc ha k hk
    rw [← hc, report_calls] at hk
    obtain ⟨⟨m, q⟩, hm, rfl⟩ := List.mem_map.1 hk
    have := ha _ hm
    simp only at this
    subst this
    exact ⟨m, hm, rfl⟩
  have hstop : ∀ (rep : Report κ) hs, rep.verdict = .done none → saga (walkOn Q D r settings disk) rep hs = [] := by
    intro rep hs hv
    cases hs <;> simp [saga, hv]
  have hsolo : ∀ a b (rep : Report κ), [a, b] <:+: [rep] → False := by
    intro a b rep hab
    have := hab.length_le
    simp at this
  induction hs with
  | nil =>
    intro rep h part save hsave E hpart hholds reps hdeep
    have hreps : reps = [rep] := rfl
    rw [hreps] at hdeep ⊢
    have hdeep' := hdeep rep (by simp)
    refine ⟨?_, fun a b hab => (hsolo a b rep hab).elim, ?_, ?_⟩
    · intro q hq
      simp only [List.mem_singleton] at hq
      subst hq
      exact hone q h part save E hpart hdeep'
    · intro last hlast hv n hn
      simp only [List.getLast?_singleton, Option.some.injEq] at hlast
      subst hlast
      rcases chapter_cases E (fun n hm => (hdeep' n hm).1) with ⟨-, hc, he⟩ | ⟨m, before, rest, k, a, he, -, -, hv', -⟩
      · exact ⟨rep, by simp, haccepted rep part hc he n hn⟩
      · rw [hv'] at hv; cases hv
    · intro hD g hg hnil
      simp only [List.getLast?_singleton, Option.some.injEq] at hg
      subst hg
      refine ⟨rep, rfl, ?_⟩
      rcases chapter_cases E (fun n hm => (hdeep' n hm).1) with ⟨hv, -⟩ | ⟨m, before, rest, k, a, he, -⟩
      · exact hv
      · have := E.accepts hnil (m, .panic) (by rw [he]; simp)
        cases this
  | cons g hs ih =>
    intro rep h part save hsave E hpart hholds reps hdeep
    have hdeep' := hdeep rep (List.mem_cons_self ..)
    rcases chapter_cases E (fun n hm => (hdeep' n hm).1) with ⟨hv, hc, he⟩ | ⟨m, before, rest, k, a, he, hbs, hpt, hv, hrd, ha1, ha2, ha3⟩
    · have hreps : reps = [rep] := by simp only [reps, hstop rep (g :: hs) hv]
      rw [hreps]
      refine ⟨?_, fun a b hab => (hsolo a b rep hab).elim, ?_, ?_⟩
      · intro q hq
        simp only [List.mem_singleton] at hq
        subst hq
        exact hone q h part save E hpart hdeep'
      · intro last hlast hv n hn
        exact ⟨rep, by simp, haccepted rep part hc he n hn⟩
      · intro hD g hg hnil
        exact ⟨rep, rfl, hv⟩
    · obtain ⟨-, hmd, hbo⟩ := hdeep' m (by rw [he]; simp)
      rcases hs' : (save k a).2 with file | e
      · -- the next session
        rw [hs'] at hv
        have hreps : reps = rep :: (walkOn Q D r settings disk g file rep.client ::
            saga (walkOn Q D r settings disk) (walkOn Q D r settings disk g file rep.client) hs) := by
          simp only [reps, saga, hv, Rescue.err]
        obtain ⟨l₀, hall⟩ := hpart
        rw [hpt, ← List.append_assoc] at hall
        obtain ⟨q, l₂, hq, hdw⟩ := list_covers n1 hdt hall.symm (by rw [hname, ← T.first.tree]; exact hmd.1)
        simp only at hq hdw
        have hqm : q ∈ all := (List.dropWhile_sublist _).subset (by rw [hdw]; simp)
        have hpath : a.currentPath ∈ (fs.nodes pre).map Prod.fst := by
          rw [ha3, ← hq]
          have hl := items_list (o₀.afterwards.nav u.sub) n1 (prep (o₀.afterwards.nav u.sub) fs) [] pre 0
          have := (items_nodes _ n3.permutes n2 n1 (by rw [n4, hsub]; decide) (by rw [n4, hsub]; decide) fs [] pre 0).subset
            (by rw [show _ = all from hl]; exact hqm)
          exact List.mem_map.2 ⟨_, this, rfl⟩
        have E' := spawn_next T hst hsub hp hdisk hdistinct hkeys (tale_loads T hsave hs' hrd) ha1 ha2 hpath (by rw [ha3]; exact hmd)
          (by rw [ha3]; exact hbo) (hholds g (by simp))
        rw [ha3, hdw] at E'
        have hsuf : q :: l₂ ++ (m.path, m.isDir) :: rest <:+ all := by rw [← hdw]; exact List.dropWhile_suffix _
        rw [hreps] at hdeep ⊢
        obtain ⟨i1, i2, i3, i4⟩ := ih (walkOn Q D r settings disk g file rep.client) g (q :: l₂ ++ (m.path, m.isDir) :: rest) o.defects.panic
          (Or.inr rfl) E' hsuf (fun f hf => hholds f (by simp [hf])) (fun b hb => hdeep b (List.mem_cons_of_mem _ hb))
        refine ⟨?_, ?_, ?_, ?_⟩
        · intro b hb
          rcases List.mem_cons.1 hb with rfl | hb
          · exact hone _ h part save E ⟨l₀, by rw [hpt, ← List.append_assoc]; exact hall⟩ hdeep'
          · exact i1 b hb
        · intro a' b' hab
          rcases List.infix_cons_iff.1 hab with hab | hab
          · have h1 := List.cons_prefix_cons.1 hab
            have h2 := List.cons_prefix_cons.1 h1.2
            rw [h1.1, h2.1]
            refine ⟨m, by rw [he]; simp, ?_⟩
            have hne : (walkOn Q D r settings disk g file rep.client).calls ≠ [] := by
              intro h0
              have hn : (walkOn Q D r settings disk g file rep.client).answers = [] := by
                simpa [report_calls] using h0
              have := (E'.ended (by rw [hn]; simp)).1
              rw [h0] at this
              cases this
            obtain ⟨tl, htl⟩ := E'.calls
            rcases hnn : (walkOn Q D r settings disk g file rep.client).calls with _ | ⟨q', l'⟩
            · exact absurd hnn hne
            · rw [hnn] at htl
              simp only [List.cons_append, List.cons.injEq] at htl
              rw [htl.1]
              simp [hq]
          · exact i2 a' b' hab
        · intro last hlast hvl n hn
          rw [hpt] at hn
          rcases List.mem_append.1 hn with hn | hn
          · obtain ⟨⟨m', q'⟩, hm', rfl⟩ := List.mem_map.1 hn
            have := hbs _ hm'
            simp only at this
            subst this
            exact ⟨rep, by simp, m', by rw [he]; exact List.mem_append_left _ hm', rfl⟩
          · obtain ⟨b, hb, hbn⟩ := i3 last (by simpa using hlast) hvl n (List.mem_append_right _ hn)
            exact ⟨b, List.mem_cons_of_mem _ hb, hbn⟩
        · intro hD f hf hnil
          obtain ⟨last, hl, hlv⟩ := i4 hD f (by simpa using hf) hnil
          exact ⟨last, by simpa using hl, hlv⟩
      · -- not saved
        rw [hs'] at hv
        have hreps : reps = [rep] := by simp only [reps, saga, hv, Rescue.err]
        rw [hreps]
        refine ⟨?_, fun a b hab => (hsolo a b rep hab).elim, ?_, ?_⟩
        · intro q hq
          simp only [List.mem_singleton] at hq
          subst hq
          exact hone q h part save E hpart hdeep'
        · intro last hlast hvl
          simp only [List.getLast?_singleton, Option.some.injEq] at hlast
          subst hlast
          rw [hv] at hvl; cases hvl
        · intro hD f hf hnil
          obtain ⟨file, hfile⟩ := tale_sound T hD hsave k a
          rw [hs'] at hfile; cases hfile

/-- **C63** (partial: spawn, Universal; no panic at the root, at nodes directly inside it, at nodes a spawning resume delivers without
Parent, or below a directory whose entries are not visited in the order of the bytes of their names; `C63_false_in_general`,
`C63_spawns_lose`) A session whose handler accepts nodes or panics is, after a panic, resumed by spawning from the file the error names,
with the next of the handlers `hs`, and so on. `all` is what one uninterrupted session delivers. Then:
each session delivers a contiguous part of `all`, in order, and only its last call can have panicked;
the session after one that panicked at `n` begins with the directory of `n`;
when the last session returns nil, every node of `all` was accepted in some session;
and it does return nil if its handler accepts everything and saving does not fail. -/
theorem C63_spawns_partial (T : Tale P Q D u settings₀ settings disk o₀ o h₀ r t rr pre fs) {key : String → String}
    (hst : r.strategy = .spawn) (hsub : u.sub = .universal) (hp₀ : o₀.Plain key) (hp : o.Plain key)
    (hdisk : ∀ p g, FS.At pre fs p g → disk p = .ok g) (hdistinct : fs.Distinct) (hkeys : fs.KeysDiffer key)
    (hs : List (κ → Parcel → κ × Reply)) (hholds : ∀ h ∈ hs, Handler.Holds h) (x : κ) :
    let all := (walkPrime P (.using { u with handler := some (fun k _ => (k, .ok none)) }) settings₀ disk x).calls
    let first := walkPrime P (.using u) settings₀ disk x
    let reps := first :: saga (walkOn Q D r settings disk) first hs
    (∀ q ∈ reps, ∀ n, (n, .panic) ∈ q.answers → Spawnful (o₀.afterwards.nav .universal) u.tree pre fs n) →
    (∀ q ∈ reps, q.calls <:+: all ∧ ∀ b ∈ q.answers.dropLast, b.2 = .ok none) ∧
    (∀ a b, [a, b] <:+: reps → ∃ n, a.answers.getLast? = some (n, .panic) ∧ (b.calls.head?).map Prod.fst = some n.path.dropLast) ∧
    (∀ last, reps.getLast? = some last → last.verdict = .done none →
      ∀ k ∈ all, ∃ q ∈ reps, ∃ m, (m, .ok none) ∈ q.answers ∧ (m.path, m.isDir) = k) ∧
    (D.Sound → ∀ h, (h₀ :: hs).getLast? = some h → Handler.Nil h → ∃ last, reps.getLast? = some last ∧ last.verdict = .done none) := by
  intro all first reps hdeep
  have hall : all = (prep (o₀.afterwards.nav u.sub) fs).list pre := by
    have E := chapter_first (tale_accepting T) hsub hp₀ hdistinct x
    refine (E.ended ?_).1
    intro n hm
    have := E.accepts (fun _ _ => rfl) _ hm
    cases this
  rw [hall]
  exact spawn_chapters T hst hsub hp₀ hp hdisk hdistinct hkeys hs first h₀ _ o₀.defects.panic (Or.inl rfl)
    (chapter_first T hsub hp₀ hdistinct x) List.suffix_rfl hholds (by rw [hsub]; exact hdeep)

end

/-! ### Cases -/

theorem Demo.plain (mag : String) : Options.Plain toyEngine.lower (defaultOptions (Demo.host mag)) :=
  ⟨rfl, rfl, rfl, rfl, rfl, rfl, rfl, rfl, fun _ => rfl, fun _ => rfl, insertSort_sorts _, fun _ _ _ => rfl⟩

/-- The names in each directory on the way come in order. -/
def inOrderB : List String → Tree → Bool
  | [], _ => true
  | a :: as, t => decide ((t.kids.map Tree.name).Pairwise (· < ·)) && match t.kid a with | some k => inOrderB as k | none => true

theorem inOrderB_inOrder (as : List String) : ∀ t, inOrderB as t = true → InOrder as t := by
  induction as with
  | nil => intro t _; trivial
  | cons a as ih =>
    intro t h
    simp only [inOrderB, Bool.and_eq_true, decide_eq_true_eq] at h
    refine ⟨?_, fun k hk => ih k (by simpa [hk] using h.2)⟩
    rintro l k r he rfl
    have hp := h.1
    rw [he, List.map_append, List.map_cons, List.pairwise_append] at hp
    refine ⟨fun j hj => hp.2.2 _ (List.mem_map_of_mem hj) _ (by simp), fun j hj => ?_⟩
    exact (List.pairwise_cons.1 hp.2.1).1 _ (List.mem_map_of_mem hj)

/-- The names on the way to two directories of the demo tree are in order. -/
theorem Demo.ordered (p : Path) (hp : p = ["r", "a", "b"] ∨ p = ["r", "c"]) :
    ByteOrdered ((defaultOptions (Demo.host "prime")).afterwards.nav .universal) [] Demo.fs p := by
  have hsort : SortPermutes ((defaultOptions (Demo.host "prime")).afterwards.nav .universal) := (insertSort_sorts _).permutes
  have hread : ReadSelects ((defaultOptions (Demo.host "prime")).afterwards.nav .universal) := defaultRead_selects _ rfl
  rcases hp with rfl | rfl
  · exact (byteOrdered_iff _ hsort hread ["a", "b"] [] Demo.fs _ Demo.distinct rfl).2 (inOrderB_inOrder _ _ (by decide +kernel))
  · exact (byteOrdered_iff _ hsort hread ["c"] [] Demo.fs _ Demo.distinct rfl).2 (inOrderB_inOrder _ _ (by decide +kernel))

/-- The panics of the demo's sessions, with whether the node has a Parent. -/
def Demo.panics (fs : FS) (p₀ : List Path) (ps : List (List Path)) : List (Path × Bool) :=
  let first := walkPrime (Demo.host "prime") (.using (Demo.opening .universal p₀)) [] (diskOf [] fs) []
  (first :: saga (walkOn (Demo.host "resume") Demo.drive { strategy := .spawn } [] (diskOf [] fs)) first (ps.map Demo.panicAt)).flatMap
    (fun rep => (rep.answers.filter (fun a => decide (a.2 = .panic))).map (fun a => (a.1.path, a.1.parent.isSome)))

/-- Not vacuous: a session that panics at /r/a/b/z, a spawning resume that panics at /r/c/w, and one that does not: everything assumed is so,
and every node is accepted in one of them. (`Demo.tale`, `Demo.panicAt_holds`: beside `C63_fastward_partial`.) -/
example :
    let first := walkPrime (Demo.host "prime") (.using (Demo.opening .universal [["r", "a", "b", "z"]])) [] (diskOf [] Demo.fs) []
    let hs := [[["r", "c", "w"]], [], []].map Demo.panicAt
    let reps := first :: saga (walkOn (Demo.host "resume") Demo.drive { strategy := .spawn } [] (diskOf [] Demo.fs)) first hs
    Options.Plain toyEngine.lower (defaultOptions (Demo.host "prime")) ∧ Options.Plain toyEngine.lower (defaultOptions (Demo.host "resume")) ∧
    (∀ p g, FS.At [] Demo.fs p g → diskOf [] Demo.fs p = .ok g) ∧ Demo.fs.Distinct ∧ Demo.fs.KeysDiffer toyEngine.lower ∧
    (∀ q ∈ reps, ∀ n, (n, .panic) ∈ q.answers → Spawnful ((defaultOptions (Demo.host "prime")).afterwards.nav .universal) ["r"] [] Demo.fs n) ∧
    Demo.panics Demo.fs [["r", "a", "b", "z"]] [[["r", "c", "w"]], [], []] = [(["r", "a", "b", "z"], true), (["r", "c", "w"], true)] ∧
    Demo.history .universal Demo.fs .spawn [["r", "a", "b", "z"]] [[["r", "c", "w"]], [], []] =
      [([["r"], ["r", "a"], ["r", "a", "b"], ["r", "a", "b", "y"], ["r", "a", "b", "z"]],
          .done (some (.saved "~/agenor/admin/resume/prime.panic..json")), true),
       ([["r", "a", "b"], ["r", "a", "b", "y"], ["r", "a", "b", "z"], ["r", "a", "x"], ["r", "c"], ["r", "c", "w"]],
          .done (some (.saved "~/agenor/admin/resume/resume.panic.i.json")), false),
       ([["r", "c"], ["r", "c", "w"], ["r", "f"], ["r", "g"]], .done none, true)] := by
  have hp : Demo.panics Demo.fs [["r", "a", "b", "z"]] [[["r", "c", "w"]], [], []] = [(["r", "a", "b", "z"], true), (["r", "c", "w"], true)] := by
    decide +kernel
  refine ⟨Demo.plain _, Demo.plain _, diskOf_holds Demo.distinct, Demo.distinct, ?_, ?_, hp, by decide +kernel⟩
  · refine ⟨fun b => ?_, ⟨fun b => ?_, trivial, ⟨fun b => ?_, trivial, trivial, trivial⟩, trivial⟩, trivial, ⟨fun b => ?_, trivial, trivial⟩,
      trivial, trivial, trivial⟩ <;> cases b <;> decide +kernel
  · intro q hq n hn
    have hm : (n.path, n.parent.isSome) ∈ Demo.panics Demo.fs [["r", "a", "b", "z"]] [[["r", "c", "w"]], [], []] :=
      List.mem_flatMap.2 ⟨q, hq, List.mem_map.2 ⟨(n, .panic), List.mem_filter.2 ⟨hn, by simp⟩, rfl⟩⟩
    rw [hp] at hm
    simp only [List.mem_cons, Prod.mk.injEq, List.not_mem_nil, or_false] at hm
    have hpar : n.parent ≠ none := by
      intro h0
      rcases hm with ⟨-, h⟩ | ⟨-, h⟩ <;> simp [h0] at h
    rcases hm with ⟨h, -⟩ | ⟨h, -⟩
    · refine ⟨hpar, ?_, ?_⟩
      · rw [h]; exact ⟨by decide, by decide⟩
      · rw [h]; exact Demo.ordered _ (Or.inl rfl)
    · refine ⟨hpar, ?_, ?_⟩
      · rw [h]; exact ⟨by decide, by decide⟩
      · rw [h]; exact Demo.ordered _ (Or.inr rfl)

/-- **C63, what is false of a chain of spawning resumes**: a resume from /r/a/b that panics at /r/a/x, a later sibling of the directory it was
resumed from, panics itself: nothing is saved, and /r/a/x and what follows is never accepted. -/
theorem C63_spawns_lose :
    Demo.history .universal Demo.fs .spawn [["r", "a", "b", "z"]] [[["r", "a", "x"]], []] =
      [([["r"], ["r", "a"], ["r", "a", "b"], ["r", "a", "b", "y"], ["r", "a", "b", "z"]],
          .done (some (.saved "~/agenor/admin/resume/prime.panic..json")), true),
       ([["r", "a", "b"], ["r", "a", "b", "y"], ["r", "a", "b", "z"], ["r", "a", "x"]], .panic, false)] ∧
    Demo.panics Demo.fs [["r", "a", "b", "z"]] [[["r", "a", "x"]], []] = [(["r", "a", "b", "z"], true), (["r", "a", "x"], false)] := by
  decide +kernel

end Traverse
