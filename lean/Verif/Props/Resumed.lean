import Verif.Proofs.Legs
import Verif.Props.Api2
import Verif.Props.Resume
import Verif.Props.Fastward
/-
Resumed sessions: age.Walk().Configure().Extent(age.Resume(relic, settings...)).Navigate(ctx), whatever is configured and whatever
the handlers answer. C11, C12, C17, C18 for them; C57: Descend and Ascend; C58: the depth nodes are delivered with.
-/
namespace Traverse
variable {κ : Type}

/-- A resumed session that can be built from a facade, settings and a saved state `a`; `S` and `o` are what is built, `h` is the
handler. -/
structure Resumed (P : Platform κ) (r : Relic κ) (settings : List (Option (Setting κ))) (files : String → Except Err Json) (S : Setup)
    (o : Options κ) (h : κ → Parcel → κ × Reply) (a : Active) : Prop where
  handler : r.handler = some h
  built : ∃ o₀, resumePlatform P r settings (files r.from) = .ok (o₀, a) ∧
    buildRest P a.sub (some r.strategy) o₀.afterwards = .ready S o

/-- What is on the disk is found under its name, and the status hook is the default one. -/
structure Honest (disk : Disk) (o : Options κ) : Prop where
  named : ∀ p f, disk p = .ok f → p.getLast? = some f.name
  status : ∀ r, o.hooks.queryStatus.invoke r = r

section
variable {P : Platform κ} {r : Relic κ} {settings : List (Option (Setting κ))} {files : String → Except Err Json} {disk : Disk}
  {S : Setup} {o : Options κ} {h : κ → Parcel → κ × Reply} {a : Active}

theorem Resumed.setup (hr : Resumed P r settings files S o h a) : S.resume = some r.strategy ∧ S.nav = o.nav a.sub := by
  obtain ⟨o₀, -, hb⟩ := hr.built
  exact ⟨(rest_ready hb).1, (rest_ready hb).2.1⟩

/-- The world a resumed session starts its navigation with. -/
def startWorld (S : Setup) (C : Client κ) (strategy : Strategy) (a : Active) (x : κ) : World κ :=
  (S.world x (if strategy = .spawn then a.metrics else fun _ => none)).publish C (.begin a.tree)

theorem resumed_facts (hr : Resumed P r settings files S o h a) (x : κ) :
    let C := o.client h
    let run := resumeRun S o C disk r.strategy a (startWorld S C r.strategy a x)
    let rep := walkResume P (.relic r) settings files disk x
    rep.verdict = run.1.verdict ∧ rep.hits = run.2.2.ext.hits ∧
    (rep.verdict ≠ .panic → rep.metrics = run.2.2.ext.metrics ∧ rep.complete = run.2.1) ∧
    rep.tape = run.2.2.ext.tape ++ (if run.1 = .panic ∨ run.2.2.ext.muted .ended = true then [] else [.note .ended]) := by
  intro C run rep
  obtain ⟨o₀, h1, h2⟩ := hr.built
  have hrep : rep = (Built.ready S o).resume r.strategy h disk a x := by
    simp only [rep, walkResume, h1, h2, hr.handler, Option.getD_some]
  rw [hrep]
  simp only [Built.resume]
  have hrun : resumeRun S o (o.client h) disk r.strategy a ((S.world x (if r.strategy = .spawn then a.metrics else fun _ => none)).publish
    (o.client h) (.begin a.tree)) = run := rfl
  rw [hrun]
  rcases run with ⟨_ | _, c, s⟩
  · refine ⟨rfl, by simp, fun _ => ⟨by simp, rfl⟩, ?_⟩
    by_cases hm : s.ext.muted .ended = true <;> simp [World.publish, Note.ev, hm]
  · exact ⟨rfl, rfl, fun h => absurd rfl h, by simp⟩

/-- The handler calls are among the calls the navigator recorded. -/
theorem resumed_hits (x : κ) : HitsIn (resumeRun S o (o.client h) disk r.strategy a (startWorld S (o.client h) r.strategy a x)).2.2 :=
  resumeRun_inv (hitsIn_preserved S _ a.tree a.currentPath) (fun _ _ _ h => h) disk r.strategy _
    (fun _ => by simp [HitsIn, startWorld, Setup.world])

/-- Both strategies, as navigations one after the other. -/
theorem resumeRun_acc {C : Client κ} {w : World κ} {R : List Ev → Final → Prop} (hR : Sequential R)
    (hspawn : ∀ parent n, Sprout S.nav a.tree a.currentPath parent n →
      TopOk S.nav (S.env C a.tree a.currentPath) o.fault (statOf S.nav o disk) a.depth R parent (parent ++ [n]))
    (hfast : ∀ st, st ≠ .spawn → R (resumeRun S o C disk st a w).2.2.log (resumeRun S o C disk st a w).1) (st : Strategy) :
    R (resumeRun S o C disk st a w).2.2.log (resumeRun S o C disk st a w).1 := by
  by_cases hst : st = .spawn
  · subst hst
    obtain ⟨v, h1, -, h3⟩ := crown_acc (disk := disk) (tree := a.tree) hR a.currentPath hspawn a.currentPath.reverse (by simp) (by simp) true
      (fun _ => by simp) ⟨a.depth, w, []⟩ rfl
    simp only [resumeRun]
    rw [h1]
    simpa using h3
  · exact hfast st hst

theorem top_acc {c : Nav} {env : Env (World κ)} {fault stat} {d : Int} {R : List Ev → Final → Prop} (hR : Sequential R) {parent path : Path}
    (hl : ∀ t v f, stat path = .found t → LegOf c parent t d v f → R v f) : TopOk c env fault stat d R parent path := by
  intro s hs
  obtain ⟨v, h1, h2, h3⟩ := top_leg c env fault parent path (stat path) s
  refine ⟨v, h1, h2.trans hs, ?_⟩
  rcases h3 with rfl | ⟨t, ht, h3⟩
  · exact hR.nil _
  · exact hl t v _ ht (hs ▸ h3)

theorem fast_acc {C : Client κ} {w : World κ} {R : List Ev → Final → Prop} (hR : Sequential R)
    (hl : ∀ t v f, statOf S.nav o disk a.tree = .found t → LegOf S.nav a.tree.dropLast t 0 v f → R v f) (st : Strategy) (hst : st ≠ .spawn) :
    R (resumeRun S o C disk st a w).2.2.log (resumeRun S o C disk st a w).1 := by
  obtain ⟨v, h1, -, h3⟩ := top_leg S.nav (S.env C a.tree a.currentPath) o.fault a.tree.dropLast a.tree (statOf S.nav o disk a.tree) ⟨0, w, []⟩
  have hrun : resumeRun S o C disk st a w = ((runTop S o C disk a.tree a.currentPath ⟨0, w, []⟩).1, true,
      (runTop S o C disk a.tree a.currentPath ⟨0, w, []⟩).2) := by
    cases st <;> first | exact absurd rfl hst | rfl
  rw [hrun]
  simp only [runTop]
  rw [h1]
  simp only [List.nil_append]
  rcases h3 with rfl | ⟨t, ht, h3⟩
  · exact hR.nil _
  · exact hl t v _ ht h3

theorem resumed_ends (C : Client κ) (w : World κ) (st : Strategy) :
    EndsLaw' (resumeRun S o C disk st a w).2.2.log (resumeRun S o C disk st a w).1 :=
  resumeRun_acc ends_sequential (fun _ _ _ => top_acc ends_sequential (fun _ _ _ _ h => h.ends))
    (fast_acc ends_sequential (fun _ _ _ _ h => h.ends)) st

theorem calls_mem {l : List Ev} {n r} : (n, r) ∈ calls l ↔ Ev.invoke n r ∈ l := mem_calls

end

section
variable (P : Platform κ) (r : Relic κ) (settings : List (Option (Setting κ))) (files : String → Except Err Json) (disk : Disk)
  (S : Setup) (o : Options κ) (h : κ → Parcel → κ × Reply) (a : Active)

/-- **C11** (resumed sessions, either strategy) A genuine error of the handler is the last answer and what Navigate returns; all answers
before were nil or skip sentinels. -/
theorem C11_resumed (hr : Resumed P r settings files S o h a) (x : κ) (n : Node) (e : Err) (hgen : Genuine e) :
    let rep := walkResume P (.relic r) settings files disk x
    (n, .ok (some e)) ∈ rep.answers →
      rep.verdict = .done (some e) ∧ ∃ before, rep.answers = before ++ [(n, .ok (some e))] ∧ ∀ k ∈ before, k.2.Mild := by
  intro rep hm
  obtain ⟨f1, f2, -, -⟩ := resumed_facts (disk := disk) hr x
  have hin := resumed_hits (r := r) (S := S) (o := o) (h := h) (a := a) (disk := disk) x
  have hl := resumed_ends (S := S) (o := o) (disk := disk) (a := a) (o.client h) (startWorld S (o.client h) r.strategy a x) r.strategy
  generalize resumeRun S o (o.client h) disk r.strategy a (startWorld S (o.client h) r.strategy a x) = run at *
  have hsub : rep.answers.Sublist (calls run.2.2.log) := by
    show (List.map _ rep.hits).Sublist _
    rw [show rep.hits = _ from f2]; exact hin
  obtain ⟨g1, es, g2, g3⟩ := hl.genuine n e (mem_calls.1 (hsub.subset hm)) hgen
  have hc : calls run.2.2.log = calls es ++ [(n, .ok (some e))] := by
    rw [← calls_acts, g2]; simp [calls]
  have hmild : ∀ k ∈ calls es, k.2.Mild := by rintro ⟨m, q⟩ hk; exact g3 m q (mem_calls.1 hk)
  obtain ⟨b, hb, hbs⟩ := sublist_last (by rw [← hc]; exact hsub) hm (fun hk => mild_not_genuine (hmild _ hk) hgen)
  exact ⟨by rw [show rep.verdict = _ from f1, g1]; rfl, b, hb, fun k hk => hmild k (hbs.subset hk)⟩

/-- **C12** (resumed sessions) If Navigate returns nil no handler call panicked or returned a genuine error. -/
theorem C12_resumed (hr : Resumed P r settings files S o h a) (x : κ) :
    let rep := walkResume P (.relic r) settings files disk x
    rep.verdict = .done none → ∀ k ∈ rep.answers, k.2.Mild := by
  intro rep hv k hk
  obtain ⟨f1, f2, -, -⟩ := resumed_facts (disk := disk) hr x
  have hin := resumed_hits (r := r) (S := S) (o := o) (h := h) (a := a) (disk := disk) x
  have hl := resumed_ends (S := S) (o := o) (disk := disk) (a := a) (o.client h) (startWorld S (o.client h) r.strategy a x) r.strategy
  generalize resumeRun S o (o.client h) disk r.strategy a (startWorld S (o.client h) r.strategy a x) = run at *
  have hsub : rep.answers.Sublist (calls run.2.2.log) := by
    show (List.map _ rep.hits).Sublist _
    rw [show rep.hits = _ from f2]; exact hin
  rw [show rep.verdict = _ from f1] at hv
  obtain ⟨n, q⟩ := k
  exact hl.calm (final_verdict.1 hv) n q (mem_calls.1 (hsub.subset hk))

end

/-! ### The nodes that are delivered -/

section
variable {P : Platform κ} {r : Relic κ} {settings : List (Option (Setting κ))} {files : String → Except Err Json} {disk : Disk}
  {S : Setup} {o : Options κ} {h : κ → Parcel → κ × Reply} {a : Active}

theorem sequential_all (Q : Ev → Prop) : Sequential (fun v _ => ∀ ev ∈ v, Q ev) where
  nil _ := by simp
  append a b _ ha hb := by
    intro ev hev
    rcases List.mem_append.1 hev with hev | hev
    · exact ha ev hev
    · exact hb ev hev

theorem honest_found {disk : Disk} {o : Options κ} (hh : Honest disk o) {c p t} (hs : statOf c o disk p = .found t) :
    ∃ f, disk p = .ok f ∧ t = prep c f ∧ p.getLast? = some t.name := by
  unfold statOf at hs
  rw [hh.status] at hs
  cases hd : disk p with
  | error e => simp [hd] at hs
  | ok f =>
    simp only [hd, RootStat.found.injEq] at hs
    subst hs
    exact ⟨f, rfl, rfl, by rw [hh.named p f hd, prep_name]⟩

/-- Where a node handed out by a spawn resume comes from. -/
def Grown (S : Setup) (o : Options κ) (disk : Disk) (a : Active) (n : Node) : Prop :=
  ∃ parent name t it, Sprout S.nav a.tree a.currentPath parent name ∧ statOf S.nav o disk (parent ++ [name]) = .found t ∧
    it ∈ items S.nav [] parent a.depth t ∧ it.node = n

theorem spawn_grown (C : Client κ) (w : World κ) (n : Node) (rp : Reply) (hm : Ev.invoke n rp ∈ (resumeRun S o C disk .spawn a w).2.2.log) :
    Grown S o disk a n := by
  have hR := sequential_all (fun ev => ∀ n rp, ev = .invoke n rp → Grown S o disk a n)
  obtain ⟨v, h1, -, h3⟩ := crown_acc (c := S.nav) (env := S.env C a.tree a.currentPath) (fault := o.fault) (stat := statOf S.nav o disk)
    (disk := disk) (tree := a.tree) hR a.currentPath (fun parent name hsp => top_acc hR (fun t v f ht hleg ev hev n rp he => by
      subst he
      obtain ⟨it, hit, hn⟩ := hleg.nodes n rp hev
      exact ⟨parent, name, t, it, hsp, ht, hit, hn⟩)) a.currentPath.reverse (by simp) (by simp) true (fun _ => by simp) ⟨a.depth, w, []⟩ rfl
  simp only [resumeRun, h1, List.nil_append] at hm
  exact h3 _ hm n rp rfl

/-- The same for a fastward resume. -/
def Whole (S : Setup) (o : Options κ) (disk : Disk) (a : Active) (n : Node) : Prop :=
  ∃ t it, statOf S.nav o disk a.tree = .found t ∧ it ∈ items S.nav [] a.tree.dropLast 0 t ∧ it.node = n

theorem fast_whole (C : Client κ) (w : World κ) (st : Strategy) (hst : st ≠ .spawn) (n : Node) (rp : Reply)
    (hm : Ev.invoke n rp ∈ (resumeRun S o C disk st a w).2.2.log) : Whole S o disk a n :=
  fast_acc (sequential_all (fun ev => ∀ n rp, ev = .invoke n rp → Whole S o disk a n)) (fun t v f ht hleg ev hev n rp he => by
      subst he
      obtain ⟨it, hit, hn⟩ := hleg.nodes n rp hev
      exact ⟨t, it, ht, hit, hn⟩) st hst _ hm n rp rfl

/-- A node of an enumeration: its path and depth, and its Parent unless it is the first. -/
theorem item_facts {c : Nav} {pre : Path} {d : Int} {t : Tree} {it : Item} (hit : it ∈ items c [] pre d t) (hwf : t.WF) :
    (pre ++ [t.name]) <+: it.node.path ∧ it.node.depth = d + ((it.node.path.length : Int) - (pre.length + 1)) ∧
    (it.node.parent = none ↔ it.node.path = pre ++ [t.name]) ∧
    (∀ q, it.node.parent = some q → q.path = it.node.path.dropLast ∧ q.depth = it.node.depth - 1 ∧ q.isDir = true) := by
  obtain ⟨p1, p2⟩ := items_path c t [] pre d it hit
  obtain ⟨u, ps', -, g2, g3, g4, g5⟩ := items_at c t [] pre d it hit
  have hl := p1.length_le
  simp at hl
  have hiff : it.node.depth = d ↔ it.node.path = pre ++ [t.name] := by
    constructor
    · intro hd; exact (p1.eq_of_length (by simp; omega)).symm
    · intro hp; rw [p2, hp]; simp
  have hnone : it.node.parent = none ↔ it.node.depth = d := by
    constructor
    · intro hn
      rcases Int.lt_or_le d it.node.depth with hlt | hle
      · obtain ⟨q, q1, -⟩ := items_parent c t hwf [] pre d it hit hlt
        rw [q1] at hn; cases hn
      · omega
    · intro hd; rw [g2, g4 hd]; rfl
  refine ⟨p1, p2, hnone.trans hiff, fun q hq => ?_⟩
  have hlt : d < it.node.depth := by
    rcases Int.lt_or_le d it.node.depth with hlt | hle
    · exact hlt
    · have : it.node.depth = d := by omega
      rw [hnone.2 this] at hq; cases hq
  obtain ⟨q', q1, q2, q3, q4⟩ := items_parent c t hwf [] pre d it hit hlt
  rw [q1] at hq
  cases hq
  exact ⟨q2, q3, q4⟩

theorem resumed_nodes (hr : Resumed P r settings files S o h a) (x : κ) (n : Node)
    (hn : n ∈ (walkResume P (.relic r) settings files disk x).nodes) :
    ∃ rp, Ev.invoke n rp ∈ (resumeRun S o (o.client h) disk r.strategy a (startWorld S (o.client h) r.strategy a x)).2.2.log := by
  obtain ⟨f1, f2, -, -⟩ := resumed_facts (disk := disk) hr x
  have hin := invoked_of_hits (resumed_hits (r := r) (S := S) (o := o) (h := h) (a := a) (disk := disk) x)
  simp only [Report.nodes] at hn
  rw [f2] at hn
  have := hin.subset hn
  unfold invoked at this
  obtain ⟨⟨m, rp⟩, h1, h2⟩ := List.mem_map.1 this
  cases h2
  exact ⟨rp, mem_calls.1 h1⟩

end

section
variable (P : Platform κ) (r : Relic κ) (settings : List (Option (Setting κ))) (files : String → Except Err Json) (disk : Disk)
  (S : Setup) (o : Options κ) (h : κ → Parcel → κ × Reply) (a : Active)

/-- **C58** Fastward: every node is delivered with its depth below the tree. -/
theorem C58_fastward_partial (hr : Resumed P r settings files S o h a) (hst : r.strategy ≠ .spawn) (hdisk : Honest disk o)
    (x : κ) (n : Node) (hn : n ∈ (walkResume P (.relic r) settings files disk x).nodes) :
    a.tree <+: n.path ∧ n.depth = (n.path.length : Int) - a.tree.length := by
  obtain ⟨rp, hm⟩ := resumed_nodes hr x n hn
  obtain ⟨t, it, h1, h2, rfl⟩ := fast_whole _ _ _ hst n rp hm
  obtain ⟨f, -, -, h3⟩ := honest_found hdisk h1
  obtain ⟨p1, p2⟩ := items_path S.nav t [] a.tree.dropLast 0 it h2
  have hne : a.tree ≠ [] := by intro e; simp [e] at h3
  have htree : a.tree.dropLast ++ [t.name] = a.tree := by
    have := List.dropLast_concat_getLast hne
    rw [List.getLast?_eq_some_getLast hne] at h3
    simpa [← Option.some.inj h3] using this
  rw [htree] at p1
  refine ⟨p1, ?_⟩
  rw [p2]
  have := congrArg List.length htree
  simp only [List.length_append, List.length_singleton] at this
  omega

/-- `q` is the deepest directory on the way to `cur` that contains `p`. -/
structure Branch (cur p q : Path) : Prop where
  way : q <+: cur.dropLast
  contains : Above q p
  deepest : ∀ q', q' <+: cur.dropLast → Above q' p → q' <+: q

/-- **C58** Spawn, from a state saved at its true depth: a node's depth is too large by the number of levels between the saved path's
directory and `q`, the deepest directory on the way to the saved path that contains the node. So the nodes in the saved path's
directory, and those below them, are delivered with the right depth, and no others: their depth is too large. (The full property claims
the right depth for all.) -/
theorem C58_spawn_partial (hr : Resumed P r settings files S o h a) (hst : r.strategy = .spawn) (hsort : SortPermutes (o.nav a.sub))
    (hdisk : Honest disk o) (hbelow : a.tree <+: a.currentPath)
    (hdepth : a.depth = (a.currentPath.length : Int) - a.tree.length) (x : κ) (n : Node)
    (hn : n ∈ (walkResume P (.relic r) settings files disk x).nodes) :
    a.tree <+: n.path ∧
    (∃ q, Branch a.currentPath n.path q ∧ a.tree <+: q ∧
      n.depth = ((n.path.length : Int) - a.tree.length) + ((a.currentPath.dropLast.length : Int) - q.length)) ∧
    (Above a.currentPath.dropLast n.path ↔ n.depth = (n.path.length : Int) - a.tree.length) := by
  obtain ⟨rp, hm⟩ := resumed_nodes hr x n hn
  rw [hst] at hm
  obtain ⟨parent, name, t, it, hsp, h1, h2, rfl⟩ := spawn_grown _ _ n rp hm
  obtain ⟨f, -, -, h3⟩ := honest_found hdisk h1
  have hname : name = t.name := by simpa using h3
  obtain ⟨p1, p2⟩ := items_path S.nav t [] parent a.depth it h2
  rw [← hname] at p1
  have hoff := hsp.off (by rw [hr.setup.2]; exact hsort)
  have hin := hsp.inside hbelow
  have hcur : a.currentPath ≠ [] := by
    intro e
    have h5 := hsp.above
    rw [e, List.prefix_nil] at h5
    exact hsp.proper (by rw [h5, e])
  have hway : parent <+: a.currentPath.dropLast := by
    have h5 := hsp.above
    have hlt : parent.length ≤ a.currentPath.dropLast.length := by
      rw [List.length_dropLast]
      have h6 := h5.length_le
      have h7 : parent.length ≠ a.currentPath.length := fun e => hsp.proper (h5.eq_of_length e)
      omega
    exact List.prefix_of_prefix_length_le h5 (List.dropLast_prefix _) hlt
  have habove : Above parent it.node.path := by
    refine ⟨(List.prefix_append parent [name]).trans p1, fun e => ?_⟩
    have := p1.length_le
    rw [← e] at this
    simp at this
    omega
  have hbr : Branch a.currentPath it.node.path parent := by
    refine ⟨hway, habove, fun q' h4 h5 => ?_⟩
    rcases Nat.lt_or_ge parent.length q'.length with hlt | hge
    · exfalso
      have hx : (parent ++ [name]) <+: q' := List.prefix_of_prefix_length_le p1 h5.1 (by simp; omega)
      have hy := hoff ((hx.trans h4).trans (List.dropLast_prefix _))
      have hz := (hx.trans h4).length_le
      rw [hy, List.length_dropLast] at hz
      have : a.currentPath.length ≠ 0 := by simpa using hcur
      omega
    · exact List.prefix_of_prefix_length_le h5.1 habove.1 hge
  have hd : it.node.depth = ((it.node.path.length : Int) - a.tree.length) + ((a.currentPath.dropLast.length : Int) - parent.length) := by
    rw [p2, hdepth, List.length_dropLast]
    have : a.currentPath.length ≠ 0 := by simpa using hcur
    omega
  refine ⟨(hin.trans (List.prefix_append _ [name])).trans p1, ⟨parent, hbr, hin, hd⟩, ?_⟩
  constructor
  · intro h4
    have h5 := hbr.deepest _ (List.prefix_refl _) h4
    have := h5.length_le
    have := hway.length_le
    omega
  · intro h4
    have h5 := hway.length_le
    have : parent = a.currentPath.dropLast := hway.eq_of_length (by omega)
    rw [← this]
    exact habove

/-- **C58** What is delivered is cut by the depth it is delivered with: with a depth limit nothing deeper than that, so that spawn, whose
depths are too large, leaves out nodes within the limit (`C58_spawn_cuts_early`). -/
theorem C58_limit_partial (hr : Resumed P r settings files S o h a) (hlimit : 0 < o.behaviours.cascade.depth) (x : κ) :
    ∀ n ∈ (walkResume P (.relic r) settings files disk x).nodes, n.depth ≤ (o.behaviours.cascade.depth : Int) := by
  intro n hn
  have hc : S.nav.maxDepth = o.behaviours.cascade.depth := by rw [hr.setup.2]; rfl
  obtain ⟨rp, hm⟩ := resumed_nodes hr x n hn
  have key : ∀ pre d t it, it ∈ items S.nav [] pre d t → it.node.depth ≤ (o.behaviours.cascade.depth : Int) := by
    intro pre d t it hit
    have hit' : it ∈ items { S.nav with maxDepth := S.nav.maxDepth } [] pre d t := hit
    rw [items_limit S.nav S.nav.maxDepth (by rw [hc]; exact hlimit)] at hit'
    have := (List.mem_filter.1 hit').2
    rw [hc] at this
    simpa using this
  by_cases hst : r.strategy = .spawn
  · rw [hst] at hm
    obtain ⟨parent, name, t, it, -, -, h2, rfl⟩ := spawn_grown _ _ n rp hm
    exact key _ _ _ _ h2
  · obtain ⟨t, it, -, h2, rfl⟩ := fast_whole _ _ _ hst n rp hm
    exact key _ _ _ _ h2

/-! ### Panics -/

/-- **C17, C18** (resumed sessions; partial, see `C17_resumed_escapes`) A handler call that panics for a node that has a Parent is the
last one. Navigate returns the error made from what the panic handler answered to the newly saved state `b`, which names the original
tree path and subscription, the directory of the node with the depth the session gave it, and the number of handler calls: for spawn,
the calls of the saved session included. -/
theorem C17_resumed_partial (hr : Resumed P r settings files S o h a) (hsort : SortPermutes (o.nav a.sub)) (hread : ReadSelects (o.nav a.sub))
    (hdisk : Honest disk o) (x : κ) (n : Node) (hpar : n.parent ≠ none) :
    let rep := walkResume P (.relic r) settings files disk x
    (n, .panic) ∈ rep.answers → ∃ before k b,
      rep.answers = before ++ [(n, .panic)] ∧ (∀ c ∈ before, c.2 ≠ .panic) ∧
      rep.verdict = .done (some (o.defects.panic k b).2.err) ∧
      b.tree = a.tree ∧ b.sub = a.sub ∧ b.currentPath = n.path.dropLast ∧ b.isDir = true ∧ (b.depth : Int) = n.depth - 1 ∧
      ∀ d, b.metrics.count (invokedMetric d) =
        (if r.strategy = .spawn then a.metrics.count (invokedMetric d) else 0) + ofKind d rep.nodes := by
  intro rep hm
  obtain ⟨f1, f2, -, -⟩ := resumed_facts (disk := disk) hr x
  have hin := resumed_hits (r := r) (S := S) (o := o) (h := h) (a := a) (disk := disk) x
  have hl := resumed_ends (S := S) (o := o) (disk := disk) (a := a) (o.client h) (startWorld S (o.client h) r.strategy a x) r.strategy
  have hsv := resumeRun_inv (saveInv_preserved S (o.client h) a.tree a.currentPath) (o := o)
    (fun s p e hs => ⟨hs.saves, hs.last⟩) disk r.strategy (startWorld S (o.client h) r.strategy a x)
    (fun d => ⟨by simp [startWorld, Setup.world, rescues], by simp [startWorld, Setup.world]⟩)
  have hrs := resumeRun_inv (rescueInv_preserved S (o.client h) a.tree a.currentPath) (o := o)
    (fun s p e hs => hs) disk r.strategy (startWorld S (o.client h) r.strategy a x)
    (fun d b hb => by simp [startWorld, Setup.world] at hb)
  have hcnt := (resumeRun_inv (a := a) (counts_preserved S (o.client h) a.tree a.currentPath
    (fun d => Metrics.count (if r.strategy = .spawn then a.metrics else fun _ => none) (invokedMetric d))) (fault_counts o _) disk
    r.strategy (startWorld S (o.client h) r.strategy a x)
    (fun d => (CountsOK.start S x _).same (by simp [startWorld]) (by simp [startWorld]))).now
  have hnode : ∃ q, n.parent = some q ∧ q.path = n.path.dropLast ∧ q.isDir = true := by
    obtain ⟨rp, hm'⟩ := resumed_nodes (disk := disk) hr x n (by
      have := List.mem_map_of_mem (f := Prod.fst) hm
      simpa [Report.answers, Report.nodes, List.map_map, Function.comp_def] using this)
    have hnav := hr.setup.2
    have key : ∀ pre d t p it, statOf S.nav o disk p = .found t → it ∈ items S.nav [] pre d t → it.node = n →
        ∃ q, n.parent = some q ∧ q.path = n.path.dropLast ∧ q.isDir = true := by
      rintro pre d t p it hs hit rfl
      obtain ⟨f, -, rfl, -⟩ := honest_found hdisk hs
      have := item_facts hit (prep_wf S.nav (hnav ▸ hsort) (hnav ▸ hread) f)
      cases hq : it.node.parent with
      | none => exact absurd hq hpar
      | some q => exact ⟨q, rfl, (this.2.2.2 q hq).1, (this.2.2.2 q hq).2.2⟩
    by_cases hst : r.strategy = .spawn
    · rw [hst] at hm'
      obtain ⟨parent, name, t, it, -, h1, h2, h3⟩ := spawn_grown _ _ n rp hm'
      exact key _ _ _ _ _ h1 h2 h3
    · obtain ⟨t, it, h1, h2, h3⟩ := fast_whole _ _ _ hst n rp hm'
      exact key _ _ _ _ _ h1 h2 h3
  generalize hrun : resumeRun S o (o.client h) disk r.strategy a (startWorld S (o.client h) r.strategy a x) = run at *
  have hsub : rep.answers.Sublist (calls run.2.2.log) := by
    show (List.map _ rep.hits).Sublist _
    rw [show rep.hits = _ from f2]; exact hin
  rcases hl.panics n (mem_calls.1 (hsub.subset hm)) with ⟨g1, -⟩ | ⟨cur, q, es, g1, g2, g3, g4⟩
  · exact absurd g1 hpar
  have hc : calls run.2.2.log = calls es ++ [(n, .panic)] := by
    rw [← calls_acts, g3]; simp [calls]
  have hnp : ∀ c ∈ calls es, c.2 ≠ .panic := by
    rintro ⟨m, rp⟩ hk rfl
    exact absurd (g4 _ (mem_calls.1 hk)) (fun h => h)
  obtain ⟨b, hb, hbs⟩ := sublist_last (by rw [← hc]; exact hsub) hm (fun hk => hnp _ hk rfl)
  -- the state saved
  have hres : rescues run.2.2.log = [(cur, n.depth - 1)] := by
    rw [rescues_acts, g3]
    have h2 : rescues es = [] := by
      unfold rescues
      rw [List.filterMap_eq_nil_iff]
      intro e he
      cases e with
      | rescue m d r => exact absurd (g4 _ he) (fun h => h)
      | _ => rfl
    unfold rescues at h2 ⊢
    rw [List.filterMap_append, h2]; rfl
  have hsaves := hsv.saves
  rw [hres] at hsaves
  have hlen : run.2.2.ext.saves.length = 1 := by
    have := congrArg List.length hsaves; simpa using this
  obtain ⟨st, hst⟩ := List.length_eq_one_iff.1 hlen
  rw [hst] at hsaves
  simp only [List.map_cons, List.map_nil, List.cons.injEq, Prod.mk.injEq, and_true] at hsaves
  obtain ⟨e1, e2, e3, e4, e5⟩ := hsaves
  have hlast : acts run.2.2.log = (es ++ [.invoke n .panic]) ++ [.rescue cur (n.depth - 1) q] := by rw [g3]; simp
  have hmet := hsv.last st (by rw [hst]; rfl) _ _ _ _ hlast
  obtain ⟨k, hk⟩ := hrs st (by rw [hst]; rfl)
  have hkq : (o.defects.panic k st).2 = q := hk _ _ _ _ hlast
  obtain ⟨q', q1, q2, q3⟩ := hnode
  rw [g1] at q1
  cases q1
  refine ⟨b, k, st, hb, fun c hc => hnp c (hbs.subset hc), ?_, e1, ?_, by rw [e3, q2], by rw [e4, q3], e5, ?_⟩
  · rw [show rep.verdict = _ from f1, g2, hkq]; rfl
  · rw [e2, hr.setup.2]; rfl
  · intro d
    have h5 := hcnt d
    have h6 : st.metrics.count (invokedMetric d) = run.2.2.ext.metrics.count (invokedMetric d) := by rw [hmet]; cases d <;> rfl
    rw [h6, h5]
    have h7 : rep.nodes = run.2.2.ext.called := by simp only [Report.nodes, show rep.hits = _ from f2, World.called]
    rw [h7]
    congr 1
    split <;> rfl

/-- **C17, what is false of resumed sessions**: the panic of the handler at a node without Parent leaves the session; for spawn these are
the nodes lying in a directory on the way to the saved path: the saved path itself and every later sibling of it or of a directory above
it. -/
theorem C17_resumed_escapes (hr : Resumed P r settings files S o h a) (hsort : SortPermutes (o.nav a.sub)) (hread : ReadSelects (o.nav a.sub))
    (hdisk : Honest disk o) (x : κ) (n : Node) :
    let rep := walkResume P (.relic r) settings files disk x
    ((n, .panic) ∈ rep.answers → n.parent = none → rep.verdict = .panic ∧ ∃ before, rep.answers = before ++ [(n, .panic)]) ∧
    (r.strategy = .spawn → n ∈ rep.nodes → (n.parent = none ↔ Above n.path.dropLast a.currentPath)) := by
  intro rep
  constructor
  · intro hm hpar
    obtain ⟨f1, f2, -, -⟩ := resumed_facts (disk := disk) hr x
    have hin := resumed_hits (r := r) (S := S) (o := o) (h := h) (a := a) (disk := disk) x
    have hl := resumed_ends (S := S) (o := o) (disk := disk) (a := a) (o.client h) (startWorld S (o.client h) r.strategy a x) r.strategy
    generalize resumeRun S o (o.client h) disk r.strategy a (startWorld S (o.client h) r.strategy a x) = run at *
    have hsub : rep.answers.Sublist (calls run.2.2.log) := by
      show (List.map _ rep.hits).Sublist _
      rw [show rep.hits = _ from f2]; exact hin
    rcases hl.panics n (mem_calls.1 (hsub.subset hm)) with ⟨-, g2, es, g3, g4⟩ | ⟨cur, q, es, g1, -⟩
    · have hc : calls run.2.2.log = calls es ++ [(n, .panic)] := by
        rw [← calls_acts, g3]; simp [calls]
      have hnp : ∀ c ∈ calls es, c.2 ≠ .panic := by
        rintro ⟨m, rp⟩ hk rfl
        exact absurd (g4 _ (mem_calls.1 hk)) (fun h => h)
      obtain ⟨b, hb, -⟩ := sublist_last (by rw [← hc]; exact hsub) hm (fun hk => hnp _ hk rfl)
      exact ⟨by rw [show rep.verdict = _ from f1, g2]; rfl, b, hb⟩
    · rw [hpar] at g1; cases g1
  · intro hst hn
    obtain ⟨rp, hm⟩ := resumed_nodes hr x n hn
    rw [hst] at hm
    obtain ⟨parent, name, t, it, hsp, h1, h2, rfl⟩ := spawn_grown _ _ n rp hm
    obtain ⟨f, -, ht, h3⟩ := honest_found hdisk h1
    have hname : name = t.name := by simpa using h3
    have hnav := hr.setup.2
    obtain ⟨p1, -, p3, -⟩ := item_facts h2 (ht ▸ prep_wf S.nav (hnav ▸ hsort) (hnav ▸ hread) f)
    rw [← hname] at p1 p3
    rw [p3]
    have hoff := hsp.off (by rw [hnav]; exact hsort)
    constructor
    · intro e
      rw [e, List.dropLast_concat]
      exact ⟨hsp.above, hsp.proper⟩
    · intro hab
      by_cases hlen : it.node.path.length = parent.length + 1
      · exact (p1.eq_of_length (by simp [hlen])).symm
      · exfalso
        have hl := p1.length_le
        simp at hl
        have hx : (parent ++ [name]) <+: it.node.path.dropLast :=
          List.prefix_of_prefix_length_le p1 (List.dropLast_prefix _) (by simp; omega)
        have hy := hoff (hx.trans hab.1)
        rw [hy] at hx
        exact hab.2 (hab.1.eq_of_length (Nat.le_antisymm hab.1.length_le hx.length_le))

/-! ### Descend and Ascend -/

/-- Navigations one after the other: visits of nodes with the property `Q`. -/
def Trips (Q : Path → Prop) (v : List Ev) : Prop := ∃ trips : List (Path × List Ev), v = trips.flatMap Prod.snd ∧ ∀ t ∈ trips, Q t.1 ∧ Visit t.1 t.2

theorem trips_sequential (Q : Path → Prop) : Sequential (fun v _ => Trips Q v) where
  nil _ := ⟨[], rfl, by simp⟩
  append a b _ ha hb := by
    obtain ⟨u, rfl, hu⟩ := ha
    obtain ⟨v, rfl, hv⟩ := hb
    refine ⟨u ++ v, by simp, fun t ht => ?_⟩
    rcases List.mem_append.1 ht with ht | ht
    · exact hu t ht
    · exact hv t ht

theorem trips_shown {Q : Path → Prop} {v : List Ev} (h : Trips Q v) : ∀ tape, Shown v tape →
    ∃ tours : List (Path × List Obs), tape = tours.flatMap Prod.snd ∧ ∀ t ∈ tours, Q t.1 ∧ Tour t.1 t.2 := by
  obtain ⟨trips, rfl, h⟩ := h
  induction trips with
  | nil => intro tape ht; cases ht; exact ⟨[], rfl, by simp⟩
  | cons p ps ih =>
    intro tape ht
    rw [List.flatMap_cons] at ht
    obtain ⟨t1, t2, rfl, h1, h2⟩ := ht.split
    obtain ⟨tours, rfl, h3⟩ := ih (fun t ht => h t (by simp [ht])) t2 h2
    refine ⟨(p.1, t1) :: tours, rfl, fun t ht => ?_⟩
    rcases List.mem_cons.1 ht with rfl | ht
    · exact ⟨(h p (by simp)).1, (h p (by simp)).2.tour _ h1⟩
    · exact h3 t ht

/-- **C57** Spawn: between Begin and End (which is not published if a panic leaves the session) the client sees complete tours, one after
the other, of nodes lying in directories on the way from the tree to the saved path: every Descend has its Ascend. -/
theorem C57_spawn_partial (hr : Resumed P r settings files S o h a) (hst : r.strategy = .spawn) (hdisk : Honest disk o)
    (hbelow : a.tree <+: a.currentPath) (x : κ) :
    let rep := walkResume P (.relic r) settings files disk x
    ∃ tours : List (Path × List Obs),
      rep.tape = .note (.begin a.tree) :: tours.flatMap Prod.snd ++ (if rep.verdict = .panic then [] else [.note .ended]) ∧
      ∀ t ∈ tours, Tour t.1 t.2 ∧ a.tree <+: t.1.dropLast ∧ Above t.1.dropLast a.currentPath := by
  intro rep
  obtain ⟨f1, -, -, f4⟩ := resumed_facts (disk := disk) hr x
  have hmut : ∀ y m e, (S.world (κ := κ) y m).muted e = false := by
    intro y m e; simp [Setup.world, hr.setup.1, hst]
  have hw : ∀ e, (startWorld S (o.client h) r.strategy a x).loud e := by
    intro e; simp only [startWorld, World.loud, publish_muted]; exact hmut _ _ _
  have ht0 : (startWorld S (o.client h) r.strategy a x).tape = [.note (.begin a.tree)] := by
    simp only [startWorld, World.publish, Note.ev, hmut]; rfl
  have hsh := resumeRun_inv (tapeShown_preserved S (o.client h) a.tree a.currentPath [.note (.begin a.tree)]) (o := o) (fun s p e hs => hs) disk
    r.strategy (startWorld S (o.client h) r.strategy a x) (fun d => ⟨hw _, hw _, [], by simp [ht0], .nil⟩)
  have hend := resumeRun_inv (loud_preserved S (o.client h) a.tree a.currentPath .ended) (fault_loud o .ended) disk r.strategy
    (startWorld S (o.client h) r.strategy a x) (fun _ => hw _)
  have htr : Trips (fun p => a.tree <+: p.dropLast ∧ Above p.dropLast a.currentPath)
      (resumeRun S o (o.client h) disk r.strategy a (startWorld S (o.client h) r.strategy a x)).2.2.log := by
    rw [hst]
    have hR := trips_sequential (fun p => a.tree <+: p.dropLast ∧ Above p.dropLast a.currentPath)
    obtain ⟨v, h1, -, h3⟩ := crown_acc (c := S.nav) (env := S.env (o.client h) a.tree a.currentPath) (fault := o.fault)
      (stat := statOf S.nav o disk) (disk := disk) (tree := a.tree) hR a.currentPath (fun parent name hsp => top_acc hR (fun t v f ht hleg => by
        obtain ⟨_, -, -, h3⟩ := honest_found hdisk ht
        have hname : name = t.name := by simpa using h3
        rcases hleg.visit with rfl | hv
        · exact ⟨[], rfl, by simp⟩
        · refine ⟨[(parent ++ [t.name], v)], by simp, fun q hq => ?_⟩
          simp only [List.mem_singleton] at hq
          subst hq
          simp only [List.dropLast_concat]
          exact ⟨⟨hsp.inside hbelow, hsp.above, hsp.proper⟩, hv⟩)) a.currentPath.reverse (by simp) (by simp) true (fun _ => by simp)
        ⟨a.depth, startWorld S (o.client h) .spawn a x, []⟩ rfl
    simp only [resumeRun, h1, List.nil_append]
    exact h3
  generalize resumeRun S o (o.client h) disk r.strategy a (startWorld S (o.client h) r.strategy a x) = run at *
  obtain ⟨-, -, t, g1, g2⟩ := hsh
  obtain ⟨tours, rfl, g3⟩ := trips_shown htr t g2
  refine ⟨tours, ?_, fun t ht => ⟨(g3 t ht).2, (g3 t ht).1.1, (g3 t ht).1.2⟩⟩
  rw [show rep.tape = _ from f4, show rep.verdict = _ from f1, g1]
  have hq : run.2.2.ext.muted .ended = false := hend
  simp only [List.cons_append, List.nil_append, List.append_assoc]
  congr 2
  cases run.1 <;> simp [Final.verdict, hq]

/-- **C57** Fastward from a saved path strictly below the tree and not named like it: what the client sees is the final part, from the
handler call for the saved path on and without Wake, of a tour of the tree (the tour a dozing client would see, C19). So the Ascend events
of the saved path and of the directories above it come without their Descend. End follows unless a panic leaves
the session or nothing was called. (The full property claims a complete tour.) -/
theorem C57_fastward_partial (hr : Resumed P r settings files S o h a) (hst : r.strategy = .fastward) (hdisk : Honest disk o)
    (pre : Path) (fs : FS) (htree : a.tree = pre ++ [fs.name]) (hfs : disk a.tree = .ok fs)
    (hpath : Resumable pre fs.name a.currentPath) (x : κ) :
    let rep := walkResume P (.relic r) settings files disk x
    ∃ tour, Tour a.tree tour ∧ rep.tape = fromCall a.currentPath tour ++ (if rep.verdict = .panic ∨ rep.nodes = [] then [] else [.note .ended]) := by
  intro rep
  obtain ⟨f1, f2, -, f4⟩ := resumed_facts (disk := disk) hr x
  have hres : S.resume = some .fastward := by rw [hr.setup.1, hst]
  have hstat : statOf S.nav o disk a.tree = .found (prep S.nav fs) := by simp only [statOf, hfs, hdisk.status]
  have hpre : a.tree.dropLast = pre := by rw [htree, List.dropLast_concat]
  have hstart : startWorld S (o.client h) r.strategy a x = S.world x (fun _ => none) := by
    simp [startWorld, hst, World.publish, Setup.world, hres]
  have hrun : resumeRun S o (o.client h) disk r.strategy a (startWorld S (o.client h) r.strategy a x) =
      ((S.session (o.client h) x (fun _ => none) a.currentPath pre fs).1, true, (S.session (o.client h) x (fun _ => none) a.currentPath pre fs).2) := by
    rw [hstart, hst]
    simp only [resumeRun, runTop, hstat, top, hpre, Setup.session, walk, ← htree]
    rfl
  rw [hrun] at f1 f2 f4
  obtain ⟨-, -, -, -, -, g6, g7⟩ := C19_as_if_dozing S hres (o.client h) x (fun _ => none) pre fs a.currentPath hpath
  have hord : S.first.Ordinary := Or.inl rfl
  have hshown := session_shown S.first hord ((o.client h).dozing a.currentPath) { own := x } (fun _ => none) [] pre fs
  obtain ⟨v, hv, hvis, -⟩ := traverse_visit S.first.nav (S.first.env ((o.client h).dozing a.currentPath) (pre ++ [fs.name]) []) (prep S.nav fs) [] pre
    (St.fresh (S.first.world { own := x } (fun _ => none)))
  have hvisit : Visit (pre ++ [fs.name]) (S.first.session ((o.client h).dozing a.currentPath) { own := x } (fun _ => none) [] pre fs).2.log := by
    simp only [Setup.session, walk]
    rw [show prep S.first.nav fs = prep S.nav fs from rfl, hv]
    rcases hvis with ⟨h, _⟩ | h
    · rw [fresh_tooDeep] at h; simp at h
    · rw [(prep_entry S.nav fs).1] at h; simpa [St.fresh] using h
  refine ⟨_, htree ▸ hvisit.tour _ hshown, ?_⟩
  rw [show rep.tape = _ from f4, show rep.verdict = _ from f1]
  have hnodes : rep.nodes = [] ↔ (S.session (o.client h) x (fun _ => none) a.currentPath pre fs).2.ext.hits.isEmpty = true := by
    simp only [Report.nodes, show rep.hits = _ from f2, List.map_eq_nil_iff, List.isEmpty_iff]
  simp only [g6, hnodes, g7 .ended]
  congr 1
  cases (S.session (o.client h) x (fun _ => none) a.currentPath pre fs).1 <;> simp [Final.verdict]

end

/-! ### Examples -/

theorem diskOf_named (pre : Path) (fs : FS) : ∀ p f, diskOf pre fs p = .ok f → p.getLast? = some f.name := by
  have hgo : ∀ (q : List String) (g f : FS), diskOf.go q g = some f → (g.name :: q).getLast? = some f.name := by
    intro q
    induction q with
    | nil => intro g f h; simp only [diskOf.go, Option.some.injEq] at h; simp [h]
    | cons a as ih =>
      intro g f h
      cases g with
      | file => simp [diskOf.go] at h
      | dir n ie re kids =>
        simp only [diskOf.go] at h
        cases hk : kids.find? (fun k => k.name == a) with
        | none => simp [hk] at h
        | some k =>
          rw [hk] at h
          have hn : k.name = a := by simpa using List.find?_some hk
          have := ih k f h
          rw [hn] at this
          rw [List.getLast?_cons_cons]
          exact this
  intro p f h
  simp only [diskOf] at h
  by_cases hp : pre ++ [fs.name] <+: p
  · rw [if_pos hp] at h
    obtain ⟨q, rfl⟩ := hp
    have hd : (pre ++ [fs.name] ++ q).drop (pre.length + 1) = q := by
      rw [show pre.length + 1 = (pre ++ [fs.name]).length by simp, List.drop_left]
    rw [hd] at h
    cases hg : diskOf.go q fs with
    | none => simp [hg] at h
    | some g =>
      rw [hg] at h
      simp only [Except.ok.injEq] at h
      subst h
      have := hgo q fs g hg
      rw [List.append_assoc]
      simpa [List.getLast?_append] using this
  · simp [if_neg hp] at h

/-- The demo session, saved in `p`, resumed with a handler that answers by the path. -/
def Demo.relic (st : Strategy) (g : Path → Reply) : Relic Nat := { toyRelic st with handler := some (Demo.byPath g) }
def Demo.saved (p : Path) (sub : Subscription) : String → Except Err Json := savedFile (defaultOptions sortPlatform) (savedAt ["r"] p sub)

/-- Not vacuous: what C11, C12, C17, C57 and C58 assume is so of the demo session saved in /r/a/b, for either strategy, any
subscription and any handler; also with a depth limit. -/
example (st : Strategy) (g : Path → Reply) (sub : Subscription) (hsub : sub ≠ .undefined) :
    let a := (savedAt ["r"] ["r", "a", "b"] sub).active
    (∃ S o, Resumed sortPlatform (Demo.relic st g) [] (Demo.saved ["r", "a", "b"] sub) S o (Demo.byPath g) a ∧
      Honest (diskOf [] Demo.fs) o ∧ SortPermutes (o.nav a.sub) ∧ ReadSelects (o.nav a.sub)) ∧
    (∃ S o, Resumed sortPlatform (Demo.relic st g) (settingsOf sortPlatform [some (.depth 2)]) (Demo.saved ["r", "a", "b"] sub) S o
      (Demo.byPath g) a ∧ o.behaviours.cascade.depth = 2) ∧
    a.tree <+: a.currentPath ∧ a.depth = (a.currentPath.length : Int) - a.tree.length ∧
    a.tree = [] ++ [Demo.fs.name] ∧ diskOf [] Demo.fs a.tree = .ok Demo.fs ∧ Resumable [] Demo.fs.name a.currentPath := by
  intro a
  obtain ⟨doc, h1, h2⟩ := roundTrip sortPlatform (defaultOptions sortPlatform) (savedAt ["r"] ["r", "a", "b"] sub)
  have hf : Demo.saved ["r", "a", "b"] sub (Demo.relic st g).from = .ok doc := by simp only [Demo.saved, savedFile, h1]
  have hplat (ws) : resumePlatform sortPlatform (Demo.relic st g) (settingsOf sortPlatform ws) (.ok doc) =
      .ok ((bindOptions (fromJSON sortPlatform (toJSON (defaultOptions sortPlatform))) (settingsOf sortPlatform ws)).1, a) := by
    simp only [resumePlatform, h2, bindOptions, applyAll_settings]
    rfl
  have key (ws : List (Option (With Nat))) (hws : ws = [] ∨ ws = [some (.depth 2)]) :
      ∃ S o, buildRest sortPlatform a.sub (some st)
        (bindOptions (fromJSON sortPlatform (toJSON (defaultOptions sortPlatform))) (settingsOf sortPlatform ws)).1.afterwards = .ready S o ∧
        (∀ r, o.hooks.queryStatus.invoke r = r) ∧ SortPermutes (o.nav a.sub) ∧ ReadSelects (o.nav a.sub) ∧
        (ws ≠ [] → o.behaviours.cascade.depth = 2) := by
    rcases hws with rfl | rfl <;> cases sub <;> first
      | exact absurd rfl hsub
      | exact ⟨_, _, rfl, fun _ => rfl, fun l => (insertSort_sorts _ l).1, defaultRead_selects _ rfl, fun h => absurd rfl h⟩
      | exact ⟨_, _, rfl, fun _ => rfl, fun l => (insertSort_sorts _ l).1, defaultRead_selects _ rfl, fun _ => rfl⟩
  refine ⟨?_, ?_, (show (["r"] : Path) <+: ["r", "a", "b"] by decide), rfl, rfl, diskOf_holds Demo.distinct _ _ (.here [] Demo.fs),
    (show Resumable [] "r" ["r", "a", "b"] from ⟨by decide +kernel, by decide +kernel⟩)⟩
  · obtain ⟨S, o, k1, k2, k3, k4, -⟩ := key [] (Or.inl rfl)
    exact ⟨S, o, ⟨rfl, _, by rw [hf]; exact hplat [], k1⟩, ⟨diskOf_named _ _, k2⟩, k3, k4⟩
  · obtain ⟨S, o, k1, -, -, -, k5⟩ := key [some (.depth 2)] (Or.inr rfl)
    exact ⟨S, o, ⟨rfl, _, by rw [hf]; exact hplat [some (.depth 2)], k1⟩, k5 (by simp)⟩

/-- What the answers of C17 look like: saved in /r/c; a panic at the file /r/c/w is rescued, one at /r/c itself, or at its later sibling
/r/g, leaves Navigate; for a dozing client (fastward) both are rescued, the panic at /r/c with the state saved in /r. -/
theorem C17_resumed_witness :
    let go (st : Strategy) (at_ : Path) := walkResume sortPlatform (.relic (Demo.relic st (Demo.at_ at_ .panic))) [] (Demo.saved ["r", "c"] .universal)
      (diskOf [] Demo.fs) 0
    let errs (st : Strategy) (at_ : Path) := (go st at_).verdict
    (go .spawn ["r", "c", "w"]).verdict ≠ .panic ∧ (go .spawn ["r", "c", "w"]).nodes.map (fun n => n.path) = [["r", "c"], ["r", "c", "w"]] ∧
    errs .spawn ["r", "c"] = .panic ∧ errs .spawn ["r", "g"] = .panic ∧
    errs .fastward ["r", "c"] ≠ .panic ∧ errs .fastward ["r", "g"] ≠ .panic := by
  decide +kernel

/-- **C57, what is false**: a fastward resume from /r/c publishes the Ascend of /r/c and of /r without their Descend. -/
theorem C57_fastward_unbalanced :
    let rep := walkResume sortPlatform (.relic (Demo.relic .fastward Demo.quiet)) [] (Demo.saved ["r", "c"] .universal) (diskOf [] Demo.fs) 0
    rep.verdict = .done none ∧
    rep.tape.map (fun | .note n => (some n, []) | .call n => (none, n.path)) =
      [(none, ["r", "c"]), (some (.descend ["r", "c", "w"] false), []), (none, ["r", "c", "w"]), (some (.ascend ["r", "c", "w"] false), []),
        (some (.ascend ["r", "c"] true), []), (some (.descend ["r", "f"] false), []), (none, ["r", "f"]), (some (.ascend ["r", "f"] false), []),
        (some (.descend ["r", "g"] false), []), (none, ["r", "g"]), (some (.ascend ["r", "g"] false), []), (some (.ascend ["r"] true), []),
        (some .ended, [])] := by
  decide +kernel

/-- **C58, what is false**: a spawn resume from /r/a/b delivers /r/c, and what it contains, one level too deep; with a depth limit of 2, /r/c/w,
which a complete traversal with that limit delivers, is left out. -/
theorem C58_spawn_cuts_early :
    let P := sortPlatform
    let rep (ws) := walkResume P (.relic (Demo.relic .spawn Demo.quiet)) (settingsOf P ws) (Demo.saved ["r", "a", "b"] .universal) (diskOf [] Demo.fs) 0
    let whole (ws) := walkPrime P (.using { toyUsing .universal with handler := some (Demo.byPath Demo.quiet) }) (settingsOf P ws) (diskOf [] Demo.fs) 0
    (rep []).nodes.map (fun n => (n.path, n.depth)) =
      [(["r", "a", "b"], 2), (["r", "a", "b", "y"], 3), (["r", "a", "b", "z"], 3), (["r", "a", "x"], 2), (["r", "c"], 2), (["r", "c", "w"], 3),
        (["r", "f"], 2), (["r", "g"], 2)] ∧
    (rep [some (.depth 2)]).nodes.map (fun n => (n.path, n.depth)) =
      [(["r", "a", "b"], 2), (["r", "a", "x"], 2), (["r", "c"], 2), (["r", "f"], 2), (["r", "g"], 2)] ∧
    (whole [some (.depth 2)]).nodes.map (fun n => (n.path, n.depth)) =
      [(["r"], 0), (["r", "a"], 1), (["r", "a", "b"], 2), (["r", "a", "x"], 2), (["r", "c"], 1), (["r", "c", "w"], 2), (["r", "f"], 1),
        (["r", "g"], 1)] := by
  decide +kernel

end Traverse
