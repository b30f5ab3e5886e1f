import Verif.Proofs.Live5
import Verif.Props.Api
/-
**C69** File systems that change while they are walked, by the client's own callbacks or by anybody else.
`traverseLive c env L n [] pre e (St.fresh x)` is a traversal of the root entry `e` in the directory `pre`: every question to the file
system is answered by `L` as of the moment it is asked; `n` bounds the number of levels followed (see C69_fuel). It yields how Traverse ended, the final state with
the whole history, and the sights: what was seen of each node when it was entered. `walkLive P (.using u) settings L n x` is a whole session.
-/
namespace Traverse
variable {σ κ : Type}

section
variable {c : Nav} {env : Env σ} {L : Look σ} {n : Nat} {pre : Path} {e : Entry} {x : σ} {o : Out} {s : St σ} {g : List (Sight σ)}

/-- **C69** Whatever changes, and whoever changes it: the traversal is, call by call and result by result, the traversal of a tree that does not change, put together of
what each directory held at the moment it was listed. -/
theorem C69_frozen (h : traverseLive c env L n [] pre e (St.fresh x) = some (o, s, g)) :
    ∃ t, t.entry = e ∧ traverse c env [] pre t (St.fresh x) = (o, s) ∧ Frozen c L t :=
  traverse_frozen c env L n _ _ _ _ _ _ _ h

/-- **C69** The handler is called for the nodes that were entered and that the subscription wants, in that order, with what was seen of them
when they were entered, and for nothing else. -/
theorem C69_visited (h : traverseLive c env L n [] pre e (St.fresh x) = some (o, s, g)) :
    invoked s.log = (g.filter (Sight.wanted c)).map (Sight.node c) := by
  have := (live_account c env L n _ _ _ _ _ _ _ h).1.calls
  simpa [St.fresh, invoked, calls] using this

/-- **C69** When the questions are asked. The first node entered is the root; every other node was in the listing of a directory entered earlier, and its Info() is asked for
just before it is entered; a directory is listed right after its Descend event, and that is before the handler is called for it: what
is created in it from then on is not met, what was created before is. -/
theorem C69_moment (h : traverseLive c env L n [] pre e (St.fresh x) = some (o, s, g)) :
    (∀ q ∈ g, q.Timely c env L [] s.log) ∧
    ∃ q rest, g = q :: rest ∧ q.parents = [] ∧ q.path = pre ++ [e.name] ∧ q.entry = e ∧ q.before = St.fresh x ∧ ∀ r ∈ rest, r.Known L g := by
  obtain ⟨h1, h2⟩ := live_account c env L n _ _ _ _ _ _ _ h
  refine ⟨h1.timely, ?_⟩
  rcases h2 with rfl | h2
  · exfalso
    cases n with
    | zero => cases h
    | succ n =>
      rcases traverseLive_succ h with ⟨htd, -⟩ | ⟨-, h⟩
      · rw [fresh_tooDeep] at htd; cases htd
      · simp only at h
        rcases h with ⟨s2, -, -, h⟩ | ⟨s2, o3, s3, g3, -, -, -, -, h⟩ <;> cases h
  · exact h2

/-- **C69** Nothing listed is missed: if the handler returns nil and the skip handler is the default, the nodes entered are the root and everything listed in the
directories that are gone through (all of them, except those at the depth limit and, with Files, the unreadable ones), each as often as it was listed, and Traverse ends without an error. -/
theorem C69_complete (h : traverseLive c env L n [] pre e (St.fresh x) = some (o, s, g)) (hnil : AlwaysNil env) (hskip : DefaultSkip env) :
    (∃ p, o = .ret p none) ∧
    (g.map Sight.tag).Perm ((pre ++ [e.name], e.isDir) :: g.flatMap fun q => if q.opened c then q.entries else []) := by
  obtain ⟨h1, h2⟩ := live_fills hnil hskip n _ _ _ _ _ _ _ h
  rw [fresh_tooDeep] at h2
  exact ⟨h1, h2⟩

/-- **C69** If no listing holds a name twice: pre-order, for every handler history. No node is delivered after something inside it, nor twice, and between two nodes at or
below a path only nodes at or below it are delivered. -/
theorem C69_order (h : traverseLive c env L n [] pre e (St.fresh x) = some (o, s, g)) (hsort : SortPermutes c) (hread : ReadSelects c) (hL : L.Distinct) :
    (invoked s.log).Pairwise (fun i j => ¬ j.path <+: i.path) ∧
    (∀ p a y b, [a, y, b].Sublist (invoked s.log) → p <+: a.path → p <+: b.path → p <+: y.path) := by
  obtain ⟨t, -, ht, hfr⟩ := C69_frozen h
  have hd := hfr.distinct hsort hread hL
  obtain ⟨vs, -, h2, h3⟩ := top_run c env pre t (St.fresh x) (fresh_tooDeep c x)
  rw [ht] at h2 h3
  simp only [St.fresh, acts_nil, List.nil_append] at h2
  have hsubl := h3.sublist
  rw [← h2, invoked_acts] at hsubl
  refine ⟨?_, ?_⟩
  · have := (items_preOrder c _ hd [] pre (St.fresh x).depth).pairwise
    have h4 : ((items c [] pre (St.fresh x).depth t).map (·.node)).Pairwise (fun i j => ¬ j.path <+: i.path) := by
      rw [List.pairwise_map]; exact this
    exact h4.sublist hsubl
  · intro p a y b hs ha hb
    obtain ⟨l', hl', he⟩ := List.sublist_map_iff.1 (hs.trans hsubl)
    match l', he with
    | [a', y', b'], he =>
      simp at he
      obtain ⟨rfl, rfl, rfl⟩ := he
      exact items_contiguous c _ hd [] pre _ p a' y' b' hl' ha hb

/-- **C69** Every node reports its true distance from the root, and the history is one well nested visit of the root: every Descend has its Ascend. -/
theorem C69_balanced (h : traverseLive c env L n [] pre e (St.fresh x) = some (o, s, g)) :
    (∀ m ∈ invoked s.log, (pre ++ [e.name]) <+: m.path ∧ m.path.length = pre.length + 1 + m.depth) ∧
    Visit (pre ++ [e.name]) s.log ∧ (ascents s.log).Perm (descents s.log) ∧ s.depth = 0 := by
  obtain ⟨t, rfl, ht, hfr⟩ := C69_frozen h
  obtain ⟨vs, -, h2, h3⟩ := top_run c env pre t (St.fresh x) (fresh_tooDeep c x)
  obtain ⟨v, hv, hvis, -⟩ := traverse_visit c env t [] pre (St.fresh x)
  rw [ht] at h2 h3 hv
  simp only [St.fresh, acts_nil, List.nil_append] at h2 hv
  have hsubl := h3.sublist
  rw [← h2, invoked_acts] at hsubl
  have hvisit : Visit (pre ++ [t.entry.name]) s.log := by
    rw [hv]
    rcases hvis with ⟨h, _⟩ | h
    · rw [fresh_tooDeep] at h; simp at h
    · exact h
  refine ⟨?_, hvisit, hvisit.balanced, ?_⟩
  · intro m hm
    obtain ⟨it, hit, rfl⟩ := List.mem_map.1 (hsubl.subset hm)
    obtain ⟨h1, h2⟩ := items_path c _ [] pre _ it hit
    refine ⟨h1, ?_⟩
    rw [h2]
    simp only [St.fresh]
    omega
  · exact live_depth h

/-- **C69** With a depth limit every traversal ends, whatever is created meanwhile. -/
theorem C69_ends (hlimit : 0 < c.maxDepth) (hn : c.maxDepth + 2 ≤ n) :
    ∃ o s g, traverseLive c env L n [] pre e (St.fresh x) = some (o, s, g) :=
  traverseLive_ends c env L hlimit n _ _ _ _ (by simp only [St.fresh]; omega) (by omega)

/-- The number of levels allowed decides nothing but whether there is a result. -/
theorem C69_fuel {m : Nat} {r r'} (h : traverseLive c env L n [] pre e (St.fresh x) = some r) (h' : traverseLive c env L m [] pre e (St.fresh x) = some r') : r = r' := by
  rcases Nat.le_total n m with hm | hm
  · rw [live_fuel h hm] at h'; exact Option.some.inj h'
  · rw [live_fuel h' hm] at h; exact (Option.some.inj h).symm

/-- **C69** On a file system that does not change this is the traversal all the other properties are about. -/
theorem C69_still {fs : FS} (hc : c.Sound) (hL : L.Still pre fs) (hn : fs.levels ≤ n) :
    ∃ g, traverseLive c env L n [] pre fs.entry (St.fresh x) =
      some ((traverse c env [] pre (prep c fs) (St.fresh x)).1, (traverse c env [] pre (prep c fs) (St.fresh x)).2, g) :=
  traverse_still hc.permutes hc.selects hc.sort hc.read hL fs pre (.here pre fs) n hn [] _

end

/-! ### Whole sessions -/

section
variable (P : Platform κ) (u : Using κ) (settings : List (Option (Setting κ))) (L : Look κ) (n : Nat) (x : κ)

/-- **C69** Every session on a changing file system reports exactly what a session on some unchanging disk reports, with all filters, hibernation, sampling and
concurrently muted events: nodes, answers, events, metrics and the error of Navigate. That disk holds, at each path, what the changing one held there when it was listed. So whatever
holds of `walkPrime` for all disks holds of sessions on file systems that change. -/
theorem C69_session (hsound : ∀ S o, buildPrimary P (.using u) settings = .ready S o → S.nav.Sound ∧ ∀ r, o.hooks.queryStatus.invoke r = r)
    (hL : L.Distinct) (hinfo : L.Steady) (rep : Report κ) (h : walkLive P (.using u) settings L n x = some rep) :
    ∃ disk : Disk, rep = walkPrime P (.using u) settings disk x ∧
      ((∃ e y, disk u.tree = .error e ∧ L.stat y u.tree = .error e) ∨
       (∃ f f0 y, disk u.tree = .ok f ∧ L.stat y u.tree = .ok f0 ∧ f.name = f0.name ∧ f.isDir = f0.isDir ∧ f.Distinct ∧
          Seen L (fun _ _ => True) (u.tree.dropLast ++ [f.name]) f)) := by
  obtain ⟨disk, h1, h2 | ⟨f, f0, y, h2, h3, h4, h5, h6⟩⟩ := walkLive_frozen hsound hL hinfo h
  · exact ⟨disk, h1, .inl h2⟩
  · exact ⟨disk, h1, .inr ⟨f, f0, y, h2, h3, h4, h5, h6.distinct hL, h6⟩⟩

theorem usual_sound {o : Options κ} (hu : o.Usual) (sub : Subscription) (hby : SortByEntries (o.nav sub)) : (o.nav sub).Sound where
  permutes := hu.sort
  selects := defaultRead_selects _ (by funext l e; exact hu.read (l, e))
  sort := hby
  read := by
    intro l e
    have hr : (o.nav sub).read = defaultRead := by funext l e; exact hu.read (l, e)
    rw [hr]
    cases e with
    | some e => rfl
    | none =>
      simp only [defaultRead, Prod.mk.injEq, and_true]
      rw [List.filter_map]
      rfl

/-- **C69** Universal, no depth limit, a handler that returns nil, the default hooks, on a file system that changes: exactly the root and what was listed in the directories, each once, and
Navigate returns nil. -/
theorem C69_session_complete {disk : Disk} {o : Options κ} {h : κ → Parcel → κ × Reply} {pre : Path} {fs : FS} (hp : Primed P u settings disk o h pre fs)
    (hu : o.Usual) (hby : SortByEntries (o.nav u.sub)) (hsub : u.sub = .universal) (hlimit : o.limit = 0) (hnil : Handler.Nil h)
    (hroot : ∀ y, ∃ f, L.stat y u.tree = .ok f ∧ f.name = fs.name) (hL : L.Distinct) (hinfo : L.Steady) (rep : Report κ)
    (h : walkLive P (.using u) settings L n x = some rep) :
    ∃ f, Seen L (fun _ _ => True) u.tree f ∧ (rep.nodes.map fun n => (n.path, n.isDir)).Perm (f.nodes pre) ∧
      (rep.nodes.map fun n => n.path).Nodup ∧ rep.verdict = .done none ∧ rep.complete = true := by
  obtain ⟨disk', rfl, ⟨e, y, -, h2⟩ | ⟨f, f0, y, h2, h3, h4, h5, h6, h7⟩⟩ := C69_session P u settings L n x (by
    intro S o' hb
    have hb' := (primed_started hp).built
    rw [hb] at hb'
    cases hb'
    rw [(primary_ready hb).2.1]
    exact ⟨usual_sound (o := o.afterwards) ⟨hu.read, hu.sort, hu.skip⟩ u.sub hby, hp.status⟩) hL hinfo rep h
  · obtain ⟨f, hf, -⟩ := hroot y
    rw [hf] at h2; cases h2
  · have hname : f.name = fs.name := by
      obtain ⟨f', hf', hn⟩ := hroot y
      rw [hf'] at h3; cases h3
      rw [h4, hn]
    have hp' : Primed P u settings disk' o _ pre f :=
      ⟨hp.noOptions, hp.options, hp.bare, hp.sub, hp.handler, by rw [hp.tree, hname], h2, hp.status⟩
    refine ⟨f, ?_, C01_session P u settings disk' o _ pre f hp' hu hsub hlimit h6 hnil x⟩
    rwa [hp'.tree, List.dropLast_concat, ← hp'.tree] at h7

/-- **C69** With a depth limit (or NoRecurse) every session ends, whatever is created meanwhile. -/
theorem C69_session_ends {o : Options κ} {S : Setup} (hb : buildPrimary P (.using u) settings = .ready S o) (hlimit : 0 < (o.nav u.sub).maxDepth)
    (hn : (o.nav u.sub).maxDepth + 2 ≤ n) : ∃ rep, walkLive P (.using u) settings L n x = some rep :=
  walkLive_ends (by
    intro S' o' hb'
    rw [hb] at hb'
    cases hb'
    rw [(primary_ready hb).2.1]
    exact ⟨hlimit, hn⟩) x

/-- **C69** On a file system that does not change these are the sessions all the other properties are about. -/
theorem C69_session_still {disk : Disk} {S : Setup} {o : Options κ} {h : κ → Parcel → κ × Reply} {pre : Path} {fs : FS}
    (hs : Started P u settings disk S o h pre fs) (hc : (o.nav u.sub).Sound) (hL : L.Still pre fs) (hroot : fs.infoErr = none) (hn : fs.levels ≤ n) :
    walkLive P (.using u) settings L n x = some (walkPrime P (.using u) settings disk x) :=
  walkLive_still hs ((primary_ready hs.built).2.1 ▸ hc) hL hroot hn x

end

/-! ### Not vacuous -/

/-- The state counts the calls of the handler. The root "r" holds a directory "a" and a file "f", and once the handler has been called a file "late" too; "a" holds what the handler
creates there when it is called for "r". -/
def Demo.growing : Look Nat where
  stat _ _ := .ok (.dir "r" none none [])
  list k p := if p = ["r"] then ([⟨"a", true, none⟩, ⟨"f", false, none⟩] ++ (if k = 0 then [] else [⟨"late", false, none⟩]), none)
    else if p = ["r", "a"] then (if k = 0 then [] else [⟨"new", false, none⟩], none)
    else ([], none)
  info _ _ := none

/-- "f" goes away when the handler is called for "new": it is still visited, its Info() fails. -/
def Demo.shrinking : Look Nat := { Demo.growing with info := fun k p => if p = ["r", "f"] ∧ 2 < k then some (.code 2) else none }

/-- Counts its calls, accepts everything. -/
def Demo.counting : Env Nat where
  descend x _ _ := x
  ascend x _ _ := x
  invoke x _ := (x + 1, .ok none)
  ask x _ _ := (x, .none, none)
  rescue x _ _ := (x, .saved "dest")

theorem Demo.growing_distinct : Demo.growing.Distinct := by
  intro x p
  simp only [Demo.growing]
  split
  · split <;> simp
  · split
    · split <;> simp
    · simp

theorem Demo.growing_steady : Demo.growing.Steady := by
  intro x p e he y
  simp only [Demo.growing] at he ⊢
  split at he
  · simp only [List.mem_append, List.mem_cons, List.not_mem_nil, or_false] at he
    rcases he with (rfl | rfl) | he
    · rfl
    · rfl
    · split at he
      · cases he
      · simp only [List.mem_singleton] at he; subst he; rfl
  · split at he
    · split at he
      · cases he
      · simp only [List.mem_singleton] at he; subst he; rfl
    · cases he

/-- What the handler created in "a" is visited, what it created in "r", which had been listed already, is not. -/
example : (traverseLive (Demo.nav .universal) Demo.counting Demo.growing 3 [] [] ⟨"r", true, none⟩ (St.fresh 0)).map
    (fun r => (r.1, (invoked r.2.1.log).map fun n => n.path, r.2.2.map fun q => q.path)) =
      some (.ret true none, [["r"], ["r", "a"], ["r", "a", "new"], ["r", "f"]], [["r"], ["r", "a"], ["r", "a", "new"], ["r", "f"]]) ∧
    AlwaysNil Demo.counting ∧ DefaultSkip Demo.counting ∧ SortPermutes (Demo.nav .universal) ∧ ReadSelects (Demo.nav .universal) ∧ Demo.growing.Distinct :=
  ⟨by decide +kernel, fun _ _ => rfl, fun _ _ _ => rfl, Demo.sortPermutes _, defaultRead_selects _ rfl, Demo.growing_distinct⟩

/-- Gone between listing and visit: visited, with the error. -/
example : (traverseLive (Demo.nav .universal) Demo.counting Demo.shrinking 3 [] [] ⟨"r", true, none⟩ (St.fresh 0)).map
    (fun r => (invoked r.2.1.log).map fun n => (n.path, n.infoErr)) =
      some [(["r"], none), (["r", "a"], none), (["r", "a", "new"], none), (["r", "f"], some (.code 2))] := by decide +kernel

/-- A session on the growing file system meets the hypotheses of `C69_session` and `C69_session_complete`. -/
example :
    let P := sortPlatform
    let u : Using Nat := { toyUsing .universal with handler := some (Demo.byPath fun _ => .ok none) }
    (∀ S o, buildPrimary P (.using u) [] = .ready S o → S.nav.Sound ∧ ∀ r, o.hooks.queryStatus.invoke r = r) ∧
    Primed P u [] (diskOf [] Demo.fs) (defaultOptions P) (Demo.byPath fun _ => .ok none) [] Demo.fs ∧ (defaultOptions P).Usual ∧
    SortByEntries ((defaultOptions P).nav u.sub) ∧ Handler.Nil (Demo.byPath fun _ => .ok none) ∧
    (∀ y, ∃ f, Demo.growing.stat y u.tree = .ok f ∧ f.name = Demo.fs.name) ∧ Demo.growing.Distinct ∧ Demo.growing.Steady ∧
    (walkLive P (.using u) [] Demo.growing 3 0).map (fun r => (r.nodes.map fun n => n.path, r.verdict)) =
      some ([["r"], ["r", "a"], ["r", "a", "new"], ["r", "f"]], .done none) := by
  intro P u
  have hp : Primed P u [] (diskOf [] Demo.fs) (defaultOptions P) (Demo.byPath fun _ => .ok none) [] Demo.fs :=
    Demo.primed .universal (by decide) _ _ _ Demo.distinct rfl rfl _
  refine ⟨?_, hp, Demo.usual _, insertSort_byEntries _, fun _ _ => rfl, fun _ => ⟨_, rfl, rfl⟩, Demo.growing_distinct, Demo.growing_steady,
    by decide +kernel⟩
  intro S o hb
  have hb' := (primed_started hp).built
  rw [hb] at hb'
  cases hb'
  rw [(primary_ready hb).2.1]
  exact ⟨usual_sound (o := (defaultOptions sortPlatform).afterwards) ⟨fun _ => rfl, fun l => (insertSort_sorts _ l).1, fun _ _ _ => rfl⟩ _ (insertSort_byEntries _), fun _ => rfl⟩

/-- A file system in which every directory holds a directory: it keeps growing as it is walked. -/
def Demo.endless : Look Nat where
  stat _ _ := .ok (.dir "r" none none [])
  list _ _ := ([⟨"d", true, none⟩], none)
  info _ _ := none

theorem Demo.endless_none : ∀ (n : Nat) (pp : Path × List NodeInfo) s name,
    traverseLive (Demo.nav .universal) Demo.counting Demo.endless n pp.2 pp.1 ⟨name, true, none⟩ s = none := by
  intro n
  induction n with
  | zero => intro pp s name; rfl
  | succ n ih =>
    intro pp s name
    obtain ⟨pp, ps⟩ := pp
    rw [traverseLive]
    have htd : tooDeep (Demo.nav .universal) s.depth = false := rfl
    simp only [htd, Bool.false_eq_true, if_false]
    have hl : ∀ x, lay (Demo.nav .universal) Demo.endless (⟨name, true, none⟩ : Entry) (pp ++ [name]) x =
        .node ⟨name, true, none⟩ none [] [⟨"d", true, none⟩] [.stub ⟨"d", true, none⟩] := fun _ => rfl
    simp only [hl]
    generalize hnd : mkNode (Demo.nav .universal) ps (pp ++ [name]) (.node ⟨name, true, none⟩ none [] [⟨"d", true, none⟩] [.stub ⟨"d", true, none⟩])
      (s.doDescend Demo.counting (pp ++ [name]) true).depth = nd
    rcases hE : enter (Demo.nav .universal) Demo.counting nd (readErrOf (Demo.nav .universal)
      (.node ⟨name, true, none⟩ none [] [⟨"d", true, none⟩] [.stub ⟨"d", true, none⟩])) (s.doDescend Demo.counting (pp ++ [name]) true) with ⟨a, s2⟩
    have ha := enter_nil (c := Demo.nav .universal) (env := Demo.counting) (fun _ _ => rfl) (fun _ _ _ => rfl) nd (readErrOf (Demo.nav .universal)
      (.node ⟨name, true, none⟩ none [] [⟨"d", true, none⟩] [.stub ⟨"d", true, none⟩])) (s.doDescend Demo.counting (pp ++ [name]) true)
    rw [hE, if_neg (by decide)] at ha
    simp only at ha
    subst ha
    simp only [Tree.kids_node, List.map_cons, List.map_nil, Tree.stub, Tree.entry_node, travelLive, Demo.endless]
    have := ih (pp ++ [name], nd.toNodeInfo :: ps) s2 "d"
    simp only [Demo.endless] at this
    simp only [this]

/-- **C69** Without a depth limit there need not be an end: if there is a new directory in every directory by the time it is listed, no number of levels suffices. -/
theorem C69_endless (x : Nat) : ∀ n, traverseLive (Demo.nav .universal) Demo.counting Demo.endless n [] [] ⟨"r", true, none⟩ (St.fresh x) = none :=
  fun n => Demo.endless_none n ([], []) _ _

/-- With a depth limit a session ends even there. -/
example :
    let P := sortPlatform
    let u : Using Nat := { toyUsing .universal with handler := some (Demo.byPath fun _ => .ok none) }
    let settings := settingsOf P [some (.depth 2)]
    (∃ S o, buildPrimary P (.using u) settings = .ready S o ∧ (o.nav u.sub).maxDepth = 2) ∧
    (walkLive P (.using u) settings Demo.endless 4 0).map (fun r => r.nodes.map fun n => n.path) =
      some [["r"], ["r", "d"], ["r", "d", "d"]] ∧
    (walkLive P (.using u) settings Demo.endless 3 0).isNone ∧ (walkLive P (.using u) [] Demo.endless 50 0).isNone :=
  ⟨⟨_, _, rfl, rfl⟩, by decide +kernel, by decide +kernel, by decide +kernel⟩

/-- A still file system as a `Look`. -/
def Demo.lookOf (fs : FS) : Look Nat where
  stat _ _ := .ok fs
  list _ p := match diskOf [] fs p with
    | .ok (.dir _ _ re kids) => (kids.map FS.entry, re)
    | .ok (.file _ _ re) => ([], re)
    | .error _ => ([], none)
  info _ p := match diskOf [] fs p with
    | .ok f => f.infoErr
    | .error _ => none

/-- A still file system: the live traversal and the traversal agree. -/
example : (Demo.lookOf Demo.fs).Still [] Demo.fs ∧ Demo.fs.levels = 4 ∧ Demo.fs.infoErr = none := by
  have key : ∀ p f, FS.At [] Demo.fs p f → diskOf [] Demo.fs p = .ok f := fun p f h => diskOf_holds Demo.distinct p f h
  refine ⟨⟨fun _ => rfl, ?_, ?_, ?_⟩, by decide +kernel, rfl⟩
  · intro x p n ie re kids h
    simp only [Demo.lookOf, key _ _ h]
  · intro x p n ie re h
    simp only [Demo.lookOf, key _ _ h]
  · intro x p g h
    simp only [Demo.lookOf, key _ _ h]

end Traverse
