import Verif.Proofs.Faults
import Verif.Proofs.Plan
import Verif.Spec.Informed
/-
Sessions on file systems with and without failing entry information, run side by side.
-/
namespace Traverse
variable {σ κ : Type}

/-- The state with the entry errors forgotten, in the log and (by `m`) in the outside world. -/
def forgetSt (m : σ → σ) (s : St σ) : St σ := ⟨s.depth, m s.ext, s.log.map infoBlur.ev⟩

/-- The world does the same without the entry errors, up to those it recorded. -/
structure Forgets (m : σ → σ) (env : Env σ) : Prop where
  descend : ∀ x p d, env.descend (m x) p d = m (env.descend x p d)
  ascend : ∀ x p d, env.ascend (m x) p d = m (env.ascend x p d)
  invoke : ∀ x n, env.invoke (m x) n.noInfoErr = (m (env.invoke x n).1, (env.invoke x n).2)
  ask : ∀ x n r, env.ask (m x) n.noInfoErr r = (m (env.ask x n r).1, (env.ask x n r).2)
  rescue : ∀ x i d, env.rescue (m x) i.noInfoErr d = (m (env.rescue x i d).1, (env.rescue x i d).2)

section
variable {m : σ → σ} {env : Env σ}

theorem infoBlur_node (n : Node) : infoBlur.node n = n.noInfoErr := rfl
theorem infoBlur_ni (n : NodeInfo) : infoBlur.ni n = n.noInfoErr := rfl
theorem infoBlur_re (r : Option Err) : infoBlur.re r = r := rfl

theorem forget_descend (h : Forgets m env) (p d) (s : St σ) : (forgetSt m s).doDescend env p d = forgetSt m (s.doDescend env p d) := by
  simp [St.doDescend, forgetSt, Blur.ev, h.descend]
theorem forget_ascend (h : Forgets m env) (p d) (s : St σ) : (forgetSt m s).doAscend env p d = forgetSt m (s.doAscend env p d) := by
  simp [St.doAscend, forgetSt, Blur.ev, h.ascend]
theorem forget_invoke (h : Forgets m env) (n : Node) (s : St σ) :
    (forgetSt m s).doInvoke env n.noInfoErr = ((s.doInvoke env n).1, forgetSt m (s.doInvoke env n).2) := by
  simp [St.doInvoke, forgetSt, Blur.ev, h.invoke, infoBlur_node]
theorem forget_ask (h : Forgets m env) (n : Node) (r) (s : St σ) :
    (forgetSt m s).doAsk env n.noInfoErr r = ((s.doAsk env n r).1, (s.doAsk env n r).2.1, forgetSt m (s.doAsk env n r).2.2) := by
  simp [St.doAsk, forgetSt, Blur.ev, h.ask, infoBlur_node, infoBlur_re]
theorem forget_rescue (h : Forgets m env) (i : NodeInfo) (s : St σ) :
    (forgetSt m s).doRescue env i.noInfoErr = ((s.doRescue env i).1, forgetSt m (s.doRescue env i).2) := by
  simp [St.doRescue, forgetSt, Blur.ev, h.rescue, infoBlur_ni]

theorem forget_enter (h : Forgets m env) (c : Nav) (n : Node) (r) (s : St σ) :
    enter c env n.noInfoErr r (forgetSt m s) = ((enter c env n r s).1, forgetSt m (enter c env n r s).2) := by
  have hI := forget_invoke h n s
  have hA := forget_ask h n r s
  have hIA := forget_ask h n r (s.doInvoke env n).2
  unfold enter
  rw [show n.noInfoErr.isDir = n.isDir from rfl]
  rcases hi : s.doInvoke env n with ⟨rr, s1⟩
  rw [hi] at hI hIA
  simp only at hI hIA
  rcases ha : s.doAsk env n r with ⟨sk, e, s2⟩
  rw [ha] at hA
  simp only at hA
  rcases hia : s1.doAsk env n r with ⟨sk', e', s2'⟩
  rw [hia] at hIA
  simp only at hIA
  cases hsub : c.sub with
  | files =>
    simp only
    cases hd : n.isDir with
    | false =>
      simp only [Bool.not_false, if_true]
      rw [hI]; cases rr <;> rfl
    | true =>
      simp only [Bool.not_true, Bool.false_eq_true, if_false]
      rw [hA]
      simp only
      split
      · rfl
      · split <;> rfl
  | _ =>
    simp only
    rw [hI]
    rcases rr with (_ | x) | _
    · simp only
      rw [hIA, hia]
      simp only
      split
      · rfl
      · first
        | rfl
        | (split <;> rfl)
    · rfl
    · rfl

theorem forget_recoverIn (h : Forgets m env) (i : NodeInfo) (o : Out) (s : St σ) :
    recoverIn env i.noInfoErr (o, forgetSt m s) = ((recoverIn env i (o, s)).1, forgetSt m (recoverIn env i (o, s)).2) := by
  cases o with
  | ret p e => rfl
  | panic => simp only [recoverIn]; rw [forget_rescue h]

theorem forget_travelLoop (c : Nav) (ts : List Tree)
    (ih : ∀ t ∈ ts, ∀ ps pp s, traverse c env (ps.map NodeInfo.noInfoErr) pp (infoBlur.tree t) (forgetSt m s) =
      ((traverse c env ps pp t s).1, forgetSt m (traverse c env ps pp t s).2)) :
    ∀ ps pp s, travelLoop c env (ps.map NodeInfo.noInfoErr) pp (ts.map infoBlur.tree) (forgetSt m s) =
      ((travelLoop c env ps pp ts s).1, forgetSt m (travelLoop c env ps pp ts s).2) := by
  induction ts with
  | nil => intro ps pp s; simp [travelLoop]
  | cons t ts ihl =>
    intro ps pp s
    have ihl := ihl (fun k hk => ih k (by simp [hk]))
    simp only [List.map_cons, travelLoop]
    rw [ih t (by simp)]
    rcases traverse c env ps pp t s with ⟨o, s1⟩
    simp only
    rcases o with ⟨p, e⟩ | _
    · cases p <;> cases e <;> simp only
      · exact ihl ps pp s1
      · split <;> rfl
      · exact ihl ps pp s1
      · split
        · exact ihl ps pp s1
        · split
          · exact ihl ps pp s1
          · rfl
    · rfl

theorem forget_traverse (h : Forgets m env) (c : Nav) (t : Tree) :
    ∀ ps pp s, traverse c env (ps.map NodeInfo.noInfoErr) pp (infoBlur.tree t) (forgetSt m s) =
      ((traverse c env ps pp t s).1, forgetSt m (traverse c env ps pp t s).2) := by
  induction t using Tree.ind with
  | h e r fs ds kids ih =>
    intro ps pp s
    have hloop := forget_travelLoop (m := m) (env := env) c kids ih
    have htree : infoBlur.tree (.node e r fs ds kids) =
        .node (infoBlur.entry e) r (fs.map infoBlur.entry) (ds.map infoBlur.entry) (kids.map infoBlur.tree) := by
      rw [Blur.tree, Blur.treeL_map, infoBlur_re]
    rw [htree]
    simp only [traverse, Blur.entry_name, Blur.entry_isDir, show (forgetSt m s).depth = s.depth from rfl]
    split
    · rfl
    · rw [forget_descend h]
      generalize s.doDescend env (pp ++ [e.name]) e.isDir = s1
      have hmk := Blur.mkNode_blur infoBlur c ps (pp ++ [e.name]) (.node e r fs ds kids) s1.depth
      have hre := Blur.readErr_blur infoBlur c (.node e r fs ds kids)
      rw [infoBlur_re] at hre
      rw [← htree, show (forgetSt m s1).depth = s1.depth from rfl, show ps.map NodeInfo.noInfoErr = ps.map infoBlur.ni from rfl, hmk, hre,
        infoBlur_node]
      generalize mkNode c ps (pp ++ [e.name]) (.node e r fs ds kids) s1.depth = n
      rw [forget_enter h c n _ s1]
      rcases enter c env n (readErrOf c (.node e r fs ds kids)) s1 with ⟨a, s2⟩
      cases a with
      | done o => simp only [forget_ascend h]
      | travel =>
        simp only
        have hl := hloop (n.toNodeInfo :: ps) (pp ++ [e.name]) s2
        rw [List.map_cons] at hl
        rw [show n.noInfoErr.toNodeInfo = n.toNodeInfo.noInfoErr from rfl, show ps.map infoBlur.ni = ps.map NodeInfo.noInfoErr from rfl, hl]
        generalize travelLoop c env (n.toNodeInfo :: ps) (pp ++ [e.name]) kids s2 = L
        obtain ⟨o, s3⟩ := L
        rw [forget_recoverIn h, forget_ascend h]

/-- The root that is found, without entry errors. -/
def RootStat.informed : RootStat → RootStat
  | .error e => .error e
  | .found t => .found (infoBlur.tree t)

theorem forget_top (h : Forgets m env) (c : Nav) (fault : σ → Path → Err → σ × Option Err)
    (hf : ∀ x p e, fault (m x) p e = (m (fault x p e).1, (fault x p e).2)) (pre p : Path) (r : RootStat) (s : St σ) :
    top c env fault pre p r.informed (forgetSt m s) = ((top c env fault pre p r s).1, forgetSt m (top c env fault pre p r s).2) := by
  cases r with
  | error e => simp only [top, RootStat.informed, forgetSt, hf]
  | found t =>
    have := forget_traverse h c t [] pre s
    simp only [List.map_nil] at this
    simp only [top, RootStat.informed, this]

theorem forget_goLegs (h : Forgets m env) (c : Nav) (fault : σ → Path → Err → σ × Option Err)
    (hf : ∀ x p e, fault (m x) p e = (m (fault x p e).1, (fault x p e).2)) (stat : Path → RootStat)
    (legs : List (Path × String)) : ∀ s : St σ,
    goLegs c env fault (fun p => (stat p).informed) legs (forgetSt m s) =
      ((goLegs c env fault stat legs s).1, forgetSt m (goLegs c env fault stat legs s).2) := by
  induction legs with
  | nil => intro s; rfl
  | cons l ls ih =>
    intro s
    simp only [goLegs]
    rw [forget_top h c fault hf]
    rcases top c env fault l.1 (l.1 ++ [l.2]) (stat (l.1 ++ [l.2])) s with ⟨(_ | e) | _, s1⟩
    · exact ih s1
    · rfl
    · rfl
end

/-! ### The hooks -/

theorem prep_informed_any (c : Nav) (hsort : SortByNames c) (hread : ReadByNames c) (f : FS) :
    prep c f.informed = infoBlur.tree (prep c f) := by
  have hs := sort_map_names hsort infoBlur.tree (fun t => ⟨Blur.tree_name _ _, Blur.tree_isDir _ _⟩)
  induction f using FS.ind with
  | hf n ie re => simp [FS.informed, prep, Blur.tree, Blur.treeL, Blur.re, infoBlur, Blur.entry, Entry.noInfoErr]
  | hd n ie re kids ih =>
    simp only [FS.informed, informedL_map]
    rw [prep_dir, prep_dir]
    have hm : (kids.map FS.informed).map (prep c) = (kids.map (prep c)).map infoBlur.tree := by
      rw [List.map_map, List.map_map]; apply List.map_congr_left; intro k hk; exact ih k hk
    exact arrange_map c infoBlur hs ⟨n, true, ie⟩ re re (kids.map (prep c)) ((kids.map FS.informed).map (prep c))
      (by rw [hm, infoBlur_re]; exact hread infoBlur.tree (fun t => ⟨Blur.tree_name _ _, Blur.tree_isDir _ _⟩) _ _)

theorem following_informed (c : Nav) (hsort : SortByNames c) (hread : ReadByNames c) (disk disk' : Disk) (parent : Path)
    (hd' : disk' parent = match disk parent with | .ok fs => .ok fs.informed | .error e => .error e) (anchor incl) :
    following c disk' parent anchor incl = following c disk parent anchor incl := by
  have hs := sort_map_names hsort infoBlur.tree (fun t => ⟨Blur.tree_name _ _, Blur.tree_isDir _ _⟩)
  have hf : ∀ (q : Tree → Bool) (hq : ∀ t, q (infoBlur.tree t) = q t) (l : List Tree),
      (l.map infoBlur.tree).filter q = (l.filter q).map infoBlur.tree := by
    intro q hq l; rw [List.filter_map]; congr 1; exact List.filter_congr (fun t _ => hq t)
  have hn : ∀ l : List Tree, (l.map infoBlur.tree).map Tree.name = l.map Tree.name := by
    intro l; rw [List.map_map]; exact List.map_congr_left (fun t _ => Blur.tree_name _ t)
  have hlist : prepList c (disk'.list parent).1 = (prepList c (disk.list parent).1).map infoBlur.tree ∧
      (disk'.list parent).2 = (disk.list parent).2 := by
    simp only [Disk.list, hd']
    cases disk parent with
    | error e => exact ⟨rfl, rfl⟩
    | ok fs =>
      cases fs with
      | file n ie re => exact ⟨rfl, rfl⟩
      | dir n ie re kids =>
        refine ⟨?_, rfl⟩
        simp only [FS.informed, informedL_map, prepList_eq]
        rw [List.map_map, List.map_map]; exact List.map_congr_left (fun k _ => prep_informed_any c hsort hread k)
  have hr := hread infoBlur.tree (fun t => ⟨Blur.tree_name _ _, Blur.tree_isDir _ _⟩) (prepList c (disk.list parent).1) (disk.list parent).2
  simp only [following, hlist.1, hlist.2, hr]
  rcases c.read (prepList c (disk.list parent).1) (disk.list parent).2 with ⟨ents, _ | e⟩
  · simp only [fromAnchor]
    rw [hf (fun t => if incl then decide (anchor ≤ t.name) else decide (anchor < t.name)) (fun t => by simp only [Blur.tree_name]),
      hf (fun t => !t.isDir) (fun t => by simp only [Blur.tree_isDir]), hf (fun t => t.isDir) (fun t => by simp only [Blur.tree_isDir]), hs, hs]
    split
    · rw [← List.map_append, hn]
    · rw [← List.map_append, hn]
  · rfl

theorem legsOf_informed (c : Nav) (hsort : SortByNames c) (hread : ReadByNames c) (disk disk' : Disk)
    (hd' : ∀ p, disk' p = match disk p with | .ok fs => .ok fs.informed | .error e => .error e) (tree : Path) (rcur : List String) :
    ∀ incl, legsOf c disk' tree rcur incl = legsOf c disk tree rcur incl := by
  induction rcur with
  | nil => intro incl; rfl
  | cons child rparent ih =>
    intro incl
    simp only [legsOf, following_informed c hsort hread disk disk' _ (hd' _), ih]

theorem stat_informed (c : Nav) (hsort : SortByNames c) (hread : ReadByNames c) (o : Options κ) (hst : ∀ r, o.hooks.queryStatus.invoke r = r)
    (disk disk' : Disk) (p : Path)
    (hd' : disk' p = match disk p with | .ok fs => .ok fs.informed | .error e => .error e) :
    statOf c o disk' p = (statOf c o disk p).informed := by
  simp only [statOf, hst, hd']
  cases disk p with
  | error e => rfl
  | ok fs => simp only [RootStat.informed, prep_informed_any c hsort hread]

theorem sortEntries_informed (c : Nav) (hsort : SortByNames c) (l : List Entry) :
    c.sortEntries (l.map Entry.noInfoErr) = (c.sortEntries l).map Entry.noInfoErr := by
  have hs := sort_map_names hsort infoBlur.tree (fun t => ⟨Blur.tree_name _ _, Blur.tree_isDir _ _⟩) (l.map (fun e => Tree.node e none [] [] []))
  simp only [Nav.sortEntries, List.map_map] at hs ⊢
  have e1 : (infoBlur.tree ∘ fun e => Tree.node e none [] [] []) = ((fun e => Tree.node e none [] [] []) ∘ Entry.noInfoErr) := by
    funext e; simp [Blur.tree, Blur.treeL, infoBlur, Blur.re, Blur.entry]
  rw [← e1, hs, List.map_map]
  apply List.map_congr_left
  intro t _
  exact Blur.tree_entry infoBlur t

/-! ### The chain -/

def forgetWorld (w : World κ) : World κ :=
  { w with tape := w.tape.map Obs.noInfoErr, hits := w.hits.map Hit.noInfoErr, steps := w.steps.map (fun s => (s.1, s.2.noInfoErr)) }

theorem forget_publish (C : Client κ) (w : World κ) (n : Note) : (forgetWorld w).publish C n = forgetWorld (w.publish C n) := by
  unfold World.publish
  rw [show (forgetWorld w).muted = w.muted from rfl]
  split
  · rfl
  · simp [forgetWorld, Obs.noInfoErr]

/-- A link that does the same on a node without entry errors. -/
def ForgetfulLink (l : Link (World κ)) : Prop :=
  ∀ w p, l (forgetWorld w) p.noInfoErr = (forgetWorld (l w p).1, (l w p).2.1.noInfoErr, (l w p).2.2)

theorem forget_anchor (C : Client κ) (hh : ∀ k p, C.handler k p = C.handler k p.noInfoErr) : ForgetfulLink (anchorLink C) := by
  intro w p
  simp only [anchorLink, forgetWorld, ← hh w.client p]
  refine Prod.ext ?_ (Prod.ext ?_ ?_)
  · simp [Obs.noInfoErr, Hit.noInfoErr, Parcel.noInfoErr, Node.noInfoErr, NodeInfo.noInfoErr]
    rfl
  · rfl
  · rfl

theorem forget_hiber (C : Client κ) (h : HiberOpts) (hb : h.InfoBlind) : ForgetfulLink (hiberLink C h) := by
  intro w p
  have e1 : h.wake p.noInfoErr.node = h.wake p.node := by
    simp only [HiberOpts.wake]
    cases hw : h.wakeAt with
    | none => rfl
    | some f => exact (hb.wake f hw p.node).symm
  have e2 : h.sleep p.noInfoErr.node = h.sleep p.node := by
    simp only [HiberOpts.sleep]
    cases hw : h.sleepAt with
    | none => rfl
    | some f => exact (hb.sleep f hw p.node).symm
  have e3 : h.dies w.hib p.noInfoErr.node = h.dies w.hib p.node := by
    simp only [HiberOpts.dies]
    cases w.hib <;> first | rfl | exact (hb.wakeDies p.node).symm | exact (hb.sleepDies p.node).symm
  simp only [hiberLink, hiberNext, show (forgetWorld w).hib = w.hib from rfl, e1, e2, e3, forget_publish]
  split
  · rfl
  · cases w.hib <;> simp only
    all_goals first | rfl | (split <;> rfl)

theorem forget_nanny (S : Setup) (hsort : SortByNames S.nav) : ForgetfulLink (κ := κ) (nannyLink S) := by
  intro w p
  simp only [nannyLink, Parcel.noInfoErr, Node.noInfoErr]
  cases hc : p.node.cargo with
  | none => simp [hc]
  | some fd =>
    simp only [Option.map_some, sortEntries_informed S.nav hsort, List.length_map]
    refine Prod.ext ?_ (Prod.ext ?_ ?_) <;> simp [forgetWorld, hc]

theorem forget_child (S : Setup) (hsort : SortByNames S.nav) (f : Entry → Bool) (hf : ∀ e, f e = f e.noInfoErr) :
    ForgetfulLink (κ := κ) (childScheme S f) := by
  intro w p
  simp only [childScheme, Parcel.noInfoErr, Node.noInfoErr]
  cases hc : p.node.cargo with
  | none => simp [hc]
  | some fd =>
    have hfil : ∀ l : List Entry, (l.map Entry.noInfoErr).filter f = (l.filter f).map Entry.noInfoErr := by
      intro l; rw [List.filter_map]; congr 1; exact List.filter_congr (fun e _ => (hf e).symm)
    simp only [Option.map_some, sortEntries_informed S.nav hsort, hfil, List.length_map]
    refine Prod.ext ?_ (Prod.ext ?_ ?_) <;> simp [forgetWorld, hc]

theorem forget_primary (P : Primary) (hP : ∀ f, P = .node f → ∀ n, f n = f n.noInfoErr) : ForgetfulLink (κ := κ) (primaryScheme P) := by
  intro w p
  cases P with
  | node f =>
    simp only [primaryScheme]
    rw [show f p.noInfoErr.node = f p.node from (hP f rfl p.node).symm]
    cases f p.node <;> rfl
  | sample matching =>
    simp only [primaryScheme]
    rw [show p.noInfoErr.node.scope = p.node.scope from rfl]
    split
    · rfl
    · simp only [Parcel.noInfoErr, Node.noInfoErr]
      cases hc : p.node.cargo with
      | none => simp [hc]
      | some fd =>
        simp only [Option.map_some, List.length_map]
        refine Prod.ext ?_ (Prod.ext ?_ ?_)
        · simp [forgetWorld, NodeInfo.noInfoErr]; rfl
        · simp [hc, NodeInfo.noInfoErr]
        · simp [NodeInfo.noInfoErr]; rfl

theorem forget_filter (S : Setup) (hS : S.InfoBlind) (hsort : SortByNames S.nav) : ForgetfulLink (κ := κ) (filterLink S) := by
  intro w p
  simp only [filterLink]
  rw [show S.filter.dies p.noInfoErr.node = S.filter.dies p.node from (hS.dies p.node).symm]
  split
  · rfl
  simp only [schemeLink]
  cases hp : S.filter.primary with
  | none =>
    cases hc : S.filter.child with
    | none => rfl
    | some f => exact forget_child S hsort f (hS.child f hc) w p
  | some P =>
    have h1 := forget_primary (κ := κ) P (fun f hf n => hS.node f (hp.trans (congrArg some hf)) n) w p
    cases hc : S.filter.child with
    | none => exact h1
    | some f =>
      simp only [h1]
      rcases primaryScheme P w p with ⟨w1, p1, t⟩
      rcases t with ⟨_ | _, e⟩ | _
      · rfl
      · have h2 := forget_child S hsort f (hS.child f hc) w1 p1
        simp only [h2]
        rcases childScheme S f w1 p1 with ⟨w2, p2, t⟩
        cases t <;> rfl
      · rfl

theorem forget_fastward (target : Path) : ForgetfulLink (κ := κ) (fastwardLink target) := by
  intro w p
  have e : fastwardMatch target p.noInfoErr.node = fastwardMatch target p.node := by
    simp only [fastwardMatch, Parcel.noInfoErr, Node.noInfoErr, Node.parent, NodeInfo.noInfoErr]
    cases p.node.parents <;> rfl
  simp only [fastwardLink, e]
  rcases fastwardMatch target p.node with _ | _ | _ <;> rfl

theorem forget_linkOf (S : Setup) (hS : S.InfoBlind) (hsort : SortByNames S.nav) (C : Client κ)
    (hh : ∀ k p, C.handler k p = C.handler k p.noInfoErr) (target : Path) (r : Role) (l : Link (World κ)) (hl : linkOf S C target r = some l) :
    ForgetfulLink l := by
  cases r <;> simp only [linkOf, Option.some.injEq, reduceCtorEq] at hl <;> subst hl
  · exact forget_anchor C hh
  · exact forget_filter S hS hsort
  · exact forget_hiber C S.hiber hS.hiber
  · intro w p; rfl
  · exact forget_nanny S hsort
  · exact forget_fastward target

theorem forget_iterate (S : Setup) (hS : S.InfoBlind) (hsort : SortByNames S.nav) (C : Client κ)
    (hh : ∀ k p, C.handler k p = C.handler k p.noInfoErr) (target : Path) (rs : List Role) : ∀ w p,
    iterate (World.link S C target) rs (forgetWorld w) p.noInfoErr =
      (forgetWorld (iterate (World.link S C target) rs w p).1, (iterate (World.link S C target) rs w p).2.1.noInfoErr,
        (iterate (World.link S C target) rs w p).2.2) := by
  induction rs with
  | nil => intro w p; rfl
  | cons r rs ih =>
    intro w p
    simp only [iterate]
    rw [show World.link S C target (forgetWorld w) r = World.link S C target w r from rfl]
    cases hl : World.link S C target w r with
    | none => rfl
    | some l =>
      have hlk : linkOf S C target r = some l := by
        simp only [World.link] at hl
        split at hl
        · exact hl
        · cases hl
      simp only [forget_linkOf S hS hsort C hh target r l hlk w p]
      rcases l w p with ⟨w1, p1, t⟩
      simp only
      split
      · rw [ih w1 p1]
      · rfl

theorem forget_env (S : Setup) (hS : S.InfoBlind) (hsort : SortByNames S.nav) (C : Client κ)
    (hh : ∀ k p, C.handler k p = C.handler k p.noInfoErr) (hk : ∀ k n e, C.skip k n e = C.skip k n.noInfoErr e) (tree target : Path) :
    Forgets forgetWorld (S.env C tree target) where
  descend w p d := forget_publish C w _
  ascend w p d := forget_publish C w _
  invoke w n := by
    simp only [Setup.env, World.invoke]
    rw [show (forgetWorld w).guard = w.guard from rfl]
    cases hp : w.guard.positions with
    | none =>
      have := forget_anchor C hh w ⟨n, []⟩
      have e : (⟨n.noInfoErr, []⟩ : Parcel) = Parcel.noInfoErr ⟨n, []⟩ := rfl
      simp only [e, this]
      refine Prod.ext ?_ rfl
      simp [forgetWorld]
    | some ps =>
      have := forget_iterate S hS hsort C hh target ps.list.2 { w with guard := { w.guard with positions := some ps.list.1 } } ⟨n, []⟩
      have e : (⟨n.noInfoErr, []⟩ : Parcel) = Parcel.noInfoErr ⟨n, []⟩ := rfl
      have e2 : { forgetWorld w with guard := { w.guard with positions := some ps.list.1 } } =
        forgetWorld { w with guard := { w.guard with positions := some ps.list.1 } } := rfl
      simp only [e, e2, this]
      rcases iterate (World.link S C target) ps.list.2 { w with guard := { w.guard with positions := some ps.list.1 } } ⟨n, []⟩ with ⟨w1, p1, rep, ran⟩
      refine Prod.ext ?_ rfl
      simp [forgetWorld]
  ask w n r := by
    simp only [Setup.env, show (forgetWorld w).client = w.client from rfl, ← hk w.client n r]
    rfl
  rescue w i d := by
    simp only [Setup.env]
    rfl

end Traverse
