import Verif.Proofs.Rows
import Verif.Proofs.Prune
import Verif.Props.Replies
/-
The navigations of a spawn resume, as a list that does not depend on what the client does; and two runs of it compared: one whose
handler returns skip sentinels, one whose handler returns nil.
-/
namespace Traverse
variable {σ τ : Type}

/-- Where the navigations of a spawn resume start, in order, and how the resume ends if all of them return nil. -/
def legsOf (c : Nav) (disk : Disk) (tree : Path) : List String → Bool → List (Path × String) × Final × Bool
  | [], _ => ([], if tree = [] then (.done none, true) else (.panic, false))
  | child :: rparent, incl =>
    if (child :: rparent).reverse = tree then ([], .done none, true)
    else
      match following c disk rparent.reverse child incl with
      | .error e => ([], .done (some e), false)
      | .ok names =>
        (names.map (fun n => (rparent.reverse, n)) ++ (legsOf c disk tree rparent false).1, (legsOf c disk tree rparent false).2)

/-- One navigation after the other, until one does not return nil. -/
def goLegs (c : Nav) (env : Env σ) (fault : σ → Path → Err → σ × Option Err) (stat : Path → RootStat) :
    List (Path × String) → St σ → Final × St σ
  | [], s => (.done none, s)
  | l :: ls, s =>
    match top c env fault l.1 (l.1 ++ [l.2]) (stat (l.1 ++ [l.2])) s with
    | (.done none, s) => goLegs c env fault stat ls s
    | r => r

/-- What follows the legs. -/
def afterLegs (e : Final × Bool) : Final × St σ → Final × Bool × St σ
  | (.done none, s) => (e.1, e.2, s)
  | (f, s) => (f, false, s)

theorem seed_legs (c : Nav) (env : Env σ) (fault stat) (parent : Path) (names : List String) : ∀ s : St σ,
    seed c env fault stat parent names s = goLegs c env fault stat (names.map (fun n => (parent, n))) s := by
  induction names with
  | nil => intro s; rfl
  | cons n ns ih =>
    intro s
    simp only [seed, goLegs, List.map_cons]
    rcases top c env fault parent (parent ++ [n]) (stat (parent ++ [n])) s with ⟨(_ | e) | _, s1⟩
    · exact ih s1
    · rfl
    · rfl

theorem goLegs_append (c : Nav) (env : Env σ) (fault stat) (a b : List (Path × String)) : ∀ s : St σ,
    goLegs c env fault stat (a ++ b) s = match goLegs c env fault stat a s with
      | (.done none, s) => goLegs c env fault stat b s
      | r => r := by
  induction a with
  | nil => intro s; rfl
  | cons l ls ih =>
    intro s
    simp only [goLegs, List.cons_append]
    rcases top c env fault l.1 (l.1 ++ [l.2]) (stat (l.1 ++ [l.2])) s with ⟨(_ | e) | _, s1⟩
    · exact ih s1
    · rfl
    · rfl

theorem crown_legs (c : Nav) (env : Env σ) (fault stat) (disk : Disk) (tree : Path) (rcur : List String) : ∀ incl (s : St σ),
    crown c env fault stat disk tree rcur incl s =
      afterLegs (legsOf c disk tree rcur incl).2 (goLegs c env fault stat (legsOf c disk tree rcur incl).1 s) := by
  induction rcur with
  | nil =>
    intro incl s
    simp only [crown, legsOf, goLegs, afterLegs]
    split <;> rfl
  | cons child rparent ih =>
    intro incl s
    simp only [crown, legsOf]
    split
    · rfl
    · rcases following c disk rparent.reverse child incl with e | names
      · rfl
      · simp only [seed_legs, goLegs_append]
        rcases goLegs c env fault stat (names.map (fun n => (rparent.reverse, n))) s with ⟨(_ | e) | _, s1⟩
        · exact ih false s1
        · rfl
        · rfl

/-- Neither path lies below the other. -/
def Apart (x y : Path × String) : Prop := ¬ x.1 ++ [x.2] <+: y.1 ++ [y.2] ∧ ¬ y.1 ++ [y.2] <+: x.1 ++ [x.2]

theorem legsOf_apart {c : Nav} (hsort : SortPermutes c) {disk : Disk}
    (hnd : ∀ parent anchor incl names, following c disk parent anchor incl = .ok names → names.Nodup) (tree : Path) (rcur : List String) :
    ∀ incl, (legsOf c disk tree rcur incl).1.Pairwise Apart ∧
      ∀ l ∈ (legsOf c disk tree rcur incl).1, l.1 <+: rcur.reverse ∧ l.1 ≠ rcur.reverse ∧
        (incl = false → ¬ l.1 ++ [l.2] <+: rcur.reverse) := by
  induction rcur with
  | nil => intro incl; exact ⟨.nil, by simp [legsOf]⟩
  | cons child rparent ih =>
    intro incl
    simp only [legsOf]
    split
    · exact ⟨.nil, by simp⟩
    · split
      · exact ⟨.nil, by simp⟩
      · rename_i names hnames
        obtain ⟨i1, i2⟩ := ih false
        have hrev : (child :: rparent).reverse = rparent.reverse ++ [child] := by simp
        rw [hrev]
        refine ⟨List.pairwise_append.2 ⟨?_, i1, ?_⟩, ?_⟩
        · rw [List.pairwise_map]
          refine (hnd _ _ _ _ hnames).imp (fun {m n} hmn => ⟨fun h => hmn ?_, fun h => hmn ?_⟩)
          · simpa using h.eq_of_length (by simp)
          · simpa using (h.eq_of_length (by simp)).symm
        · intro x hx y hy
          obtain ⟨n, -, rfl⟩ := List.mem_map.1 hx
          obtain ⟨j1, j2, j3⟩ := i2 y hy
          have hlt : y.1.length < rparent.reverse.length :=
            Nat.lt_of_le_of_ne j1.length_le (fun e => j2 (j1.eq_of_length e))
          refine ⟨fun h => ?_, fun h => ?_⟩
          · have := h.length_le
            simp only [List.length_append, List.length_singleton] at this
            omega
          · exact j3 rfl (prefix_of_snoc h (by simp only [List.length_append, List.length_singleton]; omega))
        · intro l hl
          rcases List.mem_append.1 hl with hl | hl
          · obtain ⟨n, hn, rfl⟩ := List.mem_map.1 hl
            refine ⟨List.prefix_append _ _, fun h => ?_, fun hi h => ?_⟩
            · have := congrArg List.length h
              simp at this
            · subst hi
              have : n = child := by simpa using h.eq_of_length (by simp)
              subst this
              exact following_not_anchor hsort hnames hn
          · obtain ⟨j1, j2, j3⟩ := i2 l hl
            have hlt : l.1.length < rparent.reverse.length :=
              Nat.lt_of_le_of_ne j1.length_le (fun e => j2 (j1.eq_of_length e))
            refine ⟨j1.trans (List.prefix_append _ _), fun h => ?_, fun _ h => ?_⟩
            · have := congrArg List.length h
              simp only [List.length_append, List.length_singleton] at this
              omega
            · exact j3 rfl (prefix_of_snoc h (by simp only [List.length_append, List.length_singleton]; omega))

/-! ### Two runs compared -/

/-- What the first item of a navigation answers. -/
theorem Run.first {sub d0 it rest evs f} (h : Run sub d0 (it :: rest) evs f) (hsub : sub ≠ .files) (hd : it.node.depth = d0)
    (hrest : ∀ j ∈ rest, d0 < j.node.depth) :
    (∃ e, evs = [.invoke it.node (.ok (some e))] ∧ f = .done (some e)) ∨
    (∀ n e, Ev.invoke n (.ok (some e)) ∈ evs → d0 < n.depth) := by
  cases h with
  | @travel _ _ evs es f hs hr =>
    right
    intro n e hm
    rcases List.mem_append.1 hm with hm | hm
    · generalize ha : Act.travel = a at hs
      cases hs with
      | panicked => cases ha
      | file _ h => exact absurd h hsub
      | failed => cases ha
      | asked sk e' h => simp at hm
      | askedOnly _ _ h => exact absurd h hsub
    · obtain ⟨j, hj, rfl⟩ := hr.invoke_mem hm
      exact hrest j hj
  | @root _ _ evs o hs hd =>
    generalize ha : Act.done o = a at hs
    cases hs with
    | panicked => right; simp
    | file _ h => exact absurd h hsub
    | failed e h => cases ha; exact Or.inl ⟨e, rfl, rfl⟩
    | asked sk e' h => right; simp
    | askedOnly _ _ h => exact absurd h hsub
  | next _ hd' => omega
  | leave _ hd' => omega
  | leaveTop _ hd' => omega
  | stop _ hd' => omega
  | crash _ hd' => omega

/-- What a run with skips (`v`, `f`) has to do with a run without (`v0`, `f0`): it is pruned below what was refused; if the node a
navigation started from was refused, that is the end. -/
def PrunedTo (v : List Ev) (f : Final) (v0 : List Ev) (f0 : Final) : Prop :=
  ((∀ n e, (n, .ok (some e)) ∈ calls v → n.parent ≠ none) ∧ invoked v = (invoked v0).filter (outside (refused v)) ∧ f = f0) ∨
  ∃ before n e, calls v = before ++ [(n, .ok (some e))] ∧ n.parent = none ∧ (∀ k e', (k, .ok (some e')) ∈ before → k.parent ≠ none) ∧
    f = .done (some e) ∧ invoked v <+: (invoked v0).filter (outside (refused v))

theorem refused_invoked {v : List Ev} {p : Path} (h : p ∈ refused v) : ∃ n ∈ invoked v, n.path = p := by
  simp only [refused, List.mem_filterMap] at h
  obtain ⟨ev, hev, h⟩ := h
  cases ev with
  | invoke n r =>
    rcases r with (_ | e) | _ <;> simp at h
    exact ⟨n, List.mem_map.2 ⟨_, mem_calls.2 hev, rfl⟩, h⟩
  | _ => simp at h

theorem items_first (c : Nav) (t : Tree) (pp : Path) (d : Int) (hd : tooDeep c d = false) :
    ∃ it rest, items c [] pp d t = it :: rest ∧ it.node.depth = d ∧ (∀ j ∈ rest, d < j.node.depth) := by
  cases t with
  | node e re fs ds kids =>
    simp only [items, hd, Bool.false_eq_true, if_false]
    refine ⟨_, _, rfl, by simp [mkNode, periDepth], ?_⟩
    intro j hj
    have key : ∀ ks : List Tree, ∀ (ps : List NodeInfo) (pp' : Path), ∀ j ∈ itemsList c ps pp' (d + 1) ks, d < j.node.depth := by
      intro ks
      induction ks with
      | nil => intro n pp' j hj; simp [itemsList] at hj
      | cons k ks ihk =>
        intro n pp' j hj
        rw [itemsList] at hj
        rcases List.mem_append.1 hj with hj | hj
        · have := items_depth c k n pp' (d + 1) j hj
          omega
        · exact ihk n pp' j hj
    exact key kids _ _ j hj

theorem items_orphan (c : Nav) (t : Tree) (pp : Path) (d : Int) : ∀ it ∈ items c [] pp d t, (it.node.parent = none ↔ it.node.depth = d) := by
  intro it hit
  obtain ⟨u, ps', -, q2, q3, q4, q5⟩ := items_at c t [] pp d it hit
  have hp : it.node.parents = ps' := by rw [q2]; rfl
  rw [Node.parent, hp]
  constructor
  · intro h
    rcases Int.lt_or_eq_of_le q3 with h' | h'
    · have := q5 h'
      cases ps' with
      | nil => exact absurd rfl this
      | cons a as => simp at h
    · exact h'.symm
  · intro h; rw [q4 h]; rfl

/-- One navigation. -/
theorem top_pruned {c : Nav} {env : Env σ} {env0 : Env τ} {fault fault0} {stat : Path → RootStat} (hsub : c.sub ≠ .files)
    (hstat : ∀ p t, stat p = .found t → t.Distinct ∧ p.getLast? = some t.name)
    (hcb : OnlySkips env) (hskip : SkipNone env) (hnil0 : AlwaysNil env0) (hskip0 : DefaultSkip env0)
    (hfault : ∀ k k' p e, (fault k p e).2 = (fault0 k' p e).2) (parent : Path) (name : String) (s : St σ) (s0 : St τ)
    (hd : s.depth = s0.depth) (hs : ∀ ev ∈ s.log, EvFrom env ev) (hs0 : ∀ ev ∈ s0.log, EvFrom env0 ev) :
    let r := top c env fault parent (parent ++ [name]) (stat (parent ++ [name])) s
    let r0 := top c env0 fault0 parent (parent ++ [name]) (stat (parent ++ [name])) s0
    ∃ v v0, r.2.log = s.log ++ v ∧ r0.2.log = s0.log ++ v0 ∧ r.2.depth = s.depth ∧ r0.2.depth = s0.depth ∧
      (∀ ev ∈ r.2.log, EvFrom env ev) ∧ (∀ ev ∈ r0.2.log, EvFrom env0 ev) ∧
      (∀ n ∈ invoked v, parent ++ [name] <+: n.path) ∧ (∀ n ∈ invoked v0, parent ++ [name] <+: n.path) ∧
      PrunedTo v r.1 v0 r0.1 := by
  intro r r0
  rcases hst : stat (parent ++ [name]) with e | t
  · refine ⟨[], [], by simp [r, top, hst], by simp [r0, top, hst], by simp [r, top, hst], by simp [r0, top, hst], by simpa [r, top, hst] using hs,
      by simpa [r0, top, hst] using hs0, by simp [invoked, calls], by simp [invoked, calls], Or.inl ⟨by simp [calls], by simp [invoked, calls], ?_⟩⟩
    simp [r, r0, top, hst, hfault s.ext s0.ext]
  · obtain ⟨hdist, hname⟩ := hstat _ _ hst
    have hname : name = t.name := by simpa using hname
    subst hname
    have er : r = ((traverse c env [] parent t s).1.final, (traverse c env [] parent t s).2) := by simp only [r, top, hst]
    have er0 : r0 = ((traverse c env0 [] parent t s0).1.final, (traverse c env0 [] parent t s0).2) := by simp only [r0, top, hst]
    have hfrom : ∀ ev ∈ r.2.log, EvFrom env ev := by rw [er]; exact log_from c env t [] parent s hs
    have hfrom0 : ∀ ev ∈ r0.2.log, EvFrom env0 ev := by rw [er0]; exact log_from c env0 t [] parent s0 hs0
    obtain ⟨v, h1, h2, h3⟩ := traverse_leg c env parent t s
    obtain ⟨v0, k1, k2, k3⟩ := traverse_leg c env0 parent t s0
    have below : ∀ n ∈ (items c [] parent s.depth t).map (·.node), parent ++ [t.name] <+: n.path := by
      intro n hn
      obtain ⟨it, hit, rfl⟩ := List.mem_map.1 hn
      exact (items_path c t [] parent s.depth it hit).1
    have hv : r.2.log = s.log ++ v := by rw [er]; exact h1
    have hv0 : r0.2.log = s0.log ++ v0 := by rw [er0]; exact k1
    refine ⟨v, v0, hv, hv0, by rw [er]; exact h2, by rw [er0]; exact k2, hfrom, hfrom0, fun n hn => below n (h3.list.subset hn),
      fun n hn => below n (by rw [hd]; exact k3.list.subset hn), ?_⟩
    cases htd : tooDeep c s.depth with
    | true =>
      have e1 : v = [] := by
        cases t
        rw [traverse] at h1
        simpa [htd] using h1
      have e2 : v0 = [] := by
        rw [hd] at htd
        cases t
        rw [traverse] at k1
        simpa [htd] using k1
      subst e1 e2
      refine Or.inl ⟨by simp [calls], by simp [invoked, calls], ?_⟩
      rw [er, er0]
      have htd' := htd
      rw [hd] at htd'
      cases t
      simp only [traverse, htd, htd', if_true]
    | false =>
      obtain ⟨vs, -, g2, g3⟩ := top_run c env parent t s htd
      have hvs : acts v = vs := by
        rw [h1, acts_append] at g2
        exact List.append_cancel_left g2
      obtain ⟨vs0, -, l2, l3⟩ := top_run c env0 parent t s0 (by rw [← hd]; exact htd)
      have hvs0 : acts v0 = vs0 := by
        rw [k1, acts_append] at l2
        exact List.append_cancel_left l2
      rw [← hvs] at g3
      rw [← hvs0, ← hd] at l3
      have hpre := items_preOrder c t hdist [] parent s.depth
      have hmin := items_depth c t [] parent s.depth
      have hroot : ∀ it ∈ items c [] parent s.depth t, it.node.depth = s.depth → ∀ it' ∈ items c [] parent s.depth t,
          it.node.path <+: it'.node.path := by
        intro it hit hdd it' hit'
        obtain ⟨p1, p2⟩ := items_path c t [] parent s.depth it hit
        obtain ⟨q1, -⟩ := items_path c t [] parent s.depth it' hit'
        have := p1.eq_of_length (by simp; omega)
        rw [← this]; exact q1
      -- the run without skips shows everything
      obtain ⟨m1, m2⟩ := l3.accepting (by
          intro n q hm
          obtain ⟨y, hy⟩ := hfrom0 (.invoke n q) (by rw [hv0]; exact List.mem_append_right _ ((mem_acts_iff rfl).1 hm))
          rw [← hy]; exact hnil0 y n) (by
          intro n re sk e hm
          obtain ⟨y, hy⟩ := hfrom0 (.ask n re sk e) (by rw [hv0]; exact List.mem_append_right _ ((mem_acts_iff rfl).1 hm))
          have := hskip0 y n re
          rw [hy] at this
          simpa using this) (fun h => absurd h hsub) (fun h => absurd h hsub) hpre hmin hroot
      rw [List.filter_eq_self.2 (by simp [hsub])] at m1
      rw [invoked_acts] at m1
      have hsn : ∀ n re sk e, Ev.ask n re sk e ∈ acts v → sk = .none := by
        intro n re sk e hm
        obtain ⟨y, hy⟩ := hfrom (.ask n re sk e) (by rw [hv]; exact List.mem_append_right _ ((mem_acts_iff rfl).1 hm))
        have := hskip y n re
        rw [hy] at this; exact this
      obtain ⟨-, p2⟩ := g3.pruned hsub hpre (fun n re sk e hm => Or.inr (hsn n re sk e hm)) hroot
      obtain ⟨p3, p4⟩ := p2 (by
        intro n q hm
        obtain ⟨y, hy⟩ := hfrom (.invoke n q) (by rw [hv]; exact List.mem_append_right _ ((mem_acts_iff rfl).1 hm))
        rcases hcb y n with h | ⟨e, h, hse⟩
        · rw [← hy, h]; simp
        · rw [← hy, h]
          refine ⟨by simp, ?_⟩
          rintro e' he' ⟨g1, g2⟩
          simp at he'; subst he'
          simp [Err.isSentinel, g1, g2] at hse)
      rw [declined_of_skipNone hsub hsn, invoked_acts, ← m1, refused_acts] at p3
      have hf0 : r0.1 = .done none := by rw [er0]; exact m2
      obtain ⟨it, rest, f1, f2, f3⟩ := items_first c t parent s.depth htd
      have g3' := g3
      rw [f1] at g3'
      rcases g3'.first hsub f2 f3 with ⟨e, z1, z2⟩ | z
      · refine Or.inr ⟨[], it.node, e, ?_, ?_, by simp, by rw [er]; exact z2, by rw [p3]; exact List.prefix_refl _⟩
        · rw [← calls_acts, z1]; rfl
        · exact (items_orphan c t parent s.depth it (by rw [f1]; simp)).2 f2
      · refine Or.inl ⟨?_, p3, ?_⟩
        · intro n e hm hpar
          have hm' : Ev.invoke n (.ok (some e)) ∈ acts v := (mem_acts_iff rfl).2 (mem_calls.1 hm)
          obtain ⟨j, hj, rfl⟩ := g3.invoke_mem hm'
          have := z _ e hm'
          have h5 := (items_orphan c t parent s.depth j hj).1 hpar
          omega
        · rw [hf0, er]
          rcases p4 with h | ⟨n, e, hm, hdd, -⟩
          · exact h
          · have := z n e hm
            omega

theorem calls_append' (a b : List Ev) : calls (a ++ b) = calls a ++ calls b := by simp [calls, List.filterMap_append]

/-- Two navigations apart from each other. -/
theorem outside_apart {ps : List Path} {p q : Path} (hps : ∀ x ∈ ps, p <+: x) (hpq : ¬ p <+: q) (hqp : ¬ q <+: p) {n : Node} (hn : q <+: n.path) :
    outside ps n = true := by
  simp only [outside, decide_eq_true_eq]
  intro x hx ha
  have h1 := (hps x hx).trans ha.1
  rcases Nat.le_total p.length q.length with h | h
  · exact hpq (List.prefix_of_prefix_length_le h1 hn h)
  · exact hqp (List.prefix_of_prefix_length_le hn h1 h)

/-- All of them. -/
theorem legs_pruned {c : Nav} {env : Env σ} {env0 : Env τ} {fault fault0} {stat : Path → RootStat} (hsub : c.sub ≠ .files)
    (hstat : ∀ p t, stat p = .found t → t.Distinct ∧ p.getLast? = some t.name)
    (hcb : OnlySkips env) (hskip : SkipNone env) (hnil0 : AlwaysNil env0) (hskip0 : DefaultSkip env0)
    (hfault : ∀ k k' p e, (fault k p e).2 = (fault0 k' p e).2) (legs : List (Path × String)) (hl : legs.Pairwise Apart) :
    ∀ (s : St σ) (s0 : St τ), s.depth = s0.depth → (∀ ev ∈ s.log, EvFrom env ev) → (∀ ev ∈ s0.log, EvFrom env0 ev) →
    ∃ v v0, (goLegs c env fault stat legs s).2.log = s.log ++ v ∧ (goLegs c env0 fault0 stat legs s0).2.log = s0.log ++ v0 ∧
      (∀ n ∈ invoked v, ∃ l ∈ legs, l.1 ++ [l.2] <+: n.path) ∧ (∀ n ∈ invoked v0, ∃ l ∈ legs, l.1 ++ [l.2] <+: n.path) ∧
      PrunedTo v (goLegs c env fault stat legs s).1 v0 (goLegs c env0 fault0 stat legs s0).1 := by
  induction legs with
  | nil =>
    intro s s0 _ _ _
    exact ⟨[], [], by simp [goLegs], by simp [goLegs], by simp [invoked, calls], by simp [invoked, calls],
      Or.inl ⟨by simp [calls], by simp [invoked, calls], rfl⟩⟩
  | cons l ls ih =>
    intro s s0 hd hs hs0
    rw [List.pairwise_cons] at hl
    obtain ⟨v, v0, h1, h2, h3, h4, h5, h6, h7, h8, h9⟩ := top_pruned (parent := l.1) (name := l.2) hsub hstat hcb hskip hnil0 hskip0 hfault s s0 hd hs hs0
    simp only [goLegs]
    rcases ht : top c env fault l.1 (l.1 ++ [l.2]) (stat (l.1 ++ [l.2])) s with ⟨f, s1⟩
    rcases ht0 : top c env0 fault0 l.1 (l.1 ++ [l.2]) (stat (l.1 ++ [l.2])) s0 with ⟨f0, t1⟩
    rw [ht] at h1 h3 h5 h9
    rw [ht0] at h2 h4 h6 h9
    simp only at h1 h2 h3 h4 h5 h6 h9
    have hps : ∀ x ∈ refused v, l.1 ++ [l.2] <+: x := by
      intro x hx
      obtain ⟨n, hn, rfl⟩ := refused_invoked hx
      exact h7 n hn
    obtain ⟨w, w0, g1, g2, g3, g4, g5⟩ := ih hl.2 s1 t1 (by rw [h3, h4, hd]) h5 h6
    have out1 : ∀ n ∈ invoked w0, outside (refused v) n = true := by
      intro n hn
      obtain ⟨l', hl', hn'⟩ := g4 n hn
      exact outside_apart hps (hl.1 l' hl').1 (hl.1 l' hl').2 hn'
    have out2 : ∀ n ∈ invoked v0, outside (refused w) n = true := by
      intro n hn
      simp only [outside, decide_eq_true_eq]
      intro x hx
      obtain ⟨m, hm, rfl⟩ := refused_invoked hx
      obtain ⟨l', hl', hn'⟩ := g3 m hm
      have := outside_apart (ps := [m.path]) (p := l'.1 ++ [l'.2]) (q := l.1 ++ [l.2]) (by simpa using hn') (hl.1 l' hl').2 (hl.1 l' hl').1 (h8 n hn)
      simpa [outside] using this
    have split1 : ((invoked v0 ++ invoked w0).filter (outside (refused v ++ refused w))) =
        (invoked v0).filter (outside (refused v)) ++ (invoked w0).filter (outside (refused w)) := by
      rw [List.filter_append]
      congr 1
      · refine List.filter_congr (fun n hn => ?_)
        rw [outside_append, out2 n hn, Bool.and_true]
      · refine List.filter_congr (fun n hn => ?_)
        rw [outside_append, out1 n hn, Bool.true_and]
    have mem1 : ∀ {u w : List Ev}, (∀ n ∈ invoked u, l.1 ++ [l.2] <+: n.path) → (∀ n ∈ invoked w, ∃ l ∈ ls, l.1 ++ [l.2] <+: n.path) →
        ∀ n ∈ invoked (u ++ w), ∃ l' ∈ l :: ls, l'.1 ++ [l'.2] <+: n.path := by
      intro u w hu hw n hn
      rw [invoked_append'] at hn
      rcases List.mem_append.1 hn with hn | hn
      · exact ⟨l, by simp, hu n hn⟩
      · obtain ⟨l', hl', h⟩ := hw n hn
        exact ⟨l', by simp [hl'], h⟩
    have mem0 : ∀ {u : List Ev}, (∀ n ∈ invoked u, l.1 ++ [l.2] <+: n.path) → ∀ n ∈ invoked u, ∃ l' ∈ l :: ls, l'.1 ++ [l'.2] <+: n.path :=
      fun hu n hn => ⟨l, by simp, hu n hn⟩
    rcases h9 with ⟨p1, p2, rfl⟩ | ⟨before, n, e, q1, q2, q3, rfl, q5⟩
    · rcases f with (_ | e) | _
      · refine ⟨v ++ w, v0 ++ w0, ?_, ?_, mem1 h7 g3, mem1 h8 g4, ?_⟩
        · rw [g1, h1, List.append_assoc]
        · rw [g2, h2, List.append_assoc]
        · rcases g5 with ⟨a1, a2, a3⟩ | ⟨before, n, e, b1, b2, b3, b4, b5⟩
          · refine Or.inl ⟨?_, ?_, a3⟩
            · intro n e hm
              rw [calls_append'] at hm
              rcases List.mem_append.1 hm with hm | hm
              · exact p1 n e hm
              · exact a1 n e hm
            · rw [invoked_append', invoked_append', refused_append, split1, ← p2, ← a2]
          · refine Or.inr ⟨calls v ++ before, n, e, by rw [calls_append', b1, List.append_assoc], b2, ?_, b4, ?_⟩
            · intro k e' hm
              rcases List.mem_append.1 hm with hm | hm
              · exact p1 k e' hm
              · exact b3 k e' hm
            · rw [invoked_append', invoked_append', refused_append, split1, ← p2]
              exact (List.prefix_append_right_inj _).2 b5
      · exact ⟨v, v0, h1, h2, mem0 h7, mem0 h8, Or.inl ⟨p1, p2, rfl⟩⟩
      · exact ⟨v, v0, h1, h2, mem0 h7, mem0 h8, Or.inl ⟨p1, p2, rfl⟩⟩
    · have more : ∀ w1 : List Ev, invoked v <+: (invoked (v0 ++ w1)).filter (outside (refused v)) := by
        intro w1
        rw [invoked_append', List.filter_append]
        exact q5.trans (List.prefix_append _ _)
      rcases f0 with (_ | e0) | _
      · refine ⟨v, v0 ++ w0, h1, ?_, mem0 h7, mem1 h8 g4, Or.inr ⟨before, n, e, q1, q2, q3, rfl, more w0⟩⟩
        rw [g2, h2, List.append_assoc]
      · exact ⟨v, v0, h1, h2, mem0 h7, mem0 h8, Or.inr ⟨before, n, e, q1, q2, q3, rfl, q5⟩⟩
      · exact ⟨v, v0, h1, h2, mem0 h7, mem0 h8, Or.inr ⟨before, n, e, q1, q2, q3, rfl, q5⟩⟩

end Traverse
