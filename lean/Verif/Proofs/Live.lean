import Verif.Spec.Live
import Verif.Proofs.Walk
import Verif.Proofs.RunLemmas
import Verif.Proofs.Nav2
import Verif.Proofs.Brackets
/-
A traversal of a file system that changes is the traversal of the still tree made of what it saw.
-/
namespace Traverse
variable {σ : Type}

/-- What the loop of travel makes of an entry's answer: it ends with an answer of its own, or goes on (`none`). -/
def onward : Out → Option Out
  | .panic => some .panic
  | .ret false none => none
  | .ret false (some e) => if e.isSkipDir then some (.ret false (some e)) else some (.ret true (some e))
  | .ret true none => none
  | .ret true (some e) => if e.isSkipDir then none else if e.isSkipAll then none else some (.ret true (some e))

theorem travelLoop_onward (c : Nav) (env : Env σ) (ps pp t ts) (s : St σ) :
    travelLoop c env ps pp (t :: ts) s =
      match onward (traverse c env ps pp t s).1 with
      | some o => (o, (traverse c env ps pp t s).2)
      | none => travelLoop c env ps pp ts (traverse c env ps pp t s).2 := by
  rw [travelLoop]
  rcases traverse c env ps pp t s with ⟨o, s1⟩
  rcases o with ⟨p, x⟩ | _
  · cases p <;> cases x <;> simp only [onward] <;> repeat' split
    all_goals simp_all
  · rfl

theorem travelLive_onward (L : Look σ) (pp f e es) (s : St σ) :
    travelLive L pp f (e :: es) s =
      match f { e with infoErr := L.info s.ext (pp ++ [e.name]) } s with
      | none => none
      | some (o, s1, g) =>
        match onward o with
        | some o' => some (o', s1, g)
        | none => (travelLive L pp f es s1).map fun r => (r.1, r.2.1, g ++ r.2.2) := by
  rw [travelLive]
  rcases f { e with infoErr := L.info s.ext (pp ++ [e.name]) } s with _ | ⟨o, s1, g⟩
  · rfl
  rcases o with ⟨p, x⟩ | _
  · cases p <;> cases x <;> simp only [onward] <;> repeat' split
    all_goals simp_all
  · rfl

/-- One entry of the loop: the loop ends there, or goes on. -/
theorem travelLive_cons {L : Look σ} {pp f e es} {s : St σ} {o s' g} (h : travelLive L pp f (e :: es) s = some (o, s', g)) :
    ∃ o1 s1 g1, f { e with infoErr := L.info s.ext (pp ++ [e.name]) } s = some (o1, s1, g1) ∧
      ((onward o1 = some o ∧ s' = s1 ∧ g = g1) ∨
       (onward o1 = none ∧ ∃ g2, travelLive L pp f es s1 = some (o, s', g2) ∧ g = g1 ++ g2)) := by
  rw [travelLive_onward] at h
  rcases hf : f { e with infoErr := L.info s.ext (pp ++ [e.name]) } s with _ | ⟨o1, s1, g1⟩
  · rw [hf] at h; cases h
  rw [hf] at h
  refine ⟨o1, s1, g1, rfl, ?_⟩
  simp only at h
  rcases ho : onward o1 with _ | o'
  · rw [ho] at h
    simp only [Option.map_eq_some_iff] at h
    obtain ⟨⟨o2, s2, g2⟩, h1, h2⟩ := h
    cases h2
    exact .inr ⟨rfl, g2, h1, rfl⟩
  · rw [ho] at h
    cases h
    exact .inl ⟨rfl, rfl, rfl⟩

/-- One node: too deep; answered by itself; or travelled. -/
theorem traverseLive_succ {c : Nav} {env : Env σ} {L : Look σ} {n ps pp e} {s : St σ} {o s' g}
    (h : traverseLive c env L (n + 1) ps pp e s = some (o, s', g)) :
    (tooDeep c s.depth = true ∧ o = .ret true none ∧ s' = s ∧ g = []) ∨
    (tooDeep c s.depth = false ∧
      let path := pp ++ [e.name]
      let s1 := s.doDescend env path e.isDir
      let t := lay c L e path s1.ext
      let nd := mkNode c ps path t s1.depth
      ((∃ s2, enter c env nd (readErrOf c t) s1 = (.done o, s2) ∧ s' = s2.doAscend env path e.isDir ∧ g = [⟨ps, path, e, s, s1, t⟩]) ∨
       (∃ s2 o3 s3 g3, enter c env nd (readErrOf c t) s1 = (.travel, s2) ∧
          travelLive L path (traverseLive c env L n (nd.toNodeInfo :: ps) path) (t.kids.map Tree.entry) s2 = some (o3, s3, g3) ∧
          o = (recoverIn env nd.toNodeInfo (o3, s3)).1 ∧ s' = (recoverIn env nd.toNodeInfo (o3, s3)).2.doAscend env path e.isDir ∧
          g = ⟨ps, path, e, s, s1, t⟩ :: g3))) := by
  rw [traverseLive] at h
  simp only at h
  cases htd : tooDeep c s.depth with
  | true => rw [htd, if_pos rfl] at h; cases h; exact .inl ⟨rfl, rfl, rfl, rfl⟩
  | false =>
    rw [htd, if_neg (by simp)] at h
    refine .inr ⟨rfl, ?_⟩
    simp only
    split at h
    · next o1 s2 hE => cases h; exact .inl ⟨s2, hE, rfl, rfl⟩
    · next s2 hE =>
      split at h
      · cases h
      · next o3 s3 g3 hT => cases h; exact .inr ⟨s2, o3, s3, g3, hE, hT, rfl, rfl, rfl⟩

theorem lay_entry (c : Nav) (L : Look σ) (e path x) : (lay c L e path x).entry = e := by
  unfold lay; split
  · exact arrange_entry ..
  · rfl

theorem Tree.eta (t : Tree) : t = .node t.entry t.readErr t.files t.dirs t.kids := by cases t; rfl

/-- The same node, whatever is inside its entries. -/
theorem mkNode_kids (c ps path) (t : Tree) (kids d) : mkNode c ps path (.node t.entry t.readErr t.files t.dirs kids) d = mkNode c ps path t d := by
  cases t; rfl

theorem travel_frozen {c : Nav} {env : Env σ} {L : Look σ} {ps pp} {f : Entry → St σ → Journey σ}
    (hf : ∀ e s o s' g, f e s = some (o, s', g) → ∃ t, t.entry = e ∧ traverse c env ps pp t s = (o, s') ∧ Frozen c L t) (es : List Entry) :
    ∀ s o s' g, travelLive L pp f es s = some (o, s', g) →
      ∃ ts : List Tree, ts.map (fun k => k.entry.tag) = es.map Entry.tag ∧ travelLoop c env ps pp ts s = (o, s') ∧ ∀ t ∈ ts, Frozen c L t := by
  induction es with
  | nil =>
    intro s o s' g h
    cases h
    exact ⟨[], rfl, rfl, by simp⟩
  | cons e es ih =>
    intro s o s' g h
    obtain ⟨o1, s1, g1, h1, h2⟩ := travelLive_cons h
    obtain ⟨t, ht, htr, hfr⟩ := hf _ _ _ _ _ h1
    have htag : t.entry.tag = e.tag := by rw [ht]; rfl
    rcases h2 with ⟨ho, rfl, rfl⟩ | ⟨ho, g2, h2, rfl⟩
    · refine ⟨t :: es.map Tree.stub, ?_, ?_, ?_⟩
      · simp only [List.map_cons, htag, List.map_map, List.cons.injEq, true_and]
        rfl
      · rw [travelLoop_onward, htr]; simp only [ho]
      · intro k hk
        rcases List.mem_cons.1 hk with rfl | hk
        · exact hfr
        · obtain ⟨e', -, rfl⟩ := List.mem_map.1 hk
          exact .stub e'
    · obtain ⟨ts, h3, h4, h5⟩ := ih _ _ _ _ h2
      refine ⟨t :: ts, by simp only [List.map_cons, htag, h3], ?_, ?_⟩
      · rw [travelLoop_onward, htr]; simp only [ho, h4]
      · intro k hk
        rcases List.mem_cons.1 hk with rfl | hk
        · exact hfr
        · exact h5 k hk

/-- **Freezing.** What a traversal does on a changing file system it does on a still tree made of what was seen. -/
theorem traverse_frozen (c : Nav) (env : Env σ) (L : Look σ) (n : Nat) : ∀ ps pp e s o s' g,
    traverseLive c env L n ps pp e s = some (o, s', g) → ∃ t, t.entry = e ∧ traverse c env ps pp t s = (o, s') ∧ Frozen c L t := by
  induction n with
  | zero => intro ps pp e s o s' g h; cases h
  | succ n ih =>
    intro ps pp e s o s' g h
    have hlay : ∀ x, (lay c L e (pp ++ [e.name]) x) = .node e (lay c L e (pp ++ [e.name]) x).readErr (lay c L e (pp ++ [e.name]) x).files
        (lay c L e (pp ++ [e.name]) x).dirs (lay c L e (pp ++ [e.name]) x).kids := by
      intro x
      conv => lhs; rw [Tree.eta (lay c L e (pp ++ [e.name]) x), lay_entry]
    have hnode : ∀ kids x d, mkNode c ps (pp ++ [e.name]) (.node e (lay c L e (pp ++ [e.name]) x).readErr (lay c L e (pp ++ [e.name]) x).files
        (lay c L e (pp ++ [e.name]) x).dirs kids) d = mkNode c ps (pp ++ [e.name]) (lay c L e (pp ++ [e.name]) x) d := by
      intro kids x d
      have := mkNode_kids c ps (pp ++ [e.name]) (lay c L e (pp ++ [e.name]) x) kids d
      rwa [lay_entry] at this
    have hread : ∀ kids x, readErrOf c (.node e (lay c L e (pp ++ [e.name]) x).readErr (lay c L e (pp ++ [e.name]) x).files
        (lay c L e (pp ++ [e.name]) x).dirs kids) = readErrOf c (lay c L e (pp ++ [e.name]) x) := by
      intro kids x
      have : (lay c L e (pp ++ [e.name]) x).isDir = e.isDir := by rw [Tree.isDir, lay_entry]
      unfold readErrOf
      rw [this]
      rfl
    have hfrozen : ∀ x kids, kids.map (fun k => k.entry.tag) = (lay c L e (pp ++ [e.name]) x).kids.map (fun k => k.entry.tag) →
        (∀ k ∈ kids, Frozen c L k) → Frozen c L (.node e (lay c L e (pp ++ [e.name]) x).readErr (lay c L e (pp ++ [e.name]) x).files
          (lay c L e (pp ++ [e.name]) x).dirs kids) := by
      intro x kids h1 h2
      by_cases hd : e.isDir = true
      · exact .dir e _ x kids hd h1 h2
      · have hd : e.isDir = false := by simpa using hd
        have hl : lay c L e (pp ++ [e.name]) x = .node e (L.list x (pp ++ [e.name])).2 [] [] [] := by unfold lay; rw [hd]; rfl
        rw [hl] at h1 ⊢
        simp only [Tree.kids_node, List.map_nil, List.map_eq_nil_iff] at h1
        subst h1
        exact .file e _ hd
    rcases traverseLive_succ h with ⟨htd, rfl, rfl, rfl⟩ | ⟨htd, h⟩
    · refine ⟨.stub e, rfl, ?_, .stub e⟩
      rw [Tree.stub, traverse, if_pos htd]
    · simp only at h
      rcases h with ⟨s2, hE, rfl, rfl⟩ | ⟨s2, o3, s3, g3, hE, hT, rfl, rfl, rfl⟩
      · refine ⟨_, rfl, ?_, hfrozen (s.doDescend env (pp ++ [e.name]) e.isDir).ext
          ((lay c L e (pp ++ [e.name]) (s.doDescend env (pp ++ [e.name]) e.isDir).ext).kids.map fun k => .stub k.entry) ?_ ?_⟩
        · rw [traverse]
          simp only [htd, Bool.false_eq_true, if_false, hnode, hread, hE]
        · rw [List.map_map]; rfl
        · intro k hk
          obtain ⟨k', -, rfl⟩ := List.mem_map.1 hk
          exact .stub _
      · obtain ⟨ts, h1, h2, h3⟩ := travel_frozen (fun e s o s' g => ih _ _ e s o s' g) _ _ _ _ _ hT
        refine ⟨_, rfl, ?_, hfrozen (s.doDescend env (pp ++ [e.name]) e.isDir).ext ts ?_ h3⟩
        · rw [traverse]
          simp only [htd, Bool.false_eq_true, if_false, hnode, hread, hE, h2]
        · rw [h1, List.map_map]; rfl

theorem live_depth {c : Nav} {env : Env σ} {L : Look σ} {n ps pp e} {s : St σ} {o s' g}
    (h : traverseLive c env L n ps pp e s = some (o, s', g)) : s'.depth = s.depth := by
  obtain ⟨t, -, ht, -⟩ := traverse_frozen c env L n _ _ _ _ _ _ _ h
  have := traverse_depth c env ps pp t s
  rwa [ht] at this

theorem travelLive_depth {c : Nav} {env : Env σ} {L : Look σ} {n ps pp} (es : List Entry) : ∀ {s : St σ} {o s' g},
    travelLive L pp (traverseLive c env L n ps pp) es s = some (o, s', g) → s'.depth = s.depth := by
  induction es with
  | nil => intro s o s' g h; cases h; rfl
  | cons e es ih =>
    intro s o s' g h
    obtain ⟨o1, s1, g1, h1, h2⟩ := travelLive_cons h
    have hd := live_depth h1
    rcases h2 with ⟨-, rfl, -⟩ | ⟨-, g2, h2, -⟩
    · exact hd
    · rw [ih h2, hd]

/-! ### Frozen trees are well formed -/

theorem lay_kids {c : Nav} {L : Look σ} (hs : SortPermutes c) (hr : ReadSelects c) (hL : L.Distinct) (e path x) :
    ((lay c L e path x).kids.map fun k => k.entry.name).Nodup := by
  unfold lay
  split
  · obtain ⟨l, hl, hsub⟩ := arrange_kids_select c hs hr e (L.list x path).2 ((L.list x path).1.map Tree.stub)
    refine (hl.map _).nodup_iff.1 (List.Nodup.sublist (hsub.map _) ?_)
    rw [List.map_map]
    exact hL x path
  · exact List.nodup_nil

theorem tags_names {l l' : List Tree} (h : l.map (fun k => k.entry.tag) = l'.map (fun k => k.entry.tag)) :
    l.map (fun k => k.entry.name) = l'.map (fun k => k.entry.name) := by
  have := congrArg (List.map Prod.fst) h
  rw [List.map_map, List.map_map] at this
  exact this

theorem Frozen.distinct {c : Nav} {L : Look σ} (hs : SortPermutes c) (hr : ReadSelects c) (hL : L.Distinct) {t} (h : Frozen c L t) :
    t.Distinct := by
  induction h with
  | stub e => exact ⟨List.nodup_nil, trivial⟩
  | file e re hd => exact ⟨List.nodup_nil, trivial⟩
  | dir e path x kids hd hl hk ih =>
    refine ⟨?_, (Tree.distinctL_iff kids).2 ih⟩
    have := lay_kids hs hr hL e path x
    rw [← tags_names hl] at this
    exact this

theorem Frozen.wf {c : Nav} {L : Look σ} {t} (h : Frozen c L t) : t.WF := by
  induction h with
  | stub e => exact ⟨fun _ => rfl, trivial⟩
  | file e re hd => exact ⟨fun _ => rfl, trivial⟩
  | dir e path x kids hd hl hk ih =>
    exact ⟨(fun h => by rw [hd] at h; cases h), (Tree.wfL_iff kids).2 ih⟩

/-! ### More fuel changes nothing -/

theorem travelLive_more {L : Look σ} {pp} {f f' : Entry → St σ → Journey σ} (hf : ∀ e s r, f e s = some r → f' e s = some r) (es : List Entry) :
    ∀ s r, travelLive L pp f es s = some r → travelLive L pp f' es s = some r := by
  induction es with
  | nil => intro s r h; exact h
  | cons e es ih =>
    intro s r h
    obtain ⟨o, s', g⟩ := r
    obtain ⟨o1, s1, g1, h1, h2⟩ := travelLive_cons h
    rw [travelLive_onward, hf _ _ _ h1]
    rcases h2 with ⟨ho, rfl, rfl⟩ | ⟨ho, g2, h2, rfl⟩
    · simp only [ho]
    · simp only [ho, ih _ _ h2, Option.map_some]

theorem traverseLive_more (c : Nav) (env : Env σ) (L : Look σ) (n : Nat) : ∀ ps pp e s r,
    traverseLive c env L n ps pp e s = some r → traverseLive c env L (n + 1) ps pp e s = some r := by
  induction n with
  | zero => intro ps pp e s r h; cases h
  | succ n ih =>
    intro ps pp e s r h
    rw [traverseLive] at h ⊢
    simp only at h ⊢
    split at h
    · next htd => rw [if_pos htd]; exact h
    · next htd =>
      rw [if_neg htd]
      split at h
      · exact h
      · split at h
        · cases h
        · next o3 s3 g3 hT => rw [travelLive_more (ih _ _) _ _ _ hT]; exact h

theorem live_fuel {c : Nav} {env : Env σ} {L : Look σ} {n m ps pp e s r} (h : traverseLive c env L n ps pp e s = some r) (hm : n ≤ m) :
    traverseLive c env L m ps pp e s = some r := by
  induction hm with
  | refl => exact h
  | step _ ih => exact traverseLive_more c env L _ _ _ _ _ _ ih

/-! ### With a depth limit every traversal ends -/

theorem travelLive_ends {L : Look σ} {pp} {f : Entry → St σ → Journey σ} {I : St σ → Prop} (hf : ∀ e s, I s → ∃ o s' g, f e s = some (o, s', g) ∧ I s')
    (es : List Entry) : ∀ s, I s → ∃ r, travelLive L pp f es s = some r := by
  induction es with
  | nil => intro s _; exact ⟨_, rfl⟩
  | cons e es ih =>
    intro s hs
    obtain ⟨o, s1, g, h1, h2⟩ := hf { e with infoErr := L.info s.ext (pp ++ [e.name]) } s hs
    rw [travelLive_onward, h1]
    simp only
    cases onward o with
    | some o' => exact ⟨_, rfl⟩
    | none =>
      obtain ⟨r, hr⟩ := ih s1 h2
      exact ⟨_, by rw [hr]; rfl⟩

theorem traverseLive_ends (c : Nav) (env : Env σ) (L : Look σ) (hlim : 0 < c.maxDepth) (n : Nat) : ∀ ps pp e (s : St σ),
    (c.maxDepth : Int) + 2 ≤ s.depth + n → 0 < n → ∃ o s' g, traverseLive c env L n ps pp e s = some (o, s', g) := by
  induction n with
  | zero =>
    intro ps pp e s h h0
    omega
  | succ n ih =>
    intro ps pp e s h _
    rw [traverseLive]
    simp only
    split
    · exact ⟨_, _, _, rfl⟩
    · next htd =>
      have hn : 0 < n := by
        simp only [tooDeep, hlim, decide_true, Bool.true_and, decide_eq_true_eq] at htd
        omega
      split
      · exact ⟨_, _, _, rfl⟩
      · next s2 hE =>
        have hd : s2.depth = s.depth + 1 := by
          have := enter_depth c env (mkNode c ps (pp ++ [e.name]) (lay c L e (pp ++ [e.name]) (s.doDescend env (pp ++ [e.name]) e.isDir).ext)
            (s.doDescend env (pp ++ [e.name]) e.isDir).depth) (readErrOf c (lay c L e (pp ++ [e.name]) (s.doDescend env (pp ++ [e.name]) e.isDir).ext))
            (s.doDescend env (pp ++ [e.name]) e.isDir)
          rw [hE] at this
          exact this
        obtain ⟨⟨o3, s3, g3⟩, hr⟩ := travelLive_ends (L := L) (pp := pp ++ [e.name])
          (f := traverseLive c env L n ((mkNode c ps (pp ++ [e.name]) (lay c L e (pp ++ [e.name]) (s.doDescend env (pp ++ [e.name]) e.isDir).ext)
            (s.doDescend env (pp ++ [e.name]) e.isDir).depth).toNodeInfo :: ps) (pp ++ [e.name]))
          (I := fun s' => s'.depth = s.depth + 1)
          (fun e' s' hs' => by
            obtain ⟨o, s'', g, h1⟩ := ih _ (pp ++ [e.name]) e' s' (by omega) hn
            exact ⟨o, s'', g, h1, by rw [live_depth h1, hs']⟩)
          ((lay c L e (pp ++ [e.name]) (s.doDescend env (pp ++ [e.name]) e.isDir).ext).kids.map Tree.entry) s2 hd
        rw [hr]
        exact ⟨_, _, _, rfl⟩

end Traverse
