import Verif.Spec.Flat
namespace Traverse
variable {σ : Type}

theorem Tree.ind {P : Tree → Prop}
    (h : ∀ e re fs ds kids, (∀ k ∈ kids, P k) → P (.node e re fs ds kids)) : ∀ t, P t := by
  intro t
  refine Tree.rec (motive_1 := P) (motive_2 := fun l => ∀ k ∈ l, P k) ?_ ?_ ?_ t
  · intro e re fs ds kids ih; exact h e re fs ds kids ih
  · intro k hk; cases hk
  · intro x xs hx hxs k hk
    rcases List.mem_cons.1 hk with rfl | hk
    · exact hx
    · exact hxs k hk

@[simp] theorem acts_append (a b : List Ev) : acts (a ++ b) = acts a ++ acts b := by simp [acts]
@[simp] theorem acts_nil : acts [] = [] := rfl
@[simp] theorem acts_descend (p d) : acts [.descend p d] = [] := rfl
@[simp] theorem acts_ascend (p d) : acts [.ascend p d] = [] := rfl
@[simp] theorem acts_invoke (n r) : acts [.invoke n r] = [.invoke n r] := rfl
@[simp] theorem acts_ask (n re s e) : acts [.ask n re s e] = [.ask n re s e] := rfl
@[simp] theorem acts_rescue (n d r) : acts [.rescue n d r] = [.rescue n d r] := rfl

@[simp] theorem mkNode_path (c ps p t d) : (mkNode c ps p t d).path = p := rfl
@[simp] theorem mkNode_depth (c ps p t d) : (mkNode c ps p t d).depth = d - 1 := rfl
@[simp] theorem mkNode_isDir (c ps p t d) : (mkNode c ps p t d).isDir = t.isDir := rfl
@[simp] theorem mkNode_parents (c ps p t d) : (mkNode c ps p t d).parents = ps := rfl

/-- `enter` does what `Step` says. -/
theorem enter_step (c : Nav) (env : Env σ) (it : Item) (s : St σ) (a : Act) (s' : St σ)
    (h : enter c env it.node it.readErr s = (a, s')) :
    s'.depth = s.depth ∧ ∃ evs, acts evs = evs ∧ s'.log = s.log ++ evs ∧ Step c.sub it evs a := by
  have hfull : ∀ (a : Act) (s' : St σ), (match s.doInvoke env it.node with
      | (.panic, s) => ((.done .panic, s) : Act × St σ)
      | (.ok (some e), s) => (.done (.ret true (some e)), s)
      | (.ok none, s) =>
        match s.doAsk env it.node it.readErr with
        | (sk, e, s) => (verdict c.sub it.readErr sk e, s)) = (a, s') → c.sub ≠ .files →
      s'.depth = s.depth ∧ ∃ evs, acts evs = evs ∧ s'.log = s.log ++ evs ∧ Step c.sub it evs a := by
    intro a s' h hsub
    simp only [St.doInvoke, St.doAsk] at h
    rcases hi : env.invoke s.ext it.node with ⟨x, r⟩
    rw [hi] at h
    cases r with
    | panic =>
      simp only [Prod.mk.injEq] at h
      obtain ⟨rfl, rfl⟩ := h
      exact ⟨rfl, _, by simp, rfl, .panicked (fun hf => absurd hf hsub)⟩
    | ok e =>
      cases e with
      | some e =>
        simp only [Prod.mk.injEq] at h
        obtain ⟨rfl, rfl⟩ := h
        exact ⟨rfl, _, by simp, rfl, .failed e hsub⟩
      | none =>
        simp only [Prod.mk.injEq] at h
        obtain ⟨rfl, rfl⟩ := h
        refine ⟨rfl, [.invoke it.node (.ok none), _], ?_, by simp only [List.append_assoc, List.cons_append, List.nil_append],
          .asked _ _ hsub⟩
        rfl
  rcases hc : c.sub with _ | _ | _ | _ | _
  case files =>
    simp only [enter, hc, St.doInvoke, St.doAsk] at h
    split at h
    · rename_i hd
      have hd : it.node.isDir = false := by simpa using hd
      rcases hi : env.invoke s.ext it.node with ⟨x, r⟩
      rw [hi] at h
      cases r with
      | panic =>
        simp only [Prod.mk.injEq] at h
        obtain ⟨rfl, rfl⟩ := h
        exact ⟨rfl, _, by simp, rfl, .panicked (fun _ => hd)⟩
      | ok e =>
        simp only [Prod.mk.injEq] at h
        obtain ⟨rfl, rfl⟩ := h
        exact ⟨rfl, _, by simp, rfl, .file e rfl hd⟩
    · rename_i hd
      have hd : it.node.isDir = true := by simpa using hd
      rcases ha : env.ask s.ext it.node it.readErr with ⟨x, sk, e⟩
      simp only [ha] at h
      have : (verdict .files it.readErr sk e = a) ∧
          ({ s with ext := x, log := s.log ++ [.ask it.node it.readErr sk e] } : St σ) = s' := by
        simp only [verdict]
        cases sk <;> cases hre : it.readErr <;> simp_all
      obtain ⟨rfl, rfl⟩ := this
      exact ⟨rfl, _, by simp, rfl, .askedOnly sk e rfl hd⟩
  all_goals
    rw [← hc]
    apply hfull _ _ _ (by simp [hc])
    rw [← h]
    simp only [enter, hc]
    split <;> rename_i hr <;> simp only [hr, verdict]
    all_goals (cases hsk : (St.doAsk env it.node it.readErr _).1 <;> simp_all)

/-- How the rest of a run must look after a subtree at depth `d`, given how the subtree ended. -/
def Cont (sub : Subscription) (d0 d : Int) (cur : Option NodeInfo) (o : Out) (rest : List Item)
    (es : List Ev) (f : Final) : Prop :=
  match o with
  | .panic => ∃ n r, cur = some n ∧ es = [.rescue n (d - 1) r] ∧ f = .done (some r.err)
  | .ret _ none => Run sub d0 rest es f
  | .ret p (some e) =>
    if stops p e then es = [] ∧ f = .done (some e)
    else if p then Run sub d0 rest es f
    else if d = d0 + 1 then es = [] ∧ f = .done (some e)
    else Run sub d0 (rest.dropWhile (fun j => decide (d ≤ j.node.depth))) es f

/-- The same after the entries of a directory at depth `d`. -/
def ContL (sub : Subscription) (d0 d : Int) (cur : Option NodeInfo) (o : Out) (rest : List Item)
    (es : List Ev) (f : Final) : Prop :=
  match o with
  | .panic => ∃ n r, cur = some n ∧ es = [.rescue n d r] ∧ f = .done (some r.err)
  | .ret _ none => Run sub d0 rest es f
  | .ret p (some e) =>
    if stops p e = true ∨ d = d0 then es = [] ∧ f = .done (some e)
    else Run sub d0 rest es f

def HeadLe (rest : List Item) (d : Int) : Prop := ∀ j ∈ rest.head?, j.node.depth ≤ d

theorem dropWhile_head (rest : List Item) (P : Item → Bool) (h : ∀ j ∈ rest.head?, P j = false) :
    rest.dropWhile P = rest := by
  cases rest with
  | nil => rfl
  | cons x xs => simp [h x (by simp)]

theorem dropWhile_all_append (l rest : List Item) (P : Item → Bool) (h : ∀ j ∈ l, P j = true) :
    (l ++ rest).dropWhile P = rest.dropWhile P := by
  induction l with
  | nil => rfl
  | cons x xs ih =>
    rw [List.cons_append, List.dropWhile_cons, if_pos (h x (by simp))]
    exact ih (fun j hj => h j (by simp [hj]))

theorem items_depth (c : Nav) (t : Tree) : ∀ ps pp d, ∀ j ∈ items c ps pp d t, d ≤ j.node.depth := by
  induction t using Tree.ind with
  | h e re fs ds kids ih =>
    intro ps pp d j hj
    have hl : ∀ ks, (∀ k ∈ ks, k ∈ kids) → ∀ ps pp, ∀ j ∈ itemsList c ps pp (d+1) ks, d + 1 ≤ j.node.depth := by
      intro ks
      induction ks with
      | nil => intro _ ps pp j hj; simp [itemsList] at hj
      | cons k ks ihk =>
        intro hk ps pp j hj
        simp only [itemsList, List.mem_append] at hj
        rcases hj with hj | hj
        · exact ih k (hk k (by simp)) _ _ _ j hj
        · exact ihk (fun x hx => hk x (by simp [hx])) _ _ j hj
    simp only [items] at hj
    split at hj
    · simp at hj
    · rcases List.mem_cons.1 hj with rfl | hj
      · simp
      · have := hl kids (fun _ h => h) _ _ j hj; omega

theorem itemsList_depth (c : Nav) (ts : List Tree) : ∀ ps pp d, ∀ j ∈ itemsList c ps pp d ts, d ≤ j.node.depth := by
  induction ts with
  | nil => intro ps pp d j hj; simp [itemsList] at hj
  | cons t ts ih =>
    intro ps pp d j hj
    simp only [itemsList, List.mem_append] at hj
    rcases hj with hj | hj
    · exact items_depth c t _ _ _ j hj
    · exact ih _ _ _ j hj

theorem stops_rescue (r : Rescue) (p : Bool) : stops p r.err = true := by
  cases r <;> cases p <;> rfl

/-- Statement proved for one subtree below the root. -/
def TOk (c : Nav) (env : Env σ) (d0 : Int) (t : Tree) : Prop :=
  ∀ ps pp (s : St σ), d0 < s.depth → ∃ vs,
    (traverse c env ps pp t s).2.depth = s.depth ∧
    acts (traverse c env ps pp t s).2.log = acts s.log ++ vs ∧
    ∀ rest es f, HeadLe rest s.depth →
      Cont c.sub d0 s.depth ps.head? (traverse c env ps pp t s).1 rest es f →
      Run c.sub d0 (items c ps pp s.depth t ++ rest) (vs ++ es) f

theorem travelLoop_ok (c : Nav) (env : Env σ) (d0 : Int) (ts : List Tree) (ih : ∀ k ∈ ts, TOk c env d0 k) :
    ∀ ps pp (s : St σ), d0 < s.depth → ∃ vs,
    (travelLoop c env ps pp ts s).2.depth = s.depth ∧
    acts (travelLoop c env ps pp ts s).2.log = acts s.log ++ vs ∧
    (∀ e, (travelLoop c env ps pp ts s).1 = .ret false (some e) → e.isSkipDir = true) ∧
    ∀ rest es f, HeadLe rest (s.depth - 1) →
      ContL c.sub d0 (s.depth - 1) ps.head? (travelLoop c env ps pp ts s).1 rest es f →
      Run c.sub d0 (itemsList c ps pp s.depth ts ++ rest) (vs ++ es) f := by
  induction ts with
  | nil =>
    intro ps pp s hd
    refine ⟨[], rfl, by simp [travelLoop], by simp [travelLoop], ?_⟩
    intro rest es f _ h
    simpa [itemsList, ContL, travelLoop] using h
  | cons t ts ihl =>
    intro ps pp s hd
    obtain ⟨vs, hdep, hlog, hrun⟩ := ih t (by simp) ps pp s hd
    have ihl := ihl (fun k hk => ih k (by simp [hk]))
    generalize hT : traverse c env ps pp t s = r at hdep hlog hrun
    obtain ⟨o, s1⟩ := r
    simp only at hdep hlog hrun
    obtain ⟨vs2, hdep2, hlog2, hsd2, hrun2⟩ := ihl ps pp s1 (by omega)
    have hcut : ∀ rest : List Item, HeadLe rest (s.depth - 1) → HeadLe (itemsList c ps pp s.depth ts ++ rest) s.depth := by
      intro rest hr j hj
      cases hI : itemsList c ps pp s.depth ts with
      | nil => rw [hI] at hj; have := hr j (by simpa using hj); omega
      | cons x xs =>
        rw [hI] at hj
        simp at hj
        subst hj
        -- the head of a sibling list is at depth exactly s.depth
        have : ∀ ts : List Tree, ∀ x xs, itemsList c ps pp s.depth ts = x :: xs → x.node.depth = s.depth := by
          intro ts
          induction ts with
          | nil => intro x xs h; simp [itemsList] at h
          | cons u us ihu =>
            intro x xs h
            cases u with
            | node e re fs ds kids =>
            simp only [itemsList, items] at h
            split at h
            · exact ihu x xs (by simpa using h)
            · simp at h; rw [← h.1]; simp
        have := this ts _ _ hI; omega
    -- continue with the remaining siblings
    have go : (∀ rest es f, HeadLe rest s.depth → Run c.sub d0 rest es f →
          Run c.sub d0 (items c ps pp s.depth t ++ rest) (vs ++ es) f) →
        ∃ ws, (travelLoop c env ps pp ts s1).2.depth = s.depth ∧
          acts (travelLoop c env ps pp ts s1).2.log = acts s.log ++ ws ∧
          (∀ e, (travelLoop c env ps pp ts s1).1 = .ret false (some e) → e.isSkipDir = true) ∧
          ∀ rest es f, HeadLe rest (s.depth - 1) →
            ContL c.sub d0 (s.depth - 1) ps.head? (travelLoop c env ps pp ts s1).1 rest es f →
            Run c.sub d0 (itemsList c ps pp s.depth (t :: ts) ++ rest) (ws ++ es) f := by
      intro hgo
      refine ⟨vs ++ vs2, by omega, by rw [hlog2, hlog]; simp, hsd2, ?_⟩
      intro rest es f hr hc
      simp only [itemsList, List.append_assoc]
      apply hgo _ _ _ (hcut rest hr)
      have := hrun2 rest es f (by rw [hdep]; exact hr) (by rw [hdep]; exact hc)
      rwa [hdep] at this
    -- leave the loop with outcome `o'`
    have out : ∀ o' : Out, (∀ e, o' = .ret false (some e) → e.isSkipDir = true) →
        (∀ rest es f, HeadLe rest (s.depth - 1) → ContL c.sub d0 (s.depth - 1) ps.head? o' rest es f →
          Cont c.sub d0 s.depth ps.head? o (itemsList c ps pp s.depth ts ++ rest) es f) →
        ∃ ws, ((o', s1) : Out × St σ).2.depth = s.depth ∧
          acts ((o', s1) : Out × St σ).2.log = acts s.log ++ ws ∧
          (∀ e, ((o', s1) : Out × St σ).1 = .ret false (some e) → e.isSkipDir = true) ∧
          ∀ rest es f, HeadLe rest (s.depth - 1) →
            ContL c.sub d0 (s.depth - 1) ps.head? ((o', s1) : Out × St σ).1 rest es f →
            Run c.sub d0 (itemsList c ps pp s.depth (t :: ts) ++ rest) (ws ++ es) f := by
      intro o' hsd ho
      refine ⟨vs, hdep, hlog, hsd, ?_⟩
      intro rest es f hr hc
      simp only [itemsList, List.append_assoc]
      exact hrun _ _ _ (hcut rest hr) (ho rest es f hr hc)
    -- case split on the outcome
    rw [travelLoop, hT]
    cases o with
    | panic =>
      refine out .panic (by intro e h; cases h) ?_
      intro rest es f _ h
      simpa [ContL, Cont] using h
    | ret p e =>
      cases e with
      | none =>
        cases p
        all_goals
          apply go
          intro rest es f hr hc
          exact hrun rest es f hr (by simpa [Cont] using hc)
      | some e =>
        cases p with
        | true =>
          simp only
          cases h1 : e.isSkipDir with
          | true =>
            rw [if_pos rfl]
            apply go
            intro rest es f hr hc
            exact hrun rest es f hr (by simpa [Cont, stops, Err.isSentinel, h1] using hc)
          | false =>
            rw [if_neg (by simp)]
            cases h2 : e.isSkipAll with
            | true =>
              rw [if_pos rfl]
              apply go
              intro rest es f hr hc
              exact hrun rest es f hr (by simpa [Cont, stops, Err.isSentinel, h1, h2] using hc)
            | false =>
              rw [if_neg (by simp)]
              refine out _ (by simp) ?_
              intro rest es f hr hc
              simpa [ContL, Cont, stops, Err.isSentinel, h1, h2] using hc
        | false =>
          simp only
          cases h1 : e.isSkipDir with
          | true =>
            rw [if_pos rfl]
            refine out _ (by simp only [Out.ret.injEq, Option.some.injEq, true_and]; rintro _ rfl; exact h1) ?_
            intro rest es f hr hc
            simpa [ContL, Cont, stops, h1] using hc
          | false =>
            rw [if_neg (by simp)]
            refine out _ (by simp) ?_
            intro rest es f hr hc
            cases h2 : e.isSkipAll with
            | false => simpa [ContL, Cont, stops, Err.isSentinel, h1, h2] using hc
            | true =>
              simp only [ContL, stops, Err.isSentinel, h1, h2, Bool.or_true, Bool.not_true, Bool.false_or,
                if_true, Bool.false_eq_true, false_or] at hc
              simp only [Cont, stops, h1, h2, Bool.not_true, Bool.or_false, if_false, Bool.false_eq_true]
              by_cases hd1 : s.depth = d0 + 1
              · rw [if_pos (by omega)] at hc
                rw [if_pos hd1]; exact hc
              · rw [if_neg (by omega)] at hc
                rw [if_neg hd1, dropWhile_all_append, dropWhile_head]
                · exact hc
                · intro j hj; have := hr j hj; simp; omega
                · intro j hj; have := itemsList_depth c ts _ _ _ j hj; simpa using this

theorem traverse_ok (c : Nav) (env : Env σ) (d0 : Int) (t : Tree) : TOk c env d0 t := by
  induction t using Tree.ind with
  | h e re fs ds kids ih =>
    intro ps pp s hd
    rw [traverse]
    simp only [items]
    cases htd : tooDeep c s.depth with
    | true =>
      refine ⟨[], by simp, by simp, ?_⟩
      intro rest es f hr hc
      simpa [Cont] using hc
    | false =>
      simp only [Bool.false_eq_true, if_false]
      generalize hs1 : s.doDescend env (pp ++ [e.name]) e.isDir = s1
      have hd1 : s1.depth = s.depth + 1 := by rw [← hs1]; rfl
      have hl1 : acts s1.log = acts s.log := by rw [← hs1]; simp [St.doDescend]
      rw [← hd1]
      generalize hn : mkNode c ps (pp ++ [e.name]) (.node e re fs ds kids) s1.depth = n
      have hnd : n.depth = s.depth := by rw [← hn]; simp; omega
      have hnp : n.parents = ps := by rw [← hn]; simp
      generalize hre : readErrOf c (.node e re fs ds kids) = rr
      generalize hE : enter c env n rr s1 = r
      obtain ⟨a, s2⟩ := r
      obtain ⟨hd2, evs, hev, hl2, hstep⟩ := enter_step c env ⟨n, rr⟩ s1 a s2 hE
      have hl2' : acts s2.log = acts s.log ++ evs := by rw [hl2]; simp [hl1, hev]
      cases a with
      | done o =>
        simp only [List.cons_append]
        refine ⟨evs, by simp [St.doAscend]; omega, by simp [St.doAscend, hl2'], ?_⟩
        intro rest es f hr hc
        have hdrop : ∀ l : List Item, (∀ j ∈ l, s.depth < j.node.depth) →
            (l ++ rest).dropWhile (fun j => decide (n.depth < j.node.depth)) = rest := by
          intro l hl
          rw [dropWhile_all_append, dropWhile_head]
          · intro j hj; have := hr j hj; simp; omega
          · intro j hj; have := hl j hj; simp; omega
        have hin : ∀ j ∈ itemsList c (n.toNodeInfo :: ps) (pp ++ [e.name]) s1.depth kids, s.depth < j.node.depth := by
          intro j hj; have := itemsList_depth c kids _ _ _ j hj; omega
        cases o with
        | panic =>
          obtain ⟨m, r, hm, rfl, rfl⟩ := hc
          have := Run.crash (rest := itemsList c (n.toNodeInfo :: ps) (pp ++ [e.name]) s1.depth kids ++ rest)
            (r := r) (cur := m) hstep (d0 := d0) (by simp [hnd]; omega) (by simp [hnp, hm])
          rw [hnd] at this
          exact this
        | ret p x =>
          cases x with
          | none =>
            refine Run.next hstep (by simp [hnd]; omega) (Or.inl rfl) ?_
            rw [hdrop _ hin]
            simpa [Cont] using hc
          | some x =>
            simp only [Cont] at hc
            split at hc
            · rename_i hst
              obtain ⟨rfl, rfl⟩ := hc
              simpa using Run.stop (d0 := d0) hstep (by simp [hnd]; omega) hst
            · rename_i hst
              cases p with
              | true =>
                refine Run.next hstep (by simp [hnd]; omega) (Or.inr ⟨rfl, x, rfl, by simpa [stops] using hst⟩) ?_
                rw [hdrop _ hin]
                simpa using hc
              | false =>
                have h1 : x.isSkipDir = false := by
                  cases h : x.isSkipDir <;> simp_all [stops]
                have h2 : x.isSkipAll = true := by
                  cases h : x.isSkipAll <;> simp_all [stops]
                simp only [Bool.false_eq_true, if_false] at hc
                split at hc
                · rename_i hh
                  obtain ⟨rfl, rfl⟩ := hc
                  simpa using Run.leaveTop (d0 := d0) hstep (by simp [hnd]; omega) h1 h2
                · rename_i hh
                  refine Run.leave hstep (by simp [hnd]; omega) h1 h2 ?_
                  rw [dropWhile_all_append]
                  · simpa [hnd] using hc
                  · intro j hj; have := hin j hj; simp [hnd]; omega
      | travel =>
        simp only [List.cons_append]
        obtain ⟨vs, hd3, hl3, hsd, hrun⟩ := travelLoop_ok c env d0 kids ih (n.toNodeInfo :: ps) (pp ++ [e.name]) s2 (by omega)
        have hd2' : s2.depth = s1.depth := hd2
        rw [hd2'] at hd3 hrun
        generalize hL : travelLoop c env (n.toNodeInfo :: ps) (pp ++ [e.name]) kids s2 = r at hd3 hl3 hsd hrun
        obtain ⟨o, s3⟩ := r
        simp only [] at hd3 hl3 hsd hrun
        have hs1d : s1.depth - 1 = s.depth := by omega
        rw [hs1d] at hrun
        cases o with
        | panic =>
          simp only [recoverIn]
          generalize hR : s3.doRescue env n.toNodeInfo = rr'
          obtain ⟨r, s4⟩ := rr'
          have hs4 : s4.depth = s3.depth ∧ s4.log = s3.log ++ [.rescue n.toNodeInfo (s3.depth - 1) r] := by
            simp only [St.doRescue, Prod.mk.injEq] at hR
            obtain ⟨rfl, rfl⟩ := hR
            exact ⟨rfl, rfl⟩
          refine ⟨evs ++ (vs ++ [.rescue n.toNodeInfo (s3.depth - 1) r]), by simp [St.doAscend]; omega,
            by simp only [St.doAscend, hs4.2, acts_append, hl3, hl2']; simp, ?_⟩
          intro rest es f hr hc
          simp only [Cont, stops_rescue, if_true] at hc
          obtain ⟨rfl, rfl⟩ := hc
          have := hrun rest [.rescue n.toNodeInfo s.depth r] (.done (some r.err)) hr
            ⟨_, _, rfl, rfl, rfl⟩
          have hh : s3.depth - 1 = s.depth := by omega
          rw [hh]
          simpa using Run.travel hstep this
        | ret p x =>
          simp only [recoverIn]
          refine ⟨evs ++ vs, by simp [St.doAscend]; omega, by simp [St.doAscend, hl3, hl2'], ?_⟩
          intro rest es f hr hc
          rw [List.append_assoc]
          refine Run.travel hstep (hrun rest es f hr ?_)
          cases x with
          | none => simpa [ContL, Cont] using hc
          | some x =>
            simp only [ContL]
            simp only [Cont] at hc
            have hne : ¬ s.depth = d0 := by omega
            simp only [hne, or_false]
            split at hc
            · rename_i hst; rw [if_pos hst]; exact hc
            · rename_i hst
              rw [if_neg hst]
              cases p with
              | true => simpa using hc
              | false =>
                have := hsd x rfl
                simp [stops, this] at hst

/-- **Refinement.** A session's calls and result are those of the flat account. -/
theorem top_run (c : Nav) (env : Env σ) (pre : Path) (t : Tree) (s : St σ)
    (hd : tooDeep c s.depth = false) :
    ∃ vs, (traverse c env [] pre t s).2.depth = s.depth ∧
      acts (traverse c env [] pre t s).2.log = acts s.log ++ vs ∧
      Run c.sub s.depth (items c [] pre s.depth t) vs (traverse c env [] pre t s).1.final := by
  cases t with
  | node e re fs ds kids =>
    rw [traverse]
    simp only [items, hd, Bool.false_eq_true, if_false]
    generalize hs1 : s.doDescend env (pre ++ [e.name]) e.isDir = s1
    have hd1 : s1.depth = s.depth + 1 := by rw [← hs1]; rfl
    have hl1 : acts s1.log = acts s.log := by rw [← hs1]; simp [St.doDescend]
    rw [← hd1]
    generalize hn : mkNode c [] (pre ++ [e.name]) (.node e re fs ds kids) s1.depth = n
    have hnd : n.depth = s.depth := by rw [← hn]; simp; omega
    have hnp : n.parents = [] := by rw [← hn]; simp
    generalize hre : readErrOf c (.node e re fs ds kids) = rr
    generalize hE : enter c env n rr s1 = r
    obtain ⟨a, s2⟩ := r
    obtain ⟨hd2, evs, hev, hl2, hstep⟩ := enter_step c env ⟨n, rr⟩ s1 a s2 hE
    have hl2' : acts s2.log = acts s.log ++ evs := by rw [hl2]; simp [hl1, hev]
    cases a with
    | done o =>
      refine ⟨evs, by simp [St.doAscend]; omega, by simp [St.doAscend, hl2'], ?_⟩
      exact Run.root hstep hnd
    | travel =>
      obtain ⟨vs, hd3, hl3, hsd, hrun⟩ := travelLoop_ok c env s.depth kids
        (fun k _ => traverse_ok c env s.depth k) [n.toNodeInfo] (pre ++ [e.name]) s2 (by omega)
      have hd2' : s2.depth = s1.depth := hd2
      rw [hd2'] at hd3 hrun
      simp only []
      generalize hL : travelLoop c env [n.toNodeInfo] (pre ++ [e.name]) kids s2 = r at hd3 hl3 hsd hrun
      obtain ⟨o, s3⟩ := r
      simp only [] at hd3 hl3 hsd hrun
      have hs1d : s1.depth - 1 = s.depth := by omega
      rw [hs1d] at hrun
      have hr0 : HeadLe ([] : List Item) s.depth := by intro j hj; simp at hj
      cases o with
      | panic =>
        simp only [recoverIn]
        generalize hR : s3.doRescue env n.toNodeInfo = rr'
        obtain ⟨r, s4⟩ := rr'
        have hs4 : s4.depth = s3.depth ∧ s4.log = s3.log ++ [.rescue n.toNodeInfo (s3.depth - 1) r] := by
          simp only [St.doRescue, Prod.mk.injEq] at hR
          obtain ⟨rfl, rfl⟩ := hR
          exact ⟨rfl, rfl⟩
        refine ⟨evs ++ (vs ++ [.rescue n.toNodeInfo (s3.depth - 1) r]), by simp [St.doAscend]; omega,
          by simp only [St.doAscend, hs4.2, acts_append, hl3, hl2']; simp, ?_⟩
        have := hrun [] [.rescue n.toNodeInfo s.depth r] (.done (some r.err)) hr0 ⟨_, _, rfl, rfl, rfl⟩
        have hh : s3.depth - 1 = s.depth := by omega
        rw [hh]
        simpa [Out.final] using Run.travel hstep this
      | ret p x =>
        simp only [recoverIn]
        refine ⟨evs ++ vs, by simp [St.doAscend]; omega, by simp [St.doAscend, hl3, hl2'], ?_⟩
        cases x with
        | none =>
          have := hrun [] [] (.done none) hr0 (by simpa [ContL] using Run.nil)
          simpa [Out.final] using Run.travel hstep this
        | some x =>
          have := hrun [] [] (.done (some x)) hr0 (by simp [ContL])
          simpa [Out.final] using Run.travel hstep this

end Traverse
