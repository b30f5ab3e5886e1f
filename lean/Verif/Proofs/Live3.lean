import Verif.Proofs.Live2
import Verif.Spec.Faults
/-
Accepting clients on a file system that changes; and a file system that does not change.
-/
namespace Traverse
variable {σ : Type}

/-! ### Everything listed is entered -/

theorem enter_nil {c : Nav} {env : Env σ} (hn : AlwaysNil env) (hs : DefaultSkip env) (n re) (s : St σ) :
    (enter c env n re s).1 = if c.sub = .files then (if n.isDir then (if re.isSome then .done (.ret true none) else .travel) else .done (.ret false none))
      else .travel := by
  have h1 : (s.doInvoke env n).1 = .ok none := hn _ _
  have h2 : ∀ s : St σ, (s.doAsk env n re).1 = .none ∧ (s.doAsk env n re).2.1 = none := by
    intro s
    have := hs s.ext n re
    simp only [St.doAsk, this, and_self]
  unfold enter
  rcases hi : s.doInvoke env n with ⟨r, s1⟩
  rw [hi] at h1
  simp only at h1
  subst h1
  rcases ha : s.doAsk env n re with ⟨sk, e, s2⟩
  rcases hb : s1.doAsk env n re with ⟨sk', e', s3⟩
  have h3 := h2 s
  have h4 := h2 s1
  rw [ha] at h3
  rw [hb] at h4
  simp only at h3 h4
  obtain ⟨rfl, rfl⟩ := h3
  obtain ⟨rfl, rfl⟩ := h4
  cases hsub : c.sub <;> simp [hb]
  cases n.isDir <;> simp
  cases re <;> simp

/-- What the sights of a loop, or of one node, are made of. -/
def Fills (c : Nav) (start : List (Path × Bool)) (g : List (Sight σ)) : Prop :=
  (g.map Sight.tag).Perm (start ++ g.flatMap fun q => if q.opened c then q.entries else [])

theorem Fills.append {c : Nav} {a b} {g1 g2 : List (Sight σ)} (h1 : Fills c a g1) (h2 : Fills c b g2) : Fills c (a ++ b) (g1 ++ g2) := by
  unfold Fills at *
  rw [List.map_append, List.flatMap_append]
  refine (h1.append h2).trans ?_
  simp only [List.append_assoc]
  refine List.Perm.append_left a ?_
  rw [← List.append_assoc, ← List.append_assoc]
  exact List.Perm.append_right _ List.perm_append_comm

theorem travel_fills {c : Nav} {L : Look σ} {pp} {f : Entry → St σ → Journey σ} {d : Int}
    (hf : ∀ e s o s' g, f e s = some (o, s', g) → s.depth = d →
      s'.depth = d ∧ (∃ p, o = .ret p none) ∧ Fills c (if tooDeep c d then [] else [(pp ++ [e.name], e.isDir)]) g) (es : List Entry) :
    ∀ s o s' g, travelLive L pp f es s = some (o, s', g) → s.depth = d →
      o = .ret true none ∧ Fills c (if tooDeep c d then [] else es.map fun e => (pp ++ [e.name], e.isDir)) g := by
  induction es with
  | nil =>
    intro s o s' g h _
    cases h
    refine ⟨rfl, ?_⟩
    unfold Fills
    split <;> simp
  | cons e es ih =>
    intro s o s' g h hd
    obtain ⟨o1, s1, g1, h1, h2⟩ := travelLive_cons h
    obtain ⟨ha, ⟨p, rfl⟩, hfl⟩ := hf _ _ _ _ _ h1 hd
    have hon : onward (.ret p none) = none := by cases p <;> rfl
    rcases h2 with ⟨ho, -, -⟩ | ⟨-, g2, h2, rfl⟩
    · rw [hon] at ho; cases ho
    · obtain ⟨rfl, hb⟩ := ih _ _ _ _ h2 ha
      refine ⟨rfl, ?_⟩
      have := hfl.append hb
      cases htd : tooDeep c d <;> simpa [htd] using this

theorem live_fills {c : Nav} {env : Env σ} {L : Look σ} (hn : AlwaysNil env) (hs : DefaultSkip env) (n : Nat) : ∀ ps pp e s o s' g,
    traverseLive c env L n ps pp e s = some (o, s', g) →
      (∃ p, o = .ret p none) ∧ Fills c (if tooDeep c s.depth then [] else [(pp ++ [e.name], e.isDir)]) g := by
  induction n with
  | zero => intro ps pp e s o s' g h; cases h
  | succ n ih =>
    intro ps pp e s o s' g h
    rcases traverseLive_succ h with ⟨htd, rfl, rfl, rfl⟩ | ⟨htd, h⟩
    · exact ⟨⟨_, rfl⟩, by unfold Fills; simp [htd]⟩
    · simp only at h
      generalize hs1 : s.doDescend env (pp ++ [e.name]) e.isDir = s1 at h
      generalize ht : lay c L e (pp ++ [e.name]) s1.ext = t at h
      have hent : t.entry = e := by rw [← ht, lay_entry]
      have hE' := enter_nil (c := c) hn hs (mkNode c ps (pp ++ [e.name]) t s1.depth) (readErrOf c t) s1
      have hdir : (mkNode c ps (pp ++ [e.name]) t s1.depth).isDir = e.isDir := by rw [mkNode_isDir, Tree.isDir, hent]
      have hfile : e.isDir = false → t.kids = [] := by
        intro h; rw [← ht]; unfold lay; rw [h]; rfl
      have hre : e.isDir = true → readErrOf c t = t.readErr := by
        intro h
        unfold readErrOf
        rw [show t.isDir = true by rw [Tree.isDir, hent, h]]
        have : hasCargo c.sub true = true := by cases c.sub <;> rfl
        rw [this]; rfl
      rw [hdir] at hE'
      rcases h with ⟨s2, hE, rfl, rfl⟩ | ⟨s2, o3, s3, g3, hE, hT, rfl, rfl, rfl⟩
      · rw [hE] at hE'
        simp only at hE'
        unfold Fills
        simp only [htd, Bool.false_eq_true, if_false, List.map_cons, List.map_nil, List.flatMap_cons, List.flatMap_nil, List.append_nil,
          Sight.tag]
        by_cases hf : c.sub = .files
        · rw [if_pos hf] at hE'
          cases hd : e.isDir with
          | false =>
            rw [hd] at hE'
            simp only [Bool.false_eq_true, if_false] at hE'
            cases hE'
            refine ⟨⟨_, rfl⟩, ?_⟩
            simp [Sight.entries, hfile hd]
          | true =>
            rw [hd] at hE'
            simp only [if_true] at hE'
            rw [hre hd] at hE'
            cases hr : t.readErr with
            | none => rw [hr] at hE'; simp at hE'
            | some x =>
              rw [hr] at hE'
              cases hE'
              refine ⟨⟨_, rfl⟩, ?_⟩
              simp [Sight.opened, hf, hr]
        · rw [if_neg hf] at hE'; cases hE'
      · have hd2 : s2.depth = s1.depth := by
          have := enter_depth c env (mkNode c ps (pp ++ [e.name]) t s1.depth) (readErrOf c t) s1
          rwa [hE] at this
        obtain ⟨rfl, hfl⟩ := travel_fills (c := c) (d := s1.depth) (fun e s o s' g h hd => by
          obtain ⟨h1, h2⟩ := ih _ _ e s o s' g h
          rw [hd] at h2
          exact ⟨by rw [live_depth h, hd], h1, h2⟩) _ _ _ _ _ hT hd2
        refine ⟨⟨true, rfl⟩, ?_⟩
        rw [hE] at hE'
        simp only at hE'
        have hop : t.kids ≠ [] → (decide (c.sub = .files) && t.readErr.isSome) = false := by
          intro hk
          by_cases hf : c.sub = .files
          · rw [if_pos hf] at hE'
            cases hd : e.isDir with
            | false => exact absurd (hfile hd) hk
            | true =>
              rw [hd, hre hd] at hE'
              cases hr : t.readErr with
              | none => simp
              | some x => rw [hr] at hE'; simp at hE'
          · simp [hf]
        unfold Fills at hfl ⊢
        simp only [htd, Bool.false_eq_true, if_false, List.map_cons, List.flatMap_cons, Sight.tag, List.cons_append, List.nil_append] at hfl ⊢
        refine List.Perm.cons _ (hfl.trans ?_)
        refine List.Perm.append_right _ (List.Perm.of_eq ?_)
        have hopen : ∀ q : Sight σ, q.laid = t → q.after = s1 → t.kids ≠ [] → q.opened c = !tooDeep c s1.depth := by
          intro q h1 h2 hk
          simp only [Sight.opened, h1, h2, hop hk, Bool.not_false, Bool.and_true]
        by_cases hk : t.kids = []
        · simp [hk, Sight.entries]
        · rw [hopen _ rfl rfl hk]
          cases tooDeep c s1.depth <;> simp [Function.comp_def, Sight.entries]

/-! ### A file system that does not change -/

theorem sort_natural {c : Nav} (h : SortByEntries c) (l : List Tree) :
    c.sort (l.map fun t => .stub t.entry) = (c.sort l).map (fun t => .stub t.entry) := by
  obtain ⟨qs, h1, h2, h3⟩ := h (l.map fun t => (t, .stub t.entry)) (by
    intro p hp
    obtain ⟨t, -, rfl⟩ := List.mem_map.1 hp
    rfl)
  simp only [List.map_map, Function.comp_def, List.map_id'] at h2 h3
  rw [h3, h2, List.map_map]
  refine List.map_congr_left ?_
  intro q hq
  obtain ⟨t, -, rfl⟩ := List.mem_map.1 ((h1.mem_iff).1 hq)
  rfl

theorem arrange_natural {c : Nav} (hs : SortByEntries c) (hr : ReadByEntries c) (e re) (l : List Tree) :
    arrange c e re (l.map fun t => .stub t.entry) = .node e (arrange c e re l).readErr (arrange c e re l).files (arrange c e re l).dirs
      ((arrange c e re l).kids.map fun t => .stub t.entry) := by
  have hf : ∀ (b : Tree → Bool) (l : List Tree), (∀ t, b (.stub t.entry) = b t) → (l.map fun t => Tree.stub t.entry).filter b = (l.filter b).map fun t => .stub t.entry := by
    intro b l hb
    rw [List.filter_map]
    congr 1
    exact List.filter_congr (fun t _ => hb t)
  have he : ∀ l : List Tree, (l.map fun t => Tree.stub t.entry).map Tree.entry = l.map Tree.entry := by
    intro l; rw [List.map_map]; rfl
  have hd : ∀ t : Tree, (Tree.stub t.entry).isDir = t.isDir := fun _ => rfl
  unfold arrange
  rw [hr l re]
  cases c.sub <;> simp only [hf (fun t => t.isDir) _ hd, hf (fun t => !t.isDir) _ (fun t => by rw [hd]), sort_natural hs, he, Tree.readErr_node,
    Tree.files_node, Tree.dirs_node, Tree.kids_node]
  all_goals split <;> simp only [List.map_append]

mutual
/-- The number of levels of a tree. -/
def FS.levels : FS → Nat
  | .file .. => 1
  | .dir _ _ _ kids => FS.levelsL kids + 1
def FS.levelsL : List FS → Nat
  | [] => 0
  | f :: fs => max f.levels (FS.levelsL fs)
end

theorem FS.levels_le {l : List FS} {f : FS} (h : f ∈ l) : f.levels ≤ FS.levelsL l := by
  induction l with
  | nil => cases h
  | cons a l ih =>
    simp only [FS.levelsL]
    rcases List.mem_cons.1 h with rfl | h
    · omega
    · have := ih h; omega

theorem travel_still {c : Nav} {env : Env σ} {L : Look σ} {ps pp} {f : Entry → St σ → Journey σ} (ts : List Tree)
    (hf : ∀ t ∈ ts, ∀ s, (∃ g, f t.entry s = some ((traverse c env ps pp t s).1, (traverse c env ps pp t s).2, g)) ∧ L.info s.ext (pp ++ [t.entry.name]) = t.entry.infoErr) :
    ∀ s, ∃ g, travelLive L pp f (ts.map Tree.entry) s = some ((travelLoop c env ps pp ts s).1, (travelLoop c env ps pp ts s).2, g) := by
  induction ts with
  | nil => intro s; exact ⟨[], rfl⟩
  | cons t ts ih =>
    intro s
    obtain ⟨⟨g, h1⟩, h2⟩ := hf t (by simp) s
    obtain ⟨g2, h3⟩ := ih (fun t ht => hf t (by simp [ht])) (traverse c env ps pp t s).2
    rw [List.map_cons, travelLive_onward, travelLoop_onward, h2, h1]
    cases honw : onward (traverse c env ps pp t s).1 with
    | some o => exact ⟨g, by simp only [honw]⟩
    | none => exact ⟨g ++ g2, by simp only [honw, h3, Option.map_some]⟩

theorem prep_FS_entry (c : Nav) (f : FS) : (prep c f).entry = f.entry := by
  cases f with
  | file n ie re => rfl
  | dir n ie re kids => rw [prep_dir, arrange_entry]; rfl

theorem FS.At.child {pre f p g} (h : FS.At pre f p g) : ∀ {n ie re kids} {k : FS}, g = .dir n ie re kids → k ∈ kids →
    FS.At pre f (p ++ [k.name]) k := by
  induction h with
  | here pre f => intro n ie re kids k hg hk; subst hg; exact .inside hk (.here _ _)
  | inside hk' _ ih => intro n ie re kids k hg hk; exact .inside hk' (ih hg hk)

/-- On a still file system the live traversal is the traversal. -/
theorem traverse_still {c : Nav} {env : Env σ} {L : Look σ} {root fs} (hs : SortPermutes c) (hr : ReadSelects c) (hs' : SortByEntries c)
    (hr' : ReadByEntries c) (hL : L.Still root fs) (f : FS) : ∀ pp, FS.At root fs (pp ++ [f.name]) f → ∀ n, f.levels ≤ n → ∀ ps s,
      ∃ g, traverseLive c env L n ps pp f.entry s = some ((traverse c env ps pp (prep c f) s).1, (traverse c env ps pp (prep c f) s).2, g) := by
  induction f using FS.ind with
  | hf name ie re =>
    intro pp hat n hn ps s
    replace hat : FS.At root fs (pp ++ [name]) (.file name ie re) := hat
    obtain ⟨n, rfl⟩ : ∃ m, n = m + 1 := ⟨n - 1, by simp [FS.levels] at hn; omega⟩
    have hl : lay c L (⟨name, false, ie⟩ : Entry) (pp ++ [name]) (s.doDescend env (pp ++ [name]) false).ext = .node ⟨name, false, ie⟩ re [] [] [] := by
      unfold lay
      rw [if_neg (by simp), hL.file _ _ _ _ _ hat]
    rw [show (FS.file name ie re).entry = ⟨name, false, ie⟩ from rfl, prep, traverse, traverseLive]
    simp only [hl]
    cases htd : tooDeep c s.depth with
    | true => exact ⟨_, rfl⟩
    | false =>
      simp only [Bool.false_eq_true, if_false]
      rcases hE : enter c env (mkNode c ps (pp ++ [name]) (.node ⟨name, false, ie⟩ re [] [] []) (s.doDescend env (pp ++ [name]) false).depth)
        (readErrOf c (.node ⟨name, false, ie⟩ re [] [] [])) (s.doDescend env (pp ++ [name]) false) with ⟨a, s2⟩
      cases a with
      | done o => exact ⟨_, rfl⟩
      | travel => exact ⟨_, rfl⟩
  | hd name ie re kids ih =>
    intro pp hat n hn ps s
    replace hat : FS.At root fs (pp ++ [name]) (.dir name ie re kids) := hat
    obtain ⟨n, rfl⟩ : ∃ m, n = m + 1 := ⟨n - 1, by simp [FS.levels] at hn; omega⟩
    have hl : ∀ x, lay c L (⟨name, true, ie⟩ : Entry) (pp ++ [name]) x = .node ⟨name, true, ie⟩ (prep c (.dir name ie re kids)).readErr
        (prep c (.dir name ie re kids)).files (prep c (.dir name ie re kids)).dirs ((prep c (.dir name ie re kids)).kids.map fun t => .stub t.entry) := by
      intro x
      unfold lay
      rw [if_pos rfl, hL.list _ _ _ _ _ _ hat, prep_dir, ← arrange_natural hs' hr']
      simp only [List.map_map, Function.comp_def, prep_FS_entry]
    have hkids : ∀ t ∈ (prep c (.dir name ie re kids)).kids, ∃ k ∈ kids, t = prep c k := by
      intro t ht
      rw [prep_dir] at ht
      obtain ⟨l, h1, h2⟩ := arrange_kids_select c hs hr ⟨name, true, ie⟩ re (kids.map (prep c))
      obtain ⟨k, hk, rfl⟩ := List.mem_map.1 (h2.subset (h1.mem_iff.2 ht))
      exact ⟨k, hk, rfl⟩
    have hT : prep c (.dir name ie re kids) = .node ⟨name, true, ie⟩ (prep c (.dir name ie re kids)).readErr
        (prep c (.dir name ie re kids)).files (prep c (.dir name ie re kids)).dirs (prep c (.dir name ie re kids)).kids := by
      conv => lhs; rw [Tree.eta (prep c (.dir name ie re kids)), prep_FS_entry]
      rfl
    generalize prep c (.dir name ie re kids) = T at *
    obtain ⟨e', re', fs', ds', ks'⟩ := T
    simp only [Tree.readErr_node, Tree.files_node, Tree.dirs_node, Tree.kids_node, Tree.node.injEq, and_true] at hl hkids hT
    subst hT
    rw [show (FS.dir name ie re kids).entry = ⟨name, true, ie⟩ from rfl, traverse, traverseLive]
    simp only [hl]
    have hnode : ∀ d, mkNode c ps (pp ++ [name]) (.node ⟨name, true, ie⟩ re' fs' ds' (ks'.map fun t => .stub t.entry)) d =
        mkNode c ps (pp ++ [name]) (.node ⟨name, true, ie⟩ re' fs' ds' ks') d := fun _ => rfl
    have hread : readErrOf c (.node ⟨name, true, ie⟩ re' fs' ds' (ks'.map fun t => .stub t.entry)) = readErrOf c (.node ⟨name, true, ie⟩ re' fs' ds' ks') := rfl
    simp only [hnode, hread, Tree.kids_node]
    cases htd : tooDeep c s.depth with
    | true => exact ⟨_, rfl⟩
    | false =>
      simp only [Bool.false_eq_true, if_false]
      generalize hnd : mkNode c ps (pp ++ [name]) (.node ⟨name, true, ie⟩ re' fs' ds' ks') (s.doDescend env (pp ++ [name]) true).depth = nd
      rcases hE : enter c env nd (readErrOf c (.node ⟨name, true, ie⟩ re' fs' ds' ks')) (s.doDescend env (pp ++ [name]) true) with ⟨a, s2⟩
      cases a with
      | done o => exact ⟨_, rfl⟩
      | travel =>
        obtain ⟨g, hg⟩ := travel_still (c := c) (env := env) (L := L) (ps := nd.toNodeInfo :: ps) (pp := pp ++ [name])
          (f := traverseLive c env L n (nd.toNodeInfo :: ps) (pp ++ [name])) ks' (by
            intro t ht s
            obtain ⟨k, hk, rfl⟩ := hkids t ht
            have hat' := hat.child rfl hk
            have hle : k.levels ≤ n := by
              have := FS.levels_le hk
              simp only [FS.levels] at hn
              omega
            rw [prep_FS_entry]
            exact ⟨ih k hk _ hat' n hle _ s, hL.info _ _ _ hat'⟩) s2
        have hm : (ks'.map fun t => Tree.stub t.entry).map Tree.entry = ks'.map Tree.entry := by rw [List.map_map]; rfl
        simp only [hm, hg]
        exact ⟨_, rfl⟩

end Traverse
