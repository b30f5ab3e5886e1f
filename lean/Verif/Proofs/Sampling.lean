import Verif.Spec.Sampling
import Verif.Proofs.Faults2
namespace Traverse

theorem sampledL_map (keep q) (l : List FS) : FS.sampledL keep q l = l.map (FS.sampled keep q) := by
  induction l with
  | nil => rfl
  | cons f fs ih => simp [FS.sampledL, ih]

theorem sampled_entry (keep q) (f : FS) : (f.sampled keep q).entry = f.entry := by
  cases f with
  | file n ie re => rfl
  | dir n ie re kids => simp only [FS.sampled]; split <;> rfl

theorem prep_entry' (c : Nav) (f : FS) : (prep c f).entry = f.entry := prep_entry_eq c f

variable {α β : Type}

theorem portion_map (f : α → β) (n b) (l : List α) : portion n b (l.map f) = (portion n b l).map f := by
  unfold portion
  split
  · rfl
  · split <;> simp [List.map_reverse, List.map_take]

theorem portion_sublist (n b) (l : List α) : (portion n b l).Sublist l := by
  unfold portion
  split
  · exact List.Sublist.refl _
  · split
    · have := (List.take_sublist n l.reverse).reverse
      rwa [List.reverse_reverse] at this
    · exact List.take_sublist _ _

theorem sampleFirst_portion (n) (l : List α) :
    sampleFirst (if n = 0 then l.length else n) l = portion n false l := by
  unfold sampleFirst portion
  split
  · simp
  · simp

theorem sampleLast_portion (n) (l : List α) :
    sampleLast (if n = 0 then l.length else n) l = portion n true l := by
  unfold sampleLast portion
  split
  · simp
  · simp only [if_true]
    rw [List.take_reverse, List.reverse_reverse]
    congr 1
    omega

theorem sampleUnion_portion (q : Quota) (fs ds : List α) :
    sampleUnion q fs ds = portion q.files q.inReverse fs ++ portion q.dirs q.inReverse ds := by
  simp only [sampleUnion]
  cases q.inReverse <;> simp [sampleFirst_portion, sampleLast_portion]

/-- The two kinds of a sample. -/
theorem portions_kinds (n m b) (isDir : α → Bool) (l : List α) :
    (portion n b (l.filter (fun t => !isDir t)) ++ portion m b (l.filter isDir)).filter (fun t => !isDir t) =
      portion n b (l.filter (fun t => !isDir t)) ∧
    (portion n b (l.filter (fun t => !isDir t)) ++ portion m b (l.filter isDir)).filter isDir =
      portion m b (l.filter isDir) := by
  have hf : ∀ t ∈ portion n b (l.filter (fun t => !isDir t)), isDir t = false := by
    intro t ht
    have := (portion_sublist _ _ _).subset ht
    simpa using (List.mem_filter.1 this).2
  have hd : ∀ t ∈ portion m b (l.filter isDir), isDir t = true := by
    intro t ht
    have := (portion_sublist _ _ _).subset ht
    simpa using (List.mem_filter.1 this).2
  have f1 : (portion n b (l.filter (fun t => !isDir t))).filter (fun t => !isDir t) = portion n b (l.filter (fun t => !isDir t)) :=
    List.filter_eq_self.2 (fun t ht => by simp [hf t ht])
  have f2 : (portion m b (l.filter isDir)).filter (fun t => !isDir t) = [] :=
    List.filter_eq_nil_iff.2 (fun t ht => by simp [hd t ht])
  have f3 : (portion n b (l.filter (fun t => !isDir t))).filter isDir = [] :=
    List.filter_eq_nil_iff.2 (fun t ht => by simp [hf t ht])
  have f4 := List.filter_eq_self.2 hd
  constructor
  · rw [List.filter_append, f1, f2, List.append_nil]
  · rw [List.filter_append, f3, f4, List.nil_append]

theorem arrange_congr (c c' : Nav) (hs : c.sub = c'.sub) (hff : c.filesFirst = c'.filesFirst) (hsort : c.sort = c'.sort)
    (e : Entry) (re re' raw raw') (he : (c.read raw re).2 = (c'.read raw' re').2)
    (hf : (c.read raw re).1.filter (fun t => !t.isDir) = (c'.read raw' re').1.filter (fun t => !t.isDir))
    (hd : (c.read raw re).1.filter (fun t => t.isDir) = (c'.read raw' re').1.filter (fun t => t.isDir)) :
    arrange c e re raw = arrange c' e re' raw' := by
  simp only [arrange, he, hf, hd, hs, hff, hsort]

/-- The sample filter lets through exactly the entries that satisfy `keep`, each kind in its order. -/
def MatchesAs (matching : Option (List Entry → List Entry)) (keep : Entry → Bool) : Prop :=
  match matching with
  | none => keep = fun _ => true
  | some m => m [] = [] ∧ ∀ l : List Tree, (l.map Tree.name).Nodup → ∀ b,
      (liftMatching m l).filter (fun t => t.isDir == b) = (l.filter (fun t => keep t.entry)).filter (fun t => t.isDir == b)

theorem sampledRead_eq (matching q) (l : List Tree) (e : Option Err) :
    sampledRead matching (some q) l e =
      (let r := defaultRead l e
       let ents := match matching with | some m => liftMatching m r.1 | none => r.1
       (portion q.files q.inReverse (ents.filter (fun t => !t.isDir)) ++
        portion q.dirs q.inReverse (ents.filter (fun t => t.isDir)), none)) := by
  cases matching <;>
    simp [sampledRead, readHook, HookCtrl.chain, HookCtrl.new, HookCtrl.tap, HookCtrl.invoke, Effective.run, sampleHook,
      matchingHook, sampleUnion_portion]

/-- What the sampling hook returns for a directory without read error. -/
theorem read_sampled (c : Nav) (matching) (keep) (q : Quota) (hread : c.read = sampledRead matching (some q))
    (hm : MatchesAs matching keep) (g : FS → Tree) (ge : ∀ k, (g k).entry = k.entry) (K : List FS) (hnames : (K.map FS.name).Nodup) :
    c.read (K.map g) none = ((sampleOf keep q K).map g, none) ∧
      defaultRead ((sampleOf keep q K).map g) none = ((sampleOf keep q K).map g, none) := by
  have gn : ∀ k, (g k).name = k.name := fun k => congrArg Entry.name (ge k)
  have gd : ∀ k, (g k).isDir = k.isDir := fun k => congrArg Entry.isDir (ge k)
  have nofil : ∀ (P : FS → Bool) (Q : Tree → Bool) (hPQ : ∀ k, Q (g k) = P k) (l : List FS),
      (l.map g).filter Q = (l.filter P).map g := by
    intro P Q hPQ l
    rw [List.filter_map]
    congr 1
    apply List.filter_congr
    intro k _; exact hPQ k
  generalize hA : (K.filter (fun k => k.name != ".DS_Store")) = A
  have hAnd : (A.map FS.name).Nodup := by
    rw [← hA]; exact hnames.sublist ((List.filter_sublist).map _)
  have hAnd' : ((A.map g).map Tree.name).Nodup := by
    rw [List.map_map]
    have : (Tree.name ∘ g) = FS.name := funext gn
    rw [this]; exact hAnd
  have hB : defaultRead (K.map g) none = (A.map g, none) := by
    simp only [defaultRead]
    rw [nofil (fun k => k.name != ".DS_Store") _ (fun k => by rw [gn]) K, hA]
  -- the entries of each kind after matching
  have hkind : ∀ b, (match matching with | some m => liftMatching m (A.map g) | none => A.map g).filter
      (fun t => t.isDir == b) = ((A.filter (fun k => keep k.entry)).filter (fun k => k.isDir == b)).map g := by
    intro b
    have h2 : ((A.map g).filter (fun t => keep t.entry)).filter (fun t => t.isDir == b) =
        ((A.filter (fun k => keep k.entry)).filter (fun k => k.isDir == b)).map g := by
      rw [nofil (fun k => keep k.entry) _ (fun k => by rw [ge]) A,
        nofil (fun k => k.isDir == b) _ (fun k => by rw [gd])]
    rw [← h2]
    cases matching with
    | none =>
      simp only [MatchesAs] at hm
      subst hm
      simp
    | some m => exact hm.2 _ hAnd' b
  have hkf := hkind false
  have hkt := hkind true
  simp only [beq_false, beq_true] at hkf hkt
  generalize hS : A.filter (fun k => keep k.entry) = S at hkf hkt
  have hsample : sampleOf keep q K = portion q.files q.inReverse (S.filter (fun k => !k.isDir)) ++
      portion q.dirs q.inReverse (S.filter (fun k => k.isDir)) := by
    simp only [sampleOf, hA, hS]
  have hnoDS : ∀ k ∈ sampleOf keep q K, (k.name != ".DS_Store") = true := by
    intro k hk
    rw [hsample] at hk
    have h3 : k ∈ S := by
      rcases List.mem_append.1 hk with hk | hk <;>
        exact (List.mem_filter.1 ((portion_sublist _ _ _).subset hk)).1
    rw [← hS] at h3
    have h4 := (List.mem_filter.1 h3).1
    rw [← hA] at h4
    exact (List.mem_filter.1 h4).2
  have hR : defaultRead ((sampleOf keep q K).map g) none = ((sampleOf keep q K).map g, none) := by
    simp only [defaultRead]
    rw [nofil (fun k => k.name != ".DS_Store") _ (fun k => by rw [gn]), List.filter_eq_self.2 hnoDS]
  have hL : c.read (K.map g) none = ((sampleOf keep q K).map g, none) := by
    rw [hread, sampledRead_eq, hB]
    simp only [hkf, hkt, portion_map, hsample, List.map_append]
  exact ⟨hL, hR⟩

theorem prep_sampled (c : Nav) (matching) (keep) (q : Quota) (hread : c.read = sampledRead matching (some q))
    (hm : MatchesAs matching keep) (f : FS) (hd : f.Distinct) :
    prep c f = prep { c with read := defaultRead } (f.sampled keep q) := by
  induction f using FS.ind with
  | hf n ie re => rfl
  | hd n ie re kids ih =>
    have hkd : ∀ k ∈ kids, k.Distinct := by
      have := hd.2
      clear hd ih
      induction kids with
      | nil => simp
      | cons a as ih => intro k hk; rcases List.mem_cons.1 hk with rfl | hk; exact this.1; exact ih this.2 k hk
    have hnd : (kids.map FS.name).Nodup := hd.1
    clear hd
    rw [prep_dir]
    cases re with
    | some x =>
      simp only [FS.sampled, Option.isSome_some, if_true]
      rw [prep_dir]
      have hnil : (c.read (kids.map (prep c)) (some x)) = ([], none) := by
        rw [hread, sampledRead_eq]
        cases matching with
        | none => simp [defaultRead, portion]
        | some m => simp [defaultRead, portion, liftMatching, hm.1]
      apply arrange_congr <;> simp [hnil, defaultRead]
    | none =>
      simp only [FS.sampled, Option.isSome_none, Bool.false_eq_true, if_false, sampledL_map]
      rw [prep_dir]
      have hraw : kids.map (prep c) = (kids.map (FS.sampled keep q)).map (prep { c with read := defaultRead }) := by
        rw [List.map_map]
        exact List.map_congr_left (fun k hk => ih k hk (hkd k hk))
      have hnames : ((kids.map (FS.sampled keep q)).map FS.name).Nodup := by
        rw [List.map_map]
        have : (FS.name ∘ FS.sampled keep q) = FS.name := by
          funext k; exact congrArg Entry.name (sampled_entry keep q k)
        rw [this]; exact hnd
      rw [hraw]
      generalize kids.map (FS.sampled keep q) = K at hnames
      generalize hg : prep { c with read := defaultRead } = g
      have ge : ∀ k, (g k).entry = k.entry := by intro k; rw [← hg]; exact prep_entry' _ k
      obtain ⟨hL, hR⟩ := read_sampled c matching keep q hread hm g ge K hnames
      apply arrange_congr
      · rfl
      · rfl
      · rfl
      · rw [hL]; exact (congrArg Prod.snd hR).symm
      · rw [hL]; exact congrArg (List.filter _) (congrArg Prod.fst hR).symm
      · rw [hL]; exact congrArg (List.filter _) (congrArg Prod.fst hR).symm

/-- Lifting a filter on entries. -/
theorem find_self (l : List Tree) (hn : (l.map Tree.name).Nodup) (t : Tree) (ht : t ∈ l) :
    l.find? (fun u => decide (u.entry = t.entry)) = some t := by
  induction l with
  | nil => simp at ht
  | cons a as ih =>
    simp only [List.map_cons, List.nodup_cons, List.mem_map, not_exists, not_and] at hn
    by_cases h : a.entry = t.entry
    · rcases List.mem_cons.1 ht with rfl | ht
      · simp
      · exact absurd (congrArg Entry.name h.symm) (hn.1 t ht)
    · rw [List.find?_cons_of_neg (by simpa using h)]
      rcases List.mem_cons.1 ht with rfl | ht
      · exact absurd rfl h
      · exact ih hn.2 ht

theorem lift_entries (l : List Tree) (hn : (l.map Tree.name).Nodup) (s : List Tree) (hs : ∀ t ∈ s, t ∈ l) :
    (s.map Tree.entry).filterMap (fun e => l.find? (fun t => decide (t.entry = e))) = s := by
  induction s with
  | nil => rfl
  | cons a as ih =>
    rw [List.map_cons, List.filterMap_cons, find_self l hn a (hs a (by simp))]
    simp only
    rw [ih (fun t ht => hs t (by simp [ht]))]


variable {σ : Type}

/-- The navigator itself looks at the subscription and the depth limit only. -/
theorem traverse_nav (c c' : Nav) (hsub : c.sub = c'.sub) (hm : c.maxDepth = c'.maxDepth) (env : Env σ) (t : Tree) :
    ∀ ps pp s, traverse c env ps pp t s = traverse c' env ps pp t s := by
  induction t using Tree.ind with
  | h e re fs ds kids ih =>
    intro ps pp s
    have hl : ∀ ps pp s, travelLoop c env ps pp kids s = travelLoop c' env ps pp kids s := by
      intro ps pp
      induction kids with
      | nil => intro s; simp [travelLoop]
      | cons k ks ihk =>
        intro s
        have ihk := ihk (fun k' hk' => ih k' (by simp [hk']))
        simp only [travelLoop, ih k (by simp)]
        generalize traverse c' env ps pp k s = r
        obtain ⟨o, s'⟩ := r
        cases o with
        | panic => rfl
        | ret b e => cases b <;> cases e <;> simp [ihk]
    have h1 : ∀ d, tooDeep c d = tooDeep c' d := by intro d; simp [tooDeep, hm]
    have h2 : ∀ ps p t d, mkNode c ps p t d = mkNode c' ps p t d := by intro ps p t d; simp only [mkNode, hsub]
    have h3 : ∀ t, readErrOf c t = readErrOf c' t := by intro t; simp only [readErrOf, hsub]
    have h4 : ∀ n re s, enter c env n re s = enter c' env n re s := by intro n re s; simp only [enter, hsub]
    simp only [traverse, h1, h2, h3, h4, hl]

theorem sampleMatching_file (E : Engine) (isGlob : Bool) (b : FBase) (hd : b.scope.isDirectory = false)
    (hf : b.scope.isFile = true) (l : List Tree) (hn : (l.map Tree.name).Nodup) :
    liftMatching (sampleMatching E isGlob b) l =
      (l.filter (fun t => !t.isDir)).filter
        (fun t => b.invert (if isGlob then E.glob b.pattern t.name else E.regex b.pattern t.name)) ++
      l.filter (fun t => t.isDir) := by
  simp only [liftMatching, sampleMatching, sampleFetch, hd, hf, Bool.false_eq_true, if_false, if_true]
  have e1 : (l.map Tree.entry).filter (fun e => !e.isDir) = (l.filter (fun t => !t.isDir)).map Tree.entry := by
    rw [List.filter_map]; rfl
  have e2 : (l.map Tree.entry).filter (fun e => e.isDir) = (l.filter (fun t => t.isDir)).map Tree.entry := by
    rw [List.filter_map]; rfl
  rw [e1, e2, List.filter_map, ← List.map_append]
  exact lift_entries l hn _ (by
    intro t ht
    rcases List.mem_append.1 ht with ht | ht
    · exact (List.mem_filter.1 (List.mem_filter.1 ht).1).1
    · exact (List.mem_filter.1 ht).1)

theorem sampleMatching_dir (E : Engine) (isGlob : Bool) (b : FBase) (hd : b.scope.isDirectory = true)
    (l : List Tree) (hn : (l.map Tree.name).Nodup) :
    liftMatching (sampleMatching E isGlob b) l =
      (l.filter (fun t => t.isDir)).filter
        (fun t => b.invert (if isGlob then E.glob b.pattern t.name else E.regex b.pattern t.name)) ++
      l.filter (fun t => !t.isDir) := by
  simp only [liftMatching, sampleMatching, sampleFetch, hd, if_true]
  have e1 : (l.map Tree.entry).filter (fun e => !e.isDir) = (l.filter (fun t => !t.isDir)).map Tree.entry := by
    rw [List.filter_map]; rfl
  have e2 : (l.map Tree.entry).filter (fun e => e.isDir) = (l.filter (fun t => t.isDir)).map Tree.entry := by
    rw [List.filter_map]; rfl
  rw [e1, e2, List.filter_map, ← List.map_append]
  exact lift_entries l hn _ (by
    intro t ht
    rcases List.mem_append.1 ht with ht | ht
    · exact (List.mem_filter.1 (List.mem_filter.1 ht).1).1
    · exact (List.mem_filter.1 ht).1)

theorem kinds_filter {α : Type} (isDir P : α → Bool) (l : List α) (k b : Bool) :
    ((l.filter (fun t => isDir t == k)).filter P ++ l.filter (fun t => isDir t == !k)).filter (fun t => isDir t == b) =
    (l.filter (fun t => if isDir t == k then P t else true)).filter (fun t => isDir t == b) := by
  have hnil : ∀ p : α → Bool, (∀ t, p t = false) → l.filter p = [] := by
    intro p h; exact List.filter_eq_nil_iff.2 (fun t _ => by simp [h t])
  have hc : ∀ p p' : α → Bool, (∀ t, p t = p' t) → l.filter p = l.filter p' := by
    intro p p' h; exact List.filter_congr (fun t _ => h t)
  rw [List.filter_append, List.filter_filter, List.filter_filter, List.filter_filter, List.filter_filter]
  by_cases hb : b = k
  · subst hb
    rw [hnil (fun a => isDir a == b && isDir a == !b) (by intro t; cases isDir t <;> cases b <;> rfl), List.append_nil]
    apply hc; intro t; cases isDir t <;> cases b <;> simp
  · have hb : b = !k := by cases b <;> cases k <;> simp_all
    subst hb
    rw [hnil (fun a => isDir a == !k && P a && isDir a == k) (by intro t; cases isDir t <;> cases k <;> simp), List.nil_append]
    apply hc; intro t; cases isDir t <;> cases k <;> simp

end Traverse
