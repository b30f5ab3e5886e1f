import Verif.Proofs.Spawn5
/-
Spawning under the Directories subscriptions: the files beside the way are delivered too.
-/
namespace Traverse
variable {σ : Type}

/-- The directories of a listing. -/
abbrev dirsOf (l : List (Path × Bool)) : List (Path × Bool) := l.filter (fun k => k.2)

theorem dirsOf_append (l r : List (Path × Bool)) : dirsOf (l ++ r) = dirsOf l ++ dirsOf r := List.filter_append ..

/-- What a spawn resume can rely on under the Directories subscriptions: `t` is the tree as the first session met it. -/
structure SpawnableD (c : Nav) (stat : Path → RootStat) (disk : Disk) (pre : Path) (t : Tree) : Prop where
  depth : c.maxDepth = 0
  fine : ∀ p u, Tree.At pre t p u → u.Fine c
  seeds : ∀ p u, Tree.At pre t p u → ∀ a incl, a ∈ u.kids.map Tree.name → ∃ L : List Tree,
    following c disk p a incl = .ok (L.map Tree.name) ∧
    L.filter (fun k => k.isDir) = u.kids.filter (fun k => if incl then decide (a ≤ k.name) else decide (a < k.name)) ∧
    (∀ k ∈ L, stat (p ++ [k.name]) = .found k ∧ k.Fine c ∧ (k.isDir = false → k.kids = [])) ∧
    ∀ k ∈ L, a ≤ k.name ∧ (k.isDir = true → ∀ pp, ∀ x ∈ k.list pp, x.2 = true) ∧ (incl = false → a < k.name)

/-- A file beside the way to `p`, at or after it. -/
def BesideWay (p : Path) (k : Path × Bool) : Prop := k.1.dropLast <+: p ∧ p ≤ k.1

theorem beside_seed {q : Path} {a : String} {z : List String} {L : List Tree} (hz : z = [] ∨ ∀ k ∈ L, k.isDir = false → a < k.name)
    (hf : ∀ k ∈ L, (k.isDir = false → k.kids = []))
    (hL : ∀ k ∈ L, a ≤ k.name ∧ (k.isDir = true → ∀ pp, ∀ x ∈ k.list pp, x.2 = true)) {k : Path × Bool} (hk : k ∈ Tree.listL q L) (hd : k.2 = false) :
    BesideWay (q ++ a :: z) k := by
  obtain ⟨j, hj, hk, -⟩ := listL_name hk
  rcases hjd : j.isDir with _ | _
  · rw [list_root, hf j hj hjd, List.mem_cons] at hk
    rcases hk with rfl | hk
    · refine ⟨?_, ?_⟩
      · simp only [List.dropLast_concat]; exact List.prefix_append _ _
      · simp only
        rw [path_le_append, List.cons_le_cons_iff]
        rcases string_le_iff.1 (hL j hj).1 with h | h
        · exact .inl h
        · rcases hz with rfl | hz
          · exact .inr ⟨h, List.nil_le _⟩
          · exact .inl (hz j hj hjd)
    · simp [Tree.listL] at hk
  · have := (hL j hj).2 hjd _ k hk
    rw [hd] at this; cases this

theorem seedD_accepting {c : Nav} {stat} (hdepth : c.maxDepth = 0) (hsub : c.sub ≠ .files) {env : Env σ} {I : St σ → Prop}
    (hI : Accepting c env I) (fault) (q : Path) (L : List Tree) :
    (∀ k ∈ L, stat (q ++ [k.name]) = .found k ∧ k.Fine c ∧ (k.isDir = false → k.kids = [])) →
    ∀ s : St σ, I s →
    (seed c env fault stat q (L.map Tree.name) s).1 = .done none ∧
    I (seed c env fault stat q (L.map Tree.name) s).2 ∧
    dirsOf (shown (seed c env fault stat q (L.map Tree.name) s).2.log) =
      dirsOf (shown s.log) ++ dirsOf (Tree.listL q (L.filter (fun k => k.isDir))) ∧
    (∀ k ∈ shown (seed c env fault stat q (L.map Tree.name) s).2.log, k.2 = false → k ∈ shown s.log ∨ k ∈ Tree.listL q L) := by
  induction L with
  | nil => intro _ s hs; exact ⟨rfl, hs, by simp [seed, Tree.listL], fun k hk _ => .inl hk⟩
  | cons k L ih =>
    intro hk s hs
    obtain ⟨hst, hfine, hfile⟩ := hk k (by simp)
    obtain ⟨h1, h2, h3, h4⟩ := traverse_accepting c env hdepth hI q k hfine s hs
    have hsh : (k.list q).filter (shows c) = k.list q := by
      rw [List.filter_eq_self]; intro x _; simp [shows, hsub]
    rw [hsh] at h4
    have ht : top c env fault q (q ++ [k.name]) (stat (q ++ [k.name])) s =
        (.done none, (traverse c env [] q k s).2) := by
      rw [hst]; simp only [top, h1]
    simp only [List.map_cons, seed, ht]
    obtain ⟨g1, g3, g4, g5⟩ := ih (fun j hj => hk j (by simp [hj])) _ h3
    refine ⟨g1, g3, ?_, ?_⟩
    · rw [g4, h4, dirsOf_append]
      by_cases hd : k.isDir = true
      · rw [List.filter_cons, if_pos hd, Tree.listL, dirsOf_append, List.append_assoc]
      · have hd' : k.isDir = false := by simpa using hd
        rw [List.filter_cons, if_neg hd, list_root, hfile hd', hd']
        simp [dirsOf, Tree.listL]
    · intro x hx hf
      rcases g5 x hx hf with hx | hx
      · rw [h4] at hx
        rcases List.mem_append.1 hx with hx | hx
        · exact .inl hx
        · exact .inr (by rw [Tree.listL]; exact List.mem_append_left _ hx)
      · exact .inr (by rw [Tree.listL]; exact List.mem_append_right _ hx)

theorem crownD_accepting {c : Nav} {stat disk pre t} (H : SpawnableD c stat disk pre t) (hsub : c.sub ≠ .files) {env : Env σ} {I : St σ → Prop}
    (hI : Accepting c env I) (fault) (ras : List String) : ∀ u, t.down ras.reverse = some u →
    ∀ s : St σ, I s →
    ∃ s', crown c env fault stat disk (pre ++ [t.name]) (ras ++ t.name :: pre.reverse) false s = (.done none, true, s') ∧ I s' ∧
      dirsOf (shown s'.log) = dirsOf (shown s.log) ++ dirsOf (behind greater ras.reverse pre t) ∧
      ∀ z, ∀ k ∈ shown s'.log, k.2 = false → k ∈ shown s.log ∨ BesideWay (pre ++ t.name :: ras.reverse ++ z) k := by
  induction ras with
  | nil =>
    intro u _ s hs
    refine ⟨s, ?_, hs, by simp [behind], fun z k hk _ => .inl hk⟩
    simp [crown]
  | cons a ras ih =>
    intro u hu s hs
    simp only [List.reverse_cons] at hu ⊢
    obtain ⟨v, hv, hk⟩ := down_snoc _ a t u hu
    have hat := down_at _ t pre v hv
    have hp : (ras ++ t.name :: pre.reverse).reverse = pre ++ t.name :: ras.reverse := by simp
    have hne : (a :: (ras ++ t.name :: pre.reverse)).reverse ≠ pre ++ [t.name] := by
      intro h
      have := congrArg List.length h
      simp at this
    obtain ⟨L, hf, hL, hseeds, hrest⟩ := H.seeds _ _ hat a false (List.mem_map.2 ⟨u, (kid_some hk).1, (kid_some hk).2⟩)
    rw [List.cons_append, crown, if_neg hne, hp, hf]
    obtain ⟨g1, g3, g4, g5⟩ := seedD_accepting H.depth hsub hI fault _ L hseeds s hs
    simp only
    rcases hsd : seed c env fault stat (pre ++ t.name :: ras.reverse) _ s with ⟨f, s1⟩
    rw [hsd] at g1 g3 g4 g5
    simp only at g1 g3 g4 g5
    subst g1
    obtain ⟨s', h1, h1', h2, h3⟩ := ih v hv s1 g3
    refine ⟨s', h1, h1', ?_, ?_⟩
    · rw [h2, g4, hL, behind_snoc greater _ a pre t v hv, dirsOf_append, List.append_assoc]
      rfl
    · intro z k hk hd
      have e : pre ++ t.name :: (ras.reverse ++ [a]) ++ z = (pre ++ t.name :: ras.reverse) ++ a :: z := by simp
      rw [e]
      rcases h3 (a :: z) k hk hd with hk | hk
      · rcases g5 k hk hd with hk | hk
        · exact .inl hk
        · exact .inr (beside_seed (.inr fun j hj _ => (hrest j hj).2.2 rfl) (fun j hj => (hseeds j hj).2.2) (fun j hj => ⟨(hrest j hj).1, (hrest j hj).2.1⟩) hk hd)
      · exact .inr hk

theorem crownD_from {c : Nav} {stat disk pre t} (H : SpawnableD c stat disk pre t) (hsub : c.sub ≠ .files) {env : Env σ} {I : St σ → Prop}
    (hI : Accepting c env I) (fault) (as : List String) (a : String) (v u : Tree) (hv : t.down as = some v) (hk : v.kid a = some u)
    (s : St σ) (hs : I s) :
    ∃ s', crown c env fault stat disk (pre ++ [t.name]) (pre ++ t.name :: (as ++ [a])).reverse true s = (.done none, true, s') ∧ I s' ∧
      dirsOf (shown s'.log) = dirsOf (shown s.log) ++ dirsOf (Tree.listL (pre ++ t.name :: as) (v.kids.filter (fun k => decide (a ≤ k.name)))
        ++ behind greater as pre t) ∧
      ∀ k ∈ shown s'.log, k.2 = false → k ∈ shown s.log ∨ BesideWay (pre ++ t.name :: (as ++ [a])) k := by
  have hat := down_at _ t pre v hv
  have hr : (pre ++ t.name :: (as ++ [a])).reverse = a :: (as.reverse ++ t.name :: pre.reverse) := by simp
  have hp : (as.reverse ++ t.name :: pre.reverse).reverse = pre ++ t.name :: as := by simp
  have hne : (a :: (as.reverse ++ t.name :: pre.reverse)).reverse ≠ pre ++ [t.name] := by
    intro h
    have := congrArg List.length h
    simp at this
  obtain ⟨L, hf, hL, hseeds, hrest⟩ := H.seeds _ _ hat a true (List.mem_map.2 ⟨u, (kid_some hk).1, (kid_some hk).2⟩)
  rw [hr, crown, if_neg hne, hp, hf]
  obtain ⟨g1, g3, g4, g5⟩ := seedD_accepting H.depth hsub hI fault _ L hseeds s hs
  simp only
  rcases hsd : seed c env fault stat (pre ++ t.name :: as) _ s with ⟨f, s1⟩
  rw [hsd] at g1 g3 g4 g5
  simp only at g1 g3 g4 g5
  subst g1
  obtain ⟨s', h1, h1', h2, h3⟩ := crownD_accepting H hsub hI fault as.reverse v (by simpa using hv) s1 g3
  refine ⟨s', h1, h1', ?_, ?_⟩
  · rw [h2, g4, hL, List.reverse_reverse, dirsOf_append, List.append_assoc]
    simp only [if_true]
  · intro k hk hd
    have e : pre ++ t.name :: (as ++ [a]) = (pre ++ t.name :: as) ++ a :: [] := by simp
    have h3 := h3 [a] k hk hd
    rw [List.reverse_reverse] at h3
    rw [e]
    rcases h3 with hk | hk
    · rcases g5 k hk hd with hk | hk
      · exact .inl hk
      · exact .inr (beside_seed (.inl rfl) (fun j hj => (hseeds j hj).2.2) (fun j hj => ⟨(hrest j hj).1, (hrest j hj).2.1⟩) hk hd)
    · exact .inr hk

/-- The trees of a Directories session have directories below the root only. -/
theorem listed_dirs (c : Nav) (hp : SortPermutes c) (hread : c.read = defaultRead)
    (hsub : c.sub = .directories ∨ c.sub = .directoriesWithFiles) (f : FS) :
    f.isDir = true → ∀ pp, ∀ k ∈ (prep c f).list pp, k.2 = true := by
  induction f using FS.ind with
  | hf n ie re => intro h; cases h
  | hd n ie re kids ih =>
    intro _ pp k hk
    rw [list_root, List.mem_cons] at hk
    rcases hk with rfl | hk
    · exact (prep_entry c _).2
    · obtain ⟨j, hj, hk, -⟩ := listL_name hk
      rw [prep_dir, arrange_kids_dirs c _ _ _ hsub] at hj
      obtain ⟨h1, h2⟩ := List.mem_filter.1 ((hp _).mem_iff.1 hj)
      have h3 : j ∈ kids.map (prep c) := by
        rw [hread] at h1
        cases re with
        | some e => simp [defaultRead] at h1
        | none => exact (List.filter_sublist).subset h1
      obtain ⟨g, hg, rfl⟩ := List.mem_map.1 h3
      exact ih g hg (by rw [← (prep_entry c g).2]; exact h2) _ k hk

/-- What a spawn resume relies on, on a file system. -/
theorem spawnableD_of (key) (c : Nav) (stat disk) (pre : Path) (fs : FS) (hdepth : c.maxDepth = 0) (hread : c.read = defaultRead)
    (hsort : SortsBy key c.sort) (hsub : c.sub = .directories ∨ c.sub = .directoriesWithFiles)
    (hdistinct : fs.Distinct) (hkeys : fs.KeysDiffer key) (hdisk : ∀ p g, FS.At pre fs p g → disk p = .ok g)
    (hstat : ∀ p g, FS.At pre fs p g → stat p = .found (prep c g)) : SpawnableD c stat disk pre (prep c fs) := by
  have hp := hsort.permutes
  have hsel := defaultRead_selects c hread
  have hfine : ∀ g p, FS.At pre fs p g → (prep c g).Fine c := fun g p hg =>
    ⟨prep_wf c hp hsel g, prep_distinct c hp hsel g (hg.distinct hdistinct), fun _ => prep_shut c hp hread g⟩
  refine ⟨hdepth, ?_, ?_⟩
  · intro p u hu
    obtain ⟨g, hg, rfl⟩ := hu.prep hp hsel fs rfl
    exact hfine g p hg
  · intro p u hu a incl ha
    obtain ⟨g, hg, rfl⟩ := hu.prep hp hsel fs rfl
    have hk := hg.keysDiffer hkeys
    cases g with
    | file => simp [prep] at ha
    | dir n ie re kids =>
      cases re with
      | some e => rw [prep_dir, arrange_kids_dirs c _ _ _ hsub] at ha; simp [hread, defaultRead, (hsort []).1.eq_nil] at ha
      | none =>
        rw [FS.KeysDiffer] at hk
        have hn := kinds_read key c kids hk.1
        have hfol : following c disk p a incl = .ok ((if c.filesFirst then
            c.sort ((fromAnchor a incl (defaultRead (kids.map (prep c)) none).1).filter (fun t => !t.isDir)) ++
              c.sort ((fromAnchor a incl (defaultRead (kids.map (prep c)) none).1).filter (fun t => t.isDir))
            else c.sort ((fromAnchor a incl (defaultRead (kids.map (prep c)) none).1).filter (fun t => t.isDir)) ++
              c.sort ((fromAnchor a incl (defaultRead (kids.map (prep c)) none).1).filter (fun t => !t.isDir))).map Tree.name) := by
          simp only [following, Disk.list, hdisk p _ hg, prepList_eq, hread]
          rfl
        refine ⟨_, hfol, ?_, ?_⟩
        · rw [prep_dir, arrange_kids_dirs c _ _ _ hsub, hread]
          have hnone : ∀ l : List Tree, (c.sort (l.filter (fun t => !t.isDir))).filter (fun k => k.isDir) = [] := by
            intro l
            rw [List.filter_eq_nil_iff]
            intro x hx
            have := (List.mem_filter.1 ((hp _).mem_iff.1 hx)).2
            simpa using this
          have hsome : ∀ l : List Tree, (c.sort (l.filter (fun t => t.isDir))).filter (fun k => k.isDir) = c.sort (l.filter (fun t => t.isDir)) := by
            intro l
            rw [List.filter_eq_self]
            intro x hx
            exact (List.mem_filter.1 ((hp _).mem_iff.1 hx)).2
          have hT := hn true
          simp only [beq_true] at hT
          have swap : ∀ (E : List Tree) (P Q : Tree → Bool), (E.filter P).filter Q = (E.filter Q).filter P := by
            intro E P Q; rw [List.filter_filter, List.filter_filter]; apply List.filter_congr; intro x _; exact Bool.and_comm _ _
          split
          · rw [List.filter_append, hnone, hsome, List.nil_append, fromAnchor, swap, hsort.filter _ _ hT]
          · rw [List.filter_append, hnone, hsome, List.append_nil, fromAnchor, swap, hsort.filter _ _ hT]
        · have hmem : ∀ k ∈ (if c.filesFirst then
              c.sort ((fromAnchor a incl (defaultRead (kids.map (prep c)) none).1).filter (fun t => !t.isDir)) ++
                c.sort ((fromAnchor a incl (defaultRead (kids.map (prep c)) none).1).filter (fun t => t.isDir))
              else c.sort ((fromAnchor a incl (defaultRead (kids.map (prep c)) none).1).filter (fun t => t.isDir)) ++
                c.sort ((fromAnchor a incl (defaultRead (kids.map (prep c)) none).1).filter (fun t => !t.isDir))),
              (∃ g ∈ kids, k = prep c g) ∧ if incl then a ≤ k.name else a < k.name := by
            intro k hk
            have hk' : k ∈ fromAnchor a incl (defaultRead (kids.map (prep c)) none).1 := by
              split at hk <;> rcases List.mem_append.1 hk with hk | hk <;> exact (List.mem_filter.1 ((hp _).mem_iff.1 hk)).1
            obtain ⟨h1, h2⟩ := List.mem_filter.1 hk'
            have h3 : k ∈ kids.map (prep c) := (List.filter_sublist).subset h1
            obtain ⟨g, hg, rfl⟩ := List.mem_map.1 h3
            refine ⟨⟨g, hg, rfl⟩, ?_⟩
            cases incl <;> simpa using h2
          refine ⟨?_, ?_⟩
          · intro k hk
            obtain ⟨⟨g, hgk, rfl⟩, -⟩ := hmem k hk
            have hat : FS.At pre fs (p ++ [g.name]) g := hg.inside_kid rfl g hgk
            refine ⟨by rw [(prep_entry c g).1]; exact hstat _ _ hat, hfine g _ hat, ?_⟩
            intro hd
            rw [(prep_entry c g).2] at hd
            cases g with
            | file => simp [prep]
            | dir => cases hd
          · intro k hk
            obtain ⟨⟨g, hgk, rfl⟩, ha⟩ := hmem k hk
            refine ⟨?_, ?_, ?_⟩
            · cases incl
              · exact string_le_iff.2 (.inl (by simpa using ha))
              · simpa using ha
            · intro hd
              exact listed_dirs c hp hread hsub g (by rw [← (prep_entry c g).2]; exact hd)
            · rintro rfl; simpa using ha

end Traverse
