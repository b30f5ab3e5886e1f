import Verif.Proofs.Spawn3
/-
Spawning from a place that need not be there any more.
-/
namespace Traverse
variable {σ : Type}

theorem path_le_append (l x y : List String) : l ++ x ≤ l ++ y ↔ x ≤ y := by
  induction l with
  | nil => exact Iff.rfl
  | cons a as ih =>
    rw [List.cons_append, List.cons_append, List.cons_le_cons_iff, ih]
    constructor
    · rintro (h | h)
      · exact absurd h (String.lt_irrefl _)
      · exact h.2
    · exact fun h => .inr ⟨rfl, h⟩

theorem path_not_le_prefix (l : List String) (a : String) (x : List String) : ¬ l ++ a :: x ≤ l := by
  intro h
  have : l ++ a :: x ≤ l ++ [] := by simpa using h
  rw [path_le_append] at this
  exact absurd this (by simp)

/-- The entries of a directory, and what is below them, seen from a name. -/
theorem listL_from {pp : Path} {n : String} {a : String} {x : List String} {j : Tree} {k : Path × Bool} (hk : k ∈ j.list (pp ++ [n])) :
    pp ++ n :: a :: x ≤ k.1 ↔ a < j.name ∨ (a = j.name ∧ pp ++ n :: a :: x ≤ k.1) := by
  obtain ⟨z, hz⟩ := list_prefix j _ k hk
  rw [← hz]
  have e1 : pp ++ n :: a :: x = (pp ++ [n]) ++ (a :: x) := by simp
  rw [e1, List.append_assoc (pp ++ [n]), path_le_append, List.singleton_append, List.cons_le_cons_iff]
  constructor
  · rintro (h | h)
    · exact .inl h
    · exact .inr ⟨h.1, .inr h⟩
  · rintro (h | h)
    · exact .inl h
    · exact h.2

/-- What a spawn resume lists: everything at or after the place. -/
theorem mem_spawned (as : List String) (a : String) : ∀ (t : Tree) (pp : Path) (v : Tree), t.Distinct → t.down as = some v → ∀ k,
    k ∈ Tree.listL (pp ++ t.name :: as) (v.kids.filter (fun k => decide (a ≤ k.name))) ++ behind greater as pp t ↔
      k ∈ t.list pp ∧ pp ++ t.name :: (as ++ [a]) ≤ k.1 := by
  induction as with
  | nil =>
    intro t pp v hd hv k
    simp only [Tree.down, Option.some.injEq] at hv
    subst hv
    simp only [behind, List.append_nil, List.nil_append]
    rw [list_root, List.mem_cons, listL_eq, listL_eq, List.mem_flatMap, List.mem_flatMap]
    constructor
    · rintro ⟨j, hj, hk⟩
      obtain ⟨h1, h2⟩ := List.mem_filter.1 hj
      refine ⟨.inr ⟨j, h1, hk⟩, ?_⟩
      have h2 : a ≤ j.name := by simpa using h2
      obtain ⟨z, hz⟩ := list_prefix j _ k hk
      rw [← hz, show pp ++ [t.name, a] = (pp ++ [t.name]) ++ [a] by simp, List.append_assoc (pp ++ [t.name]), path_le_append,
        List.singleton_append, List.cons_le_cons_iff]
      rcases string_le_iff.1 h2 with h | h
      · exact .inl h
      · exact .inr ⟨h, List.nil_le _⟩
    · rintro ⟨rfl | ⟨j, hj, hk⟩, hle⟩
      · have : pp ++ [t.name, a] = (pp ++ [t.name]) ++ a :: [] := by simp
        simp only at hle
        rw [this] at hle
        exact absurd hle (path_not_le_prefix _ _ _)
      · refine ⟨j, List.mem_filter.2 ⟨hj, ?_⟩, hk⟩
        have : a ≤ j.name := by
          rcases (listL_from hk).1 hle with h | h
          · exact string_le_iff.2 (.inl h)
          · exact string_le_iff.2 (.inr h.1)
        simpa using this
  | cons b as ih =>
    intro t pp v hd hv k
    simp only [Tree.down] at hv
    cases hkid : t.kid b with
    | none => simp [hkid] at hv
    | some j =>
      rw [hkid] at hv
      simp only [Option.bind_some] at hv
      obtain ⟨hj, hjn⟩ := kid_some hkid
      obtain ⟨hnd, hdk⟩ := kids_distinct hd
      have hih := ih j (pp ++ [t.name]) v (hdk j hj) hv k
      have e1 : pp ++ [t.name] ++ j.name :: as = pp ++ t.name :: b :: as := by simp [hjn]
      have e2 : pp ++ [t.name] ++ j.name :: (as ++ [a]) = pp ++ t.name :: b :: (as ++ [a]) := by simp [hjn]
      rw [e1, e2] at hih
      simp only [behind, hkid, List.cons_append]
      rw [← List.append_assoc, List.mem_append, hih, list_root t, List.mem_cons, listL_eq, listL_eq, List.mem_flatMap, List.mem_flatMap]
      constructor
      · rintro (⟨h1, h2⟩ | ⟨i, hi, hk⟩)
        · exact ⟨.inr ⟨j, hj, h1⟩, h2⟩
        · obtain ⟨h1, h2⟩ := List.mem_filter.1 hi
          exact ⟨.inr ⟨i, h1, hk⟩, (listL_from hk).2 (.inl (by simpa using h2))⟩
      · rintro ⟨rfl | ⟨i, hi, hk⟩, hle⟩
        · have : pp ++ t.name :: b :: (as ++ [a]) = (pp ++ [t.name]) ++ b :: (as ++ [a]) := by simp
          simp only at hle
          rw [this] at hle
          exact absurd hle (path_not_le_prefix _ _ _)
        · rcases (listL_from hk).1 hle with h | h
          · exact .inr ⟨i, List.mem_filter.2 ⟨hi, by simpa using h⟩, hk⟩
          · have : i = j := name_inj hnd hi hj (h.1.symm.trans hjn.symm)
            subst this
            exact .inl ⟨hk, hle⟩

/-- Nothing twice, though the place itself may be gone. -/
theorem spawned_nodup_gone {t : Tree} (hd : t.Distinct) (pre : Path) (as : List String) (a : String) (v : Tree)
    (hv : t.down as = some v) (hdv : v.Distinct) (hvn : (t.name :: as).getLast? = some v.name) :
    ((Tree.listL (pre ++ t.name :: as) (v.kids.filter (fun k => decide (a ≤ k.name))) ++ behind greater as pre t).map Prod.fst).Nodup := by
  rw [List.map_append, List.nodup_append]
  obtain ⟨q, hq⟩ : ∃ q, pre ++ t.name :: as = q ++ [v.name] := by
    obtain ⟨ys, hys⟩ := List.getLast?_eq_some_iff.1 hvn
    exact ⟨pre ++ ys, by rw [hys]; simp⟩
  refine ⟨?_, behind_nodup greater _ greater_behind greater_sublist t pre v hv hd, ?_⟩
  · rw [hq]
    exact listL_nodup v hdv q List.filter_sublist
  · intro x hx y hy hxy
    obtain ⟨k, hk, rfl⟩ := List.mem_map.1 hx
    obtain ⟨k', hk', rfl⟩ := List.mem_map.1 hy
    obtain ⟨j, -, -, h3⟩ := listL_name hk
    refine behind_off greater _ greater_behind t pre v hv hd k' hk' ?_
    rw [← hxy]
    exact (List.prefix_append _ _).trans h3

theorem down_name (as : List String) : ∀ (t : Tree) v, t.down as = some v → (t.name :: as).getLast? = some v.name := by
  induction as with
  | nil => intro t v h; simp only [Tree.down, Option.some.injEq] at h; subst h; rfl
  | cons a as ih =>
    intro t v h
    simp only [Tree.down] at h
    cases hk : t.kid a with
    | none => simp [hk] at h
    | some k =>
      rw [hk] at h
      have := ih k v h
      rw [(kid_some hk).2] at this
      rw [List.getLast?_cons_cons]
      exact this

/-- The same from a place in a directory that can be listed. -/
theorem crown_gone {c : Nav} {stat disk pre t} (H : Spawnable c stat disk pre t) {env : Env σ} {I : St σ → Prop}
    (hI : Accepting c env I) (fault) (as : List String) (a : String) (v : Tree) (hv : t.down as = some v)
    (hf : following c disk (pre ++ t.name :: as) a true = .ok ((v.kids.filter (fun k => decide (a ≤ k.name))).map Tree.name))
    (s : St σ) (hs : I s) :
    ∃ s', crown c env fault stat disk (pre ++ [t.name]) (pre ++ t.name :: (as ++ [a])).reverse true s = (.done none, true, s') ∧ I s' ∧
      shown s'.log = shown s.log ++ (Tree.listL (pre ++ t.name :: as) (v.kids.filter (fun k => decide (a ≤ k.name)))
        ++ behind greater as pre t).filter (shows c) := by
  have hat := down_at _ t pre v hv
  have hr : (pre ++ t.name :: (as ++ [a])).reverse = a :: (as.reverse ++ t.name :: pre.reverse) := by simp
  have hp : (as.reverse ++ t.name :: pre.reverse).reverse = pre ++ t.name :: as := by simp
  have hne : (a :: (as.reverse ++ t.name :: pre.reverse)).reverse ≠ pre ++ [t.name] := by
    intro h
    have := congrArg List.length h
    simp at this
  rw [hr, crown, if_neg hne, hp, hf]
  obtain ⟨g1, g2, g3, g4⟩ := seed_accepting H hI fault _ v hat (v.kids.filter (fun k => decide (a ≤ k.name)))
    (fun k hk => (List.mem_filter.1 hk).1) s hs
  simp only
  rcases hsd : seed c env fault stat (pre ++ t.name :: as) _ s with ⟨f, s1⟩
  rw [hsd] at g1 g3 g4
  simp only at g1 g3 g4
  subst g1
  obtain ⟨s', h1, h1', h2⟩ := crown_accepting H hI fault as.reverse v (by simpa using hv) s1 g3
  refine ⟨s', h1, h1', ?_⟩
  rw [h2, g4, List.reverse_reverse, List.filter_append, List.append_assoc]

/-- The entries of a directory that can be listed, from a name on. -/
theorem following_listed (key) (c : Nav) (disk : Disk) (p : Path) (g : FS) (hread : c.read = defaultRead)
    (hsort : SortsBy key c.sort) (hsub : c.sub = .universal ∨ c.sub = .files) (hkeys : g.KeysDiffer key) (hdisk : disk p = .ok g)
    (hre : (disk.list p).2 = none) (a : String) (incl : Bool) :
    following c disk p a incl =
      .ok (((prep c g).kids.filter (fun k => if incl then decide (a ≤ k.name) else decide (a < k.name))).map Tree.name) := by
  simp only [following, Disk.list, hdisk] at hre ⊢
  cases g with
  | file n ie re =>
    simp only at hre
    subst hre
    simp [prep, prepList, hread, defaultRead, fromAnchor, (hsort []).1.eq_nil]
  | dir n ie re kids =>
    simp only at hre
    subst hre
    rw [prep_dir, arrange_kids c _ _ _ hsub]
    rw [FS.KeysDiffer] at hkeys
    have hn := kinds_read key c kids hkeys.1
    simp only [prepList_eq, hread]
    have hdr : defaultRead (kids.map (prep c)) none = ((defaultRead (kids.map (prep c)) none).1, none) := rfl
    rw [hdr]
    simp only
    generalize (defaultRead (kids.map (prep c)) none).1 = E at hn
    have hT := hn true
    have hF := hn false
    simp only [beq_true, beq_false] at hT hF
    simp only [fromAnchor]
    have swap : ∀ P Q : Tree → Bool, (E.filter P).filter Q = (E.filter Q).filter P := by
      intro P Q; rw [List.filter_filter, List.filter_filter]; apply List.filter_congr; intro x _; exact Bool.and_comm _ _
    rw [swap _ (fun t => !t.isDir), swap _ (fun t => t.isDir), hsort.filter _ _ hF, hsort.filter _ _ hT]
    split <;> rw [List.filter_append]

/-- A place is visited if every directory on the way to it can be listed. -/
theorem at_nodes (as : List String) : ∀ (pre : Path) (fs g : FS), FS.At pre fs (pre ++ fs.name :: as) g → ".DS_Store" ∉ as →
    (∀ bs h, (bs <+: as ∧ bs ≠ as) → FS.At pre fs (pre ++ fs.name :: bs) h → ∀ n i e kids, h ≠ .dir n i (some e) kids) → fs.Distinct →
    (pre ++ fs.name :: as, g.isDir) ∈ fs.nodes pre := by
  induction as with
  | nil =>
    intro pre fs g hat _ _ hd
    have : g = fs := hat.unique hd _ (.here pre fs)
    subst this
    cases g <;> simp [FS.nodes, FS.isDir, FS.name]
  | cons a as ih =>
    intro pre fs g hat hds hl hd
    generalize hp : pre ++ fs.name :: a :: as = p at hat
    cases hat with
    | here => have := congrArg List.length hp; simp at this
    | @inside _ n ie re kids k _ _ hk h =>
      have hkn : k.name = a := by
        have h1 := h.pre_prefix
        rw [← hp] at h1
        have h2 : (pre ++ [n] ++ [a]) <+: pre ++ FS.name (.dir n ie re kids) :: a :: as := ⟨as, by simp [FS.name]⟩
        exact prefix_snoc_inj h1 h2
      subst hkn
      have hre : re = none := by
        cases re with
        | none => rfl
        | some e => exact absurd rfl (hl [] _ ⟨List.nil_prefix, by simp⟩ (.here pre _) n ie e kids)
      subst hre
      rw [FS.Distinct, FS.distinctL_iff] at hd
      have e1 : pre ++ [n] ++ k.name :: as = p := by rw [← hp]; simp [FS.name]
      have := ih (pre ++ [n]) k g (by rw [e1]; exact h) (fun hm => hds (by simp [hm])) (by
        intro bs f hbs hf
        refine hl (k.name :: bs) f ⟨?_, ?_⟩ (.inside hk (by simpa [FS.name] using hf))
        · obtain ⟨z, hz⟩ := hbs.1; exact ⟨z, by simp [hz]⟩
        · intro he; exact hbs.2 (List.cons.inj he).2) (hd.2 k hk)
      rw [e1] at this
      rw [FS.nodes]
      refine List.mem_cons_of_mem _ ?_
      simp only [Option.isSome_none, Bool.false_eq_true, if_false]
      have hne : k.name ≠ ".DS_Store" := fun he => hds (by simp [he])
      clear hl hp hd ih e1 h
      induction kids with
      | nil => simp at hk
      | cons f kids ihk =>
        rw [FS.nodesL, List.mem_append]
        rcases List.mem_cons.1 hk with rfl | hk
        · rw [if_neg hne]; exact .inl this
        · exact .inr (ihk hk)

end Traverse
