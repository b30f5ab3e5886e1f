import Verif.Proofs.Spawn2
/-
Spawning visits nothing twice.
-/
namespace Traverse
variable {σ : Type}

theorem list_nodup (t : Tree) (hd : t.Distinct) (pp : Path) : ((t.list pp).map Prod.fst).Nodup := by
  let c : Nav := { sub := .universal, read := fun l e => (l, e), sort := id }
  rw [← items_list c rfl t [] pp 0, List.map_map]
  exact (items_preOrder c t hd [] pp 0).nodup

theorem listL_sublist {l m : List Tree} (h : l.Sublist m) (pp : Path) : (Tree.listL pp l).Sublist (Tree.listL pp m) := by
  induction h with
  | slnil => exact .slnil
  | cons a h ih => rw [Tree.listL]; exact ih.trans (List.sublist_append_right _ _)
  | cons_cons a h ih => rw [Tree.listL, Tree.listL]; exact (List.Sublist.refl _).append ih

theorem listL_nodup (t : Tree) (hd : t.Distinct) (pp : Path) {l : List Tree} (h : l.Sublist t.kids) :
    ((Tree.listL (pp ++ [t.name]) l).map Prod.fst).Nodup := by
  have h1 := list_nodup t hd pp
  rw [list_root, List.map_cons, List.nodup_cons] at h1
  exact h1.2.sublist ((listL_sublist h _).map _)

/-- What lies behind a path does not lie below it. -/
theorem behind_off (sel) (as : List String) (hs : Behind sel) : ∀ (t : Tree) pp u, t.down as = some u → t.Distinct →
    ∀ k ∈ behind sel as pp t, ¬ (pp ++ t.name :: as) <+: k.1 := by
  induction as with
  | nil => intro t pp u _ _ k hk; simp [behind] at hk
  | cons a as ih =>
    intro t pp u h hd k hk hpre
    simp only [Tree.down] at h
    cases hkid : t.kid a with
    | none => simp [hkid] at h
    | some j =>
      rw [hkid] at h
      simp only [behind, hkid, List.mem_append] at hk
      obtain ⟨h1, h2⟩ := kid_some hkid
      obtain ⟨hnd, hdk⟩ := kids_distinct hd
      rcases hk with hk | hk
      · refine ih j (pp ++ [t.name]) u h (hdk j h1) k hk ?_
        rw [h2]; simpa using hpre
      · obtain ⟨i, hi, _, h3⟩ := listL_name hk
        have h4 : (pp ++ [t.name] ++ [a]) <+: k.1 := List.IsPrefix.trans ⟨as, by simp⟩ hpre
        exact (hs a _ hnd i hi).2 (prefix_snoc_inj h3 h4)

/-- Nothing lies behind a path twice. -/
theorem behind_nodup (sel) (as : List String) (hs : Behind sel) (hsub : ∀ a l, (sel a l).Sublist l) : ∀ (t : Tree) pp u,
    t.down as = some u → t.Distinct → ((behind sel as pp t).map Prod.fst).Nodup := by
  induction as with
  | nil => intro t pp u _ _; simp [behind]
  | cons a as ih =>
    intro t pp u h hd
    simp only [Tree.down] at h
    cases hkid : t.kid a with
    | none => simp [hkid] at h
    | some j =>
      rw [hkid] at h
      obtain ⟨h1, h2⟩ := kid_some hkid
      obtain ⟨hnd, hdk⟩ := kids_distinct hd
      simp only [behind, hkid, List.map_append]
      rw [List.nodup_append]
      refine ⟨ih j (pp ++ [t.name]) u h (hdk j h1), listL_nodup t hd pp (hsub _ _), ?_⟩
      intro x hx y hy hxy
      obtain ⟨k, hk, rfl⟩ := List.mem_map.1 hx
      obtain ⟨k', hk', rfl⟩ := List.mem_map.1 hy
      have h3 := behind_prefix sel as hs j (pp ++ [t.name]) u h (hdk j h1) k hk
      obtain ⟨i, hi, _, h4⟩ := listL_name hk'
      rw [← hxy] at h4
      exact (hs a _ hnd i hi).2 ((prefix_snoc_inj h4 h3).trans h2)

theorem greater_sublist (a) (l) : (greater a l).Sublist l := List.filter_sublist

theorem path_dropLast (pre : Path) (n : String) (as : List String) (a : String) :
    (pre ++ n :: (as ++ [a])).dropLast = pre ++ n :: as := by
  have : pre ++ n :: (as ++ [a]) = (pre ++ n :: as) ++ [a] := by simp
  rw [this, List.dropLast_concat]

/-- What crown lists, up to the order of siblings of the saved path. -/
theorem spawned_perm {t : Tree} (hd : t.Distinct) (pre : Path) (as : List String) (a : String) (v u : Tree)
    (hv : t.down as = some v) (hk : v.kid a = some u) (hdv : v.Distinct) :
    (Tree.listL (pre ++ t.name :: as) (v.kids.filter (fun k => decide (a ≤ k.name))) ++ behind greater as pre t).Perm
      (u.list (pre ++ t.name :: as) ++ behind greater (as ++ [a]) pre t) := by
  rw [behind_snoc greater as a pre t v hv, ← List.append_assoc]
  refine List.Perm.append_right _ ?_
  obtain ⟨h1, h2⟩ := kid_some hk
  have := atLeast_perm (kids_distinct hdv).1 h1 h2
  rw [listL_eq]
  refine (this.flatMap_right _).trans ?_
  rw [List.flatMap_cons, ← listL_eq]

theorem spawned_nodup {t : Tree} (hd : t.Distinct) (pre : Path) (as : List String) (a : String) (v u : Tree)
    (hu : t.down (as ++ [a]) = some u) (hv : t.down as = some v) (hk : v.kid a = some u) (hdv : v.Distinct) :
    ((Tree.listL (pre ++ t.name :: as) (v.kids.filter (fun k => decide (a ≤ k.name))) ++ behind greater as pre t).map Prod.fst).Nodup := by
  refine ((spawned_perm hd pre as a v u hv hk hdv).map _).nodup_iff.2 ?_
  obtain ⟨h1, h2⟩ := kid_some hk
  rw [List.map_append, List.nodup_append]
  refine ⟨list_nodup u ((kids_distinct hdv).2 u h1) _, behind_nodup greater _ greater_behind greater_sublist t pre u hu hd, ?_⟩
  intro x hx y hy hxy
  obtain ⟨k, hk, rfl⟩ := List.mem_map.1 hx
  obtain ⟨k', hk', rfl⟩ := List.mem_map.1 hy
  have h3 := list_prefix u _ k hk
  refine behind_off greater _ greater_behind t pre u hu hd k' hk' ?_
  rw [← hxy]
  rw [h2] at h3
  simpa using h3

/-- What crown lists is what remained only if names are in order. -/
theorem inOrder_of_spawned {t : Tree} (hd : t.Distinct) (pre : Path) (as : List String) (a : String) (v u : Tree)
    (hu : t.down (as ++ [a]) = some u) (hv : t.down as = some v) (hk : v.kid a = some u) (hdv : v.Distinct)
    (h : ∀ k, k ∈ Tree.listL (pre ++ t.name :: as) (v.kids.filter (fun k => decide (a ≤ k.name))) ++ behind greater as pre t ↔
      k ∈ (t.list pre).dropWhile (fun k => k.1 != pre ++ t.name :: (as ++ [a]))) : InOrder (as ++ [a]) t := by
  refine inOrder_of_same _ t pre u hu hd (fun k => ?_)
  have h := h k
  rw [(spawned_perm hd pre as a v u hv hk hdv).mem_iff, remaining_eq _ t pre u hu hd, path_dropLast, List.mem_append,
    List.mem_append] at h
  have hin : k ∈ u.list (pre ++ t.name :: as) → (pre ++ t.name :: (as ++ [a])) <+: k.1 := by
    intro hk'
    have h3 := list_prefix u _ k hk'
    rw [(kid_some hk).2] at h3
    simpa using h3
  constructor
  · intro hg
    exact (h.1 (Or.inr hg)).resolve_left (fun hl => behind_off greater _ greater_behind t pre u hu hd k hg (hin hl))
  · intro hg
    exact (h.2 (Or.inr hg)).resolve_left (fun hl => behind_off later _ later_behind t pre u hu hd k hg (hin hl))

end Traverse

namespace Traverse
variable {σ : Type}

/-- All about crown: what it visits, nothing twice, and when that is what remained. -/
theorem crown_spec {c : Nav} {stat disk pre t} (H : Spawnable c stat disk pre t) (hd : t.Distinct) {env : Env σ} {I : St σ → Prop}
    (hI : Accepting c env I) (fault) (as : List String) (a : String) (u : Tree) (hu : t.down (as ++ [a]) = some u)
    (s : St σ) (hs : I s) :
    ∃ s' R, crown c env fault stat disk (pre ++ [t.name]) (pre ++ t.name :: (as ++ [a])).reverse true s = (.done none, true, s') ∧ I s' ∧
      shown s'.log = shown s.log ++ R.filter (shows c) ∧ (R.map Prod.fst).Nodup ∧
      (InOrder (as ++ [a]) t → R = (t.list pre).dropWhile (fun k => k.1 != pre ++ t.name :: (as ++ [a]))) ∧
      ((∀ k, k ∈ R ↔ k ∈ (t.list pre).dropWhile (fun k => k.1 != pre ++ t.name :: (as ++ [a]))) → InOrder (as ++ [a]) t) := by
  obtain ⟨v, hv, hk⟩ := down_snoc as a t u hu
  obtain ⟨s', h1, h1', h2⟩ := crown_from H hI fault as a v u hv hk s hs
  have hdv : v.Distinct := (H.fine _ _ (down_at _ t pre v hv)).distinct
  refine ⟨s', _, h1, h1', h2, spawned_nodup hd pre as a v u hu hv hk hdv, ?_, inOrder_of_spawned hd pre as a v u hu hv hk hdv⟩
  intro ho
  obtain ⟨ho1, ho2⟩ := inOrder_snoc as a t ho
  obtain ⟨l, r, hl, hne, hn, hlat⟩ := split_kid hk
  obtain ⟨hl1, hr1⟩ := ho2 v hv l u r hl hn
  rw [remaining_eq _ t pre u hu hd, behind_snoc later as a pre t v hv, hlat, behind_inOrder as t pre v hv ho1, path_dropLast, hl,
    (greater_later hn hl1 hr1).2, Tree.listL, List.append_assoc]

/-- The same on a file system: `R` is what the resume lists. -/
theorem crown_fs (key) {c : Nav} {stat disk} {pre : Path} {fs : FS} (hdepth : c.maxDepth = 0) (hread : c.read = defaultRead)
    (hsort : SortsBy key c.sort) (hsub : c.sub = .universal ∨ c.sub = .files)
    (hdistinct : fs.Distinct) (hkeys : fs.KeysDiffer key) (hdisk : ∀ p g, FS.At pre fs p g → disk p = .ok g)
    (hstat : ∀ p g, FS.At pre fs p g → stat p = .found (prep c g)) {env : Env σ} {I : St σ → Prop}
    (hI : Accepting c env I) (fault) (p : Path) (hp : p ∈ (fs.nodes pre).map Prod.fst) (hroot : p ≠ pre ++ [fs.name])
    (s : St σ) (hs : I s) :
    ∃ s' R, crown c env fault stat disk (pre ++ [fs.name]) p.reverse true s = (.done none, true, s') ∧ I s' ∧
      shown s'.log = shown s.log ++ R.filter (shows c) ∧ (R.map Prod.fst).Nodup ∧
      (ByteOrdered c pre fs p → R = ((prep c fs).list pre).dropWhile (fun k => k.1 != p)) ∧
      ((∀ k, k ∈ R ↔ k ∈ ((prep c fs).list pre).dropWhile (fun k => k.1 != p)) → ByteOrdered c pre fs p) := by
  have hperm := hsort.permutes
  have hsel := defaultRead_selects c hread
  have hd := prep_distinct c hperm hsel fs hdistinct
  have hne : c.sub ≠ .directories ∧ c.sub ≠ .directoriesWithFiles := by rcases hsub with h | h <;> simp [h]
  obtain ⟨k, hk, rfl⟩ := List.mem_map.1 hp
  have hk' : k ∈ (prep c fs).list pre := by
    rw [← items_list c hdepth (prep c fs) [] pre 0]
    exact (items_nodes c hperm hread hdepth hne.1 hne.2 fs [] pre 0).mem_iff.2 hk
  obtain ⟨bs, u, h1, h2, -⟩ := mem_list_down _ hd pre k hk'
  have hn : (prep c fs).name = fs.name := (prep_entry c fs).1
  obtain ⟨as, a, rfl⟩ : ∃ as a, bs = as ++ [a] := by
    rcases List.eq_nil_or_concat bs with rfl | ⟨as, a, rfl⟩
    · rw [h1, hn] at hroot; exact absurd rfl hroot
    · exact ⟨as, a, List.concat_eq_append⟩
  have H := spawnable_of key c stat disk pre fs hdepth hread hsort hsub hdistinct hkeys hdisk hstat
  obtain ⟨s', R, g1, g2, g3, g4, g5, g6⟩ := crown_spec H hd hI fault as a u h2 s hs
  have hb := byteOrdered_iff c hperm hsel (as ++ [a]) pre fs u hdistinct h2
  rw [hn] at g1 g5 g6 h1
  rw [← hb] at g5 g6
  rw [h1]
  exact ⟨s', R, g1, g2, g3, g4, g5, g6⟩

end Traverse
