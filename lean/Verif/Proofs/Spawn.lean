import Verif.Proofs.Resume
import Verif.Proofs.Walk
import Verif.Proofs.Sort
/-
What a spawn resume visits.
-/
namespace Traverse
variable {σ : Type}

/-! ### Listing a tree -/

mutual
/-- Path and kind of everything in a tree, in pre-order. -/
def Tree.list (pp : Path) : Tree → List (Path × Bool)
  | .node e _ _ _ kids => (pp ++ [e.name], e.isDir) :: Tree.listL (pp ++ [e.name]) kids
def Tree.listL (pp : Path) : List Tree → List (Path × Bool)
  | [] => []
  | t :: ts => Tree.list pp t ++ Tree.listL pp ts
end

theorem listL_eq (pp : Path) (l : List Tree) : Tree.listL pp l = l.flatMap (Tree.list pp) := by
  induction l with
  | nil => rfl
  | cons t ts ih => rw [Tree.listL, ih, List.flatMap_cons]

theorem tooDeep_zero {c : Nav} (hm : c.maxDepth = 0) (d : Int) : tooDeep c d = false := by simp [tooDeep, hm]

theorem items_list (c : Nav) (hm : c.maxDepth = 0) (t : Tree) : ∀ ps pp d, (items c ps pp d t).map Item.key = t.list pp := by
  induction t using Tree.ind with
  | h e re fs ds kids ih =>
    intro ps pp d
    simp only [items, tooDeep_zero hm, Bool.false_eq_true, if_false, Tree.list, List.map_cons]
    rw [itemsList_eq, listL_eq, List.map_flatMap]
    congr 1
    have : ∀ l : List Tree, (∀ k ∈ l, k ∈ kids) → ∀ ps d,
        l.flatMap (fun k => (items c ps (pp ++ [e.name]) d k).map Item.key) = l.flatMap (Tree.list (pp ++ [e.name])) := by
      intro l hl ps d
      induction l with
      | nil => rfl
      | cons a as iha =>
        rw [List.flatMap_cons, List.flatMap_cons, ih a (hl a (by simp)), iha (fun k hk => hl k (by simp [hk]))]
    exact this kids (fun _ h => h) _ _

/-- Handler calls by path and kind. -/
def shown (l : List Ev) : List (Path × Bool) := (invoked l).map (fun n => (n.path, n.isDir))

/-- What a subscription shows of a listing. -/
def shows (c : Nav) (k : Path × Bool) : Bool := !(decide (c.sub = .files) && k.2)

/-- The trees navigation can be started on. -/
structure Tree.Fine (c : Nav) (t : Tree) : Prop where
  wf : t.WF
  distinct : t.Distinct
  shut : c.sub = .files → t.Shut

/-- The calls were answered with nil, nothing was skipped. -/
def Ev.Nil : Ev → Prop
  | .invoke _ r => r = .ok none
  | .ask _ _ sk e => sk = .none ∧ e = none
  | _ => True

/-- An invariant under which every call is answered with nil. -/
structure Accepting (c : Nav) (env : Env σ) (I : St σ → Prop) : Prop where
  keeps : ∀ t ps pp s, I s → I (traverse c env ps pp t s).2
  nil : ∀ s, I s → ∀ ev ∈ s.log, ev.Nil

theorem accepting_always (c : Nav) {env : Env σ} (hi : AlwaysNil env) (ha : DefaultSkip env) :
    Accepting c env (fun s => ∀ ev ∈ s.log, ev.Nil) where
  keeps t ps pp s hs := by
    refine traverse_inv (Inv := fun s => ∀ ev ∈ s.log, ev.Nil) ⟨?_, ?_, ?_, ?_, ?_⟩ c t ps pp s hs
    · intro s p d h ev hev
      simp only [St.doDescend, List.mem_append, List.mem_singleton] at hev
      rcases hev with hev | rfl
      · exact h ev hev
      · trivial
    · intro s p d h ev hev
      simp only [St.doAscend, List.mem_append, List.mem_singleton] at hev
      rcases hev with hev | rfl
      · exact h ev hev
      · trivial
    · intro s n h ev hev
      simp only [St.doInvoke, List.mem_append, List.mem_singleton] at hev
      rcases hev with hev | rfl
      · exact h ev hev
      · exact hi s.ext n
    · intro s n re h ev hev
      simp only [St.doAsk, List.mem_append, List.mem_singleton] at hev
      rcases hev with hev | rfl
      · exact h ev hev
      · have := ha s.ext n re
        exact ⟨congrArg Prod.fst this, congrArg Prod.snd this⟩
    · intro s n h ev hev
      simp only [St.doRescue, List.mem_append, List.mem_singleton] at hev
      rcases hev with hev | rfl
      · exact h ev hev
      · trivial
  nil s h := h

/-- Traversal from any state with a handler that always returns nil. -/
theorem traverse_accepting (c : Nav) (env : Env σ) (hm : c.maxDepth = 0) {I : St σ → Prop} (hI : Accepting c env I) (pre : Path) (t : Tree)
    (ht : t.Fine c) (s : St σ) (hs : I s) :
    (traverse c env [] pre t s).1.final = .done none ∧ (traverse c env [] pre t s).2.depth = s.depth ∧
    I (traverse c env [] pre t s).2 ∧
    shown (traverse c env [] pre t s).2.log = shown s.log ++ (t.list pre).filter (shows c) := by
  obtain ⟨vs, hdep, hlog, hrun⟩ := top_run c env pre t s (tooDeep_zero hm _)
  have hfrom := hI.keeps t [] pre s hs
  have hvs : ∀ ev ∈ vs, ev.Nil := by
    intro ev hev
    apply hI.nil _ hfrom
    apply mem_acts
    rw [hlog]
    exact List.mem_append_right _ hev
  have := hrun.accepting
    (fun n r hm => hvs _ hm)
    (fun n re sk e hm => hvs _ hm)
    (fun h => items_shut c _ (ht.shut h) ht.distinct _ _ _)
    (fun _ it hit hn it' hit' => items_leaf c _ ht.wf ht.distinct _ _ _ it hit hn it' hit')
    (items_preOrder c _ ht.distinct _ _ _)
    (fun it hit => items_depth c _ _ _ _ it hit)
    (items_root c _ _ _ _)
  refine ⟨this.2, hdep, hfrom, ?_⟩
  have h1 : invoked (traverse c env [] pre t s).2.log = invoked s.log ++ invoked vs := by
    rw [← invoked_acts, hlog, invoked_append, invoked_acts]
  unfold shown
  rw [h1, this.1, List.map_append, ← items_list c hm t [] pre s.depth]
  congr 1
  rw [List.filter_map, List.filter_map, List.map_map]
  rfl

/-! ### Finding one's way in a tree -/

/-- The entry of that name. -/
def Tree.kid (t : Tree) (a : String) : Option Tree := t.kids.find? (fun k => k.name == a)

/-- What lies at the end of a path of names. -/
def Tree.down : List String → Tree → Option Tree
  | [], t => some t
  | a :: as, t => (t.kid a).bind (Tree.down as)

theorem kid_some {t : Tree} {a k} (h : t.kid a = some k) : k ∈ t.kids ∧ k.name = a := by
  have h2 := List.find?_some h
  exact ⟨List.mem_of_find?_eq_some h, by simpa using h2⟩

theorem down_at (as : List String) : ∀ (t : Tree) (pp : Path) u, t.down as = some u → Tree.At pp t (pp ++ t.name :: as) u := by
  induction as with
  | nil => intro t pp u h; simp only [Tree.down, Option.some.injEq] at h; subst h; exact .here pp t
  | cons a as ih =>
    intro t pp u h
    simp only [Tree.down] at h
    cases hk : t.kid a with
    | none => simp [hk] at h
    | some k =>
      rw [hk] at h
      obtain ⟨h1, h2⟩ := kid_some hk
      have := ih k (pp ++ [t.name]) u h
      rw [h2] at this
      exact .inside h1 (by simpa using this)

theorem down_snoc (as : List String) (a) : ∀ (t : Tree) u, t.down (as ++ [a]) = some u →
    ∃ v, t.down as = some v ∧ v.kid a = some u := by
  induction as with
  | nil =>
    intro t u h
    simp only [List.nil_append, Tree.down] at h
    cases hk : t.kid a with
    | none => simp [hk] at h
    | some k => rw [hk] at h; simp only [Option.bind_some, Option.some.injEq] at h; subst h; exact ⟨t, rfl, hk⟩
  | cons b as ih =>
    intro t u h
    simp only [List.cons_append, Tree.down] at h ⊢
    cases hk : t.kid b with
    | none => simp [hk] at h
    | some k => rw [hk] at h; exact ih k u h

/-- Everything that lies behind the path `as`, level by level, innermost first; `sel a kids` are the entries behind `a`. -/
def behind (sel : String → List Tree → List Tree) : List String → Path → Tree → List (Path × Bool)
  | [], _, _ => []
  | a :: as, pp, t =>
    (match t.kid a with | some k => behind sel as (pp ++ [t.name]) k | none => [])
      ++ Tree.listL (pp ++ [t.name]) (sel a t.kids)

theorem behind_snoc (sel) (as : List String) (a) : ∀ pp (t : Tree) v, t.down as = some v →
    behind sel (as ++ [a]) pp t = Tree.listL (pp ++ t.name :: as) (sel a v.kids) ++ behind sel as pp t := by
  induction as with
  | nil =>
    intro pp t v h
    simp only [Tree.down, Option.some.injEq] at h
    subst h
    simp only [List.nil_append, behind]
    cases t.kid a <;> simp
  | cons b as ih =>
    intro pp t v h
    simp only [Tree.down] at h
    simp only [List.cons_append, behind]
    cases hk : t.kid b with
    | none => simp [hk] at h
    | some k =>
      rw [hk] at h
      simp only [ih (pp ++ [t.name]) k v h, (kid_some hk).2]
      simp

/-- The entries with a greater name. -/
def greater (a : String) (l : List Tree) : List Tree := l.filter (fun k => decide (a < k.name))
/-- The entries that come after the one of that name. -/
def later (a : String) (l : List Tree) : List Tree := (l.dropWhile (fun k => k.name != a)).tail

/-! ### Running -/

/-- What a spawn resume can rely on: `t` is the tree as the first session met it, its root in directory `pre`. -/
structure Spawnable (c : Nav) (stat : Path → RootStat) (disk : Disk) (pre : Path) (t : Tree) : Prop where
  depth : c.maxDepth = 0
  stat : ∀ p u, Tree.At pre t p u → stat p = .found u
  fine : ∀ p u, Tree.At pre t p u → u.Fine c
  following : ∀ p u, Tree.At pre t p u → ∀ a incl, a ∈ u.kids.map Tree.name →
    following c disk p a incl = .ok ((u.kids.filter (fun k => if incl then decide (a ≤ k.name) else decide (a < k.name))).map Tree.name)

theorem seed_accepting {c : Nav} {stat disk pre t} (H : Spawnable c stat disk pre t) {env : Env σ} {I : St σ → Prop}
    (hI : Accepting c env I) (fault) (q : Path) (u : Tree) (hu : Tree.At pre t q u) (ks : List Tree) : (∀ k ∈ ks, k ∈ u.kids) →
    ∀ s : St σ, I s →
    (seed c env fault stat q (ks.map Tree.name) s).1 = .done none ∧
    (seed c env fault stat q (ks.map Tree.name) s).2.depth = s.depth ∧
    I (seed c env fault stat q (ks.map Tree.name) s).2 ∧
    shown (seed c env fault stat q (ks.map Tree.name) s).2.log = shown s.log ++ (Tree.listL q ks).filter (shows c) := by
  induction ks with
  | nil => intro _ s hs; exact ⟨rfl, rfl, hs, by simp [seed, Tree.listL]⟩
  | cons k ks ih =>
    intro hk s hs
    have hk1 := hu.kid k (hk k (by simp))
    obtain ⟨h1, h2, h3, h4⟩ := traverse_accepting c env H.depth hI q k (H.fine _ _ hk1) s hs
    have ht : top c env fault q (q ++ [k.name]) (stat (q ++ [k.name])) s =
        (.done none, (traverse c env [] q k s).2) := by
      rw [H.stat _ _ hk1]; simp only [top, h1]
    simp only [List.map_cons, seed, ht]
    obtain ⟨g1, g2, g3, g4⟩ := ih (fun j hj => hk j (by simp [hj])) _ h3
    exact ⟨g1, g2.trans h2, g3, by rw [g4, h4, Tree.listL, List.filter_append, List.append_assoc]⟩

theorem crown_accepting {c : Nav} {stat disk pre t} (H : Spawnable c stat disk pre t) {env : Env σ} {I : St σ → Prop}
    (hI : Accepting c env I) (fault) (ras : List String) : ∀ u, t.down ras.reverse = some u →
    ∀ s : St σ, I s →
    ∃ s', crown c env fault stat disk (pre ++ [t.name]) (ras ++ t.name :: pre.reverse) false s = (.done none, true, s') ∧ I s' ∧
      shown s'.log = shown s.log ++ (behind greater ras.reverse pre t).filter (shows c) := by
  induction ras with
  | nil =>
    intro u _ s hs
    refine ⟨s, ?_, hs, by simp [behind]⟩
    simp [crown]
  | cons a ras ih =>
    intro u hu s hs
    simp only [List.reverse_cons] at hu ⊢
    obtain ⟨v, hv, hk⟩ := down_snoc _ a t u hu
    have hat := down_at _ t pre v hv
    have hp : (ras ++ t.name :: pre.reverse).reverse = pre ++ t.name :: ras.reverse := by simp
    have hne : (a :: (ras ++ t.name :: pre.reverse)).reverse ≠ pre ++ [t.name] := by
      intro h
      have := congrArg List.length h
      simp at this
    have hf := H.following _ _ hat a false (List.mem_map.2 ⟨u, (kid_some hk).1, (kid_some hk).2⟩)
    rw [List.cons_append, crown, if_neg hne, hp, hf]
    obtain ⟨g1, g2, g3, g4⟩ := seed_accepting H hI fault _ v hat (v.kids.filter (fun k => decide (a < k.name)))
      (fun k hk => (List.mem_filter.1 hk).1) s hs
    simp only [Bool.false_eq_true, if_false]
    rcases hsd : seed c env fault stat (pre ++ t.name :: ras.reverse) _ s with ⟨f, s1⟩
    rw [hsd] at g1 g3 g4
    simp only at g1 g3 g4
    subst g1
    obtain ⟨s', h1, h1', h2⟩ := ih v hv s1 g3
    refine ⟨s', h1, h1', ?_⟩
    rw [h2, g4, behind_snoc greater _ a pre t v hv, List.filter_append, List.append_assoc]
    rfl

/-- The same from the saved path, which is included. -/
theorem crown_from {c : Nav} {stat disk pre t} (H : Spawnable c stat disk pre t) {env : Env σ} {I : St σ → Prop}
    (hI : Accepting c env I) (fault) (as : List String) (a : String) (v u : Tree) (hv : t.down as = some v) (hk : v.kid a = some u)
    (s : St σ) (hs : I s) :
    ∃ s', crown c env fault stat disk (pre ++ [t.name]) (pre ++ t.name :: (as ++ [a])).reverse true s = (.done none, true, s') ∧ I s' ∧
      shown s'.log = shown s.log ++ (Tree.listL (pre ++ t.name :: as) (v.kids.filter (fun k => decide (a ≤ k.name)))
        ++ behind greater as pre t).filter (shows c) := by
  have hat := down_at _ t pre v hv
  have hr : (pre ++ t.name :: (as ++ [a])).reverse = a :: (as.reverse ++ t.name :: pre.reverse) := by simp
  have hp : (as.reverse ++ t.name :: pre.reverse).reverse = pre ++ t.name :: as := by simp
  have hne : (a :: (as.reverse ++ t.name :: pre.reverse)).reverse ≠ pre ++ [t.name] := by
    intro h
    have := congrArg List.length h
    simp at this
  have hf := H.following _ _ hat a true (List.mem_map.2 ⟨u, (kid_some hk).1, (kid_some hk).2⟩)
  rw [hr, crown, if_neg hne, hp, hf]
  obtain ⟨g1, g2, g3, g4⟩ := seed_accepting H hI fault _ v hat (v.kids.filter (fun k => decide (a ≤ k.name)))
    (fun k hk => (List.mem_filter.1 hk).1) s hs
  simp only [if_true]
  rcases hsd : seed c env fault stat (pre ++ t.name :: as) _ s with ⟨f, s1⟩
  rw [hsd] at g1 g3 g4
  simp only at g1 g3 g4
  subst g1
  obtain ⟨s', h1, h1', h2⟩ := crown_accepting H hI fault as.reverse v (by simpa using hv) s1 g3
  refine ⟨s', h1, h1', ?_⟩
  rw [h2, g4, List.reverse_reverse, List.filter_append, List.append_assoc]

/-! ### What remained -/

theorem list_prefix (t : Tree) : ∀ pp, ∀ k ∈ t.list pp, (pp ++ [t.name]) <+: k.1 := by
  induction t using Tree.ind with
  | h e re fs ds kids ih =>
    intro pp k hk
    rw [Tree.list, List.mem_cons, listL_eq, List.mem_flatMap] at hk
    rcases hk with rfl | ⟨j, hj, hk⟩
    · exact List.prefix_refl _
    · exact (List.prefix_append _ _).trans (ih j hj _ k hk)

theorem list_root (t : Tree) (pp) : t.list pp = (pp ++ [t.name], t.isDir) :: Tree.listL (pp ++ [t.name]) t.kids := by
  cases t; rfl

theorem dropWhile_append_all {α} (P : α → Bool) (l r : List α) (h : ∀ x ∈ l, P x = true) : (l ++ r).dropWhile P = r.dropWhile P := by
  induction l with
  | nil => rfl
  | cons a as ih => rw [List.cons_append, List.dropWhile_cons, if_pos (h a (by simp)), ih (fun x hx => h x (by simp [hx]))]

theorem dropWhile_append_some {α} (P : α → Bool) (l r : List α) (h : ∃ x ∈ l, P x = false) :
    (l ++ r).dropWhile P = l.dropWhile P ++ r := by
  induction l with
  | nil => obtain ⟨x, hx, _⟩ := h; simp at hx
  | cons a as ih =>
    by_cases ha : P a = true
    · rw [List.cons_append, List.dropWhile_cons, if_pos ha, List.dropWhile_cons, if_pos ha]
      apply ih
      obtain ⟨x, hx, hp⟩ := h
      rcases List.mem_cons.1 hx with rfl | hx
      · simp [ha] at hp
      · exact ⟨x, hx, hp⟩
    · rw [List.cons_append, List.dropWhile_cons, if_neg ha, List.dropWhile_cons, if_neg ha]
      rfl

/-- A list split at the entry of that name. -/
theorem split_kid {t : Tree} {a k} (h : t.kid a = some k) :
    ∃ l r, t.kids = l ++ k :: r ∧ (∀ j ∈ l, j.name ≠ a) ∧ k.name = a ∧ later a t.kids = r := by
  unfold Tree.kid at h
  unfold later
  generalize t.kids = L at h
  induction L with
  | nil => simp at h
  | cons j L ih =>
    rw [List.find?_cons] at h
    by_cases hj : j.name = a
    · simp only [hj, beq_self_eq_true, Option.some.injEq] at h
      subst h
      exact ⟨[], L, rfl, by simp, hj, by simp [hj]⟩
    · have hj' : (j.name == a) = false := by simpa using hj
      simp only [hj'] at h
      obtain ⟨l, r, h1, h2, h3, h4⟩ := ih h
      refine ⟨j :: l, r, by rw [h1]; rfl, ?_, h3, ?_⟩
      · intro x hx
        rcases List.mem_cons.1 hx with rfl | hx
        · exact hj
        · exact h2 x hx
      · rw [List.dropWhile_cons, if_pos (by simpa using hj)]; exact h4

theorem list_mem_at {pp t p u} (h : Tree.At pp t p u) : (p, u.isDir) ∈ t.list pp := by
  induction h with
  | here pp t => rw [list_root]; simp
  | @inside pp t k p u hk h ih =>
    rw [list_root, listL_eq]
    exact List.mem_cons_of_mem _ (List.mem_flatMap.2 ⟨k, hk, ih⟩)

/-- The part of a traversal that starts with a given path. -/
theorem remaining_eq (as : List String) : ∀ (t : Tree) (pp : Path) (u : Tree), t.down as = some u → t.Distinct →
    (t.list pp).dropWhile (fun k => k.1 != pp ++ t.name :: as) = u.list (pp ++ t.name :: as).dropLast ++ behind later as pp t := by
  induction as with
  | nil =>
    intro t pp u h _
    simp only [Tree.down, Option.some.injEq] at h
    subst h
    rw [list_root, List.dropWhile_cons]
    simp [behind, list_root]
  | cons a as ih =>
    intro t pp u h hd
    simp only [Tree.down] at h
    cases hk : t.kid a with
    | none => simp [hk] at h
    | some k =>
      rw [hk] at h
      simp only [Option.bind_some] at h
      obtain ⟨l, r, hl, hne, hn, hlat⟩ := split_kid hk
      have hdk : k.Distinct := by
        cases t with
        | node e re fs ds kids =>
          simp only [Tree.kids_node] at hl
          rw [Tree.Distinct, Tree.distinctL_iff] at hd
          exact hd.2 k (by rw [hl]; simp)
      have ih' := ih k (pp ++ [t.name]) u h hdk
      have hpath : pp ++ [t.name] ++ k.name :: as = pp ++ t.name :: a :: as := by simp [hn]
      rw [hpath] at ih'
      have hroot : ((pp ++ [t.name], t.isDir).1 != pp ++ t.name :: a :: as) = true := by
        simp
      rw [list_root, List.dropWhile_cons, if_pos hroot, listL_eq, hl, List.flatMap_append, List.flatMap_cons,
        dropWhile_append_all, dropWhile_append_some, ih']
      · simp only [behind, hk, hlat, listL_eq]
        rw [List.append_assoc]
      · exact ⟨_, list_mem_at (down_at as k (pp ++ [t.name]) u h), by simp [hn]⟩
      · intro x hx
        obtain ⟨j, hj, hx⟩ := List.mem_flatMap.1 hx
        have h1 := list_prefix j _ x hx
        simp only [bne_iff_ne, ne_eq]
        intro he
        rw [he] at h1
        have h2 : (pp ++ [t.name] ++ [a]) <+: pp ++ t.name :: a :: as := ⟨as, by simp⟩
        exact hne j hj (prefix_snoc_inj h1 h2)

/-- Along the path `as` the names that come later are the greater ones. -/
def InOrder : List String → Tree → Prop
  | [], _ => True
  | a :: as, t =>
    (∀ l k r, t.kids = l ++ k :: r → k.name = a → (∀ j ∈ l, j.name < a) ∧ ∀ j ∈ r, a < j.name) ∧
    ∀ k, t.kid a = some k → InOrder as k

theorem greater_later {a : String} {l r : List Tree} {k : Tree} (hk : k.name = a) (hl : ∀ j ∈ l, j.name < a) (hr : ∀ j ∈ r, a < j.name) :
    greater a (l ++ k :: r) = r ∧ (l ++ k :: r).filter (fun k => decide (a ≤ k.name)) = k :: r := by
  have h1 : ∀ j ∈ l, ¬ a < j.name := fun j hj h => String.lt_irrefl _ (String.lt_trans h (hl j hj))
  have h2 : ∀ j ∈ l, ¬ a ≤ j.name := fun j hj h => String.not_lt.2 h (hl j hj)
  constructor
  · unfold greater
    rw [List.filter_append, List.filter_eq_nil_iff.2 (by simpa using h1), List.nil_append, List.filter_cons, if_neg,
      List.filter_eq_self.2 (by simpa using hr)]
    simp [hk, String.lt_irrefl]
  · rw [List.filter_append, List.filter_eq_nil_iff.2 (by intro j hj; simpa using hl j hj), List.nil_append, List.filter_cons, if_pos,
      List.filter_eq_self.2]
    · intro j hj; simpa using String.not_lt.1 (fun h => String.lt_irrefl _ (String.lt_trans h (hr j hj)))
    · simp [hk]

theorem behind_inOrder (as : List String) : ∀ (t : Tree) pp u, t.down as = some u → InOrder as t →
    behind greater as pp t = behind later as pp t := by
  induction as with
  | nil => intro t pp u _ _; rfl
  | cons a as ih =>
    intro t pp u h ho
    simp only [Tree.down] at h
    cases hk : t.kid a with
    | none => simp [hk] at h
    | some k =>
      rw [hk] at h
      obtain ⟨l, r, hl, hne, hn, hlat⟩ := split_kid hk
      obtain ⟨h1, h2⟩ := ho.1 l k r hl hn
      simp only [behind, hk, ih k (pp ++ [t.name]) u h (ho.2 k hk), hlat]
      rw [hl, (greater_later hn h1 h2).1]

theorem inOrder_snoc (as : List String) (a) : ∀ (t : Tree), InOrder (as ++ [a]) t → InOrder as t ∧ ∀ v, t.down as = some v →
    ∀ l k r, v.kids = l ++ k :: r → k.name = a → (∀ j ∈ l, j.name < a) ∧ ∀ j ∈ r, a < j.name := by
  induction as with
  | nil =>
    intro t h
    refine ⟨trivial, ?_⟩
    intro v hv
    simp only [Tree.down, Option.some.injEq] at hv
    subst hv
    exact h.1
  | cons b as ih =>
    intro t h
    refine ⟨⟨h.1, fun k hk => (ih k (h.2 k hk)).1⟩, ?_⟩
    intro v hv
    simp only [Tree.down] at hv
    cases hk : t.kid b with
    | none => simp [hk] at hv
    | some k =>
      rw [hk] at hv
      exact (ih k (h.2 k hk)).2 v hv

/-- A spawn resume visits what remained, in order, if names are in order. -/
theorem crown_remaining {c : Nav} {stat disk pre t} (H : Spawnable c stat disk pre t) (hd : t.Distinct) {env : Env σ} {I : St σ → Prop}
    (hI : Accepting c env I) (fault) (as : List String) (a : String) (u : Tree) (hu : t.down (as ++ [a]) = some u)
    (ho : InOrder (as ++ [a]) t) (s : St σ) (hs : I s) :
    ∃ s', crown c env fault stat disk (pre ++ [t.name]) (pre ++ t.name :: (as ++ [a])).reverse true s = (.done none, true, s') ∧ I s' ∧
      shown s'.log = shown s.log ++
        ((t.list pre).dropWhile (fun k => k.1 != pre ++ t.name :: (as ++ [a]))).filter (shows c) := by
  obtain ⟨v, hv, hk⟩ := down_snoc as a t u hu
  obtain ⟨s', h1, h1', h2⟩ := crown_from H hI fault as a v u hv hk s hs
  obtain ⟨ho1, ho2⟩ := inOrder_snoc as a t ho
  obtain ⟨l, r, hl, hne, hn, hlat⟩ := split_kid hk
  obtain ⟨hl1, hr1⟩ := ho2 v hv l u r hl hn
  refine ⟨s', h1, h1', ?_⟩
  rw [h2, remaining_eq _ t pre u hu hd, behind_snoc later as a pre t v hv, hlat, behind_inOrder as t pre v hv ho1]
  have : (pre ++ t.name :: (as ++ [a])).dropLast = pre ++ t.name :: as := by
    have : pre ++ t.name :: (as ++ [a]) = (pre ++ t.name :: as) ++ [a] := by simp
    rw [this, List.dropLast_concat]
  rw [this, hl, (greater_later hn hl1 hr1).2, Tree.listL, List.append_assoc]

/-! ### The converse -/

theorem string_le_iff {a b : String} : a ≤ b ↔ a < b ∨ a = b := by
  constructor
  · intro h
    by_cases hlt : a < b
    · exact Or.inl hlt
    · exact Or.inr (String.le_antisymm h (String.not_lt.1 hlt))
  · rintro (h | rfl)
    · exact String.not_lt.1 (fun h2 => String.lt_irrefl _ (String.lt_trans h h2))
    · exact String.not_lt.1 (String.lt_irrefl _)

theorem kids_distinct {t : Tree} (hd : t.Distinct) : (t.kids.map Tree.name).Nodup ∧ ∀ k ∈ t.kids, k.Distinct := by
  cases t with
  | node e re fs ds kids =>
    rw [Tree.Distinct, Tree.distinctL_iff] at hd
    exact hd

theorem name_inj {l : List Tree} (hd : (l.map Tree.name).Nodup) {j k} (hj : j ∈ l) (hk : k ∈ l) (h : j.name = k.name) : j = k := by
  induction l with
  | nil => simp at hj
  | cons a as ih =>
    simp only [List.map_cons, List.nodup_cons, List.mem_map, not_exists, not_and] at hd
    rcases List.mem_cons.1 hj with e1 | e1 <;> rcases List.mem_cons.1 hk with e2 | e2
    · rw [e1, e2]
    · exact absurd (e1 ▸ h.symm) (hd.1 k e2)
    · exact absurd (e2 ▸ h) (hd.1 j e1)
    · exact ih hd.2 e1 e2

/-- A choice of entries behind `a`, not `a` itself. -/
def Behind (sel : String → List Tree → List Tree) : Prop :=
  ∀ a l, (l.map Tree.name).Nodup → ∀ j ∈ sel a l, j ∈ l ∧ j.name ≠ a

theorem greater_behind : Behind greater := by
  intro a l _ j hj
  obtain ⟨h1, h2⟩ := List.mem_filter.1 hj
  refine ⟨h1, fun h => ?_⟩
  simp [h, String.lt_irrefl] at h2

theorem later_behind : Behind later := by
  intro a l hd j hj
  unfold later at hj
  induction l with
  | nil => simp at hj
  | cons x xs ih =>
    simp only [List.map_cons, List.nodup_cons, List.mem_map, not_exists, not_and] at hd
    by_cases hx : x.name = a
    · simp only [List.dropWhile_cons, hx, bne_self_eq_false, Bool.false_eq_true, if_false, List.tail_cons] at hj
      exact ⟨by simp [hj], fun h => hd.1 j hj (by rw [h, hx])⟩
    · rw [List.dropWhile_cons, if_pos (by simpa using hx)] at hj
      obtain ⟨h1, h2⟩ := ih hd.2 hj
      exact ⟨by simp [h1], h2⟩

theorem listL_name {pp : Path} {l : List Tree} {k} (h : k ∈ Tree.listL pp l) : ∃ j ∈ l, k ∈ j.list pp ∧ (pp ++ [j.name]) <+: k.1 := by
  rw [listL_eq, List.mem_flatMap] at h
  obtain ⟨j, hj, h⟩ := h
  exact ⟨j, hj, h, list_prefix j pp k h⟩

theorem behind_prefix (sel) (as : List String) (hs : Behind sel) : ∀ (t : Tree) pp u, t.down as = some u → t.Distinct →
    ∀ k ∈ behind sel as pp t, (pp ++ [t.name]) <+: k.1 := by
  induction as with
  | nil => intro t pp u _ _ k hk; simp [behind] at hk
  | cons a as ih =>
    intro t pp u h hd k hk
    simp only [Tree.down] at h
    cases hkid : t.kid a with
    | none => simp [hkid] at h
    | some j =>
      rw [hkid] at h
      simp only [behind, hkid, List.mem_append] at hk
      obtain ⟨h1, h2⟩ := kid_some hkid
      rcases hk with hk | hk
      · exact (List.prefix_append _ _).trans (ih j (pp ++ [t.name]) u h ((kids_distinct hd).2 j h1) k hk)
      · obtain ⟨i, _, _, h3⟩ := listL_name hk
        exact (List.prefix_append _ _).trans h3

/-- If the two choices lead to the same places, names are in order. -/
theorem inOrder_of_same (as : List String) : ∀ (t : Tree) pp u, t.down as = some u → t.Distinct →
    (∀ k, k ∈ behind greater as pp t ↔ k ∈ behind later as pp t) → InOrder as t := by
  induction as with
  | nil => intro t pp u _ _ _; trivial
  | cons a as ih =>
    intro t pp u h hd hsame
    simp only [Tree.down] at h
    cases hkid : t.kid a with
    | none => simp [hkid] at h
    | some k =>
      rw [hkid] at h
      simp only [behind, hkid, List.mem_append] at hsame
      obtain ⟨hk1, hk2⟩ := kid_some hkid
      obtain ⟨hnd, hdk⟩ := kids_distinct hd
      have hpre : ∀ sel, Behind sel → ∀ x ∈ behind sel as (pp ++ [t.name]) k, (pp ++ [t.name] ++ [a]) <+: x.1 := by
        intro sel hs x hx
        rw [← hk2]
        exact behind_prefix sel as hs k (pp ++ [t.name]) u h (hdk k hk1) x hx
      have hoff : ∀ sel, Behind sel → ∀ x ∈ Tree.listL (pp ++ [t.name]) (sel a t.kids), ¬ (pp ++ [t.name] ++ [a]) <+: x.1 := by
        intro sel hs x hx hpx
        obtain ⟨j, hj, _, h3⟩ := listL_name hx
        exact (hs a _ hnd j hj).2 (prefix_snoc_inj h3 hpx)
      have hrec : InOrder as k := by
        refine ih k (pp ++ [t.name]) u h (hdk k hk1) (fun x => ⟨fun hx => ?_, fun hx => ?_⟩)
        · exact ((hsame x).1 (Or.inl hx)).resolve_right (fun hy => hoff later later_behind x hy (hpre _ greater_behind x hx))
        · exact ((hsame x).2 (Or.inl hx)).resolve_right (fun hy => hoff greater greater_behind x hy (hpre _ later_behind x hx))
      have hin : ∀ sel, Behind sel → ∀ j ∈ t.kids, j ∈ sel a t.kids ↔
          (pp ++ [t.name] ++ [j.name], j.isDir) ∈ Tree.listL (pp ++ [t.name]) (sel a t.kids) := by
        intro sel hs j hj
        constructor
        · intro hm
          rw [listL_eq]
          exact List.mem_flatMap.2 ⟨j, hm, by rw [list_root]; simp⟩
        · intro hm
          obtain ⟨i, hi, _, h3⟩ := listL_name hm
          have : i.name = j.name := prefix_snoc_inj h3 (List.prefix_refl _)
          rw [name_inj hnd hj (hs a _ hnd i hi).1 this.symm]
          exact hi
      have hsel : ∀ j ∈ t.kids, j.name ≠ a → (j ∈ greater a t.kids ↔ j ∈ later a t.kids) := by
        intro j hj hja
        have hnot : ∀ sel, Behind sel → (pp ++ [t.name] ++ [j.name], j.isDir) ∉ behind sel as (pp ++ [t.name]) k :=
          fun sel hs hx => hja (prefix_snoc_inj (List.prefix_refl _) (hpre sel hs _ hx))
        rw [hin greater greater_behind j hj, hin later later_behind j hj]
        exact ⟨fun hx => ((hsame _).1 (Or.inr hx)).resolve_left (hnot _ later_behind),
          fun hx => ((hsame _).2 (Or.inr hx)).resolve_left (hnot _ greater_behind)⟩
      refine ⟨?_, fun k' hk' => by rw [hkid] at hk'; cases hk'; exact hrec⟩
      intro l k' r hl hk'
      have hkk : k' = k := name_inj hnd (by rw [hl]; simp) hk1 (hk'.trans hk2.symm)
      subst hkk
      have hnd' := hnd
      rw [hl, List.map_append, List.map_cons, List.nodup_append] at hnd'
      obtain ⟨n1, n2, n3⟩ := hnd'
      rw [List.nodup_cons] at n2
      have hlat : later a t.kids = r := by
        rw [hl]
        unfold later
        rw [dropWhile_append_all, List.dropWhile_cons, if_neg (by simp [hk'])]
        · rfl
        · intro j hj
          simp only [bne_iff_ne, ne_eq]
          intro hja
          exact n3 j.name (List.mem_map_of_mem hj) k'.name (by simp) (hja.trans hk'.symm)
      constructor
      · intro j hj
        have hja : j.name ≠ a := fun e => n3 j.name (List.mem_map_of_mem hj) k'.name (by simp) (e.trans hk'.symm)
        have hjr : j ∉ r := fun hr => n3 j.name (List.mem_map_of_mem hj) j.name (List.mem_cons_of_mem _ (List.mem_map_of_mem hr)) rfl
        have hjk : j ∈ t.kids := by rw [hl]; simp [hj]
        have hg : j ∉ greater a t.kids := fun hx => hjr (hlat ▸ (hsel j hjk hja).1 hx)
        have : ¬ a < j.name := fun hlt => hg (List.mem_filter.2 ⟨hjk, by simpa using hlt⟩)
        rcases string_le_iff.1 (String.not_lt.1 this) with h | h
        · exact h
        · exact absurd h hja
      · intro j hj
        have hjk : j ∈ t.kids := by rw [hl]; simp [hj]
        have hja : j.name ≠ a := fun e => n2.1 (by rw [hk', ← e]; exact List.mem_map_of_mem hj)
        have := (hsel j hjk hja).2 (hlat ▸ hj)
        simpa [greater, hjk] using this

theorem atLeast_perm {a : String} {l : List Tree} {k : Tree} (hd : (l.map Tree.name).Nodup) (hk : k ∈ l) (hn : k.name = a) :
    (l.filter (fun k => decide (a ≤ k.name))).Perm (k :: greater a l) := by
  induction l with
  | nil => simp at hk
  | cons x xs ih =>
    simp only [List.map_cons, List.nodup_cons, List.mem_map, not_exists, not_and] at hd
    rcases List.mem_cons.1 hk with rfl | hk
    · have : ∀ j ∈ xs, (a ≤ j.name ↔ a < j.name) := by
        intro j hj
        rw [string_le_iff]
        refine ⟨fun h => h.resolve_right (fun e => hd.1 j hj (by rw [← e, hn])), Or.inl⟩
      rw [List.filter_cons, if_pos (by simp [hn]), greater, List.filter_cons, if_neg (by simp [hn, String.lt_irrefl])]
      refine (List.Perm.of_eq ?_).cons _
      apply List.filter_congr
      intro j hj
      simp [this j hj]
    · have hxa : x.name ≠ a := fun e => hd.1 k hk (by rw [hn, e])
      have hx : (a ≤ x.name ↔ a < x.name) := by
        rw [string_le_iff]
        exact ⟨fun h => h.resolve_right (fun e => hxa e.symm), Or.inl⟩
      have := ih hd.2 hk
      by_cases hlt : a < x.name
      · rw [List.filter_cons, if_pos (by simpa using hx.2 hlt), greater, List.filter_cons, if_pos (by simpa using hlt)]
        exact (this.cons x).trans (List.Perm.swap _ _ _)
      · rw [List.filter_cons, if_neg (by simpa using fun h => hlt (hx.1 h)), greater, List.filter_cons, if_neg (by simpa using hlt)]
        exact this

end Traverse
