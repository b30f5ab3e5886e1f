import Verif.Proofs.Spawn
import Verif.Proofs.SampleCount
/-
Spawning on a file system.
-/
namespace Traverse
variable {σ : Type}

/-- Sorting a selection is selecting from what is sorted. -/
theorem SortsBy.filter {key sort} (h : SortsBy key sort) (P : Tree → Bool) (l : List Tree)
    (hd : (l.map (fun t => key t.name)).Nodup) : sort (l.filter P) = (sort l).filter P := by
  obtain ⟨p1, s1⟩ := h l
  obtain ⟨p2, s2⟩ := h (l.filter P)
  have hinj : ∀ L : List Tree, (L.map (fun t => key t.name)).Nodup → ∀ a ∈ L, ∀ b ∈ L, key a.name = key b.name → a = b := by
    intro L
    induction L with
    | nil => simp
    | cons x xs ih =>
      intro hd a ha b hb hk
      simp only [List.map_cons, List.nodup_cons, List.mem_map, not_exists, not_and] at hd
      rcases List.mem_cons.1 ha with e1 | e1 <;> rcases List.mem_cons.1 hb with e2 | e2
      · rw [e1, e2]
      · exact absurd (e1 ▸ hk.symm) (hd.1 b e2)
      · exact absurd (e2 ▸ hk) (hd.1 a e1)
      · exact ih hd.2 a e1 b e2 hk
  refine List.Perm.eq_of_pairwise (le := fun a b => ¬ key b.name < key a.name) ?_ s2 (s1.filter P) (p2.trans (p1.filter P).symm)
  intro a b ha hb h1 h2
  exact hinj l hd a (List.mem_filter.1 (p2.mem_iff.1 ha)).1 b (p1.mem_iff.1 (List.mem_filter.1 hb).1)
    (String.le_antisymm (String.not_lt.1 h1) (String.not_lt.1 h2))

theorem FS.At.distinct {pre f p g} (h : FS.At pre f p g) : f.Distinct → g.Distinct := by
  induction h with
  | here => exact id
  | inside hk h ih => intro hd; rw [FS.Distinct, FS.distinctL_iff] at hd; exact ih (hd.2 _ hk)

theorem FS.At.keysDiffer {key pre f p g} (h : FS.At pre f p g) : f.KeysDiffer key → g.KeysDiffer key := by
  induction h with
  | here => exact id
  | inside hk h ih => intro hd; rw [FS.KeysDiffer, keysDifferL_iff] at hd; exact ih (hd.2 _ hk)

theorem arrange_kids (c : Nav) (e re raw) (hsub : c.sub = .universal ∨ c.sub = .files) :
    (arrange c e re raw).kids = if c.filesFirst then
      c.sort ((c.read raw re).1.filter (fun t => !t.isDir)) ++ c.sort ((c.read raw re).1.filter (fun t => t.isDir))
      else c.sort ((c.read raw re).1.filter (fun t => t.isDir)) ++ c.sort ((c.read raw re).1.filter (fun t => !t.isDir)) := by
  simp only [arrange]
  rcases hsub with h | h <;> simp [h]

theorem kinds_read (key : String → String) (c : Nav) (kids : List FS)
    (h : ∀ b : Bool, ((kids.filter (fun k => k.isDir == b)).map (fun k => key k.name)).Nodup) :
    ∀ b : Bool, (((defaultRead (kids.map (prep c)) none).1.filter (fun t => t.isDir == b)).map (fun t => key t.name)).Nodup := by
  intro b
  refine (kinds_prep key c kids b (h b)).sublist (List.Sublist.map _ (List.Sublist.filter _ ?_))
  simp only [defaultRead]
  exact List.filter_sublist

/-- What a spawn resume relies on holds if the disk still holds what the first session met. -/
theorem spawnable_of (key) (c : Nav) (stat disk) (pre : Path) (fs : FS) (hdepth : c.maxDepth = 0) (hread : c.read = defaultRead)
    (hsort : SortsBy key c.sort) (hsub : c.sub = .universal ∨ c.sub = .files)
    (hdistinct : fs.Distinct) (hkeys : fs.KeysDiffer key) (hdisk : ∀ p g, FS.At pre fs p g → disk p = .ok g)
    (hstat : ∀ p g, FS.At pre fs p g → stat p = .found (prep c g)) : Spawnable c stat disk pre (prep c fs) := by
  have hp := hsort.permutes
  have hsel := defaultRead_selects c hread
  refine ⟨hdepth, ?_, ?_, ?_⟩
  · intro p u hu
    obtain ⟨g, hg, rfl⟩ := hu.prep hp hsel fs rfl
    exact hstat p g hg
  · intro p u hu
    obtain ⟨g, hg, rfl⟩ := hu.prep hp hsel fs rfl
    exact ⟨prep_wf c hp hsel g, prep_distinct c hp hsel g (hg.distinct hdistinct),
      fun _ => prep_shut c hp hread g⟩
  · intro p u hu a incl ha
    obtain ⟨g, hg, rfl⟩ := hu.prep hp hsel fs rfl
    have hk := hg.keysDiffer hkeys
    simp only [following, Disk.list, hdisk p g hg]
    cases g with
    | file => simp [prep] at ha
    | dir n ie re kids =>
      rw [prep_dir, arrange_kids c _ _ _ hsub] at ha ⊢
      cases re with
      | some e => simp [hread, defaultRead, (hsort []).1.eq_nil] at ha
      | none =>
        rw [FS.KeysDiffer] at hk
        have hn := kinds_read key c kids hk.1
        rw [prepList_eq, hread]
        have hdr : defaultRead (kids.map (prep c)) none = ((defaultRead (kids.map (prep c)) none).1, none) := rfl
        rw [hdr]
        simp only
        generalize (defaultRead (kids.map (prep c)) none).1 = E at hn
        have hT := hn true
        have hF := hn false
        simp only [beq_true, beq_false] at hT hF
        simp only [fromAnchor]
        have swap : ∀ P Q : Tree → Bool, (E.filter P).filter Q = (E.filter Q).filter P := by
          intro P Q; rw [List.filter_filter, List.filter_filter]; apply List.filter_congr; intro x _; exact Bool.and_comm _ _
        rw [swap _ (fun t => !t.isDir), swap _ (fun t => t.isDir), hsort.filter _ _ hF, hsort.filter _ _ hT]
        split <;> rw [List.filter_append]

/-- Everything listed is somewhere. -/
theorem mem_list_down (t : Tree) : t.Distinct → ∀ pp, ∀ k ∈ t.list pp, ∃ as u, k.1 = pp ++ t.name :: as ∧ t.down as = some u ∧ k.2 = u.isDir := by
  induction t using Tree.ind with
  | h e re fs ds kids ih =>
    intro hd pp k hk
    rw [list_root, List.mem_cons] at hk
    rcases hk with rfl | hk
    · exact ⟨[], _, rfl, rfl, rfl⟩
    · obtain ⟨j, hj, hk, _⟩ := listL_name hk
      obtain ⟨hnd, hdk⟩ := kids_distinct hd
      obtain ⟨as, u, h1, h2, h3⟩ := ih j hj (hdk j hj) _ k hk
      refine ⟨j.name :: as, u, by rw [h1]; simp, ?_, h3⟩
      have : (Tree.node e re fs ds kids).kid j.name = some j := by
        unfold Tree.kid
        cases hf : (Tree.node e re fs ds kids).kids.find? (fun k => k.name == j.name) with
        | none => exact absurd (List.find?_eq_none.1 hf j hj) (by simp)
        | some i =>
          have h4 := List.mem_of_find?_eq_some hf
          have h5 := List.find?_some hf
          rw [name_inj hnd h4 hj (by simpa using h5)]
      simp only [Tree.down, this, Option.bind_some, h2]

/-- Along the path `p` names come in the order of their bytes: whatever a directory on the way visits before the entry that
leads to `p` has a smaller name, whatever it visits after has a greater name. -/
def ByteOrdered (c : Nav) (pre : Path) (fs : FS) (p : Path) : Prop :=
  ∀ q a g, FS.At pre fs q g → (q ++ [a]) <+: p → ∀ l r, visitOrder c g = l ++ a :: r → (∀ b ∈ l, b < a) ∧ ∀ b ∈ r, a < b

theorem map_eq_split {α β} {f : α → β} {L : List α} {l r : List β} {b : β} (h : L.map f = l ++ b :: r) :
    ∃ l' k r', L = l' ++ k :: r' ∧ f k = b ∧ l = l'.map f ∧ r = r'.map f := by
  induction l generalizing L with
  | nil =>
    cases L with
    | nil => simp at h
    | cons x xs =>
      simp at h
      exact ⟨[], x, xs, rfl, h.1, rfl, h.2.symm⟩
  | cons y ys ih =>
    cases L with
    | nil => simp at h
    | cons x xs =>
      simp at h
      obtain ⟨l', k, r', h1, h2, h3, h4⟩ := ih h.2
      exact ⟨x :: l', k, r', by simp [h1], h2, by simp [h.1, h3], h4⟩

theorem FS.At.inside_kid {pre fs p g} (h : FS.At pre fs p g) : ∀ {n ie re kids}, g = .dir n ie re kids → ∀ k ∈ kids,
    FS.At pre fs (p ++ [k.name]) k := by
  induction h with
  | here pre f => intro n ie re kids e k hk; subst e; exact .inside hk (.here _ _)
  | inside hk h ih => intro n ie re kids e k hk'; exact .inside hk (ih e k hk')

/-- The condition on the file system is the condition on the tree. -/
theorem byteOrdered_iff (c : Nav) (hp : SortPermutes c) (hsel : ReadSelects c) (as : List String) : ∀ (pre : Path) (fs : FS) (u : Tree),
    fs.Distinct → (prep c fs).down as = some u → (ByteOrdered c pre fs (pre ++ fs.name :: as) ↔ InOrder as (prep c fs)) := by
  induction as with
  | nil =>
    intro pre fs u _ _
    refine ⟨fun _ => trivial, fun _ => ?_⟩
    intro q a g hg hpre
    have h1 := hg.pre_prefix.length_le
    have h2 := hpre.length_le
    simp at h1 h2
    omega
  | cons a as ih =>
    intro pre fs u hd hdown
    have hdt := prep_distinct c hp hsel fs hd
    obtain ⟨hnd, hdk⟩ := kids_distinct hdt
    simp only [Tree.down] at hdown
    cases hkid : (prep c fs).kid a with
    | none => simp [hkid] at hdown
    | some k =>
      rw [hkid] at hdown
      simp only [Option.bind_some] at hdown
      obtain ⟨hk1, hk2⟩ := kid_some hkid
      -- the entry in the file system
      obtain ⟨n, ie, re, kids, f, rfl, hf, rfl⟩ : ∃ n ie re kids f, fs = .dir n ie re kids ∧ f ∈ kids ∧ k = prep c f := by
        cases fs with
        | file => simp [prep] at hk1
        | dir n ie re kids =>
          rw [prep_dir] at hk1
          obtain ⟨l, hl, hsub⟩ := arrange_kids_select c hp hsel ⟨n, true, ie⟩ re (kids.map (prep c))
          obtain ⟨f, hf, rfl⟩ := List.mem_map.1 (hsub.subset (hl.mem_iff.2 hk1))
          exact ⟨n, ie, re, kids, f, rfl, hf, rfl⟩
      have hfn : f.name = a := by rw [← hk2]; exact (prep_entry c f).1.symm
      have hd' := hd
      rw [FS.Distinct, FS.distinctL_iff] at hd'
      have hih := ih (pre ++ [n]) f u (hd'.2 f hf) hdown
      have hpath : pre ++ [n] ++ f.name :: as = pre ++ FS.name (.dir n ie re kids) :: a :: as := by
        show pre ++ [n] ++ f.name :: as = pre ++ n :: a :: as
        rw [hfn]; simp
      rw [hpath] at hih
      constructor
      · intro hb
        refine ⟨?_, ?_⟩
        · intro l k' r hl hk'
          have hv : visitOrder c (.dir n ie re kids) = l.map Tree.name ++ a :: r.map Tree.name := by
            rw [← visitOrder_eq, hl, List.map_append, List.map_cons, hk']
          obtain ⟨h1, h2⟩ := hb _ a _ (.here pre (.dir n ie re kids)) ⟨as, by simp⟩ _ _ hv
          exact ⟨fun j hj => h1 _ (List.mem_map_of_mem hj), fun j hj => h2 _ (List.mem_map_of_mem hj)⟩
        · intro k' hk'
          rw [hkid, Option.some.injEq] at hk'
          subst hk'
          refine hih.1 ?_
          intro q b g hg hpre
          exact hb q b g (.inside hf hg) hpre
      · rintro ⟨h1, h2⟩ q b g hg hpre l r hv
        cases hg with
        | here =>
          have hb : b = a := by
            refine prefix_snoc_inj hpre ?_
            exact ⟨as, by simp⟩
          subst hb
          rw [← visitOrder_eq] at hv
          obtain ⟨l', k', r', e1, e2, rfl, rfl⟩ := map_eq_split hv
          obtain ⟨g1, g2⟩ := h1 l' k' r' e1 e2
          refine ⟨?_, ?_⟩
          · intro x hx; obtain ⟨j, hj, rfl⟩ := List.mem_map.1 hx; exact g1 j hj
          · intro x hx; obtain ⟨j, hj, rfl⟩ := List.mem_map.1 hx; exact g2 j hj
        | @inside _ _ _ _ _ f' _ _ hf' hg =>
          have hff : f' = f := by
            have e1 := hg.pre_prefix
            have e2 : (pre ++ [n] ++ [f.name]) <+: pre ++ FS.name (.dir n ie re kids) :: a :: as := ⟨as, by
              show pre ++ [n] ++ [f.name] ++ as = pre ++ n :: a :: as
              rw [hfn]; simp⟩
            have hnm : f'.name = f.name := prefix_snoc_inj ((e1.trans (List.prefix_append q [b])).trans hpre) e2
            have hat1 : FS.At pre (.dir n ie re kids) (pre ++ [n] ++ [f.name]) f := .inside hf (.here _ _)
            have hat2 : FS.At pre (.dir n ie re kids) (pre ++ [n] ++ [f.name]) f' := by rw [← hnm]; exact .inside hf' (.here _ _)
            exact hat2.unique hd _ hat1
          subst hff
          exact hih.2 (h2 _ hkid) q b g hg hpre l r hv

end Traverse
