import Verif.Spec.Enumerate
import Verif.Proofs.Prune
namespace Traverse
variable {σ : Type}

theorem prep_dir (c : Nav) (n ie re kids) :
    prep c (.dir n ie re kids) = arrange c ⟨n, true, ie⟩ re (kids.map (prep c)) := by
  rw [prep, prepList_eq]

theorem arrange_entry (c : Nav) (e re raw) : (arrange c e re raw).entry = e := by
  simp only [arrange]; split <;> rfl

theorem prep_entry (c : Nav) (f : FS) : (prep c f).name = f.name ∧ (prep c f).isDir = f.isDir := by
  cases f with
  | file n ie re => simp [prep, Tree.name, Tree.isDir, FS.name, FS.isDir]
  | dir n ie re kids =>
    rw [prep_dir]
    simp [Tree.name, Tree.isDir, arrange_entry, FS.name, FS.isDir]

theorem partition_perm {α} (P : α → Bool) (l : List α) : (l.filter P ++ l.filter (fun x => !P x)).Perm l :=
  List.filter_append_perm P l

theorem arrange_kids_perm (c : Nav) (hs : SortPermutes c) (e re raw)
    (hsub : c.sub ≠ .directories) (hsub2 : c.sub ≠ .directoriesWithFiles) :
    (arrange c e re raw).kids.Perm (c.read raw re).1 := by
  have h1 := partition_perm (fun t : Tree => t.isDir) (c.read raw re).1
  have hd := hs ((c.read raw re).1.filter (fun t => t.isDir))
  have hf := hs ((c.read raw re).1.filter (fun t => !t.isDir))
  have : (arrange c e re raw).kids = if c.filesFirst then
      c.sort ((c.read raw re).1.filter (fun t => !t.isDir)) ++ c.sort ((c.read raw re).1.filter (fun t => t.isDir))
      else c.sort ((c.read raw re).1.filter (fun t => t.isDir)) ++ c.sort ((c.read raw re).1.filter (fun t => !t.isDir)) := by
    simp only [arrange]
    cases hc : c.sub <;> simp_all
  rw [this]
  split
  · exact ((hf.append hd).trans (List.perm_append_comm)).trans h1
  · exact (hd.append hf).trans h1

theorem arrange_kids_dirs (c : Nav) (e re raw)
    (hsub : c.sub = .directories ∨ c.sub = .directoriesWithFiles) :
    (arrange c e re raw).kids = c.sort ((c.read raw re).1.filter (fun t => t.isDir)) := by
  simp only [arrange]
  rcases hsub with h | h <;> simp [h]

theorem arrange_kids_select (c : Nav) (hs : SortPermutes c) (hr : ReadSelects c) (e re raw) :
    ∃ l : List Tree, l.Perm (arrange c e re raw).kids ∧ l.Sublist raw := by
  obtain ⟨l, hl, hsub⟩ := hr raw re
  by_cases h : c.sub = .directories ∨ c.sub = .directoriesWithFiles
  · rw [arrange_kids_dirs c e re raw h]
    exact ⟨l.filter (fun t => t.isDir), (hl.filter _).trans (hs _).symm, (List.filter_sublist).trans hsub⟩
  · have := arrange_kids_perm c hs e re raw (fun h' => h (Or.inl h')) (fun h' => h (Or.inr h'))
    exact ⟨l, hl.trans this.symm, hsub⟩

theorem arrange_distinct (c : Nav) (hs : SortPermutes c) (hr : ReadSelects c) (e re raw)
    (hn : (raw.map Tree.name).Nodup) (hk : ∀ t ∈ raw, t.Distinct) : (arrange c e re raw).Distinct := by
  obtain ⟨l, hl, hsub⟩ := arrange_kids_select c hs hr e re raw
  generalize hT : arrange c e re raw = T at hl
  cases T with
  | node e re fs ds kids =>
    simp only [Tree.kids_node] at hl
    refine ⟨?_, ?_⟩
    · exact (hl.map Tree.name).nodup_iff.1 (hn.sublist (hsub.map _))
    · rw [Tree.distinctL_iff]
      intro t ht
      exact hk t (hsub.subset (hl.mem_iff.2 ht))

theorem prep_distinct (c : Nav) (hs : SortPermutes c) (hr : ReadSelects c) (f : FS) :
    f.Distinct → (prep c f).Distinct := by
  induction f using FS.ind with
  | hf n ie re => intro _; exact ⟨by simp, trivial⟩
  | hd n ie re kids ih =>
    intro ⟨h1, h2⟩
    rw [FS.distinctL_iff] at h2
    rw [prep_dir]
    apply arrange_distinct c hs hr
    · have : (kids.map (prep c)).map Tree.name = kids.map FS.name := by
        simp only [List.map_map]
        apply List.map_congr_left
        intro f _
        exact (prep_entry c f).1
      rw [this]; exact h1
    · intro t ht
      obtain ⟨f, hf, rfl⟩ := List.mem_map.1 ht
      exact ih f hf (h2 f hf)

theorem defaultRead_selects (c : Nav) (h : c.read = defaultRead) : ReadSelects c := by
  intro l e
  rw [h]
  cases e with
  | some e => exact ⟨[], by simp [defaultRead], by simp⟩
  | none => exact ⟨l.filter (fun t => t.name != ".DS_Store"), by simp [defaultRead], List.filter_sublist⟩

mutual
/-- Files have nothing below them. -/
def Tree.WF : Tree → Prop
  | .node e _ _ _ kids => (e.isDir = false → kids = []) ∧ Tree.WFL kids
def Tree.WFL : List Tree → Prop
  | [] => True
  | t :: ts => t.WF ∧ Tree.WFL ts
end

theorem Tree.wfL_iff (ts : List Tree) : Tree.WFL ts ↔ ∀ t ∈ ts, t.WF := by
  induction ts with
  | nil => simp [Tree.WFL]
  | cons t ts ih => simp [Tree.WFL, ih]

theorem prep_wf (c : Nav) (hs : SortPermutes c) (hr : ReadSelects c) (f : FS) : (prep c f).WF := by
  induction f using FS.ind with
  | hf n ie re => exact ⟨fun _ => rfl, trivial⟩
  | hd n ie re kids ih =>
    rw [prep_dir]
    obtain ⟨l, hl, hsub⟩ := arrange_kids_select c hs hr ⟨n, true, ie⟩ re (kids.map (prep c))
    have he := arrange_entry c ⟨n, true, ie⟩ re (kids.map (prep c))
    generalize hT : arrange c ⟨n, true, ie⟩ re (kids.map (prep c)) = T at hl he
    cases T with
    | node e re fs ds ks =>
      simp only [Tree.kids_node] at hl
      simp only [Tree.entry_node] at he
      subst he
      refine ⟨by simp, ?_⟩
      rw [Tree.wfL_iff]
      intro t ht
      obtain ⟨f, hf, rfl⟩ := List.mem_map.1 (hsub.subset (hl.mem_iff.2 ht))
      exact ih f hf

theorem nodup_name_inj {kids : List Tree} (hnd : (kids.map Tree.name).Nodup) {k k' : Tree} (hk : k ∈ kids) (hk' : k' ∈ kids)
    (hname : k.name = k'.name) : k = k' := by
  rw [List.Nodup, List.pairwise_map] at hnd
  induction kids with
  | nil => simp at hk
  | cons x xs ih =>
    rw [List.pairwise_cons] at hnd
    rcases List.mem_cons.1 hk with a | a <;> rcases List.mem_cons.1 hk' with b | b
    · exact a.trans b.symm
    · exact absurd (a ▸ hname) (hnd.1 _ b)
    · exact absurd (b ▸ hname.symm) (hnd.1 _ a)
    · exact ih hnd.2 a b

/-- No item lies below a file's item. -/
theorem items_leaf (c : Nav) (t : Tree) : t.WF → t.Distinct → ∀ ps pp d,
    ∀ it ∈ items c ps pp d t, it.node.isDir = false → ∀ it' ∈ items c ps pp d t,
      ¬ Above it.node.path it'.node.path := by
  induction t using Tree.ind with
  | h e re fs ds kids ih =>
    intro ⟨hwf, hwfl⟩ ⟨hnd, hdl⟩ ps pp d it hit hn it' hit'
    rw [Tree.wfL_iff] at hwfl
    rw [Tree.distinctL_iff] at hdl
    simp only [items] at hit hit'
    split at hit
    · simp at hit
    · rename_i hdeep
      rw [if_neg hdeep] at hit'
      rcases List.mem_cons.1 hit with rfl | hit
      · have hk : kids = [] := hwf (by simpa [Tree.isDir] using hn)
        subst hk
        simp only [itemsList, List.mem_singleton] at hit'
        subst hit'
        exact fun h => h.2 rfl
      · rw [itemsList_eq, List.mem_flatMap] at hit
        obtain ⟨k, hk, hit⟩ := hit
        have hp := (items_path c k _ _ _ it hit).1
        rcases List.mem_cons.1 hit' with rfl | hit'
        · intro h
          have h1 := hp.length_le
          have h2 := h.1.length_le
          simp at h1 h2
          omega
        · rw [itemsList_eq, List.mem_flatMap] at hit'
          obtain ⟨k', hk', hit'⟩ := hit'
          have hp' := (items_path c k' _ _ _ it' hit').1
          intro h
          have hname : k.name = k'.name := prefix_snoc_inj (hp.trans h.1) hp'
          have : k = k' := by
            rw [List.Nodup, List.pairwise_map] at hnd
            by_cases hkk : k = k'
            · exact hkk
            · exfalso
              have hno : ∀ (l : List Tree), l.Pairwise (fun a b => a.name ≠ b.name) → k ∈ l → k' ∈ l → False := by
                intro l hl
                induction l with
                | nil => simp
                | cons x xs ihx =>
                  rw [List.pairwise_cons] at hl
                  intro h1 h2
                  rcases List.mem_cons.1 h1 with a | a <;> rcases List.mem_cons.1 h2 with b | b
                  · exact hkk (a.trans b.symm)
                  · exact hl.1 _ b (a ▸ hname)
                  · exact hl.1 _ a (b ▸ hname.symm)
                  · exact ihx hl.2 a b
              exact hno kids hnd hk hk'
          subst this
          exact ih k hk (hwfl k hk) (hdl k hk) _ _ _ it hit hn it' hit' h

mutual
/-- Directories that could not be read have nothing below them. -/
def Tree.Shut : Tree → Prop
  | .node _ re _ _ kids => (re ≠ none → kids = []) ∧ Tree.ShutL kids
def Tree.ShutL : List Tree → Prop
  | [] => True
  | t :: ts => t.Shut ∧ Tree.ShutL ts
end

theorem Tree.shutL_iff (ts : List Tree) : Tree.ShutL ts ↔ ∀ t ∈ ts, t.Shut := by
  induction ts with
  | nil => simp [Tree.ShutL]
  | cons t ts ih => simp [Tree.ShutL, ih]

theorem prep_shut (c : Nav) (hs : SortPermutes c) (hr : c.read = defaultRead) (f : FS) : (prep c f).Shut := by
  induction f using FS.ind with
  | hf n ie re => exact ⟨fun _ => rfl, trivial⟩
  | hd n ie re kids ih =>
    rw [prep_dir]
    obtain ⟨l, hl, hsub⟩ := arrange_kids_select c hs (defaultRead_selects c hr) ⟨n, true, ie⟩ re (kids.map (prep c))
    have hre : (arrange c ⟨n, true, ie⟩ re (kids.map (prep c))).readErr ≠ none →
        (arrange c ⟨n, true, ie⟩ re (kids.map (prep c))).kids = [] := by
      cases re with
      | none => intro h; exfalso; apply h; simp only [arrange, hr, defaultRead]; cases c.sub <;> rfl
      | some e =>
        intro _
        have hnil : ∀ l : List Tree, l.Perm [] → l = [] := fun l h => h.eq_nil
        by_cases h : c.sub = .directories ∨ c.sub = .directoriesWithFiles
        · rw [arrange_kids_dirs c _ _ _ h, hr]
          exact hnil _ (by simpa [defaultRead] using hs [])
        · have := arrange_kids_perm c hs ⟨n, true, ie⟩ (some e) (kids.map (prep c)) (fun h' => h (Or.inl h')) (fun h' => h (Or.inr h'))
          rw [hr] at this
          exact hnil _ (by simpa [defaultRead] using this)
    generalize hT : arrange c ⟨n, true, ie⟩ re (kids.map (prep c)) = T at hl hre
    cases T with
    | node e re' fs ds ks =>
      simp only [Tree.kids_node] at hl
      refine ⟨by simpa using hre, ?_⟩
      rw [Tree.shutL_iff]
      intro t ht
      obtain ⟨f, hf, rfl⟩ := List.mem_map.1 (hsub.subset (hl.mem_iff.2 ht))
      exact ih f hf

/-- No item lies below the item of a directory that could not be read. -/
theorem items_shut (c : Nav) (t : Tree) : t.Shut → t.Distinct → ∀ ps pp d,
    ∀ it ∈ items c ps pp d t, it.node.isDir = true → it.readErr ≠ none → ∀ it' ∈ items c ps pp d t,
      ¬ Above it.node.path it'.node.path := by
  induction t using Tree.ind with
  | h e re fs ds kids ih =>
    intro ⟨hwf, hwfl⟩ ⟨hnd, hdl⟩ ps pp d it hit hdir hn it' hit'
    rw [Tree.shutL_iff] at hwfl
    rw [Tree.distinctL_iff] at hdl
    simp only [items] at hit hit'
    split at hit
    · simp at hit
    · rename_i hdeep
      rw [if_neg hdeep] at hit'
      rcases List.mem_cons.1 hit with rfl | hit
      · have hk : kids = [] := by
          apply hwf
          intro hre
          apply hn
          simp [readErrOf, hre]
        subst hk
        simp only [itemsList, List.mem_singleton] at hit'
        subst hit'
        exact fun h => h.2 rfl
      · rw [itemsList_eq, List.mem_flatMap] at hit
        obtain ⟨k, hk, hit⟩ := hit
        have hp := (items_path c k _ _ _ it hit).1
        rcases List.mem_cons.1 hit' with rfl | hit'
        · intro h
          have h1 := hp.length_le
          have h2 := h.1.length_le
          simp at h1 h2
          omega
        · rw [itemsList_eq, List.mem_flatMap] at hit'
          obtain ⟨k', hk', hit'⟩ := hit'
          have hp' := (items_path c k' _ _ _ it' hit').1
          intro h
          have hname : k.name = k'.name := prefix_snoc_inj (hp.trans h.1) hp'
          have : k = k' := nodup_name_inj hnd hk hk' hname
          subst this
          exact ih k hk (hwfl k hk) (hdl k hk) _ _ _ it hit hdir hn it' hit' h

/-- Under the default read hook nothing lies below a directory that could not be read. -/
theorem items0_shut (c : Nav) (hs : SortPermutes c) (hr : c.read = defaultRead) (f : FS) (hd : f.Distinct) (ps pp d) :
    ∀ it ∈ items c ps pp d (prep c f), it.node.isDir = true → it.readErr ≠ none →
      ∀ it' ∈ items c ps pp d (prep c f), ¬ Above it.node.path it'.node.path :=
  items_shut c _ (prep_shut c hs hr f) (prep_distinct c hs (defaultRead_selects c hr) f hd) ps pp d

theorem items_root (c : Nav) (t : Tree) (ps pp d) : ∀ it ∈ items c ps pp d t, it.node.depth = d →
    ∀ it' ∈ items c ps pp d t, it.node.path <+: it'.node.path := by
  intro it hit hd it' hit'
  obtain ⟨h1, h2⟩ := items_path c t _ _ _ it hit
  obtain ⟨h1', _⟩ := items_path c t _ _ _ it' hit'
  have hlen : it.node.path.length = pp.length + 1 := by omega
  have : it.node.path = pp ++ [t.name] :=
    (h1.eq_of_length (by simp; omega)).symm
  rw [this]; exact h1'

def Item.key (it : Item) : Path × Bool := (it.node.path, it.node.isDir)

theorem nodesL_eq (pre : Path) (l : List FS) :
    FS.nodesL pre l = (l.filter (fun f => f.name != ".DS_Store")).flatMap (FS.nodes pre) := by
  induction l with
  | nil => rfl
  | cons f fs ih =>
    rw [FS.nodesL, ih, List.filter_cons]
    by_cases h : f.name = ".DS_Store" <;> simp [h]

/-- Without depth limit and with the default read hook the item list enumerates the file system. -/
theorem items_nodes (c : Nav) (hs : SortPermutes c) (hr : c.read = defaultRead) (hm : c.maxDepth = 0)
    (hsub : c.sub ≠ .directories) (hsub2 : c.sub ≠ .directoriesWithFiles) (f : FS) :
    ∀ ps pp d, ((items c ps pp d (prep c f)).map Item.key).Perm (FS.nodes pp f) := by
  have htd : ∀ d, tooDeep c d = false := by intro d; simp [tooDeep, hm]
  induction f using FS.ind with
  | hf n ie re => intro ps pp d; simp [prep, items, htd, itemsList, FS.nodes, Item.key, Tree.isDir]
  | hd n ie re kids ih =>
    intro ps pp d
    rw [prep_dir]
    have hk := arrange_kids_perm c hs ⟨n, true, ie⟩ re (kids.map (prep c)) hsub hsub2
    have he := arrange_entry c ⟨n, true, ie⟩ re (kids.map (prep c))
    rw [hr] at hk
    generalize hT : arrange c ⟨n, true, ie⟩ re (kids.map (prep c)) = T at hk he
    cases T with
    | node e re' fs ds ks =>
      simp only [Tree.kids_node] at hk
      simp only [Tree.entry_node] at he
      subst he
      simp only [items, htd, Bool.false_eq_true, if_false, List.map_cons, FS.nodes]
      generalize hps : (mkNode c ps (pp ++ [n]) _ (d + 1)).toNodeInfo :: ps = ps'
      have hkey : Item.key ⟨mkNode c ps (pp ++ [n]) (.node ⟨n, true, ie⟩ re' fs ds ks) (d + 1),
        readErrOf c (.node ⟨n, true, ie⟩ re' fs ds ks)⟩ = (pp ++ [n], true) := rfl
      rw [hkey]
      apply List.Perm.cons
      rw [itemsList_eq, List.map_flatMap]
      refine (hk.flatMap_right _).trans ?_
      cases re with
      | some x => simp [defaultRead]
      | none =>
        simp only [defaultRead, Option.isSome_none, Bool.false_eq_true, if_false, nodesL_eq]
        have : (kids.map (prep c)).filter (fun t => t.name != ".DS_Store") =
            (kids.filter (fun f => f.name != ".DS_Store")).map (prep c) := by
          rw [List.filter_map]
          congr 1
          apply List.filter_congr
          intro f _
          simp [(prep_entry c f).1]
        rw [this, List.flatMap_map]
        have hsubk : ∀ f ∈ kids.filter (fun f => f.name != ".DS_Store"), f ∈ kids := fun f h => (List.mem_filter.1 h).1
        generalize kids.filter (fun f => f.name != ".DS_Store") = ks' at hsubk
        induction ks' with
        | nil => simp
        | cons f ks' ihk =>
          simp only [List.flatMap_cons]
          exact (ih f (hsubk f (by simp)) _ _ _).append (ihk (fun x hx => hsubk x (by simp [hx])))

end Traverse
