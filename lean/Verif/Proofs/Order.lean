import Verif.Spec.Observe
import Verif.Proofs.Invariant
namespace Traverse
variable {σ : Type}

theorem Tree.distinctL_iff (ts : List Tree) : Tree.DistinctL ts ↔ ∀ t ∈ ts, t.Distinct := by
  induction ts with
  | nil => simp [Tree.DistinctL]
  | cons t ts ih => simp [Tree.DistinctL, ih]

theorem FS.distinctL_iff (ts : List FS) : FS.DistinctL ts ↔ ∀ t ∈ ts, t.Distinct := by
  induction ts with
  | nil => simp [FS.DistinctL]
  | cons t ts ih => simp [FS.DistinctL, ih]

theorem FS.ind {P : FS → Prop} (hf : ∀ n ie re, P (.file n ie re))
    (hd : ∀ n ie re kids, (∀ k ∈ kids, P k) → P (.dir n ie re kids)) : ∀ t, P t := by
  intro t
  refine FS.rec (motive_1 := P) (motive_2 := fun l => ∀ k ∈ l, P k) hf ?_ ?_ ?_ t
  · intro n ie re kids ih; exact hd n ie re kids ih
  · intro k hk; cases hk
  · intro x xs hx hxs k hk
    rcases List.mem_cons.1 hk with rfl | hk
    · exact hx
    · exact hxs k hk

theorem prepList_eq (c : Nav) (l : List FS) : prepList c l = l.map (prep c) := by
  induction l with
  | nil => rfl
  | cons f fs ih => simp [prepList, ih]

theorem itemsList_eq (c : Nav) (ps pp d) (l : List Tree) :
    itemsList c ps pp d l = l.flatMap (items c ps pp d) := by
  induction l with
  | nil => rfl
  | cons f fs ih => simp [itemsList, ih]

/-- Every item of a subtree lies at or below the subtree's path, at the depth given by the path. -/
theorem items_path (c : Nav) (t : Tree) : ∀ ps pp d, ∀ j ∈ items c ps pp d t,
    (pp ++ [t.name]) <+: j.node.path ∧
    j.node.depth = d + ((j.node.path.length : Int) - (pp.length + 1)) := by
  induction t using Tree.ind with
  | h e re fs ds kids ih =>
    intro ps pp d j hj
    simp only [items] at hj
    split at hj
    · simp at hj
    · rcases List.mem_cons.1 hj with rfl | hj
      · simp [Tree.name]
      · rw [itemsList_eq, List.mem_flatMap] at hj
        obtain ⟨k, hk, hj⟩ := hj
        obtain ⟨h1, h2⟩ := ih k hk _ _ _ j hj
        refine ⟨?_, ?_⟩
        · exact List.IsPrefix.trans (by simp [Tree.name]) h1
        · rw [h2]; simp; omega

/-- The item list is a pre-order listing: behind each item come first the items below it, then none. -/
def PreOrder : List Item → Prop
  | [] => True
  | it :: rest =>
    (∀ j ∈ rest.takeWhile (fun j => decide (it.node.depth < j.node.depth)), Above it.node.path j.node.path) ∧
    (∀ j ∈ rest.dropWhile (fun j => decide (it.node.depth < j.node.depth)),
      ¬ it.node.path <+: j.node.path ∧ ¬ j.node.path <+: it.node.path) ∧
    PreOrder rest

theorem PreOrder.dropWhile {l : List Item} (h : PreOrder l) (P : Item → Bool) : PreOrder (l.dropWhile P) := by
  induction l with
  | nil => exact h
  | cons x xs ih =>
    rw [List.dropWhile_cons]
    split
    · exact ih h.2.2
    · exact h

theorem takeWhile_append_stop (l1 l2 : List Item) (P : Item → Bool) (h : ∀ j ∈ l2.head?, P j = false) :
    (l1 ++ l2).takeWhile P = l1.takeWhile P ∧ (l1 ++ l2).dropWhile P = l1.dropWhile P ++ l2 := by
  induction l1 with
  | nil =>
    cases l2 with
    | nil => simp
    | cons x xs => have := h x (by simp); simp [this]
  | cons x xs ih =>
    simp only [List.cons_append, List.takeWhile_cons, List.dropWhile_cons]
    split <;> simp_all

theorem PreOrder.append {l1 l2 : List Item} (h1 : PreOrder l1) (h2 : PreOrder l2)
    (hd : ∀ j ∈ l2.head?, ∀ i ∈ l1, j.node.depth ≤ i.node.depth)
    (hp : ∀ i ∈ l1, ∀ j ∈ l2, ¬ i.node.path <+: j.node.path ∧ ¬ j.node.path <+: i.node.path) :
    PreOrder (l1 ++ l2) := by
  induction l1 with
  | nil => exact h2
  | cons x xs ih =>
    obtain ⟨ha, hb, hc⟩ := h1
    have ⟨e1, e2⟩ := takeWhile_append_stop xs l2 (fun j => decide (x.node.depth < j.node.depth)) (by
      intro j hj; have := hd j hj x (by simp); simp; omega)
    rw [List.cons_append]
    refine ⟨?_, ?_, ?_⟩
    · rw [e1]; exact ha
    · rw [e2]
      intro j hj
      rcases List.mem_append.1 hj with hj | hj
      · exact hb j hj
      · exact hp x (by simp) j hj
    · exact ih hc (fun j hj i hi => hd j hj i (by simp [hi])) (fun i hi => hp i (by simp [hi]))

theorem PreOrder.cons {it : Item} {l : List Item} (h : PreOrder l)
    (hd : ∀ j ∈ l, it.node.depth < j.node.depth) (hp : ∀ j ∈ l, Above it.node.path j.node.path) :
    PreOrder (it :: l) := by
  have hall : ∀ j ∈ l, (fun j : Item => decide (it.node.depth < j.node.depth)) j = true := by
    intro j hj; simpa using hd j hj
  refine ⟨?_, ?_, h⟩
  · intro j hj; exact hp j (List.takeWhile_subset _ hj)
  · intro j hj
    have : l.dropWhile (fun j : Item => decide (it.node.depth < j.node.depth)) = [] := by
      have := dropWhile_all_append l [] _ hall
      simpa using this
    rw [this] at hj; simp at hj

theorem prefix_snoc_inj {p : Path} {a b : String} {r : Path}
    (h1 : (p ++ [a]) <+: r) (h2 : (p ++ [b]) <+: r) : a = b := by
  obtain ⟨x, rfl⟩ := h1
  obtain ⟨y, hy⟩ := h2
  simp at hy
  exact hy.1.symm

theorem prefix_total {p q r : Path} (h1 : p <+: r) (h2 : q <+: r) : p <+: q ∨ q <+: p :=
  List.prefix_or_prefix_of_prefix h1 h2

theorem head_items_depth (c : Nav) (ts : List Tree) (ps pp d) :
    ∀ j ∈ (itemsList c ps pp d ts).head?, j.node.depth = d := by
  induction ts with
  | nil => simp [itemsList]
  | cons u us ih =>
    intro j hj
    cases u with
    | node e re fs ds kids =>
      simp only [itemsList, items] at hj
      split at hj
      · exact ih j (by simpa using hj)
      · simp at hj; rw [← hj]; simp

theorem itemsList_path (c : Nav) (ts : List Tree) : ∀ ps pp d, ∀ j ∈ itemsList c ps pp d ts,
    ∃ t ∈ ts, (pp ++ [t.name]) <+: j.node.path ∧
    j.node.depth = d + ((j.node.path.length : Int) - (pp.length + 1)) := by
  intro ps pp d j hj
  rw [itemsList_eq, List.mem_flatMap] at hj
  obtain ⟨k, hk, hj⟩ := hj
  exact ⟨k, hk, items_path c k _ _ _ j hj⟩

theorem items_preOrder (c : Nav) (t : Tree) : t.Distinct → ∀ ps pp d, PreOrder (items c ps pp d t) := by
  induction t using Tree.ind with
  | h e re fs ds kids ih =>
    intro hdist ps pp d
    obtain ⟨hnd, hdl⟩ := hdist
    rw [Tree.distinctL_iff] at hdl
    simp only [items]
    split
    · trivial
    · have hl : ∀ ks : List Tree, (∀ k ∈ ks, k ∈ kids) → (ks.map Tree.name).Nodup →
          ∀ ps pp d, PreOrder (itemsList c ps pp d ks) := by
        intro ks
        induction ks with
        | nil => intro _ _ _ _ _; trivial
        | cons k ks ihk =>
          intro hk hn ps pp d
          simp only [List.map_cons, List.nodup_cons] at hn
          simp only [itemsList]
          refine PreOrder.append (ih k (hk k (by simp)) (hdl k (hk k (by simp))) _ _ _)
            (ihk (fun x hx => hk x (by simp [hx])) hn.2 _ _ _) ?_ ?_
          · intro j hj i hi
            have := head_items_depth c ks _ _ _ j hj
            have := items_depth c k _ _ _ i hi
            omega
          · intro i hi j hj
            obtain ⟨hi, _⟩ := items_path c k _ _ _ i hi
            obtain ⟨u, hu, hj, _⟩ := itemsList_path c ks _ _ _ j hj
            have hne : k.name ≠ u.name := fun h => hn.1 (h ▸ List.mem_map_of_mem hu)
            refine ⟨fun h => hne ?_, fun h => hne ?_⟩
            · exact prefix_snoc_inj (hi.trans h) hj
            · exact prefix_snoc_inj hi (hj.trans h)
      refine PreOrder.cons (hl kids (fun _ h => h) hnd _ _ _) ?_ ?_
      · intro j hj
        have := itemsList_depth c kids _ _ _ j hj
        simp; omega
      · intro j hj
        obtain ⟨u, hu, hj, _⟩ := itemsList_path c kids _ _ _ j hj
        refine ⟨List.IsPrefix.trans (by simp) hj, ?_⟩
        intro h
        have := hj.length_le
        rw [← h] at this
        simp at this

/-- Paths of a pre-order list are pairwise distinct and no later one is above an earlier one. -/
theorem PreOrder.pairwise {l : List Item} (h : PreOrder l) :
    l.Pairwise (fun i j => ¬ j.node.path <+: i.node.path) := by
  induction l with
  | nil => exact .nil
  | cons x xs ih =>
    obtain ⟨ha, hb, hc⟩ := h
    refine .cons ?_ (ih hc)
    intro j hj
    rw [← List.takeWhile_append_dropWhile (p := fun j : Item => decide (x.node.depth < j.node.depth)) (l := xs)] at hj
    rcases List.mem_append.1 hj with hj | hj
    · have := ha j hj
      intro hp
      exact this.2 (this.1.eq_of_length (Nat.le_antisymm this.1.length_le hp.length_le))
    · exact (hb j hj).2

theorem PreOrder.nodup {l : List Item} (h : PreOrder l) : (l.map (·.node.path)).Nodup := by
  have := h.pairwise
  rw [List.Nodup, List.pairwise_map]
  exact this.imp (fun hh he => hh (by rw [he]; exact List.prefix_refl _))

theorem fresh_tooDeep (c : Nav) (x : σ) : tooDeep c (St.fresh x).depth = false := by
  simp only [tooDeep, St.fresh]
  have : ¬ ((c.maxDepth : Int) < 0) := by omega
  simp [this]

/-- The refinement theorem for a whole session. -/
theorem walk_run (c : Nav) (env : Env σ) (x : σ) (pre : Path) (fs : FS) :
    Run c.sub 0 (items c [] pre 0 (prep c fs)) (acts (walk c env x pre fs).2.log) (walk c env x pre fs).1 := by
  obtain ⟨vs, _, h2, h3⟩ := top_run c env pre (prep c fs) (St.fresh x) (fresh_tooDeep c x)
  simp only [St.fresh, acts_nil, List.nil_append] at h2
  simp only [walk]
  rw [St.fresh, h2]
  exact h3

theorem walk_from (c : Nav) (env : Env σ) (x : σ) (pre : Path) (fs : FS) :
    ∀ ev ∈ (walk c env x pre fs).2.log, EvFrom env ev :=
  log_from c env _ _ _ _ (by simp [St.fresh])

theorem calls_acts (l : List Ev) : calls (acts l) = calls l := by
  induction l with
  | nil => rfl
  | cons x xs ih =>
    cases x <;> simp_all [acts, calls, List.filter_cons, Ev.isAct]

theorem invoked_acts (l : List Ev) : invoked (acts l) = invoked l := by
  simp [invoked, calls_acts]

@[simp] theorem calls_append (a b : List Ev) : calls (a ++ b) = calls a ++ calls b := by simp [calls]
@[simp] theorem invoked_append (a b : List Ev) : invoked (a ++ b) = invoked a ++ invoked b := by
  simp [invoked]

end Traverse
