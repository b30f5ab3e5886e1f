import Verif.Proofs.Legs
import Verif.Proofs.Order
import Verif.Proofs.Walk
import Verif.Proofs.Spawn2
/-
The nodes of a spawn resume, navigation by navigation.
-/
namespace Traverse
variable {σ : Type}

/-- The nodes of one navigation of a spawn resume, and the directory and the name it starts from. -/
structure Row where
  parent : Path
  name : String
  nodes : List Node

/-- One navigation comes after another: it starts from a name that follows in the same directory, or in a directory further up. -/
def Row.Later (N : Path → String → String → Prop) (x y : Row) : Prop :=
  (y.parent = x.parent ∧ N x.parent x.name y.name) ∨ (y.parent <+: x.parent ∧ y.parent ≠ x.parent)

/-- A navigation from `parent ++ [name]` whose nodes satisfy `Q`. -/
def RowOk (c : Nav) (env : Env σ) (fault : σ → Path → Err → σ × Option Err) (stat : Path → RootStat) (d : Int)
    (Q : Row → Prop) (parent : Path) (name : String) : Prop :=
  ∀ s : St σ, s.depth = d → ∃ v, (top c env fault parent (parent ++ [name]) (stat (parent ++ [name])) s).2.log = s.log ++ v ∧
    (top c env fault parent (parent ++ [name]) (stat (parent ++ [name])) s).2.depth = d ∧ Q ⟨parent, name, invoked v⟩

theorem invoked_append' (a b : List Ev) : invoked (a ++ b) = invoked a ++ invoked b := by
  simp [invoked, calls, List.filterMap_append]

theorem seed_rows {c : Nav} {env : Env σ} {fault stat} {d : Int} {Q : Row → Prop} {parent : Path}
    {N : Path → String → String → Prop} (names : List String) (hnd : names.Pairwise (N parent)) (ht : ∀ n ∈ names, RowOk c env fault stat d Q parent n) : ∀ s : St σ, s.depth = d →
    ∃ v, ∃ rows : List Row, (seed c env fault stat parent names s).2.log = s.log ++ v ∧ (seed c env fault stat parent names s).2.depth = d ∧
      invoked v = rows.flatMap Row.nodes ∧ (∀ w ∈ rows, Q w ∧ w.parent = parent ∧ w.name ∈ names) ∧ rows.Pairwise (Row.Later N) := by
  induction names with
  | nil => intro s hs; exact ⟨[], [], by simp [seed], hs, by simp [invoked, calls], by simp, .nil⟩
  | cons n ns ih =>
    intro s hs
    rw [List.pairwise_cons] at hnd
    obtain ⟨v, h1, h2, h3⟩ := ht n (by simp) s hs
    rw [seed]
    rcases he : top c env fault parent (parent ++ [n]) (stat (parent ++ [n])) s with ⟨f, s1⟩
    rw [he] at h1 h2
    have single : invoked v = [(⟨parent, n, invoked v⟩ : Row)].flatMap Row.nodes := by simp
    have one : ∀ w ∈ [(⟨parent, n, invoked v⟩ : Row)], Q w ∧ w.parent = parent ∧ w.name ∈ n :: ns := by
      intro w hw
      rw [List.mem_singleton] at hw
      subst hw
      exact ⟨h3, rfl, by simp⟩
    rcases f with (_ | e) | _
    · obtain ⟨w, rows, g1, g2, g3, g4, g5⟩ := ih hnd.2 (fun m hm => ht m (by simp [hm])) s1 h2
      refine ⟨v ++ w, ⟨parent, n, invoked v⟩ :: rows, ?_, g2, ?_, ?_, ?_⟩
      · show (seed c env fault stat parent ns s1).2.log = _
        rw [g1]; rw [show s1.log = s.log ++ v from h1, List.append_assoc]
      · rw [invoked_append', g3]; rfl
      · intro w' hw
        rcases List.mem_cons.1 hw with rfl | hw
        · exact ⟨h3, rfl, by simp⟩
        · obtain ⟨a1, a2, a3⟩ := g4 w' hw
          exact ⟨a1, a2, by simp [a3]⟩
      · refine List.pairwise_cons.2 ⟨fun w' hw => ?_, g5⟩
        obtain ⟨a1, a2, a3⟩ := g4 w' hw
        exact Or.inl ⟨a2, hnd.1 _ a3⟩
    · exact ⟨v, _, h1, h2, single, one, by simp⟩
    · exact ⟨v, _, h1, h2, single, one, by simp⟩

theorem crown_rows {c : Nav} {env : Env σ} {fault stat} {disk : Disk} {tree : Path} {d : Int} {Q : Row → Prop} {N : Path → String → String → Prop} (cur : Path)
    (hsort : SortPermutes c)
    (hnd : ∀ parent anchor incl names, following c disk parent anchor incl = .ok names → names.Pairwise (N parent))
    (ht : ∀ parent n, Sprout c tree cur parent n → RowOk c env fault stat d Q parent n) :
    ∀ rcur : List String, rcur.reverse <+: cur → (tree <+: cur → tree <+: rcur.reverse) → ∀ incl, (incl = true → rcur.reverse = cur) →
    ∀ (s : St σ), s.depth = d →
    ∃ v, ∃ rows : List Row, (crown c env fault stat disk tree rcur incl s).2.2.log = s.log ++ v ∧
      invoked v = rows.flatMap Row.nodes ∧
      (∀ w ∈ rows, Q w ∧ Sprout c tree cur w.parent w.name ∧ w.parent <+: rcur.reverse ∧ w.parent ≠ rcur.reverse) ∧
      rows.Pairwise (Row.Later N) := by
  intro rcur
  induction rcur with
  | nil =>
    intro _ _ incl _ s hs
    rw [crown]
    split
    · exact ⟨[], [], by simp, by simp [invoked, calls], by simp, .nil⟩
    · exact ⟨[], [], by simp, by simp [invoked, calls], by simp, .nil⟩
  | cons child rparent ih =>
    intro hpre htr incl hincl s hs
    rw [crown]
    split
    · exact ⟨[], [], by simp, by simp [invoked, calls], by simp, .nil⟩
    · rename_i hne
      have hrev : (child :: rparent).reverse = rparent.reverse ++ [child] := by simp
      rw [hrev] at hpre htr hne hincl
      rw [hrev]
      have hp0 : rparent.reverse <+: rparent.reverse ++ [child] := List.prefix_append _ _
      have hp0' : rparent.reverse ≠ rparent.reverse ++ [child] := by
        intro h
        have h2 := congrArg List.length h
        simp at h2
      have hp1 : rparent.reverse <+: cur := hp0.trans hpre
      have hp2 : rparent.reverse ≠ cur := by
        intro h
        have := hpre.length_le
        have h2 := congrArg List.length h
        simp at this h2
        omega
      have hp3 : tree <+: cur → tree <+: rparent.reverse := by
        intro h
        have h' := htr h
        refine prefix_of_snoc h' ?_
        have hl := h'.length_le
        rcases Nat.lt_or_ge rparent.reverse.length tree.length with h2 | h2
        · exfalso
          apply hne
          exact (h'.eq_of_length (by simp at *; omega)).symm
        · exact h2
      split
      · exact ⟨[], [], by simp, by simp [invoked, calls], by simp, .nil⟩
      · rename_i names hnames
        have hsp : ∀ n ∈ names, Sprout c tree cur rparent.reverse n := by
          intro n hn
          refine ⟨hp1, hp2, hp3, fun hsort h => ?_⟩
          have e : rparent.reverse ++ [n] = rparent.reverse ++ [child] :=
            (List.prefix_of_prefix_length_le h hpre (by simp)).eq_of_length (by simp)
          have hnc : n = child := by simpa using e
          subst hnc
          cases incl with
          | true => exact hincl rfl
          | false => exact absurd hn (following_not_anchor hsort hnames)
        obtain ⟨v, rows, h1, h2, h3, h4, h5⟩ := seed_rows names (hnd _ _ _ _ hnames) (fun n hn => ht rparent.reverse n (hsp n hn)) s hs
        have here : ∀ w ∈ rows, Q w ∧ Sprout c tree cur w.parent w.name ∧ w.parent <+: rparent.reverse ++ [child] ∧
            w.parent ≠ rparent.reverse ++ [child] := by
          intro w hw
          obtain ⟨a1, a2, a3⟩ := h4 w hw
          rw [a2]
          exact ⟨a1, hsp _ a3, hp0, hp0'⟩
        rcases he : seed c env fault stat rparent.reverse names s with ⟨f, s1⟩
        rw [he] at h1 h2
        rcases f with (_ | e) | _
        · obtain ⟨v', rows', g1, g2, g3, g4⟩ := ih hp1 hp3 false (by simp) s1 h2
          refine ⟨v ++ v', rows ++ rows', ?_, ?_, ?_, ?_⟩
          · show (crown c env fault stat disk tree rparent false s1).2.2.log = _
            rw [g1]; rw [show s1.log = s.log ++ v from h1, List.append_assoc]
          · rw [invoked_append', h3, g2, List.flatMap_append]
          · intro w hw
            rcases List.mem_append.1 hw with hw | hw
            · exact here w hw
            · obtain ⟨a1, a2, a3, a4⟩ := g3 w hw
              refine ⟨a1, a2, a3.trans hp0, fun e => ?_⟩
              have := a3.length_le
              rw [e] at this
              simp at this
              omega
          · refine List.pairwise_append.2 ⟨h5, g4, fun w hw w' hw' => ?_⟩
            obtain ⟨-, a2, -⟩ := h4 w hw
            obtain ⟨-, -, b3, b4⟩ := g3 w' hw'
            rw [← a2] at b3 b4
            exact Or.inr ⟨b3, b4⟩
        · exact ⟨v, rows, h1, h3, here, h5⟩
        · exact ⟨v, rows, h1, h3, here, h5⟩

/-- Pre-order: nothing is delivered after something inside it (nor twice), and what lies below a path is delivered without a break. -/
structure Orderly (L : List Node) : Prop where
  pairwise : L.Pairwise (fun i j => ¬ j.path <+: i.path)
  unbroken : ∀ p a y b, [a, y, b].Sublist L → p <+: a.path → p <+: b.path → p <+: y.path

theorem Orderly.sublist {L L' : List Node} (h : Orderly L) (hs : L'.Sublist L) : Orderly L' :=
  ⟨h.pairwise.sublist hs, fun p a y b hl => h.unbroken p a y b (hl.trans hs)⟩

theorem items_orderly (c : Nav) (t : Tree) (ht : t.Distinct) (pp : Path) (d : Int) : Orderly ((items c [] pp d t).map (·.node)) := by
  refine ⟨?_, ?_⟩
  · rw [List.pairwise_map]
    exact (items_preOrder c t ht [] pp d).pairwise
  · intro p a y b hs ha hb
    obtain ⟨l', hl', he⟩ := List.sublist_map_iff.1 hs
    match l', he with
    | [a', y', b'], he =>
      simp at he
      obtain ⟨rfl, rfl, rfl⟩ := he
      exact items_contiguous c _ ht [] pp d p a' y' b' hl' ha hb

/-- The nodes of a row are in order and lie below its start, which is on the way to the saved path. -/
def RowFits (c : Nav) (tree cur : Path) (w : Row) : Prop :=
  Orderly w.nodes ∧ (∀ n ∈ w.nodes, w.parent ++ [w.name] <+: n.path) ∧ Sprout c tree cur w.parent w.name

/-- A node of a later row lies outside the start of this row; what they have in common is the later directory. -/
theorem rows_apart {c : Nav} {tree cur : Path} {N : Path → String → String → Prop} (hN : ∀ p m n, N p m n → m ≠ n) (hsort : SortPermutes c)
    {w w' : Row} (hlater : Row.Later N w w') (hw : RowFits c tree cur w) (hw' : RowFits c tree cur w') :
    ∀ i ∈ w.nodes, ∀ j ∈ w'.nodes, ∀ p, p <+: i.path → p <+: j.path → p <+: w'.parent := by
  intro i hi j hj p hpi hpj
  have hi' := hw.2.1 i hi
  have hj' := hw'.2.1 j hj
  rcases Nat.lt_or_ge w'.parent.length p.length with hlt | hge
  · exfalso
    have hx : w'.parent ++ [w'.name] <+: p := List.prefix_of_prefix_length_le hj' hpj (by simp; omega)
    have hy := hx.trans hpi
    rcases hlater with ⟨e1, e2⟩ | ⟨e1, e2⟩
    · have := (List.prefix_of_prefix_length_le hy hi' (by simp [e1])).eq_of_length (by simp [e1])
      rw [e1] at this
      exact hN _ _ _ e2 (by simpa using this.symm)
    · have hlt' : w'.parent.length < w.parent.length := by
        have h1 := e1.length_le
        have : w'.parent.length ≠ w.parent.length := fun e => e2 (e1.eq_of_length e)
        omega
      have hz : w'.parent ++ [w'.name] <+: w.parent :=
        List.prefix_of_prefix_length_le hy ((List.prefix_append _ _).trans hi') (by simp; omega)
      have hq := hw'.2.2.off hsort (hz.trans hw.2.2.above)
      have h1 := hz.length_le
      rw [hq] at h1
      exact hw.2.2.proper (hw.2.2.above.eq_of_length (Nat.le_antisymm hw.2.2.above.length_le h1))
  · exact List.prefix_of_prefix_length_le hpj ((List.prefix_append _ _).trans hj') hge

/-- Siblings come from one navigation, or from two that start from them. -/
theorem rows_siblings {c : Nav} {tree cur : Path} {N : Path → String → String → Prop} (hN : ∀ p m n, N p m n → m ≠ n) (hsort : SortPermutes c)
    (rows : List Row) (hp : rows.Pairwise (Row.Later N)) (hrow : ∀ w ∈ rows, RowFits c tree cur w) (i j : Node) (p : Path) (m n : String)
    (hi : i.path = p ++ [m]) (hj : j.path = p ++ [n]) (hij : [i, j].Sublist (rows.flatMap Row.nodes)) :
    (∃ w ∈ rows, [i, j].Sublist w.nodes) ∨
    (∃ w ∈ rows, ∃ w' ∈ rows, w.parent = p ∧ w.name = m ∧ w'.parent = p ∧ w'.name = n ∧ i ∈ w.nodes ∧ j ∈ w'.nodes ∧ N p m n) := by
  induction rows with
  | nil => simp at hij
  | cons w ws ih =>
    rw [List.pairwise_cons] at hp
    rw [List.flatMap_cons] at hij
    obtain ⟨l1, l2, he, h1, h2⟩ := List.sublist_append_iff.1 hij
    match l1, he with
    | [], he =>
      rw [List.nil_append] at he; subst he
      rcases ih hp.2 (fun w' hw' => hrow w' (by simp [hw'])) h2 with ⟨v, hv, h⟩ | ⟨v, hv, v', hv', h⟩
      · exact Or.inl ⟨v, by simp [hv], h⟩
      · exact Or.inr ⟨v, by simp [hv], v', by simp [hv'], h⟩
    | [i'], he =>
      simp at he
      obtain ⟨rfl, rfl⟩ := he
      obtain ⟨w', hw', hj'⟩ := List.mem_flatMap.1 (h2.subset (by simp : j ∈ [j]))
      have hi' : i ∈ w.nodes := h1.subset (by simp)
      have hfw := hrow w (by simp)
      have hfw' := hrow w' (by simp [hw'])
      have h3 := rows_apart hN hsort (hp.1 w' hw') hfw hfw' i hi' j hj' p (by rw [hi]; exact List.prefix_append _ _)
        (by rw [hj]; exact List.prefix_append _ _)
      have h4 := hfw'.2.1 j hj'
      have h5 := hfw.2.1 i hi'
      rw [hj] at h4
      rw [hi] at h5
      have e1 : w'.parent = p := (h3.eq_of_length (by have a := h3.length_le; have b := h4.length_le; simp at b; omega)).symm
      have e2 : w'.name = n := by
        have := h4.eq_of_length (by simp [e1])
        rw [e1] at this
        simpa using this
      have hle : w'.parent <+: w.parent := by
        rcases hp.1 w' hw' with ⟨e, -⟩ | ⟨e, -⟩
        · rw [e]; exact List.prefix_refl _
        · exact e
      have e3 : w.parent = p := by
        rw [e1] at hle
        exact (hle.eq_of_length (by have a := hle.length_le; have b := h5.length_le; simp at b; omega)).symm
      have e4 : w.name = m := by
        have := h5.eq_of_length (by simp [e3])
        rw [e3] at this
        simpa using this
      refine Or.inr ⟨w, by simp, w', by simp [hw'], e3, e4, e1, e2, hi', hj', ?_⟩
      rcases hp.1 w' hw' with ⟨-, e⟩ | ⟨-, e⟩
      · rw [e3, e4, e2] at e; exact e
      · exact absurd (e1.trans e3.symm) e
    | [i', j'], he =>
      simp at he
      obtain ⟨rfl, rfl, rfl⟩ := he
      exact Or.inl ⟨w, by simp, h1⟩

/-- The rows one after the other are in order. -/
theorem rows_orderly {c : Nav} {tree cur : Path} {N : Path → String → String → Prop} (hN : ∀ p m n, N p m n → m ≠ n) (hsort : SortPermutes c) (rows : List Row) (hp : rows.Pairwise (Row.Later N))
    (hrow : ∀ w ∈ rows, RowFits c tree cur w) :
    Orderly (rows.flatMap Row.nodes) := by
  induction rows with
  | nil => exact ⟨.nil, fun p a y b h => by simp at h⟩
  | cons w ws ih =>
    rw [List.pairwise_cons] at hp
    obtain ⟨hw1, hw2, hw3⟩ := hrow w (by simp)
    have IH := ih hp.2 (fun w' hw' => hrow w' (by simp [hw']))
    rw [List.flatMap_cons]
    have apart : ∀ w' ∈ ws, ∀ i ∈ w.nodes, ∀ j ∈ w'.nodes, ∀ p, p <+: i.path → p <+: j.path → p <+: w'.parent :=
      fun w' hw' i hi j hj p => rows_apart hN hsort (hp.1 w' hw') (hrow w (by simp)) (hrow w' (by simp [hw'])) i hi j hj p
    have below : ∀ w' ∈ ws, ∀ i ∈ w.nodes, w'.parent <+: i.path := by
      intro w' hw' i hi
      have hi' := (List.prefix_append _ _).trans (hw2 i hi)
      rcases hp.1 w' hw' with ⟨e1, -⟩ | ⟨e1, -⟩
      · rw [e1]; exact hi'
      · exact e1.trans hi'
    refine ⟨List.pairwise_append.2 ⟨hw1.pairwise, IH.pairwise, fun i hi j hj hji => ?_⟩, ?_⟩
    · obtain ⟨w', hw', hj⟩ := List.mem_flatMap.1 hj
      have h1 := (apart w' hw' i hi j hj j.path hji (List.prefix_refl _)).length_le
      have h2 := ((hrow w' (by simp [hw'])).2.1 j hj).length_le
      simp at h2
      omega
    · intro p a y b hs ha hb
      obtain ⟨l1, l2, he, hl1, hl2⟩ := List.sublist_append_iff.1 hs
      match l1, he with
      | [], he =>
        rw [List.nil_append] at he
        subst he
        exact IH.unbroken p a y b hl2 ha hb
      | [a'], he =>
        simp at he
        obtain ⟨rfl, rfl⟩ := he
        -- y and b come later
        have ha' : a ∈ w.nodes := hl1.subset (by simp)
        have hyb : [y, b].Sublist (ws.flatMap Row.nodes) := hl2
        clear hs hl1 hl2 IH ih
        have key : ∀ vs : List Row, vs.Pairwise (Row.Later N) → (∀ w' ∈ vs, w' ∈ ws) → [y, b].Sublist (vs.flatMap Row.nodes) →
            ∃ wy ∈ ws, ∃ wb ∈ ws, y ∈ wy.nodes ∧ b ∈ wb.nodes ∧ (wb.parent <+: wy.parent) := by
          intro vs
          induction vs with
          | nil => intro _ _ h; simp at h
          | cons v vs ihv =>
            intro h1 h2 h3
            rw [List.pairwise_cons] at h1
            rw [List.flatMap_cons] at h3
            obtain ⟨m1, m2, he, hm1, hm2⟩ := List.sublist_append_iff.1 h3
            match m1, he with
            | [], he =>
              rw [List.nil_append] at he; subst he
              exact ihv h1.2 (fun w' hw' => h2 w' (by simp [hw'])) hm2
            | [y'], he =>
              simp at he
              obtain ⟨rfl, rfl⟩ := he
              obtain ⟨wb, hwb, hb'⟩ := List.mem_flatMap.1 (hm2.subset (by simp : b ∈ [b]))
              refine ⟨v, h2 v (by simp), wb, h2 wb (by simp [hwb]), hm1.subset (by simp), hb', ?_⟩
              rcases h1.1 wb hwb with ⟨e, -⟩ | ⟨e, -⟩
              · rw [e]; exact List.prefix_refl _
              · exact e
            | [y', b'], he =>
              simp at he
              obtain ⟨rfl, rfl, rfl⟩ := he
              exact ⟨v, h2 v (by simp), v, h2 v (by simp), hm1.subset (by simp), hm1.subset (by simp), List.prefix_refl _⟩
        obtain ⟨wy, hwy, wb, hwb, hy', hb', hle⟩ := key ws hp.2 (fun _ h => h) hyb
        have h1 := apart wb hwb a ha' b hb' p ha hb
        have h2 := (hrow wy (by simp [hwy])).2.1 y hy'
        exact ((h1.trans hle).trans (List.prefix_append _ _)).trans h2
      | [a', y'], he =>
        simp at he
        obtain ⟨rfl, rfl, rfl⟩ := he
        have hb' : b ∈ ws.flatMap Row.nodes := hl2.subset (by simp)
        obtain ⟨wb, hwb, hb'⟩ := List.mem_flatMap.1 hb'
        have h1 := apart wb hwb a (hl1.subset (by simp)) b hb' p ha hb
        exact h1.trans (below wb hwb y (hl1.subset (by simp)))
      | [a', y', b'], he =>
        simp at he
        obtain ⟨rfl, rfl, rfl, rfl⟩ := he
        exact hw1.unbroken p a y b hl1 ha hb

/-- The entries that follow, as trees. -/
theorem following_trees {c : Nav} (hsort : SortPermutes c) (hread : ReadSelects c) {disk : Disk} {parent anchor incl names}
    (h : following c disk parent anchor incl = .ok names) : ∃ l l' a b : List Tree, names = l.map Tree.name ∧ l'.Perm l ∧
      (∃ m : List Tree, m.Perm l' ∧ m.Sublist (prepList c (disk.list parent).1)) ∧ l = c.sort a ++ c.sort b ∧
      (∀ t ∈ a, t.isDir = !c.filesFirst) ∧ (∀ t ∈ b, t.isDir = c.filesFirst) := by
  unfold following at h
  rcases hr : c.read (prepList c (disk.list parent).1) (disk.list parent).2 with ⟨ents, _ | e⟩
  · simp only [hr, Except.ok.injEq] at h
    subst h
    obtain ⟨l', h1, h3⟩ := hread (prepList c (disk.list parent).1) (disk.list parent).2
    rw [hr] at h1
    have hpart : ∀ p : Tree → Bool, ∀ l : List Tree, (l.filter p ++ l.filter (fun t => !p t)).Perm l := fun p l => by
      have := List.filter_append_perm p l
      simpa using this
    have hsel : ∃ m : List Tree, m.Perm (fromAnchor anchor incl ents) ∧ m.Sublist (prepList c (disk.list parent).1) :=
      ⟨fromAnchor anchor incl l', h1.filter _, List.filter_sublist.trans h3⟩
    cases hff : c.filesFirst
    · refine ⟨_, fromAnchor anchor incl ents, (fromAnchor anchor incl ents).filter (fun t => t.isDir),
        (fromAnchor anchor incl ents).filter (fun t => !t.isDir), rfl, ?_, hsel, rfl, ?_, ?_⟩
      · exact (hpart (fun t => t.isDir) _).symm.trans ((hsort _).symm.append (hsort _).symm)
      · intro t ht; simpa using (List.mem_filter.1 ht).2
      · intro t ht; simpa using (List.mem_filter.1 ht).2
    · refine ⟨_, fromAnchor anchor incl ents, (fromAnchor anchor incl ents).filter (fun t => !t.isDir),
        (fromAnchor anchor incl ents).filter (fun t => t.isDir), rfl, ?_, hsel, rfl, ?_, ?_⟩
      · refine (hpart (fun t => !t.isDir) _).symm.trans ?_
        simp only [Bool.not_not]
        exact (hsort _).symm.append (hsort _).symm
      · intro t ht; simpa using (List.mem_filter.1 ht).2
      · intro t ht; simpa using (List.mem_filter.1 ht).2
  · simp [hr] at h

/-- The names that follow are different if the directory's are, and they are in order: each is followed by names that `R` allows. -/
theorem following_pairwise {c : Nav} (hsort : SortPermutes c) (hread : ReadSelects c) {disk : Disk} {parent anchor incl names}
    (hkids : ((disk.list parent).1.map FS.name).Nodup) (h : following c disk parent anchor incl = .ok names)
    (R : Tree → Tree → Prop) (hR : ∀ l : List Tree, (c.sort l).Pairwise R) :
    names.Pairwise (fun m n => m ≠ n ∧ ∃ k ∈ (disk.list parent).1, ∃ k' ∈ (disk.list parent).1, k.name = m ∧ k'.name = n ∧
      (k.isDir = k'.isDir → R (prep c k) (prep c k')) ∧ (k.isDir ≠ k'.isDir → k.isDir = !c.filesFirst)) := by
  obtain ⟨l, l', a, b, rfl, h2, ⟨m, h3, h4⟩, h5, h6, h7⟩ := following_trees hsort hread h
  have hnames : ((prepList c (disk.list parent).1).map Tree.name) = (disk.list parent).1.map FS.name := by
    rw [prepList_eq, List.map_map]
    apply List.map_congr_left
    intro f _
    exact (prep_entry c f).1
  have hnd : (l.map Tree.name).Nodup := by
    rw [← hnames] at hkids
    exact ((h3.trans h2).map _).nodup_iff.1 (hkids.sublist (h4.map _))
  have hmem : ∀ t ∈ l, ∃ k ∈ (disk.list parent).1, t = prep c k := by
    intro t ht
    have := h4.subset ((h3.trans h2).mem_iff.2 ht)
    rw [prepList_eq, List.mem_map] at this
    obtain ⟨k, hk, e⟩ := this
    exact ⟨k, hk, e.symm⟩
  rw [List.pairwise_map]
  have hord : l.Pairwise (fun t t' => (t.isDir = t'.isDir → R t t') ∧ (t.isDir ≠ t'.isDir → t.isDir = !c.filesFirst)) := by
    have ha : ∀ t ∈ c.sort a, t.isDir = !c.filesFirst := fun t ht => h6 t ((hsort a).mem_iff.1 ht)
    have hb : ∀ t ∈ c.sort b, t.isDir = c.filesFirst := fun t ht => h7 t ((hsort b).mem_iff.1 ht)
    rw [h5]
    refine List.pairwise_append.2 ⟨?_, ?_, fun t ht t' ht' => ⟨fun e => ?_, fun _ => ha t ht⟩⟩
    · exact (hR a).imp_of_mem (fun {t t'} ht ht' hr => ⟨fun _ => hr, fun _ => ha t ht⟩)
    · exact (hR b).imp_of_mem (fun {t t'} ht ht' hr => ⟨fun _ => hr, fun e => absurd ((hb t ht).trans (hb t' ht').symm) e⟩)
    · rw [ha t ht, hb t' ht'] at e
      cases hf : c.filesFirst <;> simp [hf] at e
  have hnd' : l.Pairwise (fun t t' => t.name ≠ t'.name) := by
    have := hnd
    rw [List.Nodup, List.pairwise_map] at this
    exact this
  refine (hord.and hnd').imp_of_mem (fun {t t'} ht ht' hr => ?_)
  obtain ⟨k, hk, rfl⟩ := hmem t ht
  obtain ⟨k', hk', rfl⟩ := hmem t' ht'
  have e : (prep c k).isDir = k.isDir := (prep_entry c k).2
  have e' : (prep c k').isDir = k'.isDir := (prep_entry c k').2
  refine ⟨hr.2, k, hk, k', hk', (prep_entry c k).1.symm, (prep_entry c k').1.symm, ?_, ?_⟩
  · intro he; exact hr.1.1 (by rw [e, e', he])
  · intro he; rw [← e]; exact hr.1.2 (by rw [e, e']; exact he)

end Traverse
