import Verif.Spec.Lexical
import Verif.Props.Paths
import Verif.Props.Api
/-
C59: the text of a node's path names the entry that was visited, whatever form the text of the tree path has.
-/
namespace Traverse
variable {κ : Type}

theorem cut_pieces (s : Str) : cut s = pieces s := by
  unfold pieces List.splitOn
  induction s with
  | nil => rfl
  | cons c cs ih =>
    rw [List.splitOnP_cons_eq_if_modifyHead, cut, ih]
    by_cases h : c = '/'
    · simp [h]
    · simp only [h, if_false, beq_iff_eq]
      cases hs : List.splitOnP (fun x => x == '/') cs with
      | nil => exact absurd hs (List.splitOnP_ne_nil _ _)
      | cons w ws => simp

/-- An element that cleaning keeps as a name. -/
def Named (w : Str) : Prop := w ≠ [] ∧ w ≠ ['.'] ∧ w ≠ ['.', '.']

theorem Place.go_named (p : Place) (w : Str) (h : Named w) : p.go w = p.entry w := by
  simp [Place.go, Place.entry, h.1, h.2.1, h.2.2]

/-- What the elements kept so far while cleaning stand for. -/
structure Stands (acc : List Str) (p : Place) : Prop where
  eq : acc = p.down ++ List.replicate p.ups ['.', '.']
  named : ∀ w ∈ p.down, Named w
  rooted : p.rooted = true → p.ups = 0

theorem stands_step {acc : List Str} {p : Place} (h : Stands acc p) (w : Str) :
    Stands (cleanStep p.rooted acc w) (p.go w) ∧ (p.go w).rooted = p.rooted := by
  obtain ⟨h1, h2, h3⟩ := h
  unfold cleanStep Place.go
  by_cases c1 : w = [] ∨ w = ['.']
  · rw [if_pos c1, if_pos c1]; exact ⟨⟨h1, h2, h3⟩, rfl⟩
  · rw [if_neg c1, if_neg c1]
    by_cases c2 : w = ['.', '.']
    · rw [if_pos c2, if_pos c2]
      cases hd : p.down with
      | cons a rest =>
        rw [hd] at h1 h2
        have ha : a ≠ ['.', '.'] := (h2 a (by simp)).2.2
        subst h1
        simp only [List.cons_append, ha, if_false]
        exact ⟨⟨rfl, fun x hx => h2 x (by simp [hx]), h3⟩, trivial⟩
      | nil =>
        rw [hd, List.nil_append] at h1
        cases hr : p.rooted with
        | true =>
          rw [h3 hr] at h1
          subst h1
          exact ⟨⟨by simp [hd, h3 hr], by simp [hd], h3⟩, by simp [hr]⟩
        | false =>
          have hd' : p.down = [] := hd
          simp only [Bool.false_eq_true, if_false]
          refine ⟨⟨?_, by simp [hd'], by simp [hr]⟩, by simp [hr]⟩
          simp only [hd', List.nil_append]
          cases hu : p.ups with
          | zero => rw [hu] at h1; subst h1; simp [c2]
          | succ k => rw [hu] at h1; subst h1; simp [List.replicate_succ, c2]
    · rw [if_neg c2, if_neg c2]
      simp only [not_or] at c1
      refine ⟨⟨by simp [h1], ?_, h3⟩, rfl⟩
      intro x hx
      rcases List.mem_cons.1 hx with rfl | hx
      · exact ⟨c1.1, c1.2, c2⟩
      · exact h2 x hx

theorem stands_fold (ws : List Str) {acc : List Str} {p : Place} (h : Stands acc p) :
    Stands (ws.foldl (cleanStep p.rooted) acc) (ws.foldl Place.go p) ∧ (ws.foldl Place.go p).rooted = p.rooted := by
  induction ws generalizing acc p with
  | nil => exact ⟨h, rfl⟩
  | cons w ws ih =>
    obtain ⟨h1, h2⟩ := stands_step h w
    have := ih h1
    rw [h2] at this
    exact this

/-- The elements of a clean text of a place. -/
def Place.elements (p : Place) : List Str := List.replicate p.ups ['.', '.'] ++ p.down.reverse

/-- A place as it can be named by a text. -/
def Place.Ok (p : Place) : Prop := (∀ w ∈ p.down, Element w) ∧ (p.rooted = true → p.ups = 0)

theorem pieces_noSep (s : Str) : ∀ w ∈ pieces s, '/' ∉ w := by
  rw [← cut_pieces]
  induction s with
  | nil => simp [cut]
  | cons c cs ih =>
    intro w hw
    rw [cut] at hw
    by_cases h : c = '/'
    · rw [if_pos h] at hw
      rcases List.mem_cons.1 hw with rfl | hw
      · simp
      · exact ih w hw
    · rw [if_neg h] at hw
      cases hc : cut cs with
      | nil => rw [hc] at hw; simp at hw; subst hw; simp; exact fun e => h e.symm
      | cons v vs =>
        rw [hc] at hw ih
        rcases List.mem_cons.1 hw with rfl | hw
        · simp only [List.mem_cons, not_or]; exact ⟨fun e => h e.symm, ih v (by simp)⟩
        · exact ih w (by simp [hw])

theorem go_noSep (ws : List Str) (p : Place) (h : ∀ w ∈ ws, '/' ∉ w) (hp : ∀ w ∈ p.down, '/' ∉ w) : ∀ w ∈ (ws.foldl Place.go p).down, '/' ∉ w := by
  induction ws generalizing p with
  | nil => exact hp
  | cons v ws ih =>
    refine ih _ (fun w hw => h w (by simp [hw])) ?_
    unfold Place.go
    split
    · exact hp
    · split
      · split
        · rename_i heq; intro w hw; exact hp w (by rw [heq]; simp [hw])
        · split
          · exact hp
          · exact hp
      · intro w hw
        rcases List.mem_cons.1 hw with rfl | hw
        · exact h _ (by simp)
        · exact hp w hw

theorem placeOf_ok (s : Str) : (placeOf s).Ok ∧ (placeOf s).rooted = (s.head? == some '/') ∧
    cleanPath s = render (placeOf s).rooted (placeOf s).elements := by
  have h0 : Stands [] { rooted := s.head? == some '/' } := ⟨rfl, by simp, fun _ => rfl⟩
  obtain ⟨h, hr⟩ := stands_fold (pieces s) h0
  refine ⟨⟨fun w hw => ?_, h.rooted⟩, hr, ?_⟩
  · have := h.named w hw
    exact ⟨this.1, go_noSep _ _ (pieces_noSep s) (by simp) w hw, this.2.1, this.2.2⟩
  · have he := h.eq
    simp only at he
    unfold cleanPath
    simp only [cut_pieces]
    rw [he, show (placeOf s).rooted = (s.head? == some '/') from hr]
    simp [Place.elements, placeOf]

/-- Going along the elements of a place from its start leads there. -/
theorem go_elements (p : Place) (h : p.Ok) : p.elements.foldl Place.go { rooted := p.rooted } = p := by
  have hup : ∀ (k j : Nat), p.rooted = false →
      (List.replicate k ['.', '.']).foldl Place.go { rooted := p.rooted, ups := j } = { rooted := p.rooted, ups := j + k } := by
    intro k j hr
    induction k generalizing j with
    | zero => rfl
    | succ k ih =>
      rw [List.replicate_succ, List.foldl_cons]
      have : Place.go { rooted := p.rooted, ups := j } ['.', '.'] = { rooted := p.rooted, ups := j + 1 } := by simp [Place.go, hr]
      rw [this, ih]; simp; omega
  have hdown : ∀ (ws : List Str) (q : Place), (∀ w ∈ ws, Element w) → ws.foldl Place.go q = { q with down := ws.reverse ++ q.down } := by
    intro ws
    induction ws with
    | nil => intro q _; rfl
    | cons w ws ih =>
      intro q hq
      have hw := hq w (by simp)
      rw [List.foldl_cons, Place.go_named _ _ ⟨hw.1, hw.2.2⟩, ih _ (fun x hx => hq x (by simp [hx]))]
      simp [Place.entry]
  have h1 : (List.replicate p.ups ['.', '.']).foldl Place.go { rooted := p.rooted } = { rooted := p.rooted, ups := p.ups } := by
    cases hr : p.rooted with
    | true => rw [h.2 hr]; rfl
    | false => have := hup p.ups 0 hr; rw [hr] at this; simpa using this
  rw [Place.elements, List.foldl_append, h1, hdown _ _ (fun w hw => h.1 w (by simpa using hw))]
  simp

theorem pieces_interSep (ws : List Str) (h : ∀ w ∈ ws, '/' ∉ w) (hne : ws ≠ []) : pieces (interSep ws) = ws := by
  rw [← cut_pieces]
  induction ws with
  | nil => exact absurd rfl hne
  | cons w ws ih =>
    cases ws with
    | nil => exact cut_noSep w (h w (by simp))
    | cons v vs =>
      simp only [interSep]
      rw [cut_append w _ (h w (by simp)), ih (fun x hx => h x (by simp [hx])) (by simp)]

theorem elements_shape (p : Place) (h : p.Ok) : ∀ w ∈ p.elements, '/' ∉ w ∧ w ≠ [] := by
  intro w hw
  rcases List.mem_append.1 hw with hw | hw
  · rw [List.mem_replicate] at hw
    rw [hw.2]; decide
  · have := h.1 w (by simpa using hw)
    exact ⟨this.2.1, this.1⟩

theorem interSep_start (ws : List Str) (h : ∀ w ∈ ws, '/' ∉ w ∧ w ≠ []) (hne : ws ≠ []) : (interSep ws).head? ≠ some '/' ∧ interSep ws ≠ [] := by
  cases ws with
  | nil => exact absurd rfl hne
  | cons w ws =>
    obtain ⟨h2, h1⟩ := h w (by simp)
    cases w with
    | nil => exact absurd rfl h1
    | cons c cs =>
      simp only [List.mem_cons, not_or] at h2
      cases ws <;> simp [interSep, Ne.symm h2.1]

/-- The clean text of a place names it. -/
theorem placeOf_render (p : Place) (h : p.Ok) : placeOf (render p.rooted p.elements) = p := by
  have hsh := elements_shape p h
  have hskip : ∀ (q : Place) (l : List Str), ([] :: l).foldl Place.go q = l.foldl Place.go q := by
    intro q l; simp [Place.go]
  have hg := go_elements p h
  by_cases hne : p.elements = []
  · rw [hne] at hg ⊢
    cases hr : p.rooted with
    | true =>
      rw [hr] at hg
      simp only [render, if_true, interSep]
      have : placeOf ['/'] = { rooted := true } := by decide +kernel
      rw [this]; exact hg
    | false =>
      rw [hr] at hg
      simp only [render, Bool.false_eq_true, if_false, if_true]
      have : placeOf ['.'] = { rooted := false } := by decide +kernel
      rw [this]; exact hg
  · obtain ⟨s1, s2⟩ := interSep_start _ hsh hne
    have hp := pieces_interSep _ (fun w hw => (hsh w hw).1) hne
    cases hr : p.rooted with
    | true =>
      rw [hr] at hg
      simp only [render, if_true, placeOf, List.head?_cons, beq_self_eq_true]
      have : pieces ('/' :: interSep p.elements) = [] :: p.elements := by
        rw [← cut_pieces, cut, if_pos rfl, cut_pieces, hp]
      rw [this, hskip, hg]
    | false =>
      rw [hr] at hg
      simp only [render, Bool.false_eq_true, if_false, hne, placeOf, hp]
      have : ((interSep p.elements).head? == some '/') = false := by simpa using s1
      rw [this, hg]

theorem placeOf_clean (s : Str) : placeOf (cleanPath s) = placeOf s := by
  obtain ⟨h1, -, h3⟩ := placeOf_ok s
  rw [h3]; exact placeOf_render _ h1

theorem cleanPath_clean (s : Str) : cleanPath (cleanPath s) = cleanPath s := by
  obtain ⟨h1, -, h3⟩ := placeOf_ok s
  obtain ⟨-, -, h3'⟩ := placeOf_ok (cleanPath s)
  rw [h3', placeOf_clean, ← h3]

theorem pieces_snoc (s w : Str) (h : '/' ∉ w) : pieces (s ++ '/' :: w) = pieces s ++ [w] := by
  rw [← cut_pieces, ← cut_pieces]
  induction s with
  | nil => simp [cut, cut_noSep w h]
  | cons c cs ih =>
    simp only [List.cons_append, cut]
    by_cases hc : c = '/'
    · rw [if_pos hc, if_pos hc, ih]; rfl
    · rw [if_neg hc, if_neg hc, ih]
      cases hs : cut cs with
      | nil => rw [cut_pieces] at hs; exact absurd hs (List.splitOnP_ne_nil _ _)
      | cons v vs => simp

theorem placeOf_join (s w : Str) (hw : Element w) : placeOf (joinPath s w) = (placeOf s).entry w := by
  have hn : Named w := ⟨hw.1, hw.2.2⟩
  unfold joinPath
  by_cases hs : s = []
  · rw [if_pos hs, placeOf_clean, hs]
    have h1 : pieces w = [w] := by rw [← cut_pieces]; exact cut_noSep w hw.2.1
    have h2 : (w.head? == some '/') = false := by
      cases w with
      | nil => rfl
      | cons c cs => have := hw.2.1; simp only [List.mem_cons, not_or] at this; simp [Ne.symm this.1]
    simp only [placeOf, h1, h2, List.foldl_cons, List.foldl_nil, Place.go_named _ _ hn]
    rfl
  · rw [if_neg hs, placeOf_clean]
    have h2 : ((s ++ '/' :: w).head? == some '/') = (s.head? == some '/') := by cases s <;> simp_all
    simp only [placeOf, h2, pieces_snoc _ _ hw.2.1, List.foldl_append, List.foldl_cons, List.foldl_nil, Place.go_named _ _ hn]

theorem placeOf_pathText (tree : Str) (ns : List Str) (h : ∀ w ∈ ns, Element w) :
    placeOf (pathText tree ns) = ns.foldl Place.entry (placeOf tree) := by
  unfold pathText
  induction ns generalizing tree with
  | nil => rfl
  | cons n ns ih =>
    rw [List.foldl_cons, List.foldl_cons, ih _ (fun w hw => h w (by simp [hw])), placeOf_join _ _ (h n (by simp))]

theorem entry_fold (p : Place) (ns : List Str) : ns.foldl Place.entry p = { p with down := ns.reverse ++ p.down } := by
  induction ns generalizing p with
  | nil => rfl
  | cons n ns ih => rw [List.foldl_cons, ih]; simp [Place.entry]

theorem pathText_clean (tree : Str) (ns : List Str) (hne : ns ≠ []) : cleanPath (pathText tree ns) = pathText tree ns := by
  unfold pathText
  rw [← List.dropLast_concat_getLast hne, List.foldl_append, List.foldl_cons, List.foldl_nil, joinPath]
  split <;> exact cleanPath_clean _

/-- **C59** Whatever the text of the tree path (".", "..", doubled or trailing separators in it): the text of the path of every node
below it names the entry reached by its names from the place the tree path names, it is clean, and different nodes have different
texts. -/
theorem C59_path_names_entry (tree : Str) (ns : List Str) (h : ∀ w ∈ ns, Element w) :
    placeOf (pathText tree ns) = ns.foldl Place.entry (placeOf tree) ∧
    (ns ≠ [] → cleanPath (pathText tree ns) = pathText tree ns) ∧
    (∀ ms, (∀ w ∈ ms, Element w) → pathText tree ns = pathText tree ms → ns = ms) := by
  refine ⟨placeOf_pathText tree ns h, pathText_clean tree ns, fun ms hm he => ?_⟩
  have := congrArg placeOf he
  rw [placeOf_pathText _ _ h, placeOf_pathText _ _ hm, entry_fold, entry_fold] at this
  simp only [Place.mk.injEq, true_and] at this
  simpa using this

/-- **C59** Two texts of the same tree path (same place) give the nodes below it the same path texts. -/
theorem C59_same_place_same_paths (tree tree' : Str) (ns : List Str) (h : ∀ w ∈ ns, Element w) (hne : ns ≠ [])
    (hp : placeOf tree = placeOf tree') : pathText tree ns = pathText tree' ns := by
  rw [← pathText_clean tree ns hne, ← pathText_clean tree' ns hne, (placeOf_ok _).2.2, (placeOf_ok (pathText tree' ns)).2.2,
    placeOf_pathText _ _ h, placeOf_pathText _ _ h, hp]

/-- **C59** No node below the tree has the text of the tree path for its path, and if that text is not clean then no clean text is
equal to it: neither a node's path nor any path made of the leading elements of one. -/
theorem C59_unclean_tree_unmatched (tree : Str) (hu : cleanPath tree ≠ tree) (s : Str) : cleanPath s ≠ tree := by
  intro h
  apply hu
  rw [← h, cleanPath_clean]

/-- **C59** In a session: every node handed to the handler lies below the root by some names `rel`; whatever the text of the tree path,
the text of its path (`pathText tree rel`) names the entry reached by these names, and the texts of the paths of two nodes are equal
only if their paths are. -/
theorem C59_session (P : Platform κ) (u : Using κ) (settings : List (Option (Setting κ))) (disk : Disk) (S : Setup) (o : Options κ)
    (h : κ → Parcel → κ × Reply) (pre : Path) (fs : FS) (hs : Started P u settings disk S o h pre fs)
    (hread : (o.nav u.sub).read = defaultRead) (hsort : SortPermutes (o.nav u.sub)) (hnames : fs.NamesOk) (tree : Str) (x : κ) :
    let L := (walkPrime P (.using u) settings disk x).nodes
    let text (rel : Path) := pathText tree (rel.map String.toList)
    (∀ n ∈ L, ∃ rel g, n.path = pre ++ [fs.name] ++ rel ∧ FS.At pre fs n.path g ∧
      placeOf (text rel) = (rel.map String.toList).foldl Place.entry (placeOf tree)) ∧
    (∀ n ∈ L, ∀ m ∈ L, ∀ rel rel', n.path = pre ++ [fs.name] ++ rel → m.path = pre ++ [fs.name] ++ rel' →
      text rel = text rel' → n.path = m.path) := by
  obtain ⟨y, -, -, h3⟩ := started_walk hs x
  have hnav := (primary_ready hs.built).2.1
  intro L text
  have key : ∀ n ∈ L, ∃ rel g, n.path = pre ++ [fs.name] ++ rel ∧ FS.At pre fs n.path g ∧ ∀ w ∈ rel.map String.toList, Element w := by
    intro n hn
    obtain ⟨g, ps, hg, -, -⟩ := delivered_at S.nav _ (S.world y (fun _ => none)) pre fs (hnav ▸ hread) (hnav ▸ hsort) n (h3.subset hn)
    obtain ⟨rel, hrel, hel⟩ := hg.names hnames
    exact ⟨rel, g, hrel, hg, by intro w hw; obtain ⟨z, hz, rfl⟩ := List.mem_map.1 hw; exact hel z hz⟩
  refine ⟨fun n hn => ?_, fun n hn m hm rel rel' h1 h2 he => ?_⟩
  · obtain ⟨rel, g, h1, h2, h3⟩ := key n hn
    exact ⟨rel, g, h1, h2, (C59_path_names_entry tree _ h3).1⟩
  · obtain ⟨a, -, a1, -, a3⟩ := key n hn
    obtain ⟨b, -, b1, -, b3⟩ := key m hm
    have ha : a = rel := by simpa [h1] using a1.symm
    have hb : b = rel' := by simpa [h2] using b1.symm
    subst ha; subst hb
    have := (C59_path_names_entry tree _ a3).2.2 _ b3 he
    have : a = b := by
      have := congrArg (List.map String.ofList) this
      simpa using this
    rw [h1, h2, this]

/-- Not vacuous: a tree path text that is far from clean, the places and the texts; and the tree path text "./r" of a session that a
spawn resumption, which climbs from the saved path until the text equals that of the tree path, never meets. -/
example :
    Demo.fs.NamesOk ∧
    placeOf "x/..//../r/.".toList = ⟨false, 1, ["r".toList]⟩ ∧
    pathText "x/..//../r/.".toList ["a".toList, "b".toList] = "../r/a/b".toList ∧
    placeOf "../r/a/b".toList = ⟨false, 1, ["b".toList, "a".toList, "r".toList]⟩ ∧
    pathText "/../r/".toList ["a".toList] = "/r/a".toList ∧
    placeOf "./r".toList = placeOf "r".toList ∧
    cleanPath "./r".toList ≠ "./r".toList ∧ pathText "./r".toList ["a".toList, "b".toList] = "r/a/b".toList := by
  refine ⟨?_, by decide +kernel, by decide +kernel, by decide +kernel, by decide +kernel, by decide +kernel, by decide +kernel, by decide +kernel⟩
  simp only [Demo.fs, FS.NamesOk, FS.NamesOkL, Element, FS.name]
  and_intros <;> first | trivial | decide +kernel

end Traverse
