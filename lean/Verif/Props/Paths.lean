import Verif.Model.Paths
import Verif.Props.Nodes
/-
C50: sub paths.
-/
namespace Traverse
variable {σ : Type}

/-- A path element as file systems use them: not empty, no separator, not "." or "..". -/
def Element (w : Str) : Prop := w ≠ [] ∧ '/' ∉ w ∧ w ≠ ['.'] ∧ w ≠ ['.', '.']

/-- Only single byte characters. -/
def Ascii (s : Str) : Prop := ∀ c ∈ s, c.utf8Size = 1

theorem cut_noSep (w : Str) (h : '/' ∉ w) : cut w = [w] := by
  induction w with
  | nil => rfl
  | cons c cs ih =>
    simp only [List.mem_cons, not_or] at h
    simp [cut, Ne.symm h.1, ih h.2]

theorem cut_append (w rest : Str) (h : '/' ∉ w) : cut (w ++ '/' :: rest) = w :: cut rest := by
  induction w with
  | nil => simp [cut]
  | cons c cs ih =>
    simp only [List.mem_cons, not_or] at h
    simp [cut, Ne.symm h.1, ih h.2]

theorem cut_interSep (ws : List Str) (h : ∀ w ∈ ws, Element w) (hne : ws ≠ []) : cut (interSep ws) = ws := by
  induction ws with
  | nil => exact absurd rfl hne
  | cons w ws ih =>
    cases ws with
    | nil => exact cut_noSep w (h w (by simp)).2.1
    | cons v vs =>
      simp only [interSep]
      rw [cut_append w _ (h w (by simp)).2.1, ih (fun x hx => h x (by simp [hx])) (by simp)]

theorem clean_elements (r : Bool) (ws : List Str) (h : ∀ w ∈ ws, Element w) (acc : List Str) :
    ws.foldl (cleanStep r) acc = ws.reverse ++ acc := by
  induction ws generalizing acc with
  | nil => rfl
  | cons w ws ih =>
    have hw := h w (by simp)
    rw [List.foldl_cons, ih (fun x hx => h x (by simp [hx]))]
    simp [cleanStep, hw.1, hw.2.2.1, hw.2.2.2]

theorem interSep_snoc (ws : List Str) (w : Str) (hne : ws ≠ []) : interSep (ws ++ [w]) = interSep ws ++ '/' :: w := by
  induction ws with
  | nil => exact absurd rfl hne
  | cons v vs ih =>
    cases vs with
    | nil => rfl
    | cons u us =>
      have := ih (by simp)
      simp only [List.cons_append, interSep] at this ⊢
      rw [this]; simp

theorem interSep_head (ws : List Str) (h : ∀ w ∈ ws, Element w) (hne : ws ≠ []) : (interSep ws).head? ≠ some '/' ∧ interSep ws ≠ [] := by
  cases ws with
  | nil => exact absurd rfl hne
  | cons w ws =>
    obtain ⟨h1, h2, _⟩ := h w (by simp)
    cases w with
    | nil => exact absurd rfl h1
    | cons c cs =>
      simp only [List.mem_cons, not_or] at h2
      cases ws <;> simp [interSep, Ne.symm h2.1]

/-- Joining an element to a clean path appends it. -/
theorem join_render (r : Bool) (ws : List Str) (w : Str) (h : ∀ x ∈ ws, Element x) (hw : Element w) :
    joinPath (render r ws) w = render r (ws ++ [w]) := by
  have hall : ∀ x ∈ ws ++ [w], Element x := by
    intro x hx; rcases List.mem_append.1 hx with hx | hx
    · exact h x hx
    · simp at hx; rw [hx]; exact hw
  have hcl : ∀ b, ((ws ++ [w]).foldl (cleanStep b) []).reverse = ws ++ [w] := by
    intro b; rw [clean_elements b _ hall]; simp
  have hne : ws ++ [w] ≠ [] := by simp
  cases r with
  | true =>
    have h0 : render true ws ++ '/' :: w = '/' :: (interSep ws ++ '/' :: w) := rfl
    rw [joinPath, if_neg (by simp [render]), h0]
    simp only [cleanPath, List.head?_cons, beq_self_eq_true, cut, if_true]
    cases ws with
    | nil =>
      simp only [interSep, List.nil_append, cut, if_true]
      rw [cut_noSep w hw.2.1]
      have hs : ∀ l : List Str, ([] :: l).foldl (cleanStep true) [] = l.foldl (cleanStep true) [] := by
        intro l; simp [cleanStep]
      rw [hs, hs]
      simp only [List.nil_append] at hcl
      rw [hcl]
    | cons v vs =>
      rw [← interSep_snoc _ _ (by simp), cut_interSep _ hall hne]
      have hs : ∀ l : List Str, ([] :: l).foldl (cleanStep true) [] = l.foldl (cleanStep true) [] := by
        intro l; simp [cleanStep]
      rw [hs, hcl]
  | false =>
    cases ws with
    | nil =>
      have h0 : render false [] = ['.'] := rfl
      rw [joinPath, if_neg (by simp [h0]), h0]
      have hc : cut (['.'] ++ '/' :: w) = [['.'], w] := by
        rw [cut_append ['.'] w (by decide), cut_noSep w hw.2.1]
      simp only [cleanPath, hc]
      have hs : ∀ l : List Str, (['.'] :: l).foldl (cleanStep false) [] = l.foldl (cleanStep false) [] := by
        intro l; simp [cleanStep]
      have hh : ((['.'] ++ '/' :: w).head? == some '/') = false := rfl
      rw [hh, hs]
      simp only [List.nil_append] at hcl
      rw [hcl]
      rfl
    | cons v vs =>
      have hr : render false (v :: vs) = interSep (v :: vs) := rfl
      rw [joinPath, hr, if_neg (interSep_head _ h (by simp)).2]
      have hi : interSep (v :: vs) ++ '/' :: w = interSep (v :: vs ++ [w]) := (interSep_snoc _ _ (by simp)).symm
      rw [hi]
      have hh : ((interSep (v :: vs ++ [w])).head? == some '/') = false := by
        have := (interSep_head _ hall hne).1
        simpa using this
      simp only [cleanPath, hh]
      rw [cut_interSep _ hall hne, hcl]

/-- The text of a node's path: what joining its names to the text of the tree path yields (navigator-agent.go:153,
core.Top). -/
def pathText (tree : Str) : List Str → Str := List.foldl joinPath tree

theorem pathText_render (r : Bool) (ws ns : List Str) (h : ∀ x ∈ ws, Element x) (hn : ∀ x ∈ ns, Element x) :
    pathText (render r ws) ns = render r (ws ++ ns) := by
  induction ns generalizing ws with
  | nil => simp [pathText]
  | cons n ns ih =>
    have := ih (ws ++ [n]) (by
      intro x hx; rcases List.mem_append.1 hx with hx | hx
      · exact h x hx
      · simp at hx; rw [hx]; exact hn n (by simp)) (fun x hx => hn x (by simp [hx]))
    simp only [pathText, List.foldl_cons] at this ⊢
    rw [join_render r ws n h (hn n (by simp)), this]
    simp

theorem split_snoc (a w : Str) (h : '/' ∉ w) : splitPath (a ++ '/' :: w) = (a ++ ['/'], w) := by
  have hr : (a ++ '/' :: w).reverse = w.reverse ++ '/' :: a.reverse := by simp
  have hw : ∀ c ∈ w.reverse, (c != '/') = true := by
    intro c hc; simp at hc; simp; rintro rfl; exact h hc
  simp only [splitPath, hr]
  rw [List.dropWhile_append_of_pos hw, List.takeWhile_append_of_pos hw]
  simp

theorem utf8Len_ge (s : Str) : s.length ≤ utf8Len s := by
  induction s with
  | nil => simp [utf8Len]
  | cons c cs ih =>
    have := Char.utf8Size_pos c
    simp only [utf8Len, List.map_cons, List.sum_cons, List.length_cons] at ih ⊢
    omega

theorem utf8Len_ascii (s : Str) (h : Ascii s) : utf8Len s = s.length := by
  induction s with
  | nil => simp [utf8Len]
  | cons c cs ih =>
    have := ih (fun x hx => h x (by simp [hx]))
    have hc := h c (by simp)
    simp only [utf8Len, List.map_cons, List.sum_cons, List.length_cons] at this ⊢
    omega

theorem tailFrom_drop (s : Str) (n : Nat) : tailFrom s n = s.drop n := by
  unfold tailFrom
  split
  · rename_i h; exact (List.drop_eq_nil_iff.2 h).symm
  · rfl


/-- A directory's path with a separator at its end. -/
def withSep (p : Str) : Str := if p = ['/'] then p else p ++ ['/']

theorem render_ne_sep (r : Bool) (ws : List Str) (h : ∀ x ∈ ws, Element x) (hne : ws ≠ []) : render r ws ≠ ['/'] := by
  have h1 := interSep_head ws h hne
  cases r with
  | true =>
    intro he
    simp [render] at he
    exact h1.2 he
  | false =>
    intro he
    simp only [render, Bool.false_eq_true, if_false, if_neg hne] at he
    rw [he] at h1; simp at h1

theorem split_render (r : Bool) (ws : List Str) (w : Str) (h : ∀ x ∈ ws, Element x) (hw : Element w)
    (hr : r = true ∨ ws ≠ []) : (splitPath (render r (ws ++ [w]))).1 = withSep (render r ws) := by
  by_cases hne : ws = []
  · subst hne
    have : r = true := by simpa using hr
    subst this
    have : render true ([] ++ [w]) = [] ++ '/' :: w := rfl
    rw [this, split_snoc _ _ hw.2.1]
    rfl
  · have : render r (ws ++ [w]) = render r ws ++ '/' :: w := by
      cases r <;> simp [render, interSep_snoc _ _ hne, hne]
    rw [this, split_snoc _ _ hw.2.1, withSep, if_neg (render_ne_sep r ws h hne)]

/-- The path of the parent begins with the tree path, and what follows is empty or (the tree not being "/") begins with a
separator. -/
theorem render_extends (r : Bool) (ws ns : List Str) (h : ∀ x ∈ ws, Element x) (hn : ∀ x ∈ ns, Element x)
    (hr : r = true ∨ ws ≠ []) :
    ∃ X, withSep (render r (ws ++ ns)) = render r ws ++ X ∧
      (X = [] → render r ws = ['/'] ∧ render r (ws ++ ns) = ['/']) ∧
      (X ≠ [] → ∃ Y, X = Y ++ ['/'] ∧ render r (ws ++ ns) = render r ws ++ Y) := by
  have h0 : ∀ x ∈ ws ++ ns, Element x := by
    intro x hx; rcases List.mem_append.1 hx with hx | hx
    · exact h x hx
    · exact hn x hx
  have ext : ∃ Y, render r (ws ++ ns) = render r ws ++ Y := by
    clear h0
    have step : ∀ (ws : List Str) (n : Str), (r = true ∨ ws ≠ []) → ∃ Y, render r (ws ++ [n]) = render r ws ++ Y := by
      intro ws n hr
      by_cases hne : ws = []
      · subst hne
        have : r = true := by simpa using hr
        subst this
        exact ⟨n, rfl⟩
      · exact ⟨'/' :: n, by cases r <;> simp [render, interSep_snoc _ _ hne, hne]⟩
    clear h hn
    induction ns generalizing ws with
    | nil => exact ⟨[], by simp⟩
    | cons n ns ih =>
      obtain ⟨Y, hY⟩ := step ws n hr
      obtain ⟨Z, hZ⟩ := ih (ws ++ [n]) (Or.inr (by simp))
      refine ⟨Y ++ Z, ?_⟩
      rw [← List.append_assoc, ← hY, ← hZ]; simp
  obtain ⟨Y, hY⟩ := ext
  by_cases hsep : render r (ws ++ ns) = ['/']
  · have hnil : ws ++ ns = [] := by
      by_cases hne : ws ++ ns = []
      · exact hne
      · exact absurd hsep (render_ne_sep r _ h0 hne)
    obtain ⟨rfl, rfl⟩ := List.append_eq_nil_iff.1 hnil
    refine ⟨[], by simp [withSep]; exact hsep, fun _ => ⟨hsep, hsep⟩, fun h => absurd rfl h⟩
  · refine ⟨Y ++ ['/'], by rw [withSep, if_neg hsep, hY, List.append_assoc], fun h => by simp at h, fun _ => ⟨Y, rfl, hY⟩⟩

/-- What is computed, for every tree path: the right answer without its first `utf8Len tree - tree.length` characters. -/
theorem subPath_general (r : Bool) (ws ns : List Str) (w : Str) (h : ∀ x ∈ ws, Element x) (hn : ∀ x ∈ ns, Element x)
    (hw : Element w) (hr : r = true ∨ ws ≠ []) (scope : Scope) (hs : scope ≠ Scope.top) (X : Str)
    (hX : withSep (render r (ws ++ ns)) = render r ws ++ X) :
    subPath true (render r ws) (pathText (render r ws) (ns ++ [w])) scope =
      X.drop (utf8Len (render r ws) - (render r ws).length) := by
  have hall : ∀ x ∈ ns ++ [w], Element x := by
    intro x hx; rcases List.mem_append.1 hx with hx | hx
    · exact hn x hx
    · simp at hx; rw [hx]; exact hw
  have h0 : ∀ x ∈ ws ++ ns, Element x := by
    intro x hx; rcases List.mem_append.1 hx with hx | hx
    · exact h x hx
    · exact hn x hx
  rw [pathText_render r ws _ h hall, ← List.append_assoc]
  simp only [subPath, trimSep, if_true, defaultSubPath, if_neg hs, difference]
  rw [split_render r (ws ++ ns) w h0 hw (by rcases hr with h | h; exact Or.inl h; exact Or.inr (by simp [h])), hX, tailFrom_drop,
    List.drop_append, List.drop_eq_nil_iff.2 (utf8Len_ge _), List.nil_append]

/-- **C50** The tree path followed by a node's sub path is the path of its parent, with a separator at its end if that is
to be kept. `tree` is any clean path other than "." (`render r ws`: rooted or not, of the elements `ws`), the node's path is
what joining names to it yields. Missing, and false of the program: tree paths with characters of more than one byte
(`C50_multibyte`) and the tree path "." (example below). -/
theorem C50_sub_path_partial (r : Bool) (ws ns : List Str) (w : Str) (hws : ∀ x ∈ ws, Element x) (hns : ∀ x ∈ ns, Element x)
    (hw : Element w) (htree : r = true ∨ ws ≠ []) (hascii : Ascii (render r ws)) (scope : Scope) (hs : scope ≠ Scope.top) :
    let tree := render r ws
    let parent := pathText tree ns
    let path := pathText tree (ns ++ [w])
    tree ++ subPath true tree path scope = withSep parent ∧ tree ++ subPath false tree path scope = parent := by
  intro tree parent path
  have hpar : parent = render r (ws ++ ns) := pathText_render r ws ns hws hns
  obtain ⟨X, hX, hX1, hX2⟩ := render_extends r ws ns hws hns htree
  have hg := subPath_general r ws ns w hws hns hw htree scope hs X hX
  rw [utf8Len_ascii _ hascii, Nat.sub_self, List.drop_zero] at hg
  have hf : subPath false tree path scope = trimSep false (subPath true tree path scope) := by
    simp only [subPath, trimSep, if_true, defaultSubPath, if_neg hs]
  have hg' : subPath true tree path scope = X := hg
  constructor
  · rw [hg', hpar, hX]
  · rw [hf, hg', hpar]
    by_cases hx : X = []
    · subst hx
      obtain ⟨h1, h2⟩ := hX1 rfl
      simp only [trimSep, Bool.false_eq_true, if_false]
      rw [h2]
      show render r ws ++ _ = _
      rw [h1]; rfl
    · obtain ⟨Y, rfl, hY⟩ := hX2 hx
      have hsuf : ['/'].isSuffixOf (Y ++ ['/']) = true := by
        rw [List.isSuffixOf_iff_suffix]; exact List.suffix_append _ _
      simp only [trimSep, Bool.false_eq_true, if_false, hsuf, if_true]
      rw [hY]; simp [tree]

/-- **C50, where it is false**: whenever the tree path contains a character of more than one byte, the sub path of every
node below it is too short. -/
theorem C50_multibyte (r : Bool) (ws ns : List Str) (w : Str) (hws : ∀ x ∈ ws, Element x) (hns : ∀ x ∈ ns, Element x)
    (hw : Element w) (htree : r = true ∨ ws ≠ []) (hmulti : ∃ c ∈ render r ws, 1 < c.utf8Size) (scope : Scope)
    (hs : scope ≠ Scope.top) :
    let tree := render r ws
    tree ++ subPath true tree (pathText tree (ns ++ [w])) scope ≠ withSep (pathText tree ns) := by
  intro tree
  obtain ⟨X, hX, hX1, _⟩ := render_extends r ws ns hws hns htree
  have hg : subPath true tree (pathText tree (ns ++ [w])) scope = X.drop (utf8Len tree - tree.length) :=
    subPath_general r ws ns w hws hns hw htree scope hs X hX
  have hlt : tree.length < utf8Len tree := by
    obtain ⟨c, hc, h1⟩ := hmulti
    obtain ⟨a, b, hab⟩ := List.append_of_mem hc
    show (render r ws).length < utf8Len (render r ws)
    have ha := utf8Len_ge a
    have hb := utf8Len_ge b
    rw [hab]
    simp only [utf8Len, List.map_append, List.map_cons, List.sum_append, List.sum_cons, List.length_append, List.length_cons] at ha hb ⊢
    omega
  have hne : X ≠ [] := by
    intro h
    obtain ⟨h1, _⟩ := hX1 h
    have : tree = ['/'] := h1
    rw [this] at hlt
    revert hlt; decide
  rw [hg, pathText_render r ws ns hws hns, hX]
  intro he
  have := congrArg List.length he
  have hl := List.length_pos_iff.2 hne
  simp [tree] at this hlt
  omega

/-- The witnesses: "/é/a/b" below "/é", and "a/b" below ".". The expected sub paths are "/a/" and "a/". -/
example :
    subPath true "/é".toList (pathText "/é".toList ["a".toList, "b".toList]) Scope.leaf = "a/".toList ∧
    pathText ".".toList ["a".toList, "b".toList] = "a/b".toList ∧
    subPath true ".".toList (pathText ".".toList ["a".toList, "b".toList]) Scope.leaf = "/".toList := by
  decide +kernel

/-- Not vacuous: "/home/x" and the file "a/b" below it; also the tree path "/". -/
example :
    render true ["home".toList, "x".toList] = "/home/x".toList ∧ Ascii (render true ["home".toList, "x".toList]) ∧
    Element "home".toList ∧
    subPath true "/home/x".toList (pathText "/home/x".toList ["a".toList, "b".toList]) Scope.leaf = "/a/".toList ∧
    subPath false "/home/x".toList (pathText "/home/x".toList ["a".toList, "b".toList]) Scope.leaf = "/a".toList ∧
    subPath false "/".toList (pathText "/".toList ["a".toList, "b".toList]) Scope.leaf = "a".toList := by
  refine ⟨by decide +kernel, ?_, ?_, by decide +kernel, by decide +kernel, by decide +kernel⟩
  · intro c hc
    have : ∀ c ∈ render true ["home".toList, "x".toList], c.utf8Size = 1 := by decide +kernel
    exact this c hc
  · refine ⟨?_, ?_, ?_, ?_⟩ <;> decide +kernel

mutual
/-- All names below the root are path elements. -/
def FS.NamesOk : FS → Prop
  | .file .. => True
  | .dir _ _ _ kids => FS.NamesOkL kids
def FS.NamesOkL : List FS → Prop
  | [] => True
  | f :: fs => Element f.name.toList ∧ f.NamesOk ∧ FS.NamesOkL fs
end

theorem namesOkL_iff (l : List FS) : FS.NamesOkL l ↔ ∀ k ∈ l, Element k.name.toList ∧ k.NamesOk := by
  induction l with
  | nil => simp [FS.NamesOkL]
  | cons a as ih => simp [FS.NamesOkL, ih, and_assoc]

theorem FS.At.names {pre f p g} (h : FS.At pre f p g) : f.NamesOk →
    ∃ rel, p = pre ++ [f.name] ++ rel ∧ ∀ x ∈ rel, Element x.toList := by
  induction h with
  | here pre f => intro _; exact ⟨[], by simp⟩
  | @inside pre n ie re kids k p g hk h ih =>
    intro hn
    rw [FS.NamesOk, namesOkL_iff] at hn
    obtain ⟨rel, rfl, hrel⟩ := ih (hn k hk).2
    refine ⟨k.name :: rel, by simp [FS.name], ?_⟩
    intro x hx
    rcases List.mem_cons.1 hx with rfl | hx
    · exact (hn k hk).1
    · exact hrel x hx

/-- **C50** In a session: for every node below the root given to the handler. Its names below the root are `rel`, its parent's
are `rel.dropLast`. -/
theorem C50_session_partial (r : Bool) (ws : List Str) (hws : ∀ x ∈ ws, Element x) (htree : r = true ∨ ws ≠ [])
    (hascii : Ascii (render r ws)) (c : Nav) (env : Env σ) (x : σ) (pre : Path) (fs : FS) (hread : c.read = defaultRead)
    (hsort : SortPermutes c) (hnames : fs.NamesOk) (n : Node) (hn : n ∈ invoked (walk c env x pre fs).2.log)
    (hroot : n.path ≠ pre ++ [fs.name]) :
    ∃ rel, n.path = pre ++ [fs.name] ++ rel ∧
      (let tree := render r ws
       let parent := pathText tree (rel.dropLast.map String.toList)
       let path := pathText tree (rel.map String.toList)
       tree ++ subPath true tree path n.scope = withSep parent ∧ tree ++ subPath false tree path n.scope = parent) := by
  obtain ⟨g, ps, hg, he, _⟩ := delivered_at c env x pre fs hread hsort n hn
  obtain ⟨rel, hrel, hel⟩ := hg.names hnames
  have hscope : n.scope ≠ Scope.top := by
    rw [he]
    simp only [mkNode]
    split
    · intro h
      have := congrArg (fun s : Scope => s &&& Scope.directory) h
      revert this
      generalize periScope _ _ = s
      intro h2
      have h3 : (s ||| Scope.directory) &&& Scope.directory = Scope.directory := by
        simp only [Scope.directory]
        ext i hi
        simp only [BitVec.getElem_and, BitVec.getElem_or]
        cases s[i] <;> cases (32#32 : BitVec 32)[i] <;> rfl
      simp only [h3] at h2
      revert h2; decide
    · decide
  have hne : rel ≠ [] := by rintro rfl; exact hroot (by simpa using hrel)
  refine ⟨rel, hrel, ?_⟩
  have := C50_sub_path_partial r ws (rel.dropLast.map String.toList) (rel.getLast hne).toList hws
    (by intro y hy; obtain ⟨z, hz, rfl⟩ := List.mem_map.1 hy; exact hel z ((List.dropLast_sublist _).subset hz))
    (hel _ (List.getLast_mem hne)) htree hascii n.scope hscope
  have e : rel.dropLast.map String.toList ++ [(rel.getLast hne).toList] = rel.map String.toList := by
    conv => rhs; rw [← List.dropLast_concat_getLast hne]
    simp
  rw [e] at this
  exact this

end Traverse
