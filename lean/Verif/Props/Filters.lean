import Verif.Model.Filters
/-
C23, C52, C53: what the filters accept.
-/
namespace Traverse

/-! ### C23: glob and regex filters -/

/-- The pattern's verdict on a name. -/
def Engine.verdict (E : Engine) (t : FilterType) (pattern name : String) : Bool :=
  match t with
  | .glob => E.glob pattern name
  | .regex => E.regex pattern name
  | _ => false

/-- **C23.** A glob or regex definition (a regex one: if it compiles) builds a filter; on a node that shares a scope bit
with the filter the answer is the pattern's verdict on the node's name, flipped if negated; on any other node it is the
IfNotApplicable verdict, true unless set to false. A filter whose scope is undefined is for all scopes. -/
theorem C23_scope_and_negation (E : Engine) (d : FilterCore) (fo : FilterOptions) (hc : fo.custom = none)
    (ht : d.type = .glob ∨ d.type = .regex ∧ E.compiles d.pattern = true) :
    ∃ f, newFilter E (.plain d) fo = .ok (some f) ∧ ∀ v : View,
      f.isMatch E v = some (
        if (if d.scope = 0#32 then Scope.all else d.scope) &&& v.scope = 0#32 then d.ifNotApplicable != .no
        else (E.verdict d.type d.pattern v.name ^^ d.negate)) := by
  have happ : applicable d.ifNotApplicable = (d.ifNotApplicable != .no) := by cases d.ifNotApplicable <;> rfl
  have key : ∀ (b : FBase) (m : Bool) (v : View), b = FBase.validate ⟨d.pattern, d.scope, d.negate, applicable d.ifNotApplicable⟩ →
      (if b.isApplicable v.scope then b.invert m else b.ifNotApplicable) =
        if (if d.scope = 0#32 then Scope.all else d.scope) &&& v.scope = 0#32 then d.ifNotApplicable != .no
        else (m ^^ d.negate) := by
    intro b m v hb
    have h1 : b.scope = if d.scope = 0#32 then Scope.all else d.scope := by
      rw [hb]; unfold FBase.validate Scope.undefined; dsimp only; split <;> rfl
    have h2 : b.negate = d.negate ∧ b.ifNotApplicable = applicable d.ifNotApplicable := by
      rw [hb]; unfold FBase.validate; split <;> exact ⟨rfl, rfl⟩
    unfold FBase.isApplicable FBase.invert
    rw [h1, h2.1, h2.2, happ]
    by_cases hz : (if d.scope = 0#32 then Scope.all else d.scope) &&& v.scope = 0#32
    · simp [hz]
    · simp only [bne_iff_ne, ne_eq, hz, not_false_iff, if_true, if_false]
      cases d.negate <;> cases m <;> rfl
  rcases ht with ht | ⟨ht, hcomp⟩
  · refine ⟨.glob (FBase.validate ⟨d.pattern, d.scope, d.negate, applicable d.ifNotApplicable⟩), ?_, fun v => ?_⟩
    · simp [newFilter, buildPoly, FilterDef.core, ht, hc, buildNative]
    · have hp : (FBase.validate ⟨d.pattern, d.scope, d.negate, applicable d.ifNotApplicable⟩).pattern = d.pattern := by
        unfold FBase.validate; split <;> rfl
      simp only [Filter.isMatch, hp]
      rw [key _ _ v rfl, ht]
      rfl
  · refine ⟨.regex (FBase.validate ⟨d.pattern, d.scope, d.negate, applicable d.ifNotApplicable⟩), ?_, fun v => ?_⟩
    · simp [newFilter, buildPoly, FilterDef.core, ht, hc, buildNative, hcomp]
    · have hp : (FBase.validate ⟨d.pattern, d.scope, d.negate, applicable d.ifNotApplicable⟩).pattern = d.pattern := by
        unfold FBase.validate; split <;> rfl
      simp only [Filter.isMatch, hp]
      rw [key _ _ v rfl, ht]
      rfl

/-- **C23** A regex that does not compile and a definition without a type are refused when the session is built. -/
theorem C23_refused (E : Engine) (d : FilterCore) (fo : FilterOptions) (hc : fo.custom = none) :
    (d.type = .regex → E.compiles d.pattern = false → newFilter E (.plain d) fo = .err .badRegex) ∧
    (d.type = .undefined → newFilter E (.plain d) fo = .err .missingType) := by
  refine ⟨fun ht h => ?_, fun ht => ?_⟩ <;> simp [newFilter, buildPoly, FilterDef.core, buildNative, *]

/-- **C23** The pattern has no influence on nodes out of scope: there any two libraries and patterns agree. -/
theorem C23_pattern_only_in_scope (E E' : Engine) (d : FilterCore) (pattern' : String) (fo : FilterOptions)
    (hc : fo.custom = none) (ht : d.type = .glob) (f f' : Filter)
    (h : newFilter E (.plain d) fo = .ok (some f)) (h' : newFilter E' (.plain { d with pattern := pattern' }) fo = .ok (some f'))
    (v : View) (hs : d.scope ≠ 0#32) (hv : d.scope &&& v.scope = 0#32) : f.isMatch E v = f'.isMatch E' v := by
  obtain ⟨g, hg, hg2⟩ := C23_scope_and_negation E d fo hc (.inl ht)
  obtain ⟨g', hg', hg2'⟩ := C23_scope_and_negation E' { d with pattern := pattern' } fo hc (.inl ht)
  rw [h] at hg; rw [h'] at hg'
  cases hg; cases hg'
  rw [hg2, hg2']
  simp [hs, hv]

/-- A toy library for the examples: a pattern matches a name if it is the name, or starts with `*` and the rest ends the
name. -/
def toyEngine : Engine where
  glob p n := match p.toList with
    | '*' :: r => r.isSuffixOf n.toList
    | r => r == n.toList
  compiles p := p != "("
  regex p n := p.toList.isPrefixOf n.toList
  lower s := String.ofList (s.toList.map Char.toLower)
  trim s := String.ofList ((s.toList.dropWhile (· == ' ')).reverse.dropWhile (· == ' ')).reverse

/-- Not vacuous: a negated glob for files. -/
example :
    let d : FilterCore := { type := .glob, pattern := "*.mp3", scope := Scope.file, negate := true, ifNotApplicable := .no }
    let v (n : String) (s : Scope) : View := { path := [n], isDir := false, infoErr := none, depth := 1, isLeaf := false, scope := s, parents := [] }
    (match newFilter toyEngine (.plain d) {} with
      | .ok (some f) => [f.isMatch toyEngine (v "a.mp3" (Scope.file ||| Scope.leaf)), f.isMatch toyEngine (v "a.flac" Scope.file),
          f.isMatch toyEngine (v "a.flac" Scope.directory)]
      | _ => []) = [some false, some true, some false] := by
  decide +kernel

/-! ### C53: poly filters -/

/-- A definition restricted to one kind of node, as the constituents of a poly filter are. -/
def FilterCore.restrict (d : FilterCore) (plus minus : Scope) : FilterCore :=
  { d with scope := (d.scope ||| plus) &&& ~~~minus }

/-- **C53.** A poly definition whose two constituents can be built (as filters for files and for directories
respectively) builds a filter that accepts every directory, and a file exactly when the file filter accepts the file and
the directory filter accepts the file's parent. -/
theorem C53_poly (E : Engine) (c : FilterCore) (file dir : FilterDef) (fo : FilterOptions) (ff fd : Filter)
    (hc : fo.custom = none) (ht : c.type = .poly) (hnode : fo.node = some (.both c file dir))
    (hf : newFilter E (.plain (file.core.restrict Scope.file Scope.directory)) fo = .ok (some ff))
    (hd : newFilter E (.plain (dir.core.restrict Scope.directory Scope.file)) fo = .ok (some fd))
    (hfp : file.core.type ≠ .poly) (hdp : dir.core.type ≠ .poly) :
    ∃ f, newFilter E (.both c file dir) fo = .ok (some f) ∧
      (∀ v : View, v.isDir = true → f.isMatch E v = some true) ∧
      (∀ v p : View, v.isDir = false → v.parent = some p → ∃ a b, ff.isMatch E v = some a ∧ fd.isMatch E p = some b ∧
        f.isMatch E v = some (a && b)) := by
  have one : ∀ d : FilterCore, d.type ≠ .poly → ∀ g, newFilter E (.plain d) fo = .ok (some g) →
      buildConstituent E fo d = .ok g ∧ ∀ v, (g.isMatch E v).isSome := by
    intro d hp g hg
    have hn : buildNative E d = .ok (some g) := by
      simpa [newFilter, buildPoly, FilterDef.core, hp, hc] using hg
    refine ⟨by simp [buildConstituent, hc, hn], ?_⟩
    intro v
    simp only [buildNative] at hn
    split at hn
    · split at hn
      · cases hn
      · cases hn
      · split at hn
        · cases hn
        · cases hn; rfl
    · split at hn
      · cases hn; rfl
      · cases hn
    · cases hn; rfl
    · cases hn
    · cases hn
    · cases hn
  obtain ⟨h1, t1⟩ := one _ (by simpa [FilterCore.restrict] using hfp) ff hf
  obtain ⟨h2, t2⟩ := one _ (by simpa [FilterCore.restrict] using hdp) fd hd
  refine ⟨.poly ff fd, ?_, ?_, ?_⟩
  · have e1 : ∀ c : FilterCore, ∀ a b, c.narrow a b = c.restrict a b := fun _ _ _ => rfl
    simp [newFilter, buildPoly, FilterDef.core, ht, hnode, FilterDef.poly, e1, h1, h2]
    simp only [FilterDef.core] at hfp hdp h1 h2
    simp [hfp, hdp, h1, h2]
  · intro v hv
    simp [Filter.isMatch, hv]
  · intro v p hv hp
    obtain ⟨a, ha⟩ := Option.isSome_iff_exists.mp (t1 v)
    obtain ⟨b, hb⟩ := Option.isSome_iff_exists.mp (t2 p)
    refine ⟨a, b, ha, hb, ?_⟩
    simp only [Filter.isMatch, hv, hp, hb]
    cases b <;> simp [ha]

/-- **C53** A poly filter among the constituents is refused when the session is built. (If the directory constituent is
the nested one, provided the file constituent can be built: otherwise that one's error is reported.) -/
theorem C53_nested (E : Engine) (c : FilterCore) (file dir : FilterDef) (fo : FilterOptions)
    (ht : c.type = .poly) (hnode : fo.node = some (.both c file dir)) :
    (file.core.type = .poly → newFilter E (.both c file dir) fo = .err .polyInvalid) ∧
    (dir.core.type = .poly → ∀ f, newFilter E (.both c file dir) fo ≠ .ok f) := by
  constructor
  · intro h
    simp only [FilterDef.core] at h
    simp [newFilter, buildPoly, FilterDef.core, ht, hnode, FilterDef.poly, h]
  · intro h f
    unfold newFilter buildPoly
    simp only [hnode, FilterDef.poly, Option.bind_some]
    rw [if_neg (by simp [FilterDef.core, ht])]
    by_cases hp : file.core.type = .poly
    · rw [if_pos hp]; simp
    · rw [if_neg hp]
      cases buildConstituent E fo (file.core.narrow Scope.file Scope.directory) <;> simp [h]

/-- On a file that has no parent — the tree root being a file — a poly filter crashes. -/
theorem C53_root_file_panics (E : Engine) (ff fd : Filter) (v : View) (hv : v.isDir = false) (hp : v.parent = none) :
    (Filter.poly ff fd).isMatch E v = none := by
  simp [Filter.isMatch, hv, hp]

/-- Not vacuous: `*.flac` files in directories called `rock`. -/
example :
    let file : FilterDef := .plain { type := .glob, pattern := "*.flac" }
    let dir : FilterDef := .plain { type := .regex, pattern := "rock" }
    let d : FilterDef := .both { type := .poly } file dir
    let top (n : String) : NodeInfo := { path := ["m", n], isDir := true, infoErr := none, depth := 1, isLeaf := true, scope := Scope.directory }
    let v (p n : String) : View := { path := ["m", p, n], isDir := false, infoErr := none, depth := 2, isLeaf := true, scope := Scope.file, parents := [top p] }
    (match newFilter toyEngine d { node := some d } with
      | .ok (some f) => [f.isMatch toyEngine (v "rock" "a.flac"), f.isMatch toyEngine (v "pop" "a.flac"),
          f.isMatch toyEngine (v "rock" "a.mp3"), f.isMatch toyEngine { top "pop" with parents := [] }]
      | _ => []) = [some true, some false, some false, some true] := by
  decide +kernel

/-! ### C52: extended globs -/

/-- One sub-pattern: a glob for the stem (empty: any), an extension, and whether that extension is excluded. -/
structure SubPattern where
  stem : List Char
  excluded : Bool
  ext : List Char

/-- As written in the pattern list: `stem.ext` or `stem.!ext`. -/
def SubPattern.text (s : SubPattern) : List Char := s.stem ++ '.' :: ((if s.excluded then ['!'] else []) ++ s.ext)

/-- The extension is there, has no dot, and starts with "!" only as the only character; the stem is one line. -/
structure SubPattern.WellFormed (s : SubPattern) : Prop where
  ext_ne : s.ext ≠ []
  ext_dot : '.' ∉ s.ext
  ext_bang : s.excluded = false → ∀ r, s.ext = '!' :: r → r = []
  stem_nl : '\n' ∉ s.stem

/-- The glob that says which names have the sub-pattern's stem and extension. -/
def SubPattern.glob (s : SubPattern) : String :=
  (if s.stem = [] then "*" else String.ofList s.stem) ++ ("." ++ String.ofList s.ext)

/-- What a sub-pattern decides about a name, if it does: an exclusion accepts all names but those with its extension, an
inclusion accepts those with its extension. -/
def SubPattern.decides (E : Engine) (name : String) (s : SubPattern) : Option Bool :=
  if s.excluded then some (!E.glob s.glob name)
  else if E.glob s.glob name then some true
  else none

/-- Whether the parent directory (if there is one) is as asked: matches the glob and not the exclusion. -/
def parentOK (E : Engine) (dirGlob dirExcl : String) (v : View) : Prop :=
  ∀ p, v.parent = some p → E.glob dirGlob (E.lower p.name) = true ∧ E.glob dirExcl (E.lower p.name) = false

instance (E : Engine) (g x : String) (v : View) : Decidable (parentOK E g x v) :=
  match h : v.parent with
  | none => .isTrue (by intro p hp; rw [h] at hp; cases hp)
  | some p => decidable_of_iff (E.glob g (E.lower p.name) = true ∧ E.glob x (E.lower p.name) = false)
      ⟨fun hh q hq => by rw [h] at hq; cases hq; exact hh, fun hh => hh p h⟩

theorem splitChars_append (c : Char) (l r : List Char) (hl : c ∉ l) :
    splitChars c (l ++ c :: r) = l :: splitChars c r := by
  induction l with
  | nil => simp [splitChars]
  | cons x l ih =>
    have hx : x ≠ c := fun e => hl (by simp [e])
    simp [splitChars, hx, ih (fun h => hl (by simp [h]))]

theorem splitChars_none (c : Char) (l : List Char) (hl : c ∉ l) : splitChars c l = [l] := by
  induction l with
  | nil => simp [splitChars]
  | cons x l ih =>
    have hx : x ≠ c := fun e => hl (by simp [e])
    simp [splitChars, hx, ih (fun h => hl (by simp [h]))]

/-- Splitting a list joined with commas gives the items back. -/
def joinWith (c : Char) : List (List Char) → List Char
  | [] => []
  | [x] => x
  | x :: xs => x ++ c :: joinWith c xs

theorem splitChars_join (c : Char) (l : List (List Char)) (hn : l ≠ []) (hl : ∀ x ∈ l, c ∉ x) :
    splitChars c (joinWith c l) = l := by
  induction l with
  | nil => exact absurd rfl hn
  | cons x l ih =>
    cases l with
    | nil => exact splitChars_none c x (hl x (by simp))
    | cons y l =>
      simp only [joinWith]
      rw [splitChars_append c x _ (hl x (by simp)), ih (by simp) (fun z hz => hl z (by simp [hz]))]

theorem globExMatch_text (s : SubPattern) (h : s.WellFormed) : globExMatch s.text = some (s.stem, s.excluded, s.ext) := by
  unfold globExMatch SubPattern.text
  have hd : ∀ x ∈ ((if s.excluded then ['!'] else []) ++ s.ext).reverse, (x != '.') = true := by
    intro x hx
    rw [List.mem_reverse, List.mem_append] at hx
    rcases hx with hx | hx
    · split at hx
      · simp only [List.mem_singleton] at hx; rw [hx]; rfl
      · cases hx
    · simp only [bne_iff_ne, ne_eq]
      intro e; exact h.ext_dot (e ▸ hx)
  rw [List.reverse_append, List.reverse_cons, List.append_assoc, List.singleton_append]
  rw [List.takeWhile_append_of_pos hd, List.dropWhile_append_of_pos hd]
  simp only [List.takeWhile_cons, List.dropWhile_cons, bne_self_eq_false, Bool.false_eq_true, if_false, List.append_nil,
    List.reverse_reverse]
  have hnl : s.stem.reverse.contains '\n' = false := by simpa using h.stem_nl
  rw [hnl]
  simp only [Bool.false_eq_true, if_false]
  cases he : s.excluded with
  | true =>
    simp only [if_true, List.singleton_append]
    cases hext : s.ext with
    | nil => exact absurd hext h.ext_ne
    | cons y ys => simp
  | false =>
    simp only [Bool.false_eq_true, if_false, List.nil_append]
    cases hext : s.ext with
    | nil => exact absurd hext h.ext_ne
    | cons y ys =>
      by_cases hy : y = '!'
      · subst hy
        have := h.ext_bang he ys hext
        subst this
        rfl
      · split
        · rename_i h1; cases h1
        · rename_i h1; simp at h1; exact absurd h1.1 hy
        · rename_i h1; simp at h1; exact absurd h1.1 hy
        · rfl

theorem parseSpec_text (s : SubPattern) (h : s.WellFormed) (t : String) (ht : t.toList = s.text) :
    parseSpec t = .ok ⟨s.glob, s.excluded⟩ := by
  unfold parseSpec SubPattern.glob
  rw [ht, globExMatch_text s h]
  simp only
  split <;> rfl

private theorem specsMatch_decides (E : Engine) (name : String) (subs : List SubPattern) :
    specsMatch E name (subs.map fun s => ⟨s.glob, s.excluded⟩) = (subs.findSome? (SubPattern.decides E name)).getD false := by
  induction subs with
  | nil => rfl
  | cons s subs ih =>
    rw [List.map_cons, List.findSome?_cons]
    simp only [specsMatch, PatternSpec.excluded, PatternSpec.isMatch, SubPattern.decides]
    cases hx : s.excluded <;> by_cases hg : E.glob s.glob name = true <;> simp [ih, hg]

private theorem mapE_ok {α β : Type} (f : α → Except FilterErr β) (g : α → β) (l : List α) (h : ∀ a ∈ l, f a = .ok (g a)) :
    mapE f l = .ok (l.map g) := by
  induction l with
  | nil => rfl
  | cons a l ih => simp [mapE, h a (by simp), ih (fun b hb => h b (by simp [hb]))]

/-- The comma separated list as written, and the sub-patterns it means: empty items and a bare `!` mean nothing. -/
inductive Reads (E : Engine) : List (List Char) → List SubPattern → Prop where
  | nil : Reads E [] []
  | cons {item items s subs} : s.WellFormed → (E.lower (E.trim (String.ofList item))).toList = s.text →
      item ≠ [] → item ≠ ['!'] → ',' ∉ item → '|' ∉ item → Reads E items subs → Reads E (item :: items) (s :: subs)
  | blank {item items subs} : item = [] ∨ item = ['!'] → Reads E items subs → Reads E (item :: items) subs

private theorem Reads.mapE {E : Engine} {items subs} (h : Reads E items subs) :
    Traverse.mapE (fun p => parseSpec (E.lower (E.trim p)))
        ((items.map String.ofList).filter (fun i => !(i == "" || i == "!"))) =
      .ok (subs.map fun s => ⟨s.glob, s.excluded⟩) := by
  induction h with
  | nil => rfl
  | @cons i _ _ _ hw ht h1 h2 _ _ _ ih =>
    have e1 : String.ofList i ≠ "" := fun e => h1 (by have := congrArg String.toList e; simpa using this)
    have e2 : String.ofList i ≠ "!" := fun e => h2 (by have := congrArg String.toList e; simpa using this)
    rw [List.map_cons, List.filter_cons_of_pos (by simp [e1, e2])]
    simp only [List.map_cons, Traverse.mapE, parseSpec_text _ hw _ ht, ih]
  | @blank i _ _ h _ ih =>
    rw [List.map_cons, List.filter_cons_of_neg (by rcases h with rfl | rfl <;> simp), ih]

private theorem Reads.items {E : Engine} {items subs} (h : Reads E items subs) :
    ∀ i ∈ items, ',' ∉ i ∧ '|' ∉ i := by
  induction h with
  | nil => simp
  | cons _ _ h1 h2 h3 h4 _ ih =>
    intro i hi
    rcases List.mem_cons.mp hi with rfl | hi
    · exact ⟨h3, h4⟩
    · exact ih i hi
  | blank h _ ih =>
    intro i hi
    rcases List.mem_cons.mp hi with rfl | hi
    · rcases h with rfl | rfl <;> decide
    · exact ih i hi

/-- **C52.** A pattern `dir|sub,sub,...` or `dir/excl|sub,sub,...` (after lower-casing; what follows a further `|`, or a
further `/` before the first `|`, is ignored) builds a filter which judges a file
whose parent directory's name matches `dir` and not `excl` by the first sub-pattern, in list order, that decides — refused
if none does — flipped if negated; on every other node it gives the IfNotApplicable verdict. -/
theorem C52_glob_ex (E : Engine) (d : FilterCore) (fo : FilterOptions) (hc : fo.custom = none) (ht : d.type = .globEx)
    (dir : List Char) (dirGlob dirExcl : List Char) (items : List (List Char)) (subs : List SubPattern)
    (tail : List Char) (hpat : d.pattern.toList = dir ++ '|' :: (joinWith ',' items ++ tail)) (htail : tail = [] ∨ ∃ t, tail = '|' :: t) (hdir : '|' ∉ dir)
    (hlow : (E.lower (String.ofList dir)).toList = dirGlob ∧ dirExcl = [] ∨
      ∃ more, (E.lower (String.ofList dir)).toList = dirGlob ++ '/' :: (dirExcl ++ more) ∧ '/' ∉ dirExcl ∧ (more = [] ∨ ∃ t, more = '/' :: t))
    (hglob : '/' ∉ dirGlob) (hitems : Reads E items subs) (hne : items ≠ []) :
    ∃ f, newFilter E (.plain d) fo = .ok (some f) ∧ ∀ v : View, f.isMatch E v = some (
      if Scope.file &&& v.scope ≠ 0#32 ∧ parentOK E (String.ofList dirGlob) (String.ofList dirExcl) v then
        ((subs.findSome? (SubPattern.decides E v.name)).getD false ^^ d.negate)
      else d.ifNotApplicable != .no) := by
  have hi := hitems.items
  have hbar : '|' ∉ joinWith ',' items := by
    suffices h : ∀ l : List (List Char), (∀ i ∈ l, '|' ∉ i) → '|' ∉ joinWith ',' l from h items (fun i h => (hi i h).2)
    intro l
    induction l with
    | nil => intro _; simp [joinWith]
    | cons x l ih =>
      intro h
      cases l with
      | nil => exact h x (by simp)
      | cons y l =>
        simp only [joinWith, List.mem_append, List.mem_cons, not_or]
        exact ⟨h x (by simp), by decide, ih (fun i hh => h i (by simp [hh]))⟩
  have hsplit : splitGlobExPattern d.pattern =
      .ok (String.ofList dir, (items.map String.ofList).filter (fun i => !(i == "" || i == "!"))) := by
    unfold splitGlobExPattern
    have h1 : containsChar '|' d.pattern = true := by simp [containsChar, hpat]
    have h2 : ∃ more, splitStr '|' d.pattern = String.ofList dir :: String.ofList (joinWith ',' items) :: more := by
      unfold splitStr
      rcases htail with rfl | ⟨t, rfl⟩
      · refine ⟨[], ?_⟩
        rw [hpat, splitChars_append _ _ _ hdir, List.append_nil, splitChars_none _ _ hbar]
        rfl
      · refine ⟨(splitChars '|' t).map String.ofList, ?_⟩
        rw [hpat, splitChars_append _ _ _ hdir, splitChars_append _ _ _ hbar]
        rfl
    have h3 : splitStr ',' (String.ofList (joinWith ',' items)) = items.map String.ofList := by
      unfold splitStr
      rw [String.toList_ofList, splitChars_join _ _ hne (fun i h => (hi i h).1)]
    obtain ⟨more, h2⟩ := h2
    rw [h1, h2]
    simp only [Bool.not_true, Bool.false_eq_true, if_false]
    rw [h3]
  have hsg : splitGlob E (String.ofList dir) = (String.ofList dirGlob, String.ofList dirExcl) := by
    unfold splitGlob
    rcases hlow with ⟨hl, rfl⟩ | ⟨more, hl, hx, hm⟩
    · have : containsChar '/' (E.lower (String.ofList dir)) = false := by
        rw [containsChar, hl]; simpa using hglob
      simp only [this, Bool.false_eq_true, if_false]
      rw [← hl, String.ofList_toList]
    · have : containsChar '/' (E.lower (String.ofList dir)) = true := by
        rw [containsChar, hl]; simp
      simp only [this, if_true]
      unfold splitStr
      rcases hm with rfl | ⟨t, rfl⟩
      · rw [hl, splitChars_append _ _ _ hglob, List.append_nil, splitChars_none _ _ hx]
        rfl
      · rw [hl, splitChars_append _ _ _ hglob, splitChars_append _ _ _ hx]
        rfl
  refine ⟨.globEx ⟨d.pattern, Scope.file, d.negate, applicable d.ifNotApplicable⟩
    ⟨subs.map fun s => ⟨s.glob, s.excluded⟩, String.ofList dirGlob, String.ofList dirExcl⟩, ?_, fun v => ?_⟩
  · simp only [newFilter, buildPoly, FilterDef.core, ht, hc, buildNative, hsplit, hsg, newSpec, hitems.mapE]
    rfl
  · simp only [Filter.isMatch, specsMatch_decides, FBase.isApplicable, FBase.invert, Option.some.injEq]
    have hpar : GlobSpec.isDirectoryMatch E ⟨subs.map fun s => ⟨s.glob, s.excluded⟩, String.ofList dirGlob, String.ofList dirExcl⟩ v
        = decide (parentOK E (String.ofList dirGlob) (String.ofList dirExcl) v) := by
      unfold GlobSpec.isDirectoryMatch
      simp only
      cases hp : v.parent with
      | none =>
        have : parentOK E (String.ofList dirGlob) (String.ofList dirExcl) v := by intro p h; rw [hp] at h; cases h
        simp [this]
      | some p =>
        have hiff : parentOK E (String.ofList dirGlob) (String.ofList dirExcl) v ↔
            E.glob (String.ofList dirGlob) (E.lower p.name) = true ∧ E.glob (String.ofList dirExcl) (E.lower p.name) = false :=
          ⟨fun h => h p hp, fun h q hq => by rw [hp] at hq; cases hq; exact h⟩
        simp only [hiff]
        cases E.glob (String.ofList dirGlob) (E.lower p.name) <;> cases E.glob (String.ofList dirExcl) (E.lower p.name) <;> rfl
    rw [hpar]
    have happ : applicable d.ifNotApplicable = (d.ifNotApplicable != .no) := by cases d.ifNotApplicable <;> rfl
    rw [happ]
    by_cases hs : Scope.file &&& v.scope = 0#32
    · simp [hs]
    · by_cases hq : parentOK E (String.ofList dirGlob) (String.ofList dirExcl) v
      · simp only [bne_iff_ne, ne_eq, hs, not_false_iff, hq, decide_true, Bool.and_true, and_self, if_true]
        cases d.negate <;> simp
      · simp [hq]

/-- **C52** A pattern without the separator `|` is refused when the session is built. -/
theorem C52_missing_separator (E : Engine) (d : FilterCore) (fo : FilterOptions) (hc : fo.custom = none)
    (ht : d.type = .globEx) (hbar : '|' ∉ d.pattern.toList) : newFilter E (.plain d) fo = .err (.missingSeparator d.pattern) := by
  have h1 : containsChar '|' d.pattern = false := by simpa [containsChar] using hbar
  simp [newFilter, buildPoly, FilterDef.core, ht, hc, buildNative, splitGlobExPattern, h1]

/-- **C52** An excluded extension first in the list rejects exactly the names with that extension, provided the library's
`*.ext` glob is for the names ending in `.ext`. -/
theorem C52_excluded_extension (E : Engine) (ext : List Char) (subs : List SubPattern) (name : String)
    (hglob : E.glob ("*" ++ ("." ++ String.ofList ext)) name = true ↔ ∃ stem, name.toList = stem ++ '.' :: ext) :
    ((⟨[], true, ext⟩ :: subs).findSome? (SubPattern.decides E name)).getD false = true ↔
      ¬ ∃ stem, name.toList = stem ++ '.' :: ext := by
  have : SubPattern.decides E name ⟨[], true, ext⟩ = some (!E.glob ("*" ++ ("." ++ String.ofList ext)) name) := rfl
  rw [List.findSome?_cons, this, ← hglob]
  simp

/-- Not vacuous: files of directories matching `rock*`-like names but not `live`, anything but mp3 — on real strings. -/
example :
    let d : FilterCore := { type := .globEx, pattern := "*rock/liverock|.!mp3,cover.jpg", ifNotApplicable := .no }
    let d2 : FilterCore := { type := .globEx, pattern := "*|cover.jpg, .FLAC", ifNotApplicable := .no }
    let top (n : String) : NodeInfo := { path := ["m", n], isDir := true, infoErr := none, depth := 1, isLeaf := true, scope := Scope.directory }
    let v (p n : String) : View := { path := ["m", p, n], isDir := false, infoErr := none, depth := 2, isLeaf := true, scope := Scope.file, parents := [top p] }
    (match newFilter toyEngine (.plain d) {} with
      | .ok (some f) => [f.isMatch toyEngine (v "rock" "a.flac"), f.isMatch toyEngine (v "folkrock" "a.mp3"),
          f.isMatch toyEngine (v "liverock" "a.flac"), f.isMatch toyEngine (v "pop" "a.flac")]
      | _ => []) = [some true, some false, some false, some false] ∧
    (match newFilter toyEngine (.plain d2) {} with
      | .ok (some f) => [f.isMatch toyEngine (v "rock" "a.flac"), f.isMatch toyEngine (v "rock" "cover.jpg"),
          f.isMatch toyEngine (v "rock" "a.jpg")]
      | _ => []) = [some true, some true, some false] ∧
    (match newFilter toyEngine (.plain { d with pattern := "*.mp3" }) {} with | .err (.missingSeparator "*.mp3") => true | _ => false) = true := by
  refine ⟨by decide +kernel, by decide +kernel, by decide +kernel⟩

/-- Not vacuous: the hypotheses of `C52_glob_ex` on such a pattern. -/
example : Reads { toyEngine with lower := id, trim := id } [".!mp3".toList, [], "cover.jpg".toList, ['!']]
    [⟨[], true, "mp3".toList⟩, ⟨"cover".toList, false, "jpg".toList⟩] := by
  refine .cons ⟨by decide, by decide, (fun h => by cases h), by decide⟩ ?_ (by decide) (by decide) (by decide) (by decide)
    (.blank (.inl rfl) (.cons ⟨by decide, by decide, ?_, by decide⟩ ?_ (by decide) (by decide) (by decide) (by decide)
      (.blank (.inr rfl) .nil)))
  · rfl
  · intro _ r h; cases h
  · rfl

end Traverse
