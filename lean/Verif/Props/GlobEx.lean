import Verif.Props.RejectedResumed
/-
C28: extended globs that are refused.
-/
namespace Traverse
variable {κ : Type}

/-- The list between the first `|` of a pattern and the next one, or the end, cut at its commas. -/
structure Lists (pattern : List Char) (items : List (List Char)) : Prop where
  cut : ∃ dir tail, pattern = dir ++ '|' :: (joinWith ',' items ++ tail) ∧ '|' ∉ dir ∧ (tail = [] ∨ ∃ t, tail = '|' :: t)
  clean : ∀ i ∈ items, ',' ∉ i ∧ '|' ∉ i
  some : items ≠ []

/-- An item that means something: not empty and not just `!`. It can be read as `stem.ext` or `stem.!ext`, trimmed and in lower case. -/
def Unreadable (E : Engine) (item : List Char) : Prop :=
  item ≠ [] ∧ item ≠ ['!'] ∧ ¬ ∃ s : SubPattern, s.WellFormed ∧ (E.lower (E.trim (String.ofList item))).toList = s.text

theorem joined_mem {c : Char} : ∀ {l : List (List Char)} {x : Char}, x ∈ joinWith c l → x = c ∨ ∃ i ∈ l, x ∈ i := by
  intro l
  induction l with
  | nil => intro x h; simp [joinWith] at h
  | cons y l ih =>
    intro x h
    cases l with
    | nil => exact .inr ⟨y, by simp, h⟩
    | cons z l =>
      simp only [joinWith, List.mem_append, List.mem_cons] at h
      rcases h with h | h | h
      · exact .inr ⟨y, by simp, h⟩
      · exact .inl h
      · rcases ih h with h | ⟨i, hi, h⟩
        · exact .inl h
        · exact .inr ⟨i, by simp [List.mem_cons.1 hi], h⟩

theorem joined (c : Char) (l : List Char) : ∃ items : List (List Char), items ≠ [] ∧ joinWith c items = l ∧ (∀ i ∈ items, c ∉ i) ∧ ∀ i ∈ items, ∀ x ∈ i, x ∈ l := by
  induction l with
  | nil => exact ⟨[[]], by simp, rfl, by simp, by simp⟩
  | cons y l ih =>
    obtain ⟨items, h1, h2, h3, h4⟩ := ih
    by_cases hy : y = c
    · subst hy
      refine ⟨[] :: items, by simp, ?_, ?_, ?_⟩
      · cases items with
        | nil => exact absurd rfl h1
        | cons z zs => simp [joinWith, h2]
      · intro i hi; rcases List.mem_cons.1 hi with rfl | hi
        · simp
        · exact h3 i hi
      · intro i hi x hx; rcases List.mem_cons.1 hi with rfl | hi
        · cases hx
        · exact List.mem_cons_of_mem _ (h4 i hi x hx)
    · cases items with
      | nil => exact absurd rfl h1
      | cons z zs =>
        refine ⟨(y :: z) :: zs, by simp, ?_, ?_, ?_⟩
        · rw [← h2]; cases zs <;> simp [joinWith]
        · intro i hi; rcases List.mem_cons.1 hi with rfl | hi
          · simp only [List.mem_cons, not_or]; exact ⟨fun h => hy h.symm, h3 z (by simp)⟩
          · exact h3 i (by simp [hi])
        · intro i hi x hx; rcases List.mem_cons.1 hi with rfl | hi
          · rcases List.mem_cons.1 hx with rfl | hx
            · simp
            · exact List.mem_cons_of_mem _ (h4 z (by simp) x hx)
          · exact List.mem_cons_of_mem _ (h4 i (by simp [hi]) x hx)

/-- Every pattern with a `|` has such a list. -/
theorem lists_exists {pattern : List Char} (h : '|' ∈ pattern) : ∃ items, Lists pattern items := by
  have cutAt : ∀ l : List Char, '|' ∉ l ∨ ∃ a b, l = a ++ '|' :: b ∧ '|' ∉ a := by
    intro l
    induction l with
    | nil => exact .inl (by simp)
    | cons y l ih =>
      by_cases hy : y = '|'
      · exact .inr ⟨[], l, by simp [hy], by simp⟩
      · rcases ih with h | ⟨a, b, rfl, h⟩
        · exact .inl (by simp only [List.mem_cons, not_or]; exact ⟨fun e => hy e.symm, h⟩)
        · exact .inr ⟨y :: a, b, rfl, by simp only [List.mem_cons, not_or]; exact ⟨fun e => hy e.symm, h⟩⟩
  rcases cutAt pattern with h' | ⟨dir, rest, rfl, hdir⟩
  · exact absurd h h'
  · rcases cutAt rest with hr | ⟨l, t, rfl, hl⟩
    · obtain ⟨items, h1, h2, h3, h4⟩ := joined ',' rest
      exact ⟨items, ⟨dir, [], by rw [h2, List.append_nil], hdir, .inl rfl⟩, fun i hi => ⟨h3 i hi, fun hb => hr (h4 i hi _ hb)⟩, h1⟩
    · obtain ⟨items, h1, h2, h3, h4⟩ := joined ',' l
      exact ⟨items, ⟨dir, '|' :: t, by rw [h2], hdir, .inr ⟨t, rfl⟩⟩, fun i hi => ⟨h3 i hi, fun hb => hl (h4 i hi _ hb)⟩, h1⟩

theorem lists_split {pattern : String} {items : List (List Char)} (h : Lists pattern.toList items) :
    ∃ dir, splitGlobExPattern pattern = .ok (dir, (items.map String.ofList).filter (fun i => !(i == "" || i == "!"))) := by
  obtain ⟨dir, tail, hpat, hdir, htail⟩ := h.cut
  have hbar : '|' ∉ joinWith ',' items := by
    intro hm
    rcases joined_mem hm with h' | ⟨i, hi, h'⟩
    · exact absurd h' (by decide)
    · exact (h.clean i hi).2 h'
  refine ⟨String.ofList dir, ?_⟩
  unfold splitGlobExPattern
  have h1 : containsChar '|' pattern = true := by simp [containsChar, hpat]
  have h2 : ∃ more, splitStr '|' pattern = String.ofList dir :: String.ofList (joinWith ',' items) :: more := by
    unfold splitStr
    rcases htail with rfl | ⟨t, rfl⟩
    · refine ⟨[], ?_⟩
      rw [hpat, splitChars_append _ _ _ hdir, List.append_nil, splitChars_none _ _ hbar]
      rfl
    · refine ⟨(splitChars '|' t).map String.ofList, ?_⟩
      rw [hpat, splitChars_append _ _ _ hdir, splitChars_append _ _ _ hbar]
      rfl
  have h3 : splitStr ',' (String.ofList (joinWith ',' items)) = items.map String.ofList := by
    unfold splitStr
    rw [String.toList_ofList, splitChars_join _ _ h.some (fun i hi => (h.clean i hi).1)]
  obtain ⟨more, h2⟩ := h2
  rw [h1, h2]
  simp only [Bool.not_true, Bool.false_eq_true, if_false]
  rw [h3]

/-- What the expression matches can be read as a sub-pattern. -/
theorem globExMatch_reads {cs : List Char} {r} (h : globExMatch cs = some r) : ∃ s : SubPattern, s.WellFormed ∧ cs = s.text := by
  unfold globExMatch at h
  have hcat := List.takeWhile_append_dropWhile (p := fun c => c != '.') (l := cs.reverse)
  have hno : '.' ∉ (cs.reverse.takeWhile (fun c => c != '.')).reverse := by
    intro hm
    have := List.all_takeWhile (p := fun c => c != '.') (l := cs.reverse)
    rw [List.all_eq_true] at this
    exact absurd (this _ (List.mem_reverse.1 hm)) (by decide)
  have hhead : ∀ y ys, cs.reverse.dropWhile (fun c => c != '.') = y :: ys → y = '.' := by
    intro y ys he
    have := List.head?_dropWhile_not (fun c => c != '.') cs.reverse
    rw [he] at this
    simpa using this
  revert h hcat hno hhead
  generalize cs.reverse.dropWhile (fun c => c != '.') = dw
  generalize hE : (cs.reverse.takeWhile (fun c => c != '.')).reverse = ext
  intro h hcat hno hhead
  cases dw with
  | nil => cases h
  | cons y front =>
    have := hhead y front rfl
    subst this
    simp only at h
    split at h
    · cases h
    rename_i hnl
    have hnl' : '\n' ∉ front.reverse := by simpa using hnl
    have hcs : cs = front.reverse ++ '.' :: ext := by
      have : (cs.reverse.takeWhile (fun c => c != '.')) = ext.reverse := by rw [← hE, List.reverse_reverse]
      rw [this] at hcat
      have h2 := congrArg List.reverse hcat
      simp only [List.reverse_append, List.reverse_cons, List.reverse_reverse, List.append_assoc, List.singleton_append] at h2
      exact h2.symm
    rcases ext with _ | ⟨c, ext⟩
    · cases h
    · by_cases hc : c = '!' ∧ ext ≠ []
      · obtain ⟨rfl, hne⟩ := hc
        refine ⟨⟨front.reverse, true, ext⟩, ⟨hne, fun hm => hno (by simp [hm]), (fun h => by cases h), hnl'⟩, ?_⟩
        simp [SubPattern.text, hcs]
      · refine ⟨⟨front.reverse, false, c :: ext⟩, ⟨by simp, hno, ?_, hnl'⟩, ?_⟩
        · intro _ r hr
          simp only [List.cons.injEq] at hr
          apply Classical.byContradiction
          intro hne
          exact hc ⟨hr.1, by rw [hr.2]; exact hne⟩
        · simp [SubPattern.text, hcs]

theorem parseSpec_iff (t : String) : (∃ e, parseSpec t = .error e) ↔ ¬ ∃ s : SubPattern, s.WellFormed ∧ t.toList = s.text := by
  constructor
  · rintro ⟨e, he⟩ ⟨s, hs, ht⟩
    rw [parseSpec_text s hs t ht] at he; cases he
  · intro h
    unfold parseSpec
    cases hm : globExMatch t.toList with
    | none => exact ⟨_, rfl⟩
    | some r => exact absurd (globExMatch_reads hm) h

theorem mapE_error {α β : Type} (f : α → Except FilterErr β) : ∀ l : List α, (∃ e, mapE f l = .error e) ↔ ∃ a ∈ l, ∃ e, f a = .error e := by
  intro l
  induction l with
  | nil => simp [mapE]
  | cons a l ih =>
    simp only [mapE, List.mem_cons, exists_eq_or_imp]
    cases ha : f a with
    | error e => simp
    | ok b =>
      simp only [reduceCtorEq, exists_false, false_or]
      rw [← ih]
      cases mapE f l <;> simp

/-- When an extended glob is refused. -/
theorem globEx_refused (E : Engine) (d : FilterCore) (ht : d.type = .globEx) {items : List (List Char)} (hl : Lists d.pattern.toList items) :
    ((∃ e, buildNative E d = .err e) ↔ ∃ i ∈ items, Unreadable E i) ∧
    (¬ (∃ i ∈ items, Unreadable E i) → ∃ f, buildNative E d = .ok (some f)) := by
  obtain ⟨dir, hs⟩ := lists_split hl
  have hm := mapE_error (fun p => parseSpec (E.lower (E.trim p))) ((items.map String.ofList).filter (fun i => !(i == "" || i == "!")))
  have hiff : (∃ a ∈ (items.map String.ofList).filter (fun i => !(i == "" || i == "!")), ∃ e, parseSpec (E.lower (E.trim a)) = .error e) ↔
      ∃ i ∈ items, Unreadable E i := by
    simp only [List.mem_filter, List.mem_map, parseSpec_iff, Unreadable]
    constructor
    · rintro ⟨a, ⟨⟨i, hi, rfl⟩, h1⟩, h2⟩
      simp only [Bool.not_eq_true', Bool.or_eq_false_iff, beq_eq_false_iff_ne, ne_eq] at h1
      refine ⟨i, hi, fun e => h1.1 (by rw [e]), fun e => h1.2 (by rw [e]), h2⟩
    · rintro ⟨i, hi, h1, h2, h3⟩
      refine ⟨_, ⟨⟨i, hi, rfl⟩, ?_⟩, h3⟩
      simp only [Bool.not_eq_true', Bool.or_eq_false_iff, beq_eq_false_iff_ne, ne_eq]
      exact ⟨fun e => h1 (by have := congrArg String.toList e; simpa using this), fun e => h2 (by have := congrArg String.toList e; simpa using this)⟩
  rw [hiff] at hm
  have hb : buildNative E d = match mapE (fun p => parseSpec (E.lower (E.trim p))) ((items.map String.ofList).filter (fun i => !(i == "" || i == "!"))) with
      | .error e => .err e
      | .ok specs => .ok (some (.globEx ({ (⟨d.pattern, d.scope, d.negate, applicable d.ifNotApplicable⟩ : FBase) with scope := Scope.file }).validate
          ⟨specs, (splitGlob E dir).1, (splitGlob E dir).2⟩)) := by
    simp only [buildNative, ht, hs, newSpec]
    cases mapE (fun p => parseSpec (E.lower (E.trim p))) ((items.map String.ofList).filter (fun i => !(i == "" || i == "!"))) <;> rfl
  rw [hb, ← hm]
  cases mapE (fun p => parseSpec (E.lower (E.trim p))) ((items.map String.ofList).filter (fun i => !(i == "" || i == "!"))) <;> simp

/-- **C28** A session whose only filter is an extended glob, whatever its pattern: it is unbuildable exactly when there is no separator
`|` in the pattern or something in the list after it can not be read as `stem.ext` or `stem.!ext`. Then nothing happens. -/
theorem C28_globEx_definition (P : Platform κ) (u : Using κ) (settings : List (Option (Setting κ))) (o : Options κ) (disk : Disk) (x : κ)
    (hg : Given P u settings o) (d : FilterCore) (hd : o.filter = { node := some (.plain d) }) (hp : d.pattern ≠ "") (ht : d.type = .globEx) :
    let rep := walkPrime P (.using u) settings disk x
    ('|' ∉ d.pattern.toList → ∃ e, rep.Nothing (.filter e) x) ∧
    ('|' ∈ d.pattern.toList → ∃ items, Lists d.pattern.toList items) ∧
    (∀ items, Lists d.pattern.toList items →
      ((∃ e, rep.verdict = .unbuilt e) ↔ ∃ i ∈ items, Unreadable P.engine i) ∧
      ((∃ i ∈ items, Unreadable P.engine i) → ∃ e, rep.Nothing (.filter e) x)) := by
  obtain ⟨h1, h2⟩ := given_verdict hg disk x
  intro rep
  have hf : o.afterwards.filter = { node := some (.plain d) } := hd
  have hp' : (d.pattern != "") = true := by simp [hp]
  have hr : ∀ r, buildNative P.engine d = r → registerFilter P.engine o.afterwards = match r with
      | .ok (some f) => .ok (⟨some (.node (f.predicate P.engine)), none, f.dies P.engine⟩, o.afterwards)
      | .ok none => .panic
      | .err e => .err e
      | .panic => .panic := by
    intro r hr
    have hn : newFilter P.engine (.plain d) { node := some (.plain d) } = r := by
      simp only [newFilter, buildPoly, FilterDef.core, ht, ne_eq, reduceCtorEq, not_false_eq_true, if_true, hr]
    simp only [registerFilter, createPrimary, FilterOptions.nodeActive, hf, FilterDef.core, hp', Bool.true_or, if_true, hn]
    rcases r with (_ | f) | e | _ <;> simp [createChild, hf]
  refine ⟨fun hb => ?_, lists_exists, fun items hl => ?_⟩
  · have hc : containsChar '|' d.pattern = false := by simpa [containsChar] using hb
    have : buildNative P.engine d = .err (.missingSeparator d.pattern) := by
      simp [buildNative, ht, splitGlobExPattern, hc]
    exact ⟨_, h1 _ (hr _ this)⟩
  · obtain ⟨k1, k2⟩ := globEx_refused P.engine d ht hl
    have hbad : (∃ i ∈ items, Unreadable P.engine i) → ∃ e, rep.Nothing (.filter e) x := fun hb => by
      obtain ⟨e, he⟩ := k1.2 hb
      exact ⟨e, h1 e (hr _ he)⟩
    refine ⟨⟨fun ⟨e, he⟩ => Classical.byContradiction fun hb => ?_, fun hb => ?_⟩, hbad⟩
    · obtain ⟨f, hf⟩ := k2 hb
      exact h2 _ _ (hr _ hf) rfl e he
    · obtain ⟨e, he⟩ := hbad hb
      exact ⟨_, he.1⟩

/-- **C28** A resumed session and an extended glob, as `C28_globEx_definition`. -/
theorem C28_resumed_globEx (P : Platform κ) (r : Relic κ) (settings : List (Option (Setting κ))) (files : String → Except Err Json) (o : Options κ)
    (disk : Disk) (x : κ) (hg : GivenBack P r settings files o) (d : FilterCore) (hd : o.filter = { node := some (.plain d) }) (hp : d.pattern ≠ "")
    (ht : d.type = .globEx) :
    let rep := walkResume P (.relic r) settings files disk x
    ('|' ∉ d.pattern.toList → ∃ e, rep.Nothing (.filter e) x) ∧
    (∀ items, Lists d.pattern.toList items →
      ((∃ e, rep.verdict = .unbuilt e) ↔ ∃ i ∈ items, Unreadable P.engine i) ∧
      ((∃ i ∈ items, Unreadable P.engine i) → ∃ e, rep.Nothing (.filter e) x)) := by
  obtain ⟨u, st, h, hv, hn⟩ := back_alike hg disk x
  obtain ⟨h1, -, h2⟩ := C28_globEx_definition P u st o disk x h d hd hp ht
  simp only [hv]
  exact ⟨fun hb => (h1 hb).imp fun e he => hn _ he, fun items hl => ⟨(h2 items hl).1, fun hb => ((h2 items hl).2 hb).imp fun e he => hn _ he⟩⟩

/-- A definition that can not be used: without a type, a regular expression that does not compile, an extended glob without a separator
or with something unreadable in its list. -/
def Unusable (E : Engine) (c : FilterCore) : Prop :=
  c.type = .undefined ∨ (c.type = .regex ∧ E.compiles c.pattern = false) ∨
    (c.type = .globEx ∧ ('|' ∉ c.pattern.toList ∨ ∃ items, Lists c.pattern.toList items ∧ ∃ i ∈ items, Unreadable E i))

theorem native_refused (E : Engine) (c : FilterCore) (h1 : c.type ≠ .poly) (h2 : c.type ≠ .custom) :
    (Unusable E c → ∃ e, buildNative E c = .err e) ∧ (¬ Unusable E c → ∃ f, buildNative E c = .ok (some f)) := by
  unfold Unusable
  cases hty : c.type with
  | undefined => simp [buildNative, hty]
  | poly => exact absurd hty h1
  | custom => exact absurd hty h2
  | glob => simp [buildNative, hty]
  | regex => cases hc : E.compiles c.pattern <;> simp [buildNative, hty, hc]
  | globEx =>
    simp only [reduceCtorEq, false_and, false_or, true_and]
    by_cases hb : '|' ∈ c.pattern.toList
    · obtain ⟨items, hl⟩ := lists_exists hb
      obtain ⟨k1, k2⟩ := globEx_refused E c hty hl
      refine ⟨?_, fun h => k2 (fun hi => h (.inr ⟨items, hl, hi⟩))⟩
      rintro (h | ⟨items', hl', hi⟩)
      · exact absurd hb h
      · exact (globEx_refused E c hty hl').1.2 hi
    · have hc : containsChar '|' c.pattern = false := by simpa [containsChar] using hb
      exact ⟨fun _ => ⟨.missingSeparator c.pattern, by simp [buildNative, hty, splitGlobExPattern, hc]⟩, fun h => absurd (.inl hb) h⟩

/-- **C28** A session whose only filter is a poly filter, neither half of which is of the type Custom (which makes it panic): it is
unbuildable exactly when one of the halves is a poly filter again or can not be used. Then nothing happens. -/
theorem C28_poly_definition (P : Platform κ) (u : Using κ) (settings : List (Option (Setting κ))) (o : Options κ) (disk : Disk) (x : κ)
    (hg : Given P u settings o) (d file dir : FilterCore) (hd : o.filter = { node := some (.both d (.plain file) (.plain dir)) })
    (ht : d.type = .poly) (hfile : file.type ≠ .custom) (hdir : dir.type ≠ .custom) :
    let rep := walkPrime P (.using u) settings disk x
    let bad := file.type = .poly ∨ dir.type = .poly ∨ Unusable P.engine file ∨ Unusable P.engine dir
    ((∃ e, rep.verdict = .unbuilt e) ↔ bad) ∧ (bad → ∃ e, rep.Nothing (.filter e) x) := by
  obtain ⟨h1, h2⟩ := given_verdict hg disk x
  intro rep bad
  have hf : o.afterwards.filter = { node := some (.both d (.plain file) (.plain dir)) } := hd
  have hr : ∀ r, newFilter P.engine (.both d (.plain file) (.plain dir)) { node := some (.both d (.plain file) (.plain dir)) } = r →
      registerFilter P.engine o.afterwards = match r with
      | .ok (some f) => .ok (⟨some (.node (f.predicate P.engine)), none, f.dies P.engine⟩, o.afterwards)
      | .ok none => .panic
      | .err e => .err e
      | .panic => .panic := by
    intro r hr
    simp only [registerFilter, createPrimary, FilterOptions.nodeActive, hf, FilterDef.poly, Option.isSome_some, Bool.or_true, if_true, hr]
    rcases r with (_ | f) | e | _ <;> simp [createChild, hf]
  have half : ∀ (c : FilterCore) (plus minus : Scope), c.type ≠ .poly → c.type ≠ .custom →
      (Unusable P.engine c → ∃ e, buildConstituent P.engine { node := some (.both d (.plain file) (.plain dir)) } (c.narrow plus minus) = .err e) ∧
      (¬ Unusable P.engine c → ∃ f, buildConstituent P.engine { node := some (.both d (.plain file) (.plain dir)) } (c.narrow plus minus) = .ok f) := by
    intro c plus minus hp hc
    obtain ⟨k1, k2⟩ := native_refused P.engine (c.narrow plus minus) hp hc
    refine ⟨fun h => ?_, fun h => ?_⟩
    · obtain ⟨e, he⟩ := k1 h
      exact ⟨e, by simp [buildConstituent, he]⟩
    · obtain ⟨f, hf⟩ := k2 h
      exact ⟨f, by simp [buildConstituent, hf]⟩
  have key : (bad → ∃ e, registerFilter P.engine o.afterwards = .err e) ∧
      (¬ bad → ∃ f, registerFilter P.engine o.afterwards = .ok (f, o.afterwards)) := by
    rw [hr _ rfl]
    simp only [newFilter, buildPoly, FilterDef.core, FilterDef.poly, ht, ne_eq, not_true_eq_false, if_false, Option.bind_some, bad]
    by_cases hp1 : file.type = .poly
    · simp [hp1]
    obtain ⟨a1, a2⟩ := half file Scope.file Scope.directory hp1 hfile
    by_cases hu1 : Unusable P.engine file
    · obtain ⟨e, he⟩ := a1 hu1
      simp [hp1, he, hu1]
    obtain ⟨f, hff⟩ := a2 hu1
    by_cases hp2 : dir.type = .poly
    · simp [hp1, hff, hp2]
    obtain ⟨b1, b2⟩ := half dir Scope.directory Scope.file hp2 hdir
    by_cases hu2 : Unusable P.engine dir
    · obtain ⟨e, he⟩ := b1 hu2
      simp [hp1, hff, hp2, he, hu2]
    obtain ⟨g, hgg⟩ := b2 hu2
    simp [hp1, hff, hp2, hgg, hu1, hu2]
  have hbad : bad → ∃ e, rep.Nothing (.filter e) x := fun hb => (key.1 hb).imp fun e he => h1 e he
  refine ⟨⟨fun ⟨e, he⟩ => Classical.byContradiction fun hb => ?_, fun hb => ?_⟩, hbad⟩
  · obtain ⟨f, hf⟩ := key.2 hb
    exact h2 f _ hf rfl e he
  · obtain ⟨e, he⟩ := hbad hb
    exact ⟨_, he.1⟩

/-- **C28** A resumed session and a poly filter, as `C28_poly_definition`. -/
theorem C28_resumed_poly (P : Platform κ) (r : Relic κ) (settings : List (Option (Setting κ))) (files : String → Except Err Json) (o : Options κ)
    (disk : Disk) (x : κ) (hg : GivenBack P r settings files o) (d file dir : FilterCore)
    (hd : o.filter = { node := some (.both d (.plain file) (.plain dir)) }) (ht : d.type = .poly) (hfile : file.type ≠ .custom)
    (hdir : dir.type ≠ .custom) :
    let rep := walkResume P (.relic r) settings files disk x
    let bad := file.type = .poly ∨ dir.type = .poly ∨ Unusable P.engine file ∨ Unusable P.engine dir
    ((∃ e, rep.verdict = .unbuilt e) ↔ bad) ∧ (bad → ∃ e, rep.Nothing (.filter e) x) := by
  obtain ⟨u, st, h, hv, hn⟩ := back_alike hg disk x
  obtain ⟨h1, h2⟩ := C28_poly_definition P u st o disk x h d file dir hd ht hfile hdir
  simp only [hv]
  exact ⟨h1, fun hb => (h2 hb).imp fun e he => hn _ he⟩

/-- Not vacuous: poly filters of each kind, and whether the session can be built. -/
example :
    let P := sortPlatform
    let u : Using Nat := toyUsing .universal
    let unbuilt (file dir : FilterCore) : Bool :=
      match (walkPrime P (.using u) (settingsOf P [some (.filter { node := some (.both { type := .poly } (.plain file) (.plain dir)) } none)]) (diskOf [] Demo.fs) 0).verdict with
      | .unbuilt _ => true
      | _ => false
    let f : FilterCore := { type := .regex, pattern := "f" }
    [unbuilt f f, unbuilt f { type := .undefined }, unbuilt { type := .poly } f, unbuilt f { type := .poly }, unbuilt { type := .regex, pattern := "(" } f,
      unbuilt { type := .globEx, pattern := "x" } f, unbuilt { type := .globEx, pattern := "*|.mp3" } f] = [false, true, true, true, true, true, false] := by
  decide +kernel

/-- Not vacuous: patterns and whether the session can be built; the lists of two of them. -/
example :
    let P := sortPlatform
    let u : Using Nat := toyUsing .universal
    let unbuilt (p : String) : Bool :=
      match (walkPrime P (.using u) (settingsOf P [some (.filter { node := some (.plain { type := .globEx, pattern := p }) } none)]) (diskOf [] Demo.fs) 0).verdict with
      | .unbuilt _ => true
      | _ => false
    ["f", "*", "|", "*|.mp3", "*|mp3", "*|.!mp3,cover.jpg", "*|.!mp3,cover", "*|.mp3,,!", "*|a.", "*|.mp3|cover"].map unbuilt =
      [true, true, false, false, true, false, true, false, true, false] ∧
    Lists "*|.mp3|cover".toList [".mp3".toList] ∧ Lists "*|.!mp3,cover".toList [".!mp3".toList, "cover".toList] ∧
    Unreadable { toyEngine with lower := id, trim := id } "cover".toList ∧ ¬ Unreadable { toyEngine with lower := id, trim := id } ".!mp3".toList := by
  intro P u unbuilt
  refine ⟨by decide +kernel, ⟨⟨['*'], "|cover".toList, by decide, by decide, .inr ⟨_, rfl⟩⟩, by decide, by decide⟩,
    ⟨⟨['*'], [], by decide, by decide, .inl rfl⟩, by decide, by decide⟩, ⟨by decide, by decide, ?_⟩, ?_⟩
  · rintro ⟨s, -, hs⟩
    have hm : '.' ∈ ("cover".toList) := by
      have : (String.ofList "cover".toList).toList = s.text := hs
      rw [String.toList_ofList] at this
      rw [this]; simp [SubPattern.text]
    exact absurd hm (by decide)
  · rintro ⟨-, -, h⟩
    exact h ⟨⟨[], true, "mp3".toList⟩, ⟨by decide, by decide, (fun h => by cases h), by decide⟩, by decide⟩

end Traverse
