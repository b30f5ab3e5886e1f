import Verif.Proofs.Faults2
import Verif.Props.Visit
import Verif.Demo.Demo
/-
C15, C24, C54: unreadable directories, the scope of nodes, failing entry information.
-/
namespace Traverse
variable {σ τ : Type}

/-- The skip handler does not look at the read error (the default one does not). -/
def AskIgnoresReadError (env : Env σ) : Prop := ∀ x n re, env.ask x n re = env.ask x n none

/-- **C15** With the default skip handler, for every handler whatever it answers, an unreadable directory is
treated as a readable directory without entries: same handler calls (same nodes, same answers), same
descend/ascend events, same result. In particular the read error is never the result. -/
theorem C15_unreadable_like_empty (c : Nav) (env : Env σ) (x : σ) (pre : Path) (fs : FS)
    (hread : c.read = defaultRead) (hsort : SortByEntries c)
    (hskip : DefaultSkip env) (hblind : AskIgnoresReadError env) :
    (walk c env x pre fs).1 = (walk c env x pre fs.emptied).1 ∧
    calls (walk c env x pre fs).2.log = calls (walk c env x pre fs.emptied).2.log ∧
    (walk c env x pre fs).2.log.filter (fun e => !e.isAct) =
      (walk c env x pre fs.emptied).2.log.filter (fun e => !e.isAct) := by
  have hB : readBlur.Blind env := ⟨fun _ _ => rfl, fun y n r => by
    have : readBlur.re r = none := rfl
    rw [this]; exact hblind y n r, fun _ _ _ => rfl⟩
  have h := Blur.traverse_blur hB c (fun _ => hskip) (prep c fs) (fun _ => emptyBad_prep c hsort hread fs) [] pre (St.fresh x)
  have h0 : readBlur.st (St.fresh x) = St.fresh x := rfl
  rw [← prep_emptied c hsort hread fs, h0, List.map_nil] at h
  have hc : ∀ l : List Ev, calls (l.map readBlur.ev) = calls l := by
    intro l
    induction l with
    | nil => rfl
    | cons e l ih =>
      cases e <;> simp only [calls, List.map_cons, Blur.ev, List.filterMap_cons] at ih ⊢ <;> rw [ih]
      rfl
  have hl : ∀ l : List Ev, (l.map readBlur.ev).filter (fun e => !e.isAct) = l.filter (fun e => !e.isAct) := by
    intro l
    induction l with
    | nil => rfl
    | cons e l ih =>
      have h1 : (readBlur.ev e).isAct = e.isAct := by cases e <;> rfl
      have h2 : e.isAct = false → readBlur.ev e = e := by cases e <;> simp [Ev.isAct, Blur.ev]
      rw [List.map_cons, List.filter_cons, List.filter_cons, ih, h1]
      cases he : e.isAct with
      | true => rfl
      | false => rw [h2 he]
  simp only [walk, h]
  exact ⟨trivial, (hc _).symm, (hl _).symm⟩

/-- **C15** Compared with the same file system in which every directory can be read: with a handler that accepts
everything, outside the unreadable directories exactly the same nodes are delivered, in the same order and with
the same data; and the traversal succeeds. -/
theorem C15_unreadable_isolated (c : Nav) (env : Env σ) (x : σ) (env' : Env τ) (x' : τ) (pre : Path) (fs : FS)
    (hread : c.read = defaultRead) (hsort : SortByEntries c) (hdistinct : fs.Distinct)
    (hnil : AlwaysNil env) (hskip : DefaultSkip env) (hblind : AskIgnoresReadError env)
    (hnil' : AlwaysNil env') (hskip' : DefaultSkip env') :
    let B := walk c env x pre fs
    let R := walk c env' x' pre fs.mended
    B.1 = .done none ∧
    (∀ ok : Node → Bool, (∀ n, ok n = true ↔ ∀ b ∈ fs.badDirs pre, ¬ b <+: n.path) →
      (invoked B.2.log).filter ok = (invoked R.2.log).filter ok) ∧
    ((invoked B.2.log).filter (outside (fs.badDirs pre))).map (fun n => (n.path, n.isDir, n.depth, n.infoErr)) =
    ((invoked R.2.log).filter (outside (fs.badDirs pre))).map (fun n => (n.path, n.isDir, n.depth, n.infoErr)) := by
  intro B R
  obtain ⟨e1, e2, _⟩ := C15_unreadable_like_empty c env x pre fs hread hsort hskip hblind
  have e3 : invoked B.2.log = invoked (walk c env x pre fs.emptied).2.log := by simp only [invoked, e2, B]
  have hsel := defaultRead_selects c hread
  obtain ⟨h1, h2⟩ := walk_accepting c env x pre fs.emptied hsort.permutes hsel hnil hskip (emptied_distinct fs hdistinct)
    (fun _ => hread)
  obtain ⟨h3, h4⟩ := walk_accepting c env' x' pre fs.mended hsort.permutes hsel hnil' hskip' (mended_distinct fs hdistinct)
    (fun _ => hread)
  refine ⟨e1.trans h2, ?_, ?_⟩
  · intro ok hok
    have := items_emptied_mended c hsort hread id ok fs [] pre 0
      (fun b hb n hn ha => (hok n).1 hn b hb ha.1)
      (fun b hb n m hn hm _ _ _ => by
        have h1 : ok n = false := by
          cases h : ok n with
          | false => rfl
          | true => exact absurd (hn ▸ List.prefix_refl _) ((hok n).1 h b hb)
        have h2 : ok m = false := by
          cases h : ok m with
          | false => rfl
          | true => exact absurd (hm ▸ List.prefix_refl _) ((hok m).1 h b hb)
        simp [h1, h2])
    simp only [List.map_id] at this
    rw [e3, h1, h3, List.filter_filter, List.filter_filter]
    have hcomm : ∀ (P : Node → Bool) (l : List Node), l.filter (fun a => ok a && P a) = (l.filter ok).filter P := by
      intro P l; rw [List.filter_filter]; apply List.filter_congr; intro a _; exact Bool.and_comm _ _
    rw [hcomm, hcomm, this]
  · let ok2 : Node → Bool := fun n => outside (fs.badDirs pre) n && !(decide (c.sub = .files) && n.isDir)
    have := items_emptied_mended c hsort hread (fun n => (n.path, n.isDir, n.depth, n.infoErr)) ok2 fs [] pre 0
      (fun b hb n hn => by
        simp only [ok2, outside, Bool.and_eq_true, decide_eq_true_eq] at hn
        exact hn.1 b hb)
      (fun b hb n m hn hm h5 h6 h7 => by
        refine ⟨?_, fun _ => by simp [hn, hm, h5, h6, h7]⟩
        simp only [ok2, outside, hn, hm, h5])
    rw [e3, h1, h3, List.filter_filter, List.filter_filter]
    exact this

/-- **C15** With Universal and Directories the handler is still called for every unreadable directory. -/
theorem C15_unreadable_delivered (c : Nav) (env : Env σ) (x : σ) (pre : Path) (fs : FS)
    (hsub : c.sub ≠ .files) (hsub' : c.sub ≠ .undefined) (hroot : fs.isDir = true)
    (hread : c.read = defaultRead) (hdepth : c.maxDepth = 0) (hsort : SortByEntries c)
    (hdistinct : fs.Distinct) (hnil : AlwaysNil env) (hskip : DefaultSkip env) :
    ∀ b ∈ fs.badDirs pre, b ∈ (invoked (walk c env x pre fs).2.log).map (fun n => n.path) := by
  intro b hb
  have hn := badDirs_nodes fs pre b hb
  have hcases : c.sub = .universal ∨ c.sub = .directories ∨ c.sub = .directoriesWithFiles := by
    cases h : c.sub <;> simp_all
  rcases hcases with h | h
  · obtain ⟨hp, _, _⟩ := C01_universal_complete c env x pre fs h hdepth hread hsort.permutes hdistinct hnil hskip
    obtain ⟨m, hm, he⟩ := List.mem_map.1 (hp.mem_iff.2 hn)
    exact List.mem_map.2 ⟨m, hm, (Prod.mk.inj he).1⟩
  · obtain ⟨_, _, hp⟩ := C04_directories c c.sub env x env x pre fs h hread hsort.permutes hsort hdistinct hroot hnil hskip hnil hskip
    exact (hp hdepth).mem_iff.2 (List.mem_map.2 ⟨(b, true), List.mem_filter.2 ⟨hn, rfl⟩, rfl⟩)

theorem Demo.sortByEntries (sub) : SortByEntries (Demo.nav sub) := by
  intro ps _
  exact ⟨ps.reverse, List.reverse_perm ps, by simp [Demo.nav], by simp [Demo.nav]⟩

example : Demo.fsBad.badDirs [] = [["r", "a"]] ∧ Demo.fsBad.Distinct ∧ AskIgnoresReadError (Demo.env Demo.quiet) ∧
    (invoked (walk (Demo.nav .universal) (Demo.env Demo.quiet) () [] Demo.fsBad).2.log).map (fun n => n.path) =
      [["r"], ["r", "c"], ["r", "c", "w"], ["r", "a"], ["r", "f"]] ∧
    (invoked (walk (Demo.nav .universal) (Demo.env Demo.quiet) () [] Demo.fsBad.mended).2.log).map (fun n => n.path) =
      [["r"], ["r", "c"], ["r", "c", "w"], ["r", "a"], ["r", "a", "x"], ["r", "f"]] :=
  ⟨by decide +kernel, by simp [Demo.fsBad, FS.Distinct, FS.DistinctL, FS.name], fun _ _ _ => rfl,
    by decide +kernel, by decide +kernel⟩

/-- Membership of a scope bit. -/
def Scope.has (s bit : Scope) : Prop := s &&& bit ≠ 0#32
instance (s bit : Scope) : Decidable (Scope.has s bit) := inferInstanceAs (Decidable (_ ≠ _))

theorem subDirs_prep (c : Nav) (hs : SortPermutes c) (hr : c.read = defaultRead) (g : FS) (hg : g.isDir = true) :
    (prep c g).dirs.isEmpty = g.subDirs.isEmpty := by
  cases g with
  | file => simp [FS.isDir] at hg
  | dir n ie re kids =>
    rw [prep_dir]
    have h1 : (arrange c ⟨n, true, ie⟩ re (kids.map (prep c))).dirs =
        (c.sort ((c.read (kids.map (prep c)) re).1.filter (fun t => t.isDir))).map Tree.entry := by
      simp only [arrange]; cases c.sub <;> rfl
    have h2 : ∀ l : List Tree, (c.sort l).isEmpty = l.isEmpty := by
      intro l; have := (hs l).length_eq
      cases h : c.sort l <;> cases l <;> simp_all
    rw [h1, List.isEmpty_map, h2, hr]
    cases re with
    | some x => simp [defaultRead, FS.subDirs]
    | none =>
      simp only [defaultRead, FS.subDirs, Option.isSome_none, Bool.false_eq_true, if_false, List.isEmpty_map]
      rw [List.filter_map, List.filter_map, List.isEmpty_map]
      congr 1
      simp only [Function.comp_def]
      have e1 : (fun x : FS => (prep c x).isDir) = fun x => x.isDir := by funext x; exact (prep_entry c x).2
      have e2 : (fun x : FS => (prep c x).name != ".DS_Store") = fun x => x.name != ".DS_Store" := by
        funext x; rw [(prep_entry c x).1]
      rw [e1, e2]

/-- Every delivered node describes the entry of the file system at its path. -/
theorem delivered_at (c : Nav) (env : Env σ) (x : σ) (pre : Path) (fs : FS) (hread : c.read = defaultRead)
    (hsort : SortPermutes c) (n : Node) (hn : n ∈ invoked (walk c env x pre fs).2.log) :
    ∃ g ps, FS.At pre fs n.path g ∧ n = mkNode c ps n.path (prep c g) (n.depth + 1) ∧ 0 ≤ n.depth ∧
      (n.depth = 0 → ps = []) ∧ (0 < n.depth → ps ≠ []) := by
  have hs := (walk_run c env x pre fs).sublist
  rw [invoked_acts] at hs
  obtain ⟨it, hit, rfl⟩ := List.mem_map.1 (hs.subset hn)
  obtain ⟨u, ps, h1, h2, h3, h4, h5⟩ := items_at c _ _ _ _ it hit
  obtain ⟨g, hg, rfl⟩ := h1.prep hsort (defaultRead_selects c hread) fs rfl
  exact ⟨g, ps, hg, h2, h3, h4, h5⟩

/-- The scope bits of a node made for an entry of the file system. -/
theorem scope_bits (c : Nav) (hread : c.read = defaultRead) (hsort : SortPermutes c) (g : FS) (ps : List NodeInfo) (n : Node)
    (he : n = mkNode c ps n.path (prep c g) (n.depth + 1)) :
    n.isDir = g.isDir ∧
      (g.isDir = false → n.scope = Scope.leaf ||| Scope.file ∧ n.isLeaf = false) ∧
      (g.isDir = true → n.isLeaf = g.subDirs.isEmpty ∧
        n.scope.has Scope.directory ∧ ¬ n.scope.has Scope.file ∧
        (n.scope.has Scope.tree ↔ n.depth = 0) ∧
        (n.scope.has Scope.top ↔ n.depth = 1) ∧
        (n.scope.has Scope.leaf ↔ g.subDirs = []) ∧
        (n.scope.has Scope.intermediate ↔ ¬ n.depth = 0 ∧ ¬ n.depth = 1 ∧ g.subDirs ≠ []) ∧
        (∀ b, (Scope.tree ||| Scope.top ||| Scope.leaf ||| Scope.intermediate ||| Scope.directory) &&& b = 0#32 →
          ¬ n.scope.has b)) := by
  have hd : (prep c g).isDir = g.isDir := (prep_entry c g).2
  refine ⟨by rw [he]; exact hd, ?_, ?_⟩
  · intro hf
    rw [he]
    simp [mkNode, hd, hf]
  · intro hdir
    have hl : n.isLeaf = g.subDirs.isEmpty := by
      rw [he]; simp [mkNode, hd, hdir, subDirs_prep c hsort hread g hdir]
    have hs : n.scope = periScope (n.depth + 1) g.subDirs.isEmpty ||| Scope.directory := by
      rw [he]; simp [mkNode, hd, hdir, subDirs_prep c hsort hread g hdir, periDepth]
    rw [hs]
    have hleaf : g.subDirs = [] ↔ g.subDirs.isEmpty = true := by cases g.subDirs <;> simp
    refine ⟨hl, ?_⟩
    have hpd : periDepth (n.depth + 1) = n.depth := by simp [periDepth]
    rw [Ne, hleaf]
    unfold periScope
    rw [hpd]
    have key : ∀ s : Scope, s &&& ~~~(Scope.tree ||| Scope.top ||| Scope.leaf ||| Scope.intermediate ||| Scope.directory) = 0#32 →
        ∀ b, (Scope.tree ||| Scope.top ||| Scope.leaf ||| Scope.intermediate ||| Scope.directory) &&& b = 0#32 →
          ¬ Scope.has s b := by
      intro s hs b hb hh
      apply hh
      apply BitVec.eq_of_getLsbD_eq
      intro i hi
      have h1 := congrArg (fun v => v.getLsbD i) hs
      have h2 := congrArg (fun v => v.getLsbD i) hb
      simp only [BitVec.getLsbD_and, BitVec.getLsbD_not, hi, decide_true, Bool.true_and, BitVec.getLsbD_zero] at h1 h2 ⊢
      generalize (Scope.tree ||| Scope.top ||| Scope.leaf ||| Scope.intermediate ||| Scope.directory).getLsbD i = m at h1 h2
      generalize s.getLsbD i = a at h1 ⊢
      generalize b.getLsbD i = b' at h2 ⊢
      revert h1 h2
      cases m <;> cases a <;> cases b' <;> decide
    cases hle : g.subDirs.isEmpty
    · by_cases h1 : n.depth = 0
      · simp only [h1]
        exact ⟨by decide, by decide, by decide, by decide, by decide, by decide, key _ (by decide)⟩
      · by_cases h2 : n.depth = 1
        · simp only [h2]
          exact ⟨by decide, by decide, by decide, by decide, by decide, by decide, key _ (by decide)⟩
        · simp only [h1, h2, Bool.false_and, beq_iff_eq, if_false, Bool.false_eq_true]
          exact ⟨by decide, by decide, by decide, by decide, by decide, by decide, key _ (by decide)⟩
    · by_cases h1 : n.depth = 0
      · simp only [h1]
        exact ⟨by decide, by decide, by decide, by decide, by decide, by decide, key _ (by decide)⟩
      · by_cases h2 : n.depth = 1
        · simp only [h2]
          exact ⟨by decide, by decide, by decide, by decide, by decide, by decide, key _ (by decide)⟩
        · simp only [h1, h2, Bool.true_and, beq_iff_eq, if_false, if_true]
          exact ⟨by decide, by decide, by decide, by decide, by decide, by decide, key _ (by decide)⟩

/-- **C24** Every node given to the handler carries exactly the scope bits that describe it, for every handler
history, subscription and depth limit. `n.depth` is the number of levels below the root (C06). -/
theorem C24_scope (c : Nav) (env : Env σ) (x : σ) (pre : Path) (fs : FS) (hread : c.read = defaultRead)
    (hsort : SortPermutes c) (n : Node) (hn : n ∈ invoked (walk c env x pre fs).2.log) :
    ∃ g, FS.At pre fs n.path g ∧ n.isDir = g.isDir ∧
      (g.isDir = false → n.scope = Scope.leaf ||| Scope.file ∧ n.isLeaf = false) ∧
      (g.isDir = true → n.isLeaf = g.subDirs.isEmpty ∧
        n.scope.has Scope.directory ∧ ¬ n.scope.has Scope.file ∧
        (n.scope.has Scope.tree ↔ n.depth = 0) ∧
        (n.scope.has Scope.top ↔ n.depth = 1) ∧
        (n.scope.has Scope.leaf ↔ g.subDirs = []) ∧
        (n.scope.has Scope.intermediate ↔ ¬ n.depth = 0 ∧ ¬ n.depth = 1 ∧ g.subDirs ≠ []) ∧
        (∀ b, (Scope.tree ||| Scope.top ||| Scope.leaf ||| Scope.intermediate ||| Scope.directory) &&& b = 0#32 →
          ¬ n.scope.has b)) := by
  obtain ⟨g, ps, hg, he, -, -, -⟩ := delivered_at c env x pre fs hread hsort n hn
  exact ⟨g, hg, scope_bits c hread hsort g ps n he⟩

example : ((invoked (walk (Demo.nav .universal) (Demo.env Demo.quiet) () [] Demo.fs).2.log).map
    (fun n => (n.path, n.scope))).take 4 =
    [(["r"], Scope.tree ||| Scope.directory), (["r", "c"], Scope.top ||| Scope.leaf ||| Scope.directory),
     (["r", "c", "w"], Scope.leaf ||| Scope.file), (["r", "a"], Scope.top ||| Scope.directory)] := by decide +kernel

/-- **C54** A node below the root is delivered with the error of obtaining its entry information, the root
without (it is stat'ed instead). -/
theorem C54_error_on_node (c : Nav) (env : Env σ) (x : σ) (pre : Path) (fs : FS) (hread : c.read = defaultRead)
    (hsort : SortPermutes c) (n : Node) (hn : n ∈ invoked (walk c env x pre fs).2.log) :
    (n.depth = 0 → n.infoErr = none) ∧
    (0 < n.depth → ∃ g, FS.At pre fs n.path g ∧ n.infoErr = g.infoErr) := by
  obtain ⟨g, ps, hg, he, h0, h1, h2⟩ := delivered_at c env x pre fs hread hsort n hn
  constructor
  · intro h
    rw [he, h1 h]; simp [mkNode]
  · intro h
    refine ⟨g, hg, ?_⟩
    rw [he]
    simp only [mkNode, prep_entry_eq]
    cases ps with
    | nil => exact absurd rfl (h2 h)
    | cons => simp

/-- **C54** Nothing else changes: with handlers that do not look at those errors, the whole history (handler calls,
skip handler calls, life cycle events, rescue) and the result are, up to those errors, those of the same file
system without failing entries. -/
theorem C54_nothing_else (c : Nav) (env : Env σ) (x : σ) (pre : Path) (fs : FS)
    (hread : c.read = defaultRead) (hsort : SortByNames c) (hblind : InfoBlind env) :
    (walk c env x pre fs.informed).1 = (walk c env x pre fs).1 ∧
    (walk c env x pre fs.informed).2.ext = (walk c env x pre fs).2.ext ∧
    (walk c env x pre fs.informed).2.log = (walk c env x pre fs).2.log.map Ev.noInfoErr := by
  have hB : infoBlur.Blind env := ⟨hblind.invoke, hblind.ask, hblind.rescue⟩
  have h := Blur.traverse_blur hB c (by simp [infoBlur]) (prep c fs) (by simp [infoBlur]) [] pre (St.fresh x)
  have h0 : infoBlur.st (St.fresh x) = St.fresh x := rfl
  rw [← prep_informed c hsort hread fs, h0, List.map_nil] at h
  simp only [walk, h]
  refine ⟨trivial, rfl, ?_⟩
  simp only [Blur.st]
  apply List.map_congr_left
  intro ev _
  cases ev <;> rfl

def Demo.fsNoInfo : FS :=
  .dir "r" none none [.dir "a" (some (.code 5)) none [.file "x" (some (.code 6)) none], .file "f" none none]

example : InfoBlind (Demo.env Demo.quiet) ∧ SortByNames (Demo.nav .universal) ∧
    (invoked (walk (Demo.nav .universal) (Demo.env Demo.quiet) () [] Demo.fsNoInfo).2.log).map (fun n => (n.path, n.infoErr)) =
    [(["r"], none), (["r", "a"], some (.code 5)), (["r", "a", "x"], some (.code 6)), (["r", "f"], none)] := by
  refine ⟨⟨fun _ _ => rfl, fun _ _ _ => rfl, fun _ _ _ => rfl⟩, ?_, by decide +kernel⟩
  intro ps _
  exact ⟨ps.reverse, List.reverse_perm ps, by simp [Demo.nav], by simp [Demo.nav]⟩

end Traverse
