import Verif.Proofs.SampleCount
import Verif.Props.Nodes
import Verif.Props.Filters
/-
C30 – C32: sampling.
-/
namespace Traverse
variable {σ : Type}

/-! ### C30: the bounds -/

theorem sampled_walk (c : Nav) (env : Env σ) (x : σ) (pre : Path) (fs : FS) (matching) (keep) (q : Quota)
    (hread : c.read = sampledRead matching (some q)) (hm : MatchesAs matching keep) (hdistinct : fs.Distinct) :
    walk c env x pre fs = walk { c with read := defaultRead } env x pre (fs.sampled keep q) := by
  have h := prep_sampled c matching keep q hread hm fs hdistinct
  simp only [walk, h]
  rw [traverse_nav c { c with read := defaultRead } rfl rfl]

/-- **C30** A session with sampling is, in every respect, a session without sampling on the file system in which every
directory holds only its sample: its first (last) `q.files` files and first (last) `q.dirs` directories in the order in
which the file system returned them, all of them if the quota is zero or larger than their number. For every handler. -/
theorem C30_sampling (c : Nav) (env : Env σ) (x : σ) (pre : Path) (fs : FS) (q : Quota)
    (hread : c.read = sampledRead none (some q)) (hdistinct : fs.Distinct) :
    walk c env x pre fs = walk { c with read := defaultRead } env x pre (fs.sampled (fun _ => true) q) :=
  sampled_walk c env x pre fs none (fun _ => true) q hread rfl hdistinct

/-- **C30** In particular at most `q.files` files and `q.dirs` directories directly inside any one directory are given
to the handler, with and without a sample filter. -/
theorem C30_at_most (c : Nav) (env : Env σ) (x : σ) (pre : Path) (fs : FS) (matching) (keep) (q : Quota)
    (hread : c.read = sampledRead matching (some q)) (hm : MatchesAs matching keep)
    (hsort : SortPermutes c) (hdistinct : fs.Distinct) (p : Path) (kind : Bool) (limit : Nat)
    (hlimit : limit = if kind then q.dirs else q.files) (hpos : 0 < limit) :
    ((invoked (walk c env x pre fs).2.log).filter
      (fun n => decide (n.path ≠ pre ++ [fs.name]) && decide (n.path.dropLast = p) && n.isDir == kind)).length ≤ limit := by
  rw [sampled_walk c env x pre fs matching keep q hread hm hdistinct]
  have hsd := sampled_distinct keep q fs hdistinct
  have hname : (fs.sampled keep q).name = fs.name := congrArg Entry.name (sampled_entry keep q fs)
  generalize hc' : ({ c with read := defaultRead } : Nav) = c'
  have hread' : c'.read = defaultRead := by rw [← hc']
  have hsort' : SortPermutes c' := by rw [← hc']; exact hsort
  generalize hL : invoked (walk c' env x pre (fs.sampled keep q)).2.log = L
  have hnodup : (L.map (fun n => n.path)).Nodup := by
    have h1 := (C02_preorder c' env x pre _ hsort' (defaultRead_selects c' hread') hsd).1
    simp only [hL] at h1
    have h2 : (L.map (fun n => n.path)).Pairwise (fun a b => ¬ b <+: a) := List.pairwise_map.2 h1
    exact h2.imp (fun {a b} h (e : a = b) => h (e ▸ List.prefix_refl _))
  -- each of them is an entry of the directory at `p`
  have hin : ∀ n ∈ L.filter (fun n => decide (n.path ≠ pre ++ [fs.name]) && decide (n.path.dropLast = p) && n.isDir == kind),
      ∃ nn ie re kids, FS.At pre (fs.sampled keep q) p (.dir nn ie re kids) ∧ ∃ k ∈ kids, n.path = p ++ [k.name] ∧ k.isDir = kind := by
    intro n hn
    obtain ⟨hnL, hp⟩ := List.mem_filter.1 hn
    simp only [Bool.and_eq_true, decide_eq_true_eq, beq_iff_eq] at hp
    obtain ⟨g, ps, hg, he, _⟩ := delivered_at c' env x pre _ hread' hsort' n (by rw [hL]; exact hnL)
    have hk : n.isDir = g.isDir := by rw [he]; exact (prep_entry c' g).2
    rcases hg.up with ⟨h1, _⟩ | ⟨p', nn, ie, re, kids, h1, h2, h3⟩
    · rw [hname] at h1; exact absurd h1 hp.1.1
    · have : p' = p := by rw [← hp.1.2, h3, List.dropLast_concat]
      subst this
      exact ⟨nn, ie, re, kids, h1, g, h2, h3, by rw [← hk]; exact hp.2⟩
  generalize hN : L.filter (fun n => decide (n.path ≠ pre ++ [fs.name]) && decide (n.path.dropLast = p) && n.isDir == kind) = N at hin
  have hNd : (N.map (fun n => n.path)).Nodup := by
    rw [← hN]; exact hnodup.sublist ((List.filter_sublist).map _)
  cases N with
  | nil => simp
  | cons a N =>
    obtain ⟨nn, ie, re, kids, hat, _⟩ := hin a (by simp)
    obtain ⟨K, hK⟩ := sampled_at keep q hat fs rfl nn ie re kids rfl
    have hsub : ∀ y ∈ ((a :: N).map (fun n => n.path)),
        y ∈ (kids.filter (fun k => k.isDir == kind)).map (fun k => p ++ [k.name]) := by
      intro y hy
      obtain ⟨n, hn, rfl⟩ := List.mem_map.1 hy
      obtain ⟨nn', ie', re', kids', hat', k, hk, hnp, hkd⟩ := hin n hn
      have := hat.unique hsd _ hat'
      cases this
      exact List.mem_map.2 ⟨k, List.mem_filter.2 ⟨hk, by simp [hkd]⟩, hnp.symm⟩
    have hle := nodup_subset_length hNd hsub
    rw [List.length_map, List.length_map] at hle
    refine Nat.le_trans hle ?_
    rw [hK]
    have := sampleOf_counts keep q K
    cases kind with
    | false =>
      simp only [beq_false]
      simp only [Bool.false_eq_true, if_false] at hlimit
      rw [hlimit]; exact this.1 (by omega)
    | true =>
      simp only [beq_true]
      simp only [if_true] at hlimit
      rw [hlimit]; exact this.2 (by omega)

/-- A session with sampling on the demo: one file and one directory of each directory, from the front and from the back.
Not vacuous: the hypotheses of C30 hold of it. -/
def Demo.sampledNav (q : Quota) : Nav := { Demo.nav .universal with read := sampledRead none (some q) }
def Demo.sampledRun (c : Nav) (fs : FS) : List Path :=
  (invoked (walk c (Demo.env Demo.quiet) () [] fs).2.log).map fun n => n.path

example : (Demo.sampledNav ⟨1, 1, false⟩).read = sampledRead none (some ⟨1, 1, false⟩) ∧ MatchesAs none (fun _ => true) ∧
    SortPermutes (Demo.sampledNav ⟨1, 1, false⟩) ∧ Demo.fs.Distinct ∧
    Demo.sampledRun (Demo.sampledNav ⟨1, 1, false⟩) Demo.fs =
      [["r"], ["r", "a"], ["r", "a", "b"], ["r", "a", "b", "y"], ["r", "a", "x"], ["r", "f"]] ∧
    Demo.sampledRun (Demo.sampledNav ⟨1, 1, true⟩) Demo.fs = [["r"], ["r", "c"], ["r", "c", "w"], ["r", "g"]] ∧
    Demo.sampledRun (Demo.sampledNav ⟨1, 0, false⟩) Demo.fs =
      [["r"], ["r", "c"], ["r", "c", "w"], ["r", "a"], ["r", "a", "b"], ["r", "a", "b", "y"], ["r", "a", "x"], ["r", "f"]] ∧
    (Demo.sampledRun (Demo.sampledNav ⟨9, 9, true⟩) Demo.fs).length = 10 := by
  refine ⟨rfl, rfl, fun l => List.reverse_perm l, Demo.distinct, ?_, ?_, ?_, ?_⟩ <;> decide +kernel

/-! ### C31: the sample filter -/

/-- The entries that satisfy a sample filter: entries of a kind in the filter's scope are to match the pattern (or not to,
if it is negated), entries of the other kind pass. No kind at all in the scope stands for both. -/
def SampleDef.keeps (E : Engine) (d : SampleDef) (e : Entry) : Bool :=
  let wanted := if d.type = .glob then E.glob d.pattern e.name else E.regex d.pattern e.name
  let anyKind := !d.scope.names false && !d.scope.names true
  if anyKind || d.scope.names e.isDir then wanted != d.negate else true

theorem isFile_names (s : Scope) : s.isFile = s.names false := by
  simp only [Scope.isFile, Scope.file, Scope.names]
  rw [show (16#32 : BitVec 32) = BitVec.twoPow 32 4 by decide, BitVec.and_twoPow]
  simp only [Bool.false_eq_true, if_false]
  generalize s.getLsbD 4 = b
  cases b <;> decide

theorem isDirectory_names (s : Scope) : s.isDirectory = s.names true := by
  simp only [Scope.isDirectory, Scope.directory, Scope.names]
  rw [show (32#32 : BitVec 32) = BitVec.twoPow 32 5 by decide, BitVec.and_twoPow]
  simp only [if_true]
  generalize s.getLsbD 5 = b
  cases b <;> decide

theorem scrub_isFile (s : Scope) : s.scrub.isFile = s.isFile := by
  simp only [Scope.scrub, Scope.isFile, Scope.isDirectory, Scope.set, Scope.file, Scope.directory]
  by_cases h1 : s &&& 16#32 = 0#32 <;> by_cases h2 : s &&& 32#32 = 0#32 <;> simp [h1, h2]

theorem scrub_isDirectory (s : Scope) : s.scrub.isDirectory = s.isDirectory := by
  simp only [Scope.scrub, Scope.isFile, Scope.isDirectory, Scope.set, Scope.file, Scope.directory]
  by_cases h1 : s &&& 16#32 = 0#32 <;> by_cases h2 : s &&& 32#32 = 0#32 <;> simp [h1, h2]

/-- The filters that NewSample makes of a regex or glob definition. -/
theorem newSample_native (E : Engine) (d : SampleDef) (f n : Nat) (m : List Entry → List Entry)
    (ht : d.type = .glob ∨ d.type = .regex) (h : newSample E (some d) f n = .ok (some m)) :
    m = sampleMatching E (decide (d.type = .glob)) (FBase.validate ⟨d.pattern, d.scope.scrub, d.negate, false⟩) ∧
      (d.scope.isFile = true → 0 < f) ∧ (d.scope.isDirectory = true → 0 < n) := by
  simp only [newSample, scrub_isFile, scrub_isDirectory] at h
  split at h
  · cases h
  · rename_i h1
    split at h
    · cases h
    · rename_i h2
      refine ⟨?_, ?_, ?_⟩
      · rcases ht with ht | ht <;> simp only [ht] at h ⊢
        · cases h; rfl
        · split at h
          · cases h; rfl
          · cases h
      · intro hf; simp [hf] at h1; omega
      · intro hd; simp [hd] at h2; omega

theorem matchesAs_native (E : Engine) (d : SampleDef) (f n : Nat) (m : List Entry → List Entry)
    (ht : d.type = .glob ∨ d.type = .regex) (h : newSample E (some d) f n = .ok (some m))
    (hone : d.scope.names false ≠ d.scope.names true) : MatchesAs (some m) (d.keeps E) := by
  obtain ⟨rfl, _, _⟩ := newSample_native E d f n m ht h
  rw [← isFile_names, ← isDirectory_names] at hone
  have hsc : d.scope.scrub ≠ Scope.undefined := by
    intro h0
    have h1 := scrub_isFile d.scope
    have h2 := scrub_isDirectory d.scope
    rw [h0] at h1 h2
    apply hone
    rw [← h1, ← h2]; rfl
  have hval : FBase.validate ⟨d.pattern, d.scope.scrub, d.negate, false⟩ = ⟨d.pattern, d.scope.scrub, d.negate, false⟩ := by
    simp only [FBase.validate, if_neg hsc]
  rw [hval]
  refine ⟨?_, ?_⟩
  · simp only [sampleMatching, sampleFetch]
    cases d.scope.scrub.isDirectory <;> cases d.scope.scrub.isFile <;> rfl
  · intro l hn b
    have hw : ∀ t : Tree, FBase.invert ⟨d.pattern, d.scope.scrub, d.negate, false⟩
        (if decide (d.type = .glob) = true then E.glob d.pattern t.name else E.regex d.pattern t.name) =
        ((if d.type = .glob then E.glob d.pattern t.name else E.regex d.pattern t.name) != d.negate) := by
      intro t
      rcases ht with ht | ht <;> simp only [ht, FBase.invert] <;> cases d.negate <;> simp
    cases hd : d.scope.isDirectory with
    | true =>
      have hf : d.scope.isFile = false := by cases h : d.scope.isFile <;> simp_all
      rw [sampleMatching_dir E _ _ (by rw [scrub_isDirectory]; exact hd) l hn]
      have := kinds_filter Tree.isDir (fun t => (if d.type = .glob then E.glob d.pattern t.name else E.regex d.pattern t.name) != d.negate)
        l true b
      simp only [beq_true, Bool.not_true, beq_false] at this
      simp only [hw]
      rw [this]
      congr 1
      apply List.filter_congr
      intro t _
      rw [isFile_names] at hf
      rw [isDirectory_names] at hd
      simp only [SampleDef.keeps, hd, hf, Tree.isDir, Tree.name]
      by_cases he : t.entry.isDir = true <;> simp [he, hd, hf]
    | false =>
      have hf : d.scope.isFile = true := by cases h : d.scope.isFile <;> simp_all
      rw [sampleMatching_file E _ _ (by rw [scrub_isDirectory]; exact hd) (by rw [scrub_isFile]; exact hf) l hn]
      have := kinds_filter Tree.isDir (fun t => (if d.type = .glob then E.glob d.pattern t.name else E.regex d.pattern t.name) != d.negate)
        l false b
      simp only [beq_true, Bool.not_false, beq_false] at this
      simp only [hw]
      rw [this]
      congr 1
      apply List.filter_congr
      intro t _
      rw [isFile_names] at hf
      rw [isDirectory_names] at hd
      simp only [SampleDef.keeps, hd, hf, Tree.isDir, Tree.name]
      by_cases he : t.entry.isDir = true <;> simp [he, hd, hf]

/-- **C31** With a native sample filter for one kind of entry, quotas are filled from the entries that satisfy the filter;
entries of the other kind are not filtered. The full property, for every scope, is this equation for every `d.scope`;
missing are filters for both kinds (`C31_both_kinds`), of which it is false. -/
theorem C31_sample_filter_partial (E : Engine) (d : SampleDef) (c : Nav) (env : Env σ) (x : σ) (pre : Path) (fs : FS) (q : Quota)
    (m : List Entry → List Entry) (ht : d.type = .glob ∨ d.type = .regex)
    (hnew : newSample E (some d) q.files q.dirs = .ok (some m))
    (hone : d.scope.names false ≠ d.scope.names true)
    (hread : c.read = sampledRead (some m) (some q)) (hdistinct : fs.Distinct) :
    walk c env x pre fs = walk { c with read := defaultRead } env x pre (fs.sampled (d.keeps E) q) :=
  sampled_walk c env x pre fs (some m) (d.keeps E) q hread (matchesAs_native E d _ _ m ht hnew hone) hdistinct

/-- Not vacuous: of the files of each directory, the first that is not "f" (a negated glob). -/
example :
    let d : SampleDef := { type := .glob, pattern := "f", scope := Scope.file, negate := true }
    let q : Quota := ⟨1, 0, false⟩
    (match newSample toyEngine (some d) q.files q.dirs with
      | .ok (some m) => Demo.sampledRun { Demo.nav .universal with read := sampledRead (some m) (some q) } Demo.fs
      | _ => []) =
      [["r"], ["r", "c"], ["r", "c", "w"], ["r", "a"], ["r", "a", "b"], ["r", "a", "b", "y"], ["r", "a", "x"], ["r", "g"]] ∧
    d.scope.names false ≠ d.scope.names true := by
  decide +kernel

/-- Any sample filter, the client's own ones included: what it returns for the entries read is what quotas are filled
from, and a filter that returns only entries it was given, each once, keeps a sample a selection of the directory. -/
theorem C31_custom (m : List Entry → List Entry) (q : Quota) (l : List Tree) :
    sampledRead (some m) (some q) l none =
      (let shown := l.filter (fun t => t.name != ".DS_Store")
       let matching := liftMatching m shown
       (portion q.files q.inReverse (matching.filter (fun t => !t.isDir)) ++
        portion q.dirs q.inReverse (matching.filter (fun t => t.isDir)), none)) := by
  rw [sampledRead_eq]; rfl

/-- Which entries a sample filter made with NewCustomSampleFilter judges: the directories if its scope names them, else the files if it
names those, else all. -/
def Scope.judges (s : Scope) (e : Entry) : Bool := if s.names true then e.isDir else if s.names false then !e.isDir else true

theorem matchesAs_own (scope : Scope) (get : Entry → Bool) :
    MatchesAs (some (ownMatching scope get)) (fun e => !scope.judges e || get e) := by
  refine ⟨by simp only [ownMatching, sampleFetch]; cases scope.isDirectory <;> cases scope.isFile <;> rfl, fun l hn b => ?_⟩
  have e1 : (l.map Tree.entry).filter (fun e => !e.isDir) = (l.filter (fun t => !t.isDir)).map Tree.entry := by
    rw [List.filter_map]; rfl
  have e2 : (l.map Tree.entry).filter (fun e => e.isDir) = (l.filter (fun t => t.isDir)).map Tree.entry := by
    rw [List.filter_map]; rfl
  have hlift : liftMatching (ownMatching scope get) l =
      if scope.names true then (l.filter (fun t => t.isDir)).filter (fun t => get t.entry) ++ l.filter (fun t => !t.isDir)
      else if scope.names false then (l.filter (fun t => !t.isDir)).filter (fun t => get t.entry) ++ l.filter (fun t => t.isDir)
      else l.filter (fun t => get t.entry) := by
    simp only [liftMatching, ownMatching, sampleFetch, isFile_names, isDirectory_names]
    by_cases hd : scope.names true = true
    · simp only [hd, if_true]
      rw [e1, e2, List.filter_map, ← List.map_append]
      exact lift_entries l hn _ (by
        intro t ht
        rcases List.mem_append.1 ht with ht | ht
        · exact (List.mem_filter.1 (List.mem_filter.1 ht).1).1
        · exact (List.mem_filter.1 ht).1)
    · by_cases hf : scope.names false = true
      · simp only [hd, hf, if_true, Bool.false_eq_true, if_false]
        rw [e1, e2, List.filter_map, ← List.map_append]
        exact lift_entries l hn _ (by
          intro t ht
          rcases List.mem_append.1 ht with ht | ht
          · exact (List.mem_filter.1 (List.mem_filter.1 ht).1).1
          · exact (List.mem_filter.1 ht).1)
      · simp only [hd, hf, Bool.false_eq_true, if_false, List.append_nil]
        rw [List.filter_map]
        exact lift_entries l hn _ (fun t ht => (List.mem_filter.1 ht).1)
  rw [hlift]
  by_cases hd : scope.names true = true
  · have := kinds_filter Tree.isDir (fun t => get t.entry) l true b
    simp only [beq_true, Bool.not_true, beq_false] at this
    rw [if_pos hd, this]
    congr 1
    apply List.filter_congr
    intro t _
    simp only [Scope.judges, hd, if_true, Tree.isDir]
    by_cases he : t.entry.isDir = true <;> simp [he]
  · by_cases hf : scope.names false = true
    · have := kinds_filter Tree.isDir (fun t => get t.entry) l false b
      simp only [beq_true, Bool.not_false, beq_false] at this
      rw [if_neg hd, if_pos hf, this]
      congr 1
      apply List.filter_congr
      intro t _
      simp only [Scope.judges, hd, hf, if_true, Tree.isDir]
      by_cases he : t.entry.isDir = true <;> simp [he]
    · rw [if_neg hd, if_neg hf]
      congr 1
      apply List.filter_congr
      intro t _
      simp [Scope.judges, hd, hf]

/-- **C31** A client's own sample filter, made with NewCustomSampleFilter and calling Matching: quotas are filled from the entries that
satisfy it; entries of a kind outside its scope are not filtered, and nor are files if it names both kinds. -/
theorem C31_own (scope : Scope) (get : Entry → Bool) (c : Nav) (env : Env σ) (x : σ) (pre : Path) (fs : FS) (q : Quota)
    (hread : c.read = sampledRead (some (ownMatching scope get)) (some q)) (hdistinct : fs.Distinct) :
    walk c env x pre fs = walk { c with read := defaultRead } env x pre (fs.sampled (fun e => !scope.judges e || get e) q) :=
  sampled_walk c env x pre fs _ _ q hread (matchesAs_own scope get) hdistinct

/-- Not vacuous: one file of each directory that is not "f", by a filter for files; and by one for everything, which drops the directory
"a" too. -/
example :
    let q : Quota := ⟨1, 0, false⟩
    let run (s : Scope) (drop : List String) := Demo.sampledRun
      { Demo.nav .universal with read := sampledRead (some (ownMatching s (fun e => !drop.contains e.name))) (some q) } Demo.fs
    run Scope.file ["f", "a"] =
      [["r"], ["r", "c"], ["r", "c", "w"], ["r", "a"], ["r", "a", "b"], ["r", "a", "b", "y"], ["r", "a", "x"], ["r", "g"]] ∧
    run 0#32 ["f", "a"] = [["r"], ["r", "c"], ["r", "c", "w"], ["r", "g"]] ∧
    run (Scope.file ||| Scope.directory) ["f", "a"] = [["r"], ["r", "c"], ["r", "c", "w"], ["r", "f"]] := by
  decide +kernel

/-- **C31, where it is false**: a sample filter whose scope names both kinds, or none, filters the directories only: all
files of a directory pass, whatever the pattern. -/
theorem C31_both_kinds (E : Engine) (d : SampleDef) (f n : Nat) (m : List Entry → List Entry)
    (ht : d.type = .glob ∨ d.type = .regex) (h : newSample E (some d) f n = .ok (some m))
    (hboth : d.scope.names false = d.scope.names true) (l : List Entry) :
    (m l).filter (fun e => !e.isDir) = l.filter (fun e => !e.isDir) ∧
    (m l).filter (fun e => e.isDir) = l.filter (fun e => e.isDir &&
      ((if d.type = .glob then E.glob d.pattern e.name else E.regex d.pattern e.name) != d.negate)) := by
  obtain ⟨rfl, _, _⟩ := newSample_native E d f n m ht h
  rw [← isFile_names, ← isDirectory_names] at hboth
  generalize hb : FBase.validate ⟨d.pattern, d.scope.scrub, d.negate, false⟩ = b
  have hdir : b.scope.isDirectory = true := by
    rw [← hb]
    simp only [FBase.validate]
    split
    · show Scope.all.isDirectory = true
      decide
    · rename_i h0
      show d.scope.scrub.isDirectory = true
      rw [scrub_isDirectory]
      cases hd : d.scope.isDirectory with
      | true => rfl
      | false =>
        exfalso; apply h0
        rw [hd] at hboth
        simp [Scope.scrub, hd, hboth, Scope.undefined]
  have hpat : b.pattern = d.pattern ∧ b.negate = d.negate := by
    rw [← hb]; simp only [FBase.validate]; split <;> exact ⟨rfl, rfl⟩
  have hw : ∀ e : Entry, b.invert (if decide (d.type = .glob) = true then E.glob b.pattern e.name else E.regex b.pattern e.name) =
      ((if d.type = .glob then E.glob d.pattern e.name else E.regex d.pattern e.name) != d.negate) := by
    intro e
    rcases ht with ht | ht <;> simp only [ht, FBase.invert, hpat.1, hpat.2] <;> cases d.negate <;> simp
  simp only [sampleMatching, sampleFetch, hdir, if_true, hw]
  have := kinds_filter Entry.isDir
    (fun e => (if d.type = .glob then E.glob d.pattern e.name else E.regex d.pattern e.name) != d.negate) l true
  have h1 := this false
  have h2 := this true
  simp only [beq_true, Bool.not_true, beq_false] at h1 h2
  rw [h1, h2, List.filter_filter, List.filter_filter]
  constructor <;> apply List.filter_congr <;> intro e _ <;> cases e.isDir <;> simp

/-- The property fails: a glob "*.txt" for files and directories lets "b.jpg" through. -/
example :
    let d : SampleDef := { type := .glob, pattern := "*.txt", scope := Scope.file ||| Scope.directory }
    (match newSample toyEngine (some d) 2 2 with
      | .ok (some m) => m [⟨"a.txt", false, none⟩, ⟨"b.jpg", false, none⟩, ⟨"c", true, none⟩]
      | _ => []) = [⟨"a.txt", false, none⟩, ⟨"b.jpg", false, none⟩] ∧
    d.keeps toyEngine ⟨"b.jpg", false, none⟩ = false := by
  decide +kernel

/-! ### C32: read failures -/

/-- The read error of a directory in the file system. -/
def FS.readErr : FS → Option Err
  | .file _ _ re => re
  | .dir _ _ re _ => re

/-- The full property: whenever the skip handler is asked about a directory, it is told the error of reading it. -/
def ReadErrorsReported (c : Nav) (env : Env σ) (x : σ) (pre : Path) (fs : FS) : Prop :=
  ∀ n re sk e, Ev.ask n re sk e ∈ (walk c env x pre fs).2.log → n.isDir = true →
    ∃ g, FS.At pre fs n.path g ∧ re = g.readErr

theorem prep_readErr (c : Nav) (h : ∀ l e, (c.read l e).2 = e) (g : FS) : (prep c g).readErr = g.readErr := by
  cases g with
  | file => rfl
  | dir n ie re kids =>
    rw [prep_dir]
    simp only [arrange, FS.readErr]
    split <;> simp [h]

/-- **C32** Without sampling, with or without a sample filter, the skip handler is told the read errors, for every
handler. With sampling this is false, see below. -/
theorem C32_unsampled_partial (c : Nav) (env : Env σ) (x : σ) (pre : Path) (fs : FS) (matching)
    (hread : c.read = sampledRead matching none) (hsel : ReadSelects c) (hsort : SortPermutes c) :
    ReadErrorsReported c env x pre fs := by
  have hr : ∀ l e, (c.read l e).2 = e := by
    intro l e
    rw [hread]
    cases matching <;> cases e <;>
      simp [sampledRead, readHook, HookCtrl.chain, HookCtrl.new, HookCtrl.tap, HookCtrl.invoke, Effective.run, matchingHook,
        defaultRead]
  intro n re sk e h hd
  obtain ⟨it, hit, hn, hre⟩ := asked_item c env x pre fs n re sk e h
  obtain ⟨u, h1, h2, h3⟩ := items_at_read c _ _ _ _ it hit
  obtain ⟨g, hg, rfl⟩ := h1.prep hsort hsel fs rfl
  refine ⟨g, hn ▸ hg, ?_⟩
  rw [hre, h2, readErrOf, ← h3, ← hn, hd]
  have : hasCargo c.sub true = true := by cases c.sub <;> rfl
  rw [this, if_pos rfl, prep_readErr c hr]

/-- **C32, where it is false**: with sampling, no directory of any file system ever looks unreadable to the skip handler,
whatever the handlers do. -/
theorem C32_sampling_hides (c : Nav) (env : Env σ) (x : σ) (pre : Path) (fs : FS) (matching) (keep) (q : Quota)
    (hread : c.read = sampledRead matching (some q)) (hm : MatchesAs matching keep) (hsort : SortPermutes c)
    (hdistinct : fs.Distinct) (n : Node) (re sk e)
    (h : Ev.ask n re sk e ∈ (walk c env x pre fs).2.log) (hdir : n.isDir = true) : re = none := by
  rw [sampled_walk c env x pre fs matching keep q hread hm hdistinct] at h
  obtain ⟨it, hit, hn, hre⟩ := asked_item _ env x pre _ n re sk e h
  rw [hre]
  exact items0_readErr { c with read := defaultRead } hsort rfl _ (sampled_readable keep q fs) [] pre 0 it hit (hn ▸ hdir)

/-- The property fails: an unreadable directory, sampling on. -/
example : ¬ ReadErrorsReported (Demo.sampledNav ⟨1, 1, false⟩) (Demo.env Demo.quiet) () [] Demo.fsBad := by
  intro h
  obtain ⟨g, hg, he⟩ := h _ none .none none (by decide +kernel :
    Ev.ask ⟨⟨["r", "a"], true, none, 1, true, Scope.top ||| Scope.leaf ||| Scope.directory⟩,
      [⟨["r"], true, none, 0, false, Scope.tree ||| Scope.directory⟩], some ([], [])⟩ none .none none ∈ _) rfl
  have h2 : FS.At [] Demo.fsBad ["r", "a"] (.dir "a" none (some (.code 13)) [.file "x" none none]) :=
    .inside (List.mem_cons_self) (.here ["r"] _)
  have := hg.unique (by simp [Demo.fsBad, FS.Distinct, FS.DistinctL, FS.name]) _ h2
  subst this
  simp [FS.readErr] at he

/-- Not vacuous: without sampling the error is reported in the same session. -/
example : (∃ n, Ev.ask n (some (.code 13)) .none none ∈
      (walk (Demo.nav .universal) (Demo.env Demo.quiet) () [] Demo.fsBad).2.log) ∧
    (Demo.nav .universal).read = sampledRead none none := by
  refine ⟨⟨⟨⟨["r", "a"], true, none, 1, true, Scope.top ||| Scope.leaf ||| Scope.directory⟩,
      [⟨["r"], true, none, 0, false, Scope.tree ||| Scope.directory⟩], some ([], [])⟩, by decide +kernel⟩, rfl⟩

end Traverse
