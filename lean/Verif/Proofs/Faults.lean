import Verif.Proofs.Nav2
import Verif.Spec.Faults
namespace Traverse
variable {σ : Type}

/-- What is forgotten: entry errors, read errors. -/
structure Blur where
  info : Bool
  read : Bool

namespace Blur
def entry (b : Blur) (e : Entry) : Entry := if b.info then e.noInfoErr else e
def ni (b : Blur) (m : NodeInfo) : NodeInfo := if b.info then m.noInfoErr else m
def node (b : Blur) (n : Node) : Node := if b.info then n.noInfoErr else n
def re (b : Blur) (r : Option Err) : Option Err := if b.read then none else r
def ev (b : Blur) : Ev → Ev
  | .invoke n r => .invoke (b.node n) r
  | .ask n r sk e => .ask (b.node n) (b.re r) sk e
  | .rescue m d r => .rescue (b.ni m) d r
  | e => e
def st (b : Blur) (s : St σ) : St σ := { s with log := s.log.map b.ev }
mutual
def tree (b : Blur) : Tree → Tree
  | .node e r fs ds kids => .node (b.entry e) (b.re r) (fs.map b.entry) (ds.map b.entry) (b.treeL kids)
def treeL (b : Blur) : List Tree → List Tree
  | [] => []
  | t :: ts => b.tree t :: b.treeL ts
end
theorem treeL_map (b : Blur) (ts : List Tree) : b.treeL ts = ts.map b.tree := by
  induction ts with
  | nil => simp [treeL]
  | cons t ts ih => simp [treeL, ih]
@[simp] theorem entry_name (b : Blur) (e : Entry) : (b.entry e).name = e.name := by
  unfold entry; split <;> rfl
@[simp] theorem entry_isDir (b : Blur) (e : Entry) : (b.entry e).isDir = e.isDir := by
  unfold entry; split <;> rfl
theorem tree_entry (b : Blur) (t : Tree) : (b.tree t).entry = b.entry t.entry := by cases t; simp [tree]
theorem tree_name (b : Blur) (t : Tree) : (b.tree t).name = t.name := by simp [Tree.name, tree_entry]
theorem tree_isDir (b : Blur) (t : Tree) : (b.tree t).isDir = t.isDir := by simp [Tree.isDir, tree_entry]
theorem tree_kids (b : Blur) (t : Tree) : (b.tree t).kids = t.kids.map b.tree := by
  cases t; simp [tree, treeL_map]

/-- The world does not see what is forgotten. -/
structure Blind (b : Blur) (env : Env σ) : Prop where
  invoke : ∀ x n, env.invoke x n = env.invoke x (b.node n)
  ask : ∀ x n r, env.ask x n r = env.ask x (b.node n) (b.re r)
  rescue : ∀ x m d, env.rescue x m d = env.rescue x (b.ni m) d

theorem mkNode_blur (b : Blur) (c : Nav) (ps p t d) :
    mkNode c (ps.map b.ni) p (b.tree t) d = b.node (mkNode c ps p t d) := by
  obtain ⟨bi, br⟩ := b
  cases t with
  | node e r fs ds kids =>
    cases bi
    · have h1 : (Blur.ni ⟨false, br⟩) = id := by funext m; rfl
      have h2 : (Blur.entry ⟨false, br⟩) = id := by funext m; rfl
      simp only [h1, List.map_id, tree, h2, node, Bool.false_eq_true, if_false]
      rfl
    · have h1 : (Blur.ni ⟨true, br⟩) = NodeInfo.noInfoErr := by funext m; rfl
      have h2 : (Blur.entry ⟨true, br⟩) = Entry.noInfoErr := by funext m; rfl
      simp only [h1, tree, h2, node, if_true]
      simp only [mkNode, Node.noInfoErr, NodeInfo.noInfoErr, Tree.isDir, Tree.entry_node, Tree.dirs_node,
        Tree.files_node, Entry.noInfoErr, List.isEmpty_map]
      refine Node.mk.injEq .. |>.mpr ⟨?_, rfl, ?_⟩
      · congr 1
        cases ps <;> rfl
      · by_cases hh : hasCargo c.sub e.isDir = true <;> simp [hh]

theorem readErr_blur (b : Blur) (c : Nav) (t : Tree) : readErrOf c (b.tree t) = b.re (readErrOf c t) := by
  cases t with
  | node e r fs ds kids =>
    simp only [readErrOf, tree, Tree.isDir, Tree.entry_node, entry_isDir, Tree.readErr_node, re]
    by_cases h1 : hasCargo c.sub e.isDir = true <;> by_cases h2 : b.read = true <;> simp [h1, h2]

@[simp] theorem st_depth (b : Blur) (s : St σ) : (b.st s).depth = s.depth := rfl
@[simp] theorem st_ext (b : Blur) (s : St σ) : (b.st s).ext = s.ext := rfl

theorem doDescend_blur (b : Blur) (env : Env σ) (p d) (s : St σ) :
    (b.st s).doDescend env p d = b.st (s.doDescend env p d) := by
  simp [St.doDescend, st, ev]
theorem doAscend_blur (b : Blur) (env : Env σ) (p d) (s : St σ) :
    (b.st s).doAscend env p d = b.st (s.doAscend env p d) := by
  simp [St.doAscend, st, ev]
theorem doInvoke_blur {b : Blur} {env : Env σ} (h : b.Blind env) (n) (s : St σ) :
    (b.st s).doInvoke env (b.node n) = ((s.doInvoke env n).1, b.st (s.doInvoke env n).2) := by
  simp [St.doInvoke, st, ev, ← h.invoke]
theorem doAsk_blur {b : Blur} {env : Env σ} (h : b.Blind env) (n r) (s : St σ) :
    (b.st s).doAsk env (b.node n) (b.re r) = ((s.doAsk env n r).1, (s.doAsk env n r).2.1, b.st (s.doAsk env n r).2.2) := by
  simp [St.doAsk, st, ev, ← h.ask]
theorem doRescue_blur {b : Blur} {env : Env σ} (h : b.Blind env) (m) (s : St σ) :
    (b.st s).doRescue env (b.ni m) = ((s.doRescue env m).1, b.st (s.doRescue env m).2) := by
  simp [St.doRescue, st, ev, ← h.rescue]

theorem node_ni (b : Blur) (n : Node) : (b.node n).toNodeInfo = b.ni n.toNodeInfo := by
  unfold node ni; split <;> rfl
theorem node_isDir (b : Blur) (n : Node) : (b.node n).isDir = n.isDir := by
  unfold node; split <;> rfl

/-- `enter` does the same, except that with Files a forgotten read error lets the loop start. -/
theorem enter_blur {b : Blur} {env : Env σ} (h : b.Blind env) (c : Nav) (n r) (s : St σ)
    (hx : ¬ (c.sub = .files ∧ b.read = true ∧ n.isDir = true ∧ r.isSome = true)) :
    enter c env (b.node n) (b.re r) (b.st s) = ((enter c env n r s).1, b.st (enter c env n r s).2) := by
  have hI := doInvoke_blur h n s
  have hA := doAsk_blur h n r s
  have hIA := doAsk_blur h n r (s.doInvoke env n).2
  unfold enter
  rw [node_isDir]
  rcases hi : s.doInvoke env n with ⟨rr, s1⟩
  rw [hi] at hI hIA
  simp only at hI hIA
  rcases ha : s.doAsk env n r with ⟨sk, e, s2⟩
  rw [ha] at hA
  simp only at hA
  rcases hia : s1.doAsk env n r with ⟨sk', e', s2'⟩
  rw [hia] at hIA
  simp only at hIA
  have hr : c.sub = .files → n.isDir = true → (b.re r).isSome = r.isSome := by
    intro h1 h2
    cases hb : b.read with
    | false => simp [re, hb]
    | true =>
      cases hr : r with
      | none => simp [re]
      | some v => exact absurd ⟨h1, hb, h2, by simp [hr]⟩ hx
  cases hsub : c.sub with
  | files =>
    simp only
    cases hd : n.isDir with
    | false =>
      simp only [Bool.not_false, if_true]
      rw [hI]; cases rr <;> rfl
    | true =>
      simp only [Bool.not_true, Bool.false_eq_true, if_false]
      rw [hA, hr hsub hd]
      simp only
      split
      · rfl
      · split <;> rfl
  | _ =>
    simp only
    rw [hI]
    rcases rr with (_ | x) | _
    · simp only
      rw [hIA, hia]
      simp only
      split
      · rfl
      · first
        | rfl
        | (split <;> rfl)
    · rfl
    · rfl

mutual
/-- Unreadable directories have nothing below them. -/
def EmptyBad : Tree → Prop
  | .node _ r _ _ kids => (r.isSome = true → kids = []) ∧ EmptyBadL kids
def EmptyBadL : List Tree → Prop
  | [] => True
  | t :: ts => EmptyBad t ∧ EmptyBadL ts
end
theorem emptyBadL_iff (ts : List Tree) : EmptyBadL ts ↔ ∀ t ∈ ts, EmptyBad t := by
  induction ts with
  | nil => simp [EmptyBadL]
  | cons t ts ih => simp [EmptyBadL, ih]

theorem recoverIn_blur {b : Blur} {env : Env σ} (h : b.Blind env) (m : NodeInfo) (o : Out) (s : St σ) :
    recoverIn env (b.ni m) (o, b.st s) = ((recoverIn env m (o, s)).1, b.st (recoverIn env m (o, s)).2) := by
  cases o with
  | ret p e => rfl
  | panic => simp only [recoverIn]; rw [doRescue_blur h]

theorem travelLoop_blur {b : Blur} {env : Env σ} (c : Nav) (ts : List Tree)
    (ih : ∀ t ∈ ts, ∀ ps pp s, traverse c env (ps.map b.ni) pp (b.tree t) (b.st s) =
      ((traverse c env ps pp t s).1, b.st (traverse c env ps pp t s).2)) :
    ∀ ps pp s, travelLoop c env (ps.map b.ni) pp (ts.map b.tree) (b.st s) =
      ((travelLoop c env ps pp ts s).1, b.st (travelLoop c env ps pp ts s).2) := by
  induction ts with
  | nil => intro ps pp s; simp [travelLoop]
  | cons t ts ihl =>
    intro ps pp s
    have ihl := ihl (fun k hk => ih k (by simp [hk]))
    simp only [List.map_cons, travelLoop]
    rw [ih t (by simp)]
    rcases traverse c env ps pp t s with ⟨o, s1⟩
    simp only
    rcases o with ⟨p, e⟩ | _
    · cases p <;> cases e <;> simp only
      · exact ihl ps pp s1
      · split <;> rfl
      · exact ihl ps pp s1
      · split
        · exact ihl ps pp s1
        · split
          · exact ihl ps pp s1
          · rfl
    · rfl

theorem traverse_blur {b : Blur} {env : Env σ} (h : b.Blind env) (c : Nav)
    (hask : b.read = true → DefaultSkip env) (t : Tree) : (b.read = true → EmptyBad t) →
    ∀ ps pp s, traverse c env (ps.map b.ni) pp (b.tree t) (b.st s) =
      ((traverse c env ps pp t s).1, b.st (traverse c env ps pp t s).2) := by
  induction t using Tree.ind with
  | h e r fs ds kids ih =>
    intro hbad ps pp s
    have hloop := travelLoop_blur (b := b) (env := env) c kids (fun t ht => ih t ht (fun hb =>
      (emptyBadL_iff kids).1 (hbad hb).2 t ht))
    have htree : b.tree (.node e r fs ds kids) = .node (b.entry e) (b.re r) (fs.map b.entry) (ds.map b.entry) (kids.map b.tree) := by
      rw [tree, treeL_map]
    rw [htree]
    simp only [traverse, entry_name, entry_isDir, st_depth]
    split
    · rfl
    · rw [doDescend_blur]
      generalize s.doDescend env (pp ++ [e.name]) e.isDir = s1
      rw [← htree, st_depth, mkNode_blur, readErr_blur]
      generalize hn : mkNode c ps (pp ++ [e.name]) (.node e r fs ds kids) s1.depth = n
      have hnd : n.isDir = e.isDir := by rw [← hn]; rfl
      by_cases hx : c.sub = .files ∧ b.read = true ∧ n.isDir = true ∧ (readErrOf c (.node e r fs ds kids)).isSome = true
      · obtain ⟨hsub, hb, hdir, hsome⟩ := hx
        have hkids : kids = [] := by
          apply (hbad hb).1
          simp only [readErrOf] at hsome
          split at hsome
          · exact hsome
          · simp at hsome
        subst hkids
        have hA := doAsk_blur h n (readErrOf c (.node e r fs ds [])) s1
        have hD := hask hb s1.ext n (readErrOf c (.node e r fs ds []))
        have e1 : (s1.doAsk env n (readErrOf c (.node e r fs ds []))).1 = .none := by
          simp only [St.doAsk]; rw [hD]
        have e2 : (s1.doAsk env n (readErrOf c (.node e r fs ds []))).2.1 = none := by
          simp only [St.doAsk]; rw [hD]
        rcases ha : s1.doAsk env n (readErrOf c (.node e r fs ds [])) with ⟨sk, ee, s2⟩
        rw [ha] at hA e1 e2
        simp only at hA e1 e2
        subst e1 e2
        have hre0 : b.re (readErrOf c (.node e r fs ds [])) = none := by simp [re, hb]
        have hl : enter c env (b.node n) (b.re (readErrOf c (.node e r fs ds []))) (b.st s1) = (.travel, b.st s2) := by
          simp only [enter, hsub, node_isDir, hdir, Bool.not_true, Bool.false_eq_true, if_false, hA]
          rw [hre0]; rfl
        have hr : enter c env n (readErrOf c (.node e r fs ds [])) s1 = (.done (.ret true none), s2) := by
          simp only [enter, hsub, hdir, Bool.not_true, Bool.false_eq_true, if_false, ha, hsome]
          rfl
        rw [hl, hr]
        simp only [List.map_nil, travelLoop, recoverIn, doAscend_blur]
      · rw [enter_blur h c n _ s1 hx]
        rcases enter c env n (readErrOf c (.node e r fs ds kids)) s1 with ⟨a, s2⟩
        cases a with
        | done o => simp only [doAscend_blur]
        | travel =>
          simp only
          have hl := hloop (n.toNodeInfo :: ps) (pp ++ [e.name]) s2
          rw [List.map_cons] at hl
          rw [node_ni, hl]
          generalize travelLoop c env (n.toNodeInfo :: ps) (pp ++ [e.name]) kids s2 = L
          obtain ⟨o, s3⟩ := L
          rw [recoverIn_blur h, doAscend_blur]

end Blur

/-! ### The faulty file system, prepared -/

theorem emptiedL_map (l : List FS) : FS.emptiedL l = l.map FS.emptied := by
  induction l with
  | nil => simp [FS.emptiedL]
  | cons t ts ih => simp [FS.emptiedL, ih]
theorem mendedL_map (l : List FS) : FS.mendedL l = l.map FS.mended := by
  induction l with
  | nil => simp [FS.mendedL]
  | cons t ts ih => simp [FS.mendedL, ih]
theorem informedL_map (l : List FS) : FS.informedL l = l.map FS.informed := by
  induction l with
  | nil => simp [FS.informedL]
  | cons t ts ih => simp [FS.informedL, ih]

theorem sort_map_names {c : Nav} (h : SortByNames c) (g : Tree → Tree)
    (hg : ∀ t, (g t).name = t.name ∧ (g t).isDir = t.isDir) (l : List Tree) :
    c.sort (l.map g) = (c.sort l).map g := by
  obtain ⟨qs, hq, h1, h2⟩ := h (l.map fun t => (t, g t)) (by
    intro p hp; obtain ⟨t, _, rfl⟩ := List.mem_map.1 hp; exact ⟨(hg t).1.symm, (hg t).2.symm⟩)
  simp only [List.map_map] at h1 h2
  have e1 : (Prod.fst ∘ fun t : Tree => (t, g t)) = id := rfl
  have e2 : (Prod.snd ∘ fun t : Tree => (t, g t)) = g := rfl
  rw [e1, List.map_id] at h1
  rw [e2] at h2
  rw [h1, h2, List.map_map]
  apply List.map_congr_left
  intro q hqm
  obtain ⟨t, _, rfl⟩ := List.mem_map.1 (hq.mem_iff.1 hqm)
  rfl

theorem sort_map_entries {c : Nav} (h : SortByEntries c) (g : Tree → Tree) (hg : ∀ t, (g t).entry = t.entry)
    (l : List Tree) : c.sort (l.map g) = (c.sort l).map g := by
  obtain ⟨qs, hq, h1, h2⟩ := h (l.map fun t => (t, g t)) (by
    intro p hp; obtain ⟨t, _, rfl⟩ := List.mem_map.1 hp; exact (hg t).symm)
  simp only [List.map_map] at h1 h2
  have e1 : (Prod.fst ∘ fun t : Tree => (t, g t)) = id := rfl
  have e2 : (Prod.snd ∘ fun t : Tree => (t, g t)) = g := rfl
  rw [e1, List.map_id] at h1
  rw [e2] at h2
  rw [h1, h2, List.map_map]
  apply List.map_congr_left
  intro q hqm
  obtain ⟨t, _, rfl⟩ := List.mem_map.1 (hq.mem_iff.1 hqm)
  rfl

/-- Arranging commutes with a map on trees that the hooks do not notice. -/
theorem arrange_map (c : Nav) (b : Blur) (hsort : ∀ l, c.sort (l.map b.tree) = (c.sort l).map b.tree)
    (e : Entry) (r r' : Option Err) (raw raw' : List Tree)
    (hread : c.read raw' r' = (((c.read raw r).1).map b.tree, b.re (c.read raw r).2)) :
    arrange c (b.entry e) r' raw' = b.tree (arrange c e r raw) := by
  have hf : ∀ l : List Tree, (l.map b.tree).filter (fun t => !t.isDir) = (l.filter (fun t => !t.isDir)).map b.tree := by
    intro l; rw [List.filter_map]; congr 1; apply List.filter_congr; intro t _; simp [Blur.tree_isDir]
  have hd : ∀ l : List Tree, (l.map b.tree).filter (fun t => t.isDir) = (l.filter (fun t => t.isDir)).map b.tree := by
    intro l; rw [List.filter_map]; congr 1; apply List.filter_congr; intro t _; simp [Blur.tree_isDir]
  have he : ∀ l : List Tree, (l.map b.tree).map Tree.entry = (l.map Tree.entry).map b.entry := by
    intro l; rw [List.map_map, List.map_map]; apply List.map_congr_left; intro t _; simp [Blur.tree_entry]
  simp only [arrange, hread, hf, hd, hsort, he]
  cases c.sub <;> simp only [Blur.tree, Blur.treeL_map] <;> split <;> simp only [List.map_append]

def readBlur : Blur := ⟨false, true⟩
def infoBlur : Blur := ⟨true, false⟩

theorem readBlur_entry (e : Entry) : readBlur.entry e = e := rfl

theorem sort_nil {c : Nav} (hsort : SortByEntries c) : c.sort [] = [] := by
  obtain ⟨qs, hq, h1, _⟩ := hsort [] (by simp)
  have : qs = [] := List.perm_nil.1 hq
  subst this; simpa using h1

theorem prep_emptied (c : Nav) (hsort : SortByEntries c) (hread : c.read = defaultRead) (f : FS) :
    prep c f.emptied = readBlur.tree (prep c f) := by
  have hs := sort_map_entries hsort readBlur.tree (fun t => by rw [Blur.tree_entry]; rfl)
  induction f using FS.ind with
  | hf n ie re => simp [FS.emptied, prep, Blur.tree, Blur.treeL, Blur.re, readBlur, Blur.entry]
  | hd n ie re kids ih =>
    cases re with
    | some x =>
      simp only [FS.emptied, Option.isSome_some, if_true]
      rw [prep_dir, prep_dir]
      have := arrange_map c readBlur hs ⟨n, true, ie⟩ (some x) none (kids.map (prep c)) (([] : List FS).map (prep c))
        (by rw [hread]; simp [defaultRead, Blur.re, readBlur])
      exact this
    | none =>
      simp only [FS.emptied, Option.isSome_none, Bool.false_eq_true, if_false, emptiedL_map]
      rw [prep_dir, prep_dir]
      have hm : (kids.map FS.emptied).map (prep c) = (kids.map (prep c)).map readBlur.tree := by
        rw [List.map_map, List.map_map]; apply List.map_congr_left; intro k hk; exact ih k hk
      have := arrange_map c readBlur hs ⟨n, true, ie⟩ none none (kids.map (prep c)) ((kids.map FS.emptied).map (prep c))
        (by
          rw [hread, hm]
          simp only [defaultRead, Blur.re, readBlur, if_true, Prod.mk.injEq, and_true]
          rw [List.filter_map]; congr 1; apply List.filter_congr; intro t _; simp [Blur.tree_name])
      exact this

theorem prep_informed (c : Nav) (hsort : SortByNames c) (hread : c.read = defaultRead) (f : FS) :
    prep c f.informed = infoBlur.tree (prep c f) := by
  have hs := sort_map_names hsort infoBlur.tree (fun t => ⟨Blur.tree_name _ _, Blur.tree_isDir _ _⟩)
  induction f using FS.ind with
  | hf n ie re => simp [FS.informed, prep, Blur.tree, Blur.treeL, Blur.re, infoBlur, Blur.entry, Entry.noInfoErr]
  | hd n ie re kids ih =>
    simp only [FS.informed, informedL_map]
    rw [prep_dir, prep_dir]
    have hm : (kids.map FS.informed).map (prep c) = (kids.map (prep c)).map infoBlur.tree := by
      rw [List.map_map, List.map_map]; apply List.map_congr_left; intro k hk; exact ih k hk
    have := arrange_map c infoBlur hs ⟨n, true, ie⟩ re re (kids.map (prep c)) ((kids.map FS.informed).map (prep c))
      (by
        rw [hread, hm]
        cases re with
        | some x => simp [defaultRead, Blur.re, infoBlur]
        | none =>
          simp only [defaultRead, Blur.re, infoBlur, Prod.mk.injEq]
          refine ⟨?_, rfl⟩
          rw [List.filter_map]; congr 1; apply List.filter_congr; intro t _; simp [Blur.tree_name])
    exact this

theorem emptyBad_prep (c : Nav) (hsort : SortByEntries c) (hread : c.read = defaultRead) (f : FS) :
    Blur.EmptyBad (prep c f) := by
  induction f using FS.ind with
  | hf n ie re => simp [prep, Blur.EmptyBad, Blur.EmptyBadL]
  | hd n ie re kids ih =>
    have hperm : ∀ l, (c.sort l).Perm l := by
      intro l
      obtain ⟨qs, hq, h1, _⟩ := hsort (l.map fun t => (t, t)) (by
        intro p hp; obtain ⟨t, _, rfl⟩ := List.mem_map.1 hp; rfl)
      have hq' := hq.map Prod.fst
      rw [← h1] at hq'
      simpa [List.map_map, Function.comp_def] using hq'
    rw [prep_dir]
    cases re with
    | some x =>
      simp only [arrange, hread, defaultRead, List.filter_nil, sort_nil hsort]
      cases c.sub <;> simp [Blur.EmptyBad, Blur.EmptyBadL]
    | none =>
      simp only [arrange, hread, defaultRead]
      have hall : ∀ t ∈ kids.map (prep c), Blur.EmptyBad t := by
        intro t ht; obtain ⟨k, hk, rfl⟩ := List.mem_map.1 ht; exact ih k hk
      have hF : ∀ (p q : Tree → Bool), ∀ t ∈ c.sort (((kids.map (prep c)).filter q).filter p), Blur.EmptyBad t := by
        intro p q t ht
        have := (hperm _).mem_iff.1 ht
        exact hall t (List.mem_filter.1 (List.mem_filter.1 this).1).1
      cases c.sub <;> simp only [Blur.EmptyBad] <;> refine ⟨by simp, (Blur.emptyBadL_iff _).2 ?_⟩ <;> intro t ht
      case directories => exact hF _ _ t ht
      case directoriesWithFiles => exact hF _ _ t ht
      all_goals
        split at ht <;> rcases List.mem_append.1 ht with h | h <;> exact hF _ _ t h

end Traverse
