import Verif.Props.Visit
import Verif.Model.Cascade
/-
C05, C06: depth limit and reported depth.
-/
namespace Traverse
variable {σ τ : Type}

mutual
/-- The file system cut off below depth `n`: directories at depth `n` keep the information about their
contents (`Tree.files`, `Tree.dirs`, on which leaf status, scope and Children depend), nothing below them is
navigated. -/
def cutAt : Nat → Tree → Tree
  | 0, .node e re fs ds _ => .node e re fs ds []
  | n + 1, .node e re fs ds kids => .node e re fs ds (cutAtL n kids)
def cutAtL : Nat → List Tree → List Tree
  | _, [] => []
  | n, t :: ts => cutAt n t :: cutAtL n ts
end

theorem cutAtL_map (n : Nat) (ts : List Tree) : cutAtL n ts = ts.map (cutAt n) := by
  induction ts with
  | nil => simp [cutAtL]
  | cons t ts ih => simp [cutAtL, ih]

theorem cutAt_eq (t : Tree) : ∀ n, cutAt n t = t.cut n := by
  induction t using Tree.ind with
  | h e re fs ds kids ih =>
    intro n
    cases n with
    | zero => simp [cutAt, Tree.cut]
    | succ n => simp only [cutAt, Tree.cut, cutAtL_map]; rw [List.map_congr_left (fun k hk => ih k hk n)]

/-- **C05** (any handler) A traversal limited to depth `n` is, call by call and result by result, the unlimited
traversal of the tree cut off below depth `n`. -/
theorem C05_depth_limit (c : Nav) (env : Env σ) (x : σ) (pre : Path) (fs : FS) (n : Nat) (hn : 0 < n) :
    walk { c with maxDepth := n } env x pre fs =
      (let r := traverse { c with maxDepth := 0 } env [] pre (cutAt n (prep c fs)) (St.fresh x)
       (r.1.final, r.2)) := by
  simp only [walk]
  rw [prep_limit, cutAt_eq, traverse_cut c env n hn (prep c fs) [] pre (St.fresh x) n (by simp [St.fresh])]

/-- **C05** (accepting handler) Exactly the nodes at depth at most `n` are delivered, in the same order and with
the same data. -/
theorem C05_depth_limit_nodes (c : Nav) (env : Env σ) (x : σ) (env' : Env τ) (x' : τ) (pre : Path) (fs : FS)
    (n : Nat) (hn : 0 < n) (hsort : SortPermutes c) (hread : ReadSelects c) (hdistinct : fs.Distinct)
    (hfiles : c.sub = .files → c.read = defaultRead)
    (hnil : AlwaysNil env) (hskip : DefaultSkip env) (hnil' : AlwaysNil env') (hskip' : DefaultSkip env') :
    invoked (walk { c with maxDepth := n } env x pre fs).2.log =
      (invoked (walk { c with maxDepth := 0 } env' x' pre fs).2.log).filter (fun m => decide (m.depth ≤ (n : Int))) ∧
    (walk { c with maxDepth := n } env x pre fs).1 = .done none := by
  obtain ⟨h1, h2⟩ := walk_accepting { c with maxDepth := n } env x pre fs hsort hread hnil hskip hdistinct
    hfiles
  obtain ⟨h3, h4⟩ := walk_accepting { c with maxDepth := 0 } env' x' pre fs hsort hread hnil' hskip' hdistinct
    hfiles
  refine ⟨?_, h2⟩
  rw [h1, h3, prep_limit c n fs, prep_limit c 0 fs, items_limit c n hn]
  simp only [List.filter_map, List.filter_filter]
  congr 1
  apply List.filter_congr
  intro i _
  simp [Bool.and_comm]

/-- For every handler, nothing deeper than the limit is delivered. -/
theorem C05_nothing_deeper (c : Nav) (env : Env σ) (x : σ) (pre : Path) (fs : FS) (hn : 0 < c.maxDepth) :
    ∀ m ∈ invoked (walk c env x pre fs).2.log, m.path.length ≤ pre.length + 1 + c.maxDepth := by
  intro m hm
  have hsubl := (walk_run c env x pre fs).sublist
  rw [invoked_acts] at hsubl
  obtain ⟨it, hit, rfl⟩ := List.mem_map.1 (hsubl.subset hm)
  have h2 := (items_path c _ [] pre 0 it hit).2
  have hc : c = { c with maxDepth := c.maxDepth } := rfl
  have hit' : it ∈ items { c with maxDepth := c.maxDepth } [] pre 0 (prep c fs) := hit
  rw [items_limit c c.maxDepth hn] at hit'
  have := (List.mem_filter.1 hit').2
  simp at this
  omega

/-- **C05** n = 0 means no limit; WithNoRecurse behaves as WithDepth(1), in whatever order the settings are
given. -/
theorem C05_settings (c : Nav) (k : Cascade) (n : Nat) :
    c.withCascade (withNoRecurse k) = c.withCascade (withDepth 1 { k with noRecurse := false }) ∧
    c.withCascade (withNoRecurse (withDepth n k)) = c.withCascade (withDepth n (withNoRecurse k)) ∧
    (k.noRecurse = false → c.withCascade (withDepth n k) = { c with maxDepth := n }) ∧
    (∀ d : Int, c.maxDepth = 0 → tooDeep c d = false) := by
  refine ⟨?_, ?_, ?_, ?_⟩
  · simp [Nav.withCascade, withNoRecurse, withDepth, Cascade.afterwards]
  · simp [Nav.withCascade, withNoRecurse, withDepth, Cascade.afterwards]
  · intro h; simp [Nav.withCascade, withDepth, Cascade.afterwards, h]
  · intro d h; simp [tooDeep, h]

/-- The kernel model's test agrees with the machine integer one below 2^63 … -/
theorem C05_machine_integers (c : Nav) (d : Int) (hmax : c.maxDepth < 2 ^ 63) :
    periscopeDescend (BitVec.ofNat 64 c.maxDepth) d = !tooDeep c d := by
  have h1 : (BitVec.ofNat 64 c.maxDepth).toNat = c.maxDepth := by
    simp [BitVec.toNat_ofNat]; omega
  have h2 : (BitVec.ofNat 64 c.maxDepth).toInt = c.maxDepth := by
    rw [BitVec.toInt_eq_toNat_cond, h1]; split <;> omega
  simp [periscopeDescend, tooDeep, h1, h2]

/-- … and beyond that it refuses even the root: WithDepth(math.MaxUint) visits nothing. -/
theorem C05_huge_limit_visits_nothing : periscopeDescend (BitVec.allOnes 64) 0 = false := by decide

/-- **C06** Every node reports its true distance from the root, whatever the handler, skip handler and panic
handler answered before. -/
theorem C06_depth (c : Nav) (env : Env σ) (x : σ) (pre : Path) (fs : FS) :
    ∀ m ∈ invoked (walk c env x pre fs).2.log,
      (pre ++ [fs.name]) <+: m.path ∧ m.path.length = pre.length + 1 + m.depth := by
  intro m hm
  have hsubl := (walk_run c env x pre fs).sublist
  rw [invoked_acts] at hsubl
  obtain ⟨it, hit, rfl⟩ := List.mem_map.1 (hsubl.subset hm)
  obtain ⟨h1, h2⟩ := items_path c _ [] pre 0 it hit
  rw [(prep_entry c fs).1] at h1
  exact ⟨h1, by omega⟩

example : ((invoked (walk { Demo.nav .universal with maxDepth := 2 } (Demo.env Demo.quiet) () [] Demo.fs).2.log).map
    (fun n => (n.path, n.depth))) = [(["r"], 0), (["r", "c"], 1), (["r", "c", "w"], 2), (["r", "a"], 1),
      (["r", "a", "b"], 2), (["r", "a", "x"], 2), (["r", "g"], 1), (["r", "f"], 1)] := by decide +kernel

end Traverse
