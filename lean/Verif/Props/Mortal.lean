import Verif.Proofs.Mortal
import Verif.Demo.Demo
/-
C67: panics of any callback (handler, OnDescend and OnAscend listeners, hooks, skip handler, panic handler) are contained.
-/
namespace Traverse
variable {σ : Type}

/-- **C67** When only the handler panics, sessions are those of all the other properties: same result, same calls, same
state and depth counter. -/
theorem C67_conservative (c : Nav) (env : Env σ) (x : σ) (pre : Path) (fs : FS) :
    (walkM c env.mortal x pre fs).1 = (walk c env x pre fs).1 ∧
    (walkM c env.mortal x pre fs).2.log = (walk c env x pre fs).2.log.map Ev.call ∧
    (walkM c env.mortal x pre fs).2.ext = (walk c env x pre fs).2.ext ∧
    (walkM c env.mortal x pre fs).2.depth = (walk c env x pre fs).2.depth := by
  obtain ⟨h1, h2⟩ := traverseM_mortal c env (prep c fs) [] pre (St.fresh x) { depth := 0, ext := x, log := [] } ⟨rfl, rfl, rfl⟩
  exact ⟨congrArg Out.final h1, h2.log, h2.ext.symm, h2.depth.symm⟩

/-- Everything about one session. -/
theorem walkM_sim (c : Nav) (M : Mortal σ) (x : σ) (pre : Path) (fs : FS) :
    (∀ k ∈ (walkM c M x pre fs).2.log, pre ++ [fs.name] <+: k.path) ∧
    ((CalmLog (walkM c M x pre fs).2.log ∧ (walkM c M x pre fs).1 = (walk c M.live x pre fs).1 ∧ (walkM c M x pre fs).1 ≠ .panic ∧
        Match (walk c M.live x pre fs).2 (walkM c M x pre fs).2) ∨
     ∃ l₁ k l₂ o, (walkM c M x pre fs).2.log = l₁ ++ k :: l₂ ∧ (walkM c M x pre fs).1 = o.final ∧
        Wreck (pre.length + 1) 0 o (walkM c M x pre fs).2.depth l₁ k l₂ ∧ l₁ <+: (walk c M.live x pre fs).2.log.map Ev.call) := by
  obtain ⟨l, hl, hp, hcase⟩ := traverseM_sim M.live_extends M.live_watched c (prep c fs) [] pre (St.fresh x) { depth := 0, ext := x, log := [] } ⟨rfl, rfl, rfl⟩
  have hlog : (walkM c M x pre fs).2.log = l := by simpa [walkM] using hl
  have hname : (prep c fs).name = fs.name := (prep_entry c fs).1
  rw [hname] at hp
  rw [hlog]
  refine ⟨hp, ?_⟩
  rcases hcase with ⟨a1, a2, a3, a4⟩ | ⟨l₁, k, l₂, rfl, hw, hlog'⟩
  · refine .inl ⟨a1, congrArg Out.final a2, ?_, a4⟩
    intro h
    simp only [walkM] at h
    generalize (traverseM c M [] pre (prep c fs) { depth := 0, ext := x, log := [] }).1 = o at h a3
    cases o with
    | ret => simp [Out.final] at h
    | panic => exact a3 rfl
  · exact .inr ⟨l₁, k, l₂, _, rfl, rfl, hw, by have := hlog'.1; rw [List.nil_append] at this; exact this⟩

/-- **C67** Until some callback panics nothing is different: the calls made before the first panic are, in order and with
their answers, those of the session in which that callback would have answered; and if no callback panics at all the two
sessions are the same. -/
theorem C67_prefix (c : Nav) (M : Mortal σ) (x : σ) (pre : Path) (fs : FS) (l₁ l₂ : List Call) (h : Unhurt l₁)
    (hlog : (walkM c M x pre fs).2.log = l₁ ++ l₂) :
    l₁ <+: (walk c M.live x pre fs).2.log.map Ev.call ∧
    (Unhurt l₂ → (walkM c M x pre fs).1 = (walk c M.live x pre fs).1 ∧
      (walkM c M x pre fs).2.log = (walk c M.live x pre fs).2.log.map Ev.call) := by
  obtain ⟨-, h1 | ⟨m₁, k, m₂, o, h2, h3, hw, hpre⟩⟩ := walkM_sim c M x pre fs
  · obtain ⟨-, b, -, d⟩ := h1
    refine ⟨?_, fun _ => ⟨b, d.log⟩⟩
    rw [← d.log, hlog]
    exact List.prefix_append _ _
  · have hle : l₁ <+: m₁ := by
      rw [hlog] at h2
      rcases List.append_eq_append_iff.1 h2 with ⟨a, ha, hb⟩ | ⟨a, ha, hb⟩
      · exact ⟨a, ha.symm⟩
      · rcases a with _ | ⟨b, a⟩
        · exact ⟨[], by simpa using ha⟩
        · simp only [List.cons_append, List.cons.injEq] at hb
          have : k ∈ l₁ := by rw [ha, hb.1]; simp
          have := h k this
          rw [hw.dies] at this
          cases this
    refine ⟨hle.trans hpre, ?_⟩
    intro hu
    have : k ∈ l₁ ++ l₂ := by rw [← hlog, h2]; simp
    have : k.dies = false := (h.append hu) k this
    rw [hw.dies] at this
    cases this

/-- **C67** After the first panic of a callback the handler is not called any more, no directory is entered and the skip
handler is not asked: only Ascend listeners and the panic handler are called, and for the node itself or directories above it. -/
theorem C67_first_panic (c : Nav) (M : Mortal σ) (x : σ) (pre : Path) (fs : FS) (l₁ : List Call) (k : Call) (l₂ : List Call)
    (hlog : (walkM c M x pre fs).2.log = l₁ ++ k :: l₂) (hk : k.dies = true) :
    ∀ j ∈ l₂, (∃ p d b, j = .ascend p d b) ∨ ∃ cur d a, j = .rescue cur d a := by
  have win : ∀ j : Call, j.winding = true → (∃ p d b, j = .ascend p d b) ∨ ∃ cur d a, j = .rescue cur d a := by
    intro j hj
    cases j with
    | ascend p d b => exact .inl ⟨p, d, b, rfl⟩
    | rescue n d a => exact .inr ⟨n, d, a, rfl⟩
    | _ => simp [Call.winding] at hj
  obtain ⟨-, ⟨h1, -⟩ | ⟨m₁, k', m₂, o, h2, h3, hw, hpre⟩⟩ := walkM_sim c M x pre fs
  · have := h1.unhurt k (by rw [hlog]; simp)
    rw [hk] at this; cases this
  · intro j hj
    apply win
    apply hw.after
    rw [hlog] at h2
    rcases List.append_eq_append_iff.1 h2 with ⟨a, ha, hb⟩ | ⟨a, ha, hb⟩
    · rcases a with _ | ⟨b, a⟩
      · simp only [List.nil_append, List.cons.injEq] at hb
        rw [← hb.2]; exact hj
      · simp only [List.cons_append, List.cons.injEq] at hb
        have : k ∈ m₁ := by rw [ha, hb.1]; simp
        have := hw.before.unhurt k this
        rw [hk] at this; cases this
    · rcases a with _ | ⟨b, a⟩
      · simp only [List.nil_append, List.cons.injEq] at hb
        rw [hb.2]; exact hj
      · simp only [List.cons_append, List.cons.injEq] at hb
        rw [hb.2]; simp [hj]

/-- **C67** Navigate lets a panic out exactly when a callback panicked that was called for the root itself: its handler
call, its skip handler call, one of its hooks or listeners, or the panic handler called for a panic from directly inside the root. -/
theorem C67_escapes_iff (c : Nav) (M : Mortal σ) (x : σ) (pre : Path) (fs : FS) :
    (walkM c M x pre fs).1 = .panic ↔ ∃ k ∈ (walkM c M x pre fs).2.log, k.dies = true ∧ k.path = pre ++ [fs.name] := by
  obtain ⟨hp, h1 | ⟨m₁, k, m₂, o, h2, h3, hw, -⟩⟩ := walkM_sim c M x pre fs
  · constructor
    · intro h; exact absurd h h1.2.2.1
    · rintro ⟨k, hk, hd, -⟩
      have := h1.1.unhurt k hk
      rw [hd] at this; cases this
  · have hof : (walkM c M x pre fs).1 = .panic ↔ o = .panic := by
      rw [h3]; cases o <;> simp [Out.final]
    rw [hof, hw.panic]
    constructor
    · rintro ⟨j, hj, hd, hlen⟩
      have hj' : j ∈ (walkM c M x pre fs).2.log := by rw [h2]; exact List.mem_append_right _ hj
      refine ⟨j, hj', hd, ((hp j hj').eq_of_length ?_).symm⟩
      rw [hlen]; simp
    · rintro ⟨j, hj, hd, hpath⟩
      rw [h2] at hj
      rcases List.mem_append.1 hj with hj | hj
      · have := hw.before.unhurt j hj
        rw [hd] at this; cases this
      · exact ⟨j, hj, hd, by rw [hpath]; simp⟩

/-- **C67** When a callback panicked and the panic did not leave Navigate, Navigate returns the error that tells what
became of the state: the answer of the panic handler's last call. -/
theorem C67_result (c : Nav) (M : Mortal σ) (x : σ) (pre : Path) (fs : FS)
    (hd : ∃ k ∈ (walkM c M x pre fs).2.log, k.dies = true) (hn : (walkM c M x pre fs).1 ≠ .panic) :
    ∃ r, (answers (walkM c M x pre fs).2.log).getLast? = some (some r) ∧ (walkM c M x pre fs).1 = .done (some r.err) := by
  obtain ⟨-, h1 | ⟨m₁, k, m₂, o, h2, h3, hw, -⟩⟩ := walkM_sim c M x pre fs
  · obtain ⟨k, hk, hd⟩ := hd
    have := h1.1.unhurt k hk
    rw [hd] at this; cases this
  · have ho : o ≠ .panic := by
      rintro rfl; exact hn h3
    obtain ⟨pr, r, hor, hans⟩ := hw.result ho
    subst hor
    refine ⟨r, ?_, h3⟩
    have hk : ∀ l, answers (k :: l) = answers [k] ++ answers l := fun l => answers_append [k] l
    rw [h2, answers_append, hk, ← List.append_assoc, List.getLast?_append, hans]
    rfl

/-- **C67** Whatever panics, each Descend call that returned has its Ascend call and they are nested. A Descend call that
panicked has none. -/
theorem C67_balanced (c : Nav) (M : Mortal σ) (x : σ) (pre : Path) (fs : FS) : Nested (marks (walkM c M x pre fs).2.log) := by
  obtain ⟨l, h1, h2⟩ := traverseM_nested c M (prep c fs) [] pre { depth := 0, ext := x, log := [] }
  have : (walkM c M x pre fs).2.log = l := by simpa [walkM] using h1
  rw [this]; exact h2

/-- **C67** The panic handler is called at most as often as callbacks have panicked; one panic, one save. -/
theorem C67_saves (c : Nav) (M : Mortal σ) (x : σ) (pre : Path) (fs : FS) :
    (answers (walkM c M x pre fs).2.log).length ≤ (walkM c M x pre fs).2.log.countP Call.dies := by
  obtain ⟨-, h1 | ⟨m₁, k, m₂, o, h2, h3, hw, -⟩⟩ := walkM_sim c M x pre fs
  · rw [h1.1.still]; simp
  · have hk : ∀ l, answers (k :: l) = answers [k] ++ answers l := fun l => answers_append [k] l
    rw [h2, answers_append, hk, hw.before.still, hw.kind, List.countP_append]
    have := hw.count
    simp only [List.nil_append]
    omega

/-- **C67** (partial) The depth counter is back at its start and the panic handler is told the depth of the directory being
travelled, unless it was a Descend listener that panicked first: then both are one too large. The full property, without
"unless", is false: `C67_descend_leaks`. -/
theorem C67_depth_partial (c : Nav) (M : Mortal σ) (x : σ) (pre : Path) (fs : FS)
    (h : ∀ p d, Call.descend p d true ∉ (walkM c M x pre fs).2.log) :
    (walkM c M x pre fs).2.depth = 0 ∧
    ∀ cur d a, Call.rescue cur d a ∈ (walkM c M x pre fs).2.log → d = cur.depth := by
  obtain ⟨-, h1 | ⟨m₁, k, m₂, o, h2, h3, hw, -⟩⟩ := walkM_sim c M x pre fs
  · refine ⟨?_, ?_⟩
    · rw [← h1.2.2.2.depth]
      exact traverse_depth c M.live [] pre (prep c fs) (St.fresh x)
    · intro cur d a hm
      have : a ∈ answers (walkM c M x pre fs).2.log := by
        simp only [answers, List.mem_filterMap]; exact ⟨_, hm, rfl⟩
      rw [h1.1.still] at this; cases this
  · have hk0 : k.isDescend = 0 := by
      have hd := hw.dies
      cases k with
      | descend p d b =>
        cases b with
        | true => exact absurd (by rw [h2]; simp) (h p d)
        | false => cases hd
      | _ => rfl
    refine ⟨by rw [hw.leak, hk0]; rfl, ?_⟩
    intro cur d a hm
    have mem : ∀ l, Call.rescue cur d a ∈ l → a ∈ answers l := fun l hl => by
      simp only [answers, List.mem_filterMap]; exact ⟨_, hl, rfl⟩
    rw [h2, List.mem_append, List.mem_cons] at hm
    rcases hm with hm | hm | hm
    · have := mem _ hm
      rw [hw.before.still] at this; cases this
    · have := mem [k] (by simp [hm])
      rw [hw.kind] at this; cases this
    · have := hw.deep cur d a hm
      rw [hk0] at this
      simpa using this

/-- The other half: after a Descend listener's panic the counter stays one too large and so are the depths told to the
panic handler. -/
theorem C67_depth_leak (c : Nav) (M : Mortal σ) (x : σ) (pre : Path) (fs : FS) (p : Path) (d : Bool)
    (h : Call.descend p d true ∈ (walkM c M x pre fs).2.log) :
    (walkM c M x pre fs).2.depth = 1 ∧
    ∀ cur d a, Call.rescue cur d a ∈ (walkM c M x pre fs).2.log → d = cur.depth + 1 := by
  obtain ⟨-, h1 | ⟨m₁, k, m₂, o, h2, h3, hw, -⟩⟩ := walkM_sim c M x pre fs
  · have := h1.1.unhurt _ h
    cases this
  · have hk1 : k.isDescend = 1 := by
      rw [h2, List.mem_append, List.mem_cons] at h
      rcases h with h | h | h
      · have := hw.before.unhurt _ h
        cases this
      · rw [← h]; rfl
      · have := hw.after _ h
        cases this
    refine ⟨by rw [hw.leak, hk1]; rfl, ?_⟩
    intro cur d a hm
    have mem : ∀ l, Call.rescue cur d a ∈ l → a ∈ answers l := fun l hl => by
      simp only [answers, List.mem_filterMap]; exact ⟨_, hl, rfl⟩
    rw [h2, List.mem_append, List.mem_cons] at hm
    rcases hm with hm | hm | hm
    · have := mem _ hm
      rw [hw.before.still] at this; cases this
    · have := mem [k] (by simp [hm])
      rw [hw.kind] at this; cases this
    · have := hw.deep cur d a hm
      rw [hk1] at this
      simpa using this

/-! ### Examples -/

namespace Demo

/-- Listeners, hooks, skip handler and panic handler that panic for chosen paths; the panic handler counts its calls. -/
def mortal (down up ask rescue : List Path) (answer : Path → Reply) (hooks : List Path := []) : Mortal Nat where
  descend x p _ := (x, decide (p ∈ down))
  ascend x p _ := (x, decide (p ∈ up))
  hooks _ p _ := decide (p ∈ hooks)
  invoke x n := (x, answer n.path)
  ask x n _ := (x, if n.path ∈ ask then Option.none else some (.none, Option.none))
  rescue x n _ := (x + 1, if n.path ∈ rescue then Option.none else some (.saved "dest"))

/-- What is left of a session to look at: result, counter, handler calls, calls of the panic handler (path, depth). -/
def seen (r : Final × MSt Nat) : Final × Int × List Path × List (Path × Int) :=
  (r.1, r.2.depth, r.2.log.filterMap (fun | .invoke n _ => some n.path | _ => Option.none),
    r.2.log.filterMap (fun | .rescue n d _ => some (n.path, d) | _ => Option.none))

/-- The Descend listener panics at r/a/b: the state is saved with depth 2, although r/a lies at depth 1. -/
example : seen (walkM (nav .universal) (mortal [["r", "a", "b"]] [] [] [] quiet) 0 [] fs) =
    (.done (some (.saved "dest")), 1, [["r"], ["r", "c"], ["r", "c", "w"], ["r", "a"]], [(["r", "a"], 2)]) := by decide +kernel

/-- The Ascend listener panics for r/c/w and again for r/c: a state is saved for each. -/
example : seen (walkM (nav .universal) (mortal [] [["r", "c", "w"], ["r", "c"]] [] [] quiet) 0 [] fs) =
    (.done (some (.saved "dest")), 0, [["r"], ["r", "c"], ["r", "c", "w"]],
      [(["r", "c"], 1), (["r"], 0)]) := by decide +kernel

/-- The skip handler panics at r/c; the panic handler panics as well, which leaves Navigate. -/
example : seen (walkM (nav .universal) (mortal [] [] [["r", "c"]] [["r"]] quiet) 0 [] fs) =
    (.panic, 0, [["r"], ["r", "c"]], [(["r"], 0)]) := by decide +kernel

/-- A hook panics while r/a is inspected: no handler call for r/a, the state is saved for r. -/
example : seen (walkM (nav .universal) (mortal [] [] [] [] quiet [["r", "a"]]) 0 [] fs) =
    (.done (some (.saved "dest")), 0, [["r"], ["r", "c"], ["r", "c", "w"]], [(["r"], 0)]) := by decide +kernel

/-- A hook panics while the root is inspected: nothing is saved and the panic leaves Navigate. -/
example : seen (walkM (nav .universal) (mortal [] [] [] [] quiet [["r"]]) 0 [] fs) =
    (.panic, 0, [], []) := by decide +kernel

/-- A panic handler that panics once is called again for the directory above. -/
example : seen (walkM (nav .universal) (mortal [] [] [] [["r", "a", "b"]] (at_ ["r", "a", "b", "y"] .panic)) 0 [] fs) =
    (.done (some (.saved "dest")), 0,
      [["r"], ["r", "c"], ["r", "c", "w"], ["r", "a"], ["r", "a", "b"], ["r", "a", "b", "z"], ["r", "a", "b", "y"]], [(["r", "a", "b"], 2), (["r", "a"], 1)]) := by decide +kernel

end Demo

/-- The unrestricted depth property is false: a Descend listener's panic. -/
theorem C67_descend_leaks :
    ¬ ∀ (c : Nav) (M : Mortal Nat) (x : Nat) (pre : Path) (fs : FS),
      ∀ cur d a, Call.rescue cur d a ∈ (walkM c M x pre fs).2.log → d = cur.depth := by
  intro h
  have := h (Demo.nav .universal) (Demo.mortal [["r", "a", "b"]] [] [] [] Demo.quiet) 0 [] Demo.fs
  have hall : ((walkM (Demo.nav .universal) (Demo.mortal [["r", "a", "b"]] [] [] [] Demo.quiet) 0 [] Demo.fs).2.log.all
      fun | .rescue n d _ => decide (d = n.depth) | _ => true) = true := by
    rw [List.all_eq_true]
    intro k hk
    cases k with
    | rescue n d a => simpa using this n d a hk
    | _ => rfl
  revert hall
  decide +kernel

end Traverse
