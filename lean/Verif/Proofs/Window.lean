import Verif.Proofs.Chain2
namespace Traverse
variable {κ : Type}

/-! ### Nodes as the navigator makes them -/

/-- What mkNode guarantees. -/
structure GoodNode (c : Nav) (n : Node) : Prop where
  cargo : n.cargo = none → hasCargo c.sub n.isDir = false
  tree : n.scope &&& Scope.tree ≠ 0#32 → n.isDir = true

theorem mkNode_good (c : Nav) (ps path t d) : GoodNode c (mkNode c ps path t d) := by
  constructor
  · intro h
    simp only [mkNode] at h ⊢
    split at h
    · cases h
    · rename_i h2; exact Bool.eq_false_iff.2 h2
  · intro h
    simp only [mkNode] at h ⊢
    cases hd : t.isDir
    · rw [hd] at h
      simp [Scope.leaf, Scope.file, Scope.tree] at h
    · rfl

/-! ### Hibernation -/

/-- One step of the hibernation state machine: new state, and whether the node passes. -/
def hibStep (h : HiberOpts) (st : Hib) (n : Node) : Hib × Bool :=
  match st with
  | .pending => if h.wake n then (.active, h.inclusiveWake) else (.pending, false)
  | .active => if h.sleep n then (.retired, h.inclusiveSleep) else (.active, true)
  | st => (st, false)

/-- The event of a step. -/
def hibNote (h : HiberOpts) (st : Hib) (n : Node) : List Obs :=
  match st with
  | .pending => if h.wake n then [.note .wake] else []
  | .active => if h.sleep n then [.note .sleep] else []
  | _ => []

def hibRun (h : HiberOpts) : Hib → List Node → Hib × List Node
  | st, [] => (st, [])
  | st, n :: l =>
    let r := hibStep h st n
    let q := hibRun h r.1 l
    (q.1, (if r.2 then [n] else []) ++ q.2)

def hibTape (h : HiberOpts) (acc : Node → Bool) : Hib → List Node → List Obs
  | _, [] => []
  | st, n :: l =>
    hibNote h st n ++ (if (hibStep h st n).2 && acc n then [.call n] else []) ++ hibTape h acc (hibStep h st n).1 l

theorem hibRun_append (h : HiberOpts) (l1 l2 : List Node) : ∀ st, hibRun h st (l1 ++ l2) =
    ((hibRun h (hibRun h st l1).1 l2).1, (hibRun h st l1).2 ++ (hibRun h (hibRun h st l1).1 l2).2) := by
  induction l1 with
  | nil => intro st; rfl
  | cons n l1 ih => intro st; simp [hibRun, ih]

theorem hibTape_append (h : HiberOpts) (acc) (l1 l2 : List Node) : ∀ st, hibTape h acc st (l1 ++ l2) =
    hibTape h acc st l1 ++ hibTape h acc (hibRun h st l1).1 l2 := by
  induction l1 with
  | nil => intro st; rfl
  | cons n l1 ih => intro st; simp [hibRun, hibTape, ih]

theorem hibRun_retired (h : HiberOpts) (l : List Node) : hibRun h .retired l = (.retired, []) := by
  induction l with
  | nil => rfl
  | cons n l ih => simp [hibRun, hibStep, ih]

theorem hibTape_retired (h : HiberOpts) (acc) (l : List Node) : hibTape h acc .retired l = [] := by
  induction l with
  | nil => rfl
  | cons n l ih => simp [hibTape, hibStep, hibNote, ih]

theorem hibRun_active (h : HiberOpts) (l : List Node) :
    (hibRun h .active l).2 = upTo h.sleepAt h.inclusiveSleep l := by
  induction l with
  | nil => unfold upTo; split <;> simp [hibRun]
  | cons n l ih =>
    unfold upTo at ih ⊢
    rcases hs : h.sleepAt with _ | s
    · rw [hs] at ih
      simp only at ih
      simp [hibRun, hibStep, HiberOpts.sleep, hs, ih]
    · rw [hs] at ih
      simp only at ih
      cases hn : s n
      · simp [hibRun, hibStep, HiberOpts.sleep, hs, hn, ih]
      · simp [hibRun, hibStep, HiberOpts.sleep, hs, hn, hibRun_retired]

theorem hibTape_active (h : HiberOpts) (acc) (l : List Node) : hibTape h acc .active l = tillSleep h acc l := by
  induction l with
  | nil => unfold tillSleep; split <;> simp [hibTape]
  | cons n l ih =>
    unfold tillSleep at ih ⊢
    rcases hs : h.sleepAt with _ | s
    · rw [hs] at ih
      simp only at ih
      cases ha : acc n <;> simp [hibTape, hibStep, hibNote, HiberOpts.sleep, hs, ih, ha]
    · rw [hs] at ih
      simp only at ih
      cases hn : s n
      · cases ha : acc n <;> simp [hibTape, hibStep, hibNote, HiberOpts.sleep, hs, hn, ih, ha]
      · simp [hibTape, hibStep, hibNote, HiberOpts.sleep, hs, hn, hibTape_retired]

theorem hibRun_window (h : HiberOpts) (l : List Node) : (hibRun h h.launch l).2 = window h l := by
  unfold window HiberOpts.launch
  rcases hw : h.wakeAt with _ | w
  · simpa using hibRun_active h l
  · simp only [Option.isSome_some, if_true]
    induction l with
    | nil => simp [hibRun]
    | cons n l ih =>
      cases hn : w n
      · simp [hibRun, hibStep, HiberOpts.wake, hw, hn, ih]
      · simp [hibRun, hibStep, HiberOpts.wake, hw, hn, hibRun_active]

theorem hibTape_window (h : HiberOpts) (acc) (l : List Node) : hibTape h acc h.launch l = windowTape h acc l := by
  unfold windowTape HiberOpts.launch
  rcases hw : h.wakeAt with _ | w
  · simpa using hibTape_active h acc l
  · simp only [Option.isSome_some, if_true]
    induction l with
    | nil => simp [hibTape]
    | cons n l ih =>
      cases hn : w n
      · simp [hibTape, hibStep, hibNote, HiberOpts.wake, hw, hn, ih]
      · simp [hibTape, hibStep, hibNote, HiberOpts.wake, hw, hn, hibTape_active]

theorem hibStep_inactive {h : HiberOpts} (hh : h.active = false) (n) : hibStep h .active n = (.active, true) ∧
    hibNote h .active n = [] := by
  have : h.sleepAt = none := by
    unfold HiberOpts.active at hh; simp at hh; exact hh.2
  simp [hibStep, hibNote, HiberOpts.sleep, this]

/-- The state the machine is thought to be in, also when hibernation is off. -/
def Setup.hibOf (S : Setup) (w : World κ) : Hib := if S.hiber.active then w.hib else .active

theorem Setup.Sane.awake {S : Setup} (hs : S.Sane) (ha : S.hiber.active = true) (s n) : S.hiber.dies s n = false := by
  cases s <;> simp [HiberOpts.dies, hs.trigger ha]

theorem stageH_verdict (S : Setup) (hs : S.Sane) (C : Client κ) (w : World κ) (p) (hu : S.hibOf w ≠ .undefined)
    (hm : w.muted .wake = false ∧ w.muted .sleep = false) :
    S.hibOf (S.stageH C w p).1 = (hibStep S.hiber (S.hibOf w) p.node).1 ∧
    (S.stageH C w p).2.2.goesOn = (hibStep S.hiber (S.hibOf w) p.node).2 ∧
    ((hibStep S.hiber (S.hibOf w) p.node).2 = false → (S.stageH C w p).2.2.reply =
      .ok (if S.hibOf w = .retired then some .skipAll else none)) ∧
    (S.stageH C w p).1.tape = w.tape ++ hibNote S.hiber (S.hibOf w) p.node := by
  unfold Setup.stageH Setup.hibOf at *
  cases ha : S.hiber.active
  · obtain ⟨h1, h2⟩ := hibStep_inactive ha p.node
    simp [h1, h2]
  · simp only [ha, if_true] at hu ⊢
    unfold hiberLink
    rw [hs.awake ha]
    simp only [Bool.false_eq_true, if_false]
    unfold hiberNext hibStep hibNote
    rcases hh : w.hib with _ | _ | _ | _
    · exact absurd hh hu
    · cases hw : S.hiber.wake p.node
      · simp [Turn.goesOn, Turn.reply, hh]
      · cases hi : S.hiber.inclusiveWake <;> simp [Turn.goesOn, Turn.reply, World.publish, Note.ev, hm]
    · cases hw : S.hiber.sleep p.node
      · simp [hh]
      · cases hi : S.hiber.inclusiveSleep <;> simp [Turn.goesOn, Turn.reply, World.publish, Note.ev, hm]
    · simp [Turn.goesOn, Turn.reply, hh]

theorem primary_verdict (S : Setup) (P) (hP : S.filter.primary = some P) (w : World κ) (p)
    (hn : GoodNode S.nav p.node) : (primaryScheme P w p).2.2 = .go (S.accepts p.node) none := by
  unfold primaryScheme Setup.accepts
  rw [hP]
  cases P with
  | node f => rfl
  | sample m =>
    simp only
    by_cases h0 : p.node.scope &&& Scope.tree = 0#32
    · simp [h0]
    · rw [if_neg h0]
      rcases hc : p.node.cargo with _ | ⟨fs, ds⟩
      · exfalso
        have := hn.cargo hc
        rw [hn.tree h0] at this
        unfold hasCargo at this
        split at this <;> cases this
      · simp [h0]

theorem child_verdict (S : Setup) (f) (hc : S.filter.child = some f) (w : World κ) (p) (hn : GoodNode S.nav p.node)
    (hs : S.Sane) : (childScheme S f w p).2.2 = .go true none := by
  unfold childScheme
  rcases hcc : p.node.cargo with _ | ⟨fs, ds⟩
  · exfalso
    have := hn.cargo hcc
    rcases hs.child (by simp [hc]) with h | h <;> rw [h] at this <;> cases this
  · rfl

theorem stageF_verdict (S : Setup) (w : World κ) (p) (hn : GoodNode S.nav p.node) (hs : S.Sane) :
    (S.stageF w p).2.2 = .go (S.accepts p.node) none := by
  unfold Setup.stageF
  cases ha : S.filter.active
  · have : S.filter.primary = none := by
      unfold FilterOpts.active at ha; simp at ha; exact ha.1
    have hacc : S.accepts p.node = true := by simp [Setup.accepts, this]
    rw [hacc]
    simp only [Bool.false_eq_true, if_false]
    split
    · rename_i hnn
      unfold nannyLink
      rcases hcc : p.node.cargo with _ | ⟨fs, ds⟩
      · exfalso
        have := hn.cargo hcc
        have h2 : S.nav.sub = .directoriesWithFiles := by
          unfold Setup.nannyOn at hnn; simp at hnn; exact hnn.1
        rw [h2] at this; cases this
      · rfl
    · rfl
  · simp only [if_true]
    unfold filterLink
    rw [hs.filter]
    simp only [Bool.false_eq_true, if_false]
    unfold schemeLink
    rcases hP : S.filter.primary with _ | P <;> rcases hC : S.filter.child with _ | f <;> simp only
    · simp [FilterOpts.active, hP, hC] at ha
    · have hacc : S.accepts p.node = true := by simp [Setup.accepts, hP]
      rw [hacc]; exact child_verdict S f hC w p hn hs
    · exact primary_verdict S P hP w p hn
    · have h1 := primary_verdict S P hP w p hn
      have h1p := (primaryScheme_counts P w p).2
      rcases e1 : primaryScheme P w p with ⟨w1, p1, t⟩
      rw [e1] at h1 h1p
      simp only at h1 h1p
      subst h1 h1p
      have h2 := child_verdict S f hC w1 p1 hn hs
      rcases e2 : childScheme S f w1 p1 with ⟨w2, p2, t2⟩
      rw [e2] at h2
      simp only at h2
      subst h2
      cases S.accepts p1.node <;> simp [e2]

end Traverse
