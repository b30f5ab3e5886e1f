import Verif.Spec.Mortal
import Verif.Proofs.Nav2
import Verif.Proofs.Invariant
namespace Traverse
variable {σ α : Type}

/-- The states agree. -/
structure Match (s : St σ) (q : MSt σ) : Prop where
  depth : s.depth = q.depth
  ext : s.ext = q.ext
  log : q.log = s.log.map Ev.call

@[simp] theorem answers_append (a b : List Call) : answers (a ++ b) = answers a ++ answers b := by simp [answers]
@[simp] theorem marks_append (a b : List Call) : marks (a ++ b) = marks a ++ marks b := by simp [marks]

theorem Unhurt.append {a b : List Call} (ha : Unhurt a) (hb : Unhurt b) : Unhurt (a ++ b) := by
  intro k hk
  rcases List.mem_append.1 hk with h | h
  · exact ha k h
  · exact hb k h

/-- Nothing panicked and the panic handler was not called. -/
structure CalmLog (l : List Call) : Prop where
  unhurt : Unhurt l
  still : answers l = []

theorem CalmLog.append {a b : List Call} (ha : CalmLog a) (hb : CalmLog b) : CalmLog (a ++ b) :=
  ⟨ha.1.append hb.1, by rw [answers_append, ha.2, hb.2]; rfl⟩

theorem CalmLog.nil : CalmLog [] := ⟨fun _ h => (nomatch h), rfl⟩
theorem CalmLog.one {k : Call} (h : k.dies = false) (h' : answers [k] = []) : CalmLog [k] :=
  ⟨by intro j hj; simp only [List.mem_singleton] at hj; subst hj; exact h, h'⟩

/-- How a call of Traverse (or of the travel loop) ends after the call `k` panicked. `n` is the length of the paths of
the nodes at this level, `d` the depth counter before and `d'` after. -/
structure Wreck (n : Nat) (d : Int) (o : Out) (d' : Int) (l₁ : List Call) (k : Call) (l₂ : List Call) : Prop where
  before : CalmLog l₁
  dies : k.dies = true
  kind : answers [k] = []
  after : ∀ j ∈ l₂, j.winding = true
  leak : d' = d + k.isDescend
  deep : ∀ cur dep a, Call.rescue cur dep a ∈ l₂ → dep = cur.depth + k.isDescend
  level : ∀ j ∈ k :: l₂, n ≤ j.path.length
  panic : o = .panic ↔ ∃ j ∈ k :: l₂, j.dies = true ∧ j.path.length = n
  result : o ≠ .panic → ∃ pr r, o = .ret pr (some r.err) ∧ (answers l₂).getLast? = some (some r)
  count : (answers l₂).length + (if o = .panic then 1 else 0) ≤ (k :: l₂).countP Call.dies

theorem Wreck.prepend {n d o d' l₁ k l₂} (h : Wreck n d o d' l₁ k l₂) {a : List Call} (ha : CalmLog a) :
    Wreck n d o d' (a ++ l₁) k l₂ := { h with before := ha.append h.before }

/-- A death at this level, nothing after it yet. -/
theorem Wreck.first {n : Nat} {d : Int} {l₁ : List Call} {k : Call} (hl : CalmLog l₁) (hk : k.dies = true)
    (ha : answers [k] = []) (hn : k.path.length = n) : Wreck n d .panic (d + k.isDescend) l₁ k [] where
  before := hl
  dies := hk
  kind := ha
  after := by simp
  leak := rfl
  deep := by simp
  level := by simp [hn]
  panic := by simp [hk, hn]
  result := by simp
  count := by simp [answers, hk]

theorem Wreck.ascend {n d o d' l₁ k l₂} (h : Wreck n (d + 1) o d' l₁ k l₂) (p : Path) (hp : p.length = n) (isDir b : Bool) :
    Wreck n d (if b then .panic else o) (d' - 1) l₁ k (l₂ ++ [.ascend p isDir b]) where
  before := h.before
  dies := h.dies
  kind := h.kind
  after := by
    intro j hj
    rcases List.mem_append.1 hj with hj | hj
    · exact h.after j hj
    · simp only [List.mem_singleton] at hj; subst hj; rfl
  leak := by have := h.leak; omega
  deep := by
    intro cur dep a hm
    exact h.deep cur dep a (by simpa using hm)
  level := by
    intro j hj
    simp only [List.mem_cons, List.mem_append, List.not_mem_nil, or_false] at hj
    rcases hj with rfl | hj | rfl
    · exact h.level _ (by simp)
    · exact h.level _ (by simp [hj])
    · simp [Call.path, hp]
  panic := by
    cases b with
    | true =>
      simp only [if_true, true_iff]
      exact ⟨.ascend p isDir true, by simp, rfl, hp⟩
    | false =>
      simp only [Bool.false_eq_true, if_false]
      rw [h.panic]
      constructor
      · rintro ⟨j, hj, h1, h2⟩
        exact ⟨j, by simp only [List.mem_cons, List.mem_append] at hj ⊢; rcases hj with hj | hj <;> simp [hj], h1, h2⟩
      · rintro ⟨j, hj, h1, h2⟩
        simp only [List.mem_cons, List.mem_append, List.not_mem_nil, or_false] at hj
        rcases hj with rfl | hj | rfl
        · exact ⟨_, by simp, h1, h2⟩
        · exact ⟨_, by simp [hj], h1, h2⟩
        · simp [Call.dies] at h1
  result := by
    cases b with
    | true => simp
    | false =>
      simp only [Bool.false_eq_true, if_false, answers_append]
      have : answers [Call.ascend p isDir false] = [] := rfl
      rw [this, List.append_nil]
      exact h.result
  count := by
    have hc := h.count
    have : ∀ b, answers [Call.ascend p isDir b] = [] := fun _ => rfl
    rw [answers_append, this, List.append_nil, ← List.cons_append, List.countP_append]
    cases b with
    | false => simp only [Bool.false_eq_true, if_false]; omega
    | true =>
      have h1 : [Call.ascend p isDir true].countP Call.dies = 1 := rfl
      rw [h1]
      simp only [if_true]
      split at hc <;> omega

theorem Wreck.recover {n d o d' l₁ k l₂} (h : Wreck (n + 1) d o d' l₁ k l₂) (M : Mortal σ) (cur : NodeInfo)
    (hp : cur.path.length = n) (hd : cur.depth = periDepth d) (s : MSt σ) (hs : s.depth = d') (base : List Call)
    (hlog : s.log = base ++ (l₁ ++ k :: l₂)) :
    ∃ l₂', (recoverInM M cur (o, s)).2.log = base ++ (l₁ ++ k :: l₂') ∧
      Wreck n d (recoverInM M cur (o, s)).1 (recoverInM M cur (o, s)).2.depth l₁ k l₂' ∧
      (∀ j ∈ l₂', j ∈ l₂ ∨ ∃ a b, j = .rescue cur a b) := by
  cases o with
  | ret pr e =>
    refine ⟨l₂, hlog, ?_, fun j hj => .inl hj⟩
    simp only [recoverInM]
    rw [hs]
    refine { h with level := fun j hj => by have := h.level j hj; omega, panic := ?_ }
    constructor
    · intro hh; cases hh
    · rintro ⟨j, hj, -, h2⟩
      have := h.level j hj; omega
  | panic =>
    rcases hr : M.rescue s.ext cur (periDepth s.depth) with ⟨x, a⟩
    have key : ∀ a, ∀ j ∈ l₂ ++ [Call.rescue cur (periDepth s.depth) a], j ∈ l₂ ∨ ∃ a b, j = .rescue cur a b := by
      intro a j hj
      rcases List.mem_append.1 hj with hj | hj
      · exact .inl hj
      · simp only [List.mem_singleton] at hj; exact .inr ⟨_, _, hj⟩
    have hdeep : periDepth s.depth = cur.depth + k.isDescend := by
      rw [hs, h.leak, hd]; simp only [periDepth]; omega
    have hafter : ∀ a, ∀ j ∈ l₂ ++ [Call.rescue cur (periDepth s.depth) a], j.winding = true := by
      intro a j hj
      rcases key a j hj with hj | ⟨_, _, rfl⟩
      · exact h.after j hj
      · rfl
    have hlevel : ∀ a, ∀ j ∈ k :: (l₂ ++ [Call.rescue cur (periDepth s.depth) a]), n ≤ j.path.length := by
      intro a j hj
      simp only [List.mem_cons, List.mem_append, List.not_mem_nil, or_false] at hj
      rcases hj with rfl | hj | rfl
      · have := h.level j (by simp); omega
      · have := h.level j (by simp [hj]); omega
      · simp [Call.path, hp]
    have hdp : ∀ a, ∀ cur' dep a', Call.rescue cur' dep a' ∈ l₂ ++ [Call.rescue cur (periDepth s.depth) a] →
        dep = cur'.depth + k.isDescend := by
      intro a cur' dep a' hm
      rcases List.mem_append.1 hm with hm | hm
      · exact h.deep _ _ _ hm
      · simp only [List.mem_singleton, Call.rescue.injEq] at hm
        obtain ⟨rfl, rfl, rfl⟩ := hm
        exact hdeep
    cases a with
    | none =>
      refine ⟨l₂ ++ [.rescue cur (periDepth s.depth) none], ?_, ?_, key none⟩
      · simp [recoverInM, MSt.doRescue, hr, hlog]
      · simp only [recoverInM, MSt.doRescue, hr]
        exact
          { before := h.before, dies := h.dies, kind := h.kind, after := hafter _, leak := by rw [hs]; exact h.leak
            deep := hdp _, level := hlevel _
            panic := by simp only [true_iff]; exact ⟨.rescue cur (periDepth s.depth) none, by simp, rfl, hp⟩
            result := by simp
            count := by
              have hc := h.count
              have h1 : answers [Call.rescue cur (periDepth s.depth) none] = [none] := rfl
              have h2 : [Call.rescue cur (periDepth s.depth) none].countP Call.dies = 1 := rfl
              rw [answers_append, ← List.cons_append, List.countP_append, h1, h2, List.length_append]
              simp only [if_true, List.length_singleton] at hc ⊢
              omega }
    | some r =>
      refine ⟨l₂ ++ [.rescue cur (periDepth s.depth) (some r)], ?_, ?_, key _⟩
      · simp [recoverInM, MSt.doRescue, hr, hlog]
      · simp only [recoverInM, MSt.doRescue, hr]
        exact
          { before := h.before, dies := h.dies, kind := h.kind, after := hafter _, leak := by rw [hs]; exact h.leak
            deep := hdp _, level := hlevel _
            panic := by
              constructor
              · intro hh; cases hh
              · rintro ⟨j, hj, h1, h2⟩
                simp only [List.mem_cons, List.mem_append, List.not_mem_nil, or_false] at hj
                rcases hj with rfl | hj | rfl
                · have := h.level j (by simp); omega
                · have := h.level j (by simp [hj]); omega
                · simp [Call.dies] at h1
            result := by
              intro _
              exact ⟨false, r, rfl, by simp [answers]⟩
            count := by
              have hc := h.count
              have h1 : answers [Call.rescue cur (periDepth s.depth) (some r)] = [some r] := rfl
              have h2 : [Call.rescue cur (periDepth s.depth) (some r)].countP Call.dies = 0 := rfl
              rw [answers_append, ← List.cons_append, List.countP_append, h1, h2, List.length_append]
              simp only [if_true, List.length_singleton, reduceCtorEq, if_false] at hc ⊢
              omega }

/-- `E` answers like `M` wherever `M` does not panic. -/
structure Extends (M : Mortal σ) (E : Env σ) : Prop where
  descend : ∀ x p d, (M.descend x p d).2 = false → E.descend x p d = (M.descend x p d).1
  ascend : ∀ x p d, (M.ascend x p d).2 = false → E.ascend x p d = (M.ascend x p d).1
  invoke : ∀ x n, (M.invoke x n).2 ≠ .panic → E.invoke x n = M.invoke x n
  ask : ∀ x n re a, (M.ask x n re).2 = some a → E.ask x n re = ((M.ask x n re).1, a)

/-- A record kept outside, which only grows with `E`, and to which `M` adds nothing when it panics that `E` would not. -/
structure Watched (M : Mortal σ) (E : Env σ) (obs : σ → List α) : Prop where
  ascend : ∀ x p d, obs (M.ascend x p d).1 = obs x
  rescue : ∀ x n d, obs (M.rescue x n d).1 = obs x
  descend : ∀ x p d, (M.descend x p d).2 = true → obs (M.descend x p d).1 = obs x
  ask : ∀ x n re, (M.ask x n re).2 = none → obs (M.ask x n re).1 = obs x
  invoke : ∀ x n, (M.invoke x n).2 = .panic → obs (M.invoke x n).1 <+: obs (E.invoke x n).1
  gDescend : ∀ x p d, obs x <+: obs (E.descend x p d)
  gAscend : ∀ x p d, obs x <+: obs (E.ascend x p d)
  gInvoke : ∀ x n, obs x <+: obs (E.invoke x n).1
  gAsk : ∀ x n re, obs x <+: obs (E.ask x n re).1
  gRescue : ∀ x n d, obs x <+: obs (E.rescue x n d).1

/-- The history and the record have got at least this far. -/
def GotTo (obs : σ → List α) (L : List Call) (O : List α) (s : St σ) : Prop := L <+: s.log.map Ev.call ∧ O <+: obs s.ext

/-- Histories only grow. -/
theorem preserved_prefix {M : Mortal σ} {E : Env σ} {obs : σ → List α} (W : Watched M E obs) (L : List Call) (O : List α) :
    Preserved E (GotTo obs L O) := by
  constructor
  · intro s p d h; exact ⟨h.1.trans (by simp [St.doDescend]), h.2.trans (W.gDescend _ _ _)⟩
  · intro s p d h; exact ⟨h.1.trans (by simp [St.doAscend]), h.2.trans (W.gAscend _ _ _)⟩
  · intro s n h; exact ⟨h.1.trans (by simp [St.doInvoke]), h.2.trans (W.gInvoke _ _)⟩
  · intro s n re h; exact ⟨h.1.trans (by simp [St.doAsk]), h.2.trans (W.gAsk _ _ _)⟩
  · intro s n h; exact ⟨h.1.trans (by simp [St.doRescue]), h.2.trans (W.gRescue _ _ _)⟩

theorem doInvoke_sim {M : Mortal σ} {E : Env σ} {obs : σ → List α} (X : Extends M E) (W : Watched M E obs) (n : Node)
    {s s1 : St σ} {q q1 : MSt σ} {r r' : Reply} (hm : Match s q)
    (hq : q.doInvoke M n = (r, q1)) (hs : s.doInvoke E n = (r', s1)) :
    (r ≠ .panic → r = r' ∧ Match s1 q1) ∧ q1.log = q.log ++ [.invoke n r] ∧ q1.depth = q.depth ∧
      (r = .panic → GotTo obs q.log (obs q1.ext) s1) := by
  obtain ⟨sd, sx, sl⟩ := s
  obtain ⟨qd, qx, ql⟩ := q
  obtain ⟨h1, h2, h3⟩ := hm
  simp only at h1 h2 h3
  subst h1 h2
  simp only [MSt.doInvoke, Prod.mk.injEq] at hq
  simp only [St.doInvoke, Prod.mk.injEq] at hs
  obtain ⟨rfl, rfl⟩ := hq
  obtain ⟨rfl, rfl⟩ := hs
  refine ⟨?_, rfl, rfl, ?_⟩
  · intro h
    rw [X.invoke _ _ h]
    exact ⟨rfl, rfl, rfl, by simp [h3, Ev.call]⟩
  · intro h
    exact ⟨by simp [h3], W.invoke _ _ h⟩

theorem doAsk_sim {M : Mortal σ} {E : Env σ} {obs : σ → List α} (X : Extends M E) (W : Watched M E obs) (n : Node)
    (re : Option Err) {s s1 : St σ} {q q1 : MSt σ} {a sk e} (hm : Match s q)
    (hq : q.doAsk M n re = (a, q1)) (hs : s.doAsk E n re = (sk, e, s1)) :
    (a.isSome = true → a = some (sk, e) ∧ Match s1 q1) ∧ q1.log = q.log ++ [.ask n re a] ∧ q1.depth = q.depth ∧
      (a = none → GotTo obs q.log (obs q1.ext) s1) := by
  obtain ⟨sd, sx, sl⟩ := s
  obtain ⟨qd, qx, ql⟩ := q
  obtain ⟨h1, h2, h3⟩ := hm
  simp only at h1 h2 h3
  subst h1 h2
  simp only [MSt.doAsk, Prod.mk.injEq] at hq
  simp only [St.doAsk, Prod.mk.injEq] at hs
  obtain ⟨rfl, rfl⟩ := hq
  obtain ⟨rfl, rfl, rfl⟩ := hs
  refine ⟨?_, rfl, rfl, ?_⟩
  · intro ha
    obtain ⟨v, hv⟩ := Option.isSome_iff_exists.1 ha
    rw [X.ask _ _ _ _ hv]
    refine ⟨by simp [hv], rfl, rfl, ?_⟩
    simp [h3, Ev.call, hv]
  · intro ha
    exact ⟨by simp [h3], by rw [W.ask _ _ _ ha]; exact W.gAsk _ _ _⟩

/-- How the mortal and the live version of the part before travel compare. -/
def ESim (obs : σ → List α) (q : MSt σ) (p : Path) (a : Act × MSt σ) (b : Act × St σ) : Prop :=
  ∃ l, a.2.log = q.log ++ l ∧ (∀ k ∈ l, k.path = p) ∧ a.2.depth = q.depth ∧
    ((CalmLog l ∧ a.1 = b.1 ∧ a.1 ≠ .done .panic ∧ Match b.2 a.2) ∨
     (∃ l₁ k, l = l₁ ++ [k] ∧ CalmLog l₁ ∧ k.dies = true ∧ answers [k] = [] ∧ k.isDescend = 0 ∧ a.1 = .done .panic ∧
        GotTo obs (q.log ++ l₁) (obs a.2.ext) b.2))

theorem proceedM_sim {M : Mortal σ} {E : Env σ} {obs : σ → List α} (X : Extends M E) (W : Watched M E obs) (c : Nav)
    (n : Node) (re : Option Err) {s : St σ} {q : MSt σ} (hm : Match s q) :
    ESim obs q n.path (proceedM c M n re q) (enter c E n re s) := by
  rcases hI : q.doInvoke M n with ⟨r, q1⟩
  rcases hI' : s.doInvoke E n with ⟨r', s1⟩
  obtain ⟨m1, g1, d1, p1⟩ := doInvoke_sim X W n hm hI hI'
  rcases hA : q.doAsk M n re with ⟨a, q2⟩
  rcases hA' : s.doAsk E n re with ⟨sk, e, s2⟩
  obtain ⟨m2, g2, d2, p2⟩ := doAsk_sim X W n re hm hA hA'
  by_cases hr : r = .panic
  · -- the handler panicked
    subst hr
    have k1 : ∀ b : Act × St σ, GotTo obs q.log (obs q1.ext) b.2 → ESim obs q n.path (.done .panic, q1) b := fun b hb =>
      ⟨_, g1, by simp [Call.path], d1, .inr ⟨[], _, rfl, .nil, rfl, rfl, rfl, rfl, by simpa using hb⟩⟩
    have hpr := preserved_prefix W q.log (obs q1.ext)
    have hfin := p1 rfl
    have hask := hpr.ask s1 n re hfin
    have c2 : a.isSome = true → ∀ o, o ≠ .done .panic → ESim obs q n.path (o, q2) (o, s2) := fun h o ho =>
      ⟨_, g2, by simp [Call.path], d2, .inl ⟨.one (by simpa [Call.dies] using h) rfl, rfl, ho, (m2 h).2⟩⟩
    have k2 : a = none → ∀ o, ESim obs q n.path (.done .panic, q2) (o, s2) := by
      rintro rfl o
      exact ⟨_, g2, by simp [Call.path], d2, .inr ⟨[], _, rfl, .nil, rfl, rfl, rfl, rfl, by simpa using p2 rfl⟩⟩
    have e2 : ∀ v, a = some v → v = (sk, e) := fun v h => by have := (m2 (by simp [h])).1; rw [h] at this; simpa using this
    rcases hB' : s1.doAsk E n re with ⟨sk', e', s3⟩
    rw [hB'] at hask
    unfold proceedM enter
    cases c.sub <;> simp only [hI, hI', hA, hA']
    case files =>
      cases n.isDir with
      | false =>
        simp only [Bool.not_false, if_true]
        rcases r' with (_ | _) | _ <;> exact k1 _ hfin
      | true =>
        simp only [Bool.not_true, Bool.false_eq_true, if_false]
        cases a with
        | none => simp only; repeat' split
                  all_goals exact k2 rfl _
        | some v =>
          cases e2 v rfl
          simp only
          split
          · exact c2 rfl _ (by simp)
          · split
            · exact c2 rfl _ (by simp)
            · exact c2 rfl _ (by simp)
    all_goals
      rcases r' with (_ | _) | _
      · simp only [hB']
        repeat' split
        all_goals exact k1 _ hask
      · exact k1 _ hfin
      · exact k1 _ hfin
  have m1' := m1 hr
  clear m1 p1
  obtain ⟨rfl, m1⟩ := m1'
  rcases hB : q1.doAsk M n re with ⟨b, q3⟩
  rcases hB' : s1.doAsk E n re with ⟨sk', e', s3⟩
  obtain ⟨m3, g3, d3, p3⟩ := doAsk_sim X W n re m1 hB hB'
  have g13 : q3.log = q.log ++ [Call.invoke n r, Call.ask n re b] := by rw [g3, g1]; simp
  have u1 : CalmLog [Call.invoke n r] := .one (by simp [Call.dies, hr]) rfl
  have c1 : ∀ o, o ≠ .panic → ESim obs q n.path (.done o, q1) (.done o, s1) := fun o ho =>
    ⟨_, g1, by simp [Call.path], d1, .inl ⟨u1, rfl, by simpa using ho, m1⟩⟩
  have c2 : a.isSome = true → ∀ o, o ≠ .done .panic → ESim obs q n.path (o, q2) (o, s2) := fun h o ho =>
    ⟨_, g2, by simp [Call.path], d2, .inl ⟨.one (by simpa [Call.dies] using h) rfl, rfl, ho, (m2 h).2⟩⟩
  have k2 : a = none → ∀ o, ESim obs q n.path (.done .panic, q2) (o, s2) := by
    rintro rfl o
    exact ⟨_, g2, by simp [Call.path], d2, .inr ⟨[], _, rfl, .nil, rfl, rfl, rfl, rfl, by simpa using p2 rfl⟩⟩
  have c3 : b.isSome = true → ∀ o, o ≠ .done .panic → ESim obs q n.path (o, q3) (o, s3) := fun hb o ho =>
    ⟨_, g13, by simp [Call.path], d3.trans d1,
      .inl ⟨u1.append (.one (k := Call.ask n re b) (by simpa [Call.dies] using hb) rfl), rfl, ho, (m3 hb).2⟩⟩
  have k3 : b = none → ∀ o, ESim obs q n.path (.done .panic, q3) (o, s3) := by
    rintro rfl o
    exact ⟨_, g13, by simp [Call.path], d3.trans d1, .inr ⟨[_], _, rfl, u1, rfl, rfl, rfl, rfl, by rw [← g1]; exact p3 rfl⟩⟩
  unfold proceedM enter
  have e2 : ∀ v, a = some v → v = (sk, e) := fun v h => by have := (m2 (by simp [h])).1; rw [h] at this; simpa using this
  have e3 : ∀ v, b = some v → v = (sk', e') := fun v h => by have := (m3 (by simp [h])).1; rw [h] at this; simpa using this
  clear m1 m2 m3 g1 g2 g3 g13 p2 p3 d1 d2 d3 hm u1
  cases c.sub <;> simp only [hI, hI', hA, hA']
  case files =>
    cases n.isDir with
    | false =>
      simp only [Bool.not_false, if_true]
      cases r with
      | panic => exact absurd rfl hr
      | ok e => exact c1 _ (by simp)
    | true =>
      simp only [Bool.not_true, Bool.false_eq_true, if_false]
      cases a with
      | none => simp only; repeat' split
                all_goals exact k2 rfl _
      | some v =>
        cases e2 v rfl
        simp only
        split
        · exact c2 rfl _ (by simp)
        · split
          · exact c2 rfl _ (by simp)
          · exact c2 rfl _ (by simp)
  all_goals
    cases r with
    | panic => exact absurd rfl hr
    | ok er =>
      cases er with
      | some er => exact c1 _ (by simp)
      | none =>
        simp only [hB, hB']
        cases b with
        | none => simp only; repeat' split
                  all_goals exact k3 rfl _
        | some v =>
          cases e3 v rfl
          simp only
          repeat' split
          all_goals exact c3 rfl _ (by simp)

theorem enterM_sim {M : Mortal σ} {E : Env σ} {obs : σ → List α} (X : Extends M E) (W : Watched M E obs) (c : Nav)
    (n : Node) (re : Option Err) {s : St σ} {q : MSt σ} (hm : Match s q) :
    ESim obs q n.path (enterM c M n re q) (enter c E n re s) := by
  unfold enterM
  split
  · refine ⟨[.hook n.path n.isDir], rfl, by simp [Call.path], rfl, .inr ⟨[], .hook n.path n.isDir, rfl, .nil, rfl, rfl, rfl, rfl, ?_⟩⟩
    rw [List.append_nil]
    exact enter_inv (preserved_prefix W q.log (obs q.ext)) c n re s ⟨by rw [hm.log]; exact List.prefix_refl _, by rw [hm.ext]; exact List.prefix_refl _⟩
  · exact proceedM_sim X W c n re hm

/-- How the mortal and the live version of Traverse (or of the travel loop) compare: `p` is a prefix of all paths,
`n` the length of paths at this level. -/
def TSim (obs : σ → List α) (q : MSt σ) (p : Path) (n : Nat) (a : Out × MSt σ) (b : Out × St σ) : Prop :=
  ∃ l, a.2.log = q.log ++ l ∧ (∀ k ∈ l, p <+: k.path) ∧
    ((CalmLog l ∧ a.1 = b.1 ∧ a.1 ≠ .panic ∧ Match b.2 a.2) ∨
     (∃ l₁ k l₂, l = l₁ ++ k :: l₂ ∧ Wreck n q.depth a.1 a.2.depth l₁ k l₂ ∧ GotTo obs (q.log ++ l₁) (obs a.2.ext) b.2))

theorem recoverInM_obs {M : Mortal σ} {E : Env σ} {obs : σ → List α} (W : Watched M E obs) (cur : NodeInfo) (r : Out × MSt σ) :
    obs (recoverInM M cur r).2.ext = obs r.2.ext := by
  obtain ⟨o, q⟩ := r
  cases o with
  | ret => rfl
  | panic =>
    have := W.rescue q.ext cur (periDepth q.depth)
    rcases hr : M.rescue q.ext cur (periDepth q.depth) with ⟨x, a⟩
    rw [hr] at this
    cases a <;> simpa only [recoverInM, MSt.doRescue, hr] using this

theorem rescue_plain (r : Rescue) : r.err.isSkipDir = false ∧ r.err.isSkipAll = false := by
  cases r <;> exact ⟨rfl, rfl⟩

theorem travelLoopM_sim {M : Mortal σ} {E : Env σ} {obs : σ → List α} (W : Watched M E obs) (c : Nav) (ts : List Tree)
    (ih : ∀ t ∈ ts, ∀ ps pp (s : St σ) (q : MSt σ), Match s q →
      TSim obs q (pp ++ [t.name]) (pp.length + 1) (traverseM c M ps pp t q) (traverse c E ps pp t s)) :
    ∀ ps pp (s : St σ) (q : MSt σ), Match s q →
      TSim obs q pp (pp.length + 1) (travelLoopM c M ps pp ts q) (travelLoop c E ps pp ts s) := by
  induction ts with
  | nil =>
    intro ps pp s q hm
    exact ⟨[], by simp [travelLoopM], by simp, .inl ⟨.nil, rfl, by simp [travelLoopM], hm⟩⟩
  | cons t ts ihl =>
    intro ps pp s q hm
    have ihl := ihl (fun k hk => ih k (by simp [hk]))
    obtain ⟨l, hl, hp, hcase⟩ := ih t (by simp) ps pp s q hm
    have hpre := preserved_prefix W
    have hdep := traverse_depth c E ps pp t s
    have hgrow : ∀ L O s1, GotTo obs L O s1 → GotTo obs L O (travelLoop c E ps pp ts s1).2 :=
      fun L O s1 h => travelLoop_inv (Inv := GotTo obs L O) c ts
        (fun t _ ps pp s h => traverse_inv (hpre L O) c t ps pp s h) ps pp s1 h
    have hp' : ∀ k ∈ l, pp <+: k.path := fun k hk => (List.prefix_append pp [t.name]).trans (hp k hk)
    rw [travelLoopM, travelLoop]
    rcases hT : traverseM c M ps pp t q with ⟨o, q1⟩
    rcases hT' : traverse c E ps pp t s with ⟨o', s1⟩
    rw [hT] at hl hcase
    rw [hT'] at hcase hdep
    simp only at hl hcase hdep
    rcases hcase with ⟨hu, rfl, hnp, hm1⟩ | ⟨l₁, k, l₂, rfl, hw, hlog⟩
    · -- nothing died
      have stop : ∀ o, o ≠ .panic → TSim obs q pp (pp.length + 1) (o, q1) (o, s1) := fun o ho =>
        ⟨l, hl, hp', .inl ⟨hu, rfl, ho, hm1⟩⟩
      have go : TSim obs q pp (pp.length + 1) (travelLoopM c M ps pp ts q1) (travelLoop c E ps pp ts s1) := by
        obtain ⟨m, g1, g2, g3⟩ := ihl ps pp s1 q1 hm1
        refine ⟨l ++ m, by rw [g1, hl, List.append_assoc], ?_, ?_⟩
        · intro k hk
          rcases List.mem_append.1 hk with hk | hk
          · exact hp' k hk
          · exact g2 k hk
        · rcases g3 with ⟨a1, a2, a3, a4⟩ | ⟨l₁, k, l₂, rfl, hw, hlog⟩
          · exact .inl ⟨hu.append a1, a2, a3, a4⟩
          · refine .inr ⟨l ++ l₁, k, l₂, by simp, ?_, ?_⟩
            · have hd : q1.depth = q.depth := by rw [← hm1.depth, hdep, hm.depth]
              rw [hd] at hw
              exact hw.prepend hu
            · rw [← List.append_assoc, ← hl]; exact hlog
      rcases o with ⟨_ | _, _ | e⟩ | _ <;> simp only
      · exact go
      · split <;> exact stop _ (by simp)
      · exact go
      · split
        · exact go
        · split
          · exact go
          · exact stop _ (by simp)
      · exact absurd rfl hnp
    · -- something died
      have hrest : GotTo obs (q.log ++ l₁) (obs q1.ext) (match (o', s1) with
          | (.panic, s) => (Out.panic, s)
          | (.ret false none, s) => travelLoop c E ps pp ts s
          | (.ret false (some e), s) =>
            if e.isSkipDir then (.ret false (some e), s) else (.ret true (some e), s)
          | (.ret true none, s) => travelLoop c E ps pp ts s
          | (.ret true (some e), s) =>
            if e.isSkipDir then travelLoop c E ps pp ts s
            else if e.isSkipAll then travelLoop c E ps pp ts s
            else (.ret true (some e), s)).2 := by
        rcases o' with ⟨_ | _, _ | e⟩ | _ <;> simp only
        · exact hgrow _ _ _ hlog
        · split <;> exact hlog
        · exact hgrow _ _ _ hlog
        · split
          · exact hgrow _ _ _ hlog
          · split
            · exact hgrow _ _ _ hlog
            · exact hlog
        · exact hlog
      by_cases ho : o = .panic
      · subst ho
        exact ⟨_, hl, hp', .inr ⟨l₁, k, l₂, rfl, hw, hrest⟩⟩
      · obtain ⟨pr, r, rfl, hans⟩ := hw.result ho
        have hw' : Wreck (pp.length + 1) q.depth (.ret true (some r.err)) q1.depth l₁ k l₂ :=
          { hw with
            panic := by
              have := hw.panic
              simp only [reduceCtorEq, false_iff] at this ⊢
              exact this
            result := fun _ => ⟨true, r, rfl, hans⟩
            count := by have := hw.count; simp only [reduceCtorEq, if_false] at this ⊢; exact this }
        cases pr <;> simp only [(rescue_plain r).1, (rescue_plain r).2, Bool.false_eq_true, if_false] <;>
          exact ⟨_, hl, hp', .inr ⟨l₁, k, l₂, rfl, hw', hrest⟩⟩

theorem traverseM_sim {M : Mortal σ} {E : Env σ} {obs : σ → List α} (X : Extends M E) (W : Watched M E obs) (c : Nav) (t : Tree) : ∀ ps pp (s : St σ) (q : MSt σ), Match s q →
    TSim obs q (pp ++ [t.name]) (pp.length + 1) (traverseM c M ps pp t q) (traverse c E ps pp t s) := by
  induction t using Tree.ind with
  | h e re fs ds kids ih =>
    intro ps pp s q hm
    rw [traverseM, traverse]
    have hname : (Tree.node e re fs ds kids).name = e.name := rfl
    rw [hname]
    have hdep := hm.depth
    rw [hdep]
    split
    · exact ⟨[], by simp, by simp, .inl ⟨.nil, rfl, by simp, hm⟩⟩
    · generalize hpath : pp ++ [e.name] = path
      have hplen : path.length = pp.length + 1 := by rw [← hpath]; simp
      rcases hD : M.descend q.ext path e.isDir with ⟨x, b⟩
      have hpre := preserved_prefix W
      cases b with
      | true =>
        simp only [MSt.doDescend, hD]
        refine ⟨[.descend path e.isDir true], rfl, by simp [Call.path], .inr ⟨[], _, [], rfl, ?_, ?_⟩⟩
        · exact Wreck.first (k := .descend path e.isDir true) .nil rfl rfl hplen
        · refine (hpre _ _).ascend _ _ _ ?_
          have h0 : GotTo obs (q.log ++ []) (obs x) (s.doDescend E path e.isDir) := by
            refine ⟨by simp [St.doDescend, hm.log], ?_⟩
            have := W.descend q.ext path e.isDir (by rw [hD])
            rw [hD] at this
            simp only at this
            rw [this, ← hm.ext]
            exact W.gDescend _ _ _
          have h1 := fun n => enter_inv (hpre _ _) c n (readErrOf c (.node e re fs ds kids)) _ h0
          generalize hn : mkNode c ps _ _ _ = n
          have h2 := h1 n
          rcases hE : enter c E n (readErrOf c (.node e re fs ds kids)) _ with ⟨a, s2⟩
          rw [hE] at h2
          cases a with
          | done o => exact h2
          | travel =>
            exact recoverIn_inv (hpre _ _) _ _ (travelLoop_inv (Inv := GotTo obs (q.log ++ []) (obs x)) c kids
              (fun t _ ps pp s h => traverse_inv (hpre _ _) c t ps pp s h) _ _ _ h2)
      | false =>
        have hm1 : Match (s.doDescend E path e.isDir) (q.doDescend M path e.isDir).2 := by
          refine ⟨by simp [St.doDescend, MSt.doDescend, hdep], by simp [St.doDescend, MSt.doDescend, hm.ext, X.descend q.ext path e.isDir (by rw [hD])], ?_⟩
          simp [St.doDescend, MSt.doDescend, hD, hm.log, Ev.call]
        have hdd : q.doDescend M path e.isDir = (false, (q.doDescend M path e.isDir).2) := by
          simp [MSt.doDescend, hD]
        have hq1d : (q.doDescend M path e.isDir).2.depth = q.depth + 1 := rfl
        have hq1l : (q.doDescend M path e.isDir).2.log = q.log ++ [.descend path e.isDir false] := by
          simp [MSt.doDescend, hD]
        rw [hdd]
        simp only
        rw [hm1.depth]
        generalize hq1 : (q.doDescend M path e.isDir).2 = q1 at hm1 hq1d hq1l
        generalize hs1 : s.doDescend E path e.isDir = s1 at hm1
        have hnp : (mkNode c ps path (.node e re fs ds kids) q1.depth).path = path := rfl
        have hnd : (mkNode c ps path (.node e re fs ds kids) q1.depth).depth = periDepth q1.depth := rfl
        generalize hn : mkNode c ps path (.node e re fs ds kids) q1.depth = n at hnp hnd
        generalize hre : readErrOf c (.node e re fs ds kids) = rerr
        have hE := enterM_sim X W c n rerr hm1
        rw [hnp] at hE
        -- what comes before the ascend
        have mid : TSim obs q1 path (pp.length + 1)
            (match enterM c M n rerr q1 with
              | (.done o, s) => (o, s)
              | (.travel, s) => recoverInM M n.toNodeInfo (travelLoopM c M (n.toNodeInfo :: ps) path kids s))
            (match enter c E n rerr s1 with
              | (.done o, s) => (o, s)
              | (.travel, s) => recoverIn E n.toNodeInfo (travelLoop c E (n.toNodeInfo :: ps) path kids s)) := by
          rcases hA : enterM c M n rerr q1 with ⟨a, q2⟩
          rcases hB : enter c E n rerr s1 with ⟨a', s2⟩
          rw [hA, hB] at hE
          obtain ⟨l, hl, hp, hd2, hcase⟩ := hE
          simp only at hl hd2 hcase
          have hp' : ∀ k ∈ l, path <+: k.path := fun k hk => hp k hk ▸ List.prefix_rfl
          rcases hcase with ⟨hu, rfl, hna, hm2⟩ | ⟨l₁, k, rfl, hu, hk, hka, hk0, rfl, hlog⟩
          · cases a with
            | done o => exact ⟨l, hl, hp', .inl ⟨hu, rfl, by simpa using hna, hm2⟩⟩
            | travel =>
              simp only
              obtain ⟨m, g1, g2, g3⟩ := travelLoopM_sim W c kids ih (n.toNodeInfo :: ps) path s2 q2 hm2
              rcases hL : travelLoopM c M (n.toNodeInfo :: ps) path kids q2 with ⟨o, q3⟩
              rcases hL' : travelLoop c E (n.toNodeInfo :: ps) path kids s2 with ⟨o', s3⟩
              rw [hL] at g1 g3
              rw [hL'] at g3
              simp only at g1 g3
              rcases g3 with ⟨a1, rfl, a3, a4⟩ | ⟨l₁, k, l₂, rfl, hw, hlog⟩
              · cases o with
                | panic => exact absurd rfl a3
                | ret pr er =>
                  refine ⟨l ++ m, by simp only [recoverInM]; rw [g1, hl, List.append_assoc], ?_, .inl ⟨hu.append a1, rfl, by simp [recoverInM], a4⟩⟩
                  intro k hk
                  rcases List.mem_append.1 hk with hk | hk
                  · exact hp' k hk
                  · exact g2 k hk
              · rw [hplen] at hw
                obtain ⟨l₂', r1, r2, r3⟩ := hw.recover M n.toNodeInfo (by rw [← hplen]; exact congrArg List.length hnp)
                  (by rw [hd2]; exact hnd) q3 rfl q2.log g1
                refine ⟨l ++ (l₁ ++ k :: l₂'), by rw [r1, hl]; simp, ?_, .inr ⟨l ++ l₁, k, l₂', by simp, ?_, ?_⟩⟩
                · intro j hj
                  simp only [List.mem_append, List.mem_cons] at hj
                  rcases hj with hj | hj | rfl | hj
                  · exact hp' j hj
                  · exact g2 j (by simp [hj])
                  · exact g2 j (by simp)
                  · rcases r3 j hj with hj | ⟨_, _, rfl⟩
                    · exact g2 j (by simp [hj])
                    · have : (n.toNodeInfo).path = path := hnp
                      simp [Call.path, this]
                · rw [← hd2]; exact r2.prepend hu
                · rw [← List.append_assoc, ← hl]
                  refine recoverIn_inv (hpre _ _) _ (o', s3) ?_
                  rw [recoverInM_obs W]; exact hlog
          · refine ⟨l₁ ++ [k], hl, hp', .inr ⟨l₁, k, [], rfl, ?_, ?_⟩⟩
            · have hkp : k.path.length = pp.length + 1 := by rw [hp k (by simp), hplen]
              have := Wreck.first (d := q1.depth) hu hk hka hkp
              simp only [hk0] at this
              simp only
              rw [hd2]
              simpa using this
            · cases a' with
              | done o => exact hlog
              | travel =>
                exact recoverIn_inv (hpre _ _) _ _ (travelLoop_inv (Inv := GotTo obs (q1.log ++ l₁) (obs q2.ext)) c kids
                  (fun t _ ps pp s h => traverse_inv (hpre _ _) c t ps pp s h) _ _ _ hlog)
        -- the ascend
        have hYd : (match enter c E n rerr s1 with
              | (.done o, s) => (o, s)
              | (.travel, s) => recoverIn E n.toNodeInfo (travelLoop c E (n.toNodeInfo :: ps) path kids s)).2.depth = s1.depth := by
          have hed := enter_depth c E n rerr s1
          rcases hB : enter c E n rerr s1 with ⟨a', s2⟩
          rw [hB] at hed
          cases a' with
          | done o => exact hed
          | travel =>
            have hld := travelLoop_depth c E (n.toNodeInfo :: ps) path kids s2
            rcases hL' : travelLoop c E (n.toNodeInfo :: ps) path kids s2 with ⟨o', s3⟩
            rw [hL'] at hld
            simp only at hld hed
            cases o' with
            | ret pr er => simp only [hL', recoverIn]; rw [hld, hed]
            | panic => simp only [hL', recoverIn, St.doRescue]; rw [hld, hed]
        suffices fin : ∀ (X : Out × MSt σ) (Y : Out × St σ), TSim obs q1 path (pp.length + 1) X Y → Y.2.depth = s1.depth →
            TSim obs q path (pp.length + 1) (ascendM M path e.isDir X) (Y.1, Y.2.doAscend E path e.isDir) from fin _ _ mid hYd
        clear mid hYd
        intro X Y mid h1
        obtain ⟨o, qx⟩ := X
        obtain ⟨o', sx⟩ := Y
        obtain ⟨l, hl, hp, hcase⟩ := mid
        simp only at hl hcase
        rcases hU : M.ascend qx.ext path e.isDir with ⟨y, b⟩
        have hlog : (ascendM M path e.isDir (o, qx)).2.log =
            q.log ++ ([.descend path e.isDir false] ++ l ++ [.ascend path e.isDir b]) := by
          cases b <;> simp [ascendM, MSt.doAscend, hU, hl, hq1l]
        have hout : (ascendM M path e.isDir (o, qx)).1 = if b then .panic else o := by
          cases b <;> simp [ascendM, MSt.doAscend, hU]
        have hdp : (ascendM M path e.isDir (o, qx)).2.depth = qx.depth - 1 := by
          cases b <;> simp [ascendM, MSt.doAscend, hU]
        have hob : obs (ascendM M path e.isDir (o, qx)).2.ext = obs qx.ext := by
          have := W.ascend qx.ext path e.isDir
          rw [hU] at this
          cases b <;> simpa [ascendM, MSt.doAscend, hU] using this
        have hud : CalmLog [Call.descend path e.isDir false] := .one rfl rfl
        refine ⟨_, hlog, ?_, ?_⟩
        · intro k hk
          simp only [List.mem_append, List.mem_singleton] at hk
          rcases hk with (rfl | hk) | rfl
          · simp [Call.path]
          · exact hp k hk
          · simp [Call.path]
        · rcases hcase with ⟨hu, rfl, hnp', hm3⟩ | ⟨l₁, k, l₂, rfl, hw, hpl⟩
          · cases b with
            | false =>
              refine .inl ⟨(hud.append hu).append (.one rfl rfl), by rw [hout]; rfl, by rw [hout]; exact hnp', ?_⟩
              refine ⟨by rw [hdp]; simp [St.doAscend, hm3.depth], ?_, ?_⟩
              · simp [ascendM, MSt.doAscend, hU, St.doAscend, hm3.ext, X.ascend qx.ext path e.isDir (by rw [hU])]
              · simp [ascendM, MSt.doAscend, hU, St.doAscend, hm3.log, Ev.call]
            | true =>
              refine .inr ⟨[.descend path e.isDir false] ++ l, .ascend path e.isDir true, [], rfl, ?_, ?_⟩
              · rw [hout, hdp]
                have hqx : qx.depth - 1 = q.depth + (Call.ascend path e.isDir true).isDescend := by
                  rw [← hm3.depth, h1, hm1.depth, hq1d]; simp [Call.isDescend]
                rw [hqx]
                exact Wreck.first (hud.append hu) rfl rfl hplen
              · refine (hpre _ _).ascend _ _ _ ?_
                rw [hob, ← hm3.ext]
                exact ⟨by rw [← hm3.log, hl, hq1l]; simp, List.prefix_refl _⟩
          · refine .inr ⟨[.descend path e.isDir false] ++ l₁, k, l₂ ++ [.ascend path e.isDir b], by simp, ?_, ?_⟩
            · rw [hout, hdp]
              rw [hq1d] at hw
              exact (hw.ascend path hplen e.isDir b).prepend hud
            · refine (hpre _ _).ascend _ _ _ ?_
              rw [hob, ← List.append_assoc, ← hq1l]; exact hpl

theorem Mortal.live_extends (M : Mortal σ) : Extends M M.live where
  descend _ _ _ _ := rfl
  ascend _ _ _ _ := rfl
  invoke _ _ _ := rfl
  ask x n re a h := by simp [Mortal.live, h]

theorem Mortal.live_watched (M : Mortal σ) : Watched M M.live (fun _ => ([] : List Unit)) := by
  constructor <;> intros <;> simp

/-! ### brackets -/

theorem Nested.append {a b : List (Path × Bool)} (ha : Nested a) (hb : Nested b) : Nested (a ++ b) := by
  induction ha with
  | nil => exact hb
  | pair p h1 h2 ih1 ih2 =>
    rw [List.cons_append, List.append_assoc, List.cons_append]
    exact .pair p h1 ih2

/-- What is added to the history is well nested. -/
def NSim (q : MSt σ) (r : MSt σ) : Prop := ∃ l, r.log = q.log ++ l ∧ Nested (marks l)

theorem NSim.refl (q : MSt σ) : NSim q q := ⟨[], by simp, .nil⟩
theorem NSim.trans {q r s : MSt σ} (h : NSim q r) (h' : NSim r s) : NSim q s := by
  obtain ⟨l, a, b⟩ := h
  obtain ⟨m, a', b'⟩ := h'
  exact ⟨l ++ m, by rw [a', a, List.append_assoc], by rw [marks_append]; exact b.append b'⟩

theorem proceedM_nested (c : Nav) (M : Mortal σ) (n : Node) (re : Option Err) (q : MSt σ) : NSim q (proceedM c M n re q).2 := by
  have hi : ∀ q : MSt σ, NSim q (q.doInvoke M n).2 := fun q => ⟨_, rfl, .nil⟩
  have ha : ∀ q : MSt σ, NSim q (q.doAsk M n re).2 := fun q => ⟨_, rfl, .nil⟩
  have h1 := hi q
  have h2 := ha q
  have h3 := (hi q).trans (ha (q.doInvoke M n).2)
  unfold proceedM
  rcases hI : q.doInvoke M n with ⟨r, q1⟩
  rw [hI] at h1 h3
  rcases hA : q.doAsk M n re with ⟨a, q2⟩
  rw [hA] at h2
  simp only at h1 h2 h3
  rcases hB : q1.doAsk M n re with ⟨b, q3⟩
  rw [hB] at h3
  cases c.sub <;> rcases r with (_ | _) | _ <;> rcases a with _ | ⟨_, _⟩ <;> rcases b with _ | ⟨_, _⟩ <;>
    simp only [hB] <;> repeat' split
  all_goals first | exact h1 | exact h2 | exact h3

theorem enterM_nested (c : Nav) (M : Mortal σ) (n : Node) (re : Option Err) (q : MSt σ) : NSim q (enterM c M n re q).2 := by
  unfold enterM
  split
  · exact ⟨_, rfl, .nil⟩
  · exact proceedM_nested c M n re q

theorem recoverInM_nested (M : Mortal σ) (cur : NodeInfo) (r : Out × MSt σ) : NSim r.2 (recoverInM M cur r).2 := by
  obtain ⟨o, q⟩ := r
  cases o with
  | ret => exact .refl _
  | panic =>
    rcases hr : M.rescue q.ext cur (periDepth q.depth) with ⟨x, a⟩
    cases a <;> simp only [recoverInM, MSt.doRescue, hr] <;> exact ⟨_, rfl, .nil⟩

theorem travelLoopM_nested (c : Nav) (M : Mortal σ) (ts : List Tree)
    (ih : ∀ t ∈ ts, ∀ ps pp q, NSim q (traverseM c M ps pp t q).2) : ∀ ps pp q, NSim q (travelLoopM c M ps pp ts q).2 := by
  induction ts with
  | nil => intro ps pp q; exact .refl _
  | cons t ts ihl =>
    intro ps pp q
    have ihl := ihl (fun k hk => ih k (by simp [hk])) ps pp
    have h1 := ih t (by simp) ps pp q
    rw [travelLoopM]
    rcases hT : traverseM c M ps pp t q with ⟨o, q1⟩
    rw [hT] at h1
    have h2 := h1.trans (ihl q1)
    rcases o with ⟨_ | _, _ | e⟩ | _ <;> simp only
    · exact h2
    · split <;> exact h1
    · exact h2
    · split
      · exact h2
      · split
        · exact h2
        · exact h1
    · exact h1

theorem traverseM_nested (c : Nav) (M : Mortal σ) (t : Tree) : ∀ ps pp q, NSim q (traverseM c M ps pp t q).2 := by
  induction t using Tree.ind with
  | h e re fs ds kids ih =>
    intro ps pp q
    rw [traverseM]
    split
    · exact .refl _
    · generalize pp ++ [e.name] = path
      rcases hD : M.descend q.ext path e.isDir with ⟨x, b⟩
      cases b with
      | true => simp only [MSt.doDescend, hD]; exact ⟨_, rfl, .nil⟩
      | false =>
        simp only [MSt.doDescend, hD]
        suffices fin : ∀ X : Out × MSt σ, NSim ({ depth := q.depth + 1, ext := x, log := q.log ++ [.descend path e.isDir false] } : MSt σ) X.2 →
            NSim q (ascendM M path e.isDir X).2 by
          apply fin
          generalize mkNode c ps _ _ _ = n
          have h1 := enterM_nested c M n (readErrOf c (.node e re fs ds kids))
            { depth := q.depth + 1, ext := x, log := q.log ++ [.descend path e.isDir false] }
          rcases hA : enterM c M n (readErrOf c (.node e re fs ds kids)) _ with ⟨a, q2⟩
          rw [hA] at h1
          cases a with
          | done o => exact h1
          | travel => exact (h1.trans (travelLoopM_nested c M kids ih _ _ q2)).trans (recoverInM_nested M _ _)
        rintro ⟨o, qx⟩ ⟨l, h1, h2⟩
        rcases hU : M.ascend qx.ext path e.isDir with ⟨y, b⟩
        refine ⟨[.descend path e.isDir false] ++ l ++ [.ascend path e.isDir b], ?_, ?_⟩
        · simp only at h1
          cases b <;> simp [ascendM, MSt.doAscend, hU, h1]
        · have := Nested.pair path h2 .nil
          simpa [marks] using this

/-! ### nothing but the handler panics -/

theorem proceedM_mortal (c : Nav) (env : Env σ) (n : Node) (re : Option Err) (s : St σ) (q : MSt σ) (hm : Match s q) :
    (proceedM c env.mortal n re q).1 = (enter c env n re s).1 ∧ Match (enter c env n re s).2 (proceedM c env.mortal n re q).2 := by
  obtain ⟨sd, sx, sl⟩ := s
  obtain ⟨qd, qx, ql⟩ := q
  obtain ⟨h1, h2, h3⟩ := hm
  simp only at h1 h2 h3
  subst h1 h2
  have m1 : ∀ x r, Match (⟨sd, x, sl ++ [.invoke n r]⟩ : St σ) ⟨sd, x, ql ++ [.invoke n r]⟩ := fun x r => ⟨rfl, rfl, by simp [h3, Ev.call]⟩
  have m2 : ∀ x a e, Match (⟨sd, x, sl ++ [.ask n re a e]⟩ : St σ) ⟨sd, x, ql ++ [.ask n re (some (a, e))]⟩ :=
    fun x a e => ⟨rfl, rfl, by simp [h3, Ev.call]⟩
  have m3 : ∀ x r a e, Match (⟨sd, x, sl ++ [.invoke n r] ++ [.ask n re a e]⟩ : St σ) ⟨sd, x, ql ++ [.invoke n r] ++ [.ask n re (some (a, e))]⟩ :=
    fun x r a e => ⟨rfl, rfl, by simp [h3, Ev.call]⟩
  unfold proceedM enter
  simp only [MSt.doInvoke, MSt.doAsk, St.doInvoke, St.doAsk, Env.mortal]
  generalize env.invoke sx n = r1
  obtain ⟨x1, r⟩ := r1
  cases c.sub
  case files =>
    cases n.isDir with
    | false => simp only [Bool.not_false, if_true]; cases r <;> exact ⟨rfl, m1 _ _⟩
    | true =>
      simp only [Bool.not_true, Bool.false_eq_true, if_false]
      by_cases h1 : ((env.ask sx n re).2.1 == .all || re.isSome) = true
      · simp only [h1, if_true]; exact ⟨trivial, m2 _ _ _⟩
      · by_cases h2 : ((env.ask sx n re).2.1 == .dir) = true
        · simp only [h1, h2, if_true]; exact ⟨rfl, m2 _ _ _⟩
        · simp only [h1, h2]; exact ⟨rfl, m2 _ _ _⟩
  all_goals
    cases r with
    | panic => exact ⟨rfl, m1 _ _⟩
    | ok er =>
      cases er with
      | some er => exact ⟨rfl, m1 _ _⟩
      | none =>
        simp only
        by_cases h1 : ((env.ask x1 n re).2.1 == .all) = true
        · simp only [h1, if_true]; exact ⟨trivial, m3 _ _ _ _⟩
        · by_cases h2 : ((env.ask x1 n re).2.1 == .dir) = true
          · simp only [h1, h2, if_true]; exact ⟨rfl, m3 _ _ _ _⟩
          · simp only [h1, h2]; exact ⟨rfl, m3 _ _ _ _⟩

theorem enterM_mortal (c : Nav) (env : Env σ) (n : Node) (re : Option Err) (s : St σ) (q : MSt σ) (hm : Match s q) :
    (enterM c env.mortal n re q).1 = (enter c env n re s).1 ∧ Match (enter c env n re s).2 (enterM c env.mortal n re q).2 :=
  proceedM_mortal c env n re s q hm

theorem recoverInM_mortal (env : Env σ) (cur : NodeInfo) (o : Out) (s : St σ) (q : MSt σ) (hm : Match s q) :
    (recoverInM env.mortal cur (o, q)).1 = (recoverIn env cur (o, s)).1 ∧
    Match (recoverIn env cur (o, s)).2 (recoverInM env.mortal cur (o, q)).2 := by
  cases o with
  | ret => exact ⟨rfl, hm⟩
  | panic =>
    obtain ⟨h1, h2, h3⟩ := hm
    simp only [recoverInM, recoverIn, MSt.doRescue, St.doRescue, Env.mortal]
    rw [h1, h2]
    exact ⟨rfl, rfl, rfl, by simp [h3, Ev.call]⟩

theorem travelLoopM_mortal (c : Nav) (env : Env σ) (ts : List Tree)
    (ih : ∀ t ∈ ts, ∀ ps pp (s : St σ) (q : MSt σ), Match s q →
      (traverseM c env.mortal ps pp t q).1 = (traverse c env ps pp t s).1 ∧
      Match (traverse c env ps pp t s).2 (traverseM c env.mortal ps pp t q).2) :
    ∀ ps pp (s : St σ) (q : MSt σ), Match s q →
      (travelLoopM c env.mortal ps pp ts q).1 = (travelLoop c env ps pp ts s).1 ∧
      Match (travelLoop c env ps pp ts s).2 (travelLoopM c env.mortal ps pp ts q).2 := by
  induction ts with
  | nil => intro ps pp s q hm; exact ⟨rfl, hm⟩
  | cons t ts ihl =>
    intro ps pp s q hm
    have ihl := ihl (fun k hk => ih k (by simp [hk])) ps pp
    have h1 := ih t (by simp) ps pp s q hm
    rw [travelLoopM, travelLoop]
    rcases hT : traverseM c env.mortal ps pp t q with ⟨o, q1⟩
    rcases hT' : traverse c env ps pp t s with ⟨o', s1⟩
    rw [hT, hT'] at h1
    obtain ⟨h, h1⟩ := h1
    simp only at h h1
    subst h
    have h2 := ihl s1 q1 h1
    rcases o with ⟨_ | _, _ | e⟩ | _ <;> simp only
    · exact h2
    · split <;> exact ⟨rfl, h1⟩
    · exact h2
    · split
      · exact h2
      · split
        · exact h2
        · exact ⟨rfl, h1⟩
    · exact ⟨trivial, h1⟩

theorem traverseM_mortal (c : Nav) (env : Env σ) (t : Tree) : ∀ ps pp (s : St σ) (q : MSt σ), Match s q →
    (traverseM c env.mortal ps pp t q).1 = (traverse c env ps pp t s).1 ∧
    Match (traverse c env ps pp t s).2 (traverseM c env.mortal ps pp t q).2 := by
  induction t using Tree.ind with
  | h e re fs ds kids ih =>
    intro ps pp s q hm
    rw [traverseM, traverse, hm.depth]
    split
    · exact ⟨rfl, hm⟩
    · generalize pp ++ [e.name] = path
      have hm1 : Match (s.doDescend env path e.isDir) (q.doDescend env.mortal path e.isDir).2 :=
        ⟨by simp [St.doDescend, MSt.doDescend, hm.depth], by simp [St.doDescend, MSt.doDescend, Env.mortal, hm.ext],
          by simp [St.doDescend, MSt.doDescend, Env.mortal, hm.log, Ev.call]⟩
      have hdd : q.doDescend env.mortal path e.isDir = (false, (q.doDescend env.mortal path e.isDir).2) := rfl
      rw [hdd]
      simp only
      rw [hm1.depth]
      generalize (q.doDescend env.mortal path e.isDir).2 = q1 at hm1
      generalize s.doDescend env path e.isDir = s1 at hm1
      suffices fin : ∀ (X : Out × MSt σ) (Y : Out × St σ), X.1 = Y.1 ∧ Match Y.2 X.2 →
          (ascendM env.mortal path e.isDir X).1 = Y.1 ∧ Match (Y.2.doAscend env path e.isDir) (ascendM env.mortal path e.isDir X).2 by
        apply fin
        generalize mkNode c ps _ _ _ = n
        have h1 := enterM_mortal c env n (readErrOf c (.node e re fs ds kids)) s1 q1 hm1
        rcases hA : enterM c env.mortal n (readErrOf c (.node e re fs ds kids)) q1 with ⟨a, q2⟩
        rcases hB : enter c env n (readErrOf c (.node e re fs ds kids)) s1 with ⟨a', s2⟩
        rw [hA, hB] at h1
        obtain ⟨h, h1⟩ := h1
        simp only at h h1
        subst h
        cases a with
        | done o => exact ⟨rfl, h1⟩
        | travel =>
          have h2 := travelLoopM_mortal c env kids ih (n.toNodeInfo :: ps) path s2 q2 h1
          simp only
          rcases hL : travelLoopM c env.mortal (n.toNodeInfo :: ps) path kids q2 with ⟨o, q3⟩
          rcases hL' : travelLoop c env (n.toNodeInfo :: ps) path kids s2 with ⟨o', s3⟩
          rw [hL, hL'] at h2
          obtain ⟨h, h2⟩ := h2
          simp only at h h2
          subst h
          exact recoverInM_mortal env n.toNodeInfo o s3 q3 h2
      rintro ⟨o, qx⟩ ⟨o', sx⟩ ⟨h, h1⟩
      simp only at h h1
      subst h
      exact ⟨rfl, by simp [ascendM, MSt.doAscend, Env.mortal, St.doAscend, h1.depth],
        by simp [ascendM, MSt.doAscend, Env.mortal, St.doAscend, h1.ext],
        by simp [ascendM, MSt.doAscend, Env.mortal, St.doAscend, h1.log, Ev.call]⟩

end Traverse
