import Verif.Proofs.Invariant
namespace Traverse
variable {σ τ : Type}

/-- As `Preserved`, with a condition on the nodes met. -/
structure PreservedOn (P : Node → Prop) (env : Env σ) (Inv : St σ → Prop) : Prop where
  descend : ∀ s p d, Inv s → Inv (s.doDescend env p d)
  ascend : ∀ s p d, Inv s → Inv (s.doAscend env p d)
  invoke : ∀ s n, P n → Inv s → Inv (s.doInvoke env n).2
  ask : ∀ s n re, P n → Inv s → Inv (s.doAsk env n re).2.2
  rescue : ∀ s n, Inv s → Inv (s.doRescue env n).2

theorem enter_invOn {P : Node → Prop} {env : Env σ} {Inv : St σ → Prop} (h : PreservedOn P env Inv) (c : Nav) (n re)
    (s : St σ) (hn : P n) (hs : Inv s) : Inv (enter c env n re s).2 := by
  have hi := h.invoke s n hn hs
  have ha := h.ask s n re hn hs
  have hia := h.ask _ n re hn hi
  unfold enter
  rcases hI : s.doInvoke env n with ⟨r, s1⟩
  rw [hI] at hi hia
  rcases hA : s.doAsk env n re with ⟨sk, e, s2⟩
  rw [hA] at ha
  rcases hA2 : s1.doAsk env n re with ⟨sk', e', s3⟩
  simp only [hA2] at hia
  cases c.sub <;> rcases r with (_ | _) | _ <;> simp only [hA2] <;> repeat' split
  all_goals simp_all

theorem traverse_invOn {P : Node → Prop} {env : Env σ} {Inv : St σ → Prop} (h : PreservedOn P env Inv) (c : Nav)
    (hP : ∀ ps path t d, P (mkNode c ps path t d)) (t : Tree) :
    ∀ ps pp s, Inv s → Inv (traverse c env ps pp t s).2 := by
  induction t using Tree.ind with
  | h e re fs ds kids ih =>
    intro ps pp s hs
    rw [traverse]
    split
    · exact hs
    · apply h.ascend
      generalize hn : mkNode c ps _ _ _ = n
      have hPn : P n := hn ▸ hP ..
      have h1 := enter_invOn h c n (readErrOf c (.node e re fs ds kids)) _ hPn
        (h.descend s (pp ++ [e.name]) e.isDir hs)
      rcases hE : enter c env n (readErrOf c (.node e re fs ds kids)) _ with ⟨a, s2⟩
      rw [hE] at h1
      cases a with
      | done o => exact h1
      | travel =>
        have h2 := travelLoop_inv c kids ih (n.toNodeInfo :: ps) (pp ++ [e.name]) s2 h1
        simp only
        rcases hT : travelLoop c env (n.toNodeInfo :: ps) (pp ++ [e.name]) kids s2 with ⟨o, s3⟩
        rw [hT] at h2
        cases o with
        | panic => exact h.rescue s3 n.toNodeInfo h2
        | ret p e => exact h2

/-- Two environments that answer alike, as long as their states are related. -/
structure Sim (P : Node → Prop) (e1 : Env σ) (e2 : Env τ) (R : σ → τ → Prop) : Prop where
  descend : ∀ x y p d, R x y → R (e1.descend x p d) (e2.descend y p d)
  ascend : ∀ x y p d, R x y → R (e1.ascend x p d) (e2.ascend y p d)
  invoke : ∀ x y n, P n → R x y → (e1.invoke x n).2 = (e2.invoke y n).2 ∧ R (e1.invoke x n).1 (e2.invoke y n).1
  ask : ∀ x y n re, P n → R x y → (e1.ask x n re).2 = (e2.ask y n re).2 ∧ R (e1.ask x n re).1 (e2.ask y n re).1
  rescue : ∀ x y n d, R x y → (e1.rescue x n d).2 = (e2.rescue y n d).2 ∧ R (e1.rescue x n d).1 (e2.rescue y n d).1

/-- Same depth, same history, related outside states. -/
structure StSim (R : σ → τ → Prop) (s : St σ) (u : St τ) : Prop where
  depth : s.depth = u.depth
  log : s.log = u.log
  ext : R s.ext u.ext

theorem Sim.doDescend {P} {e1 : Env σ} {e2 : Env τ} {R} (h : Sim P e1 e2 R) {s u} (hs : StSim R s u) (p d) :
    StSim R (s.doDescend e1 p d) (u.doDescend e2 p d) :=
  ⟨by simp [St.doDescend, hs.depth], by simp [St.doDescend, hs.log], h.descend _ _ _ _ hs.ext⟩
theorem Sim.doAscend {P} {e1 : Env σ} {e2 : Env τ} {R} (h : Sim P e1 e2 R) {s u} (hs : StSim R s u) (p d) :
    StSim R (s.doAscend e1 p d) (u.doAscend e2 p d) :=
  ⟨by simp [St.doAscend, hs.depth], by simp [St.doAscend, hs.log], h.ascend _ _ _ _ hs.ext⟩
theorem Sim.doInvoke {P} {e1 : Env σ} {e2 : Env τ} {R} (h : Sim P e1 e2 R) {s u} (hs : StSim R s u) (n) (hn : P n) :
    (s.doInvoke e1 n).1 = (u.doInvoke e2 n).1 ∧ StSim R (s.doInvoke e1 n).2 (u.doInvoke e2 n).2 := by
  have := h.invoke _ _ n hn hs.ext
  exact ⟨this.1, ⟨hs.depth, by simp [St.doInvoke, hs.log, this.1], this.2⟩⟩
theorem Sim.doAsk {P} {e1 : Env σ} {e2 : Env τ} {R} (h : Sim P e1 e2 R) {s u} (hs : StSim R s u) (n re) (hn : P n) :
    (s.doAsk e1 n re).1 = (u.doAsk e2 n re).1 ∧ (s.doAsk e1 n re).2.1 = (u.doAsk e2 n re).2.1 ∧
      StSim R (s.doAsk e1 n re).2.2 (u.doAsk e2 n re).2.2 := by
  have := h.ask _ _ n re hn hs.ext
  exact ⟨by simp [St.doAsk, this.1], by simp [St.doAsk, this.1], ⟨hs.depth, by simp [St.doAsk, hs.log, this.1], this.2⟩⟩
theorem Sim.doRescue {P} {e1 : Env σ} {e2 : Env τ} {R} (h : Sim P e1 e2 R) {s u} (hs : StSim R s u) (n) :
    (s.doRescue e1 n).1 = (u.doRescue e2 n).1 ∧ StSim R (s.doRescue e1 n).2 (u.doRescue e2 n).2 := by
  have := h.rescue _ _ n (periDepth s.depth) hs.ext
  refine ⟨?_, ⟨hs.depth, ?_, ?_⟩⟩
  · simp only [St.doRescue, ← hs.depth, this.1]
  · simp only [St.doRescue, ← hs.depth, hs.log, this.1]
  · simp only [St.doRescue, ← hs.depth]; exact this.2

theorem Sim.enter {P} {e1 : Env σ} {e2 : Env τ} {R} (h : Sim P e1 e2 R) {s u} (hs : StSim R s u) (c : Nav) (n re)
    (hn : P n) : (enter c e1 n re s).1 = (enter c e2 n re u).1 ∧ StSim R (enter c e1 n re s).2 (enter c e2 n re u).2 := by
  have hi := h.doInvoke hs n hn
  have ha := h.doAsk hs n re hn
  have hia := h.doAsk hi.2 n re hn
  unfold Traverse.enter
  rcases hI : s.doInvoke e1 n with ⟨r, s1⟩
  rcases hI' : u.doInvoke e2 n with ⟨r', u1⟩
  rw [hI, hI'] at hi hia
  obtain ⟨rfl, hi⟩ := hi
  rcases hA : s.doAsk e1 n re with ⟨sk, e, s2⟩
  rcases hA' : u.doAsk e2 n re with ⟨sk', e', u2⟩
  rw [hA, hA'] at ha
  obtain ⟨h1, h2, ha⟩ := ha
  simp only at h1 h2
  subst h1 h2
  rcases hA2 : s1.doAsk e1 n re with ⟨sk2, ee, s3⟩
  rcases hA2' : u1.doAsk e2 n re with ⟨sk2', ee', u3⟩
  simp only [hA2, hA2'] at hia
  obtain ⟨h1, h2, hia⟩ := hia
  subst h1 h2
  cases c.sub <;> rcases r with (_ | _) | _ <;> simp only [hA2, hA2'] <;> repeat' split
  all_goals simp_all

/-- The nodes below the first one have a parent. -/
theorem Sim.traverseAt {P : Node → Prop} {e1 : Env σ} {e2 : Env τ} {R} (h : Sim P e1 e2 R) (c : Nav)
    (hkid : ∀ (q : NodeInfo) ps (t : Tree) d, P (mkNode c (q :: ps) (q.path ++ [t.name]) t d)) (t : Tree) : ∀ ps pp,
    (∀ d, P (mkNode c ps (pp ++ [t.name]) t d)) → ∀ s u, StSim R s u →
    (traverse c e1 ps pp t s).1 = (traverse c e2 ps pp t u).1 ∧
      StSim R (traverse c e1 ps pp t s).2 (traverse c e2 ps pp t u).2 := by
  induction t using Tree.ind with
  | h e re fs ds kids ih =>
    intro ps pp hP s u hs
    have loop : ∀ (ts : List Tree), (∀ t ∈ ts, ∀ ps pp, (∀ d, P (mkNode c ps (pp ++ [t.name]) t d)) → ∀ s u, StSim R s u →
        (Traverse.traverse c e1 ps pp t s).1 = (Traverse.traverse c e2 ps pp t u).1 ∧
        StSim R (Traverse.traverse c e1 ps pp t s).2 (Traverse.traverse c e2 ps pp t u).2) →
        ∀ (q : NodeInfo) ps s u, StSim R s u → (travelLoop c e1 (q :: ps) q.path ts s).1 = (travelLoop c e2 (q :: ps) q.path ts u).1 ∧
        StSim R (travelLoop c e1 (q :: ps) q.path ts s).2 (travelLoop c e2 (q :: ps) q.path ts u).2 := by
      intro ts
      induction ts with
      | nil => intro _ q ps s u hs; exact ⟨rfl, hs⟩
      | cons t ts ihl =>
        intro iht q ps s u hs
        have h1 := iht t (by simp) (q :: ps) q.path (hkid q ps t) s u hs
        have ihl := ihl (fun k hk => iht k (by simp [hk]))
        rw [travelLoop, travelLoop]
        rcases hT : Traverse.traverse c e1 (q :: ps) q.path t s with ⟨o, s1⟩
        rcases hT' : Traverse.traverse c e2 (q :: ps) q.path t u with ⟨o', u1⟩
        rw [hT, hT'] at h1
        obtain ⟨rfl, h1⟩ := h1
        have h2 := ihl q ps s1 u1 h1
        rcases o with ⟨_ | _, _ | e⟩ | _ <;> simp only
        · exact h2
        · split <;> exact ⟨rfl, h1⟩
        · exact h2
        · split
          · exact h2
          · split
            · exact h2
            · exact ⟨rfl, h1⟩
        · exact ⟨trivial, h1⟩
    have hd : s.depth = u.depth := hs.depth
    rw [Traverse.traverse, Traverse.traverse, hd]
    split
    · exact ⟨rfl, hs⟩
    · have hdd := h.doDescend hs (pp ++ [e.name]) e.isDir
      simp only
      rw [show (s.doDescend e1 (pp ++ [e.name]) e.isDir).depth = (u.doDescend e2 (pp ++ [e.name]) e.isDir).depth from hdd.depth]
      generalize hn : mkNode c ps (pp ++ [e.name]) (.node e re fs ds kids) _ = n
      have hPn : P n := hn ▸ hP _
      have h1 := h.enter hdd c n (readErrOf c (.node e re fs ds kids)) hPn
      rcases hE : Traverse.enter c e1 n (readErrOf c (.node e re fs ds kids)) (s.doDescend e1 (pp ++ [e.name]) e.isDir)
        with ⟨a, s2⟩
      rcases hE' : Traverse.enter c e2 n (readErrOf c (.node e re fs ds kids)) (u.doDescend e2 (pp ++ [e.name]) e.isDir)
        with ⟨a', u2⟩
      rw [hE, hE'] at h1
      obtain ⟨rfl, h1⟩ := h1
      cases a with
      | done o => exact ⟨rfl, h.doAscend h1 _ _⟩
      | travel =>
        have h2 := loop kids ih n.toNodeInfo ps s2 u2 h1
        rw [show n.toNodeInfo.path = pp ++ [e.name] from hn ▸ rfl] at h2
        simp only
        rcases hT : travelLoop c e1 (n.toNodeInfo :: ps) (pp ++ [e.name]) kids s2 with ⟨o, s3⟩
        rcases hT' : travelLoop c e2 (n.toNodeInfo :: ps) (pp ++ [e.name]) kids u2 with ⟨o', u3⟩
        rw [hT, hT'] at h2
        obtain ⟨rfl, h2⟩ := h2
        cases o with
        | panic =>
          have h3 := h.doRescue h2 n.toNodeInfo
          refine ⟨?_, h.doAscend h3.2 _ _⟩
          simp only [recoverIn]
          rw [h3.1]
        | ret p e => exact ⟨rfl, h.doAscend h2 _ _⟩

theorem Sim.traverse {P : Node → Prop} {e1 : Env σ} {e2 : Env τ} {R} (h : Sim P e1 e2 R) (c : Nav)
    (hP : ∀ ps path t d, P (mkNode c ps path t d)) (t : Tree) : ∀ ps pp s u, StSim R s u →
    (traverse c e1 ps pp t s).1 = (traverse c e2 ps pp t u).1 ∧
      StSim R (traverse c e1 ps pp t s).2 (traverse c e2 ps pp t u).2 :=
  fun ps pp => h.traverseAt c (fun _ _ _ _ => hP ..) t ps pp (fun _ => hP ..)

end Traverse
