import Verif.Proofs.Resume
import Verif.Proofs.Invariant2
/-
Two navigations that agree until something has happened.
-/
namespace Traverse
variable {σ τ : Type}

/-- Two environments that answer alike, and without panics, as long as the nodes visited are not in `B`. -/
structure Tandem (N : Node → Prop) (e1 : Env σ) (e2 : Env τ) (R : St σ → St τ → Prop) (B : List Node → Prop) : Prop where
  same : ∀ s u, R s u → s.depth = u.depth ∧ s.log = u.log
  descend : ∀ s u p d, R s u → R (s.doDescend e1 p d) (u.doDescend e2 p d)
  ascend : ∀ s u p d, R s u → R (s.doAscend e1 p d) (u.doAscend e2 p d)
  invoke : ∀ s u n, N n → R s u → B (invoked s.log) ∨
    ((s.doInvoke e1 n).1 = (u.doInvoke e2 n).1 ∧ (s.doInvoke e1 n).1 ≠ .panic ∧ R (s.doInvoke e1 n).2 (u.doInvoke e2 n).2)
  ask : ∀ s u n re, N n → R s u → (s.doAsk e1 n re).1 = (u.doAsk e2 n re).1 ∧ (s.doAsk e1 n re).2.1 = (u.doAsk e2 n re).2.1 ∧
    R (s.doAsk e1 n re).2.2 (u.doAsk e2 n re).2.2

/-- Both have visited the same nodes of `B` first. -/
def Astray (B : List Node → Prop) (s : St σ) (u : St τ) : Prop := ∃ l, B l ∧ l <+: invoked s.log ∧ l <+: invoked u.log

theorem grows (env : Env σ) (l : List Node) : Preserved env (fun s => l <+: invoked s.log) := by
  have step : ∀ (s : St σ) (es : List Ev), l <+: invoked s.log → l <+: invoked (s.log ++ es) := by
    intro s es h
    simp only [invoked, calls, List.filterMap_append, List.map_append]
    exact h.trans (List.prefix_append _ _)
  exact ⟨fun s p d h => step s _ h, fun s p d h => step s _ h, fun s n h => step s _ h, fun s n re h => step s _ h, fun s n h => step s _ h⟩

theorem Astray.of {B : List Node → Prop} {s s' : St σ} {u u' : St τ} (h : Astray B s u) (h1 : ∀ l, l <+: invoked s.log → l <+: invoked s'.log)
    (h2 : ∀ l, l <+: invoked u.log → l <+: invoked u'.log) : Astray B s' u' := by
  obtain ⟨l, hb, a, b⟩ := h
  exact ⟨l, hb, h1 l a, h2 l b⟩

section
variable {N : Node → Prop} {e1 : Env σ} {e2 : Env τ} {R : St σ → St τ → Prop} {B : List Node → Prop}

theorem Tandem.enter (h : Tandem N e1 e2 R B) (c : Nav) (n re) (hn : N n) {s u} (hs : R s u) :
    ((enter c e1 n re s).1 = (enter c e2 n re u).1 ∧ (enter c e1 n re s).1 ≠ .done .panic ∧ R (enter c e1 n re s).2 (enter c e2 n re u).2) ∨
    Astray B (enter c e1 n re s).2 (enter c e2 n re u).2 := by
  rcases h.invoke s u n hn hs with hb | hi
  · right
    refine ⟨invoked s.log, hb, ?_, ?_⟩
    · exact enter_inv (grows e1 _) c n re s (List.prefix_refl _)
    · rw [(h.same s u hs).2]
      exact enter_inv (grows e2 _) c n re u (List.prefix_refl _)
  · left
    have ha := h.ask s u n re hn hs
    have hia := h.ask _ _ n re hn hi.2.2
    unfold Traverse.enter
    rcases hI : s.doInvoke e1 n with ⟨r, s1⟩
    rcases hI' : u.doInvoke e2 n with ⟨r', u1⟩
    rw [hI, hI'] at hi hia
    obtain ⟨rfl, hnp, hi⟩ := hi
    rcases hA : s.doAsk e1 n re with ⟨sk, e, s2⟩
    rcases hA' : u.doAsk e2 n re with ⟨sk', e', u2⟩
    rw [hA, hA'] at ha
    obtain ⟨h1, h2, ha⟩ := ha
    simp only at h1 h2
    subst h1 h2
    rcases hA2 : s1.doAsk e1 n re with ⟨sk2, ee, s3⟩
    rcases hA2' : u1.doAsk e2 n re with ⟨sk2', ee', u3⟩
    simp only [hA2, hA2'] at hia
    obtain ⟨h1, h2, hia⟩ := hia
    subst h1 h2
    cases c.sub <;> rcases r with (_ | _) | _ <;> simp only [hA2, hA2'] <;> repeat' split
    all_goals simp_all

theorem loop_grows (c : Nav) (env : Env σ) (l : List Node) (ts : List Tree) (ps pp) (s : St σ) (h : l <+: invoked s.log) :
    l <+: invoked (travelLoop c env ps pp ts s).2.log :=
  travelLoop_inv c ts (fun t _ => traverse_inv (grows env l) c t) ps pp s h

theorem loop_grows_cons (c : Nav) (env : Env σ) (l : List Node) (t : Tree) (ts : List Tree) (ps pp) (s : St σ)
    (h : l <+: invoked (traverse c env ps pp t s).2.log) : l <+: invoked (travelLoop c env ps pp (t :: ts) s).2.log := by
  rw [travelLoop]
  rcases hT : traverse c env ps pp t s with ⟨o, s1⟩
  rw [hT] at h
  have h2 := loop_grows c env l ts ps pp s1 h
  rcases o with ⟨_ | _, _ | e⟩ | _ <;> simp only
  · exact h2
  · split <;> exact h
  · exact h2
  · split
    · exact h2
    · split
      · exact h2
      · exact h
  · exact h

theorem Tandem.traverse (h : Tandem N e1 e2 R B) (c : Nav) (hN : ∀ ps path t d, N (mkNode c ps path t d)) (t : Tree) :
    ∀ ps pp s u, R s u →
    ((traverse c e1 ps pp t s).1 = (traverse c e2 ps pp t u).1 ∧ (traverse c e1 ps pp t s).1 ≠ .panic ∧
      R (traverse c e1 ps pp t s).2 (traverse c e2 ps pp t u).2) ∨
    Astray B (traverse c e1 ps pp t s).2 (traverse c e2 ps pp t u).2 := by
  induction t using Tree.ind with
  | h e re fs ds kids ih =>
    intro ps pp s u hs
    have loop : ∀ (ts : List Tree), (∀ t ∈ ts, ∀ ps pp s u, R s u →
        ((Traverse.traverse c e1 ps pp t s).1 = (Traverse.traverse c e2 ps pp t u).1 ∧ (Traverse.traverse c e1 ps pp t s).1 ≠ .panic ∧
          R (Traverse.traverse c e1 ps pp t s).2 (Traverse.traverse c e2 ps pp t u).2) ∨
        Astray B (Traverse.traverse c e1 ps pp t s).2 (Traverse.traverse c e2 ps pp t u).2) →
        ∀ ps pp s u, R s u →
        ((travelLoop c e1 ps pp ts s).1 = (travelLoop c e2 ps pp ts u).1 ∧ (travelLoop c e1 ps pp ts s).1 ≠ .panic ∧
          R (travelLoop c e1 ps pp ts s).2 (travelLoop c e2 ps pp ts u).2) ∨
        Astray B (travelLoop c e1 ps pp ts s).2 (travelLoop c e2 ps pp ts u).2 := by
      intro ts
      induction ts with
      | nil => intro _ ps pp s u hs; exact .inl ⟨rfl, by simp [travelLoop], hs⟩
      | cons t ts ihl =>
        intro iht ps pp s u hs
        have ihl := ihl (fun k hk => iht k (by simp [hk]))
        rcases iht t (by simp) ps pp s u hs with ⟨g1, g2, g3⟩ | hd
        · rw [travelLoop, travelLoop]
          rcases hT : Traverse.traverse c e1 ps pp t s with ⟨o, s1⟩
          rcases hT' : Traverse.traverse c e2 ps pp t u with ⟨o', u1⟩
          rw [hT, hT'] at g1 g3
          rw [hT] at g2
          simp only at g1 g2 g3
          subst g1
          have h2 := ihl ps pp s1 u1 g3
          rcases o with ⟨_ | _, _ | e⟩ | _ <;> simp only
          · exact h2
          · split <;> exact .inl ⟨rfl, by simp, g3⟩
          · exact h2
          · split
            · exact h2
            · split
              · exact h2
              · exact .inl ⟨rfl, by simp, g3⟩
          · exact absurd rfl g2
        · exact .inr (hd.of (fun l hl => loop_grows_cons c e1 l t ts ps pp s hl) (fun l hl => loop_grows_cons c e2 l t ts ps pp u hl))
    have hd : s.depth = u.depth := (h.same s u hs).1
    have hdd := h.descend s u (pp ++ [e.name]) e.isDir hs
    rw [Traverse.traverse, Traverse.traverse, hd]
    split
    · exact .inl ⟨rfl, by simp, hs⟩
    · simp only
      rw [show (s.doDescend e1 (pp ++ [e.name]) e.isDir).depth = (u.doDescend e2 (pp ++ [e.name]) e.isDir).depth from (h.same _ _ hdd).1]
      generalize hn : mkNode c ps (pp ++ [e.name]) (.node e re fs ds kids) _ = n
      have hNn : N n := hn ▸ hN ..
      have h1 := h.enter c n (readErrOf c (.node e re fs ds kids)) hNn hdd
      rcases hE : Traverse.enter c e1 n (readErrOf c (.node e re fs ds kids)) (s.doDescend e1 (pp ++ [e.name]) e.isDir)
        with ⟨a, s2⟩
      rcases hE' : Traverse.enter c e2 n (readErrOf c (.node e re fs ds kids)) (u.doDescend e2 (pp ++ [e.name]) e.isDir)
        with ⟨a', u2⟩
      rw [hE, hE'] at h1
      simp only at h1
      have after : ∀ {σ : Type} (env : Env σ) (a : Act) (s2 : St σ) (l : List Node), l <+: invoked s2.log →
          l <+: invoked ((match (a, s2) with
            | (.done o, s) => (o, s)
            | (.travel, s) => recoverIn env n.toNodeInfo (travelLoop c env (n.toNodeInfo :: ps) (pp ++ [e.name]) kids s)).2.doAscend env
              (pp ++ [e.name]) e.isDir).log := by
        intro σ env a s2 l hl
        apply (grows env l).ascend
        cases a with
        | done o => exact hl
        | travel => exact recoverIn_inv (grows env l) _ _ (loop_grows c env l kids _ _ s2 hl)
      rcases h1 with ⟨g1, g2, g3⟩ | hd
      · subst g1
        cases a with
        | done o =>
          refine .inl ⟨rfl, ?_, h.ascend _ _ _ _ g3⟩
          rintro rfl
          exact g2 rfl
        | travel =>
          simp only
          rcases loop kids ih (n.toNodeInfo :: ps) (pp ++ [e.name]) s2 u2 g3 with ⟨k1, k2, k3⟩ | hd
          · rcases hT : travelLoop c e1 (n.toNodeInfo :: ps) (pp ++ [e.name]) kids s2 with ⟨o, s3⟩
            rcases hT' : travelLoop c e2 (n.toNodeInfo :: ps) (pp ++ [e.name]) kids u2 with ⟨o', u3⟩
            rw [hT, hT'] at k1 k3
            rw [hT] at k2
            simp only at k1 k2 k3
            subst k1
            cases o with
            | panic => exact absurd rfl k2
            | ret p e => exact .inl ⟨rfl, by simp [recoverIn], h.ascend _ _ _ _ k3⟩
          · refine .inr (hd.of ?_ ?_)
            · intro l hl
              exact (grows e1 l).ascend _ _ _ (recoverIn_inv (grows e1 l) _ _ hl)
            · intro l hl
              exact (grows e2 l).ascend _ _ _ (recoverIn_inv (grows e2 l) _ _ hl)
      · exact .inr (hd.of (after e1 a s2) (after e2 a' u2))

/-- The fault handlers agree. -/
def FaultTandem (R : St σ → St τ → Prop) (f1 : σ → Path → Err → σ × Option Err) (f2 : τ → Path → Err → τ × Option Err) : Prop :=
  ∀ s u p e, R s u → (f1 s.ext p e).2 = (f2 u.ext p e).2 ∧ R { s with ext := (f1 s.ext p e).1 } { u with ext := (f2 u.ext p e).1 }

theorem Tandem.top (h : Tandem N e1 e2 R B) (c : Nav) (hN : ∀ ps path t d, N (mkNode c ps path t d)) {f1 f2} (hf : FaultTandem R f1 f2)
    (pre path) (r : RootStat) {s u} (hs : R s u) :
    ((top c e1 f1 pre path r s).1 = (top c e2 f2 pre path r u).1 ∧ (top c e1 f1 pre path r s).1 ≠ .panic ∧
      R (top c e1 f1 pre path r s).2 (top c e2 f2 pre path r u).2) ∨
    Astray B (top c e1 f1 pre path r s).2 (top c e2 f2 pre path r u).2 := by
  cases r with
  | error e =>
    have := hf s u path e hs
    exact .inl ⟨by simp only [Traverse.top, this.1], by simp [Traverse.top], this.2⟩
  | found t =>
    rcases h.traverse c hN t [] pre s u hs with ⟨g1, g2, g3⟩ | hd
    · refine .inl ⟨by simp only [Traverse.top, g1], ?_, g3⟩
      simp only [Traverse.top]
      intro hc
      apply g2
      cases ho : (Traverse.traverse c e1 [] pre t s).1 with
      | panic => rfl
      | ret p e => rw [ho] at hc; cases hc
    · exact .inr hd

theorem top_grows (c : Nav) (env : Env σ) (f) (l : List Node) (pre path) (r : RootStat) (s : St σ) (h : l <+: invoked s.log) :
    l <+: invoked (top c env f pre path r s).2.log :=
  top_inv (grows env l) c f pre path r s h (fun _ _ => h)

theorem seed_grows (c : Nav) (env : Env σ) (f) (stat) (l : List Node) (parent names) (s : St σ) (h : l <+: invoked s.log) :
    l <+: invoked (seed c env f stat parent names s).2.log :=
  seed_inv (grows env l) (fun _ _ _ h => h) c stat parent names s h

theorem crown_grows (c : Nav) (env : Env σ) (f) (stat) (l : List Node) (disk tree rcur incl) (s : St σ) (h : l <+: invoked s.log) :
    l <+: invoked (crown c env f stat disk tree rcur incl s).2.2.log :=
  crown_inv (grows env l) (fun _ _ _ h => h) c stat disk tree rcur incl s h

theorem Tandem.seed (h : Tandem N e1 e2 R B) (c : Nav) (hN : ∀ ps path t d, N (mkNode c ps path t d)) {f1 f2} (hf : FaultTandem R f1 f2)
    (stat : Path → RootStat) (parent : Path) (names : List String) : ∀ s u, R s u →
    ((seed c e1 f1 stat parent names s).1 = (seed c e2 f2 stat parent names u).1 ∧ (seed c e1 f1 stat parent names s).1 ≠ .panic ∧
      R (seed c e1 f1 stat parent names s).2 (seed c e2 f2 stat parent names u).2) ∨
    Astray B (seed c e1 f1 stat parent names s).2 (seed c e2 f2 stat parent names u).2 := by
  induction names with
  | nil => intro s u hs; exact .inl ⟨rfl, by simp [Traverse.seed], hs⟩
  | cons n ns ih =>
    intro s u hs
    rw [Traverse.seed, Traverse.seed]
    rcases h.top c hN hf parent (parent ++ [n]) (stat (parent ++ [n])) hs with ⟨g1, g2, g3⟩ | hd
    · rcases hT : Traverse.top c e1 f1 parent (parent ++ [n]) (stat (parent ++ [n])) s with ⟨o, s1⟩
      rcases hT' : Traverse.top c e2 f2 parent (parent ++ [n]) (stat (parent ++ [n])) u with ⟨o', u1⟩
      rw [hT, hT'] at g1 g3
      rw [hT] at g2
      simp only at g1 g2 g3
      subst g1
      rcases o with (_ | e) | _
      · exact ih s1 u1 g3
      · exact .inl ⟨rfl, by simp, g3⟩
      · exact absurd rfl g2
    · refine .inr (hd.of ?_ ?_)
      · intro l hl
        rcases hT : Traverse.top c e1 f1 parent (parent ++ [n]) (stat (parent ++ [n])) s with ⟨(_ | e) | _, s1⟩ <;> rw [hT] at hl
        · exact seed_grows c e1 f1 stat l parent ns s1 hl
        · exact hl
        · exact hl
      · intro l hl
        rcases hT : Traverse.top c e2 f2 parent (parent ++ [n]) (stat (parent ++ [n])) u with ⟨(_ | e) | _, s1⟩ <;> rw [hT] at hl
        · exact seed_grows c e2 f2 stat l parent ns s1 hl
        · exact hl
        · exact hl

theorem Tandem.crown (h : Tandem N e1 e2 R B) (c : Nav) (hN : ∀ ps path t d, N (mkNode c ps path t d)) {f1 f2} (hf : FaultTandem R f1 f2)
    (stat : Path → RootStat) (disk : Disk) (tree : Path) (rcur : List String) : ∀ incl s u, R s u →
    ((crown c e1 f1 stat disk tree rcur incl s).1 = (crown c e2 f2 stat disk tree rcur incl u).1 ∧
      (crown c e1 f1 stat disk tree rcur incl s).2.1 = (crown c e2 f2 stat disk tree rcur incl u).2.1 ∧
      R (crown c e1 f1 stat disk tree rcur incl s).2.2 (crown c e2 f2 stat disk tree rcur incl u).2.2) ∨
    Astray B (crown c e1 f1 stat disk tree rcur incl s).2.2 (crown c e2 f2 stat disk tree rcur incl u).2.2 := by
  induction rcur with
  | nil =>
    intro incl s u hs
    left
    rw [Traverse.crown, Traverse.crown]
    split <;> exact ⟨rfl, rfl, hs⟩
  | cons child rparent ih =>
    intro incl s u hs
    rw [Traverse.crown, Traverse.crown]
    split
    · exact .inl ⟨rfl, rfl, hs⟩
    · split
      · exact .inl ⟨rfl, rfl, hs⟩
      · rename_i names _
        rcases h.seed c hN hf stat rparent.reverse names s u hs with ⟨g1, g2, g3⟩ | hd
        · rcases hT : Traverse.seed c e1 f1 stat rparent.reverse names s with ⟨o, s1⟩
          rcases hT' : Traverse.seed c e2 f2 stat rparent.reverse names u with ⟨o', u1⟩
          rw [hT, hT'] at g1 g3
          rw [hT] at g2
          simp only at g1 g2 g3
          subst g1
          rcases o with (_ | e) | _
          · exact ih false s1 u1 g3
          · exact .inl ⟨rfl, rfl, g3⟩
          · exact absurd rfl g2
        · refine .inr (hd.of ?_ ?_)
          · intro l hl
            rcases hT : Traverse.seed c e1 f1 stat rparent.reverse names s with ⟨(_ | e) | _, s1⟩ <;> rw [hT] at hl
            · exact crown_grows c e1 f1 stat l disk tree rparent false s1 hl
            · exact hl
            · exact hl
          · intro l hl
            rcases hT : Traverse.seed c e2 f2 stat rparent.reverse names u with ⟨(_ | e) | _, s1⟩ <;> rw [hT] at hl
            · exact crown_grows c e2 f2 stat l disk tree rparent false s1 hl
            · exact hl
            · exact hl
end

end Traverse
