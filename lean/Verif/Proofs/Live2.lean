import Verif.Proofs.Live
import Verif.Proofs.Sleep
/-
What is seen, and what is handed to the chain, on a file system that changes.
-/
namespace Traverse
variable {σ : Type}

theorem enter_account (c : Nav) (env : Env σ) (n re) (s : St σ) {a s2} (h : enter c env n re s = (a, s2)) :
    ∃ evs, s2.log = s.log ++ evs ∧ invoked evs = if c.sub = .files ∧ n.isDir = true then [] else [n] := by
  obtain ⟨-, evs, -, h2, h3⟩ := enter_step c env ⟨n, re⟩ s a s2 h
  exact ⟨evs, h2, h3.invoked⟩

theorem invoked_aside {v : List Ev} (h : ∀ ev ∈ v, ev.aside = true) : invoked v = [] := by
  induction v with
  | nil => rfl
  | cons ev v ih =>
    have h1 := h ev (by simp)
    have := ih (fun e he => h e (by simp [he]))
    cases ev <;> simp_all [invoked, calls, Ev.aside]

/-- What a live traversal of one node amounts to. -/
structure Account (c : Nav) (env : Env σ) (L : Look σ) (s s' : St σ) (g : List (Sight σ)) : Prop where
  calls : invoked s'.log = invoked s.log ++ (g.filter (Sight.wanted c)).map (Sight.node c)
  log : s.log <+: s'.log
  timely : ∀ q ∈ g, q.Timely c env L s.log s'.log

theorem Timely.widen {c : Nav} {env : Env σ} {L : Look σ} {a b a' b'} {q : Sight σ} (h : q.Timely c env L a b) (h1 : a' <+: a) (h2 : b <+: b') :
    q.Timely c env L a' b' :=
  ⟨h.descended, h.listed, h1.trans h.began, h.sofar.trans h2⟩

theorem Account.append {c : Nav} {env : Env σ} {L : Look σ} {s s1 s2 : St σ} {g1 g2} (h1 : Account c env L s s1 g1) (h2 : Account c env L s1 s2 g2) :
    Account c env L s s2 (g1 ++ g2) where
  calls := by rw [h2.calls, h1.calls, List.filter_append, List.map_append, List.append_assoc]
  log := h1.log.trans h2.log
  timely q hq := by
    rcases List.mem_append.1 hq with h | h
    · exact Timely.widen (h1.timely q h) (List.prefix_refl _) h2.log
    · exact Timely.widen (h2.timely q h) h1.log (List.prefix_refl _)

/-- The sights of a traversal: first that of the node itself, the others known from earlier ones. -/
def Rooted (L : Look σ) (ps : List NodeInfo) (path : Path) (e : Entry) (s : St σ) (g : List (Sight σ)) : Prop :=
  g = [] ∨ ∃ q rest, g = q :: rest ∧ q.parents = ps ∧ q.path = path ∧ q.entry = e ∧ q.before = s ∧ ∀ r ∈ rest, r.Known L g

theorem Sight.Known.mono {L : Look σ} {g g' : List (Sight σ)} {q : Sight σ} (h : q.Known L g) (hg : g.Sublist g') : q.Known L g' := by
  obtain ⟨p, h1, h2⟩ := h
  exact ⟨p, h1.trans hg, h2⟩

/-- The loop over the entries of a node `p`: its sights are known, after `p`. -/
theorem travel_account {c : Nav} {env : Env σ} {L : Look σ} {ps pp} {f : Entry → St σ → Journey σ}
    (hf : ∀ e s o s' g, f e s = some (o, s', g) → Account c env L s s' g ∧ Rooted L ps (pp ++ [e.name]) e s g) (p : Sight σ) (hp : p.path = pp)
    (es : List Entry) : (∀ e ∈ es, (pp ++ [e.name], e.isDir) ∈ p.entries) →
    ∀ s o s' g, travelLive L pp f es s = some (o, s', g) → Account c env L s s' g ∧ ∀ q ∈ g, q.Known L (p :: g) := by
  induction es with
  | nil =>
    intro _ s o s' g h
    cases h
    exact ⟨⟨by simp, List.prefix_refl _, by simp⟩, by simp⟩
  | cons e es ih =>
    intro hes s o s' g h
    obtain ⟨o1, s1, g1, h1, h2⟩ := travelLive_cons h
    obtain ⟨ha, hr⟩ := hf _ _ _ _ _ h1
    have hk : ∀ q ∈ g1, q.Known L (p :: g1) := by
      rcases hr with rfl | ⟨q0, rest, rfl, -, hq1, hq2, hq3, hrest⟩
      · simp
      · intro q hq
        rcases List.mem_cons.1 hq with rfl | hq
        · refine ⟨p, .cons_cons _ (.cons_cons _ (List.nil_sublist _)), ?_, ?_⟩
          · simp only [Sight.tag, hq1, hq2]
            exact hes e (by simp)
          · rw [hq2, hq3, hq1]
        · exact (hrest q hq).mono (List.sublist_cons_self ..)
    rcases h2 with ⟨-, rfl, rfl⟩ | ⟨-, g2, h2, rfl⟩
    · exact ⟨ha, hk⟩
    · obtain ⟨hb, hk2⟩ := ih (fun e he => hes e (by simp [he])) _ _ _ _ h2
      refine ⟨ha.append hb, ?_⟩
      intro q hq
      rcases List.mem_append.1 hq with hq | hq
      · exact (hk q hq).mono (.cons_cons _ (List.sublist_append_left ..))
      · exact (hk2 q hq).mono (.cons_cons _ (List.sublist_append_right ..))

theorem live_account (c : Nav) (env : Env σ) (L : Look σ) (n : Nat) : ∀ ps pp e s o s' g,
    traverseLive c env L n ps pp e s = some (o, s', g) → Account c env L s s' g ∧ Rooted L ps (pp ++ [e.name]) e s g := by
  induction n with
  | zero => intro ps pp e s o s' g h; cases h
  | succ n ih =>
    intro ps pp e s o s' g h
    rcases traverseLive_succ h with ⟨htd, rfl, rfl, rfl⟩ | ⟨htd, h⟩
    · exact ⟨⟨by simp, List.prefix_refl _, by simp⟩, .inl rfl⟩
    · simp only at h
      generalize hs1 : s.doDescend env (pp ++ [e.name]) e.isDir = s1 at h
      generalize ht : lay c L e (pp ++ [e.name]) s1.ext = t at h
      have hl1 : s1.log = s.log ++ [.descend (pp ++ [e.name]) e.isDir] := by rw [← hs1]; rfl
      have hent : t.entry = e := by rw [← ht, lay_entry]
      have hdir : (mkNode c ps (pp ++ [e.name]) t s1.depth).isDir = e.isDir := by rw [mkNode_isDir, Tree.isDir, hent]
      -- the node itself
      have own : ∀ s2, s1.log <+: s2.log → (∃ evs, s2.log = s1.log ++ evs ∧ invoked evs =
          if c.sub = .files ∧ (mkNode c ps (pp ++ [e.name]) t s1.depth).isDir = true then [] else [mkNode c ps (pp ++ [e.name]) t s1.depth]) →
          Account c env L s s2 [⟨ps, pp ++ [e.name], e, s, s1, t⟩] := by
        intro s2 hpre ⟨evs, h1, h2⟩
        refine ⟨?_, ?_, ?_⟩
        · rw [h1, hl1, invoked_append, invoked_append, h2, hdir]
          rw [show invoked [Ev.descend (pp ++ [e.name]) e.isDir] = [] from rfl, List.append_nil]
          congr 1
          by_cases hw : c.sub = .files ∧ e.isDir = true
          · rw [if_pos hw]; simp [Sight.wanted, hw]
          · rw [if_neg hw]
            have : Sight.wanted c (⟨ps, pp ++ [e.name], e, s, s1, t⟩ : Sight σ) = true := by
              simp only [Sight.wanted]; by_cases hf : c.sub = .files <;> simp_all
            simp [this, Sight.node]
        · exact (List.prefix_append ..).trans (hl1 ▸ hpre)
        · intro q hq
          rw [List.mem_singleton] at hq
          subst hq
          exact ⟨hs1.symm, ht.symm, List.prefix_refl _, hpre⟩
      have close : ∀ {s2 s3 : St σ} {g}, Account c env L s s2 g → (∃ v, s3.log = s2.log ++ v ∧ invoked v = []) → Account c env L s s3 g := by
        intro s2 s3 g ha ⟨v, h1, h2⟩
        refine ⟨by rw [h1, invoked_append, h2, List.append_nil, ha.calls], ha.log.trans ⟨v, h1.symm⟩, ?_⟩
        intro q hq
        exact Timely.widen (ha.timely q hq) (List.prefix_refl _) ⟨v, h1.symm⟩
      rcases h with ⟨s2, hE, rfl, rfl⟩ | ⟨s2, o3, s3, g3, hE, hT, rfl, rfl, rfl⟩
      · refine ⟨close (own s2 ?_ (enter_account c env _ _ _ hE)) ⟨_, rfl, rfl⟩, .inr ⟨_, [], rfl, rfl, rfl, rfl, rfl, by simp⟩⟩
        obtain ⟨evs, h1, -⟩ := enter_account c env _ _ _ hE
        exact ⟨evs, h1.symm⟩
      · obtain ⟨evs, h1, -⟩ := enter_account c env _ _ _ hE
        have h0 := own s2 ⟨evs, h1.symm⟩ (enter_account c env _ _ _ hE)
        obtain ⟨ha, hk⟩ := travel_account (c := c) (env := env) (fun e s o s' g => ih _ _ e s o s' g) ⟨ps, pp ++ [e.name], e, s, s1, t⟩ rfl _ (by
          intro e' he'
          obtain ⟨k, hk, rfl⟩ := List.mem_map.1 he'
          exact List.mem_map.2 ⟨k, hk, rfl⟩) _ _ _ _ hT
        obtain ⟨v, hv1, hv2⟩ := recoverIn_log env (mkNode c ps (pp ++ [e.name]) t s1.depth).toNodeInfo o3 s3
        refine ⟨close (h0.append ha) ⟨v ++ [.ascend (pp ++ [e.name]) e.isDir], ?_, ?_⟩, .inr ⟨_, g3, rfl, rfl, rfl, rfl, rfl, hk⟩⟩
        · simp only [St.doAscend, hv1, List.append_assoc]
        · rw [invoked_append, invoked_aside hv2]; rfl

end Traverse
