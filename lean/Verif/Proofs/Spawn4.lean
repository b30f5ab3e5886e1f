import Verif.Proofs.Saga
/-
Spawn resumes whose handler accepts nodes or panics.
-/
namespace Traverse
variable {κ σ : Type}

/-- The calls were answered with nil or panicked, nothing was skipped. -/
def Ev.Holds : Ev → Prop
  | .invoke _ r => r = .ok none ∨ r = .panic
  | .ask _ _ sk e => sk = .none ∧ e = none
  | _ => True

/-- Calls that are accepted or panic: the nodes are presented in order up to the first panic, all of them if there is none. -/
theorem Run.holding {sub d0 l evs f} (h : Run sub d0 l evs f) (hsub : sub = .universal) (hh : ∀ ev ∈ evs, ev.Holds) :
    invoked evs <+: l.map (·.node) ∧
    ((invoked evs = l.map (·.node) ∧ f = .done none) ∨ (f ≠ .done none ∧ ∃ n, Ev.invoke n .panic ∈ evs)) := by
  have key : ∀ {it : Item} {evs a}, Step sub it evs a → (∀ ev ∈ evs, ev.Holds) →
      invoked evs = [it.node] ∧ (a = .travel ∨ (a = .done .panic ∧ evs = [.invoke it.node .panic])) := by
    intro it evs a hs hh
    cases hs with
    | panicked h => exact ⟨rfl, Or.inr ⟨rfl, rfl⟩⟩
    | file e h hn => rw [hsub] at h; cases h
    | failed e h => rcases hh (.invoke it.node (.ok (some e))) (by simp) with h | h <;> cases h
    | asked sk e h =>
      obtain ⟨rfl, rfl⟩ : sk = .none ∧ e = none := hh (.ask it.node it.readErr sk e) (by simp)
      exact ⟨rfl, Or.inl (by simp [verdict, hsub])⟩
    | askedOnly sk e h hn => rw [hsub] at h; cases h
  induction h with
  | nil => exact ⟨by simp [invoked, calls], Or.inl ⟨rfl, rfl⟩⟩
  | @travel it rest evs es f hs hr ih =>
    obtain ⟨k1, -⟩ := key hs (fun ev h => hh ev (by simp [h]))
    obtain ⟨i1, i2⟩ := ih (fun ev h => hh ev (by simp [h]))
    rw [invoked_append, k1]
    refine ⟨by simpa using i1, ?_⟩
    rcases i2 with ⟨i2, i3⟩ | ⟨i2, n, i3⟩
    · exact Or.inl ⟨by simp [i2], i3⟩
    · exact Or.inr ⟨i2, n, by simp [i3]⟩
  | @root it rest evs o hs hd =>
    obtain ⟨k1, k2⟩ := key hs hh
    rcases k2 with k2 | ⟨k2, k3⟩
    · cases k2
    · cases k2
      rw [k1]
      exact ⟨by simp, Or.inr ⟨by simp [Out.final], it.node, by rw [k3]; simp⟩⟩
  | @next it rest evs p e es f hs hd he hr ih =>
    obtain ⟨-, k2 | ⟨k2, -⟩⟩ := key hs (fun ev h => hh ev (by simp [h])) <;> cases k2
  | @leave it rest evs e es f hs hd he ha hr ih =>
    obtain ⟨-, k2 | ⟨k2, -⟩⟩ := key hs (fun ev h => hh ev (by simp [h])) <;> cases k2
  | @leaveTop it rest evs e hs hd he ha =>
    obtain ⟨-, k2 | ⟨k2, -⟩⟩ := key hs hh <;> cases k2
  | @stop it rest evs p e hs hd he =>
    obtain ⟨-, k2 | ⟨k2, -⟩⟩ := key hs hh <;> cases k2
  | @crash it rest evs cur r hs hd hp =>
    obtain ⟨k1, k2 | ⟨-, k3⟩⟩ := key hs (fun ev h => hh ev (by simp [h]))
    · cases k2
    · rw [invoked_append, k1]
      refine ⟨by simp [invoked, calls], Or.inr ⟨by simp, it.node, by rw [k3]; simp⟩⟩

/-- An invariant under which every call is accepted or panics. -/
structure Holding (c : Nav) (env : Env σ) (I : St σ → Prop) : Prop where
  keeps : ∀ t ps pp s, I s → I (traverse c env ps pp t s).2
  holds : ∀ s, I s → ∀ ev ∈ s.log, ev.Holds

/-- What one piece of work does: it shows a beginning of `l`, all of it unless a call panicked. -/
def Presents (l : List (Path × Bool)) (f : Final) (s s' : St σ) : Prop :=
  ∃ l', shown s'.log = shown s.log ++ l' ∧ l' <+: l ∧ ((l' = l ∧ f = .done none) ∨ (f ≠ .done none ∧ ∃ n, Ev.invoke n .panic ∈ s'.log))

theorem Presents.seq {l m : List (Path × Bool)} {f : Final} {s s' s'' : St σ} (h : Presents l (.done none) s s') (h' : Presents m f s' s'') :
    Presents (l ++ m) f s s'' := by
  obtain ⟨l', h1, -, h3⟩ := h
  obtain ⟨m', g1, g2, g3⟩ := h'
  rcases h3 with ⟨rfl, -⟩ | ⟨h3, -⟩
  · refine ⟨l' ++ m', by rw [g1, h1, List.append_assoc], List.prefix_append_right_inj _ |>.2 g2, ?_⟩
    rcases g3 with ⟨rfl, g3⟩ | g3
    · exact Or.inl ⟨rfl, g3⟩
    · exact Or.inr g3
  · exact absurd rfl h3

theorem Presents.stop {l : List (Path × Bool)} (m) {f : Final} {s s' : St σ} (h : Presents l f s s') (hf : f ≠ .done none) :
    Presents (l ++ m) f s s' := by
  obtain ⟨l', h1, h2, h3⟩ := h
  rcases h3 with ⟨-, h3⟩ | h3
  · exact absurd h3 hf
  · exact ⟨l', h1, h2.trans (List.prefix_append _ _), Or.inr h3⟩

theorem traverse_holding (c : Nav) (env : Env σ) (hm : c.maxDepth = 0) (hsub : c.sub = .universal) {I : St σ → Prop} (hI : Holding c env I)
    (pre : Path) (t : Tree) (s : St σ) (hs : I s) :
    I (traverse c env [] pre t s).2 ∧ Presents (t.list pre) (traverse c env [] pre t s).1.final s (traverse c env [] pre t s).2 := by
  obtain ⟨vs, -, hlog, hrun⟩ := top_run c env pre t s (tooDeep_zero hm _)
  have hfrom := hI.keeps t [] pre s hs
  have hmem : ∀ ev ∈ vs, ev ∈ (traverse c env [] pre t s).2.log := by
    intro ev hev
    apply mem_acts
    rw [hlog]
    exact List.mem_append_right _ hev
  obtain ⟨h1, h2⟩ := hrun.holding hsub (fun ev hev => hI.holds _ hfrom _ (hmem ev hev))
  have h3 : invoked (traverse c env [] pre t s).2.log = invoked s.log ++ invoked vs := by
    rw [← invoked_acts, hlog, invoked_append, invoked_acts]
  have hl : (items c [] pre s.depth t).map (fun it => (it.node.path, it.node.isDir)) = t.list pre := items_list c hm t [] pre s.depth
  refine ⟨hfrom, (invoked vs).map (fun n => (n.path, n.isDir)), by simp [shown, h3], ?_, ?_⟩
  · rw [← hl]
    obtain ⟨r, hr⟩ := h1
    refine ⟨r.map (fun n => (n.path, n.isDir)), ?_⟩
    rw [← List.map_append, hr, List.map_map]; rfl
  · rcases h2 with ⟨h2, h4⟩ | ⟨h2, n, h4⟩
    · refine Or.inl ⟨?_, h4⟩
      rw [h2, List.map_map, ← hl]; rfl
    · exact Or.inr ⟨h2, n, hmem _ h4⟩

theorem seed_holding {c : Nav} {stat disk pre t} (H : Spawnable c stat disk pre t) (hsub : c.sub = .universal) {env : Env σ}
    {I : St σ → Prop} (hI : Holding c env I) (fault) (q : Path) (u : Tree) (hu : Tree.At pre t q u) (ks : List Tree) : (∀ k ∈ ks, k ∈ u.kids) →
    ∀ s : St σ, I s →
    I (seed c env fault stat q (ks.map Tree.name) s).2 ∧
    Presents (Tree.listL q ks) (seed c env fault stat q (ks.map Tree.name) s).1 s (seed c env fault stat q (ks.map Tree.name) s).2 := by
  induction ks with
  | nil => intro _ s hs; exact ⟨hs, [], by simp [seed], by simp [Tree.listL], Or.inl ⟨by simp [Tree.listL], rfl⟩⟩
  | cons k ks ih =>
    intro hk s hs
    have hk1 := hu.kid k (hk k (by simp))
    obtain ⟨h1, h2⟩ := traverse_holding c env H.depth hsub hI q k s hs
    have ht : top c env fault q (q ++ [k.name]) (stat (q ++ [k.name])) s =
        ((traverse c env [] q k s).1.final, (traverse c env [] q k s).2) := by
      rw [H.stat _ _ hk1]; rfl
    simp only [List.map_cons, seed, ht, Tree.listL]
    generalize traverse c env [] q k s = T at *
    by_cases hf : T.1.final = .done none
    · simp only [hf] at h2 ⊢
      obtain ⟨g1, g2⟩ := ih (fun j hj => hk j (by simp [hj])) _ h1
      exact ⟨g1, h2.seq g2⟩
    · have h2 := h2.stop (Tree.listL q ks) hf
      rcases hT : T.1.final with (_ | e) | _
      · exact absurd hT hf
      · rw [hT] at h2; exact ⟨h1, h2⟩
      · rw [hT] at h2; exact ⟨h1, h2⟩

theorem crown_holding {c : Nav} {stat disk pre t} (H : Spawnable c stat disk pre t) (hsub : c.sub = .universal) {env : Env σ}
    {I : St σ → Prop} (hI : Holding c env I) (fault) (ras : List String) : ∀ u, t.down ras.reverse = some u →
    ∀ s : St σ, I s →
    let R := crown c env fault stat disk (pre ++ [t.name]) (ras ++ t.name :: pre.reverse) false s
    I R.2.2 ∧ Presents (behind greater ras.reverse pre t) R.1 s R.2.2 := by
  induction ras with
  | nil =>
    intro u _ s hs
    have : crown c env fault stat disk (pre ++ [t.name]) ([] ++ t.name :: pre.reverse) false s = (.done none, true, s) := by simp [crown]
    simp only [this]
    exact ⟨hs, [], by simp, by simp [behind], Or.inl ⟨by simp [behind], rfl⟩⟩
  | cons a ras ih =>
    intro u hu s hs
    simp only [List.reverse_cons] at hu ⊢
    obtain ⟨v, hv, hk⟩ := down_snoc _ a t u hu
    have hat := down_at _ t pre v hv
    have hp : (ras ++ t.name :: pre.reverse).reverse = pre ++ t.name :: ras.reverse := by simp
    have hne : (a :: (ras ++ t.name :: pre.reverse)).reverse ≠ pre ++ [t.name] := by
      intro h
      have := congrArg List.length h
      simp at this
    have hf := H.following _ _ hat a false (List.mem_map.2 ⟨u, (kid_some hk).1, (kid_some hk).2⟩)
    rw [List.cons_append, crown, if_neg hne, hp, hf]
    obtain ⟨g1, g2⟩ := seed_holding H hsub hI fault _ v hat (v.kids.filter (fun k => decide (a < k.name)))
      (fun k hk => (List.mem_filter.1 hk).1) s hs
    simp only [Bool.false_eq_true, if_false]
    rw [behind_snoc greater _ a pre t v hv]
    rcases hsd : seed c env fault stat (pre ++ t.name :: ras.reverse) _ s with ⟨f, s1⟩
    rw [hsd] at g1 g2
    simp only at g1 g2
    by_cases hfin : f = .done none
    · subst hfin
      obtain ⟨h1, h2⟩ := ih v hv s1 g1
      exact ⟨h1, g2.seq h2⟩
    · rcases f with (_ | e) | _
      · exact absurd rfl hfin
      · exact ⟨g1, g2.stop _ hfin⟩
      · exact ⟨g1, g2.stop _ hfin⟩

theorem crown_from_holding {c : Nav} {stat disk pre t} (H : Spawnable c stat disk pre t) (hsub : c.sub = .universal) {env : Env σ}
    {I : St σ → Prop} (hI : Holding c env I) (fault) (as : List String) (a : String) (v u : Tree) (hv : t.down as = some v)
    (hk : v.kid a = some u) (s : St σ) (hs : I s) :
    let R := crown c env fault stat disk (pre ++ [t.name]) (pre ++ t.name :: (as ++ [a])).reverse true s
    I R.2.2 ∧ Presents (Tree.listL (pre ++ t.name :: as) (v.kids.filter (fun k => decide (a ≤ k.name))) ++ behind greater as pre t) R.1 s R.2.2 := by
  have hat := down_at _ t pre v hv
  have hr : (pre ++ t.name :: (as ++ [a])).reverse = a :: (as.reverse ++ t.name :: pre.reverse) := by simp
  have hp : (as.reverse ++ t.name :: pre.reverse).reverse = pre ++ t.name :: as := by simp
  have hne : (a :: (as.reverse ++ t.name :: pre.reverse)).reverse ≠ pre ++ [t.name] := by
    intro h
    have := congrArg List.length h
    simp at this
  have hf := H.following _ _ hat a true (List.mem_map.2 ⟨u, (kid_some hk).1, (kid_some hk).2⟩)
  rw [hr, crown, if_neg hne, hp, hf]
  obtain ⟨g1, g2⟩ := seed_holding H hsub hI fault _ v hat (v.kids.filter (fun k => decide (a ≤ k.name)))
    (fun k hk => (List.mem_filter.1 hk).1) s hs
  simp only [if_true]
  rcases hsd : seed c env fault stat (pre ++ t.name :: as) _ s with ⟨f, s1⟩
  rw [hsd] at g1 g2
  simp only at g1 g2
  by_cases hfin : f = .done none
  · subst hfin
    obtain ⟨h1, h2⟩ := crown_holding H hsub hI fault as.reverse v (by simpa using hv) s1 g1
    simp only [List.reverse_reverse] at h2
    exact ⟨h1, g2.seq h2⟩
  · rcases f with (_ | e) | _
    · exact absurd rfl hfin
    · exact ⟨g1, g2.stop _ hfin⟩
    · exact ⟨g1, g2.stop _ hfin⟩

/-- A spawn resume presents what remained, in order, up to the first panic, if the names are in order. -/
theorem crown_fs_holding (key) {c : Nav} {stat disk} {pre : Path} {fs : FS} (hdepth : c.maxDepth = 0) (hread : c.read = defaultRead)
    (hsort : SortsBy key c.sort) (hsub : c.sub = .universal)
    (hdistinct : fs.Distinct) (hkeys : fs.KeysDiffer key) (hdisk : ∀ p g, FS.At pre fs p g → disk p = .ok g)
    (hstat : ∀ p g, FS.At pre fs p g → stat p = .found (prep c g)) {env : Env σ} {I : St σ → Prop}
    (hI : Holding c env I) (fault) (p : Path) (hp : p ∈ (fs.nodes pre).map Prod.fst) (hroot : p ≠ pre ++ [fs.name])
    (hbo : ByteOrdered c pre fs p) (s : St σ) (hs : I s) :
    let R := crown c env fault stat disk (pre ++ [fs.name]) p.reverse true s
    I R.2.2 ∧ Presents (((prep c fs).list pre).dropWhile (fun k => k.1 != p)) R.1 s R.2.2 := by
  have hperm := hsort.permutes
  have hsel := defaultRead_selects c hread
  have hd := prep_distinct c hperm hsel fs hdistinct
  have hne : c.sub ≠ .directories ∧ c.sub ≠ .directoriesWithFiles := by simp [hsub]
  obtain ⟨k, hk, rfl⟩ := List.mem_map.1 hp
  have hk' : k ∈ (prep c fs).list pre := by
    rw [← items_list c hdepth (prep c fs) [] pre 0]
    exact (items_nodes c hperm hread hdepth hne.1 hne.2 fs [] pre 0).mem_iff.2 hk
  obtain ⟨bs, u, h1, h2, -⟩ := mem_list_down _ hd pre k hk'
  have hn : (prep c fs).name = fs.name := (prep_entry c fs).1
  obtain ⟨as, a, rfl⟩ : ∃ as a, bs = as ++ [a] := by
    rcases List.eq_nil_or_concat bs with rfl | ⟨as, a, rfl⟩
    · rw [h1, hn] at hroot; exact absurd rfl hroot
    · exact ⟨as, a, List.concat_eq_append⟩
  have H := spawnable_of key c stat disk pre fs hdepth hread hsort (Or.inl hsub) hdistinct hkeys hdisk hstat
  have hb := byteOrdered_iff c hperm hsel (as ++ [a]) pre fs u hdistinct h2
  have ho : InOrder (as ++ [a]) (prep c fs) := by
    rw [← hb]; rw [h1, hn] at hbo; exact hbo
  obtain ⟨v, hv, hkid⟩ := down_snoc as a _ u h2
  obtain ⟨ho1, ho2⟩ := inOrder_snoc as a _ ho
  obtain ⟨l, r, hl, -, hnm, hlat⟩ := split_kid hkid
  obtain ⟨hl1, hr1⟩ := ho2 v hv l u r hl hnm
  have := crown_from_holding H hsub hI fault as a v u hv hkid s hs
  rw [h1]
  rw [remaining_eq _ _ pre u h2 hd, behind_snoc later as a pre _ v hv, hlat, path_dropLast, ← behind_inOrder as _ pre v hv ho1]
  rw [hl, (greater_later hnm hl1 hr1).2, Tree.listL, hn, List.append_assoc] at this
  rw [hn]
  exact this

/-! ### A spawn session -/

theorem holding_plain {nav : Nav} {res : Option Strategy} {hb : HiberOpts} (hw : hb.wakeAt = none) (hsl : hb.sleepAt = none)
    (ho : (plainSetup nav res hb).Ordinary) (C : Client κ) (carried) (tree target : Path)
    (hh : Handler.Holds C.handler) (hk : ∀ k n re, (C.skip k n re).2 = (.none, none))
    {read : κ → String → Except Err Json} (hlis : ∀ k n p, read (C.listen k n) p = read k p) :
    Holding nav ((plainSetup nav res hb).env C tree target)
      (fun s => ((PlainInv (plainSetup nav res hb) carried s ∧ ∀ ev ∈ s.log, ev.Holds) ∧ StoreInv C read s) ∧ HitsIn s) where
  holds s h := h.1.1.2
  keeps t ps pp s hs := by
    have hsane : (plainSetup nav res hb).Sane :=
      ⟨⟨fun _ => rfl, by intro h; simp [plainSetup, HiberOpts.active, hw, hsl] at h⟩, by intro h; simp [plainSetup] at h⟩
    refine ⟨⟨?_, traverse_inv (storeInv_preserved _ C tree target hlis) nav t ps pp s hs.1.2⟩,
      traverse_inv (hitsIn_preserved _ C tree target) nav t ps pp s hs.2⟩
    refine traverse_invOn (P := GoodNode nav) (Inv := fun s => PlainInv (plainSetup nav res hb) carried s ∧ ∀ ev ∈ s.log, ev.Holds) ?_ nav (fun ps path t d => mkNode_good nav ps path t d) t ps pp s hs.1.1
    refine (plainInv_preserved (plainSetup nav res hb) ho hsane C carried tree target).with
      (Q := fun s => ∀ ev ∈ s.log, ev.Holds) ?_ ?_ ?_ ?_ ?_
    · intro s p d _ h ev hev
      simp only [St.doDescend, List.mem_append, List.mem_singleton] at hev
      rcases hev with hev | rfl
      · exact h ev hev
      · trivial
    · intro s p d _ h ev hev
      simp only [St.doAscend, List.mem_append, List.mem_singleton] at hev
      rcases hev with hev | rfl
      · exact h ev hev
      · trivial
    · intro s n hn hI h ev hev
      have hrep : (s.doInvoke ((plainSetup nav res hb).env C tree target) n).1 = .ok none ∨
          (s.doInvoke ((plainSetup nav res hb).env C tree target) n).1 = .panic := by
        obtain ⟨hp, _⟩ := doInvoke_plain (C := C) (tree := tree) (target := target) hI ho hsane n hn
        have hacc : (plainSetup nav res hb).accepts n = true := rfl
        have hst : (plainSetup nav res hb).hibOf s.ext = .active := by
          rw [hI.hib]
          have h0 : hb.launch = .active := by simp [HiberOpts.launch, hw]
          show (hibRun hb hb.launch _).1 = .active
          rw [h0, hibRun_plain hsl]
        have haw : (plainSetup nav res hb).awake s.ext n = true := by
          unfold Setup.awake
          rw [hst]
          show (hibStep hb .active n).2 = true
          rw [hibStep_plain hsl]
        obtain ⟨k, hk⟩ := hp.handled haw hacc
        rw [hk]; exact hh _ _
      have hlog : (s.doInvoke ((plainSetup nav res hb).env C tree target) n).2.log = s.log ++
          [.invoke n (s.doInvoke ((plainSetup nav res hb).env C tree target) n).1] := rfl
      rw [hlog, List.mem_append, List.mem_singleton] at hev
      rcases hev with hev | rfl
      · exact h ev hev
      · exact hrep
    · intro s n re _ _ h ev hev
      simp only [St.doAsk, List.mem_append, List.mem_singleton] at hev
      rcases hev with hev | rfl
      · exact h ev hev
      · have := hk s.ext.client n re
        exact ⟨congrArg Prod.fst this, congrArg Prod.snd this⟩
    · intro s n _ h ev hev
      simp only [St.doRescue, List.mem_append, List.mem_singleton] at hev
      rcases hev with hev | rfl
      · exact h ev hev
      · trivial

end Traverse
