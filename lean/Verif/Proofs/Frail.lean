import Verif.Model.Frail
import Verif.Proofs.Mortal
import Verif.Proofs.Bridge
namespace Traverse
variable {σ κ α : Type}

theorem notify_calm {C : Client κ} {F : Frail κ} {w : World κ} {n : Note} (h : (w.notify C F n).2 = false) :
    (w.notify C F n).1 = w.publish C n := by
  unfold World.notify at h ⊢
  by_cases hm : w.muted n.ev = true
  · simp [hm, World.publish]
  · simp only [hm] at h ⊢
    cases hF : F.listener w.client n with
    | none => rfl
    | some k => simp [hF] at h

theorem notify_hits (C : Client κ) (F : Frail κ) (w : World κ) (n : Note) : (w.notify C F n).1.hits = w.hits := by
  unfold World.notify World.publish
  split
  · rfl
  · split
    · rfl
    · rfl

theorem publish_hits' (C : Client κ) (w : World κ) (n : Note) : (w.publish C n).hits = w.hits := by
  unfold World.publish; split <;> rfl

/-- The hibernation link either behaves as usual or panics. -/
theorem hiberLinkF_sim (C : Client κ) (F : Frail κ) (h : HiberOpts) (w : World κ) (p : Parcel) :
    hiberLinkF C F h w p = hiberLink C h w p ∨ ∃ w', hiberLinkF C F h w p = (w', p, .panic) ∧ w'.hits = w.hits := by
  unfold hiberLinkF hiberLink
  by_cases hd : h.dies w.hib p.node = true
  · simp only [hd, if_true]; exact .inl trivial
  · simp only [hd]
    cases hn : h.note w.hib p.node with
    | none => exact .inl rfl
    | some n =>
      have hh := notify_hits C F w n
      rcases hN : w.notify C F n with ⟨w', b⟩
      rw [hN] at hh
      cases b with
      | false => exact .inl (by simp [hN])
      | true => exact .inr ⟨w', by simp [hN], hh⟩

theorem iterateF_sim (S : Setup) (C : Client κ) (F : Frail κ) (target : Path) (rs : List Role) : ∀ (w : World κ) p,
    iterate (World.linkF S C F target) rs w p = iterate (World.link S C target) rs w p ∨
    ((iterate (World.linkF S C F target) rs w p).2.2.1 = .panic ∧
      (iterate (World.linkF S C F target) rs w p).1.hits <+: (iterate (World.link S C target) rs w p).1.hits) := by
  induction rs with
  | nil => intro w p; exact .inl rfl
  | cons r rs ih =>
    intro w p
    have key : (∃ l', World.linkF S C F target w r = some l' ∧ ∃ w', l' w p = (w', p, .panic) ∧ w'.hits = w.hits) ∨
        World.linkF S C F target w r = none ∧ World.link S C target w r = none ∨
        ∃ l l', World.linkF S C F target w r = some l' ∧ World.link S C target w r = some l ∧ l' w p = l w p := by
      unfold World.linkF World.link
      by_cases hr : r ∈ w.guard.chain
      · simp only [hr, if_true]
        cases r
        case hibernate =>
          simp only [linkOfF, linkOf, Option.some.injEq]
          rcases hiberLinkF_sim C F S.hiber w p with h | ⟨w', h, hh⟩
          · exact .inr (.inr ⟨_, _, rfl, rfl, h⟩)
          · exact .inl ⟨_, rfl, w', h, hh⟩
        case undefined => exact .inr (.inl ⟨rfl, rfl⟩)
        all_goals exact .inr (.inr ⟨_, _, rfl, rfl, rfl⟩)
      · simp only [hr, if_false]
        exact .inr (.inl ⟨trivial, trivial⟩)
    rcases key with ⟨l', h1, w', h2, h3⟩ | ⟨h1, h2⟩ | ⟨l, l', h1, h2, h3⟩
    · refine .inr ?_
      have := iterate_hits S C target (r :: rs) w p
      have hpre : w'.hits <+: (iterate (World.link S C target) (r :: rs) w p).1.hits := by
        rw [h3]
        rcases this with h | ⟨hit, h, -⟩ <;> rw [h]
        · exact List.prefix_refl _
        · exact List.prefix_append _ _
      rw [iterate, h1]
      simp only [h2]
      exact ⟨rfl, hpre⟩
    · exact .inl (by rw [iterate, iterate, h1, h2])
    · rw [iterate, iterate, h1, h2]
      simp only [h3]
      rcases hl : l w p with ⟨w1, p1, t⟩
      simp only
      cases hg : t.goesOn with
      | false => exact .inl (by simp)
      | true =>
        simp only [if_true]
        rcases ih w1 p1 with h | ⟨ha, hb⟩
        · exact .inl (by rw [h])
        · exact .inr ⟨ha, hb⟩

theorem invokeF_sim (S : Setup) (C : Client κ) (F : Frail κ) (target : Path) (w : World κ) (n : Node) :
    World.invokeF S C F target w n = World.invoke S C target w n ∨
    ((World.invokeF S C F target w n).2 = .panic ∧
      (World.invokeF S C F target w n).1.hits <+: (World.invoke S C target w n).1.hits) := by
  unfold World.invokeF
  cases hp : w.guard.positions with
  | none => exact .inl rfl
  | some ps =>
    simp only [World.invoke, hp]
    rcases iterateF_sim S C F target ps.list.2 { w with guard := { w.guard with positions := some ps.list.1 } } ⟨n, []⟩ with h | h
    · exact .inl (by rw [h])
    · exact .inr h

theorem mortal_extends (S : Setup) (C : Client κ) (F : Frail κ) (tree target : Path) :
    Extends (S.mortal C F tree target) (S.env C tree target) where
  descend _ _ _ h := (notify_calm h).symm
  ascend _ _ _ h := (notify_calm h).symm
  invoke w n h := by
    rcases invokeF_sim S C F target w n with h' | h'
    · exact h'.symm
    · exact absurd h'.1 h
  ask w n re a h := by
    simp only [Setup.mortal] at h ⊢
    cases hF : F.skip w.client n re with
    | some k => rw [hF] at h; cases h
    | none =>
      rw [hF] at h
      simp only [Option.some.injEq] at h
      subst h
      rfl

theorem mortal_watched (S : Setup) (C : Client κ) (F : Frail κ) (tree target : Path) :
    Watched (S.mortal C F tree target) (S.env C tree target) World.hits where
  ascend w p d := notify_hits C F w _
  descend w p d _ := notify_hits C F w _
  rescue w n d := by simp only [Setup.mortal]; split <;> rfl
  ask w n re _ := by simp only [Setup.mortal]; split <;> rfl
  invoke w n h := by
    rcases invokeF_sim S C F target w n with h' | h'
    · simp only [Setup.mortal, Setup.env]; rw [h']; exact List.prefix_refl _
    · exact h'.2
  gDescend w p d := by simp only [Setup.env]; rw [publish_hits']; exact List.prefix_refl _
  gAscend w p d := by simp only [Setup.env]; rw [publish_hits']; exact List.prefix_refl _
  gInvoke w n := by
    simp only [Setup.env]
    rcases invoke_hits S C target w n with h | ⟨hit, h, -⟩ <;> rw [h]
    · exact List.prefix_refl _
    · exact List.prefix_append _ _
  gAsk _ _ _ := List.prefix_refl _
  gRescue _ _ _ := List.prefix_refl _

/-- Top (or a resume) with callbacks that panic, next to the one without: the same, or at least a panic or the error of a
panic that was caught. -/
def FSim (obs : σ → List α) (a : Final × MSt σ) (b : Final × St σ) : Prop :=
  (a.1 = b.1 ∧ Match b.2 a.2) ∨
  ((a.1 = .panic ∨ ∃ r : Rescue, a.1 = .done (some r.err)) ∧ obs a.2.ext <+: obs b.2.ext)

theorem FSim.prefix {obs : σ → List α} {a : Final × MSt σ} {b : Final × St σ} (h : FSim obs a b) : obs a.2.ext <+: obs b.2.ext := by
  rcases h with ⟨-, h⟩ | ⟨-, h⟩
  · rw [h.ext]; exact List.prefix_refl _
  · exact h

theorem preserved_obs {M : Mortal σ} {E : Env σ} {obs : σ → List α} (W : Watched M E obs) (O : List α) :
    Preserved E (fun s => O <+: obs s.ext) where
  descend _ _ _ h := h.trans (W.gDescend _ _ _)
  ascend _ _ _ h := h.trans (W.gAscend _ _ _)
  invoke _ _ h := h.trans (W.gInvoke _ _)
  ask _ _ _ h := h.trans (W.gAsk _ _ _)
  rescue _ _ h := h.trans (W.gRescue _ _ _)

/-- A fault handler that may panic, next to one that does not. -/
structure Faulty (fault : σ → Path → Err → σ × Option Err) (faultM : σ → Path → Err → σ × Option (Option Err))
    (obs : σ → List α) : Prop where
  calm : ∀ x p e v, (faultM x p e).2 = some v → fault x p e = ((faultM x p e).1, v)
  still : ∀ x p e, obs (faultM x p e).1 = obs x
  still' : ∀ x p e, obs (fault x p e).1 = obs x

theorem top_obs {M : Mortal σ} {E : Env σ} {obs : σ → List α} (W : Watched M E obs) {fault faultM}
    (Q : Faulty fault faultM obs) (c : Nav) (pre tp : Path) (r : RootStat) (s : St σ) (O : List α) (h : O <+: obs s.ext) :
    O <+: obs (top c E fault pre tp r s).2.ext := by
  cases r with
  | error e => simp only [top]; rw [Q.still']; exact h
  | found t => exact traverse_inv (preserved_obs W O) c t [] pre s h

theorem topM_sim {M : Mortal σ} {E : Env σ} {obs : σ → List α} (X : Extends M E) (W : Watched M E obs) {fault faultM}
    (Q : Faulty fault faultM obs) (query : σ → Path → Bool) (c : Nav) (pre tp : Path) (r : RootStat) {s : St σ} {q : MSt σ}
    (hm : Match s q) : FSim obs (topM c M query faultM pre tp r q) (top c E fault pre tp r s) := by
  have hgrow := top_obs W Q c pre tp r s (obs s.ext) (List.prefix_refl _)
  unfold topM
  split
  · refine .inr ⟨.inl rfl, ?_⟩
    rw [← hm.ext]
    exact hgrow
  · cases r with
    | error e =>
      rcases hF : faultM q.ext tp e with ⟨x, v⟩
      have ho := Q.still q.ext tp e
      rw [hF] at ho
      cases v with
      | none =>
        refine .inr ⟨.inl (by simp [hF]), ?_⟩
        simp only [hF]
        simp only at ho
        rw [ho, ← hm.ext]; exact hgrow
      | some v =>
        have := Q.calm q.ext tp e v (by rw [hF])
        rw [hF] at this
        refine .inl ⟨by simp [hF, top, hm.ext, this], ?_⟩
        exact ⟨hm.depth, by simp [hF, top, hm.ext, this], hm.log⟩
    | found t =>
      obtain ⟨l, -, -, h⟩ := traverseM_sim X W c t [] pre s q hm
      simp only [top]
      rcases h with ⟨-, h1, -, h2⟩ | ⟨l₁, k, l₂, -, hw, hg⟩
      · exact .inl ⟨by rw [h1], h2⟩
      · refine .inr ⟨?_, hg.2⟩
        by_cases ho : (traverseM c M [] pre t q).1 = .panic
        · exact .inl (by rw [ho]; rfl)
        · obtain ⟨pr, r, h1, -⟩ := hw.result ho
          exact .inr ⟨r, by rw [h1]; rfl⟩

theorem seed_obs {M : Mortal σ} {E : Env σ} {obs : σ → List α} (W : Watched M E obs) {fault faultM}
    (Q : Faulty fault faultM obs) (c : Nav) (stat : Path → RootStat) (parent : Path) (ns : List String) (O : List α) :
    ∀ s : St σ, O <+: obs s.ext → O <+: obs (seed c E fault stat parent ns s).2.ext := by
  induction ns with
  | nil => intro s h; exact h
  | cons n ns ih =>
    intro s h
    rw [seed]
    have := top_obs W Q c parent (parent ++ [n]) (stat (parent ++ [n])) s O h
    rcases hT : top c E fault parent (parent ++ [n]) (stat (parent ++ [n])) s with ⟨f, s1⟩
    rw [hT] at this
    rcases f with (_ | _) | _ <;> simp only
    · exact ih s1 this
    · exact this
    · exact this

theorem seedM_sim {M : Mortal σ} {E : Env σ} {obs : σ → List α} (X : Extends M E) (W : Watched M E obs) {fault faultM}
    (Q : Faulty fault faultM obs) (query : σ → Path → Bool) (c : Nav) (stat : Path → RootStat) (parent : Path) (ns : List String) :
    ∀ (s : St σ) (q : MSt σ), Match s q →
      FSim obs (seedM c M query faultM stat parent ns q) (seed c E fault stat parent ns s) := by
  induction ns with
  | nil => intro s q hm; exact .inl ⟨rfl, hm⟩
  | cons n ns ih =>
    intro s q hm
    rw [seed, seedM]
    have h := topM_sim X W Q query c parent (parent ++ [n]) (stat (parent ++ [n])) hm
    rcases hT : topM c M query faultM parent (parent ++ [n]) (stat (parent ++ [n])) q with ⟨f, q1⟩
    rcases hT' : top c E fault parent (parent ++ [n]) (stat (parent ++ [n])) s with ⟨f', s1⟩
    rw [hT, hT'] at h
    rcases h with ⟨rfl, h⟩ | ⟨hf, h⟩
    · rcases f with (_ | _) | _ <;> simp only
      · exact ih s1 q1 h
      · exact .inl ⟨rfl, h⟩
      · exact .inl ⟨rfl, h⟩
    · have hg : obs q1.ext <+: obs (match ((f', s1) : Final × St σ) with
          | (.done none, s) => seed c E fault stat parent ns s
          | r => r).2.ext := by
        rcases f' with (_ | _) | _ <;> simp only
        · exact seed_obs W Q c stat parent ns _ s1 h
        · exact h
        · exact h
      rcases hf with hf | ⟨r, hf⟩ <;> simp only at hf <;> subst hf
      · exact .inr ⟨.inl rfl, hg⟩
      · exact .inr ⟨.inr ⟨r, rfl⟩, hg⟩

theorem crown_obs {M : Mortal σ} {E : Env σ} {obs : σ → List α} (W : Watched M E obs) {fault faultM}
    (Q : Faulty fault faultM obs) (c : Nav) (stat : Path → RootStat) (disk : Disk) (tree : Path) (rp : List String) (O : List α) :
    ∀ inc (s : St σ), O <+: obs s.ext → O <+: obs (crown c E fault stat disk tree rp inc s).2.2.ext := by
  induction rp with
  | nil => intro inc s h; rw [crown]; split <;> exact h
  | cons child rp ih =>
    intro inc s h
    rw [crown]
    split
    · exact h
    · cases following c disk rp.reverse child inc with
      | error e => exact h
      | ok names =>
        simp only
        have := seed_obs W Q c stat rp.reverse names O s h
        rcases hT : seed c E fault stat rp.reverse names s with ⟨f, s1⟩
        rw [hT] at this
        rcases f with (_ | _) | _ <;> simp only
        · exact ih false s1 this
        · exact this
        · exact this

theorem crownM_sim {M : Mortal σ} {E : Env σ} {obs : σ → List α} (X : Extends M E) (W : Watched M E obs) {fault faultM}
    (Q : Faulty fault faultM obs) (query : σ → Path → Bool) (c : Nav) (stat : Path → RootStat) (disk : Disk) (tree : Path)
    (rp : List String) : ∀ inc (s : St σ) (q : MSt σ), Match s q →
      FSim obs ((crownM c M query faultM stat disk tree rp inc q).1, (crownM c M query faultM stat disk tree rp inc q).2.2)
        ((crown c E fault stat disk tree rp inc s).1, (crown c E fault stat disk tree rp inc s).2.2) ∧
      ((crownM c M query faultM stat disk tree rp inc q).1 = .panic ∨
        (∃ r : Rescue, (crownM c M query faultM stat disk tree rp inc q).1 = .done (some r.err)) ∨
        (crownM c M query faultM stat disk tree rp inc q).2.1 = (crown c E fault stat disk tree rp inc s).2.1) := by
  induction rp with
  | nil =>
    intro inc s q hm
    rw [crown, crownM]
    split
    · exact ⟨.inl ⟨rfl, hm⟩, .inr (.inr rfl)⟩
    · exact ⟨.inl ⟨rfl, hm⟩, .inl rfl⟩
  | cons child rp ih =>
    intro inc s q hm
    have hall := crown_obs W Q c stat disk tree (child :: rp) (obs s.ext) inc s (List.prefix_refl _)
    rw [crownM]
    split
    · rename_i h
      rw [crown, if_pos h]
      exact ⟨.inl ⟨rfl, hm⟩, .inr (.inr rfl)⟩
    · rename_i h
      split
      · refine ⟨.inr ⟨.inl rfl, ?_⟩, .inl rfl⟩
        rw [← hm.ext]; exact hall
      · rw [crown, if_neg h]
        cases following c disk rp.reverse child inc with
        | error e => exact ⟨.inl ⟨rfl, hm⟩, .inr (.inr rfl)⟩
        | ok names =>
          simp only
          have hs := seedM_sim X W Q query c stat rp.reverse names s q hm
          rcases hT : seedM c M query faultM stat rp.reverse names q with ⟨f, q1⟩
          rcases hT' : seed c E fault stat rp.reverse names s with ⟨f', s1⟩
          rw [hT, hT'] at hs
          rcases hs with ⟨rfl, hs⟩ | ⟨hf, hs⟩
          · rcases f with (_ | _) | _ <;> simp only
            · exact ih false s1 q1 hs
            · exact ⟨.inl ⟨rfl, hs⟩, .inr (.inr trivial)⟩
            · exact ⟨.inl ⟨rfl, hs⟩, .inl trivial⟩
          · have hg : obs q1.ext <+: obs (match ((f', s1) : Final × St σ) with
                | (.done none, s) => crown c E fault stat disk tree rp false s
                | (f, s) => (f, false, s)).2.2.ext := by
              rcases f' with (_ | _) | _ <;> simp only
              · exact crown_obs W Q c stat disk tree rp _ false s1 hs
              · exact hs
              · exact hs
            rcases hf with hf | ⟨r, hf⟩ <;> simp only at hf <;> subst hf
            · exact ⟨.inr ⟨.inl rfl, hg⟩, .inl rfl⟩
            · exact ⟨.inr ⟨.inr ⟨r, rfl⟩, hg⟩, .inr (.inl ⟨r, rfl⟩)⟩

theorem fault_faulty (o : Options κ) (F : Frail κ) : Faulty o.fault (o.faultF F) World.hits where
  calm w p e v h := by
    unfold Options.faultF at h ⊢
    cases hF : F.fault w.client p e with
    | some k => rw [hF] at h; cases h
    | none =>
      rw [hF] at h
      simp only [Option.some.injEq] at h
      subst h
      rfl
  still w p e := by unfold Options.faultF; split <;> rfl
  still' w p e := rfl

end Traverse
