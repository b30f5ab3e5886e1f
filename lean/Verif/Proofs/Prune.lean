import Verif.Proofs.RunLemmas
namespace Traverse
variable {σ : Type}

@[simp] theorem declined_append (sub) (a b : List Ev) :
    declined sub (a ++ b) = declined sub a ++ declined sub b := by simp [declined]

theorem outside_append (a b : List Path) (n : Node) : outside (a ++ b) n = (outside a n && outside b n) := by
  simp only [outside, List.mem_append, or_imp, forall_and, Bool.decide_and]

theorem declined_sub_items {sub d0 l evs f} (h : Run sub d0 l evs f) :
    ∀ p ∈ declined sub evs, ∃ it ∈ l, it.node.path = p := by
  intro p hp
  simp only [declined, List.mem_filterMap] at hp
  obtain ⟨ev, hev, hp⟩ := hp
  rcases h.mem ev hev with ⟨it, hit, hn⟩ | ⟨it, hit, cur, r, rfl, _⟩
  · refine ⟨it, hit, ?_⟩
    cases ev with
    | invoke n r =>
      simp only [Ev.nodeIs] at hn; subst hn
      rcases r with (_ | _) | _ <;> simp_all
    | ask n re sk e =>
      simp only [Ev.nodeIs] at hn; subst hn
      simp only at hp
      split at hp <;> simp_all
    | _ => simp [Ev.nodeIs] at hn
  · simp at hp

theorem Step.declined_travel {sub it evs} (h : Step sub it evs .travel) : declined sub evs = [] := by
  generalize ha : Act.travel = a at h
  cases h with
  | panicked => cases ha
  | file => cases ha
  | failed => cases ha
  | asked sk e h => simp [declined, ← ha]
  | askedOnly sk e h hn => simp [declined, ← ha]

theorem Step.declined_done {sub it evs o} (h : Step sub it evs (.done o)) (hs : sub ≠ .files) :
    declined sub evs = [it.node.path] ∨ (o = .panic ∧ declined sub evs = []) := by
  generalize ha : Act.done o = a at h
  cases h with
  | panicked => cases ha; exact Or.inr ⟨rfl, rfl⟩
  | file e h => exact absurd h hs
  | failed e h => cases ha; exact Or.inl rfl
  | asked sk e h =>
    refine Or.inl ?_
    simp [declined, ← ha]
  | askedOnly sk e h hn => exact absurd h hs

theorem filter_prefix_of_eq {α} {P Q : α → Bool} {l : List α} (h : ∀ x ∈ l, P x = Q x) : l.filter P = l.filter Q :=
  List.filter_congr h

/-- Skipping prunes exactly what lies below the declined nodes. -/
theorem Run.pruned {sub d0 l evs f} (h : Run sub d0 l evs f) (hsub : sub ≠ .files) (hpre : PreOrder l)
    (hask : ∀ n re sk e, Ev.ask n re sk e ∈ evs → e = none ∨ sk = .none)
    (hroot : ∀ it ∈ l, it.node.depth = d0 → ∀ it' ∈ l, it.node.path <+: it'.node.path) :
    invoked evs <+: (l.map (·.node)).filter (outside (declined sub evs)) ∧
    ((∀ n r, Ev.invoke n r ∈ evs → r ≠ .panic ∧ ∀ e, r = .ok (some e) → ¬ Genuine e) →
      invoked evs = (l.map (·.node)).filter (outside (declined sub evs)) ∧
      (f = .done none ∨ ∃ n e, Ev.invoke n (.ok (some e)) ∈ evs ∧ n.depth = d0 ∧ f = .done (some e))) := by
  have hinv : ∀ {it : Item} {evs a}, Step sub it evs a → invoked evs = [it.node] := by
    intro it evs a hs; rw [hs.invoked]; simp [hsub]
  -- head of the list survives
  have hhead : ∀ {it : Item} {rest : List Item} {ps : List Path}, PreOrder (it :: rest) →
      (∀ p ∈ ps, p = it.node.path ∨ ∃ j ∈ rest, j.node.path = p) → outside ps it.node = true := by
    intro it rest ps hp hps
    simp only [outside, decide_eq_true_eq]
    intro p hpm ha
    rcases hps p hpm with rfl | ⟨j, hj, rfl⟩
    · exact ha.2 rfl
    · have := hp.pairwise
      rw [List.pairwise_cons] at this
      exact this.1 j hj ha.1
  -- the effect of declining `it` on the rest
  have hrest : ∀ {it : Item} {rest : List Item} {ps : List Path}, PreOrder (it :: rest) →
      (rest.map (·.node)).filter (outside (it.node.path :: ps)) =
      ((rest.dropWhile (fun j => decide (it.node.depth < j.node.depth))).map (·.node)).filter (outside ps) := by
    intro it rest ps hp
    conv => lhs; rw [← List.takeWhile_append_dropWhile (p := fun j : Item => decide (it.node.depth < j.node.depth)) (l := rest)]
    rw [List.map_append, List.filter_append]
    have h1 : ((rest.takeWhile (fun j => decide (it.node.depth < j.node.depth))).map (·.node)).filter
        (outside (it.node.path :: ps)) = [] := by
      rw [List.filter_eq_nil_iff]
      intro n hn
      obtain ⟨j, hj, rfl⟩ := List.mem_map.1 hn
      have := hp.1 j hj
      simp [outside, this]
    rw [h1, List.nil_append]
    apply List.filter_congr
    intro n hn
    obtain ⟨j, hj, rfl⟩ := List.mem_map.1 hn
    have := (hp.2.1 j hj).1
    have hna : ¬ Above it.node.path j.node.path := fun h => this h.1
    simp [outside, hna]
  induction h with
  | nil => simp [invoked, calls]
  | @travel it rest evs es f hs hr ih =>
    have ih := ih hpre.2.2 (fun n re sk e hh => hask n re sk e (by simp [hh]))
      (fun it hit hd it' hit' => hroot it (by simp [hit]) hd it' (by simp [hit']))
    have hd := hs.declined_travel
    have hps := declined_sub_items hr
    have hh : outside (declined sub es) it.node = true := hhead hpre (fun p hp => Or.inr (hps p hp))
    rw [invoked_append, hinv hs, declined_append, hd, List.nil_append, List.map_cons, List.filter_cons, if_pos hh]
    refine ⟨?_, ?_⟩
    · simpa using ih.1
    · intro hg
      obtain ⟨e1, e2⟩ := ih.2 (fun n r hm => hg n r (by simp [hm]))
      refine ⟨by simp [e1], ?_⟩
      rcases e2 with e2 | ⟨n, e, hm, hd, hf⟩
      · exact Or.inl e2
      · exact Or.inr ⟨n, e, by simp [hm], hd, hf⟩
  | @root it rest evs o hs hd =>
    have hall : ∀ j ∈ rest, Above it.node.path j.node.path := by
      intro j hj
      refine ⟨hroot it (by simp) hd j (by simp [hj]), fun he => ?_⟩
      have := hpre.pairwise
      rw [List.pairwise_cons] at this
      exact this.1 j hj (by rw [he]; exact List.prefix_refl _)
    rw [hinv hs, List.map_cons]
    rcases hs.declined_done hsub with hdec | ⟨rfl, hdec⟩
    · rw [hdec]
      have hh : outside [it.node.path] it.node = true := hhead hpre (by simp)
      have hr : (rest.map (·.node)).filter (outside [it.node.path]) = [] := by
        rw [List.filter_eq_nil_iff]
        intro n hn
        obtain ⟨j, hj, rfl⟩ := List.mem_map.1 hn
        simp [outside, hall j hj]
      rw [List.filter_cons, if_pos hh, hr]
      refine ⟨List.prefix_refl _, fun hg => ⟨rfl, ?_⟩⟩
      generalize ha : Act.done o = a at hs
      cases hs with
      | panicked => exact absurd rfl ((hg it.node .panic (by simp)).1)
      | file e h => exact absurd h hsub
      | failed e h => cases ha; exact Or.inr ⟨it.node, e, by simp, hd, rfl⟩
      | asked sk e h =>
        rcases hask it.node it.readErr sk e (by simp) with rfl | rfl
        · left
          cases hsb : sub <;> simp only [hsb, verdict] at ha <;>
            (split at ha <;> try (split at ha)) <;> cases ha <;> rfl
        · exfalso
          cases hsb : sub <;> simp_all [verdict]
      | askedOnly sk e h => exact absurd h hsub
    · rw [hdec]
      have hh : outside [] it.node = true := by simp [outside]
      rw [List.filter_cons, if_pos hh]
      refine ⟨by simp, fun hg => ?_⟩
      exfalso
      generalize ha : Act.done Out.panic = a at hs
      cases hs with
      | panicked => exact absurd rfl ((hg it.node .panic (by simp)).1)
      | file e h => exact absurd h hsub
      | failed e h => cases ha
      | asked sk e h =>
        cases hsb : sub <;> simp only [hsb, verdict] at ha <;>
            (split at ha <;> try (split at ha)) <;> cases ha
      | askedOnly sk e h => exact absurd h hsub
  | @next it rest evs p e es f hs hd he hr ih =>
    have ih := ih (hpre.2.2.dropWhile _) (fun n re sk e hh => hask n re sk e (by simp [hh]))
      (fun it hit hd it' hit' => hroot it (by simp [List.dropWhile_subset _ hit]) hd it'
        (by simp [List.dropWhile_subset _ hit']))
    rcases hs.declined_done hsub with hdec | ⟨h, _⟩
    · have hps := declined_sub_items hr
      have hh : outside (it.node.path :: declined sub es) it.node = true := hhead hpre (by
        intro p hp
        rcases List.mem_cons.1 hp with rfl | hp
        · exact Or.inl rfl
        · obtain ⟨j, hj, h⟩ := hps p hp
          exact Or.inr ⟨j, List.dropWhile_subset _ hj, h⟩)
      rw [invoked_append, hinv hs, declined_append, hdec, List.singleton_append, List.singleton_append,
        List.map_cons, List.filter_cons, if_pos hh, hrest hpre]
      refine ⟨by simpa using ih.1, fun hg => ?_⟩
      obtain ⟨e1, e2⟩ := ih.2 (fun n r hm => hg n r (by simp [hm]))
      refine ⟨by simp [e1], ?_⟩
      rcases e2 with e2 | ⟨n, e, hm, hd, hf⟩
      · exact Or.inl e2
      · exact Or.inr ⟨n, e, by simp [hm], hd, hf⟩
    · cases h
  | @leave it rest evs e es f hs hd he ha' hr ih =>
    exfalso
    generalize ha : Act.done (Out.ret false (some e)) = a at hs
    cases hs with
    | panicked => cases ha
    | file e h => exact absurd h hsub
    | failed e h => cases ha
    | asked sk e h =>
      rcases hask it.node it.readErr sk e (by simp) with rfl | rfl <;>
      cases hsb : sub <;> simp only [hsb, verdict] at ha <;>
        (split at ha <;> try (split at ha)) <;> simp_all
    | askedOnly sk e h => exact absurd h hsub
  | @leaveTop it rest evs e hs hd he ha' =>
    exfalso
    generalize ha : Act.done (Out.ret false (some e)) = a at hs
    cases hs with
    | panicked => cases ha
    | file e h => exact absurd h hsub
    | failed e h => cases ha
    | asked sk e h =>
      rcases hask it.node it.readErr sk e (by simp) with rfl | rfl <;>
      cases hsb : sub <;> simp only [hsb, verdict] at ha <;>
        (split at ha <;> try (split at ha)) <;> simp_all
    | askedOnly sk e h => exact absurd h hsub
  | @stop it rest evs p e hs hd he =>
    have hdec : declined sub evs = [it.node.path] := by
      rcases hs.declined_done hsub with h | ⟨h, _⟩
      · exact h
      · cases h
    have hh : outside [it.node.path] it.node = true := hhead hpre (by simp)
    rw [hinv hs, hdec, List.map_cons, List.filter_cons, if_pos hh]
    refine ⟨by simp, fun hg => ?_⟩
    exfalso
    generalize ha : Act.done (Out.ret p (some e)) = a at hs
    cases hs with
    | panicked => cases ha
    | file e h => exact absurd h hsub
    | failed e' h =>
      cases ha
      refine (hg it.node (.ok (some e)) (by simp)).2 e rfl ?_
      simpa [stops, Err.isSentinel, Genuine] using he
    | asked sk e h =>
      rcases hask it.node it.readErr sk e (by simp) with rfl | rfl <;>
      cases hsb : sub <;> simp only [hsb, verdict] at ha <;>
        (split at ha <;> try (split at ha)) <;> simp_all
    | askedOnly sk e h => exact absurd h hsub
  | @crash it rest evs cur r hs hd hp =>
    have hdec : declined sub (evs ++ [.rescue cur (it.node.depth - 1) r]) = declined sub evs := by
      simp [declined]
    have hh : outside (declined sub evs) it.node = true := hhead hpre (by
      intro p hp
      rcases hs.declined_done hsub with h | ⟨_, h⟩ <;> rw [h] at hp <;> simp at hp
      exact Or.inl hp)
    rw [hdec, invoked_append, hinv hs, List.map_cons, List.filter_cons, if_pos hh]
    refine ⟨by simp [invoked, calls], fun hg => ?_⟩
    exfalso
    generalize ha : Act.done Out.panic = a at hs
    cases hs with
    | panicked => exact absurd rfl ((hg it.node .panic (by simp)).1)
    | file e h => exact absurd h hsub
    | failed e h => cases ha
    | asked sk e h =>
      cases hsb : sub <;> simp only [hsb, verdict] at ha <;>
          (split at ha <;> try (split at ha)) <;> cases ha
    | askedOnly sk e h => exact absurd h hsub

end Traverse
