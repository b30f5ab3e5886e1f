import Verif.Proofs.Order
namespace Traverse
variable {σ : Type}

/-- The node a call is about (for a rescue: the directory being travelled). -/
def Ev.nodeIs (ev : Ev) (n : Node) : Prop :=
  match ev with
  | .invoke m _ => m = n
  | .ask m _ _ _ => m = n
  | _ => False

theorem Step.node {sub it evs a} (h : Step sub it evs a) : ∀ ev ∈ evs, ev.nodeIs it.node := by
  cases h <;> simp [Ev.nodeIs]

theorem Step.invoked {sub it evs a} (h : Step sub it evs a) :
    invoked evs = if sub = .files ∧ it.node.isDir = true then [] else [it.node] := by
  cases h <;> simp_all [Traverse.invoked, calls]

/-- Calls are made for items only, in list order. -/
theorem Run.sublist {sub d0 l evs f} (h : Run sub d0 l evs f) : (invoked evs).Sublist (l.map (·.node)) := by
  have key : ∀ {it : Item} {evs a}, Step sub it evs a → (invoked evs).Sublist [it.node] := by
    intro it evs a hs
    rw [hs.invoked]; split <;> simp
  have cons : ∀ {it : Item} {evs a es} {rest : List Item}, Step sub it evs a →
      (invoked es).Sublist (rest.map (·.node)) → (invoked (evs ++ es)).Sublist ((it :: rest).map (·.node)) := by
    intro it evs a es rest hs hr
    rw [invoked_append, List.map_cons]
    exact (key hs).append hr
  have drop : ∀ (P : Item → Bool) (l : List Item), ((l.dropWhile P).map (·.node)).Sublist (l.map (·.node)) :=
    fun P l => (List.dropWhile_sublist P).map _
  induction h with
  | nil => simp [invoked, calls]
  | travel hs _ ih => exact cons hs ih
  | root hs _ => simpa using cons (es := []) hs (by simp [invoked, calls])
  | next hs _ _ _ ih => exact cons hs (ih.trans (drop _ _))
  | leave hs _ _ _ _ ih => exact cons hs (ih.trans (drop _ _))
  | leaveTop hs _ _ _ => simpa using cons (es := []) hs (by simp [invoked, calls])
  | stop hs _ _ => simpa using cons (es := []) hs (by simp [invoked, calls])
  | crash hs _ _ => exact cons hs (by simp [invoked, calls])

theorem Run.mem {sub d0 l evs f} (h : Run sub d0 l evs f) : ∀ ev ∈ evs,
    (∃ it ∈ l, ev.nodeIs it.node) ∨
    (∃ it ∈ l, ∃ cur r, ev = .rescue cur (it.node.depth - 1) r ∧ it.node.parents.head? = some cur) := by
  have key : ∀ {it : Item} {rest : List Item} {evs a}, Step sub it evs a → ∀ ev ∈ evs,
      (∃ k ∈ it :: rest, ev.nodeIs k.node) ∨
      (∃ k ∈ it :: rest, ∃ cur r, ev = .rescue cur (k.node.depth - 1) r ∧ k.node.parents.head? = some cur) :=
    fun hs ev hev => Or.inl ⟨_, by simp, hs.node ev hev⟩
  have lift : ∀ {it : Item} {l' l : List Item} {ev : Ev}, (∀ j ∈ l', j ∈ l) →
      ((∃ it ∈ l', ev.nodeIs it.node) ∨
       (∃ it ∈ l', ∃ cur r, ev = .rescue cur (it.node.depth - 1) r ∧ it.node.parents.head? = some cur)) →
      ((∃ k ∈ it :: l, ev.nodeIs k.node) ∨
       (∃ k ∈ it :: l, ∃ cur r, ev = .rescue cur (k.node.depth - 1) r ∧ k.node.parents.head? = some cur)) := by
    intro it l' l ev hsub h
    rcases h with ⟨j, hj, h⟩ | ⟨j, hj, h⟩
    · exact Or.inl ⟨j, by simp [hsub j hj], h⟩
    · exact Or.inr ⟨j, by simp [hsub j hj], h⟩
  induction h with
  | nil => simp
  | travel hs _ ih =>
    intro ev hev
    rcases List.mem_append.1 hev with hev | hev
    · exact key hs ev hev
    · exact lift (fun _ h => h) (ih ev hev)
  | root hs _ => exact key hs
  | next hs _ _ _ ih =>
    intro ev hev
    rcases List.mem_append.1 hev with hev | hev
    · exact key hs ev hev
    · exact lift (fun _ h => (List.dropWhile_subset _ h)) (ih ev hev)
  | leave hs _ _ _ _ ih =>
    intro ev hev
    rcases List.mem_append.1 hev with hev | hev
    · exact key hs ev hev
    · exact lift (fun _ h => (List.dropWhile_subset _ h)) (ih ev hev)
  | leaveTop hs _ _ _ => exact key hs
  | stop hs _ _ => exact key hs
  | crash hs _ hp =>
    intro ev hev
    rcases List.mem_append.1 hev with hev | hev
    · exact key hs ev hev
    · simp only [List.mem_singleton] at hev
      exact Or.inr ⟨_, by simp, _, _, hev, hp⟩

theorem Run.invoke_mem {sub d0 l evs f} (h : Run sub d0 l evs f) {n r} (hm : Ev.invoke n r ∈ evs) :
    ∃ it ∈ l, it.node = n := by
  rcases h.mem _ hm with ⟨it, hit, hn⟩ | ⟨_, _, _, _, h, _⟩
  · exact ⟨it, hit, hn.symm⟩
  · cases h

/-- If every answer lets the traversal go on, every item is presented and the result is nil. -/
theorem Run.accepting {sub d0 l evs f} (h : Run sub d0 l evs f)
    (hi : ∀ n r, Ev.invoke n r ∈ evs → r = .ok none)
    (ha : ∀ n re sk e, Ev.ask n re sk e ∈ evs → sk = .none ∧ e = none)
    (hre : sub = .files → ∀ it ∈ l, it.node.isDir = true → it.readErr ≠ none →
      ∀ it' ∈ l, ¬ Above it.node.path it'.node.path)
    (hleaf : sub = .files → ∀ it ∈ l, it.node.isDir = false → ∀ it' ∈ l, ¬ Above it.node.path it'.node.path)
    (hpre : PreOrder l) (hd0 : ∀ it ∈ l, d0 ≤ it.node.depth)
    (hroot : ∀ it ∈ l, it.node.depth = d0 → ∀ it' ∈ l, it.node.path <+: it'.node.path) :
    invoked evs = (l.map (·.node)).filter (fun n => !(decide (sub = .files) && n.isDir)) ∧ f = .done none := by
  -- an item whose own calls are all accepted is travelled, unless it is a file under `files`
  have key : ∀ {it : Item} {evs a}, Step sub it evs a →
      (∀ n r, Ev.invoke n r ∈ evs → r = .ok none) →
      (∀ n re sk e, Ev.ask n re sk e ∈ evs → sk = .none ∧ e = none) →
      (a = .travel ∨ (∃ p, a = .done (.ret p none) ∧ sub = .files ∧
        (it.node.isDir = false ∨ (it.node.isDir = true ∧ it.readErr ≠ none)))) := by
    intro it evs a hs hi ha
    cases hs with
    | panicked h => have := hi it.node .panic (by simp); cases this
    | file e h hn =>
      have := hi it.node (.ok e) (by simp)
      simp only [Reply.ok.injEq] at this
      subst this; exact Or.inr ⟨_, rfl, h, Or.inl hn⟩
    | failed e h => have := hi it.node (.ok (some e)) (by simp); cases this
    | asked sk e h =>
      obtain ⟨rfl, rfl⟩ := ha it.node it.readErr sk e (by simp)
      left; cases hsub : sub <;> simp_all [verdict]
    | askedOnly sk e h hn =>
      obtain ⟨rfl, rfl⟩ := ha it.node it.readErr sk e (by simp)
      by_cases hre : it.readErr = none
      · left; simp [verdict, h, hre]
      · right
        refine ⟨true, ?_, h, Or.inr ⟨hn, hre⟩⟩
        cases hr : it.readErr with
        | none => exact absurd hr hre
        | some e => simp [verdict, h]
  -- nothing is below a file or below a directory that cannot be read
  have hclosed : ∀ {l : List Item} {it : Item},
      (∀ it ∈ l, it.node.isDir = true → it.readErr ≠ none → ∀ it' ∈ l, ¬ Above it.node.path it'.node.path) →
      (∀ it ∈ l, it.node.isDir = false → ∀ it' ∈ l, ¬ Above it.node.path it'.node.path) →
      it ∈ l → (it.node.isDir = false ∨ (it.node.isDir = true ∧ it.readErr ≠ none)) →
      ∀ it' ∈ l, ¬ Above it.node.path it'.node.path := by
    intro l it h1 h2 hit h
    rcases h with h | ⟨h, h'⟩
    · exact h2 it hit h
    · exact h1 it hit h h'
  induction h with
  | nil => simp [invoked, calls]
  | @travel it rest evs es f hs hr ih =>
    have := ih (fun n r hh => hi n r (by simp [hh])) (fun n re sk e hh => ha n re sk e (by simp [hh]))
      (fun h it hit hn hr it' hit' => hre h it (by simp [hit]) hn hr it' (by simp [hit'])) (fun h it hit hn it' hit' => hleaf h it (by simp [hit]) hn it' (by simp [hit']))
      hpre.2.2 (fun it hit => hd0 it (by simp [hit]))
      (fun it hit hd it' hit' => hroot it (by simp [hit]) hd it' (by simp [hit']))
    refine ⟨?_, this.2⟩
    rw [invoked_append, hs.invoked, this.1, List.map_cons, List.filter_cons]
    by_cases h1 : sub = .files ∧ it.node.isDir = true
    · simp [h1]
    · rw [if_neg h1]
      have : (!(decide (sub = .files) && it.node.isDir)) = true := by
        clear hclosed key ih hleaf hre
        by_cases hs : sub = .files
        · cases hd : it.node.isDir with
          | false => simp
          | true => exact absurd ⟨hs, hd⟩ h1
        · simp [hs]
      simp only [this, if_true, List.singleton_append]
  | @root it rest evs o hs hd =>
    rcases key hs hi ha with h | ⟨p, h, hf, hn⟩
    · cases h
    · simp only [Act.done.injEq] at h
      subst h
      have hrest : rest = [] := by
        cases rest with
        | nil => rfl
        | cons j js =>
          exfalso
          have hp := hroot it (by simp) hd j (by simp)
          refine hclosed (hre hf) (hleaf hf) (it := it) (by simp) hn j (by simp) ⟨hp, fun he => ?_⟩
          have := hpre.pairwise
          simp only [List.pairwise_cons] at this
          exact this.1 j (by simp) (by rw [he]; exact List.prefix_refl _)
      subst hrest
      rw [hs.invoked]
      rcases hn with hn | ⟨hn, -⟩ <;> simp [hf, hn, Out.final]
  | @next it rest evs p e es f hs hd he hr ih =>
    rcases key hs (fun n r hh => hi n r (by simp [hh])) (fun n re sk e hh => ha n re sk e (by simp [hh])) with h | ⟨p', h, hf, hn⟩
    · cases h
    · have hdw : rest.dropWhile (fun j => decide (it.node.depth < j.node.depth)) = rest := by
        apply dropWhile_head
        intro j hj
        cases rest with
        | nil => simp at hj
        | cons k ks =>
          simp at hj; subst hj
          cases hdec : decide (it.node.depth < k.node.depth) with
          | false => rfl
          | true =>
            exfalso
            refine hclosed (hre hf) (hleaf hf) (it := it) (by simp) hn k (by simp) (hpre.1 k ?_)
            simp [List.takeWhile_cons, hdec]
      rw [hdw] at ih
      have := ih (fun n r hh => hi n r (by simp [hh])) (fun n re sk e hh => ha n re sk e (by simp [hh]))
        (fun h it hit hn hr it' hit' => hre h it (by simp [hit]) hn hr it' (by simp [hit'])) (fun h it hit hn it' hit' => hleaf h it (by simp [hit]) hn it' (by simp [hit']))
        hpre.2.2 (fun it hit => hd0 it (by simp [hit]))
        (fun it hit hd it' hit' => hroot it (by simp [hit]) hd it' (by simp [hit']))
      refine ⟨?_, this.2⟩
      rw [invoked_append, hs.invoked, this.1]
      rcases hn with hn | ⟨hn, -⟩ <;> simp [hf, hn]
  | leave hs hd he ha' hr ih =>
    rcases key hs (fun n r hh => hi n r (by simp [hh])) (fun n re sk e hh => ha n re sk e (by simp [hh])) with h | ⟨_, h, _⟩ <;> cases h
  | leaveTop hs hd he ha' =>
    rcases key hs hi ha with h | ⟨_, h, _⟩ <;> cases h
  | stop hs hd he =>
    rcases key hs hi ha with h | ⟨_, h, _⟩ <;> cases h
  | crash hs hd hp =>
    rcases key hs (fun n r hh => hi n r (by simp [hh])) (fun n re sk e hh => ha n re sk e (by simp [hh])) with h | ⟨_, h, _⟩ <;> cases h

theorem genuine_stops {p : Bool} {e : Err} (h : Genuine e) : e.isSentinel = false ∧ stops p e = true := by
  obtain ⟨h1, h2⟩ := h
  cases p <;> simp [Err.isSentinel, stops, h1, h2]

/-- The answer to a handler call that does not end the traversal: nil or a sentinel. -/
def Reply.Mild (r : Reply) : Prop := r = .ok none ∨ ∃ e, r = .ok (some e) ∧ ¬ Genuine e

theorem Step.mild {sub it evs a} (h : Step sub it evs a) {m r} (hm : Ev.invoke m r ∈ evs) :
    r = .ok none ∨ (∃ p e, r = .ok (some e) ∧ a = .done (.ret p (some e))) ∨ (r = .panic ∧ a = .done .panic) := by
  cases h with
  | panicked => simp at hm; exact Or.inr (Or.inr ⟨hm.2, rfl⟩)
  | file e => 
    simp at hm
    cases e with
    | none => exact Or.inl hm.2
    | some e => exact Or.inr (Or.inl ⟨_, e, hm.2, rfl⟩)
  | failed e => simp at hm; exact Or.inr (Or.inl ⟨_, e, hm.2, rfl⟩)
  | asked => simp at hm; exact Or.inl hm.2
  | askedOnly => simp at hm

/-- A genuine error is the last call and the result; all calls before it were answered by nil or a sentinel. -/
theorem Run.genuine {sub d0 l evs f} (h : Run sub d0 l evs f) {n e} (hm : Ev.invoke n (.ok (some e)) ∈ evs)
    (hg : Genuine e) : f = .done (some e) ∧ ∃ es, evs = es ++ [.invoke n (.ok (some e))] ∧
      ∀ m r, Ev.invoke m r ∈ es → r.Mild := by
  have key : ∀ {it : Item} {evs a}, Step sub it evs a → Ev.invoke n (.ok (some e)) ∈ evs →
      (∃ p, a = .done (.ret p (some e))) ∧ evs = [.invoke n (.ok (some e))] := by
    intro it evs a hs hm
    cases hs <;> simp_all
  have lift : ∀ {evs es : List Ev}, (∀ m r, Ev.invoke m r ∈ evs → r.Mild) →
      (∃ xs, es = xs ++ [.invoke n (.ok (some e))] ∧ ∀ m r, Ev.invoke m r ∈ xs → r.Mild) →
      ∃ xs, evs ++ es = xs ++ [.invoke n (.ok (some e))] ∧ ∀ m r, Ev.invoke m r ∈ xs → r.Mild := by
    intro evs es h1 ⟨xs, h2, h3⟩
    exact ⟨evs ++ xs, by rw [h2, List.append_assoc], fun m r hmr => (List.mem_append.1 hmr).elim (h1 m r) (h3 m r)⟩
  induction h with
  | nil => simp at hm
  | travel hs hr ih =>
    rcases List.mem_append.1 hm with hm | hm
    · obtain ⟨⟨p, h⟩, _⟩ := key hs hm; cases h
    · obtain ⟨h1, h2⟩ := ih hm
      refine ⟨h1, lift (fun m r hmr => ?_) h2⟩
      rcases hs.mild hmr with h | ⟨_, _, _, h⟩ | ⟨_, h⟩
      · exact Or.inl h
      · cases h
      · cases h
  | root hs hd =>
    obtain ⟨⟨p, h⟩, h2⟩ := key hs hm
    cases h
    exact ⟨rfl, [], by simpa using h2, by simp⟩
  | next hs hd he hr ih =>
    rcases List.mem_append.1 hm with hm | hm
    · obtain ⟨⟨p, h⟩, _⟩ := key hs hm
      cases h
      rcases he with he | ⟨_, x, he, hx⟩
      · cases he
      · cases he
        rw [(genuine_stops (p := true) hg).1] at hx; cases hx
    · obtain ⟨h1, h2⟩ := ih hm
      refine ⟨h1, lift (fun m r hmr => ?_) h2⟩
      rcases hs.mild hmr with h | ⟨_, x, hr', h⟩ | ⟨_, h⟩
      · exact Or.inl h
      · cases h
        rcases he with he | ⟨_, y, he, hy⟩
        · cases he
        · cases he
          exact Or.inr ⟨x, hr', fun hgx => by rw [(genuine_stops (p := true) hgx).1] at hy; cases hy⟩
      · cases h
  | leave hs hd he ha' hr ih =>
    rcases List.mem_append.1 hm with hm | hm
    · obtain ⟨⟨p, h⟩, _⟩ := key hs hm
      cases h
      rw [hg.2] at ha'; cases ha'
    · obtain ⟨h1, h2⟩ := ih hm
      refine ⟨h1, lift (fun m r hmr => ?_) h2⟩
      rcases hs.mild hmr with h | ⟨_, x, hr', h⟩ | ⟨_, h⟩
      · exact Or.inl h
      · cases h
        exact Or.inr ⟨_, hr', fun hgx => by rw [hgx.2] at ha'; cases ha'⟩
      · cases h
  | leaveTop hs hd he ha' =>
    obtain ⟨⟨p, h⟩, _⟩ := key hs hm
    cases h
    rw [hg.2] at ha'; cases ha'
  | stop hs hd he =>
    obtain ⟨⟨p, h⟩, h2⟩ := key hs hm
    cases h
    exact ⟨rfl, [], by simpa using h2, by simp⟩
  | crash hs hd hp =>
    rcases List.mem_append.1 hm with hm | hm
    · obtain ⟨⟨p, h⟩, _⟩ := key hs hm; cases h
    · simp at hm

/-- A panic is the last handler call; below the root it is followed by one rescue, at the root it escapes. -/
theorem Run.panicked {sub d0 l evs f} (h : Run sub d0 l evs f) {n} (hm : Ev.invoke n .panic ∈ evs)
    (hd0 : ∀ it ∈ l, d0 ≤ it.node.depth) :
    (n.depth = d0 ∧ f = .panic ∧ ∃ es, evs = es ++ [.invoke n .panic]) ∨
    (d0 < n.depth ∧ ∃ cur r es, n.parents.head? = some cur ∧ f = .done (some r.err) ∧
      evs = es ++ [.invoke n .panic, .rescue cur (n.depth - 1) r]) := by
  have key : ∀ {it : Item} {evs a}, Step sub it evs a → Ev.invoke n .panic ∈ evs →
      it.node = n ∧ a = .done .panic ∧ evs = [.invoke n .panic] := by
    intro it evs a hs hm
    cases hs <;> simp_all
  have lift : ∀ {f : Final} {evs es : List Ev},
      ((n.depth = d0 ∧ f = .panic ∧ ∃ xs, es = xs ++ [.invoke n .panic]) ∨
       (d0 < n.depth ∧ ∃ cur r xs, n.parents.head? = some cur ∧ f = .done (some r.err) ∧
        es = xs ++ [.invoke n .panic, .rescue cur (n.depth - 1) r])) →
      ((n.depth = d0 ∧ f = .panic ∧ ∃ xs, evs ++ es = xs ++ [.invoke n .panic]) ∨
       (d0 < n.depth ∧ ∃ cur r xs, n.parents.head? = some cur ∧ f = .done (some r.err) ∧
        evs ++ es = xs ++ [.invoke n .panic, .rescue cur (n.depth - 1) r])) := by
    intro f evs es h
    rcases h with ⟨a, b, xs, c⟩ | ⟨a, cur, r, xs, b, c, d⟩
    · exact Or.inl ⟨a, b, evs ++ xs, by rw [c]; simp⟩
    · exact Or.inr ⟨a, cur, r, evs ++ xs, b, c, by rw [d]; simp⟩
  induction h with
  | nil => simp at hm
  | travel hs hr ih =>
    rcases List.mem_append.1 hm with hm | hm
    · obtain ⟨_, h, _⟩ := key hs hm; cases h
    · exact lift (ih hm (fun it hit => hd0 it (by simp [hit])))
  | root hs hd =>
    obtain ⟨rfl, h, h2⟩ := key hs hm
    cases h
    exact Or.inl ⟨hd, rfl, [], by simpa using h2⟩
  | next hs hd he hr ih =>
    rcases List.mem_append.1 hm with hm | hm
    · obtain ⟨_, h, _⟩ := key hs hm; cases h
    · exact lift (ih hm (fun it hit => hd0 it (by simp [List.dropWhile_subset _ hit])))
  | leave hs hd he ha' hr ih =>
    rcases List.mem_append.1 hm with hm | hm
    · obtain ⟨_, h, _⟩ := key hs hm; cases h
    · exact lift (ih hm (fun it hit => hd0 it (by simp [List.dropWhile_subset _ hit])))
  | leaveTop hs hd he ha' => obtain ⟨_, h, _⟩ := key hs hm; cases h
  | stop hs hd he => obtain ⟨_, h, _⟩ := key hs hm; cases h
  | crash hs hd hp =>
    rcases List.mem_append.1 hm with hm | hm
    · obtain ⟨rfl, h, h2⟩ := key hs hm
      exact Or.inr ⟨hd, _, _, [], hp, rfl, by rw [h2]; simp⟩
    · simp at hm

/-- Only a panicking call leads to a panic. -/
theorem Run.final_panic {sub d0 l evs f} (h : Run sub d0 l evs f) (hf : f = .panic) : ∃ n, Ev.invoke n .panic ∈ evs := by
  induction h with
  | nil => cases hf
  | travel hs hr ih => obtain ⟨n, hn⟩ := ih hf; exact ⟨n, by simp [hn]⟩
  | @root it rest evs o hs hd =>
    cases o with
    | ret p e => cases hf
    | panic =>
      generalize ha : Act.done Out.panic = a at hs
      cases hs with
      | panicked => exact ⟨it.node, by simp⟩
      | file => cases ha
      | failed => cases ha
      | asked sk e h => cases sub <;> simp only [verdict] at ha <;> (split at ha <;> try (split at ha)) <;> cases ha
      | askedOnly sk e h => cases sub <;> simp only [verdict] at ha <;> (split at ha <;> try (split at ha)) <;> cases ha
  | next hs hd hee hr ih => obtain ⟨n, hn⟩ := ih hf; exact ⟨n, by simp [hn]⟩
  | leave hs hd hed hea hr ih => obtain ⟨n, hn⟩ := ih hf; exact ⟨n, by simp [hn]⟩
  | leaveTop => cases hf
  | stop => cases hf
  | crash => cases hf

/-- Neither a panicking call nor a rescue. -/
def Ev.Clean : Ev → Prop
  | .invoke _ .panic => False
  | .rescue .. => False
  | _ => True

theorem Step.clean {sub it evs a} (h : Step sub it evs a) :
    (∀ ev ∈ evs, ev.Clean) ∨ (a = .done .panic ∧ evs = [.invoke it.node .panic]) := by
  cases h with
  | panicked => exact Or.inr ⟨rfl, rfl⟩
  | _ => exact Or.inl (by simp [Ev.Clean])

theorem Run.cleanUp {sub d0 l evs f} (h : Run sub d0 l evs f) :
    (∀ ev ∈ evs, ev.Clean) ∨
    (∃ es n, evs = es ++ [.invoke n .panic] ∧ ∀ ev ∈ es, ev.Clean) ∨
    (∃ es n cur d r, evs = es ++ [.invoke n .panic, .rescue cur d r] ∧ ∀ ev ∈ es, ev.Clean) := by
  have go : ∀ {evs es : List Ev}, (∀ ev ∈ evs, ev.Clean) →
      ((∀ ev ∈ es, ev.Clean) ∨ (∃ es' n, es = es' ++ [.invoke n .panic] ∧ ∀ ev ∈ es', ev.Clean) ∨
        (∃ es' n cur d r, es = es' ++ [.invoke n .panic, .rescue cur d r] ∧ ∀ ev ∈ es', ev.Clean)) →
      ((∀ ev ∈ evs ++ es, ev.Clean) ∨ (∃ es' n, evs ++ es = es' ++ [.invoke n .panic] ∧ ∀ ev ∈ es', ev.Clean) ∨
        (∃ es' n cur d r, evs ++ es = es' ++ [.invoke n .panic, .rescue cur d r] ∧ ∀ ev ∈ es', ev.Clean)) := by
    intro evs es h1 h2
    rcases h2 with h2 | ⟨es', n, rfl, h2⟩ | ⟨es', n, cur, d, r, rfl, h2⟩
    · exact Or.inl (fun ev hev => (List.mem_append.1 hev).elim (h1 ev) (h2 ev))
    · exact Or.inr (Or.inl ⟨evs ++ es', n, by simp, fun ev hev => (List.mem_append.1 hev).elim (h1 ev) (h2 ev)⟩)
    · exact Or.inr (Or.inr ⟨evs ++ es', n, cur, d, r, by simp, fun ev hev => (List.mem_append.1 hev).elim (h1 ev) (h2 ev)⟩)
  induction h with
  | nil => exact Or.inl (by simp)
  | travel hs hr ih =>
    rcases hs.clean with h | ⟨h, _⟩
    · exact go h ih
    · cases h
  | root hs hd =>
    rcases hs.clean with h | ⟨_, h⟩
    · exact Or.inl h
    · exact Or.inr (Or.inl ⟨[], _, by simpa using h, by simp⟩)
  | next hs hd hee hr ih =>
    rcases hs.clean with h | ⟨h, _⟩
    · exact go h ih
    · cases h
  | leave hs hd hed hea hr ih =>
    rcases hs.clean with h | ⟨h, _⟩
    · exact go h ih
    · cases h
  | leaveTop hs hd hed hea =>
    rcases hs.clean with h | ⟨h, _⟩
    · exact Or.inl h
    · cases h
  | stop hs hd hst =>
    rcases hs.clean with h | ⟨h, _⟩
    · exact Or.inl h
    · cases h
  | @crash it rest evs cur r hs hd hp =>
    have h : evs = [.invoke it.node .panic] := by
      generalize ha : Act.done Out.panic = a at hs
      cases hs with
      | panicked => rfl
      | file => cases ha
      | failed => cases ha
      | asked sk e h => cases sub <;> simp only [verdict] at ha <;> (split at ha <;> try (split at ha)) <;> cases ha
      | askedOnly sk e h => cases sub <;> simp only [verdict] at ha <;> (split at ha <;> try (split at ha)) <;> cases ha
    subst h
    exact Or.inr (Or.inr ⟨[], _, cur, _, r, rfl, by simp⟩)

theorem Run.clean_before {sub d0 l evs f} (h : Run sub d0 l evs f) {es n cur d r}
    (he : evs = es ++ [.invoke n .panic, .rescue cur d r]) : ∀ ev ∈ es, ev.Clean := by
  rcases h.cleanUp with h | ⟨es', n', h, _⟩ | ⟨es', n', cur', d', r', h, hc⟩
  · exfalso; exact h (.rescue cur d r) (by rw [he]; simp)
  · exfalso
    rw [he] at h
    have := congrArg List.getLast? h
    simp at this
  · rw [he] at h
    have := List.append_inj' h rfl
    rw [this.1]; exact hc

end Traverse
