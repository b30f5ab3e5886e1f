import Verif.Proofs.Nav2
import Verif.Proofs.Prune
/-
The Files subscription and skip answers: an answer SkipAll leaves the rest of the file's directory.
-/
namespace Traverse
variable {σ : Type}

theorem pair_sublist_cons {α} {a b x : α} {l : List α} (h : [a, b].Sublist (x :: l)) :
    [a, b].Sublist l ∨ (a = x ∧ [b].Sublist l) := by
  cases h with
  | cons _ h => exact Or.inl h
  | cons_cons _ h => exact Or.inr ⟨rfl, h⟩

theorem dropWhile_all_nil {α} {P : α → Bool} {l : List α} (h : ∀ x ∈ l, P x = true) : l.dropWhile P = [] := by
  induction l with
  | nil => rfl
  | cons x xs ih =>
    rw [List.dropWhile_cons, if_pos (h x (by simp))]
    exact ih (fun y hy => h y (by simp [hy]))

/-- Behind an item below the root, the items down to its depth are in its directory, the others are not. -/
theorem items_directory (c : Nav) (t : Tree) (hd : t.Distinct) (ps pp d) (l1 rest : List Item) (it : Item)
    (he : items c ps pp d t = l1 ++ it :: rest) (hdep : d < it.node.depth) :
    (∀ j ∈ rest.takeWhile (fun j => decide (it.node.depth ≤ j.node.depth)), it.node.path.dropLast <+: j.node.path) ∧
    (∀ j ∈ rest.dropWhile (fun j => decide (it.node.depth ≤ j.node.depth)), ¬ it.node.path.dropLast <+: j.node.path) := by
  have hpo := items_preOrder c t hd ps pp d
  have hit : it ∈ items c ps pp d t := by rw [he]; simp
  obtain ⟨hpx, hdx⟩ := items_path c t ps pp d it hit
  have hlen : pp.length + 1 < it.node.path.length := by omega
  have hroot : (pp ++ [t.name]) <+: it.node.path.dropLast := by
    have h1 : it.node.path.dropLast <+: it.node.path := List.dropLast_prefix _
    apply List.prefix_of_prefix_length_le hpx h1
    simp; omega
  obtain ⟨q, hq, hqp⟩ := items_ancestor c t ps pp d it hit _ hroot (List.dropLast_prefix _)
  obtain ⟨_, hqd⟩ := items_path c t ps pp d q hq
  have hqdep : q.node.depth = it.node.depth - 1 := by
    rw [hqp] at hqd; simp at hqd; omega
  -- q stands before it
  rw [he] at hq
  have hqne : q ≠ it := by intro h; rw [h] at hqdep; omega
  have hpw := hpo.pairwise
  rw [he] at hpw
  have hql1 : q ∈ l1 := by
    rcases List.mem_append.1 hq with h | h
    · exact h
    · rcases List.mem_cons.1 h with h | h
      · exact absurd h hqne
      · exfalso
        have := (List.pairwise_append.1 hpw).2.1
        rw [List.pairwise_cons] at this
        exact this.1 q h (by rw [hqp]; exact List.dropLast_prefix _)
  obtain ⟨a, b, rfl⟩ := List.append_of_mem hql1
  rw [he] at hpo
  have hpoq : PreOrder (q :: (b ++ it :: rest)) := by
    have : ∀ (x y : List Item), PreOrder (x ++ y) → PreOrder y := by
      intro x y h
      induction x with
      | nil => exact h
      | cons z zs ih => exact ih h.2.2
    apply this a
    simpa using hpo
  obtain ⟨h1, h2, _⟩ := hpoq
  have hP : (fun j : Item => decide (q.node.depth < j.node.depth)) = (fun j => decide (it.node.depth ≤ j.node.depth)) := by
    funext j; rw [hqdep]
    have : (it.node.depth - 1 < j.node.depth) = (it.node.depth ≤ j.node.depth) := by
      apply propext; omega
    simp [this]
  rw [hP] at h1 h2
  have hall : ∀ j ∈ b ++ [it], (fun j : Item => decide (it.node.depth ≤ j.node.depth)) j = true := by
    intro j hj
    rcases List.mem_append.1 hj with hj | hj
    · cases hdj : decide (it.node.depth ≤ j.node.depth) with
      | true => exact hdj
      | false =>
        exfalso
        -- j would start the dropWhile part, which then contains it
        have : it ∈ (b ++ it :: rest).dropWhile (fun j => decide (it.node.depth ≤ j.node.depth)) := by
          obtain ⟨b1, b2, rfl⟩ := List.append_of_mem hj
          have key : ∀ (x : List Item) y, it ∈ y → it ∈ (x ++ j :: y).dropWhile (fun j => decide (it.node.depth ≤ j.node.depth)) := by
            intro x y hy
            induction x with
            | nil => simp [List.dropWhile_cons, hdj, hy]
            | cons z zs ih =>
              rw [List.cons_append, List.dropWhile_cons]
              split
              · exact ih
              · simp [hy]
          have := key b1 (b2 ++ it :: rest) (by simp)
          simpa using this
        have := (h2 it this).1
        rw [hqp] at this
        exact this (List.dropLast_prefix _)
    · simp at hj; subst hj; simp
  have hsplit : ∀ (x : List Item), (∀ j ∈ x, (fun j : Item => decide (it.node.depth ≤ j.node.depth)) j = true) → ∀ y,
      (x ++ y).takeWhile (fun j => decide (it.node.depth ≤ j.node.depth)) =
        x ++ y.takeWhile (fun j => decide (it.node.depth ≤ j.node.depth)) ∧
      (x ++ y).dropWhile (fun j => decide (it.node.depth ≤ j.node.depth)) =
        y.dropWhile (fun j => decide (it.node.depth ≤ j.node.depth)) := by
    intro x hx y
    induction x with
    | nil => simp
    | cons z zs ih =>
      have hz := hx z (by simp)
      simp only at hz
      obtain ⟨e1, e2⟩ := ih (fun j hj => hx j (by simp [hj]))
      simp [List.takeWhile_cons, List.dropWhile_cons, hz, e1, e2]
  have hassoc : b ++ it :: rest = (b ++ [it]) ++ rest := by simp
  rw [hassoc] at h1 h2
  obtain ⟨e1, e2⟩ := hsplit _ hall rest
  rw [e1] at h1
  rw [e2] at h2
  rw [hqp] at h1 h2
  exact ⟨fun j hj => (h1 j (by simp [hj])).1, fun j hj => (h2 j hj).1⟩

@[simp] theorem refused_append (a b : List Ev) : refused (a ++ b) = refused a ++ refused b := by simp [refused]

theorem refused_mem {l : List Ev} {p : Path} : p ∈ refused l ↔ ∃ n e, Ev.invoke n (.ok (some e)) ∈ l ∧ n.path = p := by
  simp only [refused, List.mem_filterMap]
  constructor
  · rintro ⟨ev, hev, h⟩
    split at h
    · rename_i n e; simp at h; exact ⟨n, e, hev, h⟩
    · simp at h
  · rintro ⟨n, e, h, rfl⟩
    exact ⟨_, h, rfl⟩

theorem Run.files_skip (c : Nav) (t : Tree) (hdis : t.Distinct) (hwf : t.WF) (ps pp d)
    (hshut : ∀ it ∈ items c ps pp d t, it.node.isDir = true → it.readErr ≠ none →
      ∀ it' ∈ items c ps pp d t, ¬ Above it.node.path it'.node.path)
    {l evs f} (h : Run .files d l evs f) :
    ∀ l1, items c ps pp d t = l1 ++ l →
    (∀ n r, Ev.invoke n r ∈ evs → r = .ok none ∨ ∃ e, r = .ok (some e) ∧ e.isSkipAll = true ∧ e.isSkipDir = false) →
    (∀ n re sk e, Ev.ask n re sk e ∈ evs → sk = .none ∧ e = none) →
    invoked evs = ((l.map (·.node)).filter (fun n => !n.isDir)).filter
      (fun m => decide (¬ leftOut (l.map (·.node.path)) (refused evs) m.path)) ∧
    (f = .done none ∨ ∃ n e, Ev.invoke n (.ok (some e)) ∈ evs ∧ f = .done (some e)) := by
  -- what a step can be
  have key : ∀ {it : Item} {evs a}, Step .files it evs a →
      (∀ n r, Ev.invoke n r ∈ evs → r = .ok none ∨ ∃ e, r = .ok (some e) ∧ e.isSkipAll = true ∧ e.isSkipDir = false) →
      (∀ n re sk e, Ev.ask n re sk e ∈ evs → sk = .none ∧ e = none) →
      (a = .travel ∧ it.node.isDir = true ∧ refused evs = []) ∨
      (∃ p, a = .done (.ret p none) ∧ (it.node.isDir = false ∨ (it.node.isDir = true ∧ it.readErr ≠ none)) ∧ refused evs = []) ∨
      (∃ e, a = .done (.ret false (some e)) ∧ it.node.isDir = false ∧ refused evs = [it.node.path] ∧
        e.isSkipAll = true ∧ e.isSkipDir = false ∧ Ev.invoke it.node (.ok (some e)) ∈ evs) := by
    intro it evs a hs hi ha
    cases hs with
    | panicked h =>
      rcases hi it.node .panic (by simp) with h | ⟨_, h, _⟩ <;> cases h
    | file e h hn =>
      rcases hi it.node (.ok e) (by simp) with h | ⟨e', h, h1, h2⟩
      · cases h; exact Or.inr (Or.inl ⟨_, rfl, Or.inl hn, rfl⟩)
      · cases h; exact Or.inr (Or.inr ⟨e', rfl, hn, rfl, h1, h2, by simp⟩)
    | failed e h => exact absurd rfl h
    | asked sk e h => exact absurd rfl h
    | askedOnly sk e h hn =>
      obtain ⟨rfl, rfl⟩ := ha it.node it.readErr sk e (by simp)
      by_cases hre : it.readErr = none
      · left
        refine ⟨by simp [verdict, hre], hn, rfl⟩
      · refine Or.inr (Or.inl ⟨true, ?_, Or.inr ⟨hn, hre⟩, rfl⟩)
        cases hr : it.readErr with
        | none => exact absurd hr hre
        | some e => simp [verdict]
  -- nothing is below a file or below a directory that cannot be read
  have hclosed : ∀ it ∈ items c ps pp d t, (it.node.isDir = false ∨ (it.node.isDir = true ∧ it.readErr ≠ none)) →
      ∀ it' ∈ items c ps pp d t, ¬ Above it.node.path it'.node.path := by
    intro it hit h
    rcases h with h | ⟨h, h'⟩
    · exact items_leaf c t hwf hdis ps pp d it hit h
    · exact hshut it hit h h'
  have hpo := items_preOrder c t hdis ps pp d
  have hsuf : ∀ {l1 l : List Item}, items c ps pp d t = l1 ++ l → PreOrder l := by
    intro l1 l h
    rw [h] at hpo
    have : ∀ (x y : List Item), PreOrder (x ++ y) → PreOrder y := by
      intro x y h
      induction x with
      | nil => exact h
      | cons z zs ih => exact ih h.2.2
    exact this l1 l hpo
  -- refused files are items of the list
  have hrefl : ∀ {l evs f}, Run .files d l evs f → ∀ p ∈ refused evs, p ∈ l.map (·.node.path) := by
    intro l evs f hr p hp
    obtain ⟨n, e, hm, rfl⟩ := refused_mem.1 hp
    obtain ⟨it, hit, rfl⟩ := hr.invoke_mem hm
    exact List.mem_map.2 ⟨it, hit, rfl⟩
  -- the head is never left out, and leaving out within the tail does not depend on the head
  have hhead : ∀ {it : Item} {rest : List Item} {ps : List Path}, PreOrder (it :: rest) →
      ¬ leftOut ((it :: rest).map (·.node.path)) ps it.node.path := by
    rintro it rest ps hp ⟨p, _, hsub, _⟩
    have hnd := hp.nodup
    simp only [List.map_cons, List.nodup_cons] at hnd
    simp only [List.map_cons] at hsub
    rcases pair_sublist_cons hsub with h | ⟨_, h⟩
    · exact hnd.1 (h.subset (by simp))
    · exact hnd.1 (h.subset (by simp))
  have hrest : ∀ {it : Item} {rest : List Item} {ps : List Path} {m : Item}, PreOrder (it :: rest) →
      (∀ p ∈ ps, p ∈ rest.map (·.node.path)) →
      (leftOut ((it :: rest).map (·.node.path)) ps m.node.path ↔ leftOut (rest.map (·.node.path)) ps m.node.path) := by
    intro it rest ps m hp hps
    constructor
    · rintro ⟨p, hpm, hsub, hd⟩
      refine ⟨p, hpm, ?_, hd⟩
      simp only [List.map_cons] at hsub
      rcases pair_sublist_cons hsub with h | ⟨h, _⟩
      · exact h
      · exfalso
        have hnd := hp.nodup
        simp only [List.map_cons, List.nodup_cons] at hnd
        exact hnd.1 (h ▸ hps p hpm)
    · rintro ⟨p, hpm, hsub, hd⟩
      exact ⟨p, hpm, by simpa using hsub.trans (List.sublist_cons_self _ _), hd⟩
  have hfil : ∀ {it : Item} {rest : List Item} {ps : List Path}, PreOrder (it :: rest) →
      (∀ p ∈ ps, p ∈ rest.map (·.node.path)) →
      ((rest.map (·.node)).filter (fun n => !n.isDir)).filter
        (fun m => decide (¬ leftOut ((it :: rest).map (·.node.path)) ps m.path)) =
      ((rest.map (·.node)).filter (fun n => !n.isDir)).filter
        (fun m => decide (¬ leftOut (rest.map (·.node.path)) ps m.path)) := by
    intro it rest ps hp hps
    apply List.filter_congr
    intro m hm
    obtain ⟨j, hj, rfl⟩ := List.mem_map.1 (List.mem_filter.1 hm).1
    exact decide_eq_decide.2 (not_congr (hrest (m := j) hp hps))
  have hleaf : ∀ {l1 rest : List Item} {it : Item}, items c ps pp d t = l1 ++ it :: rest → (it.node.isDir = false ∨ (it.node.isDir = true ∧ it.readErr ≠ none)) →
      rest.dropWhile (fun j => decide (it.node.depth < j.node.depth)) = rest := by
    intro l1 rest it he hn
    have hp := hsuf he
    apply dropWhile_head
    intro j hj
    cases rest with
    | nil => simp at hj
    | cons k ks =>
      simp at hj; subst hj
      cases hdec : decide (it.node.depth < k.node.depth) with
      | false => rfl
      | true =>
        exfalso
        refine hclosed it (by rw [he]; simp) hn k (by rw [he]; simp) (hp.1 k ?_)
        simp [List.takeWhile_cons, hdec]
  -- a refused file removes what the run skips
  have hcut : ∀ {l1 rest : List Item} {it : Item} {ps' : List Path}, items c ps pp d t = l1 ++ it :: rest →
      d < it.node.depth →
      (∀ p ∈ ps', p ∈ (rest.dropWhile (fun j => decide (it.node.depth ≤ j.node.depth))).map (·.node.path)) →
      ((rest.map (·.node)).filter (fun n => !n.isDir)).filter
        (fun m => decide (¬ leftOut ((it :: rest).map (·.node.path)) (it.node.path :: ps') m.path)) =
      (((rest.dropWhile (fun j => decide (it.node.depth ≤ j.node.depth))).map (·.node)).filter (fun n => !n.isDir)).filter
        (fun m => decide (¬ leftOut ((rest.dropWhile (fun j => decide (it.node.depth ≤ j.node.depth))).map (·.node.path)) ps' m.path)) := by
    intro l1 rest it ps' he hdep hps
    obtain ⟨hT, hD⟩ := items_directory c t hdis ps pp d l1 rest it he hdep
    have hp := hsuf he
    generalize hTdef : rest.takeWhile (fun j => decide (it.node.depth ≤ j.node.depth)) = T at hT
    generalize hDdef : rest.dropWhile (fun j => decide (it.node.depth ≤ j.node.depth)) = D at hD hps ⊢
    have hTD : rest = T ++ D := by rw [← hTdef, ← hDdef, List.takeWhile_append_dropWhile]
    subst hTD
    rw [List.map_append, List.filter_append, List.filter_append]
    have h0 : ((T.map (·.node)).filter (fun n => !n.isDir)).filter
        (fun m => decide (¬ leftOut ((it :: (T ++ D)).map (·.node.path)) (it.node.path :: ps') m.path)) = [] := by
      rw [List.filter_eq_nil_iff]
      intro m hm
      obtain ⟨j, hj, rfl⟩ := List.mem_map.1 (List.mem_filter.1 hm).1
      simp only [decide_eq_true_eq, Classical.not_not]
      refine ⟨it.node.path, by simp, ?_, hT j hj⟩
      simp only [List.map_cons]
      apply List.Sublist.cons_cons
      simp only [List.singleton_sublist, List.mem_map, List.mem_append]
      exact ⟨j, Or.inl hj, rfl⟩
    rw [h0, List.nil_append]
    apply List.filter_congr
    intro m hm
    obtain ⟨j, hj, rfl⟩ := List.mem_map.1 (List.mem_filter.1 hm).1
    refine decide_eq_decide.2 (not_congr ?_)
    have hnd : ((it :: (T ++ D)).map (·.node.path)).Nodup := hp.nodup
    constructor
    · rintro ⟨p, hpm, hsub, hd'⟩
      rcases List.mem_cons.1 hpm with rfl | hpm
      · exact absurd hd' (hD j hj)
      · refine ⟨p, hpm, ?_, hd'⟩
        have e : ((it :: (T ++ D)).map (·.node.path)) = ((it :: T).map (·.node.path)) ++ D.map (·.node.path) := by simp
        rw [e] at hsub hnd
        obtain ⟨m1, m2, hm, h1, h2⟩ := List.sublist_append_iff.1 hsub
        have hpn : p ∉ (it :: T).map (·.node.path) := fun hc =>
          (List.nodup_append.1 hnd).2.2 p hc p (hps p hpm) rfl
        match m1, hm with
        | [], hm => simp at hm; subst hm; exact h2
        | x :: xs, hm =>
          simp at hm
          exfalso
          exact hpn (h1.subset (by simp [hm.1]))
    · rintro ⟨p, hpm, hsub, hd'⟩
      refine ⟨p, by simp [hpm], ?_, hd'⟩
      refine hsub.trans ?_
      simp only [List.map_cons, List.map_append]
      exact (List.sublist_append_right _ _).trans (List.sublist_cons_self _ _)
  induction h with
  | nil => intro _ _ _ _; exact ⟨rfl, Or.inl rfl⟩
  | @travel it rest evs es f hs hr ih =>
    intro l1 he hi ha
    rcases key hs (fun n r hm => hi n r (by simp [hm])) (fun n re sk e hm => ha n re sk e (by simp [hm])) with ⟨_, hn, hrf⟩ | ⟨_, h, _⟩ | ⟨e, h, _⟩
    · obtain ⟨h1, h2⟩ := ih (l1 ++ [it]) (by simpa using he) (fun n r hm => hi n r (by simp [hm]))
        (fun n re sk e hm => ha n re sk e (by simp [hm]))
      refine ⟨?_, ?_⟩
      · rw [invoked_append, hs.invoked, if_pos ⟨rfl, hn⟩, List.nil_append, h1, refused_append, hrf, List.nil_append]
        have hf := hfil (hsuf he) (hrefl hr)
        simp only [List.map_cons] at hf ⊢
        have hdrop : List.filter (fun n : Node => !n.isDir) (it.node :: rest.map (·.node)) =
            List.filter (fun n : Node => !n.isDir) (rest.map (·.node)) := by simp [List.filter_cons, hn]
        rw [hdrop, hf]
      · rcases h2 with h2 | ⟨n, e, hm, hf⟩
        · exact Or.inl h2
        · exact Or.inr ⟨n, e, by simp [hm], hf⟩
    · cases h
    · cases h
  | @root it rest evs o hs hd =>
    intro l1 he hi ha
    have hrestnil : (it.node.isDir = false ∨ (it.node.isDir = true ∧ it.readErr ≠ none)) → rest = [] := by
      intro hn
      cases rest with
      | nil => rfl
      | cons j js =>
        exfalso
        have hp := items_root c t ps pp d it (by rw [he]; simp) hd j (by rw [he]; simp)
        refine hclosed it (by rw [he]; simp) hn j (by rw [he]; simp) ⟨hp, fun hee => ?_⟩
        have := (hsuf he).pairwise
        rw [List.pairwise_cons] at this
        exact this.1 j (by simp) (by rw [hee]; exact List.prefix_refl _)
    rcases key hs hi ha with ⟨h, _⟩ | ⟨p, h, hn, hrf⟩ | ⟨e, h, hn, hrf, _, _, hm⟩
    · cases h
    · cases h
      rw [hrestnil hn, hs.invoked]
      rcases hn with hn | ⟨hn, -⟩ <;> simp [hn, hrf, leftOut, Out.final]
    · cases h
      have hr0 := hrestnil (Or.inl hn)
      subst hr0
      have := hhead (ps := refused evs) (hsuf he)
      simp only [List.map_cons, List.map_nil] at this
      rw [hs.invoked]
      refine ⟨by simp [hn, this], Or.inr ⟨it.node, e, hm, rfl⟩⟩
  | @next it rest evs p e es f hs hd hee hr ih =>
    intro l1 he hi ha
    rcases key hs (fun n r hm => hi n r (by simp [hm])) (fun n re sk e hm => ha n re sk e (by simp [hm])) with ⟨h, _⟩ | ⟨p', h, hn, hrf⟩ | ⟨e', h, _⟩
    · cases h
    · cases h
      rw [hleaf he hn] at ih hr
      obtain ⟨h1, h2⟩ := ih (l1 ++ [it]) (by simpa using he) (fun n r hm => hi n r (by simp [hm]))
        (fun n re sk e hm => ha n re sk e (by simp [hm]))
      refine ⟨?_, ?_⟩
      · rw [invoked_append, hs.invoked, h1, refused_append, hrf, List.nil_append]
        have hf := hfil (hsuf he) (hrefl hr)
        have hh := hhead (ps := refused es) (hsuf he)
        simp only [List.map_cons] at hf hh ⊢
        rcases hn with hn | ⟨hn, -⟩
        · rw [if_neg (by simp [hn])]
          have hdrop : List.filter (fun n : Node => !n.isDir) (it.node :: rest.map (·.node)) =
              it.node :: List.filter (fun n : Node => !n.isDir) (rest.map (·.node)) := by simp [List.filter_cons, hn]
          rw [hdrop, List.filter_cons, if_pos (by simpa using hh), hf]
          rfl
        · rw [if_pos (by simp [hn])]
          have hdrop : List.filter (fun n : Node => !n.isDir) (it.node :: rest.map (·.node)) =
              List.filter (fun n : Node => !n.isDir) (rest.map (·.node)) := by simp [List.filter_cons, hn]
          rw [hdrop, hf]
          rfl
      · rcases h2 with h2 | ⟨n, e, hm, hf⟩
        · exact Or.inl h2
        · exact Or.inr ⟨n, e, by simp [hm], hf⟩
    · cases h
      rcases hee with h | ⟨h, _⟩ <;> cases h
  | @leave it rest evs e es f hs hd hed hea hr ih =>
    intro l1 he hi ha
    rcases key hs (fun n r hm => hi n r (by simp [hm])) (fun n re sk e hm => ha n re sk e (by simp [hm])) with ⟨h, _⟩ | ⟨_, h, _⟩ | ⟨e', h, hn, hrf, _, _, hm⟩
    · cases h
    · cases h
    · cases h
      obtain ⟨h1, h2⟩ := ih (l1 ++ it :: rest.takeWhile (fun j => decide (it.node.depth ≤ j.node.depth)))
        (by rw [he]; simp [List.takeWhile_append_dropWhile]) (fun n r hm => hi n r (by simp [hm]))
        (fun n re sk e hm => ha n re sk e (by simp [hm]))
      refine ⟨?_, ?_⟩
      · rw [invoked_append, hs.invoked, if_neg (by simp [hn]), h1, refused_append, hrf, List.singleton_append, List.singleton_append]
        have hf := hcut he (by omega) (hrefl hr)
        have hh := hhead (ps := it.node.path :: refused es) (hsuf he)
        simp only [List.map_cons] at hf hh ⊢
        have hdrop : List.filter (fun n : Node => !n.isDir) (it.node :: rest.map (·.node)) =
            it.node :: List.filter (fun n : Node => !n.isDir) (rest.map (·.node)) := by simp [List.filter_cons, hn]
        rw [hdrop, List.filter_cons, if_pos (by simpa using hh), hf]
      · rcases h2 with h2 | ⟨n, e, hm, hf⟩
        · exact Or.inl h2
        · exact Or.inr ⟨n, e, by simp [hm], hf⟩
  | @leaveTop it rest evs e hs hd hed hea =>
    intro l1 he hi ha
    rcases key hs hi ha with ⟨h, _⟩ | ⟨_, h, _⟩ | ⟨e', h, hn, hrf, _, _, hm⟩
    · cases h
    · cases h
    · cases h
      refine ⟨?_, Or.inr ⟨_, _, hm, rfl⟩⟩
      rw [hs.invoked, if_neg (by simp [hn]), hrf]
      have hall : ∀ j ∈ rest, (fun j : Item => decide (it.node.depth ≤ j.node.depth)) j = true := by
        intro j hj
        have hdj := (items_path c t ps pp d j (by rw [he]; simp [hj])).2
        have hpj := (items_path c t ps pp d j (by rw [he]; simp [hj])).1
        have hlen : pp.length + 1 ≤ j.node.path.length := by have := hpj.length_le; simpa using this
        by_cases hz : j.node.depth = d
        · exfalso
          have := items_root c t ps pp d j (by rw [he]; simp [hj]) hz it (by rw [he]; simp)
          have hpw := (hsuf he).pairwise
          rw [List.pairwise_cons] at hpw
          exact hpw.1 j hj this
        · simp; omega
      have hdw : rest.dropWhile (fun j => decide (it.node.depth ≤ j.node.depth)) = [] := by
        exact dropWhile_all_nil hall
      have hf := hcut (ps' := []) he (by omega) (by simp)
      have hh := hhead (ps := [it.node.path]) (hsuf he)
      rw [hdw] at hf
      simp only [List.map_cons] at hf hh ⊢
      have hdrop : List.filter (fun n : Node => !n.isDir) (it.node :: rest.map (·.node)) =
          it.node :: List.filter (fun n : Node => !n.isDir) (rest.map (·.node)) := by simp [List.filter_cons, hn]
      rw [hdrop, List.filter_cons, if_pos (by simpa using hh), hf]
      rfl
  | @stop it rest evs p e hs hd hst =>
    intro l1 he hi ha
    rcases key hs hi ha with ⟨h, _⟩ | ⟨_, h, _⟩ | ⟨e', h, hn, hrf, h1, h2, hm⟩
    · cases h
    · cases h
    · cases h
      simp [stops, h1, h2] at hst
  | @crash it rest evs cur r hs hd hp =>
    intro l1 he hi ha
    rcases key hs (fun n r hm => hi n r (by simp [hm])) (fun n re sk e hm => ha n re sk e (by simp [hm])) with ⟨h, _⟩ | ⟨_, h, _⟩ | ⟨e', h, _⟩ <;> cases h

end Traverse
