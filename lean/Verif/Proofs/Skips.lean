import Verif.Spec.Skips
import Verif.Proofs.Prune
/-
Skip handlers: what is delivered is what nothing above it cuts off, for every subscription.
-/
namespace Traverse

theorem verdict_cuts {sub re sk} (h : verdict sub re sk none = .travel) : cuts sub sk = false := by
  cases sub <;> cases sk <;> simp_all [verdict, cuts]

theorem verdict_done {sub re sk} (h : verdict sub re sk none ≠ .travel) :
    (∃ p, verdict sub re sk none = .done (.ret p none)) ∧ (cuts sub sk = true ∨ (sub = .files ∧ re.isSome = true)) := by
  cases sub <;> cases sk <;> cases re <;> simp_all [verdict, cuts]

theorem Run.skipping {sub d0 l evs f} (h : Run sub d0 l evs f) (ans : Path → Skip)
    (hi : ∀ n r, Ev.invoke n r ∈ evs → r = .ok none)
    (ha : ∀ n re sk e, Ev.ask n re sk e ∈ evs → sk = ans n.path ∧ e = none)
    (hre : sub = .files → ∀ it ∈ l, it.node.isDir = true → it.readErr ≠ none →
      ∀ it' ∈ l, ¬ Above it.node.path it'.node.path)
    (hleaf : sub = .files → ∀ it ∈ l, it.node.isDir = false → ∀ it' ∈ l, ¬ Above it.node.path it'.node.path)
    (hpre : PreOrder l)
    (hroot : ∀ it ∈ l, it.node.depth = d0 → ∀ it' ∈ l, it.node.path <+: it'.node.path) :
    invoked evs = ((l.map (·.node)).filter (fun n => !(decide (sub = .files) && n.isDir))).filter
      (uncut sub ans (l.map (·.node.path))) ∧ f = .done none := by
  have key : ∀ {it : Item} {evs a}, Step sub it evs a →
      (∀ n r, Ev.invoke n r ∈ evs → r = .ok none) →
      (∀ n re sk e, Ev.ask n re sk e ∈ evs → sk = ans n.path ∧ e = none) →
      (a = .travel ∧ cuts sub (ans it.node.path) = false) ∨
      (∃ p, a = .done (.ret p none)) ∧ (cuts sub (ans it.node.path) = true ∨
        (sub = .files ∧ (it.node.isDir = false ∨ (it.node.isDir = true ∧ it.readErr ≠ none)))) := by
    intro it evs a hs hi ha
    cases hs with
    | panicked h => have := hi it.node .panic (by simp); cases this
    | file e h hn =>
      have := hi it.node _ (by simp : Ev.invoke it.node (.ok e) ∈ _)
      cases this
      exact .inr ⟨⟨false, rfl⟩, .inr ⟨h, .inl hn⟩⟩
    | failed e h => have := hi it.node _ (by simp : Ev.invoke it.node (.ok (some e)) ∈ _); cases this
    | asked sk e h =>
      obtain ⟨rfl, rfl⟩ := ha it.node it.readErr sk e (by simp)
      by_cases hv : verdict sub it.readErr (ans it.node.path) none = .travel
      · exact .inl ⟨hv, verdict_cuts hv⟩
      · obtain ⟨hp, hc⟩ := verdict_done hv
        exact .inr ⟨hp, hc.imp_right fun hc => absurd hc.1 h⟩
    | askedOnly sk e h hn =>
      obtain ⟨rfl, rfl⟩ := ha it.node it.readErr sk e (by simp)
      by_cases hv : verdict sub it.readErr (ans it.node.path) none = .travel
      · exact .inl ⟨hv, verdict_cuts hv⟩
      · obtain ⟨hp, hc⟩ := verdict_done hv
        refine .inr ⟨hp, hc.imp_right fun hc => ⟨hc.1, .inr ⟨hn, ?_⟩⟩⟩
        intro h0; rw [h0] at hc; simp at hc
  have hhead : ∀ {it : Item} {rest : List Item}, PreOrder (it :: rest) →
      uncut sub ans ((it :: rest).map (·.node.path)) it.node = true := by
    intro it rest hp
    simp only [uncut, decide_eq_true_eq, List.mem_map]
    rintro p ⟨j, hj, rfl⟩ _ hab
    rcases List.mem_cons.1 hj with rfl | hj
    · exact hab.2 rfl
    · have := hp.pairwise
      rw [List.pairwise_cons] at this
      exact this.1 j hj hab.1
  have hcons : ∀ {it : Item} {evs a} (rest : List Item), Step sub it evs a →
      invoked evs ++ ((rest.map (·.node)).filter (fun n => !(decide (sub = .files) && n.isDir))).filter
        (uncut sub ans ((it :: rest).map (·.node.path))) =
      (((it :: rest).map (·.node)).filter (fun n => !(decide (sub = .files) && n.isDir))).filter
        (uncut sub ans ((it :: rest).map (·.node.path))) ∨ ¬ PreOrder (it :: rest) := by
    intro it evs a rest hs
    by_cases hp : PreOrder (it :: rest)
    · left
      have hh := hhead hp
      generalize uncut sub ans ((it :: rest).map (·.node.path)) = U at hh ⊢
      rw [hs.invoked, List.map_cons, List.filter_cons]
      by_cases hc : (!(decide (sub = .files) && it.node.isDir)) = true
      · rw [if_pos hc, List.filter_cons, if_pos hh]
        have hc' : ¬ (sub = .files ∧ it.node.isDir = true) := by
          intro h; simp [h.1, h.2] at hc
        by_cases hf : sub = .files
        · have : it.node.isDir = false := by
            cases h : it.node.isDir with
            | false => rfl
            | true => exact absurd ⟨hf, h⟩ hc'
          simp [hf, this]
        · simp [hf]
      · rw [if_neg hc]
        have hc' : sub = .files ∧ it.node.isDir = true := by
          cases h : it.node.isDir <;> by_cases hf : sub = .files <;> simp_all
        simp [hc'.1, hc'.2]
    · exact .inr hp
  have hnone : ∀ {it : Item} {rest : List Item} (B : List Item), (∀ m ∈ B, ¬ Above it.node.path m.node.path) → (∀ j ∈ B, j ∈ rest) →
      (∀ j ∈ rest, j ∉ B → ∀ m ∈ B, ¬ Above j.node.path m.node.path) → ∀ m ∈ B.map (·.node),
      uncut sub ans ((it :: rest).map (·.node.path)) m = uncut sub ans (B.map (·.node.path)) m := by
    intro it rest B h1 h2 h3 m hm
    obtain ⟨q, hq, rfl⟩ := List.mem_map.1 hm
    simp only [uncut, decide_eq_decide, List.mem_map]
    constructor
    · rintro h p ⟨j, hj, rfl⟩
      exact h _ ⟨j, by simp [h2 j hj], rfl⟩
    · rintro h p ⟨j, hj, rfl⟩ hc
      rcases List.mem_cons.1 hj with rfl | hj
      · exact h1 q hq
      · by_cases hjb : j ∈ B
        · exact h _ ⟨j, hjb, rfl⟩ hc
        · exact h3 j hj hjb q hq
  have hfilter : ∀ {it : Item} {rest : List Item} (A B : List Item), rest = A ++ B →
      (∀ m ∈ A.map (·.node), uncut sub ans ((it :: rest).map (·.node.path)) m = false) →
      (∀ m ∈ B.map (·.node), uncut sub ans ((it :: rest).map (·.node.path)) m = uncut sub ans (B.map (·.node.path)) m) →
      ((rest.map (·.node)).filter (fun n => !(decide (sub = .files) && n.isDir))).filter
        (uncut sub ans ((it :: rest).map (·.node.path))) =
      ((B.map (·.node)).filter (fun n => !(decide (sub = .files) && n.isDir))).filter (uncut sub ans (B.map (·.node.path))) := by
    intro it rest A B he h1 h2
    have : rest.map (·.node) = A.map (·.node) ++ B.map (·.node) := by rw [he, List.map_append]
    rw [this, List.filter_append, List.filter_append]
    rw [List.filter_eq_nil_iff.2 (fun m hm => by
      rw [h1 m (List.mem_filter.1 hm).1]; simp), List.nil_append]
    exact List.filter_congr fun m hm => h2 m (List.mem_filter.1 hm).1
  induction h with
  | nil => simp [invoked, calls]
  | @travel it rest evs es f hs hr ih =>
    obtain ⟨e1, e2⟩ := ih (fun n r hm => hi n r (by simp [hm])) (fun n re sk e hm => ha n re sk e (by simp [hm]))
      (fun hf i hi' h1 h2 j hj => hre hf i (by simp [hi']) h1 h2 j (by simp [hj]))
      (fun hf i hi' h1 j hj => hleaf hf i (by simp [hi']) h1 j (by simp [hj])) hpre.2.2
      (fun i hi' hd j hj => hroot i (by simp [hi']) hd j (by simp [hj]))
    have hk := key hs (fun n r hm => hi n r (by simp [hm])) (fun n re sk e hm => ha n re sk e (by simp [hm]))
    have hc : cuts sub (ans it.node.path) = false := by
      rcases hk with h | ⟨⟨p, h⟩, -⟩
      · exact h.2
      · cases h
    refine ⟨?_, e2⟩
    rw [invoked_append, e1]
    rcases hcons rest hs with h | h
    · rw [← h]
      congr 1
      refine List.filter_congr fun m _ => ?_
      simp only [uncut, List.map_cons, decide_eq_decide, List.mem_cons]
      constructor
      · rintro h p (rfl | hp) hcp
        · rw [hc] at hcp; cases hcp
        · exact h p hp hcp
      · intro h p hp hcp; exact h p (.inr hp) hcp
    · exact absurd hpre h
  | @root it rest evs o hs hd =>
    have hk := key hs hi ha
    rcases hk with h | ⟨⟨p, hp⟩, hk⟩
    · cases h.1
    cases hp
    refine ⟨?_, rfl⟩
    have hall : ∀ j ∈ rest, Above it.node.path j.node.path := by
      intro j hj
      refine ⟨hroot it (by simp) hd j (by simp [hj]), fun he => ?_⟩
      have := hpre.pairwise
      rw [List.pairwise_cons] at this
      exact this.1 j hj (by rw [he]; exact List.prefix_refl _)
    rcases hcons rest hs with h | h
    · rw [← h]
      rw [List.filter_eq_nil_iff.2, List.append_nil]
      intro m hm
      obtain ⟨j, hj, rfl⟩ := List.mem_map.1 (List.mem_filter.1 hm).1
      rcases hk with hk | ⟨hf, hk⟩
      · simp only [uncut, decide_eq_true_eq]
        intro hu
        exact hu it.node.path (by simp) hk (hall j hj)
      · exfalso
        rcases hk with hk | hk
        · exact hleaf hf it (by simp) hk j (by simp [hj]) (hall j hj)
        · exact hre hf it (by simp) hk.1 hk.2 j (by simp [hj]) (hall j hj)
    · exact absurd hpre h
  | @next it rest evs p e es f hs hd he hr ih =>
    obtain ⟨e1, e2⟩ := ih (fun n r hm => hi n r (by simp [hm])) (fun n re sk e hm => ha n re sk e (by simp [hm]))
      (fun hf i hi' h1 h2 j hj => hre hf i (by simp [List.dropWhile_subset _ hi']) h1 h2 j (by simp [List.dropWhile_subset _ hj]))
      (fun hf i hi' h1 j hj => hleaf hf i (by simp [List.dropWhile_subset _ hi']) h1 j (by simp [List.dropWhile_subset _ hj]))
      (hpre.2.2.dropWhile _)
      (fun i hi' hd j hj => hroot i (by simp [List.dropWhile_subset _ hi']) hd j (by simp [List.dropWhile_subset _ hj]))
    have hk := key hs (fun n r hm => hi n r (by simp [hm])) (fun n re sk e hm => ha n re sk e (by simp [hm]))
    rcases hk with h | ⟨⟨p', hp'⟩, hk⟩
    · cases h.1
    refine ⟨?_, e2⟩
    rw [invoked_append, e1]
    rcases hcons rest hs with h | h
    · rw [← h]
      congr 1
      symm
      refine hfilter (rest.takeWhile _) (rest.dropWhile _) (List.takeWhile_append_dropWhile).symm ?_ ?_
      · intro m hm
        obtain ⟨j, hj, rfl⟩ := List.mem_map.1 hm
        have hab := hpre.1 j hj
        have hjr : j ∈ rest := List.takeWhile_subset _ hj
        rcases hk with hk | ⟨hf, hk⟩
        · simp only [uncut, decide_eq_false_iff_not]
          intro hu
          exact hu it.node.path (by simp) hk hab
        · exfalso
          rcases hk with hk | hk
          · exact hleaf hf it (by simp) hk j (by simp [hjr]) hab
          · exact hre hf it (by simp) hk.1 hk.2 j (by simp [hjr]) hab
      · refine hnone _ (fun m hm hab => (hpre.2.1 m hm).1 hab.1) (fun j hj => List.dropWhile_subset _ hj) ?_
        intro j hj hnj m hm hab
        have hjt : j ∈ rest.takeWhile (fun j => decide (it.node.depth < j.node.depth)) := by
          rw [← List.takeWhile_append_dropWhile (p := fun j : Item => decide (it.node.depth < j.node.depth)) (l := rest)] at hj
          rcases List.mem_append.1 hj with h | h
          · exact h
          · exact absurd h hnj
        have h1 := hpre.1 j hjt
        exact (hpre.2.1 m hm).1 (h1.1.trans hab.1)
    · exact absurd hpre h
  | @leave it rest evs e es f hs hd he ha' hr ih =>
    rcases key hs (fun n r hm => hi n r (by simp [hm])) (fun n re sk e hm => ha n re sk e (by simp [hm])) with h | ⟨⟨p, h⟩, -⟩
    · cases h.1
    · cases h
  | @leaveTop it rest evs e hs hd he ha' =>
    rcases key hs hi ha with h | ⟨⟨p, h⟩, -⟩
    · cases h.1
    · cases h
  | @stop it rest evs p e hs hd he =>
    rcases key hs hi ha with h | ⟨⟨p, h⟩, -⟩
    · cases h.1
    · cases h
  | @crash it rest evs cur r hs hd hp =>
    rcases key hs (fun n r hm => hi n r (by simp [hm])) (fun n re sk e hm => ha n re sk e (by simp [hm])) with h | ⟨⟨p, h⟩, -⟩
    · cases h.1
    · cases h

end Traverse
