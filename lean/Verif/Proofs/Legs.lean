import Verif.Proofs.Resume
import Verif.Proofs.Bridge
import Verif.Proofs.Parents
/-
A resumed session as a sequence of navigations, each but the last of which ended well.
-/
namespace Traverse
variable {σ : Type}

/-- A statement about the history of a navigation and its end that carries over to navigations one after the other. -/
structure Sequential (R : List Ev → Final → Prop) : Prop where
  nil : ∀ f, R [] f
  append : ∀ a b f, R a (.done none) → R b f → R (a ++ b) f

/-- One navigation from a path adds a history for which `R` holds, and leaves the depth counter as it was. -/
def TopOk (c : Nav) (env : Env σ) (fault : σ → Path → Err → σ × Option Err) (stat : Path → RootStat) (d : Int)
    (R : List Ev → Final → Prop) (parent : Path) (path : Path) : Prop :=
  ∀ s : St σ, s.depth = d → ∃ v, (top c env fault parent path (stat path) s).2.log = s.log ++ v ∧
    (top c env fault parent path (stat path) s).2.depth = d ∧ R v (top c env fault parent path (stat path) s).1

theorem seed_acc {c : Nav} {env : Env σ} {fault stat} {d : Int} {R : List Ev → Final → Prop} (hR : Sequential R) {parent : Path}
    (names : List String) (ht : ∀ n ∈ names, TopOk c env fault stat d R parent (parent ++ [n])) : ∀ s : St σ, s.depth = d →
    ∃ v, (seed c env fault stat parent names s).2.log = s.log ++ v ∧ (seed c env fault stat parent names s).2.depth = d ∧
      R v (seed c env fault stat parent names s).1 := by
  induction names with
  | nil => intro s hs; exact ⟨[], by simp [seed], hs, hR.nil _⟩
  | cons n ns ih =>
    intro s hs
    obtain ⟨v, h1, h2, h3⟩ := ht n (by simp) s hs
    rw [seed]
    rcases he : top c env fault parent (parent ++ [n]) (stat (parent ++ [n])) s with ⟨f, s1⟩
    rw [he] at h1 h2 h3
    rcases f with (_ | e) | _
    · obtain ⟨w, g1, g2, g3⟩ := ih (fun m hm => ht m (by simp [hm])) s1 h2
      refine ⟨v ++ w, ?_, g2, hR.append _ _ _ h3 g3⟩
      show (seed c env fault stat parent ns s1).2.log = _
      rw [g1]; rw [show s1.log = s.log ++ v from h1, List.append_assoc]
    · exact ⟨v, h1, h2, h3⟩
    · exact ⟨v, h1, h2, h3⟩

/-- With an exclusive anchor the anchor is not among what follows. -/
theorem following_not_anchor {c : Nav} (hsort : SortPermutes c) {disk : Disk} {parent anchor names}
    (h : following c disk parent anchor false = .ok names) : anchor ∉ names := by
  unfold following at h
  rcases hr : c.read (prepList c (disk.list parent).1) (disk.list parent).2 with ⟨ents, _ | e⟩
  · simp only [hr, Except.ok.injEq] at h
    subst h
    intro hm
    rw [List.mem_map] at hm
    obtain ⟨t, ht, hn⟩ := hm
    have ht' : t ∈ fromAnchor anchor false ents := by
      have hs := fun l => (hsort l).mem_iff (a := t)
      split at ht <;> simp only [List.mem_append, hs, List.mem_filter] at ht <;> rcases ht with ht | ht <;> exact ht.1
    unfold fromAnchor at ht'
    simp only [Bool.false_eq_true, if_false, List.mem_filter, decide_eq_true_eq] at ht'
    rw [hn] at ht'
    exact absurd ht'.2 (String.lt_irrefl _)
  · simp [hr] at h

/-- Where a navigation of a spawn resume may start: in a directory on the way from the saved path `cur` up to the tree; an entry
on the way itself only if it is the saved path. -/
structure Sprout (c : Nav) (tree cur parent : Path) (n : String) : Prop where
  above : parent <+: cur
  proper : parent ≠ cur
  inside : tree <+: cur → tree <+: parent
  off : SortPermutes c → (parent ++ [n]) <+: cur → parent ++ [n] = cur

theorem crown_acc {c : Nav} {env : Env σ} {fault stat} {disk : Disk} {tree : Path} {d : Int} {R : List Ev → Final → Prop}
    (hR : Sequential R) (cur : Path)
    (ht : ∀ parent n, Sprout c tree cur parent n → TopOk c env fault stat d R parent (parent ++ [n])) :
    ∀ rcur : List String, rcur.reverse <+: cur → (tree <+: cur → tree <+: rcur.reverse) → ∀ incl, (incl = true → rcur.reverse = cur) →
    ∀ (s : St σ), s.depth = d →
    ∃ v, (crown c env fault stat disk tree rcur incl s).2.2.log = s.log ++ v ∧
      (crown c env fault stat disk tree rcur incl s).2.2.depth = d ∧ R v (crown c env fault stat disk tree rcur incl s).1 := by
  intro rcur
  induction rcur with
  | nil =>
    intro _ _ incl _ s hs
    rw [crown]
    split
    · exact ⟨[], by simp, hs, hR.nil _⟩
    · exact ⟨[], by simp, hs, hR.nil _⟩
  | cons child rparent ih =>
    intro hpre htr incl hincl s hs
    rw [crown]
    split
    · exact ⟨[], by simp, hs, hR.nil _⟩
    · rename_i hne
      have hrev : (child :: rparent).reverse = rparent.reverse ++ [child] := by simp
      rw [hrev] at hpre htr hne hincl
      have hp1 : rparent.reverse <+: cur := (List.prefix_append _ _).trans hpre
      have hp2 : rparent.reverse ≠ cur := by
        intro h
        have := hpre.length_le
        have h2 := congrArg List.length h
        simp at this h2
        omega
      have hp3 : tree <+: cur → tree <+: rparent.reverse := by
        intro h
        have h' := htr h
        refine prefix_of_snoc h' ?_
        have hl := h'.length_le
        rcases Nat.lt_or_ge rparent.reverse.length tree.length with h2 | h2
        · exfalso
          apply hne
          exact (h'.eq_of_length (by simp at *; omega)).symm
        · exact h2
      split
      · exact ⟨[], by simp, hs, hR.nil _⟩
      · rename_i names hnames
        have hsp : ∀ n ∈ names, Sprout c tree cur rparent.reverse n := by
          intro n hn
          refine ⟨hp1, hp2, hp3, fun hsort h => ?_⟩
          have e : rparent.reverse ++ [n] = rparent.reverse ++ [child] :=
            (List.prefix_of_prefix_length_le h hpre (by simp)).eq_of_length (by simp)
          have hnc : n = child := by simpa using e
          subst hnc
          cases incl with
          | true => exact hincl rfl
          | false => exact absurd hn (following_not_anchor hsort hnames)
        obtain ⟨v, h1, h2, h3⟩ := seed_acc hR names (fun n hn => ht rparent.reverse n (hsp n hn)) s hs
        rcases he : seed c env fault stat rparent.reverse names s with ⟨f, s1⟩
        rw [he] at h1 h2 h3
        rcases f with (_ | e) | _
        · obtain ⟨w, g1, g2, g3⟩ := ih hp1 hp3 false (by simp) s1 h2
          refine ⟨v ++ w, ?_, g2, hR.append _ _ _ h3 g3⟩
          show (crown c env fault stat disk tree rparent false s1).2.2.log = _
          rw [g1]; rw [show s1.log = s.log ++ v from h1, List.append_assoc]
        · exact ⟨v, h1, h2, h3⟩
        · exact ⟨v, h1, h2, h3⟩

/-! ### How a sequence of navigations ends -/

/-- Genuine errors and panics end it. -/
structure EndsLaw (v : List Ev) (f : Final) : Prop where
  genuine : ∀ n e, Ev.invoke n (.ok (some e)) ∈ v → Genuine e → f = .done (some e) ∧
    ∃ es, acts v = es ++ [.invoke n (.ok (some e))] ∧ ∀ m r, Ev.invoke m r ∈ es → r.Mild
  calm : f = .done none → ∀ n r, Ev.invoke n r ∈ v → r.Mild
  panics : ∀ n, Ev.invoke n .panic ∈ v →
    (n.parent = none ∧ f = .panic ∧ ∃ es, acts v = es ++ [.invoke n .panic] ∧ ∀ ev ∈ es, ev.Clean) ∨
    (∃ cur r es, n.parent = some cur ∧ f = .done (some r.err) ∧ acts v = es ++ [.invoke n .panic, .rescue cur (n.depth - 1) r] ∧
      ∀ ev ∈ es, ev.Clean)

theorem invoke_acts {v : List Ev} {n r} : Ev.invoke n r ∈ acts v ↔ Ev.invoke n r ∈ v := mem_acts_iff rfl

theorem mild_not_genuine {e} (h : (Reply.ok (some e)).Mild) : ¬ Genuine e := by
  rcases h with h | ⟨e', h, hg⟩
  · cases h
  · cases h; exact hg

theorem mild_not_panic (h : Reply.panic.Mild) : False := by rcases h with h | ⟨_, h, _⟩ <;> cases h

/-- A navigation that returned nil made no rescue. -/
structure EndsLaw' (v : List Ev) (f : Final) : Prop extends EndsLaw v f where
  clean : f = .done none → ∀ ev ∈ acts v, ev.Clean

theorem ends_sequential : Sequential EndsLaw' where
  nil f := ⟨⟨by simp, by simp, by simp⟩, by simp [acts]⟩
  append a b f ha hb := by
    have hmild := ha.calm rfl
    have hclean := ha.clean rfl
    refine ⟨⟨?_, ?_, ?_⟩, ?_⟩
    · intro n e hm hg
      rcases List.mem_append.1 hm with hm | hm
      · exact absurd hg (mild_not_genuine (hmild _ _ hm))
      · obtain ⟨h1, es, h2, h3⟩ := hb.genuine n e hm hg
        refine ⟨h1, acts a ++ es, by rw [acts_append, h2, List.append_assoc], ?_⟩
        intro m r hm
        rcases List.mem_append.1 hm with hm | hm
        · exact hmild _ _ (invoke_acts.1 hm)
        · exact h3 m r hm
    · intro hf n r hm
      rcases List.mem_append.1 hm with hm | hm
      · exact hmild _ _ hm
      · exact hb.calm hf n r hm
    · intro n hm
      rcases List.mem_append.1 hm with hm | hm
      · exact absurd (hmild _ _ hm) (fun h => mild_not_panic h)
      · rcases hb.panics n hm with ⟨h1, h2, es, h3, h4⟩ | ⟨cur, r, es, h1, h2, h3, h4⟩
        · refine Or.inl ⟨h1, h2, acts a ++ es, by rw [acts_append, h3, List.append_assoc], ?_⟩
          intro ev hm
          rcases List.mem_append.1 hm with hm | hm
          · exact hclean ev hm
          · exact h4 ev hm
        · refine Or.inr ⟨cur, r, acts a ++ es, h1, h2, by rw [acts_append, h3, List.append_assoc], ?_⟩
          intro ev hm
          rcases List.mem_append.1 hm with hm | hm
          · exact hclean ev hm
          · exact h4 ev hm
    · intro hf ev hm
      rw [acts_append] at hm
      rcases List.mem_append.1 hm with hm | hm
      · exact hclean ev hm
      · exact hb.clean hf ev hm

theorem run_ends {c : Nav} {pre : Path} {d : Int} {t : Tree} {vs : List Ev} {f : Final} (h : Run c.sub d (items c [] pre d t) vs f)
    {v : List Ev} (hv : acts v = vs) : EndsLaw' v f := by
  subst hv
  have hd0 := items_depth c t [] pre d
  have hpan : ∀ n, Ev.invoke n .panic ∈ v →
    (n.parent = none ∧ f = .panic ∧ ∃ es, acts v = es ++ [.invoke n .panic] ∧ ∀ ev ∈ es, ev.Clean) ∨
    (∃ cur r es, n.parent = some cur ∧ f = .done (some r.err) ∧ acts v = es ++ [.invoke n .panic, .rescue cur (n.depth - 1) r] ∧
      ∀ ev ∈ es, ev.Clean) := by
    intro n hm
    have hm' := invoke_acts.2 hm
    rcases h.panicked hm' hd0 with ⟨h1, h2, es, h3⟩ | ⟨h1, cur, r, es, h2, h3, h4⟩
    · obtain ⟨it, hit, rfl⟩ := h.invoke_mem hm'
      obtain ⟨u, ps', -, g2, -, g4, -⟩ := items_at c t [] pre d it hit
      refine Or.inl ⟨?_, h2, es, h3, ?_⟩
      · rw [g2, g4 h1]; rfl
      · rcases h.cleanUp with hc | ⟨es', n', hc, hcl⟩ | ⟨es', n', cur', d', r', hc, hcl⟩
        · exact absurd (hc _ hm') (fun h => h)
        · rw [h3] at hc
          have hh := List.append_inj_left' hc rfl
          rw [hh]; exact hcl
        · rw [h3] at hc
          have := congrArg List.getLast? hc
          simp at this
    · exact Or.inr ⟨cur, r, es, h2, h3, h4, h.clean_before h4⟩
  have hgen : ∀ n e, Ev.invoke n (.ok (some e)) ∈ v → Genuine e → f = .done (some e) ∧
      ∃ es, acts v = es ++ [.invoke n (.ok (some e))] ∧ ∀ m r, Ev.invoke m r ∈ es → r.Mild :=
    fun n e hm hg => h.genuine (invoke_acts.2 hm) hg
  have hnop : f = .done none → ∀ n, Ev.invoke n .panic ∉ v := by
    intro hf n hm
    rcases hpan n hm with ⟨-, h2, -⟩ | ⟨_, _, _, -, h2, -⟩ <;> rw [hf] at h2 <;> cases h2
  refine ⟨⟨hgen, ?_, hpan⟩, ?_⟩
  · intro hf n r hm
    rcases r with (_ | e) | _
    · exact Or.inl rfl
    · refine Or.inr ⟨e, rfl, fun hg => ?_⟩
      have := (hgen n e hm hg).1
      rw [hf] at this; cases this
    · exact absurd hm (hnop hf n)
  · intro hf
    rcases h.cleanUp with hc | ⟨es', n', hc, -⟩ | ⟨es', n', cur', d', r', hc, -⟩
    · exact hc
    · exact absurd (invoke_acts.1 (by rw [hc]; simp)) (hnop hf n')
    · exact absurd (invoke_acts.1 (by rw [hc]; simp)) (hnop hf n')

/-- What one navigation adds to the history, whatever the state it starts from. -/
structure LegOf (c : Nav) (pre : Path) (t : Tree) (d : Int) (v : List Ev) (f : Final) : Prop where
  ends : EndsLaw' v f
  visit : v = [] ∨ Visit (pre ++ [t.name]) v
  nodes : ∀ n r, Ev.invoke n r ∈ v → ∃ it ∈ items c [] pre d t, it.node = n
  rescued : ∀ n k r, Ev.rescue n k r ∈ v → ∃ it ∈ items c [] pre d t, it.node.parents.head? = some n ∧ k = it.node.depth - 1
  list : (invoked v).Sublist ((items c [] pre d t).map (·.node))

theorem traverse_leg (c : Nav) (env : Env σ) (pre : Path) (t : Tree) (s : St σ) :
    ∃ v, (traverse c env [] pre t s).2.log = s.log ++ v ∧ (traverse c env [] pre t s).2.depth = s.depth ∧
      LegOf c pre t s.depth v (traverse c env [] pre t s).1.final := by
  obtain ⟨v, h1, h2, -⟩ := traverse_visit c env t [] pre s
  refine ⟨v, h1, traverse_depth c env [] pre t s, ?_⟩
  cases htd : tooDeep c s.depth with
  | true =>
    have hv : v = [] := by
      cases t
      rw [traverse] at h1
      simpa [htd] using h1
    subst hv
    exact ⟨ends_sequential.nil _, Or.inl rfl, by simp, by simp, by simp [invoked, calls]⟩
  | false =>
    obtain ⟨vs, -, g2, g3⟩ := top_run c env pre t s htd
    have hv : acts v = vs := by
      rw [h1, acts_append] at g2
      exact List.append_cancel_left g2
    refine ⟨run_ends g3 hv, ?_, ?_, ?_, by rw [← invoked_acts, hv]; exact g3.sublist⟩
    · rcases h2 with ⟨h, -⟩ | h
      · rw [htd] at h; cases h
      · exact Or.inr h
    · intro n r hm
      exact g3.invoke_mem (by rw [← hv]; exact invoke_acts.2 hm)
    · intro n k r hm
      have hm' : Ev.rescue n k r ∈ vs := by rw [← hv]; exact (mem_acts_iff rfl).2 hm
      rcases g3.mem _ hm' with ⟨it, hit, hn⟩ | ⟨it, hit, cur, r', h, hc⟩
      · exact absurd hn (by simp [Ev.nodeIs])
      · cases h; exact ⟨it, hit, hc, rfl⟩

/-- The same for `top`, which may also fail to find the path. -/
theorem top_leg (c : Nav) (env : Env σ) (fault) (pre path : Path) (r : RootStat) (s : St σ) :
    ∃ v, (top c env fault pre path r s).2.log = s.log ++ v ∧ (top c env fault pre path r s).2.depth = s.depth ∧
      ((v = []) ∨ ∃ t, r = .found t ∧ LegOf c pre t s.depth v (top c env fault pre path r s).1) := by
  cases r with
  | error e => exact ⟨[], by simp [top], rfl, Or.inl rfl⟩
  | found t =>
    obtain ⟨v, h1, h2, h3⟩ := traverse_leg c env pre t s
    exact ⟨v, h1, h2, Or.inr ⟨t, rfl, h3⟩⟩

end Traverse
