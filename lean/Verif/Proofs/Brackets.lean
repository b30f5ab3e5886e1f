import Verif.Proofs.Nav2
import Verif.Spec.Brackets
namespace Traverse
variable {σ : Type}

theorem Step.concerns {sub it evs a} (h : Step sub it evs a) :
    (∀ ev ∈ evs, ev.concerns it.node.path) ∧ (calls evs).length ≤ 1 ∧ evs.length ≤ 2 := by
  cases h <;> simp [Ev.concerns, calls]

@[simp] theorem descents_append (a b : List Ev) : descents (a ++ b) = descents a ++ descents b := by
  simp [descents]

theorem Step.descents {sub it evs a} (h : Step sub it evs a) : descents evs = [] := by
  cases h <;> simp [Traverse.descents]

/-- History of one call of traverse: nothing, or one visit. -/
def VOk (c : Nav) (env : Env σ) (t : Tree) : Prop :=
  ∀ ps pp (s : St σ), ∃ v, (traverse c env ps pp t s).2.log = s.log ++ v ∧
    ((tooDeep c s.depth = true ∧ v = []) ∨ Visit (pp ++ [t.name]) v) ∧
    (descents v).Sublist ((items c ps pp s.depth t).map (·.node.path))

theorem travelLoop_visits (c : Nav) (env : Env σ) (ts : List Tree) (ih : ∀ t ∈ ts, VOk c env t) :
    ∀ ps pp (s : St σ), ∃ v, (travelLoop c env ps pp ts s).2.log = s.log ++ v ∧ Visits pp v ∧
      (descents v).Sublist ((itemsList c ps pp s.depth ts).map (·.node.path)) := by
  induction ts with
  | nil => intro ps pp s; exact ⟨[], by simp [travelLoop], .nil _, by simp [descents]⟩
  | cons t ts ihl =>
    intro ps pp s
    obtain ⟨v, hv, hvis, hsub⟩ := ih t (by simp) ps pp s
    have hdep := traverse_depth c env ps pp t s
    rw [travelLoop]
    generalize hr : traverse c env ps pp t s = r at hv hdep
    obtain ⟨o, s1⟩ := r
    simp only at hv hdep
    have hstop : ∃ w, s1.log = s.log ++ w ∧ Visits pp w ∧
        (descents w).Sublist ((itemsList c ps pp s.depth (t :: ts)).map (·.node.path)) := by
      refine ⟨v, hv, ?_, ?_⟩
      · rcases hvis with ⟨_, rfl⟩ | h
        · exact .nil _
        · have := Visits.cons h (.nil pp); simpa using this
      · simp only [itemsList, List.map_append]
        exact hsub.trans (List.sublist_append_left _ _)
    have hgo : ∃ w, (travelLoop c env ps pp ts s1).2.log = s.log ++ w ∧ Visits pp w ∧
        (descents w).Sublist ((itemsList c ps pp s.depth (t :: ts)).map (·.node.path)) := by
      obtain ⟨w, hw, hwv, hws⟩ := ihl (fun k hk => ih k (by simp [hk])) ps pp s1
      refine ⟨v ++ w, by rw [hw, hv, List.append_assoc], ?_, ?_⟩
      · rcases hvis with ⟨_, rfl⟩ | h
        · exact hwv
        · exact .cons h hwv
      · simp only [itemsList, List.map_append, descents_append]
        rw [hdep] at hws
        exact hsub.append hws
    cases o with
    | panic => exact hstop
    | ret p e =>
      cases p <;> cases e <;> simp only
      · exact hgo
      · split <;> exact hstop
      · exact hgo
      · split
        · exact hgo
        · split
          · exact hgo
          · exact hstop

theorem traverse_visit (c : Nav) (env : Env σ) (t : Tree) : VOk c env t := by
  induction t using Tree.ind with
  | h e re fs ds kids ih =>
    intro ps pp s
    rw [traverse]
    cases htd : tooDeep c s.depth with
    | true => exact ⟨[], by simp, Or.inl ⟨rfl, rfl⟩, by simp [descents]⟩
    | false =>
      simp only [Bool.false_eq_true, if_false, items, htd]
      generalize hs1 : s.doDescend env (pp ++ [e.name]) e.isDir = s1
      have hd1 : s1.depth = s.depth + 1 := by rw [← hs1]; rfl
      have hl1 : s1.log = s.log ++ [.descend (pp ++ [e.name]) e.isDir] := by rw [← hs1]; rfl
      rw [← hd1]
      generalize hn : mkNode c ps (pp ++ [e.name]) (.node e re fs ds kids) s1.depth = n
      have hnp : n.path = pp ++ [e.name] := by rw [← hn]; simp
      generalize hre : readErrOf c (.node e re fs ds kids) = rr
      generalize hE : enter c env n rr s1 = r
      obtain ⟨a, s2⟩ := r
      obtain ⟨hd2, evs, hev, hl2, hstep⟩ := enter_step c env ⟨n, rr⟩ s1 a s2 hE
      obtain ⟨hcon, hone, hlen⟩ := hstep.concerns
      simp only [hnp] at hcon
      have hfin : ∀ s3 : St σ, ∀ inner tail, s3.log = s2.log ++ inner ++ tail →
          Visits (pp ++ [e.name]) inner →
          (tail = [] ∨ ∃ n d r, tail = [.rescue n d r] ∧ n.path = pp ++ [e.name]) →
          (descents inner).Sublist ((itemsList c (n.toNodeInfo :: ps) (pp ++ [e.name]) s1.depth kids).map (·.node.path)) →
          ∃ v, (s3.doAscend env (pp ++ [e.name]) e.isDir).log = s.log ++ v ∧
            ((False ∧ v = []) ∨ Visit (pp ++ [(Tree.node e re fs ds kids).name]) v) ∧
            (descents v).Sublist ((⟨n, rr⟩ :: itemsList c (n.toNodeInfo :: ps) (pp ++ [e.name]) s1.depth kids).map (·.node.path)) := by
        intro s3 inner tail h3 hin htail hsub
        refine ⟨_, ?_, Or.inr (Visit.mk (pp ++ [e.name]) e.isDir evs inner tail hcon hone hlen hin htail), ?_⟩
        · simp only [St.doAscend, h3, hl2, hl1, List.append_assoc]
        · have ht0 : descents tail = [] := by
            rcases htail with rfl | ⟨n, d, r, rfl, _⟩ <;> simp [descents]
          have h1 : descents [Ev.descend (pp ++ [e.name]) e.isDir] = [pp ++ [e.name]] := rfl
          have h2 : descents [Ev.ascend (pp ++ [e.name]) e.isDir] = [] := rfl
          simp only [descents_append, hstep.descents, ht0, h1, h2, List.append_nil, List.map_cons, hnp]
          simpa using hsub
      cases a with
      | done o => exact hfin s2 [] [] (by simp) (.nil _) (Or.inl rfl) (by simp [descents])
      | travel =>
        obtain ⟨w, hw, hwv, hws⟩ := travelLoop_visits c env kids ih (n.toNodeInfo :: ps) (pp ++ [e.name]) s2
        rw [hd2] at hws
        simp only
        generalize hT : travelLoop c env (n.toNodeInfo :: ps) (pp ++ [e.name]) kids s2 = T at hw
        obtain ⟨o, s3⟩ := T
        cases o with
        | ret p x => exact hfin s3 w [] (by simpa using hw) hwv (Or.inl rfl) hws
        | panic =>
          refine hfin _ w [.rescue n.toNodeInfo (periDepth s3.depth) (env.rescue s3.ext n.toNodeInfo (periDepth s3.depth)).2]
            ?_ hwv (Or.inr ⟨_, _, _, rfl, hnp⟩) hws
          simp only [recoverIn, St.doRescue]
          simp only at hw
          rw [hw]

/-- A visit closes what it opens. -/
theorem Visit.balanced : ∀ {p l}, Visit p l → (ascents l).Perm (descents l) := by
  have key : ∀ {p l}, Visit p l → (ascents l).Perm (descents l) := by
    intro p l h
    refine Visit.rec (motive_1 := fun _ l _ => (ascents l).Perm (descents l))
      (motive_2 := fun _ l _ => (ascents l).Perm (descents l)) ?_ ?_ ?_ h
    · intro p isDir own inner tail hown hone hlen hinner htail ih
      have ho : ∀ l : List Ev, (∀ ev ∈ l, ev.concerns p) → ascents l = [] ∧ descents l = [] := by
        intro l hl
        constructor
        · simp only [ascents, List.filterMap_eq_nil_iff]
          intro ev hev; have := hl ev hev; cases ev <;> simp_all [Ev.concerns]
        · simp only [descents, List.filterMap_eq_nil_iff]
          intro ev hev; have := hl ev hev; cases ev <;> simp_all [Ev.concerns]
      have ha : ∀ a b, ascents (a ++ b) = ascents a ++ ascents b := by simp [ascents]
      have ht : ascents tail = [] ∧ descents tail = [] := by
        rcases htail with rfl | ⟨n, d, r, rfl, _⟩ <;> simp [ascents, descents]
      simp only [ha, descents_append, (ho own hown).1, (ho own hown).2, ht.1, ht.2]
      have h1 : ascents [Ev.descend p isDir] = [] := rfl
      have h2 : ascents [Ev.ascend p isDir] = [p] := rfl
      have h3 : descents [Ev.descend p isDir] = [p] := rfl
      have h4 : descents [Ev.ascend p isDir] = [] := rfl
      rw [h1, h2, h3, h4]
      simp only [List.nil_append, List.append_nil]
      exact (List.perm_append_comm).trans (List.Perm.append_left _ ih)
    · intro p; exact List.Perm.refl _
    · intro p name a b _ _ iha ihb
      have ha : ∀ a b, ascents (a ++ b) = ascents a ++ ascents b := by simp [ascents]
      rw [ha, descents_append]
      exact iha.append ihb
  intro p l h; exact key h

end Traverse
