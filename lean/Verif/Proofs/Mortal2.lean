import Verif.Proofs.Mortal
namespace Traverse
variable {σ : Type}

/-! ### Invariants of sessions in which any callback may panic -/

/-- A property of the navigator state that every call made by the navigator preserves. -/
structure PreservedM (G : Node → Prop) (M : Mortal σ) (Inv : MSt σ → Prop) : Prop where
  descend : ∀ s p d, Inv s → Inv (s.doDescend M p d).2
  ascend : ∀ s p d, Inv s → Inv (s.doAscend M p d).2
  hook : ∀ s p d, M.hooks s.ext p d = true → Inv s → Inv { s with log := s.log ++ [.hook p d] }
  invoke : ∀ s n, G n → Inv s → Inv (s.doInvoke M n).2
  ask : ∀ s n re, Inv s → Inv (s.doAsk M n re).2
  rescue : ∀ s n, Inv s → Inv (s.doRescue M n).2

theorem proceedM_inv {G : Node → Prop} {M : Mortal σ} {Inv : MSt σ → Prop} (h : PreservedM G M Inv) (c : Nav) (n re)
    (s : MSt σ) (hn : G n) (hs : Inv s) : Inv (proceedM c M n re s).2 := by
  have hi := h.invoke s n hn hs
  have ha := h.ask s n re hs
  have hia := h.ask _ n re hi
  unfold proceedM
  rcases hI : s.doInvoke M n with ⟨r, s1⟩
  rw [hI] at hi hia
  rcases hA : s.doAsk M n re with ⟨a, s2⟩
  rw [hA] at ha
  simp only at hi ha hia
  rcases hB : s1.doAsk M n re with ⟨b, s3⟩
  rw [hB] at hia
  cases c.sub <;> rcases r with (_ | _) | _ <;> rcases a with _ | ⟨_, _⟩ <;> rcases b with _ | ⟨_, _⟩ <;>
    simp only [hB] <;> repeat' split
  all_goals first | exact hi | exact ha | exact hia

theorem enterM_inv {G : Node → Prop} {M : Mortal σ} {Inv : MSt σ → Prop} (h : PreservedM G M Inv) (c : Nav) (n re)
    (s : MSt σ) (hn : G n) (hs : Inv s) : Inv (enterM c M n re s).2 := by
  unfold enterM
  split
  · rename_i hk; exact h.hook s _ _ hk hs
  · exact proceedM_inv h c n re s hn hs

theorem recoverInM_inv {G : Node → Prop} {M : Mortal σ} {Inv : MSt σ → Prop} (h : PreservedM G M Inv) (cur : NodeInfo) (r : Out × MSt σ)
    (hs : Inv r.2) : Inv (recoverInM M cur r).2 := by
  obtain ⟨o, q⟩ := r
  cases o with
  | ret => exact hs
  | panic =>
    have := h.rescue q cur hs
    rcases hr : M.rescue q.ext cur (periDepth q.depth) with ⟨x, a⟩
    simp only [MSt.doRescue, hr] at this
    cases a <;> simp only [recoverInM, MSt.doRescue, hr] <;> exact this

theorem travelLoopM_inv {M : Mortal σ} {Inv : MSt σ → Prop} (c : Nav) (ts : List Tree)
    (ih : ∀ t ∈ ts, ∀ ps pp s, Inv s → Inv (traverseM c M ps pp t s).2) :
    ∀ ps pp s, Inv s → Inv (travelLoopM c M ps pp ts s).2 := by
  induction ts with
  | nil => intro ps pp s hs; exact hs
  | cons t ts ihl =>
    intro ps pp s hs
    have h1 := ih t (by simp) ps pp s hs
    have ihl := ihl (fun k hk => ih k (by simp [hk]))
    rw [travelLoopM]
    rcases hT : traverseM c M ps pp t s with ⟨o, s1⟩
    rw [hT] at h1
    have h2 := ihl ps pp s1 h1
    rcases o with ⟨_ | _, _ | e⟩ | _ <;> simp only
    · exact h2
    · split <;> exact h1
    · exact h2
    · split
      · exact h2
      · split
        · exact h2
        · exact h1
    · exact h1

theorem traverseM_inv {G : Node → Prop} {M : Mortal σ} {Inv : MSt σ → Prop} (h : PreservedM G M Inv) (c : Nav)
    (hG : ∀ ps path t d, G (mkNode c ps path t d)) (t : Tree) :
    ∀ ps pp s, Inv s → Inv (traverseM c M ps pp t s).2 := by
  induction t using Tree.ind with
  | h e re fs ds kids ih =>
    intro ps pp s hs
    rw [traverseM]
    split
    · exact hs
    · generalize pp ++ [e.name] = path
      have hd := h.descend s path e.isDir hs
      rcases hD : s.doDescend M path e.isDir with ⟨b, s1⟩
      rw [hD] at hd
      cases b with
      | true => exact hd
      | false =>
        simp only at hd ⊢
        suffices fin : ∀ X : Out × MSt σ, Inv X.2 → Inv (ascendM M path e.isDir X).2 by
          apply fin
          have hn := hG ps path (.node e re fs ds kids) s1.depth
          generalize mkNode c ps _ _ _ = n at hn ⊢
          have h1 := enterM_inv h c n (readErrOf c (.node e re fs ds kids)) s1 hn hd
          rcases hA : enterM c M n (readErrOf c (.node e re fs ds kids)) s1 with ⟨a, q2⟩
          rw [hA] at h1
          cases a with
          | done o => exact h1
          | travel => exact recoverInM_inv h _ _ (travelLoopM_inv c kids ih _ _ _ h1)
        rintro ⟨o, q⟩ hq
        have := h.ascend q path e.isDir hq
        simp only [ascendM]
        rcases hU : q.doAscend M path e.isDir with ⟨b, q'⟩
        rw [hU] at this
        cases b <;> exact this

/-- What is recorded of a call is what the callback did in some state, one of `R`. -/
def Call.From (M : Mortal σ) (R : σ → Prop) : Call → Prop
  | .descend p d b => ∃ x, R x ∧ (M.descend x p d).2 = b
  | .ascend p d b => ∃ x, R x ∧ (M.ascend x p d).2 = b
  | .hook p d => ∃ x, R x ∧ M.hooks x p d = true
  | .invoke n r => ∃ x, R x ∧ (M.invoke x n).2 = r
  | .ask n re a => ∃ x, R x ∧ (M.ask x n re).2 = a
  | .rescue n d a => ∃ x, R x ∧ (M.rescue x n d).2 = a

/-- The callbacks stay within the states `R`. -/
structure StaysM (G : Node → Prop) (M : Mortal σ) (R : σ → Prop) : Prop where
  descend : ∀ x p d, R x → R (M.descend x p d).1
  ascend : ∀ x p d, R x → R (M.ascend x p d).1
  invoke : ∀ x n, G n → R x → R (M.invoke x n).1
  ask : ∀ x n re, R x → R (M.ask x n re).1
  rescue : ∀ x n d, R x → R (M.rescue x n d).1

theorem logM_from {G : Node → Prop} (c : Nav) (M : Mortal σ) {R : σ → Prop} (hR : StaysM G M R)
    (hG : ∀ ps path t d, G (mkNode c ps path t d)) (t : Tree) (ps pp) (s : MSt σ)
    (hs : R s.ext ∧ ∀ k ∈ s.log, Call.From M R k ∧ (∀ n r, k = .invoke n r → G n)) :
    R (traverseM c M ps pp t s).2.ext ∧
    ∀ k ∈ (traverseM c M ps pp t s).2.log, Call.From M R k ∧ (∀ n r, k = .invoke n r → G n) := by
  have add : ∀ (l : List Call) (j : Call), (∀ k ∈ l, Call.From M R k ∧ (∀ n r, k = .invoke n r → G n)) → Call.From M R j →
      (∀ n r, j = .invoke n r → G n) → ∀ k ∈ l ++ [j], Call.From M R k ∧ (∀ n r, k = .invoke n r → G n) := by
    intro l j hl hj hg k hk
    rcases List.mem_append.1 hk with hk | hk
    · exact hl k hk
    · simp only [List.mem_singleton] at hk; subst hk; exact ⟨hj, hg⟩
  refine traverseM_inv (G := G) (Inv := fun s => R s.ext ∧ ∀ k ∈ s.log, Call.From M R k ∧ (∀ n r, k = .invoke n r → G n))
    ⟨?_, ?_, ?_, ?_, ?_, ?_⟩ c hG t ps pp s hs
  · intro s p d h; exact ⟨hR.descend _ _ _ h.1, add _ _ h.2 ⟨s.ext, h.1, rfl⟩ (by simp)⟩
  · intro s p d h; exact ⟨hR.ascend _ _ _ h.1, add _ _ h.2 ⟨s.ext, h.1, rfl⟩ (by simp)⟩
  · intro s p d hk h; exact ⟨h.1, add _ _ h.2 ⟨s.ext, h.1, hk⟩ (by simp)⟩
  · intro s n hn h
    exact ⟨hR.invoke _ _ hn h.1, add _ _ h.2 ⟨s.ext, h.1, rfl⟩ (by intro n' r e; cases e; exact hn)⟩
  · intro s n re h; exact ⟨hR.ask _ _ _ h.1, add _ _ h.2 ⟨s.ext, h.1, rfl⟩ (by simp)⟩
  · intro s n h; exact ⟨hR.rescue _ _ _ h.1, add _ _ h.2 ⟨s.ext, h.1, rfl⟩ (by simp)⟩

end Traverse
