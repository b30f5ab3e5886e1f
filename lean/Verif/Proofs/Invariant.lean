import Verif.Proofs.Flat
namespace Traverse
variable {σ : Type}

/-- A property of the navigator state that every call made by the navigator preserves. -/
structure Preserved (env : Env σ) (Inv : St σ → Prop) : Prop where
  descend : ∀ s p d, Inv s → Inv (s.doDescend env p d)
  ascend : ∀ s p d, Inv s → Inv (s.doAscend env p d)
  invoke : ∀ s n, Inv s → Inv (s.doInvoke env n).2
  ask : ∀ s n re, Inv s → Inv (s.doAsk env n re).2.2
  rescue : ∀ s n, Inv s → Inv (s.doRescue env n).2

theorem enter_inv {env : Env σ} {Inv : St σ → Prop} (h : Preserved env Inv) (c : Nav) (n re) (s : St σ)
    (hs : Inv s) : Inv (enter c env n re s).2 := by
  have hi := h.invoke s n hs
  have ha := h.ask s n re hs
  have hia := h.ask _ n re hi
  unfold enter
  rcases hI : s.doInvoke env n with ⟨r, s1⟩
  rw [hI] at hi hia
  rcases hA : s.doAsk env n re with ⟨sk, e, s2⟩
  rw [hA] at ha
  rcases hA2 : s1.doAsk env n re with ⟨sk', e', s3⟩
  simp only [hA2] at hia
  cases c.sub <;> rcases r with (_ | _) | _ <;> simp only [hA2] <;> repeat' split
  all_goals simp_all

theorem recoverIn_inv {env : Env σ} {Inv : St σ → Prop} (h : Preserved env Inv) (n : NodeInfo)
    (r : Out × St σ) (hs : Inv r.2) : Inv (recoverIn env n r).2 := by
  obtain ⟨o, s⟩ := r
  cases o with
  | panic => exact h.rescue s n hs
  | ret p e => exact hs

theorem travelLoop_inv {env : Env σ} {Inv : St σ → Prop} (c : Nav) (ts : List Tree)
    (ih : ∀ t ∈ ts, ∀ ps pp s, Inv s → Inv (traverse c env ps pp t s).2) :
    ∀ ps pp s, Inv s → Inv (travelLoop c env ps pp ts s).2 := by
  induction ts with
  | nil => intro ps pp s hs; exact hs
  | cons t ts ihl =>
    intro ps pp s hs
    have h1 := ih t (by simp) ps pp s hs
    have ihl := ihl (fun k hk => ih k (by simp [hk]))
    rw [travelLoop]
    rcases hT : traverse c env ps pp t s with ⟨o, s1⟩
    rw [hT] at h1
    have h2 := ihl ps pp s1 h1
    rcases o with ⟨_ | _, _ | e⟩ | _ <;> simp only
    · exact h2
    · split <;> exact h1
    · exact h2
    · split
      · exact h2
      · split
        · exact h2
        · exact h1
    · exact h1

theorem traverse_inv {env : Env σ} {Inv : St σ → Prop} (h : Preserved env Inv) (c : Nav) (t : Tree) :
    ∀ ps pp s, Inv s → Inv (traverse c env ps pp t s).2 := by
  induction t using Tree.ind with
  | h e re fs ds kids ih =>
    intro ps pp s hs
    rw [traverse]
    split
    · exact hs
    · apply h.ascend
      generalize hn : mkNode c ps _ _ _ = n
      have h1 := enter_inv h c n (readErrOf c (.node e re fs ds kids)) _
        (h.descend s (pp ++ [e.name]) e.isDir hs)
      rcases hE : enter c env n (readErrOf c (.node e re fs ds kids)) _ with ⟨a, s2⟩
      rw [hE] at h1
      cases a with
      | done o => exact h1
      | travel =>
        apply recoverIn_inv h
        exact travelLoop_inv c kids ih _ _ _ h1

/-- The answers recorded in the history are answers the environment gave. -/
def EvFrom (env : Env σ) : Ev → Prop
  | .invoke n r => ∃ x, (env.invoke x n).2 = r
  | .ask n re sk e => ∃ x, (env.ask x n re).2 = (sk, e)
  | .rescue n d r => ∃ x, (env.rescue x n d).2 = r
  | _ => True

theorem log_from (c : Nav) (env : Env σ) (t : Tree) (ps pp) (s : St σ) (hs : ∀ ev ∈ s.log, EvFrom env ev) :
    ∀ ev ∈ (traverse c env ps pp t s).2.log, EvFrom env ev := by
  refine traverse_inv (Inv := fun s => ∀ ev ∈ s.log, EvFrom env ev) ⟨?_, ?_, ?_, ?_, ?_⟩ c t ps pp s hs
  · intro s p d h ev hev
    simp only [St.doDescend, List.mem_append, List.mem_singleton] at hev
    rcases hev with hev | rfl
    · exact h ev hev
    · trivial
  · intro s p d h ev hev
    simp only [St.doAscend, List.mem_append, List.mem_singleton] at hev
    rcases hev with hev | rfl
    · exact h ev hev
    · trivial
  · intro s n h ev hev
    simp only [St.doInvoke, List.mem_append, List.mem_singleton] at hev
    rcases hev with hev | rfl
    · exact h ev hev
    · exact ⟨_, rfl⟩
  · intro s n re h ev hev
    simp only [St.doAsk, List.mem_append, List.mem_singleton] at hev
    rcases hev with hev | rfl
    · exact h ev hev
    · exact ⟨_, rfl⟩
  · intro s n h ev hev
    simp only [St.doRescue, List.mem_append, List.mem_singleton] at hev
    rcases hev with hev | rfl
    · exact h ev hev
    · exact ⟨_, rfl⟩

end Traverse
