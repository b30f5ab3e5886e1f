import Verif.Proofs.Bridge
import Verif.Proofs.Invariant2
namespace Traverse
variable {κ : Type}

/-! ### Filters that do not panic on the nodes of a tree -/

/-- The same session with filters that never panic. -/
def Setup.calmed (S : Setup) : Setup :=
  { S with
    filter := { S.filter with dies := fun _ => false }
    hiber := { S.hiber with wakeDies := fun _ => false, sleepDies := fun _ => false } }

/-- None of the filters panics on this node. -/
structure Setup.CalmAt (S : Setup) (n : Node) : Prop where
  filter : S.filter.dies n = false
  wake : S.hiber.wakeDies n = false
  sleep : S.hiber.sleepDies n = false

theorem calmed_calm (S : Setup) : S.calmed.Calm := ⟨fun _ => rfl, fun _ _ => ⟨rfl, rfl⟩⟩

theorem calmed_link (S : Setup) (C : Client κ) (target r) :
    (linkOf S C target r = none ∧ linkOf S.calmed C target r = none) ∨
    ∃ l l', linkOf S C target r = some l ∧ linkOf S.calmed C target r = some l' ∧
      ∀ (w : World κ) p, S.CalmAt p.node → l w p = l' w p := by
  cases r
  case undefined => exact Or.inl ⟨rfl, rfl⟩
  all_goals refine Or.inr ⟨_, _, rfl, rfl, ?_⟩; intro w p hp
  case clientFilter =>
    simp only [filterLink, hp.filter, Setup.calmed]
    rfl
  case hibernate =>
    have h1 : S.hiber.dies w.hib p.node = false := by
      cases w.hib <;> simp [HiberOpts.dies, hp.wake, hp.sleep]
    have h2 : S.calmed.hiber.dies w.hib p.node = false := by
      cases w.hib <;> simp [HiberOpts.dies, Setup.calmed]
    simp only [hiberLink, h1, h2]
    rfl
  all_goals rfl

theorem calmed_iterate (S : Setup) (C : Client κ) (target) (rs : List Role) : ∀ (w : World κ) p, S.CalmAt p.node →
    iterate (World.link S C target) rs w p = iterate (World.link S.calmed C target) rs w p := by
  induction rs with
  | nil => intro w p _; rfl
  | cons r rs ih =>
    intro w p hp
    simp only [iterate, World.link]
    by_cases hr : r ∈ w.guard.chain
    · simp only [if_pos hr]
      rcases calmed_link S C target r with ⟨h1, h2⟩ | ⟨l, l', h1, h2, h3⟩
      · simp only [h1, h2]
      · have hn := (link_hits h1 w p).1
        simp only [h1, h2, h3 w p hp] at hn ⊢
        rcases hl : l' w p with ⟨w1, p1, t⟩
        rw [hl] at hn
        simp only at hn ⊢
        rw [ih w1 p1 (by rw [hn]; exact hp)]
    · simp only [if_neg hr]

theorem calmed_invoke (S : Setup) (C : Client κ) (target) (w : World κ) (n : Node) (hn : S.CalmAt n) :
    World.invoke S C target w n = World.invoke S.calmed C target w n := by
  unfold World.invoke
  cases w.guard.positions with
  | none => rfl
  | some ps => simp only [calmed_iterate S C target ps.list.2 _ ⟨n, []⟩ hn]

theorem calmed_world (S : Setup) (x : κ) (carried : Metrics) : S.calmed.world x carried = S.world x carried := rfl

/-- Filters that do not panic on the nodes of the tree might as well never panic. -/
theorem calmed_session (S : Setup) (C : Client κ) (x : κ) (carried : Metrics) (target pre : Path) (fs : FS)
    (h : ∀ n : Node, n.Of fs → S.CalmAt n) :
    S.session C x carried target pre fs = S.calmed.session C x carried target pre fs := by
  have hsim : Sim (fun n => n.Of fs) (S.env C (pre ++ [fs.name]) target) (S.calmed.env C (pre ++ [fs.name]) target) Eq := by
    refine ⟨?_, ?_, ?_, ?_, ?_⟩
    · rintro a _ p d rfl; rfl
    · rintro a _ p d rfl; rfl
    · rintro a _ n hn rfl
      have := calmed_invoke S C target a n (h n hn)
      exact ⟨congrArg Prod.snd this, congrArg Prod.fst this⟩
    · rintro a _ n re _ rfl; exact ⟨rfl, rfl⟩
    · rintro a _ n d rfl; exact ⟨rfl, rfl⟩
  obtain ⟨h1, h2⟩ := hsim.traverseAt S.nav (fun q ps t d => by intro hc; simp [mkNode] at hc) (prep S.nav fs) [] pre
    (fun d _ => by simp [mkNode, (prep_entry S.nav fs).2]) (St.fresh (S.world x carried)) (St.fresh (S.world x carried)) ⟨rfl, rfl, rfl⟩
  refine Prod.ext (congrArg Out.final h1) ?_
  show (traverse S.nav _ [] pre (prep S.nav fs) (St.fresh (S.world x carried))).2 =
    (traverse S.nav _ [] pre (prep S.nav fs) (St.fresh (S.world x carried))).2
  revert h2
  generalize (traverse S.nav _ [] pre (prep S.nav fs) (St.fresh (S.world x carried))).2 = a
  generalize (traverse S.nav _ [] pre (prep S.nav fs) (St.fresh (S.world x carried))).2 = b
  rintro ⟨e1, e2, e3⟩
  cases a; cases b
  simp_all

end Traverse
