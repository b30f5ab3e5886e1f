import Verif.Proofs.Chain2
import Verif.Proofs.Invariant2
import Verif.Proofs.Session2
/-
The sampling plugin's link lets everything pass: a session with it goes like the session without it.
-/
namespace Traverse
variable {κ : Type}

/-- The same world, but for the guardian and the record of links that ran. -/
def World.but (w : World κ) (g : Guard) (st : List (Role × Node)) : World κ := { w with guard := g, steps := st }

theorem publish_but (C : Client κ) (w : World κ) (g st n) : (w.but g st).publish C n = (w.publish C n).but g st := by
  unfold World.publish
  by_cases h : w.muted n.ev = true
  · rw [if_pos h, if_pos (show (w.but g st).muted n.ev = true from h)]
  · rw [if_neg h, if_neg (show ¬ (w.but g st).muted n.ev = true from h)]; rfl

/-- A link that neither looks at the guardian nor at the record. -/
def Blind (l : Link (World κ)) : Prop := ∀ w g st p, l (w.but g st) p = ((l w p).1.but g st, (l w p).2)

theorem passOn_blind : Blind (passOn : Link (World κ)) := fun _ _ _ _ => rfl
theorem anchorLink_blind (C : Client κ) : Blind (anchorLink C) := fun _ _ _ _ => rfl
theorem nannyLink_blind (S : Setup) : Blind (nannyLink S : Link (World κ)) := by
  intro w g st p
  unfold nannyLink
  cases p.node.cargo <;> rfl
theorem childScheme_blind (S : Setup) (f) : Blind (childScheme S f : Link (World κ)) := by
  intro w g st p
  unfold childScheme
  cases p.node.cargo <;> rfl
theorem primaryScheme_blind (P) : Blind (primaryScheme P : Link (World κ)) := by
  intro w g st p
  unfold primaryScheme
  cases P with
  | node f => simp only; cases f p.node <;> rfl
  | sample m =>
    simp only
    by_cases h : p.node.scope &&& Scope.tree = 0#32
    · simp only [if_pos h]
    · simp only [if_neg h]
      cases p.node.cargo <;> rfl
theorem hiberLink_blind (C : Client κ) (h) : Blind (hiberLink C h) := by
  intro w g st p
  unfold hiberLink
  rw [show (w.but g st).hib = w.hib from rfl]
  by_cases hd : h.dies w.hib p.node = true
  · simp only [if_pos hd]
  simp only [if_neg hd]
  unfold hiberNext
  rw [show (w.but g st).hib = w.hib from rfl]
  cases w.hib
  · rfl
  · simp only; cases h.wake p.node <;> simp only [publish_but] <;> rfl
  · simp only; cases h.sleep p.node <;> simp only [publish_but] <;> rfl
  · rfl
theorem filterLink_blind (S : Setup) : Blind (filterLink S : Link (World κ)) := by
  intro w g st p
  unfold filterLink
  by_cases hd : S.filter.dies p.node = true
  · simp only [if_pos hd]
  simp only [if_neg hd]
  unfold schemeLink
  cases S.filter.primary with
  | none =>
    cases S.filter.child with
    | none => rfl
    | some f => exact childScheme_blind S f w g st p
  | some P =>
    cases S.filter.child with
    | none => exact primaryScheme_blind P w g st p
    | some f =>
      simp only
      rw [primaryScheme_blind P w g st p]
      rcases primaryScheme P w p with ⟨w1, p1, t⟩
      simp only
      rcases t with ⟨_ | _, e⟩ | _
      · rfl
      · simp only
        rw [childScheme_blind S f w1 g st p1]
        rcases childScheme S f w1 p1 with ⟨w2, p2, t2⟩
        rcases t2 with ⟨_, _⟩ | _ <;> rfl
      · rfl

theorem stageH_blind (S : Setup) (C : Client κ) : Blind (S.stageH C) := by
  unfold Setup.stageH; split
  · exact hiberLink_blind C _
  · exact passOn_blind
theorem stageF_blind (S : Setup) : Blind (S.stageF : Link (World κ)) := by
  unfold Setup.stageF; split
  · exact filterLink_blind S
  · split
    · exact nannyLink_blind S
    · exact passOn_blind

/-- Two setups with the same stages: their chains do the same. -/
theorem big_alike {S S' : Setup} (ho : S.Ordinary) (ho' : S'.Ordinary) (C : Client κ) (hH : S.stageH C = S'.stageH C)
    (hF : (S.stageF : Link (World κ)) = S'.stageF) (target fw fw') (w : World κ) (g st n) :
    ∃ g₁ st₁, (S.big C target fw (w.but g st) n).1 = ((S'.big C target fw' w n).1).but g₁ st₁ ∧
      (S.big C target fw (w.but g st) n).2 = (S'.big C target fw' w n).2 := by
  have hW : (S.stageW fw target : Link (World κ)) = passOn := by
    unfold Setup.stageW; rcases ho with h | h <;> simp [h]
  have hW' : (S'.stageW fw' target : Link (World κ)) = passOn := by
    unfold Setup.stageW; rcases ho' with h | h <;> simp [h]
  unfold Setup.big
  rw [hH, hF, hW, hW', stageH_blind S' C w g st]
  rcases S'.stageH C w ⟨n, []⟩ with ⟨w1, p1, t1⟩
  simp only
  cases t1.goesOn
  · exact ⟨_, _, rfl, rfl⟩
  · simp only [Bool.not_true, Bool.false_eq_true, if_false]
    rw [stageF_blind S' w1 g st]
    rcases S'.stageF w1 p1 with ⟨w2, p2, t2⟩
    simp only
    cases t2.goesOn
    · exact ⟨_, _, rfl, rfl⟩
    · simp only [Bool.not_true, Bool.false_eq_true, if_false, passOn, Turn.goesOn]
      rw [anchorLink_blind C w2 g st]
      exact ⟨_, _, rfl, rfl⟩

/-- Alike, as far as the client side can tell. -/
def Alike (S S' : Setup) (a b : World κ) : Prop :=
  (∃ g st, a = b.but g st) ∧ (∃ fw, GuardOK S fw a.guard) ∧ (∃ fw, GuardOK S' fw b.guard)

theorem invoke_alike {S S' : Setup} (ho : S.Ordinary) (ho' : S'.Ordinary) (C : Client κ) (hH : S.stageH C = S'.stageH C)
    (hF : (S.stageF : Link (World κ)) = S'.stageF) (target) {a b : World κ} (h : Alike S S' a b) (n : Node) :
    (World.invoke S C target a n).2 = (World.invoke S' C target b n).2 ∧
      Alike S S' (World.invoke S C target a n).1 (World.invoke S' C target b n).1 := by
  obtain ⟨⟨g, st, rfl⟩, ⟨fw, h1⟩, ⟨fw', h2⟩⟩ := h
  rw [invoke_big h1, invoke_big h2]
  have e : (b.but g st).touched = b.touched.but (b.but g st).touched.guard st := rfl
  obtain ⟨-, -, -, -, -, -, f1, -, k1⟩ := big_facts S C target fw _ n h1.touched
  obtain ⟨-, -, -, -, -, -, f2, -, k2⟩ := big_facts S' C target fw' _ n h2.touched
  obtain ⟨g₁, st₁, e1, e2⟩ := big_alike ho ho' C hH hF target fw fw' b.touched (b.but g st).touched.guard st n
  rw [← e] at e1 e2
  exact ⟨e2, ⟨g₁, st₁, e1⟩, ⟨f1, k1⟩, ⟨f2, k2⟩⟩

theorem env_alike {S S' : Setup} (ho : S.Ordinary) (ho' : S'.Ordinary) (C : Client κ) (hH : S.stageH C = S'.stageH C)
    (hF : (S.stageF : Link (World κ)) = S'.stageF) (hsub : S.nav.sub = S'.nav.sub) (tree target) :
    Sim (fun _ => True) (S.env C tree target) (S'.env C tree target) (Alike S S') := by
  have hpub : ∀ (a b : World κ) n, Alike S S' a b → Alike S S' (a.publish C n) (b.publish C n) := by
    rintro a b n ⟨⟨g, st, rfl⟩, ⟨fw, h1⟩, ⟨fw', h2⟩⟩
    refine ⟨⟨g, st, publish_but C b g st n⟩, ⟨fw, ?_⟩, ⟨fw', ?_⟩⟩
    · rw [publish_but]; exact h1
    · simpa using h2
  refine ⟨fun a b p d h => hpub _ _ _ h, fun a b p d h => hpub _ _ _ h, fun a b n _ h => invoke_alike ho ho' C hH hF target h n, ?_, ?_⟩
  · rintro a b n re - ⟨⟨g, st, rfl⟩, h1, h2⟩
    exact ⟨rfl, ⟨g, st, rfl⟩, h1, h2⟩
  · rintro a b n d ⟨⟨g, st, rfl⟩, h1, h2⟩
    simp only [Setup.env, hsub]
    exact ⟨rfl, ⟨g, st, rfl⟩, h1, h2⟩

end Traverse
