import Verif.Model.Resume
import Verif.Proofs.Driver
import Verif.Proofs.Metrics
/-
Invariants of a resumed session.
-/
namespace Traverse
variable {κ σ : Type}

/-- What the fault handler does preserves the invariant. -/
def FaultOK (fault : σ → Path → Err → σ × Option Err) (Inv : St σ → Prop) : Prop :=
  ∀ s p e, Inv s → Inv { s with ext := (fault s.ext p e).1 }

theorem seed_inv {env : Env σ} {Inv : St σ → Prop} (h : Preserved env Inv) {fault} (hf : FaultOK fault Inv) (c : Nav) (stat)
    (parent : Path) (names : List String) : ∀ s, Inv s → Inv (seed c env fault stat parent names s).2 := by
  induction names with
  | nil => intro s hs; exact hs
  | cons n ns ih =>
    intro s hs
    have h1 := top_inv h c fault parent (parent ++ [n]) (stat (parent ++ [n])) s hs (fun p e => hf s p e hs)
    rw [seed]
    rcases ht : top c env fault parent (parent ++ [n]) (stat (parent ++ [n])) s with ⟨f, s1⟩
    rw [ht] at h1
    rcases f with (_ | e) | _
    · exact ih s1 h1
    · exact h1
    · exact h1

theorem crown_inv {env : Env σ} {Inv : St σ → Prop} (h : Preserved env Inv) {fault} (hf : FaultOK fault Inv) (c : Nav) (stat)
    (disk : Disk) (tree : Path) (rcur : List String) : ∀ incl s, Inv s →
      Inv (crown c env fault stat disk tree rcur incl s).2.2 := by
  induction rcur with
  | nil => intro incl s hs; rw [crown]; split <;> exact hs
  | cons child rparent ih =>
    intro incl s hs
    rw [crown]
    split
    · exact hs
    · split
      · exact hs
      · rename_i names _
        have h1 := seed_inv h hf c stat rparent.reverse names s hs
        rcases ht : seed c env fault stat rparent.reverse names s with ⟨f, s1⟩
        rw [ht] at h1
        rcases f with (_ | e) | _
        · exact ih false s1 h1
        · exact h1
        · exact h1

/-- Both strategies. -/
theorem resumeRun_inv {S : Setup} {o : Options κ} {C : Client κ} {a : Active} {Inv : St (World κ) → Prop}
    (h : Preserved (S.env C a.tree a.currentPath) Inv) (hf : FaultOK o.fault Inv) (disk : Disk) (st : Strategy) (w : World κ)
    (hs : ∀ d, Inv ⟨d, w, []⟩) : Inv (resumeRun S o C disk st a w).2.2 := by
  cases st with
  | spawn => exact crown_inv h hf _ _ disk a.tree _ true _ (hs _)
  | undefined => exact top_inv h _ _ _ _ _ _ (hs _) (fun p e => hf _ p e (hs _))
  | fastward => exact top_inv h _ _ _ _ _ _ (hs _) (fun p e => hf _ p e (hs _))

theorem fault_inner (o : Options κ) (t0) : FaultOK o.fault (InnerSince (κ := κ) t0) := by
  intro s p e h
  exact h.step ⟨[], by simp [Options.fault], by simp⟩

theorem fault_loud (o : Options κ) (e) : FaultOK o.fault (fun s : St (World κ) => s.ext.loud e) := fun _ _ _ h => h

theorem fault_counts (o : Options κ) (base) : FaultOK o.fault (fun s : St (World κ) => CountsOK base s.ext) :=
  fun _ _ _ h => h.same rfl rfl

theorem counts_preserved (S : Setup) (C : Client κ) (tree target : Path) (base) :
    Preserved (S.env C tree target) (fun s => CountsOK base s.ext) where
  descend s p d hs := hs.same (by simp [St.doDescend, Setup.env]) (by simp [St.doDescend, Setup.env])
  ascend s p d hs := hs.same (by simp [St.doAscend, Setup.env]) (by simp [St.doAscend, Setup.env])
  invoke s n hs := hs.invoke n
  ask s n re hs := hs.same rfl rfl
  rescue s n hs := hs.same rfl rfl

end Traverse
