import Verif.Proofs.Again
/-
Hibernation over more than one call of Navigate: once asleep, always asleep.
-/
namespace Traverse
variable {κ : Type}

/-- Nothing the client side could see has happened. -/
structure Calm (w v : World κ) : Prop where
  hib : v.hib = w.hib
  tape : v.tape = w.tape
  hits : v.hits = w.hits
  guard : v.guard = w.guard

theorem Calm.refl (w : World κ) : Calm w w := ⟨rfl, rfl, rfl, rfl⟩
theorem Calm.trans {u v w : World κ} (h : Calm u v) (k : Calm v w) : Calm u w :=
  ⟨k.hib.trans h.hib, k.tape.trans h.tape, k.hits.trans h.hits, k.guard.trans h.guard⟩

theorem nanny_calm (S : Setup) (w : World κ) (p) : Calm w (nannyLink S w p).1 := by
  unfold nannyLink; split <;> exact ⟨rfl, rfl, rfl, rfl⟩
theorem child_calm (S : Setup) (f) (w : World κ) (p) : Calm w (childScheme S f w p).1 := by
  unfold childScheme; split <;> exact ⟨rfl, rfl, rfl, rfl⟩
theorem primary_calm (P) (w : World κ) (p) : Calm w (primaryScheme P w p).1 := by
  unfold primaryScheme
  cases P with
  | node f => simp only; cases f p.node <;> exact ⟨rfl, rfl, rfl, rfl⟩
  | sample mm =>
    simp only
    by_cases h : p.node.scope &&& Scope.tree = 0#32
    · simp only [if_pos h]; exact .refl w
    · simp only [if_neg h]
      cases p.node.cargo <;> exact ⟨rfl, rfl, rfl, rfl⟩
theorem filter_calm (S : Setup) (w : World κ) (p) : Calm w (filterLink S w p).1 := by
  unfold filterLink
  by_cases hd : S.filter.dies p.node = true
  · rw [if_pos hd]; exact .refl w
  rw [if_neg hd]
  unfold schemeLink
  cases S.filter.primary with
  | none =>
    cases S.filter.child with
    | none => exact .refl w
    | some f => exact child_calm S f w p
  | some P =>
    have hp := primary_calm P w p
    cases S.filter.child with
    | none => exact hp
    | some f =>
      simp only
      revert hp
      rcases primaryScheme P w p with ⟨w1, p1, t⟩
      intro hp
      rcases t with ⟨_ | _, e⟩ | _
      · exact hp
      · have hc := child_calm S f w1 p1
        simp only
        revert hc
        rcases childScheme S f w1 p1 with ⟨w2, p2, t2⟩
        intro hc
        rcases t2 with ⟨_, _⟩ | _ <;> exact Calm.trans (v := w1) hp hc
      · exact hp
theorem stageF_calm (S : Setup) (w : World κ) (p) : Calm w (S.stageF w p).1 := by
  unfold Setup.stageF; split
  · exact filter_calm S w p
  · split
    · exact nanny_calm S w p
    · exact .refl w

/-- Sleep has been notified only if hibernation is over. -/
def Dozed (w : World κ) : Prop := Obs.note .sleep ∈ w.tape → w.hib = .retired

theorem Dozed.publish {w : World κ} (h : Dozed w) (C : Client κ) (n) (hn : n ≠ .sleep) : Dozed (w.publish C n) := by
  intro hm
  simp only [publish_hib]
  apply h
  unfold World.publish at hm
  split at hm
  · exact hm
  · rcases List.mem_append.1 hm with hm | hm
    · exact hm
    · simp at hm; exact absurd hm.symm hn

theorem stageH_dozed (S : Setup) (C : Client κ) (w : World κ) (p) (h : Dozed w) : Dozed (S.stageH C w p).1 := by
  unfold Setup.stageH
  split
  · unfold hiberLink
    by_cases hd : S.hiber.dies w.hib p.node = true
    · rw [if_pos hd]; exact h
    rw [if_neg hd]
    unfold hiberNext
    cases hh : w.hib with
    | undefined => simpa using h
    | pending =>
      simp only
      split
      · have h2 : Obs.note .sleep ∉ w.tape := fun hm => by rw [h hm] at hh; cases hh
        intro hm
        refine absurd ?_ h2
        show Obs.note Note.sleep ∈ w.tape
        have hm' : Obs.note .sleep ∈ (w.publish C .wake).tape := hm
        unfold World.publish at hm'
        split at hm'
        · exact hm'
        · simpa using hm'
      · exact h
    | active =>
      simp only
      split
      · intro _; rfl
      · exact h
    | retired => simpa using h
  · exact h

theorem dozed_preserved {S : Setup} (ho : S.Ordinary) (C : Client κ) (tree target) :
    Preserved (S.env C tree target) (fun s => Dozed s.ext ∧ ∃ fw, GuardOK S fw s.ext.guard) := by
  constructor
  · intro s p d h
    exact ⟨h.1.publish C (.descend p d) (by simp), by simpa [St.doDescend, Setup.env] using h.2⟩
  · intro s p d h
    exact ⟨h.1.publish C (.ascend p d) (by simp), by simpa [St.doAscend, Setup.env] using h.2⟩
  · rintro s n ⟨h, fw, hg⟩
    obtain ⟨-, -, -, -, -, -, f1, -, k1⟩ := big_facts S C target fw _ n hg.touched
    rw [← invoke_big (C := C) (target := target) hg n] at k1
    refine ⟨?_, f1, k1⟩
    show Dozed (World.invoke S C target s.ext n).1
    rw [invoke_big hg]
    have hW : (S.stageW fw target : Link (World κ)) = passOn := by
      unfold Setup.stageW; rcases ho with h | h <;> simp [h]
    unfold Setup.big
    rw [hW]
    have h1 := stageH_dozed S C s.ext.touched ⟨n, []⟩ h
    revert h1
    rcases S.stageH C s.ext.touched ⟨n, []⟩ with ⟨w1, p1, t1⟩
    intro h1
    simp only at h1 ⊢
    cases t1.goesOn
    · exact h1
    · simp only [Bool.not_true, Bool.false_eq_true, if_false]
      have h2 := stageF_calm S w1 p1
      revert h2
      rcases S.stageF w1 p1 with ⟨w2, p2, t2⟩
      intro h2
      have h3 : Dozed w2 := by
        intro hm
        rw [h2.hib]; apply h1; rw [← h2.tape]; exact hm
      simp only at h3 ⊢
      cases t2.goesOn
      · exact h3
      · simp only [Bool.not_true, Bool.false_eq_true, if_false, passOn_apply, goesOn_true]
        intro hm
        apply h3
        have hm' : Obs.note .sleep ∈ w2.tape ++ [.call p2.node] := hm
        simpa using hm'
  · intro s n re h; exact h
  · intro s n h; exact h

/-- Asleep for good: no handler is called. -/
theorem retired_preserved {S : Setup} (hh : S.hiber.active = true) (C : Client κ) (tree target) :
    Preserved (S.env C tree target) (fun s => (s.ext.hib = .retired ∧ s.ext.hits = []) ∧ ∃ fw, GuardOK S fw s.ext.guard) := by
  constructor
  · intro s p d h
    simpa [St.doDescend, Setup.env] using h
  · intro s p d h
    simpa [St.doAscend, Setup.env] using h
  · rintro s n ⟨h, fw, hg⟩
    obtain ⟨-, -, -, -, -, -, f1, -, k1⟩ := big_facts S C target fw _ n hg.touched
    rw [← invoke_big (C := C) (target := target) hg n] at k1
    refine ⟨?_, f1, k1⟩
    show (World.invoke S C target s.ext n).1.hib = .retired ∧ (World.invoke S C target s.ext n).1.hits = []
    rw [invoke_big hg]
    have hH : S.stageH C s.ext.touched ⟨n, []⟩ = (s.ext.touched, ⟨n, []⟩, .go false (some .skipAll)) := by
      have : s.ext.touched.hib = .retired := h.1
      simp [Setup.stageH, hh, hiberLink, hiberNext, HiberOpts.dies, this]
    unfold Setup.big
    rw [hH]
    exact h
  · intro s n re h; exact h
  · intro s n h; exact h

end Traverse
