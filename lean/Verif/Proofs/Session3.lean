import Verif.Proofs.Session2
import Verif.Proofs.Metrics
namespace Traverse
variable {κ σ : Type}

/-- Adding a second invariant whose preservation may use the first. -/
theorem PreservedOn.with {P : Node → Prop} {env : Env σ} {I Q : St σ → Prop} (h : PreservedOn P env I)
    (hd : ∀ s p d, I s → Q s → Q (s.doDescend env p d)) (ha : ∀ s p d, I s → Q s → Q (s.doAscend env p d))
    (hi : ∀ s n, P n → I s → Q s → Q (s.doInvoke env n).2)
    (hk : ∀ s n re, P n → I s → Q s → Q (s.doAsk env n re).2.2)
    (hr : ∀ s n, I s → Q s → Q (s.doRescue env n).2) : PreservedOn P env (fun s => I s ∧ Q s) :=
  ⟨fun s p d h0 => ⟨h.descend s p d h0.1, hd s p d h0.1 h0.2⟩,
   fun s p d h0 => ⟨h.ascend s p d h0.1, ha s p d h0.1 h0.2⟩,
   fun s n hn h0 => ⟨h.invoke s n hn h0.1, hi s n hn h0.1 h0.2⟩,
   fun s n re hn h0 => ⟨h.ask s n re hn h0.1, hk s n re hn h0.1 h0.2⟩,
   fun s n h0 => ⟨h.rescue s n h0.1, hr s n h0.1 h0.2⟩⟩

/-- An invariant of plain sessions on the world and the handler calls. -/
theorem plain_preserved {S : Setup} (ho : S.Ordinary) (hs : S.Sane) (C : Client κ) (carried : Metrics) (tree target : Path)
    (Q : World κ → List (Node × Reply) → Prop)
    (hpub : ∀ w l n, Q w l → Q (w.publish C n) l)
    (hclient : ∀ w l k sv, Q w l → Q { w with client := k, saves := sv } l)
    (hinv : ∀ s n rep w', PlainInv S carried s → GoodNode S.nav n → PlainStep S C s.ext n w' rep →
      Q s.ext (calls s.log) → Q w' (calls s.log ++ [(n, rep)])) :
    PreservedOn (GoodNode S.nav) (S.env C tree target) (fun s => PlainInv S carried s ∧ Q s.ext (calls s.log)) := by
  refine (plainInv_preserved S ho hs C carried _ target).with ?_ ?_ ?_ ?_ ?_
  · intro s p d _ h
    have : calls (s.doDescend (S.env C tree target) p d).log = calls s.log := by
      simp [St.doDescend, calls]
    rw [this]; exact hpub _ _ _ h
  · intro s p d _ h
    have : calls (s.doAscend (S.env C tree target) p d).log = calls s.log := by
      simp [St.doAscend, calls]
    rw [this]; exact hpub _ _ _ h
  · intro s n hn hI h
    obtain ⟨hp, _⟩ := doInvoke_plain (C := C) (tree := tree) (target := target) hI ho hs n hn
    have : calls (s.doInvoke (S.env C tree target) n).2.log = calls s.log ++
        [(n, (s.doInvoke (S.env C tree target) n).1)] := by
      simp [St.doInvoke, calls]
    rw [this]
    exact hinv s n _ _ hI hn hp h
  · intro s n re _ _ h
    have : calls (s.doAsk (S.env C tree target) n re).2.2.log = calls s.log := by
      simp [St.doAsk, calls]
    rw [this]
    exact hclient _ _ _ s.ext.saves h
  · intro s n _ h
    have : calls (s.doRescue (S.env C tree target) n).2.log = calls s.log := by
      simp [St.doRescue, calls]
    rw [this]
    exact hclient _ _ _ _ h

theorem plain_session_inv {S : Setup} (ho : S.Ordinary) (hs : S.Sane) (C : Client κ) (x : κ) (carried : Metrics)
    (target pre : Path) (fs : FS) (Q : World κ → List (Node × Reply) → Prop)
    (h0 : Q (S.world x carried) [])
    (hpub : ∀ w l n, Q w l → Q (w.publish C n) l)
    (hclient : ∀ w l k sv, Q w l → Q { w with client := k, saves := sv } l)
    (hinv : ∀ s n rep w', PlainInv S carried s → GoodNode S.nav n → PlainStep S C s.ext n w' rep →
      Q s.ext (calls s.log) → Q w' (calls s.log ++ [(n, rep)])) :
    Q (S.session C x carried target pre fs).2.ext (calls (S.session C x carried target pre fs).2.log) :=
  (traverse_invOn (plain_preserved ho hs C carried (pre ++ [fs.name]) target Q hpub hclient hinv) S.nav
    (fun ps path t d => mkNode_good S.nav ps path t d) _ [] pre _ ⟨plainInv_start S ho x carried, h0⟩).2

/-! ### Replies of a sleeping session -/

/-- Whether the machine has gone to sleep on these nodes. -/
def asleep (h : HiberOpts) (l : List Node) : Bool := (hibRun h h.launch l).1 == .retired

theorem hibOf_prefix {S : Setup} {carried} {s : St (World κ)} (h : PlainInv S carried s) :
    S.hibOf s.ext = (hibRun S.hiber S.hiber.launch ((calls s.log).map Prod.fst)).1 := h.hib

theorem session_asleep {S : Setup} (ho : S.Ordinary) (hs : S.Sane) (C : Client κ) (x : κ) (carried : Metrics)
    (target pre : Path) (fs : FS) : ∀ before n r after,
    calls (S.session C x carried target pre fs).2.log = before ++ (n, r) :: after →
    (asleep S.hiber (before.map Prod.fst) = true → r = .ok (some .skipAll)) ∧
    (window S.hiber (before.map Prod.fst ++ [n]) = window S.hiber (before.map Prod.fst) →
      asleep S.hiber (before.map Prod.fst) = false → r = .ok none) := by
  refine plain_session_inv ho hs C x carried target pre fs
    (Q := fun _ l => ∀ before n r after, l = before ++ (n, r) :: after →
      (asleep S.hiber (before.map Prod.fst) = true → r = .ok (some .skipAll)) ∧
      (window S.hiber (before.map Prod.fst ++ [n]) = window S.hiber (before.map Prod.fst) →
        asleep S.hiber (before.map Prod.fst) = false → r = .ok none)) ?_ ?_ ?_ ?_
  · intro b n r a h; simp at h
  · intro w l n h; exact h
  · intro w l k sv h; exact h
  · intro s n rep w' hI hn hp h before m r after heq
    rcases List.eq_nil_or_concat after with rfl | ⟨after', y, rfl⟩
    · obtain ⟨e1, e2⟩ := List.append_inj' heq rfl
      simp only [List.cons.injEq, Prod.mk.injEq, and_true] at e2
      obtain ⟨rfl, rfl⟩ := e2
      subst e1
      have hh := hibOf_prefix hI
      unfold asleep
      rw [← hh]
      constructor
      · intro ha
        have ha : S.hibOf s.ext = .retired := by simpa using ha
        have hw : S.awake s.ext n = false := by unfold Setup.awake; rw [ha]; rfl
        rw [hp.slept hw, if_pos ha]
      · intro hw ha
        have hw' : S.awake s.ext n = false := by
          rw [← hibRun_window, ← hibRun_window, hibRun_append, ← hh] at hw
          simp only [hibRun, List.append_nil] at hw
          unfold Setup.awake
          cases hx : (hibStep S.hiber (S.hibOf s.ext) n).2
          · rfl
          · rw [hx] at hw; simp at hw
        have ha : S.hibOf s.ext ≠ .retired := by simpa using ha
        rw [hp.slept hw', if_neg ha]
    · have e : before ++ (m, r) :: (after'.concat y) = (before ++ (m, r) :: after') ++ [y] := by simp
      rw [e] at heq
      exact h before m r after' (List.append_inj' heq rfl).1

end Traverse
