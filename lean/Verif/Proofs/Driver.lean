import Verif.Model.Session
import Verif.Spec.Chain
import Verif.Proofs.Invariant2
/-
Begin and End around a session: the tape as it was before the session has no influence on it, and the navigator itself
publishes neither Begin nor End.
-/
namespace Traverse
variable {κ : Type}

/-- The same world with an earlier history. -/
def World.after (t : List Obs) (u : World κ) : World κ := { u with tape := t ++ u.tape }

/-- Neither Begin nor End. -/
def Obs.inner : Obs → Bool
  | .note (.begin _) => false
  | .note .ended => false
  | _ => true

theorem publish_after (C : Client κ) (t) (u : World κ) (n : Note) : (u.after t).publish C n = (u.publish C n).after t := by
  by_cases h : u.muted n.ev = true
  · have h' : (u.after t).muted n.ev = true := h
    simp [World.publish, h, h']
  · have h' : ¬ (u.after t).muted n.ev = true := h
    simp [World.publish, h, h', World.after]

theorem publish_inner (C : Client κ) (u : World κ) (n : Note) (hn : (Obs.note n).inner = true) :
    ∃ d, (u.publish C n).tape = u.tape ++ d ∧ ∀ o ∈ d, o.inner = true := by
  by_cases h : u.muted n.ev = true
  · exact ⟨[], by simp [World.publish, h], by simp⟩
  · exact ⟨[.note n], by simp [World.publish, h], by simpa using hn⟩

/-- A step that ignores the tape, and adds to it only what is inner. -/
structure Tame {α : Type} (f : World κ → World κ × α) : Prop where
  after : ∀ t u, f (u.after t) = ((f u).1.after t, (f u).2)
  inner : ∀ u, ∃ d, (f u).1.tape = u.tape ++ d ∧ ∀ o ∈ d, o.inner = true

theorem anchor_tame (C : Client κ) (p) : Tame (fun w => anchorLink C w p) :=
  ⟨fun t u => by simp [anchorLink, World.after], fun u => ⟨[.call p.node], rfl, by simp [Obs.inner]⟩⟩

theorem hiberNext_tame (C : Client κ) (h p) : Tame (fun w => hiberNext C h w p) := by
  constructor
  · intro t u
    have e : (u.after t).hib = u.hib := rfl
    simp only [hiberNext, e]
    cases u.hib <;> simp only [publish_after] <;> first | rfl | (split <;> rfl)
  · intro u
    have h1 := publish_inner C u .wake rfl
    have h2 := publish_inner C u .sleep rfl
    have h0 : ∃ d, u.tape = u.tape ++ d ∧ ∀ o ∈ d, o.inner = true := ⟨[], by simp, by simp⟩
    simp only [hiberNext]
    cases u.hib <;> simp only <;> first | exact h0 | (split <;> first | exact h1 | exact h2 | exact h0)

/-- A panic before the rest. -/
theorem Tame.unless {f : World κ → World κ × Parcel × Turn} (hf : Tame f) (b : World κ → Bool) (hb : ∀ t u, b (u.after t) = b u) (p : Parcel) :
    Tame (fun w => if b w then (w, p, .panic) else f w) := by
  constructor
  · intro t u
    simp only [hb]
    cases b u
    · exact hf.after t u
    · rfl
  · intro u
    cases hu : b u
    · simpa [hu] using hf.inner u
    · exact ⟨[], by simp [hu], by simp⟩

theorem hiber_tame (C : Client κ) (h p) : Tame (fun w => hiberLink C h w p) :=
  (hiberNext_tame C h p).unless (fun w => h.dies w.hib p.node) (fun _ _ => rfl) p

theorem quiet_tame {α : Type} (f : World κ → World κ × α) (ha : ∀ t u, f (u.after t) = ((f u).1.after t, (f u).2))
    (ht : ∀ u, (f u).1.tape = u.tape) : Tame f := ⟨ha, fun u => ⟨[], by simp [ht], by simp⟩⟩

theorem nanny_tame (S : Setup) (p) : Tame (fun w : World κ => nannyLink S w p) := by
  apply quiet_tame
  · intro t u; simp only [nannyLink]; split <;> rfl
  · intro u; simp only [nannyLink]; split <;> rfl

theorem child_tame (S : Setup) (f p) : Tame (fun w : World κ => childScheme S f w p) := by
  apply quiet_tame
  · intro t u; simp only [childScheme]; split <;> rfl
  · intro u; simp only [childScheme]; split <;> rfl

theorem primary_tame (P p) : Tame (fun w : World κ => primaryScheme P w p) := by
  apply quiet_tame
  · intro t u; cases P <;> simp only [primaryScheme] <;> repeat' split
    all_goals rfl
  · intro u; cases P <;> simp only [primaryScheme] <;> repeat' split
    all_goals rfl

theorem scheme_tame (S : Setup) (p) : Tame (fun w : World κ => schemeLink S w p) := by
  have hP := fun P => primary_tame (κ := κ) P p
  have hC := fun f p => child_tame (κ := κ) S f p
  constructor
  · intro t u
    simp only [schemeLink]
    cases S.filter.primary with
    | none =>
      cases S.filter.child with
      | none => rfl
      | some f => exact (hC f p).after t u
    | some P =>
      have h1 : primaryScheme P (u.after t) p = ((primaryScheme P u p).1.after t, (primaryScheme P u p).2) := (hP P).after t u
      cases S.filter.child with
      | none => exact h1
      | some f =>
        simp only [h1]
        rcases primaryScheme P u p with ⟨w1, p1, ⟨b, e⟩ | _⟩
        · cases b with
          | false => rfl
          | true =>
            have h2 := (hC f p1).after t w1
            simp only at h2 ⊢
            rw [h2]
            rcases childScheme S f w1 p1 with ⟨w2, p2, ⟨b2, e2⟩ | _⟩ <;> rfl
        · rfl
  · intro u
    have h0 : ∃ d, u.tape = u.tape ++ d ∧ ∀ o ∈ d, o.inner = true := ⟨[], by simp, by simp⟩
    simp only [schemeLink]
    cases S.filter.primary with
    | none =>
      cases S.filter.child with
      | none => exact h0
      | some f => exact (hC f p).inner u
    | some P =>
      have h1 := (hP P).inner u
      cases S.filter.child with
      | none => exact h1
      | some f =>
        simp only at h1 ⊢
        rcases hp : primaryScheme P u p with ⟨w1, p1, ⟨b, e⟩ | _⟩ <;> rw [hp] at h1
        · cases b with
          | false => exact h1
          | true =>
            have h2 := (hC f p1).inner w1
            obtain ⟨d1, h1, i1⟩ := h1
            obtain ⟨d2, h2, i2⟩ := h2
            simp only at h1 h2 ⊢
            have : ∃ d, (childScheme S f w1 p1).1.tape = u.tape ++ d ∧ ∀ o ∈ d, o.inner = true :=
              ⟨d1 ++ d2, by rw [h2, h1, List.append_assoc], fun o ho => (List.mem_append.1 ho).elim (i1 o) (i2 o)⟩
            rcases hc : childScheme S f w1 p1 with ⟨w2, p2, ⟨b2, e2⟩ | _⟩ <;> rw [hc] at this <;> exact this
        · exact h1

theorem filter_tame (S : Setup) (p) : Tame (fun w : World κ => filterLink S w p) :=
  (scheme_tame S p).unless (fun _ => S.filter.dies p.node) (fun _ _ => rfl) p

theorem fastward_tame (target p) : Tame (fun w : World κ => fastwardLink target w p) := by
  apply quiet_tame
  · intro t u; simp only [fastwardLink]; rcases fastwardMatch target p.node with _ | _ | _ <;> rfl
  · intro u; simp only [fastwardLink]; rcases fastwardMatch target p.node with _ | _ | _ <;> rfl

theorem link_tame {S : Setup} {C : Client κ} {target r l} (h : linkOf S C target r = some l) (p) : Tame (fun w => l w p) := by
  cases r <;> simp only [linkOf, Option.some.injEq, reduceCtorEq] at h <;> subst h
  all_goals first
    | exact fastward_tame target p
    | exact hiber_tame C _ p
    | exact nanny_tame S p
    | exact filter_tame S p
    | exact anchor_tame C p
    | exact quiet_tame _ (fun _ _ => rfl) (fun _ => rfl)

theorem iterate_after (S : Setup) (C : Client κ) (target) (t : List Obs) (rs : List Role) : ∀ (u : World κ) p,
    iterate (World.link S C target) rs (u.after t) p =
      ((iterate (World.link S C target) rs u p).1.after t, (iterate (World.link S C target) rs u p).2) := by
  induction rs with
  | nil => intro u p; rfl
  | cons r rs ih =>
    intro u p
    have hl : World.link S C target (u.after t) r = World.link S C target u r := rfl
    simp only [iterate, hl]
    rcases hk : World.link S C target u r with _ | l
    · rfl
    · have hof : linkOf S C target r = some l := by
        unfold World.link at hk; split at hk
        · exact hk
        · cases hk
      have h1 := (link_tame hof p).after t u
      simp only at h1 ⊢
      rw [h1]
      rcases l u p with ⟨w1, p1, tn⟩
      simp only
      cases tn.goesOn with
      | false => rfl
      | true =>
        simp only [if_true, ih w1 p1]

theorem iterate_inner (S : Setup) (C : Client κ) (target) (rs : List Role) : ∀ (u : World κ) p,
    ∃ d, (iterate (World.link S C target) rs u p).1.tape = u.tape ++ d ∧ ∀ o ∈ d, o.inner = true := by
  induction rs with
  | nil => intro u p; exact ⟨[], by simp [iterate], by simp⟩
  | cons r rs ih =>
    intro u p
    simp only [iterate]
    rcases hk : World.link S C target u r with _ | l
    · exact ⟨[], by simp, by simp⟩
    · have hof : linkOf S C target r = some l := by
        unfold World.link at hk; split at hk
        · exact hk
        · cases hk
      have h1 := (link_tame hof p).inner u
      simp only at h1 ⊢
      rcases hlu : l u p with ⟨w1, p1, tn⟩
      rw [hlu] at h1
      simp only at h1 ⊢
      cases tn.goesOn with
      | false => exact h1
      | true =>
        obtain ⟨d1, h1, i1⟩ := h1
        obtain ⟨d2, h2, i2⟩ := ih w1 p1
        exact ⟨d1 ++ d2, by simp only [if_true]; rw [h2, h1, List.append_assoc],
          fun o ho => (List.mem_append.1 ho).elim (i1 o) (i2 o)⟩

theorem invoke_tame (S : Setup) (C : Client κ) (target n) : Tame (fun w => World.invoke S C target w n) := by
  constructor
  · intro t u
    have hg : (u.after t).guard = u.guard := rfl
    simp only [World.invoke, hg]
    cases hp : u.guard.positions with
    | none =>
      have h1 : anchorLink C (u.after t) ⟨n, []⟩ = ((anchorLink C u ⟨n, []⟩).1.after t, (anchorLink C u ⟨n, []⟩).2) :=
        (anchor_tame C ⟨n, []⟩).after t u
      simp only [h1]
      rfl
    | some ps =>
      have := iterate_after S C target t ps.list.2 { u with guard := { u.guard with positions := some ps.list.1 } } ⟨n, []⟩
      have e : World.after t { u with guard := { u.guard with positions := some ps.list.1 } } =
          { u.after t with guard := { u.guard with positions := some ps.list.1 } } := rfl
      rw [e] at this
      simp only [this]
      rfl
  · intro u
    simp only [World.invoke]
    cases hp : u.guard.positions with
    | none => exact ⟨[.call n], rfl, by simp [Obs.inner]⟩
    | some ps => exact iterate_inner S C target ps.list.2 { u with guard := { u.guard with positions := some ps.list.1 } } ⟨n, []⟩

theorem env_sim (S : Setup) (C : Client κ) (tree target : Path) (t : List Obs) :
    Sim (fun _ => True) (S.env C tree target) (S.env C tree target) (fun w u => w = u.after t) where
  descend := by rintro _ u p d rfl; exact publish_after C t u _
  ascend := by rintro _ u p d rfl; exact publish_after C t u _
  invoke := by
    rintro _ u n _ rfl
    have : World.invoke S C target (u.after t) n =
        ((World.invoke S C target u n).1.after t, (World.invoke S C target u n).2) := (invoke_tame S C target n).after t u
    show (World.invoke S C target (u.after t) n).2 = (World.invoke S C target u n).2 ∧ _ = (World.invoke S C target u n).1.after t
    exact ⟨by rw [this], congrArg Prod.fst this⟩
  ask := by rintro _ u n re _ rfl; exact ⟨rfl, rfl⟩
  rescue := by rintro _ u n d rfl; exact ⟨rfl, rfl⟩

/-- Everything on the tape since `t0` is inner. -/
def InnerSince (t0 : List Obs) (s : St (World κ)) : Prop := ∃ d, s.ext.tape = t0 ++ d ∧ ∀ o ∈ d, o.inner = true

theorem InnerSince.step {t0} {s s' : St (World κ)} (h : InnerSince t0 s)
    (h2 : ∃ d, s'.ext.tape = s.ext.tape ++ d ∧ ∀ o ∈ d, o.inner = true) : InnerSince t0 s' := by
  obtain ⟨d1, h1, i1⟩ := h
  obtain ⟨d2, h2, i2⟩ := h2
  exact ⟨d1 ++ d2, by rw [h2, h1, List.append_assoc], fun o ho => (List.mem_append.1 ho).elim (i1 o) (i2 o)⟩

theorem inner_preserved (S : Setup) (C : Client κ) (tree target : Path) (t0) :
    Preserved (S.env C tree target) (InnerSince t0) where
  descend s p d h := h.step (publish_inner C s.ext (.descend p d) rfl)
  ascend s p d h := h.step (publish_inner C s.ext (.ascend p d) rfl)
  invoke s n h := h.step ((invoke_tame S C target n).inner s.ext)
  ask s n re h := h.step ⟨[], by simp [St.doAsk, Setup.env], by simp⟩
  rescue s n h := h.step ⟨[], by simp [St.doRescue, Setup.env], by simp⟩

/-! ### Muting -/

/-- The events that are not muted. -/
def World.loud (w : World κ) (e : LifeEv) : Prop := w.muted e = false

theorem publish_muted (C : Client κ) (w : World κ) (n) : (w.publish C n).muted = w.muted := by
  unfold World.publish; split <;> rfl

theorem link_muted {S : Setup} {C : Client κ} {target r l} (h : linkOf S C target r = some l) (w : World κ) (p) :
    (l w p).1.muted = w.muted ∨ (l w p).1.muted = unmuteAll w.muted := by
  have hp : ∀ P (w : World κ) p, (primaryScheme P w p).1.muted = w.muted := by
    intro P w p; cases P <;> simp only [primaryScheme] <;> repeat' split
    all_goals rfl
  have hc : ∀ f (w : World κ) p, (childScheme S f w p).1.muted = w.muted := by
    intro f w p; simp only [childScheme]; split <;> rfl
  cases r <;> simp only [linkOf, Option.some.injEq, reduceCtorEq] at h <;> subst h
  · left; rfl
  · left
    simp only [filterLink]
    by_cases hd : S.filter.dies p.node = true
    · rw [if_pos hd]
    rw [if_neg hd]
    simp only [schemeLink]
    cases S.filter.primary with
    | none =>
      cases S.filter.child with
      | none => rfl
      | some f => exact hc f w p
    | some P =>
      have h1 := hp P w p
      cases S.filter.child with
      | none => exact h1
      | some f =>
        simp only
        rcases hq : primaryScheme P w p with ⟨w1, p1, ⟨b, e⟩ | _⟩ <;> rw [hq] at h1
        · cases b with
          | false => exact h1
          | true =>
            have h2 := hc f w1 p1
            simp only at h1 ⊢
            rw [h1] at h2
            rcases hc : childScheme S f w1 p1 with ⟨w2, p2, ⟨b2, e2⟩ | _⟩ <;> rw [hc] at h2 <;> exact h2
        · exact h1
  · left
    simp only [hiberLink]
    by_cases hd : S.hiber.dies w.hib p.node = true
    · rw [if_pos hd]
    rw [if_neg hd]
    simp only [hiberNext]
    cases w.hib <;> simp only <;> first | rfl | (split <;> first | rfl | exact publish_muted C w _)
  · left; rfl
  · left; simp only [nannyLink]; split <;> rfl
  · simp only [fastwardLink]; rcases fastwardMatch target p.node with _ | _ | _
    · left; rfl
    · left; rfl
    · right; rfl

theorem unmuteAll_loud {m : LifeEv → Bool} {e} (h : m e = false) : unmuteAll m e = false := by
  cases e <;> first | rfl | exact h

theorem iterate_loud (S : Setup) (C : Client κ) (target e) (rs : List Role) : ∀ (u : World κ) p, u.loud e →
    (iterate (World.link S C target) rs u p).1.loud e := by
  induction rs with
  | nil => intro u p h; exact h
  | cons r rs ih =>
    intro u p h
    simp only [iterate]
    rcases hk : World.link S C target u r with _ | l
    · exact h
    · have hof : linkOf S C target r = some l := by
        unfold World.link at hk; split at hk
        · exact hk
        · cases hk
      have h1 : (l u p).1.loud e := by
        rcases link_muted hof u p with h1 | h1
        · unfold World.loud; rw [h1]; exact h
        · unfold World.loud; rw [h1]; exact unmuteAll_loud h
      simp only
      rcases hlu : l u p with ⟨w1, p1, tn⟩
      rw [hlu] at h1
      simp only
      cases tn.goesOn with
      | false => exact h1
      | true => exact ih w1 p1 h1

theorem invoke_loud (S : Setup) (C : Client κ) (target n e) (u : World κ) (h : u.loud e) :
    (World.invoke S C target u n).1.loud e := by
  simp only [World.invoke]
  cases hp : u.guard.positions with
  | none => exact h
  | some ps => exact iterate_loud S C target e ps.list.2 { u with guard := { u.guard with positions := some ps.list.1 } } ⟨n, []⟩ h

theorem loud_preserved (S : Setup) (C : Client κ) (tree target : Path) (e) :
    Preserved (S.env C tree target) (fun s => s.ext.loud e) where
  descend s p d h := by show World.loud _ e; unfold World.loud; simp only [St.doDescend, Setup.env, publish_muted]; exact h
  ascend s p d h := by show World.loud _ e; unfold World.loud; simp only [St.doAscend, Setup.env, publish_muted]; exact h
  invoke s n h := invoke_loud S C target n e s.ext h
  ask s n re h := h
  rescue s n h := h

/-! ### The top of a session -/

theorem top_inv {env : Env κ} {Inv : St κ → Prop} (h : Preserved env Inv) (c : Nav) (fault pre tree) (r : RootStat) (s : St κ)
    (hs : Inv s) (hf : ∀ p e, Inv { s with ext := (fault s.ext p e).1 }) : Inv (top c env fault pre tree r s).2 := by
  cases r with
  | error e => exact hf _ _
  | found t => exact traverse_inv h c t [] pre s hs

theorem runTop_inner (S : Setup) (o : Options κ) (C : Client κ) (disk tree target) (s : St (World κ)) :
    InnerSince s.ext.tape (runTop S o C disk tree target s).2 := by
  unfold runTop
  exact top_inv (inner_preserved S C tree target s.ext.tape) _ _ _ _ _ s ⟨[], by simp, by simp⟩ (fun _ _ => ⟨[], by simp [Options.fault], by simp⟩)

theorem runTop_loud (S : Setup) (o : Options κ) (C : Client κ) (disk tree target) (s : St (World κ)) (e) (h : s.ext.loud e) :
    (runTop S o C disk tree target s).2.ext.loud e := by
  unfold runTop
  exact top_inv (loud_preserved S C tree target e) _ _ _ _ _ s h (fun _ _ => h)

end Traverse
