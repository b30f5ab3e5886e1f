import Verif.Props.Resumed
/-
C43: options that concern different things may be given in any order.
-/
namespace Traverse
variable {κ : Type}

/-- Two library options have nothing in common: nothing that both of them determine, no event that both of them listen to. -/
structure Unrelated (P : Platform κ) (w w' : With κ) : Prop where
  fields : ∀ f : Field, w.gives P f = none ∨ w'.gives P f = none
  events : ∀ e l l', w = .on e l → w' = .on e l' → False

theorem apart_symm {P : Platform κ} {w w' : With κ} (h : Unrelated P w w') : Unrelated P w' w :=
  ⟨fun f => (h.fields f).symm, fun e l l' h1 h2 => h.events e l' l h2 h1⟩

theorem apart_commute (P : Platform κ) (w w' : With κ) (h : Unrelated P w w') (o : Options κ) :
    w.apply P (w'.apply P o) = w'.apply P (w.apply P o) := by
  cases w <;> cases w' <;> first
    | rfl
    | ((rcases h.fields .now with h0 | h0 <;> cases h0); done)
    | ((rcases h.fields .output with h0 | h0 <;> cases h0); done)
    | ((rcases h.fields .filter with h0 | h0 <;> cases h0); done)
    | ((rcases h.fields .inclusiveWake with h0 | h0 <;> cases h0); done)
    | ((rcases h.fields .inclusiveSleep with h0 | h0 <;> cases h0); done)
    | ((rcases h.fields .wakeAt with h0 | h0 <;> cases h0); done)
    | ((rcases h.fields .sleepAt with h0 | h0 <;> cases h0); done)
    | ((rcases h.fields .sort with h0 | h0 <;> cases h0); done)
    | ((rcases h.fields .fileSubPath with h0 | h0 <;> cases h0); done)
    | ((rcases h.fields .directorySubPath with h0 | h0 <;> cases h0); done)
    | ((rcases h.fields .queryStatus with h0 | h0 <;> cases h0); done)
    | ((rcases h.fields .readDirectory with h0 | h0 <;> cases h0); done)
    | ((rcases h.fields .adminPath with h0 | h0 <;> cases h0); done)
    | ((rcases h.fields .log with h0 | h0 <;> cases h0); done)
    | ((rcases h.fields .keepTrailingSep with h0 | h0 <;> cases h0); done)
    | ((rcases h.fields .isCaseSensitive with h0 | h0 <;> cases h0); done)
    | ((rcases h.fields .depth with h0 | h0 <;> cases h0); done)
    | ((rcases h.fields .noRecurse with h0 | h0 <;> cases h0); done)
    | ((rcases h.fields .sampling with h0 | h0 <;> cases h0); done)
    | ((rcases h.fields .fault with h0 | h0 <;> cases h0); done)
    | ((rcases h.fields .panic with h0 | h0 <;> cases h0); done)
    | ((rcases h.fields .skip with h0 | h0 <;> cases h0); done)
    | skip
  rename_i e l e' l'
  cases e <;> cases e' <;> first | rfl | exact (h.events _ l l' rfl rfl).elim

theorem foldl_anyOrder (P : Platform κ) {l l' : List (With κ)} (hp : l.Perm l') : l.Pairwise (Unrelated P) → ∀ o : Options κ,
    l.foldl (fun o w => w.apply P o) o = l'.foldl (fun o w => w.apply P o) o := by
  induction hp with
  | nil => intro _ o; rfl
  | cons x _ ih => intro h o; exact ih (List.pairwise_cons.1 h).2 _
  | swap x y l =>
    intro h o
    have hxy := (List.pairwise_cons.1 h).1 x (by simp)
    simp only [List.foldl_cons]
    rw [apart_commute P x y (apart_symm hxy)]
  | trans h1 h2 ih1 ih2 =>
    intro h o
    rw [ih1 h, ih2 ((h1.pairwise_iff (fun h => apart_symm h)).1 h)]

/-- Options (nil ones among them) that concern different things give the same options in any order. -/
theorem applyAll_anyOrder (P : Platform κ) {ws ws' : List (Option (With κ))} (hp : ws.Perm ws')
    (ha : (ws.filterMap id).Pairwise (Unrelated P)) (o : Options κ) :
    applyAll (settingsOf P ws) o = applyAll (settingsOf P ws') o := by
  rw [applyAll_settings, applyAll_settings, foldl_anyOrder P (hp.filterMap id) ha]

/-- **C43** Options of which no two determine the same thing or listen to the same event may be given in any order: the session is the same
in every respect. -/
theorem C43_any_order (P : Platform κ) (facade : Facade κ) (ws ws' : List (Option (With κ))) (hp : ws.Perm ws')
    (ha : (ws.filterMap id).Pairwise (Unrelated P)) (disk : Disk) (x : κ) :
    walkPrime P facade (settingsOf P ws) disk x = walkPrime P facade (settingsOf P ws') disk x := by
  have hg : getOptions P (settingsOf P ws) = getOptions P (settingsOf P ws') := applyAll_anyOrder P hp ha _
  have hb : buildPrimary P facade (settingsOf P ws) = buildPrimary P facade (settingsOf P ws') := by
    simp only [buildPrimary, primaryPlatform, hg]
  cases facade <;> simp only [walkPrime, hb]

/-- **C43** The same of the options given to a resume. -/
theorem C43_any_order_resumed (P : Platform κ) (facade : Facade κ) (ws ws' : List (Option (With κ))) (hp : ws.Perm ws')
    (ha : (ws.filterMap id).Pairwise (Unrelated P)) (files : String → Except Err Json) (disk : Disk) (x : κ) :
    walkResume P facade (settingsOf P ws) files disk x = walkResume P facade (settingsOf P ws') files disk x := by
  cases facade with
  | «using» u => rfl
  | relic r =>
    have hb : ∀ o : Options κ, bindOptions o (settingsOf P ws) = bindOptions o (settingsOf P ws') := fun o => applyAll_anyOrder P hp ha _
    have hg : ∀ f, resumePlatform P r (settingsOf P ws) f = resumePlatform P r (settingsOf P ws') f := by
      intro f
      simp only [resumePlatform, hb]
    simp only [walkResume, hg]

/-- Options that do concern the same thing may not: the last one counts. -/
theorem C43_order_matters (P : Platform κ) (n m : Nat) (h : n ≠ m) :
    ¬ Unrelated P (.depth n) (.depth m) ∧
    (getOptions P (settingsOf P [some (.depth n), some (.depth m)])).1.behaviours.cascade.depth ≠
      (getOptions P (settingsOf P [some (.depth m), some (.depth n)])).1.behaviours.cascade.depth := by
  refine ⟨fun ha => ?_, ?_⟩
  · have := ha.fields .depth
    simp [With.gives] at this
  · show m ≠ n
    exact fun e => h e.symm

/-- Not vacuous: a filter, a wake condition, an exclusive wake, a depth limit, sampling, files first and two listeners (of different
events), nil options in between, reversed. -/
example (P : Platform κ) (l l' : Listener Note κ) (n : Nat) :
    let ws : List (Option (With κ)) := [some (.filter { node := some (.plain { type := .regex, pattern := "w" }) } none), none,
      some (.filterWake (some (.plain { type := .regex, pattern := "a" }))), some .exclusiveWake, some (.depth n), some (.on .descend l),
      some (.sampling { type := .slice, files := 1, dirs := 2 }), none, some (.sortBehaviour false true), some (.on .ascend l')]
    ws.Perm ws.reverse ∧ (ws.filterMap id).Pairwise (Unrelated P) := by
  intro ws
  refine ⟨(List.reverse_perm ws).symm, ?_⟩
  have key : ∀ w w' : With κ, (∀ f : Field, w.gives P f = none ∨ w'.gives P f = none) →
      (∀ e l l', w = .on e l → w' = .on e l' → False) → Unrelated P w w' := fun _ _ h1 h2 => ⟨h1, h2⟩
  simp only [ws, List.filterMap_cons, List.filterMap_nil, id, List.pairwise_cons, List.mem_cons, List.not_mem_nil, or_false,
    forall_eq_or_imp, forall_eq, false_implies, implies_true, List.Pairwise.nil, and_true]
  repeat' apply And.intro
  all_goals
    refine key _ _ (fun f => ?_) (fun e l l' h1 h2 => ?_)
    · cases f <;> first | exact Or.inl rfl | exact Or.inr rfl
    · cases h1 <;> cases h2

end Traverse
