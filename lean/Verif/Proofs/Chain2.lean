import Verif.Proofs.Metrics
import Verif.Proofs.Order
namespace Traverse
variable {κ : Type}

/-! ### What each stage leaves alone -/

/-- The stage calls neither the handler nor the panic handler. -/
structure Quiet (w w' : World κ) : Prop where
  hits : w'.hits = w.hits
  steps : w'.steps = w.steps
  saves : w'.saves = w.saves

/-- The stage only counts. -/
structure OnlyCounts (w w' : World κ) : Prop extends Quiet w w' where
  client : w'.client = w.client
  hib : w'.hib = w.hib
  guard : w'.guard = w.guard
  muted : w'.muted = w.muted
  tape : w'.tape = w.tape

theorem Quiet.refl (w : World κ) : Quiet w w := ⟨rfl, rfl, rfl⟩
theorem OnlyCounts.refl (w : World κ) : OnlyCounts w w := ⟨.refl w, rfl, rfl, rfl, rfl, rfl⟩
theorem OnlyCounts.trans {a b c : World κ} (h1 : OnlyCounts a b) (h2 : OnlyCounts b c) : OnlyCounts a c :=
  ⟨⟨h2.hits.trans h1.hits, h2.steps.trans h1.steps, h2.saves.trans h1.saves⟩, h2.client.trans h1.client, h2.hib.trans h1.hib,
    h2.guard.trans h1.guard, h2.muted.trans h1.muted, h2.tape.trans h1.tape⟩
theorem OnlyCounts.metrics (w : World κ) (m : Metrics) : OnlyCounts w { w with metrics := m } :=
  ⟨⟨rfl, rfl, rfl⟩, rfl, rfl, rfl, rfl, rfl⟩

theorem childScheme_counts (S : Setup) (f) (w : World κ) (p) :
    OnlyCounts w (childScheme S f w p).1 ∧ (childScheme S f w p).2.1.node = p.node := by
  unfold childScheme; split
  · exact ⟨.refl w, rfl⟩
  · exact ⟨.metrics .., rfl⟩
theorem primaryScheme_counts (P) (w : World κ) (p) :
    OnlyCounts w (primaryScheme P w p).1 ∧ (primaryScheme P w p).2.1 = p := by
  unfold primaryScheme
  cases P with
  | node f =>
    simp only
    split
    · exact ⟨.refl w, trivial⟩
    · exact ⟨.metrics .., trivial⟩
  | sample m =>
    simp only
    split
    · exact ⟨.refl w, rfl⟩
    · split
      · exact ⟨.refl w, rfl⟩
      · exact ⟨.metrics .., rfl⟩

theorem stageF_counts (S : Setup) (w : World κ) (p) :
    OnlyCounts w (S.stageF w p).1 ∧ (S.stageF w p).2.1.node = p.node := by
  unfold Setup.stageF
  split
  · unfold filterLink
    by_cases hd : S.filter.dies p.node = true
    · rw [if_pos hd]; exact ⟨.refl w, rfl⟩
    rw [if_neg hd]
    unfold schemeLink
    rcases S.filter.primary with _ | P <;> rcases S.filter.child with _ | f <;> simp only
    · exact ⟨.refl w, trivial⟩
    · exact childScheme_counts S f w p
    · have := primaryScheme_counts P w p
      exact ⟨this.1, by rw [this.2]⟩
    · have h1 := primaryScheme_counts P w p
      rcases hP : primaryScheme P w p with ⟨w1, p1, t⟩
      rw [hP] at h1
      have h2 := childScheme_counts S f w1 p1
      rcases hC : childScheme S f w1 p1 with ⟨w2, p2, t2⟩
      rw [hC] at h2
      obtain ⟨h1, rfl⟩ := h1
      rcases t with ⟨_ | _, e⟩ | _ <;> simp only [hC]
      · exact ⟨h1, trivial⟩
      · rcases t2 with ⟨_, e2⟩ | _ <;> exact ⟨h1.trans h2.1, h2.2⟩
      · exact ⟨h1, trivial⟩
  · split
    · unfold nannyLink
      split
      · exact ⟨.refl w, rfl⟩
      · exact ⟨.metrics .., rfl⟩
    · exact ⟨.refl w, rfl⟩

structure HiberFrame (w w' : World κ) : Prop extends Quiet w w' where
  metrics : w'.metrics = w.metrics
  guard : w'.guard = w.guard
  muted : w'.muted = w.muted

theorem stageH_frame (S : Setup) (C : Client κ) (w : World κ) (p) :
    HiberFrame w (S.stageH C w p).1 ∧ (S.stageH C w p).2.1 = p := by
  unfold Setup.stageH
  split
  · unfold hiberLink
    by_cases hd : S.hiber.dies w.hib p.node = true
    · rw [if_pos hd]; exact ⟨⟨.refl w, rfl, rfl, rfl⟩, rfl⟩
    rw [if_neg hd]
    unfold hiberNext
    cases w.hib <;> simp only
    · exact ⟨⟨.refl w, rfl, rfl, rfl⟩, trivial⟩
    · split
      · exact ⟨⟨⟨by simp, by simp, by simp⟩, by simp, by simp, by simp⟩, rfl⟩
      · exact ⟨⟨.refl w, rfl, rfl, rfl⟩, rfl⟩
    · split
      · exact ⟨⟨⟨by simp, by simp, by simp⟩, by simp, by simp, by simp⟩, rfl⟩
      · exact ⟨⟨.refl w, rfl, rfl, rfl⟩, rfl⟩
    · exact ⟨⟨.refl w, rfl, rfl, rfl⟩, trivial⟩
  · exact ⟨⟨.refl w, rfl, rfl, rfl⟩, rfl⟩

theorem stageW_frame (S : Setup) (fw target) (w : World κ) (p) :
    Quiet w (S.stageW fw target w p).1 ∧ (S.stageW fw target w p).2.1 = p := by
  unfold Setup.stageW
  split
  · unfold fastwardLink
    split
    · exact ⟨.refl w, rfl⟩
    · exact ⟨.refl w, rfl⟩
    · exact ⟨⟨rfl, rfl, rfl⟩, rfl⟩
  · exact ⟨.refl w, rfl⟩

/-! ### The guardian along the way -/

theorem GuardOK.touched {S : Setup} {fw} {w : World κ} (h : GuardOK S fw w.guard) : GuardOK S fw w.touched.guard := by
  refine ⟨?_, h.inChain⟩
  rcases h.shows with ⟨h0, hp⟩ | ⟨ps, hp, ha, hc, hl⟩
  · left; exact ⟨h0, by simp [World.touched, hp]⟩
  · right
    have := hc.list_fst
    refine ⟨ps.list.1, by simp [World.touched, hp], ?_, this.1, this.2.trans hl⟩
    unfold PSet.list; split <;> exact ha

theorem GuardOK.unwind {S : Setup} {fw} {g : Guard} (h : GuardOK S fw g) : GuardOK S false (g.unwind .fastward) := by
  have hroles : S.roles false = (S.roles fw).filter (fun r => !decide (r = .fastward)) := by
    unfold Setup.roles
    rw [List.filter_filter]
    apply List.filter_congr
    intro r _
    cases S.wants r <;> cases fw <;> simp
  constructor
  · rcases h.shows with ⟨h0, hp⟩ | ⟨ps, hp, ha, hc, hl⟩
    · left; exact ⟨h0, by simp [Guard.unwind, hp]⟩
    · right
      refine ⟨ps.delete .fastward, by simp [Guard.unwind, hp], ?_, hc.delete _, ?_⟩
      · unfold PSet.delete; split <;> exact ha
      · rw [PSet.listing_delete _ (by rw [ha]; decide), hl, hroles]
  · intro r hr
    rw [hroles, List.mem_filter] at hr
    have := h.inChain r hr.1
    simp only [Guard.unwind, reduceCtorEq, if_false, List.mem_filter]
    exact ⟨this, hr.2⟩

/-- The fastward link runs and finds its node. -/
def Setup.lands (S : Setup) (fw : Bool) (target : Path) (n : Node) : Bool :=
  fw && decide (S.resume = some .fastward) && (fastwardMatch target n == some true)

theorem stageW_guard {S : Setup} {fw target} {w : World κ} {p} (h : GuardOK S fw w.guard) :
    GuardOK S (fw && !S.lands fw target p.node) (S.stageW fw target w p).1.guard := by
  unfold Setup.stageW Setup.lands
  by_cases hc : (fw && decide (S.resume = some .fastward)) = true
  · rw [if_pos hc]
    unfold fastwardLink
    have hfw : fw = true := by simp at hc; exact hc.1
    rcases hm : fastwardMatch target p.node with _ | _ | _
    · simpa [hm, hc, hfw] using hfw ▸ h
    · simpa [hm, hc, hfw] using hfw ▸ h
    · have hr : S.resume = some .fastward := by simp at hc; exact hc.2
      simpa [hfw, hr] using h.unwind
  · rw [if_neg hc]
    simp only [Bool.not_eq_true] at hc
    simpa [hc] using h

/-- Everything about one pass through the chain that does not depend on the stages' verdicts. -/
theorem big_facts (S : Setup) (C : Client κ) (target fw) (w : World κ) (n : Node) (hg : GuardOK S fw w.guard) :
    ∃ ran, ran <+: S.roles fw ∧ ran ≠ [] ∧
      (S.big C target fw w n).1.steps = w.steps ++ ran.map (fun r => (r, n)) ∧
      (S.big C target fw w n).1.called = w.called ++ (if Role.anchor ∈ ran then [n] else []) ∧
      (S.big C target fw w n).1.saves = w.saves ∧
      ∃ fw', (fw' = true → fw = true) ∧ GuardOK S fw' (S.big C target fw w n).1.guard := by
  unfold Setup.big
  rw [roles_eq]
  obtain ⟨hH, hHp⟩ := stageH_frame S C w ⟨n, []⟩
  rcases eH : S.stageH C w ⟨n, []⟩ with ⟨w1, p1, t1⟩
  rw [eH] at hH hHp
  simp only at hH hHp ⊢
  cases g1 : t1.goesOn
  · refine ⟨S.rolesH, by simp [List.append_assoc], ?_, ?_, ?_, ?_, fw, id, ?_⟩
    · intro h0
      have : S.hiber.active = false := by
        unfold Setup.rolesH at h0; split at h0
        · cases h0
        · simp_all
      simp [Setup.stageH, this] at eH
      rw [← eH.2.2] at g1; cases g1
    · simp [World.noted, hH.steps]
    · have : Role.anchor ∉ S.rolesH := by unfold Setup.rolesH; split <;> decide
      simp [World.noted, World.called, hH.hits, this]
    · simp [World.noted, hH.saves]
    · simpa [World.noted, hH.guard] using hg
  · simp only [Bool.not_true, Bool.false_eq_true, if_false]
    obtain ⟨hF, hFp⟩ := stageF_counts S w1 p1
    rcases eF : S.stageF w1 p1 with ⟨w2, p2, t2⟩
    rw [eF] at hF hFp
    simp only at hF hFp ⊢
    cases g2 : t2.goesOn
    · refine ⟨S.rolesH ++ S.rolesF, by simp [List.append_assoc], ?_, ?_, ?_, ?_, fw, id, ?_⟩
      · intro h0
        have : S.stageF w1 p1 = passOn w1 p1 := by
          have h1 := (List.append_eq_nil_iff.1 h0).2
          unfold Setup.rolesF at h1
          unfold Setup.stageF
          split at h1
          · cases h1
          · rename_i hf
            split at h1
            · cases h1
            · rename_i hn; simp [hf, hn]
        rw [this] at eF
        simp at eF
        rw [← eF.2.2] at g2; cases g2
      · simp [World.noted, hF.steps, hH.steps]
      · have : Role.anchor ∉ S.rolesH ++ S.rolesF := by
          unfold Setup.rolesH Setup.rolesF; repeat' split
          all_goals decide
        simp only [this, if_false, List.append_nil]
        simp [World.noted, World.called, hF.hits, hH.hits]
      · simp [World.noted, hF.saves, hH.saves]
      · simpa [World.noted, hF.guard, hH.guard] using hg
    · simp only [Bool.not_true, Bool.false_eq_true, if_false]
      have hg2 : GuardOK S fw w2.guard := by rw [hF.guard, hH.guard]; exact hg
      have hWg := stageW_guard (target := target) (p := p2) hg2
      obtain ⟨hW, hWp⟩ := stageW_frame S fw target w2 p2
      rcases eW : S.stageW fw target w2 p2 with ⟨w3, p3, t3⟩
      rw [eW] at hW hWp hWg
      simp only at hW hWp hWg ⊢
      cases g3 : t3.goesOn
      · refine ⟨S.rolesH ++ S.rolesF ++ S.rolesS ++ S.rolesW fw, by simp [List.append_assoc], ?_, ?_, ?_, ?_, _, ?_, hWg⟩
        · intro h0
          have : S.stageW fw target w2 p2 = passOn w2 p2 := by
            have h1 := (List.append_eq_nil_iff.1 h0).2
            unfold Setup.rolesW at h1
            unfold Setup.stageW
            split at h1
            · cases h1
            · rename_i hf; simp [hf]
          rw [this] at eW
          simp at eW
          rw [← eW.2.2] at g3; cases g3
        · simp [World.noted, hW.steps, hF.steps, hH.steps]
        · have : Role.anchor ∉ S.rolesH ++ S.rolesF ++ S.rolesS ++ S.rolesW fw := by
            unfold Setup.rolesH Setup.rolesF Setup.rolesS Setup.rolesW; repeat' split
            all_goals decide
          simp only [this, if_false, List.append_nil]
          simp [World.noted, World.called, hW.hits, hF.hits, hH.hits]
        · simp [World.noted, hW.saves, hF.saves, hH.saves]
        · intro h; revert h; cases fw <;> simp
      · simp only [Bool.not_true, Bool.false_eq_true, if_false]
        refine ⟨_, List.prefix_rfl, by simp, ?_, ?_, ?_, _, ?_, hWg⟩
        · simp [World.noted, anchorLink, hW.steps, hF.steps, hH.steps]
        · simp [World.noted, World.called, anchorLink, hW.hits, hF.hits, hH.hits, hWp, hFp, hHp]
        · simp [World.noted, anchorLink, hW.saves, hF.saves, hH.saves]
        · intro h; revert h; cases fw <;> simp

end Traverse
