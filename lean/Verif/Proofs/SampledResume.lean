import Verif.Proofs.Sampled
import Verif.Proofs.Sampling
import Verif.Proofs.Plan
/-
The sampling plugin's link lets everything pass, in resumed sessions too; and what a spawn resume goes through is, with sampling, what it
goes through without on a disk that holds the samples.
-/
namespace Traverse
variable {κ : Type}

/-- Alike, as far as the client side can tell; fastward is looking in both or in neither. -/
def Twins (S S' : Setup) (a b : World κ) : Prop :=
  (∃ g st, a = b.but g st) ∧ ∃ fw, GuardOK S fw a.guard ∧ GuardOK S' fw b.guard

theorem stageW_but (S S' : Setup) (hr : S.resume = S'.resume) (fw target) (w : World κ) (g st p) :
    ∃ g₁, S.stageW fw target (w.but g st) p = ((S'.stageW fw target w p).1.but g₁ st, (S'.stageW fw target w p).2) := by
  unfold Setup.stageW
  rw [hr]
  split
  · unfold fastwardLink
    rcases fastwardMatch target p.node with _ | _ | _
    · exact ⟨g, rfl⟩
    · exact ⟨g, rfl⟩
    · exact ⟨g.unwind .fastward, rfl⟩
  · exact ⟨g, rfl⟩

theorem big_twins {S S' : Setup} (hr : S.resume = S'.resume) (C : Client κ) (hH : S.stageH C = S'.stageH C)
    (hF : (S.stageF : Link (World κ)) = S'.stageF) (target fw) (w : World κ) (g st n) (h1 : GuardOK S fw g) (h2 : GuardOK S' fw w.guard) :
    (S.big C target fw (w.but g st) n).2 = (S'.big C target fw w n).2 ∧
      Twins S S' (S.big C target fw (w.but g st) n).1 (S'.big C target fw w n).1 := by
  unfold Setup.big
  have fH := (stageH_frame S' C w ⟨n, []⟩).1.guard
  rw [hH, hF, stageH_blind S' C w g st]
  rw [← fH] at h2
  clear fH
  generalize S'.stageH C w ⟨n, []⟩ = r1 at h2 ⊢
  obtain ⟨w1, p1, t1⟩ := r1
  simp only at h2 ⊢
  cases t1.goesOn
  · exact ⟨rfl, ⟨_, _, rfl⟩, fw, h1, h2⟩
  · simp only [Bool.not_true, Bool.false_eq_true, if_false]
    have fF := (stageF_counts S' w1 p1).1.guard
    rw [stageF_blind S' w1 g st]
    rw [← fF] at h2
    clear fF
    generalize S'.stageF w1 p1 = r2 at h2 ⊢
    obtain ⟨w2, p2, t2⟩ := r2
    simp only at h2 ⊢
    cases t2.goesOn
    · exact ⟨rfl, ⟨_, _, rfl⟩, fw, h1, h2⟩
    · simp only [Bool.not_true, Bool.false_eq_true, if_false]
      obtain ⟨g₁, e⟩ := stageW_but S S' hr fw target w2 g st p2
      have k1 := stageW_guard (S := S) (target := target) (w := w2.but g st) (p := p2) h1
      have k2 := stageW_guard (S := S') (target := target) (p := p2) h2
      rw [show S.lands fw target p2.node = S'.lands fw target p2.node by simp only [Setup.lands, hr]] at k1
      rw [e] at k1 ⊢
      generalize S'.stageW fw target w2 p2 = r3 at k1 k2 ⊢
      obtain ⟨w3, p3, t3⟩ := r3
      simp only at k1 k2 ⊢
      cases t3.goesOn
      · exact ⟨rfl, ⟨_, _, rfl⟩, _, k1, k2⟩
      · simp only [Bool.not_true, Bool.false_eq_true, if_false]
        rw [anchorLink_blind C w3 g₁ st]
        have fA : (anchorLink C w3 p3).1.guard = w3.guard := rfl
        rcases hA : anchorLink C w3 p3 with ⟨w4, p4, t4⟩
        rw [hA] at fA
        simp only at fA ⊢
        rw [← fA] at k2
        exact ⟨trivial, ⟨_, _, rfl⟩, _, k1, k2⟩

theorem env_twins {S S' : Setup} (hr : S.resume = S'.resume) (C : Client κ) (hH : S.stageH C = S'.stageH C)
    (hF : (S.stageF : Link (World κ)) = S'.stageF) (hsub : S.nav.sub = S'.nav.sub) (tree target) :
    Sim (fun _ => True) (S.env C tree target) (S'.env C tree target) (Twins S S') := by
  have hpub : ∀ (a b : World κ) n, Twins S S' a b → Twins S S' (a.publish C n) (b.publish C n) := by
    rintro a b n ⟨⟨g, st, rfl⟩, fw, h1, h2⟩
    refine ⟨⟨g, st, publish_but C b g st n⟩, fw, ?_, ?_⟩
    · rw [publish_but]; exact h1
    · simpa using h2
  refine ⟨fun a b p d h => hpub _ _ _ h, fun a b p d h => hpub _ _ _ h, ?_, ?_, ?_⟩
  · rintro a b n - ⟨⟨g, st, rfl⟩, fw, h1, h2⟩
    show (World.invoke S C target _ n).2 = (World.invoke S' C target b n).2 ∧ Twins S S' (World.invoke S C target _ n).1 (World.invoke S' C target b n).1
    rw [invoke_big h1, invoke_big h2]
    exact big_twins hr C hH hF target fw b.touched (b.but g st).touched.guard st n h1.touched h2.touched
  · rintro a b n re - ⟨⟨g, st, rfl⟩, h1⟩
    exact ⟨rfl, ⟨g, st, rfl⟩, h1⟩
  · rintro a b n d ⟨⟨g, st, rfl⟩, h1⟩
    simp only [Setup.env, hsub]
    exact ⟨rfl, ⟨g, st, rfl⟩, h1⟩

theorem goLegs_nav {σ : Type} (c c' : Nav) (hsub : c.sub = c'.sub) (hm : c.maxDepth = c'.maxDepth) (env : Env σ) (fault stat)
    (legs : List (Path × String)) : ∀ s : St σ, goLegs c env fault stat legs s = goLegs c' env fault stat legs s := by
  have ht : ∀ pre p r (s : St σ), top c env fault pre p r s = top c' env fault pre p r s := by
    intro pre p r s
    cases r with
    | error e => rfl
    | found t => simp only [top, traverse_nav c c' hsub hm]
  induction legs with
  | nil => intro s; rfl
  | cons l ls ih =>
    intro s
    simp only [goLegs, ht, ih]

/-- The directories on the way are there. -/
def OnTheWay (disk : Disk) (tree cur : Path) : Prop :=
  ∀ q, tree <+: q → Above q cur → ∃ fs, disk q = .ok fs ∧ fs.isDir = true

theorem sampled_kids (keep q) (n ie) (kids : List FS) :
    FS.sampled keep q (.dir n ie none kids) = .dir n ie none (sampleOf keep q (kids.map (FS.sampled keep q))) := by
  simp [FS.sampled, sampledL_map]

theorem following_sampled (c : Nav) (q : Quota) (hread : c.read = sampledRead none (some q)) (disk disk₀ : Disk) (parent : Path) (fs : FS)
    (hd : disk parent = .ok fs) (hdir : fs.isDir = true) (hdist : fs.Distinct) (hd₀ : disk₀ parent = .ok (fs.sampled (fun _ => true) q)) (anchor incl) :
    following c disk parent anchor incl = following { c with read := defaultRead } disk₀ parent anchor incl := by
  cases fs with
  | file => cases hdir
  | dir n ie re kids =>
    have hkd : ∀ k ∈ kids, k.Distinct := by
      have := hdist.2
      clear hdist hd hd₀ hdir
      induction kids with
      | nil => simp
      | cons a as ih => intro k hk; rcases List.mem_cons.1 hk with rfl | hk; exact this.1; exact ih this.2 k hk
    have key : c.read (prepList c (disk.list parent).1) (disk.list parent).2 =
        defaultRead (prepList { c with read := defaultRead } (disk₀.list parent).1) (disk₀.list parent).2 := by
      cases re with
      | some x =>
        simp only [Disk.list, hd, hd₀, FS.sampled, Option.isSome_some, if_true, prepList_eq]
        rw [hread, sampledRead_eq]
        simp [defaultRead, portion]
      | none =>
        rw [sampled_kids] at hd₀
        simp only [Disk.list, hd, hd₀, prepList_eq]
        have hraw : kids.map (prep c) = (kids.map (FS.sampled (fun _ => true) q)).map (prep { c with read := defaultRead }) := by
          rw [List.map_map]
          exact List.map_congr_left (fun k hk => prep_sampled c none _ q hread rfl k (hkd k hk))
        have hnames : ((kids.map (FS.sampled (fun _ => true) q)).map FS.name).Nodup := by
          rw [List.map_map]
          have : (FS.name ∘ FS.sampled (fun _ => true) q) = FS.name := by
            funext k; exact congrArg Entry.name (sampled_entry _ q k)
          rw [this]; exact hdist.1
        obtain ⟨h1, h2⟩ := read_sampled c none (fun _ => true) q hread rfl (prep { c with read := defaultRead }) (fun k => prep_entry' _ k) _ hnames
        rw [hraw, h1, h2]
    simp only [following, key]

theorem legsOf_sampled (c : Nav) (q : Quota) (hread : c.read = sampledRead none (some q)) (disk disk₀ : Disk)
    (hdist : ∀ p fs, disk p = .ok fs → fs.Distinct)
    (hd₀ : ∀ p fs, disk p = .ok fs → disk₀ p = .ok (fs.sampled (fun _ => true) q)) (tree : Path) (rcur : List String) :
    ∀ incl, tree <+: rcur.reverse → OnTheWay disk tree rcur.reverse →
      legsOf c disk tree rcur incl = legsOf { c with read := defaultRead } disk₀ tree rcur incl := by
  induction rcur with
  | nil => intro incl _ _; rfl
  | cons child rparent ih =>
    intro incl ht hway
    simp only [legsOf]
    split
    · rfl
    · rename_i hne
      have hrev : (child :: rparent).reverse = rparent.reverse ++ [child] := by simp
      rw [hrev] at ht hway hne
      have ht' : tree <+: rparent.reverse := by
        rcases List.prefix_concat_iff.1 ht with h | h
        · exact absurd h.symm hne
        · exact h
      have hup : Above rparent.reverse (rparent.reverse ++ [child]) := ⟨List.prefix_append _ _, fun h => by simpa using congrArg List.length h⟩
      obtain ⟨fs, f1, f2⟩ := hway _ ht' hup
      rw [following_sampled c q hread disk disk₀ _ fs f1 f2 (hdist _ _ f1) (hd₀ _ _ f1)]
      have := ih false ht' (fun p h1 h2 => hway p h1 ⟨h2.1.trans hup.1, fun e => by
        have := h2.1.length_le
        rw [e] at this
        simp at this
        omega⟩)
      rw [this]

end Traverse
