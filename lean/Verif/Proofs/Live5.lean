import Verif.Proofs.Live4
import Verif.Proofs.Bridge
/-
Whole sessions on a file system that changes.
-/
namespace Traverse
variable {κ : Type}

theorem Seen.unworld {L : Look κ} {M p f} (h : Seen L.world M p f) : Seen L (fun p x => ∃ w, M p w ∧ w.client = x) p f := by
  induction h with
  | file p n ie re => exact .file ..
  | unseen p n ie => exact .unseen ..
  | dir p n ie kids x hx hl _ ih => exact .dir p n ie kids x.client ⟨x, hx, rfl⟩ hl ih

/-- What a session on a changing file system reports, a session on a still one reports. -/
theorem walkLive_frozen {P : Platform κ} {u : Using κ} {settings} {L : Look κ} {n x rep}
    (hsound : ∀ S o, buildPrimary P (.using u) settings = .ready S o → S.nav.Sound ∧ ∀ r, o.hooks.queryStatus.invoke r = r)
    (hL : L.Distinct) (hst : L.Steady) (h : walkLive P (.using u) settings L n x = some rep) :
    ∃ disk : Disk, rep = walkPrime P (.using u) settings disk x ∧
      ((∃ e y, disk u.tree = .error e ∧ L.stat y u.tree = .error e) ∨
       (∃ f f0 y, disk u.tree = .ok f ∧ L.stat y u.tree = .ok f0 ∧ f.name = f0.name ∧ f.isDir = f0.isDir ∧
          Seen L (fun _ _ => True) (u.tree.dropLast ++ [f.name]) f)) := by
  simp only [walkLive, walkPrime] at h ⊢
  generalize hb : buildPrimary P (.using u) settings = b at h hsound ⊢
  have any : ∃ disk : Disk, ((∃ e y, disk u.tree = .error e ∧ L.stat y u.tree = .error e) ∨
       (∃ f f0 y, disk u.tree = .ok f ∧ L.stat y u.tree = .ok f0 ∧ f.name = f0.name ∧ f.isDir = f0.isDir ∧
          Seen L (fun _ _ => True) (u.tree.dropLast ++ [f.name]) f)) := by
    cases hs : L.stat x u.tree with
    | error e => exact ⟨fun _ => .error e, .inl ⟨e, x, rfl, hs⟩⟩
    | ok f0 =>
      refine ⟨fun _ => .ok (FS.blank f0.entry), .inr ⟨_, f0, x, rfl, hs, ?_, ?_, Seen.blank ..⟩⟩
      · rw [← FS.entry_name, FS.blank_entry, FS.entry_name]
      · rw [← FS.entry_isDir, FS.blank_entry, FS.entry_isDir]
  cases b with
  | crash => obtain ⟨d, hd⟩ := any; cases h; exact ⟨d, rfl, hd⟩
  | hades e => obtain ⟨d, hd⟩ := any; cases h; exact ⟨d, rfl, hd⟩
  | stillborn e o => obtain ⟨d, hd⟩ := any; cases h; exact ⟨d, rfl, hd⟩
  | ready S o =>
    obtain ⟨hc, hq⟩ := hsound S o rfl
    simp only [Built.navigateLive, Built.navigate, topLive, hq, runTop, statOf] at h ⊢
    generalize hw : (S.world x fun _ => none).publish (o.client (u.handler.getD fun k _ => (k, .ok none))) (.begin u.tree) = w at h ⊢
    cases hs : L.stat w.client u.tree with
    | error e =>
      refine ⟨fun _ => .error e, ?_, .inl ⟨e, w.client, rfl, hs⟩⟩
      have hs' : L.world.stat w u.tree = .error e := hs
      simp only [hs', Option.map_some, Option.some.injEq] at h
      rw [← h]
      rfl
    | ok f0 =>
      have hs' : L.world.stat w u.tree = .ok f0 := hs
      simp only [hs', Option.map_map, Option.map_eq_some_iff] at h
      obtain ⟨⟨o1, s1, g1⟩, h1, h2⟩ := h
      have hL' : L.world.Distinct := fun w p => hL w.client p
      have hst' : L.world.Steady := fun w p e he y => hst w.client p e he y.client
      obtain ⟨fs, hfe, htr, hseen⟩ := traverse_fs_frozen hc hL' hst' n _ _ _ _ _ _ _ h1
      refine ⟨fun _ => .ok fs, ?_, .inr ⟨fs, f0, w.client, rfl, hs, ?_, ?_, ?_⟩⟩
      · rw [← h2]
        simp only [Function.comp_apply, top, htr]
        cases o1 <;> rfl
      · rw [← FS.entry_name, hfe]
      · rw [← FS.entry_isDir, hfe]
      · have : fs.name = f0.name := by rw [← FS.entry_name, hfe]
        rw [this]
        exact hseen.unworld.mono fun _ _ _ => trivial

/-- On a still file system a session is what it is. -/
theorem walkLive_still {P : Platform κ} {u : Using κ} {settings} {L : Look κ} {disk : Disk} {S o h pre fs}
    (hs : Started P u settings disk S o h pre fs) (hc : S.nav.Sound) (hL : L.Still pre fs) (hroot : fs.infoErr = none) {n} (hn : fs.levels ≤ n) (x : κ) :
    walkLive P (.using u) settings L n x = some (walkPrime P (.using u) settings disk x) := by
  simp only [walkLive, walkPrime, hs.built, Built.navigateLive, Built.navigate, topLive, hs.status, runTop, statOf, hs.disk, hs.handler, Option.getD_some]
  generalize hw : (S.world x fun _ => none).publish (o.client h) (.begin u.tree) = w
  have hst : L.world.stat w u.tree = .ok fs := by
    rw [hs.tree]; exact hL.stat _
  have hpre : u.tree.dropLast = pre := by rw [hs.tree, List.dropLast_concat]
  have hL' : L.world.Still pre fs := ⟨fun w => hL.stat w.client, fun w => hL.list w.client, fun w => hL.file w.client, fun w => hL.info w.client⟩
  have he : (⟨fs.name, fs.isDir, none⟩ : Entry) = fs.entry := by cases fs <;> (simp only [FS.infoErr] at hroot; subst hroot; rfl)
  obtain ⟨g, hg⟩ := traverse_still (env := S.env (o.client h) u.tree []) hc.permutes hc.selects hc.sort hc.read hL' fs pre (.here pre fs) n hn [] ⟨0, w, []⟩
  simp only [hst, hpre, he, hg, Option.map_some, top]
  cases (traverse S.nav (S.env (o.client h) u.tree []) [] pre (prep S.nav fs) ⟨0, w, []⟩).1.final <;> rfl

/-- With a depth limit a session ends. -/
theorem walkLive_ends {P : Platform κ} {u : Using κ} {settings} {L : Look κ} {n : Nat}
    (hlim : ∀ S o, buildPrimary P (.using u) settings = .ready S o → 0 < S.nav.maxDepth ∧ S.nav.maxDepth + 2 ≤ n) (x : κ) :
    ∃ rep, walkLive P (.using u) settings L n x = some rep := by
  simp only [walkLive]
  generalize hb : buildPrimary P (.using u) settings = b at hlim ⊢
  cases b with
  | crash => exact ⟨_, rfl⟩
  | hades e => exact ⟨_, rfl⟩
  | stillborn e o => exact ⟨_, rfl⟩
  | ready S o =>
    obtain ⟨h1, h2⟩ := hlim S o rfl
    simp only [Built.navigateLive, topLive]
    generalize (S.world x fun _ => none).publish (o.client (u.handler.getD fun k _ => (k, .ok none))) (.begin u.tree) = w
    cases o.hooks.queryStatus.invoke (L.world.stat w u.tree) with
    | error e => exact ⟨_, rfl⟩
    | ok f0 =>
      obtain ⟨o1, s1, g1, h⟩ := traverseLive_ends S.nav (S.env (o.client (u.handler.getD fun k _ => (k, .ok none))) u.tree []) L.world h1 n []
        u.tree.dropLast ⟨f0.name, f0.isDir, none⟩ ⟨0, w, []⟩ (by simp only; omega) (by omega)
      simp only [h, Option.map_some]
      exact ⟨_, rfl⟩

end Traverse
