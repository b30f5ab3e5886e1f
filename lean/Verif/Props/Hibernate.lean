import Verif.Proofs.Session3
import Verif.Demo.Chain
import Verif.Props.Replies
/-
C25: hibernation delivers one window. C26: sleep ends the traversal.
-/
namespace Traverse
variable {κ τ : Type}

/-- C25. For every file system, subscription, filter, handler, skip handler and panic handler: the handler is called for
exactly those nodes the navigator comes to that lie in the window (from the first node matching the wake condition up to
the first later one matching the sleep condition, the ends as the two switches say) and that the filter accepts, in
that order; and the Wake and Sleep events come at most once each, at those nodes, in that order among the handler
calls. -/
theorem C25_window (S : Setup) (ho : S.Ordinary) (hs : S.Sane) (C : Client κ) (x : κ) (carried : Metrics)
    (target pre : Path) (fs : FS) :
    let r := S.session C x carried target pre fs
    r.2.ext.called = (window S.hiber (invoked r.2.log)).filter S.accepts ∧
    r.2.ext.tape.filter Obs.isHib = windowTape S.hiber S.accepts (invoked r.2.log) := by
  have h := plainInv_session S ho hs C x carried target pre fs
  refine ⟨?_, ?_⟩
  · rw [h.called, hibRun_window]
  · rw [h.tape, hibTape_window]

/-- At most one Wake and one Sleep event. -/
theorem C25_once (S : Setup) (ho : S.Ordinary) (hs : S.Sane) (C : Client κ) (x : κ) (carried : Metrics)
    (target pre : Path) (fs : FS) :
    let tape := (S.session C x carried target pre fs).2.ext.tape
    tape.count (.note .wake) ≤ 1 ∧ tape.count (.note .sleep) ≤ 1 := by
  intro tape
  have h := (C25_window S ho hs C x carried target pre fs).2
  have hc : ∀ o : Obs, o.isHib = true → tape.count o = (tape.filter Obs.isHib).count o := by
    intro o h1; rw [List.count_filter h1]
  have hcall : ∀ (l : List Node) (n : Note), (l.map Obs.call).count (.note n) = 0 := by
    intro l n
    rw [List.count_eq_zero]
    simp
  have hone : ∀ (b : Bool) (m : Node) (n : Note), (if b then [Obs.call m] else []).count (.note n) = 0 := by
    intro b m n; cases b <;> rfl
  have ht : ∀ l, (tillSleep S.hiber S.accepts l).count (.note .wake) = 0 ∧
      (tillSleep S.hiber S.accepts l).count (.note .sleep) ≤ 1 := by
    intro l
    unfold tillSleep
    split
    · simp [hcall]
    · simp only [List.count_append, hcall]
      split
      · simp
      · simp only [List.count_cons, hone]; simp
  rw [hc _ rfl, hc _ rfl, h]
  unfold windowTape
  split
  · have := ht (invoked (S.session C x carried target pre fs).2.log); omega
  · split
    · simp
    · rename_i rest _
      have := ht rest
      simp only [List.count_append, List.count_cons, hone]
      simp; omega

theorem asleep_eq (h : HiberOpts) (l : List Node) : asleep h l = hasSlept h l := by
  have hact : ∀ l, (hibRun h .active l).1 = if l.any h.sleep then .retired else .active := by
    intro l
    induction l with
    | nil => rfl
    | cons n l ih =>
      cases hn : h.sleep n <;> simp [hibRun, hibStep, hn, ih, hibRun_retired]
  have hsl : ∀ l : List Node, l.any h.sleep = match h.sleepAt with | none => false | some s => l.any s := by
    intro l
    rcases hs : h.sleepAt with _ | s
    · simp [HiberOpts.sleep, hs]
    · congr 1; funext n; simp [HiberOpts.sleep, hs]
  have hactb : ∀ l, ((hibRun h .active l).1 == .retired) =
      match h.sleepAt with | none => false | some s => l.any s := by
    intro l
    rw [hact, ← hsl]
    cases l.any h.sleep <;> rfl
  unfold asleep hasSlept HiberOpts.launch
  rcases hw : h.wakeAt with _ | w
  · simp only [Option.isSome_none, Bool.false_eq_true, if_false]
    rw [hactb]
    cases h.sleepAt <;> rfl
  · simp only [Option.isSome_some, if_true]
    have : ((hibRun h .pending l).1 == .retired) = match h.sleepAt with
        | none => false | some s => ((l.dropWhile (fun n => !w n)).drop 1).any s := by
      induction l with
      | nil => simp [hibRun]; split <;> rfl
      | cons n l ih =>
        cases hn : w n
        · simp [hibRun, hibStep, HiberOpts.wake, hw, hn, ih]
        · simp [hibRun, hibStep, HiberOpts.wake, hw, hn, hactb]
    rw [this]
    cases h.sleepAt <;> rfl

/-- Once asleep, what follows does not matter. -/
theorem window_slept {h : HiberOpts} {l1 : List Node} (hl : hasSlept h l1 = true) (l2 : List Node) :
    window h (l1 ++ l2) = window h l1 := by
  rw [← asleep_eq] at hl
  unfold asleep at hl
  have hl : (hibRun h h.launch l1).1 = .retired := by simpa using hl
  rw [← hibRun_window, ← hibRun_window, hibRun_append, hl, hibRun_retired, List.append_nil]

/-- The same of the events. -/
theorem windowTape_slept {h : HiberOpts} {l1 : List Node} (hl : hasSlept h l1 = true) (acc) (l2 : List Node) :
    windowTape h acc (l1 ++ l2) = windowTape h acc l1 := by
  rw [← asleep_eq] at hl
  unfold asleep at hl
  have hl : (hibRun h h.launch l1).1 = .retired := by simpa using hl
  rw [← hibTape_window, ← hibTape_window, hibTape_append, hl, hibTape_retired, List.append_nil]

/-- The client accepts everything: nil from the handler, no skipping. -/
def Client.Accepts (C : Client κ) : Prop :=
  (∀ x p, (C.handler x p).2 = .ok none) ∧ ∀ x n re, (C.skip x n re).2 = (.none, none)

/-- The answer of the chain of a client that accepts everything. -/
theorem accepting_reply {S : Setup} {C : Client κ} (hC : C.Accepts) {carried} {s : St (World κ)} {n rep w'} (hI : PlainInv S carried s)
    (hp : PlainStep S C s.ext n w' rep) : rep = if hasSlept S.hiber (invoked s.log) then .ok (some .skipAll) else .ok none := by
  have hh := hibOf_prefix hI
  rw [← asleep_eq]
  unfold asleep invoked
  rw [← hh]
  by_cases ha : S.hibOf s.ext = .retired
  · have hw : S.awake s.ext n = false := by unfold Setup.awake; rw [ha]; rfl
    rw [hp.slept hw, if_pos ha, ha]; rfl
  · have : (S.hibOf s.ext == .retired) = false := by simpa using ha
    rw [this]
    cases hw : S.awake s.ext n
    · rw [hp.slept hw, if_neg ha]; rfl
    · cases hacc : S.accepts n
      · rw [hp.rejected hw hacc]; rfl
      · obtain ⟨k, hk⟩ := hp.handled hw hacc
        rw [hk, hC.1]; rfl

theorem session_replies {S : Setup} (ho : S.Ordinary) (hs : S.Sane) (C : Client κ) (hC : C.Accepts) (x : κ)
    (carried : Metrics) (target pre : Path) (fs : FS) : ∀ before n r after,
    calls (S.session C x carried target pre fs).2.log = before ++ (n, r) :: after →
    r = if hasSlept S.hiber (before.map Prod.fst) then .ok (some .skipAll) else .ok none := by
  refine plain_session_inv ho hs C x carried target pre fs
    (Q := fun _ l => ∀ before n r after, l = before ++ (n, r) :: after →
      r = if hasSlept S.hiber (before.map Prod.fst) then .ok (some .skipAll) else .ok none) ?_ ?_ ?_ ?_
  · intro b n r a h; simp at h
  · intro w l n h; exact h
  · intro w l k sv h; exact h
  · intro s n rep w' hI hn hp h before m r after heq
    rcases List.eq_nil_or_concat after with rfl | ⟨after', y, rfl⟩
    · obtain ⟨e1, e2⟩ := List.append_inj' heq rfl
      simp only [List.cons.injEq, Prod.mk.injEq, and_true] at e2
      obtain ⟨rfl, rfl⟩ := e2
      subst e1
      exact accepting_reply hC hI hp
    · have e : before ++ (m, r) :: (after'.concat y) = (before ++ (m, r) :: after') ++ [y] := by simp
      rw [e] at heq
      exact h before m r after' (List.append_inj' heq rfl).1

/-- A node dropped by `P` needs a witness in `B` that came before it; then the part of the filtered list before `B` is
an initial part of the whole. -/
theorem prefix_of_filter {α : Type} {P : α → Bool} (B : List α) : ∀ (L A : List α), L.filter P = A ++ B →
    (∀ m post, (m :: post) <:+ L → P m = false → ∃ d ∈ B, d ∉ m :: post) → A <+: L := by
  intro L
  induction L with
  | nil => intro A h _; simp at h; simp [h.1]
  | cons m L ih =>
    intro A h hd
    cases A with
    | nil => simp
    | cons a A =>
      cases hm : P m
      · obtain ⟨d, hdB, hdn⟩ := hd m L (List.suffix_refl _) hm
        exfalso
        apply hdn
        have : d ∈ (m :: L).filter P := by rw [h]; simp [hdB]
        exact (List.mem_filter.1 this).1
      · rw [List.filter_cons, if_pos hm] at h
        simp only [List.cons_append, List.cons.injEq] at h
        obtain ⟨rfl, h⟩ := h
        rw [List.prefix_cons_inj]
        exact ih A h (fun m' post hs => hd m' post (hs.trans (List.suffix_cons _ _)))

/-- The list up to and including the node at which the sleep condition is met. -/
theorem split_slept (h : HiberOpts) (l : List Node) : hasSlept h l = true →
    ∃ A s B, l = A ++ s :: B ∧ hasSlept h A = false ∧ hasSlept h (A ++ [s]) = true := by
  generalize hk : l.reverse = k
  induction k generalizing l with
  | nil =>
    intro hl
    have : l = [] := by simpa using hk
    subst this
    rw [← asleep_eq] at hl
    unfold asleep HiberOpts.launch hibRun at hl
    split at hl <;> cases hl
  | cons y k ih =>
    intro hl
    have : l = k.reverse ++ [y] := by rw [← List.reverse_reverse l, hk]; simp
    subst this
    cases hh : hasSlept h k.reverse
    · exact ⟨k.reverse, y, [], rfl, hh, hl⟩
    · obtain ⟨A, s, B, h1, h2, h3⟩ := ih k.reverse (by simp) hh
      exact ⟨A, s, B ++ [y], by rw [h1]; simp, h2, h3⟩

theorem nil_not_slept (h : HiberOpts) : hasSlept h [] = false := by
  unfold hasSlept; split <;> (try split) <;> rfl

/-- If what was visited is what an undisturbed traversal would visit minus nodes dropped because of nodes met after
the sleep node, both have the same window. -/
theorem window_of_filter {h : HiberOpts} {L : List Node} {P : Node → Bool}
    (hn : hasSlept h (L.filter P) = false → ∀ m ∈ L, P m = true)
    (hy : ∀ A s B, L.filter P = A ++ s :: B → hasSlept h A = false → hasSlept h (A ++ [s]) = true →
      ∀ m post, (m :: post) <:+ L → P m = false → ∃ d ∈ B, d ∉ m :: post) :
    window h (L.filter P) = window h L ∧ ∀ acc, windowTape h acc (L.filter P) = windowTape h acc L := by
  cases hs : hasSlept h (L.filter P)
  · rw [List.filter_eq_self.2 (hn hs)]; exact ⟨rfl, fun _ => rfl⟩
  · obtain ⟨A, s, B, h1, h2, h3⟩ := split_slept h _ hs
    have hp : (A ++ [s]) <+: L := prefix_of_filter B L (A ++ [s]) (by rw [h1]; simp) (hy A s B h1 h2 h3)
    obtain ⟨C, rfl⟩ := hp
    have : (A ++ [s] ++ C).filter P = (A ++ [s]) ++ B := by rw [h1]; simp
    rw [this, window_slept h3, window_slept h3]
    exact ⟨rfl, fun acc => by rw [windowTape_slept h3, windowTape_slept h3]⟩

theorem nodup_not_both {α : Type} {l : List α} (h : l.Nodup) {a b : α} (h1 : [a, b].Sublist l)
    (h2 : [b, a].Sublist l) : False := by
  induction l with
  | nil => cases h1
  | cons x l ih =>
    rw [List.nodup_cons] at h
    cases h1 with
    | cons _ h1 =>
      cases h2 with
      | cons _ h2 => exact ih h.2 h1 h2
      | cons_cons _ h2 => exact h.1 (h1.subset (by simp))
    | cons_cons _ h1 =>
      cases h2 with
      | cons _ h2 => exact h.1 (h2.subset (by simp))
      | cons_cons _ h2 => exact h.1 (h1.subset (by simp))

theorem refused_after {S : Setup} (ho : S.Ordinary) (hs : S.Sane) (C : Client κ) (hC : C.Accepts) (x : κ)
    (carried : Metrics) (target pre : Path) (fs : FS) {p : Path}
    (hp : p ∈ refused (S.session C x carried target pre fs).2.log) :
    hasSlept S.hiber (invoked (S.session C x carried target pre fs).2.log) = true ∧
    ∀ A s B, invoked (S.session C x carried target pre fs).2.log = A ++ s :: B → hasSlept S.hiber A = false →
      hasSlept S.hiber (A ++ [s]) = true → ∃ d ∈ B, d.path = p := by
  obtain ⟨n, e, hm, rfl⟩ := refused_mem.1 hp
  obtain ⟨before, after, hsp⟩ := List.append_of_mem (mem_calls.2 hm)
  have hr := session_replies ho hs C hC x carried target pre fs before n _ after hsp
  have hb : hasSlept S.hiber (before.map Prod.fst) = true := by
    cases hb : hasSlept S.hiber (before.map Prod.fst)
    · rw [hb] at hr; cases hr
    · rfl
  have hinv : invoked (S.session C x carried target pre fs).2.log =
      before.map Prod.fst ++ n :: after.map Prod.fst := by
    unfold invoked; rw [hsp]; simp
  have mono : ∀ l1 l2, hasSlept S.hiber l1 = true → hasSlept S.hiber (l1 ++ l2) = true := by
    intro l1 l2 h1
    rw [← asleep_eq] at h1 ⊢
    unfold asleep at *
    have h1 : (hibRun S.hiber S.hiber.launch l1).1 = .retired := by simpa using h1
    rw [hibRun_append, h1, hibRun_retired]; rfl
  refine ⟨by rw [hinv]; exact mono _ _ hb, ?_⟩
  intro A s B h1 hA hAs
  rw [hinv] at h1
  rcases List.append_eq_append_iff.1 h1 with ⟨D, e1, e2⟩ | ⟨D, e1, e2⟩
  · exfalso
    rw [e1, mono _ _ hb] at hA; cases hA
  · cases D with
    | nil =>
      exfalso
      simp at e1
      rw [← e1, hb] at hA; cases hA
    | cons y D =>
      simp only [List.cons_append, List.cons.injEq] at e2
      exact ⟨n, by rw [e2.2]; simp, rfl⟩

theorem window_tree (S : Setup) (ho : S.Ordinary) (hs : S.Sane) (C : Client κ) (hC : C.Accepts) (x : κ)
    (carried : Metrics) (target pre : Path) (fs : FS) (env0 : Env τ) (x0 : τ) (hnil0 : AlwaysNil env0)
    (hskip0 : DefaultSkip env0) (hsub : S.nav.sub ≠ .files) (hsort : SortPermutes S.nav) (hread : ReadSelects S.nav)
    (hdistinct : fs.Distinct) :
    window S.hiber (invoked (S.session C x carried target pre fs).2.log) =
      window S.hiber (invoked (walk S.nav env0 x0 pre fs).2.log) ∧
    ∀ acc, windowTape S.hiber acc (invoked (S.session C x carried target pre fs).2.log) =
      windowTape S.hiber acc (invoked (walk S.nav env0 x0 pre fs).2.log) := by
  have hrep := session_replies ho hs C hC x carried target pre fs
  have hskip : DefaultSkip (S.env C (pre ++ [fs.name]) target) := fun w n re => hC.2 w.client n re
  have hsn : ∀ n re sk e, Ev.ask n re sk e ∈ (S.session C x carried target pre fs).2.log → sk = .none := by
    intro n re sk e hm
    obtain ⟨y, hy⟩ := walk_from S.nav (S.env C (pre ++ [fs.name]) target) (S.world x carried) pre fs _ hm
    have := hskip.skipNone y n re
    rw [hy] at this; exact this
  obtain ⟨_, h2⟩ := walk_pruned S.nav (S.env C (pre ++ [fs.name]) target) (S.world x carried) pre fs hsub hsort hread
    hdistinct (fun n re sk e hm => Or.inr (hsn n re sk e hm))
  obtain ⟨h3, _⟩ := h2 (by
    intro n r hm
    obtain ⟨before, after, hsp⟩ := List.append_of_mem (mem_calls.2 hm)
    rw [hrep before n r after hsp]
    split
    · refine ⟨by simp, ?_⟩
      rintro e he ⟨_, g2⟩
      simp at he; subst he; cases g2
    · simp)
  have hsn' := declined_of_skipNone hsub hsn
  unfold Setup.session at hsn'
  rw [hsn'] at h3
  rw [← walk_reference S.nav env0 x0 pre fs hsub hsort hread hdistinct hnil0 hskip0] at h3
  have hpw := (C02_preorder S.nav env0 x0 pre fs hsort hread hdistinct).1
  have href := fun p hp => refused_after ho hs C hC x carried target pre fs (p := p) hp
  unfold Setup.session at href ⊢
  rw [h3] at href ⊢
  generalize invoked (walk S.nav env0 x0 pre fs).2.log = L at *
  generalize refused (walk S.nav (S.env C (pre ++ [fs.name]) target) (S.world x carried) pre fs).2.log = R at *
  refine window_of_filter ?_ ?_
  · intro hf m hm
    unfold outside
    simp only [decide_eq_true_eq]
    intro p hp
    rw [(href p hp).1] at hf; cases hf
  · intro A s B hAB hA hAs m post hsuf hPm
    unfold outside at hPm
    simp only [decide_eq_false_iff_not, Classical.not_forall, Classical.not_not, exists_prop] at hPm
    obtain ⟨p, hp, hab⟩ := hPm
    obtain ⟨d, hd, rfl⟩ := (href p hp).2 A s B hAB hA hAs
    refine ⟨d, hd, fun hc => ?_⟩
    rcases List.mem_cons.1 hc with rfl | hc
    · exact hab.2 rfl
    · have := hpw.sublist hsuf.sublist
      rw [List.pairwise_cons] at this
      exact this.1 d hc hab.1

/-- C25, in terms of the file system: with a handler that accepts everything, the calls are the window of the nodes an
undisturbed traversal (`env0`, any that accepts everything) visits, as far as the filter accepts them — pruning after the
sleep node makes no difference. Subscriptions other than Files. -/
theorem C25_window_of_tree (S : Setup) (ho : S.Ordinary) (hs : S.Sane) (C : Client κ) (hC : C.Accepts) (x : κ)
    (carried : Metrics) (target pre : Path) (fs : FS) (env0 : Env τ) (x0 : τ) (hnil0 : AlwaysNil env0)
    (hskip0 : DefaultSkip env0) (hsub : S.nav.sub ≠ .files) (hsort : SortPermutes S.nav) (hread : ReadSelects S.nav)
    (hdistinct : fs.Distinct) :
    (S.session C x carried target pre fs).2.ext.called =
      (window S.hiber (invoked (walk S.nav env0 x0 pre fs).2.log)).filter S.accepts := by
  rw [(C25_window S ho hs C x carried target pre fs).1, (window_tree S ho hs C hC x carried target pre fs env0 x0 hnil0 hskip0 hsub hsort hread hdistinct).1]

theorem window_tree_files (S : Setup) (ho : S.Ordinary) (hs : S.Sane) (C : Client κ) (hC : C.Accepts) (x : κ)
    (carried : Metrics) (target pre : Path) (fs : FS) (env0 : Env τ) (x0 : τ) (hnil0 : AlwaysNil env0)
    (hskip0 : DefaultSkip env0) (hsub : S.nav.sub = .files) (hsort : SortPermutes S.nav)
    (hread : S.nav.read = defaultRead) (hdistinct : fs.Distinct) :
    window S.hiber (invoked (S.session C x carried target pre fs).2.log) =
      window S.hiber (invoked (walk S.nav env0 x0 pre fs).2.log) ∧
    ∀ acc, windowTape S.hiber acc (invoked (S.session C x carried target pre fs).2.log) =
      windowTape S.hiber acc (invoked (walk S.nav env0 x0 pre fs).2.log) := by
  have hrep := session_replies ho hs C hC x carried target pre fs
  have hskip : DefaultSkip (S.env C (pre ++ [fs.name]) target) := fun w n re => hC.2 w.client n re
  obtain ⟨_, h2⟩ := C10_files_skip_partial S.nav (S.env C (pre ++ [fs.name]) target) (S.world x carried) env0 x0 pre fs
    hsub hsort hread hdistinct hskip hnil0 hskip0
  have h3 := h2 (by
    intro n r hm
    obtain ⟨before, after, hsp⟩ := List.append_of_mem hm
    rw [hrep before n r after hsp]
    split
    · exact Or.inr ⟨_, rfl, rfl, rfl⟩
    · exact Or.inl rfl)
  have hpw := (C02_preorder S.nav env0 x0 pre fs hsort (defaultRead_selects _ hread) hdistinct).1
  have href := fun p hp => refused_after ho hs C hC x carried target pre fs (p := p) hp
  unfold Setup.session at href ⊢
  rw [h3] at href ⊢
  generalize invoked (walk S.nav env0 x0 pre fs).2.log = L at *
  generalize refused (walk S.nav (S.env C (pre ++ [fs.name]) target) (S.world x carried) pre fs).2.log = R at *
  have hnd : (L.map fun k => k.path).Nodup := by
    rw [List.Nodup, List.pairwise_map]
    refine hpw.imp ?_
    intro a b h (e : a.path = b.path)
    exact h (e ▸ List.prefix_refl _)
  refine window_of_filter ?_ ?_
  · intro hf m hm
    simp only [decide_eq_true_eq]
    rintro ⟨p, hp, _⟩
    rw [(href p hp).1] at hf; cases hf
  · intro A s B hAB hA hAs m post hsuf hPm
    simp only [decide_eq_false_iff_not, Classical.not_not] at hPm
    obtain ⟨p, hp, hsubl, _⟩ := hPm
    obtain ⟨d, hd, rfl⟩ := (href p hp).2 A s B hAB hA hAs
    refine ⟨d, hd, fun hc => ?_⟩
    rcases List.mem_cons.1 hc with rfl | hc
    · have := hnd.sublist hsubl
      simp at this
    · refine nodup_not_both hnd hsubl ?_
      have h4 : [m, d].Sublist (m :: post) := List.Sublist.cons_cons m (List.singleton_sublist.2 hc)
      exact (h4.trans hsuf.sublist).map (fun k : Node => k.path)

/-- The same for the Files subscription. -/
theorem C25_window_of_tree_files (S : Setup) (ho : S.Ordinary) (hs : S.Sane) (C : Client κ) (hC : C.Accepts) (x : κ)
    (carried : Metrics) (target pre : Path) (fs : FS) (env0 : Env τ) (x0 : τ) (hnil0 : AlwaysNil env0)
    (hskip0 : DefaultSkip env0) (hsub : S.nav.sub = .files) (hsort : SortPermutes S.nav)
    (hread : S.nav.read = defaultRead) (hdistinct : fs.Distinct) :
    (S.session C x carried target pre fs).2.ext.called =
      (window S.hiber (invoked (walk S.nav env0 x0 pre fs).2.log)).filter S.accepts := by
  rw [(C25_window S ho hs C x carried target pre fs).1, (window_tree_files S ho hs C hC x carried target pre fs env0 x0 hnil0 hskip0 hsub hsort hread hdistinct).1]

/-- Not vacuous: waking at "c" and going to sleep at "x" with the default inclusivity, with both ends switched, and with
the Files subscription; the file system has nodes before, between and behind. -/
example :
    let go := fun (S : Setup) => ((S.session (Demo.client Demo.quiet) () (fun _ => none) [] [] Demo.fs).2.ext.tape.filter
      Obs.isHib).map fun | .call n => n.name | .note .wake => "WAKE" | _ => "SLEEP"
    let S := Demo.sleepy .universal
    go S = ["WAKE", "c", "w", "a", "b", "z", "y", "SLEEP"] ∧
    go { S with hiber := { S.hiber with inclusiveWake := false, inclusiveSleep := true } } =
      ["WAKE", "w", "a", "b", "z", "y", "SLEEP", "x"] ∧
    go { nav := Demo.nav .files, hiber := { wakeAt := some (fun n => n.name == "z"), sleepAt := some (fun n => n.name == "x") } } = ["WAKE", "z", "y", "SLEEP"] := by
  decide +kernel

/-! ### C26 -/

/-- **C26 is false of the code**: the demo session goes to sleep at r/a/x (see above), yet the navigator goes on to r/g
and r/f, descending and ascending for them: the chain answers SkipAll for them, which only prunes. -/
theorem C26_sleep_does_not_end :
    let r := (Demo.sleepy .universal).session (Demo.client Demo.quiet) () (fun _ => none) [] [] Demo.fs
    (calls r.2.log).map (fun c => (c.1.path, c.2)) =
      [(["r"], .ok none), (["r", "c"], .ok none), (["r", "c", "w"], .ok none), (["r", "a"], .ok none),
       (["r", "a", "b"], .ok none), (["r", "a", "b", "z"], .ok none), (["r", "a", "b", "y"], .ok none),
       (["r", "a", "x"], .ok none), (["r", "g"], .ok (some .skipAll)), (["r", "f"], .ok (some .skipAll))] := by
  decide +kernel

/-- **C26** (partial; the full claim "no further node is navigated to" fails, see `C26_sleep_does_not_end`). What does
hold: once the sleep condition has been met, the handler is not called again (`n` and everything later is not among
the calls), every node still navigated to is answered with SkipAll, and nothing below such a node is navigated to.
Missing: the nodes outside those subtrees. -/
theorem C26_sleep_partial (S : Setup) (ho : S.Ordinary) (hs : S.Sane) (C : Client κ) (x : κ) (carried : Metrics)
    (target pre : Path) (fs : FS) (hskip : SkipNone (S.env C (pre ++ [fs.name]) target)) (hsub : S.nav.sub ≠ .files)
    (hsort : SortPermutes S.nav) (hread : ReadSelects S.nav) (hdistinct : fs.Distinct)
    (before : List (Node × Reply)) (n : Node) (rep : Reply) (after : List (Node × Reply))
    (hsp : calls (S.session C x carried target pre fs).2.log = before ++ (n, rep) :: after)
    (hslept : hasSlept S.hiber (before.map Prod.fst) = true) :
    rep = .ok (some .skipAll) ∧
    (S.session C x carried target pre fs).2.ext.called =
      (window S.hiber (before.map Prod.fst)).filter S.accepts ∧
    ∀ m ∈ after, ¬ Above n.path m.1.path := by
  have h1 := (session_asleep ho hs C x carried target pre fs before n rep after hsp).1 (by rw [asleep_eq]; exact hslept)
  refine ⟨h1, ?_, ?_⟩
  · rw [(C25_window S ho hs C x carried target pre fs).1]
    have : invoked (S.session C x carried target pre fs).2.log =
        before.map Prod.fst ++ (n :: after.map Prod.fst) := by unfold invoked; rw [hsp]; simp
    rw [this, window_slept hslept]
  · intro m hm
    subst h1
    refine (C09_skipAll_partial S.nav (S.env C (pre ++ [fs.name]) target) (S.world x carried) pre fs hsub hsort hread
      hdistinct hskip n .skipAll rfl ?_).1 m.1 ?_
    · show _ ∈ calls (S.session C x carried target pre fs).2.log
      rw [hsp]; simp
    · show _ ∈ invoked (S.session C x carried target pre fs).2.log
      unfold invoked; rw [hsp]
      simp only [List.map_append, List.map_cons, List.mem_append, List.mem_cons, List.mem_map]
      exact Or.inr (Or.inr ⟨m, hm, rfl⟩)

end Traverse
