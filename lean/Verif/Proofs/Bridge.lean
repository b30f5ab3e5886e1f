import Verif.Spec.Api
import Verif.Proofs.Driver
import Verif.Proofs.Session2
import Verif.Proofs.Plain
import Verif.Proofs.Brackets
/-
From whole sessions (`walkPrime`) to the navigator on a fresh state (`Setup.session`, `walk`).
-/
namespace Traverse
variable {κ : Type}

theorem rest_ready {P : Platform κ} {sub res} {o o2 : Options κ} {S} (h : buildRest P sub res o = .ready S o2) :
    S.resume = res ∧ S.nav = o2.nav sub ∧ sub ≠ .undefined := by
  unfold buildRest at h
  split at h
  · cases h
  rename_i hne
  split at h
  · cases h
  · cases h
  split at h
  · cases h
  · cases h
  injection h with h1 h2
  subst h2
  rw [← h1]
  exact ⟨rfl, rfl, hne⟩

theorem primary_ready {P : Platform κ} {u settings S} {o : Options κ} (h : buildPrimary P (.using u) settings = .ready S o) :
    S.resume = none ∧ S.nav = o.nav u.sub ∧ u.sub ≠ .undefined := by
  unfold buildPrimary at h
  split at h
  · cases h
  · exact rest_ready h

/-- A whole session, expressed by the navigator on a fresh state. -/
theorem started_session {P : Platform κ} {u settings disk S o h pre fs} (hl : Started P u settings disk S o h pre fs) (x : κ) :
    let C := o.client h
    let r := S.session C (C.listen x (.begin u.tree)) (fun _ => none) [] pre fs
    walkPrime P (.using u) settings disk x =
      match r.1 with
      | .panic => { verdict := .panic, client := r.2.ext.client, tape := .note (.begin u.tree) :: r.2.ext.tape, hits := r.2.ext.hits }
      | .done e => { verdict := .done e, client := C.listen r.2.ext.client .ended,
                     tape := .note (.begin u.tree) :: r.2.ext.tape ++ [.note .ended], hits := r.2.ext.hits,
                     metrics := r.2.ext.metrics, complete := true } := by
  intro C r
  obtain ⟨hres, -, -⟩ := primary_ready hl.built
  have hmut : ∀ y m e, (S.world (κ := κ) y m).muted e = false := by intro y m e; simp [Setup.world, hres]
  have hpub : ((S.world x (fun _ => none)).publish C (.begin u.tree)) =
      (S.world (C.listen x (.begin u.tree)) (fun _ => none)).after [.note (.begin u.tree)] := by
    unfold World.publish
    rw [hmut]
    simp [Setup.world, World.after]
  have hst : statOf S.nav o disk u.tree = .found (prep S.nav fs) := by
    simp only [statOf, hl.disk, hl.status]
  have hpre : u.tree.dropLast = pre := by rw [hl.tree, List.dropLast_concat]
  have hsim := (env_sim S C u.tree [] [.note (.begin u.tree)]).traverse S.nav (fun _ _ _ _ => trivial) (prep S.nav fs) [] pre
    ⟨0, (S.world (C.listen x (.begin u.tree)) (fun _ => none)).after [.note (.begin u.tree)], []⟩
    (St.fresh (S.world (C.listen x (.begin u.tree)) (fun _ => none))) ⟨rfl, rfl, rfl⟩
  have hr : r = ((traverse S.nav (S.env C u.tree []) [] pre (prep S.nav fs)
      (St.fresh (S.world (C.listen x (.begin u.tree)) (fun _ => none)))).1.final,
      (traverse S.nav (S.env C u.tree []) [] pre (prep S.nav fs)
      (St.fresh (S.world (C.listen x (.begin u.tree)) (fun _ => none)))).2) := by
    simp only [r, Setup.session, walk, ← hl.tree]
  have hloud : ∀ e, r.2.ext.loud e := by
    intro e
    rw [hr]
    exact traverse_inv (loud_preserved S C u.tree [] e) S.nav _ [] pre _ (hmut _ _ e)
  simp only [walkPrime, hl.built, hl.handler, Option.getD_some, Built.navigate, runTop, hst, hpre, top]
  rw [show o.client h = C from rfl, hpub]
  obtain ⟨h1, h2⟩ := hsim
  have hx := h2.ext
  simp only [hr] at hloud ⊢
  rw [h1, hx]
  cases hf : (traverse S.nav (S.env C u.tree []) [] pre (prep S.nav fs)
      (St.fresh (S.world (C.listen x (.begin u.tree)) (fun _ => none)))).1.final with
  | panic => simp [World.after]
  | done e =>
    have hq := hloud .ended
    unfold World.loud at hq
    simp only [publish_after, Report.mk.injEq, true_and]
    simp only [World.publish, Note.ev, hq, World.after]
    simp

/-- Unbundled: verdict, handler calls, tape. -/
theorem started_facts {P : Platform κ} {u settings disk S o h pre fs} (hl : Started P u settings disk S o h pre fs) (x : κ) :
    ∃ y, let r := S.session (o.client h) y (fun _ => none) [] pre fs
    (walkPrime P (.using u) settings disk x).verdict = r.1.verdict ∧
    (walkPrime P (.using u) settings disk x).hits = r.2.ext.hits ∧
    (walkPrime P (.using u) settings disk x).tape = .note (.begin u.tree) :: r.2.ext.tape ++
      (if r.1 = .panic then [] else [.note .ended]) := by
  refine ⟨(o.client h).listen x (.begin u.tree), ?_⟩
  intro r
  have := started_session hl x
  simp only at this
  rw [this]
  change _ ∧ _ ∧ _ at *
  rcases hr : S.session (o.client h) ((o.client h).listen x (.begin u.tree)) (fun _ => none) [] pre fs with ⟨f, s⟩
  have hrr : r = (f, s) := hr
  rw [hrr]
  cases f <;> simp [Final.verdict]

/-! ### Handler calls and the navigator's record of them -/

/-- The handler calls are, in order and with their answers, among the calls recorded by the navigator. -/
def HitsIn (s : St (World κ)) : Prop := (s.ext.hits.map (fun h => (h.parcel.node, h.reply))).Sublist (calls s.log)

/-- One pass through the chain adds at most one handler call, for the node at hand, and passes its answer on. -/
theorem link_hits {S : Setup} {C : Client κ} {target r l} (h : linkOf S C target r = some l) (w : World κ) (p) :
    (l w p).2.1.node = p.node ∧
    ((l w p).1.hits = w.hits ∨
      ∃ hit, (l w p).1.hits = w.hits ++ [hit] ∧ hit.parcel.node = p.node ∧ (l w p).2.2.goesOn = false ∧ (l w p).2.2.reply = hit.reply) := by
  have hchild : ∀ f (w : World κ) p, (childScheme S f w p).2.1.node = p.node ∧ (childScheme S f w p).1.hits = w.hits := by
    intro f w p; unfold childScheme; split <;> exact ⟨rfl, rfl⟩
  have hprim : ∀ P (w : World κ) p, (primaryScheme P w p).2.1.node = p.node ∧ (primaryScheme P w p).1.hits = w.hits := by
    intro P w p; unfold primaryScheme; cases P <;> simp only <;> repeat' split
    all_goals first | exact ⟨rfl, rfl⟩ | exact ⟨trivial, trivial⟩ | exact ⟨trivial, rfl⟩
  cases r <;> simp only [linkOf, Option.some.injEq, reduceCtorEq] at h <;> subst h
  · refine ⟨rfl, Or.inr ⟨⟨p, _, (C.handler w.client p).2⟩, rfl, rfl, anchorLink_stops C w p, anchor_reply C w p⟩⟩
  · unfold filterLink
    by_cases hd : S.filter.dies p.node = true
    · rw [if_pos hd]; exact ⟨rfl, Or.inl rfl⟩
    rw [if_neg hd]
    unfold schemeLink
    rcases S.filter.primary with _ | P <;> rcases S.filter.child with _ | f <;> simp only
    · exact ⟨trivial, Or.inl trivial⟩
    · exact ⟨(hchild f w p).1, Or.inl (hchild f w p).2⟩
    · exact ⟨(hprim P w p).1, Or.inl (hprim P w p).2⟩
    · have h1 := hprim P w p
      rcases hP : primaryScheme P w p with ⟨w1, p1, t⟩
      rw [hP] at h1
      have h2 := hchild f w1 p1
      rcases hC : childScheme S f w1 p1 with ⟨w2, p2, t2⟩
      rw [hC] at h2
      simp only at h1 h2
      rcases t with ⟨_ | _, e⟩ | _ <;> simp only [hC]
      · exact ⟨h1.1, Or.inl h1.2⟩
      · rcases t2 with ⟨_, e2⟩ | _ <;> exact ⟨h2.1.trans h1.1, Or.inl (h2.2.trans h1.2)⟩
      · exact ⟨h1.1, Or.inl h1.2⟩
  · unfold hiberLink
    by_cases hd : S.hiber.dies w.hib p.node = true
    · rw [if_pos hd]; exact ⟨rfl, Or.inl rfl⟩
    rw [if_neg hd]
    unfold hiberNext
    cases w.hib <;> simp only <;> (try split) <;> simp
  · exact ⟨rfl, Or.inl rfl⟩
  · unfold nannyLink; split <;> exact ⟨rfl, Or.inl rfl⟩
  · unfold fastwardLink; split <;> exact ⟨rfl, Or.inl rfl⟩

theorem iterate_hits (S : Setup) (C : Client κ) (target) (rs : List Role) : ∀ (w : World κ) p,
    (iterate (World.link S C target) rs w p).1.hits = w.hits ∨
    ∃ hit, (iterate (World.link S C target) rs w p).1.hits = w.hits ++ [hit] ∧ hit.parcel.node = p.node ∧
      (iterate (World.link S C target) rs w p).2.2.1 = hit.reply := by
  induction rs with
  | nil => intro w p; exact Or.inl rfl
  | cons r rs ih =>
    intro w p
    simp only [iterate]
    rcases hk : World.link S C target w r with _ | l
    · exact Or.inl rfl
    · have hof : linkOf S C target r = some l := by
        unfold World.link at hk; split at hk
        · exact hk
        · cases hk
      obtain ⟨hn, hh⟩ := link_hits hof w p
      simp only
      rcases hlu : l w p with ⟨w1, p1, t⟩
      rw [hlu] at hn hh
      simp only at hn hh ⊢
      cases hg : t.goesOn with
      | false =>
        simp only [Bool.false_eq_true, if_false]
        rcases hh with hh | ⟨hit, h1, h2, -, h4⟩
        · exact Or.inl hh
        · exact Or.inr ⟨hit, h1, h2, h4⟩
      | true =>
        simp only [if_true]
        have hh : w1.hits = w.hits := by
          rcases hh with hh | ⟨hit, h1, h2, h3, h4⟩
          · exact hh
          · rw [hg] at h3; cases h3
        have := ih w1 p1
        rw [hh, hn] at this
        exact this

theorem invoke_hits (S : Setup) (C : Client κ) (target) (w : World κ) (n : Node) :
    (World.invoke S C target w n).1.hits = w.hits ∨
    ∃ hit, (World.invoke S C target w n).1.hits = w.hits ++ [hit] ∧ hit.parcel.node = n ∧
      (World.invoke S C target w n).2 = hit.reply := by
  simp only [World.invoke]
  cases hp : w.guard.positions with
  | none =>
    refine Or.inr ⟨⟨⟨n, []⟩, _, (C.handler w.client ⟨n, []⟩).2⟩, rfl, rfl, anchor_reply C w ⟨n, []⟩⟩
  | some ps => exact iterate_hits S C target ps.list.2 { w with guard := { w.guard with positions := some ps.list.1 } } ⟨n, []⟩

theorem hitsIn_preserved (S : Setup) (C : Client κ) (tree target : Path) : Preserved (S.env C tree target) HitsIn where
  descend s p d h := by
    unfold HitsIn at *
    simpa [St.doDescend, Setup.env, calls] using h
  ascend s p d h := by
    unfold HitsIn at *
    simpa [St.doAscend, Setup.env, calls] using h
  invoke s n h := by
    unfold HitsIn at *
    have hc : calls (s.doInvoke (S.env C tree target) n).2.log = calls s.log ++ [(n, (World.invoke S C target s.ext n).2)] := by
      simp [St.doInvoke, calls, Setup.env]
    rw [hc]
    show (((World.invoke S C target s.ext n).1.hits).map _).Sublist _
    rcases invoke_hits S C target s.ext n with hh | ⟨hit, h1, h2, h3⟩
    · rw [hh]
      exact h.trans (List.sublist_append_left _ _)
    · rw [h1, List.map_append, h3, ← h2]
      exact h.append (List.Sublist.refl _)
  ask s n re h := by
    unfold HitsIn at *
    simpa [St.doAsk, Setup.env, calls] using h
  rescue s n h := by
    unfold HitsIn at *
    simpa [St.doRescue, Setup.env, calls] using h

theorem session_hitsIn (S : Setup) (C : Client κ) (x : κ) (carried : Metrics) (target pre : Path) (fs : FS) :
    HitsIn (S.session C x carried target pre fs).2 :=
  traverse_inv (hitsIn_preserved S C _ target) S.nav _ [] pre _ (by simp [HitsIn, Setup.world, St.fresh])

theorem invoked_of_hits {s : St (World κ)} (h : HitsIn s) : (s.ext.hits.map (fun h => h.parcel.node)).Sublist (invoked s.log) := by
  have := h.map Prod.fst
  simpa [invoked, List.map_map, Function.comp_def] using this

end Traverse

/-! ### The tape and the navigator's record -/
namespace Traverse
variable {κ : Type}

/-- What the client side may see of one recorded call. -/
inductive Shows : Ev → List Obs → Prop
  | descend (p d) : Shows (.descend p d) [.note (.descend p d)]
  | ascend (p d) : Shows (.ascend p d) [.note (.ascend p d)]
  | ask (n re sk e) : Shows (.ask n re sk e) []
  | rescue (m d r) : Shows (.rescue m d r) []
  | invoke (n r own) (hown : ∀ ob ∈ own, ob = .call n ∨ ob = .note .wake ∨ ob = .note .sleep)
      (hone : (own.filter (fun ob => ob matches .call _)).length ≤ 1) : Shows (.invoke n r) own

/-- The same for a whole record. -/
inductive Shown : List Ev → List Obs → Prop
  | nil : Shown [] []
  | cons {ev l o t} (h : Shows ev o) (hs : Shown l t) : Shown (ev :: l) (o ++ t)

theorem Shown.append {a b t u} (ha : Shown a t) (hb : Shown b u) : Shown (a ++ b) (t ++ u) := by
  induction ha with
  | nil => exact hb
  | cons h _ ih => rw [List.cons_append, List.append_assoc]; exact .cons h ih

theorem Shown.one {ev o} (h : Shows ev o) : Shown [ev] o := by simpa using Shown.cons h .nil

theorem Shown.split {a b t} (h : Shown (a ++ b) t) : ∃ t1 t2, t = t1 ++ t2 ∧ Shown a t1 ∧ Shown b t2 := by
  induction a generalizing t with
  | nil => exact ⟨[], t, rfl, .nil, h⟩
  | cons ev a ih =>
    cases h with
    | cons h1 hs =>
      obtain ⟨t1, t2, rfl, h2, h3⟩ := ih hs
      exact ⟨_ ++ t1, t2, by simp, .cons h1 h2, h3⟩

theorem Shown.single {ev t} (h : Shown [ev] t) : Shows ev t := by
  cases h with
  | cons h hs => cases hs; simpa using h

/-- What the node's own calls show. -/
theorem Shown.own {p : Path} {l : List Ev} {t} (h : Shown l t) (hown : ∀ ev ∈ l, ev.concerns p) :
    (∀ ob ∈ t, (∃ n, ob = .call n ∧ n.path = p) ∨ ob = .note .wake ∨ ob = .note .sleep) ∧
    (t.filter (fun ob => ob matches .call _)).length ≤ (calls l).length := by
  induction h with
  | nil => simp [calls]
  | @cons ev l o t h hs ih =>
    obtain ⟨i1, i2⟩ := ih (fun ev hev => hown ev (by simp [hev]))
    have hc := hown ev (by simp)
    cases h with
    | descend => exact absurd hc (by simp [Ev.concerns])
    | ascend => exact absurd hc (by simp [Ev.concerns])
    | rescue => exact absurd hc (by simp [Ev.concerns])
    | ask n re sk e => exact ⟨i1, by simpa [calls] using i2⟩
    | invoke n r own ho h1 =>
      refine ⟨?_, ?_⟩
      · intro ob hob
        rcases List.mem_append.1 hob with hob | hob
        · rcases ho ob hob with rfl | h | h
          · exact Or.inl ⟨n, rfl, hc⟩
          · exact Or.inr (Or.inl h)
          · exact Or.inr (Or.inr h)
        · exact i1 ob hob
      · rw [List.filter_append, List.length_append]
        have : (calls (.invoke n r :: l)).length = (calls l).length + 1 := by simp [calls]
        omega

theorem Visit.tour : ∀ {p l}, Visit p l → ∀ t, Shown l t → Tour p t := by
  intro p l h
  refine Visit.rec (motive_1 := fun p l _ => ∀ t, Shown l t → Tour p t)
    (motive_2 := fun p l _ => ∀ t, Shown l t → Tours p t) ?_ ?_ ?_ h
  · intro p isDir own inner tail hown hone hlen hinner htail ih t ht
    obtain ⟨t', t5, rfl, ht, h5⟩ := ht.split
    obtain ⟨t', t4, rfl, ht, h4⟩ := ht.split
    obtain ⟨t', t3, rfl, ht, h3⟩ := ht.split
    obtain ⟨t1, t2, rfl, h1, h2⟩ := ht.split
    cases h5.single
    cases h1.single
    have h4 : t4 = [] := by
      rcases htail with rfl | ⟨n, d, r, rfl, _⟩
      · cases h4; rfl
      · cases h4.single; rfl
    subst h4
    obtain ⟨o1, o2⟩ := h2.own hown
    rw [List.append_nil]
    exact Tour.mk p isDir t2 t3 o1 (Nat.le_trans o2 hone) (ih t3 h3)
  · intro p t ht; cases ht; exact .nil p
  · intro p name a b _ _ iha ihb t ht
    obtain ⟨t1, t2, rfl, h1, h2⟩ := ht.split
    exact .cons (iha _ h1) (ihb _ h2)

/-- The links add to the tape nothing but Wake, Sleep and one call. -/
def OwnObs (n : Node) (own : List Obs) : Prop :=
  (∀ ob ∈ own, ob = .call n ∨ ob = .note .wake ∨ ob = .note .sleep) ∧ (own.filter (fun ob => ob matches .call _)).length ≤ 1

theorem publish_tape (C : Client κ) (w : World κ) (n : Note) :
    (w.publish C n).tape = w.tape ∨ (w.publish C n).tape = w.tape ++ [.note n] := by
  unfold World.publish; split
  · exact Or.inl rfl
  · exact Or.inr rfl

theorem link_tape {S : Setup} {C : Client κ} {target r l} (h : linkOf S C target r = some l) (w : World κ) (p) :
    (l w p).2.1.node = p.node ∧
    ∃ own, (l w p).1.tape = w.tape ++ own ∧
      ((∀ ob ∈ own, ob = .note .wake ∨ ob = .note .sleep) ∨ (own = [.call p.node] ∧ (l w p).2.2.goesOn = false)) := by
  refine ⟨(link_hits h w p).1, ?_⟩
  have hchild : ∀ f (w : World κ) p, (childScheme S f w p).1.tape = w.tape := by
    intro f w p; unfold childScheme; split <;> rfl
  have hprim : ∀ P (w : World κ) p, (primaryScheme P w p).1.tape = w.tape := by
    intro P w p; unfold primaryScheme; cases P <;> simp only <;> repeat' split
    all_goals rfl
  have h0 : ∀ w' : World κ, w'.tape = w.tape → ∃ own, w'.tape = w.tape ++ own ∧
      ((∀ ob ∈ own, ob = .note .wake ∨ ob = .note .sleep) ∨ (own = [.call p.node] ∧ (l w p).2.2.goesOn = false)) :=
    fun w' e => ⟨[], by simp [e], Or.inl (by simp)⟩
  cases r <;> simp only [linkOf, Option.some.injEq, reduceCtorEq] at h <;> subst h
  · exact ⟨[.call p.node], rfl, Or.inr ⟨rfl, anchorLink_stops C w p⟩⟩
  · apply h0
    unfold filterLink
    by_cases hd : S.filter.dies p.node = true
    · rw [if_pos hd]
    rw [if_neg hd]
    unfold schemeLink
    rcases S.filter.primary with _ | P <;> rcases S.filter.child with _ | f <;> simp only
    · exact hchild f w p
    · exact hprim P w p
    · have h1 := hprim P w p
      rcases hP : primaryScheme P w p with ⟨w1, p1, t⟩
      rw [hP] at h1
      have h2 := hchild f w1 p1
      rcases hC : childScheme S f w1 p1 with ⟨w2, p2, t2⟩
      rw [hC] at h2
      simp only at h1 h2
      rcases t with ⟨_ | _, e⟩ | _ <;> simp only [hC]
      · exact h1
      · rcases t2 with ⟨_, e2⟩ | _ <;> exact h2.trans h1
      · exact h1
  · have hw := publish_tape C w .wake
    have hs := publish_tape C w .sleep
    unfold hiberLink
    by_cases hd : S.hiber.dies w.hib p.node = true
    · rw [if_pos hd]; exact ⟨[], by simp, Or.inl (by simp)⟩
    rw [if_neg hd]
    unfold hiberNext
    cases w.hib <;> simp only
    · exact ⟨[], by simp, Or.inl (by simp)⟩
    · split
      · rcases hw with h | h
        · exact ⟨[], by simp [h], Or.inl (by simp)⟩
        · exact ⟨[.note .wake], h, Or.inl (by simp)⟩
      · exact ⟨[], by simp, Or.inl (by simp)⟩
    · split
      · rcases hs with h | h
        · exact ⟨[], by simp [h], Or.inl (by simp)⟩
        · exact ⟨[.note .sleep], h, Or.inl (by simp)⟩
      · exact ⟨[], by simp, Or.inl (by simp)⟩
    · exact ⟨[], by simp, Or.inl (by simp)⟩
  · exact h0 _ rfl
  · apply h0; unfold nannyLink; split <;> rfl
  · apply h0; unfold fastwardLink; split <;> rfl

theorem iterate_tape (S : Setup) (C : Client κ) (target) (rs : List Role) : ∀ (w : World κ) p,
    ∃ own, (iterate (World.link S C target) rs w p).1.tape = w.tape ++ own ∧ OwnObs p.node own := by
  induction rs with
  | nil => intro w p; exact ⟨[], by simp [iterate], by simp [OwnObs]⟩
  | cons r rs ih =>
    intro w p
    simp only [iterate]
    rcases hk : World.link S C target w r with _ | l
    · exact ⟨[], by simp, by simp [OwnObs]⟩
    · have hof : linkOf S C target r = some l := by
        unfold World.link at hk; split at hk
        · exact hk
        · cases hk
      obtain ⟨hn, own, ht, hh⟩ := link_tape hof w p
      simp only
      rcases hlu : l w p with ⟨w1, p1, t⟩
      rw [hlu] at hn ht hh
      simp only at hn ht hh ⊢
      have hno : (∀ ob ∈ own, ob = Obs.note .wake ∨ ob = .note .sleep) → own.filter (fun ob => ob matches .call _) = [] := by
        intro h
        rw [List.filter_eq_nil_iff]
        intro ob hob
        rcases h ob hob with rfl | rfl <;> simp
      cases hg : t.goesOn with
      | false =>
        simp only [Bool.false_eq_true, if_false]
        refine ⟨own, ht, ?_⟩
        rcases hh with hh | ⟨rfl, -⟩
        · exact ⟨fun ob hob => Or.inr (hh ob hob), by rw [hno hh]; simp⟩
        · simp [OwnObs]
      | true =>
        simp only [if_true]
        have hh : ∀ ob ∈ own, ob = Obs.note .wake ∨ ob = .note .sleep := by
          rcases hh with hh | ⟨-, hh⟩
          · exact hh
          · rw [hg] at hh; cases hh
        obtain ⟨own2, h1, h2, h3⟩ := ih w1 p1
        refine ⟨own ++ own2, by rw [h1, ht, List.append_assoc], ?_, ?_⟩
        · intro ob hob
          rcases List.mem_append.1 hob with hob | hob
          · exact Or.inr (hh ob hob)
          · rw [← hn]; exact h2 ob hob
        · rw [List.filter_append, hno hh]; exact h3

theorem invoke_tape (S : Setup) (C : Client κ) (target) (w : World κ) (n : Node) :
    ∃ own, (World.invoke S C target w n).1.tape = w.tape ++ own ∧ OwnObs n own := by
  simp only [World.invoke]
  cases hp : w.guard.positions with
  | none => exact ⟨[.call n], rfl, by simp [OwnObs]⟩
  | some ps => exact iterate_tape S C target ps.list.2 { w with guard := { w.guard with positions := some ps.list.1 } } ⟨n, []⟩

/-- While Descend and Ascend are not muted, the tape shows what was recorded. -/
def TapeShown (t0 : List Obs) (s : St (World κ)) : Prop :=
  s.ext.loud .descend ∧ s.ext.loud .ascend ∧ ∃ t, s.ext.tape = t0 ++ t ∧ Shown s.log t

theorem tapeShown_preserved (S : Setup) (C : Client κ) (tree target : Path) (t0 : List Obs) : Preserved (S.env C tree target) (TapeShown t0) where
  descend s p d h := by
    refine ⟨(loud_preserved S C tree target .descend).descend s p d h.1, (loud_preserved S C tree target .ascend).descend s p d h.2.1, ?_⟩
    have h1 := h.1
    unfold World.loud at h1
    have : (s.doDescend (S.env C tree target) p d).ext.tape = s.ext.tape ++ [.note (.descend p d)] := by
      simp [St.doDescend, Setup.env, World.publish, Note.ev, h1]
    obtain ⟨t, ht, hs⟩ := h.2.2
    exact ⟨_, by rw [this, ht, List.append_assoc], hs.append (.one (.descend p d))⟩
  ascend s p d h := by
    refine ⟨(loud_preserved S C tree target .descend).ascend s p d h.1, (loud_preserved S C tree target .ascend).ascend s p d h.2.1, ?_⟩
    have h1 := h.2.1
    unfold World.loud at h1
    have : (s.doAscend (S.env C tree target) p d).ext.tape = s.ext.tape ++ [.note (.ascend p d)] := by
      simp [St.doAscend, Setup.env, World.publish, Note.ev, h1]
    obtain ⟨t, ht, hs⟩ := h.2.2
    exact ⟨_, by rw [this, ht, List.append_assoc], hs.append (.one (.ascend p d))⟩
  invoke s n h := by
    refine ⟨(loud_preserved S C tree target .descend).invoke s n h.1, (loud_preserved S C tree target .ascend).invoke s n h.2.1, ?_⟩
    obtain ⟨own, h1, h2, h3⟩ := invoke_tape S C target s.ext n
    obtain ⟨t, ht, hs⟩ := h.2.2
    refine ⟨t ++ own, ?_, hs.append (.one (.invoke n _ own h2 h3))⟩
    show (World.invoke S C target s.ext n).1.tape = _
    rw [h1, ht, List.append_assoc]
  ask s n re h := by
    refine ⟨h.1, h.2.1, ?_⟩
    obtain ⟨t, ht, hs⟩ := h.2.2
    have := hs.append (.one (.ask n re ((S.env C tree target).ask s.ext n re).2.1 ((S.env C tree target).ask s.ext n re).2.2))
    rw [List.append_nil] at this
    exact ⟨t, ht, this⟩
  rescue s n h := by
    refine ⟨h.1, h.2.1, ?_⟩
    obtain ⟨t, ht, hs⟩ := h.2.2
    have := hs.append (.one (.rescue n (periDepth s.depth) ((S.env C tree target).rescue s.ext n (periDepth s.depth)).2))
    rw [List.append_nil] at this
    exact ⟨t, ht, this⟩

theorem session_shown (S : Setup) (ho : S.Ordinary) (C : Client κ) (x : κ) (carried : Metrics) (target pre : Path) (fs : FS) :
    Shown (S.session C x carried target pre fs).2.log (S.session C x carried target pre fs).2.ext.tape := by
  have hm : ∀ e, (S.world x carried).muted e = false := by
    intro e; rcases ho with h | h <;> simp [Setup.world, h]
  have h0 : TapeShown [] (St.fresh (S.world x carried)) := ⟨hm _, hm _, [], rfl, Shown.nil⟩
  obtain ⟨t, ht, hs⟩ := (traverse_inv (tapeShown_preserved S C _ target []) S.nav _ [] pre _ h0).2.2
  rw [List.nil_append] at ht
  exact ht ▸ hs

end Traverse
