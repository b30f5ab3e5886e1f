import Verif.Spec.Fastward
import Verif.Proofs.Session3
namespace Traverse
variable {κ : Type}

/-- As many more calls on one side. -/
def Plus (d f : Nat) (m m' : Metrics) : Prop := ∀ j, m' j =
  match j with
  | .dirsInvoked => (m j).map (· + d)
  | .filesInvoked => (m j).map (· + f)
  | j => m j

theorem Plus.refl (m : Metrics) : Plus 0 0 m m := by intro j; cases j <;> simp

theorem Plus.less {d f m m'} (h : Plus d f m m') : m'.less d f = m := by
  funext j
  cases j <;> simp [Metrics.less, h _, Function.comp_def]

theorem Plus.times {d f m m'} (h : Plus d f m m') (k n) : Plus d f (m.times k n) (m'.times k n) := by
  intro j
  unfold Metrics.times
  by_cases hk : j = k
  · subst hk
    simp only [if_true, h j]
    cases j <;> simp [Function.comp_def, Nat.add_right_comm]
  · simp only [if_neg hk, h j]
    cases j <;> simp [hk]

theorem Plus.tick {d f m m'} (h : Plus d f m m') (k) : Plus d f (m.tick k) (m'.tick k) := h.times k 1

theorem Plus.dir {d f m m'} (h : Plus d f m m') : Plus (d + 1) f m (m'.tick .dirsInvoked) := by
  intro j
  unfold Metrics.tick Metrics.times
  by_cases hk : j = .dirsInvoked
  · subst hk
    simp only [if_true, h .dirsInvoked]
    simp [Function.comp_def, Nat.add_assoc]
  · simp only [if_neg hk, h j]
    cases j <;> simp at hk ⊢

theorem Plus.file {d f m m'} (h : Plus d f m m') : Plus d (f + 1) m (m'.tick .filesInvoked) := by
  intro j
  unfold Metrics.tick Metrics.times
  by_cases hk : j = .filesInvoked
  · subst hk
    simp only [if_true, h .filesInvoked]
    simp [Function.comp_def, Nat.add_assoc]
  · simp only [if_neg hk, h j]
    cases j <;> simp at hk ⊢

theorem Plus.persisted {d f m m'} (h : Plus d f m m') : m'.persisted.less d f = m.persisted := by
  funext j
  have := congrFun h.less j
  cases j <;> simp [Metrics.persisted, Metrics.less, h _, Function.comp_def] at this ⊢

theorem dropWhile_nil_of {α : Type} {P : α → Bool} {l : List α} (h : ∀ x ∈ l, P x = true) : l.dropWhile P = [] := by
  induction l with
  | nil => rfl
  | cons a as ih => rw [List.dropWhile_cons, if_pos (h a (by simp))]; exact ih (fun x hx => h x (by simp [hx]))

theorem dropWhile_snoc {α : Type} (P : α → Bool) (l : List α) (a : α) : (l ++ [a]).dropWhile P =
    if (∀ x ∈ l, P x = true) then (if P a then [] else [a]) else l.dropWhile P ++ [a] := by
  induction l with
  | nil => cases h : P a <;> simp [h]
  | cons b bs ih =>
    rw [List.cons_append, List.dropWhile_cons, List.dropWhile_cons]
    cases hb : P b with
    | false => simp [hb]
    | true =>
      simp only [if_true]
      rw [ih]
      simp [hb]

theorem fromCall_quiet {target : Path} {l : List Obs} (h : ∀ o ∈ l, (!o.callsAt target) = true) : fromCall target l = [] := by
  unfold fromCall; rw [dropWhile_nil_of h]; rfl

theorem fromCall_snoc (target : Path) (l : List Obs) (a : Obs) : fromCall target (l ++ [a]) =
    if (∀ o ∈ l, (!o.callsAt target) = true) then (if a.callsAt target then [a] else [])
    else fromCall target l ++ (if a.isWake then [] else [a]) := by
  unfold fromCall
  rw [dropWhile_snoc]
  split
  · cases a with
    | call n => by_cases h : n.path = target <;> simp [Obs.callsAt, Obs.isWake, h]
    | note n => simp [Obs.callsAt]
  · rw [List.filter_append]
    cases h : a.isWake <;> simp [h]

/-- What a handler call was about. -/
def Hit.gist (h : Hit) : Parcel × Reply := (h.parcel, h.reply)

/-- The same session as a first one. -/
def Setup.first (S : Setup) : Setup := { S with resume := none }

/-- The world of a fastward resume, and that of a first session with the dozing client. -/
structure Dozing (S : Setup) (target : Path) (fw : Bool) (w : World κ) (u : World (Doze κ)) : Prop where
  guard : GuardOK S fw w.guard
  guard' : ∃ f, GuardOK S.first f u.guard
  own : u.client.own = w.client
  awake : u.client.awake = !fw
  hib : u.hib = w.hib
  muted : ∀ e, w.muted e = (fw || decide (e = .wake))
  muted' : ∀ e, u.muted e = false
  metrics : Plus u.client.dirs u.client.files w.metrics u.metrics
  hits : w.hits.map Hit.gist = (u.hits.map Hit.gist).dropWhile (fun g => !decide (g.1.node.path = target))
  met : fw = true ↔ ∀ g ∈ u.hits.map Hit.gist, g.1.node.path ≠ target
  tape : w.tape = fromCall target u.tape
  quiet : fw = true ↔ ∀ o ∈ u.tape, (!o.callsAt target) = true

theorem Dozing.publish {S : Setup} {target fw} {w : World κ} {u} (h : Dozing S target fw w u) (C : Client κ) (n : Note) :
    Dozing S target fw (w.publish C n) (u.publish (C.dozing target) n) := by
  have hu : u.publish (C.dozing target) n =
      { u with client := (C.dozing target).listen u.client n, tape := u.tape ++ [.note n] } := by
    simp [World.publish, h.muted']
  rw [hu]
  have hsnoc : ∀ (l : List Obs) (n : Note), (∀ o ∈ l ++ [Obs.note n], (!o.callsAt target) = true) ↔ ∀ o ∈ l, (!o.callsAt target) = true := by
    intro l n
    constructor
    · intro h o ho; exact h o (by simp [ho])
    · intro h o ho
      rcases List.mem_append.1 ho with ho | ho
      · exact h o ho
      · simp only [List.mem_singleton] at ho; subst ho; rfl
  have hm := h.muted n.ev
  have ha := h.awake
  cases hc : (fw || decide (n.ev = .wake)) with
  | true =>
    rw [hc] at hm
    have hw : w.publish C n = w := by simp [World.publish, hm]
    have hl : (C.dozing target).listen u.client n = u.client := by
      have : (u.client.awake && !decide (n.ev = .wake)) = false := by
        rw [ha]; cases fw <;> simp_all
      simp only [Client.dozing, this]; rfl
    rw [hw, hl]
    refine ⟨h.guard, h.guard', h.own, h.awake, h.hib, h.muted, h.muted', h.metrics, h.hits, h.met, ?_, h.quiet.trans (hsnoc u.tape n).symm⟩
    show w.tape = fromCall target (u.tape ++ [.note n])
    rw [h.tape, fromCall_snoc]
    split
    · rename_i hq; rw [fromCall_quiet hq]; rfl
    · rename_i hq
      have hf : fw = false := by cases fw with | false => rfl | true => exact absurd (h.quiet.1 rfl) hq
      subst hf
      simp only [Bool.false_or] at hc
      simp [Obs.isWake, hc]
  | false =>
    rw [hc] at hm
    have hw : w.publish C n = { w with client := C.listen w.client n, tape := w.tape ++ [.note n] } := by simp [World.publish, hm]
    have hl : (C.dozing target).listen u.client n = { u.client with own := C.listen u.client.own n } := by
      have : (u.client.awake && !decide (n.ev = .wake)) = true := by
        rw [ha]; cases fw <;> simp_all
      simp only [Client.dozing, this, if_true]
    rw [hw, hl]
    refine ⟨h.guard, h.guard', by simp [h.own], h.awake, h.hib, h.muted, h.muted', h.metrics, h.hits, h.met, ?_, h.quiet.trans (hsnoc u.tape n).symm⟩
    show w.tape ++ [.note n] = fromCall target (u.tape ++ [.note n])
    have hf : fw = false := by cases fw with | false => rfl | true => simp at hc
    subst hf
    simp only [Bool.false_or] at hc
    rw [h.tape, fromCall_snoc, if_neg (fun hq => by simpa using h.quiet.2 hq)]
    simp [Obs.isWake, hc]

theorem Dozing.hiber {S : Setup} {target fw} {w : World κ} {u} (h : Dozing S target fw w u) (st : Hib) :
    Dozing S target fw { w with hib := st } { u with hib := st } :=
  ⟨h.guard, h.guard', h.own, h.awake, rfl, h.muted, h.muted', h.metrics, h.hits, h.met, h.tape, h.quiet⟩

theorem Dozing.stageH {S : Setup} {target fw} {w : World κ} {u} (h : Dozing S target fw w u) (C : Client κ) (p : Parcel) :
    Dozing S target fw (S.stageH C w p).1 (S.first.stageH (C.dozing target) u p).1 ∧
    (S.first.stageH (C.dozing target) u p).2 = (S.stageH C w p).2 := by
  unfold Setup.stageH
  show _ ∧ _
  have e : S.first.hiber = S.hiber := rfl
  rw [e]
  split
  · unfold hiberLink
    rw [h.hib]
    by_cases hd : S.hiber.dies w.hib p.node = true
    · simp only [if_pos hd]; exact ⟨h, trivial⟩
    simp only [if_neg hd]
    unfold hiberNext
    rw [h.hib]
    cases w.hib <;> simp only
    · exact ⟨h, trivial⟩
    · split
      · exact ⟨(h.publish C .wake).hiber .active, rfl⟩
      · exact ⟨h, rfl⟩
    · split
      · exact ⟨(h.publish C .sleep).hiber .retired, rfl⟩
      · exact ⟨h, rfl⟩
    · exact ⟨h, trivial⟩
  · exact ⟨h, rfl⟩

theorem Dozing.counts {S : Setup} {target fw} {w : World κ} {u} (h : Dozing S target fw w u) {m m'} (hm : Plus u.client.dirs u.client.files m m') :
    Dozing S target fw { w with metrics := m } { u with metrics := m' } :=
  ⟨h.guard, h.guard', h.own, h.awake, h.hib, h.muted, h.muted', hm, h.hits, h.met, h.tape, h.quiet⟩

theorem Dozing.childScheme {S : Setup} {target fw} {w : World κ} {u : World (Doze κ)} (h : Dozing S target fw w u) (f p) :
    Dozing S target fw (childScheme S f w p).1 (childScheme S.first f u p).1 ∧ (childScheme S.first f u p).2 = (childScheme S f w p).2 := by
  unfold Traverse.childScheme
  split
  · exact ⟨h, rfl⟩
  · exact ⟨h.counts ((h.metrics.times _ _).times _ _), rfl⟩

theorem Dozing.primaryScheme {S : Setup} {target fw} {w : World κ} {u : World (Doze κ)} (h : Dozing S target fw w u) (P p) :
    Dozing S target fw (primaryScheme P w p).1 (primaryScheme P u p).1 ∧ (primaryScheme P u p).2 = (primaryScheme P w p).2 := by
  unfold Traverse.primaryScheme
  cases P with
  | node f =>
    simp only
    split
    · exact ⟨h, trivial⟩
    · exact ⟨h.counts (h.metrics.tick _), trivial⟩
  | sample m =>
    simp only
    split
    · exact ⟨h, rfl⟩
    · split
      · exact ⟨h, rfl⟩
      · exact ⟨h.counts (h.metrics.times _ _), rfl⟩

theorem Dozing.stageF {S : Setup} {target fw} {w : World κ} {u : World (Doze κ)} (h : Dozing S target fw w u) (p : Parcel) :
    Dozing S target fw (S.stageF w p).1 (S.first.stageF u p).1 ∧ (S.first.stageF u p).2 = (S.stageF w p).2 := by
  unfold Setup.stageF
  have e : S.first.filter = S.filter := rfl
  have e2 : S.first.nannyOn = S.nannyOn := rfl
  rw [e, e2]
  split
  · unfold filterLink
    rw [e]
    by_cases hd : S.filter.dies p.node = true
    · simp only [if_pos hd]; exact ⟨h, trivial⟩
    simp only [if_neg hd]
    unfold schemeLink
    rw [e]
    rcases S.filter.primary with _ | P <;> rcases S.filter.child with _ | f <;> simp only
    · exact ⟨h, trivial⟩
    · exact h.childScheme f p
    · exact h.primaryScheme P p
    · have h1 := h.primaryScheme P p
      rcases hP : Traverse.primaryScheme P w p with ⟨w1, p1, t⟩
      rcases hP' : Traverse.primaryScheme P u p with ⟨u1, p1', t'⟩
      rw [hP, hP'] at h1
      simp only [Prod.mk.injEq] at h1
      obtain ⟨h1, rfl, rfl⟩ := h1
      have h2 := h1.childScheme f p1'
      rcases hC : Traverse.childScheme S f w1 p1' with ⟨w2, p2, t2⟩
      rcases hC' : Traverse.childScheme S.first f u1 p1' with ⟨u2, p2', t2'⟩
      rw [hC, hC'] at h2
      simp only [Prod.mk.injEq] at h2
      obtain ⟨h2, rfl, rfl⟩ := h2
      rcases t' with ⟨_ | _, e⟩ | _ <;> simp only [hC, hC']
      · exact ⟨h1, trivial⟩
      · rcases t2' with ⟨_, e2⟩ | _ <;> exact ⟨h2, rfl⟩
      · exact ⟨h1, trivial⟩
  · split
    · unfold nannyLink
      split
      · exact ⟨h, rfl⟩
      · exact ⟨h.counts (h.metrics.times _ _), rfl⟩
    · exact ⟨h, rfl⟩

theorem Dozing.noted {S : Setup} {target fw} {w : World κ} {u : World (Doze κ)} (h : Dozing S target fw w u) (n l l') :
    Dozing S target fw (w.noted n l) (u.noted n l') :=
  ⟨h.guard, h.guard', h.own, h.awake, h.hib, h.muted, h.muted', h.metrics, h.hits, h.met, h.tape, h.quiet⟩

theorem Dozing.touched {S : Setup} {target fw} {w : World κ} {u : World (Doze κ)} (h : Dozing S target fw w u) :
    Dozing S target fw w.touched u.touched :=
  ⟨h.guard.touched, h.guard'.imp (fun _ h => h.touched), h.own, h.awake, h.hib, h.muted, h.muted', h.metrics, h.hits, h.met, h.tape, h.quiet⟩

theorem dropWhile_nil {α : Type} {P : α → Bool} {l : List α} (h : l.dropWhile P = []) : ∀ x ∈ l, P x = true := by
  induction l with
  | nil => simp
  | cons a as ih =>
    rw [List.dropWhile_cons] at h
    split at h
    · rename_i ha
      intro x hx
      rcases List.mem_cons.1 hx with rfl | hx
      · exact ha
      · exact ih h x hx
    · cases h

/-- Asleep as long as nothing was called. -/
theorem Dozing.asleep {S : Setup} {target fw} {w : World κ} {u : World (Doze κ)} (h : Dozing S target fw w u) : w.hits.isEmpty = fw := by
  rw [Bool.eq_iff_iff, h.met, List.isEmpty_iff]
  have hh := h.hits
  constructor
  · intro e
    rw [e] at hh
    intro g hg
    simpa using dropWhile_nil hh.symm g hg
  · intro hall
    rw [dropWhile_nil_of (fun x hx => by simp [hall x hx])] at hh
    simpa using hh

/-- The nodes the fastward link judges by their path. -/
def Judged (target : Path) (n : Node) : Prop := fastwardMatch target n = some (decide (n.path = target))

theorem Dozing.last {S : Setup} (hres : S.resume = some .fastward) {target fw} {w : World κ} {u : World (Doze κ)} (h : Dozing S target fw w u) (C : Client κ) (p : Parcel)
    (hj : Judged target p.node) :
    ∃ fw',
    Dozing S target fw'
      (if (S.stageW fw target w p).2.2.goesOn then (anchorLink C (S.stageW fw target w p).1 (S.stageW fw target w p).2.1).1
        else (S.stageW fw target w p).1)
      (anchorLink (C.dozing target) u p).1 ∧
    (if (S.stageW fw target w p).2.2.goesOn then (anchorLink C (S.stageW fw target w p).1 (S.stageW fw target w p).2.1).2.2.reply
        else (S.stageW fw target w p).2.2.reply) = (anchorLink (C.dozing target) u p).2.2.reply := by
  have hreply : ∀ {κ : Type} (C : Client κ) (w : World κ) p, (anchorLink C w p).2.2.reply = (C.handler w.client p).2 := by
    intro κ C w p
    unfold anchorLink
    simp only
    cases (C.handler w.client p).2 <;> rfl
  -- the awake case, common to both
  have awake : ∀ (w' : World κ), w'.client = w.client → w'.hib = w.hib → w'.metrics = w.metrics → w'.hits = w.hits → w'.tape = w.tape →
      (∀ e, w'.muted e = decide (e = .wake)) → GuardOK S false w'.guard → (u.client.awake || decide (p.node.path = target)) = true →
      Dozing S target false (anchorLink C w' p).1 (anchorLink (C.dozing target) u p).1 ∧
      (anchorLink C w' p).2.2.reply = (anchorLink (C.dozing target) u p).2.2.reply := by
    intro w' e1 e2 e3 e4 e7 e5 e6 hc
    have hH : (C.dozing target).handler u.client p =
        ({ u.client with own := (C.handler w.client p).1, awake := true }, (C.handler w.client p).2) := by
      simp only [Client.dozing, hc, if_true, h.own]
    refine ⟨⟨e6, h.guard', ?_, ?_, ?_, ?_, h.muted', ?_, ?_, ?_, ?_, ?_⟩, ?_⟩
    · simp only [anchorLink, hH, e1]
    · simp only [anchorLink, hH, Bool.not_false]
    · simp only [anchorLink, h.hib, e2]
    · intro e; simp only [anchorLink, e5, Bool.false_or]
    · simp only [anchorLink, hH, e3]; exact h.metrics.tick _
    · simp only [anchorLink, hH, e1, e4, List.map_append, List.map_cons, List.map_nil]
      rw [dropWhile_snoc, h.hits]
      have : (⟨p, w'.metrics.tick (if p.node.isDir = true then Metric.dirsInvoked else Metric.filesInvoked), (C.handler w.client p).2⟩ : Hit).gist =
          (⟨p, u.metrics.tick (if p.node.isDir = true then Metric.dirsInvoked else Metric.filesInvoked), (C.handler w.client p).2⟩ : Hit).gist := rfl
      rw [this]
      by_cases hall : ∀ x ∈ List.map Hit.gist u.hits, (!decide (x.1.node.path = target)) = true
      · rw [if_pos hall]
        have hfw : fw = true := h.met.2 (fun g hg => by simpa using hall g hg)
        rw [h.awake, hfw] at hc
        simp at hc
        have hd : List.dropWhile (fun g : Parcel × Reply => !decide (g.1.node.path = target)) (List.map Hit.gist u.hits) = [] := by
          exact dropWhile_nil_of hall
        rw [hd]
        simp [Hit.gist, hc]
      · rw [if_neg hall]
    · simp only [Bool.false_eq_true, false_iff]
      intro hall
      simp only [anchorLink, hH, List.map_append, List.map_cons, List.map_nil, List.mem_append, List.mem_singleton] at hall
      have hpn := hall _ (Or.inr rfl)
      have hfw : fw = true := h.met.2 (fun g hg => hall g (Or.inl hg))
      rw [h.awake, hfw] at hc
      simp at hc
      exact hpn hc
    · show w'.tape ++ [.call p.node] = fromCall target (u.tape ++ [.call p.node])
      rw [e7, h.tape, fromCall_snoc]
      split
      · rename_i hq
        have hfw := h.quiet.2 hq
        rw [h.awake, hfw] at hc
        simp at hc
        rw [fromCall_quiet hq]
        simp [Obs.callsAt, hc]
      · rfl
    · simp only [Bool.false_eq_true, false_iff]
      intro hall
      have hpn := hall (.call p.node) (by simp [anchorLink])
      have hfw : fw = true := h.quiet.2 (fun o ho => hall o (by simp [anchorLink, ho]))
      rw [h.awake, hfw] at hc
      simp at hc
      simp [Obs.callsAt, hc] at hpn
    · rw [hreply, hreply, e1, hH]
  unfold Setup.stageW
  cases fw with
  | false =>
    simp only [Bool.false_and, Bool.false_eq_true, if_false, passOn_apply, goesOn_true, if_true]
    exact ⟨false, awake w rfl rfl rfl rfl rfl (fun e => by rw [h.muted]; simp) h.guard (by rw [h.awake]; rfl)⟩
  | true =>
    simp only [hres, decide_true, Bool.and_true, if_true, fastwardLink]
    rw [hj]
    by_cases hc : p.node.path = target
    · simp only [hc, decide_true, goesOn_true, if_true]
      refine ⟨false, awake _ rfl rfl rfl rfl rfl ?_ h.guard.unwind (by simp [hc])⟩
      intro e
      have := h.muted .wake
      cases e <;> simp [unmuteAll, h.muted]
    · simp only [hc, decide_false]
      have hH : (C.dozing target).handler u.client p = (if p.node.isDir then { u.client with dirs := u.client.dirs + 1 }
          else { u.client with files := u.client.files + 1 }, .ok none) := by
        simp [Client.dozing, hc, h.awake]
      have hg : Turn.goesOn (.go false none) = false := rfl
      simp only [hg, Bool.false_eq_true, if_false]
      refine ⟨true, ⟨h.guard, h.guard', ?_, ?_, h.hib, h.muted, h.muted', ?_, ?_, ?_, ?_, ?_⟩, ?_⟩
      · simp only [anchorLink, hH]; split <;> exact h.own
      · simp only [anchorLink, hH]; split <;> exact h.awake
      · simp only [anchorLink, hH]
        cases p.node.isDir
        · exact h.metrics.file
        · exact h.metrics.dir
      · simp only [anchorLink, List.map_append, List.map_cons, List.map_nil]
        rw [dropWhile_snoc, h.hits]
        have hall := h.met.1 rfl
        rw [if_pos (fun x hx => by simp [hall x hx])]
        rw [dropWhile_nil_of (fun x hx => by simp [hall x hx])]
        simp [Hit.gist, hc]
      · simp only [anchorLink, List.map_append, List.map_cons, List.map_nil, List.mem_append, List.mem_singleton, true_iff]
        rintro g (hg | rfl)
        · exact h.met.1 rfl g hg
        · exact hc
      · show w.tape = fromCall target (u.tape ++ [.call p.node])
        have hq := h.quiet.1 rfl
        rw [h.tape, fromCall_quiet hq, fromCall_snoc, if_pos hq]
        simp [Obs.callsAt, hc]
      · simp only [true_iff]
        intro o ho
        simp only [anchorLink, List.mem_append, List.mem_singleton] at ho
        rcases ho with ho | rfl
        · exact h.quiet.1 rfl o ho
        · simp [Obs.callsAt, hc]
      · rw [hreply, hH]; rfl

theorem Dozing.big {S : Setup} (hres : S.resume = some .fastward) {target fw} {w : World κ} {u : World (Doze κ)} (h : Dozing S target fw w u) (C : Client κ) (n : Node)
    (hj : Judged target n) (f : Bool) : ∃ fw', Dozing S target fw' (S.big C target fw w n).1 (S.first.big (C.dozing target) target f u n).1 ∧
      (S.big C target fw w n).2 = (S.first.big (C.dozing target) target f u n).2 := by
  unfold Setup.big
  obtain ⟨h1, h1'⟩ := h.stageH C ⟨n, []⟩
  have hp1 := (stageH_frame S C w ⟨n, []⟩).2
  rcases eH : S.stageH C w ⟨n, []⟩ with ⟨w1, p1, t1⟩
  rcases eH' : S.first.stageH (C.dozing target) u ⟨n, []⟩ with ⟨u1, p1', t1'⟩
  rw [eH, eH'] at h1 h1'
  rw [eH] at hp1
  simp only [Prod.mk.injEq] at h1' h1 hp1
  obtain ⟨rfl, rfl⟩ := h1'
  simp only
  cases g1 : t1'.goesOn
  · exact ⟨fw, h1.noted _ _ _, rfl⟩
  · simp only [Bool.not_true, Bool.false_eq_true, if_false]
    obtain ⟨h2, h2'⟩ := h1.stageF p1'
    have hp2 := (stageF_counts S w1 p1').2
    rcases eF : S.stageF w1 p1' with ⟨w2, p2, t2⟩
    rcases eF' : S.first.stageF u1 p1' with ⟨u2, p2', t2'⟩
    rw [eF, eF'] at h2 h2'
    rw [eF] at hp2
    simp only [Prod.mk.injEq] at h2' h2 hp2
    obtain ⟨rfl, rfl⟩ := h2'
    simp only
    cases g2 : t2'.goesOn
    · exact ⟨fw, h2.noted _ _ _, rfl⟩
    · simp only [Bool.not_true, Bool.false_eq_true, if_false]
      have hfirst : (S.first.stageW f target : Link (World (Doze κ))) = passOn := by
        simp [Setup.stageW, Setup.first]
      rw [hfirst]
      simp only [passOn_apply, goesOn_true, Bool.not_true, Bool.false_eq_true, if_false]
      have hjn : Judged target p2'.node := by rw [hp2, hp1]; exact hj
      obtain ⟨fw', h3, h3'⟩ := h2.last hres C p2' hjn
      rcases eW : S.stageW fw target w2 p2' with ⟨w3, p3, t3⟩
      rw [eW] at h3 h3'
      simp only at h3 h3' ⊢
      rcases eA : anchorLink (C.dozing target) u2 p2' with ⟨u4, p4, t4⟩
      rw [eA] at h3 h3'
      simp only at h3 h3' ⊢
      cases g3 : t3.goesOn
      · rw [g3] at h3 h3'
        simp only [Bool.false_eq_true, if_false] at h3 h3'
        exact ⟨fw', h3.noted _ _ _, h3'⟩
      · rw [g3] at h3 h3'
        simp only [if_true] at h3 h3'
        simp only [Bool.not_true, Bool.false_eq_true, if_false]
        exact ⟨fw', h3.noted _ _ _, h3'⟩

/-- The resume and the dozing session answer the navigator alike. -/
theorem dozing_sim {S : Setup} (hres : S.resume = some .fastward) (C : Client κ) (tree target target' : Path) :
    Sim (Judged target) (S.env C tree target) (S.first.env (C.dozing target) tree target')
      (fun w u => ∃ fw, Dozing S target fw w u) where
  descend := fun w u p d ⟨fw, h⟩ => ⟨fw, h.publish C _⟩
  ascend := fun w u p d ⟨fw, h⟩ => ⟨fw, h.publish C _⟩
  invoke := by
    rintro w u n hn ⟨fw, h⟩
    obtain ⟨f, hf⟩ := h.guard'
    have e1 := invoke_big (C := C) (target := target) h.guard n
    have e2 := invoke_big (C := C.dozing target) (target := target') hf n
    have hb : S.first.big (C.dozing target) target' f u.touched n = S.first.big (C.dozing target) target f u.touched n := by
      have : (S.first.stageW f target' : Link (World (Doze κ))) = S.first.stageW f target := by
        simp [Setup.stageW, Setup.first]
      unfold Setup.big
      rw [this]
    obtain ⟨fw', h1, h2⟩ := h.touched.big hres C n hn f
    show (World.invoke S C target w n).2 = _ ∧ ∃ fw, Dozing S target fw (World.invoke S C target w n).1 _
    rw [e1]
    simp only [Setup.env]
    rw [e2, hb]
    exact ⟨h2, fw', h1⟩
  ask := by
    rintro w u n re _ ⟨fw, h⟩
    have : (C.dozing target).skip u.client n re = ({ u.client with own := (C.skip w.client n re).1 }, (C.skip w.client n re).2) := by
      simp [Client.dozing, h.own]
    simp only [Setup.env, this]
    refine ⟨trivial, fw, ?_⟩
    exact ⟨h.guard, h.guard', rfl, h.awake, h.hib, h.muted, h.muted', h.metrics, h.hits, h.met, h.tape, h.quiet⟩
  rescue := by
    rintro w u n d ⟨fw, h⟩
    have : ∀ a : Active, a.metrics = w.metrics.persisted → (C.dozing target).panics u.client { a with metrics := u.metrics.persisted } =
        ({ u.client with own := (C.panics w.client a).1 }, (C.panics w.client a).2) := by
      intro a ha
      have hm := h.metrics.persisted
      simp only [Client.dozing, hm, h.own]
      rw [← ha]
    have hthis := this ⟨tree, S.nav.sub, .retired, n.path, n.isDir, d, w.metrics.persisted⟩ rfl
    simp only [Setup.env, Setup.first] at hthis ⊢
    rw [hthis]
    refine ⟨rfl, fw, ?_⟩
    exact ⟨h.guard, h.guard', rfl, h.awake, h.hib, h.muted, h.muted', h.metrics, h.hits, h.met, h.tape, h.quiet⟩

theorem dozing_start {S : Setup} (hres : S.resume = some .fastward) (target : Path) (x : κ) (carried : Metrics) :
    Dozing S target true (S.world x carried) (S.first.world ⟨x, false, 0, 0⟩ carried) where
  guard := guard_ok S
  guard' := ⟨true, guard_ok S.first⟩
  own := rfl
  awake := rfl
  hib := rfl
  muted e := by simp [Setup.world, hres]
  muted' e := by simp [Setup.world, Setup.first]
  metrics := by
    have : S.first.metrics = S.metrics := by
      unfold Setup.metrics
      have e : S.decorators = S.first.decorators := by
        simp [Setup.decorators, Setup.activeRoles, Setup.first, hres]
        rfl
      rw [e]
    simp only [Setup.world, this]
    exact Plus.refl _
  hits := rfl
  met := by simp [Setup.world]
  tape := rfl
  quiet := by simp [Setup.world]

theorem judged_kid (c : Nav) {target : Path} (ht : target.dropLast ≠ []) (q : NodeInfo) (ps : List NodeInfo) (t : Tree) (d : Int) :
    Judged target (mkNode c (q :: ps) (q.path ++ [t.name]) t d) := by
  have hne : target ≠ [] := by rintro rfl; exact ht rfl
  have hpar : (mkNode c (q :: ps) (q.path ++ [t.name]) t d).parent = some q := by
    simp only [Node.parent, mkNode_parents, List.head?_cons]
  have hname : (mkNode c (q :: ps) (q.path ++ [t.name]) t d).name = t.name := by simp [mkNode, NodeInfo.name]
  have key : t.name = target.getLast?.getD "" ∧ q.path = target.dropLast ↔ q.path ++ [t.name] = target := by
    rw [List.getLast?_eq_some_getLast hne]
    constructor
    · rintro ⟨h1, h2⟩
      rw [h1, h2]; exact List.dropLast_concat_getLast hne
    · rintro rfl
      simp
  unfold Judged fastwardMatch
  rw [hpar, hname, mkNode_path]
  simp only [ht, decide_false, Bool.or_false]
  split
  · rename_i hn
    congr 1
    rw [decide_eq_decide, ← key]
    simp [hn]
  · rename_i hn
    congr 1
    symm
    rw [decide_eq_false_iff_not, ← key]
    exact fun h => hn h.1

theorem judged_root (c : Nav) {target : Path} (pre : Path) (t : Tree) (hn : t.name ≠ target.getLast?.getD "") (d : Int) :
    Judged target (mkNode c [] (pre ++ [t.name]) t d) := by
  have hname : (mkNode c [] (pre ++ [t.name]) t d).name = t.name := by simp [mkNode, NodeInfo.name]
  unfold Judged fastwardMatch
  rw [hname, mkNode_path, if_neg hn]
  congr 1
  symm
  rw [decide_eq_false_iff_not]
  rintro rfl
  simp at hn

end Traverse
