import Verif.Proofs.Session3
import Verif.Spec.Nap
/-
What the navigator still enters once every further call of the chain answers SkipAll (C26).
-/
namespace Traverse

/-- Every call of the chain in this record answered SkipAll. -/
def Refusing (v : List Ev) : Prop := ∀ n r, Ev.invoke n r ∈ v → r = .ok (some .skipAll)

theorem Refusing.append {a b : List Ev} : Refusing (a ++ b) ↔ Refusing a ∧ Refusing b := by
  constructor
  · intro h; exact ⟨fun n r hm => h n r (by simp [hm]), fun n r hm => h n r (by simp [hm])⟩
  · rintro ⟨h1, h2⟩ n r hm
    rcases List.mem_append.1 hm with h | h
    · exact h1 n r h
    · exact h2 n r h

/-- Records of neither calls of the chain nor Descend events. -/
def Ev.aside : Ev → Bool
  | .invoke _ _ => false
  | .descend _ _ => false
  | _ => true

theorem enter_calls (c : Nav) (env : Env σ) (n : Node) (re) (s : St σ) (hf : c.sub ≠ .files) :
    ∃ r asks, (enter c env n re s).2.log = s.log ++ [.invoke n r] ++ asks ∧ (∀ ev ∈ asks, ev.aside = true) ∧
      ((enter c env n re s).1 = .travel → r = .ok none) ∧
      (r = .ok (some .skipAll) → (enter c env n re s).1 = .done (.ret true (some .skipAll))) := by
  unfold enter
  rcases hI : s.doInvoke env n with ⟨r, s1⟩
  have hl : s1.log = s.log ++ [.invoke n r] := by
    have : s1 = (s.doInvoke env n).2 := by rw [hI]
    have hr : r = (s.doInvoke env n).1 := by rw [hI]
    rw [this, hr]; rfl
  have hask : ∀ sk e s2, s1.doAsk env n re = (sk, e, s2) → s2.log = s1.log ++ [.ask n re sk e] := by
    intro sk e s2 h
    have h1 : s2 = (s1.doAsk env n re).2.2 := by rw [h]
    have h2 : sk = (s1.doAsk env n re).1 := by rw [h]
    have h3 : e = (s1.doAsk env n re).2.1 := by rw [h]
    rw [h1, h2, h3]; rfl
  rcases hA : s1.doAsk env n re with ⟨sk, e, s2⟩
  have hl2 := hask _ _ _ hA
  refine ⟨r, ?_⟩
  cases hs : c.sub with
  | files => exact absurd hs hf
  | _ =>
    simp only
    cases r with
    | panic => exact ⟨[], by simp [hl], by simp, by simp, by simp⟩
    | ok o =>
      cases o with
      | some e' => exact ⟨[], by simp [hl], by simp, by simp, by simp⟩
      | none =>
        simp only [hA]
        repeat' split
        all_goals exact ⟨[.ask n re sk e], by simp [hl2, hl], by simp [Ev.aside], by simp, by simp⟩

theorem recoverIn_log (env : Env σ) (cur : NodeInfo) (o : Out) (s : St σ) :
    ∃ v, (recoverIn env cur (o, s)).2.log = s.log ++ v ∧ ∀ ev ∈ v, ev.aside = true := by
  cases o with
  | panic => exact ⟨_, rfl, by simp [Ev.aside]⟩
  | ret p e => exact ⟨[], by simp [recoverIn], by simp⟩

theorem Refusing.aside {v : List Ev} (h : ∀ ev ∈ v, ev.aside = true) : Refusing v := by
  intro n r hm; have := h _ hm; simp [Ev.aside] at this

/-- What `v`, the record of a visit of the node at `p`, says: while every call answers SkipAll, nothing but the node is entered; and
from any call on after which every call answers SkipAll, only what is directly in directories that contain the called node. -/
def NapOf (p : Path) (o : Out) (v : List Ev) : Prop :=
  (Refusing v → (o = .ret true none ∨ o = .ret true (some .skipAll)) ∧ ∀ q d, Ev.descend q d ∈ v → q = p) ∧
  ∀ v1 n r v2, v = v1 ++ .invoke n r :: v2 → Refusing v2 →
    p <+: n.path ∧ Ev.descend n.path n.isDir ∈ v1 ∧ ∀ q d, Ev.descend q d ∈ v2 → q.dropLast <+: n.path

/-- The same for the entries of the directory at `p`. -/
def NapIn (p : Path) (o : Out) (v : List Ev) : Prop :=
  (Refusing v → o = .ret true none ∧ ∀ q d, Ev.descend q d ∈ v → ∃ x, q = p ++ [x]) ∧
  ∀ v1 n r v2, v = v1 ++ .invoke n r :: v2 → Refusing v2 →
    p <+: n.path ∧ Ev.descend n.path n.isDir ∈ v1 ∧ ∀ q d, Ev.descend q d ∈ v2 → q.dropLast <+: n.path

/-- Where an element of a concatenation is. -/
theorem append_eq_split {α} {a b v1 : List α} {x : α} {v2 : List α} (h : a ++ b = v1 ++ x :: v2) :
    (∃ w, a = v1 ++ x :: w ∧ v2 = w ++ b) ∨ (∃ w, b = w ++ x :: v2 ∧ v1 = a ++ w) := by
  rcases List.append_eq_append_iff.1 h with ⟨w, h1, h2⟩ | ⟨w, h1, h2⟩
  · exact .inr ⟨w, h2, h1⟩
  · cases w with
    | nil => simp only [List.nil_append] at h2; exact .inr ⟨[], by simp [h2], by simpa using h1.symm⟩
    | cons y w =>
      simp only [List.cons_append, List.cons.injEq] at h2
      obtain ⟨rfl, rfl⟩ := h2
      exact .inl ⟨w, h1, rfl⟩

theorem napOf_cut {p : Path} {n : Node} {r : Reply} {d : Bool} {asks vl tail : List Ev} {o : Out} (hnp : n.path = p) (hnd : n.isDir = d)
    (ha : ∀ ev ∈ asks, ev.aside = true) (ht : ∀ ev ∈ tail, ev.aside = true) (hl : NapIn p o vl) :
    ∀ v1 m r' v2, .descend p d :: .invoke n r :: (asks ++ (vl ++ tail)) = v1 ++ .invoke m r' :: v2 → Refusing v2 →
      p <+: m.path ∧ Ev.descend m.path m.isDir ∈ v1 ∧ ∀ q d, Ev.descend q d ∈ v2 → q.dropLast <+: m.path := by
  have hda : ∀ (l : List Ev), (∀ ev ∈ l, ev.aside = true) → ∀ q d, Ev.descend q d ∉ l := by
    intro l h q d hm; have := h _ hm; simp [Ev.aside] at this
  have hia : ∀ (l : List Ev), (∀ ev ∈ l, ev.aside = true) → ∀ q d, Ev.invoke q d ∉ l := by
    intro l h q d hm; have := h _ hm; simp [Ev.aside] at this
  intro v1 m r' v2 hv hR
  cases v1 with
  | nil => simp at hv
  | cons x v1 =>
    simp only [List.cons_append, List.cons.injEq] at hv
    obtain ⟨rfl, hv⟩ := hv
    cases v1 with
    | nil =>
      simp only [List.nil_append, List.cons.injEq, Ev.invoke.injEq] at hv
      obtain ⟨⟨rfl, rfl⟩, rfl⟩ := hv
      refine ⟨by rw [hnp]; exact List.prefix_refl _, by simp [hnp, hnd], fun q d hq => ?_⟩
      rcases List.mem_append.1 hq with hq | hq
      · exact absurd hq (hda _ ha q d)
      rcases List.mem_append.1 hq with hq | hq
      · obtain ⟨x, rfl⟩ := (hl.1 (Refusing.append.1 (Refusing.append.1 hR).2).1).2 q d hq
        rw [List.dropLast_concat, hnp]; exact List.prefix_refl _
      · exact absurd hq (hda _ ht q d)
    | cons y v1 =>
      simp only [List.cons_append, List.cons.injEq] at hv
      obtain ⟨rfl, hv⟩ := hv
      rcases append_eq_split hv with ⟨w, rfl, rfl⟩ | ⟨w, hw, rfl⟩
      · exact absurd (by simp) (hia _ ha m r')
      rcases append_eq_split hw with ⟨w', rfl, rfl⟩ | ⟨w', rfl, rfl⟩
      · obtain ⟨a1, a2, a3⟩ := hl.2 w m r' w' rfl (Refusing.append.1 hR).1
        refine ⟨a1, by simp [a2], fun q d hq => ?_⟩
        rcases List.mem_append.1 hq with hq | hq
        · exact a3 q d hq
        · exact absurd hq (hda _ ht q d)
      · exact absurd (by simp) (hia _ ht m r')

theorem traverse_nap (c : Nav) (env : Env σ) (hf : c.sub ≠ .files) (t : Tree) : ∀ ps pp (s : St σ),
    ∃ v, (traverse c env ps pp t s).2.log = s.log ++ v ∧ NapOf (pp ++ [t.name]) (traverse c env ps pp t s).1 v := by
  induction t using Tree.ind with
  | h e re fs ds kids ih =>
    intro ps pp s
    have hloop : ∀ ks : List Tree, (∀ k ∈ ks, k ∈ kids) → ∀ ps pp (s : St σ),
        ∃ v, (travelLoop c env ps pp ks s).2.log = s.log ++ v ∧ NapIn pp (travelLoop c env ps pp ks s).1 v := by
      intro ks
      induction ks with
      | nil => intro _ ps pp s; exact ⟨[], by simp [travelLoop], by simp [NapIn, travelLoop]⟩
      | cons k ks ihk =>
        intro hk ps pp s
        obtain ⟨vt, ht, hT1, hT2⟩ := ih k (hk k (by simp)) ps pp s
        simp only [travelLoop]
        rcases hr : traverse c env ps pp k s with ⟨o, s1⟩
        rw [hr] at ht hT1
        simp only at ht hT1
        -- going on with the rest
        have hgo : ∃ v, (travelLoop c env ps pp ks s1).2.log = s.log ++ v ∧ NapIn pp (travelLoop c env ps pp ks s1).1 v := by
          obtain ⟨vr, h1, h2, h3⟩ := ihk (fun x hx => hk x (by simp [hx])) ps pp s1
          refine ⟨vt ++ vr, by rw [h1, ht, List.append_assoc], fun hR => ?_, fun v1 n r v2 hv hR => ?_⟩
          · obtain ⟨ra, rb⟩ := Refusing.append.1 hR
            refine ⟨(h2 rb).1, fun q d hq => ?_⟩
            rcases List.mem_append.1 hq with hq | hq
            · exact ⟨_, (hT1 ra).2 q d hq⟩
            · exact (h2 rb).2 q d hq
          · rcases append_eq_split hv with ⟨w, rfl, rfl⟩ | ⟨w, rfl, rfl⟩
            · obtain ⟨ra, rb⟩ := Refusing.append.1 hR
              obtain ⟨a1, a2, a3⟩ := hT2 v1 n r w rfl ra
              have hpp : pp <+: n.path := (List.prefix_append _ _).trans a1
              refine ⟨hpp, a2, fun q d hq => ?_⟩
              rcases List.mem_append.1 hq with hq | hq
              · exact a3 q d hq
              · obtain ⟨x, rfl⟩ := (h2 rb).2 q d hq
                rw [List.dropLast_concat]; exact hpp
            · obtain ⟨a1, a2, a3⟩ := h3 w n r v2 rfl hR
              exact ⟨a1, by simp [a2], a3⟩
        -- stopping here
        have hstop : ∀ o', (o ≠ .ret true none ∧ o ≠ .ret true (some .skipAll)) →
            ∃ v, s1.log = s.log ++ v ∧ NapIn pp o' v := by
          intro o' hne
          refine ⟨vt, ht, fun hR => ?_, fun v1 n r v2 hv hR => ?_⟩
          · rcases (hT1 hR).1 with h | h
            · exact absurd h hne.1
            · exact absurd h hne.2
          · obtain ⟨a1, a2, a3⟩ := hT2 v1 n r v2 hv hR
            exact ⟨(List.prefix_append _ _).trans a1, a2, a3⟩
        rcases o with ⟨p, e⟩ | _
        · cases p <;> cases e with
          | none => first | exact hgo
          | some e => ?_
          · by_cases he : e.isSkipDir = true
            · simp only [he, if_true]; exact hstop _ (by simp)
            · simp only [he]; exact hstop _ (by simp)
          · by_cases he : e.isSkipDir = true
            · simp only [he, if_true]; exact hgo
            · by_cases he' : e.isSkipAll = true
              · simp only [he, he', if_true]; exact hgo
              · simp only [he, he']
                refine hstop _ ⟨by simp, ?_⟩
                intro h
                simp only [Out.ret.injEq, Option.some.injEq, true_and] at h
                subst h
                exact he' rfl
        · exact hstop _ (by simp)
    simp only [traverse]
    by_cases hd : tooDeep c s.depth = true
    · simp only [hd, if_true]
      exact ⟨[], by simp, by simp [NapOf]⟩
    · simp only [hd]
      have hn1 : ∀ d, (mkNode c ps (pp ++ [e.name]) (.node e re fs ds kids) d).path = pp ++ [e.name] := fun _ => rfl
      have hn2 : ∀ d, (mkNode c ps (pp ++ [e.name]) (.node e re fs ds kids) d).isDir = e.isDir := fun _ => rfl
      generalize mkNode c ps (pp ++ [e.name]) (.node e re fs ds kids) = mk at hn1 hn2 ⊢
      generalize hs1 : s.doDescend env (pp ++ [e.name]) e.isDir = s1
      have hl1 : s1.log = s.log ++ [.descend (pp ++ [e.name]) e.isDir] := by rw [← hs1]; rfl
      generalize hn : mk s1.depth = n
      have hnp : n.path = pp ++ [e.name] := by rw [← hn, hn1]
      have hnd : n.isDir = e.isDir := by rw [← hn, hn2]
      obtain ⟨r, asks, h1, h2, h3, h4⟩ := enter_calls c env n (readErrOf c (.node e re fs ds kids)) s1 hf
      rcases hE : enter c env n (readErrOf c (.node e re fs ds kids)) s1 with ⟨a, s2⟩
      rw [hE] at h1 h3 h4
      simp only at h1 h3 h4
      have hRa : Refusing asks := Refusing.aside h2
      have hda : ∀ q d, Ev.descend q d ∉ asks := by intro q d hm; have := h2 _ hm; simp [Ev.aside] at this
      have hname : (Tree.node e re fs ds kids).name = e.name := rfl
      rw [hname]
      cases a with
      | done o =>
        refine ⟨.descend (pp ++ [e.name]) e.isDir :: .invoke n r :: (asks ++ ([] ++ [.ascend (pp ++ [e.name]) e.isDir])), ?_, ?_, ?_⟩
        · simp [St.doAscend, h1, hl1]
        · intro hR
          have : r = .ok (some .skipAll) := hR n r (by simp)
          have := h4 this
          cases this
          refine ⟨.inr rfl, fun q d hq => ?_⟩
          simp only [List.mem_append, List.mem_cons, List.not_mem_nil, or_false, reduceCtorEq, false_or] at hq
          rcases hq with hq | hq
          · cases hq; rfl
          · exact absurd hq (hda q d)
        · exact napOf_cut (o := .ret true none) hnp hnd h2 (by simp [Ev.aside]) (by simp [NapIn])
      | travel =>
        obtain ⟨vl, l1, l2⟩ := hloop kids (fun _ h => h) (n.toNodeInfo :: ps) (pp ++ [e.name]) s2
        simp only [if_false, Bool.false_eq_true]
        rcases hL : travelLoop c env (n.toNodeInfo :: ps) (pp ++ [e.name]) kids s2 with ⟨o, s3⟩
        rw [hL] at l1 l2
        simp only at l1 l2
        obtain ⟨vr, r1, r2⟩ := recoverIn_log env n.toNodeInfo o s3
        refine ⟨.descend (pp ++ [e.name]) e.isDir :: .invoke n r :: (asks ++ (vl ++ (vr ++ [.ascend (pp ++ [e.name]) e.isDir]))), ?_, ?_, ?_⟩
        · simp [St.doAscend, r1, l1, h1, hl1]
        · intro hR
          have : r = .ok (some .skipAll) := hR n r (by simp)
          rw [h3 rfl] at this; cases this
        · refine napOf_cut hnp hnd h2 ?_ l2
          intro ev hev
          rcases List.mem_append.1 hev with h | h
          · exact r2 ev h
          · simp at h; subst h; rfl

/-- A Descend event of the record. -/
def Ev.entry : Ev → Option (Path × Bool)
  | .descend p d => some (p, d)
  | _ => none

theorem mem_entry {v : List Ev} {q d} : (q, d) ∈ v.filterMap Ev.entry ↔ Ev.descend q d ∈ v := by
  simp only [List.mem_filterMap]
  constructor
  · rintro ⟨ev, hev, h⟩
    cases ev <;> simp [Ev.entry] at h
    obtain ⟨rfl, rfl⟩ := h; exact hev
  · intro h; exact ⟨_, h, rfl⟩

/-- What the tape shows of a Sleep event and of what comes after it. -/
structure NapSeen (S : Setup) (s : St (World κ)) : Prop where
  entered : entries s.ext.tape = s.log.filterMap Ev.entry
  nap : ∀ a b, s.ext.tape = a ++ .note .sleep :: b → S.hibOf s.ext = .retired ∧
    ∃ l1 n r l2, s.log = l1 ++ .invoke n r :: l2 ∧ S.hiber.sleep n = true ∧ Refusing l2 ∧
      handed b = (if S.hiber.inclusiveSleep && S.accepts n then [n] else []) ∧
      entries b = l2.filterMap Ev.entry ∧ entries a = l1.filterMap Ev.entry

theorem append_eq_cons_last {α} {t a b : List α} {x y : α} (hxy : y ≠ x) (h : t ++ [y] = a ++ x :: b) : ∃ b', b = b' ++ [y] ∧ t = a ++ x :: b' := by
  rcases append_eq_split h with ⟨w, rfl, rfl⟩ | ⟨w, hw, rfl⟩
  · exact ⟨w, rfl, rfl⟩
  · cases w with
    | nil => simp at hw; exact absurd hw.1 hxy
    | cons z w => simp at hw

/-- A step that publishes or records something else than a call of the chain. -/
theorem NapSeen.step {S : Setup} {s s' : St (World κ)} (h : NapSeen S s) (obs : List Obs) (ev : Ev) (ht : s'.ext.tape = s.ext.tape ++ obs)
    (hl : s'.log = s.log ++ [ev]) (hh : S.hibOf s'.ext = S.hibOf s.ext) (hobs : obs.length ≤ 1) (hns : Obs.note .sleep ∉ obs)
    (hcall : handed obs = []) (hent : entries obs = [ev].filterMap Ev.entry) (hinv : ∀ n r, ev ≠ .invoke n r) : NapSeen S s' := by
  refine ⟨?_, fun a b hab => ?_⟩
  · rw [ht, hl, entries, List.filterMap_append, List.filterMap_append]
    rw [show List.filterMap Obs.entry s.ext.tape = _ from h.entered, show List.filterMap Obs.entry obs = _ from hent]
  · have : ∃ b', b = b' ++ obs ∧ s.ext.tape = a ++ .note .sleep :: b' := by
      rw [ht] at hab
      match obs, hobs with
      | [], _ => exact ⟨b, by simp, by simpa using hab⟩
      | [y], _ => exact append_eq_cons_last (by intro h; exact hns (by simp [h])) hab
    obtain ⟨b', rfl, hab'⟩ := this
    obtain ⟨n1, l1, n, r, l2, e1, e2, e3, e4, e5, e6⟩ := h.nap a b' hab'
    refine ⟨by rw [hh]; exact n1, l1, n, r, l2 ++ [ev], by rw [hl, e1]; simp, e2, ?_, ?_, ?_, e6⟩
    · refine Refusing.append.2 ⟨e3, ?_⟩
      intro n' r' hm; simp only [List.mem_cons, List.not_mem_nil, or_false] at hm; exact absurd hm.symm (hinv _ _)
    · have : handed (b' ++ obs) = handed b' ++ handed obs := List.filterMap_append
      rw [this, hcall, List.append_nil, e4]
    · have : entries (b' ++ obs) = entries b' ++ entries obs := List.filterMap_append
      rw [this, e5, hent, List.filterMap_append]

theorem napSeen_session {S : Setup} (ho : S.Ordinary) (hs : S.Sane) (C : Client κ) (x : κ) (carried : Metrics) (target pre : Path) (fs : FS) :
    NapSeen S (S.session C x carried target pre fs).2 := by
  have hp : PreservedOn (GoodNode S.nav) (S.env C (pre ++ [fs.name]) target) (fun s => PlainInv S carried s ∧ NapSeen S s) := by
    refine (plainInv_preserved S ho hs C carried _ target).with ?_ ?_ ?_ ?_ ?_
    · intro s p d hI h
      have hm := hI.muted .descend
      refine h.step [.note (.descend p d)] (.descend p d) ?_ rfl ?_ (by simp) (by simp) rfl rfl (by simp)
      · simp [St.doDescend, Setup.env, World.publish, Note.ev, hm]
      · simp [St.doDescend, Setup.env, World.publish, Note.ev, hm, Setup.hibOf]
    · intro s p d hI h
      have hm := hI.muted .ascend
      refine h.step [.note (.ascend p d)] (.ascend p d) ?_ rfl ?_ (by simp) (by simp) rfl rfl (by simp)
      · simp [St.doAscend, Setup.env, World.publish, Note.ev, hm]
      · simp [St.doAscend, Setup.env, World.publish, Note.ev, hm, Setup.hibOf]
    · intro s n hn hI h
      obtain ⟨hp, _⟩ := doInvoke_plain (C := C) (tree := pre ++ [fs.name]) (target := target) hI ho hs n hn
      generalize hr' : (s.doInvoke (S.env C (pre ++ [fs.name]) target) n).1 = rep at hp
      have hl : (s.doInvoke (S.env C (pre ++ [fs.name]) target) n).2.log = s.log ++ [.invoke n rep] := by rw [← hr']; rfl
      generalize (s.doInvoke (S.env C (pre ++ [fs.name]) target) n).2 = s' at hp hl ⊢
      have ht := hp.tape
      have hent : entries s'.ext.tape = entries s.ext.tape := by
        rw [ht]
        simp only [entries, List.filterMap_append]
        have h1 : (hibNote S.hiber (S.hibOf s.ext) n).filterMap Obs.entry = [] := by
          unfold hibNote
          cases S.hibOf s.ext <;> simp only <;> (try split) <;> rfl
        have h2 : (if (S.awake s.ext n && S.accepts n) = true then [Obs.call n] else []).filterMap Obs.entry = [] := by
          split <;> rfl
        rw [h1, h2, List.append_nil, List.append_nil]
      refine ⟨by rw [hent, h.entered, hl, List.filterMap_append]; simp [Ev.entry], fun a b hab => ?_⟩
      rw [ht, List.append_assoc] at hab
      rcases append_eq_split hab with ⟨w, hw, rfl⟩ | ⟨w, hw, rfl⟩
      · obtain ⟨n1, l1, m, r, l2, e1, e2, e3, e4, e5, e6⟩ := h.nap a w hw
        have haw : S.awake s.ext n = false := by unfold Setup.awake; rw [n1]; rfl
        have hno : hibNote S.hiber (S.hibOf s.ext) n = [] := by rw [n1]; rfl
        have hrep := hp.slept haw
        rw [if_pos n1] at hrep
        rw [hno, haw]
        simp only [Bool.false_and, Bool.false_eq_true, if_false, List.append_nil]
        refine ⟨by rw [hp.hib, n1]; rfl, l1, m, r, l2 ++ [.invoke n rep], by rw [hl, e1]; simp, e2, ?_, e4, ?_, e6⟩
        · refine Refusing.append.2 ⟨e3, ?_⟩
          intro n' r' hm; simp at hm; obtain ⟨-, rfl⟩ := hm; exact hrep
        · rw [e5, List.filterMap_append]; simp [Ev.entry]
      · -- the Sleep event is of this step
        have hcall : ∀ ob ∈ (if (S.awake s.ext n && S.accepts n) = true then [Obs.call n] else []), ob = .call n := by
          intro ob hob; split at hob <;> simp_all
        have hact : S.hibOf s.ext = .active ∧ S.hiber.sleep n = true := by
          have hmem : Obs.note .sleep ∈ hibNote S.hiber (S.hibOf s.ext) n ++ (if (S.awake s.ext n && S.accepts n) = true then [Obs.call n] else []) := by
            rw [hw]; simp
          rcases List.mem_append.1 hmem with hm | hm
          · unfold hibNote at hm
            cases hx : S.hibOf s.ext with
            | pending => rw [hx] at hm; simp only at hm; split at hm <;> simp at hm
            | active => rw [hx] at hm; simp only at hm; split at hm <;> simp_all
            | retired => rw [hx] at hm; simp at hm
            | undefined => rw [hx] at hm; simp at hm
          · have := hcall _ hm; cases this
        obtain ⟨hst, hsl⟩ := hact
        have hno : hibNote S.hiber (S.hibOf s.ext) n = [.note .sleep] := by rw [hst]; simp [hibNote, hsl]
        have haw : S.awake s.ext n = S.hiber.inclusiveSleep := by unfold Setup.awake; rw [hst]; simp [hibStep, hsl]
        rw [hno] at hw
        have hb : w = [] ∧ b = (if (S.awake s.ext n && S.accepts n) = true then [Obs.call n] else []) := by
          cases w with
          | nil =>
            simp only [List.cons_append, List.nil_append, List.cons.injEq, true_and] at hw
            exact ⟨rfl, hw.symm⟩
          | cons y w =>
            simp only [List.cons_append, List.nil_append, List.cons.injEq] at hw
            have := hcall (.note .sleep) (by rw [hw.2]; simp)
            cases this
        obtain ⟨rfl, rfl⟩ := hb
        refine ⟨by rw [hp.hib, hst]; simp [hibStep, hsl], s.log, n, rep, [], by rw [hl], hsl, ?_, ?_, ?_, ?_⟩
        · intro _ _ h; simp at h
        · rw [haw]; split <;> rfl
        · split <;> rfl
        · rw [List.append_nil]; exact h.entered
    · intro s n re hn hI h
      exact h.step [] (.ask n re _ _) (by rw [List.append_nil]; rfl) rfl rfl (by simp) (by simp) rfl rfl (by simp)
    · intro s n hI h
      exact h.step [] (.rescue n _ _) (by rw [List.append_nil]; rfl) rfl rfl (by simp) (by simp) rfl rfl (by simp)
  refine (traverse_invOn hp S.nav (fun ps path t d => mkNode_good S.nav ps path t d) _ [] pre _ ⟨plainInv_start S ho x carried, ?_, ?_⟩).2
  · rfl
  · intro a b h; simp [St.fresh, Setup.world] at h

/-- What is still seen of a session after its Sleep event, for the subscriptions other than Files. -/
theorem session_nap {S : Setup} (ho : S.Ordinary) (hs : S.Sane) (hf : S.nav.sub ≠ .files) (C : Client κ) (x : κ) (carried : Metrics)
    (target pre : Path) (fs : FS) (a b : List Obs) (hab : (S.session C x carried target pre fs).2.ext.tape = a ++ .note .sleep :: b) :
    ∃ n, S.hiber.sleep n = true ∧ (n.path, n.isDir) ∈ entries a ∧
      handed b = (if S.hiber.inclusiveSleep && S.accepts n then [n] else []) ∧ ∀ e ∈ entries b, e.1.dropLast <+: n.path := by
  obtain ⟨-, l1, n, r, l2, e1, e2, e3, e4, e5, e6⟩ := (napSeen_session ho hs C x carried target pre fs).nap a b hab
  obtain ⟨v, hv, -, hc⟩ := traverse_nap S.nav (S.env C (pre ++ [fs.name]) target) hf (prep S.nav fs) [] pre (St.fresh (S.world x carried))
  have hv' : (S.session C x carried target pre fs).2.log = v := by
    have : (S.session C x carried target pre fs).2.log = [] ++ v := hv
    simpa using this
  obtain ⟨-, c2, c3⟩ := hc l1 n r l2 (by rw [← hv', e1]) e3
  refine ⟨n, e2, by rw [e6]; exact mem_entry.2 c2, e4, ?_⟩
  rintro ⟨q, d⟩ hq
  rw [e5] at hq
  exact c3 q d (mem_entry.1 hq)

end Traverse
