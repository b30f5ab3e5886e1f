import Verif.Proofs.Sleep
import Verif.Proofs.Enumerate
/-
The same for the Files subscription (C26).
-/
namespace Traverse

/-- After a file, nothing more of its directory. -/
def Spent (l : List (Path × Bool)) : Prop := l.Pairwise fun x y => x.2 = false → ¬ x.1.dropLast <+: y.1

theorem enter_files (c : Nav) (env : Env σ) (n : Node) (re) (s : St σ) (hf : c.sub = .files) :
    (n.isDir = false → ∃ r, (enter c env n re s).2.log = s.log ++ [.invoke n r] ∧
      (r = .ok (some .skipAll) → (enter c env n re s).1 = .done (.ret false (some .skipAll))) ∧ (enter c env n re s).1 ≠ .travel) ∧
    (n.isDir = true → ∃ sk e, (enter c env n re s).2.log = s.log ++ [.ask n re sk e]) := by
  unfold enter
  rw [hf]
  constructor
  · intro h
    simp only [h, Bool.not_false, if_true]
    rcases hI : s.doInvoke env n with ⟨r, s1⟩
    have hl : s1.log = s.log ++ [.invoke n r] := by
      have : s1 = (s.doInvoke env n).2 := by rw [hI]
      have hr : r = (s.doInvoke env n).1 := by rw [hI]
      rw [this, hr]; rfl
    cases r with
    | panic => exact ⟨_, hl, by simp, by simp⟩
    | ok e => exact ⟨_, hl, by simp, by simp⟩
  · intro h
    simp only [h, Bool.not_true, Bool.false_eq_true, if_false]
    rcases hA : s.doAsk env n re with ⟨sk, e, s1⟩
    have hl : s1.log = s.log ++ [.ask n re sk e] := by
      have h1 : s1 = (s.doAsk env n re).2.2 := by rw [hA]
      have h2 : sk = (s.doAsk env n re).1 := by rw [hA]
      have h3 : e = (s.doAsk env n re).2.1 := by rw [hA]
      rw [h1, h2, h3]; rfl
    simp only
    repeat' split
    all_goals exact ⟨sk, e, hl⟩

/-- Below a directory: what is entered, and what every file that is entered uses up. -/
structure FileNap (p : Path) (v : List Ev) : Prop where
  within : ∀ q d, Ev.descend q d ∈ v → p <+: q
  files : ∀ q, Ev.descend q false ∈ v → p <+: q.dropLast
  refusing : Refusing v → Spent (v.filterMap Ev.entry)
  cut : ∀ v1 n r v2, v = v1 ++ .invoke n r :: v2 → Refusing v2 → Ev.descend n.path n.isDir ∈ v1 ∧ Spent (v2.filterMap Ev.entry)

theorem aside_entry {v : List Ev} (h : ∀ ev ∈ v, ev.aside = true) : v.filterMap Ev.entry = [] := by
  rw [List.filterMap_eq_nil_iff]
  intro ev hev
  have := h ev hev
  cases ev <;> simp_all [Ev.aside, Ev.entry]

theorem not_below_of_ne {pp : Path} {x y : String} (hxy : x ≠ y) {p q : Path} (hp : pp ++ [x] <+: p) (hq : pp ++ [y] <+: q) : ¬ p <+: q := by
  intro h
  have h1 : pp ++ [x] <+: q := hp.trans h
  have h2 := List.prefix_of_prefix_length_le h1 hq (by simp)
  have := h2.eq_of_length (by simp)
  simp at this
  exact hxy this

theorem traverse_files_nap (c : Nav) (env : Env σ) (hf : c.sub = .files) (t : Tree) : t.Distinct → ∀ ps pp (s : St σ),
    ∃ v, (traverse c env ps pp t s).2.log = s.log ++ v ∧ (∀ q d, Ev.descend q d ∈ v → pp ++ [t.name] <+: q) ∧
      (t.isDir = true → FileNap (pp ++ [t.name]) v) ∧
      (t.isDir = false → v = [] ∨ ∃ n r, v = [.descend (pp ++ [t.name]) false, .invoke n r, .ascend (pp ++ [t.name]) false] ∧
        n.path = pp ++ [t.name] ∧ n.isDir = false ∧
        (r = .ok (some .skipAll) → (traverse c env ps pp t s).1 = .ret false (some .skipAll))) := by
  induction t using Tree.ind with
  | h e re fs ds kids ih =>
    intro ⟨hnd, hdl⟩ ps pp s
    rw [Tree.distinctL_iff] at hdl
    have hloop : ∀ ks : List Tree, (∀ k ∈ ks, k ∈ kids) → (ks.map Tree.name).Nodup → ∀ ps pp (s : St σ),
        ∃ v, (travelLoop c env ps pp ks s).2.log = s.log ++ v ∧ FileNap pp v ∧ ∀ q d, Ev.descend q d ∈ v → ∃ k ∈ ks, pp ++ [k.name] <+: q := by
      intro ks
      induction ks with
      | nil =>
        intro _ _ ps pp s
        exact ⟨[], by simp [travelLoop], ⟨by simp, by simp, fun _ => by simp [Spent], by simp⟩, by simp⟩
      | cons k ks ihk =>
        intro hk hnodup ps pp s
        rw [List.map_cons, List.nodup_cons] at hnodup
        obtain ⟨vt, ht, hT1, hT2, hT3⟩ := ih k (hk k (by simp)) (hdl k (hk k (by simp))) ps pp s
        simp only [travelLoop]
        rcases hr : traverse c env ps pp k s with ⟨o, s1⟩
        rw [hr] at ht hT3
        simp only at ht hT3
        have hpart : FileNap pp vt := by
          cases hkd : k.isDir with
          | true =>
            obtain ⟨a1, a2, a3, a4⟩ := hT2 hkd
            exact ⟨fun q d h => (List.prefix_append _ _).trans (a1 q d h), fun q h => (List.prefix_append _ _).trans (a2 q h), a3, a4⟩
          | false =>
            rcases hT3 hkd with rfl | ⟨n, r, rfl, hn, hnd', -⟩
            · exact ⟨by simp, by simp, fun _ => by simp [Spent], by simp⟩
            · refine ⟨fun q d h => (List.prefix_append _ _).trans (hT1 q d h), ?_, ?_, ?_⟩
              · intro q hq; simp at hq; subst hq; rw [List.dropLast_concat]; exact List.prefix_refl _
              · intro _; exact List.pairwise_singleton _ _
              · intro v1 m r' v2 hv _
                match v1, hv with
                | [], hv => simp at hv
                | [_], hv =>
                  simp only [List.cons_append, List.nil_append, List.cons.injEq, Ev.invoke.injEq] at hv
                  obtain ⟨rfl, ⟨rfl, rfl⟩, rfl⟩ := hv
                  exact ⟨by simp [hn, hnd'], List.Pairwise.nil⟩
                | [_, _], hv => simp at hv
                | _ :: _ :: _ :: _, hv => simp at hv
        have hstop : ∃ v, s1.log = s.log ++ v ∧ FileNap pp v ∧ ∀ q d, Ev.descend q d ∈ v → ∃ k' ∈ k :: ks, pp ++ [k'.name] <+: q :=
          ⟨vt, ht, hpart, fun q d h => ⟨k, by simp, hT1 q d h⟩⟩
        -- going on with the rest: not after a file that was refused
        have hgo : (∀ e', o = .ret false (some e') → False) →
            ∃ v, (travelLoop c env ps pp ks s1).2.log = s.log ++ v ∧ FileNap pp v ∧ ∀ q d, Ev.descend q d ∈ v → ∃ k' ∈ k :: ks, pp ++ [k'.name] <+: q := by
          intro hno
          obtain ⟨vr, h1, ⟨b1, b2, b3, b4⟩, h3⟩ := ihk (fun x hx => hk x (by simp [hx])) hnodup.2 ps pp s1
          have hcross : k.isDir = true → ∀ x ∈ vt.filterMap Ev.entry, ∀ y ∈ vr.filterMap Ev.entry, x.2 = false → ¬ x.1.dropLast <+: y.1 := by
            rintro hkd ⟨p, d⟩ hx ⟨q, d'⟩ hy hxd
            simp only at hxd
            subst hxd
            obtain ⟨k', hk', hq⟩ := h3 q d' (mem_entry.1 hy)
            refine not_below_of_ne ?_ ((hT2 hkd).files p (mem_entry.1 hx)) hq
            intro he
            exact hnodup.1 (he ▸ List.mem_map_of_mem hk')
          refine ⟨vt ++ vr, by rw [h1, ht, List.append_assoc], ⟨?_, ?_, ?_, ?_⟩, ?_⟩
          · intro q d hq
            rcases List.mem_append.1 hq with hq | hq
            · exact hpart.within q d hq
            · exact b1 q d hq
          · intro q hq
            rcases List.mem_append.1 hq with hq | hq
            · exact hpart.files q hq
            · exact b2 q hq
          · intro hR
            obtain ⟨ra, rb⟩ := Refusing.append.1 hR
            rw [List.filterMap_append]
            cases hkd : k.isDir with
            | true => exact List.pairwise_append.2 ⟨hpart.refusing ra, b3 rb, hcross hkd⟩
            | false =>
              rcases hT3 hkd with rfl | ⟨n, r, rfl, -, -, hs⟩
              · simpa using b3 rb
              · have := hs (ra n r (by simp))
                exact absurd this (fun h => hno _ h)
          · intro v1 n r v2 hv hR
            rcases append_eq_split hv with ⟨w, hw, rfl⟩ | ⟨w, rfl, rfl⟩
            · obtain ⟨ra, rb⟩ := Refusing.append.1 hR
              obtain ⟨c1, c2⟩ := hpart.cut v1 n r w hw ra
              refine ⟨c1, ?_⟩
              rw [List.filterMap_append]
              cases hkd : k.isDir with
              | true =>
                refine List.pairwise_append.2 ⟨c2, b3 rb, fun x hx y hy => hcross hkd x ?_ y hy⟩
                rw [hw, List.filterMap_append]
                refine List.mem_append_right _ ?_
                rw [List.filterMap_cons]; exact hx
              | false =>
                have : w.filterMap Ev.entry = [] := by
                  rcases hT3 hkd with rfl | ⟨n', r', rfl, -, -, -⟩
                  · simp at hw
                  · match v1, hw with
                    | [], hw => simp at hw
                    | [_], hw =>
                      simp only [List.cons_append, List.nil_append, List.cons.injEq] at hw
                      obtain ⟨-, -, rfl⟩ := hw; rfl
                    | [_, _], hw => simp at hw
                    | _ :: _ :: _ :: _, hw => simp at hw
                rw [this, List.nil_append]; exact b3 rb
            · obtain ⟨c1, c2⟩ := b4 w n r v2 rfl hR
              exact ⟨by simp [c1], c2⟩
          · intro q d hq
            rcases List.mem_append.1 hq with hq | hq
            · exact ⟨k, by simp, hT1 q d hq⟩
            · obtain ⟨k', hk', h⟩ := h3 q d hq
              exact ⟨k', by simp [hk'], h⟩
        rcases o with ⟨p, e⟩ | _
        · cases p <;> cases e with
          | none => exact hgo (by simp)
          | some e => ?_
          · by_cases he : e.isSkipDir = true
            · simp only [he, if_true]; exact hstop
            · simp only [he]; exact hstop
          · by_cases he : e.isSkipDir = true
            · simp only [he, if_true]; exact hgo (by simp)
            · by_cases he' : e.isSkipAll = true
              · simp only [he, he', if_true]; exact hgo (by simp)
              · simp only [he, he']; exact hstop
        · exact hstop
    have hname : (Tree.node e re fs ds kids).name = e.name := rfl
    have hisd : (Tree.node e re fs ds kids).isDir = e.isDir := rfl
    rw [hname, hisd]
    simp only [traverse]
    by_cases hd : tooDeep c s.depth = true
    · simp only [hd, if_true]
      exact ⟨[], by simp, by simp, fun _ => ⟨by simp, by simp, fun _ => by simp [Spent], by simp⟩, fun _ => .inl rfl⟩
    · simp only [hd]
      have hn1 : ∀ d, (mkNode c ps (pp ++ [e.name]) (.node e re fs ds kids) d).path = pp ++ [e.name] := fun _ => rfl
      have hn2 : ∀ d, (mkNode c ps (pp ++ [e.name]) (.node e re fs ds kids) d).isDir = e.isDir := fun _ => rfl
      generalize mkNode c ps (pp ++ [e.name]) (.node e re fs ds kids) = mk at hn1 hn2 ⊢
      generalize hs1 : s.doDescend env (pp ++ [e.name]) e.isDir = s1
      have hl1 : s1.log = s.log ++ [.descend (pp ++ [e.name]) e.isDir] := by rw [← hs1]; rfl
      generalize hn : mk s1.depth = n
      have hnp : n.path = pp ++ [e.name] := by rw [← hn, hn1]
      have hnd : n.isDir = e.isDir := by rw [← hn, hn2]
      obtain ⟨hE1, hE2⟩ := enter_files c env n (readErrOf c (.node e re fs ds kids)) s1 hf
      rcases hE : enter c env n (readErrOf c (.node e re fs ds kids)) s1 with ⟨a, s2⟩
      rw [hE] at hE1 hE2
      simp only at hE1 hE2
      cases hed : e.isDir with
      | false =>
        obtain ⟨r, h1, h2, h3⟩ := hE1 (by rw [hnd, hed])
        cases a with
        | travel => exact absurd rfl h3
        | done o =>
          simp only [if_false, Bool.false_eq_true]
          refine ⟨[.descend (pp ++ [e.name]) false, .invoke n r, .ascend (pp ++ [e.name]) false], ?_, ?_, (fun h => absurd h (by simp)),
            (fun _ => Or.inr ⟨n, r, rfl, hnp, by rw [hnd, hed], fun hr => ?_⟩)⟩
          · simp [St.doAscend, h1, hl1, hed]
          · intro q d hq; simp at hq; rw [hq.1]; exact List.prefix_refl _
          · have := h2 hr; cases this; rfl
      | true =>
        obtain ⟨sk, ae, h1⟩ := hE2 (by rw [hnd, hed])
        -- the record of a directory: its own, its entries, its end
        have hdir : ∀ vl tail, (∀ ev ∈ tail, ev.aside = true) → FileNap (pp ++ [e.name]) vl →
            FileNap (pp ++ [e.name]) (.descend (pp ++ [e.name]) true :: .ask n (readErrOf c (.node e re fs ds kids)) sk ae :: (vl ++ tail)) := by
          intro vl tail htail ⟨b1, b2, b3, b4⟩
          have htd : ∀ q d, Ev.descend q d ∉ tail := by intro q d h; have := htail _ h; simp [Ev.aside] at this
          have hti : ∀ q d, Ev.invoke q d ∉ tail := by intro q d h; have := htail _ h; simp [Ev.aside] at this
          have hte := aside_entry htail
          refine ⟨?_, ?_, ?_, ?_⟩
          · intro q d hq
            simp only [List.mem_cons, List.mem_append, Ev.descend.injEq, reduceCtorEq, false_or] at hq
            rcases hq with ⟨rfl, -⟩ | hq | hq
            · exact List.prefix_refl _
            · exact b1 q d hq
            · exact absurd hq (htd q d)
          · intro q hq
            simp only [List.mem_cons, List.mem_append, Ev.descend.injEq, reduceCtorEq, false_or, and_false, Bool.false_eq_true] at hq
            rcases hq with hq | hq
            · exact b2 q hq
            · exact absurd hq (htd q _)
          · intro hR
            have hRv : Refusing vl := fun n' r' hm => hR n' r' (by simp [hm])
            simp only [List.filterMap_cons, Ev.entry, List.filterMap_append, hte, List.append_nil]
            refine List.pairwise_cons.2 ⟨by simp, b3 hRv⟩
          · intro v1 m r' v2 hv hR
            match v1, hv with
            | [], hv => simp at hv
            | [_], hv => simp at hv
            | x :: y :: v1, hv =>
              simp only [List.cons_append, List.cons.injEq] at hv
              obtain ⟨rfl, rfl, hv⟩ := hv
              rcases append_eq_split hv with ⟨w, rfl, rfl⟩ | ⟨w, rfl, rfl⟩
              · obtain ⟨c1, c2⟩ := b4 v1 m r' w rfl (Refusing.append.1 hR).1
                exact ⟨by simp [c1], by rw [List.filterMap_append, hte, List.append_nil]; exact c2⟩
              · exact absurd (by simp) (hti m r')
        cases a with
        | done o =>
          refine ⟨.descend (pp ++ [e.name]) true :: .ask n (readErrOf c (.node e re fs ds kids)) sk ae :: ([] ++ [.ascend (pp ++ [e.name]) true]), ?_, ?_,
            fun _ => hdir [] _ (by simp [Ev.aside]) ⟨by simp, by simp, fun _ => by simp [Spent], by simp⟩, fun h => by cases h⟩
          · simp [St.doAscend, h1, hl1, hed]
          · intro q d hq; simp at hq; rw [hq.1]; exact List.prefix_refl _
        | travel =>
          obtain ⟨vl, l1, l2, -⟩ := hloop kids (fun _ h => h) ‹_› (n.toNodeInfo :: ps) (pp ++ [e.name]) s2
          simp only [if_false, Bool.false_eq_true]
          rcases hL : travelLoop c env (n.toNodeInfo :: ps) (pp ++ [e.name]) kids s2 with ⟨o, s3⟩
          rw [hL] at l1
          simp only at l1
          obtain ⟨vr, r1, r2⟩ := recoverIn_log env n.toNodeInfo o s3
          have hN := hdir vl (vr ++ [.ascend (pp ++ [e.name]) true]) (by
            intro ev hev
            rcases List.mem_append.1 hev with h | h
            · exact r2 ev h
            · simp at h; subst h; rfl) l2
          refine ⟨_, ?_, hN.within, fun _ => hN, fun h => by cases h⟩
          simp [St.doAscend, r1, l1, h1, hl1, hed]

/-- What is still seen of a Files session after its Sleep event. -/
theorem session_files_nap {S : Setup} (ho : S.Ordinary) (hs : S.Sane) (hf : S.nav.sub = .files) (hsort : SortPermutes S.nav)
    (hread : ReadSelects S.nav) (C : Client κ) (x : κ) (carried : Metrics) (target pre : Path) (fs : FS) (hd : fs.Distinct)
    (a b : List Obs) (hab : (S.session C x carried target pre fs).2.ext.tape = a ++ .note .sleep :: b) :
    ∃ n, S.hiber.sleep n = true ∧ (n.path, n.isDir) ∈ entries a ∧
      handed b = (if S.hiber.inclusiveSleep && S.accepts n then [n] else []) ∧ Spent (entries b) := by
  obtain ⟨-, l1, n, r, l2, e1, e2, e3, e4, e5, e6⟩ := (napSeen_session ho hs C x carried target pre fs).nap a b hab
  obtain ⟨v, hv, -, hD, hF⟩ := traverse_files_nap S.nav (S.env C (pre ++ [fs.name]) target) hf (prep S.nav fs)
    (prep_distinct _ hsort hread fs hd) [] pre (St.fresh (S.world x carried))
  have hv' : (S.session C x carried target pre fs).2.log = v := by
    have : (S.session C x carried target pre fs).2.log = [] ++ v := hv
    simpa using this
  rw [← hv', e1] at hD hF
  have : Ev.descend n.path n.isDir ∈ l1 ∧ Spent (l2.filterMap Ev.entry) := by
    cases hk : (prep S.nav fs).isDir with
    | true => exact (hD hk).cut l1 n r l2 rfl e3
    | false =>
      rcases hF hk with h | ⟨n', r', h, h1, h2, -⟩
      · simp at h
      · match l1, h with
        | [], h => simp at h
        | [_], h =>
          simp only [List.cons_append, List.nil_append, List.cons.injEq, Ev.invoke.injEq] at h
          obtain ⟨rfl, ⟨rfl, rfl⟩, rfl⟩ := h
          exact ⟨by simp [h1, h2], List.Pairwise.nil⟩
        | [_, _], h => simp at h
        | _ :: _ :: _ :: _, h => simp at h
  exact ⟨n, e2, by rw [e6]; exact mem_entry.2 this.1, e4, by rw [e5]; exact this.2⟩

end Traverse
