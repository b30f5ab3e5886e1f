import Verif.Spec.Sink
import Verif.Props.Resumed
/-
C75: what the client's sink is handed.
-/
namespace Traverse
variable {κ : Type}

/-! ### The named filters are the filters -/

theorem namedNative_filter (E : Engine) (d : FilterCore) : (namedNative E d).map (Option.map FilterSeen.filter) = buildNative E d := by
  unfold namedNative
  rcases buildNative E d with (_ | f) | e | _ <;> rfl

theorem namedConstituent_filter (E : Engine) (fo : FilterOptions) (d : FilterCore) :
    (namedConstituent E fo d).map FilterSeen.filter = buildConstituent E fo d := by
  unfold namedConstituent buildConstituent
  rcases fo.custom with _ | c
  · simp only [namedNative]
    rcases buildNative E d with (_ | f) | e | _ <;> rfl
  · rcases hv : c.validate with _ | e <;> simp only [hv] <;> rfl

theorem namedPoly_filter (E : Engine) (d : FilterDef) (fo : FilterOptions) :
    (namedPoly E d fo).map (Option.map FilterSeen.filter) = buildPoly E d fo := by
  unfold namedPoly buildPoly
  split
  · rfl
  · rcases fo.node.bind FilterDef.poly with _ | ⟨f, g⟩
    · rfl
    · simp only
      split
      · rfl
      · rw [← namedConstituent_filter, ← namedConstituent_filter]
        rcases namedConstituent E fo (f.core.narrow Scope.file Scope.directory) with a | e | _
        · by_cases hg : g.core.type = .poly
          · simp only [Made.map, if_pos hg]
          · simp only [Made.map, if_neg hg]
            rcases namedConstituent E fo (g.core.narrow Scope.directory Scope.file) with b | e | _ <;> rfl
        · rfl
        · rfl

theorem namedFilter_filter (E : Engine) (d : FilterDef) (fo : FilterOptions) :
    (namedFilter E d fo).map (Option.map FilterSeen.filter) = newFilter E d fo := by
  unfold namedFilter newFilter
  rw [← namedPoly_filter]
  rcases namedPoly E d fo with (_ | f) | e | _ <;> simp only [Made.map, Option.map]
  rcases fo.custom with _ | c
  · exact namedNative_filter E d.core
  · rfl

/-! ### What they say -/

theorem namedNative_face {E : Engine} {d : FilterCore} {n : FilterSeen} (h : namedNative E d = .ok (some n)) : n.face = d.tells := by
  unfold namedNative buildNative at h
  have hv : ∀ b : FBase, b.validate.pattern = b.pattern ∧ b.validate.scope = (if b.scope = Scope.undefined then Scope.all else b.scope) := by
    intro b; unfold FBase.validate; split <;> simp_all
  cases ht : d.type <;> simp only [ht] at h
  · cases h
  · rcases hs : splitGlobExPattern d.pattern with ⟨s, ps⟩ | e | _ <;> rw [hs] at h
    · dsimp only at h
      rcases hq : newSpec E (splitGlob E s).1 (splitGlob E s).2 ps with e | g <;> rw [hq] at h
      · cases h
      · injection h with h; injection h with h
        subst h
        simp only [Filter.native, FilterCore.tells, ht, hv]
        rfl
    · cases h
    · cases h
  · split at h
    · injection h with h; injection h with h
      subst h
      simp [Filter.native, FilterCore.tells, ht, hv]
    · cases h
  · injection h with h; injection h with h
    subst h
    simp [Filter.native, FilterCore.tells, ht, hv]
  · cases h
  · cases h

theorem narrow_swap (s own other : Scope) (h : own &&& ~~~other = own) : (s.set own).clear other = (s &&& ~~~other) ||| own := by
  unfold Scope.set Scope.clear
  rw [BitVec.and_comm, BitVec.and_or_distrib_left]
  rw [BitVec.and_comm, BitVec.and_comm (~~~other) own, h]

theorem narrow_tells (c : FilterCore) (own other : Scope) (h : own &&& ~~~other = own) (h0 : own ≠ 0#32) :
    (c.narrow own other).tells = ⟨c.description, c.pattern, c.polyScope own other⟩ := by
  simp only [FilterCore.tells, FilterCore.narrow, FilterCore.polyScope, narrow_swap _ _ _ h]
  by_cases hg : c.type = .globEx
  · simp [hg]
  · simp only [if_neg hg]
    rw [if_neg]
    intro h1
    apply h0
    have h2 : ((c.scope &&& ~~~other) ||| own) &&& own = own := by
      rw [BitVec.and_comm]
      ext i
      simp only [BitVec.getElem_and, BitVec.getElem_or]
      cases own[i] <;> simp
    rw [h1] at h2
    simpa [Scope.undefined] using h2.symm

theorem namedConstituent_face {E : Engine} {fo : FilterOptions} {d : FilterCore} {n : FilterSeen} (hc : fo.custom = none)
    (h : namedConstituent E fo d = .ok n) : n.face = d.tells := by
  unfold namedConstituent at h
  simp only [hc] at h
  rcases hn : namedNative E d with (_ | f) | e | _ <;> simp only [hn] at h
  · cases h
  · injection h with h; subst h
    exact namedNative_face hn
  · cases h
  · cases h

theorem namedFilter_face {E : Engine} {d : FilterDef} {fo : FilterOptions} {n : FilterSeen} (hc : fo.custom = none) (hd : fo.node = some d)
    (h : namedFilter E d fo = .ok (some n)) : n.face = d.tells := by
  unfold namedFilter at h
  rcases hp : namedPoly E d fo with (_ | f) | e | _ <;> simp only [hp, hc] at h
  · have hnp : d.core.type ≠ .poly := by
      intro ht
      unfold namedPoly at hp
      simp only [ht, ne_eq, not_true_eq_false, if_false] at hp
      split at hp
      · cases hp
      · split at hp
        · cases hp
        · split at hp
          · cases hp
          · cases hp
          · split at hp
            · cases hp
            · split at hp <;> cases hp
    rw [namedNative_face h]
    rcases d with c | ⟨c, f, g⟩
    · rfl
    · have hnp' : c.type ≠ .poly := hnp
      simp only [FilterDef.tells, if_neg hnp']; rfl
  · injection h with h; injection h with h; subst h
    unfold namedPoly at hp
    split at hp
    · cases hp
    · rename_i ht
      rcases d with c | ⟨c, f, g⟩
      · simp only [hd, Option.bind, FilterDef.poly] at hp; cases hp
      · simp only [hd, Option.bind, FilterDef.poly] at hp
        split at hp
        · cases hp
        · split at hp
          · cases hp
          · cases hp
          · rename_i ff hf
            split at hp
            · cases hp
            · split at hp
              · cases hp
              · cases hp
              · rename_i fd hg
                injection hp with hp; injection hp with hp; subst hp
                have ht' : c.type = .poly := by simpa [FilterDef.core] using ht
                simp only [FilterDef.tells, if_pos ht', polyFace, namedConstituent_face hc hf, namedConstituent_face hc hg,
                  narrow_tells _ Scope.file Scope.directory (by decide) (by decide),
                  narrow_tells _ Scope.directory Scope.file (by decide) (by decide)]
  · cases h
  · cases h

/-! ### What is handed over -/

theorem sunkChild_handed {E : Engine} {o : Options κ} {c} (h : createChild E o = .ok c) :
    (∀ d, o.filter.child = some d → d.pattern ≠ "" →
      ∃ k, sunkChild E o = [{ child := some k }] ∧ k.description = d.description ∧ k.source = d.pattern ∧ c = some k.keeps) ∧
    ((∀ d, o.filter.child = some d → d.pattern = "") → sunkChild E o = []) := by
  unfold createChild at h
  refine ⟨fun d hd hp => ?_, fun hno => ?_⟩
  · simp only [hd] at h
    rw [if_pos (by simpa using hp)] at h
    rcases hn : newChild E d with (_ | f) | e | _ <;> simp only [hn] at h
    · cases h
    · injection h with h; subst h
      refine ⟨⟨f, d.description, d.pattern⟩, ?_, rfl, rfl, rfl⟩
      simp [sunkChild, hd, hp, namedChild, hn, Made.map]
    · cases h
    · cases h
  · unfold sunkChild
    split
    · rfl
    · rename_i d hd
      simp [hno d hd]

theorem createPrimary_filter {E : Engine} {o o1 : Options κ} {p} (h : createPrimary E o = .ok (p, o1)) :
    o1.filter = o.filter ∧ o1.sink = o.sink := by
  unfold createPrimary at h
  split at h
  · split at h <;> cases h
    exact ⟨rfl, rfl⟩
  · split at h
    · split at h
      · cases h
      · split at h <;> cases h
        exact ⟨rfl, rfl⟩
    · split at h
      · split at h <;> cases h
        exact ⟨rfl, rfl⟩
      · cases h; exact ⟨rfl, rfl⟩

theorem createChild_congr {E : Engine} {o o1 : Options κ} (h : o1.filter = o.filter) : createChild E o1 = createChild E o := by
  unfold createChild; rw [h]

theorem register_handed {E : Engine} {o o1 : Options κ} {f : FilterOpts} (h : registerFilter E o = .ok (f, o1)) :
    Handed E o.filter f (sunk E o) ∧ o1.filter = o.filter ∧ o1.sink = o.sink := by
  unfold registerFilter at h
  rcases hp : createPrimary E o with ⟨p, o'⟩ | e | _ <;> simp only [hp] at h
  · have hf := createPrimary_filter hp
    rw [createChild_congr hf.1] at h
    rcases hc : createChild E o with c | e | _ <;> simp only [hc] at h
    · injection h with h; injection h with h1 h2
      subst h1; subst h2
      refine ⟨⟨?_⟩, hf⟩
      obtain ⟨hc1, hc2⟩ := sunkChild_handed hc
      unfold createPrimary at hp
      unfold sunk
      rcases hcu : o.filter.custom with _ | cu
      · simp only [hcu] at hp ⊢
        by_cases ha : o.filter.nodeActive = true
        · rw [if_pos ha] at hp ⊢
          rcases hd : o.filter.node with _ | d
          · simp [FilterOptions.nodeActive, hd] at ha
          · simp only [hd] at hp ⊢
            have hn := namedFilter_filter E d o.filter
            rcases hg : newFilter E d o.filter with (_ | g) | e | _ <;> simp only [hg] at hp
            · cases hp
            · rw [hg] at hn
              injection hp with hp; injection hp with hp1 hp2
              rcases hm : namedFilter E d o.filter with (_ | n) | e | _ <;> simp only [hm, Made.map, Option.map] at hn
              · cases hn
              · injection hn with hn; injection hn with hn
                subst hn
                subst hp1
                refine ⟨[{ node := some n }], sunkChild E o, rfl, fun d' _ hd' _ => ?_, fun hno => ?_, hc1, hc2⟩
                · injection hd' with hd'; subst hd'
                  refine ⟨n, n.filter.predicate E, rfl, namedFilter_face hcu hd hm, rfl, fun v => ?_, fun v => ?_⟩
                  · simp only [Filter.predicate]
                    cases n.filter.isMatch E v.view <;> simp
                  · simp [Filter.dies]
                · have := hno d trivial rfl
                  simp [FilterOptions.nodeActive, hd, this] at ha
              · cases hn
              · cases hn
            · cases hp
            · cases hp
        · have hne : ∀ d, o.filter.node = some d → d.core.pattern = "" ∧ d.poly = none := by
            intro d hd
            simpa [FilterOptions.nodeActive, hd] using ha
          rw [if_neg ha] at hp ⊢
          have hin : ∀ l, l = sunkChild E o → ∃ nodes children, l = nodes ++ children ∧
              (∀ d, True → o.filter.node = some d → d.core.pattern ≠ "" ∨ d.poly.isSome = true →
                ∃ n pred, nodes = [{ node := some n }] ∧ n.face = d.tells ∧ p.map Prod.fst = some (.node pred) ∧
                  (∀ v, pred v = true ↔ n.filter.isMatch E v.view = some true) ∧
                  (∀ v, (p.map Prod.snd).getD (fun _ => false) v = true ↔ n.filter.isMatch E v.view = none)) ∧
              ((∀ d, True → o.filter.node = some d → d.core.pattern = "" ∧ d.poly = none) → nodes = []) ∧
              (∀ d, o.filter.child = some d → d.pattern ≠ "" →
                ∃ k, children = [{ child := some k }] ∧ k.description = d.description ∧ k.source = d.pattern ∧ c = some k.keeps) ∧
              ((∀ d, o.filter.child = some d → d.pattern = "") → children = []) := by
            intro l hl
            refine ⟨[], sunkChild E o, hl, fun d' _ hd' hx => ?_, fun _ => rfl, hc1, hc2⟩
            obtain ⟨h1, h2⟩ := hne d' hd'
            simp [h1, h2] at hx
          apply hin
          split at hp
          · rename_i hs
            rw [if_pos hs]
            split at hp
            · rename_i m hm; simp [hm]
            · cases hp
            · cases hp
            · cases hp
          · rename_i hs; rw [if_neg hs]
      · simp only [hcu] at hp ⊢
        rcases hvv : cu.validate with _ | e <;> simp only [hvv] at hp ⊢
        · refine ⟨[], sunkChild E o, by simp, fun d' h' => by simp at h', fun _ => rfl, hc1, hc2⟩
        · cases hp
    · cases h
    · cases h
  · cases h
  · cases h

theorem rest_handed {P : Platform κ} {sub res S} {o o2 : Options κ} (h : buildRest P sub res o = .ready S o2) (k : Nat) (hk : o2.sink = some k) :
    ∃ replies, sinkRest P.engine sub o = replies.map (fun r => (k, r)) ∧ Handed P.engine o2.filter S.filter replies := by
  unfold buildRest at h
  split at h
  · cases h
  rename_i hne
  split at h
  · cases h
  · cases h
  rename_i f o1 hr
  split at h
  · cases h
  · cases h
  injection h with h1 h2
  obtain ⟨hh, hf, hs⟩ := register_handed hr
  have e1 : o2.filter = o1.filter := by rw [← h2]; unfold initSampling; split <;> rfl
  have e2 : o2.sink = o1.sink := by rw [← h2]; unfold initSampling; split <;> rfl
  refine ⟨sunk P.engine o, ?_, ?_⟩
  · unfold sinkRest
    rw [if_neg hne]
    have : o.sink = some k := by rw [← hs, ← e2, hk]
    simp only [this]
  · rw [e1, hf, ← h1]
    exact hh

theorem namedFilter_applies {E : Engine} {d : FilterDef} {fo : FilterOptions} {n : FilterSeen} (hc : fo.custom = none) (hd : fo.node = some d)
    (h : namedFilter E d fo = .ok (some n)) (v : View) :
    (d.core.type = .glob ∨ d.core.type = .regex → (n.filter.applies E v = true ↔ d.tells.scope &&& v.scope ≠ 0#32)) ∧
    (∀ c f g, d = .both c f g → c.type = .poly → f.core.type = .glob ∨ f.core.type = .regex →
      (n.filter.applies E v = true ↔ v.isDir = false ∧ f.core.polyScope Scope.file Scope.directory &&& v.scope ≠ 0#32)) := by
  have native : ∀ (c : FilterCore) (m : FilterSeen), namedNative E c = .ok (some m) → c.type = .glob ∨ c.type = .regex →
      (m.filter.applies E v = true ↔ c.tells.scope &&& v.scope ≠ 0#32) := by
    intro c m hm ht
    have hf := namedNative_face hm
    have : m.face.scope = c.tells.scope := by rw [hf]
    rw [← this]
    unfold namedNative buildNative at hm
    rcases ht with ht | ht <;> simp only [ht] at hm
    · injection hm with hm; injection hm with hm; subst hm
      simp [Filter.applies, FBase.isApplicable, Filter.native]
    · split at hm
      · injection hm with hm; injection hm with hm; subst hm
        simp [Filter.applies, FBase.isApplicable, Filter.native]
      · cases hm
  refine ⟨fun ht => ?_, fun c f g hb hcp ht => ?_⟩
  · unfold namedFilter at h
    have hnp : d.core.type ≠ .poly := by rcases ht with ht | ht <;> simp [ht]
    simp only [namedPoly, if_pos hnp, hc] at h
    have ht' : d.tells = d.core.tells := by
      rcases d with c | ⟨c, f, g⟩
      · rfl
      · have : c.type ≠ .poly := hnp
        simp [FilterDef.tells, this, FilterDef.core]
    rw [ht']
    exact native _ _ h ht
  · subst hb
    unfold namedFilter at h
    rcases hp : namedPoly E (.both c f g) fo with (_ | m) | e | _ <;> simp only [hp, hc] at h
    · simp [namedNative, buildNative, FilterDef.core, hcp, Made.map] at h
    · injection h with h; injection h with h; subst h
      unfold namedPoly at hp
      have : ¬ (FilterDef.both c f g).core.type ≠ .poly := by simpa [FilterDef.core] using hcp
      simp only [if_neg this, hd, Option.bind, FilterDef.poly] at hp
      split at hp
      · cases hp
      · split at hp
        · cases hp
        · cases hp
        · rename_i ff hf
          split at hp
          · cases hp
          · split at hp
            · cases hp
            · cases hp
            · rename_i fd hg
              injection hp with hp; injection hp with hp; subst hp
              have hk : namedNative E (f.core.narrow Scope.file Scope.directory) = .ok (some ff) := by
                unfold namedConstituent at hf
                simp only [hc] at hf
                split at hf
                · rename_i heq; injection hf with hf; subst hf; exact heq
                · cases hf
                · cases hf
                · cases hf
              have := native _ _ hk (by simpa [FilterCore.narrow] using ht)
              rw [narrow_tells _ Scope.file Scope.directory (by decide) (by decide)] at this
              simp only [Filter.applies]
              cases hv : v.isDir <;> simp [this]
    · cases h
    · cases h

/-- What a single call of the sink is about, whether or not the session is built. -/
structure Fair (E : Engine) (fo : FilterOptions) (r : FilterReply) : Prop where
  one : r.sampler = none ∧ (r.node = none ∨ r.child = none)
  node : ∀ n, r.node = some n → fo.custom = none ∧ ∃ d, fo.node = some d ∧ newFilter E d fo = .ok (some n.filter) ∧ n.face = d.tells
  child : ∀ c, r.child = some c → ∃ d, fo.child = some d ∧ newChild E d = .ok (some c.keeps) ∧ c.description = d.description ∧ c.source = d.pattern

theorem sunkChild_fair (E : Engine) (o : Options κ) : (∀ r ∈ sunkChild E o, Fair E o.filter r) ∧ (sunkChild E o).length ≤ 1 := by
  unfold sunkChild
  split
  · simp
  · rename_i d hd
    split
    · split
      · rename_i c hc
        refine ⟨fun r hr => ?_, by simp⟩
        simp only [List.mem_singleton] at hr
        subst hr
        refine ⟨⟨rfl, Or.inl rfl⟩, fun n hn => by simp at hn, fun k hk => ⟨d, hd, ?_⟩⟩
        dsimp only at hk
        subst hk
        unfold namedChild at hc
        rcases hn : newChild E d with (_ | f) | e | _ <;> rw [hn] at hc
        · cases hc
        · injection hc with hc; injection hc with hc; subst hc
          exact ⟨rfl, rfl, rfl⟩
        · cases hc
        · cases hc
      · simp
    · simp

theorem sunk_fair (E : Engine) (o : Options κ) : (∀ r ∈ sunk E o, Fair E o.filter r) ∧ (sunk E o).length ≤ 2 := by
  have hch := sunkChild_fair E o
  have h2 : (sunkChild E o).length ≤ 2 := Nat.le_trans hch.2 (by decide)
  unfold sunk
  split
  · split
    · simp
    · exact ⟨hch.1, h2⟩
  · rename_i hc
    split
    · split
      · simp
      · rename_i d hd
        split
        · rename_i n hn
          refine ⟨fun r hr => ?_, by simp; exact hch.2⟩
          rcases List.mem_cons.1 hr with rfl | hr
          · refine ⟨⟨rfl, Or.inr rfl⟩, fun m hm => ?_, fun k hk => by simp at hk⟩
            dsimp only at hm
            subst hm
            refine ⟨hc, d, hd, ?_, namedFilter_face hc hd hn⟩
            rw [← namedFilter_filter, hn]; rfl
          · exact hch.1 r hr
        · simp
    · split
      · split
        · exact ⟨hch.1, h2⟩
        · simp
      · exact ⟨hch.1, h2⟩

theorem rest_silent {P : Platform κ} {sub res S} {o o2 : Options κ} (h : buildRest P sub res o = .ready S o2) (hk : o2.sink = none) :
    sinkRest P.engine sub o = [] := by
  unfold buildRest at h
  split at h
  · cases h
  rename_i hne
  split at h
  · cases h
  · cases h
  rename_i f o1 hr
  split at h
  · cases h
  · cases h
  injection h with h1 h2
  obtain ⟨hh, hf, hs⟩ := register_handed hr
  have e2 : o2.sink = o1.sink := by rw [← h2]; unfold initSampling; split <;> rfl
  unfold sinkRest
  rw [if_neg hne]
  have : o.sink = none := by rw [← hs, ← e2, hk]
  simp only [this]

/-- **C75** (partial: a sample filter is not handed over, see `C75_sampler_kept`.) In every primary session that is built, a client
that gave a sink is handed the node filter and then the child filter made from its definitions, if there are such definitions in use,
and nothing else; each says of itself what the definition says, and each is the one the session asks. A client without a sink is not
called. -/
theorem C75_handed_partial {P : Platform κ} {u : Using κ} {settings : List (Option (Setting κ))} {S : Setup} {o : Options κ}
    (hb : buildPrimary P (.using u) settings = .ready S o) :
    (o.sink = none → sinkPrime P (.using u) settings = []) ∧
    ∀ k, o.sink = some k → ∃ replies, sinkPrime P (.using u) settings = replies.map (fun r => (k, r)) ∧
      Handed P.engine o.filter S.filter replies := by
  unfold buildPrimary at hb
  unfold sinkPrime
  rcases hq : primaryPlatform P (.using u) settings with ⟨o', _ | e⟩ <;> simp only [hq] at hb
  · exact ⟨rest_silent hb, rest_handed hb⟩
  · cases hb

/-- **C75** The same of every resumed session that is built. -/
theorem C75_resumed_partial {P : Platform κ} {r : Relic κ} {settings : List (Option (Setting κ))} {files : String → Except Err Json}
    {S : Setup} {o : Options κ} {h : κ → Parcel → κ × Reply} {a : Active} (hr : Resumed P r settings files S o h a) :
    (o.sink = none → sinkResume P (.relic r) settings files = []) ∧
    ∀ k, o.sink = some k → ∃ replies, sinkResume P (.relic r) settings files = replies.map (fun x => (k, x)) ∧
      Handed P.engine o.filter S.filter replies := by
  obtain ⟨o₀, h1, h2⟩ := hr.built
  unfold sinkResume
  simp only [h1]
  exact ⟨rest_silent h2, rest_handed h2⟩

/-- **C75** Whether or not the session is built: the sink given is the one called, at most twice, and what it is handed is a filter that
was made from the definition given for it and says so. (A nil filter may also be handed over: the session then panics.) -/
theorem C75_fair (P : Platform κ) (u : Using κ) (settings : List (Option (Setting κ))) :
    (sinkPrime P (.using u) settings).length ≤ 2 ∧
    ∀ k r, (k, r) ∈ sinkPrime P (.using u) settings →
      u.Complete ∧ (harvested P u settings).sink = some k ∧ Fair P.engine (harvested P u settings).filter r := by
  have hrest : ∀ (o : Options κ), (sinkRest P.engine u.sub o).length ≤ 2 ∧
      ∀ k r, (k, r) ∈ sinkRest P.engine u.sub o → o.sink = some k ∧ Fair P.engine o.filter r := by
    intro o
    have hf := sunk_fair P.engine o
    unfold sinkRest
    split
    · simp
    · split
      · simp
      · rename_i j hj
        refine ⟨by simpa using hf.2, fun k r hm => ?_⟩
        simp only [List.mem_map, Prod.mk.injEq] at hm
        obtain ⟨r', hr', rfl, rfl⟩ := hm
        exact ⟨hj, hf.1 _ hr'⟩
  unfold sinkPrime
  rcases hp : primaryPlatform P (.using u) settings with ⟨o', _ | e⟩
  · have hv : u.validate = none ∧ harvested P u settings = o'.afterwards := by
      unfold primaryPlatform at hp
      unfold harvested
      rcases ho : u.o with _ | o0 <;> simp only [ho] at hp ⊢
      · injection hp with h1 h2
        subst h1
        rcases hv : u.validate with _ | e <;> simp only [hv] at h2
        · exact ⟨rfl, rfl⟩
        · cases h2
      · injection hp with h1 h2
        exact ⟨h2, by rw [h1]⟩
    refine ⟨(hrest o'.afterwards).1, fun k r hm => ⟨(validate_none u).1 hv.1, ?_⟩⟩
    rw [hv.2]
    exact (hrest _).2 k r hm
  · simp

theorem apply_sinks (P : Platform κ) (w : With κ) (o : Options κ) (k : Nat) (h : (w.apply P o).sink = some k) :
    (∃ fo, w = .filter fo (some k) ∧ (w.apply P o).filter = fo) ∨ (o.sink = some k ∧ (w.apply P o).filter = o.filter) := by
  cases w
  case filter f s =>
    simp only [With.apply] at h
    subst h
    exact .inl ⟨f, rfl, rfl⟩
  all_goals (refine .inr ⟨?_, ?_⟩ <;> first | exact h | rfl | (simp only [With.apply] at h ⊢; split at h <;> first | exact h | rfl) | skip)

theorem fold_sinks (P : Platform κ) (ws : List (With κ)) (o : Options κ) (k : Nat) (h : (ws.foldl (fun o w => w.apply P o) o).sink = some k) :
    (∃ fo, .filter fo (some k) ∈ ws ∧ (ws.foldl (fun o w => w.apply P o) o).filter = fo) ∨
    (o.sink = some k ∧ (ws.foldl (fun o w => w.apply P o) o).filter = o.filter) := by
  induction ws generalizing o with
  | nil => exact .inr ⟨h, rfl⟩
  | cons w ws ih =>
    rcases ih (w.apply P o) h with ⟨fo, h1, h2⟩ | ⟨h1, h2⟩
    · exact .inl ⟨fo, List.mem_cons_of_mem _ h1, h2⟩
    · rcases apply_sinks P w o k h1 with ⟨fo, h3, h4⟩ | ⟨h3, h4⟩
      · exact .inl ⟨fo, by rw [← h3]; exact List.mem_cons_self, by rw [← h4]; exact h2⟩
      · exact .inr ⟨h3, by rw [← h4]; exact h2⟩

/-- **C75** A resumed session calls no sink but one that is given to it again, with WithFilter; and it is then handed only filters made from
the definitions given along with it, not from those that were saved. -/
theorem C75_restored (P : Platform κ) (rel : Relic κ) (ws : List (Option (With κ))) (files : String → Except Err Json) (k : Nat) (r : FilterReply)
    (h : (k, r) ∈ sinkResume P (.relic rel) (settingsOf P ws) files) : ∃ fo, some (.filter fo (some k)) ∈ ws ∧ Fair P.engine fo r := by
  unfold sinkResume resumePlatform unmarshal at h
  rcases hq : files rel.from with e | doc
  · simp [hq] at h
  simp only [hq] at h
  rcases h1 : decodeSaved (doc.get "Active") with _ | s <;> rcases h2 : decodeOptions (doc.get "JO") with _ | j <;> simp only [h1, h2] at h
  · simp at h
  · simp at h
  · simp at h
  rcases h3 : comparisonEquals (some (fromJSON P j)) (some j) with _ | f <;> simp only [h3] at h
  · simp only [bindOptions, applyAll_settings] at h
    generalize ho : ((ws.filterMap id).foldl (fun o w => w.apply P o) (fromJSON P j).rebind) = o at h
    have hsink : o.sink = some k ∧ Fair P.engine o.filter r := by
      split at h
      · simp at h
      · rename_i o' a hx
        have ho' : o' = o := by
          split at hx
          · cases hx
          · split at hx
            · cases hx
            · split at hx
              · cases hx
              · injection hx with hx; injection hx with hx _; exact hx.symm
        subst ho'
        unfold sinkRest at h
        split at h
        · simp at h
        · split at h
          · simp at h
          · rename_i k' hk'
            simp only [List.mem_map, Prod.mk.injEq] at h
            obtain ⟨r', hr', rfl, rfl⟩ := h
            exact ⟨hk', (sunk_fair P.engine o'.afterwards).1 _ hr'⟩
    rw [← ho] at hsink
    rcases fold_sinks P _ _ k hsink.1 with ⟨fo, h1, h2⟩ | ⟨h1, -⟩
    · refine ⟨fo, ?_, by rw [← h2]; exact hsink.2⟩
      simpa using h1
    · exact absurd h1 (by simp [Options.rebind, fromJSON, defaultOptions])
  · simp at h

/-- **C75** What a handed over filter says of its scope is what it goes by: it applies to the nodes that share a bit with it; and a poly
filter to files only, of the scope of its filter for files. -/
theorem C75_applies (P : Platform κ) (u : Using κ) (settings : List (Option (Setting κ))) (k : Nat) (r : FilterReply) (n : FilterSeen)
    (h : (k, r) ∈ sinkPrime P (.using u) settings) (hn : r.node = some n) (v : View) :
    ∃ d, (harvested P u settings).filter.node = some d ∧
      (d.core.type = .glob ∨ d.core.type = .regex → (n.filter.applies P.engine v = true ↔ n.face.scope &&& v.scope ≠ 0#32)) ∧
      (∀ c f g, d = .both c f g → c.type = .poly → f.core.type = .glob ∨ f.core.type = .regex →
        (n.filter.applies P.engine v = true ↔ v.isDir = false ∧ f.core.polyScope Scope.file Scope.directory &&& v.scope ≠ 0#32)) := by
  obtain ⟨-, hk, hf⟩ := (C75_fair P u settings).2 k r h
  obtain ⟨hc, d, hd, hm, hface⟩ := hf.node n hn
  refine ⟨d, hd, ?_⟩
  have : ∃ n', namedFilter P.engine d (harvested P u settings).filter = .ok (some n') ∧ n'.filter = n.filter := by
    rw [← namedFilter_filter] at hm
    rcases hq : namedFilter P.engine d (harvested P u settings).filter with (_ | n') | e | _ <;> rw [hq] at hm
    · cases hm
    · injection hm with hm; injection hm with hm
      exact ⟨n', rfl, hm⟩
    · cases hm
    · cases hm
  obtain ⟨n', h1, h2⟩ := this
  have := namedFilter_applies hc hd h1 v
  rw [h2] at this
  rw [hface]
  exact this

/-- **C75** Nothing is handed over by a facade that is not complete, or where an option fails. -/
theorem C75_unmade (P : Platform κ) (facade : Facade κ) (settings : List (Option (Setting κ))) (e : BuildErr)
    (he : (primaryPlatform P facade settings).2 = some e) : sinkPrime P facade settings = [] := by
  unfold sinkPrime
  rcases hp : primaryPlatform P facade settings with ⟨o, _ | e'⟩
  · simp [hp] at he
  · rfl

/-- **C75, false for a sample filter**: one that is made, and used, is never handed over. -/
theorem C75_sampler_kept :
    let d : SampleDef := { type := .glob, description := "texts", pattern := "*.txt", scope := Scope.file }
    let settings := settingsOf toyPlatform [some (.sampling { type := .filter, files := 2 }), some (.filter { sample := some d } (some 7))]
    (∃ S o m, buildPrimary toyPlatform (.using (toyUsing .files)) settings = .ready S o ∧ o.sink = some 7 ∧ S.filter.primary = some (.sample m)) ∧
    sinkPrime toyPlatform (.using (toyUsing .files)) settings = [] := by
  refine ⟨⟨_, _, _, rfl, rfl, rfl⟩, rfl⟩

/-- **C75** A client may be handed a filter of a session that is then not built: here the child filter is of a kind there is not. -/
theorem C75_in_vain :
    let d : FilterCore := { type := .glob, description := "texts", pattern := "*.txt" }
    let settings := settingsOf toyPlatform
      [some (.filter { node := some (.plain d), child := some { type := .globEx, pattern := "a" } } (some 7))]
    (walkPrime toyPlatform (.using (toyUsing .files)) settings toyDisk 0).verdict = .unbuilt (.filter .childGlobEx) ∧
    (sinkPrime toyPlatform (.using (toyUsing .files)) settings).map (fun x => (x.1, x.2.node.map FilterSeen.face)) = [(7, some ⟨"texts", "*.txt", Scope.all⟩)] := by
  decide +kernel

/-- Not vacuous: a session with a poly filter and a child filter, and one resumed with a node filter. -/
example :
    let f : FilterCore := { type := .glob, description := "texts", pattern := "*.txt", scope := Scope.leaf }
    let g : FilterCore := { type := .regex, description := "ways", pattern := "w" }
    let fo : FilterOptions := { node := some (.both { type := .poly } (.plain f) (.plain g)),
                                child := some { type := .regex, description := "young", pattern := "y" } }
    let settings := settingsOf toyPlatform [some (.filter fo (some 7))]
    (∃ S o, buildPrimary toyPlatform (.using (toyUsing .directoriesWithFiles)) settings = .ready S o ∧ o.sink = some 7) ∧
    (sinkPrime toyPlatform (.using (toyUsing .directoriesWithFiles)) settings).map
        (fun x => (x.1, x.2.node.map FilterSeen.face, x.2.child.map fun c => (c.description, c.source))) =
      [(7, some ⟨"Poly - FILE: 'texts', DIRECTORY: 'ways'", "*.txt##w", Scope.leaf ||| Scope.file ||| Scope.directory⟩, none),
       (7, none, some ("young", "y"))] := by
  intro f g fo settings
  exact ⟨⟨_, _, rfl, rfl⟩, by decide +kernel⟩

/-- Not vacuous, resumed: a session saved in /r/c, resumed with a filter and a sink. -/
example (st : Strategy) :
    let d : FilterCore := { type := .glob, description := "all", pattern := "*" }
    let a := (savedAt ["r"] ["r", "c"] .universal).active
    let settings := settingsOf sortPlatform [some (.filter { node := some (.plain d) } (some 7))]
    (∃ S o, Resumed sortPlatform (Demo.relic st Demo.quiet) settings (Demo.saved ["r", "c"] .universal) S o (Demo.byPath Demo.quiet) a ∧ o.sink = some 7) := by
  intro d a settings
  obtain ⟨doc, h1, h2⟩ := roundTrip sortPlatform (defaultOptions sortPlatform) (savedAt ["r"] ["r", "c"] .universal)
  have hf : Demo.saved ["r", "c"] .universal (Demo.relic st Demo.quiet).from = .ok doc := by simp only [Demo.saved, savedFile, h1]
  have hplat : resumePlatform sortPlatform (Demo.relic st Demo.quiet) settings (.ok doc) =
      .ok ((bindOptions (fromJSON sortPlatform (toJSON (defaultOptions sortPlatform))) settings).1, a) := by
    simp only [resumePlatform, h2, bindOptions, settings, applyAll_settings]
    rfl
  have key : ∃ S o, buildRest sortPlatform a.sub (some st)
      (bindOptions (fromJSON sortPlatform (toJSON (defaultOptions sortPlatform))) settings).1.afterwards = .ready S o ∧ o.sink = some 7 :=
    ⟨_, _, rfl, rfl⟩
  obtain ⟨S, o, h3, h4⟩ := key
  exact ⟨S, o, ⟨rfl, _, by rw [hf]; exact hplat, h3⟩, h4⟩

end Traverse
