import Verif.Model.Sink
import Verif.Model.Wear
/-
Building from definitions in memory gives what building from copies gives, and leaves definitions that give the same again.
-/
namespace Traverse
variable {κ : Type}

/-- The same but for a scope that is not looked at. -/
def CoreLike (c c' : FilterCore) : Prop := c' = { c with scope := c'.scope } ∧ (c.type ≠ .globEx → c'.scope = c.scope)

theorem CoreLike.rfl' (c : FilterCore) : CoreLike c c := ⟨rfl, fun _ => rfl⟩

theorem CoreLike.trans {a b c : FilterCore} (h : CoreLike a b) (h' : CoreLike b c) : CoreLike a c := by
  obtain ⟨h1, h2⟩ := h
  obtain ⟨h3, h4⟩ := h'
  have ht : b.type = a.type := by rw [h1]
  refine ⟨?_, fun hg => (h4 (by rw [ht]; exact hg)).trans (h2 hg)⟩
  rw [h3, h1]

theorem CoreLike.type_eq {c c' : FilterCore} (h : CoreLike c c') : c'.type = c.type := by rw [h.1]
theorem CoreLike.pattern_eq {c c' : FilterCore} (h : CoreLike c c') : c'.pattern = c.pattern := by rw [h.1]

theorem CoreLike.native {c c' : FilterCore} (E : Engine) (h : CoreLike c c') : buildNative E c' = buildNative E c := by
  obtain ⟨h1, h2⟩ := h
  by_cases hg : c.type = .globEx
  · rw [h1]
    simp only [buildNative, hg]
  · rw [h1, h2 hg]

/-- What building a native filter may leave of a definition. -/
def CoreWorn (c c' : FilterCore) : Prop := c' = c ∨ c.type = .globEx ∧ c' = { c with scope := Scope.file }

theorem CoreWorn.rfl' (c : FilterCore) : CoreWorn c c := .inl rfl
theorem CoreWorn.like {c c' : FilterCore} (h : CoreWorn c c') : CoreLike c c' := by
  rcases h with rfl | ⟨h, rfl⟩
  · exact CoreLike.rfl' _
  · exact ⟨rfl, fun h' => absurd h h'⟩
theorem CoreWorn.trans {a b c : FilterCore} (h : CoreWorn a b) (h' : CoreWorn b c) : CoreWorn a c := by
  rcases h with rfl | ⟨h, rfl⟩
  · exact h'
  · rcases h' with rfl | ⟨-, rfl⟩ <;> exact .inr ⟨h, rfl⟩
theorem CoreWorn.native {c c' : FilterCore} (E : Engine) (h : CoreWorn c c') : buildNative E c' = buildNative E c := h.like.native E
theorem CoreWorn.type_eq {c c' : FilterCore} (h : CoreWorn c c') : c'.type = c.type := h.like.type_eq
theorem CoreWorn.pattern_eq {c c' : FilterCore} (h : CoreWorn c c') : c'.pattern = c.pattern := h.like.pattern_eq

theorem buildNativeIn_fst (E : Engine) (c : FilterCore) : (buildNativeIn E c).1 = buildNative E c := by
  unfold buildNativeIn buildNative
  cases c.type <;> simp only
  · cases splitGlobExPattern c.pattern with
    | err e => rfl
    | panic => rfl
    | ok x =>
      obtain ⟨s, ps⟩ := x
      simp only
      cases newSpec E (splitGlob E s).1 (splitGlob E s).2 ps <;> rfl
  · split <;> rfl

theorem buildNativeIn_worn (E : Engine) (c : FilterCore) : CoreWorn c (buildNativeIn E c).2 := by
  unfold buildNativeIn
  cases ht : c.type <;> simp only
  · exact CoreWorn.rfl' c
  · cases splitGlobExPattern c.pattern with
    | err e => exact CoreWorn.rfl' c
    | panic => exact CoreWorn.rfl' c
    | ok x =>
      obtain ⟨s, ps⟩ := x
      simp only
      cases newSpec E (splitGlob E s).1 (splitGlob E s).2 ps <;> exact .inr ⟨ht, by rw [ht]⟩
  · split <;> exact CoreWorn.rfl' c
  all_goals exact CoreWorn.rfl' c

theorem buildNativeIn_like (E : Engine) (c : FilterCore) : CoreLike c (buildNativeIn E c).2 := (buildNativeIn_worn E c).like

theorem buildConstituentIn_fst (E : Engine) (fo : FilterOptions) (c : FilterCore) :
    (buildConstituentIn E fo.custom c).1 = buildConstituent E fo c := by
  unfold buildConstituentIn buildConstituent
  cases fo.custom with
  | some f => simp only; cases f.validate <;> rfl
  | none =>
    simp only [← buildNativeIn_fst]
    rcases buildNativeIn E c with ⟨_ | _ | _, d⟩
    · rename_i o; cases o <;> rfl
    all_goals rfl

theorem buildConstituentIn_like (E : Engine) (custom : Option CustomFilter) (c : FilterCore) :
    CoreLike c (buildConstituentIn E custom c).2 := by
  unfold buildConstituentIn
  cases custom with
  | some f => simp only; cases f.validate <;> exact CoreLike.rfl' c
  | none =>
    have := buildNativeIn_like E c
    revert this
    rcases buildNativeIn E c with ⟨_ | _ | _, d⟩
    · rename_i o; cases o <;> exact fun h => h
    all_goals exact fun h => h

theorem narrow_narrow (c : FilterCore) (plus minus : Scope) :
    (c.narrow plus minus).narrow plus minus = c.narrow plus minus := by
  simp only [FilterCore.narrow, Scope.set, Scope.clear, FilterCore.mk.injEq, true_and, and_true]
  apply BitVec.eq_of_getLsbD_eq
  intro i hi
  simp only [BitVec.getLsbD_and, BitVec.getLsbD_or, BitVec.getLsbD_not, hi, decide_true, Bool.true_and]
  cases c.scope.getLsbD i <;> cases plus.getLsbD i <;> cases minus.getLsbD i <;> rfl

/-- Constituents that are the same once they have their scope. -/
def ConLike (plus minus : Scope) (d d' : FilterDef) : Prop :=
  d'.poly = d.poly ∧ CoreLike (d.core.narrow plus minus) (d'.core.narrow plus minus)

theorem ConLike.rfl' (plus minus : Scope) (d : FilterDef) : ConLike plus minus d d := ⟨rfl, CoreLike.rfl' _⟩
theorem ConLike.trans {plus minus : Scope} {a b c : FilterDef} (h : ConLike plus minus a b) (h' : ConLike plus minus b c) :
    ConLike plus minus a c := ⟨h'.1.trans h.1, h.2.trans h'.2⟩

theorem core_mapCore (g : FilterCore → FilterCore) (d : FilterDef) : (d.mapCore g).core = g d.core := by cases d <;> rfl
theorem poly_mapCore (g : FilterCore → FilterCore) (d : FilterDef) : (d.mapCore g).poly = d.poly := by cases d <;> rfl

theorem ConLike.narrowed (plus minus : Scope) (d : FilterDef) : ConLike plus minus d (d.mapCore (·.narrow plus minus)) :=
  ⟨poly_mapCore _ _, by rw [core_mapCore, narrow_narrow]; exact CoreLike.rfl' _⟩

/-- What was built from a narrowed constituent is one that narrows to the like. -/
theorem ConLike.built (plus minus : Scope) (d : FilterDef) {c : FilterCore} (h : CoreLike (d.core.narrow plus minus) c) :
    ConLike plus minus d ((d.mapCore (·.narrow plus minus)).mapCore fun _ => c) := by
  refine ⟨by rw [poly_mapCore, poly_mapCore], ?_⟩
  rw [core_mapCore]
  obtain ⟨h1, h2⟩ := h
  refine ⟨?_, fun hg => ?_⟩
  · rw [h1]; rfl
  · have h3 : c = d.core.narrow plus minus := by rw [h1, h2 hg]
    rw [h3, narrow_narrow]

/-- Memory holding the like at every address. -/
def Heap.Like (H H' : Heap) : Prop :=
  (∀ a, (H'.defs a).2 = (H.defs a).2 ∧ CoreWorn (H.defs a).1 (H'.defs a).1) ∧
  ∀ p, ConLike Scope.file Scope.directory (H.polys p).1 (H'.polys p).1 ∧
    ConLike Scope.directory Scope.file (H.polys p).2 (H'.polys p).2

theorem Heap.Like.rfl' (H : Heap) : H.Like H :=
  ⟨fun _ => ⟨rfl, CoreWorn.rfl' _⟩, fun _ => ⟨ConLike.rfl' _ _ _, ConLike.rfl' _ _ _⟩⟩
theorem Heap.Like.trans {a b c : Heap} (h : a.Like b) (h' : b.Like c) : a.Like c :=
  ⟨fun x => ⟨(h'.1 x).1.trans (h.1 x).1, (h.1 x).2.trans (h'.1 x).2⟩,
   fun p => ⟨(h.2 p).1.trans (h'.2 p).1, (h.2 p).2.trans (h'.2 p).2⟩⟩

theorem Heap.Like.put {H : Heap} (a : Nat) {c : FilterCore} (h : CoreWorn (H.defs a).1 c) : H.Like (H.put a c) := by
  refine ⟨fun b => ?_, fun _ => ⟨ConLike.rfl' _ _ _, ConLike.rfl' _ _ _⟩⟩
  simp only [Heap.put]
  split
  · rename_i hb; subst hb; exact ⟨rfl, h⟩
  · exact ⟨rfl, CoreWorn.rfl' _⟩

theorem Heap.Like.putPoly {H : Heap} (p : Nat) {x : FilterDef × FilterDef}
    (h1 : ConLike Scope.file Scope.directory (H.polys p).1 x.1) (h2 : ConLike Scope.directory Scope.file (H.polys p).2 x.2) :
    H.Like (H.putPoly p x) := by
  refine ⟨fun _ => ⟨rfl, CoreWorn.rfl' _⟩, fun q => ?_⟩
  simp only [Heap.putPoly]
  split
  · rename_i hb; subst hb; exact ⟨h1, h2⟩
  · exact ⟨ConLike.rfl' _ _ _, ConLike.rfl' _ _ _⟩

theorem Heap.putPoly_putPoly (H : Heap) (p : Nat) (x y : FilterDef × FilterDef) : (H.putPoly p x).putPoly p y = H.putPoly p y := by
  simp only [Heap.putPoly, Heap.mk.injEq, true_and]
  funext q
  by_cases h : q = p <;> simp [h]

theorem core_get (H : Heap) (a : Nat) : (H.get a).core = (H.defs a).1 := by
  unfold Heap.get; cases (H.defs a).2 <;> rfl
theorem poly_get (H : Heap) (a : Nat) : (H.get a).poly = (H.defs a).2.map H.polys := by
  unfold Heap.get; cases (H.defs a).2 <;> rfl

/-! ### The same filters from the like -/

theorem buildConstituent_like (E : Engine) (fo fo' : FilterOptions) (hc : fo'.custom = fo.custom) {c c' : FilterCore} (h : CoreLike c c') :
    buildConstituent E fo' c' = buildConstituent E fo c := by
  simp only [buildConstituent, hc, h.native E]

theorem newFilter_like (E : Engine) (fo : FilterOptions) {H H' : Heap} (h : H.Like H') (node : Option Nat) (a : Nat) :
    newFilter E (H'.get a) { fo with node := node.map H'.get } = newFilter E (H.get a) { fo with node := node.map H.get } := by
  have hp : buildPoly E (H'.get a) { fo with node := node.map H'.get } = buildPoly E (H.get a) { fo with node := node.map H.get } := by
    unfold buildPoly
    rw [core_get, core_get, (h.1 a).2.type_eq]
    split
    · rfl
    cases node with
    | none => rfl
    | some n =>
      simp only [Option.map_some, Option.bind_some, poly_get, (h.1 n).1]
      cases (H.defs n).2 with
      | none => rfl
      | some p =>
        obtain ⟨⟨-, hf⟩, ⟨-, hd⟩⟩ := h.2 p
        have tf : (H'.polys p).1.core.type = (H.polys p).1.core.type := hf.type_eq
        have td : (H'.polys p).2.core.type = (H.polys p).2.core.type := hd.type_eq
        simp only [Option.map_some]
        rw [tf, td, buildConstituent_like E { fo with node := some (H.get n) } { fo with node := some (H'.get n) } rfl hf,
          buildConstituent_like E { fo with node := some (H.get n) } { fo with node := some (H'.get n) } rfl hd]
  unfold newFilter
  rw [hp, core_get, core_get, (h.1 a).2.native E]

/-! ### Building in memory -/

theorem buildPolyIn_spec (E : Engine) (fo : FilterOptions) (node : Option Nat) (a : Nat) (H : Heap) :
    (buildPolyIn E fo.custom node a H).1 = buildPoly E (H.get a) { fo with node := node.map H.get } ∧
    H.Like (buildPolyIn E fo.custom node a H).2 := by
  unfold buildPolyIn buildPoly
  rw [core_get]
  split
  · exact ⟨rfl, Heap.Like.rfl' H⟩
  cases node with
  | none => exact ⟨rfl, Heap.Like.rfl' H⟩
  | some n =>
    simp only [Option.map_some, Option.bind_some, poly_get]
    cases (H.defs n).2 with
    | none => exact ⟨rfl, Heap.Like.rfl' H⟩
    | some p =>
      simp only [Option.map_some, Heap.putPoly_putPoly, core_mapCore]
      have tf : ((H.polys p).1.core.narrow Scope.file Scope.directory).type = (H.polys p).1.core.type := rfl
      have td : ((H.polys p).2.core.narrow Scope.directory Scope.file).type = (H.polys p).2.core.type := rfl
      rw [tf, td]
      have l0 := Heap.Like.putPoly p (x := ((H.polys p).1.mapCore (·.narrow Scope.file Scope.directory),
        (H.polys p).2.mapCore (·.narrow Scope.directory Scope.file))) (ConLike.narrowed _ _ _) (ConLike.narrowed _ _ _)
      split
      · exact ⟨rfl, l0⟩
      have bf := ConLike.built _ _ (H.polys p).1 (buildConstituentIn_like E fo.custom ((H.polys p).1.core.narrow Scope.file Scope.directory))
      have bd := ConLike.built _ _ (H.polys p).2 (buildConstituentIn_like E fo.custom ((H.polys p).2.core.narrow Scope.directory Scope.file))
      have l1 := Heap.Like.putPoly p (x := (_, (H.polys p).2.mapCore (·.narrow Scope.directory Scope.file))) bf (ConLike.narrowed _ _ _)
      have l2 := Heap.Like.putPoly p (x := (_, _)) bf bd
      rw [← buildConstituentIn_fst E { fo with node := some (H.get n) } ((H.polys p).1.core.narrow Scope.file Scope.directory),
        ← buildConstituentIn_fst E { fo with node := some (H.get n) } ((H.polys p).2.core.narrow Scope.directory Scope.file)]
      dsimp only at *
      revert bf bd l1 l2
      rcases buildConstituentIn E fo.custom ((H.polys p).1.core.narrow Scope.file Scope.directory) with ⟨_ | _ | _, cf⟩ <;>
        rcases buildConstituentIn E fo.custom ((H.polys p).2.core.narrow Scope.directory Scope.file) with ⟨_ | _ | _, cd⟩ <;>
        intro bf bd l1 l2 <;> dsimp only <;> (try split) <;> exact ⟨rfl, by assumption⟩

theorem newFilterIn_spec (E : Engine) (fo : FilterOptions) (node : Option Nat) (a : Nat) (H : Heap) :
    (newFilterIn E fo.custom node a H).1 = newFilter E (H.get a) { fo with node := node.map H.get } ∧
    H.Like (newFilterIn E fo.custom node a H).2 := by
  have hp := buildPolyIn_spec E fo node a H
  unfold newFilterIn newFilter
  rw [← hp.1]
  have hl := hp.2
  clear hp
  revert hl
  rcases buildPolyIn E fo.custom node a H with ⟨_ | _ | _, H'⟩ <;> intro hl
  · rename_i f
    cases f with
    | some f => exact ⟨rfl, hl⟩
    | none =>
      simp only
      cases hc : fo.custom with
      | some c => exact ⟨rfl, hl⟩
      | none =>
        simp only
        refine ⟨?_, hl.trans (Heap.Like.put a (buildNativeIn_worn E _))⟩
        rw [buildNativeIn_fst, core_get, (hl.1 a).2.native E]
  · exact ⟨rfl, hl⟩
  · exact ⟨rfl, hl⟩

/-! ### The session -/

/-- The options but for the three definitions. -/
def Options.undefined (o : Options κ) : Options κ :=
  { o with filter := { o.filter with node := none }, hibernate := { o.hibernate with wakeAt := none, sleepAt := none } }

/-- What was built but for the three definitions. -/
def Built.undefined : Built κ → Built κ
  | .crash => .crash
  | .hades e => .hades e
  | .stillborn e o => .stillborn e o.undefined
  | .ready S o => .ready S o.undefined

theorem undefined_at (o : Options κ) (r : Refs) (H : Heap) : (o.at r H).undefined = o.undefined := rfl
theorem at_at (o : Options κ) (r : Refs) (H H' : Heap) : (o.at r H).at r H' = o.at r H' := rfl
theorem at_of_undefined {o o' : Options κ} (h : o.undefined = o'.undefined) (r : Refs) (H : Heap) : o.at r H = o'.at r H := by
  have h' : o.undefined.at r H = o'.undefined.at r H := by rw [h]
  exact h'

theorem nodeActive_like (o : Options κ) (r : Refs) {H H' : Heap} (h : H.Like H') :
    (o.at r H').filter.nodeActive = (o.at r H).filter.nodeActive := by
  simp only [Options.at, FilterOptions.nodeActive]
  cases r.node with
  | none => rfl
  | some n => simp only [Option.map_some, core_get, poly_get, (h.1 n).2.pattern_eq, (h.1 n).1, Option.isSome_map]

theorem createPrimary_like (E : Engine) (o : Options κ) (r : Refs) {H H' : Heap} (h : H.Like H') :
    (createPrimary E (o.at r H')).map (fun x => (x.1, x.2.undefined)) =
      (createPrimary E (o.at r H)).map (fun x => (x.1, x.2.undefined)) := by
  unfold createPrimary
  rw [nodeActive_like o r h]
  have e1 : (o.at r H').filter.custom = o.filter.custom := rfl
  have e2 : (o.at r H).filter.custom = o.filter.custom := rfl
  rw [e1, e2]
  cases o.filter.custom with
  | some c => simp only; cases c.validate <;> rfl
  | none =>
    simp only
    split
    · have e3 : (o.at r H').filter.node = r.node.map H'.get := rfl
      have e4 : (o.at r H).filter.node = r.node.map H.get := rfl
      rw [e3, e4]
      cases hn : r.node with
      | none => rfl
      | some n =>
        simp only [Option.map_some]
        have := newFilter_like E o.filter h r.node n
        have e5 : newFilter E (H'.get n) (o.at r H').filter = newFilter E (H.get n) (o.at r H).filter := this
        rw [e5]
        rcases newFilter E (H.get n) (o.at r H).filter with f | e | _
        · cases f <;> rfl
        all_goals rfl
    · have e3 : (o.at r H').filter.sample = o.filter.sample := rfl
      have e4 : (o.at r H).filter.sample = o.filter.sample := rfl
      have e5 : (o.at r H').sampling = o.sampling := rfl
      have e6 : (o.at r H).sampling = o.sampling := rfl
      rw [e3, e4, e5, e6]
      split
      · rcases newSample E o.filter.sample o.sampling.files o.sampling.dirs with f | e | _
        · cases f <;> rfl
        all_goals rfl
      · rfl

theorem createPrimaryIn_spec (E : Engine) (o : Options κ) (r : Refs) (H : Heap) :
    (createPrimaryIn E r o H).1.map (fun x => (x.1, x.2.undefined)) =
      (createPrimary E (o.at r H)).map (fun x => (x.1, x.2.undefined)) ∧ H.Like (createPrimaryIn E r o H).2 := by
  unfold createPrimaryIn
  split
  · exact ⟨rfl, Heap.Like.rfl' H⟩
  rename_i hc
  split
  · rename_i ha
    cases hn : r.node with
    | none =>
      rw [Options.at, hn] at ha
      simp [FilterOptions.nodeActive] at ha
    | some n =>
      obtain ⟨h1, h2⟩ := newFilterIn_spec E o.filter r.node n H
      rw [hn] at h1 h2
      simp only
      have e : createPrimary E (o.at r H) = (match newFilter E (H.get n) { o.filter with node := (some n).map H.get } with
        | .ok (some f) => .ok (some (.node (f.predicate E), f.dies E), o.at r H)
        | .ok none => .panic
        | .err e => .err e
        | .panic => .panic) := by
        unfold createPrimary
        have e1 : (o.at r H).filter.custom = none := hc
        have e4 : (o.at r H).filter = { o.filter with node := (some n).map H.get } := by rw [Options.at, hn]
        rw [e1]
        simp only [ha, if_true]
        rw [e4]
        rfl
      rw [e, ← h1]
      clear e h1
      revert h2
      rcases newFilterIn E o.filter.custom (some n) n H with ⟨f | e | _, H'⟩ <;> intro h2
      · cases f <;> exact ⟨rfl, h2⟩
      all_goals exact ⟨rfl, h2⟩
  · exact ⟨rfl, Heap.Like.rfl' H⟩

theorem createChild_undefined (E : Engine) (o : Options κ) : createChild E o.undefined = createChild E o := rfl

theorem registerFilterIn_spec (E : Engine) (o : Options κ) (r : Refs) (H : Heap) :
    (registerFilterIn E r o H).1.map (fun x => (x.1, x.2.undefined)) =
      (registerFilter E (o.at r H)).map (fun x => (x.1, x.2.undefined)) ∧ H.Like (registerFilterIn E r o H).2 := by
  obtain ⟨h1, h2⟩ := createPrimaryIn_spec E o r H
  unfold registerFilterIn registerFilter
  revert h1 h2
  rcases createPrimaryIn E r o H with ⟨⟨p, o1⟩ | e | _, H'⟩ <;> rcases createPrimary E (o.at r H) with ⟨q, o2⟩ | e' | _ <;>
    intro h1 h2 <;> simp only [Made.map, Made.ok.injEq, Made.err.injEq, Prod.mk.injEq, reduceCtorEq] at h1
  · obtain ⟨rfl, h1⟩ := h1
    dsimp only
    rw [← createChild_undefined, h1, createChild_undefined]
    rcases createChild E o2 with c | e | _
    · exact ⟨by simp only [Made.map, h1], h2⟩
    all_goals exact ⟨rfl, h2⟩
  · subst h1; exact ⟨rfl, h2⟩
  · exact ⟨rfl, h2⟩

theorem registerFilter_like (E : Engine) (o : Options κ) (r : Refs) {H H' : Heap} (h : H.Like H') :
    (registerFilter E (o.at r H')).map (fun x => (x.1, x.2.undefined)) =
      (registerFilter E (o.at r H)).map (fun x => (x.1, x.2.undefined)) := by
  have h1 := createPrimary_like E o r h
  unfold registerFilter
  revert h1
  rcases createPrimary E (o.at r H') with ⟨p, o1⟩ | e | _ <;> rcases createPrimary E (o.at r H) with ⟨q, o2⟩ | e' | _ <;>
    intro h1 <;> simp only [Made.map, Made.ok.injEq, Made.err.injEq, Prod.mk.injEq, reduceCtorEq] at h1
  · obtain ⟨rfl, h1⟩ := h1
    dsimp only
    rw [← createChild_undefined, h1, createChild_undefined]
    rcases createChild E o2 with c | e | _
    · simp only [Made.map, h1]
    all_goals rfl
  · subst h1; rfl
  · rfl

theorem makeTrigger_like (E : Engine) (fo : FilterOptions) {H H' : Heap} (h : H.Like H') (node a : Option Nat) :
    makeTrigger E { fo with node := node.map H'.get } (a.map H'.get) = makeTrigger E { fo with node := node.map H.get } (a.map H.get) := by
  cases a with
  | none => rfl
  | some a => simp only [Option.map_some, makeTrigger, newFilter_like E fo h node a]

theorem makeTriggerIn_spec (E : Engine) (fo : FilterOptions) (H : Heap) (node a : Option Nat) :
    (makeTriggerIn E fo.custom node H a).1 = makeTrigger E { fo with node := node.map H.get } (a.map H.get) ∧
    H.Like (makeTriggerIn E fo.custom node H a).2 := by
  cases a with
  | none => exact ⟨rfl, Heap.Like.rfl' H⟩
  | some a =>
    obtain ⟨h1, h2⟩ := newFilterIn_spec E fo node a H
    simp only [makeTriggerIn, makeTrigger, Option.map_some]
    rw [← h1]
    clear h1
    revert h2
    rcases newFilterIn E fo.custom node a H with ⟨f | e | _, H'⟩ <;> intro h2
    · cases f <;> exact ⟨rfl, h2⟩
    all_goals exact ⟨rfl, h2⟩

theorem initHibernation_like (E : Engine) (o : Options κ) (r : Refs) {H H' : Heap} (h : H.Like H') :
    initHibernation E (o.at r H') = initHibernation E (o.at r H) := by
  have h1 := makeTrigger_like E o.filter h r.node r.wakeAt
  have h2 := makeTrigger_like E o.filter h r.node r.sleepAt
  unfold initHibernation
  simp only [Options.at]
  rw [h1, h2]

theorem initHibernationIn_spec (E : Engine) (o : Options κ) (r : Refs) (H : Heap) :
    (initHibernationIn E r o H).1 = initHibernation E (o.at r H) ∧ H.Like (initHibernationIn E r o H).2 := by
  obtain ⟨h1, h2⟩ := makeTriggerIn_spec E o.filter H r.node r.wakeAt
  unfold initHibernationIn initHibernation
  simp only [Options.at]
  rw [← h1]
  clear h1
  revert h2
  rcases makeTriggerIn E o.filter.custom r.node H r.wakeAt with ⟨w | e | _, H'⟩ <;> intro h2
  · dsimp only
    obtain ⟨h3, h4⟩ := makeTriggerIn_spec E o.filter H' r.node r.sleepAt
    rw [← makeTrigger_like E o.filter h2 r.node r.sleepAt, ← h3]
    clear h3
    revert h4
    rcases makeTriggerIn E o.filter.custom r.node H' r.sleepAt with ⟨s | e | _, H''⟩ <;> intro h4
    all_goals exact ⟨rfl, h2.trans h4⟩
  all_goals exact ⟨rfl, h2⟩

theorem nav_undefined (o : Options κ) (sub : Subscription) : o.undefined.nav sub = o.nav sub := rfl
theorem initSampling_undefined (o : Options κ) : initSampling o.undefined = (initSampling o).undefined := by
  have e : o.undefined.sampling = o.sampling := rfl
  unfold initSampling
  rw [e]
  split <;> rfl

theorem ready_undefined {o o' : Options κ} (h : o.undefined = o'.undefined) (sub : Subscription) :
    (initSampling o).nav sub = (initSampling o').nav sub ∧ (initSampling o).sampling = (initSampling o').sampling ∧
      (initSampling o).undefined = (initSampling o').undefined := by
  have h' : (initSampling o).undefined = (initSampling o').undefined := by
    rw [← initSampling_undefined, ← initSampling_undefined, h]
  refine ⟨?_, ?_, h'⟩
  · rw [← nav_undefined, h', nav_undefined]
  · have := congrArg (fun z : Options κ => z.sampling) h'
    exact this

theorem createPrimary_retains (E : Engine) {o o1 : Options κ} {p : Option (Primary × (Node → Bool))}
    (h : createPrimary E o = .ok (p, o1)) : o1.filter = o.filter ∧ o1.hibernate = o.hibernate := by
  unfold createPrimary at h
  repeat' split at h
  all_goals (first | (simp only [Made.ok.injEq, Prod.mk.injEq] at h; rw [← h.2]; exact ⟨rfl, rfl⟩) | simp only [reduceCtorEq] at h)

theorem registerFilter_at (E : Engine) {o o1 : Options κ} {f : FilterOpts} (r : Refs) (H : Heap)
    (h : registerFilter E (o.at r H) = .ok (f, o1)) : o1.at r H = o1 := by
  unfold registerFilter at h
  cases hc : createPrimary E (o.at r H) with
  | err e => rw [hc] at h; simp only [reduceCtorEq] at h
  | panic => rw [hc] at h; simp only [reduceCtorEq] at h
  | ok x =>
    obtain ⟨p, o2⟩ := x
    obtain ⟨h1, h2⟩ := createPrimary_retains E hc
    rw [hc] at h
    dsimp only at h
    cases hch : createChild E o2 with
    | err e => rw [hch] at h; simp only [reduceCtorEq] at h
    | panic => rw [hch] at h; simp only [reduceCtorEq] at h
    | ok c =>
      rw [hch] at h
      simp only [Made.ok.injEq, Prod.mk.injEq] at h
      obtain ⟨-, rfl⟩ := h
      simp only [Options.at, h1, h2]
      cases o2
      simp_all [Options.at]

theorem buildRestIn_spec (P : Platform κ) (sub : Subscription) (resume : Option Strategy) (r : Refs) (o : Options κ) (H : Heap) :
    (buildRestIn P sub resume r o H).1.undefined = (buildRest P sub resume (o.at r H)).undefined ∧
      H.Like (buildRestIn P sub resume r o H).2 := by
  unfold buildRestIn buildRest
  split
  · exact ⟨rfl, Heap.Like.rfl' H⟩
  obtain ⟨h1, h2⟩ := registerFilterIn_spec P.engine o r H
  have hat : ∀ f o1, registerFilter P.engine (o.at r H) = .ok (f, o1) → o1.at r H = o1 := fun f o1 h => registerFilter_at _ r H h
  revert h1 h2 hat
  rcases registerFilterIn P.engine r o H with ⟨⟨p, o1⟩ | e | _, H'⟩ <;>
    rcases registerFilter P.engine (o.at r H) with ⟨q, o2⟩ | e' | _ <;>
    intro h1 h2 hat <;> simp only [Made.map, Made.ok.injEq, Made.err.injEq, Prod.mk.injEq, reduceCtorEq] at h1
  · obtain ⟨rfl, h1⟩ := h1
    dsimp only
    obtain ⟨h3, h4⟩ := initHibernationIn_spec P.engine o1 r H'
    have e : initHibernation P.engine o2 = (initHibernationIn P.engine r o1 H').1 := by
      rw [h3, initHibernation_like P.engine o1 r h2, at_of_undefined h1, hat _ _ rfl]
    rw [e]
    clear e h3
    revert h4
    rcases initHibernationIn P.engine r o1 H' with ⟨w | e | _, H''⟩ <;> intro h4 <;> dsimp only
    · obtain ⟨k1, k2, k3⟩ := ready_undefined (o := o1.at r H'') (o' := o2) (by rw [undefined_at]; exact h1) sub
      refine ⟨?_, h2.trans h4⟩
      simp only [Built.undefined]
      rw [k1, k2, k3]
    · refine ⟨?_, h2.trans h4⟩
      simp only [Built.undefined, undefined_at, h1]
    · exact ⟨rfl, h2.trans h4⟩
  · subst h1; exact ⟨rfl, h2⟩
  · exact ⟨rfl, h2⟩

theorem buildRest_like (P : Platform κ) (sub : Subscription) (resume : Option Strategy) (r : Refs) (o : Options κ) {H H' : Heap}
    (h : H.Like H') : (buildRest P sub resume (o.at r H')).undefined = (buildRest P sub resume (o.at r H)).undefined := by
  unfold buildRest
  split
  · rfl
  have h1 := registerFilter_like P.engine o r h
  have hat : ∀ f o1, registerFilter P.engine (o.at r H) = .ok (f, o1) → o1.at r H = o1 := fun f o1 h => registerFilter_at _ r H h
  have hat' : ∀ f o1, registerFilter P.engine (o.at r H') = .ok (f, o1) → o1.at r H' = o1 := fun f o1 h => registerFilter_at _ r H' h
  revert h1 hat hat'
  rcases registerFilter P.engine (o.at r H') with ⟨p, o1⟩ | e | _ <;>
    rcases registerFilter P.engine (o.at r H) with ⟨q, o2⟩ | e' | _ <;>
    intro h1 hat hat' <;> simp only [Made.map, Made.ok.injEq, Made.err.injEq, Prod.mk.injEq, reduceCtorEq] at h1
  · obtain ⟨rfl, h1⟩ := h1
    dsimp only
    have e : initHibernation P.engine o1 = initHibernation P.engine o2 := by
      rw [← hat' _ _ rfl, initHibernation_like P.engine o1 r h, at_of_undefined h1, hat _ _ rfl]
    rw [e]
    clear e
    rcases initHibernation P.engine o2 with w | e | _ <;> dsimp only
    · obtain ⟨k1, k2, k3⟩ := ready_undefined (o := o1) (o' := o2) h1 sub
      simp only [Built.undefined]
      rw [k1, k2, k3]
    · simp only [Built.undefined, h1]
  · subst h1; rfl
  · rfl

theorem after_like (P : Platform κ) (us : List (Use κ)) (H : Heap) : H.Like (H.after P us) := by
  induction us generalizing H with
  | nil => exact Heap.Like.rfl' H
  | cons u us ih => exact (buildRestIn_spec P u.sub u.resume u.refs u.o H).2.trans (ih _)

theorem navigate_undefined (b : Built κ) (h : κ → Parcel → κ × Reply) (disk : Disk) (tree : Path) (x : κ) :
    b.undefined.navigate h disk tree x = b.navigate h disk tree x := by
  cases b <;> rfl

theorem resume_undefined (b : Built κ) (s : Strategy) (h : κ → Parcel → κ × Reply) (disk : Disk) (a : Active) (x : κ) :
    b.undefined.resume s h disk a x = b.resume s h disk a x := by
  cases b <;> rfl

end Traverse
