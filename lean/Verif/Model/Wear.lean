import Verif.Model.Resume
/-
Building a session from filter definitions that are held by pointer: internal/filtering (builders.go, glob-ex.go, new-filter.go)
changes the scope of some definitions in place. Model/Filters builds from copies; here the definitions live in memory.
-/
namespace Traverse
variable {κ : Type}

/-- The filter definitions in memory: FilterOptions.Node, HibernateOptions.WakeAt and SleepAt are pointers to core.FilterDef
(pref/options-filter.go:23-27, core/hibernate.go:18-24), whose Poly is a pointer to core.PolyFilterDef (core/filtering.go:33-66).
What lies below the two constituents of that is never followed, and is kept as a value. -/
structure Heap where
  defs : Nat → FilterCore × Option Nat
  polys : Nat → FilterDef × FilterDef

/-- The definition a pointer points to. (core/filtering.go:33-66.) -/
def Heap.get (H : Heap) (a : Nat) : FilterDef :=
  match (H.defs a).2 with
  | none => .plain (H.defs a).1
  | some p => .both (H.defs a).1 (H.polys p).1 (H.polys p).2

/-- A store to the fields of a definition other than Poly (glob-ex.go:33). -/
def Heap.put (H : Heap) (a : Nat) (c : FilterCore) : Heap :=
  { H with defs := fun b => if b = a then (c, (H.defs a).2) else H.defs b }

/-- A store to the two constituents of a poly definition (builders.go:69-75, glob-ex.go:33). -/
def Heap.putPoly (H : Heap) (p : Nat) (c : FilterDef × FilterDef) : Heap :=
  { H with polys := fun q => if q = p then c else H.polys q }

/-- buildNativeNodeFilter (builders.go:13-42) with the definition as it leaves it: createGlobExFilter changes the scope once the
pattern was found to have a separator (glob-ex.go:20-50). -/
def buildNativeIn (E : Engine) (d : FilterCore) : Made (Option Filter) × FilterCore :=
  match d.type with
  | .globEx =>
    (match splitGlobExPattern d.pattern with
      | .err e => (.err e, d)
      | .panic => (.panic, d)
      | .ok (seg0, patterns) =>
        let d := { d with scope := Scope.file }
        let (base, excl) := splitGlob E seg0
        match newSpec E base excl patterns with
        | .error e => (.err e, d)
        | .ok g => (.ok (some (.globEx (FBase.mk d.pattern d.scope d.negate (applicable d.ifNotApplicable)).validate g)), d))
  | .regex =>
    if E.compiles d.pattern then
      (.ok (some (.regex (FBase.mk d.pattern d.scope d.negate (applicable d.ifNotApplicable)).validate)), d)
    else (.err .badRegex, d)
  | .glob => (.ok (some (.glob (FBase.mk d.pattern d.scope d.negate (applicable d.ifNotApplicable)).validate)), d)
  | .custom | .poly => (.ok none, d)
  | .undefined => (.err .missingType, d)

/-- buildConstituent (builders.go:104-127) likewise. -/
def buildConstituentIn (E : Engine) (custom : Option CustomFilter) (d : FilterCore) : Made Filter × FilterCore :=
  match custom with
  | some c => (match c.validate with | some e => (.err (.client e), d) | none => (.ok (.custom c.isMatch), d))
  | none =>
    match buildNativeIn E d with
    | (.ok (some f), d) => (.ok f, d)
    | (.ok none, d) => (.panic, d)
    | (.err e, d) => (.err e, d)
    | (.panic, d) => (.panic, d)

/-- buildPolyNodeFilter (builders.go:58-102) on the definition at `a`; the one that is used and changed is fo.Node's, at `node`:
both constituents first get their scopes (69-75), then each is built. -/
def buildPolyIn (E : Engine) (custom : Option CustomFilter) (node : Option Nat) (a : Nat) (H : Heap) :
    Made (Option Filter) × Heap :=
  if (H.defs a).1.type ≠ .poly then (.ok none, H)
  else match node with
    | none => (.panic, H)
    | some n =>
      match (H.defs n).2 with
      | none => (.panic, H)
      | some p =>
        let file := (H.polys p).1.mapCore (·.narrow Scope.file Scope.directory)
        let dir := (H.polys p).2.mapCore (·.narrow Scope.directory Scope.file)
        let H := H.putPoly p (file, dir)
        if file.core.type = .poly then (.err .polyInvalid, H)
        else
          let rf := buildConstituentIn E custom file.core
          let file := file.mapCore fun _ => rf.2
          let H := H.putPoly p (file, dir)
          match rf.1 with
          | .err e => (.err e, H)
          | .panic => (.panic, H)
          | .ok ff =>
            if dir.core.type = .poly then (.err .polyInvalid, H)
            else
              let rd := buildConstituentIn E custom dir.core
              let H := H.putPoly p (file, dir.mapCore fun _ => rd.2)
              match rd.1 with
              | .err e => (.err e, H)
              | .panic => (.panic, H)
              | .ok fd => (.ok (some (.poly ff fd)), H)

/-- New (new-filter.go:8-22) on the definition at `a`. -/
def newFilterIn (E : Engine) (custom : Option CustomFilter) (node : Option Nat) (a : Nat) (H : Heap) :
    Made (Option Filter) × Heap :=
  match buildPolyIn E custom node a H with
  | (.err e, H) => (.err e, H)
  | (.panic, H) => (.panic, H)
  | (.ok (some f), H) => (.ok (some f), H)
  | (.ok none, H) =>
    match custom with
    | some c => (.ok (some (.custom c.isMatch)), H)
    | none =>
      let r := buildNativeIn E (H.defs a).1
      (r.1, H.put a r.2)

/-- The three pointers of an options object. (pref/options-filter.go:23-27, core/hibernate.go:18-24.) -/
structure Refs where
  node : Option Nat := none
  wakeAt : Option Nat := none
  sleepAt : Option Nat := none
  deriving DecidableEq, Repr

/-- The options object `o`, with what its three pointers point to. (pref/options-filter.go:23-27, core/hibernate.go:18-24.) -/
def Options.at (o : Options κ) (r : Refs) (H : Heap) : Options κ :=
  { o with
    filter := { o.filter with node := r.node.map H.get }
    hibernate := { o.hibernate with wakeAt := r.wakeAt.map H.get, sleepAt := r.sleepAt.map H.get } }

/-- As createPrimary (schemes.go:68-88, scheme-custom.go:15-19, scheme-native.go:15-30, scheme-sampler.go:19-39). -/
def createPrimaryIn (E : Engine) (r : Refs) (o : Options κ) (H : Heap) :
    Made (Option (Primary × (Node → Bool)) × Options κ) × Heap :=
  match o.filter.custom with
  | some _ => (createPrimary E (o.at r H), H)   -- the definitions are not looked at
  | none =>
    if (o.at r H).filter.nodeActive then
      match r.node with
      | none => (.panic, H)
      | some n =>
        match newFilterIn E o.filter.custom r.node n H with
        | (.ok (some f), H) => (.ok (some (.node (f.predicate E), f.dies E), o.at r H), H)
        | (.ok none, H) => (.panic, H)
        | (.err e, H) => (.err e, H)
        | (.panic, H) => (.panic, H)
    else (createPrimary E (o.at r H), H)   -- a sample filter, or none

/-- As registerFilter (filter-plugin.go:37-43, scheme-hybrid.go:24-40). -/
def registerFilterIn (E : Engine) (r : Refs) (o : Options κ) (H : Heap) : Made (FilterOpts × Options κ) × Heap :=
  match createPrimaryIn E r o H with
  | (.err e, H) => (.err e, H)
  | (.panic, H) => (.panic, H)
  | (.ok (p, o1), H) =>
    match createChild E o1 with
    | .err e => (.err e, H)
    | .panic => (.panic, H)
    | .ok c => (.ok (⟨p.map Prod.fst, c, (p.map Prod.snd).getD fun _ => false⟩, o1), H)

/-- As makeTrigger (hibernate-simple-profile.go:25-31, 42-48). -/
def makeTriggerIn (E : Engine) (custom : Option CustomFilter) (node : Option Nat) (H : Heap) :
    Option Nat → Made (Option Filter) × Heap
  | none => (.ok none, H)
  | some a =>
    match newFilterIn E custom node a H with
    | (.ok (some f), H) => (.ok (some f), H)
    | (.ok none, H) => (.panic, H)
    | (.err e, H) => (.err e, H)
    | (.panic, H) => (.panic, H)

/-- As initHibernation (hibernate-plugin.go:41-47, hibernate-simple-profile.go:21-62). -/
def initHibernationIn (E : Engine) (r : Refs) (o : Options κ) (H : Heap) : Made HiberOpts × Heap :=
  match makeTriggerIn E o.filter.custom r.node H r.wakeAt with
  | (.err e, H) => (.err e, H)
  | (.panic, H) => (.panic, H)
  | (.ok w, H) =>
    match makeTriggerIn E o.filter.custom r.node H r.sleepAt with
    | (.err e, H) => (.err e, H)
    | (.panic, H) => (.panic, H)
    | (.ok s, H) =>
      (.ok { wakeAt := w.map (Filter.predicate E), sleepAt := s.map (Filter.predicate E),
             inclusiveWake := o.hibernate.inclusiveWake, inclusiveSleep := o.hibernate.inclusiveSleep,
             wakeDies := (w.map (Filter.dies E)).getD fun _ => false, sleepDies := (s.map (Filter.dies E)).getD fun _ => false }, H)

/-- As buildRest (builders.go:49-128), with the definitions as it leaves them. -/
def buildRestIn (P : Platform κ) (sub : Subscription) (resume : Option Strategy) (r : Refs) (o : Options κ) (H : Heap) :
    Built κ × Heap :=
  if sub = .undefined then (.hades .missingSubscription, H)
  else match registerFilterIn P.engine r o H with
    | (.err e, H) => (.hades (.filter e), H)
    | (.panic, H) => (.crash, H)
    | (.ok (f, o1), H) =>
      match initHibernationIn P.engine r o1 H with
      | (.err e, H) => (.stillborn (.filter e) (o1.at r H), H)
      | (.panic, H) => (.crash, H)
      | (.ok h, H) =>
        let o2 := initSampling (o1.at r H)
        (.ready { nav := o2.nav sub, hiber := h, filter := f, sampling := o2.sampling.active, resume := resume } o2, H)

/-- One use of an options object: what a session is built from. (extent.go:40-80.) -/
structure Use (κ : Type) where
  sub : Subscription
  resume : Option Strategy := none
  refs : Refs
  o : Options κ

/-- The definitions after the sessions of `us` were built, one after the other. (builders.go:49-128.) -/
def Heap.after (P : Platform κ) : List (Use κ) → Heap → Heap
  | [], H => H
  | u :: us, H => Heap.after P us (buildRestIn P u.sub u.resume u.refs u.o H).2

end Traverse
