import Verif.Model.Errors
/-
The texts of the library's errors and of its other messages: locale/messages-errors.go, locale/messages-general.go, locale/words.go,
locale/locale-defs.go, core/errors.go, collections/errors.go, internal/filtering/errors.go, internal/feat/filter/errors.go,
internal/persist/comparison.go.
-/
namespace Traverse

/-- A piece of a message's template: text, or `{{.Name}}`, as in locale/messages-errors.go:179. Templates are text/template's; of its
language no more is modelled than the library itself uses. -/
inductive Part where
  | lit (s : String)
  | field (name : String)
  deriving DecidableEq, Repr

/-- The types that implement Message(), in the order of the source
(locale/messages-errors.go:15-823, locale/messages-general.go:7-18, locale/words.go:7-37). -/
inductive Msg where
  | filterIsNil | filterMissingType | filterCustomNotSupported | filterChildGlobExNotSupported | filterUndefined | failedToGetNavigatorDriver | incase | coreIncase
  | workerPool | missingFiles | missingDirectories | missingCustomFilter | patternField | extGlob | coreExtGlob | polyFilter
  | missingTreePath | missingRestorePath | missingSubscription | missingHandler | idGenerator | unEqual | invalidPath | traverseFs
  | resumeFs | coreResumeFs | saved | notSaved | corePanic | configFile | prohibitive | permissive
  deriving DecidableEq, Repr

/-- Message().ID of each type, the key by which translations are looked up (same lines as `Msg.other`). -/
def Msg.id : Msg → String
  | .filterIsNil => "filter-is-nil.age.static-error"
  | .filterMissingType => "filter-missing-type.age.static-error"
  | .filterCustomNotSupported => "custom-filter-not-supported-for-children.age.static-error"
  | .filterChildGlobExNotSupported => "glob-ex-filter-not-supported-for-children.age.static-error"
  | .filterUndefined => "filter-is-undefined.age.static-error"
  | .failedToGetNavigatorDriver => "failed-to-get-navigator-driver.age.static-error"
  | .incase => "invalid-incase-filter-definition.age.dynamic-error"
  | .coreIncase => "invalid-incase-filter-definition.age.core-error"
  | .workerPool => "failed-to-create-worker-pool.age.static-error"
  | .missingFiles => "invalid-file-sampling-spec-missing-files.age.static-error"
  | .missingDirectories => "invalid-file-sampling-spec-missing-directories.age.static-error"
  | .missingCustomFilter => "missing-custom-filter-definition.age.static-error"
  | .patternField => "pattern.field"
  | .extGlob => "invalid-glob-ex-filter-missing-separator.age.dynamic-error"
  | .coreExtGlob => "invalid-extended-glob-filter-missing-separator.age.core-error"
  | .polyFilter => "poly-filter-is-invalid.age.static-error"
  | .missingTreePath => "usage-missing-tree-path.age.static-error"
  | .missingRestorePath => "usage-missing-restore-path.age.static-error"
  | .missingSubscription => "usage-missing-subscription.age.static-error"
  | .missingHandler => "usage-missing-handler.age.static-error"
  | .idGenerator => "id-generator-func-cant-be-nil.age.static-error"
  | .unEqual => "un-equal-conversion.age.static-error"
  | .invalidPath => "invalid-path.age.dynamic-error"
  | .traverseFs => "traverse-fs-mismatch.age.dynamic-error"
  | .resumeFs => "resume-fs-mismatch.age.dynamic-error"
  | .coreResumeFs => "core-resume-fs-mismatch.age.core-error"
  | .saved => "traversal-saved.age.dynamic-error"
  | .notSaved => "traversal-not-saved.age.dynamic-error"
  | .corePanic => "core-panic-occurred.age.core-error"
  | .configFile => "using-config-file"
  | .prohibitive => "prohibitive.word"
  | .permissive => "permissive.word"

/-- Message().Other of each type, the English template (lines behind each case). -/
def Msg.other : Msg → List Part
  | .filterIsNil => [.lit "filter is nil"]   -- locale/messages-errors.go:20-26
  | .filterMissingType => [.lit "filter missing type"]   -- locale/messages-errors.go:46-52
  | .filterCustomNotSupported => [.lit "custom filter not supported for children"]   -- locale/messages-errors.go:72-78
  | .filterChildGlobExNotSupported => [.lit "glob-ex filter not supported for children"]   -- locale/messages-errors.go:98-104
  | .filterUndefined => [.lit "filter is undefined"]   -- locale/messages-errors.go:124-130
  | .failedToGetNavigatorDriver => [.lit "failed to get navigator driver"]   -- locale/messages-errors.go:150-156
  | .incase => [.lit "pattern: ", .field "Pattern"]   -- locale/messages-errors.go:175-181
  | .coreIncase => [.lit "invalid incase filter definition; pattern is missing separator"]   -- locale/messages-errors.go:215-221
  | .workerPool => [.lit "failed to create worker pool"]   -- locale/messages-errors.go:241-247
  | .missingFiles => [.lit "invalid file sampling specification, missing no of files"]   -- locale/messages-errors.go:267-273
  | .missingDirectories => [.lit "invalid file sampling specification, missing no of directories"]   -- locale/messages-errors.go:293-299
  | .missingCustomFilter => [.lit "missing custom filter definition (config error)"]   -- locale/messages-errors.go:319-325
  | .patternField => [.lit "pattern: ", .field "Pattern"]   -- locale/messages-errors.go:346-352
  | .extGlob => [.lit "pattern: ", .field "Pattern"]   -- locale/messages-errors.go:363-369
  | .coreExtGlob => [.lit "invalid glob ex filter definition; pattern is missing separator"]   -- locale/messages-errors.go:410-416
  | .polyFilter => [.lit "poly filter definition is invalid"]   -- locale/messages-errors.go:436-442
  | .missingTreePath => [.lit "usage missing tree path"]   -- locale/messages-errors.go:462-468
  | .missingRestorePath => [.lit "usage missing restore path"]   -- locale/messages-errors.go:488-494
  | .missingSubscription => [.lit "usage missing subscription"]   -- locale/messages-errors.go:514-520
  | .missingHandler => [.lit "usage missing handler"]   -- locale/messages-errors.go:540-546
  | .idGenerator => [.lit "id generator func can't be nil"]   -- locale/messages-errors.go:566-572
  | .unEqual => [.lit "unequal JSON conversion"]   -- locale/messages-errors.go:592-598
  | .invalidPath => [.lit "path: ", .field "Path"]   -- locale/messages-errors.go:617-623
  | .traverseFs => [.lit "traverse-fs"]   -- locale/messages-errors.go:630-636
  | .resumeFs => [.lit "resume-fs"]   -- locale/messages-errors.go:665-671
  | .coreResumeFs => [.lit "resume file system mismatch"]   -- locale/messages-errors.go:704-710
  | .saved => [.lit "traversal saved: ", .field "Field"]   -- locale/messages-errors.go:727-733
  | .notSaved => [.lit "field: ", .field "Reason"]   -- locale/messages-errors.go:764-770
  | .corePanic => [.lit "panic occurred"]   -- locale/messages-errors.go:807-813
  | .configFile => [.lit "Using config file: ", .field "ConfigFileName"]   -- locale/messages-general.go:12-18
  | .prohibitive => [.lit "prohibitive"]   -- locale/words.go:15-21
  | .permissive => [.lit "permissive"]   -- locale/words.go:31-37

/-- The field of its own a type has besides the embedded agenorTemplData; none has two
(locale/messages-errors.go:170-173, 340-343, 357-360, 612-615, locale/messages-general.go:7-10). -/
def Msg.own : Msg → Option String
  | .incase => some "Pattern"
  | .patternField => some "Pattern"
  | .extGlob => some "Pattern"
  | .invalidPath => some "Path"
  | .configFile => some "ConfigFileName"
  | _ => none

/-- What `{{.Name}}` is replaced by for a value of the type: its own field, with the value `v`, or the method SourceID of the embedded
struct (locale/locale-defs.go:3-11); for any other name text/template's Execute returns an error. -/
def Msg.lookup (m : Msg) (v : String) (name : String) : Option String :=
  if m.own = some name then some v else if name = "SourceID" then some "github.com/snivilised/agenor" else none

/-- A template filled in (text/template's Execute, as go-i18n calls it; locale/messages-errors.go:188); `none` if that returns an
error. -/
def Msg.fill (m : Msg) (v : String) : List Part → Option String
  | [] => some ""
  | .lit s :: ps => (m.fill v ps).map (s ++ ·)
  | .field n :: ps => do let a ← m.lookup v n; let b ← m.fill v ps; pure (a ++ b)

/-- The translations loaded by li18ngo.Use: a template for some message ids (locale/messages-errors_test.go:33-46). -/
abbrev Translation := String → Option (List Part)

/-- No translation loaded. -/
def english : Translation := fun _ => none

/-- li18ngo.Text: the translation of the message, or else its English template, filled in (locale/messages-errors.go:188). What
li18ngo does when a template can't be filled in is not modelled: `none`, there is no text to show. -/
def Msg.text (tr : Translation) (m : Msg) (v : String) : Option String := m.fill v ((tr m.id).getD m.other)

/-- The text of an error variable: a fixed one (core/errors.go:57-224, collections/errors.go:8, internal/filtering/errors.go:27-29,
internal/feat/filter/errors.go:18-20, io/fs) or the message in its field Data (the `var Err…` of locale/messages-errors.go:32-823;
li18ngo.LocalisableError.Error is Text of Data). ErrPolyFilterIsInvalid has the data of another error: line 450. -/
def Sentinel.data : Sentinel → String ⊕ Msg
  | .skipDir => .inl "skip this directory"
  | .skipAll => .inl "skip everything and stop the walk"
  | .filterIsNil => .inr .filterIsNil
  | .filterMissingType => .inr .filterMissingType
  | .filterCustomNotSupported => .inr .filterCustomNotSupported
  | .filterChildGlobExNotSupported => .inr .filterChildGlobExNotSupported
  | .filterUndefined => .inr .filterUndefined
  | .internalFailedToGetNavigatorDriver => .inr .failedToGetNavigatorDriver
  | .invalidIncaseFilterDef => .inr .coreIncase
  | .workerPoolCreationFailed => .inr .workerPool
  | .missingFiles => .inr .missingFiles
  | .missingDirectories => .inr .missingDirectories
  | .missingCustomFilterDefinition => .inr .missingCustomFilter
  | .extGlobMissingSeparator => .inr .coreExtGlob
  | .polyFilterIsInvalid => .inr .filterIsNil
  | .usageMissingTreePath => .inr .missingTreePath
  | .usageMissingRestorePath => .inr .missingRestorePath
  | .usageMissingSubscription => .inr .missingSubscription
  | .usageMissingHandler => .inr .missingHandler
  | .idGeneratorFuncCantBeNil => .inr .idGenerator
  | .unEqualConversion => .inr .unEqual
  | .resumeFsMismatch => .inr .coreResumeFs
  | .panicOccurred => .inr .corePanic
  | .invalidNotificationMute => .inl "invalid notification mute requested"
  | .invalidResumeStateTransition => .inl "invalid resume state transition detected"
  | .filteringInvalidResumeStateTransition => .inl "invalid resume state transition detected"
  | .itemAlreadyExtended => .inl "item already extended for item"
  | .missingDetacher => .inl "missing listen detacher function"
  | .invalidPeriscopeTreePath => .inl "tree path can't be longer than current"
  | .resumeControllerNotSet => .inl "resume controller not set"
  | .guardianSealed => .inl "can't decorate, last item is sealed"
  | .brokerTopicNotFound => .inl "broker topic not found"
  | .spawnStackOverflow => .inl "spawn resume stack-overflow protection"
  | .wrongPrimaryFacade => .inl "wrong primary facade"
  | .wrongResumeFacade => .inl "wrong resume facade"
  | .nilForest => .inl "forest is nil"
  | .stackIsEmpty => .inl "internal: stack is empty"
  | .noSubordinateHybridSchemes => .inl "invalid filter scheme, both primary and child not set"

/-- Error() of an error variable (core/errors.go:57-224, locale/messages-errors.go:32-823). -/
def Sentinel.text (tr : Translation) (s : Sentinel) : Option String :=
  match s.data with
  | .inl t => some t
  | .inr m => m.text tr ""

/-- What the texts of errors that are not the library's are, and how fmt prints the two values of an UnequalValueError or
UnequalPtrError (internal/persist/comparison.go:23-27, 39-43), "value: …, other: …". -/
structure Others where
  foreign : Nat → String
  values : String → String

/-- Error() of an error (locale/messages-errors.go:187-189, 376-378, 643-645, 678-680, 743-745, 778-782,
internal/persist/comparison.go:23-27; github.com/pkg/errors's Wrap puts "message: " in front; errors.Join puts each on a line of its
own). The argument of each wrapper is that of its constructor; TraversalSavedError's Destination is not used. Of
UnequalPtrError the text begins with "unequal-ptr(" instead. -/
def GoErr.text (tr : Translation) (o : Others) : GoErr → Option String
  | .known s => s.text tr
  | .foreign n => some (o.foreign n)
  | .wrap (.message t) e => do let b ← e.text tr o; pure (t ++ ": " ++ b)
  | .wrap (.incase p) e => do let a ← e.text tr o; let b ← Msg.incase.text tr p; pure (a ++ ", " ++ b)
  | .wrap (.extGlob p) e => do let a ← e.text tr o; let b ← Msg.extGlob.text tr p; pure (a ++ ", " ++ b)
  | .wrap .traverseFs e => do let a ← Msg.traverseFs.text tr ""; let b ← e.text tr o; pure (a ++ ", " ++ b)
  | .wrap .resumeFs e => do let a ← Msg.resumeFs.text tr ""; let b ← e.text tr o; pure (a ++ ", " ++ b)
  | .wrap (.saved _) e => do let a ← e.text tr o; let b ← Msg.saved.text tr ""; pure (a ++ ", " ++ b)
  | .wrap (.unequal f) _ => some ("unequal(" ++ f ++ ") => " ++ o.values f)
  | .join a b => do let a ← a.text tr o; let b ← b.text tr o; pure (a ++ "\n" ++ b)
  | .notSaved e r => do
    let a ← e.text tr o
    let b ← Msg.notSaved.text tr ""
    let c ← r.text tr o
    pure (a ++ ", " ++ b ++ " (" ++ c ++ ")")

end Traverse
