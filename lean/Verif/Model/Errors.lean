import Verif.Model.Concurrent
/-
The errors of the library, and how they are recognised: core/errors.go, locale/messages-errors.go, stock/error.go,
collections/errors.go, internal/filtering/errors.go, internal/feat/filter/errors.go, internal/persist/comparison.go.
-/
namespace Traverse
variable {κ : Type}

/-- The error values the library keeps in variables, and the two of io/fs. Two different variables never compare equal: those of
core, collections and the filter packages are pointers (errors.New), those of locale are structs of types of their own.
(core/errors.go:57-224, collections/errors.go:8, internal/filtering/errors.go:27-29, internal/feat/filter/errors.go:18-20,
locale/messages-errors.go:32-823.) -/
inductive Sentinel where
  | skipDir | skipAll
  | filterIsNil | filterMissingType | filterCustomNotSupported | filterChildGlobExNotSupported | filterUndefined
  | internalFailedToGetNavigatorDriver | invalidIncaseFilterDef | workerPoolCreationFailed
  | missingFiles | missingDirectories | missingCustomFilterDefinition | extGlobMissingSeparator | polyFilterIsInvalid
  | usageMissingTreePath | usageMissingRestorePath | usageMissingSubscription | usageMissingHandler
  | idGeneratorFuncCantBeNil | unEqualConversion | resumeFsMismatch | panicOccurred
  | invalidNotificationMute | invalidResumeStateTransition | filteringInvalidResumeStateTransition | itemAlreadyExtended
  | missingDetacher | invalidPeriscopeTreePath | resumeControllerNotSet | guardianSealed | brokerTopicNotFound
  | spawnStackOverflow | wrongPrimaryFacade | wrongResumeFacade | nilForest | stackIsEmpty | noSubordinateHybridSchemes
  deriving DecidableEq, Repr

/-- What wraps an error: its own type with a text. `message` stands for errors.Wrap and for fmt.Errorf with %w.
(locale/messages-errors.go:183-205, 372-393, 639-693, 737-757, internal/persist/comparison.go:17-47.) -/
inductive Wrapper where
  | message (text : String)
  | incase (pattern : String)
  | extGlob (pattern : String)
  | traverseFs
  | resumeFs
  | saved (destination : String)
  | unequal (field : String)
  deriving DecidableEq, Repr

/-- A Go error: one of the library's, one of somebody else's, an error with `Unwrap() error`, one with `Unwrap() []error`
(of two), and TraversalNotSavedError, which holds two errors but unwraps to one of them
(locale/messages-errors.go:772-796). -/
inductive GoErr where
  | known (s : Sentinel)
  | foreign (n : Nat)
  | wrap (w : Wrapper) (inner : GoErr)
  | join (a b : GoErr)
  | notSaved (inner reason : GoErr)
  deriving DecidableEq, Repr

/-- errors.Is against one of the library's values, as used e.g. at core/errors.go:53-55 (the standard library's function, which
github.com/pkg/errors calls). -/
def GoErr.is (s : Sentinel) : GoErr → Bool
  | .known t => t == s
  | .foreign _ => false
  | .wrap _ e => e.is s
  | .join a b => a.is s || b.is s
  | .notSaved e _ => e.is s

/-- errors.As with a *locale.TraversalSavedError, reading the field Destination (locale/messages-errors.go:737-741). -/
def GoErr.destination : GoErr → Option String
  | .known _ => none
  | .foreign _ => none
  | .wrap (.saved d) _ => some d
  | .wrap _ e => e.destination
  | .join a b => a.destination <|> b.destination
  | .notSaved e _ => e.destination

/-! ### Constructors -/

/-- core/errors.go:43-48. -/
def newInvalidNotificationMuteRequested (n : String) : GoErr := .wrap (.message ("notification: " ++ n)) (.known .invalidNotificationMute)
/-- core/errors.go:65-70. -/
def newInvalidResumeStateTransition (n : String) : GoErr := .wrap (.message ("state: " ++ n)) (.known .invalidResumeStateTransition)
/-- core/errors.go:87-92. -/
def newItemAlreadyExtended (n : String) : GoErr := .wrap (.message ("path: " ++ n)) (.known .itemAlreadyExtended)
/-- core/errors.go:109-114. -/
def newMissingHibernationDetacherFunction (n : String) : GoErr := .wrap (.message ("state: " ++ n)) (.known .missingDetacher)
/-- core/errors.go:132-137. -/
def newInvalidPeriscopeRootPath (tree current : String) : GoErr :=
  .wrap (.message ("tree: '" ++ tree ++ "', current: '" ++ current ++ "'")) (.known .invalidPeriscopeTreePath)
/-- core/errors.go:154-159. -/
def newResumeControllerNotSet (n : String) : GoErr := .wrap (.message ("from: " ++ n)) (.known .resumeControllerNotSet)
/-- core/errors.go:184-189. -/
def newBrokerTopicNotFound (n : String) : GoErr := .wrap (.message ("topic: " ++ n)) (.known .brokerTopicNotFound)
/-- internal/filtering/errors.go:13-18. -/
def filteringNewInvalidResumeStateTransition (n : String) : GoErr :=
  .wrap (.message ("state: " ++ n)) (.known .filteringInvalidResumeStateTransition)
/-- locale/messages-errors.go:196-205. -/
def newInvalidIncaseFilterDef (pattern : String) : GoErr := .wrap (.incase pattern) (.known .invalidIncaseFilterDef)
/-- locale/messages-errors.go:384-393. -/
def newInvalidExtGlobFilterMissingSeparator (pattern : String) : GoErr := .wrap (.extGlob pattern) (.known .extGlobMissingSeparator)
/-- locale/messages-errors.go:651-658. -/
def newTraverseFsMismatch : GoErr := .wrap .traverseFs (.known .resumeFsMismatch)
/-- locale/messages-errors.go:686-693. -/
def newResumeFsMismatch : GoErr := .wrap .resumeFs (.known .resumeFsMismatch)
/-- locale/messages-errors.go:749-757; the panic's own error is dropped. -/
def newTraversalSaved (destination : String) (_ : GoErr) : GoErr := .wrap (.saved destination) (.known .panicOccurred)
/-- locale/messages-errors.go:788-796; so it is here. -/
def newTraversalNotSaved (_ reason : GoErr) : GoErr := .notSaved (.known .panicOccurred) reason

/-! ### Predicates: of an error or nil -/

/-- core/errors.go:53-55. -/
def isInvalidNotificationMuteRequestedError (e : Option GoErr) : Bool := e.any (GoErr.is .invalidNotificationMute)
/-- core/errors.go:75-77. -/
def isInvalidResumeStateTransitionError (e : Option GoErr) : Bool := e.any (GoErr.is .invalidResumeStateTransition)
/-- core/errors.go:97-99. -/
def isNewItemAlreadyExtendedError (e : Option GoErr) : Bool := e.any (GoErr.is .itemAlreadyExtended)
/-- core/errors.go:119-121. -/
def isMissingHibernationDetacherFunctionError (e : Option GoErr) : Bool := e.any (GoErr.is .missingDetacher)
/-- core/errors.go:142-144. -/
def isInvalidPeriscopeRootPathError (e : Option GoErr) : Bool := e.any (GoErr.is .invalidPeriscopeTreePath)
/-- core/errors.go:164-166. -/
def isResumeControllerNotSetError (e : Option GoErr) : Bool := e.any (GoErr.is .resumeControllerNotSet)
/-- core/errors.go:194-196. -/
def isBrokerTopicNotFoundError (e : Option GoErr) : Bool := e.any (GoErr.is .brokerTopicNotFound)
/-- internal/filtering/errors.go:23-25. -/
def filteringIsInvalidResumeStateTransitionError (e : Option GoErr) : Bool := e.any (GoErr.is .filteringInvalidResumeStateTransition)
/-- internal/feat/filter/errors.go:14-16. -/
def isNoSubordinateHybridSchemesDefinedError (e : Option GoErr) : Bool := e.any (GoErr.is .noSubordinateHybridSchemes)
/-- locale/messages-errors.go:211-213. -/
def isInvalidIncaseFilterDefError (e : Option GoErr) : Bool := e.any (GoErr.is .invalidIncaseFilterDef)
/-- locale/messages-errors.go:405-407. -/
def isInvalidExtGlobFilterMissingSeparatorError (e : Option GoErr) : Bool := e.any (GoErr.is .extGlobMissingSeparator)
/-- locale/messages-errors.go:700-702. -/
def isCoreResumeFsMismatchError (e : Option GoErr) : Bool := e.any (GoErr.is .resumeFsMismatch)
/-- locale/messages-errors.go:803-805. -/
def isCorePanicOccurredError (e : Option GoErr) : Bool := e.any (GoErr.is .panicOccurred)
/-- stock.IsBenignError (stock/error.go:16-22). -/
def isBenignError : Option GoErr → Bool
  | none => true
  | some e => e.is .skipDir || e.is .skipAll

/-! ### The errors of the other modules of the model -/

/-- What an `Err` is in Go: sentinels of io/fs, errors of the client and of the file system, and the two errors of a rescued
panic (navigator-agent.go:123-142). The panic's own error, which the constructors drop, is left out. -/
def Err.go : Err → GoErr
  | .skipDir => .known .skipDir
  | .skipAll => .known .skipAll
  | .code n => .foreign n
  | .wrap m e => .wrap (.message (toString m)) e.go
  | .join a b => .join a.go b.go
  | .saved d => newTraversalSaved d (.foreign 0)
  | .notSaved r => newTraversalNotSaved (.foreign 0) r.go

/-- internal/filtering/builders.go:34, 41-47, 77, 87, 138, glob-ex.go:129-158, child.go:26-42, sample.go:30-70. -/
def FilterErr.go : FilterErr → GoErr
  | .missingType => .known .filterMissingType
  | .badRegex => .foreign 1
  | .polyInvalid => .known .polyFilterIsInvalid
  | .missingSeparator pattern => newInvalidExtGlobFilterMissingSeparator pattern
  | .badSubPattern _ => .foreign 2
  | .childGlobEx => .known .filterChildGlobExNotSupported
  | .childCustom => .known .filterCustomNotSupported
  | .childUndefined => .known .filterUndefined
  | .nilFilter => .known .filterIsNil
  | .missingFiles => .known .missingFiles
  | .missingDirs => .known .missingDirectories
  | .client e => e.go

/-- internal/persist/unmarshaler.go and marshaler.go return the errors they get; comparison.go:17-47. -/
def PersistErr.go : PersistErr → GoErr
  | .io e => e.go
  | .syntax => .foreign 3
  | .unequal f => .wrap (.unequal f) (.known .unEqualConversion)

/-- pref/facade.go:107-131, scaffold.go:26-97, navigator-factory.go:60-68, synchronise.go:98-101 (where the text of
ErrWorkerPoolCreationFailed is used, not the error). -/
def BuildErr.go : BuildErr → GoErr
  | .missingTree => .known .usageMissingTreePath
  | .missingSubscription => .known .usageMissingSubscription
  | .missingHandler => .known .usageMissingHandler
  | .option e => e.go
  | .filter e => e.go
  | .wrongPrimaryFacade => .known .wrongPrimaryFacade
  | .wrongResumeFacade => .known .wrongResumeFacade
  | .load e => e.go
  | .nilForest => .known .nilForest
  | .traverseFsMismatch => newTraverseFsMismatch
  | .resumeFsMismatch => newResumeFsMismatch
  | .pool e => .wrap (.message "failed to create worker pool") e.go

/-- Relic.Validate with Head.Validate (pref/facade.go:107-113, 139-149), which a client may call; the library itself does not. -/
def Relic.validate (r : Relic κ) : Option Sentinel :=
  if r.from = "" then some .usageMissingRestorePath
  else if r.strategy = .undefined then some .usageMissingSubscription
  else if r.handler.isNone then some .usageMissingHandler
  else none

/-- The error Navigate returns (none: nil, or no return at all). (driver.go:29-37.) -/
def Report.error (r : Report κ) : Option GoErr :=
  match r.verdict with
  | .unbuilt e => some e.go
  | .done e => e.map Err.go
  | .panic => none

end Traverse
