import Verif.Model.Errors
/-
What it means to recognise an error, without errors.Is: being somewhere in the tree of errors, and what a client may put around an
error. A table of the functions that make errors and of those that recognise them.
-/
namespace Traverse

/-- `s` is the error itself or somewhere among the errors it unwraps to. -/
inductive InTree (s : Sentinel) : GoErr → Prop where
  | self : InTree s (.known s)
  | wrapped (w e) : InTree s e → InTree s (.wrap w e)
  | left (a b) : InTree s a → InTree s (.join a b)
  | right (a b) : InTree s b → InTree s (.join a b)
  | panicked (e r) : InTree s e → InTree s (.notSaved e r)

/-- A saved traversal, with its destination, is the error itself or somewhere among the errors it unwraps to. -/
inductive SavedIn (d : String) : GoErr → Prop where
  | self (e) : SavedIn d (.wrap (.saved d) e)
  | wrapped (w e) : SavedIn d e → SavedIn d (.wrap w e)
  | left (a b) : SavedIn d a → SavedIn d (.join a b)
  | right (a b) : SavedIn d b → SavedIn d (.join a b)
  | panicked (e r) : SavedIn d e → SavedIn d (.notSaved e r)

/-- What a client does to an error on its way up: wraps it, or joins it with others. -/
inductive Layer where
  | wrap (w : Wrapper)
  | before (other : GoErr)
  | after (other : GoErr)

def Layer.put : Layer → GoErr → GoErr
  | .wrap w, e => .wrap w e
  | .before o, e => .join o e
  | .after o, e => .join e o

/-- All layers around an error, innermost first. -/
def around (layers : List Layer) (e : GoErr) : GoErr := layers.foldl (fun e l => l.put e) e

/-- The errors that were joined to it. -/
def company (layers : List Layer) : List GoErr := layers.filterMap fun
  | .wrap _ => none
  | .before o => some o
  | .after o => some o

/-- The functions that recognise an error, by name. -/
inductive ErrTest where
  | InvalidNotificationMuteRequested | InvalidResumeStateTransition | NewItemAlreadyExtended | MissingHibernationDetacherFunction
  | InvalidPeriscopeRootPath | ResumeControllerNotSet | BrokerTopicNotFound | FilteringInvalidResumeStateTransition
  | NoSubordinateHybridSchemesDefined | InvalidIncaseFilterDef | InvalidExtGlobFilterMissingSeparator | CoreResumeFsMismatch
  | CorePanicOccurred
  deriving DecidableEq

def ErrTest.run : ErrTest → Option GoErr → Bool
  | .InvalidNotificationMuteRequested => isInvalidNotificationMuteRequestedError
  | .InvalidResumeStateTransition => isInvalidResumeStateTransitionError
  | .NewItemAlreadyExtended => isNewItemAlreadyExtendedError
  | .MissingHibernationDetacherFunction => isMissingHibernationDetacherFunctionError
  | .InvalidPeriscopeRootPath => isInvalidPeriscopeRootPathError
  | .ResumeControllerNotSet => isResumeControllerNotSetError
  | .BrokerTopicNotFound => isBrokerTopicNotFoundError
  | .FilteringInvalidResumeStateTransition => filteringIsInvalidResumeStateTransitionError
  | .NoSubordinateHybridSchemesDefined => isNoSubordinateHybridSchemesDefinedError
  | .InvalidIncaseFilterDef => isInvalidIncaseFilterDefError
  | .InvalidExtGlobFilterMissingSeparator => isInvalidExtGlobFilterMissingSeparatorError
  | .CoreResumeFsMismatch => isCoreResumeFsMismatchError
  | .CorePanicOccurred => isCorePanicOccurredError

/-- The functions that make an error, by name and with their arguments. -/
inductive ErrCall where
  | InvalidNotificationMuteRequested (s : String) | InvalidResumeStateTransition (s : String) | ItemAlreadyExtended (s : String)
  | MissingHibernationDetacherFunction (s : String) | InvalidPeriscopeRootPath (tree current : String)
  | ResumeControllerNotSet (s : String) | BrokerTopicNotFound (s : String) | FilteringInvalidResumeStateTransition (s : String)
  | NoSubordinateHybridSchemesDefined   -- a variable, not a function
  | InvalidIncaseFilterDef (s : String) | InvalidExtGlobFilterMissingSeparator (s : String)
  | TraverseFsMismatch | ResumeFsMismatch
  | TraversalSaved (destination : String) (panic : GoErr) | TraversalNotSaved (panic reason : GoErr)

def ErrCall.made : ErrCall → GoErr
  | .InvalidNotificationMuteRequested s => newInvalidNotificationMuteRequested s
  | .InvalidResumeStateTransition s => newInvalidResumeStateTransition s
  | .ItemAlreadyExtended s => newItemAlreadyExtended s
  | .MissingHibernationDetacherFunction s => newMissingHibernationDetacherFunction s
  | .InvalidPeriscopeRootPath t c => newInvalidPeriscopeRootPath t c
  | .ResumeControllerNotSet s => newResumeControllerNotSet s
  | .BrokerTopicNotFound s => newBrokerTopicNotFound s
  | .FilteringInvalidResumeStateTransition s => filteringNewInvalidResumeStateTransition s
  | .NoSubordinateHybridSchemesDefined => .known .noSubordinateHybridSchemes
  | .InvalidIncaseFilterDef s => newInvalidIncaseFilterDef s
  | .InvalidExtGlobFilterMissingSeparator s => newInvalidExtGlobFilterMissingSeparator s
  | .TraverseFsMismatch => newTraverseFsMismatch
  | .ResumeFsMismatch => newResumeFsMismatch
  | .TraversalSaved d p => newTraversalSaved d p
  | .TraversalNotSaved p r => newTraversalNotSaved p r

/-- The test that is meant for it: that of the same name; the two mismatches have one in common, and so have the two outcomes of a
panic. -/
def ErrCall.test : ErrCall → ErrTest
  | .InvalidNotificationMuteRequested _ => .InvalidNotificationMuteRequested
  | .InvalidResumeStateTransition _ => .InvalidResumeStateTransition
  | .ItemAlreadyExtended _ => .NewItemAlreadyExtended
  | .MissingHibernationDetacherFunction _ => .MissingHibernationDetacherFunction
  | .InvalidPeriscopeRootPath _ _ => .InvalidPeriscopeRootPath
  | .ResumeControllerNotSet _ => .ResumeControllerNotSet
  | .BrokerTopicNotFound _ => .BrokerTopicNotFound
  | .FilteringInvalidResumeStateTransition _ => .FilteringInvalidResumeStateTransition
  | .NoSubordinateHybridSchemesDefined => .NoSubordinateHybridSchemesDefined
  | .InvalidIncaseFilterDef _ => .InvalidIncaseFilterDef
  | .InvalidExtGlobFilterMissingSeparator _ => .InvalidExtGlobFilterMissingSeparator
  | .TraverseFsMismatch => .CoreResumeFsMismatch
  | .ResumeFsMismatch => .CoreResumeFsMismatch
  | .TraversalSaved _ _ => .CorePanicOccurred
  | .TraversalNotSaved _ _ => .CorePanicOccurred

end Traverse
