import Verif.Model.Concurrent
/-
Clients that answer alike. `R` relates the states of two clients; they are alike if, from related states, their callbacks give the
same answers and leave related states behind. Nothing is said of what they do besides.
-/
namespace Traverse
variable {κ κ' : Type}

/-- Two node handlers that answer alike. -/
def HandlersAlike (R : κ → κ' → Prop) (h : κ → Parcel → κ × Reply) (h' : κ' → Parcel → κ' × Reply) : Prop :=
  ∀ k k' p, R k k' → (h k p).2 = (h' k' p).2 ∧ R (h k p).1 (h' k' p).1

/-- Two panic handlers that answer alike. -/
def PanicsAlike (R : κ → κ' → Prop) (f : κ → Active → κ × Rescue) (f' : κ' → Active → κ' × Rescue) : Prop :=
  ∀ k k' a, R k k' → (f k a).2 = (f' k' a).2 ∧ R (f k a).1 (f' k' a).1

/-- Two fault handlers that answer alike. -/
def FaultsAlike (R : κ → κ' → Prop) (f : κ → Path → Err → κ × Option Err) (f' : κ' → Path → Err → κ' × Option Err) : Prop :=
  ∀ k k' p e, R k k' → (f k p e).2 = (f' k' p e).2 ∧ R (f k p e).1 (f' k' p e).1

/-- Two skip handlers that answer alike. -/
def SkipsAlike (R : κ → κ' → Prop) (f : κ → Node → Option Err → κ × Skip × Option Err)
    (f' : κ' → Node → Option Err → κ' × Skip × Option Err) : Prop :=
  ∀ k k' n e, R k k' → (f k n e).2 = (f' k' n e).2 ∧ R (f k n e).1 (f' k' n e).1

/-- The same machine for two clients: their default panic handlers answer alike. -/
structure Platform.Alike (R : κ → κ' → Prop) (P : Platform κ) (P' : Platform κ') : Prop where
  cpus : P.cpus = P'.cpus
  engine : P.engine = P'.engine
  sortSlice : P.sortSlice = P'.sortSlice
  save : PanicsAlike R P.save P'.save

/-- The same option, with handlers that answer alike and listeners that keep related states related. -/
def With.Alike (R : κ → κ' → Prop) : With κ → With κ' → Prop
  | .cpu, .cpu | .exclusiveWake, .exclusiveWake | .inclusiveSleep, .inclusiveSleep | .caseSensitiveSort, .caseSensitiveSort
  | .noRecurse, .noRecurse => True
  | .noW n, .noW n' => n = n'
  | .output o, .output o' => o = o'
  | .filter f s, .filter f' s' => f = f' ∧ s = s'
  | .filterWake d, .filterWake d' => d = d'
  | .filterSleep d, .filterSleep d' => d = d'
  | .hibernation h, .hibernation h' => h = h'
  | .fileSubPath f, .fileSubPath f' => f = f'
  | .directorySubPath f, .directorySubPath f' => f = f'
  | .queryStatus f, .queryStatus f' => f = f'
  | .readDirectory f, .readDirectory f' => f = f'
  | .sort f, .sort f' => f = f'
  | .adminPath p, .adminPath p' => p = p'
  | .logger l, .logger l' => l = l'
  | .behaviours b, .behaviours b' => b = b'
  | .subPath b, .subPath b' => b = b'
  | .sortBehaviour a b, .sortBehaviour a' b' => a = a' ∧ b = b'
  | .depth n, .depth n' => n = n'
  | .sampling s, .sampling s' => s = s'
  | .faultHandler f, .faultHandler f' => FaultsAlike R f f'
  | .panicHandler f, .panicHandler f' => PanicsAlike R f f'
  | .skipHandler f, .skipHandler f' => SkipsAlike R f f'
  | .on e l, .on e' l' => e = e' ∧ ∀ n k k', R k k' → R (l n k) (l' n k')
  | _, _ => False

/-- Two lists of options that are the same option for option, except that either client may in addition listen to any event, at any
place in the list, as long as that leaves the states related. -/
inductive OptionsAlike (R : κ → κ' → Prop) : List (With κ) → List (With κ') → Prop
  | nil : OptionsAlike R [] []
  | both {w w' s s'} : w.Alike R w' → OptionsAlike R s s' → OptionsAlike R (w :: s) (w' :: s')
  | first (e) {l s s'} : (∀ n k k', R k k' → R (l n k) k') → OptionsAlike R s s' → OptionsAlike R (.on e l :: s) s'
  | second (e) {l' s s'} : (∀ n k k', R k k' → R k (l' n k')) → OptionsAlike R s s' → OptionsAlike R s (.on e l' :: s')

/-- Two facades for the same tree and subscription, with handlers that answer alike. -/
structure Using.Alike (R : κ → κ' → Prop) (u : Using κ) (u' : Using κ') : Prop where
  tree : u.tree = u'.tree
  sub : u.sub = u'.sub
  handler : ∃ h h', u.handler = some h ∧ u'.handler = some h' ∧ HandlersAlike R h h'
  o : u.o = none ∧ u'.o = none

/-- Two facades to resume from the same file with the same strategy, with handlers that answer alike. -/
structure Relic.Alike (R : κ → κ' → Prop) (r : Relic κ) (r' : Relic κ') : Prop where
  «from» : r.from = r'.from
  strategy : r.strategy = r'.strategy
  forest : r.forest = r'.forest
  handler : ∃ h h', r.handler = some h ∧ r'.handler = some h' ∧ HandlersAlike R h h'

/-- The same session but for the client's state, and that related. -/
structure Report.Alike (R : κ → κ' → Prop) (r : Report κ) (r' : Report κ') : Prop where
  verdict : r.verdict = r'.verdict
  tape : r.tape = r'.tape
  hits : r.hits = r'.hits
  metrics : r.metrics = r'.metrics
  complete : r.complete = r'.complete
  client : R r.client r'.client

/-! ### Observers -/

variable {ω : Type}

/-- An option of a client that shares the session with observers whose own state is `ω`: its callbacks leave that alone. -/
def With.beside : With κ → With (κ × ω)
  | .on e l => .on e (fun n (k, y) => (l n k, y))
  | .faultHandler f => .faultHandler (fun (k, y) p e => match f k p e with | (k, r) => ((k, y), r))
  | .panicHandler f => .panicHandler (fun (k, y) a => match f k a with | (k, r) => ((k, y), r))
  | .skipHandler f => .skipHandler (fun (k, y) n e => match f k n e with | (k, r) => ((k, y), r))
  | .cpu => .cpu | .noW n => .noW n | .output o => .output o | .filter f s => .filter f s | .exclusiveWake => .exclusiveWake
  | .inclusiveSleep => .inclusiveSleep | .filterWake d => .filterWake d | .filterSleep d => .filterSleep d
  | .hibernation h => .hibernation h | .caseSensitiveSort => .caseSensitiveSort | .fileSubPath f => .fileSubPath f
  | .directorySubPath f => .directorySubPath f | .queryStatus f => .queryStatus f | .readDirectory f => .readDirectory f
  | .sort f => .sort f | .adminPath p => .adminPath p | .logger l => .logger l | .behaviours b => .behaviours b
  | .subPath b => .subPath b | .sortBehaviour a b => .sortBehaviour a b | .depth n => .depth n | .noRecurse => .noRecurse
  | .sampling q => .sampling q

/-- The options of a client with observers added anywhere: each listens to one event, sees the client's state and changes its own. -/
inductive Attended : List (With κ) → List (With (κ × ω)) → Prop
  | nil : Attended [] []
  | own (w) {s s'} : Attended s s' → Attended (w :: s) (w.beside :: s')
  | watch (e : LifeEv) (f : Note → κ → ω → ω) {s s'} : Attended s s' → Attended s (.on e (fun n (k, y) => (k, f n k y)) :: s')

/-- The handler of such a client. -/
def besides (h : κ → Parcel → κ × Reply) : κ × ω → Parcel → (κ × ω) × Reply := fun (k, y) p => match h k p with | (k, r) => ((k, y), r)

/-- The machine of such a client. -/
def Platform.beside (P : Platform κ) : Platform (κ × ω) :=
  { cpus := P.cpus, engine := P.engine, sortSlice := P.sortSlice, save := fun (k, y) a => match P.save k a with | (k, r) => ((k, y), r) }

/-! ### Interference -/

/-- Callbacks that share their state with the handlers in the workers of a concurrent session: `m t` is all that these have done to the
state before the navigator's `t`th call of a callback. -/
def With.disturbed (m : Nat → κ → κ) : With κ → With (κ × Nat)
  | .on e l => .on e (fun n (k, t) => (l n (m t k), t + 1))
  | .faultHandler f => .faultHandler (fun (k, t) p e => match f (m t k) p e with | (k, r) => ((k, t + 1), r))
  | .panicHandler f => .panicHandler (fun (k, t) a => match f (m t k) a with | (k, r) => ((k, t + 1), r))
  | .skipHandler f => .skipHandler (fun (k, t) n e => match f (m t k) n e with | (k, r) => ((k, t + 1), r))
  | .cpu => .cpu | .noW n => .noW n | .output o => .output o | .filter f s => .filter f s | .exclusiveWake => .exclusiveWake
  | .inclusiveSleep => .inclusiveSleep | .filterWake d => .filterWake d | .filterSleep d => .filterSleep d
  | .hibernation h => .hibernation h | .caseSensitiveSort => .caseSensitiveSort | .fileSubPath f => .fileSubPath f
  | .directorySubPath f => .directorySubPath f | .queryStatus f => .queryStatus f | .readDirectory f => .readDirectory f
  | .sort f => .sort f | .adminPath p => .adminPath p | .logger l => .logger l | .behaviours b => .behaviours b
  | .subPath b => .subPath b | .sortBehaviour a b => .sortBehaviour a b | .depth n => .depth n | .noRecurse => .noRecurse
  | .sampling q => .sampling q

/-- The machine of such a client. -/
def Platform.disturbed (m : Nat → κ → κ) (P : Platform κ) : Platform (κ × Nat) :=
  { cpus := P.cpus, engine := P.engine, sortSlice := P.sortSlice,
    save := fun (k, t) a => match P.save (m t k) a with | (k, r) => ((k, t + 1), r) }

/-- The answers of the option's handler do not depend on the state. Listeners answer nothing. -/
def With.Unswayed : With κ → Prop
  | .faultHandler f => ∀ k k' p e, (f k p e).2 = (f k' p e).2
  | .panicHandler f => ∀ k k' a, (f k a).2 = (f k' a).2
  | .skipHandler f => ∀ k k' n e, (f k n e).2 = (f k' n e).2
  | _ => True

end Traverse
