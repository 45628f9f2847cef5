/-
Model of clients made and used in several threads of a process: what the threads share is the flag
`load_once` of mh2c/ssl/ssl_connection.cpp.
-/
import Verif.Model.Tls

namespace Mh2c

/-- State of a `std::once_flag` (mh2c/ssl/ssl_connection.cpp:24): no call of the function yet, a
call in progress, a call has returned. -/
inductive OnceFlag
  | fresh
  | running
  | done
  deriving DecidableEq, Repr

/-- What a thread does next in the code of mh2c/ssl/ssl_connection.cpp:33-136. -/
inductive ThreadStep
  /-- an OpenSSL call on objects of its own -/
  | call (c : TlsCall)
  /-- mh2c/ssl/ssl_connection.cpp:37 `std::call_once(load_once, load_ssl_lib)` -/
  | once
  /-- it is inside `load_ssl_lib` (lines 26-29), about to return -/
  | finish
  deriving DecidableEq, Repr

/-- What can be seen of a step (mh2c/ssl/ssl_connection.cpp:26-37). -/
inductive ThreadEvent
  | call (c : TlsCall)
  /-- `load_ssl_lib` is entered -/
  | initBegin
  /-- `load_ssl_lib` returns -/
  | initEnd
  /-- `call_once` returns without calling -/
  | onceReturns
  deriving DecidableEq, Repr

/-- Any number of threads, by number, each with what it still has to do, and the flag of
mh2c/ssl/ssl_connection.cpp:24. -/
structure Threads where
  flag : OnceFlag
  todo : Nat → List ThreadStep

/-- Thread `i` has `rest` to do, the others as before (the state of mh2c/ssl/ssl_connection.cpp:24
and 37). -/
def Threads.set (p : Threads) (flag : OnceFlag) (i : Nat) (rest : List ThreadStep) : Threads :=
  ⟨flag, fun j => if j = i then rest else p.todo j⟩

/-- One step of one thread. `std::call_once` (mh2c/ssl/ssl_connection.cpp:37): the first caller runs
the function, callers that come while it runs have no step until it has returned, later callers
return at once. `load_ssl_lib` does not throw. -/
inductive ThreadsStep : Threads → Nat → ThreadEvent → Threads → Prop
  | call (p : Threads) (i : Nat) (c : TlsCall) (rest : List ThreadStep)
      (h : p.todo i = .call c :: rest) : ThreadsStep p i (.call c) (p.set p.flag i rest)
  | first (p : Threads) (i : Nat) (rest : List ThreadStep) (h : p.todo i = .once :: rest)
      (hf : p.flag = .fresh) : ThreadsStep p i .initBegin (p.set .running i (.finish :: rest))
  | finish (p : Threads) (i : Nat) (rest : List ThreadStep) (h : p.todo i = .finish :: rest) :
      ThreadsStep p i .initEnd (p.set .done i rest)
  | later (p : Threads) (i : Nat) (rest : List ThreadStep) (h : p.todo i = .once :: rest)
      (hf : p.flag = .done) : ThreadsStep p i .onceReturns (p.set .done i rest)

/-- The steps of all threads in any order, and what is seen of them
(mh2c/ssl/ssl_connection.cpp:33-136). -/
inductive ThreadsRun (p : Threads) : List (Nat × ThreadEvent) → Threads → Prop
  | start : ThreadsRun p [] p
  | step (trace : List (Nat × ThreadEvent)) (q r : Threads) (i : Nat) (e : ThreadEvent)
      (h : ThreadsRun p trace q) (hs : ThreadsStep q i e r) : ThreadsRun p (trace ++ [(i, e)]) r

/-- The steps of one client (`clientCalls`); the place of the library initialisation in them is the
`call_once` (mh2c/ssl/ssl_connection.cpp:37). -/
def clientSteps (r : ClientRun) : List ThreadStep :=
  (clientCalls false r.host r.port r.mode r.env r.uses).map fun c =>
    if c = .libraryInit then .once else .call c

/-- A process whose threads each make and use clients (mh2c/http2_client.cpp:163-167), one after the
other. -/
def Threads.new (runs : Nat → List ClientRun) : Threads :=
  ⟨.fresh, fun i => (runs i).flatMap clientSteps⟩

end Mh2c
