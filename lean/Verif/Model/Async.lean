import Verif.Model.Obd
/-!
# Model of `obd/asynchronous.py`

Two kinds of threads: the user's thread, which calls the methods of one `Async` object, and
the update threads created by `start()`.  A state contains all shared attributes and the
position of every thread in its code; `step` executes one action of one thread.  Any
sequence of actions is a schedule.

Granularity: every read or write of a shared attribute in `start`, `stop`, `__enter__`,
`__exit__` and `run` is a step of its own.  Atomic, as a simplification: one query of the
adapter, one change of the subscription tables (after `running` has been read), and one call
of a method made by a callback.  There is one user thread.  Time and sleeping durations are
not modelled.

The lists of callbacks are objects: `__callbacks` maps commands to list objects, `watch` and
`unwatch` change them in place, and the loop over such a list reads the object as it goes.

If the keys of the dictionary `__commands` change while the loop iterates over it, CPython notices
a change of the size and raises RuntimeError; if the size is the same, what happens depends on the
layout of its hash table.  Here both are possible then, RuntimeError and going on with any of the keys
(`Action.reorder`).
-/
namespace Model
open Py

/-- The methods of `Async`, obd/asynchronous.py:64-197; a callback is a number (`none`: no
callable was given). -/
inductive AOp where
  | start
  | stop
  | enter                                                       -- `with c.paused()`: `__enter__`
  | exit                                                        -- end of that block: `__exit__`
  | close
  | watch (c : OBDCommand) (cb : Option Nat) (force : Bool)
  | unwatch (c : OBDCommand) (cb : Option Nat)
  | unwatchAll
  | query (c : OBDCommand)
  | lowPower                                                    -- inherited from `OBD`
  | normalPower

/-- The iterator of `for c in self.__commands`, obd/asynchronous.py:207: which dictionary object,
its keys when the iterator was made, and the commands still to come. -/
structure Iter where
  dict : Nat
  keys : List CmdKey
  rest : List OBDCommand

/-- How an update thread ended: `run` returned (obd/asynchronous.py:203, 212) or raised (:207, :215,
:221, :222). -/
inductive End where
  | returned
  | listChanged             -- RuntimeError: the dictionary changed during iteration
  | missing                 -- KeyError: no callback list for the command
  | query (x : Exc)         -- the query raised
  | callback                -- a callback raised
  deriving DecidableEq

/-- Where an update thread is in `run`, obd/asynchronous.py:199-226. -/
inductive Pc where
  | notStarted                                                  -- `Thread` object made, not started
  | test                                                        -- :203 `while self.__running`
  | size                                                        -- :205 `if len(self.__commands) > 0`
  | iter                                                        -- :207 `for c in self.__commands`
  | next (it : Iter)                                            -- :207 next element
  | conn (it : Iter) (c : OBDCommand)                           -- :208 `if not self.is_connected()`
  | drop1                                                       -- :210 `self.__running = False`
  | drop2                                                       -- :211-212 `self.__thread = None`, `return`
  | query (it : Iter) (c : OBDCommand)                          -- :215 the query
  | store (it : Iter) (c : OBDCommand) (r : Response)           -- :218 `self.__commands[c] = r`
  | subs (it : Iter) (c : OBDCommand) (r : Response)            -- :221 `self.__callbacks[c]`
  | fire (it : Iter) (r : Response) (l i : Nat)                 -- :221 next callback: position `i` of list object `l`
  | inside (it : Iter) (r : Response) (l i : Nat)               -- :222 in a callback; the next one is at position `i`
  | sleep                                                       -- :223, :226
  | finished (e : End)

/-- Where the user's thread is in a method, obd/asynchronous.py:64-197. -/
inductive CPc where
  | startConn                                                   -- :66 `if not self.is_connected()`
  | startLen                                                    -- :70 `if len(self.__commands) == 0`
  | startNone                                                   -- :74 `if self.__thread is None`
  | startRun                                                    -- :76 `self.__running = True`
  | startNew                                                    -- :77 `self.__thread = Thread(...)`
  | startGo                                                     -- :78-79 `self.__thread.start()`
  | stopNone                                                    -- :83 `if self.__thread is not None`
  | stopRun                                                     -- :85 `self.__running = False`
  | stopRead                                                    -- :86 evaluating `self.__thread.join`
  | join (t : Nat)                                              -- :86 in `join()`
  | stopEnd                                                     -- :87 `self.__thread = None`
  | enter                                                       -- :105
  | exit                                                        -- :114
  | closeObd                                                    -- :122 `super().close()`
  | gate                                                        -- :132, :159, :181 `if self.__running`
  | modify                                                      -- the rest of these methods
  | ask                                                         -- :194-197
  | power                                                       -- obd/obd.py:176-188

/-- The user's thread: between two calls, or in a method (obd/asynchronous.py:64-197). -/
inductive Caller where
  | idle
  | busy (op : AOp) (pc : CPc)

/-- What can be observed of a run, in order: calls and returns of the methods of
obd/asynchronous.py:64-197 and the actions of `run`, :199-226. -/
inductive Ev where
  | call (op : AOp)                                             -- the user calls a method
  | ret (op : AOp)                                              -- which returns
  | raised (op : AOp) (x : Exc)                                 -- or raises
  | did (op : AOp)                                              -- a change of the subscriptions was carried out
  | answer (c : OBDCommand) (r : Response)                      -- the result of `query(c)`
  | started                                                     -- an update thread begins
  | queried (c : OBDCommand)                                    -- the loop queries the adapter
  | stored (c : OBDCommand) (r : Response)                      -- the loop has got a response
  | fired (cb : Nat) (r : Response)                             -- a callback is called
  | slept                                                       -- the loop sleeps
  | ended (e : End)                                             -- the update thread ends

/-- The state: the attributes of the `Async` object (obd/asynchronous.py:51-58), those of
`OBD`, and the positions of all threads.  `dictId` identifies the dictionary object bound to
`__commands`; `__callbacks` is `cbs`, whose values are positions in `lists`, the contents of all list objects
made so far; `log` is not part of the program. -/
structure AW where
  obd : OW
  commands : Dict CmdKey (OBDCommand × Response) := []
  cbs : Dict CmdKey Nat := []
  lists : List (List Nat) := []
  dictId : Nat := 0
  running : Bool := false
  wasRunning : Bool := false
  thread : Option Nat := none
  threads : List Pc := []
  caller : Caller := .idle
  log : List Ev := []

namespace AW

/-- Recording what happened; not part of the program (obd/asynchronous.py has no log of this kind). -/
def emit (e : Ev) (s : AW) : AW := { s with log := s.log ++ [e] }

/-- The contents of a list object of `__callbacks`, obd/asynchronous.py:53. -/
def list (s : AW) (i : Nat) : List Nat := s.lists.getD i []

/-- `__callbacks` with the contents of its lists, obd/asynchronous.py:53. -/
def callbacks (s : AW) : Dict CmdKey (List Nat) := s.cbs.map (fun e => (e.1, s.list e.2))

/-- `self.__callbacks[c] = []`, obd/asynchronous.py:144: a new list object. -/
def newList (k : CmdKey) (s : AW) : AW := { s with cbs := s.cbs.set k s.lists.length, lists := s.lists ++ [[]] }

/-- `append` and `remove` on a list object, obd/asynchronous.py:149, 167. -/
def setList (i : Nat) (l : List Nat) (s : AW) : AW := { s with lists := s.lists.set i l }

/-- `self.__commands[c] = r`, obd/asynchronous.py:218: an existing key keeps its key object. -/
def setResponse (d : Dict CmdKey (OBDCommand × Response)) (c : OBDCommand) (r : Response) : Dict CmdKey (OBDCommand × Response) :=
  d.set c.key (match d.get? c.key with
    | some (c', _) => (c', r)
    | none => (c, r))

/-- `watch` after `running` was read, obd/asynchronous.py:136-149. -/
def doWatch (c : OBDCommand) (cb : Option Nat) (force : Bool) (s : AW) : Except Exc Unit × AW :=
  match (if force then .ok true else ObdM.testCmd s.obd c) with
  | .error x => (.error x, s)
  | .ok false => (.ok (), s)
  | .ok true =>
    let s1 := if s.commands.mem c.key then s
      else { s with commands := s.commands.set c.key (c, {}) }.newList c.key
    match cb with
    | none => (.ok (), s1.emit (.did (.watch c cb force)))
    | some k =>
      match s1.cbs.get? c.key with
      | none => (.error .keyError, s1)
      | some i =>
        if k ∈ s1.list i then (.ok (), s1.emit (.did (.watch c cb force)))
        else (.ok (), (s1.setList i (s1.list i ++ [k])).emit (.did (.watch c cb force)))

/-- `unwatch` after `running` was read, obd/asynchronous.py:162-175. -/
def doUnwatch (c : OBDCommand) (cb : Option Nat) (s : AW) : Except Exc Unit × AW :=
  if s.commands.mem c.key then
    match cb with
    | none => (.ok (), { s with cbs := s.cbs.pop c.key, commands := s.commands.pop c.key }.emit (.did (.unwatch c cb)))
    | some k =>
      match s.cbs.get? c.key with
      | none => (.error .keyError, s)
      | some i =>
        if k ∈ s.list i then
          if ((s.list i).erase k).isEmpty then
            (.ok (), { s with commands := s.commands.pop c.key }.setList i ((s.list i).erase k) |>.emit (.did (.unwatch c cb)))
          else (.ok (), (s.setList i ((s.list i).erase k)).emit (.did (.unwatch c cb)))
        else (.ok (), { s with cbs := s.cbs.pop c.key, commands := s.commands.pop c.key }.emit (.did (.unwatch c cb)))
  else (.ok (), s.emit (.did (.unwatch c cb)))

/-- `unwatch_all` after `running` was read, obd/asynchronous.py:184-186. -/
def doUnwatchAll (s : AW) : AW :=
  { s with commands := [], cbs := [], dictId := s.dictId + 1 }.emit (.did .unwatchAll)

/-- The three methods that change the subscriptions, obd/asynchronous.py:124-186. -/
def doModify (op : AOp) (s : AW) : Except Exc Unit × AW :=
  match op with
  | .watch c cb force => s.doWatch c cb force
  | .unwatch c cb => s.doUnwatch c cb
  | .unwatchAll => (.ok (), s.doUnwatchAll)
  | _ => (.ok (), s)

/-- `query`, obd/asynchronous.py:188-197. -/
def lookup (s : AW) (c : OBDCommand) : Response :=
  match s.commands.get? c.key with
  | some (_, r) => r
  | none => {}

/-- The end of a method call of the user (the `return`s of obd/asynchronous.py:64-197). -/
def ret (op : AOp) (s : AW) : AW := { s with caller := .idle }.emit (.ret op)
/-- A method call of the user raises (out of obd/asynchronous.py:64-197). -/
def raise (op : AOp) (x : Exc) (s : AW) : AW := { s with caller := .idle }.emit (.raised op x)
/-- The user's thread goes on at `pc` of the method, obd/asynchronous.py:64-197. -/
def goto (op : AOp) (pc : CPc) (s : AW) : AW := { s with caller := .busy op pc }

/-- What follows `stop()`: `close` goes on to `super().close()`, obd/asynchronous.py:119-122. -/
def afterStop (op : AOp) (s : AW) : AW :=
  match op with
  | .close => s.goto op .closeObd
  | _ => s.ret op

/-- The first position of a method, obd/asynchronous.py:64-197 (and obd/obd.py:176-188). -/
def entry : AOp → CPc
  | .start => .startConn
  | .stop => .stopNone
  | .enter => .enter
  | .exit => .exit
  | .close => .stopNone
  | .watch .. => .gate
  | .unwatch .. => .gate
  | .unwatchAll => .gate
  | .query _ => .ask
  | .lowPower => .power
  | .normalPower => .power

/-- The thread has ended: what `join()` waits for, obd/asynchronous.py:86. -/
def over (s : AW) (t : Nat) : Bool :=
  match s.threads[t]? with
  | some (.finished _) => true
  | _ => false

/-- The update thread `t` goes on at `pc` of `run`, obd/asynchronous.py:199-226. -/
def setPc (t : Nat) (pc : Pc) (s : AW) : AW := { s with threads := s.threads.set t pc }

/-- `low_power` and `normal_power`, inherited from `OBD`, obd/obd.py:169-188. -/
def powerCall (dev : Device) (op : AOp) (o : OW) : Except Exc (Option (List Str)) × OW :=
  match op with
  | .lowPower => ObdM.lowPower dev o
  | _ => ObdM.normalPower dev o

/-- A step of the user's thread in method `op` at `pc`, obd/asynchronous.py:64-197; `none`:
blocked. -/
def callerStep (dev : Device) (op : AOp) (pc : CPc) (s : AW) : Option AW :=
  match pc with
  | .startConn => some (if ObdM.isConnected s.obd then s.goto op .startLen else s.ret op)
  | .startLen => some (if s.commands.length = 0 then s.ret op else s.goto op .startNone)
  | .startNone => some (if s.thread = none then s.goto op .startRun else s.ret op)
  | .startRun => some ({ s with running := true }.goto op .startNew)
  | .startNew => some ({ s with thread := some s.threads.length, threads := s.threads ++ [Pc.notStarted] }.goto op .startGo)
  | .startGo =>
    match s.thread with
    | none => some (s.raise op .attributeError)
    | some t => some (((s.setPc t .test).emit .started).ret op)
  | .stopNone => some (if s.thread = none then s.afterStop op else s.goto op .stopRun)
  | .stopRun => some ({ s with running := false }.goto op .stopRead)
  | .stopRead =>
    match s.thread with
    | none => some (s.raise op .attributeError)
    | some t => some (s.goto op (.join t))
  | .join t => if s.over t then some (s.goto op .stopEnd) else none
  | .stopEnd => some ({ s with thread := none }.afterStop op)
  | .enter => some ({ s with wasRunning := s.running }.goto op .stopNone)
  | .exit => some (if !s.running && s.wasRunning then s.goto op .startConn else s.ret op)
  | .closeObd =>
    match ObdM.close dev s.obd with
    | (.ok _, o) => some ({ s with obd := o }.ret op)
    | (.error x, o) => some ({ s with obd := o }.raise op x)
  | .gate => some (if s.running then s.ret op else s.goto op .modify)
  | .modify =>
    match s.doModify op with
    | (.ok _, s') => some (s'.ret op)
    | (.error x, s') => some (s'.raise op x)
  | .ask =>
    match op with
    | .query c => some ((s.emit (.answer c (s.lookup c))).ret op)
    | _ => some (s.ret op)
  | .power =>
    match powerCall dev op s.obd with
    | (.ok _, o) => some ({ s with obd := o }.ret op)
    | (.error x, o) => some ({ s with obd := o }.raise op x)

/-- A step of the update thread `t` at `pc` outside callbacks, obd/asynchronous.py:199-226. -/
def daemonStep (dev : Device) (fl : ElmM.FloatFn) (t : Nat) (pc : Pc) (s : AW) : Option AW :=
  match pc with
  | .test => if s.running then some (s.setPc t .size) else some ((s.setPc t (.finished .returned)).emit (.ended .returned))
  | .size => if s.commands.length > 0 then some (s.setPc t .iter) else some ((s.setPc t .sleep).emit .slept)
  | .iter => some (s.setPc t (.next { dict := s.dictId, keys := s.commands.keys, rest := s.commands.map (fun e => e.2.1) }))
  | .next it =>
    if it.dict = s.dictId ∧ it.keys ≠ s.commands.keys then
      some ((s.setPc t (.finished .listChanged)).emit (.ended .listChanged))
    else match it.rest with
      | [] => some ((s.setPc t .sleep).emit .slept)
      | c :: rest => some (s.setPc t (.conn { it with rest := rest } c))
  | .conn it c => if ObdM.isConnected s.obd then some (s.setPc t (.query it c)) else some (s.setPc t .drop1)
  | .drop1 => some ({ s with running := false }.setPc t .drop2)
  | .drop2 => some (({ s with thread := none }.setPc t (.finished .returned)).emit (.ended .returned))
  | .query it c =>
    match ObdM.query dev fl c true s.obd with
    | (.ok r, o) => some (({ s with obd := o }.setPc t (.store it c r)).emit (.queried c))
    | (.error x, o) => some ((({ s with obd := o }.setPc t (.finished (.query x))).emit (.queried c)).emit (.ended (.query x)))
  | .store it c r => some (({ s with commands := setResponse s.commands c r }.setPc t (.subs it c r)).emit (.stored c r))
  | .subs it c r =>
    match s.cbs.get? c.key with
    | none => some ((s.setPc t (.finished .missing)).emit (.ended .missing))
    | some l => some (s.setPc t (.fire it r l 0))
  | .fire it r l i =>
    match (s.list l)[i]? with
    | none => some (s.setPc t (.next it))
    | some k => some ((s.setPc t (.inside it r l (i + 1))).emit (.fired k r))
  | .sleep => some (s.setPc t .test)
  | .notStarted => none
  | .inside .. => none
  | .finished _ => none

/-- `stop()` (obd/asynchronous.py:81-88) called by a callback, i.e. on the update thread itself:
`join()` raises RuntimeError.  (If the attribute named another thread, it would wait for that thread; this is
not modelled, and cannot happen.) -/
def cbStop (t : Nat) (s : AW) : Option AW :=
  match s.thread with
  | none => some s
  | some t' => if t' = t then some { s with running := false } else none

/-- `start()` (obd/asynchronous.py:64-79) called by a callback. -/
def cbStart (s : AW) : AW :=
  if ObdM.isConnected s.obd ∧ s.commands.length ≠ 0 ∧ s.thread = none then
    { s with running := true, thread := some s.threads.length, threads := s.threads ++ [Pc.test] }.emit .started
  else s

/-- A method call (obd/asynchronous.py:64-197) by a callback (:222) running on thread `t`.  Whether it raised does not matter:
the callback may catch the exception. -/
def cbCall (dev : Device) (t : Nat) (op : AOp) (s : AW) : Option AW :=
  match op with
  | .start => some s.cbStart
  | .stop => s.cbStop t
  | .enter => { s with wasRunning := s.running }.cbStop t
  | .exit => some (if !s.running && s.wasRunning then s.cbStart else s)
  | .close => if s.thread = none then some { s with obd := (ObdM.close dev s.obd).2 } else s.cbStop t
  | .watch .. => some (if s.running then s else (s.doModify op).2)
  | .unwatch .. => some (if s.running then s else (s.doModify op).2)
  | .unwatchAll => some (if s.running then s else (s.doModify op).2)
  | .query _ => some s
  | .lowPower => some { s with obd := (ObdM.lowPower dev s.obd).2 }
  | .normalPower => some { s with obd := (ObdM.normalPower dev s.obd).2 }

end AW

/-- One action of a schedule of the threads of obd/asynchronous.py. -/
inductive Action where
  | call (op : AOp)              -- the user calls a method
  | caller                       -- the user's thread goes on
  | daemon (t : Nat)             -- update thread `t` goes on
  | cb (t : Nat) (op : AOp)      -- the callback running on `t` calls a method
  | cbEnd (t : Nat) (ok : Bool)  -- the callback running on `t` returns or raises
  | reorder (t : Nat) (rest : List Nat)  -- the iterator of `t` goes on over a changed dictionary of the same size, at these positions

/-- One step of obd/asynchronous.py:64-226; `none`: the action is not possible. -/
def AW.step (dev : Device) (fl : ElmM.FloatFn) (s : AW) : Action → Option AW
  | .call op =>
    match s.caller with
    | .idle => some ((s.goto op (AW.entry op)).emit (.call op))
    | .busy .. => none
  | .caller =>
    match s.caller with
    | .idle => none
    | .busy op pc => s.callerStep dev op pc
  | .daemon t =>
    match s.threads[t]? with
    | none => none
    | some pc => s.daemonStep dev fl t pc
  | .cb t op =>
    match s.threads[t]? with
    | some (.inside ..) => s.cbCall dev t op
    | _ => none
  | .cbEnd t ok =>
    match s.threads[t]? with
    | some (.inside it r l i) =>
      if ok then some (s.setPc t (.fire it r l i))
      else some ((s.setPc t (.finished .callback)).emit (.ended .callback))
    | _ => none
  | .reorder t rest =>
    match s.threads[t]? with
    | some (.next it) =>
      if it.dict = s.dictId ∧ it.keys ≠ s.commands.keys ∧ it.keys.length = s.commands.length then
        some (s.setPc t (.next { it with keys := s.commands.keys, rest := rest.filterMap (fun i => s.commands[i]?.map (fun e => e.2.1)) }))
      else none
    | _ => none

end Model
