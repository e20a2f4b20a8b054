import Verif.Model.Event
import Verif.Model.Distributor
import Verif.Model.Server

/-!
# The unit tests of pkg/server, of the model

The tests of /repo/pkg/server as executions of the model: the calls in the order of the test, and what the test expects at each point.
A test passes if the scheduler makes the other goroutines go on between the calls; so each theorem says that there is an execution
with these calls and these observations. That no execution contradicts the test is the matter of the properties. See Tests/Pg.lean.
-/

namespace Gevulot.Tests

/-! ## event_test.go -/

open EventModel in
/-- The calls 0 and 1 of `Fire`, one after the other. -/
theorem TestServerEventHasFired :
    init.hasFired = false ∧
    ∃ s1, run step init (List.replicate 8 0) = some s1 ∧ s1.pc 0 = .returned true ∧ s1.hasFired = true ∧
    ∃ s2, run step s1 (List.replicate 2 1) = some s2 ∧ s2.pc 1 = .returned false :=
  ⟨by decide, _, rfl, by decide, by decide, _, rfl, by decide⟩

open EventModel in
theorem TestServerEventDoneChannel :
    init.doneClosed = false ∧ ∃ s, run step init (List.replicate 8 0) = some s ∧ s.pc 0 = .returned true ∧ s.doneClosed = true :=
  ⟨by decide, _, rfl, by decide, by decide⟩

/-! ## config_distributor_test.go -/

section Distributor

open DistributorModel

/-- The monitor takes a configuration and visits the channels in this order. -/
def distribute (chans : List ChanId) : List Action := [.monTake 0, .monLock 0] ++ chans.map (.monNotify 0) ++ [.monLock 0]

/-- What the call of this thread has returned. -/
def returnedBy (s : State) (t : Nat) : Option Ret :=
  match s.pc t with
  | .returned r => some r
  | _ => none

/-- `configV1` is 1 and `configV2` is 2; the calls of `Get` are made by the threads 0, 1 and 3, `Close` is called by thread 2. -/
theorem TestConfigDistributorGet :
    -- Get() waits for initial config indefinitely
    ∃ s1, run step (init fun _ => 0) [.call 0 .get, .thread 0, .thread 0, .thread 0, .thread 0, .thread 0] = some s1 ∧ returnedBy s1 0 = none ∧
      (step s1 (.thread 0)).isNone ∧ (step s1 (.cancel 0)).isNone ∧
    -- Initial config
    ∃ s2, run step s1 (.produce 1 :: distribute [.getter 0] ++ [.thread 0]) = some s2 ∧ returnedBy s2 0 = some (.config 1) ∧
    -- Updated config
    ∃ s3, run step s2 (.produce 2 :: distribute [] ++ [.call 1 .get, .thread 1, .thread 1]) = some s3 ∧ returnedBy s3 1 = some (.config 2) ∧
    -- Close distributor
    ∃ s4, run step s3 [.call 2 .close, .thread 2, .thread 2, .call 3 .get, .thread 3] = some s4 ∧ returnedBy s4 2 = some .ok ∧
      returnedBy s4 3 = some .errClosed :=
  ⟨_, rfl, by decide, by decide, by decide, _, rfl, by decide, _, rfl, by decide, _, rfl, by decide, by decide⟩

/-- The listening addresses of the configurations of the test: that of the third is another one. -/
def testListen (c : Config) : Nat := if c = 3 then 31337 else 4242

/-- The check of the test: `oldConfig == nil || oldConfig.Listen != newConfig.Listen` -/
def listenChanged : Check
  | none, _ => true
  | some old, new => testListen old != testListen new

/-- `allChanges` is channel 0, `specificChanges` is channel 1; both have capacity 1. -/
theorem TestConfigDistributorSubscribe :
    ∃ s1, run step (init fun _ => 1) [.produce 1, .call 0 (.subscribe 1 [listenChanged]), .thread 0, .thread 0, .thread 0,
        .call 1 (.subscribe 0 []), .thread 1, .thread 1, .thread 1] = some s1 ∧
      returnedBy s1 0 = some .ok ∧ returnedBy s1 1 = some .ok ∧
    -- Initial config is delivered
    ∃ s2, run step s1 (distribute [.user 0, .user 1]) = some s2 ∧ (s2.chans 0).buf = [1] ∧ (s2.chans 1).buf = [1] ∧
    -- Updated config is delivered to only 1 channel
    ∃ s3, run step s2 ([.userRecv 0, .userRecv 1, .produce 2] ++ distribute [.user 0, .user 1]) = some s3 ∧
      (s3.chans 0).buf = [2] ∧ (s3.chans 1).buf = [] ∧
    -- Updated config is delivered to both channels
    ∃ s4, run step s3 ([.userRecv 0, .produce 3] ++ distribute [.user 0, .user 1]) = some s4 ∧ (s4.chans 0).buf = [3] ∧ (s4.chans 1).buf = [3] ∧
    -- Subscription is unavailable after distributor is closed
    ∃ s5, run step s4 [.call 2 .close, .thread 2, .thread 2, .call 3 (.subscribe 0 []), .thread 3] = some s5 ∧
      returnedBy s5 2 = some .ok ∧ returnedBy s5 3 = some .errClosed :=
  ⟨_, rfl, by decide, by decide, _, rfl, by decide, by decide, _, rfl, by decide, by decide, _, rfl, by decide, by decide, _, rfl, by decide,
    by decide⟩

/-- The channel has capacity 0. -/
theorem TestConfigDistributorUnsubscribe :
    ∃ s1, run step (init fun _ => 0) [.produce 1, .call 0 (.subscribe 0 []), .thread 0, .thread 0, .thread 0] = some s1 ∧
      returnedBy s1 0 = some .ok ∧
    -- Initial config is delivered
    ∃ s2, run step s1 (.userRecv 0 :: distribute [.user 0]) = some s2 ∧ s2.delivered (.user 0) = [1] ∧
    -- New changes are not delivered once channel is unsubsribed
    ∃ s3, run step s2 [.call 1 (.unsubscribe 0), .thread 1, .produce 2] = some s3 ∧ returnedBy s3 1 = some .ok ∧
    ∃ s4, run step s3 (distribute []) = some s4 ∧ s4.lastConfig = some 2 ∧ s4.delivered (.user 0) = [1] :=
  ⟨_, rfl, by decide, _, rfl, by decide, _, rfl, by decide, _, rfl, by decide, by decide⟩

end Distributor

/-! ## server_test.go -/

section Server

open ServerModel

/-- The address on which the current listener listens. -/
def listensOn (s : State) : Option Addr := s.listener.map s.lnAddr

/-- `Start` is called by user 0 and, later, by the users 1 and 3; `Close` is called by user 2. -/
theorem TestServerStart :
    -- Server is listening with initial config
    ∃ s1, run step (init (some 4242)) [.call 0 .start, .thread (.user 0), .thread (.user 0), .thread (.user 0), .takeConfig (.user 0),
        .listen (.user 0) true, .thread (.user 0), .thread (.go 0), .thread (.go 0)] = some s1 ∧ listensOn s1 = some 4242 ∧
    -- Server is listening with updated config
    ∃ s2, run step s1 [.config 31337, .takeConfig (.user 0), .listen (.user 0) true, .thread (.user 0), .thread (.go 1), .thread (.go 1)] = some s2 ∧
      listensOn s2 = some 31337 ∧
    -- Start returns ErrServerAlreadyStarted
    ∃ s3, run step s2 [.call 1 .start, .thread (.user 1), .thread (.user 1)] = some s3 ∧ s3.pc (.user 1) = .returned .errStarted ∧
    -- Close stops the Start loop; `Accept` of both listeners returns "use of closed network connection"
    ∃ s4, run step s3 [.call 2 .close, .thread (.user 2), .thread (.user 2), .noticeShutdown (.user 0), .accept (.go 0) (.err ⟨true, false⟩),
        .thread (.go 0), .accept (.go 1) (.err ⟨true, false⟩), .thread (.go 1), .thread (.user 2)] = some s4 ∧
      s4.pc (.user 2) = .returned .nil ∧ s4.pc (.user 0) = .returned .errClosed ∧
    -- Start returns ErrServerClosed after Close
    ∃ s5, run step s4 [.call 3 .start, .thread (.user 3)] = some s5 ∧ s5.pc (.user 3) = .returned .errClosed :=
  ⟨_, rfl, by decide, _, rfl, by decide, _, rfl, by decide, _, rfl, by decide, by decide, _, rfl, by decide⟩

/-- `Serve` is called by user 0 and, later, by user 2 with listener 0; `Close` is called by user 1. The client is connection 7. -/
theorem TestServerServe :
    -- Serve sets the Server listener
    ∃ s1, run step (init none) [.userListen 0, .call 0 (.serve 0), .thread (.user 0), .thread (.user 0)] = some s1 ∧ s1.listener = some 0 ∧
    -- Server accepting client connections
    ∃ s2, run step s1 [.accept (.user 0) (.conn 7), .thread (.user 0), .thread (.go 0), .thread (.go 0), .thread (.go 0)] = some s2 ∧
      s2.sessions = [.go 0] ∧ s2.op (.go 0) = some (.serveConn 7) ∧
    -- Close stops the Serve loop
    ∃ s3, run step s2 [.call 1 .close, .thread (.user 1), .thread (.user 1), .sessionEnd (.go 0) none, .thread (.go 0), .thread (.go 0),
        .accept (.user 0) (.err ⟨true, false⟩), .thread (.user 1)] = some s3 ∧
      s3.pc (.user 1) = .returned .nil ∧ s3.pc (.user 0) = .returned (.errAccept ⟨true, false⟩) ∧
    -- Serve returns ErrServerClosed after Close
    ∃ s4, run step s3 [.call 2 (.serve 0), .thread (.user 2)] = some s4 ∧ s4.pc (.user 2) = .returned .errClosed :=
  ⟨_, rfl, by decide, _, rfl, by decide, by decide, _, rfl, by decide, by decide, _, rfl, by decide⟩

/-- `ServeConn` is called by user 0 and, later, by user 2; `Close` is called by user 1. -/
theorem TestServerServeConn :
    -- Server registers session
    ∃ s1, run step (init none) [.call 0 (.serveConn 7), .thread (.user 0), .thread (.user 0), .thread (.user 0)] = some s1 ∧
      s1.sessions.length = 1 ∧ .user 0 ∈ s1.sessions ∧
    -- Server unregister session after Close
    ∃ s2, run step s1 [.call 1 .close, .thread (.user 1), .thread (.user 1), .thread (.user 1)] = some s2 ∧
      s2.pc (.user 1) = .returned .nil ∧ s2.sessions.length = 0 ∧
    -- ServeConn returns ErrServerClosed after Close
    ∃ s3, run step s2 [.call 2 (.serveConn 7), .thread (.user 2)] = some s3 ∧ s3.pc (.user 2) = .returned .errClosed :=
  ⟨_, rfl, by decide, by decide, _, rfl, by decide, by decide, _, rfl, by decide⟩

end Server

end Gevulot.Tests
