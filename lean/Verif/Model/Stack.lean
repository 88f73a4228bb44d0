import Verif.Model.App
import Verif.Model.Runtime

/-!
# Gateway, API and application of one connection: uart.py:112-160, api.py:233-257,
application.py:323-394

From the bytes of the serial port to the calls into zigpy. One `API` object and its gateway
(`API.connect`, api.py:101-103, sets `_uart` once per object), with whatever else happens in the
API between two calls of `Gateway.data_received`.
-/

namespace Zcc

/-- One connection. `buffer` is the gateway's parser (uart.py:116), `api` the API object, `app` the
application. Not in the program: `effects`, the application's calls so far, and `raised`, the
exceptions that left `Gateway.data_received` (they go to the event loop, which logs them).
Simplification: bytes are processed even while `_uart` is unset; asyncio would not deliver them. -/
structure Stack where
  buffer : List UInt8 := []
  api : Api := Api.init
  app : App := {}
  effects : List Effect := []
  raised : List PyErr := []

/-- The events of a connection. -/
inductive StackEvent where
  /-- the serial port delivers bytes: `Gateway.data_received`, uart.py:143 -/
  | bytes (chunk : List UInt8)
  /-- anything else that happens in the API (see `Event`): calls, timers, time, ... -/
  | api (e : Event)

/-- `self._api.data_received(frame)`, uart.py:152: api.py:233-257 with application.py:323-394. -/
def Stack.handler : Handler (Api × App × List Effect) := fun s f =>
  let r := receive s.1 s.2.1 f
  ((r.1, r.2.app, s.2.2 ++ r.2.effects), r.2.raised)

/-- One event. Frames come from the port, so `.api (.frame _)` does not occur. -/
def Stack.step (s : Stack) : StackEvent → Stack
  | .bytes chunk =>
    let r := Gateway.dataReceived Stack.handler ⟨s.buffer, s.api, s.app, s.effects⟩ chunk
    { buffer := r.1.buffer, api := r.1.api.1, app := r.1.api.2.1, effects := r.1.api.2.2,
      raised := s.raised ++ r.2.toList }
  | .api (.frame _) => s
  | .api e => { s with api := s.api.step e }

/-- An execution of a connection. -/
def Stack.run (s : Stack) (es : List StackEvent) : Stack := es.foldl Stack.step s

end Zcc
