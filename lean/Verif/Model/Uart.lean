import Verif.Model.Types

/-!
# Serial framing: /repo/zigpy_cc/uart.py:15-160

`UnpiFrame`, `Parser` and the receive path of `Gateway`. Logging is dropped.
-/

namespace Zcc

/-- `SOF`, uart.py:16. -/
def SOF : UInt8 := 0xFE

/-- `DataStart`, uart.py:15. -/
def DataStart : Nat := 4

/-- `MinMessageLength`, uart.py:22. -/
def MinMessageLength : Nat := 5

/-- `MaxDataSize`, uart.py:23 (defined there, never used). -/
def MaxDataSize : Nat := 250

/-- `UnpiFrame`, uart.py:60-75. `length` and `fcs` are `None` for frames built by the program
and set for received frames. `command_id` is a Python int, here a natural number. -/
structure Frame where
  commandType : CommandType
  subsystem : Subsystem
  commandId : Nat
  data : List UInt8
  length : Option Nat := none
  fcs : Option UInt8 := none
  deriving DecidableEq, Repr, Inhabited

/-- `UnpiFrame.__init__`, uart.py:61-75: the two enum constructor calls raise `ValueError` for
undefined codes. -/
def Frame.mk? (commandType subsystem commandId : Nat) (data : List UInt8)
    (length : Option Nat) (fcs : Option UInt8) : Except PyErr Frame :=
  match CommandType.ofNat? commandType with
  | none => .error .valueError
  | some t =>
    match Subsystem.ofNat? subsystem with
    | none => .error .valueError
    | some s => .ok { commandType := t, subsystem := s, commandId, data, length, fcs }

/-- `UnpiFrame.calculate_checksum`, uart.py:92-99. -/
def calculateChecksum (values : List UInt8) : UInt8 :=
  values.foldl (fun checksum value => checksum ^^^ value) 0

/-- Python indexing `buffer[i]` of bytes with a non-negative index. -/
def byteAt (buffer : List UInt8) (i : Nat) : Except PyErr UInt8 :=
  match buffer[i]? with
  | some b => .ok b
  | none => .error .indexError

/-- Python slice `buffer[i:j]` with `0 ≤ i ≤ j`. -/
def slice (buffer : List UInt8) (i j : Nat) : List UInt8 := (buffer.drop i).take (j - i)

/-- `UnpiFrame.from_buffer`, uart.py:77-90. `none` is a checksum mismatch. -/
def Frame.fromBuffer (length fcsPosition : Nat) (buffer : List UInt8) :
    Except PyErr (Option Frame) := do
  let cmd0 ← byteAt buffer 2
  let subsystem := cmd0.toNat &&& 0x1F
  let commandType := (cmd0.toNat &&& 0xE0) >>> 5
  let cmd1 ← byteAt buffer 3
  let data := slice buffer DataStart fcsPosition
  let fcs ← byteAt buffer fcsPosition
  let checksum := calculateChecksum (slice buffer 1 fcsPosition)
  if checksum = fcs then
    return some (← Frame.mk? commandType subsystem cmd1.toNat data (some length) (some fcs))
  else
    return none

/-- Python `bytes([...])`: `ValueError` unless every value is in `range(0, 256)`. -/
def pyBytes (values : List Nat) : Except PyErr (List UInt8) :=
  if values.all (· < 256) then .ok (values.map UInt8.ofNat) else .error .valueError

/-- `UnpiFrame.to_buffer`, uart.py:101-109. -/
def Frame.toBuffer (f : Frame) : Except PyErr (List UInt8) := do
  let length := f.data.length
  let cmd0 := ((f.commandType.toNat <<< 5) &&& 0xE0) ||| (f.subsystem.toNat &&& 0x1F)
  let head ← pyBytes [SOF.toNat, length, cmd0, f.commandId]
  let res := head ++ f.data
  let fcs := calculateChecksum (res.drop 1)
  return res ++ [fcs]

/-- `Parser.write`, uart.py:37-57. State: the buffer. The new buffer is returned next to the
result because `self.buffer` is assigned (line 48) before `from_buffer` may raise (line 50). -/
def Parser.write (buffer : List UInt8) (b : UInt8) :
    List UInt8 × Except PyErr (Option Frame) :=
  let buffer := buffer ++ [b]
  match buffer with
  | [] => (buffer, .error .indexError)
  | first :: _ =>
    if first = SOF then
      if buffer.length > MinMessageLength then
        match byteAt buffer 1 with
        | .error e => (buffer, .error e)
        | .ok dataLength =>
          let fcsPosition := DataStart + dataLength.toNat
          let frameLength := fcsPosition + 1
          if buffer.length ≥ frameLength then
            let frameBuffer := buffer.take frameLength
            (buffer.drop frameLength, Frame.fromBuffer dataLength.toNat fcsPosition frameBuffer)
          else (buffer, .ok none)
      else (buffer, .ok none)
    else ([], .ok none)

/-- State of a `Gateway` (uart.py:112-120) as far as the receive path is concerned: the parser
buffer, and the state `σ` of whatever `self._api` is. -/
structure Gateway (σ : Type) where
  buffer : List UInt8 := []
  api : σ
  deriving DecidableEq

/-- What `self._api.data_received(frame)` does: new API state and possibly an exception. -/
abbrev Handler (σ : Type) := σ → Frame → σ × Option PyErr

/-- `Gateway.data_received`, uart.py:143-155: bytes one at a time; an exception of the parser or
of the API leaves the method, so the remaining bytes of this call are never looked at. -/
def Gateway.dataReceived {σ : Type} (h : Handler σ) (g : Gateway σ) :
    List UInt8 → Gateway σ × Option PyErr
  | [] => (g, none)
  | b :: rest =>
    match Parser.write g.buffer b with
    | (buf, .error e) => ({ g with buffer := buf }, some e)
    | (buf, .ok none) => Gateway.dataReceived h { g with buffer := buf } rest
    | (buf, .ok (some frame)) =>
      match h g.api frame with
      | (s, some e) => ({ buffer := buf, api := s }, some e)
      | (s, none) => Gateway.dataReceived h { buffer := buf, api := s } rest

/-- The event loop calling `data_received` once per chunk. asyncio logs an exception of
`data_received` (serial_asyncio calls it from a reader callback) and goes on with the next
chunk; the exceptions are collected. -/
def Gateway.receiveAll {σ : Type} (h : Handler σ) (g : Gateway σ) :
    List (List UInt8) → Gateway σ × List PyErr
  | [] => (g, [])
  | c :: cs =>
    match Gateway.dataReceived h g c with
    | (g', e) =>
      let r := Gateway.receiveAll h g' cs
      (r.1, e.toList ++ r.2)

/-- `Gateway.send`, uart.py:137-141: the bytes handed to the transport, or the exception (in
which case nothing is written). -/
def Gateway.send (f : Frame) : Except PyErr (List UInt8) := f.toBuffer

end Zcc
