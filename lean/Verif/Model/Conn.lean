import Verif.Model.Messages

/-!
# pkg/pg/conn.go
-/

namespace Gevulot

/-- The `switch frame.MessageType()` of `Conn.RecvMessage`, pkg/pg/conn.go:36-81. Line 41 sends
NegotiateProtocolVersion frames to `ParseNoticeResponseMessage`. -/
def parseMessage (frame : Frame) : Res Msg := do
  let mt ← frame.messageType
  if mt = authenticationRequestMessageType then parseAuthenticationRequestMessage frame
  else if mt = negotiateProtocolVersionMessageType then parseNoticeResponseMessage frame
  else if mt = backendKeyDataMessageType then parseBackendKeyDataMessage frame
  else if mt = parameterStatusMessageType then parseParameterStatusMessage frame
  else if mt = passwordMessageType then parsePasswordMessage frame
  else if mt = readyForQueryMessageType then parseReadyForQueryMessage frame
  else if mt = queryMessageType then parseQueryMessage frame
  else if mt = rowDescriptionMessageType then parseRowDescriptionMessage frame
  else if mt = dataRowMessageType then parseDataRowMessage frame
  else if mt = commandCompleteMessageType then parseCommandCompleteMessage frame
  else if mt = emptyQueryResponseMessageType then parseEmptyQueryResponseMessage frame
  else if mt = errorResponseMessageType then parseErrorResponseMessage frame
  else if mt = noticeResponseMessageType then parseNoticeResponseMessage frame
  else if mt = terminateMessageType then parseTerminateMessage frame
  else parseGenericMessage frame

/-- `Conn.RecvMessage`, pkg/pg/conn.go:29-82. -/
def recvMessage (r : Reader) : Res Msg × Reader :=
  match readStandardFrame r with
  | (.ok frame, r) => (parseMessage frame, r)
  | (.err err, r) => (.err err, r)
  | (.panic p, r) => (.panic p, r)

/-- `Conn.RecvStartupMessage`, pkg/pg/conn.go:18-26. -/
def recvStartupMessage (r : Reader) : Res StartupMessage × Reader :=
  match readStartupFrame r with
  | (.ok frame, r) => (parseStartupMessage frame, r)
  | (.err err, r) => (.err err, r)
  | (.panic p, r) => (.panic p, r)

/-- `Conn.SendMessage`, pkg/pg/conn.go:85-88: the bytes handed to the connection's `Write`. -/
def sendMessage (msg : Msg) : Bytes := msg.frame.bytes

/-- `Conn.SendByte`, pkg/pg/conn.go:91-94. -/
def sendByte (c : Byte) : Bytes := [c]

end Gevulot
