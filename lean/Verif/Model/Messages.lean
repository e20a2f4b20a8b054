import Verif.Model.Frame

/-!
# The messages of pkg/pg: their `Frame` methods and `Parse*` functions

Conventions: a `[]*T` slice is a list of `T` (a nil pointer inside such a slice, which no code in /repo creates, is not
representable); `[]byte` values for which `nil` matters (row values) are `Option Bytes`; a Go string is its bytes;
`oid.Oid` is a `uint32`.
-/

namespace Gevulot

/-- Runs `d` `n` times and collects the results: `for i := 0; i < n; i++ { values[i], err = d() ... }`. -/
def Dec.times {α : Type} (d : Dec α) : Nat → Dec (List α)
  | 0 => pure []
  | n + 1 => do
    let x ← d
    let xs ← Dec.times d n
    pure (x :: xs)

/-- `MessageField`, pkg/pg/message_field.go:4-14. -/
structure MessageField where
  type : Byte
  value : Bytes
  deriving DecidableEq, Repr

/-- `FieldDescriptor`, pkg/pg/row_description_message.go:17-39. -/
structure FieldDescriptor where
  name : Bytes
  tableOID : BitVec 32
  columnIndex : BitVec 16
  dataTypeOID : BitVec 32
  dataTypeSize : BitVec 16
  dataTypeModifier : BitVec 32
  format : BitVec 16
  deriving DecidableEq, Repr

/-- `StartupMessageParameter`, pkg/pg/startup_message.go:18-21. -/
structure StartupParameter where
  name : Bytes
  value : Bytes
  deriving DecidableEq, Repr

/-- `StartupMessage`, pkg/pg/startup_message.go:12-15. -/
structure StartupMessage where
  protocolVersion : BitVec 32
  parameters : List StartupParameter
  deriving DecidableEq, Repr

/-- The `[4]byte` salt of `AuthenticationMD5PasswordMessage`, pkg/pg/authentication_request_message.go:27-30. -/
structure Salt where
  b0 : Byte
  b1 : Byte
  b2 : Byte
  b3 : Byte
  deriving DecidableEq, Repr

/-- `m.Salt[:]` -/
def Salt.toBytes (s : Salt) : Bytes := [s.b0, s.b1, s.b2, s.b3]

/-- `copy(v.Salt[:], salt)` into a zero salt, pkg/pg/authentication_request_message.go:118: copies at most 4 bytes. -/
def Salt.copyFrom (bs : Bytes) : Salt :=
  ⟨bs.getD 0 0, bs.getD 1 0, bs.getD 2 0, bs.getD 3 0⟩

/-- The implementations of the `Message` interface, pkg/pg/message.go:8-11. -/
inductive Msg where
  | authOk
  | authKerberosV5
  | authCleartextPassword
  | authMD5Password (salt : Salt)
  | authSCMCredential
  | authGSS
  | authGSSContinue (data : Bytes)
  | authSSPI
  | backendKeyData (processID key : BitVec 32)
  | commandComplete (tag : Bytes)
  | dataRow (values : List (Option Bytes))
  | emptyQueryResponse
  | errorResponse (fields : List MessageField)
  | noticeResponse (fields : List MessageField)
  | negotiateProtocolVersion (supported : BitVec 32) (unrecognized : List Bytes)
  | parameterStatus (name value : Bytes)
  | password (password : Bytes)
  | query (query : Bytes)
  | readyForQuery (txStatus : Byte)
  | rowDescription (fields : List FieldDescriptor)
  | terminate
  | generic (type : Byte) (body : Bytes)
  | startup (m : StartupMessage)
  deriving DecidableEq, Repr

/-! ## Message types (the `*MessageType` constants at the top of each file) -/

/-- pkg/pg/authentication_request_message.go:10 -/
def authenticationRequestMessageType : Byte := BitVec.ofNat 8 'R'.toNat
/-- pkg/pg/backend_key_data_message.go:4 -/
def backendKeyDataMessageType : Byte := BitVec.ofNat 8 'K'.toNat
/-- pkg/pg/command_complete_message.go:4 -/
def commandCompleteMessageType : Byte := BitVec.ofNat 8 'C'.toNat
/-- pkg/pg/data_row_message.go:4 -/
def dataRowMessageType : Byte := BitVec.ofNat 8 'D'.toNat
/-- pkg/pg/empty_query_response_message.go:4 -/
def emptyQueryResponseMessageType : Byte := BitVec.ofNat 8 'I'.toNat
/-- pkg/pg/error_response_message.go:5 -/
def errorResponseMessageType : Byte := BitVec.ofNat 8 'E'.toNat
/-- pkg/pg/notice_response_message.go:5 -/
def noticeResponseMessageType : Byte := BitVec.ofNat 8 'N'.toNat
/-- pkg/pg/negotiate_protocol_version_message.go:4 -/
def negotiateProtocolVersionMessageType : Byte := BitVec.ofNat 8 'v'.toNat
/-- pkg/pg/parameter_status_message.go:4 -/
def parameterStatusMessageType : Byte := BitVec.ofNat 8 'S'.toNat
/-- pkg/pg/password_message.go:4 -/
def passwordMessageType : Byte := BitVec.ofNat 8 'p'.toNat
/-- pkg/pg/query_message.go:4 -/
def queryMessageType : Byte := BitVec.ofNat 8 'Q'.toNat
/-- pkg/pg/ready_for_query_message.go:4 -/
def readyForQueryMessageType : Byte := BitVec.ofNat 8 'Z'.toNat
/-- pkg/pg/row_description_message.go:8 -/
def rowDescriptionMessageType : Byte := BitVec.ofNat 8 'T'.toNat
/-- pkg/pg/terminate_message.go:4 -/
def terminateMessageType : Byte := BitVec.ofNat 8 'X'.toNat

/-! ## Parsing -/

/-- The common start of the typed `Parse*` functions: `if frame.MessageType() != t { return nil, ErrMalformedMessage }`
followed by decoding `ReadBuffer(frame.MessageBody())`. -/
def parseTyped {α : Type} (t : Byte) (frame : Frame) (body : Dec α) : Res α := do
  let mt ← frame.messageType
  if mt ≠ t then .err .malformed
  else do
    let b ← frame.messageBody
    body.run b

/-- The struct types in `authStatusMap`. -/
inductive AuthKind where
  | ok | kerberosV5 | cleartextPassword | md5Password | scmCredential | gss | gssContinue | sspi
  deriving DecidableEq, Repr

/-- `authStatusMap` with the status codes, pkg/pg/authentication_request_message.go:54-75; a missing key gives a nil
`reflect.Type`. -/
def authStatusMap (status : BitVec 32) : Option AuthKind :=
  if status = 0 then some .ok
  else if status = 2 then some .kerberosV5
  else if status = 3 then some .cleartextPassword
  else if status = 5 then some .md5Password
  else if status = 6 then some .scmCredential
  else if status = 7 then some .gss
  else if status = 8 then some .gssContinue
  else if status = 9 then some .sspi
  else none

/-- `messageData.ReadBytes(messageData.Len())`, pkg/pg/authentication_request_message.go:121. -/
def readRest : Dec Bytes := fun b => ReadBuffer.readBytes (ReadBuffer.len b) b

/-- The additional fields by struct type, pkg/pg/authentication_request_message.go:110-128. -/
def authFields : AuthKind → Dec Msg
  | .ok => pure .authOk
  | .kerberosV5 => pure .authKerberosV5
  | .cleartextPassword => pure .authCleartextPassword
  | .md5Password => do
    let salt ← ReadBuffer.readBytes 4
    pure (.authMD5Password (Salt.copyFrom salt))
  | .scmCredential => pure .authSCMCredential
  | .gss => pure .authGSS
  | .gssContinue => do
    let data ← readRest
    pure (.authGSSContinue data)
  | .sspi => pure .authSSPI

/-- Decoding after the type check of `ParseAuthenticationRequestMessage`, pkg/pg/authentication_request_message.go:84-128.
Line 106's panic is unreachable because a pointer to every type in the map implements the interface. -/
def authenticationRequestBody : Dec Msg := do
  let status ← ReadBuffer.readInt32
  match authStatusMap status with
  | none => Dec.lift (.err .unsupportedAuth)
  | some messageType => authFields messageType

/-- `ParseAuthenticationRequestMessage`, pkg/pg/authentication_request_message.go:78-129. -/
def parseAuthenticationRequestMessage (frame : Frame) : Res Msg :=
  parseTyped authenticationRequestMessageType frame authenticationRequestBody

/-- `ParseBackendKeyDataMessage`, pkg/pg/backend_key_data_message.go:20-41. -/
def parseBackendKeyDataMessage (frame : Frame) : Res Msg :=
  parseTyped backendKeyDataMessageType frame do
    let processID ← ReadBuffer.readInt32
    let key ← ReadBuffer.readInt32
    pure (.backendKeyData processID key)

/-- `ParseCommandCompleteMessage`, pkg/pg/command_complete_message.go:16-31. -/
def parseCommandCompleteMessage (frame : Frame) : Res Msg :=
  parseTyped commandCompleteMessageType frame do
    let tag ← ReadBuffer.readString
    pure (.commandComplete tag)

/-- One iteration of the loop of `ParseDataRowMessage`, pkg/pg/data_row_message.go:35-49. A size of -1 leaves
`values[i]` nil; otherwise `ReadBytes` returns a non-nil slice (possibly empty). -/
def dataRowValue : Dec (Option Bytes) := do
  let size ← ReadBuffer.readInt32
  if size.toInt = -1 then pure none
  else do
    let v ← ReadBuffer.readBytes size.toInt
    pure (some v)

/-- Decoding of `ParseDataRowMessage`, pkg/pg/data_row_message.go:23-52. `make([][]byte, n)` has 24-byte elements. -/
def dataRowBody : Dec (List (Option Bytes)) := do
  let valuesCount ← ReadBuffer.readInt16
  let n ← Dec.lift (goMake 24 valuesCount.toInt)
  Dec.times dataRowValue n

/-- `ParseDataRowMessage`, pkg/pg/data_row_message.go:17-53. -/
def parseDataRowMessage (frame : Frame) : Res Msg :=
  parseTyped dataRowMessageType frame do
    let values ← dataRowBody
    pure (.dataRow values)

/-- `ParseEmptyQueryResponseMessage`, pkg/pg/empty_query_response_message.go:13-25. -/
def parseEmptyQueryResponseMessage (frame : Frame) : Res Msg := do
  let mt ← frame.messageType
  if mt ≠ emptyQueryResponseMessageType then .err .malformed
  else do
    let b ← frame.messageBody
    if b.length > 0 then .err .malformed else pure .emptyQueryResponse

/-- The `for {}` loop of `ParseErrorResponseMessage`, pkg/pg/error_response_message.go:27-49, and of
`ParseNoticeResponseMessage`, notice_response_message.go:27-49 (same text), with at most `fuel` iterations. -/
def messageFieldsLoop : (fuel : Nat) → Dec (List MessageField)
  | 0 => Dec.lift (.panic .outOfFuel)
  | fuel + 1 => do
    let fieldType ← ReadBuffer.readByte
    if fieldType = 0 then pure []
    else do
      let fieldValue ← ReadBuffer.readString
      let fields ← messageFieldsLoop fuel
      pure (⟨fieldType, fieldValue⟩ :: fields)

/-- The loop, given one iteration more than there are bytes (each iteration that continues consumes at least two). -/
def messageFields : Dec (List MessageField) := fun b => messageFieldsLoop (b.length + 1) b

/-- `ParseErrorResponseMessage`, pkg/pg/error_response_message.go:17-52. -/
def parseErrorResponseMessage (frame : Frame) : Res Msg :=
  parseTyped errorResponseMessageType frame do
    let fields ← messageFields
    pure (.errorResponse fields)

/-- `ParseNoticeResponseMessage`, pkg/pg/notice_response_message.go:17-52. -/
def parseNoticeResponseMessage (frame : Frame) : Res Msg :=
  parseTyped noticeResponseMessageType frame do
    let fields ← messageFields
    pure (.noticeResponse fields)

/-- `ParseNegotiateProtocolVersionMessage`, pkg/pg/negotiate_protocol_version_message.go:19-55. `make([]string, n)` has
16-byte elements. -/
def parseNegotiateProtocolVersionMessage (frame : Frame) : Res Msg :=
  parseTyped negotiateProtocolVersionMessageType frame do
    let supportedProtocol ← ReadBuffer.readInt32
    let unrecognizedOptionsCount ← ReadBuffer.readInt32
    let n ← Dec.lift (goMake 16 unrecognizedOptionsCount.toInt)
    let unrecognizedOptions ← Dec.times ReadBuffer.readString n
    pure (.negotiateProtocolVersion supportedProtocol unrecognizedOptions)

/-- `ParseParameterStatusMessage`, pkg/pg/parameter_status_message.go:19-40. -/
def parseParameterStatusMessage (frame : Frame) : Res Msg :=
  parseTyped parameterStatusMessageType frame do
    let name ← ReadBuffer.readString
    let value ← ReadBuffer.readString
    pure (.parameterStatus name value)

/-- `ParsePasswordMessage`, pkg/pg/password_message.go:16-31. -/
def parsePasswordMessage (frame : Frame) : Res Msg :=
  parseTyped passwordMessageType frame do
    let password ← ReadBuffer.readString
    pure (.password password)

/-- `ParseQueryMessage`, pkg/pg/query_message.go:16-31. -/
def parseQueryMessage (frame : Frame) : Res Msg :=
  parseTyped queryMessageType frame do
    let query ← ReadBuffer.readString
    pure (.query query)

/-- `ParseReadyForQueryMessage`, pkg/pg/ready_for_query_message.go:25-40. -/
def parseReadyForQueryMessage (frame : Frame) : Res Msg :=
  parseTyped readyForQueryMessageType frame do
    let status ← ReadBuffer.readByte
    pure (.readyForQuery status)

/-- One iteration of the loop of `ParseRowDescriptionMessage`, pkg/pg/row_description_message.go:71-121. -/
def fieldDescriptor : Dec FieldDescriptor := do
  let name ← ReadBuffer.readString
  let tableOID ← ReadBuffer.readInt32
  let columnNum ← ReadBuffer.readInt16
  let dataTypeOID ← ReadBuffer.readInt32
  let dataTypeSize ← ReadBuffer.readInt16
  let dataTypeModifier ← ReadBuffer.readInt32
  let format ← ReadBuffer.readInt16
  pure {
    name := name, tableOID := tableOID, columnIndex := columnNum, dataTypeOID := dataTypeOID,
    dataTypeSize := dataTypeSize, dataTypeModifier := dataTypeModifier, format := format }

/-- Decoding of `ParseRowDescriptionMessage`, pkg/pg/row_description_message.go:59-124. -/
def rowDescriptionBody : Dec (List FieldDescriptor) := do
  let fieldsCount ← ReadBuffer.readInt16
  let n ← Dec.lift (goMake 8 fieldsCount.toInt)
  Dec.times fieldDescriptor n

/-- `ParseRowDescriptionMessage`, pkg/pg/row_description_message.go:53-125. -/
def parseRowDescriptionMessage (frame : Frame) : Res Msg :=
  parseTyped rowDescriptionMessageType frame do
    let fields ← rowDescriptionBody
    pure (.rowDescription fields)

/-- `ParseTerminateMessage`, pkg/pg/terminate_message.go:13-25. -/
def parseTerminateMessage (frame : Frame) : Res Msg := do
  let mt ← frame.messageType
  if mt ≠ terminateMessageType then .err .malformed
  else do
    let b ← frame.messageBody
    if b.length > 0 then .err .malformed else pure .terminate

/-- `ParseGenericMessage`, pkg/pg/generic_message.go:13-18. -/
def parseGenericMessage (frame : Frame) : Res Msg := do
  let t ← frame.messageType
  let b ← frame.messageBody
  pure (.generic t b)

/-- The `for {}` loop of `ParseStartupMessage`, pkg/pg/startup_message.go:42-60, with at most `fuel` iterations. -/
def startupParametersLoop : (fuel : Nat) → Dec (List StartupParameter)
  | 0 => Dec.lift (.panic .outOfFuel)
  | fuel + 1 => do
    let key ← ReadBuffer.readString
    if key = [] then pure []
    else do
      let value ← ReadBuffer.readString
      let parameters ← startupParametersLoop fuel
      pure (⟨key, value⟩ :: parameters)

/-- pkg/pg/startup_message.go:40-61: parameters are read only if there is something after the version. -/
def startupParameters : Dec (List StartupParameter) := fun b =>
  if ReadBuffer.len b > 0 then startupParametersLoop (b.length + 1) b else (.ok [], b)

/-- Decoding of `ParseStartupMessage`, pkg/pg/startup_message.go:28-68. -/
def startupMessageBody : Dec StartupMessage := do
  let protocolVersion ← ReadBuffer.readInt32
  let parameters ← startupParameters
  pure { protocolVersion := protocolVersion, parameters := parameters }

/-- `ParseStartupMessage`, pkg/pg/startup_message.go:27-69 (there is no type check). -/
def parseStartupMessage (frame : Frame) : Res StartupMessage := do
  let b ← frame.messageBody
  startupMessageBody.run b

/-- `StartupMessage.GetParameter`, pkg/pg/startup_message.go:95-103. -/
def StartupMessage.getParameter (m : StartupMessage) (name : Bytes) : Bytes :=
  go m.parameters
where
  /-- the `for _, param := range m.Parameters` loop -/
  go : List StartupParameter → Bytes
    | [] => []
    | param :: params => if param.name = name then param.value else go params

/-! ## Serialisation (the `Frame` methods) -/

/-- The field loop shared by `ErrorResponseMessage.Frame` and `NoticeResponseMessage.Frame`, with the terminator:
pkg/pg/error_response_message.go:56-64, notice_response_message.go:56-64. -/
def writeMessageFields (fields : List MessageField) : Bytes :=
  let messageBuffer := fields.foldl (fun buf field =>
    WriteBuffer.writeString (WriteBuffer.writeByte buf field.type) field.value) []
  WriteBuffer.writeByte messageBuffer 0

/-- `DataRowMessage.Frame` body, pkg/pg/data_row_message.go:57-72; `int16(len(..))` and `int32(len(..))` wrap. -/
def writeDataRow (values : List (Option Bytes)) : Bytes :=
  let messageBuffer := WriteBuffer.writeInt16 [] (BitVec.ofNat 16 values.length)
  values.foldl (fun buf value =>
    match value with
    | none => WriteBuffer.writeInt32 buf (BitVec.ofInt 32 (-1))
    | some v => WriteBuffer.writeBytes (WriteBuffer.writeInt32 buf (BitVec.ofNat 32 v.length)) v) messageBuffer

/-- One iteration of the loop of `RowDescriptionMessage.Frame`, pkg/pg/row_description_message.go:134-142. -/
def writeFieldDescriptor (buf : Bytes) (f : FieldDescriptor) : Bytes :=
  let buf := WriteBuffer.writeString buf f.name
  let buf := WriteBuffer.writeInt32 buf f.tableOID
  let buf := WriteBuffer.writeInt16 buf f.columnIndex
  let buf := WriteBuffer.writeInt32 buf f.dataTypeOID
  let buf := WriteBuffer.writeInt16 buf f.dataTypeSize
  let buf := WriteBuffer.writeInt32 buf f.dataTypeModifier
  WriteBuffer.writeInt16 buf f.format

/-- `RowDescriptionMessage.Frame` body, pkg/pg/row_description_message.go:129-143. -/
def writeRowDescription (fields : List FieldDescriptor) : Bytes :=
  let messageBuffer := WriteBuffer.writeInt16 [] (BitVec.ofNat 16 fields.length)
  fields.foldl writeFieldDescriptor messageBuffer

/-- `NegotiateProtocolVersionMessage.Frame` body, pkg/pg/negotiate_protocol_version_message.go:59-66. -/
def writeNegotiate (supported : BitVec 32) (options : List Bytes) : Bytes :=
  let messageBuffer := WriteBuffer.writeInt32 [] supported
  let messageBuffer := WriteBuffer.writeInt32 messageBuffer (BitVec.ofNat 32 options.length)
  options.foldl WriteBuffer.writeString messageBuffer

/-- `StartupMessage.Frame` body, pkg/pg/startup_message.go:73-89: the terminator is written only if there are
parameters. -/
def writeStartup (m : StartupMessage) : Bytes :=
  let messageBuffer := WriteBuffer.writeInt32 [] m.protocolVersion
  let (messageBuffer, hasParams) := m.parameters.foldl (fun (buf, _) param =>
    (WriteBuffer.writeString (WriteBuffer.writeString buf param.name) param.value, true)) (messageBuffer, false)
  if hasParams then WriteBuffer.writeByte messageBuffer 0 else messageBuffer

/-- `Message.Frame()` for every implementation. Lines: authentication_request_message.go:132-197,
backend_key_data_message.go:44-51, command_complete_message.go:34-40, data_row_message.go:56-75,
empty_query_response_message.go:28-30, error_response_message.go:55-67, notice_response_message.go:55-67,
negotiate_protocol_version_message.go:58-69, parameter_status_message.go:43-50, password_message.go:34-39,
query_message.go:34-39, ready_for_query_message.go:43-45, row_description_message.go:128-146,
terminate_message.go:28-30, generic_message.go:21-24, startup_message.go:72-92. -/
def Msg.frame : Msg → Frame
  | .authOk => newStandardFrame authenticationRequestMessageType (WriteBuffer.writeInt32 [] 0)
  | .authKerberosV5 => newStandardFrame authenticationRequestMessageType (WriteBuffer.writeInt32 [] 2)
  | .authCleartextPassword => newStandardFrame authenticationRequestMessageType (WriteBuffer.writeInt32 [] 3)
  | .authMD5Password salt =>
    newStandardFrame authenticationRequestMessageType
      (WriteBuffer.writeBytes (WriteBuffer.writeInt32 [] 5) salt.toBytes)
  | .authSCMCredential => newStandardFrame authenticationRequestMessageType (WriteBuffer.writeInt32 [] 6)
  | .authGSS => newStandardFrame authenticationRequestMessageType (WriteBuffer.writeInt32 [] 7)
  | .authGSSContinue data =>
    newStandardFrame authenticationRequestMessageType
      (WriteBuffer.writeBytes (WriteBuffer.writeInt32 [] 8) data)
  | .authSSPI => newStandardFrame authenticationRequestMessageType (WriteBuffer.writeInt32 [] 9)
  | .backendKeyData processID key =>
    newStandardFrame backendKeyDataMessageType (WriteBuffer.writeInt32 (WriteBuffer.writeInt32 [] processID) key)
  | .commandComplete tag => newStandardFrame commandCompleteMessageType (WriteBuffer.writeString [] tag)
  | .dataRow values => newStandardFrame dataRowMessageType (writeDataRow values)
  | .emptyQueryResponse => newStandardFrame emptyQueryResponseMessageType []
  | .errorResponse fields => newStandardFrame errorResponseMessageType (writeMessageFields fields)
  | .noticeResponse fields => newStandardFrame noticeResponseMessageType (writeMessageFields fields)
  | .negotiateProtocolVersion supported options =>
    newStandardFrame negotiateProtocolVersionMessageType (writeNegotiate supported options)
  | .parameterStatus name value =>
    newStandardFrame parameterStatusMessageType (WriteBuffer.writeString (WriteBuffer.writeString [] name) value)
  | .password pw => newStandardFrame passwordMessageType (WriteBuffer.writeString [] pw)
  | .query q => newStandardFrame queryMessageType (WriteBuffer.writeString [] q)
  | .readyForQuery txStatus => newStandardFrame readyForQueryMessageType [txStatus]
  | .rowDescription fields => newStandardFrame rowDescriptionMessageType (writeRowDescription fields)
  | .terminate => newStandardFrame terminateMessageType []
  | .generic type body => newStandardFrame type body
  | .startup m => newStartupFrame (writeStartup m)

end Gevulot
