import Verif.Model.Messages
import Verif.Spec.Wire

/-!
# Specification: PostgreSQL message formats

<https://www.postgresql.org/docs/9.6/protocol-message-formats.html>, for the messages of pkg/pg. Only the data types of
the messages come from the model; counts and sizes are mathematical integers.
-/

namespace Gevulot.Spec

/-- A value of a DataRow: `Int32` size (-1 for NULL) and the bytes. -/
def rowValue : Option Bytes → Bytes
  | none => int32 (-1)
  | some v => int32 v.length ++ v

/-- A field of a RowDescription. -/
def rowField (f : FieldDescriptor) : Bytes :=
  cstr f.name ++ int32 f.tableOID.toInt ++ int16 f.columnIndex.toInt ++ int32 f.dataTypeOID.toInt ++
    int16 f.dataTypeSize.toInt ++ int32 f.dataTypeModifier.toInt ++ int16 f.format.toInt

/-- A field of an ErrorResponse or NoticeResponse. -/
def messageField (f : MessageField) : Bytes := f.type :: cstr f.value

/-- A parameter of a startup message. -/
def startupParameter (p : StartupParameter) : Bytes := cstr p.name ++ cstr p.value

/-- The body of each message. A startup message without parameters ends after the version, as an SSLRequest does. -/
def body : Msg → Bytes
  | .authOk => int32 0
  | .authKerberosV5 => int32 2
  | .authCleartextPassword => int32 3
  | .authMD5Password salt => int32 5 ++ [salt.b0, salt.b1, salt.b2, salt.b3]
  | .authSCMCredential => int32 6
  | .authGSS => int32 7
  | .authGSSContinue data => int32 8 ++ data
  | .authSSPI => int32 9
  | .backendKeyData processID key => int32 processID.toInt ++ int32 key.toInt
  | .commandComplete tag => cstr tag
  | .dataRow values => int16 values.length ++ values.flatMap rowValue
  | .emptyQueryResponse => []
  | .errorResponse fields => fields.flatMap messageField ++ [0]
  | .noticeResponse fields => fields.flatMap messageField ++ [0]
  | .negotiateProtocolVersion supported options =>
    int32 supported.toInt ++ int32 options.length ++ options.flatMap cstr
  | .parameterStatus name value => cstr name ++ cstr value
  | .password pw => cstr pw
  | .query q => cstr q
  | .readyForQuery txStatus => [txStatus]
  | .rowDescription fields => int16 fields.length ++ fields.flatMap rowField
  | .terminate => []
  | .generic _ body => body
  | .startup m =>
    int32 m.protocolVersion.toInt ++ m.parameters.flatMap startupParameter ++
      (if m.parameters = [] then [] else [0])

/-- The kinds of standard (typed) messages pkg/pg knows. -/
inductive Kind where
  | authenticationRequest | backendKeyData | commandComplete | dataRow | emptyQueryResponse | errorResponse
  | noticeResponse | negotiateProtocolVersion | parameterStatus | password | query | readyForQuery
  | rowDescription | terminate
  deriving DecidableEq, Repr

/-- The type byte of each kind, as in the protocol documentation. -/
def Kind.typeByte : Kind → Byte
  | .authenticationRequest => 82 -- 'R'
  | .backendKeyData => 75 -- 'K'
  | .commandComplete => 67 -- 'C'
  | .dataRow => 68 -- 'D'
  | .emptyQueryResponse => 73 -- 'I'
  | .errorResponse => 69 -- 'E'
  | .noticeResponse => 78 -- 'N'
  | .negotiateProtocolVersion => 118 -- 'v'
  | .parameterStatus => 83 -- 'S'
  | .password => 112 -- 'p'
  | .query => 81 -- 'Q'
  | .readyForQuery => 90 -- 'Z'
  | .rowDescription => 84 -- 'T'
  | .terminate => 88 -- 'X'

/-- All kinds. -/
def Kind.all : List Kind :=
  [.authenticationRequest, .backendKeyData, .commandComplete, .dataRow, .emptyQueryResponse, .errorResponse,
    .noticeResponse, .negotiateProtocolVersion, .parameterStatus, .password, .query, .readyForQuery,
    .rowDescription, .terminate]

/-- The kind of a message; generic and startup messages have none. -/
def kind : Msg → Option Kind
  | .authOk | .authKerberosV5 | .authCleartextPassword | .authMD5Password _ | .authSCMCredential | .authGSS
  | .authGSSContinue _ | .authSSPI => some .authenticationRequest
  | .backendKeyData _ _ => some .backendKeyData
  | .commandComplete _ => some .commandComplete
  | .dataRow _ => some .dataRow
  | .emptyQueryResponse => some .emptyQueryResponse
  | .errorResponse _ => some .errorResponse
  | .noticeResponse _ => some .noticeResponse
  | .negotiateProtocolVersion _ _ => some .negotiateProtocolVersion
  | .parameterStatus _ _ => some .parameterStatus
  | .password _ => some .password
  | .query _ => some .query
  | .readyForQuery _ => some .readyForQuery
  | .rowDescription _ => some .rowDescription
  | .terminate => some .terminate
  | .generic _ _ => none
  | .startup _ => none

/-- The message on the wire, frame included. -/
def wire (m : Msg) : Bytes :=
  match m with
  | .startup _ => startupFrame (body m)
  | .generic t _ => standardFrame t (body m)
  | _ => match kind m with
    | some k => standardFrame k.typeByte (body m)
    | none => []

/-- Content that the format of the message can express: strings without zero bytes, counts and sizes that fit their
field, field codes that are not the terminator, parameter names that are not empty, a generic message only for a type
byte that is not one of the known ones. -/
def Content : Msg → Prop
  | .commandComplete tag => NulFree tag
  | .dataRow values => values.length < 32768 ∧ ∀ o ∈ values, ∀ v ∈ o, v.length < 2147483648
  | .errorResponse fields => ∀ f ∈ fields, f.type ≠ 0 ∧ NulFree f.value
  | .noticeResponse fields => ∀ f ∈ fields, f.type ≠ 0 ∧ NulFree f.value
  | .negotiateProtocolVersion _ options => options.length < 2147483648 ∧ ∀ o ∈ options, NulFree o
  | .parameterStatus name value => NulFree name ∧ NulFree value
  | .password pw => NulFree pw
  | .query q => NulFree q
  | .rowDescription fields => fields.length < 32768 ∧ ∀ f ∈ fields, NulFree f.name
  | .generic t _ => ∀ k ∈ Kind.all, t ≠ k.typeByte
  | .startup m => ∀ p ∈ m.parameters, p.name ≠ [] ∧ NulFree p.name ∧ NulFree p.value
  | _ => True

instance (m : Msg) : Decidable (Content m) := by
  cases m <;> unfold Content <;> infer_instance

/-- A message that can be sent: expressible content, and a body that fits the frame (below 2 GiB). -/
def WellFormed (m : Msg) : Prop := Content m ∧ (body m).length < 2147483648

instance (m : Msg) : Decidable (WellFormed m) := inferInstanceAs (Decidable (_ ∧ _))

/-- Messages whose body has no room for extra bytes after it: either the format says there are none, or the last field
takes everything that is left. -/
def takesAll : Msg → Bool
  | .emptyQueryResponse | .terminate | .authGSSContinue _ | .generic _ _ => true
  | _ => false

/-- The bodies that crash: a RowDescription or DataRow with a negative count, and a DataRow where, after fewer
well-formed values than announced, a value has a negative size other than -1. -/
def CrashingBody (t : Byte) (body : Bytes) : Prop :=
  (t = 84 ∧ ∃ (c : Int) (r : Bytes), -32768 ≤ c ∧ c < 0 ∧ body = int16 c ++ r) ∨
  (t = 68 ∧ ∃ (c : Int) (r : Bytes), -32768 ≤ c ∧ c < 32768 ∧ body = int16 c ++ r ∧
    (c < 0 ∨ ∃ (values : List (Option Bytes)) (size : Int) (rest : Bytes), (values.length : Int) < c ∧
      (∀ v, some v ∈ values → v.length < 2147483648) ∧ -2147483648 ≤ size ∧ size < -1 ∧
      r = values.flatMap rowValue ++ int32 size ++ rest))

end Gevulot.Spec
