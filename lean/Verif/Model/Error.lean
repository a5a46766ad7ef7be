import Verif.Model.Basic
/-!
# `src/error.rs`
-/
namespace Perf

/-- `ErrorKind`, src/error.rs:73-108. -/
inductive ErrorKind where
  | eof
  | invalidRecord
  | unsupportedConfig
  | unsupportedData
  | external
deriving DecidableEq, Repr

/-- `ParseError`, src/error.rs:25-29. The boxed source error is represented by the text its `Display`
produces (nothing else of it is observable through this crate's API). -/
structure ParseError where
  code : ErrorKind
  source : Option String
deriving DecidableEq, Repr

namespace ParseError

/-- `ParseError::new`, src/error.rs:34-42. -/
def new (error : String) : ParseError := { code := .external, source := some error }

/-- `ParseError::with_kind`, src/error.rs:61-63. -/
def withKind (e : ParseError) (code : ErrorKind) : ParseError := { e with code := code }

/-- `ParseError::custom`, src/error.rs:46-48 (with `CustomMessageError`, src/error.rs:183-199, whose
`Display` is the message). -/
def custom (kind : ErrorKind) (msg : String) : ParseError := (new msg).withKind kind

/-- `ParseError::from_code`, src/error.rs:57-59. -/
def fromCode (code : ErrorKind) : ParseError := { code := code, source := none }

/-- `ParseError::eof`, src/error.rs:67-69. -/
def eof : ParseError := fromCode .eof

/-- `ParseError::kind`, src/error.rs:52-54. -/
def kind (e : ParseError) : ErrorKind := e.code

end ParseError

/-- The part of `std::io::Error` the crate looks at: its kind (only `UnexpectedEof` is distinguished) and its
text. -/
structure IoError where
  unexpectedEof : Bool
  text : String
deriving DecidableEq, Repr

/-- `impl From<std::io::Error> for ParseError`, src/error.rs:147-155. -/
def ParseError.ofIo (e : IoError) : ParseError :=
  if e.unexpectedEof then (ParseError.new e.text).withKind .eof else ParseError.new e.text

/-- `impl From<BoxedError> for ParseError`, src/error.rs:157-165. -/
def ParseError.ofBoxed (text : String) : ParseError := { code := .external, source := some text }

/-- `impl Display for ParseError`, src/error.rs:110-136: the text written to the formatter. -/
def ParseError.display (e : ParseError) : String :=
  let head :=
    match e.code with
    | .eof => "unexpected EOF during parsing"
    | .invalidRecord => "invalid record"
    | .unsupportedData => "unsupported serialized data"
    | .unsupportedConfig => "unsupported config"
    | .external => if e.source.isNone then "user-provided error" else ""
  match e.source with
  | none => head
  | some src => head ++ (if e.code = .external then ": " else "") ++ src

/-- How a call can end without a value: an `Err`, a panic, or never (an endless loop). The last two are never
wanted; the model keeps them as data so that their absence is a theorem. -/
inductive Fault where
  | err (e : ParseError)
  | panic
  | diverge
deriving DecidableEq, Repr

end Perf
