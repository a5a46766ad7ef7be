import Verif.Model.User
import Verif.Spec.Record
/-!
# Programs over flat bytes

Two readings. `Prog.flat` is for any lawful buffer; going on after an error is `stuck` in it, because a reader may
return anything after an error. `Prog.flow` is for buffers that keep reporting their end (slices, pieces, cursors) and
says where the parser stands after an error.
-/
namespace Perf

/-- The next record's body and metadata. -/
def Spec.metadata : Spec (Flat × Metadata) := do
  let h ← parseHeader
  Spec.metadataWithHeader h

/-- The outcome of `m` on another input. -/
def Spec.attemptOn {α : Type} (r : Flat) (m : Spec α) : Spec (Except ParseError α) := fun f =>
  match m r with
  | .ok (a, _) => .ok (.ok a, f)
  | .error (.err e) => .ok (.error e, f)
  | .error .stuck => .error .stuck

/-- The outcome of `m`, which must be a success. -/
def Spec.attempt {α : Type} (m : Spec α) : Spec (Except ParseError α) := fun f =>
  match m f with
  | .ok (a, f') => .ok (.ok a, f')
  | .error _ => .error .stuck

/-- The call as a function of the bytes. `parse_slice_direct` says whether the data is in one piece, so it has none. -/
def Call.flat : {T : Type} → Call T → Spec T
  | _, .array n => Spec.bytes n
  | _, .direct _ => Spec.stuck
  | _, .entries n => Spec.slice NamespaceEntry.elem parseNamespaceEntry n
  | _, .branches n => Spec.slice BranchEntry.elem parseBranchEntry n
  | _, .header => parseHeader
  | _, .attr => Spec.parseAttr
  | _, .entry => parseNamespaceEntry
  | _, .branch => parseBranchEntry
  | _, .mmapDetail => parseMmapDetail
  | _, .sampleId => parseSampleId
  | _, .readValue => parseReadValue
  | _, .readGroup => parseReadGroup
  | _, .body ty => parseBody ty
  | _, .visit => Spec.record
  | _, .visitWith h => Spec.recordWithHeader h

/-- The program as a function of the bytes. -/
def Prog.flat : {α : Type} → Prog α → Spec α
  | _, .done a => pure a
  | _, .fail e => Spec.fail e
  | _, .config k => Spec.config >>= fun c => (k c).flat
  | _, .u8 k => (parseU8 : Spec U8) >>= fun x => (k x).flat
  | _, .u16 k => (parseU16 : Spec U16) >>= fun x => (k x).flat
  | _, .u32 k => (parseU32 : Spec U32) >>= fun x => (k x).flat
  | _, .u64 k => (parseU64 : Spec U64) >>= fun x => (k x).flat
  | _, .bytes n k => Spec.bytes n >>= fun c => (k c).flat
  | _, .rest k => Spec.rest >>= fun c => (k c).flat
  | _, .restTrimNul k => Spec.restTrimNul >>= fun c => (k c).flat
  | _, .words n k => Spec.slice U64.elem parseU64 n >>= fun c => (k c).flat
  | _, .repeated _ item n k => Spec.repeated item.flat n >>= fun l => (k l).flat
  | _, .metadata body k => Spec.metadata >>= fun x => Spec.attemptOn x.1 body.flat >>= fun r => (k x.2 r).flat
  | _, .metadataWith h body k =>
    Spec.metadataWithHeader h >>= fun x => Spec.attemptOn x.1 body.flat >>= fun r => (k x.2 r).flat
  | _, .call c k => c.flat >>= fun x => (k x).flat
  | _, .record k => Spec.record >>= fun r => (k r.1).flat
  | _, .attempt m k => Spec.attempt m.flat >>= fun r => (k r).flat

/-- Calls that involve no list read by `parse_slice`, no `TextPoke`, and no record of unknown type. -/
def Call.Plain : {T : Type} → Call T → Prop
  | _, .direct _ => False
  | _, .entries _ => False
  | _, .branches _ => False
  | _, .readGroup => False
  | _, .body ty => ty.toNat ∉ [9, 16, 20]
  | _, .visit => False
  | _, .visitWith h => h.type_.toNat ∉ [9, 16, 20]
  | _, _ => True

/-- Calls that do not read to the end of the input. -/
def Call.NoRest : {T : Type} → Call T → Prop
  | _, .body ty => ty.toNat ∈ [2, 4, 5, 6, 7, 8, 9, 11, 12, 13, 15, 16, 18, 20, 21]
  | _, _ => True

/-- Programs that stop at the first error and call neither `parse_slice` nor `parse::<Record>`. -/
def Prog.Plain : {α : Type} → Prog α → Prop
  | _, .done _ => True
  | _, .fail _ => True
  | _, .config k => ∀ x, (k x).Plain
  | _, .u8 k => ∀ x, (k x).Plain
  | _, .u16 k => ∀ x, (k x).Plain
  | _, .u32 k => ∀ x, (k x).Plain
  | _, .u64 k => ∀ x, (k x).Plain
  | _, .bytes _ k => ∀ x, (k x).Plain
  | _, .rest k => ∀ x, (k x).Plain
  | _, .restTrimNul k => ∀ x, (k x).Plain
  | _, .words _ _ => False
  | _, .repeated _ item _ k => item.Plain ∧ ∀ x, (k x).Plain
  | _, .metadata body k => body.Plain ∧ ∀ x y, (k x y).Plain
  | _, .metadataWith _ body k => body.Plain ∧ ∀ x y, (k x y).Plain
  | _, .call c k => c.Plain ∧ ∀ x, (k x).Plain
  | _, .record _ => False
  | _, .attempt _ _ => False

/-- Programs that read to the end of the input only inside a record. -/
def Prog.NoRest : {α : Type} → Prog α → Prop
  | _, .done _ => True
  | _, .fail _ => True
  | _, .config k => ∀ x, (k x).NoRest
  | _, .u8 k => ∀ x, (k x).NoRest
  | _, .u16 k => ∀ x, (k x).NoRest
  | _, .u32 k => ∀ x, (k x).NoRest
  | _, .u64 k => ∀ x, (k x).NoRest
  | _, .bytes _ k => ∀ x, (k x).NoRest
  | _, .rest _ => False
  | _, .restTrimNul _ => False
  | _, .words _ k => ∀ x, (k x).NoRest
  | _, .repeated _ item _ k => item.NoRest ∧ ∀ x, (k x).NoRest
  | _, .metadata _ k => ∀ x y, (k x y).NoRest
  | _, .metadataWith _ _ k => ∀ x y, (k x y).NoRest
  | _, .call c k => c.NoRest ∧ ∀ x, (k x).NoRest
  | _, .record k => ∀ x, (k x).NoRest
  | _, .attempt m k => m.NoRest ∧ ∀ x, (k x).NoRest

/-! ## Failures leave a state -/

/-- A flat parser that says where it stands also after an error; `none` is the former `stuck`. -/
def Flow (α : Type) : Type := Flat → Option (Except ParseError α × Flat)

namespace Flow
variable {α γ T : Type}

def pure (a : α) : Flow α := fun f => some (.ok a, f)
def fail (e : ParseError) : Flow α := fun f => some (.error e, f)
def config : Flow ParseConfig := fun f => some (.ok f.cfg, f)

def bind (m : Flow α) (k : α → Flow γ) : Flow γ := fun f =>
  match m f with
  | none => none
  | some (.error e, f') => some (.error e, f')
  | some (.ok a, f') => k a f'

/-- A parser whose only errors come from the end of the input, which is then all consumed. -/
def drain (s : Spec α) : Flow α := fun f =>
  match s f with
  | .ok (a, f') => some (.ok a, f')
  | .error (.err e) => some (.error e, f.adv f.s.bytes.length)
  | .error .stuck => none

/-- `n` items one after the other. -/
def repeated (item : Flow T) : Nat → Flow (List T)
  | 0 => pure []
  | n + 1 => bind item fun x => bind (repeated item n) fun xs => pure (x :: xs)

/-- `parse_slice`: a size that is too large is refused on the spot. -/
def slice (e : Elem T) (item : Spec T) (n : Nat) : Flow (List T) := fun f =>
  if f.cfg.endian.isNative ∧ n * e.size ≥ usizeLimit then
    some (.error (.custom .invalidRecord "array length in bytes larger than usize::MAX"), f)
  else drain (Spec.slice e item n) f

/-- What a flat parser with states says without them. -/
def erase (m : Flow α) : Spec α := fun f =>
  match m f with
  | none => .error .stuck
  | some (.error e, _) => .error (.err e)
  | some (.ok a, f') => .ok (a, f')

/-- Run `m`, then skip to a multiple of `padding` bytes from where it started. -/
def padded (padding : Nat) (m : Flow α) : Flow α := fun f =>
  if padding = 0 then none
  else match m f with
    | none => none
    | some (.error e, f') => some (.error e, f')
    | some (.ok a, f') =>
      let n := (f'.off - f.off) % padding
      if n = 0 then some (.ok a, f')
      else bind (drain (Spec.take (padding - n))) (fun _ => pure a) f'

/-- Split at `n`; unspecified at the ends and beyond. -/
def splitAt (l : List T) (n : Nat) : Flow (List T × List T) := fun f =>
  if l ≠ [] ∧ (n = 0 ∨ n ≥ l.length) ∨ n > l.length then none else some (.ok (l.take n, l.drop n), f)

instance : Monad Flow where
  pure := Flow.pure
  bind := Flow.bind

/-- The record parsers with states after errors. -/
instance : ParserM Flow List where
  config := config
  fail := fail
  array n := drain (Spec.bytes n)
  bytes n := drain (Spec.bytes n)
  rest := drain Spec.rest
  restTrimNul := drain Spec.restTrimNul
  padded := padded
  slice e item n := slice e (erase item) n
  elems l := l
  cowSplitAt := splitAt
  cowTruncate l n := l.take n
  cowOwned l := l

/-- `perf_event_attr`: after a size that is accepted the parser stands behind the structure. -/
def attr : Flow Attr :=
  bind parseU32 fun type_ => bind parseU32 fun size =>
    if !Attr.sizeOk size.toNat then
      fail (.custom .invalidRecord s!"{size.toNat} is not a valid size for a perf_event_attr struct")
    else fun f =>
      if size.toNat - 4 ≤ f.s.bytes.length then
        match (attrBody type_ size : Spec Attr) (f.region (size.toNat - 4)) with
        | .error .stuck => none
        | .error (.err e) => some (.error e, f.adv (size.toNat - 4))
        | .ok (a, _) => some (.ok a, f.adv (size.toNat - 4))
      else some (.error f.s.fin, f.adv f.s.bytes.length)

/-- After the header the parser stands behind the record, also when the record is refused; a size below 8 is refused
on the spot. -/
def framed (h : Header) (s : Spec α) : Flow α := fun f =>
  match s f with
  | .ok (a, f') => some (.ok a, f')
  | .error (.err e) => some (.error e, if h.size.toNat < 8 then f else f.adv (min (h.size.toNat - 8) f.s.bytes.length))
  | .error .stuck => none

def metadata : Flow (Flat × Metadata) := bind (drain parseHeader) fun h => framed h (Spec.metadataWithHeader h)
def record : Flow (Record List × Metadata) := bind (drain parseHeader) fun h => framed h (Spec.recordWithHeader h)

/-- The outcome of `m` on another input. -/
def attemptOn (r : Flat) (m : Flow α) : Flow (Except ParseError α) := fun f =>
  match m r with
  | none => none
  | some (x, _) => some (.ok x, f)

/-- The outcome of `m`. -/
def attempt (m : Flow α) : Flow (Except ParseError α) := fun f =>
  match m f with
  | none => none
  | some (x, f') => some (.ok x, f')

/-- `parse_slice_direct` says whether the data is in one piece, unless its byte order is foreign: then it reads nothing. -/
def direct : Flow (Option (List U64)) := fun f => if f.cfg.endian.isNative then none else some (.ok none, f)

end Flow

/-- The call as a function of the bytes, errors included. -/
def Call.flow : {T : Type} → Call T → Flow T
  | _, .array n => ParserM.array n
  | _, .direct _ => Flow.direct
  | _, .entries n => ParserM.slice NamespaceEntry.elem parseNamespaceEntry n
  | _, .branches n => ParserM.slice BranchEntry.elem parseBranchEntry n
  | _, .header => parseHeader
  | _, .attr => Flow.attr
  | _, .entry => parseNamespaceEntry
  | _, .branch => parseBranchEntry
  | _, .mmapDetail => parseMmapDetail
  | _, .sampleId => parseSampleId
  | _, .readValue => parseReadValue
  | _, .readGroup => parseReadGroup
  | _, .body ty => parseBody ty
  | _, .visit => Flow.record
  | _, .visitWith h => Flow.framed h (Spec.recordWithHeader h)

/-- The program as a function of the bytes, errors included. -/
def Prog.flow : {α : Type} → Prog α → Flow α
  | _, .done a => Flow.pure a
  | _, .fail e => Flow.fail e
  | _, .config k => Flow.config.bind fun c => (k c).flow
  | _, .u8 k => (Flow.drain parseU8).bind fun x => (k x).flow
  | _, .u16 k => (Flow.drain parseU16).bind fun x => (k x).flow
  | _, .u32 k => (Flow.drain parseU32).bind fun x => (k x).flow
  | _, .u64 k => (Flow.drain parseU64).bind fun x => (k x).flow
  | _, .bytes n k => (Flow.drain (Spec.bytes n)).bind fun x => (k x).flow
  | _, .rest k => (Flow.drain Spec.rest).bind fun x => (k x).flow
  | _, .restTrimNul k => (Flow.drain Spec.restTrimNul).bind fun x => (k x).flow
  | _, .words n k => (Flow.slice U64.elem parseU64 n).bind fun x => (k x).flow
  | _, .repeated _ item n k => (Flow.repeated item.flow n).bind fun l => (k l).flow
  | _, .metadata body k => Flow.metadata.bind fun x => (Flow.attemptOn x.1 body.flow).bind fun r => (k x.2 r).flow
  | _, .metadataWith h body k =>
    (Flow.framed h (Spec.metadataWithHeader h)).bind fun x => (Flow.attemptOn x.1 body.flow).bind fun r => (k x.2 r).flow
  | _, .call c k => c.flow.bind fun x => (k x).flow
  | _, .record k => Flow.record.bind fun r => (k r.1).flow
  | _, .attempt m k => (Flow.attempt m.flow).bind fun r => (k r).flow

/-- Programs that call neither `parse_slice` nor `parse::<Record>`; they may go on after errors. -/
def Prog.Bare : {α : Type} → Prog α → Prop
  | _, .done _ => True
  | _, .fail _ => True
  | _, .config k => ∀ x, (k x).Bare
  | _, .u8 k => ∀ x, (k x).Bare
  | _, .u16 k => ∀ x, (k x).Bare
  | _, .u32 k => ∀ x, (k x).Bare
  | _, .u64 k => ∀ x, (k x).Bare
  | _, .bytes _ k => ∀ x, (k x).Bare
  | _, .rest k => ∀ x, (k x).Bare
  | _, .restTrimNul k => ∀ x, (k x).Bare
  | _, .words _ _ => False
  | _, .repeated _ item _ k => item.Bare ∧ ∀ x, (k x).Bare
  | _, .metadata body k => body.Bare ∧ ∀ x y, (k x y).Bare
  | _, .metadataWith _ body k => body.Bare ∧ ∀ x y, (k x y).Bare
  | _, .call c k => c.Plain ∧ ∀ x, (k x).Bare
  | _, .record _ => False
  | _, .attempt m k => m.Bare ∧ ∀ x, (k x).Bare

/-- Calls that do not ask for a TEXT_POKE record themselves. -/
def Call.Steady : {T : Type} → Call T → Prop
  | _, .body ty => ty.toNat ≠ 20
  | _, .visitWith h => h.type_.toNat ≠ 20
  | _, _ => True

/-- Programs that do not. -/
def Prog.Steady : {α : Type} → Prog α → Prop
  | _, .done _ => True
  | _, .fail _ => True
  | _, .config k => ∀ x, (k x).Steady
  | _, .u8 k => ∀ x, (k x).Steady
  | _, .u16 k => ∀ x, (k x).Steady
  | _, .u32 k => ∀ x, (k x).Steady
  | _, .u64 k => ∀ x, (k x).Steady
  | _, .bytes _ k => ∀ x, (k x).Steady
  | _, .rest k => ∀ x, (k x).Steady
  | _, .restTrimNul k => ∀ x, (k x).Steady
  | _, .words _ k => ∀ x, (k x).Steady
  | _, .repeated _ item _ k => item.Steady ∧ ∀ x, (k x).Steady
  | _, .metadata body k => body.Steady ∧ ∀ x y, (k x y).Steady
  | _, .metadataWith _ body k => body.Steady ∧ ∀ x y, (k x y).Steady
  | _, .call c k => c.Steady ∧ ∀ x, (k x).Steady
  | _, .record k => ∀ x, (k x).Steady
  | _, .attempt m k => m.Steady ∧ ∀ x, (k x).Steady

end Perf
