import Verif.Props.PlaceExact
import Verif.Props.FrameExact
import Verif.Proof.Drip
/-!
# C105: what a user's program sees in pieces of memory

C90 says what a program over the public interface of `Parser` (Model/User.lean) sees through a reader, C91 what it sees in one piece of memory.
Here the input is in any number of pieces, borrowed or not, at any addresses, and the program stops at the first error (`?` everywhere), except
that it may go on after an error of a call for a whole record or a list and after the end of the input when reading numbers, bytes, headers and entries. What it sees
is a function of the bytes and of where they lie: `Prog.weave` writes it down, and with it where the program goes on after an error (`Prog.reach`):
behind the record, where it was if a list is refused, or at the end.
-/
namespace Perf
open ParserM

/-- `w` from the offset `k` on. -/
def from_ (w : Nat → Nat → Option Nat) (k i n : Nat) : Option Nat := w (k + i) n

namespace Woven
variable {w w' : Nat → Nat → Option Nat} {α T : Type}

/-- `parse_slice_direct`: in the host's byte order, a list that lies in one borrowed piece is taken; it is returned if its address allows. -/
def sliceDirect (e : Elem T) (n : Nat) : Woven w (Option (List T)) := fun f =>
  if f.cfg.endian.isNative then
    if n * e.size ≥ usizeLimit then
      .error (.err (.custom .invalidRecord "array length in bytes larger than usize::MAX"))
    else if f.s.bytes = [] then .error (.err .eof)
    else if n * e.size ≤ f.s.bytes.length then
      match w f.off (n * e.size) with
      | some a =>
        if n * e.size = 0 ∨ a % 8 = 0 then
          .ok (some (e.decodeAll (fromOrder f.cfg.host 64) n (f.s.bytes.take (n * e.size))), f.adv (n * e.size))
        else .ok (none, f.adv (n * e.size))
      | none => .ok (none, f)
    else .ok (none, f)
  else .ok (none, f)

/-- `perf_event_attr`, which is not affected by where it lies. -/
def attr : Woven w Attr := do
  let type_ ← parseU32
  let size ← parseU32
  if !Attr.sizeOk size.toNat then
    fault (.err (.custom .invalidRecord s!"{size.toNat} is not a valid size for a perf_event_attr struct"))
  else fun f =>
    if size.toNat - 4 ≤ f.s.bytes.length then
      match (attrBody type_ size : Spec Attr) (f.region (size.toNat - 4)) with
      | .error .stuck => .error .panic
      | .error (.err e) => .error (.err e)
      | .ok (a, _) => .ok (a, f.adv (size.toNat - 4))
    else .error (.err .eof)

/-- The record behind the header `h` is opened; `m` gets its body, which lies where the input lies, and its metadata. -/
def opened (h : Header) (m : (k : Nat) → Metadata → Woven (from_ w k) α) : Woven w (Metadata × Except Fault α) := fun f =>
  match Spec.metadataWithHeader h f with
  | .error .stuck => .error .panic
  | .error (.err e) => .error (.err e)
  | .ok ((r, md), f') => .ok ((md, match m f.off md r with
    | .ok (a, _) => .ok a
    | .error e => .error e), f')

/-- An error of the body is a value for the program, a panic is not. -/
def settle (r : Except Fault α) : Woven w (Except ParseError α) := match r with
  | .ok a => pure (.ok a)
  | .error (.err e) => pure (.error e)
  | .error e => fault e

/-- A record of unknown type goes by the type in its header. -/
def named (ty : U32) : Record List → Record List
  | .unknown _ d => .unknown ty d
  | r => r

/-- The error of `m` as a value, `n` bytes further; a panic goes through. -/
def tried (n : Flat → ParseError → Nat) (m : Woven w α) : Woven w (Except ParseError α) := fun f => match m f with
  | .ok (a, f') => .ok (.ok a, f')
  | .error (.err e) => .ok (.error e, f.adv (n f e))
  | .error e => .error e

/-- `parse_record_with_header`. -/
def recordWithHeader (h : Header) : Woven w (Record List × Metadata) := do
  let x ← opened h fun k md r => (parseBody md.ty : Woven (from_ w k) (Record List)) (r.withMisc md.misc)
  match x.2 with
  | .ok r => pure (named x.1.ty r, x.1)
  | .error e => fault e

end Woven

/-- The call as a function of the bytes and of where they lie. -/
def Call.weave : {T : Type} → Call T → (w : Nat → Nat → Option Nat) → Woven w T
  | _, .array n, _ => ParserM.array n
  | _, .direct n, _ => Woven.sliceDirect U64.elem n
  | _, .entries n, _ => ParserM.slice NamespaceEntry.elem parseNamespaceEntry n
  | _, .branches n, _ => ParserM.slice BranchEntry.elem parseBranchEntry n
  | _, .header, _ => parseHeader
  | _, .attr, _ => Woven.attr
  | _, .entry, _ => parseNamespaceEntry
  | _, .branch, _ => parseBranchEntry
  | _, .mmapDetail, _ => parseMmapDetail
  | _, .sampleId, _ => parseSampleId
  | _, .readValue, _ => parseReadValue
  | _, .readGroup, _ => parseReadGroup
  | _, .body ty, _ => parseBody ty
  | _, .visit, _ => parseHeader >>= Woven.recordWithHeader
  | _, .visitWith h, _ => Woven.recordWithHeader h

/-- How far the part of a record behind its header `h` goes. -/
def behind (h : Header) (f : Flat) : Nat := if h.size.toNat < 8 then 0 else min (h.size.toNat - 8) f.s.bytes.length

/-- Calls whose only error is the end of the input. -/
def Call.OnlyEof : {T : Type} → Call T → Prop
  | _, .array _ => True
  | _, .header => True
  | _, .entry => True
  | _, .branch => True
  | _, .sampleId => True
  | _, _ => False

/-- Programs whose only error is the end of the input: numbers, bytes, headers, entries and `SampleId`s, any number of them. -/
def Prog.OnlyEof : {α : Type} → Prog α → Prop
  | _, .done _ => True
  | _, .config k => ∀ x, (k x).OnlyEof
  | _, .u8 k => ∀ x, (k x).OnlyEof
  | _, .u16 k => ∀ x, (k x).OnlyEof
  | _, .u32 k => ∀ x, (k x).OnlyEof
  | _, .u64 k => ∀ x, (k x).OnlyEof
  | _, .bytes _ k => ∀ x, (k x).OnlyEof
  | _, .rest k => ∀ x, (k x).OnlyEof
  | _, .restTrimNul k => ∀ x, (k x).OnlyEof
  | _, .repeated _ item _ k => item.OnlyEof ∧ ∀ x, (k x).OnlyEof
  | _, .call c k => c.OnlyEof ∧ ∀ x, (k x).OnlyEof
  | _, _ => False

/-- Whether the call is one for a whole record. -/
def Call.Whole : {T : Type} → Call T → Prop
  | _, .visit => True
  | _, .visitWith _ => True
  | _, _ => False

/-- How far such a call goes when it fails; other calls that come to the end have used up everything. -/
def Call.reach : {T : Type} → Call T → Flat → ParseError → Nat
  | _, .visit, f, _ => firstLen f.cfg f.s.bytes
  | _, .visitWith h, f, _ => behind h f
  | _, _, f, e => if e.kind = .eof then f.s.bytes.length else 0

/-- Whether the call is one for a list. -/
def Call.Listing : {T : Type} → Call T → Prop
  | _, .direct _ => True
  | _, .entries _ => True
  | _, .branches _ => True
  | _, _ => False

/-- The program is one call for a list, and something is made of its result. -/
def Prog.Listing : {α : Type} → Prog α → Prop
  | _, .words _ k => ∀ x, ∃ a, k x = .done a
  | _, .call c k => c.Listing ∧ ∀ x, ∃ a, k x = .done a
  | _, _ => False

/-- The program is one call for a whole record, and something is made of its result. -/
def Prog.Whole : {α : Type} → Prog α → Prop
  | _, .call c k => c.Whole ∧ ∀ x, ∃ a, k x = .done a
  | _, .record k => ∀ x, ∃ a, k x = .done a
  | _, .metadata _ k => ∀ md r, ∃ a, k md r = .done a
  | _, .metadataWith _ _ k => ∀ md r, ∃ a, k md r = .done a
  | _, _ => False

/-- How far such a program goes when it fails. One that comes to the end of the input has used up everything; a list that is too long for an
address space is refused before anything is read. -/
def Prog.reach : {α : Type} → Prog α → Flat → ParseError → Nat
  | _, .call c _, f, e => c.reach f e
  | _, .record _, f, _ => firstLen f.cfg f.s.bytes
  | _, .metadata _ _, f, _ => firstLen f.cfg f.s.bytes
  | _, .metadataWith h _ _, f, _ => behind h f
  | _, _, f, e => if e.kind = .eof then f.s.bytes.length else 0

/-- A program as a function of the bytes and of where they lie (of `attempt`, as far as it is a
`Prog.Whole`, `Prog.Listing` or `Prog.OnlyEof` that is attempted). -/
def Prog.weave : {α : Type} → Prog α → (w : Nat → Nat → Option Nat) → Woven w α
  | _, .done a, _ => pure a
  | _, .fail e, _ => Woven.fault (.err e)
  | _, .config k, w => Woven.config >>= fun c => (k c).weave w
  | _, .u8 k, w => parseU8 >>= fun x => (k x).weave w
  | _, .u16 k, w => parseU16 >>= fun x => (k x).weave w
  | _, .u32 k, w => parseU32 >>= fun x => (k x).weave w
  | _, .u64 k, w => parseU64 >>= fun x => (k x).weave w
  | _, .bytes n k, w => Woven.array n >>= fun x => (k x).weave w
  | _, .rest k, w => Woven.rest >>= fun x => (k x).weave w
  | _, .restTrimNul k, w => Woven.restTrimNul >>= fun x => (k x).weave w
  | _, .words n k, w => Woven.slice U64.elem parseU64 n >>= fun x => (k x).weave w
  | _, .repeated _ item n k, w => Woven.repeated (item.weave w) n >>= fun l => (k l).weave w
  | _, .metadata body k, w => parseHeader >>= fun h => Woven.opened h (fun i _ => body.weave (from_ w i)) >>= fun x =>
      Woven.settle x.2 >>= fun r => (k x.1 r).weave w
  | _, .metadataWith h body k, w => Woven.opened h (fun i _ => body.weave (from_ w i)) >>= fun x =>
      Woven.settle x.2 >>= fun r => (k x.1 r).weave w
  | _, .call c k, w => c.weave w >>= fun x => (k x).weave w
  | _, .record k, w => (parseHeader >>= fun h => Woven.recordWithHeader h >>= fun x => pure x.1) >>= fun r => (k r).weave w
  | _, .attempt m k, w => (m.weave w).tried m.reach >>= fun r => (k r).weave w

/-- Programs that stop at the first error, except that they may go on after the error of a call for a whole record or a list,
and after the end of the input when reading numbers, bytes, headers, entries and `SampleId`s. -/
def Prog.Stops : {α : Type} → Prog α → Prop
  | _, .done _ => True
  | _, .fail _ => True
  | _, .config k => ∀ x, (k x).Stops
  | _, .u8 k => ∀ x, (k x).Stops
  | _, .u16 k => ∀ x, (k x).Stops
  | _, .u32 k => ∀ x, (k x).Stops
  | _, .u64 k => ∀ x, (k x).Stops
  | _, .bytes _ k => ∀ x, (k x).Stops
  | _, .rest k => ∀ x, (k x).Stops
  | _, .restTrimNul k => ∀ x, (k x).Stops
  | _, .words _ k => ∀ x, (k x).Stops
  | _, .repeated _ item _ k => item.Stops ∧ ∀ x, (k x).Stops
  | _, .metadata body k => body.Stops ∧ ∀ x y, (k x y).Stops
  | _, .metadataWith _ body k => body.Stops ∧ ∀ x y, (k x y).Stops
  | _, .call _ k => ∀ x, (k x).Stops
  | _, .record k => ∀ x, (k x).Stops
  | _, .attempt m k => (m.Whole ∨ m.Listing ∨ m.OnlyEof) ∧ m.Stops ∧ ∀ x, (k x).Stops

variable {β : Type} [ParseBuf β] [LawfulEof β] {F : List Chunk → β → Prop} {cs : List Chunk} {w : Nat → Nat → Option Nat} {α α' γ γ' T : Type}

set_option linter.unusedSectionVars false

namespace Weaves
variable (h : SewnBuf F)
include h

theorem header : Weaves F cs id (parseHeader : P β Header) (parseHeader : Woven w Header) :=
  bind (u32 h) fun _ => bind (u16 h) fun _ => bind (u16 h) fun _ => pure _

theorem sliceDirect (hw : Tells w cs) (e : Elem T) (n : Nat) :
    Weaves F cs id (P.sliceDirect e n : P β (Option (List T))) (Woven.sliceDirect e n : Woven w (Option (List T))) := by
  intro p f hp
  have hcfg : P.config p = ⟨.ok f.cfg, p, []⟩ := by rw [← hp.rep.cfg]; rfl
  have hsd : P.sliceDirect e n p = (if !f.cfg.endian.isNative then Pure.pure none
      else if n * e.size ≥ usizeLimit then
        P.fail (.custom .invalidRecord "array length in bytes larger than usize::MAX")
      else P.bytesDirect (n * e.size) >>= fun r => match r with
        | none => Pure.pure none
        | some (addr, bs) => if bs = [] ∨ addr % 8 = 0 then Pure.pure (some (e.decodeAll (fromOrder f.cfg.host 64) n bs))
          else Pure.pure none : P β (Option (List T))) p := by
    unfold P.sliceDirect
    rw [P.bind_nil hcfg]
    rfl
  unfold Woven.sliceDirect
  by_cases hn : f.cfg.endian.isNative = true
  · simp only [if_pos hn]
    rw [P.ite_neg (by rw [hn]; decide)] at hsd
    by_cases hl : n * e.size ≥ usizeLimit
    · simp only [if_pos hl]
      rw [P.ite_pos hl] at hsd
      rw [hsd]
      rfl
    simp only [if_neg hl]
    rw [P.ite_neg hl] at hsd
    by_cases he : f.s.bytes = []
    · simp only [if_pos he]
      obtain ⟨q, hq⟩ := P.chunk_none hp.rep he
      have hbd : P.bytesDirect (n * e.size) p = ⟨.error (.err .eof), q, []⟩ := by
        unfold P.bytesDirect
        rw [P.bind_err hq, hp.fin]
      rw [P.bind_err hbd] at hsd
      rw [hsd]
      rfl
    simp only [if_neg he]
    have hd := direct h hw (n * e.size) hp he
    by_cases hle : n * e.size ≤ f.s.bytes.length
    · simp only [if_pos hle] at hd ⊢
      rcases hwn : w f.off (n * e.size) with - | a <;> rw [hwn] at hd
      · obtain ⟨q, hq, hat⟩ := hd
        rw [P.bind_nil hq] at hsd
        rw [hsd]
        exact ⟨_, rfl, rfl, hat⟩
      obtain ⟨q, hq, hat⟩ := hd
      rw [P.bind_nil hq] at hsd
      have hiff : (f.s.bytes.take (n * e.size) = [] ∨ a % 8 = 0) ↔ (n * e.size = 0 ∨ a % 8 = 0) := by
        rw [List.take_eq_nil_iff]
        simp [he]
      dsimp only at hsd ⊢
      by_cases hk : n * e.size = 0 ∨ a % 8 = 0
      · simp only [if_pos hk]
        rw [P.ite_pos (hiff.mpr hk)] at hsd
        rw [hsd]
        exact ⟨_, rfl, rfl, hat⟩
      · simp only [if_neg hk]
        rw [P.ite_neg (fun x => hk (hiff.mp x))] at hsd
        rw [hsd]
        exact ⟨_, rfl, rfl, hat⟩
    · simp only [if_neg hle] at hd ⊢
      obtain ⟨q, hq, hat⟩ := hd
      rw [P.bind_nil hq] at hsd
      rw [hsd]
      exact ⟨_, rfl, rfl, hat⟩
  · simp only [if_neg hn]
    rw [P.ite_pos (by cases hx : f.cfg.endian.isNative with | true => exact absurd hx hn | false => rfl)] at hsd
    rw [hsd]
    exact ⟨_, rfl, rfl, hp⟩

theorem attr : Weaves F cs id (P.parseAttr : P β Attr) (Woven.attr : Woven w Attr) := by
  refine bind (u32 h) fun t => bind (u32 h) fun s => Weaves.ite (fail _) ?_
  intro p f hp
  dsimp only [id]
  have hlim : s.toNat - 4 < usizeLimit := by have := s.isLt; unfold usizeLimit; omega
  obtain ⟨hs, _⟩ := P.splitAt_takes hp.rep hlim
  have hsw := (Inv.splitAt (h.stable cs 0) (s.toNat - 4) p hp.sewn).1
  rcases Nat.lt_or_ge f.s.bytes.length (s.toNat - 4) with hlt | hle
  · have hle : ¬ s.toNat - 4 ≤ f.s.bytes.length := by omega
    rw [if_neg hle] at hs
    rw [P.bind_err (P.run_eq _ hs)]
    simp only [if_neg hle]
    rw [hp.fin]
    rfl
  rw [if_pos hle] at hs
  obtain ⟨rp, hres, hso, hrep, _⟩ := hs
  rw [P.bind_ok (P.run_eq _ hres)]
  simp only [if_pos hle]
  have hr := Refines.attrBody t s rp _ (hso.region hle).rep
  rcases hb : (Perf.attrBody t s : Spec Attr) (f.region (s.toNat - 4)) with e | ⟨a, g⟩
  · rw [hb] at hr
    cases e with
    | stuck => exact absurd hb (NoStuck.attrBody t s _)
    | err e =>
      have hr : _ = _ := hr
      rw [P.bind_err (P.onChild_err (P.run_eq _ hr) _)]
      rfl
  · rw [hb] at hr
    obtain ⟨a', hr1, rfl, _⟩ := hr
    rw [P.bind_ok (P.onChild_ok (P.run_eq _ hr1) _)]
    exact ⟨_, rfl, rfl, hp.adv hrep hsw⟩

/-- The body of a record lies where the input lies. -/
theorem frame (hw : Tells w cs) (hd : Header) {p : Parser β} {f : Flat} (hp : SewnAt F cs p f) :
    match Spec.metadataWithHeader hd f with
    | .error .stuck => False
    | .error (.err e) => (P.metadataWithHeader hd p).res = .error (.err e)
    | .ok ((r, md), f') => ∃ c, (P.metadataWithHeader hd p).res = .ok (c, md) ∧ Tells (from_ w f.off) c.data.buf.chunks ∧
        SewnAt Cursor.Sewn c.data.buf.chunks c r ∧
        (∀ m, SewnAt (β := Tracking Cursor) (fun cs t => Cursor.Sewn cs t.buf) c.data.buf.chunks (Parser.new c.data (c.config.withMisc m)) (r.withMisc m)) ∧
        SewnAt F cs (P.metadataWithHeader hd p).st f' := by
  obtain ⟨h1, -, h3⟩ := P.metadataWithHeader_run hp.rep hd
  have hinv : SewnP F cs 0 (P.metadataWithHeader hd p).st :=
    (Inv.regionOf (G := fun _ => True) (I := SewnP F cs 0) (fun n p hp => ⟨(Inv.splitAt (h.stable cs 0) n p hp).1, fun _ _ => trivial⟩)
      (fun _ _ _ _ _ => trivial) hd p hp.sewn).1
  have hsw : F (dropPieces cs f.off) p.data.buf := by
    have := hp.sewn.2
    rwa [Nat.sub_zero, hp.rep.off] at this
  rcases hm : Spec.metadataWithHeader hd f with (e | _) | ⟨⟨r, md⟩, g⟩ <;> rw [hm] at h3
  · exact h3
  · exact h3
  · obtain ⟨c, hc, hreg⟩ := h3
    obtain ⟨a1, a2, rfl, n, rfl⟩ := Meets.metadata_region hm
    have hfrom := h.region hsw hc
    have hsewn : Cursor.Sewn c.data.buf.chunks c.data.buf := by
      have h7 := hfrom.offset
      have h8 := hfrom.nonempty
      rcases hb : c.data.buf with ⟨chunks, off, len⟩
      rw [hb] at h7 h8
      cases h7
      exact .fresh h8
    have hz : Cursor.Sewn (dropPieces c.data.buf.chunks 0) c.data.buf := by
      rw [dropPieces_zero hfrom.nonempty]
      exact hsewn
    have hlen : (chunksData c.data.buf.chunks).length ≤ f.s.bytes.length := by
      rw [hreg.pieces.data]
      exact (List.take_prefix n f.s.bytes).length_le
    have hb := congrArg List.length hp.bytes
    rw [List.length_drop] at hb
    refine ⟨c, hc, fun i n hi hn => ?_, ⟨hreg.rep, ⟨Nat.zero_le _, ?_⟩, hreg.pieces.data.symm, rfl⟩, fun m => ⟨hreg.rep.withMisc rfl m, ⟨Nat.le_refl _, hz⟩, hreg.pieces.data.symm, rfl⟩, hp.adv (h1 a1 a2).1 hinv⟩
    · rw [hfrom.lie i n hi hn, lie_drop]
      exact hw _ _ (by omega) (by omega)
    · rw [hreg.rep.off]
      exact hz

theorem opened (hw : Tells w cs) (hd : Header) {b : P Cursor T} {b' : (k : Nat) → Woven (from_ w k) T}
    (hb : ∀ (ds : List Chunk) (k : Nat), Tells (from_ w k) ds → Weaves Cursor.Sewn ds id b (b' k))
    {k : Metadata → Except ParseError T → P β α} {k' : Metadata → Except ParseError T → Woven w α} (hk : ∀ md r, Weaves F cs id (k md r) (k' md r)) :
    Weaves F cs id (P.metadataWithHeader hd >>= fun x => P.attemptOn x.1 b >>= fun r => k x.2 r)
      (Woven.opened hd (fun i _ => b' i) >>= fun x => Woven.settle x.2 >>= fun r => k' x.1 r) := by
  intro p f hp
  have h1 := frame h hw hd hp
  show Weft F cs id _ (Woven.bind (Woven.opened hd (fun i _ => b' i)) _ f)
  unfold Woven.bind Woven.opened
  rcases hm : Spec.metadataWithHeader hd f with (e | _) | ⟨⟨r, md⟩, g⟩ <;> rw [hm] at h1
  · rw [P.bind_err (P.run_eq _ h1)]
    rfl
  · exact h1.elim
  · obtain ⟨c, hc, ht, hs, -, hg⟩ := h1
    rw [P.bind_ok (P.run_eq _ hc)]
    have h2 := hb _ _ ht c r hs
    dsimp only
    show Weft F cs id ((P.attemptOn c b >>= fun r => k md r) _) _
    rcases hx : b' f.off r with e | ⟨a, r'⟩ <;> rw [hx] at h2
    · have h2 : _ = _ := h2
      cases e with
      | err e =>
        have ha : (P.attemptOn c b : P β _) (P.metadataWithHeader hd p).st = ⟨.ok (.error e), (P.metadataWithHeader hd p).st, (b c).log⟩ := by
          unfold P.attemptOn
          rw [h2]
        rw [P.bind_ok ha]
        exact hk md _ _ _ hg
      | panic =>
        have ha : (P.attemptOn c b : P β _) (P.metadataWithHeader hd p).st = ⟨.error .panic, (P.metadataWithHeader hd p).st, (b c).log⟩ := by
          unfold P.attemptOn
          rw [h2]
        rw [P.bind_err ha]
        rfl
      | diverge =>
        have ha : (P.attemptOn c b : P β _) (P.metadataWithHeader hd p).st = ⟨.error .diverge, (P.metadataWithHeader hd p).st, (b c).log⟩ := by
          unfold P.attemptOn
          rw [h2]
        rw [P.bind_err ha]
        rfl
    · obtain ⟨y, h3, rfl, -⟩ := h2
      have ha : (P.attemptOn c b : P β _) (P.metadataWithHeader hd p).st = ⟨.ok (.ok y), (P.metadataWithHeader hd p).st, (b c).log⟩ := by
        unfold P.attemptOn
        rw [h3]
      rw [P.bind_ok ha]
      exact hk md _ _ _ hg

/-- Whatever the visitor makes of a record `a`, if it always makes something of it. -/
theorem recordWithHeader (hw : Tells w cs) (hd : Header) {O : Type} {v : Visitor Cow O} {u : O → γ} {t : Record List × Metadata → γ}
    (hv : ∀ a md, ∃ x, v.apply a md = .ok x ∧ u x = t (Woven.named md.ty a.view, md)) :
    Weaves F cs u (P.recordWithHeader v hd : P β O) (Woven.recordWithHeader hd >>= fun x => Pure.pure (t x) : Woven w γ) := by
  intro p f hp
  have h1 := frame h hw hd hp
  show Weft F cs u _ (Woven.bind (Woven.bind (Woven.opened hd _) _) _ f)
  unfold Woven.bind Woven.opened
  rcases hm : Spec.metadataWithHeader hd f with (e | _) | ⟨⟨r, md⟩, g⟩ <;> rw [hm] at h1
  · show (P.recordWithHeader v hd p).res = _
    unfold P.recordWithHeader
    rw [P.bind_err (P.run_eq _ h1)]
  · exact h1.elim
  · obtain ⟨c, hc, ht, -, hs, hg⟩ := h1
    dsimp only
    have hend : (P.recordWithHeader v hd p).st = (P.metadataWithHeader hd p).st := by
      rw [(c03_fast_path v _ p).2]
      unfold P.recordWithHeaderGeneral
      rw [P.bind_ok (P.run_eq _ hc)]
      show (P.recordImpl c v md _).st = _
      rw [P.recordImpl_st]
    have hres : (P.recordWithHeader v hd p).res = (P.dispatch v md (Parser.new c.data (c.config.withMisc md.misc))).res := by
      rw [(c03_fast_path v _ p).1]
      unfold P.recordWithHeaderGeneral
      rw [P.bind_ok (P.run_eq _ hc)]
      show (P.recordImpl c v md _).res = _
      unfold P.recordImpl
      rcases hdd : P.dispatch v md (Parser.new c.data (c.config.withMisc md.misc)) with ⟨res, q', l⟩
      cases res with
      | error e => rw [P.bind_err (P.onChild_err hdd _)]
      | ok a => rw [P.bind_ok (P.onChild_ok hdd _)]; rfl
    have hbody := Weaves.body SewnBuf.cursor.tracking ht md.ty _ _ (hs md.misc)
    rcases hb : (parseBody md.ty : Woven (from_ w f.off) (Record List)) (r.withMisc md.misc) with e | ⟨x, g'⟩ <;> rw [hb] at hbody
    · show (P.recordWithHeader v hd p).res = _
      rw [hres, P.dispatch_eq, P.bind_err (P.run_eq _ hbody)]
    · obtain ⟨a, ha, rfl, -⟩ := hbody
      obtain ⟨y, hy, hu⟩ := hv a md
      refine ⟨y, ?_, hu, hend ▸ hg⟩
      rw [hres, P.dispatch_eq, P.bind_ok (P.run_eq _ ha)]
      exact hy

theorem visit (hw : Tells w cs) (hd : Header) : Weaves F cs id (P.recordWithHeader pairVisitor hd >>= fun r => Pure.pure (r.1.view, r.2) : P β _)
    (Woven.recordWithHeader hd : Woven w (Record List × Metadata)) := by
  have h1 : Weaves F cs (fun r => (r.1.view, r.2)) (P.recordWithHeader pairVisitor hd : P β _)
      (Woven.recordWithHeader hd >>= fun x => Pure.pure (id x) : Woven w (Record List × Metadata)) :=
    recordWithHeader h hw hd (t := id) fun a md => by cases a <;> exact ⟨_, rfl, rfl⟩
  have e : ∀ {α : Type} (s : Woven w α), (s >>= fun x => Pure.pure (id x)) = s := by
    intro α s
    funext f
    show Woven.bind s _ f = _
    unfold Woven.bind
    rcases s f with _ | ⟨_, _⟩ <;> rfl
  have h2 := bind h1 (u := id) (k := fun r => Pure.pure (r.1.view, r.2)) (k' := fun x => Pure.pure (id x)) fun a => pure' rfl
  rw [e, e] at h2
  exact h2

theorem call (hw : Tells w cs) (c : Call T) : Weaves F cs id (c.run β) (c.weave w) := by
  have own : ∀ {A B : Type} {v : A → B} {m : P β A} {s : Woven w B}, Weaves F cs v m s → Weaves F cs id (m >>= fun x => Pure.pure (v x)) s := by
    intro A B v m s hm p f hp
    have h1 := hm p f hp
    rcases hs : s f with e | ⟨a, f'⟩ <;> rw [hs] at h1
    · rw [P.bind_err (P.run_eq _ h1)]
      rfl
    · obtain ⟨x, h2, rfl, h3⟩ := h1
      rw [P.bind_ok (P.run_eq _ h2)]
      exact ⟨_, rfl, rfl, h3⟩
  cases c with
  | array n => exact array h n
  | direct n => exact sliceDirect h hw U64.elem n
  | entries n => exact own (slice h hw _ n (namespaceEntry h hw))
  | branches n => exact own (slice h hw _ n (branchEntry h hw))
  | header => exact header h
  | attr => exact attr h
  | entry => exact namespaceEntry h hw
  | branch => exact branchEntry h hw
  | mmapDetail => exact mmapDetail h hw
  | sampleId => exact sampleId h hw
  | readValue => exact readValue h hw
  | readGroup => exact own (readGroup h hw)
  | body ty => exact own (body h hw ty)
  | visit =>
    have h1 := bind (header h) fun hd => visit h hw hd
    intro p f hp
    have h2 := h1 p f hp
    have e : (Call.visit.run β) p = ((parseHeader : P β Header) >>= fun hd => P.recordWithHeader pairVisitor hd >>= fun r => Pure.pure (r.1.view, r.2)) p :=
      P.bind_assoc_run _ _ _ p
    rw [e]
    exact h2
  | visitWith hd => exact visit h hw hd

omit [LawfulEof β] h in
theorem first {A B : Type} {m : P β A} {k : A → P β B} (hk : ∀ a q e, (k a q).res ≠ .error (.err e)) {p : Parser β} {e : ParseError}
    (hr : ((m >>= k) p).res = .error (.err e)) : (m p).res = .error (.err e) ∧ ((m >>= k) p).st = (m p).st := by
  rcases hm : (m p).res with x | a
  · rw [P.bind_err (P.run_eq _ hm)] at hr ⊢
    cases hr
    exact ⟨rfl, rfl⟩
  · rw [P.bind_ok (P.run_eq _ hm)] at hr
    exact absurd hr (hk a _ e)

/-- Where the error of a call for a whole record leaves the parser. -/
theorem whole {α : Type} (m : Prog α) (hm : m.Whole) {p : Parser β} {f : Flat} (hp : SewnAt F cs p f) {e : ParseError}
    (hr : (m.run β p).res = .error (.err e)) : SewnAt F cs (m.run β p).st (f.adv (m.reach f e)) := by
  have hf : f.s.fin.kind = .eof := by rw [hp.fin]; rfl
  have record : ∀ {O : Type} (v : Visitor Cow O), SewnAt F cs (P.record v p).st (f.adv (firstLen f.cfg f.s.bytes)) := by
    intro O v
    have h1 := c67_record hp.rep hf v
    rw [recordEnd_eq] at h1
    exact hp.adv h1 (Inv.record (h.stable cs 0) v p hp.sewn).1
  have given : ∀ {O : Type} (v : Visitor Cow O) (hd : Header), SewnAt F cs (P.recordWithHeader v hd p).st (f.adv (behind hd f)) := by
    intro O v hd
    exact hp.adv (P.recordWithHeader_end hp.rep hf v hd) (Inv.recordWithHeader (h.stable cs 0) v hd p hp.sewn).1
  have done : ∀ {A B : Type} {k : A → Prog B} (hk : ∀ x, ∃ a, k x = .done a) (a : A) (q : Parser β) (e : ParseError), ((k a).run β q).res ≠ .error (.err e) := by
    intro A B k hk a q e
    obtain ⟨b, hb⟩ := hk a
    rw [hb]
    nofun
  have on : ∀ {A B : Type} {k : Except ParseError A → Prog B} (hk : ∀ x, ∃ a, k x = .done a) (c : Parser Cursor) (b : P Cursor A) (q : Parser β)
      (e : ParseError), ((P.attemptOn c b >>= fun r => (k r).run β) q).res ≠ .error (.err e) := by
    intro A B k hk c b q e hr
    have h1 := first (fun a q e => done hk a q e) hr
    have h2 := h1.1
    unfold P.attemptOn at h2
    rcases hx : (b c).res with (_ | _ | _) | _ <;> rw [hx] at h2 <;> cases h2
  cases m with
  | call c k =>
    obtain ⟨hc, hk⟩ := hm
    have h1 := first (fun a q e => done hk a q e) hr
    show SewnAt F cs ((c.run β >>= fun x => (k x).run β) p).st _
    rw [h1.2]
    cases c with
    | visit =>
      have h2 := first (m := P.record pairVisitor) (k := fun r => Pure.pure (r.1.view, r.2)) (fun a q e => nofun) h1.1
      show SewnAt F cs ((P.record pairVisitor >>= fun r => Pure.pure (r.1.view, r.2)) p).st _
      rw [h2.2]
      exact record _
    | visitWith hd =>
      have h2 := first (m := P.recordWithHeader pairVisitor hd) (k := fun r => Pure.pure (r.1.view, r.2)) (fun a q e => nofun) h1.1
      show SewnAt F cs ((P.recordWithHeader pairVisitor hd >>= fun r => Pure.pure (r.1.view, r.2)) p).st _
      rw [h2.2]
      exact given _ hd
    | _ => exact hc.elim
  | record k =>
    have h1 := first (m := P.parseRecord) (k := fun r => (k r.view).run β) (fun a q e => done hm a.view q e) hr
    show SewnAt F cs ((P.parseRecord >>= fun r => (k r.view).run β) p).st _
    rw [h1.2]
    exact record _
  | metadata b k =>
    have h1 := first (m := P.metadata) (k := fun x => P.attemptOn x.1 (b.run Cursor) >>= fun r => (k x.2 r).run β) (fun a q e => on (hm a.2) _ _ q e) hr
    show SewnAt F cs ((P.metadata >>= fun x => P.attemptOn x.1 (b.run Cursor) >>= fun r => (k x.2 r).run β) p).st _
    rw [h1.2, ← (c102_record p pairVisitor h1.1).2]
    exact record _
  | metadataWith hd b k =>
    have h1 := first (m := P.metadataWithHeader hd) (k := fun x => P.attemptOn x.1 (b.run Cursor) >>= fun r => (k x.2 r).run β)
      (fun a q e => on (hm a.2) _ _ q e) hr
    show SewnAt F cs ((P.metadataWithHeader hd >>= fun x => P.attemptOn x.1 (b.run Cursor) >>= fun r => (k x.2 r).run β) p).st _
    have h2 := given pairVisitor hd
    unfold P.recordWithHeader at h2
    rw [P.bind_err (P.run_eq _ h1.1)] at h2
    rw [h1.2]
    exact h2
  | _ => exact hm.elim

omit [LawfulEof β] h in
theorem sampleId_kept {I : Parser β → Prop} (s : Stable I) : Inv I (fun _ => True) (parseSampleId : P β SampleId) := by
  have o : ∀ {A : Type} (c : Bool) {m : P β A}, Inv I (fun _ => True) m → Inv I (fun _ => True) (Perf.parseIf c m) := by
    intro A c m hm
    cases c
    · exact Inv.pure trivial
    · exact Inv.skip hm fun _ => Inv.pure trivial
  unfold parseSampleId
  refine Inv.skip Inv.config fun c => ?_
  dsimp only
  split
  · exact Inv.pure trivial
  · exact Inv.skip (o _ (Inv.u32 s)) fun _ => Inv.skip (o _ (Inv.u32 s)) fun _ => Inv.skip (o _ (Inv.u64 s)) fun _ => Inv.skip (o _ (Inv.u64 s)) fun _ =>
      Inv.skip (o _ (Inv.u64 s)) fun _ => Inv.skip (o _ (Inv.skip (Inv.u32 s) fun _ => Inv.skip (Inv.u32 s) fun _ => Inv.pure trivial)) fun _ =>
      Inv.skip (o _ (Inv.u64 s)) fun _ => Inv.pure trivial

omit [LawfulEof β] h in
theorem plain_kept {I : Parser β → Prop} (s : Stable I) {α : Type} (m : Prog α) : m.OnlyEof → Inv I (fun _ => True) (m.run β) := by
  induction m with
  | done a => exact fun _ => Inv.pure trivial
  | config k ih => exact fun hk => Inv.skip Inv.config fun x => ih x (hk x)
  | u8 k ih => exact fun hk => Inv.skip (Inv.u8 s) fun x => ih x (hk x)
  | u16 k ih => exact fun hk => Inv.skip (Inv.u16 s) fun x => ih x (hk x)
  | u32 k ih => exact fun hk => Inv.skip (Inv.u32 s) fun x => ih x (hk x)
  | u64 k ih => exact fun hk => Inv.skip (Inv.u64 s) fun x => ih x (hk x)
  | bytes n k ih => exact fun hk => Inv.skip (Inv.bytes s n) fun x => ih _ (hk _)
  | rest k ih => exact fun hk => Inv.skip (Inv.rest s) fun x => ih _ (hk _)
  | restTrimNul k ih => exact fun hk => Inv.skip (Inv.restTrimNul s) fun x => ih _ (hk _)
  | repeated size item n k ihi ih =>
    exact fun hk => Inv.skip (Inv.skip (Inv.safeCapacityBound size) fun _ => Inv.skip (Inv.alloc _) fun _ => Inv.repeatedLoop (ihi hk.1) n) fun x => ih x (hk.2 x)
  | call c k ih =>
    intro hk
    refine Inv.skip ?_ fun x => ih x (hk.2 x)
    have hc := hk.1
    cases c with
    | array n => exact Inv.array s n
    | entry => exact Inv.skip (Inv.u64 s) fun _ => Inv.skip (Inv.u64 s) fun _ => Inv.pure trivial
    | branch => exact Inv.skip (Inv.u64 s) fun _ => Inv.skip (Inv.u64 s) fun _ => Inv.skip (Inv.u64 s) fun _ => Inv.pure trivial
    | sampleId => exact sampleId_kept s
    | header => exact Inv.skip (Inv.u32 s) fun _ => Inv.skip (Inv.u16 s) fun _ => Inv.skip (Inv.u16 s) fun _ => Inv.pure trivial
    | _ => exact hc.elim
  | _ => exact fun hk => hk.elim

omit h in
theorem plain_drains {α : Type} (m : Prog α) : m.OnlyEof → UsesUp (m.run β) := by
  induction m with
  | done a => exact fun _ => UsesUp.pure a
  | config k ih => exact fun hk => UsesUp.bind UsesUp.config fun x => ih x (hk x)
  | u8 k ih => exact fun hk => UsesUp.bind UsesUp.closed.u8 fun x => ih x (hk x)
  | u16 k ih => exact fun hk => UsesUp.bind UsesUp.closed.u16 fun x => ih x (hk x)
  | u32 k ih => exact fun hk => UsesUp.bind UsesUp.closed.u32 fun x => ih x (hk x)
  | u64 k ih => exact fun hk => UsesUp.bind UsesUp.closed.u64 fun x => ih x (hk x)
  | bytes n k ih => exact fun hk => UsesUp.bind (UsesUp.bytes n) fun x => ih _ (hk _)
  | rest k ih => exact fun hk => UsesUp.bind UsesUp.rest fun x => ih _ (hk _)
  | restTrimNul k ih => exact fun hk => UsesUp.bind (UsesUp.bind UsesUp.rest fun _ => UsesUp.pure _) fun x => ih _ (hk _)
  | repeated size item n k ihi ih =>
    exact fun hk => UsesUp.bind (UsesUp.bind (UsesUp.safeCapacityBound size) fun _ => UsesUp.bind (UsesUp.alloc _) fun _ => UsesUp.repeatedLoop (ihi hk.1) n)
      fun x => ih x (hk.2 x)
  | call c k ih =>
    intro hk
    refine UsesUp.bind ?_ fun x => ih x (hk.2 x)
    have hc := hk.1
    cases c with
    | array n => exact UsesUp.array n
    | entry => exact UsesUp.closed.namespaceEntry
    | branch => exact UsesUp.closed.branchEntry
    | sampleId => exact UsesUp.closed.sampleId
    | header => exact UsesUp.closed.header
    | _ => exact hc.elim
  | _ => exact fun hk => hk.elim

omit [ParseBuf β] [LawfulEof β] h in
theorem plain_ends {α : Type} (m : Prog α) : m.OnlyEof → ∀ (w : Nat → Nat → Option Nat) (f : Flat) (e : Fault), m.weave w f = .error e → e = .err .eof := by
  have bnd : ∀ {w : Nat → Nat → Option Nat} {A B : Type} {x : Woven w A} {k : A → Woven w B}, (∀ f e, x f = .error e → e = .err .eof) →
      (∀ a f e, k a f = .error e → e = .err .eof) → ∀ f e, (x >>= k) f = .error e → e = .err .eof := by
    intro w A B x k h1 h2 f e hx
    have hx : Woven.bind x k f = .error e := hx
    unfold Woven.bind at hx
    rcases hm : x f with e' | ⟨a, g⟩ <;> rw [hm] at hx
    · exact h1 f e (by rw [hm]; cases hx; rfl)
    · exact h2 a g e hx
  have pr : ∀ {w : Nat → Nat → Option Nat} {A : Type} (a : A) (f : Flat) (e : Fault), (Pure.pure a : Woven w A) f = .error e → e = .err .eof := by
    intro w A a f e hx
    cases hx
  have cf : ∀ {w : Nat → Nat → Option Nat} (f : Flat) (e : Fault), (Woven.config : Woven w ParseConfig) f = .error e → e = .err .eof := by
    intro w f e hx
    cases hx
  have ar : ∀ {w : Nat → Nat → Option Nat} (n : Nat) (f : Flat) (e : Fault), (Woven.array n : Woven w (List Byte)) f = .error e → e = .err .eof := by
    intro w n f e hx
    unfold Woven.array Woven.take at hx
    split at hx
    · cases hx; rfl
    · split at hx
      · cases hx
      · cases hx; rfl
  have rs : ∀ {w : Nat → Nat → Option Nat} (f : Flat) (e : Fault), (Woven.rest : Woven w (List Byte)) f = .error e → e = .err .eof := by
    intro w f e hx
    unfold Woven.rest at hx
    split at hx
    · cases hx; rfl
    · cases hx
  have u16 : ∀ {w : Nat → Nat → Option Nat} (f : Flat) (e : Fault), (parseU16 : Woven w U16) f = .error e → e = .err .eof :=
    bnd (ar 2) fun _ => bnd cf fun _ => pr _
  have u32 : ∀ {w : Nat → Nat → Option Nat} (f : Flat) (e : Fault), (parseU32 : Woven w U32) f = .error e → e = .err .eof :=
    bnd (ar 4) fun _ => bnd cf fun _ => pr _
  have u64 : ∀ {w : Nat → Nat → Option Nat} (f : Flat) (e : Fault), (parseU64 : Woven w U64) f = .error e → e = .err .eof :=
    bnd (ar 8) fun _ => bnd cf fun _ => pr _
  have op : ∀ {w : Nat → Nat → Option Nat} {A : Type} (c : Bool) {x : Woven w A}, (∀ f e, x f = .error e → e = .err .eof) →
      ∀ f e, (Perf.parseIf c x) f = .error e → e = .err .eof := by
    intro w A c x hx
    cases c
    · exact pr none
    · exact bnd hx fun _ => pr _
  have it : ∀ {w : Nat → Nat → Option Nat} {A : Type} {c : Prop} [Decidable c] {x y : Woven w A}, (∀ f e, x f = .error e → e = .err .eof) →
      (∀ f e, y f = .error e → e = .err .eof) → ∀ f e, (if c then x else y : Woven w A) f = .error e → e = .err .eof := by
    intro w A c _ x y hx hy
    by_cases hc : c
    · rw [if_pos hc]; exact hx
    · rw [if_neg hc]; exact hy
  have sid : ∀ {w : Nat → Nat → Option Nat} (f : Flat) (e : Fault), (parseSampleId : Woven w SampleId) f = .error e → e = .err .eof := by
    intro w
    unfold parseSampleId
    refine bnd cf fun c => ?_
    refine it ?_ ?_
    · exact pr _
    · exact bnd (op _ u32) fun _ => bnd (op _ u32) fun _ => bnd (op _ u64) fun _ => bnd (op _ u64) fun _ => bnd (op _ u64) fun _ =>
        bnd (op _ (bnd u32 fun _ => bnd u32 fun _ => pr _)) fun _ => bnd (op _ u64) fun _ => pr _
  induction m with
  | done a => exact fun _ w => pr a
  | config k ih => exact fun hk w => bnd cf fun x => ih x (hk x) w
  | u8 k ih => exact fun hk w => bnd (bnd (ar 1) fun _ => pr _) fun x => ih x (hk x) w
  | u16 k ih => exact fun hk w => bnd u16 fun x => ih x (hk x) w
  | u32 k ih => exact fun hk w => bnd u32 fun x => ih x (hk x) w
  | u64 k ih => exact fun hk w => bnd u64 fun x => ih x (hk x) w
  | bytes n k ih => exact fun hk w => bnd (ar n) fun x => ih x (hk x) w
  | rest k ih => exact fun hk w => bnd rs fun x => ih x (hk x) w
  | restTrimNul k ih => exact fun hk w => bnd (bnd rs fun _ => pr _) fun x => ih x (hk x) w
  | repeated size item n k ihi ih =>
    intro hk w
    refine bnd ?_ fun x => ih x (hk.2 x) w
    have hi := ihi hk.1 w
    clear hk
    induction n with
    | zero => exact pr _
    | succ n i => exact bnd hi fun _ => bnd i fun _ => pr _
  | call c k ih =>
    intro hk w
    refine bnd ?_ fun x => ih x (hk.2 x) w
    have hc := hk.1
    cases c with
    | array n => exact ar n
    | entry => exact bnd u64 fun _ => bnd u64 fun _ => pr _
    | branch => exact bnd u64 fun _ => bnd u64 fun _ => bnd u64 fun _ => pr _
    | sampleId => exact sid
    | header => exact bnd u32 fun _ => bnd u16 fun _ => bnd u16 fun _ => pr _
    | _ => exact hc.elim
  | _ => exact fun hk => hk.elim

/-- Where the error of a plain program leaves the parser. -/
theorem plain {α : Type} (m : Prog α) (hm : m.OnlyEof) {p : Parser β} {f : Flat} (hp : SewnAt F cs p f)
    (hr : (m.run β p).res = .error (.err .eof)) : SewnAt F cs (m.run β p).st (f.adv (m.reach f .eof)) := by
  have e : m.reach f .eof = f.s.bytes.length := by
    cases m with
    | call c k => have hc := hm.1; cases c <;> first | rfl | exact hc.elim
    | _ => first | rfl | exact hm.elim
  rw [e]
  exact hp.adv ((plain_drains m hm).run hp.rep (by rw [hp.fin]; rfl) hr rfl) (plain_kept (h.stable cs 0) m hm p hp.sewn).1

omit [ParseBuf β] [LawfulEof β] h in
theorem bare_ends {A : Type} {x : Woven w A} (m : Prog A) (hm : m.OnlyEof) (e : m.weave w = x >>= fun a => Pure.pure a) (f : Flat) (err : Fault)
    (hx : x f = .error err) : err = .err .eof := by
  refine plain_ends m hm w f err ?_
  rw [e]
  show Woven.bind x _ f = _
  unfold Woven.bind
  rw [hx]

omit [ParseBuf β] [LawfulEof β] h in
theorem repeated_ends {A : Type} {x : Woven w A} (h : ∀ f e, x f = .error e → e = .err .eof) : ∀ (n : Nat) (f : Flat) (e : Fault),
    Woven.repeated x n f = .error e → e = .err .eof
  | 0, _, _, hx => by cases hx
  | n + 1, f, e, hx => by
    have hx : Woven.bind x (fun a => Woven.bind (Woven.repeated x n) fun l => Pure.pure (a :: l)) f = .error e := hx
    unfold Woven.bind at hx
    rcases hm : x f with e' | ⟨a, g⟩ <;> rw [hm] at hx
    · cases hx
      exact h f _ hm
    · dsimp only at hx
      rcases hn : Woven.repeated x n g with e' | ⟨l, g'⟩ <;> rw [hn] at hx
      · cases hx
        exact repeated_ends h n g _ hn
      · cases hx

omit [ParseBuf β] [LawfulEof β] h in
/-- The only error of a list beside the end of the input. -/
theorem slice_ends {A : Type} {x : Woven w A} (h : ∀ f e, x f = .error e → e = .err .eof) (e : Elem A) (n : Nat) (f : Flat) (err : ParseError)
    (hx : Woven.slice e x n f = .error (.err err)) (hk : err.kind ≠ .eof) : f.cfg.endian.isNative = true ∧ n * e.size ≥ usizeLimit := by
  have no : (Fault.err err) ≠ .err .eof := fun h => by cases h; exact hk rfl
  unfold Woven.slice at hx
  split at hx
  case isFalse => exact absurd (repeated_ends h n f _ hx) no
  case isTrue hn =>
    split at hx
    case isTrue hs => exact ⟨hn, hs⟩
    case isFalse =>
      exfalso
      repeat' split at hx
      all_goals first
        | exact absurd (repeated_ends h n _ _ hx) no
        | (cases hx; exact hk rfl)
        | cases hx

omit [ParseBuf β] [LawfulEof β] h in
theorem direct_ends {A : Type} (e : Elem A) (n : Nat) (f : Flat) (err : ParseError)
    (hx : (Woven.sliceDirect e n : Woven w _) f = .error (.err err)) (hk : err.kind ≠ .eof) : f.cfg.endian.isNative = true ∧ n * e.size ≥ usizeLimit := by
  unfold Woven.sliceDirect at hx
  split at hx
  case isFalse => cases hx
  case isTrue hn =>
    split at hx
    case isTrue hs => exact ⟨hn, hs⟩
    case isFalse =>
      exfalso
      repeat' split at hx
      all_goals first
        | (cases hx; exact hk rfl)
        | cases hx

omit [LawfulEof β] h in
theorem direct_refused {A : Type} (e : Elem A) (n : Nat) {p : Parser β} (h1 : p.config.endian.isNative = true) (h2 : n * e.size ≥ usizeLimit) :
    P.sliceDirect e n p = ⟨.error (.err (.custom .invalidRecord "array length in bytes larger than usize::MAX")), p, []⟩ := by
  unfold P.sliceDirect
  rw [P.bind_nil (show P.config p = ⟨.ok p.config, p, []⟩ from rfl), h1]
  rw [if_neg (by decide), if_pos h2]
  rfl

omit [ParseBuf β] [LawfulEof β] h in
theorem bind_fails {A B : Type} {x : Woven w A} {k : A → Woven w B} (hk : ∀ a f e, k a f ≠ .error (.err e)) {f : Flat} {e : ParseError}
    (hx : (x >>= k) f = .error (.err e)) : x f = .error (.err e) := by
  have hx : Woven.bind x k f = .error (.err e) := hx
  unfold Woven.bind at hx
  rcases hm : x f with e' | ⟨a, g⟩ <;> rw [hm] at hx
  · cases hx; rfl
  · exact absurd hx (hk a g e)

omit h in
theorem direct_drains {A : Type} (e : Elem A) (n : Nat) : UsesUp (P.sliceDirect e n : P β (Option (List A))) := by
  unfold P.sliceDirect
  refine UsesUp.bind UsesUp.config fun cfg => UsesUp.ite (UsesUp.pure _)
    (UsesUp.ite (UsesUp.fault _ fun x hx => by cases hx; rw [ParseError.custom_kind]; decide) ?_)
  refine UsesUp.bind (UsesUp.bytesDirect _) fun r => ?_
  cases r with
  | none => exact UsesUp.pure _
  | some r => exact UsesUp.ite (UsesUp.pure _) (UsesUp.pure _)

/-- Where the error of a list leaves the parser. -/
theorem listing {α : Type} (m : Prog α) (hm : m.Listing) {p : Parser β} {f : Flat} (hp : SewnAt F cs p f) {e : ParseError}
    (hx : m.weave w f = .error (.err e)) (hr : (m.run β p).res = .error (.err e)) : SewnAt F cs (m.run β p).st (f.adv (m.reach f e)) := by
  have hf : f.s.fin.kind = .eof := by rw [hp.fin]; rfl
  have done : ∀ {A B : Type} {k : A → Prog B} (hk : ∀ x, ∃ a, k x = .done a) (a : A) (q : Parser β) (e : ParseError), ((k a).run β q).res ≠ .error (.err e) := by
    intro A B k hk a q e
    obtain ⟨b, hb⟩ := hk a
    rw [hb]
    nofun
  have done' : ∀ {A B : Type} {k : A → Prog B} (hk : ∀ x, ∃ a, k x = .done a) (a : A) (f : Flat) (e : ParseError), (k a).weave w f ≠ .error (.err e) := by
    intro A B k hk a q e
    obtain ⟨b, hb⟩ := hk a
    rw [hb]
    nofun
  have z : ∀ {A : Type} (x : P β A), (x p).st = p → SewnAt F cs (x p).st (f.adv 0) := by
    intro A x h
    rw [h]
    exact hp.adv (by rw [Flat.adv_zero]; exact hp.rep) hp.sewn
  have list : ∀ {A : Type} (el : Elem A) (n : Nat) {x : P β A} {y : Woven w A}, UsesUp x → Inv (SewnP F cs 0) (fun _ => True) x →
      (∀ f e, y f = .error e → e = .err .eof) → Woven.slice el y n f = .error (.err e) → (P.slice el x n p).res = .error (.err e) →
      SewnAt F cs (P.slice el x n p).st (f.adv (if e.kind = .eof then f.s.bytes.length else 0)) := by
    intro A el n x y hu hi hy hs hq
    split
    case isTrue hk => exact hp.adv ((UsesUp.slice el n hu).run hp.rep hf hq hk) (Inv.slice (h.stable cs 0) el hi n p hp.sewn).1
    case isFalse hk =>
      refine z _ ?_
      obtain ⟨h1, h2⟩ := slice_ends hy el n f e hs hk
      unfold P.slice
      rw [P.bind_err (direct_refused el n (by rw [hp.rep.cfg]; exact h1) h2)]
  have st := h.stable cs 0
  cases m with
  | words n k =>
    have h1 := first (m := P.slice U64.elem parseU64 n) (k := fun c => (k c.data).run β) (fun a q e => done hm a.data q e) hr
    have h2 := bind_fails (x := Woven.slice U64.elem parseU64 n) (fun a f e => done' hm a f e) hx
    show SewnAt F cs ((P.slice U64.elem parseU64 n >>= fun c => (k c.data).run β) p).st _
    rw [h1.2]
    exact list U64.elem n UsesUp.closed.u64 (Inv.u64 st) (fun f e => bare_ends (.u64 .done) (fun _ => trivial) rfl f e) h2 h1.1
  | call c k =>
    obtain ⟨hc, hk⟩ := hm
    have h1 := first (fun a q e => done hk a q e) hr
    have h2 := bind_fails (x := c.weave w) (fun a f e => done' hk a f e) hx
    show SewnAt F cs ((c.run β >>= fun x => (k x).run β) p).st (f.adv (c.reach f e))
    rw [h1.2]
    cases c with
    | direct n =>
      have h3 : (P.sliceDirect U64.elem n p).res = _ := h1.1
      show SewnAt F cs (P.sliceDirect U64.elem n p).st (f.adv (if e.kind = .eof then f.s.bytes.length else 0))
      split
      case isTrue he => exact hp.adv ((direct_drains U64.elem n).run hp.rep hf h3 he) (Inv.sliceDirect st U64.elem n p hp.sewn).1
      case isFalse he =>
        refine z _ ?_
        obtain ⟨h4, h5⟩ := direct_ends U64.elem n f e h2 he
        rw [direct_refused U64.elem n (by rw [hp.rep.cfg]; exact h4) h5]
    | entries n =>
      have h3 := first (m := P.slice NamespaceEntry.elem parseNamespaceEntry n) (k := fun c => Pure.pure c.data) (fun a q e => nofun) h1.1
      show SewnAt F cs ((P.slice NamespaceEntry.elem parseNamespaceEntry n >>= fun c => Pure.pure c.data) p).st _
      rw [h3.2]
      exact list NamespaceEntry.elem n UsesUp.closed.namespaceEntry (Inv.skip (Inv.u64 st) fun _ => Inv.skip (Inv.u64 st) fun _ => Inv.pure trivial)
        (fun f e => bare_ends (.call .entry .done) ⟨trivial, fun _ => trivial⟩ rfl f e) h2 h3.1
    | branches n =>
      have h3 := first (m := P.slice BranchEntry.elem parseBranchEntry n) (k := fun c => Pure.pure c.data) (fun a q e => nofun) h1.1
      show SewnAt F cs ((P.slice BranchEntry.elem parseBranchEntry n >>= fun c => Pure.pure c.data) p).st _
      rw [h3.2]
      exact list BranchEntry.elem n UsesUp.closed.branchEntry (Inv.skip (Inv.u64 st) fun _ => Inv.skip (Inv.u64 st) fun _ => Inv.skip (Inv.u64 st) fun _ => Inv.pure trivial)
        (fun f e => bare_ends (.call .branch .done) ⟨trivial, fun _ => trivial⟩ rfl f e) h2 h3.1
    | _ => exact hc.elim
  | _ => exact hm.elim

omit [ParseBuf β] [LawfulEof β] h in
/-- A program that stops at the first error does what is written down. -/
theorem prog {α : Type} (prog : Prog α) : prog.Stops → ∀ (β : Type) [ParseBuf β] [LawfulEof β] (F : List Chunk → β → Prop), SewnBuf F →
    ∀ (cs : List Chunk) (w : Nat → Nat → Option Nat), Tells w cs → Weaves F cs id (prog.run β) (prog.weave w) := by
  induction prog with
  | done a => exact fun _ β _ _ F h cs w hw => pure a
  | fail e => exact fun _ β _ _ F h cs w hw => fail e
  | config k ih => exact fun hk β _ _ F h cs w hw => bind config fun x => ih x (hk x) β F h cs w hw
  | u8 k ih => exact fun hk β _ _ F h cs w hw => bind (u8 h) fun x => ih x (hk x) β F h cs w hw
  | u16 k ih => exact fun hk β _ _ F h cs w hw => bind (u16 h) fun x => ih x (hk x) β F h cs w hw
  | u32 k ih => exact fun hk β _ _ F h cs w hw => bind (u32 h) fun x => ih x (hk x) β F h cs w hw
  | u64 k ih => exact fun hk β _ _ F h cs w hw => bind (u64 h) fun x => ih x (hk x) β F h cs w hw
  | bytes n k ih => exact fun hk β _ _ F h cs w hw => bind (bytes h hw n) fun x => ih x.data (hk x.data) β F h cs w hw
  | rest k ih => exact fun hk β _ _ F h cs w hw => bind (rest h) fun x => ih x.data (hk x.data) β F h cs w hw
  | restTrimNul k ih => exact fun hk β _ _ F h cs w hw => bind (restTrimNul h) fun x => ih x.data (hk x.data) β F h cs w hw
  | words n k ih => exact fun hk β _ _ F h cs w hw => bind (slice h hw U64.elem n (u64 h)) fun x => ih x.data (hk x.data) β F h cs w hw
  | repeated size item n k ihi ih =>
    intro hk β _ _ F h cs w hw
    refine bind (v := id) (fun p f hp => ?_) fun x => ih x (hk.2 x) β F h cs w hw
    obtain ⟨b, hb, _⟩ := P.safeCapacityBound_run size p
    unfold P.repeated
    rw [P.bind_nil hb, P.bind_ok (P.alloc_run _ p)]
    exact repeatedLoop (ihi hk.1 β F h cs w hw) n p f hp
  | metadata body k ihb ih =>
    intro hk β _ _ F h cs w hw p f hp
    have e : ((Prog.metadata body k).run β) p = ((parseHeader : P β Header) >>= fun hd => P.metadataWithHeader hd >>= fun x =>
        P.attemptOn x.1 (body.run Cursor) >>= fun r => (k x.2 r).run β) p := P.bind_assoc_run _ _ _ p
    rw [e]
    refine bind (header h) (fun hd => ?_) p f hp
    exact opened h hw hd (b' := fun i => body.weave (from_ w i))
      (fun ds i ht => ihb hk.1 Cursor Cursor.Sewn SewnBuf.cursor ds (from_ w i) ht) fun md r => ih md r (hk.2 md r) β F h cs w hw
  | metadataWith hd body k ihb ih =>
    exact fun hk β _ _ F h cs w hw => opened h hw hd (b' := fun i => body.weave (from_ w i))
      (fun ds i ht => ihb hk.1 Cursor Cursor.Sewn SewnBuf.cursor ds (from_ w i) ht) fun md r => ih md r (hk.2 md r) β F h cs w hw
  | call c k ih => exact fun hk β _ _ F h cs w hw => bind (call h hw c) fun x => ih x (hk x) β F h cs w hw
  | record k ih =>
    intro hk β _ _ F h cs w hw
    refine bind (v := Record.view) (bind (header h) fun hd => recordWithHeader h hw hd (t := Prod.fst) fun a md => ?_)
      fun x => ih x.view (hk x.view) β F h cs w hw
    cases a <;> exact ⟨_, rfl, rfl⟩
  | attempt m k ihm ih =>
    intro hk β _ _ F h cs w hw
    refine bind (v := id) (fun p f hp => ?_) fun x => ih x (hk.2.2 x) β F h cs w hw
    have h1 := ihm hk.2.1 β F h cs w hw p f hp
    unfold Woven.tried P.attempt
    rcases hx : m.weave w f with (e | _ | _) | ⟨a, f'⟩ <;> rw [hx] at h1
    · have h1 : (m.run β p).res = _ := h1
      rw [h1]
      refine ⟨_, rfl, rfl, ?_⟩
      rcases hk.1 with hm | hm | hm
      · exact whole h m hm hp h1
      · exact listing h m hm hp hx h1
      · have h2 := plain_ends m hm w f _ hx
        cases h2
        exact plain h m hm hp h1
    · have h1 : (m.run β p).res = _ := h1
      rw [h1]
      rfl
    · have h1 : (m.run β p).res = _ := h1
      rw [h1]
      rfl
    · obtain ⟨y, h2, h3, h4⟩ := h1
      rw [h2]
      exact ⟨_, rfl, congrArg Except.ok h3, h4⟩

end Weaves

/-! ## The claims -/

/-- The result of the program, without where it stopped. -/
def Woven.result (m : Woven w α) (f : Flat) : Except Fault α := match m f with
  | .ok (a, _) => .ok a
  | .error e => .error e

/-- **C105** What a program sees is a function of the bytes and of where they lie, for every buffer that hands out its pieces one after the other. -/
theorem c105_pieces {p : Parser β} {f : Flat} (prog : Prog α) (hs : prog.Stops) (h : SewnBuf F) (hp : Lies F cs p f) (h0 : f.off = 0) :
    (prog.run β p).res = (prog.weave (lie cs)).result f := by
  have hat : SewnAt F cs p f := by
    refine ⟨hp.rep, ⟨Nat.zero_le _, ?_⟩, ?_, hp.fin⟩
    · rw [hp.rep.off, h0, dropPieces_zero (h.nonempty _ _ hp.sewn)]
      exact hp.sewn
    · rw [h0, List.drop_zero, chunksData_flatMap]
      exact hp.bytes
  have h1 := Weaves.prog prog hs β F h cs (lie cs) (fun _ _ _ _ => rfl) p f hat
  unfold Woven.result
  rcases hx : prog.weave (lie cs) f with e | ⟨a, f'⟩ <;> rw [hx] at h1
  · exact h1
  · obtain ⟨y, h2, h3, -⟩ := h1
    rw [h2, ← h3]
    rfl

/-- **C105** In a ring buffer of any pieces. -/
theorem c105_ring (prog : Prog α) (hs : prog.Stops) (ps : List Slice) (h : ∀ s ∈ ps, s.data ≠ []) (hw : cfg.Wf) :
    (prog.run ChunkBuf (Parser.new ⟨ps⟩ cfg)).res = (prog.weave (lie (ChunkBuf.mk ps).chunks)).result ⟨⟨piecesData ps, .unknown, .eof⟩, 0, cfg⟩ :=
  c105_pieces prog hs SewnBuf.chunkBuf (Lies.chunkBuf ps h hw) rfl

/-! ## Addresses count modulo 8 -/

/-- The same stretches lie in one piece, at the same addresses modulo 8. -/
def NearBy (w w' : Nat → Nat → Option Nat) : Prop := ∀ i n, (w i n).map (· % 8) = (w' i n).map (· % 8)

theorem NearBy.cases (h : NearBy w w') (i n : Nat) : (w i n = none ∧ w' i n = none) ∨ ∃ a b, w i n = some a ∧ w' i n = some b ∧ a % 8 = b % 8 := by
  have h1 := h i n
  generalize w i n = x at h1
  generalize w' i n = y at h1
  rcases x with _ | a <;> rcases y with _ | b
  · exact .inl ⟨rfl, rfl⟩
  · cases h1
  · cases h1
  · exact .inr ⟨a, b, rfl, rfl, Option.some.inj h1⟩

namespace Woven

/-- Woven with the two operations that look where the bytes lie. -/
@[reducible] def made (sl : (T : Type) → Elem T → (Flat → Except Fault (T × Flat)) → Nat → Flat → Except Fault (List T × Flat))
    (sp : (T : Type) → List T → Nat → Flat → Except Fault ((List T × List T) × Flat)) : ParserM (Woven w) List where
  config := config
  fail e := fault (.err e)
  array := array
  bytes := array
  rest := rest
  restTrimNul := restTrimNul
  padded := padded
  slice := sl _
  elems := id
  cowSplitAt := sp _
  cowTruncate c n := c.take n
  cowOwned := id

/-- `CowSliceExt::split_at` over pieces. -/
def splitting (w : Nat → Nat → Option Nat) (T : Type) (c : List T) (n : Nat) (f : Flat) : Except Fault ((List T × List T) × Flat) :=
  match (asRead w f c).splitAt n with
  | some r => .ok ((r.1.data, r.2.data), f)
  | none => .error .panic

def slicing (w : Nat → Nat → Option Nat) (T : Type) (e : Elem T) (item : Flat → Except Fault (T × Flat)) (n : Nat) (f : Flat) :
    Except Fault (List T × Flat) := slice (w := w) e item n f

theorem repeated_near (item : Flat → Except Fault (T × Flat)) (n : Nat) : (repeated (w := w) item n : Flat → _) = repeated (w := w') item n := by
  induction n with
  | zero => rfl
  | succ n ih =>
    funext f
    show Woven.bind (w := w) item (fun x => Woven.bind (w := w) (repeated (w := w) item n) fun xs => Woven.pure (x :: xs)) f = _
    rw [ih]
    rfl

theorem slicing_near (h : NearBy w w') : slicing w = slicing w' := by
  funext T e item n f
  show slice (w := w) e item n f = slice (w := w') e item n f
  unfold slice
  have hr := repeated_near (w := w) (w' := w') item n
  rcases h.cases f.off (n * e.size) with ⟨h1, h2⟩ | ⟨a, b, h1, h2, h3⟩ <;> rw [h1, h2] <;> dsimp only
  · rw [hr]
  · rw [h3, hr]

theorem splitting_near (h : NearBy w w') : splitting w = splitting w' := by
  funext T c n f
  unfold splitting asRead
  rcases h.cases (f.off - c.length) c.length with ⟨h1, h2⟩ | ⟨a, b, h1, h2, h3⟩
  · rw [h1, h2]
  · rw [h1, h2]; rfl

theorem near (h : NearBy w w') : (inferInstance : ParserM (Woven w) List) = (inferInstance : ParserM (Woven w') List) := by
  show made (w := w) (slicing w) (splitting w) = made (w := w) (slicing w') (splitting w')
  rw [slicing_near h, splitting_near h]

theorem bind_near {γ : Type} {m : Woven w α} {m' : Woven w' α} {k : α → Woven w γ} {k' : α → Woven w' γ}
    (h1 : (m : Flat → _) = m') (h2 : ∀ x, (k x : Flat → _) = k' x) : ((m >>= k : Woven w γ) : Flat → _) = (m' >>= k' : Woven w' γ) := by
  funext f
  show Woven.bind m k f = Woven.bind m' k' f
  unfold Woven.bind
  rw [h1]
  rcases m' f with e | ⟨a, g⟩
  · rfl
  · exact congrFun (h2 a) g

/-- Whatever is written in terms of the primitives. -/
theorem term_near (h : NearBy w w') (t : {M : Type → Type} → [ParserM M List] → M α) : ((t : Woven w α) : Flat → _) = (t : Woven w' α) :=
  congrArg (fun (I : ParserM (Woven w) List) => @t (Woven w) I) (near h)

theorem opened_near (h : Header) {m : (k : Nat) → Metadata → Woven (from_ w k) α} {m' : (k : Nat) → Metadata → Woven (from_ w' k) α}
    (hm : ∀ k md, (m k md : Flat → _) = m' k md) : (opened h m : Flat → _) = opened h m' := by
  funext f
  unfold opened
  rcases Spec.metadataWithHeader h f with (e | _) | ⟨⟨r, md⟩, g⟩
  · rfl
  · rfl
  · dsimp only
    rw [hm]

theorem sliceDirect_near (h : NearBy w w') (e : Elem T) (n : Nat) : (sliceDirect (w := w) e n : Flat → _) = sliceDirect (w := w') e n := by
  funext f
  unfold sliceDirect
  rcases h.cases f.off (n * e.size) with ⟨h1, h2⟩ | ⟨a, b, h1, h2, h3⟩ <;> rw [h1, h2]
  dsimp only
  rw [h3]

theorem recordWithHeader_near (h : NearBy w w') (hd : Header) : (recordWithHeader (w := w) hd : Flat → _) = recordWithHeader (w := w') hd :=
  bind_near (opened_near hd fun k md => funext fun r => congrFun (term_near (fun i n => h (k + i) n) (parseBody md.ty)) _) fun x => by
    rcases x with ⟨md, e | r⟩ <;> rfl

end Woven

theorem Call.weave_near (h : NearBy w w') (c : Call T) : (c.weave w : Flat → _) = c.weave w' := by
  cases c with
  | array n => rfl
  | direct n => exact Woven.sliceDirect_near h _ n
  | entries n => exact Woven.term_near h (ParserM.slice NamespaceEntry.elem parseNamespaceEntry n)
  | branches n => exact Woven.term_near h (ParserM.slice BranchEntry.elem parseBranchEntry n)
  | header => exact Woven.term_near h parseHeader
  | attr => exact Woven.bind_near (Woven.term_near h parseU32) fun _ => Woven.bind_near (Woven.term_near h parseU32) fun _ => rfl
  | entry => exact Woven.term_near h parseNamespaceEntry
  | branch => exact Woven.term_near h parseBranchEntry
  | mmapDetail => exact Woven.term_near h parseMmapDetail
  | sampleId => exact Woven.term_near h parseSampleId
  | readValue => exact Woven.term_near h parseReadValue
  | readGroup => exact Woven.term_near h parseReadGroup
  | body ty => exact Woven.term_near h (parseBody ty)
  | visit => exact Woven.bind_near (Woven.term_near h parseHeader) fun hd => Woven.recordWithHeader_near h hd
  | visitWith hd => exact Woven.recordWithHeader_near h hd

theorem Prog.weave_near {α : Type} (prog : Prog α) : ∀ {w w' : Nat → Nat → Option Nat}, NearBy w w' → (prog.weave w : Flat → _) = prog.weave w' := by
  have settle : ∀ {α : Type} {w w' : Nat → Nat → Option Nat} (r : Except Fault α), (Woven.settle (w := w) r : Flat → _) = Woven.settle (w := w') r := by
    intro α w w' r
    rcases r with (e | _ | _) | a <;> rfl
  induction prog with
  | done a => exact fun _ => rfl
  | fail e => exact fun _ => rfl
  | config k ih => exact fun h => Woven.bind_near rfl fun x => ih x h
  | u8 k ih => exact fun h => Woven.bind_near (Woven.term_near h parseU8) fun x => ih x h
  | u16 k ih => exact fun h => Woven.bind_near (Woven.term_near h parseU16) fun x => ih x h
  | u32 k ih => exact fun h => Woven.bind_near (Woven.term_near h parseU32) fun x => ih x h
  | u64 k ih => exact fun h => Woven.bind_near (Woven.term_near h parseU64) fun x => ih x h
  | bytes n k ih => exact fun h => Woven.bind_near rfl fun x => ih x h
  | rest k ih => exact fun h => Woven.bind_near rfl fun x => ih x h
  | restTrimNul k ih => exact fun h => Woven.bind_near rfl fun x => ih x h
  | words n k ih => exact fun h => Woven.bind_near (Woven.term_near h (ParserM.slice U64.elem parseU64 n)) fun x => ih x h
  | repeated size item n k ihi ih =>
    intro w w' h
    refine Woven.bind_near ?_ fun x => ih x h
    induction n with
    | zero => rfl
    | succ n i => exact Woven.bind_near (ihi h) fun _ => Woven.bind_near i fun _ => rfl
  | metadata body k ihb ih =>
    exact fun h => Woven.bind_near (Woven.term_near h parseHeader) fun hd =>
      Woven.bind_near (Woven.opened_near hd fun i _ => ihb fun j n => h (i + j) n) fun x => Woven.bind_near (settle x.2) fun r => ih x.1 r h
  | metadataWith hd body k ihb ih =>
    exact fun h => Woven.bind_near (Woven.opened_near hd fun i _ => ihb fun j n => h (i + j) n) fun x => Woven.bind_near (settle x.2) fun r => ih x.1 r h
  | call c k ih => exact fun h => Woven.bind_near (Call.weave_near h c) fun x => ih x h
  | record k ih =>
    exact fun h => Woven.bind_near (Woven.bind_near (Woven.term_near h parseHeader) fun hd =>
      Woven.bind_near (Woven.recordWithHeader_near h hd) fun _ => rfl) fun x => ih x h
  | attempt m k ihm ih =>
    intro w w' h
    refine Woven.bind_near ?_ fun x => ih x h
    funext f
    unfold Woven.tried
    rw [ihm h]

/-- **C105** Moving the pieces of a ring buffer by multiples of 8 changes nothing for any such program. -/
theorem c105_moved (prog : Prog α) (hs : prog.Stops) {ps qs : List Slice} (hm : Moved 8 ps qs) (h : ∀ s ∈ ps, s.data ≠ []) (hw : cfg.Wf) :
    (prog.run ChunkBuf (Parser.new ⟨ps⟩ cfg)).res = (prog.run ChunkBuf (Parser.new ⟨qs⟩ cfg)).res := by
  have hq := hm.nonempty h
  have hb : piecesData ps = piecesData qs := by
    have h1 := hm.data
    rw [← (Lies.chunkBuf ps h hw).bytes, ← (Lies.chunkBuf qs hq hw).bytes] at h1
    exact h1
  have hn : NearBy (lie (ChunkBuf.mk ps).chunks) (lie (ChunkBuf.mk qs).chunks) := by
    intro i n
    have h1 := hm.lie i n
    generalize lie (ChunkBuf.mk ps).chunks i n = x at h1
    generalize lie (ChunkBuf.mk qs).chunks i n = y at h1
    rcases x with _ | a <;> rcases y with _ | b
    · rfl
    · exact h1.elim
    · exact h1.elim
    · exact congrArg some h1
  rw [c105_ring prog hs ps h hw, c105_ring prog hs qs hq hw, hb]
  unfold Woven.result
  rw [Prog.weave_near prog hn]

/-! ## A concrete case -/

/-- The header, then a list of as many words as the header's size says, then a byte. -/
def demoStops : Prog (List U64 × Byte) :=
  .call .header fun h => .words h.size.toNat fun l => .u8 fun b => .done (l, b)

theorem demoStops_stops : demoStops.Stops := fun _ _ _ => trivial

/-- A header with the size 1, a word, a byte 5 and eight bytes more. -/
def demoStopsBytes : List Byte := [1, 0, 0, 0, 0, 0, 1, 0, 7, 0, 0, 0, 0, 0, 0, 0, 5, 0, 0, 0, 0, 0, 0, 0, 6]

def demoStopsRun (n a b : Nat) : Option (List U64 × Byte) :=
  match (demoStops.run ChunkBuf (Parser.new ⟨[⟨a, demoStopsBytes.take n⟩, ⟨b, demoStopsBytes.drop n⟩]⟩ (.default (.native .little) .little))).res with
  | .ok x => some x
  | .error _ => none

/-- The same bytes: the word is the second one, but the third if the second lies in one piece at an address that does not allow it. -/
theorem c105_example :
    demoStopsRun 20 0 0 = some ([7], 5) ∧
    demoStopsRun 20 800 3 = some ([7], 5) ∧
    demoStopsRun 12 4 3 = some ([7], 5) ∧
    demoStopsRun 20 4 0 = some ([5], 6) ∧
    demoStopsRun 20 12 3 = some ([5], 6) := by decide +kernel

/-- A record is visited, another one opened and a word of its body read, then a word read; after an error it goes on. -/
def demoGoesOn : Prog (Bool × Option U64 × Bool) :=
  .attempt (.call .visit .done) fun a =>
    .attempt (.metadata (.u64 .done) fun _ r => .done r) fun b =>
      .attempt (.u64 .done) fun c =>
        .done (a.isOk, (match b with | .ok (.ok x) => some x | _ => none), c.isOk)

theorem demoGoesOn_stops : demoGoesOn.Stops :=
  ⟨.inl ⟨trivial, fun x => ⟨x, rfl⟩⟩, fun _ => trivial, fun _ =>
    ⟨.inl fun _ r => ⟨r, rfl⟩, ⟨fun _ => trivial, fun _ _ => trivial⟩, fun _ =>
      ⟨.inr (.inr fun _ => trivial), fun _ => trivial, fun _ => trivial⟩⟩⟩

/-- A `PERF_RECORD_LOST` that is cut short, with 4 bytes of body, a whole one with the id 7, and two bytes more. -/
def demoGoesOnBytes : List Byte :=
  [2, 0, 0, 0, 0, 0, 12, 0, 1, 1, 1, 1, 2, 0, 0, 0, 0, 0, 24, 0, 7, 0, 0, 0, 0, 0, 0, 0, 9, 0, 0, 0, 0, 0, 0, 0, 3, 3]

def demoGoesOnRun (n : Nat) : Option (Bool × Option U64 × Bool) :=
  match (demoGoesOn.run ChunkBuf (Parser.new ⟨[⟨0, demoGoesOnBytes.take n⟩, ⟨0, demoGoesOnBytes.drop n⟩]⟩ (.default (.native .little) .little))).res with
  | .ok x => some x
  | .error _ => none

/-- The first record fails, the second is read all the same, the word behind it is not there. -/
theorem c105_goes_on : demoGoesOnRun 3 = some (false, some 7, false) ∧ demoGoesOnRun 11 = some (false, some 7, false) ∧
    demoGoesOnRun 14 = some (false, some 7, false) ∧ demoGoesOnRun 25 = some (false, some 7, false) := by decide +kernel

/-- A list too long for any address space is asked for, then a list too long for the input, then a byte. -/
def demoRefused : Prog (Bool × Option Byte × Bool × Bool) :=
  .attempt (.words usizeLimit .done) fun a => .attempt (.u8 .done) fun b => .attempt (.call (.entries 3) .done) fun c => .attempt (.u8 .done) fun d =>
    .done (a.isOk, b.toOption, c.isOk, d.isOk)

theorem demoRefused_stops : demoRefused.Stops :=
  ⟨.inr (.inl fun x => ⟨x, rfl⟩), fun _ => trivial, fun _ => ⟨.inr (.inr fun _ => trivial), fun _ => trivial, fun _ =>
    ⟨.inr (.inl ⟨trivial, fun x => ⟨x, rfl⟩⟩), fun _ => trivial, fun _ => ⟨.inr (.inr fun _ => trivial), fun _ => trivial, fun _ => trivial⟩⟩⟩⟩

def demoRefusedRun (n : Nat) : Option (Bool × Option Byte × Bool × Bool) :=
  match (demoRefused.run ChunkBuf (Parser.new ⟨[⟨0, demoGoesOnBytes.take n⟩, ⟨0, demoGoesOnBytes.drop n⟩]⟩ (.default (.native .little) .little))).res with
  | .ok x => some x
  | .error _ => none

/-- The first list is refused before anything is read, the second uses up everything. -/
theorem c105_refused : demoRefusedRun 3 = some (false, some 2, false, false) ∧ demoRefusedRun 30 = some (false, some 2, false, false) := by
  decide +kernel

end Perf
