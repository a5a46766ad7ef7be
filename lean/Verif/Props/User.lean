import Verif.Proof.FlowProg
import Verif.Props.Prims
/-!
# C63: parsers written against the public interface
-/
namespace Perf
variable {β γ : Type} [ParseBuf β] [Lawful β] [ParseBuf γ] [Lawful γ] {α : Type} {p : Parser β} {q : Parser γ} {f g : Flat}

/-! ## Visitors -/

omit [ParseBuf β] [Lawful β] in
theorem P.recordImpl_run {δ : Type} [ParseBuf δ] {O : Type} (c : Parser δ) (v : Visitor Cow O) (md : Metadata) (p : Parser β)
    {q : Parser (Tracking δ)} {r : Except Fault (Record Cow)} {l : List Nat}
    (hb : (parseBody md.ty : P (Tracking δ) (Record Cow)) (Parser.new (β := Tracking δ) c.data (c.config.withMisc md.misc)) = ⟨r, q, l⟩) :
    (P.recordImpl c v md : P β O) p = ⟨r.bind fun a => v.apply a md, p, l⟩ := by
  unfold P.recordImpl
  rw [P.dispatch_eq]
  cases r with
  | error e => rw [P.bind_err (P.onChild_err (P.bind_err hb) p)]; rfl
  | ok r =>
    have hd : (parseBody md.ty >>= fun r => P.ofExcept (v.apply r md) : P (Tracking δ) O)
        (Parser.new (β := Tracking δ) c.data (c.config.withMisc md.misc)) = ⟨v.apply r md, q, l⟩ := by
      rw [P.bind_ok hb]
      show (⟨_, _, l ++ []⟩ : Out (Tracking δ) O) = _
      rw [List.append_nil]; rfl
    show _ = (⟨v.apply r md, p, l⟩ : Out β O)
    rcases hv : v.apply r md with e | o
    · rw [hv] at hd
      rw [P.bind_err (P.onChild_err hd p)]
    · rw [hv] at hd
      rw [P.bind_ok (P.onChild_ok hd p)]
      show (⟨_, _, l ++ []⟩ : Out β O) = _
      rw [List.append_nil]; rfl

omit [ParseBuf β] [Lawful β] in
/-- `v` is called once, at the end, with what `parseBody` returned. -/
theorem P.recordImpl_pair {δ : Type} [ParseBuf δ] {O : Type} (c : Parser δ) (v : Visitor Cow O) (md : Metadata) (p : Parser β) :
    (P.recordImpl c v md : P β O) p = ((P.recordImpl c pairVisitor md : P β (Record Cow × Metadata)) >>= fun r => P.ofExcept (v.apply r.1 r.2)) p := by
  have hp : ∀ r : Record Cow, ∃ r', pairVisitor.apply r md = .ok (r', md) ∧ v.apply r' md = v.apply r md := fun r => by
    cases r <;> exact ⟨_, rfl, rfl⟩
  rcases hb : (parseBody md.ty : P (Tracking δ) (Record Cow)) (Parser.new (β := Tracking δ) c.data (c.config.withMisc md.misc)) with ⟨r, q, l⟩
  have h2 := P.recordImpl_run c pairVisitor md p hb
  rw [P.recordImpl_run c v md p hb]
  cases r with
  | error e => rw [P.bind_err h2]; rfl
  | ok r =>
    obtain ⟨r', hr, hv⟩ := hp r
    have h2 : (P.recordImpl c pairVisitor md : P β (Record Cow × Metadata)) p = ⟨pairVisitor.apply r md, p, l⟩ := h2
    rw [hr] at h2
    rw [P.bind_ok h2]
    show (⟨v.apply r md, p, l⟩ : Out β O) = ⟨v.apply r' md, p, l ++ []⟩
    rw [hv, List.append_nil]

omit [ParseBuf β] [Lawful β] in
theorem P.bind_assoc_run {α α' O : Type} (m : P β α) (k : α → P β α') (k' : α' → P β O) (p : Parser β) :
    ((m >>= k) >>= k') p = (m >>= fun a => k a >>= k') p := by
  rcases hm : m p with ⟨r, q, l⟩
  cases r with
  | error e => rw [P.bind_err hm, P.bind_err (P.bind_err hm)]
  | ok a =>
    rw [P.bind_ok hm]
    rcases hk : k a q with ⟨r, q', l'⟩
    cases r with
    | error e => rw [P.bind_err hk, P.bind_err (show (m >>= k) p = _ from (P.bind_ok hm).trans (by rw [hk]))]
    | ok b =>
      rw [P.bind_ok hk, P.bind_ok (show (m >>= k) p = _ from (P.bind_ok hm).trans (by rw [hk]))]
      show (⟨_, _, _⟩ : Out β O) = ⟨_, _, _⟩
      dsimp only
      rw [List.append_assoc]

omit [Lawful β] in
/-- `parse_record` with any visitor is `parse_record` with the visitor that only collects, followed by one call of a method
of the visitor. So what a program does with visitors of its own, it can do with the calls `visit` and `visitWith`. -/
theorem c63_visitor {O : Type} (v : Visitor Cow O) :
    (P.record v : P β O) = (P.record pairVisitor >>= fun r => P.ofExcept (v.apply r.1 r.2)) := by
  have hh : ∀ h p, (P.recordWithHeader v h : P β O) p = (P.recordWithHeader pairVisitor h >>= fun r => P.ofExcept (v.apply r.1 r.2)) p := by
    intro h p
    unfold P.recordWithHeader
    rw [P.bind_assoc_run]
    rcases hm : (P.metadataWithHeader h : P β _) p with ⟨r, q, l⟩
    cases r with
    | error e => rw [P.bind_err hm, P.bind_err hm]
    | ok x =>
      obtain ⟨c, md⟩ := x
      rw [P.bind_ok hm, P.bind_ok hm]
      dsimp only
      rcases c.data.buf.asSlice with _ | d
      · dsimp only; rw [P.recordImpl_pair]
      · dsimp only; rw [P.recordImpl_pair]
  funext p
  unfold P.record
  rw [P.bind_assoc_run]
  rcases hm : (parseHeader : P β Header) p with ⟨r, q, l⟩
  cases r with
  | error e => rw [P.bind_err hm, P.bind_err hm]
  | ok h => rw [P.bind_ok hm, P.bind_ok hm, hh]

/-! ## No panics -/

/-- **C63**, first half: a program over the public methods returns, in whatever state earlier errors left the parser, and
leaves the parser in a state in which the next program returns. -/
theorem c63_no_panic [Roaming β] (prog : Prog α) (hp : Alive p) : Returns (prog.run β p).res ∧ Alive (prog.run β p).st :=
  Fine.prog prog β p hp

/-- The same for a slice with any content at any address. -/
theorem c63_slice (prog : Prog α) (addr : Nat) (data : List Byte) (cfg : ParseConfig) (hw : cfg.Wf) :
    Returns (prog.run Slice (Parser.new ⟨addr, data⟩ cfg)).res := (c63_no_panic prog ⟨_, RepP.slice addr data hw⟩).1

/-- The same for a `BufReader` over a reader that answers its `read` calls in any way. -/
theorem c63_reader (prog : Prog α) (es : List ReadEvent) (cfg : ParseConfig) (hw : cfg.Wf) :
    Returns (prog.run BufReader (Parser.new ⟨[], es⟩ cfg)).res := (c63_no_panic prog ⟨_, RepP.reader es hw⟩).1

/-- The same for data in borrowed nonempty pieces. -/
theorem c63_pieces (prog : Prog α) (ps : List Slice) (h : ∀ p ∈ ps, p.data ≠ []) (cfg : ParseConfig) (hw : cfg.Wf) :
    Returns (prog.run ChunkBuf (Parser.new ⟨ps⟩ cfg)).res := (c63_no_panic prog ⟨_, RepP.pieces ps h hw⟩).1

/-! ## The same bytes give the same answer -/

/-- **C63**, second half, for programs that stop at the first error: over any two buffers with the same contents the
program answers the same. A buffer that may revive after its end (`BufReader`) must not be read to its end, except
inside a record. Missing: runs that depend on the alignment of the data (`c63_words_false`), which `stuck` marks. -/
theorem c63_chunking_partial (prog : Prog α) (hp : RepP p f) (hq : RepP q g) (h : SameBytes f g)
    (hb : EofLaw β ∨ prog.NoRest) (hc : EofLaw γ ∨ prog.NoRest) (hf : prog.flat f ≠ .error .stuck) (hg : prog.flat g ≠ .error .stuck) :
    (prog.run β p).res = (prog.run γ q).res := by
  have h1 := Refines.prog prog β hb p f hp
  have h2 := Refines.prog prog γ hc q g hq
  rcases Ind.prog prog f g h hp.wf hf hg with ⟨e, a, b⟩ | ⟨x, f', g', a, b, _, _⟩
  · rw [a] at h1; rw [b] at h2
    exact Eq.trans h1 (Eq.symm h2)
  · rw [a] at h1; rw [b] at h2
    obtain ⟨_, h1, rfl, _⟩ := h1
    obtain ⟨_, h2, rfl, _⟩ := h2
    rw [h1, h2]

/-- Without `parse_slice` and the records with lists of words nothing depends on alignment. -/
theorem c63_plain (prog : Prog α) (hpl : prog.Plain) (hp : RepP p f) (hq : RepP q g) (h : SameBytes f g)
    (hb : EofLaw β ∨ prog.NoRest) (hc : EofLaw γ ∨ prog.NoRest) : (prog.run β p).res = (prog.run γ q).res :=
  c63_chunking_partial prog hp hq h hb hc (NoStuck.prog prog hpl f) (NoStuck.prog prog hpl g)

/-- **C63**, second half, for programs that go on after errors, over buffers that keep reporting their end. -/
theorem c63_recover_partial (prog : Prog α) (hb : EofLaw β) (hc : EofLaw γ) (hp : RepP p f) (hq : RepP q g) (h : SameBytes f g)
    (hk : f.s.fin.kind = .eof) (hf : prog.flow f ≠ none) (hg : prog.flow g ≠ none) : (prog.run β p).res = (prog.run γ q).res := by
  have h1 := Flows.prog prog β hb p f hp hk
  have h2 := Flows.prog prog γ hc q g hq (by rw [← h.fin]; exact hk)
  obtain ⟨r, f', g', a, b, _, _⟩ := IndF.prog prog f g h hp.wf hf hg
  rw [a] at h1; rw [b] at h2
  cases r with
  | error e => exact h1.1.trans h2.1.symm
  | ok x =>
    obtain ⟨⟨_, h1, rfl⟩, _⟩ := h1
    obtain ⟨⟨_, h2, rfl⟩, _⟩ := h2
    rw [h1, h2]

/-- Without `parse_slice` and the records with lists of words: no condition on the run. -/
theorem c63_recover (prog : Prog α) (hbare : prog.Bare) (hb : EofLaw β) (hc : EofLaw γ) (hp : RepP p f) (hq : RepP q g)
    (h : SameBytes f g) (hk : f.s.fin.kind = .eof) : (prog.run β p).res = (prog.run γ q).res :=
  c63_recover_partial prog hb hc hp hq h hk (Total.prog prog hbare f) (Total.prog prog hbare g)

/-- In the open: a slice at any address, against the same bytes cut into nonempty pieces at any addresses. -/
theorem c63_slice_pieces (prog : Prog α) (hbare : prog.Bare) (addr : Nat) (ps : List Slice) (h : ∀ p ∈ ps, p.data ≠ [])
    (cfg : ParseConfig) (hw : cfg.Wf) :
    (prog.run Slice (Parser.new ⟨addr, piecesData ps⟩ cfg)).res = (prog.run ChunkBuf (Parser.new ⟨ps⟩ cfg)).res :=
  c63_recover prog hbare LawfulEof.eof_law LawfulEof.eof_law (RepP.slice addr _ hw) (RepP.pieces ps h hw) ⟨rfl, rfl, rfl⟩ rfl

/-- And against a reader that delivers the bytes in any portions, for programs that stop at the first error and do not
read to the end of the input. -/
theorem c63_slice_reader (prog : Prog α) (hpl : prog.Plain) (hn : prog.NoRest) (addr : Nat) (es : List ReadEvent) (cfg : ParseConfig)
    (hw : cfg.Wf) (hfin : scriptFin es = .eof) :
    (prog.run Slice (Parser.new ⟨addr, scriptBytes es⟩ cfg)).res = (prog.run BufReader (Parser.new ⟨[], es⟩ cfg)).res :=
  c63_plain prog hpl (RepP.slice addr _ hw) (RepP.reader es hw) ⟨rfl, hfin.symm, rfl⟩ (.inr hn) (.inr hn)

/-- After an integer was refused at the end of the input, the input is consumed. -/
theorem c63_after_end (hb : EofLaw β) (hp : RepP p f) (hk : f.s.fin.kind = .eof) (hl : f.s.bytes.length < 8) :
    ((parseU64 : P β U64) p).res = .error (.err f.s.fin) ∧ RepP ((parseU64 : P β U64) p).st (f.adv f.s.bytes.length) := by
  have h1 := Refines.u64 p f hp
  rw [ItemOk.u64.short f hl] at h1
  have h1 : ((parseU64 : P β U64) p).res = .error (.err f.s.fin) := h1
  have h2 := Exhausts.u64 hb p f hp hk
  unfold Exhausted at h2
  rw [h1] at h2
  exact ⟨h1, h2⟩

/-! ## Where it fails: misaligned words (B2) -/

/-- One word by `parse_slice`, then a byte. -/
def wordThenByte : Prog (List U64 × U8) := .words 1 fun w => .u8 fun b => .done (w, b)

/-- The same seventeen bytes at address 0 and at address 1. -/
theorem c63_words_false :
    ((match (wordThenByte.run Slice (Parser.new ⟨0, [1, 0, 0, 0, 0, 0, 0, 0, 2, 0, 0, 0, 0, 0, 0, 0, 3]⟩ demoCfg)).res with
      | .ok (w, b) => w == [1#64] && b == 2#8
      | _ => false) &&
    (match (wordThenByte.run Slice (Parser.new ⟨1, [1, 0, 0, 0, 0, 0, 0, 0, 2, 0, 0, 0, 0, 0, 0, 0, 3]⟩ demoCfg)).res with
      | .ok (w, b) => w == [2#64] && b == 3#8
      | _ => false)) = true := by decide +kernel

/-! ## A program -/

/-- A user's record type: a name with a length in front, and a flag that is missing in old files. -/
def named : Prog (List Byte × Option U8) :=
  .u16 fun n => .bytes n.toNat fun name => .attempt (.u8 .done) fun
    | .ok b => .done (name, some b)
    | .error _ => .done (name, none)

example : named.Bare := fun _ _ => ⟨fun _ => trivial, fun x => by cases x <;> exact trivial⟩
example : (match (named.run Slice (Parser.new ⟨3, [2, 0, 65, 66, 9]⟩ demoCfg)).res,
      (named.run ChunkBuf (Parser.new ⟨[⟨8, [2]⟩, ⟨1, [0, 65]⟩, ⟨0, [66]⟩]⟩ demoCfg)).res with
    | .ok (n, b), .ok (m, c) => n == [65, 66] && b == some 9#8 && m == [65, 66] && c == none
    | _, _ => false) = true := by decide +kernel

/-- Skip records whose body does not start with eight bytes. -/
def firstWord : Prog (Option U64) :=
  .metadata (.u64 .done) fun _ r => match r with
    | .ok w => .done (some w)
    | .error _ => .metadata (.u64 .done) fun _ r => match r with
      | .ok w => .done (some w)
      | .error _ => .done none

/-- A record of type 1 with a body of four bytes, then one with a body of eight. -/
example : (match (firstWord.run Slice (Parser.new ⟨0, [1, 0, 0, 0, 0, 0, 12, 0, 5, 5, 5, 5, 1, 0, 0, 0, 0, 0, 16, 0, 7, 0, 0, 0, 0, 0, 0, 0]⟩ demoCfg)).res with
    | .ok w => w == some 7#64
    | _ => false) = true := by decide +kernel
example : firstWord.Plain := by
  refine ⟨fun _ => trivial, fun _ x => ?_⟩
  cases x with
  | ok => exact trivial
  | error => exact ⟨fun _ => trivial, fun _ x => by cases x <;> exact trivial⟩
example : firstWord.NoRest := by
  intro _ x
  cases x with
  | ok => exact trivial
  | error => exact fun _ x => by cases x <;> exact trivial

/-- Read the header by hand, then an entry from the body, whatever the record is; then the next record through a visitor. -/
def skim : Prog (U32 × Option NamespaceEntry × Bool) :=
  .call .header fun h => .metadataWith h (.call .entry .done) fun md r =>
    .attempt (.call .header fun h => if h.type_.toNat = 3 then .call (.visitWith h) .done else .fail .eof) fun v =>
      .done (md.ty, (match r with | .ok e => some e | .error _ => none), match v with | .ok (.comm c, _) => c.comm == [65] | _ => false)

/-- A record of type 1 with sixteen bytes, then a COMM record; the same cut into pieces at odd addresses. -/
def skimData : List Byte := [1, 0, 0, 0, 0, 0, 24, 0, 7, 0, 0, 0, 0, 0, 0, 0, 8, 0, 0, 0, 0, 0, 0, 0,
  3, 0, 0, 0, 0, 0, 24, 0, 9, 0, 0, 0, 9, 0, 0, 0, 65, 0, 0, 0, 0, 0, 0, 0]

example : (match (skim.run Slice (Parser.new ⟨3, skimData⟩ demoCfg)).res,
      (skim.run ChunkBuf (Parser.new ⟨[⟨1, skimData.take 5⟩, ⟨3, (skimData.drop 5).take 30⟩, ⟨0, skimData.drop 35⟩]⟩ demoCfg)).res with
    | .ok (t, e, b), .ok (t', e', b') => t == 1#32 && e == some ⟨7#64, 8#64⟩ && b && t' == t && e' == e && b' == b
    | _, _ => false) = true := by decide +kernel
/-- The body is four bytes long: the entry is refused, the program goes on behind the record. -/
example : (match (skim.run Slice (Parser.new ⟨3, [1, 0, 0, 0, 0, 0, 12, 0, 5, 5, 5, 5] ++ skimData.drop 24⟩ demoCfg)).res with
    | .ok (t, e, b) => t == 1#32 && e == none && b
    | _ => false) = true := by decide +kernel

/-- None of its calls depends on the alignment of the data. -/
example : skim.Bare := by
  refine ⟨trivial, fun h => ⟨⟨trivial, fun _ => trivial⟩, fun md r => ⟨⟨trivial, fun h => ?_⟩, fun _ => trivial⟩⟩⟩
  dsimp only
  split
  · next e => exact ⟨by show h.type_.toNat ∉ _; rw [e]; decide, fun _ => trivial⟩
  · trivial

end Perf
