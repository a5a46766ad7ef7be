import Verif.Proof.SureProg
import Verif.Props.Moored

/-! C92: programs against the corrected crate.

For the crate as it is, C63 has to except lists of words in memory at odd addresses (B2) and TEXT_POKE records (B7), and what is seen
in memory (C91) differs from what is seen through a reader (C90). With the corrections (Model/Mended.lean, MendedAttr.lean, MendedUser.lean)
there is one answer (Spec/Sure.lean), in which neither address nor chunk occurs.
-/
namespace Perf
variable {α : Type} {cfg : ParseConfig} {β γ : Type} [ParseBuf β] [LawfulEof β] [ParseBuf γ] [LawfulEof γ]

/-- **C92** Over every buffer that keeps reporting its end, at any point: what the program returns, its errors included, is what the bytes
say. -/
theorem c92_program (prog : Prog α) (hd : prog.NoDirect) {p : Parser β} {f : Flat} (hp : RepP p f) (hk : f.s.fin.kind = .eof) :
    (prog.mended β p).res = (prog.sure f.input).1.mapError .err := by
  have h := Sures.prog prog hd β p f.input f.s.al hp hk
  rcases hs : prog.sure f.input with ⟨e | a, i⟩ <;> rw [hs] at h
  · exact h.1
  · obtain ⟨⟨_, h1, rfl⟩, _⟩ := h
    exact h1

/-- **C92** And the parser is left where they say, after an error too. -/
theorem c92_position (prog : Prog α) (hd : prog.NoDirect) {p : Parser β} {f : Flat} (hp : RepP p f) (hk : f.s.fin.kind = .eof) :
    ∃ al, RepP (prog.mended β p).st ((prog.sure f.input).2.flat al) := by
  have h := Sures.prog prog hd β p f.input f.s.al hp hk
  rcases hs : prog.sure f.input with ⟨e | a, i⟩ <;> rw [hs] at h
  · exact h.2.1
  · exact h.2.1

/-- **C92** It returns a value or an error of the crate, never a panic. -/
theorem c92_returns (prog : Prog α) (hd : prog.NoDirect) {p : Parser β} {f : Flat} (hp : RepP p f) (hk : f.s.fin.kind = .eof) :
    Returns (prog.mended β p).res := by
  rw [c92_program prog hd hp hk]
  rcases (prog.sure f.input).1 with e | a
  · exact .inr ⟨e, rfl⟩
  · exact .inl ⟨a, rfl⟩

/-- **C92** C63 without its exceptions: over any two buffers that keep reporting their end, every program answers alike on the same bytes. -/
theorem c92_same (prog : Prog α) (hd : prog.NoDirect) {p : Parser β} {q : Parser γ} {f g : Flat} (hp : RepP p f) (hq : RepP q g)
    (h : SameBytes f g) (ho : f.off = g.off) (hk : f.s.fin.kind = .eof) : (prog.mended β p).res = (prog.mended γ q).res := by
  rw [c92_program prog hd hp hk, c92_program prog hd hq (by rw [← h.fin]; exact hk)]
  obtain ⟨⟨fb, fa, ff⟩, fo, fc⟩ := f
  obtain ⟨⟨gb, ga, gf⟩, go, gc⟩ := g
  obtain ⟨h1, h2, h3⟩ := h
  cases h1; cases h2; cases h3; cases ho
  rfl

/-- **C92** In the open: in memory at any address, in nonempty pieces at any addresses, and through a reader in any portions. -/
theorem c92_inputs (prog : Prog α) (hd : prog.NoDirect) (addr : Nat) (ps : List Slice) (hps : ∀ p ∈ ps, p.data ≠ []) {es : List ReadEvent}
    (he : Settles es) (hk : (scriptFin es).kind = .eof) {data : List Byte} (h1 : piecesData ps = data) (h2 : scriptBytes es = data)
    (hw : cfg.Wf) :
    let r := ((prog.sure ⟨data, .eof, 0, cfg⟩).1).mapError Fault.err
    (prog.mended Slice (Parser.new ⟨addr, data⟩ cfg)).res = r ∧
    (prog.mended ChunkBuf (Parser.new ⟨ps⟩ cfg)).res = r ∧
    (prog.mended BufReader (Parser.new ⟨[], es⟩ cfg)).res = r := by
  subst h1
  refine ⟨c92_program prog hd (RepP.slice addr _ hw) rfl, c92_program prog hd (RepP.pieces ps hps hw) rfl, ?_⟩
  have h3 := @c92_program α BufReader _ BufReader.settled prog hd _ _ (RepP.settled he hw) (by rw [settled_eof he hk]; rfl)
  rw [h3]
  show ((prog.sure ⟨scriptBytes es, scriptFin es, 0, cfg⟩).1).mapError Fault.err = _
  rw [h2, settled_eof he hk]

/-! ## Cases -/

theorem wordThenByte_noDirect : wordThenByte.NoDirect := fun _ _ => trivial

/-- The program on which C63 fails for the crate as it is (`c63_words_false`): the first word and the byte behind it, at every address, in
pieces, and through a reader. -/
theorem c92_words :
    let bs : List Byte := [1, 0, 0, 0, 0, 0, 0, 0, 2, 0, 0, 0, 0, 0, 0, 0, 3]
    let good : Except Fault (List U64 × U8) → Bool := fun
      | .ok (w, b) => w == [1#64] && b == 2#8
      | _ => false
    ([0, 1, 2, 3, 4, 5, 6, 7, 8].all fun a => good (wordThenByte.mended Slice (Parser.new ⟨a, bs⟩ demoCfg)).res) = true ∧
    good (wordThenByte.mended ChunkBuf (Parser.new ⟨[⟨1, bs.take 3⟩, ⟨8, bs.drop 3⟩]⟩ demoCfg)).res = true ∧
    good (wordThenByte.mended BufReader (Parser.new ⟨[], [.data (bs.take 5), .data (bs.drop 5)]⟩ demoCfg)).res = true ∧
    good ((wordThenByte.sure ⟨bs, .eof, 0, demoCfg⟩).1.mapError .err) = true := by decide +kernel

/-- The TEXT_POKE record of `c63_foreign_false`: the four new bytes, from memory and through a reader. -/
theorem c92_poke :
    let prog : Prog (List Byte) := .record fun r => .done (match r with | .textPoke t => t.newBytes | _ => [])
    let bs : List Byte := [0, 0, 0, 20, 0, 0, 0, 24, 0, 0, 0, 0, 0, 0, 0, 1, 0, 0, 0, 4, 0xa, 0xb, 0xc, 0xd]
    (match (prog.mended Slice (Parser.new ⟨8, bs⟩ demoAttrCfg)).res, (prog.mended BufReader (Parser.new ⟨[], [.data bs]⟩ demoAttrCfg)).res with
      | .ok a, .ok b => a == [0xa, 0xb, 0xc, 0xd] && b == a
      | _, _ => false) = true := by decide +kernel

/-- Words, a record, the rest, going on after errors: at an odd address too (compare `c91_stumble`); and with too few bytes. -/
theorem c92_stumble :
    (match (stumble.mended Slice (Parser.new ⟨17, List.replicate 64 1 ++ demoLost ++ [7, 8]⟩ demoCfg)).res,
        (stumble.sure ⟨List.replicate 64 1 ++ demoLost ++ [7, 8], .eof, 0, demoCfg⟩).1 with
      | .ok (a, r, b), .ok (a', r', b') => a && r && b == [0xaa, 0xbb, 0xcc, 7, 8] && a' && r' && b' == b
      | _, _ => false) = true ∧
    (match (stumble.mended Slice (Parser.new ⟨17, List.replicate 63 1⟩ demoCfg)).res, (stumble.sure ⟨List.replicate 63 1, .eof, 0, demoCfg⟩).1 with
      | .ok (a, r, b), .ok (a', r', b') => !a && !r && b == [] && !a' && !r' && b' == b
      | _, _ => false) = true := by decide +kernel

/-- A program that opens an MMAP2 record by hand and looks at the configuration in its body. -/
def peekMisc : Prog (U16 × Bool) :=
  .metadata (.config fun c => .done c.misc) fun _ r => .attempt (.u8 .done) fun x =>
    .done (match r with | .ok m => m | .error _ => 0, match x with | .ok _ => true | .error _ => false)

theorem peekMisc_noDirect : peekMisc.NoDirect := ⟨fun _ => trivial, fun _ _ => ⟨fun _ => trivial, fun _ => trivial⟩⟩

/-- The body knows the `misc` bits of its record (B15), and the program goes on behind it. -/
theorem c92_misc :
    let bs : List Byte := [10, 0, 0, 0, 0, 0x40, 16, 0, 1, 2, 3, 4, 5, 6, 7, 8, 9]
    (match (peekMisc.mended Slice (Parser.new ⟨0, bs⟩ demoCfg)).res, (peekMisc.sure ⟨bs, .eof, 0, demoCfg⟩).1,
        (peekMisc.run Slice (Parser.new ⟨0, bs⟩ demoCfg)).res with
      | .ok (m, x), .ok (m', x'), .ok (m'', _) => m == 0x4000#16 && x && m' == m && x' && m'' != m
      | _, _, _ => false) = true := by decide +kernel

/-- `parse_slice_direct` has to be excepted: it is there to tell whether the data can be borrowed. -/
theorem c92_direct :
    let prog : Prog (Option (List U64)) := .call (.direct 1) .done
    ¬ prog.NoDirect ∧
    (match (prog.mended Slice (Parser.new ⟨0, List.replicate 8 1⟩ demoCfg)).res, (prog.mended Slice (Parser.new ⟨1, List.replicate 8 1⟩ demoCfg)).res with
      | .ok a, .ok b => a.isSome && b.isNone
      | _, _ => false) = true := ⟨fun h => h.1, by decide +kernel⟩

end Perf
